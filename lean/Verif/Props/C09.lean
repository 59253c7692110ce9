import Verif.Lemmas.RxSafe
import Verif.Props.C36

/-!
# C09: packets with a bad check value have no effect
-/

namespace Osdp.Phy

open Spec.Wire

/-- any well formed packet, intact or not, arrives whole -/
theorem checkPacket_frame (p : Pd) (m : Bool) (f : List Byte) (e : Env) (hi : Idle p) (hw : WfFrame m f)
    (hd : Towards p f) (ha : Arrives e (marked m f)) :
    ∃ t, checkPacket p e = mapReload { heldLoaded p m f [] with ts := t } (bodyFrame p f) := by
  obtain ⟨⟨a, lo, hi', ctl, tail, rfl, htl, hlen⟩, hfit⟩ := hw
  have hml : (marked m (SOM :: a :: lo :: hi' :: ctl :: tail)).length ≤ 256 := by
    unfold marked
    cases m <;> simp at hfit ⊢ <;> omega
  obtain ⟨t, ht⟩ := checkPacket_eq p e hi.rx ha.1 (by rw [ha.2]; omega)
  refine ⟨t, ?_⟩
  rw [ht, ha.2]
  rw [assemble_bodyFrame (setRx p (marked m (SOM :: a :: lo :: hi' :: ctl :: tail))) m a lo hi' ctl tail [] hi.bufLen hi.len hi.buf
    (by simp [marked]) hlen htl hfit (hd a rfl)]
  have e1 : loaded (setRx p (marked m (SOM :: a :: lo :: hi' :: ctl :: tail))) m (SOM :: a :: lo :: hi' :: ctl :: tail) [] =
    reload p (heldLoaded p m (SOM :: a :: lo :: hi' :: ctl :: tail) []) := rfl
  rw [e1, bodyFrame_reload]
  cases bodyFrame p (SOM :: a :: lo :: hi' :: ctl :: tail) with
  | error e => rfl
  | ok v => rfl

/-- a packet that is not intact is reported as malformed -/
theorem bodyFrame_bad (p : Pd) (m : Bool) (f : List Byte) (hw : WfFrame m f) (hb : ¬ Intact f) :
    bodyFrame p f = .ok (p, .fmt) := by
  obtain ⟨⟨a, lo, hi, ctl, tail, rfl, htl, hlen⟩, hfit⟩ := hw
  have h6 : 6 ≤ (SOM :: a :: lo :: hi :: ctl :: tail).length := by
    have := List.length_pos_iff.mpr htl
    simp; omega
  obtain ⟨n, b, hv, -⟩ := checkValue_total (Nat.le_refl _) h6
  cases b with
  | true => exact absurd ⟨rfl, ⟨lo, hi, rfl, rfl, hlen.symm⟩, h6, checkValue_true h6 hv⟩ hb
  | false =>
    unfold bodyFrame
    rw [hv]
    rfl

end Osdp.Phy

namespace Osdp.PdM

open Spec.Wire
open Phy (Idle Arrives WfFrame marked Towards Framed)

/-- the call has an effect outside the PD: a command for the application, file data, or a packet sent -/
def Visible (outs : List Out) : Prop := outs ≠ []

/-- **C09 (PD), one packet.**  A packet arrives that has the form of a command (start byte, direction, length)
but whose CRC or checksum does not match.  The refresh has no effect outside the PD, and the events to be
reported, the key, the address and a file transfer in progress are as before. -/
theorem C09_pd_bad_packet_ignored (C : Cipher) (p : Pd) (m : Bool) (f : List Byte) (env : Env)
    (hp : p.flags.pdMode = true) (hi : Idle p) (hw : WfFrame m f) (hbad : ¬ Intact f)
    (hdir : ∀ a, f[1]? = some a → a.toNat < 128) (ha : Arrives env (marked m f)) :
    ∃ q, refresh C p env = .ok (q, []) ∧ q.eventQueue = p.eventQueue ∧ q.sc.scbk = p.sc.scbk ∧
      q.address = p.address ∧ q.baudRate = p.baudRate ∧ q.file = p.file ∧ q.seq = p.seq := by
  obtain ⟨hk, hadr⟩ := expire_kept p env.now
  have hid : Idle (expire p env.now) := ⟨hk.bufLen.trans hi.bufLen, hk.len.trans hi.len, by rw [hk.buf]; exact hi.buf, hk.rx.trans hi.rx⟩
  have hto : Towards (expire p env.now) f := by
    intro a h1
    have hlt := hdir a h1
    have hcp : (expire p env.now).isCp = false := by unfold Pd.isCp; rw [hk.pdMode, hp]; rfl
    unfold Phy.dirOk
    rw [hcp]
    have : ∀ a : Byte, a.toNat < 128 → Phy.hasBit a 0x80#8 = false := by decide +kernel
    rw [this a hlt]; rfl
  obtain ⟨t, ht⟩ := Phy.checkPacket_frame (expire p env.now) m f env hid hw hto ha
  rw [Phy.bodyFrame_bad _ m f hw hbad] at ht
  refine ⟨errorReset (Phy.reload (expire p env.now) { Phy.heldLoaded (expire p env.now) m f [] with ts := t }), ?_, ?_⟩
  · unfold refresh receiveAndProcess
    rw [ht]
    rfl
  · unfold expire; split <;> exact ⟨rfl, rfl, rfl, rfl, rfl, rfl⟩

/-- **C09 (PD), any history.**  Whatever a PD received before and receives now: if the refresh has an effect
outside the PD, then a packet with a matching check value and addressed to this PD was received. -/
theorem C09_pd_acts_only_on_intact (C : Cipher) (info : Info) (skipMark : Bool) (n : Nat) (p q s : Pd) (ops : List Op)
    (outs outs' : List Out) (env : Env) (hs : setup info skipMark n = some p) (h : run C p ops = .ok (q, outs))
    (h' : refresh C q env = .ok (s, outs')) (hv : Visible outs') :
    ∃ f, Intact f ∧ CommandFor q.address f ∧ f.Sublist (Phy.pend q ++ env.recv.flatten) := by
  have hf := run_framed (setup_pdMode hs) (setup_framed hs).1 h
  have hp : q.flags.pdMode = true := by
    have := run_inv (C := C) (ops := ops) (fun p => p.flags.pdMode = true) (fun _ => True)
      (fun p op q outs _ hp h => ⟨step_pdMode hp h, fun _ _ => trivial⟩) (setup_pdMode hs) h
    exact this.1
  obtain ⟨p1, o1, ret, o2, hg, hp1, hfin, rfl⟩ := refresh_inv hp h'
  obtain ⟨hk, hadr⟩ := expire_kept q env.now
  have hpe : Phy.pend (expire q env.now) = Phy.pend q := by unfold Phy.pend Phy.got; rw [hk.buf, hk.bufLen, hk.rx]
  have quiet : ret ≠ .none → ret ≠ .reply → o2 = [] := by
    intro n1 n2
    cases hfin with
    | keep _ => rfl
    | reset _ => rfl
    | reply h _ _ => rcases h with h | h <;> contradiction
  have key : ∀ {p2 : Pd} {r : Phy.PktRet}, Phy.checkPacket (expire q env.now) env = .ok (p2, r) → r = .none ∨ r = .nack →
      ∃ f, Intact f ∧ CommandFor q.address f ∧ f.Sublist (Phy.pend q ++ env.recv.flatten) := by
    intro p2 r hc hr
    have hst := Phy.checkPacket_stored (hk.framed hf) hc
    obtain ⟨w1, w2, w3, w4⟩ := hst.whole hr
    refine ⟨Phy.heldFrame p2, w3, by rw [← hadr]; exact w4 (hk.pdMode.trans hp), ?_⟩
    rw [← hpe]
    exact (List.sublist_append_left _ _).trans ((heldFrame_pend w2).trans hst.pend)
  cases hg with
  | nothing _ _ hr =>
    refine absurd ?_ hv
    rw [List.nil_append]
    exact quiet (by rcases hr with ⟨-, h⟩ | ⟨-, h⟩ | ⟨-, h⟩ | ⟨-, h⟩ <;> rw [h] <;> simp)
      (by rcases hr with ⟨-, h⟩ | ⟨-, h⟩ | ⟨-, h⟩ | ⟨-, h⟩ <;> rw [h] <;> simp)
  | skip _ _ => exact absurd (quiet (by simp) (by simp)) hv
  | seq hc _ => exact key hc (.inr rfl)
  | refused hc _ _ _ _ => exact key hc (.inl rfl)
  | insecure hc _ _ _ _ _ _ => exact key hc (.inl rfl)
  | command hc _ _ _ _ _ _ _ _ _ _ => exact key hc (.inl rfl)

/-- Non-vacuity: a POLL whose last byte was changed. -/
example : Phy.WfFrame true [0x53#8, 101#8, 8#8, 0#8, 4#8, 0x60#8, 0x60#8, 0x91#8] ∧
    ¬ Intact [0x53#8, 101#8, 8#8, 0#8, 4#8, 0x60#8, 0x60#8, 0x91#8] ∧
    Intact [0x53#8, 101#8, 8#8, 0#8, 4#8, 0x60#8, 0x60#8, 0x90#8] := by
  refine ⟨⟨⟨_, _, _, _, _, rfl, by decide, by decide⟩, by decide⟩, ?_, ?_⟩
  · rintro ⟨-, -, -, c, hc, h⟩
    injection hc with hc; subst hc
    rw [if_pos (by decide)] at h
    obtain ⟨body, hb⟩ := h
    have hl := congrArg List.length hb
    simp [Spec.Crc.frame] at hl
    have hbody := congrArg (List.take 6) hb
    unfold Spec.Crc.frame at hbody
    rw [List.take_append_of_le_length (by omega), List.take_of_length_le (l := body) (by omega)] at hbody
    rw [← hbody] at hb
    exact absurd hb (by decide +kernel)
  · refine ⟨rfl, ⟨_, _, rfl, rfl, by decide⟩, by decide, _, rfl, ?_⟩
    rw [if_pos (by decide)]
    exact ⟨[0x53#8, 101#8, 8#8, 0#8, 4#8, 0x60#8], by decide +kernel⟩

/-- A side effect that the statement does not exclude: a damaged packet, even one for another device, ends the
secure channel of a PD. -/
theorem C09_bad_packet_ends_session :
    ((refresh Aes.aes { Sample.pd with flags := { Sample.pd.flags with scActive := true } }
      (Sample.env [0xFF#8, 0x53#8, 7#8, 8#8, 0#8, 4#8, 0x60#8, 0#8, 0#8])).toOption.map fun r => (r.1.scActive, r.2.length)) =
      some (false, 0) := by decide +kernel

end Osdp.PdM
