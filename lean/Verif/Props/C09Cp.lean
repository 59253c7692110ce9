import Verif.Props.C09
import Verif.Props.C18
import Verif.Props.C28
import Verif.Lemmas.SampleCp

/-!
# C09, CP side: replies with a bad check value have no effect
-/

namespace Osdp.CpM

open Spec.Wire
open Phy (heldFrame pend)

/-- the packet carries the address of this PD (or the broadcast address) -/
def FromDevice (address : Int) (f : List Byte) : Prop :=
  ∃ a, f[1]? = some a ∧ (((a &&& 0x7F#8).toNat : Int) = address ∨ (a &&& 0x7F#8).toNat = 0x7F)

/-- The bytes received up to now contain no packet of this PD with a matching check value: every packet among them is damaged, or
is not from this PD. -/
def NoIntactReply (address : Int) (bytes : List Byte) : Prop := ∀ f, Intact f → FromDevice address f → ¬ f.Sublist bytes

/-- **C09 (CP), what is taken in.**  In every state the CP can get into, a reply that it takes in is an intact packet from this PD
among the bytes received. -/
theorem C09_cp_reply_intact (C : Cipher) (info : PdM.Info) (p : Pd) (env : Env) (id : Byte) (body : List Byte)
    (hr : Reached C info p) (h : replyOf C p env = some (id, body)) : ¬ NoIntactReply p.address (pend p ++ env.recv.flatten) := by
  have hps : p.phyState = .replyWait := by
    refine Classical.byContradiction fun hn => ?_
    unfold replyOf at h
    rw [if_neg hn] at h; cases h
  unfold replyOf at h
  rw [if_pos hps] at h
  unfold Phy.heard at h
  split at h
  case h_2 => cases h
  rename_i p1 h1
  have hf := hr.buffered.framed hps
  have hst := Phy.checkPacket_stored hf h1
  obtain ⟨-, w2, w3, -⟩ := hst.whole (.inl rfl)
  obtain ⟨p0, hcol, hb⟩ := Phy.checkPacket_body hf h1 (.inl rfl)
  obtain ⟨m, a, -, ha, hadr⟩ := Phy.bodyFrame_accept hb (.inl rfl)
  rw [hcol.transp.address] at hadr
  exact fun hn => hn (heldFrame p1) w3 ⟨a, ha, hadr⟩
    (((List.sublist_append_left _ _).trans (PdM.heldFrame_pend w2)).trans hst.pend)

/-- The visit has no effect beyond the CP's own bookkeeping of the exchange.  It teaches the CP nothing about the PD and leaves the
key for it alone.  No event of the PD reaches the application callback, other than one that was taken from an earlier reply and held
back until the PD came online, see `C57_stale`.  No command of the application is reported as accepted. -/
structure NoEffect (p q : Pd) (outs : List Out) : Prop where
  info : SameInfo p q
  key : p.flags.hasScbk = true → q.sc.scbk = p.sc.scbk
  events : pdEvents outs = [] ∨ (p.state ≠ .online ∧ p.reqEventSend = true ∧ ∃ e, p.eph = .event e ∧ pdEvents outs = [e])
  commands : p.state = .online → ∀ code, cmdCode p.cmdId = some code → notes .command outs = [] ∨ notes .command outs = [(code, 0)]

theorem unheard_noEffect {C : Cipher} {info : PdM.Info} {p q : Pd} {cb : Bool} {env : Env} {outs : List Out}
    (hr : Reached C info p) (hps : p.phyState = .replyWait) (hnone : ∀ id body, replyOf C p env ≠ some (id, body))
    (h : step C p (.update cb env) = .ok (q, outs)) : NoEffect p q outs := by
  have h41 : p.state = .online → ∀ code, cmdCode p.cmdId = some code → notes .command outs = [] ∨ notes .command outs = [(code, 0)] := by
    intro hon code hc
    rcases C41_partial C info p q cb env outs code hr hon hps hc h with h | ⟨-, -, -, ⟨-, id, body, h, -⟩ | ⟨h, -⟩⟩
    · exact .inl h
    · exact absurd h (hnone id body)
    · exact .inr h
  obtain ⟨⟨s1, o1, y⟩, hu, h1⟩ := Res.bind_eq_ok.mp h
  clear h
  injection h1 with h1; injection h1 with e1 e2; subst e1 e2
  have I := hr.inv
  have hU := stateUpdate_inv I.cp hu
  refine ⟨?_, ?_, ?_, h41⟩
  · rcases hU.learned with ⟨h, -⟩ | ⟨id, body, -, -, -, -, h, -⟩
    · exact h
    · exact absurd h (hnone id body)
  · intro hh
    rcases hU.scbk I hr.blank hh with h | ⟨-, -, -, ⟨-, id, body, h, -⟩ | ⟨h, -⟩⟩
    · exact h
    · exact absurd h (hnone id body)
    · rcases h with h | ⟨h, -⟩ <;> rw [hps] at h <;> cases h
  · cases hU.telling I hr.buffered hr.tidy.proper with
    | quiet _ h _ _ _ => exact .inl h
    | unattended _ _ _ h _ _ => exact .inl h
    | attended h1 h2 _ _ =>
      rcases h1 with ⟨rfl, h1⟩ | ⟨rfl, id, body, e, h3, -⟩
      · by_cases hon : p.state = .online
        · rw [hr.tidy.none hon] at h2; exact .inl h2
        · split at h2
          · rename_i hreq
            split at h2
            · exact .inr ⟨hon, hreq, _, h1 _ rfl, h2⟩
            · exact .inl h2
          · exact .inl h2
      · exact absurd h3 (hnone id body)

/-- **C09 (CP), any history.**  Whatever a CP received before: while the bytes received contain no intact packet from this PD, a
visit has no effect. -/
theorem C09_cp_acts_only_on_intact (C : Cipher) (info : PdM.Info) (p q : Pd) (cb : Bool) (env : Env) (outs : List Out)
    (hr : Reached C info p) (hps : p.phyState = .replyWait) (hno : NoIntactReply p.address (pend p ++ env.recv.flatten))
    (h : step C p (.update cb env) = .ok (q, outs)) : NoEffect p q outs :=
  unheard_noEffect hr hps (fun id body hh => C09_cp_reply_intact C info p env id body hr hh hno) h

/-- **C09 (CP), one packet.**  A packet arrives that has the form of a reply (start byte, direction, length) but whose CRC or
checksum does not match.  Whatever bytes it contains, the visit has no effect. -/
theorem C09_cp_bad_packet_ignored (C : Cipher) (info : PdM.Info) (p q : Pd) (m : Bool) (f : List Byte) (cb : Bool) (env : Env)
    (outs : List Out) (hr : Reached C info p) (hps : p.phyState = .replyWait) (hi : Phy.Idle p) (hw : Phy.WfFrame m f)
    (hbad : ¬ Intact f) (hdir : ∀ a, f[1]? = some a → 128 ≤ a.toNat) (ha : Phy.Arrives env (Phy.marked m f))
    (h : step C p (.update cb env) = .ok (q, outs)) : NoEffect p q outs := by
  refine unheard_noEffect hr hps (fun id body hh => ?_) h
  have hto : Phy.Towards p f := by
    intro a h1
    have hge := hdir a h1
    unfold Phy.dirOk Pd.isCp
    rw [hr.inv.cp, (show ∀ a : Byte, 128 ≤ a.toNat → Phy.hasBit a 0x80#8 = true by decide +kernel) a hge]
    rfl
  obtain ⟨t, ht⟩ := Phy.checkPacket_frame p m f env hi hw hto ha
  rw [Phy.bodyFrame_bad _ m f hw hbad] at ht
  unfold replyOf Phy.heard at hh
  rw [if_pos hps, ht] at hh
  cases hh

/-- an ACK of the sample PD, its last byte damaged -/
def damagedAck : List Byte := [0xFF#8, 0x53#8, 0xE5#8, 8#8, 0#8, 5#8, 0x40#8, 0xE3#8, 0xA4#8]

/-- it contains no intact packet -/
theorem damagedAck_none : NoIntactReply 101 damagedAck := by
  intro f hi _ hs
  obtain ⟨lo, hi', h2, h3, hlen⟩ := hi.len
  have hle := hs.length_le
  have h6 := hi.min
  have hmem : lo ∈ damagedAck := hs.subset (List.mem_of_getElem? h2)
  have hlo : lo = 8#8 := by
    have hl9 : damagedAck.length = 9 := rfl
    have h1 : 6 ≤ lo.toNat ∧ lo.toNat ≤ 9 := by omega
    exact (show ∀ b ∈ damagedAck, 6 ≤ b.toNat ∧ b.toNat ≤ 9 → b = 8#8 by decide +kernel) lo hmem h1
  have h8 : f.length = 8 := by
    have : lo.toNat = 8 := by rw [hlo]; rfl
    have hl9 : damagedAck.length = 9 := rfl
    omega
  have hf : f = damagedAck.tail := by
    cases hs with
    | cons _ h => exact h.eq_of_length h8
    | cons_cons _ h => exact absurd hi.som (by simp)
  obtain ⟨c, hc, hv⟩ := hi.check
  rw [hf] at hc hv
  injection hc with hc; subst hc
  rw [if_pos (by decide)] at hv
  obtain ⟨body, hb⟩ := hv
  have hl := congrArg List.length hb
  simp [Spec.Crc.frame, damagedAck] at hl
  have hbody := congrArg (List.take 6) hb
  unfold Spec.Crc.frame at hbody
  rw [List.take_append_of_le_length (by omega), List.take_of_length_le (l := body) (by omega)] at hbody
  rw [← hbody] at hb
  exact absurd hb (by decide +kernel)

/-- the PD is online in the clear, has answered two POLLs, and a third has been sent -/
def polledThrice : List Op := polled ++ Sample.asks (Sample.reply 3 [b8 Id.ACK]) 200 ++ [Sample.hears [] 300, Sample.hears [] 300]

/-- Non-vacuity: the CP has polled the sample PD, and a damaged ACK arrives. -/
example : ∃ p q o outs, run xorCipher Sample.cp polledThrice = .ok (p, o) ∧
    Reached xorCipher Sample.pdInfo p ∧ p.phyState = .replyWait ∧ p.state = .online ∧
    Phy.Idle p ∧ Phy.WfFrame true damagedAck.tail ∧ ¬ Intact damagedAck.tail ∧
    NoIntactReply p.address (pend p ++ ([damagedAck] : List (List Byte)).flatten) ∧
    step xorCipher p (.update true { now := 300, recv := [damagedAck] }) = .ok (q, outs) ∧ pdEvents outs = [] := by
  obtain ⟨p, o, q, outs, h1, h2, h3, h4⟩ := Sample.ran_step (C := xorCipher) (p := Sample.cp)
    (ops := polledThrice) (op := .update true { now := 300, recv := [damagedAck] })
    (fun p => p.phyState == .replyWait && p.state == .online && p.address == 101 && pend p == [] &&
      (p.packetBufLen == 0 && p.packetLen == 0 && p.packetBuf.length == 256 && p.rx == [])) (fun _ outs => (pdEvents outs).length == 0)
    (by decide +kernel) (by decide +kernel)
  simp only [Bool.and_eq_true, beq_iff_eq] at h3 h4
  refine ⟨p, q, o, outs, h1, Sample.cp_reached h1, h3.1.1.1.1, h3.1.1.1.2, ⟨h3.2.1.1.1, h3.2.1.1.2, h3.2.1.2, h3.2.2⟩,
    ⟨⟨_, _, _, _, _, rfl, by decide, by decide⟩, by decide⟩, fun hi => damagedAck_none _ hi ⟨0xE5#8, rfl, .inl rfl⟩ (List.tail_sublist _),
    ?_, h2, List.eq_nil_of_length_eq_zero h4⟩
  rw [h3.1.1.2, h3.1.2]
  exact damagedAck_none

end Osdp.CpM
