import Verif.Props.C09Cp
import Verif.Props.C53
import Verif.Props.C57

/-!
# C72: an answer is taken only for the command it answers

Full statement: whatever a CP takes as the answer to a command is an intact reply packet of the PD that the command was sent to, bears
the number of the command, and arrived after the command was sent; and only from such answers the CP learns anything about the PD.

Proved: all of it except "arrived after" and except that the packet may bear the broadcast address (`C72_partial`,
`C72_learns_from_answers`).  Both exceptions are real (`C72_early`, `C72_anyone`).
-/

namespace Osdp.CpM

open Spec.Wire
open Phy (heldFrame pend Framed)

theorem Waited.skipSeq {C : Cipher} {p q : Pd} {env : Env} {o : List Out} {rc : CpErr} (h : Waited C p env q o rc) :
    q.flags.skipSeqCheck = p.flags.skipSeqCheck := by
  have key : ∀ {q : Pd} {rc : CpErr}, Reply C p env q o rc → q.flags.skipSeqCheck = p.flags.skipSeqCheck := by
    intro q rc h
    have := h.heard
    unfold Heard at this
    rw [this]
  cases h with
  | answered h => have k := key h; exact k
  | ignored h _ _ => have k := key h; exact k
  | failed h _ => have k := key h; exact k
  | busy h => have k := key h; exact k
  | retry h _ _ => have k := key h; exact k
  | exhausted h _ _ => have k := key h; exact k
  | waiting h _ => have k := key h; exact k

theorem step_skipSeq {C : Cipher} {p q : Pd} {op : Op} {o : List Out} (I : Inv p) (h : step C p op = .ok (q, o)) :
    q.flags.skipSeqCheck = p.flags.skipSeqCheck := by
  have stl : ∀ {cb : Bool} {p q : Pd} {env : Env} {o : List Out}, settle cb p env = .ok (q, o) →
      q.flags.skipSeqCheck = p.flags.skipSeqCheck := fun h => by rw [(settle_drift h).flags]
  by_cases hop : ∀ cb env, op ≠ .update cb env
  · have ha := step_apiOnly h hop
    unfold Api at ha
    rw [ha]
  · obtain ⟨cb, env, rfl⟩ : ∃ cb env, op = .update cb env :=
      Classical.byContradiction fun hn => hop fun cb env he => hn ⟨cb, env, he⟩
    obtain ⟨⟨p3, o3, y⟩, hu, hs⟩ := Res.bind_eq_ok.mp h
    injection hs with hs; injection hs with e1 e2; subst e1 e2
    have hU := stateUpdate_inv I.cp hu
    have snd : ∀ {p1 : Pd} {o : List Out} {ok : Bool}, SendOutcome C p env p1 o ok → p1.flags.skipSeqCheck = p.flags.skipSeqCheck := by
      intro p1 o ok h
      have := h.sent
      unfold Sent at this
      rw [this]
    clear hu h
    cases hU with
    | hold _ _ => rfl
    | sent _ h => have k := snd h; exact k
    | unsent _ h1 h2 => have k := snd h1; exact (stl h2).trans k
    | replied _ h _ h2 => exact (stl h2).trans h.skipSeq
    | again _ h => exact h.skipSeq
    | waiting _ h => exact h.skipSeq
    | idle _ h => exact stl h

/-- the number that an accepted packet bears -/
theorem _root_.Osdp.Phy.bodyFrame_number {p q : Pd} {f : List Byte} (hp : p.isPd = false) (hsk : p.flags.skipSeqCheck = false)
    (h : Phy.bodyFrame p f = .ok (q, .none)) : ∃ c, f[4]? = some c ∧ (c &&& 0x03#8).toNat = Phy.seqBits p.seq := by
  unfold Phy.bodyFrame at h
  obtain ⟨⟨m, ok⟩, h1, h⟩ := Res.bind_eq_ok.mp h
  dsimp only at h
  replace h := ite_inv h
  rcases h with ⟨-, h⟩ | ⟨-, h⟩
  · injection h with h; injection h with _ h; cases h
  obtain ⟨a, h2, h⟩ := Res.bind_eq_ok.mp h
  replace h := ite_inv h
  rcases h with ⟨-, h⟩ | ⟨-, h⟩
  · injection h with h; injection h with _ h; split at h <;> cases h
  obtain ⟨c, h3, h⟩ := Res.bind_eq_ok.mp h
  refine ⟨c, rd_some h3, ?_⟩
  unfold Phy.checkSeq at h
  rw [if_neg (by rw [hp]; simp)] at h
  obtain ⟨b, h4, h⟩ := Res.bind_eq_ok.mp h
  cases b with
  | true => injection h with h; injection h with _ h; cases h
  | false =>
    have h' : Phy.seqVerdict p (c &&& 0x03#8).toNat = (q, .none) := by injection h
    unfold Phy.seqVerdict at h'
    replace h' := ite_inv h'
    rcases h' with ⟨-, h'⟩ | ⟨hn, -⟩
    · injection h' with _ h'; cases h'
    · rw [hsk] at hn
      simp at hn
      exact hn.symm

/-- while the CP waits, the last packet on the wire is the one to be answered: it bears the CP's current number and address -/
def Outstanding (q : Pd) (o : List Out) : Prop :=
  q.phyState = .replyWait → ∃ k : Packet, (sent o).getLast? = some k.bytes ∧ (k.seq : Int) = q.seq ∧ k.addr = i8 q.address &&& 0x7F#8

theorem outstanding_step {C : Cipher} {q s : Pd} {op : Op} {o o' : List Out} (I : Inv q) (H : Outstanding q o)
    (h : step C q op = .ok (s, o')) : Outstanding s (o ++ o') := by
  intro hw
  by_cases hop : ∀ cb env, op ≠ .update cb env
  · have hs := (step_api h hop).1
    have ha := step_apiOnly h hop
    rw [sent_append, hs, List.append_nil]
    unfold Api at ha
    rw [ha] at hw ⊢
    exact H hw
  obtain ⟨cb, env, rfl⟩ : ∃ cb env, op = .update cb env :=
    Classical.byContradiction fun hn => hop fun cb env he => hn ⟨cb, env, he⟩
  obtain ⟨⟨s1, o2, y⟩, hu, h1⟩ := Res.bind_eq_ok.mp h
  clear h
  injection h1 with h1; injection h1 with e1 e2; subst e1 e2
  have I := I
  cases stateUpdate_inv I.cp hu with
  | hold h _ => rw [h] at hw; cases hw
  | sent hm h =>
    rcases h.packet I.lo I.hi with ⟨-, h⟩ | ⟨k, hk, h2, h4, h3⟩
    · cases h
    have hle : k.bytes.length ≤ env.sendCap := by simpa using h4.symm
    refine ⟨k, ?_, ?_, ?_⟩
    · rw [sent_append, h2, List.take_of_length_le hle]; simp
    · rw [hk.seq]; exact h3.symm
    · rw [hk.addr]
      have := h.sent
      unfold Sent at this
      rename_i p1
      have e : (sentState p1 env.now).address = q.address := by show p1.address = _; rw [this]
      rw [e]
  | unsent _ h hse => rcases (settled (unsent_mid I h) hse).2 with h | h <;> rw [h] at hw <;> cases hw
  | replied hps hw' _ hse => rcases (settled (waited_mid I hps hw') hse).2 with h | h <;> rw [h] at hw <;> cases hw
  | again _ hw' => cases hw' <;> cases hw
  | idle _ hse => rcases (settled I.mid hse).2 with h | h <;> rw [h] at hw <;> cases hw
  | waiting hps hw' =>
    have hc : Phy.Collected q s1 := by
      cases hw' with
      | waiting hr _ => exact hr.collected rfl
    obtain ⟨k, k1, k2, k3⟩ := H hps
    refine ⟨k, ?_, ?_, ?_⟩
    · rw [sent_append, fclose_sent hw'.outs, List.append_nil]; exact k1
    · rw [hc.seq]; exact k2
    · rw [hc.transp.address]; exact k3

/-- **C72 (partial: the packet may have arrived before the command was sent, and it may bear the broadcast address).**  Full
statement: an answer is an intact reply packet of the PD asked, with the number of the command, that arrived after the command.

Whatever happened since set up: a packet taken as an answer is intact, among the bytes received, marked as a reply, and it bears
the number of the last packet sent and its address, or the broadcast address. -/
theorem C72_partial (C : Cipher) (info : PdM.Info) (i n : Nat) (sk : Bool) (p0 p : Pd) (ops : List Op) (o : List Out) (env : Env)
    (id : Byte) (body : List Byte) (hn : newPd info i sk n = some p0) (hr : run C p0 ops = .ok (p, o))
    (h : replyOf C p env = some (id, body)) :
    ∃ (k : Packet) (f : List Byte) (a ctl : Byte), (sent o).getLast? = some k.bytes ∧
      Intact f ∧ f.Sublist (pend p ++ env.recv.flatten) ∧
      f[1]? = some a ∧ 128 ≤ a.toNat ∧ (a &&& 0x7F#8 = k.addr ∨ a &&& 0x7F#8 = 0x7F#8) ∧
      f[4]? = some ctl ∧ ctl.toNat % 4 = k.seq := by
  have R : Reached C info p := ⟨i, sk, n, p0, _, _, hn, hr⟩
  have hsk : p.flags.skipSeqCheck = false := by
    refine run_ind (C := C) (p := p0) (fun _ q _ => Inv q ∧ q.flags.skipSeqCheck = false) ?_ ?_ hr |>.2
    · refine ⟨(newPd_inv hn).1, ?_⟩
      unfold newPd at hn
      split at hn
      · cases hn
      · injection hn with hn; subst hn; rfl
    · intro ops op q o s o' _ H h
      exact ⟨H.1.step h, (step_skipSeq H.1 h).trans H.2⟩
  have hout : Outstanding p o := by
    refine run_ind (C := C) (p := p0) (fun _ q o => Inv q ∧ Outstanding q o) ?_ ?_ hr |>.2
    · refine ⟨(newPd_inv hn).1, fun h => ?_⟩
      rw [(newPd_inv hn).2.2.1] at h; cases h
    · intro ops op q o s o' _ H h
      exact ⟨H.1.step h, outstanding_step H.1 H.2 h⟩
  have hps : p.phyState = .replyWait := by
    refine Classical.byContradiction fun hn => ?_
    unfold replyOf at h
    rw [if_neg hn] at h; cases h
  unfold replyOf at h
  rw [if_pos hps] at h
  unfold Phy.heard at h
  split at h
  case h_2 => cases h
  rename_i p1 h1
  clear h
  have hf := R.buffered.framed hps
  have hcp := R.inv.cp
  have hst := Phy.checkPacket_stored hf h1
  obtain ⟨w1, w2, w3, -⟩ := hst.whole (.inl rfl)
  obtain ⟨q, hcol, hb⟩ := Phy.checkPacket_body hf h1 (.inl rfl)
  obtain ⟨m, a, -, ha, hadr⟩ := Phy.bodyFrame_accept hb (.inl rfl)
  have ht := hcol.transp
  have hq1 : q.isPd = false := ht.pdMode.trans hcp
  obtain ⟨c, hc, hnum⟩ := Phy.bodyFrame_number hq1 (ht.skipSeqCheck.trans hsk) hb
  have hsub : (heldFrame p1).Sublist (pend p ++ env.recv.flatten) :=
    ((List.sublist_append_left _ _).trans (PdM.heldFrame_pend w2)).trans hst.pend
  have hF := hst.framed (.inr (.inr (.inl rfl)))
  obtain ⟨-, -, hh⟩ := hF.rest w1
  obtain ⟨a', lo, hi, g0, g1, g2, g3, -, gd, -⟩ := Phy.headerFields_len hh
  have hcp1 : p1.isCp = true := by
    have h1' : p1.flags.pdMode = false := (Phy.checkPacket_checked h1).transp.pdMode.trans hcp
    unfold Pd.isCp; rw [h1']; rfl
  have haa : a' = a := by
    have h6 := w3.min
    unfold heldFrame at ha h6
    rw [List.getElem?_take_of_lt (by rw [List.length_take] at h6; omega)] at ha
    rw [ha] at g1; injection g1 with g1; exact g1.symm
  subst haa
  obtain ⟨k, k1, k2, k3⟩ := hout hps
  refine ⟨k, heldFrame p1, a', c, k1, w3, hsub, ha, ?_, ?_, hc, ?_⟩
  · have e : ∀ a : Byte, Phy.hasBit a 0x80#8 = true → 128 ≤ a.toNat := by decide
    exact e a' (gd hcp1)
  · rw [ht.address] at hadr
    rcases hadr with h | h
    · left; rw [k3, ← h]
      have e : ∀ a : Byte, a &&& 0x7F#8 = i8 ((a &&& 0x7F#8).toNat : Int) &&& 0x7F#8 := by decide
      exact e a'
    · right; exact BitVec.eq_of_toNat_eq h
  · rw [hcol.seq] at hnum
    have hlo := R.inv.lo
    have hhi := R.inv.hi
    have hk : (k.seq : Int) = Phy.seqBits p.seq := by
      rw [k2]; exact (seqBits_eq (by omega) hhi).1.symm
    have e : ∀ c : Byte, (c &&& 0x03#8).toNat = c.toNat % 4 := by decide
    rw [e] at hnum
    omega

/-- **C72, what is not an answer teaches the CP nothing.**  In a visit without an answer, what the CP knows about the PD stays as it
is, no event of the PD is delivered (other than one taken from an earlier answer and held back until the PD came online, see
`C57_stale`), and a file transfer does not move on: it stays where it is, or it is given up. -/
theorem C72_learns_from_answers (C : Cipher) (info : PdM.Info) (p q : Pd) (cb : Bool) (env : Env) (outs : List Out)
    (hr : Reached C info p) (hnone : replyOf C p env = none) (h : step C p (.update cb env) = .ok (q, outs)) :
    SameInfo p q ∧
    (pdEvents outs = [] ∨ (p.state ≠ .online ∧ p.reqEventSend = true ∧ ∃ e, p.eph = .event e ∧ pdEvents outs = [e])) ∧
    ∀ f, p.file = some f → q.file = some File.reset ∨
      ∃ g, q.file = some g ∧ g.state = f.state ∧ g.offset = f.offset ∧ g.size = f.size ∧ g.fileId = f.fileId := by
  have hn : ∀ id body, replyOf C p env ≠ some (id, body) := fun _ _ h => by rw [hnone] at h; cases h
  refine ⟨?_, ?_, ?_⟩
  · obtain ⟨⟨s1, o1, y⟩, hu, h1⟩ := Res.bind_eq_ok.mp h
    clear h
    injection h1 with h1; injection h1 with e1 e2; subst e1 e2
    rcases (stateUpdate_inv hr.inv.cp hu).learned with ⟨h, -⟩ | ⟨id, body, -, -, -, -, h, -⟩
    · exact h
    · exact absurd h (hn id body)
  · obtain ⟨⟨s1, o1, y⟩, hu, h1⟩ := Res.bind_eq_ok.mp h
    clear h
    injection h1 with h1; injection h1 with e1 e2; subst e1 e2
    cases (stateUpdate_inv hr.inv.cp hu).telling hr.inv hr.buffered hr.tidy.proper with
    | quiet _ h _ _ _ => exact .inl h
    | unattended _ _ _ h _ _ => exact .inl h
    | attended h1 h2 _ _ =>
      rcases h1 with ⟨rfl, h1⟩ | ⟨rfl, id, body, e, h3, -⟩
      · by_cases hon : p.state = .online
        · rw [hr.tidy.none hon] at h2; exact .inl h2
        · split at h2
          · rename_i hreq
            split at h2
            · exact .inr ⟨hon, hreq, _, h1 _ rfl, h2⟩
            · exact .inl h2
          · exact .inl h2
      · exact absurd h3 (hn id body)
  · intro f hf
    rcases file_moves hr h hf with h | h | ⟨_, _, _, h, -⟩ | ⟨n, -, ⟨_, _, id, body, ho, hh, -⟩, -⟩
    · exact .inr h
    · exact .inl h
    · cases h
    · injection ho with _ ho; subst ho
      exact absurd hh (hn id body)

/-! ### examples and witnesses -/

/-- the PD is online and has been polled -/
def polledPd : List Op := Sample.meets [4, 0, 0] ++ [Sample.hears [] 100, Sample.hears [] 100]

/-- a card read arrives in answer to the poll -/
def cardEnv (bs : List Byte) : Env := { now := 100, recv := Sample.blocks64 bs, random := Sample.rndA }

/-- `C72_partial` applies to an ordinary answer -/
example : ∃ p o, newPd Sample.pdInfo 0 false 16 = some Sample.cp ∧ run xorCipher Sample.cp polledPd = .ok (p, o) ∧
    replyOf xorCipher p (cardEnv (Sample.reply 2 rawCard)) = some (b8 Id.RAW, rawCard.drop 1) := by
  obtain ⟨p, o, h1, h2⟩ := Sample.ran (C := xorCipher) (p := Sample.cp) (ops := polledPd)
    (fun p _ => replyOf xorCipher p (cardEnv (Sample.reply 2 rawCard)) == some (b8 Id.RAW, rawCard.drop 1)) (by decide +kernel)
  exact ⟨p, o, rfl, h1, by simpa using h2⟩

/-- an answer with the number of an earlier command is not taken -/
example : ∃ p o, run xorCipher Sample.cp polledPd = .ok (p, o) ∧ Reached xorCipher Sample.pdInfo p ∧
    replyOf xorCipher p (cardEnv (Sample.reply 1 rawCard)) = none := by
  obtain ⟨p, o, h1, h2⟩ := Sample.ran (C := xorCipher) (p := Sample.cp) (ops := polledPd)
    (fun p _ => replyOf xorCipher p (cardEnv (Sample.reply 1 rawCard)) == none) (by decide +kernel)
  exact ⟨p, o, h1, Sample.cp_reached h1, by simpa using h2⟩

/-- the answer to the poll, and behind it a card read with the next number; then the CP polls again -/
def earlyHistory : List Op :=
  polledPd ++ [Sample.hears (Sample.reply 2 [b8 Id.ACK] ++ Sample.reply 3 rawCard) 100, Sample.hears [] 200, Sample.hears [] 200]

/-- **C72 fails for packets that came too early**: the card read arrived before the poll with the number 3 was sent.  It is
taken as the answer to that poll although nothing at all has been received since. -/
theorem C72_early : ∃ p o p' o1 o2 k q outs, run xorCipher Sample.cp (polledPd ++ [Sample.hears (Sample.reply 2 [b8 Id.ACK] ++ Sample.reply 3 rawCard) 100]) = .ok (p, o) ∧
    (sent o).length = 3 ∧ run xorCipher Sample.cp earlyHistory = .ok (p', o1) ∧ o1 = o ++ o2 ∧ sent o2 = [k] ∧ p'.phyState = .replyWait ∧
    step xorCipher p' (Sample.hears [] 200) = .ok (q, outs) ∧ (pdEvents outs).length = 1 := by
  obtain ⟨p', o1, q, outs, h1, h2, h3, h4⟩ := Sample.ran_step (C := xorCipher) (p := Sample.cp) (ops := earlyHistory)
    (op := Sample.hears [] 200) (fun p => p.phyState == .replyWait) (fun _ outs => (pdEvents outs).length == 1)
    (by decide +kernel) (by decide +kernel)
  have h5 : (match run xorCipher Sample.cp earlyHistory with | .ok (_, o) => (sent o).length == 4 | .error _ => false) = true := by
    decide +kernel
  have h6 : (match run xorCipher Sample.cp (polledPd ++ [Sample.hears (Sample.reply 2 [b8 Id.ACK] ++ Sample.reply 3 rawCard) 100]) with
    | .ok (_, o) => (sent o).length == 3 | .error _ => false) = true := by decide +kernel
  have e : earlyHistory = (polledPd ++ [Sample.hears (Sample.reply 2 [b8 Id.ACK] ++ Sample.reply 3 rawCard) 100]) ++
      [Sample.hears [] 200, Sample.hears [] 200] := by unfold earlyHistory; simp
  obtain ⟨s, a1, a2, g1, -, g3⟩ := Sample.run_split (e ▸ h1)
  rw [h1] at h5
  rw [g1] at h6
  simp only [beq_iff_eq] at h3 h4 h5 h6
  have h7 : (sent a2).length = 1 := by
    rw [g3, sent_append, List.length_append, h6] at h5; omega
  obtain ⟨k, hk⟩ := List.length_eq_one_iff.mp h7
  exact ⟨s, a1, p', o1, a2, k, q, outs, g1, h6, h1, g3, hk, h3, h2, h4⟩

/-- a card read in a reply packet with the broadcast address -/
def anyonesCard : List Byte := Packet.bytes ⟨true, 0xFF#8, 6#8, [], rawCard⟩

/-- **C72 fails for the broadcast address**: the CP polled the PD with the address 101; a card read in a reply packet from "address
127" is taken as its answer. -/
theorem C72_anyone : ∃ p o q outs, run xorCipher Sample.cp polledPd = .ok (p, o) ∧ p.address = 101 ∧
    step xorCipher p (.update true (cardEnv anyonesCard)) = .ok (q, outs) ∧ (pdEvents outs).length = 1 := by
  obtain ⟨p, o, q, outs, h1, h2, h3, h4⟩ := Sample.ran_step (C := xorCipher) (p := Sample.cp) (ops := polledPd)
    (op := .update true (cardEnv anyonesCard)) (fun p => p.address == 101) (fun _ outs => (pdEvents outs).length == 1)
    (by decide +kernel) (by decide +kernel)
  exact ⟨p, o, q, outs, h1, by simpa using h3, h2, by simpa using h4⟩

end Osdp.CpM
