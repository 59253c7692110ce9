import Verif.Lemmas.PdDeliver
import Verif.Lemmas.PdConst
import Verif.Spec.CmdLen

/-!
# C35: malformed command bodies are refused with NAK and not executed

A command whose body length is not one the command allows is answered with NAK(command length) and does
not reach the application.  The code departs from this in a few cases, see the witnesses at the end.
-/

namespace Osdp.PdM

open Spec.Wire Spec.CmdLen
open Phy (setNak Idle Arrives pktAddr pdAccept reload decodeFrame sendOuts)

/-! ## The command switch -/

theorem dispatch_grossly {p : Pd} {env : Env} {body : List Byte} (hlen : body.length ≤ 256)
    (h : grossly p.cmdId body = true) : dispatch p env body = badLen p := by
  unfold grossly at h
  simp only [Bool.and_eq_true, Bool.not_eq_true', Bool.and_eq_false_iff] at h
  obtain ⟨⟨⟨⟨ha, h1⟩, h2⟩, h3⟩, h4⟩ := h
  unfold allowed at ha
  unfold dispatch
  dsimp only at ha ⊢
  generalize p.cmdId = id at *
  by_cases hz : id = Id.POLL ∨ id = Id.LSTAT ∨ id = Id.ISTAT ∨ id = Id.OSTAT ∨ id = Id.RSTAT ∨ id = Id.ABORT
  · rw [if_pos hz] at ha
    have hb : body ≠ [] := by rintro rfl; simp at ha
    rcases hz with rfl | rfl | rfl | rfl | rfl | rfl <;> simp [Id.POLL, Id.LSTAT, Id.ISTAT, Id.OSTAT, Id.RSTAT, Id.ABORT, Id.ID, Id.CAP, Id.OUT, Id.LED,
      Id.BUZ, Id.TEXT, Id.COMSET, Id.MFG, Id.ACURXSIZE, Id.KEEPACTIVE, hb]
  rw [if_neg hz] at ha
  have n1 : id ≠ Id.POLL := by rintro rfl; simp at hz
  have n2 : id ≠ Id.LSTAT := by rintro rfl; simp at hz
  have n3 : id ≠ Id.ISTAT := by rintro rfl; simp at hz
  have n4 : id ≠ Id.OSTAT := by rintro rfl; simp at hz
  have n5 : id ≠ Id.RSTAT := by rintro rfl; simp at hz
  have n6 : id ≠ Id.ABORT := by rintro rfl; simp at hz
  rw [if_neg n1, if_neg n2, if_neg n3, if_neg n4, if_neg n5]
  by_cases hi : id = Id.ID ∨ id = Id.CAP
  · rw [if_pos hi] at ha
    have hb : body.length ≠ 1 := by simpa using ha
    rcases hi with rfl | rfl
    · rw [if_pos rfl, if_pos hb]
    · rw [if_neg (by decide), if_pos rfl, if_pos hb]
  rw [if_neg hi] at ha
  rw [if_neg (fun h => hi (.inl h)), if_neg (fun h => hi (.inr h))]
  have hrec : ∀ (dec : List Byte → Option Cmd) k, (body.length % k == 0 && body.length != 0) = false →
      (body.length == 0) = false → recordsCmd p env dec k body = badLen p := by
    intro dec k hk h0
    unfold recordsCmd
    rw [if_pos]
    left
    intro hn
    rw [hn] at hk
    simp at hk h0
    exact absurd hk h0
  by_cases ho : id = Id.OUT
  · subst ho
    rw [if_pos rfl] at ha
    rw [if_pos rfl]
    exact hrec _ _ ha (by simpa using h1)
  rw [if_neg ho] at ha ⊢
  by_cases ho' : id = Id.LED
  · subst ho'
    rw [if_pos rfl] at ha
    rw [if_pos rfl]
    exact hrec _ _ ha (by simpa using h1)
  rw [if_neg ho'] at ha ⊢
  by_cases ho'' : id = Id.BUZ
  · subst ho''
    rw [if_pos rfl] at ha
    rw [if_pos rfl]
    exact hrec _ _ ha (by simpa using h1)
  rw [if_neg ho''] at ha ⊢
  by_cases ht : id = Id.TEXT
  · subst ht
    rw [if_pos rfl] at ha
    rw [if_pos rfl]
    unfold textCmd
    by_cases hcb : env.cb.isNone = true
    · rw [if_pos hcb]
    · rw [if_neg hcb]
      match body, ha, h3 with
      | a :: b :: c :: d :: e :: n :: text, ha, h3 =>
        dsimp only at ha h3 ⊢
        rw [if_pos]
        simp at ha h3
        omega
      | [], _, _ => rfl
      | [_], _, _ => rfl
      | [_, _], _, _ => rfl
      | [_, _, _], _, _ => rfl
      | [_, _, _, _], _, _ => rfl
      | [_, _, _, _, _], _, _ => rfl
  rw [if_neg ht] at ha ⊢
  by_cases hc : id = Id.COMSET
  · subst hc
    rw [if_pos rfl] at ha
    rw [if_pos rfl]
    unfold comsetCmd
    by_cases hcb : env.cb.isNone = true
    · rw [if_pos hcb]
    · rw [if_neg hcb]
      split
      · simp at ha
      · rfl
  rw [if_neg hc] at ha ⊢
  by_cases hm : id = Id.MFG
  · subst hm
    rw [if_pos rfl] at ha
    rw [if_pos rfl]
    unfold mfgCmd
    by_cases hcb : env.cb.isNone = true
    · rw [if_pos hcb]
    · rw [if_neg hcb]
      match body, ha, hlen with
      | v0 :: v1 :: v2 :: c :: data, ha, hlen =>
        dsimp only
        rw [if_pos]
        simp at ha hlen
        omega
      | [], _, _ => rfl
      | [_], _, _ => rfl
      | [_, _], _, _ => rfl
      | [_, _, _], _, _ => rfl
  rw [if_neg hm] at ha ⊢
  by_cases hx : id = Id.ACURXSIZE ∨ id = Id.KEEPACTIVE
  · rw [if_pos hx] at ha
    have hl : body.length < 2 := by
      rcases hx with rfl | rfl <;> simp at ha h2 <;> omega
    match body, hl with
    | [], _ => rcases hx with rfl | rfl <;> rfl
    | [_], _ => rcases hx with rfl | rfl <;> rfl
  rw [if_neg hx] at ha
  rw [if_neg (fun h => hx (.inl h)), if_neg (fun h => hx (.inr h)), if_neg n6]
  have nf : id ≠ Id.FILETRANSFER := by rintro rfl; simp at h4
  rw [if_neg nf]
  by_cases hk : id = Id.KEYSET
  · subst hk
    rw [if_pos rfl] at ha
    rw [if_pos rfl]
    unfold keysetCmd
    rw [dif_pos (by simpa using ha)]
  rw [if_neg hk] at ha ⊢
  by_cases hch : id = Id.CHLNG
  · subst hch
    rw [if_pos rfl] at ha
    rw [if_pos rfl]
    unfold chlngCmd
    rw [dif_pos (by simpa using ha)]
  rw [if_neg hch] at ha ⊢
  by_cases hs : id = Id.SCRYPT
  · subst hs
    rw [if_pos rfl] at ha
    rw [if_pos rfl]
    unfold scryptCmd
    rw [dif_pos (by simpa using ha)]
  rw [if_neg hs, if_neg nf] at ha
  cases ha

/-! ## The refusal on the wire -/

/-- a command that only leads to a NAK: what the PD transmits -/
theorem refused_reply {C : Cipher} {p q : Pd} {env : Env} {ret : PdRet} {outs : List Out}
    (hid : p.replyId = Id.NAK) (h : Finished C p env ret q outs) :
    (∀ c, Out.cmd c ∉ outs) ∧
    ∀ bs, Out.send bs ∈ outs → ∃ k : Packet, k.id = some (b8 Id.NAK) ∧ bs = k.bytes.take env.sendCap := by
  refine ⟨fun c hc => ?_, fun bs hbs => ?_⟩
  · rcases finished_outs h _ hc with h | h | ⟨_, h⟩ <;> cases h
  cases h with
  | keep _ => cases hbs
  | reset _ => cases hbs
  | reply _ hs _ =>
    cases hs with
    | mute _ => cases hbs
    | built b _ outs' ok hb hbo hhead hsend hcase _ =>
      have hbn : ∀ bs, Out.send bs ∉ b.outs := by
        intro bs hn
        have htid : (touch p ret env.now).replyId = Id.NAK := by unfold touch; split <;> exact hid
        cases hbo with
        | same => cases hn
        | com _ _ _ => cases hn
        | ftstat f o r room h1 h2 =>
          exact absurd (h1.symm.trans htid) (by decide)
        | ccrypt _ _ _ _ => cases hn
        | rmac _ _ _ _ _ _ => cases hn
      rcases List.mem_append.mp hbs with h | h
      · exact absurd h (hbn bs)
      rcases hcase with ⟨rfl, -⟩ | ⟨wire, q', hd, -, -, rfl, -⟩
      · cases h
      · refine ⟨Phy.pktOf (finalTx b.t b.p (bodyLen b.body)) wire, ?_, ?_⟩
        · show wire.head? = _
          rw [hd.id]
          cases hbd : b.body with
          | error e => rfl
          | ok l =>
            have htid : (touch p ret env.now).replyId = Id.NAK := by unfold touch; split <;> exact hid
            show l.head? = _
            rw [hhead l hbd, htid]
        · unfold sendOuts at h
          rcases List.mem_append.mp h with h | h
          · split at h
            · rw [List.mem_singleton] at h; cases h
            · cases h
          · rw [List.mem_singleton] at h; injection h

/-- **C35, partial** (in the clear).  A PD that is not set up for ENFORCE_SECURE and has no secure channel
receives a command packet with a body that the command does not allow.  It executes nothing and
answers with exactly one packet: NAK(command length), from the address and with the sequence number of
the command.  Not covered (and wrong in the code, see below): no record at all, surplus bytes at the end
of TEXT, ACURXSIZE and KEEPACTIVE, and file transfer fragments. -/
theorem C35_malformed_is_refused_partial (C : Cipher) (p : Pd) (k : Packet) (env : Env) (d0 : Byte) (body : List Byte)
    (hl : Listening p) (hk : ForUs p k) (ha : Arrives env k.bytes)
    (hs : Phy.hasBit k.ctl Phy.CTL_SCB = false) (hscb : k.scb = []) (hd : k.data = d0 :: body)
    (henf : p.flags.enforceSecure = false) (hm : 69 ≤ p.txBufSize)
    (hcap : 256 ≤ env.sendCap) (hbad : grossly d0.toNat body = true) :
    ∃ q outs r, refresh C p env = .ok (q, outs) ∧ (∀ c, Out.cmd c ∉ outs) ∧ sent outs = [Packet.bytes r] ∧
      Answers p.address.toNat k r [b8 Id.NAK, Nak.CMD_LEN] := by
  obtain ⟨h, hh, hrec⟩ := receive_listening C p k env d0 body hl hk ha hs hscb hd
  have hbl : body.length ≤ 256 := by
    have := hk.len; rw [Phy.bytes_length] at this; unfold Packet.len at this; rw [hd] at this; simp at this; omega
  refine refresh_refused C p (setNak (noteCmd (accepted p k h) d0) Nak.CMD_LEN) k env h _ hl hh hm hcap ?_ ⟨d0, rfl⟩
  rw [hrec]
  unfold commanded
  have hpr : plainRefused (noteCmd (accepted p k h) d0) = false := by
    unfold plainRefused
    have : (noteCmd (accepted p k h) d0).flags.enforceSecure = false := henf
    rw [this]; rfl
  rw [hpr]
  simp only [Bool.false_eq_true, if_false]
  rw [dispatch_grossly hbl hbad]
  rfl

/-- **C35, partial** (any channel).  Whatever packet, plain or secured, delivers such a body: the
application is not called, and all the PD may transmit is a NAK. -/
theorem C35_malformed_never_executed_partial (C : Cipher) (p p2 q : Pd) (k : Packet) (env : Env) (d0 : Byte)
    (body : List Byte) (outs : List Out) (hp : p.flags.pdMode = true) (hi : Idle p)
    (hk : ForUs (expire p env.now) k) (ha : Arrives env k.bytes)
    (hd : decodeFrame C (pdAccept (expire p env.now) k.seq (pktAddr k == 127)) k.frame =
      .ok (p2, ((d0 :: body).length : Int), d0 :: body))
    (hbl : body.length ≤ 256)
    (h8 : Phy.hasBit k.ctl Phy.CTL_SCB = true → 2 ≤ k.scb.length) (hbad : grossly d0.toNat body = true)
    (hp2 : p2.flags.pdMode = true) (h : refresh C p env = .ok (q, outs)) :
    (∀ c, Out.cmd c ∉ outs) ∧
    ∀ bs, Out.send bs ∈ outs → ∃ r : Packet, r.id = some (b8 Id.NAK) ∧ bs = r.bytes.take env.sendCap := by
  have hpe : (expire p env.now).flags.pdMode = true := by unfold expire; split <;> exact hp
  have hie : Idle (expire p env.now) := by
    unfold expire; split
    · exact ⟨hi.bufLen, hi.len, hi.buf, hi.rx⟩
    · exact hi
  obtain ⟨hld, -, hrec⟩ := receive_delivers C (expire p env.now) p2 k env d0 body hpe hie hk ha hd h8
  unfold refresh at h
  obtain ⟨⟨p1, o1, ret⟩, h1, h⟩ := Res.bind_eq_ok.mp h
  obtain ⟨⟨q', o2⟩, h2, h⟩ := Res.bind_eq_ok.mp h
  injection h with h; injection h with e1 e2; subst e1 e2
  rw [hrec] at h1
  have hp1 : o1 = [] ∧ p1.replyId = Id.NAK ∧ ret = .reply ∧ p1.flags.pdMode = true := by
    unfold commanded at h1
    split at h1
    · split at h1
      · injection h1 with h1; injection h1 with e1 h1; injection h1 with e2 e3; subst e1 e2 e3
        exact ⟨rfl, rfl, rfl, hp2⟩
      · cases h1
    · rw [dispatch_grossly hbl hbad] at h1
      obtain ⟨rfl, rfl, rfl⟩ := badLen_inv h1
      exact ⟨rfl, rfl, rfl, hp2⟩
  obtain ⟨rfl, hid, rfl, hpm⟩ := hp1
  exact refused_reply hid (finish_inv hpm h2)

/-- Non-vacuity: an LED command of 13 bytes. -/
example : grossly Id.LED (List.replicate 13 0#8) = true ∧ Listening Sample.pd ∧
    ForUs Sample.pd ⟨true, 101#8, 4#8, [], b8 Id.LED :: List.replicate 13 0#8⟩ := by
  refine ⟨by decide, ⟨rfl, ⟨rfl, rfl, by decide +kernel, rfl⟩, rfl, rfl, by decide⟩, ⟨by decide +kernel, by decide, by decide, by decide, by decide, by decide⟩⟩

/-- what an idle PD does on one packet: commands given to the application, packets sent -/
def outcomeOf (r : Res (Pd × List Out)) : Option (List Cmd × List (List Byte)) :=
  match r with
  | .ok (_, outs) => some (Sample.asked outs, sent outs)
  | .error _ => none

/-- The exceptions are real.  An OUT command without any record is not allowed but is acknowledged; so is
an ACURXSIZE with a surplus byte. -/
theorem C35_surplus_acknowledged :
    allowed Id.OUT [] = false ∧ allowed Id.ACURXSIZE [0, 1, 7] = false ∧
    outcomeOf (refresh Aes.aes Sample.pd (Sample.env (Sample.cmd 0 [b8 Id.OUT]))) =
      some ([], [Packet.bytes ⟨true, 0xE5#8, 4#8, [], [b8 Id.ACK]⟩]) ∧
    outcomeOf (refresh Aes.aes Sample.pd (Sample.env (Sample.cmd 0 [b8 Id.ACURXSIZE, 0, 1, 7]))) =
      some ([], [Packet.bytes ⟨true, 0xE5#8, 4#8, [], [b8 Id.ACK]⟩]) := by
  refine ⟨by decide, by decide, ?_, ?_⟩ <;> decide +kernel

/-- A TEXT command with a surplus byte is executed. -/
theorem C35_long_text_executed :
    allowed Id.TEXT [0, 1, 0, 1, 1, 1, 65, 66] = false ∧
    (outcomeOf (refresh Aes.aes Sample.pd (Sample.env (Sample.cmd 0 [b8 Id.TEXT, 0, 1, 0, 1, 1, 1, 65, 66])))).map
      (·.1.length) = some 1 := by
  refine ⟨by decide, ?_⟩; decide +kernel

/-- A file transfer fragment that is too short is not answered at all. -/
theorem C35_short_fragment_unanswered :
    allowed Id.FILETRANSFER [1, 2] = false ∧
    outcomeOf (refresh Aes.aes (registerFileOps Sample.pd) (Sample.env (Sample.cmd 0 [b8 Id.FILETRANSFER, 1, 2]))) =
      some ([], []) := by
  refine ⟨by decide, ?_⟩; decide +kernel

end Osdp.PdM
