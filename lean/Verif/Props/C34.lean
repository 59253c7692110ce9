import Verif.Props.C35
import Verif.Props.C33

/-!
# C34: refused commands are reported as refused

If the PD application rejects a command (non-zero return) or the PD lacks the capability, the reply is a
NAK, never an ACK.  The code violates this for OUT, LED and BUZ commands (witnesses at the end).
-/

namespace Osdp.PdM

open Spec.Wire
open Phy (setNak Idle Arrives pktAddr pdAccept reload decodeFrame sendOuts)

/-- Spec: the PD declared what the command needs (contact monitoring, output control, text, secure
channel). -/
def Declared (cap : Fin 17 → Cap) (id : Nat) : Prop :=
  (id = Id.ISTAT → (cap 1).compliance ≠ 0#8 ∧ (cap 1).numItems ≠ 0#8) ∧
  (id = Id.OSTAT → (cap 2).compliance ≠ 0#8 ∧ (cap 2).numItems ≠ 0#8) ∧
  (id = Id.TEXT → (cap 6).compliance ≠ 0#8 ∧ (cap 6).numItems ≠ 0#8) ∧
  (id = Id.KEYSET ∨ id = Id.CHLNG ∨ id = Id.SCRYPT → (cap 9).compliance ≠ 0#8)

/-- Spec: commands other than OUT, LED, BUZ records and file transfers -/
def Single : Cmd → Prop
  | .output _ | .led _ | .buzzer _ | .fileTx _ => False
  | _ => True

/-! ## Rejected by the application -/

theorem statusCmd_rejected {p q : Pd} {env : Env} {ty : StatusType} {r : Nat} {outs : List Out} {ret : PdRet} {c : Cmd}
    {cb : Nat → Cmd → Int × Cmd} (hcb : env.cb = some cb) (hc : Out.cmd c ∈ outs) (hr : (cb 0 c).1 ≠ 0)
    (h : statusCmd p env ty r = .ok (q, outs, ret)) : q.replyId = Id.NAK ∧ ret = .reply := by
  unfold statusCmd at h
  obtain ⟨⟨p1, o1, x⟩, h1, h2⟩ := Res.bind_eq_ok.mp h
  obtain ⟨hq, rfl, cb', hcb', hx⟩ := callback_quiet h1
  rw [hcb] at hcb'; injection hcb' with hcb'; subst hcb'
  rcases hx with ⟨rfl, hne, rfl⟩ | ⟨rfl, h0, rfl⟩
  · obtain ⟨rfl, rfl, rfl⟩ := badLen_inv h2
    exact ⟨rfl, rfl⟩
  · exfalso
    generalize (cb 0 _).2 = c' at h2
    cases c' <;> first
      | (obtain ⟨rfl, rfl, rfl⟩ := reply_inv h2; simp at hc; subst hc; exact hr h0)
      | cases h2

theorem single_rejected {p q : Pd} {env : Env} {c0 c : Cmd} {outs : List Out} {ret : PdRet}
    {cb : Nat → Cmd → Int × Cmd} {k : Pd → List Out → Cmd → Res (Pd × List Out × PdRet)}
    (hcb : env.cb = some cb) (hc : Out.cmd c ∈ outs) (hr : (cb 0 c).1 ≠ 0)
    (hk : ∀ p o c' q outs ret, k p o c' = .ok (q, outs, ret) → outs = o)
    (h : (do
      match ← callback p env 0 c0 with
      | (p, outs, none) => Except.ok (p, outs, PdRet.reply)
      | (p, outs, some c') => k p outs c') = Except.ok (q, outs, ret)) : q.replyId = Id.NAK ∧ ret = .reply := by
  obtain ⟨⟨p1, o1, x⟩, h1, h2⟩ := Res.bind_eq_ok.mp h
  obtain ⟨hq, rfl, cb', hcb', hx⟩ := callback_quiet h1
  rw [hcb] at hcb'; injection hcb' with hcb'; subst hcb'
  rcases hx with ⟨rfl, hne, rfl⟩ | ⟨rfl, h0, rfl⟩
  · injection h2 with h2; injection h2 with e1 h2; injection h2 with e2 e3; subst e1 e2 e3
    exact ⟨rfl, rfl⟩
  · have := hk _ _ _ _ _ _ h2
    subst this
    simp at hc; subst hc; exact absurd h0 hr

/-- the commands of which the application is told one at a time -/
def OneAtATime (id : Nat) : Prop := id ≠ Id.OUT ∧ id ≠ Id.LED ∧ id ≠ Id.BUZ ∧ id ≠ Id.FILETRANSFER

theorem dispatch_rejected {p q : Pd} {env : Env} {body : List Byte} {outs : List Out} {ret : PdRet} {c : Cmd}
    {cb : Nat → Cmd → Int × Cmd} (hcb : env.cb = some cb) (hc : Out.cmd c ∈ outs) (hr : (cb 0 c).1 ≠ 0)
    (hone : OneAtATime p.cmdId) (h : dispatch p env body = .ok (q, outs, ret)) :
    q.replyId = Id.NAK ∧ ret = .reply := by
  obtain ⟨n1, n2, n3, n4⟩ := hone
  have hbl : ∀ {p' : Pd} {outs}, badLen p' outs = .ok (q, outs, ret) → q.replyId = Id.NAK ∧ ret = .reply := by
    intro p' outs h
    obtain ⟨rfl, -, rfl⟩ := badLen_inv h
    exact ⟨rfl, rfl⟩
  have hbl0 : ∀ {p' : Pd}, badLen p' = .ok (q, outs, ret) → q.replyId = Id.NAK ∧ ret = .reply := by
    intro p' h
    obtain ⟨rfl, -, rfl⟩ := badLen_inv h
    exact ⟨rfl, rfl⟩
  have hre : ∀ {p' : Pd} {r}, reply p' r = .ok (q, outs, ret) → False := by
    intro p' r h
    obtain ⟨-, rfl, -⟩ := reply_inv h
    cases hc
  have hcap : ∀ {p' : Pd}, (Except.ok (p', [], PdRet.reply) : Res (Pd × List Out × PdRet)) = .ok (q, outs, ret) → False := by
    intro p' h
    injection h with h; injection h with _ h; injection h with e _; subst e; cases hc
  unfold dispatch at h
  dsimp only at h
  replace h := ite_inv h
  rcases h with ⟨-, h⟩ | ⟨-, h⟩
  · split at h
    · exact hbl0 h
    · exact absurd h (fun h => hre h)
  replace h := ite_inv h
  rcases h with ⟨-, h⟩ | ⟨-, h⟩
  · split at h
    · exact hbl0 h
    · exact statusCmd_rejected hcb hc hr h
  replace h := ite_inv h
  rcases h with ⟨-, h⟩ | ⟨-, h⟩
  · split at h
    · exact hbl0 h
    · split at h
      · exact absurd h hcap
      · exact statusCmd_rejected hcb hc hr h
  replace h := ite_inv h
  rcases h with ⟨-, h⟩ | ⟨-, h⟩
  · split at h
    · exact hbl0 h
    · split at h
      · exact absurd h hcap
      · exact statusCmd_rejected hcb hc hr h
  replace h := ite_inv h
  rcases h with ⟨-, h⟩ | ⟨-, h⟩
  · split at h
    · exact hbl0 h
    · exact statusCmd_rejected hcb hc hr h
  replace h := ite_inv h
  rcases h with ⟨-, h⟩ | ⟨-, h⟩
  · split at h
    · exact hbl0 h
    · exact absurd h (fun h => hre h)
  replace h := ite_inv h
  rcases h with ⟨-, h⟩ | ⟨-, h⟩
  · split at h
    · exact hbl0 h
    · exact absurd h (fun h => hre h)
  rw [if_neg n1, if_neg n2, if_neg n3] at h
  replace h := ite_inv h
  rcases h with ⟨-, h⟩ | ⟨-, h⟩
  · unfold textCmd at h
    split at h
    · exact hbl0 h
    · split at h
      · split at h
        · exact hbl0 h
        · dsimp only at h
          split at h
          · exact absurd h hcap
          · exact single_rejected (k := fun p o _ => reply p Id.ACK o) hcb hc hr
              (fun _ _ _ _ _ _ h => (reply_inv h).2.1) h
      · exact hbl0 h
  replace h := ite_inv h
  rcases h with ⟨-, h⟩ | ⟨-, h⟩
  · unfold comsetCmd at h
    split at h
    · exact hbl0 h
    · split at h
      · dsimp only at h
        split at h
        · exact hbl0 h
        · obtain ⟨⟨p1, o1, x⟩, h1, h2⟩ := Res.bind_eq_ok.mp h
          obtain ⟨hq, rfl, cb', hcb', hx⟩ := callback_quiet h1
          rw [hcb] at hcb'; injection hcb' with hcb'; subst hcb'
          rcases hx with ⟨rfl, hne, rfl⟩ | ⟨rfl, h0, rfl⟩
          · injection h2 with h2; injection h2 with e1 h2; injection h2 with e2 e3; subst e1 e2 e3
            exact ⟨rfl, rfl⟩
          · exfalso
            generalize (cb 0 _).2 = c' at h2
            cases c' <;> first
              | (obtain ⟨rfl, rfl, rfl⟩ := reply_inv h2; simp at hc; subst hc; exact hr h0)
              | cases h2
      · exact hbl0 h
  replace h := ite_inv h
  rcases h with ⟨-, h⟩ | ⟨-, h⟩
  · unfold mfgCmd at h
    split at h
    · exact hbl0 h
    · split at h
      · dsimp only at h
        split at h
        · exact hbl0 h
        · exact single_rejected (k := fun p o _ => reply p Id.ACK o) hcb hc hr
              (fun _ _ _ _ _ _ h => (reply_inv h).2.1) h
      · exact hbl0 h
  replace h := ite_inv h
  rcases h with ⟨-, h⟩ | ⟨-, h⟩
  · split at h
    · exact absurd h (fun h => hre h)
    · exact hbl0 h
  replace h := ite_inv h
  rcases h with ⟨-, h⟩ | ⟨-, h⟩
  · split at h
    · exact absurd h (fun h => hre h)
    · exact hbl0 h
  replace h := ite_inv h
  rcases h with ⟨-, h⟩ | ⟨-, h⟩
  · split at h
    · exact hbl0 h
    · obtain ⟨rfl, rfl, rfl⟩ := reply_inv h
      exfalso
      unfold File.abort at hc
      split at hc
      · cases hc
      · split at hc <;> simp at hc
  rw [if_neg n4] at h
  replace h := ite_inv h
  rcases h with ⟨-, h⟩ | ⟨-, h⟩
  · unfold keysetCmd at h
    split at h
    · exact hbl0 h
    · dsimp only at h
      split at h
      · exact hbl0 h
      · split at h
        · exact absurd h hcap
        · split at h
          · exact absurd h hcap
          · split at h
            · exact absurd h hcap
            · obtain ⟨⟨p1, o1, x⟩, h1, h2⟩ := Res.bind_eq_ok.mp h
              obtain ⟨hq, rfl, cb', hcb', hx⟩ := callback_quiet h1
              rw [hcb] at hcb'; injection hcb' with hcb'; subst hcb'
              rcases hx with ⟨rfl, hne, rfl⟩ | ⟨rfl, h0, rfl⟩
              · injection h2 with h2; injection h2 with e1 h2; injection h2 with e2 e3; subst e1 e2 e3
                exact ⟨rfl, rfl⟩
              · exfalso
                generalize (cb 0 _).2 = c' at h2
                cases c' <;> first
                  | (obtain ⟨rfl, rfl, rfl⟩ := reply_inv h2; simp at hc; subst hc; exact hr h0)
                  | cases h2
  replace h := ite_inv h
  rcases h with ⟨-, h⟩ | ⟨-, h⟩
  · unfold chlngCmd at h
    split at h
    · exact hbl0 h
    · split at h
      · exact absurd h hcap
      · exact absurd h (fun h => hre h)
  replace h := ite_inv h
  rcases h with ⟨-, h⟩ | ⟨-, h⟩
  · unfold scryptCmd at h
    split at h
    · exact hbl0 h
    · split at h
      · exact absurd h hcap
      · split at h
        · exact absurd h hcap
        · exact absurd h (fun h => hre h)
  · exact absurd h hcap

/-! ## Lacking the capability -/

theorem setNak_setNak {p : Pd} (hp : p.flags.pdMode = true) (a b : Byte) : setNak (setNak p a) b = setNak p b := by
  unfold setNak; simp [hp]

theorem capOk_lacks {p : Pd} {c : Option Cmd} (h : capAllows p.cap p.cmdId c = false) :
    ∃ code, capOk p c = (setNak p code, false) := by
  unfold capOk
  rw [h]
  simp only [Bool.false_eq_true, if_false]
  split
  · exact ⟨_, rfl⟩
  · exact ⟨_, rfl⟩

theorem lacks {cap : Fin 17 → Cap} {id : Nat} (h : ¬ Declared cap id) :
    (id = Id.ISTAT ∨ id = Id.OSTAT ∨ id = Id.TEXT ∨ id = Id.KEYSET ∨ id = Id.CHLNG ∨ id = Id.SCRYPT) ∧
    ∀ c, capAllows cap id c = false := by
  refine Classical.byContradiction fun hn => h ⟨?_, ?_, ?_, ?_⟩
  · rintro rfl
    refine Classical.byContradiction fun hc => hn ⟨by simp, fun c => ?_⟩
    simp [capAllows]
    simp at hc
    intro h1; simpa using fun h2 => h1 (hc h2)
  · rintro rfl
    refine Classical.byContradiction fun hc => hn ⟨by simp, fun c => ?_⟩
    simp [capAllows, Id.ISTAT, Id.OSTAT]
    simp at hc
    intro h1; simpa using fun h2 => h1 (hc h2)
  · rintro rfl
    refine Classical.byContradiction fun hc => hn ⟨by simp, fun c => ?_⟩
    simp [capAllows, Id.ISTAT, Id.OSTAT, Id.TEXT, Id.OUT, Id.LED, Id.BUZ]
    simp at hc
    intro h1; simpa using fun h2 => h1 (hc h2)
  · intro hid
    refine Classical.byContradiction fun hc => hn ⟨by rcases hid with rfl | rfl | rfl <;> simp, fun c => ?_⟩
    rcases hid with rfl | rfl | rfl <;>
      simp [capAllows, Id.ISTAT, Id.OSTAT, Id.TEXT, Id.OUT, Id.LED, Id.BUZ, Id.KEYSET, Id.CHLNG, Id.SCRYPT] <;>
      simpa using hc

theorem dispatch_lacks {p : Pd} {env : Env} {body : List Byte} (hp : p.flags.pdMode = true)
    (h : ¬ Declared p.cap p.cmdId) : ∃ code, dispatch p env body = .ok (setNak p code, [], .reply) := by
  obtain ⟨hid, hc⟩ := lacks h
  have hb : ∃ code, badLen p = .ok (setNak p code, [], .reply) := ⟨_, rfl⟩
  obtain ⟨code, hcap⟩ := capOk_lacks (hc none)
  unfold dispatch
  rcases hid with e | e | e | e | e | e <;> rw [e]
  · dsimp only
    rw [if_neg (by decide), if_neg (by decide), if_pos rfl]
    split
    · exact hb
    · rw [hcap]; exact ⟨_, rfl⟩
  · dsimp only
    rw [if_neg (by decide), if_neg (by decide), if_neg (by decide), if_pos rfl]
    split
    · exact hb
    · rw [hcap]; exact ⟨_, rfl⟩
  · dsimp only
    rw [if_neg (by decide), if_neg (by decide), if_neg (by decide), if_neg (by decide), if_neg (by decide),
      if_neg (by decide), if_neg (by decide), if_neg (by decide), if_neg (by decide), if_neg (by decide), if_pos rfl]
    unfold textCmd
    split
    · exact hb
    · split
      · split
        · exact hb
        · dsimp only
          obtain ⟨code, hcap⟩ := capOk_lacks (hc (some _))
          rw [hcap]
          exact ⟨code, rfl⟩
      · exact hb
  · dsimp only
    rw [if_neg (by decide), if_neg (by decide), if_neg (by decide), if_neg (by decide), if_neg (by decide),
      if_neg (by decide), if_neg (by decide), if_neg (by decide), if_neg (by decide), if_neg (by decide),
      if_neg (by decide), if_neg (by decide), if_neg (by decide), if_neg (by decide), if_neg (by decide),
      if_neg (by decide), if_neg (by decide), if_pos rfl]
    unfold keysetCmd
    split
    · exact hb
    · dsimp only
      split
      · exact hb
      · obtain ⟨code', hcap'⟩ := capOk_lacks (p := setNak p Nak.SC_COND) (hc none)
        rw [hcap', setNak_setNak hp]
        exact ⟨code', rfl⟩
  · dsimp only
    rw [if_neg (by decide), if_neg (by decide), if_neg (by decide), if_neg (by decide), if_neg (by decide),
      if_neg (by decide), if_neg (by decide), if_neg (by decide), if_neg (by decide), if_neg (by decide),
      if_neg (by decide), if_neg (by decide), if_neg (by decide), if_neg (by decide), if_neg (by decide),
      if_neg (by decide), if_neg (by decide), if_neg (by decide), if_pos rfl]
    unfold chlngCmd
    split
    · exact hb
    · rw [hcap]; exact ⟨_, rfl⟩
  · dsimp only
    rw [if_neg (by decide), if_neg (by decide), if_neg (by decide), if_neg (by decide), if_neg (by decide),
      if_neg (by decide), if_neg (by decide), if_neg (by decide), if_neg (by decide), if_neg (by decide),
      if_neg (by decide), if_neg (by decide), if_neg (by decide), if_neg (by decide), if_neg (by decide),
      if_neg (by decide), if_neg (by decide), if_neg (by decide), if_neg (by decide), if_pos rfl]
    unfold scryptCmd
    split
    · exact hb
    · rw [hcap]; exact ⟨_, rfl⟩

/-! ## The property -/

/-- **C34, partial** (rejected by the application).  In whatever state the PD is and whatever arrives: when
the application is asked in this refresh to carry out a command other than OUT, LED, BUZ or a file
transfer and rejects it, everything the PD transmits is a NAK.  For OUT, LED and BUZ the code
acknowledges (see below). -/
theorem C34_rejected_is_nak_partial (C : Cipher) (p q : Pd) (env : Env) (outs : List Out) (c : Cmd)
    (cb : Nat → Cmd → Int × Cmd) (hp : p.flags.pdMode = true) (h : refresh C p env = .ok (q, outs))
    (hcb : env.cb = some cb) (hc : Out.cmd c ∈ outs) (hr : (cb 0 c).1 ≠ 0)
    (hone : Single c) :
    ∀ bs, Out.send bs ∈ outs → ∃ r : Packet, r.id = some (b8 Id.NAK) ∧ bs = r.bytes.take env.sendCap := by
  obtain ⟨p1, o1, ret, o2, hg, hp1, hf, rfl⟩ := refresh_inv hp h
  have hno : ∀ c, Out.cmd c ∉ o2 := fun c hc => by
    rcases finished_outs hf _ hc with h | h | ⟨_, h⟩ <;> cases h
  have hc1 : Out.cmd c ∈ o1 := by
    rcases List.mem_append.mp hc with h | h
    · exact h
    · exact absurd h (hno c)
  cases hg with
  | nothing _ _ _ => cases hc1
  | skip _ _ => cases hc1
  | seq _ _ => cases hc1
  | refused _ _ _ _ _ => cases hc1
  | insecure _ _ _ _ _ _ _ => cases hc1
  | @command x1 p2 _ d id body _ _ _ _ _ _ _ _ _ _ _ hdis hout =>
    have hone' : OneAtATime (noteCmd p2 id).cmdId ∧ ∀ bs, Out.send bs ∉ o1 := by
      cases hout with
      | plain hpl hsp =>
        obtain ⟨c', hcc, hleg⟩ := hpl.outs _ hc1
        injection hcc with hcc; subst hcc
        refine ⟨?_, fun bs hb => by obtain ⟨c', h, -⟩ := hpl.outs _ hb; cases h⟩
        have hnf : (noteCmd p2 id).cmdId ≠ Id.FILETRANSFER := by
          intro hn
          have := (hsp (by rw [hn]; decide)).1
          rw [this] at hc1; cases hc1
        cases c with
        | output _ => exact hone.elim
        | led _ => exact hone.elim
        | buzzer _ => exact hone.elim
        | fileTx _ => exact hone.elim
        | text _ => rw [OneAtATime, hleg.1]; decide
        | comset _ => rw [OneAtATime, hleg.1]; decide
        | mfg _ => rw [OneAtATime, show (noteCmd p2 id).cmdId = Id.MFG from hleg]; decide
        | keyset _ => rw [OneAtATime, hleg.1]; decide
        | status s =>
          rcases hleg.2.2 with h | h | h | h <;> rw [OneAtATime, h.1] <;> decide
        | bad _ => exact False.elim hleg
      | poll _ _ => cases hc1
      | rxsize _ _ _ _ _ => cases hc1
      | keep _ _ _ _ _ => cases hc1
      | abort _ _ =>
        exfalso
        unfold File.abort at hc1
        split at hc1
        · cases hc1
        · split at hc1 <;> simp at hc1
      | file _ htx =>
        exfalso
        obtain ⟨x, rfl⟩ := txDecode_cmd htx hc1
        exact hone
      | chlng _ _ _ _ => cases hc1
      | scrypt _ _ _ _ _ => cases hc1
    obtain ⟨hnak, hret⟩ := dispatch_rejected hcb hc1 hr hone'.1 hdis
    intro bs hbs
    rcases List.mem_append.mp hbs with h | h
    · exact absurd h (hone'.2 bs)
    · exact (refused_reply hnak hf).2 bs h

/-- **C34, partial** (lacking the capability).  A PD without secure channel receives a command for which
it has not declared the capability (input or output status, text, KEYSET and the handshake commands).
It executes nothing and answers with one packet, a NAK.  Missing: OUT, LED and BUZ, which the code
acknowledges (see below). -/
theorem C34_incapable_is_nak_partial (C : Cipher) (p : Pd) (k : Packet) (env : Env) (d0 : Byte) (body : List Byte)
    (hl : Listening p) (hk : ForUs p k) (ha : Arrives env k.bytes)
    (hs : Phy.hasBit k.ctl Phy.CTL_SCB = false) (hscb : k.scb = []) (hd : k.data = d0 :: body)
    (henf : p.flags.enforceSecure = false) (hm : 69 ≤ p.txBufSize) (hcap : 256 ≤ env.sendCap)
    (hno : ¬ Declared p.cap d0.toNat) :
    ∃ q outs r code, refresh C p env = .ok (q, outs) ∧ (∀ c, Out.cmd c ∉ outs) ∧ sent outs = [Packet.bytes r] ∧
      Answers p.address.toNat k r [b8 Id.NAK, code] := by
  obtain ⟨h, hh, hrec⟩ := receive_listening C p k env d0 body hl hk ha hs hscb hd
  obtain ⟨code, hdis⟩ := dispatch_lacks (p := noteCmd (accepted p k h) d0) (env := env) (body := body)
    (accepted_fields k h hl).1 hno
  obtain ⟨q, outs, r, h1, h2, h3, h4⟩ := refresh_refused C p (setNak (noteCmd (accepted p k h) d0) code) k env h code
    hl hh hm hcap (by
      rw [hrec]
      unfold commanded
      have hpr : plainRefused (noteCmd (accepted p k h) d0) = false := by
        unfold plainRefused
        have : (noteCmd (accepted p k h) d0).flags.enforceSecure = false := henf
        rw [this]; rfl
      rw [hpr]
      simp only [Bool.false_eq_true, if_false]
      exact hdis) ⟨d0, rfl⟩
  exact ⟨q, outs, r, code, h1, h2, h3, h4⟩

/-- Non-vacuity of the first theorem: a TEXT command rejected by the application. -/
example : outcomeOf (refresh Aes.aes Sample.pd (Sample.envRej (Sample.cmd 0 [b8 Id.TEXT, 0, 1, 0, 1, 1, 1, 65]))) =
    some ([.text ⟨0, 1, 0, 1, 1, 1, .padTo 32 [65]⟩], [Packet.bytes ⟨true, 0xE5#8, 4#8, [], [b8 Id.NAK, Nak.RECORD]⟩]) := by
  decide +kernel

/-- Non-vacuity of the second theorem: the sample PD without its text capability. -/
example : ¬ Declared ({ Sample.pd with cap := fun _ => ⟨0, 0, 0⟩ } : Pd).cap Id.TEXT ∧
    Listening { Sample.pd with cap := fun _ => ⟨0, 0, 0⟩ } := by
  refine ⟨fun h => (h.2.2.1 rfl).1 rfl, ⟨rfl, ⟨rfl, rfl, by decide +kernel, rfl⟩, rfl, rfl, by decide⟩⟩

/-- The full statement is violated: the application rejects an OUT, LED or BUZ command, the PD
acknowledges it. -/
theorem C34_rejected_acknowledged :
    outcomeOf (refresh Aes.aes Sample.pd (Sample.envRej (Sample.cmd 0 [b8 Id.BUZ, 0, 1, 2, 3, 4]))) =
      some ([.buzzer ⟨0, 1, 2, 3, 4⟩], [Packet.bytes ⟨true, 0xE5#8, 4#8, [], [b8 Id.ACK]⟩]) ∧
    outcomeOf (refresh Aes.aes Sample.pd (Sample.envRej (Sample.cmd 0 [b8 Id.OUT, 0, 1, 2, 0]))) =
      some ([.output ⟨0, 1, 2⟩], [Packet.bytes ⟨true, 0xE5#8, 4#8, [], [b8 Id.ACK]⟩]) := by
  constructor <;> decide +kernel

/-- ... and so is an OUT command for an output the PD does not have. -/
theorem C34_incapable_acknowledged :
    outcomeOf (refresh Aes.aes Sample.pd (Sample.env (Sample.cmd 0 [b8 Id.OUT, 7, 1, 2, 0]))) =
      some ([], [Packet.bytes ⟨true, 0xE5#8, 4#8, [], [b8 Id.ACK]⟩]) := by
  decide +kernel

end Osdp.PdM
