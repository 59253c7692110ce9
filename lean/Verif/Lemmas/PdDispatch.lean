import Verif.Lemmas.PdStep
import Verif.Lemmas.Transp
import Verif.Lemmas.Ite

/-! # The command switch of the PD, case by case -/

namespace Osdp.PdM

open Phy (setNak)

theorem Plain.mono {p q : Pd} {al al' : Cmd → Prop} {outs : List Out} {ret : PdRet}
    (h : Plain p al q outs ret) (hm : ∀ c, al c → al' c) : Plain p al' q outs ret :=
  ⟨h.quiet, fun o ho => by obtain ⟨c, a, b⟩ := h.outs o ho; exact ⟨c, a, hm c b⟩, h.ret⟩

/-- the conditions under which the switch hands a command to the callback -/
def Legit (p : Pd) (c : Cmd) : Prop :=
  match c with
  | .output _ => p.cmdId = Id.OUT ∧ capAllows p.cap Id.OUT (some c) = true
  | .led _ => p.cmdId = Id.LED ∧ capAllows p.cap Id.LED (some c) = true
  | .buzzer _ => p.cmdId = Id.BUZ ∧ capAllows p.cap Id.BUZ (some c) = true
  | .text _ => p.cmdId = Id.TEXT ∧ capAllows p.cap Id.TEXT (some c) = true
  | .comset t => p.cmdId = Id.COMSET ∧ t.address.toNat < 0x7F ∧ validBaud t.baudRate.toNat = true
  | .mfg _ => p.cmdId = Id.MFG
  | .keyset _ => p.cmdId = Id.KEYSET ∧ capAllows p.cap Id.KEYSET none = true ∧ p.scActive = true
  | .status s => s.nrEntries = 0 ∧ s.mask = 0 ∧
      ((p.cmdId = Id.LSTAT ∧ s.type = .localStat) ∨ (p.cmdId = Id.RSTAT ∧ s.type = .remote) ∨
       (p.cmdId = Id.ISTAT ∧ s.type = .input ∧ capAllows p.cap Id.ISTAT none = true) ∨
       (p.cmdId = Id.OSTAT ∧ s.type = .output ∧ capAllows p.cap Id.OSTAT none = true))
  | .fileTx _ => False
  | .bad _ => False

/-- the ids of commands that change more than the pending reply -/
def Special (id : Nat) : Prop :=
  id ∈ [Id.POLL, Id.ACURXSIZE, Id.KEEPACTIVE, Id.ABORT, Id.FILETRANSFER, Id.CHLNG, Id.SCRYPT]

instance (id : Nat) : Decidable (Special id) := by unfold Special; infer_instance

/-- All outcomes of the command switch. -/
inductive Outcome (p : Pd) (env : Env) (body : List Byte) : Pd → List Out → PdRet → Prop
  /-- a command that only prepares a reply, or a refusal -/
  | plain {q outs ret} : Plain p (Legit p) q outs ret → (Special p.cmdId → outs = [] ∧ Refused q ret) →
      Outcome p env body q outs ret
  | poll : p.cmdId = Id.POLL → body = [] → Outcome p env body (pollEvent p) [] .none
  | rxsize (b0 b1 : Byte) (rest : List Byte) : p.cmdId = Id.ACURXSIZE → body = b0 :: b1 :: rest →
      Outcome p env body (setReply { p with peerRx := ofLe [b0, b1] } Id.ACK p.eph) [] .none
  | keep (b0 b1 : Byte) (rest : List Byte) : p.cmdId = Id.KEEPACTIVE → body = b0 :: b1 :: rest →
      Outcome p env body (setReply { p with scTstamp := p.scTstamp + ofLe [b0, b1] } Id.ACK p.eph) [] .none
  | abort : p.cmdId = Id.ABORT → body = [] →
      Outcome p env body (setReply { p with file := (File.abort p.file).1 } Id.ACK p.eph) (File.abort p.file).2 .none
  | file {r : File.Result} : p.cmdId = Id.FILETRANSFER → File.txDecode p.file env body = .ok r →
      Outcome p env body
        (if r.ok then setReply { p with file := r.file } Id.FTSTAT p.eph else { p with file := r.file })
        r.outs (if r.ok then .none else .wait)
  | chlng (rnd : Half) : p.cmdId = Id.CHLNG → body = rnd.1 → capAllows p.cap Id.CHLNG none = true →
      Outcome p env body (setReply { p.scDeactivate with sc := { p.sc with cpRandom := rnd } } Id.CCRYPT p.eph) [] .none
  | scrypt (cg : Block) : p.cmdId = Id.SCRYPT → body = cg.1 → capAllows p.cap Id.SCRYPT none = true →
      p.scActive = false →
      Outcome p env body (setReply { p with sc := { p.sc with cpCryptogram := cg } } Id.RMAC_I p.eph) [] .none

theorem outcome_badLen {p q : Pd} {env : Env} {body : List Byte} {outs : List Out} {ret : PdRet}
    (hp : p.flags.pdMode = true) (h : badLen p = .ok (q, outs, ret)) : Outcome p env body q outs ret := by
  have := plain_badLen (al := Legit p) hp (by simp) h
  obtain ⟨rfl, rfl, rfl⟩ := badLen_inv h
  exact .plain this fun _ => ⟨rfl, setNak_refused hp _⟩

theorem outcome_capOk {p q : Pd} {env : Env} {body : List Byte} (hp : p.flags.pdMode = true)
    (h : capOk p none = (q, false)) : Outcome p env body q [] .reply := by
  have hpl := plain_capOk (al := Legit p) hp h
  refine .plain hpl fun _ => ⟨rfl, ?_⟩
  rcases hpl.ret with h | h
  · cases h
  · exact h

theorem outcome_plain {p q : Pd} {env : Env} {body : List Byte} {al : Cmd → Prop} {outs : List Out} {ret : PdRet}
    (h : Plain p al q outs ret) (hs : ¬ Special p.cmdId) (hm : ∀ c, al c → Legit p c) :
    Outcome p env body q outs ret := .plain (h.mono hm) fun x => absurd x hs

theorem dispatch_outcome {p q : Pd} {env : Env} {body : List Byte} {outs : List Out} {ret : PdRet}
    (hp : p.flags.pdMode = true) (h : dispatch p env body = .ok (q, outs, ret)) :
    Outcome p env body q outs ret := by
  unfold dispatch at h
  dsimp only at h
  -- POLL
  replace h := ite_inv h
  rcases h with ⟨hid, h⟩ | ⟨-, h⟩
  · split at h
    · exact outcome_badLen hp h
    · rename_i hb
      obtain ⟨rfl, rfl, rfl⟩ := reply_inv h
      have hb : body = [] := by simpa using hb
      have := Outcome.poll (env := env) hid hb
      exact this
  replace h := ite_inv h
  rcases h with ⟨hid, h⟩ | ⟨-, h⟩
  · split at h
    · exact outcome_badLen hp h
    · refine outcome_plain (statusCmd_plain hp h) (by rw [hid]; decide) ?_
      rintro c rfl; exact ⟨rfl, rfl, .inl ⟨hid, rfl⟩⟩
  replace h := ite_inv h
  rcases h with ⟨hid, h⟩ | ⟨-, h⟩
  · split at h
    · exact outcome_badLen hp h
    · split at h
      · rename_i hc
        injection h with h; injection h with h1 h2; injection h2 with h2 h3; subst h1 h2 h3
        exact outcome_capOk hp hc
      · rename_i p1 hc
        obtain ⟨-, hal, he, -⟩ := capOk_quiet hc
        have he := he rfl; subst he
        refine outcome_plain (statusCmd_plain hp h) (by rw [hid]; decide) ?_
        rintro c rfl; exact ⟨rfl, rfl, .inr (.inr (.inl ⟨hid, rfl, by rw [← hid]; exact hal.symm⟩))⟩
  replace h := ite_inv h
  rcases h with ⟨hid, h⟩ | ⟨-, h⟩
  · split at h
    · exact outcome_badLen hp h
    · split at h
      · rename_i hc
        injection h with h; injection h with h1 h2; injection h2 with h2 h3; subst h1 h2 h3
        exact outcome_capOk hp hc
      · rename_i p1 hc
        obtain ⟨-, hal, he, -⟩ := capOk_quiet hc
        have he := he rfl; subst he
        refine outcome_plain (statusCmd_plain hp h) (by rw [hid]; decide) ?_
        rintro c rfl; exact ⟨rfl, rfl, .inr (.inr (.inr ⟨hid, rfl, by rw [← hid]; exact hal.symm⟩))⟩
  replace h := ite_inv h
  rcases h with ⟨hid, h⟩ | ⟨-, h⟩
  · split at h
    · exact outcome_badLen hp h
    · refine outcome_plain (statusCmd_plain hp h) (by rw [hid]; decide) ?_
      rintro c rfl; exact ⟨rfl, rfl, .inr (.inl ⟨hid, rfl⟩)⟩
  replace h := ite_inv h
  rcases h with ⟨hid, h⟩ | ⟨-, h⟩
  · split at h
    · exact outcome_badLen hp h
    · have hq := reply_quiet h
      obtain ⟨rfl, rfl, rfl⟩ := reply_inv h
      exact .plain ⟨hq, by simp, .inl rfl⟩ (fun x => absurd x (by rw [hid]; decide))
  replace h := ite_inv h
  rcases h with ⟨hid, h⟩ | ⟨-, h⟩
  · split at h
    · exact outcome_badLen hp h
    · have hq := reply_quiet h
      obtain ⟨rfl, rfl, rfl⟩ := reply_inv h
      exact .plain ⟨hq, by simp, .inl rfl⟩ (fun x => absurd x (by rw [hid]; decide))
  replace h := ite_inv h
  rcases h with ⟨hid, h⟩ | ⟨-, h⟩
  · refine outcome_plain (recordsCmd_plain hp h) (by rw [hid]; decide) ?_
    rintro c ⟨⟨bs, hb⟩, hal⟩
    unfold decOutput at hb
    split at hb
    · injection hb with hb; subst hb; exact ⟨hid, hid ▸ hal⟩
    · cases hb
  replace h := ite_inv h
  rcases h with ⟨hid, h⟩ | ⟨-, h⟩
  · refine outcome_plain (recordsCmd_plain hp h) (by rw [hid]; decide) ?_
    rintro c ⟨⟨bs, hb⟩, hal⟩
    unfold decLed at hb
    split at hb
    · injection hb with hb; subst hb; exact ⟨hid, hid ▸ hal⟩
    · cases hb
  replace h := ite_inv h
  rcases h with ⟨hid, h⟩ | ⟨-, h⟩
  · refine outcome_plain (recordsCmd_plain hp h) (by rw [hid]; decide) ?_
    rintro c ⟨⟨bs, hb⟩, hal⟩
    unfold decBuzzer at hb
    split at hb
    · injection hb with hb; subst hb; exact ⟨hid, hid ▸ hal⟩
    · cases hb
  replace h := ite_inv h
  rcases h with ⟨hid, h⟩ | ⟨-, h⟩
  · refine outcome_plain (textCmd_plain hp h) (by rw [hid]; decide) ?_
    rintro c ⟨⟨t, rfl⟩, hal⟩
    exact ⟨hid, hid ▸ hal⟩
  replace h := ite_inv h
  rcases h with ⟨hid, h⟩ | ⟨-, h⟩
  · refine outcome_plain (comsetCmd_plain hp h) (by rw [hid]; decide) ?_
    rintro c ⟨t, rfl, h1, h2⟩
    exact ⟨hid, h1, h2⟩
  replace h := ite_inv h
  rcases h with ⟨hid, h⟩ | ⟨-, h⟩
  · refine outcome_plain (mfgCmd_plain hp h) (by rw [hid]; decide) ?_
    rintro c ⟨t, rfl⟩
    exact hid
  replace h := ite_inv h
  rcases h with ⟨hid, h⟩ | ⟨-, h⟩
  · split at h
    · obtain ⟨rfl, rfl, rfl⟩ := reply_inv h
      exact .rxsize _ _ _ hid rfl
    · exact outcome_badLen hp h
  replace h := ite_inv h
  rcases h with ⟨hid, h⟩ | ⟨-, h⟩
  · split at h
    · obtain ⟨rfl, rfl, rfl⟩ := reply_inv h
      exact .keep _ _ _ hid rfl
    · exact outcome_badLen hp h
  replace h := ite_inv h
  rcases h with ⟨hid, h⟩ | ⟨-, h⟩
  · split at h
    · exact outcome_badLen hp h
    · rename_i hb
      obtain ⟨rfl, rfl, rfl⟩ := reply_inv h
      exact .abort hid (by simpa using hb)
  replace h := ite_inv h
  rcases h with ⟨hid, h⟩ | ⟨-, h⟩
  · obtain ⟨r, hr, h⟩ := Res.bind_eq_ok.mp h
    have := Outcome.file hid hr
    split at h
    · rename_i hok
      obtain ⟨rfl, rfl, rfl⟩ := reply_inv h
      rw [if_pos hok, if_pos hok] at this
      exact this
    · rename_i hok
      injection h with h; injection h with h1 h2; injection h2 with h2 h3; subst h1 h2 h3
      rw [if_neg hok, if_neg hok] at this
      exact this
  replace h := ite_inv h
  rcases h with ⟨hid, h⟩ | ⟨-, h⟩
  · refine outcome_plain (keysetCmd_plain hp h) (by rw [hid]; decide) ?_
    rintro c ⟨⟨t, rfl⟩, hal, hsc⟩
    exact ⟨hid, hid ▸ hal, hsc⟩
  replace h := ite_inv h
  rcases h with ⟨hid, h⟩ | ⟨-, h⟩
  · unfold chlngCmd at h
    split at h
    · exact outcome_badLen hp h
    · rename_i hl
      split at h
      · rename_i hc
        injection h with h; injection h with h1 h2; injection h2 with h2 h3; subst h1 h2 h3
        exact outcome_capOk hp hc
      · rename_i p1 hc
        obtain ⟨-, hal, he, -⟩ := capOk_quiet hc
        have he := he rfl; subst he
        obtain ⟨rfl, rfl, rfl⟩ := reply_inv h
        have := Outcome.chlng (env := env) ⟨body, by omega⟩ hid rfl (by rw [← hid]; exact hal.symm)
        exact this
  replace h := ite_inv h
  rcases h with ⟨hid, h⟩ | ⟨-, h⟩
  · unfold scryptCmd at h
    split at h
    · exact outcome_badLen hp h
    · rename_i hl
      split at h
      · rename_i hc
        injection h with h; injection h with h1 h2; injection h2 with h2 h3; subst h1 h2 h3
        exact outcome_capOk hp hc
      · rename_i p1 hc
        obtain ⟨-, hal, he, -⟩ := capOk_quiet hc
        have he := he rfl; subst he
        split at h
        · injection h with h; injection h with h1 h2; injection h2 with h2 h3; subst h1 h2 h3
          exact .plain ⟨setNak_quiet _ _, by simp, .inr (setNak_refused hp _)⟩ fun _ => ⟨rfl, setNak_refused hp _⟩
        · rename_i hsc
          obtain ⟨rfl, rfl, rfl⟩ := reply_inv h
          have := Outcome.scrypt (env := env) ⟨body, by omega⟩ hid rfl (by rw [← hid]; exact hal.symm) (by simpa using hsc)
          exact this
  · injection h with h; injection h with h1 h2; injection h2 with h2 h3; subst h1 h2 h3
    exact .plain ⟨setNak_quiet _ _, by simp, .inr (setNak_refused hp _)⟩ fun _ => ⟨rfl, setNak_refused hp _⟩

end Osdp.PdM
