import Verif.Lemmas.PdRefresh

/-! # What a PD never changes -/

namespace Osdp.PdM

open Phy (setNak checkPacket decodePacket stateReset Decoded Transp Collected Checked DecodedTo)

/-- the configuration of a PD -/
structure Config where
  cap : Fin 17 → Cap
  id : PdId
  poolCap : Nat
  hasFlush : Bool
  pdMode : Bool
  enforceSecure : Bool
  allowEmpty : Bool
  scCapable : Bool
  scDisabled : Bool
  skipSeqCheck : Bool
  skipMark : Bool

/-- the configuration of a PD object -/
def config (p : Pd) : Config :=
  ⟨p.cap, p.id, p.poolCap, p.hasFlush, p.flags.pdMode, p.flags.enforceSecure, p.flags.allowEmpty,
   p.flags.scCapable, p.flags.scDisabled, p.flags.skipSeqCheck, p.flags.skipMark⟩

theorem config_transp {p q : Pd} (h : Transp p q) : config q = config p := by rw [h]; rfl

theorem config_quiet {p q : Pd} (h : Quiet p q) : config q = config p := by obtain ⟨_, _, rfl⟩ := h; rfl

theorem config_expire (p : Pd) (now : Int) : config (expire p now) = config p := by
  unfold expire; split <;> rfl

theorem config_outcome {p q : Pd} {env : Env} {body : List Byte} {outs : List Out} {ret : PdRet}
    (h : Outcome p env body q outs ret) : config q = config p := by
  cases h with
  | plain hpl _ => exact config_quiet hpl.quiet
  | poll _ _ => unfold pollEvent; split <;> rfl
  | file _ _ => split <;> rfl
  | _ => rfl

theorem config_got {C : Cipher} {p q : Pd} {env : Env} {outs : List Out} {ret : PdRet}
    (h : Got C p env q outs ret) : config q = config p := by
  cases h with
  | nothing _ hc _ => exact config_transp hc.transp
  | skip _ hc => have e := config_transp hc.transp; exact e
  | seq _ hc => exact config_transp hc.transp
  | refused _ hc _ hd _ => exact (config_transp hd.transp).trans (config_transp hc.transp)
  | insecure _ hc _ hd _ _ _ =>
    exact (config_quiet (setNak_quiet _ _)).trans ((config_transp hd.transp).trans (config_transp hc.transp))
  | command _ hc _ hd _ _ _ _ _ _ hout =>
    exact (config_outcome hout).trans ((config_transp hd.transp).trans (config_transp hc.transp))

theorem config_built {C : Cipher} {p : Pd} {env : Env} {t : Phy.Tx} {b : Built} (h : BodyOutcome C p env t b) :
    config b.p = config p := by
  cases h <;> try rfl
  split <;> rfl

theorem config_sending {p q : Pd} (h : Phy.Sending p q) : config q = config p := by rw [h]; rfl

theorem config_sent {C : Cipher} {p q : Pd} {env : Env} {outs : List Out} {ok : Bool}
    (h : SendOutcome C p env q outs ok) : config q = config p := by
  cases h with
  | mute _ => rfl
  | built b q outs ok hb ho hh hs hc _ =>
    rw [config_sending hs, config_built ho]; rfl

theorem afterSend_inv {p q : Pd} {ok : Bool} (h : afterSend p ok = .ok q) :
    (q = (stateReset p false).1 ∧ ¬ (ok = true ∧ p.cmdId = Id.KEYSET ∧ p.replyId = Id.ACK)) ∨
    (ok = true ∧ p.cmdId = Id.KEYSET ∧ p.replyId = Id.ACK ∧ ∃ k, p.eph = .key k ∧
      q = (stateReset (Pd.scDeactivate { p with
        sc := { p.sc with scbk := k }
        flags := { p.flags with useScbkd := false, installMode := false } }) false).1) := by
  unfold afterSend at h
  replace h := ite_inv h
  rcases h with ⟨hok, h⟩ | ⟨hok, h⟩
  · obtain ⟨s, h1, h⟩ := Res.bind_eq_ok.mp h
    injection h with h; subst h
    unfold commitKeyset at h1
    replace h1 := ite_inv h1
    rcases h1 with ⟨hc, h1⟩ | ⟨hc, h1⟩
    · split at h1
      · rename_i k hk
        injection h1 with h1; subst h1
        exact .inr ⟨hok, hc.1, hc.2, k, hk, rfl⟩
      · cases h1
    · injection h1 with h1; subst h1
      exact .inl ⟨rfl, fun h => hc h.2⟩
  · injection h with h; subst h
    exact .inl ⟨rfl, fun h => hok h.1⟩

theorem config_afterSend {p q : Pd} {ok : Bool} (h : afterSend p ok = .ok q) : config q = config p := by
  rcases afterSend_inv h with ⟨rfl, -⟩ | ⟨-, -, -, k, -, rfl⟩ <;> rfl

theorem config_touch (p : Pd) (ret : PdRet) (now : Int) : config (touch p ret now) = config p := by
  unfold touch; split <;> rfl

theorem config_finished {C : Cipher} {p q : Pd} {env : Env} {ret : PdRet} {outs : List Out}
    (h : Finished C p env ret q outs) : config q = config p := by
  cases h with
  | keep _ => rfl
  | reset _ => rfl
  | reply _ hs ha => rw [config_afterSend ha, config_sent hs, config_touch]

theorem config_refresh {C : Cipher} {p q : Pd} {env : Env} {outs : List Out} (hp : p.flags.pdMode = true)
    (h : refresh C p env = .ok (q, outs)) : config q = config p := by
  obtain ⟨p1, o1, ret, o2, hg, hp1, hf, -⟩ := refresh_inv hp h
  rw [config_finished hf, config_got hg, config_expire]

/-! ### effects -/

/-- the effects of building and sending a reply -/
theorem sent_outs {C : Cipher} {p q : Pd} {env : Env} {outs : List Out} {ok : Bool}
    (h : SendOutcome C p env q outs ok) : ∀ o ∈ outs, o = .fclose ∨ o = .flush ∨ ∃ bs, o = .send bs := by
  cases h with
  | mute _ => simp
  | built b q outs ok hb ho hh hs hc _ =>
    intro o hmem
    rw [List.mem_append] at hmem
    rcases hmem with hmem | hmem
    · cases ho with
      | ftstat f outs r room hid hst =>
        unfold File.statBuild at hst
        split at hst
        · injection hst with hst; injection hst with _ hst; injection hst with hst _; subst hst; cases hmem
        · split at hst
          · injection hst with hst; injection hst with _ hst; injection hst with hst _; subst hst; cases hmem
          split at hst
          · injection hst with hst; injection hst with _ hst; injection hst with hst _; subst hst; cases hmem
          dsimp only at hst
          replace hst := ite_inv hst
          rcases hst with ⟨-, hst⟩ | ⟨-, hst⟩
          · cases hst
          replace hst := ite_inv hst
          rcases hst with ⟨-, hst⟩ | ⟨-, hst⟩
          · split at hst <;>
            · injection hst with hst; injection hst with _ hst; injection hst with hst _; subst hst
              exact .inl (List.mem_singleton.mp hmem)
          · injection hst with hst; injection hst with _ hst; injection hst with hst _; subst hst; cases hmem
      | _ => cases hmem
    · rcases hc with ⟨rfl, -⟩ | ⟨w, q', -, -, -, rfl, -⟩
      · cases hmem
      · unfold Phy.sendOuts at hmem
        rw [List.mem_append] at hmem
        rcases hmem with hmem | hmem
        · split at hmem
          · exact .inr (.inl (List.mem_singleton.mp hmem))
          · cases hmem
        · exact .inr (.inr ⟨_, List.mem_singleton.mp hmem⟩)

theorem finished_outs {C : Cipher} {p q : Pd} {env : Env} {ret : PdRet} {outs : List Out}
    (h : Finished C p env ret q outs) : ∀ o ∈ outs, o = .fclose ∨ o = .flush ∨ ∃ bs, o = .send bs := by
  cases h with
  | keep _ => simp
  | reset _ => simp
  | reply _ hs _ => exact sent_outs hs

end Osdp.PdM
