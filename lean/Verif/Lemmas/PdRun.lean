import Verif.Model.PdRun
import Verif.Lemmas.PdConst

/-! # Invariants over histories of a PD -/

namespace Osdp.PdM

/-- An invariant of single calls holds over histories, and so does a property of the effects. -/
theorem run_inv {C : Cipher} (I : Pd → Prop) (G : Out → Prop) {ops : List Op}
    (hstep : ∀ p op q outs, op ∈ ops → I p → step C p op = .ok (q, outs) → I q ∧ ∀ o ∈ outs, G o)
    {p q : Pd} {outs : List Out} (hp : I p) (h : run C p ops = .ok (q, outs)) : I q ∧ ∀ o ∈ outs, G o := by
  induction ops generalizing p outs with
  | nil =>
    injection h with h; injection h with h1 h2; subst h1 h2
    exact ⟨hp, by simp⟩
  | cons op ops ih =>
    obtain ⟨⟨p1, o1⟩, h1, h⟩ := Res.bind_eq_ok.mp h
    obtain ⟨⟨p2, o2⟩, h2, h⟩ := Res.bind_eq_ok.mp h
    injection h with h; injection h with e1 e2; subst e1 e2
    obtain ⟨i1, g1⟩ := hstep p op p1 o1 (by simp) hp h1
    obtain ⟨i2, g2⟩ := ih (fun p op' q outs hm => hstep p op' q outs (List.mem_cons_of_mem _ hm)) i1 h2
    refine ⟨i2, fun o ho => ?_⟩
    rw [List.mem_append] at ho
    exact ho.elim (g1 o) (g2 o)

theorem step_pdMode {C : Cipher} {p q : Pd} {op : Op} {outs : List Out} (hp : p.flags.pdMode = true)
    (h : step C p op = .ok (q, outs)) : q.flags.pdMode = true := by
  cases op with
  | refresh env =>
    have e := congrArg Config.pdMode (config_refresh hp h)
    exact e.trans hp
  | notify e =>
    injection h with h; injection h with e1 e2; subst e1
    unfold notifyEvent; split <;> exact hp
  | flush => injection h with h; injection h with e1 e2; subst e1; exact hp
  | setCaps l => injection h with h; injection h with e1 e2; subst e1; exact hp
  | fileOps => injection h with h; injection h with e1 e2; subst e1; exact hp

theorem setup_pdMode {info : Info} {sk : Bool} {n : Nat} {p : Pd} (h : setup info sk n = some p) :
    p.flags.pdMode = true := by
  unfold setup at h
  split at h
  · cases h
  · injection h with h; subst h; rfl

end Osdp.PdM
