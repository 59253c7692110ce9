import Verif.Lemmas.PdSeq
import Verif.Props.C36

/-! # Invariants of the states a PD can reach -/

namespace Osdp.PdM

open Phy (Framed)

theorem Reached.framed {C : Cipher} {info : Info} {q : Pd} (h : Reached C info q) : Framed q := by
  obtain ⟨sk, n, p, ops, o, hs, hr⟩ := h
  exact run_framed (setup_pdMode hs) (setup_framed hs).1 hr

theorem Reached.seqRange {C : Cipher} {info : Info} {q : Pd} (h : Reached C info q) : -1 ≤ q.seq ∧ q.seq ≤ 3 := by
  refine h.ind (fun q => -1 ≤ q.seq ∧ q.seq ≤ 3) ?_ ?_
  · intro sk n p hs
    unfold setup at hs
    split at hs
    · cases hs
    · injection hs with hs; subst hs
      show (-1 : Int) ≤ -1 ∧ (-1 : Int) ≤ 3
      decide
  · intro p op q outs hr hp hs
    cases op with
    | refresh env => exact refresh_seq hr.pdMode hr.framed hp hs
    | notify e =>
      injection hs with h; injection h with e1 e2; subst e1
      unfold notifyEvent; split <;> exact hp
    | flush => injection hs with h; injection h with e1 e2; subst e1; exact hp
    | setCaps l => injection hs with h; injection h with e1 e2; subst e1; exact hp
    | fileOps => injection hs with h; injection h with e1 e2; subst e1; exact hp

/-- the sample PD is a state after set-up -/
theorem sample_reached (C : Cipher) : Reached C Sample.pdInfo Sample.pd :=
  ⟨false, 16, Sample.pd, [], [], rfl, rfl⟩

end Osdp.PdM
