import Verif.Model.Types

/-!
# Specification: OSDP sequence numbers

The first command carries 0, then 1, 2, 3, 1, 2, 3, ...  A PD accepts 0 at any time, the number it
accepted last (a repetition) and the one after it.
-/

namespace Osdp.Spec.Seq

/-- the number after `s`; `-1` stands for "nothing sent yet" -/
def succ (s : Int) : Int := if s < 3 then s + 1 else 1

/-- what a PD that accepted `last` accepts next (`-1`: nothing accepted yet) -/
def Acceptable (last : Int) (s : Nat) : Prop := s = 0 ∨ (s : Int) = last ∨ (s : Int) = succ last

instance (last : Int) (s : Nat) : Decidable (Acceptable last s) := by unfold Acceptable; infer_instance

end Osdp.Spec.Seq
