import Verif.Model.Life

/-!
# Specification: what is taken must be given back, once

Reads only the list of what was done to resources.
-/

namespace Osdp.Spec.Ledger
open Osdp.Life (Ev Call)

/-- What is held after a list of events, starting from what is held now; `none` if something was used
or given back that was not held. -/
def held : List Nat → List Ev → Option (List Nat)
  | L, [] => some L
  | L, .got b :: ev => held (b :: L) ev
  | L, .uses b :: ev => if b ∈ L then held L ev else none
  | L, .gave b :: ev => if b ∈ L then held (L.erase b) ev else none

/-- Whether the transfers have closed their files at the end, and no PD is given new file operations
in the middle of one; `O` are the PDs with a file open. -/
def tidy (O : List Nat) : List Call → Prop
  | [] => O = []
  | .register i :: ks => i ∉ O ∧ tidy O ks
  | .opens i :: ks => tidy (i :: O) ks
  | .closes i :: ks => tidy (O.filter (· ≠ i)) ks
  | .add _ :: ks => tidy O ks
  | .traffic _ :: ks => tidy O ks

instance tidyDec : ∀ (O : List Nat) (ks : List Call), Decidable (tidy O ks)
  | O, [] => inferInstanceAs (Decidable (O = []))
  | O, .register i :: ks => @instDecidableAnd (i ∉ O) _ _ (tidyDec O ks)
  | O, .opens i :: ks => tidyDec (i :: O) ks
  | O, .closes i :: ks => tidyDec (O.filter (· ≠ i)) ks
  | O, .add _ :: ks => tidyDec O ks
  | O, .traffic _ :: ks => tidyDec O ks

/-- Whether every call that asked for a capturing PD was told yes. -/
def heeded (ks : List Call) (rs : List Bool) : Prop :=
  ∀ x ∈ ks.zip rs, ∀ is, x.1 = .add is → (∃ i ∈ is, i.capture = true) → x.2 = true

/-- Whether some PD is to be captured in these calls. -/
def captures (ks : List Call) : Prop := ∃ is, Call.add is ∈ ks ∧ ∃ i ∈ is, i.capture = true

end Osdp.Spec.Ledger
