import Verif.Model.Types

/-! # What a PD says about itself, as the OSDP specification has it: identity (PDID) and capabilities (PDCAP) -/

namespace Osdp.Spec.Ident

/-- The PDID reply has one byte for the model and one for the version, three for the vendor code, four for the serial number and
three for the firmware version. -/
def Fits (i : PdId) : Prop :=
  0 ≤ i.version ∧ i.version < 256 ∧ 0 ≤ i.model ∧ i.model < 256 ∧ i.vendor < 2 ^ 24 ∧ i.serial < 2 ^ 32 ∧ i.firmware < 2 ^ 24

/-- the part of an identity the reply carries -/
def carried (i : PdId) : PdId :=
  ⟨i.version % 256, i.model % 256, i.vendor % 2 ^ 24, i.serial % 2 ^ 32, i.firmware % 2 ^ 24⟩

/-- the capabilities every PD of this library has: CRC-16, AES-128, a receive buffer of 256 bytes, OSDP version 2 -/
def implicit : List Cap := [⟨8, 1, 0⟩, ⟨9, 1, 0⟩, ⟨10, 0, 1⟩, ⟨16, 2, 0⟩]

/-- what a PD whose application lists the capabilities `l` offers for a function code: the last entry counts, the implicit
capabilities take precedence; nothing (0, 0) if the list has no entry -/
def offered (l : List Cap) (k : Nat) : Byte × Byte :=
  match ((l ++ implicit).filter fun c => c.code.toNat = k).getLast? with
  | some c => (c.compliance, c.numItems)
  | none => (0, 0)

end Osdp.Spec.Ident
