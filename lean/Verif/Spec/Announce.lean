import Verif.Model.Base

/-! # Announcing the size of one's receive buffer, as the OSDP specification has it

A PD does so by the entry with function code 10 of its PDCAP reply, a CP by the ACURXSIZE command. -/

namespace Osdp.Spec.Announce

/-- the entries of a PDCAP reply: function code, compliance level, number of objects -/
def entries : List Byte → List (Byte × Byte × Byte)
  | c :: l :: n :: rest => (c, l, n) :: entries rest
  | _ => []

/-- the size announced by a list of entries: least significant byte first; the last entry counts -/
def rxSize (es : List (Byte × Byte × Byte)) : Option Nat :=
  (es.filter fun e => e.1 = 10#8).getLast?.map fun e => e.2.1.toNat + 256 * e.2.2.toNat

/-- the entries a receiver that knows function codes up to 16 reads, if it stops at the first code it does not know -/
def known (es : List (Byte × Byte × Byte)) : List (Byte × Byte × Byte) := es.takeWhile fun e => e.1.toNat < 17

/-- a packet of `n` bytes may be sent to a peer which announced `a` (0: nothing, or no limit) -/
def Fits (n a : Nat) : Prop := n ≤ 256 ∧ (a ≠ 0 → n ≤ a)

end Osdp.Spec.Announce
