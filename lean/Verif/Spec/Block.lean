import Verif.Model.Base

/-!
# Packets whose security block does not fit

From the OSDP packet format: start byte, address, two length bytes, control byte; if bit 3 of the control byte is
set, a security block follows whose first byte is its own length and whose second byte is its type; then the
command id and its data; with an active secure channel and a block type from 0x15 on, four bytes of MAC; at the
end two bytes of CRC (bit 2 of the control byte set) or one byte of checksum.
-/

namespace Osdp.Spec.Block

/-- size of the check value -/
def checkLen (ctl : Byte) : Nat := if ctl.getLsbD 2 then 2 else 1

/-- The packet `k` (from its start byte) has a security block that leaves no room for a command id, or, with a
secure channel, for a command id and the MAC. -/
def Overlong (active : Bool) (k : List Byte) : Prop :=
  ∃ ctl sb, k[4]? = some ctl ∧ ctl.getLsbD 3 = true ∧ k[5]? = some sb ∧
    (k.length < 5 + sb.toNat + 1 + checkLen ctl ∨
      active = true ∧ (∃ ty, k[6]? = some ty ∧ 0x15 ≤ ty.toNat) ∧ k.length < 5 + sb.toNat + 1 + 4 + checkLen ctl)

end Osdp.Spec.Block
