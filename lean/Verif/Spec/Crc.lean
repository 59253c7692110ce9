import Verif.Model.Base

/-!
# Specification: bit-serial CRC with generator x^16 + x^12 + x^5 + 1
-/

namespace Osdp.Spec.Crc

/-- Bits of a byte in polynomial order (most significant first). -/
def msbBits (b : Byte) : List Bool :=
  [b.getLsbD 7, b.getLsbD 6, b.getLsbD 5, b.getLsbD 4,
   b.getLsbD 3, b.getLsbD 2, b.getLsbD 1, b.getLsbD 0]

/-- Bits of a byte in the order a UART puts them on the line (least significant first). -/
def lsbBits (b : Byte) : List Bool := (msbBits b).reverse

/-- Shift one message bit into the remainder register. -/
def bitStep (s : BitVec 16) (b : Bool) : BitVec 16 :=
  if s.msb ^^ b then (s <<< 1) ^^^ 0x1021#16 else s <<< 1

/-- CRC of a bit string: register preset 0x1D0F. -/
def crcBits (bits : List Bool) : BitVec 16 := bits.foldl bitStep 0x1D0F#16

/-- CRC of a byte string. -/
def crc (msg : List Byte) : BitVec 16 := crcBits (msg.flatMap msbBits)

/-- `x` and `y` have equal length, differ, and all differences lie in a window of
`w` consecutive positions. -/
def BurstDiff (w : Nat) (x y : List Bool) : Prop :=
  ∃ pre mid mid' post, x = pre ++ mid ++ post ∧ y = pre ++ mid' ++ post ∧
    mid.length = mid'.length ∧ mid.length ≤ w ∧ mid ≠ mid'

/-- Bit `k` of a byte string as transmitted by a UART (least significant bit first). -/
def wireBit (m : List Byte) (k : Nat) : Bool := (m.getD (k / 8) 0#8).getLsbD (k % 8)

/-- `x` and `y` have equal length, differ, and all differing line bits lie in a window of
`w` consecutive line bits. -/
def WireBurst (w : Nat) (x y : List Byte) : Prop :=
  x.length = y.length ∧ x ≠ y ∧
    ∃ s, ∀ k, wireBit x k ≠ wireBit y k → s ≤ k ∧ k < s + w

/-- A frame is a message followed by its CRC, low byte first. -/
def frame (m : List Byte) (c : BitVec 16) : List Byte :=
  m ++ [c.setWidth 8, (c >>> 8).setWidth 8]

/-- A frame whose CRC field matches its contents. -/
def ValidFrame (x : List Byte) : Prop := ∃ m, x = frame m (crc m)

end Osdp.Spec.Crc
