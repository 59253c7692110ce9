import Verif.Model.Crc

/-!
# C03: checksum
-/

namespace Osdp.Crc

/-- Sum of all bytes modulo 256 (specification). -/
def byteSum : List Byte → Byte
  | [] => 0
  | b :: bs => b + byteSum bs

theorem foldl_add (msg : List Byte) (c : Byte) :
    msg.foldl (fun c b => c + b) c = c + byteSum msg := by
  induction msg generalizing c with
  | nil => simp [byteSum]
  | cons b bs ih => simp only [List.foldl_cons, ih, byteSum]; ac_rfl

theorem computeChecksum_eq (msg : List Byte) : computeChecksum msg = - byteSum msg := by
  unfold computeChecksum
  rw [foldl_add, BitVec.neg_eq_not_add]
  simp

theorem byteSum_append (x y : List Byte) : byteSum (x ++ y) = byteSum x + byteSum y := by
  induction x with
  | nil => simp [byteSum]
  | cons b bs ih => simp only [List.cons_append, byteSum, ih]; ac_rfl

/-- **C03 (sum).** A message followed by its checksum sums to zero modulo 256. -/
theorem C03_checksum_sums_to_zero (msg : List Byte) :
    byteSum (msg ++ [computeChecksum msg]) = 0#8 := by
  rw [byteSum_append, computeChecksum_eq]
  simp [byteSum, BitVec.add_right_neg]

/-- **C03 (detection).** Replacing any one byte of a message (at any position) by a different value
changes the checksum. -/
theorem C03_checksum_detects_byte_change (pre post : List Byte) (b b' : Byte) (h : b ≠ b') :
    computeChecksum (pre ++ b :: post) ≠ computeChecksum (pre ++ b' :: post) := by
  rw [computeChecksum_eq, computeChecksum_eq]
  intro he
  apply h
  have := BitVec.neg_inj.mp he
  rw [byteSum_append, byteSum_append] at this
  exact BitVec.add_left_inj _ |>.mp (BitVec.add_right_inj _ |>.mp this)

/-- **C03 (whole frame).** In a frame `msg ++ [checksum]` that verifies, changing any one byte (the
checksum byte included) makes it not verify: its sum is no longer zero. -/
theorem C03_frame_byte_change (pre post : List Byte) (b b' : Byte) (h : b ≠ b')
    (hv : byteSum (pre ++ b :: post) = 0#8) : byteSum (pre ++ b' :: post) ≠ 0#8 := by
  rw [← hv, byteSum_append, byteSum_append]
  intro he
  apply h
  exact (BitVec.add_left_inj _ |>.mp (BitVec.add_right_inj _ |>.mp he)).symm

example : byteSum ([0x53#8, 0x01#8] ++ [computeChecksum [0x53#8, 0x01#8]]) = 0#8 := by decide
example : computeChecksum ([0x53#8] ++ 0x01#8 :: [0x07#8]) ≠ computeChecksum ([0x53#8] ++ 0x02#8 :: [0x07#8]) := by
  decide

end Osdp.Crc
