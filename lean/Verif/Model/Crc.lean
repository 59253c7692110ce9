import Verif.Model.Base

/-!
# CRC-16 and checksum: src/osdp_common.c:18-33, src/osdp_phy.c:82-93
-/

namespace Osdp.Crc

/-- One iteration of the loop at src/osdp_common.c:20-26 (`seed` is `uint16_t`). -/
def step (seed : BitVec 16) (b : Byte) : BitVec 16 :=
  let s1 := (seed >>> 8) ||| (seed <<< 8)
  let s2 := s1 ^^^ b.setWidth 16
  let s3 := s2 ^^^ ((s2 &&& 0xff#16) >>> 4)
  let s4 := s3 ^^^ (s3 <<< 12)
  s4 ^^^ ((s4 &&& 0xff#16) <<< 5)

/-- src/osdp_common.c:18-28 `crc16_itu_t`. -/
def crc16 (seed : BitVec 16) (src : List Byte) : BitVec 16 := src.foldl step seed

/-- src/osdp_common.c:30-33 `osdp_compute_crc16`. -/
def computeCrc16 (buf : List Byte) : BitVec 16 := crc16 0x1D0F#16 buf

/-- src/osdp_phy.c:82-93 `osdp_compute_checksum`: sum of the bytes, complemented, plus 1,
as `uint8_t`. -/
def computeChecksum (msg : List Byte) : Byte :=
  ~~~(msg.foldl (fun c b => c + b) 0#8) + 1#8

end Osdp.Crc
