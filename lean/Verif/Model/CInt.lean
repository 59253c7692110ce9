import Verif.Model.Types

/-!
# Numbers read from packets, in the arithmetic of C

The other models take a number in a packet for what its bytes say (`ofLe`).  The code puts it together with shifts
of bytes, which are of type `int` after promotion: a shift whose result is not an `int` is undefined (C11 6.5.7).  Here the
expressions are followed shift by shift, for an `int` of 32 bits.  A body is the bytes behind the id; `buf[pos++]` is its next
byte.
-/

namespace Osdp.CInt

/-- `e << n`, `e` an `int` -/
def shl (e : Int) (n : Nat) : Res Int :=
  if 0 ≤ e ∧ n < 32 ∧ e * 2 ^ n ≤ 2147483647 then .ok (e * 2 ^ n) else .error .badShift

/-- `b << n`, `b` a `uint8_t` -/
def shlByte (b : Byte) (n : Nat) : Res Int := shl b.toNat n

/-- `e` converted to `uint32_t` -/
def u32 (e : Int) : BitVec 32 := BitVec.ofInt 32 e

/-- `v |= b << n`, `v` a `uint32_t` -/
def orIn (v : BitVec 32) (b : Byte) (n : Nat) : Res (BitVec 32) := do
  .ok (v ||| u32 (← shlByte b n))

/-- `v = b0; v |= b1 << 8; v |= b2 << 16`, `v` a `uint32_t`: src/osdp_cp.c:427-429 (vendor code), 615-617 (MFGREP),
src/osdp_pd.c:535-537 (MFG) -/
def read24 (b0 b1 b2 : Byte) : Res (BitVec 32) := do
  let v := u32 b0.toNat
  let v ← orIn v b1 8
  orIn v b2 16

/-- the same with `v |= b3 << 24`: src/osdp_cp.c:434-437 (serial number), 549-552 (COM), src/osdp_pd.c:506-509 (COMSET) -/
def read32 (b0 b1 b2 b3 : Byte) : Res (BitVec 32) := do
  let v ← read24 b0 b1 b2
  orIn v b3 24

/-- `v = b0 << 16; v |= b1 << 8; v |= b2`: src/osdp_cp.c:439-441 (firmware version) -/
def readBe24 (b0 b1 b2 : Byte) : Res (BitVec 32) := do
  let v := u32 (← shlByte b0 16)
  let v ← orIn v b1 8
  .ok (v ||| u32 b2.toNat)

/-- `a | b` of two values of type `int` -/
def or (a b : Int) : Int := (BitVec.ofInt 32 a ||| BitVec.ofInt 32 b).toInt

/-- `BYTES_TO_U16_LE`: src/osdp_common.h:91-94; also `v = b0; v |= b1 << 8` into a `uint16_t` or an `int`
(src/osdp_pd.c:406-407, 433-434, 564, 572; src/osdp_cp.c:466-467, 580-581): the value as an `int` -/
def word (b0 b1 : Byte) : Res Int := do
  let h ← shlByte b1 8
  let l ← shlByte b0 0
  .ok (or h l)

/-- `BYTES_TO_U32_LE` into a `uint32_t`: src/osdp_common.h:100-105 -/
def long (b0 b1 b2 b3 : Byte) : Res (BitVec 32) := do
  let x3 ← shlByte b3 24
  let x2 ← shlByte b2 16
  let x1 ← shlByte b1 8
  let x0 ← shlByte b0 0
  .ok (u32 (or (or (or x3 x2) x1) x0))

/-- src/osdp_cp.c:423-443 PDID (`none`: of another length) -/
def pdid : List Byte → Res (Option PdId)
  | [v0, v1, v2, m, v, s0, s1, s2, s3, f0, f1, f2] => do
    let vendor ← read24 v0 v1 v2
    let serial ← read32 s0 s1 s2 s3
    let fw ← readBe24 f0 f1 f2
    .ok (some { version := v.toNat, model := m.toNat, vendor := vendor.toNat, serial := serial.toNat, firmware := fw.toNat })
  | _ => .ok none

/-- src/osdp_pd.c:500-509 COMSET: address and baud rate (`none`: of another length) -/
def comset : List Byte → Res (Option (Byte × BitVec 32))
  | [a, b0, b1, b2, b3] => do .ok (some (a, ← read32 b0 b1 b2 b3))
  | _ => .ok none

/-- src/osdp_file.c:210-219: type, size, offset and length of a fragment (`none`: too short) -/
def fragment : List Byte → Res (Option (Byte × BitVec 32 × BitVec 32 × Int))
  | ty :: z0 :: z1 :: z2 :: z3 :: o0 :: o1 :: o2 :: o3 :: l0 :: l1 :: data =>
    if data = [] then .ok none
    else do
      let size ← long z0 z1 z2 z3
      let offset ← long o0 o1 o2 o3
      let length ← word l0 l1
      .ok (some (ty, size, offset, length))
  | _ => .ok none

/-- src/osdp_cp.c:487-489, 507-509: `status_mask |= !!buf[pos++] << i` from entry `i` on -/
def statusFrom (mask : BitVec 32) (i : Nat) : List Byte → Res (BitVec 32)
  | [] => .ok mask
  | b :: bs => do
    let e ← shl (if b ≠ 0#8 then 1 else 0) i
    statusFrom (mask ||| u32 e) (i + 1) bs

/-- src/osdp_cp.c:480-496, 501-513: the mask of a status report (`none`: too long) -/
def status (body : List Byte) : Res (Option (BitVec 32)) :=
  if body.length > 32 then .ok none else do .ok (some (← statusFrom 0#32 0 body))

end Osdp.CInt
