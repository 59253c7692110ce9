/-!
# Base definitions shared by all model files

Bytes, faults (undefined behaviour and aborts are distinct outcomes) and the
byte-splitting helpers of the C code.
-/

namespace Osdp

/-- `uint8_t`. -/
abbrev Byte := BitVec 8

/-- Everything that is not a normal return in C.  None of these is ever mapped
to an ordinary value by the model. -/
inductive Fault where
  /-- a read outside the object being read -/
  | oobRead
  /-- a write outside the object being written -/
  | oobWrite
  /-- NULL pointer dereference / call through a NULL function pointer -/
  | nullDeref
  /-- `__ASSERT` failed -/
  | assertFail
  /-- `BUG()`/`die()` reached, process exits -/
  | bug
  /-- `ephemeral_data` read as another type than it was written as -/
  | typePun
  /-- shift by a negative amount or by at least the width of the type -/
  | badShift
  /-- the application broke the contract of a callback (e.g. `recv` returned
  more bytes than asked for) -/
  | contract
  deriving DecidableEq, Repr

/-- Result of a model function that may fault. -/
abbrev Res (α : Type) := Except Fault α

deriving instance DecidableEq for Except

@[simp] theorem Res.ok_bind {α β} (a : α) (f : α → Res β) :
    ((Except.ok a : Res α) >>= f) = f a := rfl
@[simp] theorem Res.pure_bind {α β} (a : α) (f : α → Res β) :
    ((pure a : Res α) >>= f) = f a := rfl
@[simp] theorem Res.error_bind {α β} (e : Fault) (f : α → Res β) :
    ((Except.error e : Res α) >>= f) = Except.error e := rfl
@[simp] theorem Res.pure_eq {α} (a : α) : (pure a : Res α) = Except.ok a := rfl
@[simp] theorem Res.throw_eq {α} (e : Fault) : (throw e : Res α) = Except.error e := rfl

theorem Res.bind_eq_ok {α β} {x : Res α} {f : α → Res β} {b : β} :
    (x >>= f) = .ok b ↔ ∃ a, x = .ok a ∧ f a = .ok b := by
  cases x with
  | error e => simp
  | ok a => simp

/-- The byte with numeric value `n` modulo 256 (C conversion to `uint8_t`). -/
abbrev b8 (n : Nat) : Byte := BitVec.ofNat 8 n

/-- src/osdp_common.h:62-65 `BYTE_0` .. `BYTE_3`: byte `k` of an unsigned value. -/
def byteOf (k n : Nat) : Byte := BitVec.ofNat 8 (n >>> (8 * k))

/-- Conversion of a C `int` to `uint8_t`. -/
def i8 (n : Int) : Byte := BitVec.ofInt 8 n

/-- Conversion of a C `int` to an unsigned 32-bit value. -/
def u32 (n : Int) : Nat := (n % 4294967296).toNat

/-- Value of a `uint32_t` converted to `int` (two's complement). -/
def toI32 (n : Nat) : Int := (BitVec.ofNat 32 n).toInt

/-- little endian 16-bit write -/
def le16 (n : Nat) : List Byte := [byteOf 0 n, byteOf 1 n]

/-- little endian 32-bit write -/
def le32 (n : Nat) : List Byte := [byteOf 0 n, byteOf 1 n, byteOf 2 n, byteOf 3 n]

/-- value of little endian bytes -/
def ofLe : List Byte → Nat
  | [] => 0
  | b :: bs => b.toNat + 256 * ofLe bs

/-- Signed view of a 32-bit pattern assembled from bytes by shifts into an `int`
(`buf[0] | buf[1] << 8 | buf[2] << 16 | buf[3] << 24`). -/
def ofLe32i (bs : List Byte) : Int := toI32 (ofLe bs)

/-- Checked byte read `buf[i]`. -/
def rd (buf : List Byte) (i : Nat) : Res Byte :=
  match buf[i]? with
  | some b => .ok b
  | none => .error .oobRead

end Osdp
