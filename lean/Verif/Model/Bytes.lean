import Verif.Model.Base

/-!
# Fixed-size byte arrays (`uint8_t x[n]`)
-/

namespace Osdp

/-- `uint8_t x[n]`: a byte list of length exactly `n`. -/
abbrev Bytes (n : Nat) := { l : List Byte // l.length = n }

/-- a 16-byte cipher block / key -/
abbrev Block := Bytes 16
/-- 8 bytes (random numbers, client id) -/
abbrev Half := Bytes 8

namespace Bytes

/-- `memset(x, b, n)` -/
def fill (n : Nat) (b : Byte) : Bytes n := ⟨List.replicate n b, by simp⟩

/-- all-zero array -/
def zero (n : Nat) : Bytes n := fill n 0#8

/-- concatenation of two 8-byte arrays -/
def join (a b : Half) : Block := ⟨a.1 ++ b.1, by simp [a.2, b.2]⟩

/-- bytewise xor -/
def xor {n : Nat} (a b : Bytes n) : Bytes n :=
  ⟨List.zipWith (· ^^^ ·) a.1 b.1, by simp [a.2, b.2]⟩

/-- bytewise complement -/
def compl {n : Nat} (a : Bytes n) : Bytes n := ⟨a.1.map (~~~ ·), by simp [a.2]⟩

/-- `memcpy(x, l, n)`; `none` if `l` has fewer than `n` bytes -/
def ofPrefix? (n : Nat) (l : List Byte) : Option (Bytes n) :=
  if h : n ≤ l.length then some ⟨l.take n, by simp [h]⟩ else none

/-- the first `n` bytes of `l`, zero-filled when `l` is shorter (struct members the code leaves
unwritten are modelled as zero) -/
def padTo (n : Nat) (l : List Byte) : Bytes n :=
  ⟨l.take n ++ List.replicate (n - l.length) 0#8, by simp; omega⟩

theorem xor_xor {n : Nat} (a b : Bytes n) : xor (xor a b) b = a := by
  apply Subtype.ext
  simp only [xor]
  apply List.ext_getElem
  · simp [a.2, b.2]
  · intro i h1 h2
    simp [BitVec.xor_assoc]

end Bytes

/-- A block cipher: `enc`/`dec` with 16-byte keys and blocks, decryption inverting
encryption.  The protocol model is parametric in it; `Verif/Props/C14.lean` proves the bundled
AES to be an instance. -/
structure Cipher where
  enc : Block → Block → Block
  dec : Block → Block → Block
  dec_enc : ∀ k b, dec k (enc k b) = b

end Osdp
