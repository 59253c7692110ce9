import Verif.Model.Bytes

/-!
# CBC mode: src/crypto/tinyaes_src.c:492-529, src/crypto/tinyaes.c:17-47 (`iv != NULL`)

Parametric in the block cipher.
-/

namespace Osdp

/-- lines 501-514 `AES_CBC_encrypt_buffer` -/
def cbcEnc (C : Cipher) (key : Block) : Block → List Block → List Block
  | _, [] => []
  | iv, b :: bs =>
    let c := C.enc key (b.xor iv)
    c :: cbcEnc C key c bs

/-- lines 516-529 `AES_CBC_decrypt_buffer` -/
def cbcDec (C : Cipher) (key : Block) : Block → List Block → List Block
  | _, [] => []
  | iv, c :: cs => (C.dec key c).xor iv :: cbcDec C key c cs

/-- A buffer of `16 * n` bytes seen as blocks; a trailing partial block is dropped (callers only
pass whole blocks). -/
def toBlocks (l : List Byte) : List Block :=
  if h : 16 ≤ l.length then
    ⟨l.take 16, by simp [h]⟩ :: toBlocks (l.drop 16)
  else []
  termination_by l.length
  decreasing_by simp; omega

/-- The bytes of a sequence of blocks. -/
def ofBlocks (bs : List Block) : List Byte := bs.flatMap (·.1)

end Osdp
