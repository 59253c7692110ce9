import Verif.Model.Aes
import Verif.Model.Cbc

/-!
# C14: the bundled AES-128 decryption inverts encryption
-/

namespace Osdp.Aes

theorem rsbox_sbox : ∀ b : Byte, rsbox (sbox b) = b := by decide +kernel
theorem sbox_rsbox : ∀ b : Byte, sbox (rsbox b) = b := by decide +kernel

theorem Word.map_map {f g : Byte → Byte} (h : ∀ b, f (g b) = b) (w : Word) :
    (w.map g).map f = w := by
  simp [Word.map, h]

theorem invSubBytes_subBytes (s : State) : invSubBytes (subBytes s) = s := by
  simp [invSubBytes, subBytes, Word.map_map rsbox_sbox]

theorem subBytes_invSubBytes (s : State) : subBytes (invSubBytes s) = s := by
  simp [invSubBytes, subBytes, Word.map_map sbox_rsbox]

theorem invShiftRows_shiftRows (s : State) : invShiftRows (shiftRows s) = s := rfl
theorem shiftRows_invShiftRows (s : State) : shiftRows (invShiftRows s) = s := rfl

theorem Word.xor_xor (u v : Word) : (u.xor v).xor v = u := by
  simp [Word.xor, BitVec.xor_assoc]

theorem addRoundKey_twice (k s : State) : addRoundKey k (addRoundKey k s) = s := by
  simp [addRoundKey, Word.xor_xor]

/-! MixColumns by linearity -/

theorem xtime_eq (x : Byte) : xtime x = (x <<< 1) ^^^ (if x.msb then 0x1b#8 else 0#8) := by
  revert x; decide +kernel

theorem xtime_xor (x y : Byte) : xtime (x ^^^ y) = xtime x ^^^ xtime y := by
  have c : ∀ p a b : Byte, (a ^^^ p) ^^^ (b ^^^ p) = a ^^^ b := by
    intro p a b; ext i; simp; cases a[i] <;> cases b[i] <;> cases p[i] <;> rfl
  rw [xtime_eq, xtime_eq, xtime_eq, BitVec.msb_xor, BitVec.shiftLeft_xor_distrib]
  generalize x <<< 1 = u
  generalize y <<< 1 = v
  cases x.msb <;> cases y.msb <;> simp [c]
  all_goals ac_rfl

theorem mul_01_xor (m x y : Byte) : (m &&& 1#8) * (x ^^^ y) = ((m &&& 1#8) * x) ^^^ ((m &&& 1#8) * y) := by
  have h : (m &&& 1#8) = 0#8 ∨ (m &&& 1#8) = 1#8 := by revert m; decide +kernel
  rcases h with h | h <;> simp [h]

theorem multiply_xor (x y m : Byte) : multiply (x ^^^ y) m = multiply x m ^^^ multiply y m := by
  simp only [multiply, xtime_xor, mul_01_xor]
  ac_rfl

theorem mixColumn_xor (u v : Word) : mixColumn (u.xor v) = (mixColumn u).xor (mixColumn v) := by
  simp only [mixColumn, Word.xor, xtime_xor, Word.mk.injEq]
  refine ⟨?_, ?_, ?_, ?_⟩ <;> ac_rfl

theorem invMixColumn_xor (u v : Word) :
    invMixColumn (u.xor v) = (invMixColumn u).xor (invMixColumn v) := by
  simp only [invMixColumn, Word.xor, multiply_xor, Word.mk.injEq]
  refine ⟨?_, ?_, ?_, ?_⟩ <;> ac_rfl

theorem Word.split (w : Word) :
    w = ((Word.mk w.b0 0 0 0).xor ⟨0, w.b1, 0, 0⟩).xor ((Word.mk 0 0 w.b2 0).xor ⟨0, 0, 0, w.b3⟩) := by
  simp [Word.xor]

theorem invMixColumn_mixColumn (w : Word) : invMixColumn (mixColumn w) = w := by
  have h0 : ∀ b : Byte, invMixColumn (mixColumn ⟨b, 0, 0, 0⟩) = ⟨b, 0, 0, 0⟩ := by decide +kernel
  have h1 : ∀ b : Byte, invMixColumn (mixColumn ⟨0, b, 0, 0⟩) = ⟨0, b, 0, 0⟩ := by decide +kernel
  have h2 : ∀ b : Byte, invMixColumn (mixColumn ⟨0, 0, b, 0⟩) = ⟨0, 0, b, 0⟩ := by decide +kernel
  have h3 : ∀ b : Byte, invMixColumn (mixColumn ⟨0, 0, 0, b⟩) = ⟨0, 0, 0, b⟩ := by decide +kernel
  conv => lhs; rw [Word.split w]
  rw [mixColumn_xor, mixColumn_xor, mixColumn_xor, invMixColumn_xor, invMixColumn_xor,
    invMixColumn_xor, h0, h1, h2, h3, ← Word.split]

theorem mixColumn_invMixColumn (w : Word) : mixColumn (invMixColumn w) = w := by
  have h0 : ∀ b : Byte, mixColumn (invMixColumn ⟨b, 0, 0, 0⟩) = ⟨b, 0, 0, 0⟩ := by decide +kernel
  have h1 : ∀ b : Byte, mixColumn (invMixColumn ⟨0, b, 0, 0⟩) = ⟨0, b, 0, 0⟩ := by decide +kernel
  have h2 : ∀ b : Byte, mixColumn (invMixColumn ⟨0, 0, b, 0⟩) = ⟨0, 0, b, 0⟩ := by decide +kernel
  have h3 : ∀ b : Byte, mixColumn (invMixColumn ⟨0, 0, 0, b⟩) = ⟨0, 0, 0, b⟩ := by decide +kernel
  conv => lhs; rw [Word.split w]
  rw [invMixColumn_xor, invMixColumn_xor, invMixColumn_xor, mixColumn_xor, mixColumn_xor,
    mixColumn_xor, h0, h1, h2, h3, ← Word.split]

theorem invMixColumns_mixColumns (s : State) : invMixColumns (mixColumns s) = s := by
  simp [invMixColumns, mixColumns, invMixColumn_mixColumn]

theorem mixColumns_invMixColumns (s : State) : mixColumns (invMixColumns s) = s := by
  simp [invMixColumns, mixColumns, mixColumn_invMixColumn]

/-- Undoing the rounds `r .. r+n` brings back the state before them. -/
theorem rounds_inverse (key : State) (n r : Nat) (s : State) :
    invCipherRounds key (r + n) (addRoundKey (roundKey key (r + 1 + n)) (cipherRounds key n (r + 1) s))
      = invCipherRounds key r (shiftRows (subBytes s)) := by
  induction n generalizing r s with
  | zero => simp [cipherRounds, addRoundKey_twice]
  | succ n ih =>
    have := ih (r + 1) (addRoundKey (roundKey key (r + 1)) (mixColumns (shiftRows (subBytes s))))
    rw [show r + (n + 1) = r + 1 + n by omega, show r + 1 + (n + 1) = r + 1 + 1 + n by omega]
    simp only [cipherRounds]
    rw [this]
    simp only [invCipherRounds, invShiftRows_shiftRows, invSubBytes_subBytes, addRoundKey_twice,
      invMixColumns_mixColumns]

theorem invCipher_cipher (key s : State) : invCipher key (cipher key s) = s := by
  unfold invCipher cipher
  have := rounds_inverse key 9 0 (addRoundKey (roundKey key 0) s)
  simp only [Nat.zero_add] at this
  rw [show (1 + 9 : Nat) = 10 from rfl] at this
  rw [this]
  simp [invCipherRounds, invShiftRows_shiftRows, invSubBytes_subBytes, addRoundKey_twice]

theorem ofBlock_toBlock (s : State) : ofBlock (toBlock s) = s := rfl

theorem toBlock_ofBlock (b : Block) : toBlock (ofBlock b) = b := by
  apply Subtype.ext
  obtain ⟨l, h⟩ := b
  match l, h with
  | [_, _, _, _, _, _, _, _, _, _, _, _, _, _, _, _], _ => rfl

/-- **C14 (block).** For every 128-bit key and block, decrypting the encrypted block gives it back. -/
theorem C14_decrypt_encrypt_block (key b : Block) : decBlock key (encBlock key b) = b := by
  simp [decBlock, encBlock, ofBlock_toBlock, invCipher_cipher, toBlock_ofBlock]

/-- The bundled AES as a `Cipher`. -/
def aes : Cipher where
  enc := encBlock
  dec := decBlock
  dec_enc := C14_decrypt_encrypt_block

end Osdp.Aes

namespace Osdp

theorem cbcDec_cbcEnc (C : Cipher) (key iv : Block) (bs : List Block) :
    cbcDec C key iv (cbcEnc C key iv bs) = bs := by
  induction bs generalizing iv with
  | nil => rfl
  | cons b bs ih => simp [cbcEnc, cbcDec, C.dec_enc, Bytes.xor_xor, ih]

/-- **C14 (CBC).** For every key, IV and sequence of blocks, CBC decryption under the same IV gives
the original back. -/
theorem C14_cbc_decrypt_encrypt (key iv : Block) (bs : List Block) :
    cbcDec Aes.aes key iv (cbcEnc Aes.aes key iv bs) = bs := cbcDec_cbcEnc _ _ _ _

/-- FIPS-197 appendix B vector: the model computes the real AES-128 (sanity check of the model). -/
example : (Aes.encBlock
    ⟨[0x2b, 0x7e, 0x15, 0x16, 0x28, 0xae, 0xd2, 0xa6, 0xab, 0xf7, 0x15, 0x88, 0x09, 0xcf, 0x4f, 0x3c], rfl⟩
    ⟨[0x32, 0x43, 0xf6, 0xa8, 0x88, 0x5a, 0x30, 0x8d, 0x31, 0x31, 0x98, 0xa2, 0xe0, 0x37, 0x07, 0x34], rfl⟩).1
    = [0x39, 0x25, 0x84, 0x1d, 0x02, 0xdc, 0x09, 0xfb, 0xdc, 0x11, 0x85, 0x97, 0x19, 0x6a, 0x0b, 0x32] := by
  decide +kernel

end Osdp
