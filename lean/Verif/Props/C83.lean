import Verif.Lemmas.AesCbc
import Verif.Props.C63
import Verif.Spec.Cbc

/-!
# C83: the bundled cipher works in place, on the blocks it is given and on nothing else

`Model/AesMem.lean` follows `tinyaes_src.c` store by store; an access outside an array faults.
-/

namespace Osdp.AesMem
open Osdp.Aes (aes encBlock decBlock)
open Osdp.Spec

/-! ### chaining, block by block -/

theorem block_of (bs : List Block) (post : List Byte) (j : Nat) (h : j < bs.length) :
    Cbc.block (ofBlocks bs ++ post) j = bs[j].1 := by
  induction bs generalizing j with
  | nil => exact absurd h (by simp)
  | cons b bs ih =>
    rw [show ofBlocks (b :: bs) = b.1 ++ ofBlocks bs by simp [ofBlocks], List.append_assoc]
    cases j with
    | zero => unfold Cbc.block; rw [Nat.mul_zero, List.drop_zero, List.take_left' b.2]; rfl
    | succ j =>
      have := ih j (by simpa using h)
      unfold Cbc.block at this ⊢
      rw [show 16 * (j + 1) = b.1.length + 16 * j by rw [b.2]; omega, List.drop_length_add_append, this]
      rfl

theorem cbcEnc_length (C : Cipher) (key iv : Block) (bs : List Block) : (cbcEnc C key iv bs).length = bs.length := by
  induction bs generalizing iv with
  | nil => rfl
  | cons b bs ih => simp [cbcEnc, ih]

theorem cbcDec_length (C : Cipher) (key iv : Block) (bs : List Block) : (cbcDec C key iv bs).length = bs.length := by
  induction bs generalizing iv with
  | nil => rfl
  | cons b bs ih => simp [cbcDec, ih]

theorem cbcEnc_get (C : Cipher) (key iv : Block) (bs : List Block) (j : Nat) (h : j < bs.length) :
    (cbcEnc C key iv bs)[j]'(by rw [cbcEnc_length]; exact h) =
      C.enc key (bs[j].xor (if j = 0 then iv else (cbcEnc C key iv bs)[j - 1]'(by rw [cbcEnc_length]; omega))) := by
  induction bs generalizing iv j with
  | nil => exact absurd h (by simp)
  | cons b bs ih =>
    cases j with
    | zero => rfl
    | succ j =>
      have := ih (C.enc key (b.xor iv)) j (by simpa using h)
      simp only [cbcEnc, List.getElem_cons_succ]
      rw [this]
      cases j with
      | zero => rfl
      | succ j => rfl

theorem chained_enc (key iv : Block) (bs : List Block) : Cbc.Chained key iv (ofBlocks bs) (ofBlocks (cbcEnc aes key iv bs)) := by
  refine ⟨by rw [ofBlocks_length, ofBlocks_length, cbcEnc_length], fun j hj => ?_⟩
  rw [ofBlocks_length] at hj
  have hj' : j < bs.length := by omega
  have hc : j < (cbcEnc aes key iv bs).length := by rw [cbcEnc_length]; exact hj'
  have hp := block_of bs [] j hj'
  have hq := block_of (cbcEnc aes key iv bs) [] j hc
  have hr := block_of (cbcEnc aes key iv bs) [] (j - 1) (by omega)
  rw [List.append_nil] at hp hq hr
  refine ⟨bs[j], if j = 0 then iv else (cbcEnc aes key iv bs)[j - 1]'(by omega), hp.symm, ?_, ?_⟩
  · by_cases h0 : j = 0
    · rw [if_pos h0, if_pos h0]
    · rw [if_neg h0, if_neg h0, hr]
  · rw [hq, cbcEnc_get aes key iv bs j hj', ← Aes.C63_aes_is_fips197]
    rfl

theorem cbcEnc_cbcDec (key iv : Block) (bs : List Block) : cbcEnc aes key iv (cbcDec aes key iv bs) = bs := by
  induction bs generalizing iv with
  | nil => rfl
  | cons b bs ih =>
    have h : aes.enc key (aes.dec key b) = b := by
      have := (Aes.C63_decrypt_is_inverse key b).1
      rwa [← Aes.C63_aes_is_fips197] at this
    rw [cbcDec, cbcEnc, Bytes.xor_xor, h, ih]

theorem chained_dec (key iv : Block) (bs : List Block) : Cbc.Chained key iv (ofBlocks (cbcDec aes key iv bs)) (ofBlocks bs) := by
  have := chained_enc key iv (cbcDec aes key iv bs)
  rwa [cbcEnc_cbcDec] at this

/-- whole blocks at the front of the data -/
theorem blocks_front {data : List Byte} {n : Nat} (h : 16 * n ≤ data.length) :
    ∃ bs : List Block, bs.length = n ∧ data = ofBlocks bs ++ data.drop (16 * n) ∧ data.take (16 * n) = ofBlocks bs := by
  have hl : (data.take (16 * n)).length = 16 * n := by rw [List.length_take]; omega
  have hb := ofBlocks_toBlocks (data.take (16 * n)) (by omega)
  exact ⟨toBlocks (data.take (16 * n)), by rw [toBlocks_length]; omega, by rw [hb, List.take_append_drop], hb.symm⟩

/-! ### the property -/

/-- **C83 (encryption with a vector).** `osdp_encrypt` on `n` whole blocks ends without a fault, whatever
was on the stack: the blocks are replaced by their CBC encryption with the AES-128 of FIPS 197, and
every byte after them is what it was. -/
theorem C83_encrypt (stack : Ctx) (hs : stack.roundKey.length = 176) (key iv : Block) (data : List Byte) (n : Nat)
    (h : 16 * n ≤ data.length) : ∃ out, osdpEncrypt stack key.1 (some iv.1) data (16 * n) = .ok out ∧
      out.length = data.length ∧ out.drop (16 * n) = data.drop (16 * n) ∧
      Cbc.Chained key iv (data.take (16 * n)) (out.take (16 * n)) := by
  obtain ⟨bs, hn, hd, ht⟩ := blocks_front h
  have hrun := osdpEncrypt_cbc stack hs key iv bs (data.drop (16 * n))
  rw [← hd, hn] at hrun
  have hl : (ofBlocks (cbcEnc aes key iv bs)).length = 16 * n := by rw [ofBlocks_length, cbcEnc_length, hn]
  refine ⟨_, hrun, ?_, List.drop_left' hl, ?_⟩
  · rw [List.length_append, hl, List.length_drop]; omega
  · rw [List.take_left' hl, ht]; exact chained_enc key iv bs

/-- **C83 (decryption with a vector).** `osdp_decrypt` on `n` whole blocks leaves in their place the
bytes of which they are the CBC encryption, and every byte after them as it was. -/
theorem C83_decrypt (stack : Ctx) (hs : stack.roundKey.length = 176) (key iv : Block) (data : List Byte) (n : Nat)
    (h : 16 * n ≤ data.length) : ∃ out, osdpDecrypt stack key.1 (some iv.1) data (16 * n) = .ok out ∧
      out.length = data.length ∧ out.drop (16 * n) = data.drop (16 * n) ∧
      Cbc.Chained key iv (out.take (16 * n)) (data.take (16 * n)) := by
  obtain ⟨bs, hn, hd, ht⟩ := blocks_front h
  have hrun := osdpDecrypt_cbc stack hs key iv bs (data.drop (16 * n))
  rw [← hd, hn] at hrun
  have hl : (ofBlocks (cbcDec aes key iv bs)).length = 16 * n := by rw [ofBlocks_length, cbcDec_length, hn]
  refine ⟨_, hrun, ?_, List.drop_left' hl, ?_⟩
  · rw [List.length_append, hl, List.length_drop]; omega
  · rw [List.take_left' hl, ht]; exact chained_dec key iv bs

/-- **C83 (one block).** Without a vector the first 16 bytes are replaced by the FIPS 197 cipher of
them, and by its inverse. -/
theorem C83_block (stack : Ctx) (hs : stack.roundKey.length = 176) (key b : Block) (rest : List Byte) :
    osdpEncrypt stack key.1 none (b.1 ++ rest) 16 = .ok ((Fips197.encrypt key b).1 ++ rest) ∧
    ∃ d : Block, osdpDecrypt stack key.1 none (b.1 ++ rest) 16 = .ok (d.1 ++ rest) ∧ Fips197.encrypt key d = b := by
  refine ⟨?_, decBlock key b, osdpDecrypt_ecb stack hs key b rest, (Aes.C63_decrypt_is_inverse key b).1⟩
  rw [osdpEncrypt_ecb stack hs key b rest, Aes.C63_aes_is_fips197]

/-- **C83 (the model of the protocol).** The functions the models of the protocol use for the cipher
are what the code computes. -/
theorem C83_refines (stack : Ctx) (hs : stack.roundKey.length = 176) (key iv : Block) (bs : List Block) (rest : List Byte) :
    osdpEncrypt stack key.1 (some iv.1) (ofBlocks bs ++ rest) (16 * bs.length) = .ok (ofBlocks (cbcEnc aes key iv bs) ++ rest) ∧
    osdpDecrypt stack key.1 (some iv.1) (ofBlocks bs ++ rest) (16 * bs.length) = .ok (ofBlocks (cbcDec aes key iv bs) ++ rest) ∧
    ∀ b : Block, osdpEncrypt stack key.1 none (b.1 ++ rest) 16 = .ok ((aes.enc key b).1 ++ rest) ∧
      osdpDecrypt stack key.1 none (b.1 ++ rest) 16 = .ok ((aes.dec key b).1 ++ rest) :=
  ⟨osdpEncrypt_cbc stack hs key iv bs rest, osdpDecrypt_cbc stack hs key iv bs rest,
    fun b => ⟨osdpEncrypt_ecb stack hs key b rest, osdpDecrypt_ecb stack hs key b rest⟩⟩

/-- the stack as some earlier call may have left it -/
def dirty : Ctx := ⟨List.replicate 176 0xa5#8, List.replicate 16 0x5a#8⟩

def key83 : Block := ⟨[0x2b, 0x7e, 0x15, 0x16, 0x28, 0xae, 0xd2, 0xa6, 0xab, 0xf7, 0x15, 0x88, 0x09, 0xcf, 0x4f, 0x3c], rfl⟩
def iv83 : Block := ⟨[0x00, 0x01, 0x02, 0x03, 0x04, 0x05, 0x06, 0x07, 0x08, 0x09, 0x0a, 0x0b, 0x0c, 0x0d, 0x0e, 0x0f], rfl⟩

/-- the first two blocks of SP 800-38A, F.2.1, followed by a byte that is not to be touched -/
def plain83 : List Byte :=
  [0x6b, 0xc1, 0xbe, 0xe2, 0x2e, 0x40, 0x9f, 0x96, 0xe9, 0x3d, 0x7e, 0x11, 0x73, 0x93, 0x17, 0x2a,
   0xae, 0x2d, 0x8a, 0x57, 0x1e, 0x03, 0xac, 0x9c, 0x9e, 0xb7, 0x6f, 0xac, 0x45, 0xaf, 0x8e, 0x51, 0x77]
def cipher83 : List Byte :=
  [0x76, 0x49, 0xab, 0xac, 0x81, 0x19, 0xb2, 0x46, 0xce, 0xe9, 0x8e, 0x9b, 0x12, 0xe9, 0x19, 0x7d,
   0x50, 0x86, 0xcb, 0x9b, 0x50, 0x72, 0x19, 0xee, 0x95, 0xdb, 0x11, 0x3a, 0x91, 0x76, 0x78, 0xb2, 0x77]

example : dirty.roundKey.length = 176 ∧ 16 * 2 ≤ plain83.length ∧
    osdpEncrypt dirty key83.1 (some iv83.1) plain83 32 = .ok cipher83 ∧
    osdpDecrypt dirty key83.1 (some iv83.1) cipher83 32 = .ok plain83 := by
  refine ⟨?_, ?_, ?_, ?_⟩ <;> decide +kernel

/-- A length that is not a whole number of blocks is rounded up: the code runs over the end of a
buffer of just that length, and of a longer one encrypts more than was asked for.  (The callers pad.) -/
theorem C83_ragged : osdpEncrypt dirty key83.1 (some iv83.1) (plain83.take 17) 17 = .error .oobRead ∧
    osdpEncrypt dirty key83.1 (some iv83.1) plain83 17 = .ok cipher83 := by
  refine ⟨?_, ?_⟩ <;> decide +kernel

end Osdp.AesMem
