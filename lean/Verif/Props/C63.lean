import Verif.Props.C14
import Verif.Spec.Fips197

/-!
# C63: the bundled block cipher is AES-128 as specified in FIPS 197
-/

namespace Osdp.Aes
open Osdp.Spec

/-! ### the arithmetic of the specification -/

/-- `inv` is the multiplicative inverse -/
theorem fips_inv : ∀ a : Byte, if a = 0#8 then Fips197.inv a = 0#8 else Fips197.mul a (Fips197.inv a) = 1#8 := by
  decide +kernel

theorem sbox_fips : ∀ b : Byte, sbox b = Fips197.sub b := by decide +kernel

theorem xtime_fips : ∀ b : Byte, xtime b = Fips197.mul 2#8 b := by decide +kernel

theorem three_fips : ∀ b : Byte, xtime b ^^^ b = Fips197.mul 3#8 b := by decide +kernel

theorem rcon_fips : ∀ i : Fin 10, rconTable.getD (i + 1) 0#8 = Fips197.pow 2#8 i := by decide +kernel

/-! ### the model's state as a matrix -/

def Word.at (w : Word) (r : Fin 4) : Byte :=
  match r with
  | 0 => w.b0 | 1 => w.b1 | 2 => w.b2 | 3 => w.b3

def State.col (s : State) (c : Fin 4) : Word :=
  match c with
  | 0 => s.c0 | 1 => s.c1 | 2 => s.c2 | 3 => s.c3

def State.mat (s : State) : Fips197.State := fun r c => (s.col c).at r

theorem forall4 {P : Fin 4 → Prop} : (∀ i, P i) ↔ P 0 ∧ P 1 ∧ P 2 ∧ P 3 := by
  constructor
  · exact fun h => ⟨h 0, h 1, h 2, h 3⟩
  · rintro ⟨h0, h1, h2, h3⟩ i
    match i with
    | 0 => exact h0
    | 1 => exact h1
    | 2 => exact h2
    | 3 => exact h3

theorem mat_ext {a b : Fips197.State} (h : ∀ r c, a r c = b r c) : a = b := funext fun r => funext fun c => h r c

theorem subBytes_fips (s : State) : (subBytes s).mat = Fips197.subBytes s.mat := by
  apply mat_ext
  simp only [forall4]
  simp [State.mat, State.col, Word.at, subBytes, Word.map, Fips197.subBytes, sbox_fips]

theorem shiftRows_fips (s : State) : (shiftRows s).mat = Fips197.shiftRows s.mat := by
  apply mat_ext
  simp only [forall4]
  exact ⟨⟨rfl, rfl, rfl, rfl⟩, ⟨rfl, rfl, rfl, rfl⟩, ⟨rfl, rfl, rfl, rfl⟩, ⟨rfl, rfl, rfl, rfl⟩⟩

theorem mix_row (a b c d : Byte) :
    a ^^^ (xtime (a ^^^ b) ^^^ (a ^^^ b ^^^ c ^^^ d)) = Fips197.mul 2#8 a ^^^ Fips197.mul 3#8 b ^^^ c ^^^ d := by
  rw [← xtime_fips, ← three_fips, xtime_xor]
  generalize xtime a = u
  generalize xtime b = v
  ext i
  simp
  cases a[i] <;> cases b[i] <;> cases c[i] <;> cases d[i] <;> cases u[i] <;> cases v[i] <;> rfl

theorem mixColumn_fips (w : Word) (r : Fin 4) : (mixColumn w).at r =
    Fips197.mul 2#8 (w.at r) ^^^ Fips197.mul 3#8 (w.at (r + 1)) ^^^ w.at (r + 2) ^^^ w.at (r + 3) := by
  match r with
  | 0 => exact mix_row w.b0 w.b1 w.b2 w.b3
  | 1 =>
    refine Eq.trans ?_ (mix_row w.b1 w.b2 w.b3 w.b0)
    show w.b1 ^^^ (_ ^^^ (w.b0 ^^^ w.b1 ^^^ w.b2 ^^^ w.b3)) = _
    ac_rfl
  | 2 =>
    refine Eq.trans ?_ (mix_row w.b2 w.b3 w.b0 w.b1)
    show w.b2 ^^^ (_ ^^^ (w.b0 ^^^ w.b1 ^^^ w.b2 ^^^ w.b3)) = _
    ac_rfl
  | 3 =>
    refine Eq.trans ?_ (mix_row w.b3 w.b0 w.b1 w.b2)
    show w.b3 ^^^ (_ ^^^ (w.b0 ^^^ w.b1 ^^^ w.b2 ^^^ w.b3)) = _
    ac_rfl

theorem mixColumns_fips (s : State) : (mixColumns s).mat = Fips197.mixColumns s.mat := by
  refine mat_ext fun r c => ?_
  have h : (mixColumns s).col c = mixColumn (s.col c) := by
    match c with
    | 0 => rfl
    | 1 => rfl
    | 2 => rfl
    | 3 => rfl
  show ((mixColumns s).col c).at r = _
  rw [h, mixColumn_fips]
  rfl

/-! ### key schedule -/

/-- the four words of a key as the specification takes them -/
def State.words (k : State) : Fin 4 → Fin 4 → Byte := fun i r => (k.col i).at r

theorem Word.at_xor (u v : Word) (r : Fin 4) : (u.xor v).at r = u.at r ^^^ v.at r := by
  match r with
  | 0 => rfl
  | 1 => rfl
  | 2 => rfl
  | 3 => rfl

theorem scheduleCore_fips (i : Fin 10) (w : Word) (r : Fin 4) : (scheduleCore (i + 1) w).at r =
    Fips197.sub (w.at (r + 1)) ^^^ (if r = 0 then Fips197.pow 2#8 i else 0#8) := by
  rw [← sbox_fips, ← rcon_fips]
  match r with
  | 0 => rfl
  | 1 => exact (BitVec.xor_zero).symm
  | 2 => exact (BitVec.xor_zero).symm
  | 3 => exact (BitVec.xor_zero).symm

theorem word_base (k : Fin 4 → Fin 4 → Byte) (c r : Fin 4) : Fips197.word k c r = k c r := by
  unfold Fips197.word
  simp

/-- a word in the first column of a round key -/
theorem word_first (k : Fin 4 → Fin 4 → Byte) (n : Nat) (r : Fin 4) : Fips197.word k (4 * (n + 1)) r =
    Fips197.word k (4 * n) r ^^^ (Fips197.sub (Fips197.word k (4 * n + 3) (r + 1)) ^^^
      (if r = 0 then Fips197.pow 2#8 n else 0#8)) := by
  rw [Fips197.word]
  rw [dif_neg (by omega), if_pos (by omega), show 4 * (n + 1) - 1 = 4 * n + 3 by omega,
    show 4 * (n + 1) - 4 = 4 * n by omega, show 4 * (n + 1) / 4 - 1 = n by omega]

/-- a word in another column -/
theorem word_other (k : Fin 4 → Fin 4 → Byte) (n c : Nat) (hc : c < 3) (r : Fin 4) :
    Fips197.word k (4 * (n + 1) + (c + 1)) r =
    Fips197.word k (4 * n + (c + 1)) r ^^^ Fips197.word k (4 * (n + 1) + c) r := by
  rw [Fips197.word]
  rw [dif_neg (by omega), if_neg (by omega), show 4 * (n + 1) + (c + 1) - 1 = 4 * (n + 1) + c by omega,
    show 4 * (n + 1) + (c + 1) - 4 = 4 * n + (c + 1) by omega]

theorem roundKey_fips (key : State) (n : Nat) (hn : n ≤ 10) (c r : Fin 4) :
    ((roundKey key n).col c).at r = Fips197.word key.words (4 * n + c) r := by
  induction n generalizing c r with
  | zero => rw [show 4 * 0 + c.1 = c.1 by omega, word_base]; rfl
  | succ n ih =>
    have ih := ih (by omega)
    have i0 : ∀ r, (roundKey key n).c0.at r = Fips197.word key.words (4 * n) r := ih 0
    have i1 : ∀ r, (roundKey key n).c1.at r = Fips197.word key.words (4 * n + (0 + 1)) r := ih 1
    have i2 : ∀ r, (roundKey key n).c2.at r = Fips197.word key.words (4 * n + (1 + 1)) r := ih 2
    have i3 : ∀ r, (roundKey key n).c3.at r = Fips197.word key.words (4 * n + 3) r := ih 3
    have h0 : ∀ r, ((roundKey key (n + 1)).col 0).at r = Fips197.word key.words (4 * (n + 1)) r := by
      intro r
      show (((roundKey key n).c0).xor (scheduleCore (n + 1) (roundKey key n).c3)).at r = _
      rw [Word.at_xor, scheduleCore_fips ⟨n, by omega⟩, word_first, ← i3 (r + 1), ← i0 r]
    have h1 : ∀ r, ((roundKey key (n + 1)).col 1).at r = Fips197.word key.words (4 * (n + 1) + 1) r := by
      intro r
      show (((roundKey key n).c1).xor ((roundKey key (n + 1)).col 0)).at r = _
      rw [Word.at_xor, word_other _ _ 0 (by decide), h0, ← i1 r]
      rfl
    have h2 : ∀ r, ((roundKey key (n + 1)).col 2).at r = Fips197.word key.words (4 * (n + 1) + 2) r := by
      intro r
      show (((roundKey key n).c2).xor ((roundKey key (n + 1)).col 1)).at r = _
      rw [Word.at_xor, word_other _ _ 1 (by decide), h1, ← i2 r]
    have h3 : ∀ r, ((roundKey key (n + 1)).col 3).at r = Fips197.word key.words (4 * (n + 1) + 3) r := by
      intro r
      show (((roundKey key n).c3).xor ((roundKey key (n + 1)).col 2)).at r = _
      rw [Word.at_xor, word_other _ _ 2 (by decide), h2, ← i3 r]
    match c with
    | 0 => exact h0 r
    | 1 => exact h1 r
    | 2 => exact h2 r
    | 3 => exact h3 r

theorem addRoundKey_fips (key s : State) (n : Nat) (hn : n ≤ 10) :
    (addRoundKey (roundKey key n) s).mat = Fips197.addRoundKey key.words n s.mat := by
  refine mat_ext fun r c => ?_
  have h : (addRoundKey (roundKey key n) s).col c = (s.col c).xor ((roundKey key n).col c) := by
    match c with
    | 0 => rfl
    | 1 => rfl
    | 2 => rfl
    | 3 => rfl
  show ((addRoundKey (roundKey key n) s).col c).at r = _
  rw [h, Word.at_xor, roundKey_fips key n hn c r]
  rfl

/-! ### the cipher -/

theorem rounds_fips (key s0 s : State) (n r : Nat) (h : r + n = 9)
    (hs : s.mat = Fips197.rounds key.words s0.mat r) :
    (cipherRounds key n (r + 1) s).mat = Fips197.cipher key.words s0.mat := by
  induction n generalizing r s with
  | zero =>
    obtain rfl : r = 9 := by omega
    simp only [cipherRounds, Fips197.cipher]
    rw [addRoundKey_fips _ _ _ (by omega), shiftRows_fips, subBytes_fips, hs]
  | succ n ih =>
    simp only [cipherRounds]
    refine ih _ (r + 1) (by omega) ?_
    rw [addRoundKey_fips _ _ _ (by omega), mixColumns_fips, shiftRows_fips, subBytes_fips, hs]
    rfl

theorem cipher_fips (key s : State) : (cipher key s).mat = Fips197.cipher key.words s.mat :=
  rounds_fips key s _ 9 0 rfl (addRoundKey_fips key s 0 (by omega))

theorem ofBlock_mat (b : Block) : (ofBlock b).mat = fun (r c : Fin 4) => Fips197.byte b (r + 4 * c) (by omega) := by
  apply mat_ext
  simp only [forall4]
  exact ⟨⟨rfl, rfl, rfl, rfl⟩, ⟨rfl, rfl, rfl, rfl⟩, ⟨rfl, rfl, rfl, rfl⟩, ⟨rfl, rfl, rfl, rfl⟩⟩

theorem ofBlock_words (b : Block) : (ofBlock b).words = fun (i r : Fin 4) => Fips197.byte b (r + 4 * i) (by omega) := by
  apply mat_ext
  simp only [forall4]
  exact ⟨⟨rfl, rfl, rfl, rfl⟩, ⟨rfl, rfl, rfl, rfl⟩, ⟨rfl, rfl, rfl, rfl⟩, ⟨rfl, rfl, rfl, rfl⟩⟩

/-- **C63.** For every key and every block the bundled cipher computes what FIPS 197 prescribes. -/
theorem C63_aes_is_fips197 (key b : Block) : encBlock key b = Fips197.encrypt key b := by
  apply Subtype.ext
  have h := cipher_fips (ofBlock key) (ofBlock b)
  rw [ofBlock_mat, ofBlock_words] at h
  simp only [Fips197.encrypt, ← h]
  rfl

theorem rounds_redo (key t : State) (r n : Nat) (h : n + r = 9) :
    cipherRounds key 9 1 (addRoundKey (roundKey key 0) (invCipherRounds key r t)) =
      cipherRounds key n (r + 1) (invSubBytes (invShiftRows t)) := by
  induction r generalizing t n with
  | zero =>
    obtain rfl : n = 9 := by omega
    simp only [invCipherRounds, addRoundKey_twice]
  | succ r ih =>
    simp only [invCipherRounds]
    rw [ih _ (n + 1) (by omega)]
    simp only [cipherRounds, subBytes_invSubBytes, shiftRows_invShiftRows, mixColumns_invMixColumns, addRoundKey_twice]

theorem cipher_invCipher (key s : State) : cipher key (invCipher key s) = s := by
  unfold cipher invCipher
  rw [rounds_redo key _ 9 0 rfl]
  simp only [cipherRounds, subBytes_invSubBytes, shiftRows_invShiftRows, addRoundKey_twice]

/-- **C63 (decryption).** `osdp_decrypt` is the inverse of the FIPS 197 cipher. -/
theorem C63_decrypt_is_inverse (key c : Block) :
    Fips197.encrypt key (decBlock key c) = c ∧ ∀ b, Fips197.encrypt key b = c → b = decBlock key c := by
  refine ⟨?_, fun b h => ?_⟩
  · rw [← C63_aes_is_fips197, encBlock, decBlock, ofBlock_toBlock, cipher_invCipher, toBlock_ofBlock]
  · rw [← h, ← C63_aes_is_fips197]
    exact (C14_decrypt_encrypt_block key b).symm

/-- the example of FIPS 197, appendix C.1 -/
example : (Fips197.encrypt
    ⟨[0x00, 0x01, 0x02, 0x03, 0x04, 0x05, 0x06, 0x07, 0x08, 0x09, 0x0a, 0x0b, 0x0c, 0x0d, 0x0e, 0x0f], rfl⟩
    ⟨[0x00, 0x11, 0x22, 0x33, 0x44, 0x55, 0x66, 0x77, 0x88, 0x99, 0xaa, 0xbb, 0xcc, 0xdd, 0xee, 0xff], rfl⟩).1
    = [0x69, 0xc4, 0xe0, 0xd8, 0x6a, 0x7b, 0x04, 0x30, 0xd8, 0xcd, 0xb7, 0x80, 0x70, 0xb4, 0xc5, 0x5a] := by
  rw [← C63_aes_is_fips197]
  decide +kernel

end Osdp.Aes
