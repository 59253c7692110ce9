import Verif.Model.Sc
import Verif.Props.C14

/-! Helper lemmas about blocks, padding and the data encryption. -/

namespace Osdp

theorem ofBlocks_toBlocks (l : List Byte) (h : l.length % 16 = 0) : ofBlocks (toBlocks l) = l := by
  unfold toBlocks
  split
  · rename_i h16
    have := ofBlocks_toBlocks (l.drop 16) (by simp; omega)
    simp only [ofBlocks, List.flatMap_cons] at *
    rw [this, List.take_append_drop]
  · have : l.length = 0 := by omega
    simp [ofBlocks, List.length_eq_zero_iff.mp this]
  termination_by l.length
  decreasing_by simp; omega

theorem toBlocks_ofBlocks (bs : List Block) : toBlocks (ofBlocks bs) = bs := by
  induction bs with
  | nil => unfold toBlocks; simp [ofBlocks]
  | cons b bs ih =>
    unfold toBlocks
    have hb := b.2
    have e : ofBlocks (b :: bs) = b.1 ++ ofBlocks bs := by simp [ofBlocks]
    have h16 : 16 ≤ (ofBlocks (b :: bs)).length := by rw [e]; simp [hb]
    rw [dif_pos h16]
    congr 1
    · apply Subtype.ext
      show (ofBlocks (b :: bs)).take 16 = b.1
      rw [e, List.take_append_of_le_length (by omega), List.take_of_length_le (by omega)]
    · rw [e, List.drop_append_of_le_length (by omega), List.drop_of_length_le (by omega)]
      simpa using ih

theorem ofBlocks_length (bs : List Block) : (ofBlocks bs).length = 16 * bs.length := by
  induction bs with
  | nil => rfl
  | cons b bs ih =>
    have e : ofBlocks (b :: bs) = b.1 ++ ofBlocks bs := by simp [ofBlocks]
    rw [e]; simp [ih, b.2]; omega

theorem toBlocks_length (l : List Byte) : (toBlocks l).length = l.length / 16 := by
  unfold toBlocks
  split
  · have := toBlocks_length (l.drop 16)
    simp [this]; omega
  · simp; omega
  termination_by l.length
  decreasing_by simp; omega

theorem cbcEnc_length (C : Cipher) (k iv : Block) (bs : List Block) :
    (cbcEnc C k iv bs).length = bs.length := by
  induction bs generalizing iv with
  | nil => rfl
  | cons b bs ih => simp [cbcEnc, ih]

namespace Sc

theorem aesPadLen_mod (n : Nat) : aesPadLen n % 16 = 0 := by unfold aesPadLen; omega
theorem le_aesPadLen (n : Nat) : n ≤ aesPadLen n := by unfold aesPadLen; omega
theorem aesPadLen_lt (n : Nat) : aesPadLen n < n + 16 := by unfold aesPadLen; omega

theorem padData_length (d : List Byte) : (padData d).length = aesPadLen (d.length + 1) := by
  have := le_aesPadLen (d.length + 1)
  simp [padData]; omega

theorem encryptData_length (C : Cipher) (isCmd : Bool) (sc : Sc) (d : List Byte) :
    (encryptData C isCmd sc d).length = aesPadLen (d.length + 1) := by
  have := aesPadLen_mod (d.length + 1)
  rw [encryptData, ofBlocks_length, cbcEnc_length, toBlocks_length, padData_length]
  omega

theorem stripPad_padData (d : List Byte) : stripPad (padData d) = some d := by
  have : ∀ n, ((List.replicate n 0#8 ++ 0x80#8 :: d.reverse).dropWhile (· = 0#8)) = 0x80#8 :: d.reverse := by
    intro n
    induction n with
    | zero => simp
    | succ n ih => simpa [List.replicate_succ] using ih
  simp [stripPad, padData, this]

theorem decrypt_encrypt (C : Cipher) (ae isCmd : Bool) (sc sc' : Sc) (d tail : List Byte)
    (hk : sc'.sEnc = sc.sEnc) (hiv : dataIv isCmd sc' = dataIv isCmd sc) :
    decryptData C ae isCmd sc' (encryptData C isCmd sc d ++ tail) (aesPadLen (d.length + 1)) =
      .ok (some d) := by
  have hm := aesPadLen_mod (d.length + 1)
  have hl := le_aesPadLen (d.length + 1)
  have e : (encryptData C isCmd sc d ++ tail).take (aesPadLen (d.length + 1)) =
      encryptData C isCmd sc d := by
    rw [← encryptData_length C isCmd sc d]; simp
  unfold decryptData
  rw [if_neg (by omega), if_neg (by omega), if_neg (by omega)]
  simp only [Int.toNat_natCast, e, hk, hiv]
  rw [encryptData, toBlocks_ofBlocks, cbcDec_cbcEnc, ofBlocks_toBlocks, stripPad_padData]
  rw [padData_length]; exact hm

end Sc
end Osdp
