import Verif.Model.Random

/-!
# C85: random bytes are defined, and none is favoured
-/

namespace Osdp.Random

theorem unit_cases (n : Nat) (h : n < 2 ^ 31) : ∃ k, k ≤ 7 ∧ n.log2 - 23 = k ∧ (k = 7 ∨ n < 2 ^ 30) := by
  refine ⟨n.log2 - 23, ?_, rfl, ?_⟩
  · by_cases h0 : n = 0
    · subst h0; decide
    · have := (Nat.log2_lt h0).mpr h
      omega
  · by_cases h30 : n < 2 ^ 30
    · exact .inr h30
    · have h0 : n ≠ 0 := by omega
      have h1 := (Nat.log2_lt h0).mpr h
      have h2 : ¬ n.log2 < 30 := fun hc => h30 ((Nat.log2_lt h0).mp hc)
      omega

/-- rounding moves a number below 2^31 by at most 64, over no multiple of 2^23, and to 2^31 exactly from 64 below on -/
theorem toFloat_bounds (n : Nat) (h : n < 2 ^ 31) : n ≤ toFloat n + 64 ∧ toFloat n ≤ n + 64 ∧
    (∀ c, c * 2 ^ 23 ≤ n → c * 2 ^ 23 ≤ toFloat n) ∧ (n + 64 < 2 ^ 31 → toFloat n < 2 ^ 31) ∧ (2 ^ 31 ≤ n + 64 → toFloat n = 2 ^ 31) := by
  obtain ⟨k, hk, he, h30⟩ := unit_cases n h
  unfold toFloat
  rw [he]
  dsimp only
  match k, hk with
  | 0, _ => refine ⟨?_, ?_, fun c hc => ?_, fun h1 => ?_, fun h1 => ?_⟩ <;> (split <;> try split) <;> omega
  | 1, _ => refine ⟨?_, ?_, fun c hc => ?_, fun h1 => ?_, fun h1 => ?_⟩ <;> (split <;> try split) <;> omega
  | 2, _ => refine ⟨?_, ?_, fun c hc => ?_, fun h1 => ?_, fun h1 => ?_⟩ <;> (split <;> try split) <;> omega
  | 3, _ => refine ⟨?_, ?_, fun c hc => ?_, fun h1 => ?_, fun h1 => ?_⟩ <;> (split <;> try split) <;> omega
  | 4, _ => refine ⟨?_, ?_, fun c hc => ?_, fun h1 => ?_, fun h1 => ?_⟩ <;> (split <;> try split) <;> omega
  | 5, _ => refine ⟨?_, ?_, fun c hc => ?_, fun h1 => ?_, fun h1 => ?_⟩ <;> (split <;> try split) <;> omega
  | 6, _ => refine ⟨?_, ?_, fun c hc => ?_, fun h1 => ?_, fun h1 => ?_⟩ <;> (split <;> try split) <;> omega
  | 7, _ => refine ⟨?_, ?_, fun c hc => ?_, fun h1 => ?_, fun h1 => ?_⟩ <;> (split <;> try split) <;> omega

theorem randMax_float : toFloat randMax = 2 ^ 31 := by decide +kernel

theorem fillByte_eq (rnd : Nat) : fillByte rnd = if toFloat rnd < 2 ^ 31 then some (BitVec.ofNat 8 (toFloat rnd / 2 ^ 23)) else none := by
  unfold fillByte
  rw [randMax_float]
  dsimp only
  have : toFloat rnd * 256 / 2 ^ 31 = toFloat rnd / 2 ^ 23 := by omega
  rw [this]
  by_cases h : toFloat rnd < 2 ^ 31
  · rw [if_pos h, if_pos (by omega)]
  · rw [if_neg h, if_neg (by omega)]

/-- **C85 (defined).** For all values of `rand()` but the 64 largest the conversion is defined; for these it is not. -/
theorem C85_defined_partial (rnd : Nat) (h : rnd ≤ 2 ^ 31 - 1) : (fillByte rnd = none ↔ 2 ^ 31 - 64 ≤ rnd) := by
  obtain ⟨-, -, -, h1, h2⟩ := toFloat_bounds rnd (by omega)
  rw [fillByte_eq]
  by_cases hc : rnd + 64 < 2 ^ 31
  · rw [if_pos (h1 hc)]
    exact ⟨fun h => (by cases h), fun h => (by omega)⟩
  · rw [if_neg (by rw [h2 (by omega)]; omega)]
    exact ⟨fun _ => (by omega), fun _ => rfl⟩

/-- **C85 (even).** Of the 2^31 values of `rand()`, all of `b * 2^23 .. (b+1) * 2^23 - 65` give the byte `b`, and no others but
possibly the 64 below: every byte has the chance 1/256 up to less than 2^-16 of that. -/
theorem C85_even (rnd : Nat) (h : rnd ≤ 2 ^ 31 - 1) (b : Byte) :
    (b.toNat * 2 ^ 23 ≤ rnd → rnd + 64 < (b.toNat + 1) * 2 ^ 23 → fillByte rnd = some b) ∧
    (fillByte rnd = some b → b.toNat * 2 ^ 23 ≤ rnd + 64 ∧ rnd < (b.toNat + 1) * 2 ^ 23) := by
  obtain ⟨h0, h1, hc, hlt, -⟩ := toFloat_bounds rnd (by omega)
  have hb := b.isLt
  rw [fillByte_eq]
  refine ⟨fun hl hu => ?_, fun he => ?_⟩
  · have := hc _ hl
    rw [if_pos (hlt (by omega)), show toFloat rnd / 2 ^ 23 = b.toNat by omega, BitVec.ofNat_toNat, BitVec.setWidth_eq]
  · split at he
    · rename_i hf
      have hq : b.toNat = toFloat rnd / 2 ^ 23 := by
        rw [← Option.some.inj he, BitVec.toNat_ofNat]
        omega
      have := hc (b.toNat + 1)
      refine ⟨by omega, ?_⟩
      apply Classical.byContradiction
      intro hge
      have := this (by omega)
      omega
    · cases he

/-- **C85, refuted.** The largest value of `rand()` and the 63 before it. -/
theorem C85_undefined : fillByte (2 ^ 31 - 1) = none ∧ fillByte (2 ^ 31 - 64) = none ∧ fillByte (2 ^ 31 - 65) = some 0xFF#8 := by
  decide +kernel

/-- a number below a multiple of 2^23 that gives the byte above: the two chances are not exactly equal -/
example : fillByte (128 * 2 ^ 23 - 32) = some 128#8 ∧ fillByte (128 * 2 ^ 23 - 33) = some 127#8 := by decide +kernel

end Osdp.Random
