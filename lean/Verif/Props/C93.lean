import Verif.Model.CInt
import Verif.Model.Cp
import Verif.Model.File
import Verif.Model.Pd

/-!
# C93: numbers in packets are put together without overflow
-/

namespace Osdp.CInt

/-! ### spec -/

/-- the `k` bytes of the number `n`, least significant first -/
def bytes (k n : Nat) : List Byte := (List.range k).map fun i => BitVec.ofNat 8 (n / 256 ^ i)

/-! ### lemmas -/

theorem shl_ok {e n : Nat} (k : Nat) (hk : k = 2 ^ n) (hn : n < 32) (h : e * k ≤ 2147483647) : shl e n = .ok ((e * k : Nat) : Int) := by
  unfold shl
  have hc : ((e * k : Nat) : Int) = (e : Int) * 2 ^ n := by rw [hk]; push_cast; rfl
  rw [if_pos ⟨by omega, hn, by rw [← hc]; omega⟩, hc]

theorem u32_nat (n : Nat) : (u32 (n : Int)).toNat = n % 2 ^ 32 := by
  unfold u32
  rw [BitVec.ofInt_natCast, BitVec.toNat_ofNat]

theorem or_add {a b : Nat} (n k : Nat) (hk : k = 2 ^ n) (h : b < k) : (a * k) ||| b = a * k + b := by
  subst hk
  rw [← Nat.shiftLeft_eq, ← Nat.shiftLeft_add_eq_or_of_lt h]

theorem orIn_ok {v : BitVec 32} {b : Byte} {n : Nat} (k : Nat) (hk : k = 2 ^ n) (hv : v.toNat < k) (hn : n < 32) (h : b.toNat * k ≤ 2147483647) :
    ∃ w, orIn v b n = .ok w ∧ w.toNat = v.toNat + b.toNat * k := by
  refine ⟨v ||| u32 ((b.toNat * k : Nat) : Int), ?_, ?_⟩
  · unfold orIn shlByte
    rw [shl_ok k hk hn h]; rfl
  · rw [BitVec.toNat_or, u32_nat, Nat.mod_eq_of_lt (by omega), Nat.or_comm, or_add n k hk hv, Nat.add_comm]

theorem byte_lt (b : Byte) : b.toNat < 256 := b.isLt

theorem read24_ok (b0 b1 b2 : Byte) : ∃ w, read24 b0 b1 b2 = .ok w ∧ w.toNat = b0.toNat + b1.toNat * 256 + b2.toNat * 65536 := by
  have h0 := byte_lt b0; have h1 := byte_lt b1; have h2 := byte_lt b2
  have e0 : (u32 (b0.toNat : Int)).toNat = b0.toNat := by rw [u32_nat]; omega
  obtain ⟨w1, g1, e1⟩ := orIn_ok (v := u32 (b0.toNat : Int)) (b := b1) (n := 8) 256 rfl (by rw [e0]; omega) (by omega) (by omega)
  obtain ⟨w2, g2, e2⟩ := orIn_ok (v := w1) (b := b2) (n := 16) 65536 rfl (by rw [e1, e0]; omega) (by omega) (by omega)
  refine ⟨w2, ?_, by rw [e2, e1, e0]⟩
  unfold read24
  dsimp only
  rw [g1, Res.ok_bind, g2]

theorem read32_ok (b0 b1 b2 b3 : Byte) (h : b3.toNat < 128) : ∃ w, read32 b0 b1 b2 b3 = .ok w ∧
    w.toNat = b0.toNat + b1.toNat * 256 + b2.toNat * 65536 + b3.toNat * 16777216 := by
  have h0 := byte_lt b0; have h1 := byte_lt b1; have h2 := byte_lt b2
  obtain ⟨w, g, e⟩ := read24_ok b0 b1 b2
  obtain ⟨w3, g3, e3⟩ := orIn_ok (v := w) (b := b3) (n := 24) 16777216 rfl (by rw [e]; omega) (by omega) (by omega)
  refine ⟨w3, ?_, by rw [e3, e]⟩
  unfold read32
  rw [g, Res.ok_bind, g3]

theorem shlByte_bad {b : Byte} (h : 128 ≤ b.toNat) : shlByte b 24 = .error .badShift := by
  unfold shlByte shl
  rw [if_neg (by omega)]

theorem read32_bad (b0 b1 b2 b3 : Byte) (h : 128 ≤ b3.toNat) : read32 b0 b1 b2 b3 = .error .badShift := by
  obtain ⟨w, g, e⟩ := read24_ok b0 b1 b2
  unfold read32 orIn
  rw [g, Res.ok_bind, shlByte_bad h]
  rfl

theorem readBe24_ok (b0 b1 b2 : Byte) : ∃ w, readBe24 b0 b1 b2 = .ok w ∧ w.toNat = b2.toNat + b1.toNat * 256 + b0.toNat * 65536 := by
  have h0 := byte_lt b0; have h1 := byte_lt b1; have h2 := byte_lt b2
  refine ⟨u32 ((b0.toNat * 65536 : Nat) : Int) ||| u32 ((b1.toNat * 256 : Nat) : Int) ||| u32 (b2.toNat : Int), ?_, ?_⟩
  · unfold readBe24 orIn shlByte
    rw [shl_ok 65536 rfl (by omega) (by omega), shl_ok 256 rfl (by omega) (by omega)]
    simp only [Res.ok_bind]
  · rw [BitVec.toNat_or, BitVec.toNat_or, u32_nat, u32_nat, u32_nat, Nat.mod_eq_of_lt (by omega), Nat.mod_eq_of_lt (by omega),
      Nat.mod_eq_of_lt (by omega), or_add 16 65536 rfl (by omega),
      show b0.toNat * 65536 + b1.toNat * 256 = (b0.toNat * 256 + b1.toNat) * 256 by omega, or_add 8 256 rfl (by omega)]
    omega

theorem or_nat {a b : Nat} (n k : Nat) (hk : k = 2 ^ n) (hb : b < k) (h : a * k + b < 2147483648) :
    or ((a * k : Nat) : Int) (b : Int) = ((a * k + b : Nat) : Int) := by
  unfold or
  have e : (BitVec.ofInt 32 ((a * k : Nat) : Int) ||| BitVec.ofInt 32 (b : Int)).toNat = a * k + b := by
    rw [BitVec.toNat_or, BitVec.ofInt_natCast, BitVec.ofInt_natCast, BitVec.toNat_ofNat, BitVec.toNat_ofNat, Nat.mod_eq_of_lt (by omega),
      Nat.mod_eq_of_lt (by omega), or_add n k hk hb]
  rw [BitVec.toInt_eq_toNat_of_lt (by rw [e]; omega), e]

theorem word_ok (b0 b1 : Byte) : word b0 b1 = .ok ((b0.toNat + b1.toNat * 256 : Nat) : Int) := by
  have h0 := byte_lt b0; have h1 := byte_lt b1
  unfold word shlByte
  rw [shl_ok 256 rfl (by omega) (by omega), shl_ok 1 rfl (by omega) (by omega)]
  simp only [Res.ok_bind]
  rw [Nat.mul_one, or_nat 8 256 rfl (by omega) (by omega), Nat.add_comm]

theorem long_ok (b0 b1 b2 b3 : Byte) (h : b3.toNat < 128) : ∃ w, long b0 b1 b2 b3 = .ok w ∧
    w.toNat = b0.toNat + b1.toNat * 256 + b2.toNat * 65536 + b3.toNat * 16777216 := by
  have h0 := byte_lt b0; have h1 := byte_lt b1; have h2 := byte_lt b2
  refine ⟨u32 ((b0.toNat + b1.toNat * 256 + b2.toNat * 65536 + b3.toNat * 16777216 : Nat) : Int), ?_, ?_⟩
  · unfold long shlByte
    rw [shl_ok 16777216 rfl (by omega) (by omega), shl_ok 65536 rfl (by omega) (by omega), shl_ok 256 rfl (by omega) (by omega),
      shl_ok 1 rfl (by omega) (by omega)]
    simp only [Res.ok_bind]
    rw [Nat.mul_one, or_nat 24 16777216 rfl (by omega) (by omega),
      show b3.toNat * 16777216 + b2.toNat * 65536 = (b3.toNat * 256 + b2.toNat) * 65536 by omega,
      or_nat 16 65536 rfl (by omega) (by omega),
      show (b3.toNat * 256 + b2.toNat) * 65536 + b1.toNat * 256 = ((b3.toNat * 256 + b2.toNat) * 256 + b1.toNat) * 256 by omega,
      or_nat 8 256 rfl (by omega) (by omega)]
    congr 3
    omega
  · rw [u32_nat]; omega

theorem long_bad (b0 b1 b2 b3 : Byte) (h : 128 ≤ b3.toNat) : long b0 b1 b2 b3 = .error .badShift := by
  unfold long
  rw [shlByte_bad h]
  rfl

theorem div0 (n : Nat) : (BitVec.ofNat 8 (n / 256 ^ 0) : Byte).toNat = n % 256 := by rw [BitVec.toNat_ofNat, Nat.pow_zero, Nat.div_one]
theorem div1 (n : Nat) : (BitVec.ofNat 8 (n / 256 ^ 1) : Byte).toNat = n / 256 % 256 := by rw [BitVec.toNat_ofNat, Nat.pow_one]
theorem div2 (n : Nat) : (BitVec.ofNat 8 (n / 256 ^ 2) : Byte).toNat = n / 65536 % 256 := by rw [BitVec.toNat_ofNat]
theorem div3 (n : Nat) : (BitVec.ofNat 8 (n / 256 ^ 3) : Byte).toNat = n / 16777216 % 256 := by rw [BitVec.toNat_ofNat]

theorem status_step (mask : BitVec 32) (i : Nat) (hi : i < 32) (b : Byte) (hb : i < 31 ∨ b = 0#8) :
    ∃ m, shl (if b ≠ 0#8 then 1 else 0) i = .ok m ∧ ∀ j, (mask ||| u32 m).getLsbD j = (mask.getLsbD j || (decide (j = i) && decide (b ≠ 0#8))) := by
  by_cases h0 : b = 0#8
  · refine ⟨((0 * 2 ^ i : Nat) : Int), ?_, fun j => ?_⟩
    · rw [if_neg (fun h => h h0)]
      exact shl_ok (e := 0) (2 ^ i) rfl hi (by omega)
    · rw [Nat.zero_mul, BitVec.getLsbD_or]
      simp [u32, h0]
  · have hi' : i < 31 := by rcases hb with h | h; exact h; exact absurd h h0
    have hp : 2 ^ i ≤ 1073741824 := Nat.pow_le_pow_right (n := 2) (by omega) (show i ≤ 30 by omega)
    refine ⟨((1 * 2 ^ i : Nat) : Int), ?_, fun j => ?_⟩
    · rw [if_pos h0]
      exact shl_ok (e := 1) (2 ^ i) rfl hi (by omega)
    · rw [Nat.one_mul, BitVec.getLsbD_or]
      unfold u32
      rw [BitVec.ofInt_natCast, BitVec.getLsbD_ofNat, Nat.testBit_two_pow]
      by_cases hj : j = i
      · subst hj; simp [h0, hi]
      · simp [hj, Ne.symm hj]

theorem statusFrom_ok (bs : List Byte) : ∀ (mask : BitVec 32) (i : Nat), i + bs.length ≤ 32 → (∀ b, bs[31 - i]? = some b → i ≤ 31 → b = 0#8) →
    ∃ m, statusFrom mask i bs = .ok m ∧ ∀ j, m.getLsbD j = (mask.getLsbD j || (decide (i ≤ j) && (bs[j - i]?.any fun b => b ≠ 0#8))) := by
  induction bs with
  | nil => intro mask i _ _; exact ⟨mask, rfl, fun j => by simp⟩
  | cons b bs ih =>
    intro mask i hl h31
    rw [List.length_cons] at hl
    obtain ⟨e, he, hm⟩ := status_step mask i (by omega) b (by
      by_cases hi : i < 31
      · exact .inl hi
      · refine .inr (h31 b ?_ (by omega))
        rw [show 31 - i = 0 by omega]; rfl)
    obtain ⟨m, hr, hj⟩ := ih (mask ||| u32 e) (i + 1) (by omega) (fun b' hb' hi' => h31 b' (by
      rw [show 31 - i = (31 - (i + 1)) + 1 by omega, List.getElem?_cons_succ]; exact hb') (by omega))
    refine ⟨m, ?_, fun j => ?_⟩
    · unfold statusFrom
      rw [he]
      exact hr
    · rw [hj, hm]
      by_cases h1 : j = i
      · subst h1
        rw [Nat.sub_self]
        have h3 : ¬ j + 1 ≤ j := by omega
        simp [h3]
      · by_cases h2 : i < j
        · rw [show j - i = (j - (i + 1)) + 1 by omega, List.getElem?_cons_succ]
          have h3 : i + 1 ≤ j := h2
          have h4 : i ≤ j := by omega
          simp [h1, h3, h4]
        · have h3 : ¬ i + 1 ≤ j := by omega
          have h4 : ¬ i ≤ j := by omega
          simp [h1, h3, h4]

theorem statusFrom_bad (bs : List Byte) : ∀ (mask : BitVec 32) (i : Nat), i ≤ 31 → ∀ b, bs[31 - i]? = some b → b ≠ 0#8 →
    statusFrom mask i bs = .error .badShift := by
  induction bs with
  | nil => intro mask i _ b h _; cases h
  | cons c bs ih =>
    intro mask i hi b h hb
    unfold statusFrom
    by_cases h31 : i = 31
    · subst h31
      cases h
      rw [if_pos hb]
      rfl
    · obtain ⟨e, he, -⟩ := status_step mask i (by omega) c (.inl (by omega))
      rw [he]
      refine ih _ (i + 1) (by omega) b ?_ hb
      rw [show 31 - i = (31 - (i + 1)) + 1 by omega, List.getElem?_cons_succ] at h
      exact h

theorem of_le4 {x : BitVec 32} {b0 b1 b2 b3 : Byte}
    (e : x.toNat = b0.toNat + b1.toNat * 256 + b2.toNat * 65536 + b3.toNat * 16777216) : x = BitVec.ofNat 32 (ofLe [b0, b1, b2, b3]) := by
  have h0 := byte_lt b0; have h1 := byte_lt b1; have h2 := byte_lt b2; have h3 := byte_lt b3
  apply BitVec.eq_of_toNat_eq
  rw [e, BitVec.toNat_ofNat]
  unfold ofLe ofLe ofLe ofLe ofLe
  omega

/-! ### theorems -/

/-- **C93 (16 and 24 bits).** Two and three byte numbers are read as what was written, whatever they are. -/
theorem C93_narrow (n : Nat) : (n < 2 ^ 16 → ∀ b0 b1, bytes 2 n = [b0, b1] → word b0 b1 = .ok (n : Int)) ∧
    (n < 2 ^ 24 → ∀ b0 b1 b2, bytes 3 n = [b0, b1, b2] →
      read24 b0 b1 b2 = .ok (BitVec.ofNat 32 n) ∧ readBe24 b2 b1 b0 = .ok (BitVec.ofNat 32 n)) := by
  refine ⟨fun h b0 b1 hb => ?_, fun h b0 b1 b2 hb => ?_⟩
  · injection hb with e0 hb; injection hb with e1 hb
    rw [word_ok, ← e0, ← e1, div0, div1]
    congr 2
    omega
  · injection hb with e0 hb; injection hb with e1 hb; injection hb with e2 hb
    obtain ⟨w, g, e⟩ := read24_ok b0 b1 b2
    obtain ⟨w', g', e'⟩ := readBe24_ok b2 b1 b0
    rw [← e0, ← e1, ← e2, div0, div1, div2] at e e'
    rw [g, g']
    refine ⟨congrArg _ (BitVec.eq_of_toNat_eq ?_), congrArg _ (BitVec.eq_of_toNat_eq ?_)⟩
    · rw [e, BitVec.toNat_ofNat]; omega
    · rw [e', BitVec.toNat_ofNat]; omega

/-- **C93 (32 bits).** Full statement: for every `n < 2 ^ 32`.  Missing: numbers from 2 ^ 31 on (`C93_undefined`). -/
theorem C93_wide_partial (n : Nat) (h : n < 2 ^ 31) (b0 b1 b2 b3 : Byte) (hb : bytes 4 n = [b0, b1, b2, b3]) :
    read32 b0 b1 b2 b3 = .ok (BitVec.ofNat 32 n) ∧ long b0 b1 b2 b3 = .ok (BitVec.ofNat 32 n) := by
  injection hb with e0 hb; injection hb with e1 hb; injection hb with e2 hb; injection hb with e3 hb
  have h3 : b3.toNat < 128 := by rw [← e3, div3]; omega
  obtain ⟨w, g, e⟩ := read32_ok b0 b1 b2 b3 h3
  obtain ⟨w', g', e'⟩ := long_ok b0 b1 b2 b3 h3
  rw [← e0, ← e1, ← e2, ← e3, div0, div1, div2, div3] at e e'
  rw [g, g']
  refine ⟨congrArg _ (BitVec.eq_of_toNat_eq ?_), congrArg _ (BitVec.eq_of_toNat_eq ?_)⟩
  · rw [e, BitVec.toNat_ofNat]; omega
  · rw [e', BitVec.toNat_ofNat]; omega

/-- **C93, refuted for 32 bits.** Every larger number is put together by a shift into the sign bit, which C leaves undefined. -/
theorem C93_undefined (n : Nat) (h : 2 ^ 31 ≤ n) (h32 : n < 2 ^ 32) (b0 b1 b2 b3 : Byte) (hb : bytes 4 n = [b0, b1, b2, b3]) :
    read32 b0 b1 b2 b3 = .error .badShift ∧ long b0 b1 b2 b3 = .error .badShift := by
  injection hb with e0 hb; injection hb with e1 hb; injection hb with e2 hb; injection hb with e3 hb
  have h3 : 128 ≤ b3.toNat := by rw [← e3, div3]; omega
  exact ⟨read32_bad b0 b1 b2 b3 h3, long_bad b0 b1 b2 b3 h3⟩

/-- **C93 (status).** The mask of a status report of up to 32 entries has bit `j` set exactly if entry `j` is not 0, unless there
is a 32nd entry and it is not 0: then the shift is undefined. -/
theorem C93_status_partial (body : List Byte) (hl : body.length ≤ 32) :
    ((∀ b, body[31]? = some b → b = 0#8) →
      ∃ m, status body = .ok (some m) ∧ ∀ j : Nat, m.getLsbD j = true ↔ ∃ b, body[j]? = some b ∧ b ≠ 0#8) ∧
    ((∃ b, body[31]? = some b ∧ b ≠ 0#8) → status body = .error .badShift) := by
  unfold status
  rw [if_neg (by omega)]
  refine ⟨fun h => ?_, fun ⟨b, hb, hne⟩ => ?_⟩
  · obtain ⟨m, hm, hj⟩ := statusFrom_ok body 0#32 0 (by omega) (fun b hb _ => h b hb)
    refine ⟨m, by rw [hm]; rfl, fun j => ?_⟩
    rw [hj]
    simp only [BitVec.getLsbD_zero, Bool.false_or, Nat.zero_le, decide_true, Bool.true_and, Nat.sub_zero, Option.any_eq_true]
    constructor
    · rintro ⟨b, hb, h2⟩; exact ⟨b, hb, by simpa using h2⟩
    · rintro ⟨b, hb, h2⟩; exact ⟨b, hb, by simpa using h2⟩
  · rw [statusFrom_bad body 0#32 0 (by omega) b hb hne]
    rfl

/-- **C93 (identity).** The identity a PD reports is learned, if its serial number is below 2 ^ 31; else reading it is undefined. -/
theorem C93_identity_partial (vendor serial fw : Nat) (model version : Byte) (hv : vendor < 2 ^ 24) (hs : serial < 2 ^ 32) (hf : fw < 2 ^ 24) :
    pdid (bytes 3 vendor ++ [model, version] ++ bytes 4 serial ++ (bytes 3 fw).reverse) =
      if serial < 2 ^ 31 then .ok (some ⟨version.toNat, model.toNat, vendor, serial, fw⟩) else .error .badShift := by
  have hb3 : ∀ n, bytes 3 n = [BitVec.ofNat 8 (n / 256 ^ 0), BitVec.ofNat 8 (n / 256 ^ 1), BitVec.ofNat 8 (n / 256 ^ 2)] := fun _ => rfl
  have hb4 : ∀ n, bytes 4 n = [BitVec.ofNat 8 (n / 256 ^ 0), BitVec.ofNat 8 (n / 256 ^ 1), BitVec.ofNat 8 (n / 256 ^ 2), BitVec.ofNat 8 (n / 256 ^ 3)] :=
    fun _ => rfl
  obtain ⟨v1, -⟩ := (C93_narrow vendor).2 hv _ _ _ (hb3 vendor)
  obtain ⟨-, f1⟩ := (C93_narrow fw).2 hf _ _ _ (hb3 fw)
  have nar : ∀ n, n < 2 ^ 32 → (BitVec.ofNat 32 n).toNat = n := fun n h => by rw [BitVec.toNat_ofNat]; exact Nat.mod_eq_of_lt h
  rw [hb3, hb4, hb3]
  by_cases h31 : serial < 2 ^ 31
  · rw [if_pos h31]
    obtain ⟨s1, -⟩ := C93_wide_partial serial h31 _ _ _ _ (hb4 serial)
    simp only [List.cons_append, List.nil_append, List.reverse_cons, List.reverse_nil, pdid]
    rw [v1, Res.ok_bind, s1, Res.ok_bind, f1, Res.ok_bind, nar _ hs, nar _ (by omega), nar _ (by omega)]
  · rw [if_neg h31]
    obtain ⟨s1, -⟩ := C93_undefined serial (by omega) hs _ _ _ _ (hb4 serial)
    simp only [List.cons_append, List.nil_append, List.reverse_cons, List.reverse_nil, pdid]
    rw [v1, Res.ok_bind, s1]
    rfl

/-- **C93 (the other models).** Where the arithmetic is defined it gives what the other models take a body for: the identity
and the fragments of a file.  The arithmetic is defined for every COMSET the PD accepts. -/
theorem C93_model (body : List Byte) :
    (∀ r, pdid body = .ok r → r = CpM.pdid body) ∧
    (∀ r, fragment body = .ok r →
      r = (File.chunk body).map fun c => (c.type, BitVec.ofNat 32 c.size, BitVec.ofNat 32 c.offset, (c.length : Int))) ∧
    (∀ a b0 b1 b2 b3, body = [a, b0, b1, b2, b3] → PdM.validBaud (ofLe [b0, b1, b2, b3]) = true →
      comset body = .ok (some (a, BitVec.ofNat 32 (ofLe [b0, b1, b2, b3])))) := by
  refine ⟨fun r h => ?_, fun r h => ?_, fun a b0 b1 b2 b3 hb hv => ?_⟩
  · unfold pdid at h
    split at h
    · rename_i v0 v1 v2 m v s0 s1 s2 s3 f0 f1 f2
      obtain ⟨w, g, e⟩ := read24_ok v0 v1 v2
      obtain ⟨w', g', e'⟩ := readBe24_ok f0 f1 f2
      rw [g, Res.ok_bind] at h
      by_cases h3 : s3.toNat < 128
      · obtain ⟨x, gx, ex⟩ := read32_ok s0 s1 s2 s3 h3
        rw [gx, Res.ok_bind, g', Res.ok_bind] at h
        cases h
        unfold CpM.pdid
        rw [e, e', ex]
        unfold ofLe ofLe ofLe ofLe ofLe
        congr 2 <;> omega
      · rw [read32_bad s0 s1 s2 s3 (by omega)] at h
        cases h
    · rename_i hne
      cases h
      unfold CpM.pdid
      split
      · exact absurd rfl (hne _ _ _ _ _ _ _ _ _ _ _ _)
      · rfl
  · unfold fragment at h
    split at h
    · rename_i ty z0 z1 z2 z3 o0 o1 o2 o3 l0 l1 data
      unfold File.chunk
      dsimp only
      by_cases hd : data = []
      · rw [if_pos hd] at h ⊢
        cases h
        rfl
      · rw [if_neg hd] at h ⊢
        by_cases hz : z3.toNat < 128
        · obtain ⟨x, gx, ex⟩ := long_ok z0 z1 z2 z3 hz
          rw [gx, Res.ok_bind] at h
          by_cases ho : o3.toNat < 128
          · obtain ⟨y, gy, ey⟩ := long_ok o0 o1 o2 o3 ho
            rw [gy, Res.ok_bind, word_ok, Res.ok_bind] at h
            cases h
            rw [Option.map_some]
            dsimp only
            rw [of_le4 ex, of_le4 ey]
            unfold ofLe ofLe ofLe
            congr 4
            omega
          · rw [long_bad o0 o1 o2 o3 (by omega)] at h
            cases h
        · rw [long_bad z0 z1 z2 z3 (by omega)] at h
          cases h
    · rename_i hne
      cases h
      unfold File.chunk
      split
      · exact absurd rfl (hne _ _ _ _ _ _ _ _ _ _ _ _)
      · rfl
  · subst hb
    have h3 : b3.toNat < 128 := by
      have hlt : ofLe [b0, b1, b2, b3] < 2147483648 := by
        unfold PdM.validBaud at hv
        simp at hv
        omega
      unfold ofLe ofLe ofLe ofLe ofLe at hlt
      omega
    obtain ⟨x, gx, ex⟩ := read32_ok b0 b1 b2 b3 h3
    unfold comset
    dsimp only
    rw [gx, Res.ok_bind, of_le4 ex]

/-! ### examples -/

/-- an identity, a mask and a COMSET that are read -/
example : pdid (bytes 3 0x123456 ++ [7#8, 9#8] ++ bytes 4 0x7FFFFFFF ++ (bytes 3 0x010203).reverse)
    = .ok (some ⟨9, 7, 0x123456, 0x7FFFFFFF, 0x010203⟩) := by decide +kernel
example : status [1#8, 0#8, 5#8] = .ok (some 5#32) := by decide +kernel
example : comset (1#8 :: bytes 4 115200) = .ok (some (1#8, 115200#32)) ∧ PdM.validBaud 115200 = true := by decide +kernel
example : fragment (1#8 :: bytes 4 4096 ++ bytes 4 128 ++ bytes 2 1 ++ [7#8]) = .ok (some (1#8, 4096#32, 128#32, 1)) := by decide +kernel
/-- the witnesses: the serial number 0xFFFFFFFF, 32 inputs all active, a COMSET to be turned down, a fragment at 2 ^ 31 -/
example : pdid (bytes 3 1 ++ [7#8, 9#8] ++ bytes 4 0xFFFFFFFF ++ bytes 3 1) = .error .badShift := by decide +kernel
example : status (List.replicate 32 1#8) = .error .badShift := by decide +kernel
example : comset (1#8 :: bytes 4 0x80000000) = .error .badShift := by decide +kernel
example : fragment (1#8 :: bytes 4 0x80000001 ++ bytes 4 0x80000000 ++ bytes 2 1 ++ [7#8]) = .error .badShift := by decide +kernel

end Osdp.CInt
