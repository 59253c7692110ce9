import Verif.Model.KeyMem
import Verif.Lemmas.ScMem

/-!
# Stores into an array at fixed places
-/

namespace Osdp.KeyMem
open Osdp.AesMem
open Osdp.Aes (aes)

/-- the array with `bs` from index `o` on -/
def patch (m : List Byte) (o : Nat) (bs : List Byte) : List Byte := m.take o ++ (bs ++ m.drop (o + bs.length))

theorem patch_length {m : List Byte} {o : Nat} {bs : List Byte} (h : o + bs.length ≤ m.length) : (patch m o bs).length = m.length := by
  unfold patch; simp only [List.length_append, List.length_take, List.length_drop]; omega

theorem patch_get {m : List Byte} {o : Nat} {bs : List Byte} (h : o + bs.length ≤ m.length) (j : Nat) :
    (patch m o bs)[j]? = if o ≤ j ∧ j < o + bs.length then bs[j - o]? else m[j]? := by
  unfold patch
  have hl : (m.take o).length = o := by rw [List.length_take]; omega
  by_cases h1 : j < o
  · rw [if_neg (by omega), List.getElem?_append_left (by omega), List.getElem?_take_of_lt h1]
  · rw [List.getElem?_append_right (by omega), hl]
    by_cases h2 : j < o + bs.length
    · rw [if_pos ⟨by omega, h2⟩, List.getElem?_append_left (by omega)]
    · rw [if_neg (by omega), List.getElem?_append_right (by omega), List.getElem?_drop]
      congr 1; omega

theorem slice_get (m : List Byte) (o n j : Nat) : (slice m o n)[j]? = if j < n then m[o + j]? else none := by
  unfold slice
  rw [List.getElem?_take, List.getElem?_drop]

theorem slice_length {m : List Byte} {o n : Nat} (h : o + n ≤ m.length) : (slice m o n).length = n := by
  unfold slice; rw [List.length_take, List.length_drop]; omega

/-- a slice beside what was stored -/
theorem slice_patch_ne {m : List Byte} {o : Nat} {bs : List Byte} (h : o + bs.length ≤ m.length) {s n : Nat}
    (hd : s + n ≤ o ∨ o + bs.length ≤ s) : slice (patch m o bs) s n = slice m s n := by
  refine List.ext_getElem? fun j => ?_
  rw [slice_get, slice_get]
  split
  · rw [patch_get h, if_neg (by omega)]
  · rfl

theorem slice_patch_eq {m : List Byte} {o : Nat} {bs : List Byte} (h : o + bs.length ≤ m.length) :
    slice (patch m o bs) o bs.length = bs := by
  refine List.ext_getElem? fun j => ?_
  rw [slice_get]
  split
  · rw [patch_get h, if_pos (by omega)]; congr 1; omega
  · rw [List.getElem?_eq_none (by omega)]

theorem slice_patch_at {m : List Byte} {o n : Nat} {bs : List Byte} (hn : bs.length = n) (h : o + n ≤ m.length) :
    slice (patch m o bs) o n = bs := by subst hn; exact slice_patch_eq h

theorem wr_patch {m : List Byte} {i : Nat} (h : i < m.length) (v : Byte) : wr m i v = .ok (patch m i [v]) := by
  induction m generalizing i with
  | nil => exact absurd h (by simp)
  | cons b m ih =>
    cases i with
    | zero => rfl
    | succ i =>
      show (wr m i v >>= fun m' => .ok (b :: m')) = _
      rw [ih (by simpa using h)]
      show Except.ok _ = Except.ok _
      simp [patch, Nat.add_right_comm]

theorem get_at {m : List Byte} {i : Nat} {v : Byte} (h : m[i]? = some v) : get m i = .ok v := by
  obtain ⟨hi, hv⟩ := List.getElem?_eq_some_iff.mp h
  rw [get_eq m i hi, hv]

theorem patch_cons {m : List Byte} {o : Nat} {v : Byte} {bs : List Byte} (h : o + 1 + bs.length ≤ m.length) :
    patch (patch m o [v]) (o + 1) bs = patch m o (v :: bs) := by
  have h1 : o + [v].length ≤ m.length := by simp; omega
  refine List.ext_getElem? fun j => ?_
  rw [patch_get (by rw [patch_length h1]; omega), patch_get h1, patch_get (by simp; omega)]
  simp only [List.length_cons, List.length_nil]
  by_cases ha : o + 1 ≤ j ∧ j < o + 1 + bs.length
  · rw [if_pos ha, if_pos (by omega), show j - o = (j - (o + 1)) + 1 by omega]
    rfl
  · rw [if_neg ha]
    by_cases hb : j = o
    · rw [if_pos (by omega), if_pos (by omega)]
      subst hb; simp
    · rw [if_neg (by omega), if_neg (by omega)]

theorem patch_nil (m : List Byte) (o : Nat) : patch m o [] = m := by simp [patch]

/-- storing bytes that come from elsewhere, one after the other -/
theorem fill_patch (f : Nat → Prog Unit) (d : Nat) (bs : List Byte) (m : List Byte) (i : Nat) (h : d + i + bs.length ≤ m.length)
    (hf : ∀ k, k < bs.length → ∀ m', m'.length = m.length → (∀ j, j < d + i ∨ d + i + bs.length ≤ j → m'[j]? = m[j]?) →
      (∀ j, j < k → m'[d + i + j]? = bs[j]?) →
      ∃ v, bs[k]? = some v ∧ run (f (i + k)) m' = .ok ((), patch m' (d + i + k) [v])) :
    run (loop f i bs.length) m = .ok ((), patch m (d + i) bs) := by
  induction bs generalizing i m with
  | nil => rw [patch_nil]; rfl
  | cons b bs ih =>
    have hl : (b :: bs).length = bs.length + 1 := rfl
    obtain ⟨v, hv, h0⟩ := hf 0 (by simp) m rfl (fun _ _ => rfl) (fun j hj => absurd hj (by omega))
    cases (show some b = some v from hv)
    rw [Nat.add_zero i] at h0
    rw [hl, loop, run_seq h0]
    have h1 : d + i + 0 + [b].length ≤ m.length := by rw [hl] at h; simp; omega
    have hpl := patch_length h1
    have := ih (patch m (d + i + 0) [b]) (i + 1) (by rw [hpl]; rw [hl] at h; omega) (fun k hk m' hm' hout hin => by
      rw [hpl] at hm'
      obtain ⟨v, e1, e2⟩ := hf (k + 1) (by rw [hl]; omega) m' hm' (fun j hj => by
          rw [hl] at hj
          rw [hout j (by omega), patch_get h1, if_neg (by simp; omega)])
        (fun j hj => by
          cases j with
          | zero =>
            rw [hout (d + i + 0) (by omega), patch_get h1, if_pos (by simp)]
            simp
          | succ j =>
            have := hin j (by omega)
            rw [show d + i + (j + 1) = d + (i + 1) + j by omega, this]
            rfl)
      exact ⟨v, e1, by rw [show i + 1 + k = i + (k + 1) by omega, show d + (i + 1) + k = d + i + (k + 1) by omega]; exact e2⟩)
    rw [this]
    congr 2
    rw [show d + (i + 1) = d + i + 1 by omega, Nat.add_zero]
    exact patch_cons (by rw [hl] at h; omega)

theorem st_patch {m : List Byte} {i : Nat} (h : i < m.length) (v : Byte) : run (st i v) m = .ok ((), patch m i [v]) := by
  show (wr m i v >>= _) = _
  rw [wr_patch h]; rfl

theorem zero_run (m : List Byte) (d n : Nat) (h : d + n ≤ m.length) : run (zero d n) m = .ok ((), patch m d (List.replicate n 0#8)) := by
  have := fill_patch (fun i => st (d + i) 0#8) d (List.replicate n 0#8) m 0 (by simpa using h) (fun k hk m' hm' _ _ => by
    rw [List.length_replicate] at hk
    refine ⟨0#8, by rw [List.getElem?_replicate, if_pos hk], ?_⟩
    rw [Nat.zero_add, Nat.add_zero]
    exact st_patch (by omega) _)
  rw [List.length_replicate] at this
  exact this

theorem copyFrom_run (src m : List Byte) (d : Nat) (h : d + src.length ≤ m.length) :
    run (copyFrom src d src.length) m = .ok ((), patch m d src) := by
  have := fill_patch (fun i => do st (d + i) (← other (get src i))) d src m 0 (by simpa using h) (fun k hk m' hm' _ _ => by
    refine ⟨src[k], List.getElem?_eq_getElem hk, ?_⟩
    rw [Nat.zero_add, Nat.add_zero, get_eq src k hk]
    exact st_patch (by omega) _)
  exact this

theorem ld_run {m : List Byte} {i : Nat} {v : Byte} (h : m[i]? = some v) : run (ld i) m = .ok (v, m) := by
  show (get m i >>= _) = _
  rw [get_at h]; rfl

theorem copy_run (m : List Byte) (d s n : Nat) (h1 : d + n ≤ m.length) (h2 : s + n ≤ m.length) (hd : s + n ≤ d ∨ d + n ≤ s) :
    run (copy d s n) m = .ok ((), patch m d (slice m s n)) := by
  have hl := slice_length h2
  have := fill_patch (fun i => do st (d + i) (← ld (s + i))) d (slice m s n) m 0 (by omega) (fun k hk m' hm' hout _ => by
    rw [hl] at hk hout
    refine ⟨m[s + k], by rw [slice_get, if_pos hk, List.getElem?_eq_getElem], ?_⟩
    rw [Nat.zero_add, Nat.add_zero, run_seq (ld_run ((hout (s + k) (by omega)).trans (List.getElem?_eq_getElem (by omega))))]
    exact st_patch (by omega) _)
  rw [hl] at this
  exact this

theorem encryptAt_run (stack : Ctx) (hs : stack.roundKey.length = 176) (key b : Block) (m : List Byte) (o : Nat) (h : o + 16 ≤ m.length)
    (hb : slice m o 16 = b.1) : encryptAt stack key.1 m o = .ok (patch m o (aes.enc key b).1) := by
  unfold encryptAt ScMem.at_
  have hd : m.drop o = b.1 ++ m.drop (o + 16) := by
    rw [← hb]; unfold slice
    rw [← List.drop_drop]; exact (List.take_append_drop 16 _).symm
  rw [hd, osdpEncrypt_ecb stack hs key b]
  show Except.ok _ = Except.ok _
  unfold patch
  rw [(aes.enc key b).2]
  rfl

theorem ctCompare_run (a b : List Byte) (i n : Nat) (r : Byte) (ha : i + n ≤ a.length) (hb : i + n ≤ b.length) :
    ∃ x, ctCompare a b i n r = .ok x ∧ (x = 0#8 ↔ r = 0#8 ∧ slice a i n = slice b i n) := by
  induction n generalizing i r with
  | zero => exact ⟨r, rfl, by simp [slice]⟩
  | succ n ih =>
    obtain ⟨x, h1, h2⟩ := ih (i + 1) (r ||| (a[i] ^^^ b[i])) (by omega) (by omega)
    refine ⟨x, ?_, ?_⟩
    · unfold ctCompare
      rw [get_eq a i (by omega), get_eq b i (by omega)]
      exact h1
    · rw [h2]
      have hs : ∀ l : List Byte, (h : i < l.length) → slice l i (n + 1) = l[i] :: slice l (i + 1) n := by
        intro l h
        unfold slice
        rw [List.drop_eq_getElem_cons h, List.take_succ_cons]
      rw [hs a (by omega), hs b (by omega), List.cons.injEq]
      have hx : ∀ r x y : Byte, (r ||| (x ^^^ y)) = 0#8 ↔ r = 0#8 ∧ x = y := by
        intro r x y
        rw [BitVec.or_eq_zero_iff, BitVec.xor_eq_zero_iff]
      rw [hx]
      exact and_assoc

/-- the loop that puts the random number into the three seeds -/
def spread (i : Nat) : Prog Unit := do
  st (S_ENC + i) (← ld (CP_RANDOM + (i - 2)))
  st (S_MAC1 + i) (← ld (CP_RANDOM + (i - 2)))
  st (S_MAC2 + i) (← ld (CP_RANDOM + (i - 2)))

/-- where byte `j` comes from after the rounds `i` to `i + n - 1` of that loop -/
def from_ (i n j : Nat) : Nat :=
  if S_ENC + i ≤ j ∧ j < S_ENC + i + n then CP_RANDOM + (j - S_ENC - 2)
  else if S_MAC1 + i ≤ j ∧ j < S_MAC1 + i + n then CP_RANDOM + (j - S_MAC1 - 2)
  else if S_MAC2 + i ≤ j ∧ j < S_MAC2 + i + n then CP_RANDOM + (j - S_MAC2 - 2)
  else j

theorem spread_once (m : List Byte) (hl : m.length = SIZE) (i : Nat) (h2 : 2 ≤ i) (h8 : i < 8) :
    ∃ m', run (spread i) m = .ok ((), m') ∧ m'.length = SIZE ∧ ∀ j, m'[j]? = m[from_ i 1 j]? := by
  have hv : ∃ v, m[CP_RANDOM + (i - 2)]? = some v := ⟨_, List.getElem?_eq_getElem (by show 96 + (i - 2) < m.length; rw [hl]; show _ < 152; omega)⟩
  obtain ⟨v, hv⟩ := hv
  have hl : m.length = 152 := hl
  have e1 : S_ENC + i + [v].length ≤ m.length := by show 16 + i + 1 ≤ _; omega
  have l1 := patch_length e1
  have g1 : ∀ j, (patch m (S_ENC + i) [v])[j]? = if j = S_ENC + i then some v else m[j]? := by
    intro j
    rw [patch_get e1]
    simp only [List.length_cons, List.length_nil]
    by_cases hj : j = S_ENC + i
    · rw [if_pos (by omega), if_pos hj, hj, Nat.sub_self]; rfl
    · rw [if_neg (by omega), if_neg hj]
  have e2 : S_MAC1 + i + [v].length ≤ (patch m (S_ENC + i) [v]).length := by rw [l1]; show 32 + i + 1 ≤ _; omega
  have l2 := patch_length e2
  have g2 : ∀ j, (patch (patch m (S_ENC + i) [v]) (S_MAC1 + i) [v])[j]? =
      if j = S_MAC1 + i then some v else (patch m (S_ENC + i) [v])[j]? := by
    intro j
    rw [patch_get e2]
    simp only [List.length_cons, List.length_nil]
    by_cases hj : j = S_MAC1 + i
    · rw [if_pos (by omega), if_pos hj, hj, Nat.sub_self]; rfl
    · rw [if_neg (by omega), if_neg hj]
  have e3 : S_MAC2 + i + [v].length ≤ (patch (patch m (S_ENC + i) [v]) (S_MAC1 + i) [v]).length := by
    rw [l2, l1]; show 48 + i + 1 ≤ _; omega
  have l3 := patch_length e3
  have g3 : ∀ j, (patch (patch (patch m (S_ENC + i) [v]) (S_MAC1 + i) [v]) (S_MAC2 + i) [v])[j]? =
      if j = S_MAC2 + i then some v else (patch (patch m (S_ENC + i) [v]) (S_MAC1 + i) [v])[j]? := by
    intro j
    rw [patch_get e3]
    simp only [List.length_cons, List.length_nil]
    by_cases hj : j = S_MAC2 + i
    · rw [if_pos (by omega), if_pos hj, hj, Nat.sub_self]; rfl
    · rw [if_neg (by omega), if_neg hj]
  refine ⟨_, ?_, by rw [l3, l2, l1]; exact hl, ?_⟩
  · unfold spread
    rw [run_seq (ld_run hv), run_seq (st_patch (by show 16 + i < _; omega) v),
      run_seq (ld_run (v := v) (by rw [g1, if_neg (by show ¬ 96 + (i - 2) = 16 + i; omega)]; exact hv)),
      run_seq (st_patch (by rw [l1]; show 32 + i < _; omega) v),
      run_seq (ld_run (v := v) (by
        rw [g2, if_neg (by show ¬ 96 + (i - 2) = 32 + i; omega), g1, if_neg (by show ¬ 96 + (i - 2) = 16 + i; omega)]; exact hv)),
      st_patch (by rw [l2, l1]; show 48 + i < _; omega) v]
  · intro j
    rw [g3, g2, g1]
    unfold from_
    by_cases ha : j = S_ENC + i
    · subst ha
      rw [if_neg (by show ¬ 16 + i = 48 + i; omega), if_neg (by show ¬ 16 + i = 32 + i; omega), if_pos rfl, if_pos (by omega),
        show S_ENC + i - S_ENC - 2 = i - 2 by omega, hv]
    · by_cases hb : j = S_MAC1 + i
      · subst hb
        rw [if_neg (by show ¬ 32 + i = 48 + i; omega), if_pos rfl, if_neg (by omega), if_pos (by omega),
          show S_MAC1 + i - S_MAC1 - 2 = i - 2 by omega, hv]
      · by_cases hc : j = S_MAC2 + i
        · subst hc
          rw [if_pos rfl, if_neg (by omega), if_neg (by omega), if_pos (by omega), show S_MAC2 + i - S_MAC2 - 2 = i - 2 by omega, hv]
        · rw [if_neg hc, if_neg hb, if_neg ha, if_neg (by omega), if_neg (by omega), if_neg (by omega)]

theorem spread_run (n : Nat) : ∀ (m : List Byte) (_ : m.length = SIZE) (i : Nat) (_ : 2 ≤ i) (_ : i + n ≤ 8),
    ∃ m', run (loop spread i n) m = .ok ((), m') ∧ m'.length = SIZE ∧ ∀ j, m'[j]? = m[from_ i n j]? := by
  induction n with
  | zero =>
    intro m hl i h2 h8
    refine ⟨m, rfl, hl, fun j => ?_⟩
    unfold from_
    rw [if_neg (by omega), if_neg (by omega), if_neg (by omega)]
  | succ n ih =>
    intro m hl i h2 h8
    obtain ⟨m1, r1, l1, g1⟩ := spread_once m hl i h2 (by omega)
    obtain ⟨m2, r2, l2, g2⟩ := ih m1 l1 (i + 1) (by omega) (by omega)
    refine ⟨m2, ?_, l2, fun j => ?_⟩
    · rw [loop, run_seq r1]; exact r2
    · rw [g2, g1]
      congr 1
      unfold from_
      simp only [S_ENC, S_MAC1, S_MAC2, CP_RANDOM]
      repeat' split
      all_goals omega

end Osdp.KeyMem
