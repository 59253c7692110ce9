import Verif.Model.Crc
import Verif.Spec.Crc

/-!
# C02: the packet CRC is the prescribed polynomial CRC and detects bursts
-/

namespace Osdp.Crc

open Spec.Crc

theorem shl_xor {n : Nat} (x y : BitVec n) (k : Nat) :
    (x ^^^ y) <<< k = (x <<< k) ^^^ (y <<< k) := BitVec.shiftLeft_xor_distrib x y k

theorem shr_xor {n : Nat} (x y : BitVec n) (k : Nat) :
    (x ^^^ y) >>> k = (x >>> k) ^^^ (y >>> k) := BitVec.ushiftRight_xor_distrib x y k

theorem xor_cancel {n : Nat} (p a b : BitVec n) : (a ^^^ p) ^^^ (b ^^^ p) = a ^^^ b := by
  ext i; simp; cases a[i] <;> cases b[i] <;> cases p[i] <;> rfl

theorem bitStep_xor (s t : BitVec 16) (a b : Bool) :
    bitStep (s ^^^ t) (a ^^ b) = bitStep s a ^^^ bitStep t b := by
  unfold bitStep
  rw [BitVec.msb_xor, shl_xor]
  generalize s <<< 1 = u
  generalize t <<< 1 = v
  cases s.msb <;> cases t.msb <;> cases a <;> cases b <;>
    simp only [Bool.xor_false, Bool.xor_true, Bool.not_false, Bool.not_true, if_true, xor_cancel,
      Bool.false_eq_true, if_false] <;> ac_rfl

/-- the bit shifted into the bottom of the register -/
theorem bitStep_lsb (s : BitVec 16) (b : Bool) : (bitStep s b).getLsbD 0 = (s.msb ^^ b) := by
  unfold bitStep
  cases h : (s.msb ^^ b) <;> simp

/-- If shifting at most 16 bits into `s` leaves a zero register, `s` starts with those bits. -/
theorem fold_zero (e : List Bool) (s : BitVec 16) (hl : e.length ≤ 16)
    (h : e.foldl bitStep s = 0#16) : ∀ i < 16, s.getMsbD i = e.getD i false := by
  induction e generalizing s with
  | nil => intro i _; simp at h; simp [h]
  | cons b e ih =>
    intro i hi
    simp only [List.length_cons] at hl
    have h' := ih (bitStep s b) (by omega) h
    have h15 := h' 15 (by omega)
    have e15 : e.getD 15 false = false := by
      rw [List.getD_eq_getElem?_getD, List.getElem?_eq_none (by omega)]; rfl
    rw [e15] at h15
    have hm : (s.msb ^^ b) = false := by
      rw [← bitStep_lsb, ← h15]; rfl
    have hs : bitStep s b = s <<< 1 := by simp [bitStep, hm]
    cases i with
    | zero =>
      have : s.msb = b := by revert hm; cases s.msb <;> cases b <;> simp
      simp [← this, BitVec.msb]
    | succ i =>
      have := h' i (by omega)
      rw [hs, BitVec.getMsbD_shiftLeft] at this
      simp only [List.getD_cons_succ]
      rw [← this]

theorem xor_eq_zero {n : Nat} {x y : BitVec n} (h : x ^^^ y = 0#n) : x = y := by
  ext i hi
  have := congrArg (·[i]) h
  simp at this
  exact this

theorem foldl_bitStep_xor (x y : List Bool) (hl : x.length = y.length) (s t : BitVec 16) :
    (List.zipWith xor x y).foldl bitStep (s ^^^ t) = x.foldl bitStep s ^^^ y.foldl bitStep t := by
  induction x generalizing y s t with
  | nil => cases y with
    | nil => rfl
    | cons => simp at hl
  | cons a x ih => cases y with
    | nil => simp at hl
    | cons b y =>
      simp only [List.zipWith_cons_cons, List.foldl_cons]
      rw [bitStep_xor]
      exact ih y (by simpa using hl) _ _

/-- Two bit strings of the same length `≤ 16` shifted into the same register give the same
register only if they are equal. -/
theorem fold_inj_bits (x y : List Bool) (hl : x.length = y.length) (h16 : x.length ≤ 16)
    (s : BitVec 16) (h : x.foldl bitStep s = y.foldl bitStep s) : x = y := by
  have e := foldl_bitStep_xor x y hl s s
  rw [h, BitVec.xor_self, BitVec.xor_self] at e
  have hz := fold_zero _ 0#16 (by simp; omega) e
  apply List.ext_getElem hl
  intro i h1 h2
  have := hz i (by omega)
  rw [List.getD_eq_getElem?_getD, List.getElem?_eq_getElem (by simp; omega)] at this
  simp only [List.getElem_zipWith, Option.getD_some, BitVec.getMsbD_zero] at this
  revert this; cases x[i] <;> cases y[i] <;> simp

theorem bitStep_inj (b : Bool) (s t : BitVec 16) (h : bitStep s b = bitStep t b) : s = t := by
  have e := bitStep_xor s t b b
  rw [h, BitVec.xor_self] at e
  have hz := fold_zero [b ^^ b] (s ^^^ t) (by simp) (by simpa using e)
  apply xor_eq_zero
  apply BitVec.eq_of_getMsbD_eq
  intro i hi
  have := hz i hi
  rw [this]
  cases i <;> simp

theorem fold_inj_state (bits : List Bool) (s t : BitVec 16)
    (h : bits.foldl bitStep s = bits.foldl bitStep t) : s = t := by
  induction bits generalizing s t with
  | nil => exact h
  | cons b bs ih => exact bitStep_inj b s t (ih _ _ h)

/-- The bit-serial CRC changes under every burst of at most 16 bits. -/
theorem crcBits_burst {x y : List Bool} (h : BurstDiff 16 x y) : crcBits x ≠ crcBits y := by
  obtain ⟨pre, mid, mid', post, rfl, rfl, hl, h16, hne⟩ := h
  intro he
  simp only [crcBits, List.foldl_append] at he
  exact hne (fold_inj_bits _ _ hl h16 _ (fold_inj_state _ _ _ he))

/-! ### the code's byte step is eight bit steps -/

theorem swap_eq (s : BitVec 16) : (s >>> 8) ||| (s <<< 8) = (s >>> 8) ^^^ (s <<< 8) := by
  ext i hi
  simp only [BitVec.getElem_or, BitVec.getElem_xor, BitVec.getElem_ushiftRight,
    BitVec.getElem_shiftLeft]
  by_cases h : i < 8
  · simp [h]
  · have : s.getLsbD (8 + i) = false := BitVec.getLsbD_of_ge _ _ (by omega)
    simp [h, this]

theorem and_xor (x y m : BitVec 16) : (x ^^^ y) &&& m = (x &&& m) ^^^ (y &&& m) := by
  ext i; simp; cases x[i] <;> cases y[i] <;> cases m[i] <;> rfl

theorem setWidth_xor (a b : Byte) : (a ^^^ b).setWidth 16 = a.setWidth 16 ^^^ b.setWidth 16 := by
  simp

/-- the four stages of the byte step -/
def f1 (s : BitVec 16) := (s >>> 8) ||| (s <<< 8)
def f3 (s : BitVec 16) := s ^^^ ((s &&& 0xff#16) >>> 4)
def f4 (s : BitVec 16) := s ^^^ (s <<< 12)
def f5 (s : BitVec 16) := s ^^^ ((s &&& 0xff#16) <<< 5)

theorem f1_xor (s t : BitVec 16) : f1 (s ^^^ t) = f1 s ^^^ f1 t := by
  rw [f1, f1, f1, swap_eq, swap_eq, swap_eq, shl_xor, shr_xor]; ac_rfl
theorem f3_xor (s t : BitVec 16) : f3 (s ^^^ t) = f3 s ^^^ f3 t := by
  simp only [f3, and_xor, shr_xor]; ac_rfl
theorem f4_xor (s t : BitVec 16) : f4 (s ^^^ t) = f4 s ^^^ f4 t := by
  simp only [f4, shl_xor]; ac_rfl
theorem f5_xor (s t : BitVec 16) : f5 (s ^^^ t) = f5 s ^^^ f5 t := by
  simp only [f5, and_xor, shl_xor]; ac_rfl

theorem step_xor (s t : BitVec 16) (a b : Byte) :
    step (s ^^^ t) (a ^^^ b) = step s a ^^^ step t b := by
  have h : ∀ s b, step s b = f5 (f4 (f3 (f1 s ^^^ b.setWidth 16))) := fun _ _ => rfl
  have r : ∀ p q u v : BitVec 16, (p ^^^ q) ^^^ (u ^^^ v) = (p ^^^ u) ^^^ (q ^^^ v) := by
    intros; ac_rfl
  rw [h, h, h, setWidth_xor, f1_xor, r, f3_xor, f4_xor, f5_xor]

/-- eight bit steps -/
def byteStep (s : BitVec 16) (b : Byte) : BitVec 16 := (msbBits b).foldl bitStep s

theorem byteStep_xor (s t : BitVec 16) (a b : Byte) :
    byteStep (s ^^^ t) (a ^^^ b) = byteStep s a ^^^ byteStep t b := by
  unfold byteStep
  rw [← foldl_bitStep_xor _ _ (by simp [msbBits])]
  simp [msbBits]

theorem split16 (s : BitVec 16) :
    s = ((s >>> 8).setWidth 8).setWidth 16 <<< 8 ^^^ (s.setWidth 8).setWidth 16 := by
  ext i hi
  simp only [BitVec.getElem_xor, BitVec.getElem_shiftLeft, BitVec.getLsbD_setWidth,
    BitVec.getLsbD_ushiftRight, BitVec.getElem_setWidth]
  by_cases h : i < 8
  · simp [h, BitVec.getLsbD_eq_getElem hi]
  · have e : 8 + (i - 8) = i := by omega
    have h2 : i - 8 < 8 := by omega
    simp [h, h2, e, BitVec.getLsbD_eq_getElem hi]

theorem step_eq_byteStep (s : BitVec 16) (b : Byte) : step s b = byteStep s b := by
  have hi : ∀ x : Byte, step (x.setWidth 16 <<< 8) 0#8 = byteStep (x.setWidth 16 <<< 8) 0#8 := by
    decide +kernel
  have lo : ∀ x : Byte, step (x.setWidth 16) 0#8 = byteStep (x.setWidth 16) 0#8 := by
    decide +kernel
  have ze : ∀ x : Byte, step 0#16 x = byteStep 0#16 x := by
    decide +kernel
  have e1 : s = (((s >>> 8).setWidth 8).setWidth 16 <<< 8 ^^^ (s.setWidth 8).setWidth 16) ^^^ 0#16 := by
    rw [BitVec.xor_zero]; exact split16 s
  have e2 : b = (0#8 ^^^ 0#8) ^^^ b := by simp
  rw [e1, e2, step_xor, step_xor, byteStep_xor, byteStep_xor, hi, lo, ze]

theorem computeCrc16_eq_spec (msg : List Byte) : computeCrc16 msg = Spec.Crc.crc msg := by
  unfold computeCrc16 crc16 Spec.Crc.crc crcBits
  generalize 0x1D0F#16 = s
  induction msg generalizing s with
  | nil => rfl
  | cons b bs ih =>
    simp only [List.foldl_cons, List.flatMap_cons, List.foldl_append]
    rw [step_eq_byteStep]; exact ih _

/-- **C02 (value).** The check value computed by the code is the bit-serial CRC with
generator 0x1021 and preset 0x1D0F, for every message. -/
theorem C02_crc_is_polynomial_crc (msg : List Byte) :
    computeCrc16 msg = Spec.Crc.crc msg := computeCrc16_eq_spec msg

/-- **C02 (bursts, polynomial bit order).** A corruption confined to 16 consecutive bits of
the message (most significant bit first) changes the check value. -/
theorem C02_crc_detects_bursts (m m' : List Byte)
    (h : BurstDiff 16 (m.flatMap msbBits) (m'.flatMap msbBits)) :
    computeCrc16 m ≠ computeCrc16 m' := by
  rw [computeCrc16_eq_spec, computeCrc16_eq_spec]
  exact crcBits_burst h

/-- Non-vacuity: a two-byte difference satisfies the burst hypothesis. -/
example : BurstDiff 16 ([0x60#8, 0x00#8, 0x12#8].flatMap msbBits)
    ([0x60#8, 0xff#8, 0xed#8].flatMap msbBits) :=
  ⟨msbBits 0x60#8, msbBits 0x00#8 ++ msbBits 0x12#8, msbBits 0xff#8 ++ msbBits 0xed#8, [],
    by decide, by decide, by decide, by decide, by decide⟩

/-! ### bursts in line (UART) bit order, and whole frames -/

/-- register after one byte from zero -/
def T (a : Byte) : BitVec 16 := step 0#16 a

theorem step_zero_zero : step 0#16 0#8 = 0#16 := by decide

theorem step_inj (b : Byte) {s t : BitVec 16} (h : step s b = step t b) : s = t := by
  rw [step_eq_byteStep, step_eq_byteStep] at h
  exact fold_inj_state _ _ _ h

/-- recovers a byte from the low half of its table entry -/
def unlow (l : Byte) : Byte :=
  let y := l ^^^ (l <<< 5)
  y ^^^ (y >>> 4)

theorem unlow_T : ∀ a : Byte, unlow ((T a).setWidth 8) = a := by decide +kernel

theorem step_low (s : BitVec 16) (b : Byte) :
    step s b = (s <<< 8) ^^^ T ((s >>> 8).setWidth 8 ^^^ b) := by
  have hi : ∀ x : Byte, step (x.setWidth 16 <<< 8) 0#8 = T x := by decide +kernel
  have lo : ∀ x : Byte, step (x.setWidth 16) 0#8 = x.setWidth 16 <<< 8 := by decide +kernel
  have sh : (s.setWidth 8).setWidth 16 <<< 8 = s <<< 8 := by
    ext i h
    simp only [BitVec.getElem_shiftLeft]
    by_cases h8 : i < 8
    · simp [h8]
    · have h1 : i - 8 < 8 := by omega
      simp [h8, h1, BitVec.getLsbD_eq_getElem (show i - 8 < 16 by omega)]
  have e1 : s = (((s >>> 8).setWidth 8).setWidth 16 <<< 8 ^^^ (s.setWidth 8).setWidth 16) ^^^ 0#16 := by
    rw [BitVec.xor_zero]; exact split16 s
  have e2 : b = (0#8 ^^^ 0#8) ^^^ b := by simp
  have hT : T ((s >>> 8).setWidth 8 ^^^ b) = T ((s >>> 8).setWidth 8) ^^^ T b := by
    have := step_xor 0#16 0#16 ((s >>> 8).setWidth 8) b
    simpa [T] using this
  rw [hT, ← sh]
  conv => lhs; rw [e1, e2, step_xor, step_xor, hi, lo]
  rw [show step 0#16 b = T b from rfl]
  ac_rfl

/-- folding a zero tail is injective -/
theorem fold_step_inj (bs : List Byte) {s t : BitVec 16} (h : bs.foldl step s = bs.foldl step t) :
    s = t := by
  induction bs generalizing s t with
  | nil => exact h
  | cons b bs ih => exact step_inj b (ih h)

theorem fold_step_xor (x y : List Byte) (hl : x.length = y.length) (s t : BitVec 16) :
    (List.zipWith (· ^^^ ·) x y).foldl step (s ^^^ t) = x.foldl step s ^^^ y.foldl step t := by
  induction x generalizing y s t with
  | nil => cases y with
    | nil => rfl
    | cons => simp at hl
  | cons a x ih => cases y with
    | nil => simp at hl
    | cons b y =>
      simp only [List.zipWith_cons_cons, List.foldl_cons]
      rw [step_xor]
      exact ih y (by simpa using hl) _ _

theorem fold_zeros (n : Nat) : (List.replicate n 0#8).foldl step 0#16 = 0#16 := by
  induction n with
  | zero => rfl
  | succ n ih => rw [List.replicate_succ, List.foldl_cons, step_zero_zero, ih]

/-- byte difference at position `i` -/
def errAt (x y : List Byte) (i : Nat) : Byte := x.getD i 0#8 ^^^ y.getD i 0#8

theorem errAt_zero_of {w s : Nat} {x y : List Byte}
    (h : ∀ k, wireBit x k ≠ wireBit y k → s ≤ k ∧ k < s + w) (i t : Nat) (ht : t < 8)
    (ho : 8 * i + t < s ∨ s + w ≤ 8 * i + t) : (errAt x y i).getLsbD t = false := by
  unfold errAt
  rw [BitVec.getLsbD_xor]
  by_cases hw : wireBit x (8 * i + t) = wireBit y (8 * i + t)
  · unfold wireBit at hw
    have e1 : (8 * i + t) / 8 = i := by omega
    have e2 : (8 * i + t) % 8 = t := by omega
    rw [e1, e2] at hw
    rw [hw]; simp
  · have := h _ hw
    omega

theorem byte_zero_of {e : Byte} (h : ∀ t < 8, e.getLsbD t = false) : e = 0#8 := by
  apply BitVec.eq_of_getLsbD_eq
  intro i hi
  rw [h i hi]; simp

/-- the difference list of two equally long byte strings -/
theorem zip_err (x y : List Byte) (hl : x.length = y.length) :
    List.zipWith (· ^^^ ·) x y = (List.range x.length).map (errAt x y) := by
  apply List.ext_getElem
  · simp [hl]
  · intro i h1 h2
    simp only [List.length_map, List.length_range] at h2
    have h3 : i < y.length := by omega
    simp [errAt, h2, h3]

/-- contribution of differences at three adjacent bytes followed by anything unchanged -/
theorem fold_three (n j : Nat) (f : Nat → Byte) (hj : j + 2 < n)
    (h0 : ∀ i, i < j → f i = 0#8) (h1 : ∀ i, j + 2 < i → f i = 0#8) :
    ((List.range n).map f).foldl step 0#16 =
      (List.replicate (n - (j + 3)) 0#8).foldl step (step (step (T (f j)) (f (j+1))) (f (j+2))) := by
  have e : (List.range n).map f =
      List.replicate j 0#8 ++ [f j, f (j+1), f (j+2)] ++ List.replicate (n - (j + 3)) 0#8 := by
    apply List.ext_getElem
    · simp; omega
    · intro i hi1 hi2
      simp only [List.getElem_map, List.getElem_range]
      by_cases c1 : i < j
      · rw [List.getElem_append_left (by simp; omega), List.getElem_append_left (by simpa using c1)]
        simp [h0 i c1]
      · by_cases c2 : i < j + 3
        · rw [List.getElem_append_left (by simp; omega), List.getElem_append_right (by simp; omega)]
          obtain rfl | rfl | rfl : i = j ∨ i = j + 1 ∨ i = j + 2 := by omega
          · simp
          · simp
          · simp
        · rw [List.getElem_append_right (by simp; omega)]
          simp [h1 i (by omega)]
  rw [e, List.foldl_append, List.foldl_append, fold_zeros]
  rfl

theorem fold_err_zero (n : Nat) (f : Nat → Byte) (h0 : ∀ i, i < n → f i = 0#8) :
    ((List.range n).map f).foldl step 0#16 = 0#16 := by
  have e : (List.range n).map f = List.replicate n 0#8 := by
    apply List.ext_getElem
    · simp
    · intro i h1 h2
      simp at h2
      simp [h0 i h2]
  rw [e, fold_zeros]

private theorem low_of_zero {v w : BitVec 16} (h : (v <<< 8) ^^^ w = 0#16) : w.setWidth 8 = 0#8 := by
  have : w = v <<< 8 := (xor_eq_zero h).symm
  rw [this]
  ext i hi
  simp [hi]

/-- three adjacent corrupted bytes cancel only in one way -/
theorem three_zero {a b c : Byte} (h : step (step (T a) b) c = 0#16) :
    c = (T a).setWidth 8 ∧ b = (T a >>> 8).setWidth 8 := by
  have uz : ∀ x : Byte, (T x).setWidth 8 = 0#8 → x = 0#8 := by
    intro x hx
    have := unlow_T x
    rw [hx] at this
    rw [← this]; decide
  rw [step_low] at h
  have hx := uz _ (low_of_zero h)
  rw [hx, show T 0#8 = 0#16 from by decide, BitVec.xor_zero] at h
  have hc : ((step (T a) b) >>> 8).setWidth 8 = c := xor_eq_zero hx
  rw [step_low] at h hc
  have hlow : (T ((T a >>> 8).setWidth 8 ^^^ b)).setWidth 8 = 0#8 := by
    generalize T ((T a >>> 8).setWidth 8 ^^^ b) = X at h
    apply BitVec.eq_of_getLsbD_eq
    intro i hi
    have := congrArg (fun v : BitVec 16 => v.getLsbD (8 + i)) h
    have h1 : 8 + i < 16 := by omega
    have h2 : 8 + i - 8 = i := by omega
    simp [h1, h2, hi] at this
    simp [hi, BitVec.getLsbD_eq_getElem (show i < 16 by omega), this]
  have hb := uz _ hlow
  rw [hb, show T 0#8 = 0#16 from by decide, BitVec.xor_zero] at hc
  refine ⟨?_, (xor_eq_zero hb).symm⟩
  rw [← hc]
  ext i hi
  have hi16 : 8 + i < 16 := by omega
  have hi8 : ¬ (8 + i < 8) := by omega
  simp [hi16, hi8, BitVec.getLsbD_eq_getElem (show i < 16 by omega)]

private theorem chkA : ∀ a : Byte, a ≠ 0#8 → ∀ p : Fin 8, (∀ t : Fin 8, t < p → a.getLsbD t = false) →
    ∃ t : Fin 8, p ≤ t ∧ ((T a).setWidth 8 : Byte).getLsbD t = true := by decide +kernel

/-- **C02 (bursts, line order).** A corruption confined to 16 consecutive bits of the message as
transmitted (least significant bit of each byte first) changes the check value. -/
theorem C02_crc_detects_line_bursts (m m' : List Byte) (h : WireBurst 16 m m') :
    computeCrc16 m ≠ computeCrc16 m' := by
  obtain ⟨hl, hne, s, hs⟩ := h
  intro he
  have hf : ((List.range m.length).map (errAt m m')).foldl step 0#16 = 0#16 := by
    rw [← zip_err m m' hl]
    have := fold_step_xor m m' hl 0x1D0F#16 0x1D0F#16
    rw [BitVec.xor_self] at this
    rw [this]
    unfold computeCrc16 crc16 at he
    rw [he, BitVec.xor_self]
  -- all differences lie in the bytes j, j+1, j+2
  have hj : ∀ i, i < s / 8 → errAt m m' i = 0#8 := fun i hi =>
    byte_zero_of fun t ht => errAt_zero_of hs i t ht (by omega)
  have hj2 : ∀ i, s / 8 + 2 < i → errAt m m' i = 0#8 := fun i hi =>
    byte_zero_of fun t ht => errAt_zero_of hs i t ht (by omega)
  have hout : ∀ i, m.length ≤ i → errAt m m' i = 0#8 := by
    intro i hi
    have h2 : m'.length ≤ i := by omega
    simp [errAt, List.getElem?_eq_none hi, List.getElem?_eq_none h2]
  -- pad with zero bytes so that three bytes are available
  have hpad : ((List.range (m.length + (s / 8 + 3))).map (errAt m m')).foldl step 0#16 = 0#16 := by
    rw [List.range_add, List.map_append, List.foldl_append, hf, List.map_map]
    exact fold_err_zero _ _ fun i _ => hout _ (by show m.length ≤ m.length + i; omega)
  rw [fold_three _ (s / 8) _ (by omega) hj hj2, ← fold_zeros (m.length + (s / 8 + 3) - (s / 8 + 3))]
    at hpad
  obtain ⟨hc, hb⟩ := three_zero (fold_step_inj _ hpad)
  have ha : errAt m m' (s / 8) = 0#8 := by
    apply Classical.byContradiction
    intro ha
    obtain ⟨t, ht, htt⟩ := chkA _ ha ⟨s % 8, Nat.mod_lt _ (by decide)⟩ (fun t ht =>
      errAt_zero_of hs _ _ t.isLt (by have : t.val < s % 8 := ht; omega))
    rw [← hc] at htt
    rw [errAt_zero_of hs _ _ t.isLt (by have : s % 8 ≤ t.val := ht; omega)] at htt
    cases htt
  rw [ha] at hb hc
  apply hne
  apply List.ext_getElem hl
  intro i h1 h2
  have hi : errAt m m' i = 0#8 := by
    by_cases c1 : i < s / 8
    · exact hj i c1
    · by_cases c2 : s / 8 + 2 < i
      · exact hj2 i c2
      · obtain rfl | rfl | rfl : i = s / 8 ∨ i = s / 8 + 1 ∨ i = s / 8 + 2 := by omega
        · exact ha
        · rw [hb]; decide
        · rw [hc]; decide
  have := xor_eq_zero hi
  simpa [h1, h2] using this

/-- Non-vacuity: a 16-bit line burst. -/
example : WireBurst 16 [0x60#8, 0x00#8, 0x12#8, 0x07#8] [0x60#8, 0xf0#8, 0xed#8, 0x06#8] := by
  refine ⟨rfl, by decide, 12, ?_⟩
  intro k hk
  by_cases h : k < 32
  · revert hk; revert k
    decide +kernel
  · exfalso; apply hk
    simp only [wireBit]
    rw [List.getD_eq_getElem?_getD, List.getD_eq_getElem?_getD,
      List.getElem?_eq_none (by simp; omega), List.getElem?_eq_none (by simp; omega)]

private theorem chkC : ∀ a : Byte, a ≠ 0#8 → ∀ p : Fin 8, (∀ t : Fin 8, t < p → a.getLsbD t = false) →
    (∃ t : Fin 8, p.val + 6 ≤ t.val ∧ ((T a).setWidth 8 : Byte).getLsbD t = true) ∨
    (∃ t : Fin 8, p.val ≤ t.val + 2 ∧ ((T a >>> 8).setWidth 8 : Byte).getLsbD t = true) := by
  decide +kernel

private theorem chkB : ∀ b : Byte, b ≠ 0#8 → ∀ p : Fin 8,
    (∀ t : Fin 8, t < p → (unlow ((T b >>> 8).setWidth 8)).getLsbD t = false) →
    ∃ t : Fin 8, p.val ≤ t.val + 2 ∧
      ((T (unlow ((T b >>> 8).setWidth 8)) <<< 8 ^^^ T b).setWidth 8 : Byte).getLsbD t = true := by
  decide +kernel

private theorem zero_of_halves {d : BitVec 16} (h1 : d.setWidth 8 = 0#8)
    (h2 : (d >>> 8).setWidth 8 = 0#8) : d = 0#16 := by
  rw [split16 d, h1, h2]; decide

private theorem hi_xor_shl (u v : BitVec 16) :
    ((u <<< 8 ^^^ v) >>> 8).setWidth 8 = (u.setWidth 8 ^^^ (v >>> 8).setWidth 8 : Byte) := by
  ext i hi
  have h1 : 8 + i < 16 := by omega
  have h2 : ¬ (8 + i < 8) := by omega
  simp [h1, h2, BitVec.getLsbD_eq_getElem (show i < 16 by omega)]

/-- **C02 (whole frame).** A corruption confined to 14 consecutive line bits anywhere in a frame,
the CRC field included, is detected: the corrupted frame does not verify. -/
theorem C02_frame_detects_line_bursts (x y : List Byte) (hx : ValidFrame x) (h : WireBurst 14 x y) :
    ¬ ValidFrame y := by
  obtain ⟨m, rfl⟩ := hx
  rintro ⟨m', rfl⟩
  obtain ⟨hl, hne, s, hs⟩ := h
  have hlen : m.length = m'.length := by simpa [frame] using hl
  generalize hn : m.length = n at *
  generalize hx : frame m (Spec.Crc.crc m) = x at *
  generalize hy : frame m' (Spec.Crc.crc m') = y at *
  -- the difference of the two CRC values
  have hD : ((List.range n).map (errAt x y)).foldl step 0#16 = Spec.Crc.crc m ^^^ Spec.Crc.crc m' := by
    have e := fold_step_xor m m' (by omega) 0x1D0F#16 0x1D0F#16
    rw [BitVec.xor_self, zip_err m m' (by omega), hn] at e
    rw [← computeCrc16_eq_spec, ← computeCrc16_eq_spec]
    refine Eq.trans ?_ e
    congr 1
    apply List.map_congr_left
    intro i hi
    have hi : i < n := by simpa using hi
    rw [← hx, ← hy]
    simp [errAt, frame, List.getElem?_append_left (show i < m.length by omega),
      List.getElem?_append_left (show i < m'.length by omega)]
  generalize hDd : Spec.Crc.crc m ^^^ Spec.Crc.crc m' = D at *
  have hlo : errAt x y n = D.setWidth 8 := by
    rw [← hx, ← hy, ← hDd]
    have h1 : n - m'.length = 0 := by omega
    have h2 : n - m.length = 0 := by omega
    simp [errAt, frame, List.getElem?_append_right (show m.length ≤ n by omega),
      List.getElem?_append_right (show m'.length ≤ n by omega), h1, h2]
  have hhi : errAt x y (n + 1) = (D >>> 8).setWidth 8 := by
    rw [← hx, ← hy, ← hDd]
    have h1 : n + 1 - m'.length = 1 := by omega
    have h2 : n + 1 - m.length = 1 := by omega
    simp [errAt, frame, List.getElem?_append_right (show m.length ≤ n + 1 by omega),
      List.getElem?_append_right (show m'.length ≤ n + 1 by omega), h1, h2]
    rw [shr_xor]; simp
  have hlx : x.length = n + 2 := by rw [← hx]; simp [frame, hn]
  have hout : ∀ i, n + 2 ≤ i → errAt x y i = 0#8 := by
    intro i hi
    simp [errAt, List.getElem?_eq_none (show x.length ≤ i by omega),
      List.getElem?_eq_none (show y.length ≤ i by omega)]
  have hj : ∀ i, i < s / 8 → errAt x y i = 0#8 := fun i hi =>
    byte_zero_of fun t ht => errAt_zero_of hs i t ht (by omega)
  have hj2 : ∀ i, s / 8 + 2 < i → errAt x y i = 0#8 := fun i hi =>
    byte_zero_of fun t ht => errAt_zero_of hs i t ht (by omega)
  -- it suffices that no byte differs
  suffices hz : errAt x y (s / 8) = 0#8 ∧ errAt x y (s / 8 + 1) = 0#8 ∧ errAt x y (s / 8 + 2) = 0#8 by
    apply hne
    apply List.ext_getElem hl
    intro i h1 h2
    have hi : errAt x y i = 0#8 := by
      by_cases c1 : i < s / 8
      · exact hj i c1
      · by_cases c2 : s / 8 + 2 < i
        · exact hj2 i c2
        · obtain rfl | rfl | rfl : i = s / 8 ∨ i = s / 8 + 1 ∨ i = s / 8 + 2 := by omega
          · exact hz.1
          · exact hz.2.1
          · exact hz.2.2
    have := xor_eq_zero hi
    simpa [h1, h2] using this
  have hp : s % 8 < 8 := Nat.mod_lt _ (by decide)
  have lowz : ∀ t : Fin 8, t < ⟨s % 8, hp⟩ → (errAt x y (s / 8)).getLsbD t = false := fun t ht =>
    errAt_zero_of hs _ _ t.isLt (by have : t.val < s % 8 := ht; omega)
  by_cases c0 : n ≤ s / 8
  · -- only CRC bytes can differ
    have hD0 : D = 0#16 := by
      rw [← hD]; exact fold_err_zero _ _ fun i hi => hj i (by omega)
    rw [hD0] at hlo hhi
    have z1 : errAt x y n = 0#8 := by rw [hlo]; decide
    have z2 : errAt x y (n + 1) = 0#8 := by rw [hhi]; decide
    have z : ∀ i, n ≤ i → errAt x y i = 0#8 := by
      intro i hi
      by_cases e1 : i = n
      · rw [e1, z1]
      · by_cases e2 : i = n + 1
        · rw [e2, z2]
        · exact hout i (by omega)
    exact ⟨z _ (by omega), z _ (by omega), z _ (by omega)⟩
  by_cases c1 : s / 8 + 1 = n
  · -- last message byte and the two CRC bytes
    have hDT : D = T (errAt x y (s / 8)) := by
      rw [← hD, ← c1, List.range_succ, List.map_append, List.foldl_append, fold_err_zero _ _ hj]
      rfl
    have ha : errAt x y (s / 8) = 0#8 := by
      apply Classical.byContradiction
      intro ha
      rcases chkC _ ha ⟨s % 8, hp⟩ lowz with ⟨t, ht, htt⟩ | ⟨t, ht, htt⟩
      · rw [← hDT, ← hlo, errAt_zero_of hs _ _ t.isLt (by simp only at ht; omega)] at htt
        cases htt
      · rw [← hDT, ← hhi, errAt_zero_of hs _ _ t.isLt (by simp only at ht; omega)] at htt
        cases htt
    rw [ha] at hDT
    refine ⟨ha, ?_, ?_⟩
    · rw [c1, hlo, hDT]; decide
    · rw [show s / 8 + 2 = n + 1 by omega, hhi, hDT]; decide
  by_cases c2 : s / 8 + 2 = n
  · -- the two last message bytes and the low CRC byte
    have hDT : D = step (T (errAt x y (s / 8))) (errAt x y (s / 8 + 1)) := by
      rw [← hD, ← c2, List.range_succ, List.range_succ, List.map_append, List.map_append,
        List.foldl_append, List.foldl_append, fold_err_zero _ _ hj]
      rfl
    have hh0 : (D >>> 8).setWidth 8 = 0#8 := by rw [← hhi]; exact hj2 _ (by omega)
    generalize ha' : errAt x y (s / 8) = a at *
    generalize hb' : errAt x y (s / 8 + 1) = b at *
    rw [step_low] at hDT
    generalize hbb : (T a >>> 8).setWidth 8 ^^^ b = b' at *
    rw [hDT, hi_xor_shl] at hh0
    have hua : a = unlow ((T b' >>> 8).setWidth 8) := by
      rw [← xor_eq_zero hh0, unlow_T]
    have hb0 : b' = 0#8 := by
      apply Classical.byContradiction
      intro hb0
      obtain ⟨t, ht, htt⟩ := chkB b' hb0 ⟨s % 8, hp⟩ (by rw [← hua]; exact lowz)
      rw [← hua, ← hDT, ← hlo, errAt_zero_of hs _ _ t.isLt (by simp only at ht; omega)] at htt
      cases htt
    have ha0 : a = 0#8 := by rw [hua, hb0]; decide
    rw [hb0, ha0] at hDT hbb
    refine ⟨ha0, ?_, ?_⟩
    · rw [← xor_eq_zero hbb]; decide
    · rw [c2, hlo, hDT]; decide
  · -- everything inside the message
    have hD0 : D = 0#16 := zero_of_halves (by rw [← hlo]; exact hj2 _ (by omega))
      (by rw [← hhi]; exact hj2 _ (by omega))
    rw [fold_three _ (s / 8) _ (by omega) hj hj2, hD0, ← fold_zeros (n - (s / 8 + 3))] at hD
    obtain ⟨hc, hb⟩ := three_zero (fold_step_inj _ hD)
    have ha : errAt x y (s / 8) = 0#8 := by
      apply Classical.byContradiction
      intro ha
      obtain ⟨t, ht, htt⟩ := chkA _ ha ⟨s % 8, hp⟩ lowz
      rw [← hc, errAt_zero_of hs _ _ t.isLt (by have : s % 8 ≤ t.val := ht; omega)] at htt
      cases htt
    rw [ha] at hb hc
    exact ⟨ha, by rw [hb]; decide, by rw [hc]; decide⟩

example : ValidFrame (frame [0x53#8, 0x00#8] (Spec.Crc.crc [0x53#8, 0x00#8])) := ⟨_, rfl⟩

/-- The bound 14 cannot be raised: because the CRC is sent low byte first, some corruption
spanning 15 line bits across the end of the message yields another valid frame. -/
theorem C02_frame_burst15_undetected :
    ∃ x y, ValidFrame x ∧ ValidFrame y ∧ WireBurst 15 x y := by
  refine ⟨frame [0x53#8, 0x00#8] (Spec.Crc.crc [0x53#8, 0x00#8]),
    frame [0x53#8, 0x98#8] (Spec.Crc.crc [0x53#8, 0x98#8]), ⟨_, rfl⟩, ⟨_, rfl⟩, rfl, by decide, 11, ?_⟩
  intro k hk
  by_cases h : k < 32
  · revert hk; revert k
    decide +kernel
  · exfalso; apply hk
    simp only [wireBit]
    rw [List.getD_eq_getElem?_getD, List.getD_eq_getElem?_getD,
      List.getElem?_eq_none (by simp [frame]; omega), List.getElem?_eq_none (by simp [frame]; omega)]

end Osdp.Crc
