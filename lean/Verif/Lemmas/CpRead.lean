import Verif.Lemmas.CpEvent

/-! # Every well-formed report becomes an event -/

namespace Osdp.CpM

open Spec.Event

theorem maskOf_unique {body : List Byte} {m : BitVec 32} (h : MaskOf body m) : m = BitVec.ofNat 32 (maskOf body) := by
  refine BitVec.eq_of_getLsbD_eq fun i hi => ?_
  rw [h i hi, maskOf_spec body i hi]

theorem copyIn_of {n : Nat} {src : List Byte} {d : Bytes n} (h : d.1 = src ++ List.replicate (n - src.length) 0#8) :
    copyIn n src = .ok d := by
  have hl : src.length ≤ n := by
    have := congrArg List.length h
    rw [d.2] at this
    simp at this
    omega
  unfold copyIn
  rw [if_pos hl]
  congr 1
  refine Subtype.ext ?_
  rw [h]
  unfold Bytes.padTo
  dsimp only
  rw [List.take_of_length_le hl]

/-- the PD answers with as many inputs and outputs as it announced -/
def CountsOk (p : Pd) (body : List Byte) : Prop :=
  (p.replyId = Id.ISTATR → body.length = (p.cap 1).numItems.toNat) ∧ (p.replyId = Id.OSTATR → body.length = (p.cap 2).numItems.toNat)

/-- **A report is taken for what it says.** -/
theorem response_reads {C : Cipher} {p : Pd} {env : Env} {body : List Byte} {e : Event} (h : Reads p.replyId body e)
    (hc : CountsOk p body) : response C p env body = .ok (event p e, [], .none) := by
  unfold response
  dsimp only
  unfold CountsOk at hc
  generalize hid : p.replyId = id at h hc
  cases h with
  | card r f l0 l1 data c h1 h2 h3 h4 h5 h6 =>
    rw [if_neg (by decide), if_neg (by decide), if_neg (by decide), if_neg (by decide), if_neg (by decide), if_neg (by decide),
      if_neg (by decide), if_neg (by decide), if_neg (by decide), if_neg (by decide), if_pos (by decide)]
    dsimp only
    have e : ofLe [l0, l1] = l0.toNat + 256 * l1.toNat := rfl
    rw [e, if_neg (by omega), copyIn_of h6]
    show Except.ok _ = _
    rw [cardFormat_spec, ← h1, ← h2, ← h3, ← h4]
  | keys r n data k h1 h2 h3 h4 =>
    rw [if_neg (by decide), if_neg (by decide), if_neg (by decide), if_neg (by decide), if_neg (by decide), if_neg (by decide),
      if_neg (by decide), if_neg (by decide), if_neg (by decide), if_pos (by decide)]
    dsimp only
    rw [if_neg (by omega), copyIn_of h4]
    show Except.ok _ = _
    rw [← h1, ← h2]
  | mfg v0 v1 v2 c data m h1 h2 h3 h4 =>
    rw [if_neg (by decide), if_neg (by decide), if_neg (by decide), if_neg (by decide), if_neg (by decide), if_neg (by decide),
      if_neg (by decide), if_neg (by decide), if_neg (by decide), if_neg (by decide), if_neg (by decide), if_neg (by decide),
      if_neg (by decide), if_pos (by decide)]
    have hl : data.length ≤ 128 := by
      have := congrArg List.length h4
      rw [m.data.2] at this
      simp at this
      omega
    have e : data.length % 256 = data.length := by omega
    have e1 : BitVec.ofNat 32 (ofLe [v0, v1, v2]) = m.vendor := by
      refine BitVec.eq_of_toNat_eq ?_
      rw [h1]
      have h0 := v0.isLt; have h1 := v1.isLt; have h2 := v2.isLt
      simp only [BitVec.toNat_ofNat, ofLe]
      omega
    have e2 : b8 data.length = m.length := by
      refine BitVec.eq_of_toNat_eq ?_
      rw [h3]
      simp [b8]; omega
    have e3 : Bytes.padTo 128 data = m.data := by
      refine Subtype.ext ?_
      rw [h4]
      unfold Bytes.padTo
      dsimp only
      rw [List.take_of_length_le hl]
    dsimp only
    rw [e, if_neg (by omega), List.take_length, e1, e2, e3, ← h2]
  | inputs _ m h1 h2 =>
    rw [if_neg (by decide), if_neg (by decide), if_neg (by decide), if_neg (by decide), if_neg (by decide), if_pos (by decide)]
    rw [if_neg (by have := hc.1 rfl; omega), maskOf_unique h1]
  | outputs _ m h1 h2 =>
    rw [if_neg (by decide), if_neg (by decide), if_neg (by decide), if_neg (by decide), if_pos (by decide)]
    rw [if_neg (by have := hc.2 rfl; omega), maskOf_unique h1]
  | device a b m h1 =>
    rw [if_neg (by decide), if_neg (by decide), if_neg (by decide), if_neg (by decide), if_neg (by decide), if_neg (by decide),
      if_pos (by decide), if_neg (by simp), maskOf_unique h1]
  | reader a m h1 =>
    rw [if_neg (by decide), if_neg (by decide), if_neg (by decide), if_neg (by decide), if_neg (by decide), if_neg (by decide),
      if_neg (by decide), if_pos (by decide), if_neg (by simp), maskOf_unique h1]

end Osdp.CpM
