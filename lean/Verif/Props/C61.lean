import Verif.Model.CpCtx
import Verif.Lemmas.Sample

/-!
# C61: an out-of-range PD index is harmless
-/

namespace Osdp.C61

open CpM

/-- **C61.**  Every API function that takes a PD index fails (returns -1, `none` for the functions
with an output argument) and leaves the context alone, without faulting and without any external
effect, when the index is negative or not below the number of PDs. -/
theorem C61_bad_index_harmless (c : Ctx) (i : Int) (h : i < 0 ∨ (c.pds.length : Int) ≤ i) :
    (∀ env cmd, sendCommand c i env cmd = (c, [], -1)) ∧
    flushCommands c i = (c, -1) ∧
    getPdId c i = none ∧
    (∀ fc, getCapability c i fc = none) ∧
    (∀ fl v, modifyFlag c i fl v = (c, -1)) ∧
    fileRegisterOps c i = (c, -1) ∧
    fileTxStatus c i = .ok none := by
  by_cases h0 : 0 ≤ i
  · have hn : c.pds[i.toNat]? = none := by
      rw [List.getElem?_eq_none_iff]; omega
    simp [sendCommand, flushCommands, getPdId, getCapability, modifyFlag, fileRegisterOps,
      fileTxStatus, h0, hn]
  · simp [sendCommand, flushCommands, getPdId, getCapability, modifyFlag, fileRegisterOps,
      fileTxStatus, h0]

/-- An index in range is not refused for being out of range: the flush of a PD's queue succeeds. -/
theorem C61_good_index_accepted (c : Ctx) (i : Nat) (h : i < c.pds.length) :
    (flushCommands c i).2 ≥ 0 ∧ (getPdId c i).isSome ∧ (modifyFlag c i 0 true).2 = 0 ∧
    (fileRegisterOps c i).2 = 0 := by
  have hs : c.pds[i]? = some c.pds[i] := List.getElem?_eq_getElem h
  simp [flushCommands, getPdId, modifyFlag, modifyPd, fileRegisterOps, hs]

/-- With an index in range the capability call answers for exactly the sixteen function codes of the
standard (include/osdp.h:92-207), with what is on record for that PD, and refuses every other code. -/
theorem C61_capability (c : Ctx) (i : Nat) (h : i < c.pds.length) (fc : Byte) :
    ((getCapability c i fc).isSome ↔ 1 ≤ fc.toNat ∧ fc.toNat ≤ 16) ∧
    (∀ k : Fin 17, 1 ≤ k.val → k.val = fc.toNat →
      getCapability c i fc = some ((c.pds[i].cap k).compliance, (c.pds[i].cap k).numItems)) := by
  have hs : c.pds[i]? = some c.pds[i] := List.getElem?_eq_getElem h
  have hz : (0 : Int) ≤ (i : Int) := by omega
  constructor
  · unfold getCapability
    rw [if_pos hz, Int.toNat_natCast, hs]
    dsimp only
    by_cases hc : 0 < fc.toNat ∧ fc.toNat < 17
    · rw [dif_pos hc]
      simp; omega
    · rw [dif_neg hc]
      simp; omega
  · intro k hk he
    have hc : 0 < fc.toNat ∧ fc.toNat < 17 := by have := k.2; omega
    have hfin : (⟨fc.toNat, hc.2⟩ : Fin 17) = k := Fin.ext he.symm
    unfold getCapability
    rw [if_pos hz, Int.toNat_natCast, hs]
    dsimp only
    rw [dif_pos hc, hfin]

/-- the OSDP version (code 16) can be asked for, code 17 and code 0 cannot -/
example : (getCapability ⟨[Sample.cp], none, 1, 0, true⟩ 0 16#8).isSome = true ∧
    getCapability ⟨[Sample.cp], none, 1, 0, true⟩ 0 17#8 = none ∧
    getCapability ⟨[Sample.cp], none, 1, 0, true⟩ 0 0#8 = none := by
  refine ⟨?_, ?_, ?_⟩ <;> decide +kernel

/-- one PD: index 0 is fine, -1 and 1 are not -/
example : (0 : Int) < ([Sample.cp].length : Int) ∧ ((-1 : Int) < 0 ∨ ([Sample.cp].length : Int) ≤ -1) ∧
    ((1 : Int) < 0 ∨ ([Sample.cp].length : Int) ≤ 1) := by decide

end Osdp.C61
