import Verif.Model.CpCtx
import Verif.Lemmas.Sample

/-!
# C48: run-time flag changes are confined
-/

namespace Osdp.C48

open CpM

/-- The flag word asks for something else than ENFORCE_SECURE (bit 16), INSTALL_MODE (bit 17) and
IGN_UNSOLICITED (bit 18). -/
def Foreign (flags : BitVec 32) : Prop := ∃ k, k < 32 ∧ k ∉ [16, 17, 18] ∧ flags.getLsbD k = true

theorem and_bit (flags : BitVec 32) (i : Nat) :
    (flags &&& BitVec.twoPow 32 i ≠ 0) ↔ flags.getLsbD i = true := by
  rw [BitVec.and_twoPow]
  constructor
  · intro h
    refine Classical.byContradiction fun hn => ?_
    exact h (if_neg hn)
  · intro h h0
    have hi : i < 32 := BitVec.lt_of_getLsbD h
    rw [if_pos h] at h0
    have := congrArg (fun x => x.getLsbD i) h0
    simp [hi] at this

theorem foreign_iff (flags : BitVec 32) :
    (flags &&& ~~~(F_ENFORCE ||| F_INSTALL ||| F_IGN_UNSOL) ≠ 0) ↔ Foreign flags := by
  have hm : ∀ k, k < 32 → ((~~~(F_ENFORCE ||| F_INSTALL ||| F_IGN_UNSOL) : BitVec 32).getLsbD k = true ↔
      k ∉ [16, 17, 18]) := by decide
  constructor
  · intro h
    refine Classical.byContradiction fun hn => ?_
    apply h
    apply BitVec.eq_of_getLsbD_eq
    intro k hk
    rw [BitVec.getLsbD_and]
    by_cases hb : flags.getLsbD k = true
    · have : ¬ (k ∉ [16, 17, 18]) := fun hf => hn ⟨k, hk, hf, hb⟩
      have h2 := mt (hm k hk).mp this
      simp only [Bool.not_eq_true] at h2
      rw [h2]; simp
    · simp only [Bool.not_eq_true] at hb
      rw [hb]; simp
  · rintro ⟨k, hk, hf, hb⟩ h0
    have := congrArg (fun x => x.getLsbD k) h0
    simp only [BitVec.getLsbD_and] at this
    rw [hb, (hm k hk).mpr hf] at this
    simp at this

/-- the flag `b` after asking to set it to `v` if `asked` -/
def after (asked b v : Bool) : Bool := if asked then v else b

/-- **C48.**  On an existing PD: a flag word with a foreign bit is refused without any effect; any
other one succeeds, sets the flags asked for to `v`, and changes nothing else, neither in that PD
nor anywhere else in the context. -/
theorem C48_modify_flag_confined (c : Ctx) (i : Nat) (p : Pd) (hp : c.pds[i]? = some p)
    (flags : BitVec 32) (v : Bool) :
    (Foreign flags → modifyFlag c i flags v = (c, -1)) ∧
    (¬ Foreign flags → ∃ q, modifyFlag c i flags v = ({ c with pds := c.pds.set i q }, 0) ∧
      q.flags.enforceSecure = after (flags.getLsbD 16) p.flags.enforceSecure v ∧
      q.flags.installMode = after (flags.getLsbD 17) p.flags.installMode v ∧
      q.flags.ignUnsolicited = after (flags.getLsbD 18) p.flags.ignUnsolicited v ∧
      { q with flags := { q.flags with
          enforceSecure := p.flags.enforceSecure
          installMode := p.flags.installMode
          ignUnsolicited := p.flags.ignUnsolicited } } = p) := by
  have hset : c.pds.set i p = c.pds := by
    obtain ⟨h1, h2⟩ := List.getElem?_eq_some_iff.mp hp
    rw [← h2]; exact List.set_getElem_self h1
  have e16 : F_ENFORCE = BitVec.twoPow 32 16 := by decide
  have e17 : F_INSTALL = BitVec.twoPow 32 17 := by decide
  have e18 : F_IGN_UNSOL = BitVec.twoPow 32 18 := by decide
  constructor
  · intro h
    have h' := (foreign_iff flags).mpr h
    have hm : modifyPd p flags v = (p, -1) := by rw [modifyPd, if_pos h']
    simp [modifyFlag, hp, hm, hset]
  · intro h
    have h' := mt (foreign_iff flags).mp h
    refine ⟨(modifyPd p flags v).1, ?_, ?_, ?_, ?_, ?_⟩
    · have : (modifyPd p flags v).2 = 0 := by rw [modifyPd, if_neg h']
      simp [modifyFlag, hp, this]
    · rw [modifyPd, if_neg h']
      simp only [after, e16]
      by_cases hb : flags.getLsbD 16 = true
      · rw [if_pos hb, if_pos ((and_bit flags 16).mpr hb)]
      · rw [if_neg hb, if_neg (mt (and_bit flags 16).mp hb)]
    · rw [modifyPd, if_neg h']
      simp only [after, e17]
      by_cases hb : flags.getLsbD 17 = true
      · rw [if_pos hb, if_pos ((and_bit flags 17).mpr hb)]
      · rw [if_neg hb, if_neg (mt (and_bit flags 17).mp hb)]
    · rw [modifyPd, if_neg h']
      simp only [after, e18]
      by_cases hb : flags.getLsbD 18 = true
      · rw [if_pos hb, if_pos ((and_bit flags 18).mpr hb)]
      · rw [if_neg hb, if_neg (mt (and_bit flags 18).mp hb)]
    · rw [modifyPd, if_neg h']

/-- a refusal is possible: bit 0 -/
example : Foreign 0x00010001#32 := ⟨0, by decide, by decide, by decide⟩

/-- and so is success -/
example : ¬ Foreign 0x00050000#32 := by
  rintro ⟨k, hk, hf, hb⟩
  revert hf hb
  revert k
  decide

end Osdp.C48
