import Verif.Model.CpCtx
import Verif.Lemmas.Sample

/-!
# C60: setup refuses ENFORCE_SECURE without a key
-/

namespace Osdp.C60

open CpM

/-- a configuration that asks for ENFORCE_SECURE but provides no key -/
def Insecure (x : PdM.Info) : Prop := x.enforceSecure = true ∧ x.scbk = none

/-- **C60 (PD).**  `osdp_pd_setup` fails exactly on an insecure configuration; a PD that was set up
without a key is in install mode, one with a key holds exactly that key and is in install mode only
if asked to be. -/
theorem C60_pd_setup (x : PdM.Info) (s : Bool) (n : Nat) :
    (PdM.setup x s n = none ↔ Insecure x) ∧
    ∀ p, PdM.setup x s n = some p →
      p.flags.enforceSecure = x.enforceSecure ∧
      (x.scbk = none → p.flags.installMode = true) ∧
      (∀ k, x.scbk = some k → p.sc.scbk = k ∧ p.flags.installMode = x.installMode) := by
  unfold PdM.setup Insecure
  constructor
  · constructor
    · intro h
      by_cases hc : x.scbk.isNone ∧ x.enforceSecure
      · exact ⟨hc.2, Option.isNone_iff_eq_none.mp hc.1⟩
      · rw [if_neg hc] at h; simp at h
    · rintro ⟨h1, h2⟩
      simp [h1, h2]
  · intro p h
    by_cases hc : x.scbk.isNone ∧ x.enforceSecure
    · rw [if_pos hc] at h; simp at h
    · rw [if_neg hc] at h
      injection h with h
      subst h
      refine ⟨rfl, fun h => by simp [h], fun k h => by simp [h]⟩

theorem newPd_none (x : PdM.Info) (i : Nat) (s : Bool) (n : Nat) :
    newPd x i s n = none ↔ Insecure x := by
  unfold newPd Insecure
  by_cases hc : x.scbk.isNone ∧ x.enforceSecure
  · rw [if_pos hc]; simp [hc.2, Option.isNone_iff_eq_none.mp hc.1]
  · rw [if_neg hc]
    simp only [reduceCtorEq, false_iff]
    rintro ⟨h1, h2⟩
    exact hc ⟨by simp [h2], h1⟩

theorem newPds_none (s : Bool) (n : Nat) : ∀ (xs : List PdM.Info) (i : Nat),
    newPds s n i xs = none ↔ ∃ x ∈ xs, Insecure x
  | [], i => by simp [newPds]
  | x :: xs, i => by
    rw [newPds]
    rcases h1 : newPd x i s n with _ | p
    · simp [(newPd_none x i s n).mp h1]
    · have hx : ¬ Insecure x := fun h => by rw [(newPd_none x i s n).mpr h] at h1; simp at h1
      rcases h2 : newPds s n (i + 1) xs with _ | ps
      · have := (newPds_none s n xs (i + 1)).mp h2
        simp [this]
      · have : ¬ ∃ x ∈ xs, Insecure x := fun h => by
          rw [(newPds_none s n xs (i + 1)).mpr h] at h2; simp at h2
        simp only [Option.bind_eq_bind, Option.bind_some, reduceCtorEq, List.mem_cons, exists_eq_or_imp,
          false_iff, not_or]
        exact ⟨hx, this⟩

/-- **C60 (CP).**  `osdp_cp_add_pd` (hence `osdp_cp_setup`) fails, leaving the context as it was,
whenever one of the configurations is insecure, and on no other ground as long as the table of 126
channels suffices. -/
theorem C60_cp_add_pd (c : Ctx) (xs : List PdM.Info) (s : Bool) (n : Nat) :
    ((∃ x ∈ xs, Insecure x) → addPd c xs s n = .ok none) ∧
    (addPd c xs s n = .ok none → ∃ x ∈ xs, Insecure x) ∧
    ((∃ x ∈ xs, Insecure x) → setup xs s n = .ok none) ∧
    (setup xs s n = .ok none → ∃ x ∈ xs, Insecure x) := by
  have key : ∀ c : Ctx, ((∃ x ∈ xs, Insecure x) → addPd c xs s n = .ok none) ∧
      (addPd c xs s n = .ok none → ∃ x ∈ xs, Insecure x) := by
    intro c
    refine ⟨fun h => by rw [addPd, (newPds_none s n xs 0).mpr h], fun h => ?_⟩
    unfold addPd at h
    rcases h2 : newPds s n 0 xs with _ | ps
    · exact (newPds_none s n xs 0).mp h2
    · rw [h2] at h
      dsimp only at h
      obtain ⟨a, _, h⟩ := Res.bind_eq_ok.mp h
      simp at h
  refine ⟨(key c).1, (key c).2, fun h => ?_, fun h => ?_⟩
  · obtain ⟨x, hx, hi⟩ := h
    unfold setup
    rw [if_neg (List.ne_nil_of_mem hx)]
    exact (key _).1 ⟨x, hx, hi⟩
  · unfold setup at h
    by_cases he : xs = []
    · rw [if_pos he] at h; simp at h
    · rw [if_neg he] at h
      exact (key _).2 h

theorem newPds_secure (s : Bool) (n : Nat) : ∀ (xs : List PdM.Info) (i : Nat) (ps : List Pd),
    newPds s n i xs = some ps → ∀ p ∈ ps, ∃ x ∈ xs, p.flags.enforceSecure = x.enforceSecure ∧
      (p.flags.enforceSecure = true → x.scbk = some p.sc.scbk ∧ p.flags.hasScbk = true ∧
        p.flags.scDisabled = false)
  | [], i, ps, h, p, hp => by simp [newPds] at h; subst h; simp at hp
  | x :: xs, i, ps, h, p, hp => by
    rw [newPds] at h
    rcases h1 : newPd x i s n with _ | q
    · rw [h1] at h; simp at h
    · rcases h2 : newPds s n (i + 1) xs with _ | qs
      · rw [h1, h2] at h; simp at h
      · rw [h1, h2] at h
        simp only [Option.bind_eq_bind, Option.bind_some, Option.some.injEq] at h
        subst h
        rcases List.mem_cons.mp hp with rfl | hp
        · refine ⟨x, by simp, ?_⟩
          unfold newPd at h1
          by_cases hc : x.scbk.isNone ∧ x.enforceSecure
          · rw [if_pos hc] at h1; simp at h1
          · rw [if_neg hc] at h1
            injection h1 with h1
            subst h1
            refine ⟨rfl, fun he => ?_⟩
            rcases hk : x.scbk with _ | k
            · exact absurd ⟨by simp [hk], he⟩ hc
            · simp
        · obtain ⟨y, hy, h3⟩ := newPds_secure s n xs (i + 1) qs h2 p hp
          exact ⟨y, by simp [hy], h3⟩

/-- After a successful setup every PD with ENFORCE_SECURE has a key, the one from its configuration,
and its secure channel is not disabled. -/
theorem C60_cp_enforced_has_key (xs : List PdM.Info) (s : Bool) (n : Nat) (c : Ctx)
    (h : setup xs s n = .ok (some c)) :
    ∀ p ∈ c.pds, p.flags.enforceSecure = true →
      p.flags.hasScbk = true ∧ p.flags.scDisabled = false ∧ ∃ x ∈ xs, x.scbk = some p.sc.scbk := by
  intro p hp he
  unfold setup at h
  by_cases hx : xs = []
  · rw [if_pos hx] at h; simp at h; subst h; simp at hp
  · rw [if_neg hx] at h
    unfold addPd at h
    rcases h2 : newPds s n 0 xs with _ | ps
    · rw [h2] at h; simp at h
    · rw [h2] at h
      dsimp only at h
      obtain ⟨a, ha, h⟩ := Res.bind_eq_ok.mp h
      injection h with h; injection h with h; subst h
      unfold topology at ha
      split at ha
      · simp at ha
      · injection ha with ha; subst ha
        simp only [List.nil_append, markShared, List.mem_map] at hp
        obtain ⟨q, hq, hqp⟩ := hp
        obtain ⟨x, hxm, h3, h4⟩ := newPds_secure s n xs 0 ps h2 q hq
        split at hqp
        · subst hqp
          obtain ⟨a1, a2, a3⟩ := h4 he
          exact ⟨a2, a3, x, hxm, a1⟩
        · subst hqp
          obtain ⟨a1, a2, a3⟩ := h4 he
          exact ⟨a2, a3, x, hxm, a1⟩

/-- the sample configuration has a key; without it and with ENFORCE_SECURE it is refused -/
example : ¬ Insecure { Sample.pdInfo with enforceSecure := true } ∧
    Insecure { Sample.pdInfo with enforceSecure := true, scbk := none } := by
  simp [Insecure, Sample.pdInfo]

/-- a setup that succeeds with ENFORCE_SECURE -/
example : ∃ c, setup [{ Sample.pdInfo with enforceSecure := true }] false 4 = .ok (some c) ∧
    ∃ p ∈ c.pds, p.flags.enforceSecure = true := by
  refine ⟨_, rfl, ?_⟩
  exact ⟨_, List.mem_cons_self, rfl⟩

end Osdp.C60
