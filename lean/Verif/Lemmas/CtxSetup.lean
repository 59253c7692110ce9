import Verif.Lemmas.Ctx

/-!
# The whole CP: set up, API calls, histories
-/

namespace Osdp.CpM

/-! ### counting -/

theorem filter_two {α : Type} (f : α → Bool) : ∀ (l : List α) (i j : Nat) (a b : α), i < j → l[i]? = some a → l[j]? = some b → f a = true → f b = true →
    1 < (l.filter f).length
  | [], _, _, _, _, _, h, _, _, _ => by simp at h
  | x :: xs, 0, j + 1, a, b, _, ha, hb, fa, fb => by
    simp at ha hb
    subst ha
    rw [List.filter_cons, if_pos fa]
    have : b ∈ xs.filter f := List.mem_filter.mpr ⟨List.mem_of_getElem? hb, fb⟩
    have := List.length_pos_of_mem this
    simp only [List.length_cons]; omega
  | x :: xs, i + 1, j + 1, a, b, h, ha, hb, fa, fb => by
    simp at ha hb
    have := filter_two f xs i j a b (by omega) ha hb fa fb
    rw [List.filter_cons]
    split
    · simp only [List.length_cons]; omega
    · exact this

theorem filter_many {α : Type} (f : α → Bool) : ∀ (l : List α), 1 < (l.filter f).length →
    ∃ (i j : Nat) (a b : α), i < j ∧ l[i]? = some a ∧ l[j]? = some b ∧ f a = true ∧ f b = true
  | [], h => by simp at h
  | x :: xs, h => by
    rw [List.filter_cons] at h
    split at h
    · rename_i fx
      simp only [List.length_cons] at h
      have hp : 0 < (xs.filter f).length := by omega
      obtain ⟨b, hb⟩ := List.exists_mem_of_length_pos hp
      obtain ⟨hb, fb⟩ := List.mem_filter.mp hb
      obtain ⟨j, hj⟩ := List.getElem?_of_mem hb
      exact ⟨0, j + 1, x, b, by omega, by simp, by simpa using hj, fx, fb⟩
    · obtain ⟨i, j, a, b, hij, ha, hb, fa, fb⟩ := filter_many f xs h
      exact ⟨i + 1, j + 1, a, b, by omega, by simpa using ha, by simpa using hb, fa, fb⟩

theorem eraseDups_le (n : Nat) : ∀ (l : List Int), l.length ≤ n → l.eraseDups.length ≤ l.length ∧ (l.eraseDups.length = l.length → l.Nodup) := by
  induction n with
  | zero => intro l h; have : l = [] := List.length_eq_zero_iff.mp (by omega); subst this; simp
  | succ n ih =>
    intro l h
    cases l with
    | nil => simp
    | cons a as =>
      rw [List.eraseDups_cons]
      have hf := List.length_filter_le (fun b => !b == a) as
      simp only [List.length_cons] at h ⊢
      obtain ⟨h1, h2⟩ := ih (as.filter fun b => !b == a) (by omega)
      refine ⟨by omega, fun he => ?_⟩
      have hlen : (as.filter fun b => !b == a).length = as.length := by omega
      have hall := List.length_filter_eq_length_iff.mp hlen
      have heq : (as.filter fun b => !b == a) = as := List.filter_eq_self.mpr hall
      have hnd := h2 (by omega)
      rw [heq] at hnd
      refine List.nodup_cons.mpr ⟨fun hm => ?_, hnd⟩
      have := hall a hm
      simp at this

/-! ### set up -/

theorem newPds_at {sk : Bool} {n : Nat} : ∀ {infos : List PdM.Info} {k : Nat} {ps : List Pd}, newPds sk n k infos = some ps →
    ps.length = infos.length ∧ ∀ (i : Nat) (p : Pd), ps[i]? = some p → Inv p ∧ p.idx = k + i ∧ p.phyState = .idle ∧ p.flags.chnShared = false ∧
      ∃ x, infos[i]? = some x ∧ p.chanId = x.chanId ∧ newPd x (k + i) sk n = some p
  | [], k, ps, h => by
    injection h with h; subst h
    exact ⟨rfl, fun i p h => by simp at h⟩
  | x :: xs, k, ps, h => by
    unfold newPds at h
    obtain ⟨p0, h0, h⟩ := Option.bind_eq_some_iff.mp h
    obtain ⟨ps', h1, h⟩ := Option.bind_eq_some_iff.mp h
    injection h with h; subst h
    obtain ⟨hl, hx⟩ := newPds_at h1
    refine ⟨by simp [hl], ?_⟩
    intro i p hp
    cases i with
    | zero =>
      simp at hp; subst hp
      obtain ⟨I, -, hph, -⟩ := newPd_inv h0
      have h0' := h0
      unfold newPd at h0
      split at h0
      · cases h0
      · injection h0 with h0
        refine ⟨I, by rw [← h0]; rfl, hph, by rw [← h0], x, rfl, by rw [← h0], h0'⟩
    | succ i =>
      simp at hp
      obtain ⟨a, b, c, d, y, e, f, g⟩ := hx i p hp
      refine ⟨a, by omega, c, d, y, by simpa using e, f, ?_⟩
      rw [show k + (i + 1) = k + 1 + i by omega]; exact g

/-- PDs on one bus: the documentation of `struct osdp_channel` demands a channel id other than 0 -/
def Buses (infos : List PdM.Info) : Prop :=
  ∀ (i j : Nat) (a b : PdM.Info), i ≠ j → infos[i]? = some a → infos[j]? = some b → a.chanId = b.chanId → a.chanId ≠ 0

theorem markShared_at {pds : List Pd} {i : Nat} {p : Pd} (h : (markShared pds)[i]? = some p) :
    ∃ p0, pds[i]? = some p0 ∧ p = { p0 with flags := { p0.flags with chnShared := p.flags.chnShared } } ∧
      (p.flags.chnShared = true ↔ p0.flags.chnShared = true ∨ 1 < (pds.filter fun q => q.chanId = p.chanId).length) := by
  unfold markShared at h
  rw [List.getElem?_map] at h
  cases hp : pds[i]? with
  | none => rw [hp] at h; cases h
  | some p0 =>
    rw [hp] at h
    injection h with h
    refine ⟨p0, rfl, ?_⟩
    dsimp only at h
    split at h
    · rename_i hc
      subst h
      exact ⟨rfl, ⟨fun _ => .inr hc, fun _ => rfl⟩⟩
    · rename_i hc
      subst h
      exact ⟨rfl, ⟨fun h => .inl h, fun h => h.elim id fun h => absurd h hc⟩⟩

theorem setup_well {infos : List PdM.Info} {sk : Bool} {n : Nat} {c : Ctx} (hb : Buses infos) (h : setup infos sk n = .ok (some c)) :
    Well c ∧ (∀ (i : Nat) (p : Pd), c.pds[i]? = some p → ∃ x : PdM.Info, infos[i]? = some x ∧ p.chanId = x.chanId) ∧ c.pds.length = infos.length ∧ c.cur = 0 ∧
      (∀ p ∈ c.pds, p.phyState = .idle) ∧ (∀ (i : Nat) (p : Pd), c.pds[i]? = some p → p.flags.chnShared = true → ∃ (j : Nat) (q : Pd), Two c i j p q ∧ p.chanId = q.chanId) := by
  unfold setup at h
  dsimp only at h
  split at h
  · rename_i he
    injection h with h; injection h with h; subst h
    subst he
    refine ⟨⟨by simp, by simp, ?_, by simp, by simp, by simp, ?_, .inr rfl⟩, by simp, rfl, rfl, by simp, by simp⟩
    · rintro i j p q ⟨-, h, -⟩; simp at h
    · rintro i j p q ⟨-, h, -⟩; simp at h
  · unfold addPd at h
    cases hn : newPds sk n 0 infos with
    | none => rw [hn] at h; cases h
    | some ps =>
      rw [hn] at h
      obtain ⟨hl, hps⟩ := newPds_at hn
      obtain ⟨c1, ht, h⟩ := Res.bind_eq_ok.mp h
      injection h with h; injection h with h
      unfold topology at ht
      dsimp only at ht
      split at ht
      · cases ht
      injection ht with ht
      rw [List.nil_append] at ht
      subst ht
      subst h
      have at' : ∀ {i : Nat} {p : Pd}, (markShared ps)[i]? = some p → ∃ x, infos[i]? = some x ∧ Inv p ∧ p.idx = i ∧ p.phyState = .idle ∧ p.chanId = x.chanId ∧
          (p.flags.chnShared = true ↔ 1 < (ps.filter fun q => q.chanId = p.chanId).length) := by
        intro i p hp
        obtain ⟨p0, h0, he, hs⟩ := markShared_at hp
        obtain ⟨a, b, c, d, x, e, f, -⟩ := hps i p0 h0
        refine ⟨x, e, ?_, ?_, ?_, ?_, ?_⟩
        · rw [he]; exact ⟨a.cp, a.phy, a.restart, a.lo, a.hi, a.asked, a.probe, a.secure, a.cmd, a.install⟩
        · rw [he]; simpa using b
        · rw [he]; exact c
        · rw [he]; exact f
        · rw [hs, d]; simp
      have chan : ∀ {i : Nat} {p : Pd}, (markShared ps)[i]? = some p → ∃ p0, ps[i]? = some p0 ∧ p0.chanId = p.chanId := by
        intro i p hp
        obtain ⟨p0, h0, he, -⟩ := markShared_at hp
        exact ⟨p0, h0, by rw [he]⟩
      have back : ∀ {i : Nat} {p : Pd}, ps[i]? = some p → ∃ q, (markShared ps)[i]? = some q ∧ q.chanId = p.chanId := by
        intro i p hp
        unfold markShared
        rw [List.getElem?_map, hp]
        refine ⟨_, rfl, ?_⟩
        dsimp only
        split <;> rfl
      have pair : ∀ {i : Nat} {p : Pd}, (markShared ps)[i]? = some p → p.flags.chnShared = true → ∃ (j : Nat) (q : Pd), i ≠ j ∧
          (markShared ps)[j]? = some q ∧ p.chanId = q.chanId := by
        intro i p hp hs
        obtain ⟨x, hx, -, -, -, hc, hsh⟩ := at' hp
        obtain ⟨a, b, u, v, hab, hu, hv, fu, fv⟩ := filter_many _ ps (hsh.mp hs)
        simp only [decide_eq_true_eq] at fu fv
        rcases Nat.decEq i a with hia | hia
        · obtain ⟨q, hq, hqc⟩ := back hu
          exact ⟨a, q, hia, hq, by rw [hqc]; exact fu.symm⟩
        · obtain ⟨q, hq, hqc⟩ := back hv
          exact ⟨b, q, by omega, hq, by rw [hqc]; exact fv.symm⟩
      refine ⟨⟨?_, ?_, ?_, ?_, ?_, ?_, ?_, ?_⟩, ?_, ?_, rfl, ?_, ?_⟩
      · intro p hp
        obtain ⟨i, hi⟩ := List.getElem?_of_mem hp
        obtain ⟨_, _, h, _⟩ := at' hi; exact h
      · intro i p hp
        obtain ⟨_, _, _, h, _⟩ := at' hp; exact h
      · rintro i j p q ⟨hij, hp, hq⟩ he
        obtain ⟨x, hx, -, -, -, hc, hs⟩ := at' hp
        rw [hs]
        obtain ⟨p0, hp0, hpc⟩ := chan hp
        obtain ⟨q0, hq0, hqc⟩ := chan hq
        rcases Nat.lt_or_gt_of_ne hij with h | h
        · exact filter_two _ ps i j p0 q0 h hp0 hq0 (by simp [hpc]) (by simp [hqc, he])
        · exact filter_two _ ps j i q0 p0 h hq0 hp0 (by simp [hqc, he]) (by simp [hpc])
      · intro p hp hs
        obtain ⟨i, hi⟩ := List.getElem?_of_mem hp
        obtain ⟨j, q, hij, hq, hc⟩ := pair hi hs
        obtain ⟨x, hx, -, -, -, hcx, -⟩ := at' hi
        obtain ⟨y, hy, -, -, -, hcy, -⟩ := at' hq
        rw [hcx]
        exact hb i j x y hij hx hy (by rw [← hcx, ← hcy]; exact hc)
      · intro l hl
        dsimp only at hl
        split at hl
        · injection hl with hl
          rw [← hl]
          apply List.ext_getElem?
          intro k
          rw [List.getElem?_map]
          cases hk : (markShared ps)[k]? with
          | none =>
            have : ps.length ≤ k := by
              have := List.getElem?_eq_none_iff.mp hk
              unfold markShared at this
              simpa using this
            rw [List.getElem?_eq_none (by simpa using this)]; rfl
          | some p =>
            have hk' : k < ps.length := by
              have := (List.getElem?_eq_some_iff.mp hk).1
              unfold markShared at this
              simpa using this
            obtain ⟨_, _, _, _, hid, _⟩ := at' hk
            rw [List.getElem?_replicate, if_pos hk']
            show some 0 = some (lockOf p)
            unfold lockOf
            rw [if_neg (fun h => by rw [hid] at h; cases h.2)]
        · cases hl
      · rintro ⟨p, hp, hs⟩
        obtain ⟨i, hi⟩ := List.getElem?_of_mem hp
        obtain ⟨j, q, hij, hq, hc⟩ := pair hi hs
        obtain ⟨p0, hp0, hpc⟩ := chan hi
        obtain ⟨q0, hq0, hqc⟩ := chan hq
        dsimp only
        rw [if_pos ?_]
        · rfl
        · intro hlen
          have hnd := (eraseDups_le _ (ps.map (·.chanId)) (Nat.le_refl _)).2 (by rw [hlen]; simp)
          have h1 : (ps.map (·.chanId))[i]? = some p.chanId := by rw [List.getElem?_map, hp0]; exact congrArg some hpc
          have h2 : (ps.map (·.chanId))[j]? = some p.chanId := by rw [List.getElem?_map, hq0]; exact congrArg some (hqc.trans hc.symm)
          obtain ⟨b1, e1⟩ := List.getElem?_eq_some_iff.mp h1
          obtain ⟨b2, e2⟩ := List.getElem?_eq_some_iff.mp h2
          have key := List.pairwise_iff_getElem.mp hnd
          rcases Nat.lt_or_gt_of_ne hij with h | h
          · exact key i j b1 b2 h (e1.trans e2.symm)
          · exact key j i b2 b1 h (e2.trans e1.symm)
      · rintro i j p q ⟨-, hp, -⟩ - hw
        obtain ⟨_, _, _, _, hid, _⟩ := at' hp
        rw [hid] at hw; cases hw
      · refine .inl ?_
        show 0 < (markShared ps).length
        unfold markShared
        rw [List.length_map, hl]
        rename_i hne _
        exact List.length_pos_iff.mpr hne
      · intro i p hp
        obtain ⟨x, hx, _, _, _, hc, _⟩ := at' hp
        exact ⟨x, hx, hc⟩
      · show (markShared ps).length = _
        unfold markShared
        rw [List.length_map, hl]
      · intro p hp
        obtain ⟨i, hi⟩ := List.getElem?_of_mem hp
        obtain ⟨_, _, _, _, hid, _⟩ := at' hi; exact hid
      · intro i p hp hs
        obtain ⟨j, q, hij, hq, hc⟩ := pair hp hs
        exact ⟨j, q, ⟨hij, hp, hq⟩, hc⟩

theorem setup_single {infos : List PdM.Info} {sk : Bool} {n : Nat} {c : Ctx} (h : setup infos sk n = .ok (some c)) (h1 : c.numChannels = 1) :
    ∀ p ∈ c.pds, ∀ q ∈ c.pds, p.chanId = q.chanId := by
  unfold setup at h
  dsimp only at h
  split at h
  · injection h with h; injection h with h; subst h; cases h1
  · unfold addPd at h
    cases hn : newPds sk n 0 infos with
    | none => rw [hn] at h; cases h
    | some ps =>
      rw [hn] at h
      obtain ⟨c1, ht, h⟩ := Res.bind_eq_ok.mp h
      injection h with h; injection h with h
      unfold topology at ht
      dsimp only at ht
      split at ht
      · cases ht
      injection ht with ht
      rw [List.nil_append] at ht
      subst ht
      subst h
      have hx : ∃ x, ∀ y ∈ ps.map (·.chanId), y = x := by
        replace h1 : (ps.map (·.chanId)).eraseDups.length = 1 := h1
        cases hl : ps.map (·.chanId) with
        | nil => exact ⟨0, by simp⟩
        | cons a as =>
          rw [hl, List.eraseDups_cons] at h1
          refine ⟨a, fun y hy => ?_⟩
          rcases List.mem_cons.mp hy with rfl | hy
          · rfl
          · refine Classical.byContradiction fun hne => ?_
            have hm : y ∈ as.filter fun b => !b == a := List.mem_filter.mpr ⟨hy, by simpa using hne⟩
            cases hf : as.filter fun b => !b == a with
            | nil => rw [hf] at hm; cases hm
            | cons b bs => rw [hf, List.eraseDups_cons] at h1; simp at h1
      obtain ⟨x, hx⟩ := hx
      have all : ∀ p ∈ markShared ps, p.chanId = x := by
        intro p hp
        obtain ⟨i, hi⟩ := List.getElem?_of_mem hp
        obtain ⟨p0, h0, he, -⟩ := markShared_at hi
        rw [he]
        exact hx _ (List.mem_map.mpr ⟨p0, List.mem_of_getElem? h0, rfl⟩)
      intro p hp q hq
      rw [all p hp, all q hq]

/-! ### API calls and histories -/

theorem Well.cb {c : Ctx} (W : Well c) (b : Bool) : Well { c with cb := b } :=
  ⟨W.inv, W.idx, W.shared, W.nonzero, W.lock, W.locks, W.excl, W.cur⟩

/-- an API call on one PD -/
theorem Well.api {C : Cipher} {c : Ctx} {i : Nat} {p q : Pd} {op : Op} {o : List Out} (W : Well c) (hp : c.pds[i]? = some p)
    (h : step C p op = .ok (q, o)) (hop : ∀ cb env, op ≠ .update cb env) (hop' : op ≠ .share) : Well { c with pds := c.pds.set i q } := by
  have I := W.inv p (mem_of_get hp)
  have ha := step_apiOnly h hop
  have hs : q.flags.chnShared = p.flags.chnShared := by
    cases op with
    | update cb env => exact absurd rfl (hop cb env)
    | share => exact absurd rfl hop'
    | send env c => injection h with h; injection h with e1 e2; rw [← e1, sendPd_keeps]
    | flag f b => injection h with h; injection h with e1 e2; rw [← e1, modifyPd_flags]
    | flush => injection h with h; injection h with e1 e2; rw [← e1]
    | fileOps => injection h with h; injection h with e1 e2; rw [← e1]; rfl
  have hph : q.phyState = p.phyState := by unfold Api at ha; rw [ha]
  have hpl : Place p q := ⟨by unfold Api at ha; rw [ha], by unfold Api at ha; rw [ha], hs⟩
  have hlock : lockOf q = lockOf p := by unfold lockOf; rw [hs, hph, hpl.chanId]
  refine W.put (l := c.lock) hp (I.step h) hpl ?_ id ?_
  · intro x hx
    rw [W.lock x hx, List.map_set, hlock]
    apply List.ext_getElem?
    intro k
    rw [List.getElem?_set]
    split
    · rename_i hk
      subst hk
      have hlen := (List.getElem?_eq_some_iff.mp hp).1
      rw [if_pos (by simpa using hlen), List.getElem?_map, hp]; rfl
    · rfl
  · intro hw hbl
    obtain ⟨j, r, ht, he, hr⟩ := hbl
    exact W.excl i j p r ht he (by rw [← hph]; exact hw) hr

end Osdp.CpM
