import Verif.Lemmas.CpHear
import Verif.Model.CpRun

/-!
# The whole CP: what a visit of `osdp_cp_refresh` does to a PD and to the locks of the channels
-/

namespace Osdp.CpM

/-- the same place in the CP -/
structure Place (p q : Pd) : Prop where
  idx : q.idx = p.idx
  chanId : q.chanId = p.chanId
  shared : q.flags.chnShared = p.flags.chnShared

theorem Place.refl (p : Pd) : Place p p := ⟨rfl, rfl, rfl⟩

theorem Place.trans {p q s : Pd} (h : Place p q) (h' : Place q s) : Place p s :=
  ⟨h'.idx.trans h.idx, h'.chanId.trans h.chanId, h'.shared.trans h.shared⟩

theorem Drift.place {p q : Pd} (h : Drift p q) : Place p q := by
  unfold Drift at h
  rw [h]; exact ⟨rfl, rfl, rfl⟩

theorem Sent.place {p q : Pd} (h : Sent p q) : Place p q := by
  unfold Sent at h
  rw [h]; exact ⟨rfl, rfl, rfl⟩

theorem Heard.place {p q : Pd} (h : Heard p q) : Place p q := by
  unfold Heard at h
  rw [h]; exact ⟨rfl, rfl, rfl⟩

theorem Waited.place {C : Cipher} {p q : Pd} {env : Env} {outs : List Out} {rc : CpErr} (h : Waited C p env q outs rc) : Place p q := by
  have fin : ∀ {a b : Pd}, Heard p a → Place a b → Place p b := fun h h' => h.place.trans h'
  cases h with
  | answered h => exact fin h.heard ⟨rfl, rfl, rfl⟩
  | ignored h _ _ => exact fin h.heard ⟨rfl, rfl, rfl⟩
  | failed h _ => exact fin h.heard ⟨rfl, rfl, rfl⟩
  | busy h => exact fin h.heard ⟨rfl, rfl, rfl⟩
  | retry h _ _ => exact fin h.heard ⟨rfl, rfl, rfl⟩
  | exhausted h _ _ => exact fin h.heard ⟨rfl, rfl, rfl⟩
  | waiting h _ => exact fin h.heard ⟨rfl, rfl, rfl⟩

theorem Update.place {C : Cipher} {cb : Bool} {p q : Pd} {env : Env} {outs : List Out} {y : Bool} (h : Update C cb p env q outs y) : Place p q := by
  cases h with
  | hold _ _ => exact .refl _
  | sent _ h => exact h.sent.place.trans ⟨rfl, rfl, rfl⟩
  | unsent _ h h2 => have := (settle_drift h2).place; exact h.sent.place.trans ⟨this.idx, this.chanId, this.shared⟩
  | replied _ h _ h2 => exact h.place.trans (settle_drift h2).place
  | again _ h => exact h.place
  | waiting _ h => exact h.place
  | idle _ h => exact (settle_drift h).place

/-- The channel is given back exactly if no reply is awaited. -/
theorem Update.yields {C : Cipher} {cb : Bool} {p q : Pd} {env : Env} {outs : List Out} {y : Bool} (I : Inv p) (h : Update C cb p env q outs y) :
    y = false ↔ q.phyState = .replyWait := by
  have st : ∀ {a : Pd} {o : List Out}, Mid a → settle cb a env = .ok (q, o) → q.phyState ≠ .replyWait := by
    intro a o M h he
    rcases (settled M h).2 with h | h <;> rw [h] at he <;> cases he
  cases h with
  | hold h _ => exact ⟨(fun h => by cases h), (fun h' => by rw [h] at h'; cases h')⟩
  | sent _ h => exact ⟨fun _ => rfl, fun _ => rfl⟩
  | unsent _ h h2 => exact ⟨(fun h => by cases h), fun h' => absurd h' (st (unsent_mid I h) h2)⟩
  | replied hps h _ h2 => exact ⟨(fun h => by cases h), fun h' => absurd h' (st (waited_mid I hps h) h2)⟩
  | again _ h =>
    refine ⟨(fun h => by cases h), fun h' => ?_⟩
    cases h <;> cases h'
  | waiting hps h =>
    refine ⟨fun _ => ?_, fun _ => rfl⟩
    cases h with
    | waiting h _ => rw [h.heard.keeps.2.1]; exact hps
  | idle hps h => exact ⟨(fun h => by cases h), fun h' => absurd h' (st I.mid h)⟩

/-- what the lock table has for a PD -/
def lockOf (p : Pd) : Int := if p.flags.chnShared = true ∧ p.phyState = .replyWait then p.chanId else 0

/-- two different PDs of the CP -/
def Two (c : Ctx) (i j : Nat) (p q : Pd) : Prop := i ≠ j ∧ c.pds[i]? = some p ∧ c.pds[j]? = some q

/-- what always holds of a CP whose PDs came all at once -/
structure Well (c : Ctx) : Prop where
  inv : ∀ p ∈ c.pds, Inv p
  idx : ∀ (i : Nat) (p : Pd), c.pds[i]? = some p → p.idx = i
  shared : ∀ i j p q, Two c i j p q → p.chanId = q.chanId → p.flags.chnShared = true
  nonzero : ∀ p ∈ c.pds, p.flags.chnShared = true → p.chanId ≠ 0
  lock : ∀ l, c.lock = some l → l = c.pds.map lockOf
  locks : (∃ p ∈ c.pds, p.flags.chnShared = true) → c.lock.isSome = true
  excl : ∀ i j p q, Two c i j p q → p.chanId = q.chanId → p.phyState = .replyWait → q.phyState ≠ .replyWait
  cur : c.cur < c.pds.length ∨ c.pds = []

/-- another PD on the same channel is waited for -/
def Blocked (c : Ctx) (i : Nat) (p : Pd) : Prop := ∃ j q, Two c i j p q ∧ p.chanId = q.chanId ∧ q.phyState = .replyWait

theorem mem_of_get {c : Ctx} {i : Nat} {p : Pd} (h : c.pds[i]? = some p) : p ∈ c.pds := List.mem_of_getElem? h

theorem get_set {l : List Pd} {i j : Nat} {p q : Pd} (h : (l.set i q)[j]? = some p) : j = i ∧ p = q ∨ j ≠ i ∧ l[j]? = some p := by
  rw [List.getElem?_set] at h
  split at h
  · rename_i hij
    split at h
    · injection h with h; exact .inl ⟨hij.symm, h.symm⟩
    · cases h
  · rename_i hij
    exact .inr ⟨fun h => hij h.symm, h⟩

/-- replacing a PD by one in the same place -/
theorem Well.put {c : Ctx} {i : Nat} {p q : Pd} {l : Option (List Int)} (W : Well c) (hp : c.pds[i]? = some p) (hI : Inv q) (hpl : Place p q)
    (hl : ∀ x, l = some x → x = (c.pds.set i q).map lockOf) (hls : c.lock.isSome = true → l.isSome = true)
    (hb : q.phyState = .replyWait → ¬ Blocked c i p) : Well { c with pds := c.pds.set i q, lock := l } := by
  have two : ∀ {a b : Nat} {u v : Pd}, Two { c with pds := c.pds.set i q, lock := l } a b u v →
      ∃ u' v', Two c a b u' v' ∧ Place u' u ∧ Place v' v ∧ (u = u' ∨ a = i ∧ u = q ∧ u' = p) ∧ (v = v' ∨ b = i ∧ v = q ∧ v' = p) := by
    intro a b u v ⟨hab, hu, hv⟩
    replace hu : (c.pds.set i q)[a]? = some u := hu
    replace hv : (c.pds.set i q)[b]? = some v := hv
    rcases get_set hu with ⟨rfl, rfl⟩ | ⟨ha, hu'⟩ <;> rcases get_set hv with ⟨rfl, rfl⟩ | ⟨hb, hv'⟩
    · exact absurd rfl hab
    · exact ⟨p, v, ⟨hab, hp, hv'⟩, hpl, .refl _, .inr ⟨rfl, rfl, rfl⟩, .inl rfl⟩
    · exact ⟨u, p, ⟨hab, hu', hp⟩, .refl _, hpl, .inl rfl, .inr ⟨rfl, rfl, rfl⟩⟩
    · exact ⟨u, v, ⟨hab, hu', hv'⟩, .refl _, .refl _, .inl rfl, .inl rfl⟩
  have sub : ∀ u ∈ c.pds.set i q, ∃ u' ∈ c.pds, Place u' u := by
    intro u hu
    rcases List.mem_or_eq_of_mem_set hu with h | rfl
    · exact ⟨u, h, .refl _⟩
    · exact ⟨p, mem_of_get hp, hpl⟩
  refine ⟨?_, ?_, ?_, ?_, hl, ?_, ?_, ?_⟩
  · intro u hu
    rcases List.mem_or_eq_of_mem_set hu with h | rfl
    · exact W.inv u h
    · exact hI
  · intro j u hu
    rcases get_set hu with ⟨rfl, rfl⟩ | ⟨-, hu⟩
    · exact hpl.idx.trans (W.idx _ p hp)
    · exact W.idx j u hu
  · intro a b u v h he
    obtain ⟨u', v', h', pu, pv, -, -⟩ := two h
    rw [pu.shared]
    exact W.shared a b u' v' h' (by rw [← pu.chanId, ← pv.chanId]; exact he)
  · intro u hu hs
    obtain ⟨u', hu', pu⟩ := sub u hu
    rw [pu.chanId]
    exact W.nonzero u' hu' (by rw [← pu.shared]; exact hs)
  · rintro ⟨u, hu, hs⟩
    obtain ⟨u', hu', pu⟩ := sub u hu
    exact hls (W.locks ⟨u', hu', by rw [← pu.shared]; exact hs⟩)
  · intro a b u v h he hw hv
    obtain ⟨u', v', h', pu, pv, cu, cv⟩ := two h
    have he' : u'.chanId = v'.chanId := by rw [← pu.chanId, ← pv.chanId]; exact he
    rcases cu with rfl | ⟨rfl, rfl, rfl⟩
    · rcases cv with rfl | ⟨rfl, rfl, rfl⟩
      · exact W.excl a b u v h' he' hw hv
      · exact hb hv ⟨a, u, ⟨h'.1.symm, h'.2.2, h'.2.1⟩, he'.symm, hw⟩
    · rcases cv with rfl | ⟨rfl, rfl, rfl⟩
      · exact hb hw ⟨b, v, h', he', hv⟩
      · exact h.1 rfl
  · rcases W.cur with h | h
    · exact .inl (by simpa using h)
    · rw [h] at hp; simp at hp

theorem map_set_lock {pds : List Pd} {i : Nat} {q : Pd} {x : Int} (hx : lockOf q = x) : (pds.map lockOf).set i x = (pds.set i q).map lockOf := by
  rw [← hx, List.map_set]

/-- What a visit of `cp_refresh` does: the PD has to wait for another one on the same channel, or nobody is waited for on that
channel and it gets its turn. -/
inductive Visited (C : Cipher) (c : Ctx) (i : Nat) (env : Env) : Pd → Ctx → List Out → Bool → Prop
  | blocked {p : Pd} : Blocked c i p → p.phyState ≠ .replyWait → Visited C c i env p c [] true
  | served {p q : Pd} {c' : Ctx} {outs : List Out} {y : Bool} : ¬ Blocked c i p → stateUpdate C c.cb p env = .ok (q, outs, y) →
      c' = { c with pds := c.pds.set i q, lock := c'.lock } →
      Visited C c i env p c' outs (y || !p.flags.chnShared || decide (c.numChannels ≠ 1))

theorem refreshPd_visited {C : Cipher} {c c' : Ctx} {i : Nat} {env : Env} {outs : List Out} {more : Bool} (W : Well c)
    (h : refreshPd C c i env = .ok (c', outs, more)) :
    ∃ p, c.pds[i]? = some p ∧ Visited C c i env p c' outs more ∧ Well c' := by
  unfold refreshPd at h
  split at h
  · cases h
  rename_i p hp
  refine ⟨p, hp, ?_⟩
  have I := W.inv p (mem_of_get hp)
  have hidx := W.idx i p hp
  have hlen : i < c.pds.length := (List.getElem?_eq_some_iff.mp hp).1
  by_cases hs : p.flags.chnShared = true
  · rw [if_pos hs] at h
    obtain ⟨r, ha, h⟩ := Res.bind_eq_ok.mp h
    unfold acquire at ha
    split at ha
    · cases ha
    rename_i l hl
    have hlm := W.lock l hl
    have hnz := W.nonzero p (mem_of_get hp) hs
    have hli : l[p.idx]? = some (lockOf p) := by rw [hlm, hidx, List.getElem?_map, hp]; rfl
    rw [hli] at ha
    dsimp only at ha
    -- the visit proper
    have served : ∀ l', l' = l.set i p.chanId → ¬ Blocked c i p →
        (do
          let (p', outs, yield) ← stateUpdate C c.cb p env
          let c := { c with pds := c.pds.set i p', lock := some l' }
          if yield then do
            let lock ← release c.lock p'
            .ok ({ c with lock := lock }, outs, true)
          else .ok (c, outs, c.numChannels ≠ 1) : Res (Ctx × List Out × Bool)) = .ok (c', outs, more) →
        Visited C c i env p c' outs more ∧ Well c' := by
      intro l' hl' hnb h
      obtain ⟨⟨q, o, y⟩, hu, h⟩ := Res.bind_eq_ok.mp h
      have U := stateUpdate_inv I.cp hu
      have hpl := U.place
      have hy := U.yields I
      cases y with
      | true =>
        obtain ⟨lk, hr, h⟩ := Res.bind_eq_ok.mp h
        injection h with h; injection h with e1 h; injection h with e2 e3; subst e1 e2 e3
        have hq : q.phyState ≠ .replyWait := fun h => by cases hy.mpr h
        have hlk : lk = some ((c.pds.set i q).map lockOf) := by
          unfold release at hr
          dsimp only at hr
          rw [hpl.idx, hidx, hl', hlm, List.getElem?_set_self (by simpa using hlen)] at hr
          dsimp only at hr
          rw [hpl.chanId, if_neg (by simp)] at hr
          injection hr with hr
          rw [← hr, List.set_set, map_set_lock (q := q)]
          unfold lockOf
          rw [if_neg (fun h => hq h.2)]
        refine ⟨.served (y := true) hnb hu rfl, ?_⟩
        exact W.put hp (I.update U) hpl (fun x hx => by rw [hlk] at hx; injection hx with hx; exact hx.symm) (fun _ => by rw [hlk]; rfl) (fun h => absurd h hq)
      | false =>
        injection h with h; injection h with e1 h; injection h with e2 e3; subst e1 e2 e3
        have hq : q.phyState = .replyWait := hy.mp rfl
        have hl'' : l' = (c.pds.set i q).map lockOf := by
          rw [hl', hlm, map_set_lock (q := q)]
          unfold lockOf
          rw [if_pos ⟨by rw [hpl.shared]; exact hs, hq⟩, hpl.chanId]
        refine ⟨?_, ?_⟩
        · have := Visited.served (C := C) (env := env) (c' := { c with pds := c.pds.set i q, lock := some l' }) (y := false) hnb hu rfl
          rw [hs] at this
          simpa using this
        · exact W.put hp (I.update U) hpl (fun x hx => by injection hx with hx; rw [← hx]; exact hl'') (fun _ => rfl) (fun _ => hnb)
    by_cases hv : lockOf p = p.chanId
    · rw [if_pos hv] at ha
      injection ha with ha; subst ha
      have hpw : p.phyState = .replyWait := by
        refine Classical.byContradiction fun hn => ?_
        unfold lockOf at hv
        rw [if_neg (fun h => hn h.2)] at hv
        exact hnz hv.symm
      refine served l ?_ ?_ h
      · rw [hlm, ← hv, map_set_lock (q := p) rfl]
        congr 1
        rw [List.getElem?_eq_some_iff] at hp
        obtain ⟨h1, h2⟩ := hp
        rw [← h2, List.set_getElem_self]
      · rintro ⟨j, q, ht, he, hw⟩
        exact W.excl i j p q ht he hpw hw
    · rw [if_neg hv] at ha
      split at ha
      · cases ha
      rename_i hz
      have hz : lockOf p = 0 := Decidable.not_not.mp hz
      have hpw : p.phyState ≠ .replyWait := by
        intro h
        apply hv
        unfold lockOf
        rw [if_pos ⟨hs, h⟩]
      split at ha
      · rename_i hc
        injection ha with ha; subst ha
        injection h with h; injection h with e1 h; injection h with e2 e3; subst e1 e2 e3
        refine ⟨.blocked ?_ hpw, W⟩
        rw [List.contains_iff_mem, hlm, List.mem_map] at hc
        obtain ⟨q, hq, he⟩ := hc
        obtain ⟨j, hj⟩ := List.getElem?_of_mem hq
        unfold lockOf at he
        split at he
        · rename_i hqq
          refine ⟨j, q, ⟨?_, hp, hj⟩, he.symm, hqq.2⟩
          rintro rfl
          rw [hp] at hj; injection hj with hj; subst hj
          exact hpw hqq.2
        · exact absurd he.symm hnz
      · rename_i hc
        injection ha with ha; subst ha
        refine served _ (by rw [hidx]) ?_ h
        rintro ⟨j, q, ht, he, hw⟩
        apply hc
        rw [List.contains_iff_mem, hlm, List.mem_map]
        refine ⟨q, mem_of_get ht.2.2, ?_⟩
        unfold lockOf
        rw [if_pos ⟨W.shared j i q p ⟨ht.1.symm, ht.2.2, ht.2.1⟩ he.symm, hw⟩]
        exact he.symm
  · rw [if_neg hs] at h
    obtain ⟨⟨q, o, y⟩, hu, h⟩ := Res.bind_eq_ok.mp h
    injection h with h; injection h with e1 h; injection h with e2 e3; subst e1 e2 e3
    have U := stateUpdate_inv I.cp hu
    have hpl := U.place
    have hnb : ¬ Blocked c i p := by
      rintro ⟨j, q, ht, he, -⟩
      exact hs (W.shared i j p q ht he)
    refine ⟨?_, ?_⟩
    · have := Visited.served (C := C) (env := env) (c' := { c with pds := c.pds.set i q }) (y := y) hnb hu rfl
      simp only [show p.flags.chnShared = false by simpa using hs] at this
      simpa using this
    · refine W.put hp (I.update U) hpl ?_ id (fun _ => hnb)
      intro x hx
      rw [W.lock x hx]
      have h0 : lockOf p = 0 := by unfold lockOf; rw [if_neg (fun h => hs h.1)]
      have h1 : lockOf q = 0 := by unfold lockOf; rw [if_neg (fun h => hs (by rw [← hpl.shared]; exact h.1))]
      rw [List.map_set, h1]
      apply List.ext_getElem?
      intro k
      rw [List.getElem?_set]
      split
      · rename_i hk
        subst hk
        rw [if_pos (by simpa using hlen), List.getElem?_map, hp]
        exact congrArg some h0
      · rfl

end Osdp.CpM
