import Verif.Props.C45

/-!
# C46: every PD gets its turn
-/

namespace Osdp.CpM

open Spec.Wire (sent)

/-! ### cyclic distance -/

/-- how many steps from `x` to `y` in a cycle of `n` -/
def dist (n x y : Nat) : Nat := if x ≤ y then y - x else y + n - x

theorem dist_lt {n x y : Nat} (hx : x < n) (hy : y < n) : dist n x y < n := by unfold dist; split <;> omega

theorem dist_next {n x y : Nat} (hx : x < n) (hy : y < n) (hne : x ≠ y) : dist n ((x + 1) % n) y + 1 = dist n x y := by
  by_cases h : x + 1 = n
  · rw [h, Nat.mod_self]
    unfold dist
    split <;> split <;> omega
  · rw [Nat.mod_eq_of_lt (by omega)]
    unfold dist
    split <;> split <;> omega

theorem dist_pos {n x y : Nat} (hx : x < n) (hne : x ≠ y) : 0 < dist n x y := by unfold dist; split <;> omega

/-! ### pace -/

/-- with `g` visits or more in between, two visits are more than 200 ms apart -/
def Paced (g : Nat) (vs : List Visit1) : Prop :=
  ∀ (a : List Visit1) (v : Visit1) (m : List Visit1) (w : Visit1) (d : List Visit1), vs = a ++ v :: (m ++ w :: d) → g ≤ m.length → v.env.now + 200 < w.env.now

/-- after `k` more visits the clock is past `t` + 200 ms -/
def Soon (k : Nat) (t : Int) (vs : List Visit1) : Prop :=
  ∀ (m : List Visit1) (w : Visit1) (d : List Visit1), vs = m ++ w :: d → k ≤ m.length → t + 200 < w.env.now

theorem Soon.step {k : Nat} {t : Int} {v : Visit1} {vs : List Visit1} (h : Soon k t (v :: vs)) : Soon (k - 1) t vs := by
  intro m w d he hk
  exact h (v :: m) w d (by rw [he]; rfl) (by rw [List.length_cons]; omega)

theorem Soon.mono {k k' : Nat} {t : Int} {vs : List Visit1} (h : Soon k t vs) (hk : k ≤ k') : Soon k' t vs :=
  fun m w d he hm => h m w d he (by omega)

theorem Soon.head {t : Int} {v : Visit1} {vs : List Visit1} (h : Soon 0 t (v :: vs)) : t + 200 < v.env.now := h [] v vs rfl (Nat.zero_le _)

theorem Paced.tail {g : Nat} {v : Visit1} {vs : List Visit1} (h : Paced g (v :: vs)) : Paced g vs := by
  intro a x m w d he
  exact h (v :: a) x m w d (by rw [he]; rfl)

theorem Paced.soon {g : Nat} {v : Visit1} {vs : List Visit1} (h : Paced g (v :: vs)) : Soon g v.env.now vs := by
  intro m w d he hk
  exact h [] v m w d (by rw [he]; rfl) hk

/-! ### one visit, seen from a channel -/

/-- nobody on the channel is waited for -/
def Free (c : Ctx) (ch : Int) : Prop := ∀ i t, OnChan c i ch → ¬ Awaiting c i t

theorem Free.served {C : Cipher} {v : Visit1} {ch : Int} (G : Good C v) (hf : Free v.before ch) (hj : OnChan v.before v.pos ch) : Served C v := by
  refine G.served fun p hp hb => ?_
  obtain ⟨k, q, ⟨-, -, hq⟩, he, hw⟩ := hb
  obtain ⟨p', hp', hc⟩ := hj
  rw [hp] at hp'; injection hp' with hp'; subst hp'
  exact hf k _ ⟨q, hq, he.symm.trans hc⟩ ⟨q, hq, hw, rfl⟩

/-- who is waited for is attended to -/
theorem Good.servedOwner {C : Cipher} {v : Visit1} {t : Int} (G : Good C v) (ha : Awaiting v.before v.pos t) : Served C v := by
  refine G.served fun p hp hb => ?_
  obtain ⟨k, q, h2, he, hw⟩ := hb
  obtain ⟨p', hp', hw', -⟩ := ha
  rw [hp] at hp'; injection hp' with hp'; subst hp'
  exact G.before.excl _ k p q h2 he hw' hw

/-- a free channel: it stays free and the refresh goes on, or the PD visited takes it -/
theorem Good.free {C : Cipher} {v : Visit1} {ch : Int} {j : Nat} (G : Good C v) (S : Single v.before) (hj : OnChan v.before j ch) (hf : Free v.before ch) :
    (Free v.after ch ∧ v.more = true) ∨ (OnChan v.after v.pos ch ∧ Awaiting v.after v.pos v.env.now) := by
  by_cases h : ∃ i t, OnChan v.after i ch ∧ Awaiting v.after i t
  · obtain ⟨i, t, h1, h2⟩ := h
    rcases G.awaiting h2 with h | ⟨rfl, rfl, -⟩
    · exact absurd h (hf i t (G.onChan.mp h1))
    · exact .inr ⟨h1, h2⟩
  · refine .inl ⟨fun i t h1 h2 => h ⟨i, t, h1, h2⟩, ?_⟩
    cases hm : v.more with
    | true => rfl
    | false =>
      obtain ⟨⟨t, h1⟩, h2⟩ := G.stops hm
      exact absurd ⟨v.pos, t, G.onChan.mpr (S.onChan h2 hj G.len.1), h1⟩ h

/-- a channel in use: the PD is still waited for, or it was visited, and the channel is free; the
refresh goes on unless it has come to that PD -/
theorem Good.owned {C : Cipher} {v : Visit1} {ch t : Int} {o : Nat} (G : Good C v) (S : Single v.before) (ho : OnChan v.before o ch) (ha : Awaiting v.before o t) :
    (Awaiting v.after o t ∧ (v.pos ≠ o → v.more = true) ∧ (v.pos = o → v.env.now - t ≤ 200)) ∨ (v.pos = o ∧ Free v.after ch ∧ v.more = true) := by
  have ho' := G.onChan.mpr ho
  by_cases h : Awaiting v.after o t
  · refine .inl ⟨h, fun hne => ?_, fun he => ?_⟩
    · cases hm : v.more with
      | true => rfl
      | false =>
        obtain ⟨⟨t', h1⟩, h2⟩ := G.stops hm
        exact absurd (G.after.once (G.onChan.mpr (S.onChan h2 ho G.len.1)) ho' h1 h) hne
    · subst he
      exact (G.over ha h).2
  · right
    have he : v.pos = o := by
      refine Classical.byContradiction fun hne => h ?_
      obtain ⟨p, hp, hh⟩ := ha
      exact ⟨p, (G.other (Ne.symm hne)).trans hp, hh⟩
    subst he
    have none : ∀ t', ¬ Awaiting v.after v.pos t' := fun t' h' => h (by rw [← (G.over ha h').1]; exact h')
    refine ⟨rfl, fun i t' h1 h2 => ?_, ?_⟩
    · by_cases hi : i = v.pos
      · subst hi; exact none t' h2
      · obtain ⟨p, hp, hh⟩ := h2
        rw [G.other hi] at hp
        exact hi (G.before.once (G.onChan.mp h1) ho ⟨p, hp, hh⟩ ha)
    · cases hm : v.more with
      | true => rfl
      | false => obtain ⟨⟨t', h1⟩, -⟩ := G.stops hm; exact absurd h1 (none t')

theorem moved_free {c : Ctx} {m : Bool} {ch : Int} : Free (moved c m) ch ↔ Free c ch := by
  unfold Free
  constructor
  · exact fun h i t h1 h2 => h i t (moved_onChan.mpr h1) (moved_awaiting.mpr h2)
  · exact fun h i t h1 h2 => h i t (moved_onChan.mp h1) (moved_awaiting.mp h2)

theorem Near.free {c c' : Ctx} (n : Near c c') {ch : Int} : Free c' ch ↔ Free c ch := by
  unfold Free
  constructor
  · exact fun h i t h1 h2 => h i t (n.onChan.mpr h1) (n.awaiting.mpr h2)
  · exact fun h i t h1 h2 => h i t (n.onChan.mp h1) (n.awaiting.mp h2)

theorem OnChan.lt {c : Ctx} {i : Nat} {ch : Int} (h : OnChan c i ch) : i < c.pds.length := by
  obtain ⟨p, hp, -⟩ := h
  exact (List.getElem?_eq_some_iff.mp hp).1

/-! ### starvation -/

theorem turn_comes {C : Cipher} {N g j : Nat} {ch : Int} {c : Ctx} {vs : List Visit1} (T : Trail C c vs) (W : Well c) (S : Single c) (hN : c.pds.length = N)
    (hp : Paced g vs) (hj : OnChan c j ch) :
    (Free c ch → dist N c.cur j * (g + N + 2) + (g + N + 1) < vs.length → ∃ u ∈ vs, u.pos = j ∧ Served C u) ∧
    (∀ o t k, OnChan c o ch → Awaiting c o t → Soon k t vs →
      dist N o j * (g + N + 2) + (if k = 0 then dist N c.cur o else k + N) < vs.length → ∃ u ∈ vs, u.pos = j ∧ Served C u) := by
  induction T with
  | nil c => exact ⟨(fun _ h => by simp at h), (fun _ _ _ _ _ _ h => by simp at h)⟩
  | api W' n T ih =>
    obtain ⟨h1, h2⟩ := ih W' (S.near n) (n.len.trans hN) hp (n.onChan.mpr hj)
    rw [n.cur] at h1 h2
    exact ⟨fun hf => h1 (n.free.mpr hf), fun o t k ho ha => h2 o t k (n.onChan.mpr ho) (n.awaiting.mpr ha)⟩
  | @visit v vs G T ih =>
    have hl := G.len
    have hjlt : j < N := hN ▸ hj.lt
    have hvlt : v.pos < N := hN ▸ hl.1
    have hcurlt : (moved v.after v.more).cur < N := by
      have := G.moved.cur
      rw [(moved_pds _ _).1, hl.2.1, hN] at this
      rcases this with h | h
      · exact h
      · have h1 := hl.2.1
        rw [h, hN] at h1; simp at h1; omega
    obtain ⟨ih1, ih2⟩ := ih G.moved (G.single S) (by rw [(moved_pds _ _).1, hl.2.1]; exact hN) hp.tail (moved_onChan.mpr (G.onChan.mpr hj))
    have up : (∃ u ∈ vs, u.pos = j ∧ Served C u) → ∃ u ∈ v :: vs, u.pos = j ∧ Served C u :=
      fun ⟨u, hu, h⟩ => ⟨u, List.mem_cons_of_mem _ hu, h⟩
    refine ⟨fun hf hb => ?_, fun o t k ho ha hs hb => ?_⟩
    · rw [G.cur, List.length_cons] at hb
      by_cases hpj : v.pos = j
      · exact ⟨v, List.mem_cons_self, hpj, hf.served G (hpj ▸ hj)⟩
      · refine up ?_
        rcases G.free S hj hf with ⟨hf', hm⟩ | ⟨h1, h2⟩
        · refine ih1 (moved_free.mpr hf') ?_
          have hd := dist_next hvlt hjlt hpj
          rw [G.pos, hm, if_pos rfl, hN]
          rw [← hd, Nat.succ_mul] at hb
          omega
        · refine ih2 v.pos v.env.now g (moved_onChan.mpr h1) (moved_awaiting.mpr h2) hp.soon ?_
          have := dist_lt hcurlt hvlt
          split <;> omega
    · rw [G.cur, List.length_cons] at hb
      by_cases hsv : v.pos = j ∧ Served C v
      · exact ⟨v, List.mem_cons_self, hsv.1, hsv.2⟩
      refine up ?_
      have holt : o < N := hN ▸ ho.lt
      rcases G.owned S ho ha with ⟨ha', hm, hle⟩ | ⟨rfl, hf', hm⟩
      · refine ih2 o t (k - 1) (moved_onChan.mpr (G.onChan.mpr ho)) (moved_awaiting.mpr ha') hs.step ?_
        by_cases hk : k = 0
        · subst hk
          have hlate := hs.head
          have hne : v.pos ≠ o := fun he => by have := hle he; omega
          have hd := dist_next hvlt holt hne
          rw [G.pos, hm hne, if_pos rfl, hN]
          simp only [if_true] at hb
          rw [if_pos rfl]
          omega
        · rw [if_neg hk] at hb
          have := dist_lt hcurlt holt
          split <;> omega
      · have hne : v.pos ≠ j := fun he => hsv ⟨he, G.servedOwner ha⟩
        refine ih1 (moved_free.mpr hf') ?_
        have hd := dist_next hvlt hjlt hne
        rw [G.pos, hm, if_pos rfl, hN]
        rw [← hd, Nat.succ_mul] at hb
        omega

/-- the CP in the middle of a history -/
theorem trail_middle {C : Cipher} {g N j : Nat} {ch : Int} {c : Ctx} {vs : List Visit1} (T : Trail C c vs) :
    ∀ {a b : List Visit1}, vs = a ++ b → Well c → Single c → c.pds.length = N → Paced g vs → OnChan c j ch → (∀ i t, Awaiting c i t → Soon g t vs) →
    ∃ c', Trail C c' b ∧ Well c' ∧ Single c' ∧ c'.pds.length = N ∧ Paced g b ∧ OnChan c' j ch ∧ ∀ i t, Awaiting c' i t → Soon g t b := by
  induction T with
  | nil c =>
    intro a b he W S hN hp hj hs
    cases a with
    | nil => subst he; exact ⟨c, .nil c, W, S, hN, hp, hj, hs⟩
    | cons => cases he
  | api W' n T ih =>
    intro a b he W S hN hp hj hs
    exact ih he W' (S.near n) (n.len.trans hN) hp (n.onChan.mpr hj) (fun i t h => hs i t (n.awaiting.mp h))
  | @visit v vs G T ih =>
    intro a b he W S hN hp hj hs
    cases a with
    | nil => subst he; exact ⟨_, .visit G T, W, S, hN, hp, hj, hs⟩
    | cons x xs =>
      injection he with h1 h2
      refine ih h2 G.moved (G.single S) (by rw [(moved_pds _ _).1, G.len.2.1]; exact hN) hp.tail (moved_onChan.mpr (G.onChan.mpr hj)) ?_
      intro i t h
      rcases G.awaiting (moved_awaiting.mp h) with h | ⟨rfl, rfl, -⟩
      · exact (hs i t h).step.mono (by omega)
      · exact hp.soon

theorem trail_prefix {C : Cipher} {c : Ctx} {vs : List Visit1} (T : Trail C c vs) : ∀ {b d : List Visit1}, vs = b ++ d → Trail C c b := by
  induction T with
  | nil c => intro b d he; cases b with
    | nil => exact .nil c
    | cons => cases he
  | api W n T ih => intro b d he; exact .api W n (ih he)
  | visit G T ih =>
    intro b d he
    cases b with
    | nil => exact .nil _
    | cons x xs => injection he with h1 h2; subst h1; exact .visit G (ih h2)

theorem setup_trail {C : Cipher} {infos : List PdM.Info} {sk : Bool} {n : Nat} {c : Ctx} {ops : List CtxOp}
    (hb : Buses infos) (hs : setup infos sk n = .ok (some c)) (hop : NoAdd ops) :
    Well c ∧ Single c ∧ c.pds.length = infos.length ∧ Trail C c (ctxVisits C c ops) ∧ (∀ i t, ¬ Awaiting c i t) ∧
      (∀ (i : Nat) (x : PdM.Info), infos[i]? = some x → OnChan c i x.chanId) := by
  obtain ⟨W, hch, hlen, -, hidle, -⟩ := setup_well hb hs
  refine ⟨W, fun h => setup_single hs h, hlen, ctxVisits_trail W hop, ?_, ?_⟩
  · rintro i t ⟨p, hp, hw, -⟩
    rw [hidle p (mem_of_get hp)] at hw; cases hw
  · intro i x hx
    have hi := (List.getElem?_eq_some_iff.mp hx).1
    rw [← hlen] at hi
    have hp := List.getElem?_eq_getElem hi
    obtain ⟨y, hy, h⟩ := hch i _ hp
    rw [hx] at hy; injection hy with hy; subst hy
    exact ⟨_, hp, h⟩

/-- **C46, no starvation**: for every topology and every history of API calls.  If the refreshes are
called so that visits with `g` others in between are more than 200 ms apart, then among any
`n (g + n + 2)` successive visits (`n` PDs) every PD is attended to. -/
theorem C46_turn_partial {C : Cipher} {infos : List PdM.Info} {sk : Bool} {n g j : Nat} {c : Ctx} {ops : List CtxOp} {a b d : List Visit1}
    (hb : Buses infos) (hs : setup infos sk n = .ok (some c)) (hop : NoAdd ops) (htr : ctxVisits C c ops = a ++ (b ++ d)) (hp : Paced g (ctxVisits C c ops))
    (hj : j < infos.length) (hlen : infos.length * (g + infos.length + 2) ≤ b.length) : ∃ u ∈ b, u.pos = j ∧ Served C u := by
  obtain ⟨W, S, hN, T, hidle, hch⟩ := setup_trail (C := C) hb hs hop
  have hjc := hch j _ (List.getElem?_eq_getElem hj)
  obtain ⟨c', T', W', S', hN', hp', hj', hs'⟩ := trail_middle T htr W S hN hp hjc (fun i t h => absurd h (hidle i t))
  have Tb := trail_prefix T' rfl
  have hpb : Paced g b := fun a v m w e he => hp' a v m w (e ++ d) (by rw [he]; simp)
  obtain ⟨h1, h2⟩ := turn_comes Tb W' S' hN' hpb hj'
  have bound : ∀ {x : Nat}, x < infos.length → x * (g + infos.length + 2) + (g + infos.length + 2) ≤ b.length := by
    intro x hx
    rw [← Nat.succ_mul]
    exact Nat.le_trans (Nat.mul_le_mul_right _ hx) hlen
  have hcur : c'.cur < infos.length := by
    rcases W'.cur with h | h
    · rw [← hN']; exact h
    · rw [h] at hN'; simp at hN'; omega
  by_cases hf : Free c' (infos[j]).chanId
  · refine h1 hf ?_
    have := bound (dist_lt hcur hj)
    omega
  · have : ∃ i t, OnChan c' i (infos[j]).chanId ∧ Awaiting c' i t := by
      refine Classical.byContradiction fun hn => hf fun i t h1 h2 => hn ⟨i, t, h1, h2⟩
    obtain ⟨o, t, ho, ha⟩ := this
    have holt : o < infos.length := hN' ▸ ho.lt
    refine h2 o t g ho ha ?_ ?_
    · intro m w e he hk
      exact hs' o t ha m w (e ++ d) (by rw [he]; simp) hk
    · have := bound (dist_lt holt hj)
      have := dist_lt hcur holt
      split <;> omega

/-- **C46, fairness**, whatever the pace: between two commands to one PD, each other PD on its channel
is attended to. -/
theorem C46_fair_partial {C : Cipher} {infos : List PdM.Info} {sk : Bool} {n j : Nat} {c : Ctx} {ops : List CtxOp} {a b d : List Visit1} {v w : Visit1}
    {x y : PdM.Info} (hb : Buses infos) (hs : setup infos sk n = .ok (some c)) (hop : NoAdd ops)
    (htr : ctxVisits C c ops = a ++ v :: (b ++ w :: d)) (hv : sent v.outs ≠ []) (hcap : 256 ≤ v.env.sendCap) (hw : sent w.outs ≠ []) (hvw : w.pos = v.pos)
    (hx : infos[v.pos]? = some x) (hy : infos[j]? = some y) (hne : v.pos ≠ j) (hch : x.chanId = y.chanId) : ∃ u ∈ b, u.pos = j ∧ Served C u := by
  refine Classical.byContradiction fun hn => ?_
  obtain ⟨W, S, hN, T, hidle, hon⟩ := setup_trail (C := C) hb hs hop
  rw [htr] at T
  obtain ⟨Gv, Tv⟩ := T.drop
  obtain ⟨Gw, -⟩ := Tv.drop
  let P : Ctx → List Visit1 → Prop := fun c _ => Single c ∧ c.pds.length = infos.length ∧ OnChan c j x.chanId ∧ OnChan c v.pos x.chanId ∧ c.cur < infos.length ∧
    ((∃ o t, OnChan c o x.chanId ∧ Awaiting c o t ∧ (o = v.pos ∨ dist infos.length o j < dist infos.length v.pos j)) ∨
     (Free c x.chanId ∧ dist infos.length c.cur j < dist infos.length v.pos j))
  have hjlt : j < infos.length := (List.getElem?_eq_some_iff.mp hy).1
  have hvlt : v.pos < infos.length := (List.getElem?_eq_some_iff.mp hx).1
  have curlt : ∀ {u : Visit1}, Good C u → u.before.pds.length = infos.length → (moved u.after u.more).cur < infos.length := by
    intro u G hl
    rcases G.moved.cur with h | h
    · rw [(moved_pds _ _).1, G.len.2.1, hl] at h; exact h
    · rw [(moved_pds _ _).1] at h
      have := G.len
      rw [h] at this; simp at this; omega
  -- the CP before the first command
  have hQ : Single v.before ∧ v.before.pds.length = infos.length ∧ OnChan v.before j x.chanId ∧ OnChan v.before v.pos x.chanId := by
    refine T.keeps (P := fun c _ => Single c ∧ c.pds.length = infos.length ∧ OnChan c j x.chanId ∧ OnChan c v.pos x.chanId) (K := fun _ => True)
      ⟨S, hN, by rw [hch]; exact hon j y hy, hon v.pos x hx⟩ (fun _ _ => trivial) ?_ ?_
    · intro c c' vs n _ ⟨h1, h2, h3, h4⟩
      exact ⟨h1.near n, n.len.trans h2, n.onChan.mpr h3, n.onChan.mpr h4⟩
    · intro u vs G _ ⟨h1, h2, h3, h4⟩
      exact ⟨G.single h1, by rw [(moved_pds _ _).1, G.len.2.1]; exact h2, moved_onChan.mpr (G.onChan.mpr h3), moved_onChan.mpr (G.onChan.mpr h4)⟩
  have h0 : P (moved v.after v.more) (b ++ w :: d) := by
    obtain ⟨h1, h2, h3, h4⟩ := hQ
    refine ⟨Gv.single h1, by rw [(moved_pds _ _).1, Gv.len.2.1]; exact h2, moved_onChan.mpr (Gv.onChan.mpr h3), moved_onChan.mpr (Gv.onChan.mpr h4), curlt Gv h2, ?_⟩
    exact .inl ⟨v.pos, v.env.now, moved_onChan.mpr (Gv.onChan.mpr h4), moved_awaiting.mpr ((Gv.sends hv).2 hcap), .inl rfl⟩
  have hk : P w.before (w :: d) := by
    refine Tv.keeps (P := P) (K := fun u => ¬ (u.pos = j ∧ Served C u)) h0 (fun u hu h => hn ⟨u, hu, h⟩) ?_ ?_
    · rintro c c' vs n - ⟨h1, h2, h3, h4, h5, h6⟩
      refine ⟨h1.near n, n.len.trans h2, n.onChan.mpr h3, n.onChan.mpr h4, by rw [n.cur]; exact h5, ?_⟩
      rcases h6 with ⟨o, t, ho, ha, hd⟩ | ⟨hf, hd⟩
      · exact .inl ⟨o, t, n.onChan.mpr ho, n.awaiting.mpr ha, hd⟩
      · exact .inr ⟨n.free.mpr hf, by rw [n.cur]; exact hd⟩
    · rintro u vs G hk ⟨h1, h2, h3, h4, h5, h6⟩
      refine ⟨G.single h1, by rw [(moved_pds _ _).1, G.len.2.1]; exact h2, moved_onChan.mpr (G.onChan.mpr h3), moved_onChan.mpr (G.onChan.mpr h4), curlt G h2, ?_⟩
      have hult : u.pos < infos.length := h2 ▸ G.len.1
      have next : u.more = true → u.pos ≠ j → dist infos.length (moved u.after u.more).cur j + 1 = dist infos.length u.pos j := by
        intro hm hne
        rw [G.pos, hm, if_pos rfl, h2]
        exact dist_next hult hjlt hne
      rcases h6 with ⟨o, t, ho, ha, hd⟩ | ⟨hf, hd⟩
      · rcases G.owned h1 ho ha with ⟨ha', -, -⟩ | ⟨rfl, hf', hm⟩
        · exact .inl ⟨o, t, moved_onChan.mpr (G.onChan.mpr ho), moved_awaiting.mpr ha', hd⟩
        · have hne' : u.pos ≠ j := fun he => hk ⟨he, G.servedOwner ha⟩
          refine .inr ⟨moved_free.mpr hf', ?_⟩
          have := next hm hne'
          rcases hd with hd | hd
          · rw [hd] at this; omega
          · omega
      · have hne' : u.pos ≠ j := fun he => hk ⟨he, hf.served G (he ▸ h3)⟩
        rw [G.cur] at hd
        rcases G.free h1 h3 hf with ⟨hf', hm⟩ | ⟨ho, ha⟩
        · have := next hm hne'
          exact .inr ⟨moved_free.mpr hf', by omega⟩
        · exact .inl ⟨u.pos, _, moved_onChan.mpr ho, moved_awaiting.mpr ha, .inr hd⟩
  obtain ⟨-, -, -, h4, -, h6⟩ := hk
  rcases h6 with ⟨o, t, ho, ha, -⟩ | ⟨-, hd⟩
  · by_cases he : o = w.pos
    · subst he
      exact hw (Gw.awaits ha).1
    · obtain ⟨p, hp, h1⟩ := h4
      obtain ⟨q, hq, h2⟩ := ho
      obtain ⟨q', hq', h3, -⟩ := ha
      rw [hq] at hq'; injection hq' with hq'; subst hq'
      rw [← hvw] at hp
      exact (Gw.sends hw).1 p hp ⟨o, q, ⟨Ne.symm he, hp, hq⟩, h1.trans h2.symm, h3⟩
  · rw [Gw.cur, hvw] at hd
    exact Nat.lt_irrefl _ hd

/-- **C46, cyclic order**: visits go round in the order of the list given to `osdp_cp_setup`.  Only
when all PDs are on one channel does a refresh stop early, at the PD whose reply is awaited, and the next
one starts there. -/
theorem C46_order_partial {C : Cipher} {infos : List PdM.Info} {sk : Bool} {n : Nat} {c : Ctx} {ops : List CtxOp} {a d : List Visit1} {v w : Visit1}
    (hb : Buses infos) (hs : setup infos sk n = .ok (some c)) (hop : NoAdd ops) (htr : ctxVisits C c ops = a ++ v :: w :: d) :
    (v.more = true ∧ w.pos = (v.pos + 1) % infos.length) ∨
    (v.more = false ∧ w.pos = v.pos ∧ (∃ t, Awaiting v.after v.pos t) ∧
      ∀ (i j : Nat) (x y : PdM.Info), infos[i]? = some x → infos[j]? = some y → x.chanId = y.chanId) := by
  obtain ⟨W, S, hN, T, -, hon⟩ := setup_trail (C := C) hb hs hop
  rw [htr] at T
  obtain ⟨Gv, Tv⟩ := T.drop
  have hQ : v.before.pds.length = infos.length ∧ v.before.numChannels = c.numChannels := by
    refine T.keeps (P := fun c' _ => c'.pds.length = infos.length ∧ c'.numChannels = c.numChannels) (K := fun _ => True) ⟨hN, rfl⟩ (fun _ _ => trivial) ?_ ?_
    · intro c c' vs n _ ⟨h1, h2⟩; exact ⟨n.len.trans h1, n.num.trans h2⟩
    · intro u vs G _ ⟨h1, h2⟩
      rw [(moved_pds _ _).1, (moved_pds _ _).2.1, G.len.2.1, G.len.2.2.2]
      exact ⟨h1, h2⟩
  have hw : w.pos = (moved v.after v.more).cur := by
    have := Trail.keeps (b := []) (P := fun c' _ => c'.cur = (moved v.after v.more).cur) (K := fun _ => False) Tv rfl (fun _ h => by cases h)
      (fun c c' vs n _ h => n.cur.trans h) (fun _ _ _ h => h.elim)
    rw [← this, Tv.after.1.cur]
  rw [Gv.pos, hQ.1] at hw
  cases hm : v.more with
  | true => rw [hm, if_pos rfl] at hw; exact .inl ⟨rfl, hw⟩
  | false =>
    rw [hm] at hw
    obtain ⟨h1, h2⟩ := Gv.stops hm
    refine .inr ⟨rfl, hw, h1, fun i j x y hx hy => ?_⟩
    obtain ⟨p, hp, e1⟩ := hon i x hx
    obtain ⟨q, hq, e2⟩ := hon j y hy
    rw [← e1, ← e2]
    exact S (hQ.2 ▸ h2) p (mem_of_get hp) q (mem_of_get hq)

/-! ### callbacks name the right PD -/

/-- every event handed to the application names the PD `i` -/
def Naming (i : Nat) (outs : List Out) : Prop := ∀ k e, Out.event k e ∈ outs → k = i

theorem Naming.append {i : Nat} {a b : List Out} (ha : Naming i a) (hb : Naming i b) : Naming i (a ++ b) := by
  intro k e h
  rcases List.mem_append.mp h with h | h
  · exact ha k e h
  · exact hb k e h

theorem naming_nil (i : Nat) : Naming i [] := by intro k e h; cases h

theorem naming_notify {cb : Bool} {p : Pd} {t : NotifType} {a b : Int} : Naming p.idx (notify cb p t a b) := by
  intro k e h
  have := notify_outs _ h
  injection this

theorem keysetComplete_naming {cb : Bool} {p q : Pd} {outs : List Out} (h : keysetComplete cb p = .ok (q, outs)) : Naming p.idx outs := by
  obtain ⟨k, -, -, rfl⟩ := keysetComplete_inv h
  exact naming_notify

theorem nextOk_naming {cb : Bool} {p q : Pd} {now : Int} {outs : List Out} {n : CpState} (h : nextOk cb p now = .ok (q, outs, n)) : Naming p.idx outs := by
  unfold nextOk at h
  cases hs : p.state <;> rw [hs] at h <;> dsimp only at h
  case setScbk =>
    obtain ⟨⟨p2, o2⟩, h1, h⟩ := Res.bind_eq_ok.mp h
    injection h with h; injection h with e1 h; injection h with e2 e3; subst e1 e2 e3
    exact keysetComplete_naming h1
  case scScrypt =>
    split at h
    all_goals
      injection h with h; injection h with e1 h; injection h with e2 e3; subst e1 e2 e3
      exact naming_notify (p := p.scActivate)
  case capdet =>
    split at h <;> (injection h with h; injection h with e1 h; injection h with e2 e3; subst e1 e2 e3; exact naming_nil _)
  case probe => cases h
  all_goals
    injection h with h; injection h with e1 h; injection h with e2 e3; subst e1 e2 e3
    exact naming_nil _

theorem nextErr_naming {cb : Bool} {p q : Pd} {now : Int} {outs : List Out} {n : CpState} (h : nextErr cb p now = .ok (q, outs, n)) : Naming p.idx outs := by
  unfold nextErr at h
  cases hs : p.state <;> rw [hs] at h <;> dsimp only at h
  case setScbk =>
    injection h with h; injection h with e1 h; injection h with e2 e3; subst e1 e2 e3
    exact naming_notify (p := p.scDeactivate)
  case scChlng =>
    split at h
    · injection h with h; injection h with e1 h; injection h with e2 e3; subst e1 e2 e3; exact naming_nil _
    · split at h <;> (injection h with h; injection h with e1 h; injection h with e2 e3; subst e1 e2 e3; exact naming_nil _)
  case probe => cases h
  all_goals
    injection h with h; injection h with e1 h; injection h with e2 e3; subst e1 e2 e3
    exact naming_nil _

theorem stateChange_naming {cb : Bool} {p : Pd} {env : Env} {n : CpState} : Naming p.idx (stateChange cb p env n).2 := by
  cases n with
  | init =>
    intro k e h
    unfold stateChange Phy.stateReset at h
    dsimp only at h
    rw [if_pos rfl] at h
    dsimp only at h
    split at h
    · simp at h
    · cases h
  | online => exact naming_notify
  | offline => exact naming_notify.append naming_notify
  | _ => exact naming_nil _

theorem advance_naming {cb : Bool} {p q : Pd} {env : Env} {cur : CpState} {ok : Bool} {outs : List Out}
    (h : advance cb p env cur ok = .ok (q, outs)) : Naming p.idx outs := by
  cases advance_inv h with
  | @mk p1 p2 o1 o2 n1 n2 h1 h2 =>
  have i1 : p1.idx = p.idx ∧ Naming p.idx o1 := by
    cases ok with
    | true => exact ⟨(nextOk_drift h1).1.place.idx, nextOk_naming h1⟩
    | false => exact ⟨(nextErr_drift h1).1.place.idx, nextErr_naming h1⟩
  have i2 : p2.idx = p.idx ∧ Naming p.idx o2 := by
    refine ⟨(requests_drift h2).1.place.idx.trans i1.1, ?_⟩
    rcases requests_inv h2 with ⟨-, -, rfl, -⟩ | ⟨-, -, -, rfl⟩
    · exact naming_nil _
    · refine Naming.append ?_ ?_
      · split
        · intro k e h; simp at h
        · exact naming_nil _
      · split
        · intro k e h
          obtain ⟨e', -, h⟩ := eventOuts_outs _ h
          injection h with h
          rw [h, i1.1]
        · exact naming_nil _
  refine (i1.2.append i2.2).append ?_
  split
  · rw [← i2.1]; exact stateChange_naming
  · exact naming_nil _

theorem settle_naming {cb : Bool} {p q : Pd} {env : Env} {outs : List Out} (h : settle cb p env = .ok (q, outs)) : Naming p.idx outs := by
  have closes : ∀ {o : List Out}, (∀ x ∈ o, x = Out.fclose) → Naming p.idx o := by
    intro o h k e he
    have := h _ he; cases this
  cases settle_inv h with
  | command hps h1 hid => exact closes (stateGetCmd_inv h1).2.2.1
  | @nothing p1 _ _ _ hps h1 h2 =>
    refine (closes (stateGetCmd_inv h1).2.2.1).append ?_
    have hc := (stateGetCmd_inv h1).1
    have : p1.idx = p.idx := by unfold Chosen at hc; rw [hc]
    have h3 := advance_naming h2
    rw [← this]
    exact h3
  | @over p1 _ o1 _ _ hps h1 h2 =>
    have hi : p1.idx = p.idx ∧ Naming p.idx o1 := by
      obtain ⟨-, ⟨rfl, rfl, -⟩ | ⟨-, -, -, h⟩⟩ := stateCheckReply_inv h1
      · exact ⟨rfl, naming_nil _⟩
      · refine ⟨?_, keysetComplete_naming h⟩
        obtain ⟨k, -, rfl, -⟩ := keysetComplete_inv h
        rfl
    refine (hi.2.append ?_).append ?_
    · rw [← hi.1]
      unfold notifyCommand
      split
      · exact naming_nil _
      · exact naming_notify
    · have := advance_naming h2
      rw [← hi.1]
      exact this

theorem Update.naming {C : Cipher} {cb : Bool} {p q : Pd} {env : Env} {outs : List Out} {y : Bool} (h : Update C cb p env q outs y) : Naming p.idx outs := by
  have closes : ∀ {o : List Out}, (∀ x ∈ o, x = Out.fclose) → Naming p.idx o := by
    intro o h k e he
    have := h _ he; cases this
  have sends : ∀ {a : Pd} {o : List Out} {ok : Bool}, SendOutcome C p env a o ok → Naming p.idx o := by
    intro a o ok h k e he
    cases h with
    | mute _ => cases he
    | unbuilt b _ _ hb _ => obtain ⟨_, _, h⟩ := hb.outs _ he; cases h
    | built b l q outs ok _ _ hb _ _ _ hcase _ =>
      rcases List.mem_append.mp he with he | he
      · obtain ⟨_, _, h⟩ := hb.outs _ he; cases h
      · rcases hcase with ⟨h, -, -⟩ | ⟨wire, q', -, -, -, -, ho, -⟩
        · rw [h] at he; cases he
        · rw [ho] at he
          unfold Phy.sendOuts at he
          rcases List.mem_append.mp he with he | he
          · split at he <;> simp at he
          · simp at he
  cases h with
  | hold _ _ => exact naming_nil _
  | sent _ h => exact sends h
  | unsent _ h h2 =>
    have := settle_naming h2
    refine (sends h).append ?_
    rw [← h.sent.place.idx]
    exact this
  | replied _ h _ h2 =>
    have := settle_naming h2
    rw [h.place.idx] at this
    exact (closes h.outs).append this
  | again _ h => exact closes h.outs
  | waiting _ h => exact closes h.outs
  | idle _ h => exact settle_naming h

/-- **C46, callbacks**: in every history each event handed to the application during a visit names
the position of the PD visited, and no other API call hands over events. -/
theorem C46_index_partial {C : Cipher} {infos : List PdM.Info} {sk : Bool} {n : Nat} {c : Ctx} {ops : List CtxOp} {v : Visit1}
    (hb : Buses infos) (hs : setup infos sk n = .ok (some c)) (hop : NoAdd ops) (hv : v ∈ ctxVisits C c ops) : Naming v.pos v.outs := by
  obtain ⟨W, S, hN, T, -, hon⟩ := setup_trail (C := C) hb hs hop
  obtain ⟨a, d, he⟩ := List.append_of_mem hv
  rw [he] at T
  obtain ⟨G, -⟩ := T.drop
  obtain ⟨p, hp, h⟩ := G.cases
  rcases h with ⟨-, -, h, -⟩ | ⟨q, y, -, hu, I, -, -⟩
  · rw [h]; exact naming_nil _
  · rw [← G.before.idx _ _ hp]
    exact (stateUpdate_inv I.cp hu).naming

theorem refreshLoop_len {C : Cipher} : ∀ {n k : Nat} {c c' : Ctx} {envs : Nat → Env} {outs : List Out}, Well c →
    refreshLoop C n k c envs = .ok (c', outs) → c'.pds.length = c.pds.length
  | 0, k, c, c', envs, outs, W, h => by
    injection h with h; injection h with e1 e2; subst e1; rfl
  | n + 1, k, c, c', envs, outs, W, h => by
    unfold refreshLoop at h
    obtain ⟨⟨c1, o1, more⟩, h1, h⟩ := Res.bind_eq_ok.mp h
    obtain ⟨p, hp, hv, W1⟩ := refreshPd_visited W h1
    have G : Good C ⟨c.cur, envs k, c, c1, o1, more⟩ := ⟨W, W1, rfl, h1⟩
    have hl := (refreshPd_same W h1).2.1
    cases more with
    | false => injection h with h; injection h with e1 e2; subst e1; exact hl
    | true =>
      obtain ⟨⟨c2, o2⟩, h2, h⟩ := Res.bind_eq_ok.mp h
      injection h with h; injection h with e1 e2; subst e1
      exact (refreshLoop_len G.moved h2).trans hl

/-- **C46, laps**: a refresh visits every PD once, unless it stops at one whose reply is awaited -/
theorem C46_lap_partial {C : Cipher} {infos : List PdM.Info} {sk : Bool} {n : Nat} {c c' : Ctx} {ops : List CtxOp} {o : List Out} {envs : Nat → Env}
    (hb : Buses infos) (hs : setup infos sk n = .ok (some c)) (hop : NoAdd ops) (hr : ctxRun C c (ops ++ [.refresh envs]) = .ok (c', o)) :
    ∃ vs, ctxVisits C c (ops ++ [.refresh envs]) = ctxVisits C c ops ++ vs ∧
      (vs.length = infos.length ∨ ∃ v, vs.getLast? = some v ∧ v.more = false) := by
  obtain ⟨W, -, hN, -, -, -⟩ := setup_trail (C := C) hb hs hop
  clear hs
  induction ops generalizing c o with
  | nil =>
    obtain ⟨⟨c1, o1⟩, h1, -⟩ := Res.bind_eq_ok.mp hr
    refine ⟨visits C c.pds.length 0 c envs, ?_, ?_⟩
    · show visits C c.pds.length 0 c envs ++ _ = _
      rw [h1]
      show _ ++ [] = _
      rw [List.append_nil]; rfl
    · rw [← hN]; exact (refreshLoop_visits W h1).2.2
  | cons op ops ih =>
    obtain ⟨⟨c1, o1⟩, h1, h⟩ := Res.bind_eq_ok.mp hr
    obtain ⟨⟨c2, o2⟩, h2, h⟩ := Res.bind_eq_ok.mp h
    injection h with h; injection h with e1 e2; subst e1
    have hop' : NoAdd ops := fun op h => hop op (List.mem_cons_of_mem _ h)
    have W1 : Well c1 ∧ c1.pds.length = infos.length := by
      have hrun : ctxRun C c [op] = .ok (c1, o1 ++ []) := by
        show (ctxStep C c op >>= _) = _
        rw [h1]; rfl
      by_cases hr : ∃ envs, op = .refresh envs
      · obtain ⟨envs', rfl⟩ := hr
        exact ⟨(refreshLoop_visits W h1).2.1, (refreshLoop_len W h1).trans hN⟩
      · obtain ⟨W1, n, -⟩ := ctxStep_api W (hop op List.mem_cons_self) (fun envs h => hr ⟨envs, h⟩) h1
        exact ⟨W1, n.len.trans hN⟩
    obtain ⟨vs, hvs, h⟩ := ih hop' h2 W1.1 W1.2
    refine ⟨vs, ?_, h⟩
    show _ ++ _ = (_ ++ _) ++ vs
    rw [h1]
    show _ ++ ctxVisits C c1 (ops ++ [.refresh envs]) = (_ ++ ctxVisits C c1 ops) ++ vs
    rw [hvs, List.append_assoc]

/-! ### examples and witnesses -/

/-- three PDs, two of them on one bus; nobody answers; a refresh every 150 ms -/
def busy3 : List Visit1 := ctxVisits xorCipher (startCtx [onBus 1 5, onBus 2 5, onBus 3 7]) ((List.range 12).map fun k : Nat => quietAt (150 * (k : Int)))

/-- visits with six others in between are more than 200 ms apart -/
example : (busy3.map fun v => v.env.now).length = 36 ∧
    ∀ i < 29, ((busy3.map fun v => v.env.now).getD i 0) + 200 < (busy3.map fun v => v.env.now).getD (i + 7) 0 := by decide +kernel

/-- who is visited, and who is sent a command -/
example : (busy3.map fun v => (v.pos, (sent v.outs).length)).take 12 =
    [(0, 0), (1, 0), (2, 0), (0, 1), (1, 0), (2, 1), (0, 0), (1, 0), (2, 0), (0, 0), (1, 1), (2, 0)] := by decide +kernel

/-- what holds after a PD was added to two others: the numbers are 0, 1, 0 -/
structure Added (c : Ctx) : Prop where
  inv : ∀ p ∈ c.pds, Inv p
  idx : c.pds.map (·.idx) = [0, 1, 0]
  cur : c.cur = 1 ∨ c.cur = 2

theorem refreshPd_added {C : Cipher} {c c' : Ctx} {i : Nat} {env : Env} {o : List Out} {m : Bool} (A : ∀ p ∈ c.pds, Inv p) (hi : c.pds.map (·.idx) = [0, 1, 0])
    (h : refreshPd C c i env = .ok (c', o, m)) : (∀ p ∈ c'.pds, Inv p) ∧ c'.pds.map (·.idx) = [0, 1, 0] ∧ c'.cur = c.cur := by
  unfold refreshPd at h
  split at h
  · cases h
  rename_i p hp
  have I := A p (mem_of_get hp)
  have key : ∀ {q : Pd} {outs : List Out} {y : Bool}, stateUpdate C c.cb p env = .ok (q, outs, y) →
      (∀ r ∈ c.pds.set i q, Inv r) ∧ (c.pds.set i q).map (·.idx) = [0, 1, 0] := by
    intro q outs y hu
    have hup := stateUpdate_inv I.cp hu
    constructor
    · intro r hr
      rcases List.mem_or_eq_of_mem_set hr with h | h
      · exact A r h
      · rw [h]; exact I.update hup
    · rw [List.map_set, hup.place.idx, ← hi]
      apply List.ext_getElem?
      intro k
      rw [List.getElem?_set]
      split
      · rename_i hk
        subst hk
        have hlen := (List.getElem?_eq_some_iff.mp hp).1
        rw [if_pos (by simpa using hlen), List.getElem?_map, hp]; rfl
      · rfl
  split at h
  · obtain ⟨r, -, h⟩ := Res.bind_eq_ok.mp h
    cases r with
    | none => injection h with h; injection h with e1 h; subst e1; exact ⟨A, hi, rfl⟩
    | some l =>
      obtain ⟨⟨q, outs, y⟩, hu, h⟩ := Res.bind_eq_ok.mp h
      obtain ⟨k1, k2⟩ := key hu
      cases y with
      | true =>
        obtain ⟨l', -, h⟩ := Res.bind_eq_ok.mp h
        injection h with h; injection h with e1 h; subst e1
        exact ⟨k1, k2, rfl⟩
      | false => injection h with h; injection h with e1 h; subst e1; exact ⟨k1, k2, rfl⟩
  · obtain ⟨⟨q, outs, y⟩, hu, h⟩ := Res.bind_eq_ok.mp h
    obtain ⟨k1, k2⟩ := key hu
    injection h with h; injection h with e1 h; subst e1
    exact ⟨k1, k2, rfl⟩

theorem visits_added {C : Cipher} : ∀ {n k : Nat} {c : Ctx} {envs : Nat → Env}, Added c →
    (∀ v ∈ visits C n k c envs, v.pos ≠ 0) ∧ ∀ c' o, refreshLoop C n k c envs = .ok (c', o) → Added c'
  | 0, k, c, envs, A => ⟨(fun v h => by cases h), fun c' o h => by injection h with h; injection h with e1 e2; subst e1; exact A⟩
  | n + 1, k, c, envs, A => by
    unfold visits refreshLoop
    cases h1 : refreshPd C c c.cur (envs k) with
    | error e => exact ⟨(fun v h => by cases h), fun c' o h => by cases h⟩
    | ok r =>
      obtain ⟨c1, o1, more⟩ := r
      obtain ⟨k1, k2, k3⟩ := refreshPd_added A.inv A.idx h1
      have hcur : c.cur ≠ 0 := by rcases A.cur with h | h <;> rw [h] <;> decide
      have A1 : Added { c1 with cur := nextIdx c1 c1.cur } := by
        refine ⟨k1, k2, ?_⟩
        show nextIdx c1 c1.cur = 1 ∨ nextIdx c1 c1.cur = 2
        have hl : c1.pds.length = 3 := by rw [← List.length_map (f := (·.idx)), k2]; rfl
        have at' : ∀ {i : Nat} {p : Pd}, c1.pds[i]? = some p → ([0, 1, 0] : List Nat)[i]? = some p.idx := by
          intro i p hp
          rw [← k2, List.getElem?_map, hp]; rfl
        unfold nextIdx
        rw [k3, hl]
        rcases A.cur with h | h <;> rw [h]
        · rw [List.getElem?_eq_getElem (by rw [hl]; decide)]
          have := at' (List.getElem?_eq_getElem (l := c1.pds) (i := 1) (by rw [hl]; decide))
          injection this with this
          dsimp only
          rw [← this]; exact .inr rfl
        · rw [List.getElem?_eq_getElem (by rw [hl]; decide)]
          have := at' (List.getElem?_eq_getElem (l := c1.pds) (i := 2) (by rw [hl]; decide))
          injection this with this
          dsimp only
          rw [← this]; exact .inl rfl
      dsimp only
      cases more with
      | false =>
        refine ⟨fun v hv => ?_, fun c' o h => ?_⟩
        · simp at hv; subst hv; exact hcur
        · injection h with h; injection h with e1 e2; subst e1
          exact ⟨k1, k2, by rw [k3]; exact A.cur⟩
      | true =>
        obtain ⟨i1, i2⟩ := visits_added (C := C) (n := n) (k := k + 1) (envs := envs) A1
        refine ⟨fun v hv => ?_, fun c' o h => ?_⟩
        · rw [if_pos rfl] at hv
          rcases List.mem_cons.mp hv with rfl | hv
          · exact hcur
          · exact i1 v hv
        · replace h : (refreshLoop C n (k + 1) { c1 with cur := nextIdx c1 c1.cur } envs >>= fun x => Except.ok (x.1, o1 ++ x.2)) = .ok (c', o) := h
          obtain ⟨⟨c2, o2⟩, h2, h⟩ := Res.bind_eq_ok.mp h
          injection h with h; injection h with e1 e2; subst e1
          exact i2 _ _ h2

/-- the first two PDs at work for a while, then a third is added, and one refresh -/
def addedCtx (ops : List CtxOp) : Ctx :=
  match ctxRun xorCipher (startCtx [onBus 1 5, onBus 2 6]) ([quietAt 0] ++ [.add [onBus 3 7] false 4] ++ ops) with
  | .ok (c, _) => c
  | _ => startCtx []

theorem addedCtx_added : Added (addedCtx [quietAt 10]) := by
  have h : ∀ p ∈ (addedCtx [quietAt 10]).pds, p.flags.pdMode = false ∧ (p.phyState = .sendCmd ∨ p.phyState = .replyWait) ∧ p.reqRestartSc = false ∧ 0 ≤ p.seq + 1 ∧
      p.seq ≤ 3 ∧ (p.phyState = .replyWait → 0 ≤ p.seq) ∧ p.state = .init ∧ p.flags.scActive = false ∧ p.cmdId = Id.ID := by decide +kernel
  refine ⟨fun p hp => ?_, by decide +kernel, by decide +kernel⟩
  obtain ⟨h1, h2, h3, h4, h5, h6, h7, h8, h9⟩ := h p hp
  refine ⟨h1, ?_, h3, by omega, h5, h6, ?_, ?_, ?_, ?_⟩
  · rcases h2 with h | h
    · exact .inr (.inl h)
    · exact .inr (.inr (.inl h))
  · rw [h7]; intro h; cases h
  · rw [h8]; intro h; cases h
  · rw [h7]; exact fun _ => h9
  · rw [h7]; intro h; cases h

/-- **C46 fails after PDs were added at run time**: three PDs on three channels, the third one added
later.  After one more refresh the first PD is never visited again, whatever happens. -/
theorem C46_starved {C : Cipher} {envs : List (Nat → Env)} :
    ∀ v ∈ ctxVisits C (addedCtx [quietAt 10]) (envs.map .refresh), v.pos ≠ 0 := by
  have A := addedCtx_added
  revert A
  generalize addedCtx [quietAt 10] = c
  intro A
  induction envs generalizing c with
  | nil => intro v hv; cases hv
  | cons e es ih =>
    obtain ⟨h1, h2⟩ := visits_added (C := C) (n := c.pds.length) (k := 0) (envs := e) A
    intro v hv
    rw [List.map_cons] at hv
    unfold ctxVisits at hv
    rcases List.mem_append.mp hv with hv | hv
    · exact h1 v hv
    · cases h : ctxStep C c (.refresh e) with
      | error e => rw [h] at hv; cases hv
      | ok r =>
        obtain ⟨c', o⟩ := r
        rw [h] at hv
        exact ih _ (h2 c' o h) v hv

/-- the effects of a history starting with two PDs -/
def twoThen (ops : List CtxOp) : List Out :=
  match ctxRun xorCipher (startCtx [onBus 1 5, onBus 2 6]) ops with
  | .ok (_, o) => o
  | _ => []

/-- **C46 fails after PDs were added at run time**: the third PD (the only one to report its state)
goes offline, and the application is told about PD 0. -/
theorem C46_misnamed : twoThen [.callback true, .add [{ onBus 3 7 with enableNotif := true }] false 4, quietAt 0,
    .refresh fun _ => { Sample.env [] 1 with sendCap := 0 }] =
    [.send [], .send [], .event 0 (.notification .scStatus 0 0), .event 0 (.notification .pdStatus 1 0)] := by decide +kernel

end Osdp.CpM
