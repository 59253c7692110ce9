import Verif.Spec.Ledger

/-!
# Helper lemmas: resources taken and given back
-/

namespace Osdp.Life
open Osdp.Spec.Ledger

/-- From holding `A` (and anything else) to holding `B` (and that). -/
def Moves (ev : List Ev) (A B : List Nat) : Prop :=
  ∀ K L : List Nat, L.Perm (A ++ K) → ∃ L', held L ev = some L' ∧ L'.Perm (B ++ K)

theorem Moves.nil (A : List Nat) : Moves [] A A := fun _ L h => ⟨L, rfl, h⟩

theorem held_append : ∀ (L : List Nat) (a b : List Ev),
    held L (a ++ b) = (held L a).bind fun L' => held L' b
  | _, [], _ => rfl
  | L, .got x :: a, b => held_append (x :: L) a b
  | L, .uses x :: a, b => by
    simp only [List.cons_append, held]; split
    · exact held_append L a b
    · rfl
  | L, .gave x :: a, b => by
    simp only [List.cons_append, held]; split
    · exact held_append _ a b
    · rfl

theorem Moves.append {a b : List Ev} {A B C : List Nat} (h : Moves a A B) (h' : Moves b B C) :
    Moves (a ++ b) A C := by
  intro K L hL
  obtain ⟨L₁, e₁, p₁⟩ := h K L hL
  obtain ⟨L₂, e₂, p₂⟩ := h' K L₁ p₁
  exact ⟨L₂, by rw [held_append, e₁]; exact e₂, p₂⟩

theorem Moves.perm {a : List Ev} {A B A' B' : List Nat} (h : Moves a A B) (hA : A'.Perm A)
    (hB : B.Perm B') : Moves a A' B' := by
  intro K L hL
  obtain ⟨L₁, e₁, p₁⟩ := h K L (hL.trans (hA.append_right K))
  exact ⟨L₁, e₁, p₁.trans (hB.append_right K)⟩

theorem Moves.frame {a : List Ev} {A B : List Nat} (h : Moves a A B) (F : List Nat) :
    Moves a (A ++ F) (B ++ F) := by
  intro K L hL
  rw [List.append_assoc] at hL ⊢
  exact h (F ++ K) L hL

theorem Moves.got (b : Nat) (A : List Nat) : Moves [.got b] A (b :: A) :=
  fun _ L h => ⟨b :: L, rfl, h.cons b⟩

theorem Moves.uses {b : Nat} {A : List Nat} (hb : b ∈ A) : Moves [.uses b] A A := by
  intro K L h
  have : b ∈ L := h.symm.subset (List.mem_append_left _ hb)
  exact ⟨L, by simp [held, this], h⟩

theorem Moves.gave {b : Nat} {A B : List Nat} (h : A.Perm (b :: B)) : Moves [.gave b] A B := by
  intro K L hL
  have hp : L.Perm (b :: (B ++ K)) := hL.trans (h.append_right K)
  have hb : b ∈ L := hp.symm.subset (List.mem_cons_self ..)
  refine ⟨L.erase b, by simp [held, hb], ?_⟩
  have := hp.erase b
  simpa using this

theorem Moves.took (b : Option Nat) (A : List Nat) : Moves (took b) A (b.toList ++ A) := by
  cases b
  · exact .nil A
  · exact .got _ A

theorem Moves.touch {b : Option Nat} {A : List Nat} (h : ∀ x ∈ b.toList, x ∈ A) :
    Moves (touch b) A A := by
  cases b
  · exact .nil A
  · exact .uses (h _ (by simp))

theorem Moves.safeFree {b : Option Nat} {A B : List Nat} (h : A.Perm (b.toList ++ B)) :
    Moves (safeFree b) A B := by
  cases b
  · exact (Moves.nil A).perm (.refl _) h
  · exact .gave h

/-- what a PD object holds -/
def pdOwn (p : PdObj) : List Nat := p.cap.toList ++ p.file.toList ++ p.opened.toList

def pdsOwn (ps : List PdObj) : List Nat := ps.flatMap pdOwn

/-- what a context holds -/
def owned (c : Ctx) : List Nat := c.blk :: (c.arr.toList ++ c.lock.toList ++ pdsOwn c.pds)

structure Good (c : Ctx) : Prop where
  empty : c.pds = [] → c.arr = none
  some : c.pds ≠ [] → ∃ a, c.arr = some a
  cap : ∀ p ∈ c.pds, p.capture = p.cap.isSome

/-- a permutation up to counting -/
macro "counted" : tactic => `(tactic| (refine List.perm_iff_count.mpr fun x => ?_
                                       simp only [List.count_append, List.count_cons, List.count_nil]
                                       omega))

theorem pdsOwn_append (a b : List PdObj) : pdsOwn (a ++ b) = pdsOwn a ++ pdsOwn b :=
  List.flatMap_append

theorem makePds_moves (E : Env) : ∀ (is : List Info) (t : Nat),
    ∃ r t' ev X, makePds E t is = (r, t', ev) ∧ Moves ev [] X ∧
      (∀ ps, r = some ps → X = pdsOwn ps ∧ (is ≠ [] → ps ≠ []) ∧ (∀ p ∈ ps, p.opened = none) ∧
        (((∀ n, E.writable n = true) ∨ ∀ i ∈ is, i.capture = false) → ∀ p ∈ ps, p.capture = p.cap.isSome)) ∧
      ((∀ i ∈ is, i.capture = false) → X = [])
  | [], t => ⟨some [], t, [], [], rfl, .nil _, by rintro ps ⟨⟩; simp [pdsOwn], by simp⟩
  | i :: is, t => by
    unfold makePds
    split
    · exact ⟨none, t, [], [], rfl, .nil _, by rintro _ ⟨⟩, fun _ => rfl⟩
    · obtain ⟨r, t', ev, X, e, m, h, h'⟩ := makePds_moves E is (t + 1)
      rw [e]
      refine ⟨_, _, _, (if i.capture then captureInit E t else none).toList ++ X, rfl,
        (Moves.took _ []).append ((m.frame _).perm (by simp) List.perm_append_comm), ?_, ?_⟩
      · intro ps hps
        cases r with
        | none => cases hps
        | some qs =>
          cases hps
          obtain ⟨hX, hne, ho, hc⟩ := h qs rfl
          refine ⟨by rw [hX]; simp [pdsOwn, pdOwn], by simp, ?_, ?_⟩
          · intro p hp
            rcases List.mem_cons.mp hp with rfl | hp
            · rfl
            · exact ho p hp
          · intro hw p hp
            rcases List.mem_cons.mp hp with rfl | hp
            · dsimp only
              rcases hw with hw | hw
              · cases hi : i.capture <;> simp [captureInit, hw]
              · simp [hw i (List.mem_cons_self ..)]
            · exact hc (hw.imp id fun h j hj => h j (List.mem_cons_of_mem _ hj)) p hp
      · intro hq
        simp [hq i (List.mem_cons_self ..), h' (fun j hj => hq j (List.mem_cons_of_mem _ hj))]

theorem topology_moves (E : Env) (hs : ∀ n, E.sets n = true → n ≤ pdMax) (t : Nat) (ps : List PdObj)
    (lock : Option Nat) :
    ∃ r t' ev, topology E t ps lock = .ok (r, t', ev) ∧
      match r with
      | none => Moves ev lock.toList lock.toList
      | some l => Moves ev lock.toList l.toList := by
  unfold topology
  split
  · exact ⟨_, _, _, rfl, .nil _⟩
  · rename_i h
    rw [if_neg (by have := hs ps.length (by simpa using h); omega)]
    split
    · cases calloc E t with
      | none => exact ⟨_, _, _, rfl, .nil _⟩
      | some b =>
        exact ⟨_, _, _, rfl, (Moves.got b _).append (Moves.safeFree (B := [b]) (by
          simpa using List.perm_append_comm (l₁ := [b]) (l₂ := lock.toList)))⟩
    · exact ⟨_, _, _, rfl, .safeFree (by simp)⟩

theorem addPds_moves (E : Env) (hs : ∀ n, E.sets n = true → n ≤ pdMax) (t : Nat) {c : Ctx} (hc : Good c)
    {is : List Info} (hne : is ≠ [])
    (hw : (∀ n, E.writable n = true) ∨ ∀ i ∈ is, i.capture = false) :
    ∃ r c' t' ev X, addPds E t c is = .ok (r, c', t', ev) ∧ Moves ev (owned c) (owned c' ++ X) ∧ Good c' ∧
      (r = true ∨ (∀ i ∈ is, i.capture = false) → X = []) ∧
      (∀ (i : Nat) (p : PdObj), c'.pds[i]? = some p → p.opened ≠ none → c.pds[i]? = some p) := by
  unfold addPds
  rw [if_neg hne]
  cases calloc E t with
  | none => exact ⟨_, _, _, _, [], rfl, by simpa using Moves.nil _, hc, fun _ => rfl, fun _ _ h _ => h⟩
  | some a =>
    have hold : (if c.pds = [] then none else c.arr) = c.arr := by
      split
      · rename_i h; exact (hc.empty h).symm
      · rfl
    dsimp only
    rw [hold]
    obtain ⟨r, t', ev, X, e, m, h, h'⟩ := makePds_moves E is (t + 1)
    rw [e]
    have start : Moves (Ev.got a :: touch c.arr ++ ev) (owned c) (a :: owned c ++ X) := by
      refine Moves.append (a := Ev.got a :: touch c.arr) (B := a :: owned c) ?_ ?_
      · exact (Moves.got a _).append (Moves.touch fun x hx => by simp [owned, List.mem_append.mpr (.inl hx)])
      · exact (m.frame (a :: owned c)).perm (by simp) List.perm_append_comm
    cases r with
    | none =>
      refine ⟨_, _, _, _, X, rfl, start.append (.gave (by simp)), hc, ?_, fun _ _ h _ => h⟩
      rintro (h | h)
      · cases h
      · exact h' h
    | some ps =>
      obtain ⟨hX, hpne, ho, hcap⟩ := h ps rfl
      obtain ⟨l, t'', ev', e', m'⟩ := topology_moves E hs t' (c.pds ++ ps) c.lock
      dsimp only
      rw [e']
      simp only [Res.ok_bind]
      cases l with
      | none =>
        refine ⟨_, _, _, _, X, rfl, (start.append ((m'.frame (a :: c.blk :: (c.arr.toList ++ pdsOwn c.pds) ++ X)).perm ?_ ?_)).append
          (B := a :: (owned c ++ X)) (.gave (.refl _)), hc, ?_, fun _ _ h _ => h⟩
        · unfold owned; counted
        · unfold owned; counted
        · rintro (h | h)
          · cases h
          · exact h' h
      | some l =>
        refine ⟨_, _, _, _, [], rfl, (start.append ((m'.frame (a :: c.blk :: (c.arr.toList ++ pdsOwn c.pds) ++ X)).perm ?_ (.refl _))).append
          (.safeFree ?_), ?_, fun _ => rfl, ?_⟩
        · unfold owned; counted
        · unfold owned; rw [pdsOwn_append, hX]; simp only [Option.toList_some]; counted
        · refine ⟨fun h => absurd h (by simp [hpne hne]), fun _ => ⟨a, rfl⟩, fun p hp => ?_⟩
          rcases List.mem_append.mp hp with hp | hp
          · exact hc.cap p hp
          · exact hcap hw p hp
        · intro i p hi hp
          dsimp only at hi
          rw [List.getElem?_append] at hi
          split at hi
          · exact hi
          · exact absurd (ho p (List.mem_of_getElem? hi)) hp

/-- files still open -/
def openFiles (ps : List PdObj) : List Nat := ps.flatMap (·.opened.toList)

theorem finish_moves {p : PdObj} (hp : p.capture = p.cap.isSome) :
    ∃ ev, endCapture p = .ok ev ∧
      ∀ A B : List Nat, A.Perm (p.cap.toList ++ B) → Moves ev A B := by
  cases hk : p.cap with
  | none =>
    rw [hk] at hp
    exact ⟨[], by simp [endCapture, hp], fun A B h => (Moves.nil A).perm (.refl _) h⟩
  | some k =>
    rw [hk] at hp
    exact ⟨[.gave k], by simp [endCapture, hp, captureFinish, hk], fun A B h => .gave h⟩

theorem closePds_moves (arr : Option Nat) : ∀ ps : List PdObj, (∀ p ∈ ps, p.capture = p.cap.isSome) →
    ∃ ev, closePds arr ps = .ok ev ∧ Moves ev (arr.toList ++ pdsOwn ps) (arr.toList ++ openFiles ps)
  | [], _ => ⟨[], rfl, .nil _⟩
  | p :: ps, h => by
    obtain ⟨ev, e, m⟩ := finish_moves (h p (List.mem_cons_self ..))
    obtain ⟨ev', e', m'⟩ := closePds_moves arr ps fun q hq => h q (List.mem_cons_of_mem _ hq)
    unfold closePds
    rw [e, e']
    have hown : pdsOwn (p :: ps) = p.cap.toList ++ p.file.toList ++ p.opened.toList ++ pdsOwn ps := rfl
    have hop : openFiles (p :: ps) = p.opened.toList ++ openFiles ps := rfl
    rw [hown, hop]
    refine ⟨_, rfl, (((Moves.touch fun x hx => List.mem_append_left _ hx).append
      (m _ (p.file.toList ++ (arr.toList ++ p.opened.toList ++ pdsOwn ps)) (by counted))).append (.safeFree (.refl _))).append
        ((m'.frame p.opened.toList).perm (by counted) (by counted))⟩

theorem cpTeardown_moves {c : Ctx} (hc : Good c) :
    ∃ ev, cpTeardown c = .ok ev ∧ Moves ev (owned c) (openFiles c.pds) := by
  obtain ⟨ev, e, m⟩ := closePds_moves c.arr c.pds hc.cap
  unfold cpTeardown
  rw [e]
  refine ⟨_, rfl, ?_⟩
  unfold owned
  refine ((Moves.append (a := .uses c.blk :: ev) (B := c.arr.toList ++ (c.lock.toList ++ (c.blk :: openFiles c.pds))) ?_
    (.safeFree (.refl _))).append (.safeFree (.refl _))).append (.gave (.refl _))
  exact (Moves.uses (List.mem_cons_self ..)).append ((m.frame (c.blk :: c.lock.toList)).perm (by counted) (by counted))

theorem pdTeardown_moves {c : Ctx} (hc : Good c) {p : PdObj} (hp : c.pds = [p]) (hl : c.lock = none) :
    ∃ ev, pdTeardown c = .ok ev ∧ Moves ev (owned c) (openFiles c.pds) := by
  obtain ⟨a, ha⟩ := hc.some (by simp [hp])
  obtain ⟨ev, e, m⟩ := finish_moves (hc.cap p (by simp [hp]))
  unfold pdTeardown owned
  rw [ha, hp, hl]
  dsimp only
  rw [e]
  have hown : pdsOwn [p] = p.cap.toList ++ p.file.toList ++ p.opened.toList := by simp [pdsOwn, pdOwn]
  have hop : openFiles [p] = p.opened.toList := by simp [openFiles]
  rw [hown, hop]
  simp only [Option.toList_some, Option.toList_none]
  refine ⟨_, rfl, ?_⟩
  refine (Moves.append (a := .uses a :: ev) (B := p.file.toList ++ (a :: c.blk :: p.opened.toList)) ?_
    (.safeFree (.refl _))).append ((Moves.gave (.refl _)).append (.gave (.refl _)))
  exact (Moves.uses (by simp)).append (m _ _ (by counted))

/-- the PDs with a file open are among these -/
def OpenIn (c : Ctx) (O : List Nat) : Prop :=
  ∀ (i : Nat) (p : PdObj), c.pds[i]? = some p → p.opened ≠ none → i ∈ O

theorem pdsOwn_set : ∀ {ps : List PdObj} {i : Nat} {p : PdObj} (_ : ps[i]? = some p),
    ∃ R, (pdsOwn ps).Perm (pdOwn p ++ R) ∧ ∀ q, (pdsOwn (ps.set i q)).Perm (pdOwn q ++ R)
  | p' :: ps, 0, p, h => by
    cases h
    exact ⟨pdsOwn ps, .refl _, fun q => .refl _⟩
  | p' :: ps, i + 1, p, h => by
    obtain ⟨R, h₁, h₂⟩ := pdsOwn_set (ps := ps) (i := i) h
    refine ⟨pdOwn p' ++ R, ?_, fun q => ?_⟩
    · show (pdOwn p' ++ pdsOwn ps).Perm _
      have := h₁.append_left (pdOwn p')
      exact this.trans (by counted)
    · show (pdOwn p' ++ pdsOwn (ps.set i q)).Perm _
      have := (h₂ q).append_left (pdOwn p')
      exact this.trans (by counted)

/-- changing one PD object -/
theorem put_moves {c : Ctx} (hc : Good c) {i : Nat} {p : PdObj} (hi : c.pds[i]? = some p) {q : PdObj}
    (hq : q.capture = q.cap.isSome) :
    Good (put c i q) ∧ ∃ F, (owned c).Perm (pdOwn p ++ F) ∧ (owned (put c i q)).Perm (pdOwn q ++ F) ∧
      c.blk ∈ F ∧ ∀ a ∈ c.arr.toList, a ∈ F := by
  refine ⟨⟨fun h => hc.empty (by simpa [put] using h), fun h => hc.some (by simpa [put] using h), fun r hr => ?_⟩, ?_⟩
  · rcases List.mem_or_eq_of_mem_set hr with hr | rfl
    · exact hc.cap r hr
    · exact hq
  · obtain ⟨R, h₁, h₂⟩ := pdsOwn_set hi
    refine ⟨c.blk :: (c.arr.toList ++ c.lock.toList ++ R), ?_, ?_, by simp, fun a ha => by simp at ha; simp [ha]⟩
    · exact ((h₁.append_left (c.arr.toList ++ c.lock.toList)).cons c.blk).trans (by counted)
    · exact (((h₂ q).append_left (c.arr.toList ++ c.lock.toList)).cons c.blk).trans (by counted)

theorem openIn_put {c : Ctx} {O O' : List Nat} (h : OpenIn c O) {i : Nat} {q : PdObj}
    (hO : ∀ j ∈ O, j ≠ i → j ∈ O') (hq : q.opened ≠ none → i ∈ O') : OpenIn (put c i q) O' := by
  intro j p hj ho
  unfold put at hj
  by_cases e : i = j
  · subst e
    dsimp only at hj
    rw [List.getElem?_set_self'] at hj
    cases hx : c.pds[i]? with
    | none => rw [hx] at hj; cases hj
    | some x => rw [hx] at hj; cases hj; exact hq ho
  · dsimp only at hj
    rw [List.getElem?_set_ne e] at hj
    exact hO j (h j p hj ho) (Ne.symm e)

/-- one step of `tidy` -/
def after (O : List Nat) : Call → List Nat
  | .opens i => i :: O
  | .closes i => O.filter (· ≠ i)
  | _ => O

def minds (O : List Nat) : Call → Prop
  | .register i => i ∉ O
  | _ => True

theorem tidy_cons {O : List Nat} {k : Call} {ks : List Call} (h : tidy O (k :: ks)) :
    minds O k ∧ tidy (after O k) ks := by
  cases k
  · exact ⟨trivial, h⟩
  · exact h
  · exact ⟨trivial, h⟩
  · exact ⟨trivial, h⟩
  · exact ⟨trivial, h⟩

theorem call_moves (E : Env) (hs : ∀ n, E.sets n = true → n ≤ pdMax) (t : Nat) {c : Ctx} (hc : Good c)
    {k : Call} (hne : k ≠ .add [])
    (hw : (∀ n, E.writable n = true) ∨ ∀ is, k = .add is → ∀ i ∈ is, i.capture = false) :
    ∃ r c' t' ev X, call E t c k = .ok (r, c', t', ev) ∧ Moves ev (owned c) (owned c' ++ X) ∧ Good c' ∧
      (∀ O, OpenIn c O → minds O k →
        (∀ is, k = .add is → r = true ∨ ∀ i ∈ is, i.capture = false) →
        X = [] ∧ OpenIn c' (after O k)) ∧
      ((∀ is, k ≠ .add is) → c'.lock = c.lock ∧ c'.pds.length = c.pds.length) := by
  have harr : ∀ x ∈ c.arr.toList, x ∈ owned c := fun x hx => by simp at hx; simp [owned, hx]
  have hblk : Moves [.uses c.blk] (owned c) (owned c) := .uses (by simp [owned])
  have htouch : Moves (touch c.arr) (owned c) (owned c) := .touch harr
  have skip : ∀ ev, Moves ev (owned c) (owned c) → Moves ev (owned c) (owned c ++ []) := fun ev h => by simpa using h
  cases k with
  | add is =>
    obtain ⟨r, c', t', ev, X, e, m, g, hX, ho⟩ := addPds_moves E hs t hc (is := is) (by rintro rfl; exact hne rfl)
      (hw.imp id fun h => h is rfl)
    exact ⟨r, c', t', ev, X, e, m, g, fun O hO _ hh => ⟨hX (hh is rfl), fun i p hi hp => hO i p (ho i p hi hp) hp⟩,
      fun h => absurd rfl (h is)⟩
  | register i =>
    unfold call; dsimp only
    cases hi : c.pds[i]? with
    | none => exact ⟨_, _, _, _, [], rfl, skip _ hblk, hc, fun O hO _ _ => ⟨rfl, hO⟩, fun _ => ⟨rfl, rfl⟩⟩
    | some p =>
      have hp := hc.cap p (List.mem_of_getElem? hi)
      have close : ∀ O, OpenIn c O → minds O (.register i) → p.opened.toList = [] := fun O hO hm => by
        cases hq : p.opened with
        | none => rfl
        | some o => exact absurd (hO i p hi (by simp [hq])) hm
      dsimp only
      cases hf : p.file with
      | some f =>
        obtain ⟨g, F, h₁, h₂, hb, ha⟩ := put_moves hc hi (q := { p with opened := none }) hp
        dsimp only
        rw [← hf]
        refine ⟨_, _, _, _, p.opened.toList, rfl, (hblk.append htouch).append (.append (.uses (h₁.symm.subset (by simp [pdOwn, hf]))) ?_ (b := [])),
          g, fun O hO hm _ => ⟨close O hO hm, openIn_put hO (fun j hj _ => hj) (by simp)⟩, fun _ => ⟨rfl, by simp [put]⟩⟩
        refine (Moves.nil _).perm h₁ ((h₂.append_right _).trans ?_).symm
        unfold pdOwn; dsimp only; simp only [Option.toList_none]; counted
      | none =>
        cases calloc E t with
        | none => exact ⟨_, _, _, _, [], rfl, skip _ (hblk.append htouch), hc, fun O hO _ _ => ⟨rfl, hO⟩, fun _ => ⟨rfl, rfl⟩⟩
        | some f =>
          obtain ⟨g, F, h₁, h₂, hb, ha⟩ := put_moves hc hi (q := { p with file := some f, opened := none }) hp
          refine ⟨_, _, _, _, p.opened.toList, rfl, (hblk.append htouch).append ((Moves.got f _).perm (.refl _) ?_),
            g, fun O hO hm _ => ⟨close O hO hm, openIn_put hO (fun j hj _ => hj) (by simp)⟩, fun _ => ⟨rfl, by simp [put]⟩⟩
          refine (h₁.cons f).trans ((h₂.append_right _).trans ?_).symm
          unfold pdOwn; dsimp only; simp only [Option.toList_none, Option.toList_some, hf]; counted
  | traffic i =>
    unfold call; dsimp only
    cases hi : c.pds[i]? with
    | none => exact ⟨_, _, _, _, [], rfl, skip _ (.nil _), hc, fun O hO _ _ => ⟨rfl, hO⟩, fun _ => ⟨rfl, rfl⟩⟩
    | some p =>
      have hp := hc.cap p (List.mem_of_getElem? hi)
      dsimp only
      cases hk : p.cap with
      | none =>
        rw [if_neg (by simp [hp, hk])]
        exact ⟨_, _, _, _, [], rfl, skip _ htouch, hc, fun O hO _ _ => ⟨rfl, hO⟩, fun _ => ⟨rfl, rfl⟩⟩
      | some k =>
        rw [if_pos (by simp [hp, hk])]
        refine ⟨_, _, _, _, [], rfl, skip _ (htouch.append (.uses ?_)), hc, fun O hO _ _ => ⟨rfl, hO⟩, fun _ => ⟨rfl, rfl⟩⟩
        obtain ⟨R, h₁, -⟩ := pdsOwn_set hi
        have := h₁.symm.subset (List.mem_append_left R (show k ∈ pdOwn p by simp [pdOwn, hk]))
        simp [owned, this]
  | opens i =>
    unfold call; dsimp only
    have stay : ∀ O, OpenIn c O → OpenIn c (after O (.opens i)) := fun O hO j p hj ho => List.mem_cons_of_mem _ (hO j p hj ho)
    cases hi : c.pds[i]? with
    | none => exact ⟨_, _, _, _, [], rfl, skip _ (.nil _), hc, fun O hO _ _ => ⟨rfl, stay O hO⟩, fun _ => ⟨rfl, rfl⟩⟩
    | some p =>
      have hp := hc.cap p (List.mem_of_getElem? hi)
      dsimp only
      cases hf : p.file with
      | none => exact ⟨_, _, _, _, [], rfl, skip _ (.nil _), hc, fun O hO _ _ => ⟨rfl, stay O hO⟩, fun _ => ⟨rfl, rfl⟩⟩
      | some f =>
        cases ho : p.opened with
        | some o => exact ⟨_, _, _, _, [], rfl, skip _ (.nil _), hc, fun O hO _ _ => ⟨rfl, stay O hO⟩, fun _ => ⟨rfl, rfl⟩⟩
        | none =>
          obtain ⟨g, F, h₁, h₂, hb, ha⟩ := put_moves hc hi (q := { p with opened := some t }) hp
          dsimp only
          rw [← hf]
          refine ⟨_, _, _, _, [], rfl, htouch.append (.append (a := [.uses f]) (.uses (h₁.symm.subset (by simp [pdOwn, hf]))) ((Moves.got t _).perm (.refl _) ?_)),
            g, fun O hO hm _ => ⟨rfl, openIn_put hO (fun j hj _ => List.mem_cons_of_mem _ hj) (fun _ => List.mem_cons_self ..)⟩, fun _ => ⟨rfl, by simp [put]⟩⟩
          refine (h₁.cons t).trans ((h₂.append_right _).trans ?_).symm
          unfold pdOwn; dsimp only; simp only [Option.toList_none, Option.toList_some, ho]; counted
  | closes i =>
    unfold call; dsimp only
    cases hi : c.pds[i]? with
    | none =>
      refine ⟨_, _, _, _, [], rfl, skip _ (.nil _), hc, fun O hO _ _ => ⟨rfl, fun j q hj ho => ?_⟩, fun _ => ⟨rfl, rfl⟩⟩
      have : j ≠ i := by rintro rfl; rw [hi] at hj; cases hj
      simpa [after, this] using hO j q hj ho
    | some p =>
      have hp := hc.cap p (List.mem_of_getElem? hi)
      dsimp only
      cases ho : p.opened with
      | none =>
        refine ⟨_, _, _, _, [], rfl, skip _ (.nil _), hc, fun O hO _ _ => ⟨rfl, fun j q hj hq => ?_⟩, fun _ => ⟨rfl, rfl⟩⟩
        have : j ≠ i := by rintro rfl; rw [hi] at hj; cases hj; exact hq ho
        simpa [after, this] using hO j q hj hq
      | some o =>
        obtain ⟨g, F, h₁, h₂, hb, ha⟩ := put_moves hc hi (q := { p with opened := none }) hp
        refine ⟨_, _, _, _, [], rfl, (htouch.append (Moves.touch fun x hx => h₁.symm.subset ?_)).append (.gave ?_),
          g, fun O hO hm _ => ⟨rfl, openIn_put hO (fun j hj hne => by simp [after, hj, hne]) (by simp)⟩, fun _ => ⟨rfl, by simp [put]⟩⟩
        · exact List.mem_append_left _ (by simp only [pdOwn, List.mem_append]; exact .inl (.inr hx))
        · refine h₁.trans (((h₂.append_right _).cons o).trans ?_).symm
          unfold pdOwn; dsimp only; simp only [Option.toList_none, Option.toList_some, ho]; counted

theorem calls_moves (E : Env) (hs : ∀ n, E.sets n = true → n ≤ pdMax) : ∀ (ks : List Call) (t : Nat) {c : Ctx},
    Good c → Call.add [] ∉ ks → (∀ n, E.writable n = true) ∨ ¬ captures ks →
    ∃ rs c' t' ev X, calls E t c ks = .ok (rs, c', t', ev) ∧ Moves ev (owned c) (owned c' ++ X) ∧ Good c' ∧
      (∀ O, OpenIn c O → tidy O ks → heeded ks rs → X = [] ∧ openFiles c'.pds = []) ∧
      ((∀ is, Call.add is ∉ ks) → c'.lock = c.lock ∧ c'.pds.length = c.pds.length)
  | [], t, c, hc, _, _ => by
    refine ⟨[], c, t, [], [], rfl, by simpa using Moves.nil _, hc, fun O hO ht _ => ⟨rfl, ?_⟩, fun _ => ⟨rfl, rfl⟩⟩
    have hO0 : O = [] := ht
    subst hO0
    have : ∀ p ∈ c.pds, p.opened.toList = [] := fun p hp => by
      obtain ⟨i, hi⟩ := List.getElem?_of_mem hp
      cases hq : p.opened with
      | none => rfl
      | some o => exact absurd (hO i p hi (by simp [hq])) (by simp)
    simpa [openFiles] using this
  | k :: ks, t, c, hc, hne, hw => by
    have quiet : ¬ captures (k :: ks) → ∀ is, k = .add is → ∀ i ∈ is, i.capture = false := by
      rintro h is rfl i hi
      cases hb : i.capture with
      | false => rfl
      | true => exact absurd ⟨is, List.mem_cons_self .., i, hi, hb⟩ h
    obtain ⟨r, c₁, t₁, ev, X, e, m, g, hX, hl⟩ := call_moves E hs t hc (k := k) (fun h => hne (h ▸ List.mem_cons_self ..))
      (hw.imp id quiet)
    obtain ⟨rs, c₂, t₂, ev', X', e', m', g', hX', hl'⟩ := calls_moves E hs ks t₁ g (fun h => hne (List.mem_cons_of_mem _ h))
      (hw.imp id fun h ⟨is, h₁, h₂⟩ => h ⟨is, List.mem_cons_of_mem _ h₁, h₂⟩)
    refine ⟨r :: rs, c₂, t₂, ev ++ ev', X' ++ X, by unfold calls; rw [e, Res.ok_bind]; dsimp only; rw [e']; rfl, ?_, g', ?_, ?_⟩
    · exact m.append ((m'.frame X).perm (.refl _) (by rw [List.append_assoc]))
    · intro O hO ht hh
      obtain ⟨h₁, h₂⟩ := tidy_cons ht
      obtain ⟨x, o⟩ := hX O hO h₁ fun is hk => by
        by_cases hcap : ∃ i ∈ is, i.capture = true
        · exact .inl (hh (k, r) (List.mem_cons_self ..) is hk hcap)
        · refine .inr fun i hi => ?_
          cases hb : i.capture with
          | false => rfl
          | true => exact absurd ⟨i, hi, hb⟩ hcap
      obtain ⟨x', o'⟩ := hX' _ o h₂ fun y hy => hh y (List.mem_cons_of_mem _ hy)
      exact ⟨by rw [x, x']; rfl, o'⟩
    · intro hn
      obtain ⟨a, b⟩ := hl fun is h => hn is (h ▸ List.mem_cons_self ..)
      obtain ⟨a', b'⟩ := hl' fun is h => hn is (List.mem_cons_of_mem _ h)
      exact ⟨a'.trans a, b'.trans b⟩

theorem cpSetup_moves (E : Env) (hs : ∀ n, E.sets n = true → n ≤ pdMax) (t : Nat) (is : List Info)
    (hw : (∀ n, E.writable n = true) ∨ ∀ i ∈ is, i.capture = false) :
    ∃ r t' ev X, cpSetup E t is = .ok (r, t', ev) ∧
      (r.isSome = true ∨ (∀ i ∈ is, i.capture = false) → X = []) ∧
      match r with
      | none => Moves ev [] X
      | some c => Moves ev [] (owned c ++ X) ∧ Good c ∧ OpenIn c [] := by
  unfold cpSetup
  cases calloc E t with
  | none => exact ⟨_, _, _, [], rfl, fun _ => rfl, .nil _⟩
  | some b =>
    dsimp only
    have hg : Good { blk := b } := ⟨fun _ => rfl, fun h => absurd rfl h, fun p hp => by cases hp⟩
    split
    · exact ⟨_, _, _, [], rfl, fun _ => rfl, .got b [], hg, fun i p hi => by simp at hi⟩
    · rename_i hne
      obtain ⟨r, c, t', ev, X, e, m, g, hX, ho⟩ := addPds_moves E hs (t + 1) hg hne hw
      rw [e, Res.ok_bind]
      dsimp only
      have hm : Moves (.got b :: ev) [] (owned c ++ X) := (Moves.got b []).append m
      cases r with
      | true =>
        exact ⟨_, _, _, X, rfl, fun _ => hX (.inl rfl), hm, g, fun i p hi hp => by have := ho i p hi hp; simp at this⟩
      | false =>
        obtain ⟨ev', e', m'⟩ := cpTeardown_moves g
        rw [if_neg (by simp), e', Res.ok_bind]
        refine ⟨_, _, _, X, rfl, fun h => hX (h.imp (by simp) id), ?_⟩
        have hop : openFiles c.pds = [] := by
          have : ∀ p ∈ c.pds, p.opened.toList = [] := fun p hp => by
            obtain ⟨i, hi⟩ := List.getElem?_of_mem hp
            cases hq : p.opened with
            | none => rfl
            | some o => have := ho i p hi (by simp [hq]); simp at this
          simpa [openFiles] using this
        have := m'.frame X
        rw [hop] at this
        exact hm.append this

end Osdp.Life
