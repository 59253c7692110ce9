import Verif.Lemmas.Life

/-!
# C82: a context gives back, once, everything it has taken

In full: whatever allocation fails, whatever the records say and whatever is done with the context,
no call aborts or touches what it does not hold; a setup that fails holds nothing afterwards, a call
that fails holds what it held before, and after teardown nothing is held.

The code keeps this where no capture and no open file is involved (`C82_partial`, `C82_pd_partial`).
It does not keep it in general:

* a PD that is to capture packets and whose setup is refused makes `osdp_pd_setup` abort
  (`C82_refused`), as does a second allocation that fails (`C82_nomem`);
* a capture that could not be begun makes the first packet or the teardown abort (`C82_unwritable`);
* captures begun for PDs that are then refused are never ended (`C82_leak`);
* a file that a transfer has open is closed neither by teardown nor by new file operations
  (`C82_open`).
-/

namespace Osdp.Life
open Osdp.Spec.Ledger

/-- What is missing to the full property is in the hypotheses: captures can be begun or are not asked
for (`hw`), whatever asked for one is accepted (`ok`, `heeded`), and the transfers have closed their
files (`tidy`).  Even without the last two nothing is used or freed that is not held.  `hs` is what the
absent `disjoint_set_make` has to provide, `hne` what `osdp_cp_add_pd` asks of its caller.  `K` is what
the rest of the program holds. -/
theorem C82_partial (E : Env) (hs : ∀ n, E.sets n = true → n ≤ pdMax) (t : Nat) (is : List Info)
    (ks : List Call) (hne : Call.add [] ∉ ks)
    (hw : (∀ n, E.writable n = true) ∨ ¬ captures (.add is :: ks)) :
    ∃ ok rs t' ev, cpLife E t is ks = .ok (ok, rs, t', ev) ∧
      ∀ K, ∃ L, held K ev = some L ∧
        (heeded (.add is :: ks) (ok :: rs) → tidy [] ks → L.Perm K) := by
  have quiet : ¬ captures (.add is :: ks) → ∀ i ∈ is, i.capture = false := fun h i hi => by
    cases hb : i.capture with
    | false => rfl
    | true => exact absurd ⟨is, List.mem_cons_self .., i, hi, hb⟩ h
  have nothing : ∀ {ok rs} (_ : heeded (.add is :: ks) (ok :: rs)), ok = true ∨ ∀ i ∈ is, i.capture = false := by
    intro ok rs h
    by_cases hc : ∃ i ∈ is, i.capture = true
    · exact .inl (h (.add is, ok) (List.mem_cons_self ..) is rfl hc)
    · refine .inr fun i hi => ?_
      cases hb : i.capture with
      | false => rfl
      | true => exact absurd ⟨i, hi, hb⟩ hc
  unfold cpLife life
  obtain ⟨r, t₁, ev, X, e, hX, h⟩ := cpSetup_moves E hs t is (hw.imp id quiet)
  rw [e, Res.ok_bind]
  cases r with
  | none =>
    refine ⟨_, _, _, _, rfl, fun K => ?_⟩
    obtain ⟨L, hL, p⟩ := h K K (.refl _)
    refine ⟨L, hL, fun hh _ => ?_⟩
    rw [hX (nothing hh)] at p
    exact p
  | some c =>
    obtain ⟨m, g, o⟩ := h
    obtain ⟨rs, c', t₂, ev', X', e', m', g', hX', -⟩ := calls_moves E hs ks t₁ g hne
      (hw.imp id fun h ⟨is, h₁, h₂⟩ => h ⟨is, List.mem_cons_of_mem _ h₁, h₂⟩)
    obtain ⟨ev'', e'', m''⟩ := cpTeardown_moves g'
    dsimp only
    rw [e', Res.ok_bind]
    dsimp only
    rw [e'', Res.ok_bind]
    refine ⟨_, _, _, _, rfl, fun K => ?_⟩
    obtain ⟨L, hL, p⟩ := (m.append (m'.frame X)).append ((m''.frame X').frame X) K K (.refl _)
    refine ⟨L, hL, fun hh ht => ?_⟩
    obtain ⟨x', o'⟩ := hX' [] o ht fun y hy => hh y (List.mem_cons_of_mem _ hy)
    rw [x', o', hX (.inl rfl)] at p
    exact p

/-- The same for a PD: here a refused record must not ask for a capture (`hr`) and the allocation of
the PD object must not be the one that fails (`hm`). -/
theorem C82_pd_partial (E : Env) (hs : ∀ n, E.sets n = true → n ≤ pdMax) (t : Nat) (i : Info)
    (ks : List Call) (hne : ∀ is, Call.add is ∉ ks)
    (hw : (∀ n, E.writable n = true) ∨ i.capture = false)
    (hr : i.enforce = true → i.scbk = false → i.capture = false)
    (hm : E.ok t = true → E.ok (t + 1) = true) :
    ∃ ok rs t' ev, pdLife E t i ks = .ok (ok, rs, t', ev) ∧
      ∀ K, ∃ L, held K ev = some L ∧ (tidy [] ks → L.Perm K) := by
  unfold pdLife life pdSetup
  by_cases h₀ : E.ok t = true
  · have h₁ := hm h₀
    rw [show calloc E t = some t by simp [calloc, h₀], show calloc E (t + 1) = some (t + 1) by simp [calloc, h₁]]
    dsimp only
    split
    · rename_i hrf
      have hc : i.capture = false := by
        simp only [Bool.and_eq_true, Bool.not_eq_true'] at hrf
        exact hr hrf.2 hrf.1
      simp only [pdTeardown, endCapture, hc, Bool.false_eq_true, if_false, Res.ok_bind]
      refine ⟨_, _, _, _, rfl, fun K => ⟨K, ?_, fun _ => .refl _⟩⟩
      simp [held, safeFree]
    · simp only [Res.ok_bind]
      have g : Good { blk := t, arr := some (t + 1), pds := [{ capture := i.capture, channel := i.channel, cap := if i.capture then captureInit E (t + 2) else none }] } := by
        refine ⟨fun h => (by cases h), fun _ => ⟨_, rfl⟩, fun p hp => ?_⟩
        rcases List.mem_singleton.mp hp with rfl
        rcases hw with hw | hw
        · cases hi : i.capture <;> simp [captureInit, hw]
        · simp [hw]
      have m : Moves (.got t :: .got (t + 1) :: took (if i.capture then captureInit E (t + 2) else none)) []
          (owned { blk := t, arr := some (t + 1), pds := [{ capture := i.capture, channel := i.channel, cap := if i.capture then captureInit E (t + 2) else none }] }) := by
        refine ((Moves.got t []).append ((Moves.got (t + 1) _).append (Moves.took _ _))).perm (.refl _) ?_
        unfold owned
        simp only [pdsOwn, pdOwn, List.flatMap_cons, List.flatMap_nil, Option.toList_some, Option.toList_none]
        counted
      obtain ⟨rs, c', t₂, ev', X', e', m', g', hX', hl⟩ := calls_moves E hs ks (t + 3) g (hne [])
        (.inr fun ⟨is, h, _⟩ => hne is h)
      obtain ⟨hlock, hlen⟩ := hl hne
      obtain ⟨p, hp⟩ := List.length_eq_one_iff.mp hlen
      obtain ⟨ev'', e'', m''⟩ := pdTeardown_moves g' hp hlock
      rw [e', Res.ok_bind]
      dsimp only
      rw [e'', Res.ok_bind]
      refine ⟨_, _, _, _, rfl, fun K => ?_⟩
      obtain ⟨L, hL, p⟩ := (m.append m').append (m''.frame X') K K (.refl _)
      refine ⟨L, hL, fun ht => ?_⟩
      obtain ⟨x', o'⟩ := hX' [] (fun j q hj hq => by
        rcases j with _ | j
        · cases hj; exact absurd rfl hq
        · simp at hj) ht (fun y hy is hk => absurd (hk ▸ (List.of_mem_zip hy).1) (hne is))
      rw [x', o'] at p
      exact p
  · rw [show calloc E t = none by simp [calloc, h₀]]
    exact ⟨_, _, _, _, rfl, fun K => ⟨K, rfl, fun _ => .refl _⟩⟩

/-- Every PD that is to capture, must be secure and is given no key aborts the program that sets it
up, where NULL is promised (include/osdp.h:941-942). -/
theorem C82_refused (E : Env) (t : Nat) (i : Info) (ks : List Call) (h₀ : E.ok t = true)
    (h₁ : E.ok (t + 1) = true) (hc : i.capture = true) (he : i.enforce = true) (hk : i.scbk = false) :
    pdLife E t i ks = .error .assertFail := by
  unfold pdLife life pdSetup
  rw [show calloc E t = some t by simp [calloc, h₀], show calloc E (t + 1) = some (t + 1) by simp [calloc, h₁]]
  simp [hk, he, hc, pdTeardown, endCapture, captureFinish]

/-- So does one for which there is memory for the context but not for the PD object. -/
theorem C82_nomem (E : Env) (t : Nat) (i : Info) (ks : List Call) (h₀ : E.ok t = true)
    (h₁ : E.ok (t + 1) = false) : pdLife E t i ks = .error .nullDeref := by
  unfold pdLife life pdSetup
  rw [show calloc E t = some t by simp [calloc, h₀], show calloc E (t + 1) = none by simp [calloc, h₁]]
  rfl

/-- everything succeeds, but capture files are written only if `w` says so -/
def plenty (w : Bool) : Env := { ok := fun _ => true, writable := fun _ => w, sets := fun n => n ≤ 126 }

/-- A capture file that cannot be written: setup succeeds, and the first packet or, without any, the
teardown aborts. -/
theorem C82_unwritable :
    (pdSetup (plenty false) 0 { capture := true }).map (·.1.isSome) = .ok true ∧
    pdLife (plenty false) 0 { capture := true } [] = .error .assertFail ∧
    pdLife (plenty false) 0 { capture := true } [.traffic 0] = .error .assertFail ∧
    cpLife (plenty false) 0 [{ capture := true }] [] = .error .assertFail ∧
    cpLife (plenty false) 0 [{}] [.add [{ capture := true }], .traffic 1] = .error .assertFail := by
  refine ⟨?_, ?_, ?_, ?_, ?_⟩ <;> decide +kernel

/-- what is held at the end of a life that nothing was held before -/
def leftOver (r : Res (Bool × List Bool × Nat × List Ev)) : Res (Bool × List Bool × Option (List Nat)) :=
  r.map fun x => (x.1, x.2.1, held [] x.2.2.2)

/-- The second record is refused; the capture begun for the first is still there after the setup has
returned NULL, and after the teardown of a context to which they were to be added. -/
theorem C82_leak :
    leftOver (cpLife (plenty true) 0 [{ capture := true }, { enforce := true }] []) = .ok (false, [], some [2]) ∧
    leftOver (cpLife (plenty true) 0 [{}] [.add [{ capture := true }, { enforce := true }]]) =
      .ok (true, [false], some [4]) := by
  decide +kernel

/-- A file is still open after a teardown in the middle of a transfer, and after one that follows new
file operations. -/
theorem C82_open :
    leftOver (cpLife (plenty true) 0 [{}] [.register 0, .opens 0]) = .ok (true, [true, true], some [4]) ∧
    leftOver (cpLife (plenty true) 0 [{}] [.register 0, .opens 0, .register 0, .closes 0]) =
      .ok (true, [true, true, true, false], some [4]) ∧
    leftOver (pdLife (plenty true) 0 {} [.register 0, .opens 0]) = .ok (true, [true, true], some [4]) := by
  refine ⟨?_, ?_, ?_⟩ <;> decide +kernel

/-- The hypotheses are met by a life in which two PDs share a channel, one of them captures, files are
sent, more PDs come and some are refused; everything is back at the end. -/
example :
    let is : List Info := [{ capture := true, scbk := true, enforce := true }, {}]
    let ks : List Call := [.register 1, .opens 1, .traffic 0, .add [{ channel := 7 }, { enforce := true }],
      .closes 1, .add [{ channel := 7 }], .register 2, .opens 1, .traffic 2, .closes 1]
    (∀ n, (plenty true).sets n = true → n ≤ pdMax) ∧ Call.add [] ∉ ks ∧ tidy [] ks ∧
    leftOver (cpLife (plenty true) 0 is ks) =
      .ok (true, [true, true, true, false, true, true, true, true, true, true], some []) := by
  refine ⟨fun n h => by simpa [plenty, pdMax] using h, ?_, ?_, ?_⟩ <;> decide +kernel

/-- Only the seventh attempt fails: adding a PD to a shared channel is refused for want of memory for
the locks; the ones there stay. -/
example :
    leftOver (cpLife { plenty true with ok := fun n => n != 7 } 0 [{}, {}] [.add [{}], .register 2, .register 1]) =
      .ok (true, [false, false, true], some []) := by
  decide +kernel

example : leftOver (pdLife (plenty true) 0 { capture := true } [.register 0, .traffic 0, .opens 0, .closes 0]) =
    .ok (true, [true, true, true, true], some []) := by
  decide +kernel

end Osdp.Life
