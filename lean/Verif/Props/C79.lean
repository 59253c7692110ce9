import Verif.Model.CpHeap
import Verif.Lemmas.CtxSetup
import Verif.Lemmas.SampleCp
import Verif.Lemmas.Trail

/-!
# C79 Adding PDs leaves the PDs already connected undisturbed
-/

namespace Osdp.CpM

/-! ### what a call does to the number of PDs -/

theorem refreshPd_length {C : Cipher} {c c' : Ctx} {i : Nat} {env : Env} {o : List Out} {m : Bool}
    (h : refreshPd C c i env = .ok (c', o, m)) : c'.pds.length = c.pds.length := by
  unfold refreshPd at h
  split at h
  · cases h
  split at h
  · obtain ⟨l, _, h⟩ := Res.bind_eq_ok.mp h
    split at h
    · injection h with h; injection h with e _; subst e; rfl
    · obtain ⟨⟨p, o1, y⟩, _, h⟩ := Res.bind_eq_ok.mp h
      dsimp only at h
      split at h
      · obtain ⟨l', _, h⟩ := Res.bind_eq_ok.mp h
        injection h with h; injection h with e _; subst e; simp
      · injection h with h; injection h with e _; subst e; simp
  · obtain ⟨⟨p, o1, y⟩, _, h⟩ := Res.bind_eq_ok.mp h
    injection h with h; injection h with e _; subst e; simp

theorem refreshLoop_length {C : Cipher} : ∀ {n k : Nat} {c c' : Ctx} {envs : Nat → Env} {o : List Out},
    refreshLoop C n k c envs = .ok (c', o) → c'.pds.length = c.pds.length
  | 0, _, _, _, _, _, h => by injection h with h; injection h with e _; subst e; rfl
  | n + 1, k, c, c', envs, o, h => by
    unfold refreshLoop at h
    obtain ⟨⟨c1, o1, m⟩, h1, h⟩ := Res.bind_eq_ok.mp h
    dsimp only at h
    have l1 := refreshPd_length h1
    split at h
    · injection h with h; injection h with e _; subst e; exact l1
    · obtain ⟨⟨c2, o2⟩, h2, h⟩ := Res.bind_eq_ok.mp h
      injection h with h; injection h with e _; subst e
      rw [refreshLoop_length h2]; exact l1

theorem ctxStep_length {C : Cipher} {c c' : Ctx} {op : CtxOp} {o : List Out} (hop : ∀ a b n, op ≠ .add a b n)
    (h : ctxStep C c op = .ok (c', o)) : c'.pds.length = c.pds.length := by
  cases op with
  | refresh envs => exact refreshLoop_length h
  | send i env cmd =>
    injection h with h; injection h with e1 _; subst e1
    unfold sendCommand
    split
    · split
      · rfl
      · simp
    · rfl
  | flush i =>
    injection h with h; injection h with e1 _; subst e1
    unfold flushCommands
    split
    · split
      · rfl
      · simp
    · rfl
  | flag i f b =>
    injection h with h; injection h with e1 _; subst e1
    unfold modifyFlag
    split
    · split
      · rfl
      · simp
    · rfl
  | fileOps i =>
    injection h with h; injection h with e1 _; subst e1
    unfold fileRegisterOps
    split
    · split
      · rfl
      · simp
    · rfl
  | callback b => injection h with h; injection h with e1 _; subst e1; rfl
  | add a b n => exact absurd rfl (hop a b n)

/-- what adding does to the values: the old PDs are where they were, with nothing changed but the mark that the channel is shared -/
theorem addPd_at {c c' : Ctx} {infos : List PdM.Info} {sk : Bool} {n : Nat} (h : addPd c infos sk n = .ok (some c')) :
    c'.pds.length = c.pds.length + infos.length ∧ c'.cb = c.cb ∧
    ∀ (i : Nat) (p : Pd), c.pds[i]? = some p → ∃ q, c'.pds[i]? = some q ∧
      q = { p with flags := { p.flags with chnShared := q.flags.chnShared } } ∧
      (q.flags.chnShared = true ↔ p.flags.chnShared = true ∨ 1 < (c'.pds.filter fun r => r.chanId = p.chanId).length) := by
  unfold addPd at h
  split at h
  · cases h
  rename_i ps hps
  have hl : ps.length = infos.length := by
    clear h
    have key : ∀ {infos : List PdM.Info} {k : Nat} {ps : List Pd}, newPds sk n k infos = some ps → ps.length = infos.length := by
      intro infos
      induction infos with
      | nil => intro k ps h; injection h with h; subst h; rfl
      | cons x xs ih =>
        intro k ps h
        unfold newPds at h
        obtain ⟨p1, h1, h⟩ := Option.bind_eq_some_iff.mp h
        obtain ⟨ps1, h2, h⟩ := Option.bind_eq_some_iff.mp h
        injection h with h; subst h
        rw [List.length_cons, List.length_cons, ih h2]
    exact key hps
  obtain ⟨c1, h1, h⟩ := Res.bind_eq_ok.mp h
  injection h with h; injection h with h; subst h
  unfold topology at h1
  split at h1
  · cases h1
  injection h1 with h1; subst h1
  refine ⟨by simp [markShared, hl], rfl, fun i p hp => ?_⟩
  have hlt : i < (markShared (c.pds ++ ps)).length := by
    have := (List.getElem?_eq_some_iff.mp hp).1
    simp [markShared]; omega
  obtain ⟨p0, h2, h3, h4⟩ := markShared_at (List.getElem?_eq_getElem hlt)
  have hp' : (c.pds ++ ps)[i]? = some p := by
    rw [List.getElem?_append_left (List.getElem?_eq_some_iff.mp hp).1]; exact hp
  rw [hp'] at h2; injection h2 with h2; subst h2
  refine ⟨_, List.getElem?_eq_getElem hlt, h3, ?_⟩
  rw [h4]
  have hc : ((markShared (c.pds ++ ps))[i]).chanId = p.chanId := by rw [h3]
  rw [hc]
  have : ((markShared (c.pds ++ ps)).filter fun r => r.chanId = p.chanId).length =
      ((c.pds ++ ps).filter fun q => q.chanId = p.chanId).length := by
    unfold markShared
    rw [List.filter_map, List.length_map]
    congr 2
    funext q
    simp only [Function.comp]
    split <;> rfl
  dsimp only
  rw [this]

/-! ### the memory of the queues -/

/-- what always holds of a heap -/
structure Heap.Wf (h : Heap) : Prop where
  length : h.pool.length = h.ctx.pds.length
  past : ∀ k ∈ h.pool, k ≤ h.live

theorem heapOf_wf (c : Ctx) : (heapOf c).Wf := ⟨by simp [heapOf], by simp [heapOf]⟩

theorem dangles_iff {h : Heap} {c : Ctx} : dangles h c = true ↔
    ∃ i < h.pool.length, h.pool[i]? ≠ some h.live ∧ queued c i ≠ queued h.ctx i := by
  unfold dangles
  simp only [List.any_eq_true, List.mem_range, decide_eq_true_eq]

/-- all a call can do to the heap -/
theorem heapStep_inv {C : Cipher} {h h' : Heap} {op : CtxOp} {o : List Out} (W : h.Wf) (hs : heapStep C h op = .ok (h', o)) :
    ctxStep C h.ctx op = .ok (h'.ctx, o) ∧ h'.Wf ∧ h.ctx.pds.length ≤ h'.ctx.pds.length ∧ h.live ≤ h'.live ∧
    (h.ctx.pds.length < h'.ctx.pds.length → h.live < h'.live) ∧
    (∀ (i k : Nat), h.pool[i]? = some k → h'.pool[i]? = some k ∧ (k < h.live → queued h'.ctx i = queued h.ctx i)) := by
  obtain ⟨⟨c, o1⟩, h1, hs⟩ := Res.bind_eq_ok.mp hs
  dsimp only at hs
  split at hs
  · cases hs
  rename_i hd
  have hq : ∀ (i k : Nat), h.pool[i]? = some k → k < h.live → queued c i = queued h.ctx i := by
    intro i k hk hlt
    refine Classical.byContradiction fun hne => hd (dangles_iff.mpr ⟨i, (List.getElem?_eq_some_iff.mp hk).1, ?_, hne⟩)
    rw [hk]; intro e; injection e with e; omega
  have hge : h.ctx.pds.length ≤ c.pds.length := by
    by_cases ha : ∃ a b n, op = .add a b n
    · obtain ⟨a, b, n, rfl⟩ := ha
      cases a with
      | nil => cases h1
      | cons x xs =>
        obtain ⟨r, hr, h1⟩ := Res.bind_eq_ok.mp h1
        cases r with
        | none => injection h1 with h1; injection h1 with e _; subst e; exact Nat.le_refl _
        | some c1 =>
          injection h1 with h1; injection h1 with e _; subst e
          rw [(addPd_at hr).1]; omega
    · exact Nat.le_of_eq (ctxStep_length (fun a b n e => ha ⟨a, b, n, e⟩) h1).symm
  split at hs
  · rename_i hl
    injection hs with hs; injection hs with e1 e2; subst e1 e2
    refine ⟨h1, ⟨by dsimp only; rw [W.length, hl], W.past⟩, hge, Nat.le_refl _, fun hlt => ?_, fun i k hk => ⟨hk, hq i k hk⟩⟩
    dsimp only at hlt; omega
  · rename_i hl
    injection hs with hs; injection hs with e1 e2; subst e1 e2
    refine ⟨h1, ⟨?_, ?_⟩, hge, by dsimp only; omega, fun _ => by dsimp only; omega, fun i k hk => ⟨?_, hq i k hk⟩⟩
    · have := W.length
      simp only [List.length_append, List.length_replicate]; omega
    · intro k hk
      rcases List.mem_append.mp hk with hk | hk
      · have := W.past k hk; dsimp only; omega
      · exact Nat.le_of_eq (List.eq_of_mem_replicate hk)
    · dsimp only
      rw [List.getElem?_append_left (List.getElem?_eq_some_iff.mp hk).1]; exact hk

theorem heapRun_inv {C : Cipher} {ops : List CtxOp} : ∀ {h h' : Heap} {o : List Out}, h.Wf → heapRun C h ops = .ok (h', o) →
    h'.Wf ∧ h.ctx.pds.length ≤ h'.ctx.pds.length ∧ h.live ≤ h'.live ∧
    ∀ (i k : Nat), h.pool[i]? = some k → h'.pool[i]? = some k ∧ (k < h.live → queued h'.ctx i = queued h.ctx i) := by
  induction ops with
  | nil =>
    intro h h' o W hr
    injection hr with hr; injection hr with e _; subst e
    exact ⟨W, Nat.le_refl _, Nat.le_refl _, fun i k hk => ⟨hk, fun _ => rfl⟩⟩
  | cons op ops ih =>
    intro h h' o W hr
    obtain ⟨⟨h1, o1⟩, hs, hr⟩ := Res.bind_eq_ok.mp hr
    obtain ⟨⟨h2, o2⟩, hr2, hr⟩ := Res.bind_eq_ok.mp hr
    injection hr with hr; injection hr with e _; subst e
    obtain ⟨_, W1, l1, v1, _, k1⟩ := heapStep_inv W hs
    obtain ⟨W2, l2, v2, k2⟩ := ih W1 hr2
    refine ⟨W2, Nat.le_trans l1 l2, Nat.le_trans v1 v2, fun i k hk => ?_⟩
    obtain ⟨a1, a2⟩ := k1 i k hk
    obtain ⟨b1, b2⟩ := k2 i k a1
    exact ⟨b1, fun hlt => (b2 (Nat.lt_of_lt_of_le hlt v1)).trans (a2 hlt)⟩

/-! ### the property -/

/-- **C79 (what is kept).**  Whatever the CP was doing when PDs are added successfully: every PD that was there is still there, in its
place, and the object is the same (keys, sequence number, state, session, what is queued, the identity and capabilities learned) but
for the mark that its channel is shared, which is raised exactly if another PD, old or new, has the same channel.  A PD alone on its
channel is the same entirely. -/
theorem C79_kept_partial {c c' : Ctx} {infos : List PdM.Info} {sk : Bool} {n : Nat} (h : addPd c infos sk n = .ok (some c'))
    {i : Nat} {p : Pd} (hp : c.pds[i]? = some p) :
    (∃ q, c'.pds[i]? = some q ∧ q = { p with flags := { p.flags with chnShared := q.flags.chnShared } } ∧
      (q.flags.chnShared = true ↔ p.flags.chnShared = true ∨ ∃ j r, j ≠ i ∧ c'.pds[j]? = some r ∧ r.chanId = p.chanId)) ∧
    ((∀ j r, j ≠ i → c'.pds[j]? = some r → r.chanId ≠ p.chanId) → c'.pds[i]? = some p) := by
  obtain ⟨_, _, k⟩ := addPd_at h
  obtain ⟨q, h1, h2, h3⟩ := k i p hp
  have hq : q.chanId = p.chanId := by rw [h2]
  have h4 : q.flags.chnShared = true ↔ p.flags.chnShared = true ∨ ∃ j r, j ≠ i ∧ c'.pds[j]? = some r ∧ r.chanId = p.chanId := by
    rw [h3]
    refine or_congr_right ⟨fun h4 => ?_, fun ⟨j, r, hj, hr, hc⟩ => ?_⟩
    · obtain ⟨a, b, x, y, hab, hx, hy, fx, fy⟩ := filter_many _ _ h4
      simp only [decide_eq_true_eq] at fx fy
      by_cases ha : a = i
      · exact ⟨b, y, by omega, hy, fy⟩
      · exact ⟨a, x, ha, hx, fx⟩
    · rcases Nat.lt_or_gt_of_ne hj with hlt | hlt
      · exact filter_two _ _ _ _ _ _ hlt hr h1 (by simpa using hc) (by simpa using hq)
      · exact filter_two _ _ _ _ _ _ hlt h1 hr (by simpa using hq) (by simpa using hc)
  refine ⟨⟨q, h1, h2, h4⟩, fun hu => ?_⟩
  rw [h1, h2]
  have : q.flags.chnShared = p.flags.chnShared := by
    cases hs : p.flags.chnShared with
    | true => exact h4.mpr (.inl hs)
    | false =>
      cases hq : q.flags.chnShared with
      | false => rfl
      | true =>
        rcases h4.mp hq with h5 | ⟨j, r, hj, hr, hc⟩
        · rw [hs] at h5; cases h5
        · exact absurd hc (hu j r hj hr)
  rw [this]

/-- **C79 (as long as none is added).**  The memory of the queues is in place: every history of calls without an addition has exactly
the effects it has in the model of the other properties, in which the queues are lists. -/
theorem C79_setup {C : Cipher} : ∀ {ops : List CtxOp} {h : Heap}, h.pool = List.replicate h.pool.length h.live → NoAdd ops →
    heapRun C h ops = (ctxRun C h.ctx ops >>= fun (c, o) => .ok ({ h with ctx := c }, o))
  | [], h, _, _ => rfl
  | op :: ops, h, hp, hn => by
    unfold heapRun ctxRun heapStep
    have hn' : NoAdd ops := fun op' h' => hn op' (List.mem_cons_of_mem _ h')
    cases hc : ctxStep C h.ctx op with
    | error e => rfl
    | ok v =>
      obtain ⟨c1, o1⟩ := v
      simp only [Res.ok_bind]
      have hd : dangles h c1 = false := by
        rw [Bool.eq_false_iff]
        intro hd
        obtain ⟨i, hi, hne, _⟩ := dangles_iff.mp hd
        apply hne
        rw [hp, List.getElem?_replicate, if_pos hi]
      have hl := ctxStep_length (hn op (List.mem_cons_self ..)) hc
      rw [hd, if_neg (by simp), if_pos hl, Res.ok_bind]
      dsimp only
      rw [C79_setup (h := { h with ctx := c1 }) hp hn']
      cases ctxRun C c1 ops with
      | error e => rfl
      | ok v => rfl

/-- **C79 fails: what is queued for the PDs that were there is lost.**  A CP is set up with any PDs, is used in any way, and further PDs
are added successfully.  From then on, whatever else happens:

* nothing is ever again taken from the queue of an earlier PD, so no command that was waiting is ever sent (without an access to freed
  memory);
* every command for it that `osdp_cp_send_command` has room for is written to freed memory;
* flushing its queue, when not empty, reads freed memory. -/
theorem C79_lost {C : Cipher} {infos xs : List PdM.Info} {sk sk' : Bool} {n n' : Nat} {c : Ctx} {ops1 ops2 : List CtxOp}
    {h1 h2 h3 : Heap} {o1 o2 o3 : List Out} (_hs : setup infos sk n = .ok (some c)) (hr1 : heapRun C (heapOf c) ops1 = .ok (h1, o1))
    (ha : heapStep C h1 (.add xs sk' n') = .ok (h2, o2)) (hadd : h1.ctx.pds.length < h2.ctx.pds.length)
    (hr2 : heapRun C h2 ops2 = .ok (h3, o3)) {i : Nat} (hi : i < h1.ctx.pds.length) :
    queued h3.ctx i = queued h1.ctx i ∧
    (∀ env cmd, (∀ f, cmd ≠ .fileTx f) → (sendCommand h3.ctx i env cmd).2.2 = 0 → heapStep C h3 (.send i env cmd) = .error .oobWrite) ∧
    (0 < (flushCommands h3.ctx i).2 → heapStep C h3 (.flush i) = .error .oobWrite) := by
  obtain ⟨W1, _, _, _⟩ := heapRun_inv (heapOf_wf c) hr1
  obtain ⟨_, W2, l2, _, v2, k2⟩ := heapStep_inv W1 ha
  obtain ⟨W3, l3, v3, k3⟩ := heapRun_inv W2 hr2
  have hi1 : i < h1.pool.length := by rw [W1.length]; exact hi
  obtain ⟨k, hk⟩ : ∃ k, h1.pool[i]? = some k := ⟨_, List.getElem?_eq_getElem hi1⟩
  have hle : k ≤ h1.live := W1.past k (List.mem_of_getElem? hk)
  have hlt := v2 hadd
  obtain ⟨a1, _⟩ := k2 i k hk
  obtain ⟨b1, b2⟩ := k3 i k a1
  have hq2 : queued h2.ctx i = queued h1.ctx i := by
    obtain ⟨c1, _, hs⟩ := Res.bind_eq_ok.mp ha
    obtain ⟨hc, _⟩ := heapStep_inv W1 ha
    cases xs with
    | nil => cases hc
    | cons x xs =>
      obtain ⟨r, hr, hc⟩ := Res.bind_eq_ok.mp hc
      cases r with
      | none =>
        injection hc with hc; injection hc with e _
        rw [← e] at hadd; exact absurd hadd (Nat.lt_irrefl _)
      | some c2 =>
        injection hc with hc; injection hc with e _
        rw [← e]
        unfold queued
        rw [List.getElem?_eq_getElem hi]
        obtain ⟨q, e1, e2, _⟩ := (addPd_at hr).2.2 i _ (List.getElem?_eq_getElem hi)
        rw [e1, e2]; rfl
  have hb : h3.pool[i]? ≠ some h3.live := by rw [b1]; intro e; injection e with e; omega
  have hi3 : i < h3.pool.length := (List.getElem?_eq_some_iff.mp b1).1
  have hi3' : i < h3.ctx.pds.length := by rw [← W3.length]; exact hi3
  have fault : ∀ {op : CtxOp} {c' : Ctx} {o : List Out}, ctxStep C h3.ctx op = .ok (c', o) → queued c' i ≠ queued h3.ctx i →
      heapStep C h3 op = .error .oobWrite := by
    intro op c' o hc hne
    unfold heapStep
    rw [hc, Res.ok_bind]
    dsimp only
    rw [dangles_iff.mpr ⟨i, hi3, hb, hne⟩, if_pos rfl]
  refine ⟨(b2 (Nat.lt_of_le_of_lt hle hlt)).trans hq2, fun env cmd hf hz => ?_, fun hz => ?_⟩
  · refine fault (op := .send i env cmd) rfl ?_
    revert hz
    unfold sendCommand queued
    rw [if_pos (by omega), Int.toNat_natCast, List.getElem?_eq_getElem hi3']
    dsimp only
    intro hz
    rw [List.getElem?_set_self hi3']
    simp only [Option.map_some]
    revert hz
    generalize h3.ctx.pds[i] = p
    unfold sendPd
    have grows : ∀ (l : List Cmd), l ++ [cmd] ≠ l := by
      intro l e
      have := congrArg List.length e
      simp at this
    split
    · intro hz; cases hz
    · by_cases hroom : p.cmdQueue.length < p.poolCap
      · rw [if_pos hroom]
        cases cmd with
        | fileTx f => exact absurd rfl (hf f)
        | keyset k =>
          dsimp only
          split
          · intro hz; cases hz
          · intro _ e; injection e with e; exact grows _ e
        | _ => intro _ e; injection e with e; exact grows _ e
      · rw [if_neg hroom]
        cases cmd with
        | fileTx f => exact absurd rfl (hf f)
        | keyset k =>
          dsimp only
          split <;> (intro hz; cases hz)
        | _ => intro hz; cases hz
  · refine fault (op := .flush i) rfl ?_
    revert hz
    unfold flushCommands queued
    rw [if_pos (by omega), Int.toNat_natCast, List.getElem?_eq_getElem hi3']
    dsimp only
    intro hz
    rw [List.getElem?_set_self hi3']
    simp only [Option.map_some]
    intro e; injection e with e
    rw [← e] at hz; simp at hz

/-! ### examples and witnesses -/

/-- the first PD of a CP: asked for its identity and its capabilities, it answers and is online (in the clear) -/
def loneGreets : List CtxOp := (Sample.meets [] ++ [Sample.hears []]).map fun op => match op with
  | .update _ env => .refresh fun _ => env
  | _ => .flush 0

/-- the sample PD without a key, alone on channel 5 -/
def lonePd : PdM.Info := { Sample.pdInfo with scbk := none, chanId := 5 }

/-- a CP for it -/
def loneCtx : Ctx := { pds := (newPd lonePd 0 false 4).toList, lock := none, numChannels := 1, cur := 0, cb := false }

/-- set up, then online with one command waiting, then a PD added; `true` for a fault, else the state of the first PD, what waits for it
and the pools -/
def loneRun (ops : List CtxOp) : Bool × Option (CpState × Nat) × List Nat :=
  match heapRun Aes.aes (heapOf loneCtx) ops with
  | .ok (h, _) => (false, (h.ctx.pds.head?).map (fun p => (p.state, p.cmdQueue.length)), h.pool)
  | .error _ => (true, none, [])

/-- a command for the first PD -/
def loneBeep : CtxOp := .send 0 { now := 0 } (.buzzer ⟨0, 2, 1, 1, 1⟩)

/-- another PD, on a channel of its own -/
def loneAdd : CtxOp := .add [{ Sample.pdInfo with address := 7, chanId := 6 }] false 4

/-- some time later -/
def loneLater : CtxOp := .refresh fun _ => { now := 60 }

/-- **A concrete case.**  A PD is online and a command waits for it.  Left alone, the next refresh sends it; with another PD added on
another channel in between, the next refresh reads freed memory.  So does a command accepted after the addition. -/
theorem C79_dangling :
    loneRun (loneGreets ++ [loneBeep]) = (false, some (.online, 1), [1]) ∧
    loneRun (loneGreets ++ [loneBeep, loneLater]) = (false, some (.online, 0), [1]) ∧
    loneRun (loneGreets ++ [loneBeep, loneAdd]) = (false, some (.online, 1), [1, 2]) ∧
    loneRun (loneGreets ++ [loneBeep, loneAdd, loneLater]) = (true, none, []) ∧
    loneRun (loneGreets ++ [loneAdd, loneLater]) = (false, some (.online, 0), [1, 2]) ∧
    loneRun (loneGreets ++ [loneAdd, loneLater, loneBeep]) = (true, none, []) := by
  refine ⟨?_, ?_, ?_, ?_, ?_, ?_⟩ <;> decide +kernel

/-- a heap and the result of a history on it -/
theorem heap_ran {C : Cipher} {h : Heap} {ops : List CtxOp} (P : Heap → Bool)
    (hr : (match heapRun C h ops with | .ok (q, _) => P q | .error _ => false) = true) : ∃ q o, heapRun C h ops = .ok (q, o) ∧ P q = true := by
  split at hr
  · rename_i q o e; exact ⟨q, o, e, hr⟩
  · cases hr

theorem heap_split {C : Cipher} {a b : List CtxOp} : ∀ {h h' : Heap} {o : List Out}, heapRun C h (a ++ b) = .ok (h', o) →
    ∃ h1 o1 o2, heapRun C h a = .ok (h1, o1) ∧ heapRun C h1 b = .ok (h', o2) := by
  induction a with
  | nil => intro h h' o hr; exact ⟨h, [], o, rfl, hr⟩
  | cons op ops ih =>
    intro h h' o hr
    obtain ⟨⟨p1, o1⟩, h1, hr⟩ := Res.bind_eq_ok.mp hr
    obtain ⟨⟨p2, o2⟩, h2, hr⟩ := Res.bind_eq_ok.mp hr
    injection hr with hr; injection hr with e1 _; subst e1
    obtain ⟨s, a1, a2, h3, h4⟩ := ih h2
    exact ⟨s, _, a2, Res.bind_eq_ok.mpr ⟨_, h1, Res.bind_eq_ok.mpr ⟨_, h3, rfl⟩⟩, h4⟩

/-- the hypotheses of `C79_lost`, with a command accepted at the end -/
example : ∃ c h1 h2 h3 o1 o2 o3, setup [lonePd] false 4 = .ok (some c) ∧ heapRun Aes.aes (heapOf c) (loneGreets ++ [loneBeep]) = .ok (h1, o1) ∧
    heapRun Aes.aes h1 [loneAdd] = .ok (h2, o2) ∧ h1.ctx.pds.length < h2.ctx.pds.length ∧
    heapRun Aes.aes h2 [.callback true] = .ok (h3, o3) ∧ (sendCommand h3.ctx 0 { now := 0 } (.buzzer ⟨0, 2, 1, 1, 1⟩)).2.2 = 0 ∧
    queued h3.ctx 0 = some [.buzzer ⟨0, 2, 1, 1, 1⟩] := by
  obtain ⟨h3, o, hr, hP⟩ := heap_ran (C := Aes.aes) (h := heapOf loneCtx) (ops := loneGreets ++ [loneBeep] ++ ([loneAdd] ++ [.callback true]))
    (fun h => h.ctx.pds.length = 2 ∧ (sendCommand h.ctx 0 { now := 0 } (.buzzer ⟨0, 2, 1, 1, 1⟩)).2.2 = 0 ∧
      queued h.ctx 0 = some [.buzzer ⟨0, 2, 1, 1, 1⟩]) (by decide +kernel)
  obtain ⟨h1, o1, _, r1, hr⟩ := heap_split hr
  obtain ⟨h2, o2, o3, r2, r3⟩ := heap_split hr
  obtain ⟨h1', o1', r1', e1⟩ := heap_ran (C := Aes.aes) (h := heapOf loneCtx) (ops := loneGreets ++ [loneBeep]) (fun h => h.ctx.pds.length = 1) (by decide +kernel)
  rw [r1] at r1'; injection r1' with e; injection e with e _; subst e
  simp only [decide_eq_true_eq] at hP e1
  obtain ⟨e3, e4, e5⟩ := hP
  have e2 : h2.ctx.pds.length = 2 := by
    obtain ⟨h2', o2', r2', e2⟩ := heap_ran (C := Aes.aes) (h := heapOf loneCtx) (ops := loneGreets ++ [loneBeep] ++ [loneAdd]) (fun h => h.ctx.pds.length = 2) (by decide +kernel)
    obtain ⟨s, _, _, q1, q2⟩ := heap_split r2'
    obtain rfl : h1 = s := (Prod.mk.inj (Except.ok.inj (r1.symm.trans q1))).1
    obtain rfl : h2 = h2' := (Prod.mk.inj (Except.ok.inj (r2.symm.trans q2))).1
    simpa using e2
  refine ⟨loneCtx, h1, h2, h3, o1, o2, o3, rfl, r1, r2, by omega, r3, e4, e5⟩

/-- the hypotheses of `C79_kept_partial` and of `C79_setup` -/
example : ∃ c', addPd loneCtx [{ Sample.pdInfo with chanId := 6 }] false 4 = .ok (some c') ∧ (loneCtx.pds[0]?).isSome = true ∧
    c'.pds.map (·.chanId) = [5, 6] ∧ (heapOf loneCtx).pool = List.replicate (heapOf loneCtx).pool.length (heapOf loneCtx).live :=
  ⟨_, rfl, by decide, by decide, by decide⟩

end Osdp.CpM
