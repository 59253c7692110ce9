import Verif.Lemmas.Trail
import Verif.Props.C15
import Verif.Lemmas.Sample

/-!
# C45: on a shared channel no command is sent while another PD's reply is awaited

A history is any sequence of API calls after `osdp_cp_setup`; its visits are the visits of its
refreshes, one after the other.  Positions are those in the list given to `osdp_cp_setup`.
-/

namespace Osdp.CpM

open Spec.Wire (sent)

/-- While a command is awaited and nothing but silence (or part of a packet) is met for at most
200 ms, the reply stays awaited. -/
theorem awaiting_kept {C : Cipher} {c : Ctx} {b d : List Visit1} {w : Visit1} {i : Nat} {t : Int} (T : Trail C c (b ++ w :: d)) (h : Awaiting c i t)
    (hb : ∀ u ∈ b, u.pos = i → ¬ HeardFrom u ∧ ¬ t + 200 < u.env.now) : Awaiting w.before i t := by
  refine T.keeps (P := fun c _ => Awaiting c i t) (K := fun u => u.pos = i → ¬ HeardFrom u ∧ ¬ t + 200 < u.env.now) h hb ?_ ?_
  · rintro c c' vs n - ⟨p, hp, hw, ht⟩
    obtain ⟨q, hq, ha⟩ := n.pds i p hp
    exact ⟨q, hq, by rw [ha.same.1]; exact hw, by rw [ha.same.2.1]; exact ht⟩
  · intro v vs G hk ha
    have hm : Awaiting v.after i t := by
      by_cases hi : i = v.pos
      · subst hi
        obtain ⟨h1, h2⟩ := hk rfl
        rcases (G.awaits ha).2 with ⟨h, -⟩ | h | h
        · exact h
        · exact absurd h h1
        · exact absurd h h2
      · obtain ⟨p, hp, h⟩ := ha
        exact ⟨p, (G.other hi).trans hp, h⟩
    obtain ⟨p, hp, h⟩ := hm
    exact ⟨p, by rw [(moved_pds _ _).1]; exact hp, h⟩

/-- the channel of a position does not change -/
theorem visit_chan {C : Cipher} {infos : List PdM.Info} {c : Ctx} {a d : List Visit1} {w : Visit1} (T : Trail C c (a ++ w :: d))
    (hc : ∀ (i : Nat) (p : Pd), c.pds[i]? = some p → ∃ x : PdM.Info, infos[i]? = some x ∧ p.chanId = x.chanId) :
    ∀ (i : Nat) (p : Pd), w.before.pds[i]? = some p → ∃ x : PdM.Info, infos[i]? = some x ∧ p.chanId = x.chanId := by
  refine T.keeps (P := fun c _ => ∀ (i : Nat) (p : Pd), c.pds[i]? = some p → ∃ x : PdM.Info, infos[i]? = some x ∧ p.chanId = x.chanId)
    (K := fun _ => True) hc (fun _ _ => trivial) ?_ ?_
  · intro c c' vs n _ h i q hq
    obtain ⟨p, hp, ha⟩ := n.back hq
    rw [ha.same.2.2.1]
    exact h i p hp
  · intro v vs G _ h i q hq
    rw [(moved_pds _ _).1] at hq
    by_cases hi : i = v.pos
    · subst hi
      obtain ⟨p, hp, hv⟩ := G.cases
      rcases hv with ⟨-, he, -⟩ | ⟨q', y, -, hu, I, hq', -⟩
      · rw [he] at hq; exact h _ _ hq
      · rw [hq] at hq'; injection hq' with hq'; subst hq'
        rw [(stateUpdate_inv I.cp hu).place.chanId]
        exact h _ _ hp
    · rw [G.other hi] at hq
      exact h _ _ hq

/-- the same at the end of a history -/
theorem ctxRun_chan {C : Cipher} {infos : List PdM.Info} {c c' : Ctx} {ops : List CtxOp} {o : List Out} (W : Well c) (hop : NoAdd ops)
    (h : ctxRun C c ops = .ok (c', o))
    (hc : ∀ (i : Nat) (p : Pd), c.pds[i]? = some p → ∃ x : PdM.Info, infos[i]? = some x ∧ p.chanId = x.chanId) :
    ∀ (i : Nat) (p : Pd), c'.pds[i]? = some p → ∃ x : PdM.Info, infos[i]? = some x ∧ p.chanId = x.chanId := by
  have loop : ∀ {n k : Nat} {c c' : Ctx} {envs : Nat → Env} {o : List Out}, Well c → refreshLoop C n k c envs = .ok (c', o) →
      (∀ (i : Nat) (p : Pd), c.pds[i]? = some p → ∃ x : PdM.Info, infos[i]? = some x ∧ p.chanId = x.chanId) →
      ∀ (i : Nat) (p : Pd), c'.pds[i]? = some p → ∃ x : PdM.Info, infos[i]? = some x ∧ p.chanId = x.chanId := by
    intro n
    induction n with
    | zero => intro k c c' envs o W h hc; injection h with h; injection h with e1 e2; subst e1; exact hc
    | succ n ih =>
      intro k c c' envs o W h hc
      unfold refreshLoop at h
      obtain ⟨⟨c1, o1, more⟩, h1, h⟩ := Res.bind_eq_ok.mp h
      obtain ⟨p, hp, hv, W1⟩ := refreshPd_visited W h1
      have G : Good C ⟨c.cur, envs k, c, c1, o1, more⟩ := ⟨W, W1, rfl, h1⟩
      have hc1 : ∀ (i : Nat) (p : Pd), c1.pds[i]? = some p → ∃ x : PdM.Info, infos[i]? = some x ∧ p.chanId = x.chanId := by
        intro i q hq
        by_cases hi : i = c.cur
        · subst hi
          obtain ⟨p', hp', hv'⟩ := G.cases
          rcases hv' with ⟨-, he, -⟩ | ⟨q', y, -, hu, I, hq', -⟩
          · dsimp only at he; rw [he] at hq; exact hc _ _ hq
          · dsimp only at hq'
            rw [hq] at hq'; injection hq' with hq'; subst hq'
            rw [(stateUpdate_inv I.cp hu).place.chanId]
            exact hc _ _ hp'
        · have := G.other (i := i) hi
          dsimp only at this
          rw [this] at hq
          exact hc _ _ hq
      cases more with
      | false => injection h with h; injection h with e1 e2; subst e1; exact hc1
      | true =>
        obtain ⟨⟨c2, o2⟩, h2, h⟩ := Res.bind_eq_ok.mp h
        injection h with h; injection h with e1 e2; subst e1
        exact ih G.moved h2 hc1
  induction ops generalizing c o with
  | nil => injection h with h; injection h with e1 e2; subst e1; exact hc
  | cons op ops ih =>
    obtain ⟨⟨c1, o1⟩, h1, h⟩ := Res.bind_eq_ok.mp h
    obtain ⟨⟨c2, o2⟩, h2, h⟩ := Res.bind_eq_ok.mp h
    injection h with h; injection h with e1 e2; subst e1
    have hop' : NoAdd ops := fun op h => hop op (List.mem_cons_of_mem _ h)
    by_cases hr : ∃ envs, op = .refresh envs
    · obtain ⟨envs, rfl⟩ := hr
      exact ih (refreshLoop_visits W h1).2.1 hop' h2 (loop W h1 hc)
    · obtain ⟨W1, n, -⟩ := ctxStep_api W (hop op List.mem_cons_self) (fun envs h => hr ⟨envs, h⟩) h1
      refine ih W1 hop' h2 fun i q hq => ?_
      obtain ⟨p, hp, ha⟩ := n.back hq
      rw [ha.same.2.2.1]
      exact hc i p hp

/-- **C45**: for every topology and every history of API calls.  When a command went out to the PD
at position `v.pos` and later one to another PD on the same channel, then in between the first PD
was visited again and either a packet had come in or more than 200 ms had passed. -/
theorem C45_partial {C : Cipher} {infos : List PdM.Info} {sk : Bool} {n : Nat} {c : Ctx} {ops : List CtxOp} {a b d : List Visit1} {v w : Visit1}
    {x y : PdM.Info} (hb : Buses infos) (hs : setup infos sk n = .ok (some c)) (hop : NoAdd ops)
    (htr : ctxVisits C c ops = a ++ v :: (b ++ w :: d))
    (hv : sent v.outs ≠ []) (hcap : 256 ≤ v.env.sendCap) (hw : sent w.outs ≠ [])
    (hx : infos[v.pos]? = some x) (hy : infos[w.pos]? = some y) (hne : v.pos ≠ w.pos) (hch : x.chanId = y.chanId) :
    ∃ u ∈ b, u.pos = v.pos ∧ (HeardFrom u ∨ v.env.now + 200 < u.env.now) := by
  refine Classical.byContradiction fun hn => ?_
  obtain ⟨W, hchan, -⟩ := setup_well hb hs
  have T := ctxVisits_trail (C := C) W hop
  rw [htr] at T
  obtain ⟨Gv, Tv⟩ := T.drop
  obtain ⟨Gw, -⟩ := Tv.drop
  have haw := (Gv.sends hv).2 hcap
  have haw' : Awaiting (moved v.after v.more) v.pos v.env.now := by
    obtain ⟨p, hp, h⟩ := haw
    exact ⟨p, by rw [(moved_pds _ _).1]; exact hp, h⟩
  have hk := awaiting_kept Tv haw' (fun u hu hp => by
    constructor
    · exact fun h => hn ⟨u, hu, hp, .inl h⟩
    · exact fun h => hn ⟨u, hu, hp, .inr h⟩)
  obtain ⟨p, hp, hpw, -⟩ := hk
  have hch' := visit_chan (w := w) (a := a ++ v :: b) (d := d) (by rw [List.append_assoc]; exact T) hchan
  obtain ⟨q, hq, -⟩ := Gw.cases
  refine (Gw.sends hw).1 q hq ⟨v.pos, p, ⟨Ne.symm hne, hq, hp⟩, ?_, hpw⟩
  obtain ⟨x', h1, h2⟩ := hch' _ _ hp
  obtain ⟨y', h3, h4⟩ := hch' _ _ hq
  rw [hx] at h1; injection h1 with h1; subst h1
  rw [hy] at h3; injection h3 with h3; subst h3
  rw [h2, h4]; exact hch.symm

/-- **C45**: at no point of a history are two PDs on one channel waited for -/
theorem C45_one {C : Cipher} {infos : List PdM.Info} {sk : Bool} {n : Nat} {c c' : Ctx} {ops : List CtxOp} {o : List Out} {i j : Nat} {t t' : Int}
    {x y : PdM.Info} (hb : Buses infos) (hs : setup infos sk n = .ok (some c)) (hop : NoAdd ops) (hr : ctxRun C c ops = .ok (c', o))
    (hx : infos[i]? = some x) (hy : infos[j]? = some y) (hne : i ≠ j) (hch : x.chanId = y.chanId) : ¬ (Awaiting c' i t ∧ Awaiting c' j t') := by
  rintro ⟨⟨p, hp, hpw, -⟩, ⟨q, hq, hqw, -⟩⟩
  obtain ⟨W, hchan, -⟩ := setup_well hb hs
  have W' := (ctxVisits_sent W hop hr).2
  refine W'.excl i j p q ⟨hne, hp, hq⟩ ?_ hpw hqw
  obtain ⟨x', h1, h2⟩ := ctxRun_chan W hop hr hchan _ _ hp
  obtain ⟨y', h3, h4⟩ := ctxRun_chan W hop hr hchan _ _ hq
  rw [hx] at h1; injection h1 with h1; subst h1
  rw [hy] at h3; injection h3 with h3; subst h3
  rw [h2, h4]; exact hch

/-! ### examples and witnesses -/

/-- a PD on a channel -/
def onBus (a ch : Int) : PdM.Info := { Sample.pdInfo with address := a, chanId := ch }

/-- a refresh at some time, nothing being received -/
def quietAt (t : Int) : CtxOp := .refresh fun _ => Sample.env [] t

def startCtx (infos : List PdM.Info) : Ctx :=
  match CpM.setup infos false 4 with
  | .ok (some c) => c
  | _ => { pds := [], lock := none, numChannels := 0, cur := 0, cb := false }

/-- per visit: position, time, number of packets sent, and who is waited for afterwards -/
def busLog (infos : List PdM.Info) (ops : List CtxOp) : List (Nat × Int × Nat × List Bool) :=
  (ctxVisits xorCipher (startCtx infos) ops).map fun v => (v.pos, v.env.now, (sent v.outs).length, v.after.pds.map fun p => p.phyState = .replyWait)

example : Buses [onBus 1 5, onBus 2 5] := by
  rintro (- | - | i) (- | - | j) a b hij ha hb he <;> simp at ha hb hij
  · subst ha; decide
  · subst ha; decide

example : busLog [onBus 1 5, onBus 2 5] [quietAt 0, quietAt 0, quietAt 100, quietAt 201] =
    [(0, 0, 0, [false, false]), (1, 0, 0, [false, false]), (0, 0, 1, [true, false]), (0, 100, 0, [true, false]),
     (0, 201, 0, [false, false]), (1, 201, 1, [false, true])] := by decide +kernel

/-- **C45 fails when a PD is added at run time**: the locks are forgotten.  A command goes to the
second PD at 1950 ms; a PD is added; a command goes to the first one at 2110 ms, 160 ms later. -/
theorem C45_add : ∃ ops, NoAdd (ops.filter fun op => match op with | .add _ _ _ => false | _ => true) ∧
    (busLog [onBus 1 5, onBus 2 5] ops).drop 10 = [(1, 1950, 1, [false, true]), (0, 2110, 1, [true, true, false])] := by
  refine ⟨[quietAt 0, quietAt 0, quietAt 201, quietAt 1100, quietAt 1301, quietAt 1950, .add [onBus 3 5] false 4, quietAt 2110], ?_, by decide +kernel⟩
  intro op hop a b n he
  subst he
  simp at hop

/-- **Without the documented precondition** that a shared channel has an id other than 0 there is
no exclusion: commands to both PDs of channel 0 in one refresh. -/
theorem C45_zero : (busLog [onBus 1 0, onBus 2 0, onBus 3 7] [quietAt 0, quietAt 0]).drop 3 =
    [(0, 0, 1, [true, false, false]), (1, 0, 1, [true, true, false]), (2, 0, 1, [true, true, true])] := by decide +kernel

end Osdp.CpM
