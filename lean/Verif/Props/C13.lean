import Verif.Props.C10

/-!
# C13: bounded retransmission

Full statement: an unanswered command is retransmitted at most 8 times, 800 ms apart, before the CP declares failure; every
command gets the full retry budget.
-/

namespace Osdp.CpM

open Spec.Wire

/-- no (complete) reply has arrived -/
def unanswered (p : Pd) (env : Env) : Bool := match Phy.checkPacket p env with
  | .ok (_, .noData) => true
  | .ok (_, .wait) => true
  | _ => false

/-- Bookkeeping of missing answers. -/
structure Patience where
  /-- how often the answer to the command in hand was missed, each time with a repetition to follow -/
  silent : Nat
  /-- the same for earlier commands, since the last (re)start -/
  spent : Nat
  /-- when the command was last sent, or its answer last missed (or BUSY heard) -/
  since : Int

/-- the bookkeeping of one step -/
def Patience.after (t : Patience) (p : Pd) (op : Op) (q : Pd) : Patience := match op with
  | .update _ env =>
    if Restarts p q then ⟨0, 0, env.now⟩
    else if q.phyState = .replyWait then if p.phyState = .replyWait then t else { t with since := env.now }
    else if q.phyState = .wait then
      if p.phyState = .wait then t
      else { t with silent := if unanswered p env then t.silent + 1 else t.silent, since := env.now }
    else ⟨0, t.spent + t.silent, env.now⟩
  | _ => t

/-- the bookkeeping of a history -/
def Patience.over (C : Cipher) (t : Patience) (p : Pd) : List Op → Patience
  | [] => t
  | op :: ops => match CpM.step C p op with
    | .ok (q, _) => (t.after p op q).over C q ops
    | .error _ => t

/-- the CP's counter and the bookkeeping agree -/
def Counts (p : Pd) (t : Patience) : Prop :=
  t.silent ≤ 8 ∧ (p.state = .offline ∨ (p.retryCount = t.silent + t.spent ∧ p.retryCount ≤ 8 ∧
    (p.phyState = .wait → p.phyTstamp = t.since ∧ p.waitMs = CMD_RETRY_WAIT) ∧ (p.phyState = .replyWait → p.phyTstamp = t.since)))

theorem Reply.unanswered {C : Cipher} {p q : Pd} {env : Env} {outs : List Out} {rc : CpErr} (h : Reply C p env q outs rc) :
    CpM.unanswered p env = (rc == .noData) := by
  unfold CpM.unanswered
  cases h with
  | nothing h _ hr => rw [h]; rcases hr with rfl | rfl <;> rfl
  | bad h _ hr => rw [h]; rcases hr with rfl | rfl | rfl <;> rfl
  | busy h _ => rw [h]; rfl
  | seq h _ => rw [h]; rfl
  | refused h _ _ _ _ => rw [h]; rfl
  | reply h _ _ _ _ _ _ _ _ he =>
    rw [h]
    have := he.data
    cases rc <;> first | rfl | exact absurd rfl this

theorem counts_step {C : Cipher} {p q : Pd} {op : Op} {o : List Out} {t : Patience} (I : Inv p) (A : Counts p t)
    (h : step C p op = .ok (q, o)) : Counts q (t.after p op q) := by
  by_cases hu : ∀ cb env, op ≠ .update cb env
  · have ha := step_apiOnly h hu
    have ht : t.after p op q = t := by
      cases op with
      | update cb env => exact absurd rfl (hu cb env)
      | _ => rfl
    unfold Api at ha
    rw [ht]
    unfold Counts
    rw [ha]
    exact A
  obtain ⟨cb, env, rfl⟩ : ∃ cb env, op = .update cb env :=
    Classical.byContradiction fun hn => hu fun cb env he => hn ⟨cb, env, he⟩
  obtain ⟨⟨s1, o2, y⟩, hu', h1⟩ := Res.bind_eq_ok.mp h
  clear h
  injection h1 with h1; injection h1 with e1 e2; subst e1 e2
  have going : p.phyState ≠ .idle → p.state ≠ .offline := by
    intro h h'
    have := I.cmd h
    rw [h'] at this
    exact this
  have ends : ∀ {p1 q : Pd} {o2 : List Out}, Mid p1 → p1.state = p.state → p1.retryCount = p.retryCount →
      settle cb p1 env = .ok (q, o2) → Counts q (t.after p (.update cb env) q) := by
    intro p1 q o2 M hst hrc hse
    have hps := (settled M hse).2
    have h1 : q.phyState ≠ .replyWait := by rcases hps with h | h <;> rw [h] <;> simp
    have h2 : q.phyState ≠ .wait := by rcases hps with h | h <;> rw [h] <;> simp
    have hsr : Restarts p1 q ↔ Restarts p q := by unfold Restarts; rw [hst]
    show Counts q (if Restarts p q then _ else if _ then _ else if _ then _ else _)
    by_cases hR : Restarts p q
    · rw [if_pos hR]
      refine ⟨Nat.zero_le _, ?_⟩
      rcases settle_seq M hse with h | ⟨-, a, -⟩ | ⟨-, -, b, -⟩
      · exact .inl h
      · exact .inr ⟨a, by rw [a]; decide, fun h => absurd h h2, fun h => absurd h h1⟩
      · exact absurd (hsr.mpr hR) b
    · rw [if_neg hR, if_neg h1, if_neg h2]
      refine ⟨Nat.zero_le _, ?_⟩
      rcases settle_seq M hse with h | ⟨-, -, b⟩ | ⟨-, a, b, -⟩
      · exact .inl h
      · exact absurd (hsr.mp b) hR
      · rcases A.2 with h | ⟨h, h', -⟩
        · by_cases hqs : q.state = .offline
          · exact .inl hqs
          exfalso
          rcases Offline.next M (hst.trans h) hse with h' | h'
          · exact b (.inl ⟨h', by rw [hst, h]; simp⟩)
          · exact hqs h'
        · refine .inr ⟨?_, by rw [a, hrc]; exact h', fun h => absurd h h2, fun h => absurd h h1⟩
          show q.retryCount = 0 + (t.spent + t.silent)
          rw [a, hrc, h]; omega
  have goes : p.phyState ≠ .idle → p.retryCount = t.silent + t.spent ∧ p.retryCount ≤ 8 ∧
      (p.phyState = .wait → p.phyTstamp = t.since ∧ p.waitMs = CMD_RETRY_WAIT) ∧ (p.phyState = .replyWait → p.phyTstamp = t.since) := by
    intro h
    rcases A.2 with h' | h'
    · exact absurd h' (going h)
    · exact h'
  cases stateUpdate_inv I.cp hu' with
  | hold h _ =>
    have : t.after p (.update cb env) p = t := by
      show (if Restarts p p then _ else _) = _
      rw [if_neg (same_state rfl), if_neg (by rw [h]; simp), if_pos h, if_pos h]
    rw [this]; exact A
  | sent hm h =>
    rename_i p1
    have hs := h.sent
    unfold Sent at hs
    have hst : p1.state = p.state := h.sent.keeps.1
    have hni : p.phyState ≠ .idle := by rcases hm with h | ⟨h, -⟩ <;> rw [h] <;> simp
    have hnw : p.phyState ≠ .replyWait := by rcases hm with h | ⟨h, -⟩ <;> rw [h] <;> simp
    have : t.after p (.update cb env) (sentState p1 env.now) = { t with since := env.now } := by
      show (if Restarts p (sentState p1 env.now) then _ else _) = _
      rw [if_neg (same_state (q := sentState p1 env.now) hst), if_pos (show (sentState p1 env.now).phyState = .replyWait from rfl), if_neg hnw]
    rw [this]
    obtain ⟨g1, g2, -, -⟩ := goes hni
    have hrc : (sentState p1 env.now).retryCount = p.retryCount := by
      show p1.retryCount = _; rw [hs]
    exact ⟨A.1, .inr ⟨by rw [hrc]; exact g1, by rw [hrc]; exact g2, (fun h => by cases h), fun _ => rfl⟩⟩
  | unsent hm h hse =>
    rename_i p1 o1 o3
    have hs := h.sent
    unfold Sent at hs
    exact ends (unsent_mid I h) h.sent.keeps.1 (by show p1.retryCount = _; rw [hs]) hse
  | replied hps hw hrc hse =>
    refine ends (waited_mid I hps hw) hw.state.1 ?_ hse
    cases hw with
    | answered h => exact h.heard.keeps.2.2.2.2.1
    | ignored h _ _ => exact h.heard.keeps.2.2.2.2.1
    | failed h hr => exact h.heard.keeps.2.2.2.2.1
    | exhausted h _ _ => exact h.heard.keeps.2.2.2.2.1
    | busy _ => simp at hrc
    | retry _ _ _ => simp at hrc
    | waiting _ _ => simp at hrc
  | again hps hw =>
    have hst := hw.state.1
    obtain ⟨g1, g2, -, -⟩ := goes (by rw [hps]; simp)
    cases hw with
    | @busy q1 _ h =>
      have hu := h.unanswered
      have hk := h.heard.keeps
      have : t.after p (.update cb env) { q1 with phyTstamp := env.now, waitMs := CMD_RETRY_WAIT, phyState := .wait } = { t with since := env.now } := by
        show (if Restarts p _ then _ else _) = _
        rw [if_neg (same_state hst), if_neg (by simp), if_pos rfl, if_neg (by rw [hps]; simp), hu]
        rfl
      rw [this]
      refine ⟨A.1, .inr ⟨?_, ?_, fun _ => ⟨rfl, rfl⟩, (fun h => by cases h)⟩⟩
      · show q1.retryCount = _; rw [hk.2.2.2.2.1]; exact g1
      · show q1.retryCount ≤ _; rw [hk.2.2.2.2.1]; exact g2
    | @retry q1 _ h _ hlt =>
      have hu := h.unanswered
      have hk := h.heard.keeps
      have : t.after p (.update cb env) { q1 with waitMs := CMD_RETRY_WAIT, phyState := .wait, retryCount := q1.retryCount + 1, phyTstamp := env.now } = { t with silent := t.silent + 1, since := env.now } := by
        show (if Restarts p _ then _ else _) = _
        rw [if_neg (same_state hst), if_neg (by simp), if_pos rfl, if_neg (by rw [hps]; simp), hu]
        rfl
      rw [this]
      rw [hk.2.2.2.2.1] at hlt
      have hlt' : p.retryCount < 8 := hlt
      refine ⟨show t.silent + 1 ≤ 8 by omega, .inr ⟨?_, ?_, fun _ => ⟨rfl, rfl⟩, (fun h => by cases h)⟩⟩
      · show q1.retryCount + 1 = t.silent + 1 + t.spent; rw [hk.2.2.2.2.1]; omega
      · show q1.retryCount + 1 ≤ 8; rw [hk.2.2.2.2.1]; omega
  | waiting hps hw =>
    have hst := hw.state.1
    obtain ⟨g1, g2, g3, g4⟩ := goes (by rw [hps]; simp)
    cases hw with
    | waiting h _ =>
      have hk := h.heard.keeps
      have : t.after p (.update cb env) s1 = t := by
        show (if Restarts p _ then _ else _) = _
        rw [if_neg (same_state hst), if_pos (hk.2.1.trans hps), if_pos hps]
      rw [this]
      refine ⟨A.1, .inr ⟨?_, ?_, fun h => ?_, fun _ => ?_⟩⟩
      · rw [hk.2.2.2.2.1]; exact g1
      · rw [hk.2.2.2.2.1]; exact g2
      · rw [hk.2.1, hps] at h; cases h
      · rw [hk.2.2.2.2.2.1]; exact g4 hps
  | idle hps hse => exact ends I.mid rfl rfl hse

theorem counts_run {C : Cipher} {ops : List Op} {p q : Pd} {o : List Out} {t : Patience} (I : Inv p) (A : Counts p t)
    (h : run C p ops = .ok (q, o)) : Inv q ∧ Counts q (t.over C p ops) := by
  induction ops generalizing p o t with
  | nil =>
    injection h with h; injection h with e1 e2; subst e1
    exact ⟨I, A⟩
  | cons op ops ih =>
    obtain ⟨⟨p1, o1⟩, h1, h⟩ := Res.bind_eq_ok.mp h
    obtain ⟨⟨p2, o2⟩, h2, h⟩ := Res.bind_eq_ok.mp h
    injection h with h; injection h with e1 e2; subst e1 e2
    unfold Patience.over
    rw [h1]
    exact ih (I.step h1) (counts_step I A h1) h2

/-- **C13, except that the budget is shared by all commands since the last (re)start**: in every history, from the set up of
the CP on,
* the command in hand is repeated at most 8 times for lack of an answer;
* it is repeated no earlier than 800 ms after the answer was missed (or BUSY was heard);
* an answer is missed no earlier than 200 ms after the command was sent;
* when it is missed, the command is to be repeated, unless 8 answers have been missed since the last (re)start: then
  the exchange is over. -/
theorem C13_partial {C : Cipher} {info : PdM.Info} {i : Nat} {sk : Bool} {m : Nat} {p0 p q : Pd} {ops : List Op} {cb : Bool}
    {env : Env} {o o' : List Out} {t : Patience} (hn : newPd info i sk m = some p0) (hr : run C p0 ops = .ok (p, o))
    (ht : t = Patience.over C ⟨0, 0, 0⟩ p0 ops) (hs : step C p (.update cb env) = .ok (q, o')) :
    t.silent ≤ 8 ∧
    (p.phyState = .wait → sent o' ≠ [] → 800 ≤ env.now - t.since) ∧
    (p.phyState = .replyWait → unanswered p env = true →
      if env.now - t.since ≤ 200 then q.phyState = .replyWait ∧ q.cmdId = p.cmdId
      else if t.silent + t.spent < 8 then q.phyState = .wait ∧ q.cmdId = p.cmdId ∧ q.state = p.state
      else q.phyState ≠ .replyWait ∧ q.phyState ≠ .wait) := by
  have N := newPd_inv hn
  have A0 : Counts p0 ⟨0, 0, 0⟩ := by
    refine ⟨Nat.zero_le _, .inr ?_⟩
    have hrc : p0.retryCount = 0 := by
      unfold newPd at hn
      split at hn
      · cases hn
      · injection hn with hn; subst hn; rfl
    refine ⟨hrc, by rw [hrc]; decide, fun h => ?_, fun h => ?_⟩ <;> (rw [N.2.2.1] at h; cases h)
  obtain ⟨I, A⟩ := counts_run N.1 A0 hr
  rw [← ht] at A
  obtain ⟨⟨s1, o2, y⟩, hu', h1⟩ := Res.bind_eq_ok.mp hs
  clear hs
  injection h1 with h1; injection h1 with e1 e2; subst e1 e2
  have goes : p.phyState ≠ .idle → p.retryCount = t.silent + t.spent ∧ p.retryCount ≤ 8 ∧
      (p.phyState = .wait → p.phyTstamp = t.since ∧ p.waitMs = CMD_RETRY_WAIT) ∧ (p.phyState = .replyWait → p.phyTstamp = t.since) := by
    intro h
    rcases A.2 with h' | h'
    · have := I.cmd h
      rw [h'] at this
      exact this.elim
    · exact h'
  refine ⟨A.1, fun hw hso => ?_, fun hw hun => ?_⟩
  · obtain ⟨-, -, g, -⟩ := goes (by rw [hw]; simp)
    obtain ⟨g1, g2⟩ := g hw
    rcases (stateUpdate_inv I.cp hu').packet I with h | ⟨hm, -⟩
    · exact absurd h hso
    · rcases hm with h | ⟨-, h⟩
      · rw [hw] at h; cases h
      · rw [g1, g2] at h
        have : (CMD_RETRY_WAIT : Int) = 800 := rfl
        omega
  · obtain ⟨g1, g2, -, g⟩ := goes (by rw [hw]; simp)
    have g := g hw
    have over : ∀ {p1 q : Pd} {o2 : List Out}, Mid p1 → settle cb p1 env = .ok (q, o2) → q.phyState ≠ .replyWait ∧ q.phyState ≠ .wait := by
      intro p1 q o2 M h
      rcases (settled M h).2 with h | h <;> rw [h] <;> simp
    have tout : (PdM.RESP_TOUT : Int) = 200 := rfl
    have maxr : CMD_MAX_RETRIES = 8 := rfl
    cases stateUpdate_inv I.cp hu' with
    | hold h _ => rw [hw] at h; cases h
    | sent hm _ => rcases hm with h | ⟨h, -⟩ <;> rw [hw] at h <;> cases h
    | unsent hm _ _ => rcases hm with h | ⟨h, -⟩ <;> rw [hw] at h <;> cases h
    | idle h _ => rw [hw] at h; simp at h
    | replied _ hwt hrc hse =>
      have M := waited_mid I hw hwt
      cases hwt with
      | answered h => rw [h.unanswered] at hun; cases hun
      | ignored h _ _ => rw [h.unanswered] at hun; cases hun
      | failed h hr => rw [h.unanswered] at hun; rcases hr with rfl | rfl <;> cases hun
      | exhausted h h1 h2 =>
        have hk := h.heard.keeps
        rw [hk.2.2.2.2.2.1, g, tout] at h1
        rw [hk.2.2.2.2.1, maxr] at h2
        rw [if_neg (by omega), if_neg (by omega)]
        exact over M hse
      | busy _ => simp at hrc
      | retry _ _ _ => simp at hrc
      | waiting _ _ => simp at hrc
    | again _ hwt =>
      cases hwt with
      | busy h => rw [h.unanswered] at hun; cases hun
      | retry h h1 h2 =>
        have hk := h.heard.keeps
        rw [hk.2.2.2.2.2.1, g, tout] at h1
        rw [hk.2.2.2.2.1, maxr] at h2
        rw [if_neg (by omega), if_pos (by omega)]
        exact ⟨rfl, hk.2.2.1, hk.1⟩
    | waiting _ hwt =>
      cases hwt with
      | waiting h h1 =>
        have hk := h.heard.keeps
        rw [hk.2.2.2.2.2.1, g, tout] at h1
        rw [if_pos (by omega)]
        exact ⟨hk.2.1.trans hw, hk.2.2.1⟩

/-- a POLL is sent, and repeated 8 times, without an answer -/
def nearly : List Op :=
  polling ++ [Sample.hears [] 100] ++ (List.range 8).flatMap (fun (k : Nat) => [Sample.hears [] (400 + 1100 * k), Sample.hears [] (1200 + 1100 * k)])

example : ∃ q o, run xorCipher Sample.cp nearly = .ok (q, o) ∧ q.phyState = .replyWait ∧ q.cmdId = Id.POLL ∧ (sent o).length = 2 + 9 ∧
    (Patience.over xorCipher ⟨0, 0, 0⟩ Sample.cp nearly).silent = 8 ∧ (Patience.over xorCipher ⟨0, 0, 0⟩ Sample.cp nearly).since = 8900 ∧
    unanswered q { now := 9200 } = true := by
  obtain ⟨q, o, h, hp⟩ := Sample.ran (C := xorCipher) (p := Sample.cp) (ops := nearly)
    (fun q o => q.phyState == .replyWait && q.cmdId == Id.POLL && (sent o).length == 11 && unanswered q { now := 9200 }) (by decide +kernel)
  simp only [Bool.and_eq_true, beq_iff_eq] at hp
  exact ⟨q, o, h, hp.1.1.1, hp.1.1.2, hp.1.2, by decide +kernel, by decide +kernel, hp.2⟩

/-- the last repetition is answered, and another POLL is sent -/
def impatient : List Op := nearly ++ [Sample.hears (Sample.reply 1 [0x40]) 8950, Sample.hears [] 9100, Sample.hears [] 9100]

/-- **C13 fails for a command that follows unanswered ones**: the counter of missing answers is not reset when a command is
answered. The next command is sent once and, 300 ms later, given up without a single repetition: the PD is declared
offline. -/
theorem C13_budget : ∃ p o q o', run xorCipher Sample.cp impatient = .ok (p, o) ∧ p.state = .online ∧ p.phyState = .replyWait ∧
    (sent o).length = 2 + 9 + 1 ∧ step xorCipher p (Sample.hears [] 9400) = .ok (q, o') ∧ sent o' = [] ∧ q.state = .offline := by
  obtain ⟨p, o, q, o', h1, h2, h3, h4⟩ := Sample.ran_step (C := xorCipher) (p := Sample.cp) (ops := impatient) (op := Sample.hears [] 9400)
    (fun p => p.state == .online && p.phyState == .replyWait) (fun q o => q.state == .offline && sent o == []) (by decide +kernel) (by decide +kernel)
  obtain ⟨p', o1, h5, h6⟩ := Sample.ran (C := xorCipher) (p := Sample.cp) (ops := impatient) (fun _ o => (sent o).length == 12) (by decide +kernel)
  rw [h1] at h5
  injection h5 with h5; injection h5 with e1 e2; subst e1 e2
  simp only [Bool.and_eq_true, beq_iff_eq] at h3 h4 h6
  exact ⟨p, o, q, o', h1, h3.1, h3.2, h6, h2, h4.2, h4.1⟩

end Osdp.CpM
