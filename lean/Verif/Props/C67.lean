import Verif.Lemmas.CpBeat
import Verif.Lemmas.CpHear
import Verif.Lemmas.SampleCp

/-!
# C67: a CP never falls silent

The statement is about what goes out on the line.  The circumstances of the visits (what arrives, what the file callbacks say, how
much the channel takes) are arbitrary; the CP is visited at least every `d` ms.
-/

namespace Osdp.CpM

open Spec.Wire
open Phy (sendOuts)

/-- a stretch of visits after time `t`: the clock does not run backwards, and no more than `d` ms go by without a visit -/
def Regular (d : Int) : Int → List (Bool × Env) → Prop
  | _, [] => True
  | t, e :: es => t ≤ e.2.now ∧ e.2.now ≤ t + d ∧ Regular d e.2.now es

/-- the time of the last visit -/
def lastVisit (t : Int) : List (Bool × Env) → Int
  | [] => t
  | e :: es => lastVisit e.2.now es

/-- the visits, as operations -/
def asOps (es : List (Bool × Env)) : List Op := es.map fun e => .update e.1 e.2

/-- the visits in a history took place no later than `t` -/
def Before (t : Int) (ops : List Op) : Prop := ∀ cb env, Op.update cb env ∈ ops → env.now ≤ t

/-- The two ways in which a CP can lose its voice: the PD announced a receive buffer of 1 to 68 bytes, or a CP built to send no mark
byte heard a packet with one.  (No reply is being waited for.) -/
def Mute (p : Pd) : Prop :=
  (1 ≤ p.peerRx ∧ p.peerRx ≤ 68 ∨ p.flags.skipMark = true ∧ p.flags.hasMark = true) ∧ p.phyState ≠ .replyWait

instance (p : Pd) : Decidable (Mute p) := by unfold Mute; infer_instance

theorem small_buffer {p : Pd} : p.txBufSize < 69 ↔ 1 ≤ p.peerRx ∧ p.peerRx ≤ 68 := by
  unfold Pd.txBufSize
  constructor
  · intro h; split at h <;> omega
  · intro h; rw [if_pos (by omega)]; omega

theorem voice {p : Pd} (h : ¬ Mute p) (hw : p.phyState ≠ .replyWait) :
    69 ≤ p.txBufSize ∧ (p.flags.hasMark && p.flags.skipMark) = false := by
  constructor
  · refine Classical.byContradiction fun hn => h ⟨.inl (small_buffer.mp (by omega)), hw⟩
  · cases h1 : p.flags.hasMark <;> cases h2 : p.flags.skipMark <;> try rfl
    exact absurd ⟨.inr ⟨h2, h1⟩, hw⟩ h

theorem mute_attempt {C : Cipher} {p q : Pd} {env : Env} {outs : List Out} {ok : Bool} (hM : Mute p)
    (h : SendOutcome C p env q outs ok) : ok = false ∧ sent outs = [] ∧ q.flags.hasMark = (p.flags.hasMark || (69 ≤ p.txBufSize && !p.flags.skipMark)) := by
  cases h with
  | mute h69 => refine ⟨rfl, rfl, ?_⟩; rw [decide_eq_false (by omega)]; simp
  | unbuilt b h69 _ ho _ =>
    refine ⟨rfl, ?_, ?_⟩
    · refine sent_nil fun o hm bs hb => ?_
      obtain ⟨_, _, h⟩ := ho.outs o hm
      rw [hb] at h; cases h
    · rw [ho.keeps, decide_eq_true h69]; simp [nextCmd]
  | built b l q o ok h69 _ ho _ _ hs hw _ =>
    have hmis : (cmdTx p).misaligned = true := by
      rcases hM.1 with h | ⟨h1, h2⟩
      · have := small_buffer.mpr h; omega
      · unfold cmdTx; simp [h1, h2]
    rcases hw with ⟨rfl, rfl, -⟩ | ⟨_, _, h, -⟩
    · refine ⟨rfl, ?_, ?_⟩
      · rw [List.append_nil]
        refine sent_nil fun o hm bs hb => ?_
        obtain ⟨_, _, h⟩ := ho.outs o hm
        rw [hb] at h; cases h
      · unfold Phy.Sending at hs
        rw [hs, ho.keeps, decide_eq_true h69]; simp [nextCmd]
    · rw [hmis] at h; cases h

theorem mute_stays {C : Cipher} {cb : Bool} {p q : Pd} {env : Env} {outs : List Out} {y : Bool} (I : Inv p) (hM : Mute p)
    (h : Update C cb p env q outs y) : sent outs = [] ∧ Mute q := by
  have keep : ∀ {p1 : Pd} {o : List Out}, Mid p1 → p1.peerRx = p.peerRx → p1.flags.skipMark = p.flags.skipMark →
      (p.flags.hasMark = true → p1.flags.hasMark = true) → settle cb p1 env = .ok (q, o) → Mute q := by
    intro p1 o M h1 h2 h3 h
    have hd := settle_drift h
    have hp := hd.keeps.2.2.2.2.1
    have hf := hd.flags
    refine ⟨?_, by rcases (settled M h).2 with h | h <;> simp [h]⟩
    rcases hM.1 with ⟨a, b⟩ | ⟨a, b⟩
    · left; rw [hp, h1]; exact ⟨a, b⟩
    · right; rw [hf]; exact ⟨h2.trans a, h3 b⟩
  cases h with
  | hold h _ => exact ⟨rfl, hM⟩
  | sent _ h => cases (mute_attempt hM h).1
  | unsent _ h1 h2 =>
    obtain ⟨-, a, b⟩ := mute_attempt hM h1
    have hs := h1.sent
    unfold Sent at hs
    refine ⟨by rw [sent_append, a, settle_sent h2]; rfl, keep (unsent_mid I h1) ?_ ?_ ?_ h2⟩
    · dsimp only; rw [hs]
    · dsimp only; rw [hs]
    · intro h; dsimp only; rw [b, h]; rfl
  | replied h => exact absurd h hM.2
  | again h => exact absurd h hM.2
  | waiting h => exact absurd h hM.2
  | idle _ h => exact ⟨settle_sent h, keep I.mid rfl rfl id h⟩

/-- **C67 fails.**  A CP that has lost its voice never sends anything again to that PD, whatever happens: it does not even try to
establish the connection anew. -/
theorem C67_mute_forever (C : Cipher) (info : PdM.Info) (q s : Pd) (ops : List Op) (o : List Out) (hq : Reached C info q)
    (hM : Mute q) (h : run C q ops = .ok (s, o)) : sent o = [] := by
  have I := hq.inv
  clear hq
  induction ops generalizing q o with
  | nil => injection h with h; injection h with e1 e2; subst e2; rfl
  | cons op ops ih =>
    obtain ⟨⟨p1, o1⟩, h1, h⟩ := Res.bind_eq_ok.mp h
    obtain ⟨⟨p2, o2⟩, h2, h⟩ := Res.bind_eq_ok.mp h
    injection h with h; injection h with e1 e2; subst e1 e2
    have key : sent o1 = [] ∧ Mute p1 := by
      cases op with
      | update cb env =>
        obtain ⟨⟨p3, o3, y⟩, hu, hs⟩ := Res.bind_eq_ok.mp h1
        injection hs with hs; injection hs with e1 e2; subst e1 e2
        exact mute_stays I hM (stateUpdate_inv I.cp hu)
      | _ =>
        obtain ⟨a, -, b, -, -, -, -, -, -, -, c, d, e⟩ := step_api h1 (fun cb env h => by cases h)
        refine ⟨a, ?_⟩
        unfold Mute
        rw [b, c, d, e]; exact hM
    rw [sent_append, key.1, ih _ _ key.2 h2 (I.step h1)]; rfl

/-- a CP built to send no mark byte, after an answer to its first command that begins with one -/
def marked : List Op := Sample.asks (Sample.reply 0 Sample.pdidReply)

/-- such a CP gets there, after one proper reply -/
example : ∃ q, Reached xorCipher Sample.pdInfo q ∧ Mute q ∧ q.flags.skipMark = true := by
  have hn : newPd Sample.pdInfo 0 true 16 = some { Sample.cp with flags := { Sample.cp.flags with skipMark := true } } := rfl
  obtain ⟨q, o, h, hq⟩ := Sample.ran (C := xorCipher) (p := { Sample.cp with flags := { Sample.cp.flags with skipMark := true } })
    (ops := marked) (fun q _ => decide (Mute q ∧ q.flags.skipMark = true)) (by decide +kernel)
  obtain ⟨h1, h2⟩ := of_decide_eq_true hq
  exact ⟨q, ⟨0, true, 16, _, _, _, hn, h⟩, h1, h2⟩

/-! ### otherwise something is sent -/

theorem newPd_timers {info : PdM.Info} {i n : Nat} {sk : Bool} {p : Pd} {t : Int} (ht : 0 ≤ t) (h : newPd info i sk n = some p) :
    Timers t p := by
  unfold newPd at h
  split at h
  · cases h
  injection h with h; subst h
  exact ⟨ht, ht, ht, Nat.zero_le _, fun g hg => by cases hg⟩

theorem run_timers {C : Cipher} {p q : Pd} {ops : List Op} {o : List Out} {t : Int} (I : Inv p) (ht : Timers t p) (hb : Before t ops)
    (h : run C p ops = .ok (q, o)) : Timers t q ∧ Inv q := by
  induction ops generalizing p o with
  | nil => injection h with h; injection h with e1 e2; subst e1; exact ⟨ht, I⟩
  | cons op ops ih =>
    obtain ⟨⟨p1, o1⟩, h1, h⟩ := Res.bind_eq_ok.mp h
    obtain ⟨⟨p2, o2⟩, h2, h⟩ := Res.bind_eq_ok.mp h
    injection h with h; injection h with e1 e2; subst e1 e2
    refine ih (I.step h1) (step_timers I.cp ht ?_ h1) (fun cb env hm => hb cb env (List.mem_cons_of_mem _ hm)) h2
    rintro cb env rfl
    exact hb cb env (List.mem_cons_self ..)

theorem mute_run {C : Cipher} {q s : Pd} {es : List (Bool × Env)} {o : List Out} (I : Inv q) (hM : Mute q)
    (h : run C q (asOps es) = .ok (s, o)) : Mute s := by
  induction es generalizing q o with
  | nil => injection h with h; injection h with e1 e2; subst e1; exact hM
  | cons e es ih =>
    obtain ⟨⟨p1, o1⟩, h1, h⟩ := Res.bind_eq_ok.mp h
    obtain ⟨⟨p2, o2⟩, h2, h⟩ := Res.bind_eq_ok.mp h
    injection h with h; injection h with e1 e2; subst e1 e2
    obtain ⟨⟨p3, o3, y⟩, hu, hs⟩ := Res.bind_eq_ok.mp h1
    injection hs with hs; injection hs with e1 e2; subst e1 e2
    exact ih (I.step h1) (mute_stays I hM (stateUpdate_inv I.cp hu)).2 h2

theorem silent_run {C : Cipher} {q s : Pd} {es : List (Bool × Env)} {o : List Out} {d t u : Int} (hd : 0 ≤ d) (I : Inv q)
    (ht : Timers u q) (hr : Rel t q) (hu : u ≤ t + 300000) (hes : Regular d u es)
    (h : run C q (asOps es) = .ok (s, o)) (hq : sent o = []) :
    Mute s ∨ lastVisit u es ≤ t + rank q * (300000 + d) := by
  induction es generalizing q o t u with
  | nil =>
    right
    show u ≤ _
    have := (rank_pos q).1
    have h2 : (1 : Int) * (300000 + d) ≤ rank q * (300000 + d) := Int.mul_le_mul_of_nonneg_right (by omega) (by omega)
    omega
  | cons e es ih =>
    obtain ⟨⟨p1, o1⟩, h1, h⟩ := Res.bind_eq_ok.mp h
    obtain ⟨⟨p2, o2⟩, h2, h⟩ := Res.bind_eq_ok.mp h
    injection h with h; injection h with e1 e2; subst e1 e2
    rw [sent_append, List.append_eq_nil_iff] at hq
    have hstep := h1
    obtain ⟨⟨p3, o3, y⟩, hup, hs⟩ := Res.bind_eq_ok.mp h1
    injection hs with hs; injection hs with e1 e2; subst e1 e2
    have hU := stateUpdate_inv I.cp hup
    obtain ⟨k1, k2, k3⟩ := hes
    have ht' : Timers e.2.now p3 := hU.timers (ht.mono k1) (Int.le_refl _)
    by_cases hM : Mute q
    · exact .inl (mute_run (I.step hstep) (mute_stays I hM hU).2 h2)
    show Mute _ ∨ lastVisit e.2.now es ≤ _
    rcases update_beat I ht (voice hM) hq.1 hU with hlt | ⟨heq, hw⟩
    · refine (ih (I.step hstep) ht' ht'.rel (by omega) k3 h2 hq.2).imp_right fun hl => ?_
      have h4 : ((rank p3 : Int) + 1) * (300000 + d) ≤ rank q * (300000 + d) :=
        Int.mul_le_mul_of_nonneg_right (by omega) (by omega)
      rw [Int.add_mul, Int.one_mul] at h4
      omega
    · obtain ⟨w1, w2⟩ := hw t hr
      refine (ih (I.step hstep) ht' w2 (by omega) k3 h2 hq.2).imp_right fun hl => ?_
      rw [← heq]; exact hl

/-- **C67, `_partial`.**  However the line and the application behaved so far, and whatever arrives from now on: a CP that is visited
at least every `d` ms sends something within six (and one for each waiting command) times `300000 + d` ms, unless it has lost its
voice for good in one of the two ways of `Mute`.  The full statement has no such exception; `C67_mute_forever` shows that it is
needed. -/
theorem C67_keeps_sending_partial (C : Cipher) (info : PdM.Info) (i n : Nat) (skipMark : Bool) (p q s : Pd) (ops : List Op)
    (es : List (Bool × Env)) (o o' : List Out) (t d : Int) (hs : newPd info i skipMark n = some p)
    (h : run C p ops = .ok (q, o)) (ht : 0 ≤ t) (hb : Before t ops) (hd : 0 ≤ d) (hes : Regular d t es)
    (h' : run C q (asOps es) = .ok (s, o')) (hlong : (6 + q.cmdQueue.length) * (300000 + d) < lastVisit t es - t) :
    sent o' ≠ [] ∨ Mute s := by
  by_cases hq : sent o' = []
  · right
    obtain ⟨T, I⟩ := run_timers (newPd_inv hs).1 (newPd_timers ht hs) hb h
    rcases silent_run hd I T T.rel (by omega) hes h' hq with h | h
    · exact h
    · have h2 : (rank q : Int) * (300000 + d) ≤ (6 + q.cmdQueue.length) * (300000 + d) :=
        Int.mul_le_mul_of_nonneg_right (by have := (rank_pos q).2; omega) (by omega)
      omega
  · exact .inl hq

/-- nobody on the line: a visit every ten minutes -/
def lonely (k : Nat) : List (Bool × Env) := (List.range k).map fun (i : Nat) => (true, { now := 600000 * ((i : Int) + 1) })

/-- a CP to which nobody ever answered, with five and a half hours of visits to come: 33 of them, all the conditions are met -/
example : ∃ q s o o', run xorCipher Sample.cp (Sample.silence 30) = .ok (q, o) ∧ Before 14500 (Sample.silence 30) ∧
    Regular 600000 14500 (lonely 33) ∧ run xorCipher q (asOps (lonely 33)) = .ok (s, o') ∧
    (6 + q.cmdQueue.length) * (300000 + 600000) < lastVisit 14500 (lonely 33) - 14500 ∧ q.state = .offline ∧ ¬ Mute s := by
  obtain ⟨s, o, h, hq⟩ := Sample.ran (C := xorCipher) (p := Sample.cp) (ops := Sample.silence 30 ++ asOps (lonely 33))
    (fun s _ => decide (¬ Mute s)) (by decide +kernel)
  obtain ⟨q, o1, h1, hq1⟩ := Sample.ran (C := xorCipher) (p := Sample.cp) (ops := Sample.silence 30)
    (fun q _ => decide (q.cmdQueue.length = 0 ∧ q.state = .offline)) (by decide +kernel)
  obtain ⟨q', a, b, h2, h3, -⟩ := Sample.run_split h
  rw [h1] at h2
  injection h2 with h2; injection h2 with e1 e2; subst e1 e2
  have := of_decide_eq_true hq1
  refine ⟨q, s, o1, b, h1, ?_, ?_, h3, ?_, this.2, of_decide_eq_true hq⟩
  · intro cb env hm
    obtain ⟨k, hk, e⟩ := List.mem_map.mp hm
    have := List.mem_range.mp hk
    injection e with _ e; subst e
    dsimp only; omega
  · simp [lonely, Regular, List.range, List.range.loop]
  · rw [this.1]; decide +kernel

/-! ### with mark bytes -/

theorem settle_skipMark {cb : Bool} {p q : Pd} {env : Env} {o : List Out} (h : settle cb p env = .ok (q, o)) :
    q.flags.skipMark = p.flags.skipMark := by
  rw [(settle_drift h).flags]

theorem Waited.skipMark {C : Cipher} {p q : Pd} {env : Env} {o : List Out} {rc : CpErr} (h : Waited C p env q o rc) :
    q.flags.skipMark = p.flags.skipMark := by
  have key : ∀ {q : Pd} {rc : CpErr}, Reply C p env q o rc → q.flags.skipMark = p.flags.skipMark := by
    intro q rc h
    have := h.heard
    unfold Heard at this
    rw [this]
  cases h with
  | answered h => have k := key h; exact k
  | ignored h _ _ => have k := key h; exact k
  | failed h _ => have k := key h; exact k
  | busy h => have k := key h; exact k
  | retry h _ _ => have k := key h; exact k
  | exhausted h _ _ => have k := key h; exact k
  | waiting h _ => have k := key h; exact k

theorem step_skipMark {C : Cipher} {p q : Pd} {op : Op} {o : List Out} (I : Inv p) (h : step C p op = .ok (q, o)) :
    q.flags.skipMark = p.flags.skipMark := by
  cases op with
  | update cb env =>
    obtain ⟨⟨p3, o3, y⟩, hu, hs⟩ := Res.bind_eq_ok.mp h
    injection hs with hs; injection hs with e1 e2; subst e1 e2
    have hU := stateUpdate_inv I.cp hu
    have snd : ∀ {p1 : Pd} {o : List Out} {ok : Bool}, SendOutcome C p env p1 o ok → p1.flags.skipMark = p.flags.skipMark := by
      intro p1 o ok h
      have := h.sent
      unfold Sent at this
      rw [this]
    clear hu h
    cases hU with
    | hold _ _ => rfl
    | sent _ h => have k := snd h; exact k
    | unsent _ h1 h2 => have k := snd h1; exact (settle_skipMark h2).trans k
    | replied _ h _ h2 => exact (settle_skipMark h2).trans h.skipMark
    | again _ h => exact h.skipMark
    | waiting _ h => exact h.skipMark
    | idle _ h => exact settle_skipMark h
  | _ => exact (step_api h (fun cb env h => by cases h)).2.2.2.2.2.2.2.2.2.2.2.2

theorem run_skipMark {C : Cipher} {p q : Pd} {ops : List Op} {o : List Out} (I : Inv p) (h : run C p ops = .ok (q, o)) :
    q.flags.skipMark = p.flags.skipMark := by
  induction ops generalizing p o with
  | nil => injection h with h; injection h with e1 e2; subst e1; rfl
  | cons op ops ih =>
    obtain ⟨⟨p1, o1⟩, h1, h⟩ := Res.bind_eq_ok.mp h
    obtain ⟨⟨p2, o2⟩, h2, h⟩ := Res.bind_eq_ok.mp h
    injection h with h; injection h with e1 e2; subst e1 e2
    exact (ih (I.step h1) h2).trans (step_skipMark I h1)

/-- **C67, mark bytes, `_partial`.**  A CP built to send mark bytes (as is the default) keeps sending unless the PD announced a
receive buffer of 1 to 68 bytes.  The full statement has no such exception. -/
theorem C67_with_mark_partial (C : Cipher) (info : PdM.Info) (i n : Nat) (p q s : Pd) (ops : List Op)
    (es : List (Bool × Env)) (o o' : List Out) (t d : Int) (hs : newPd info i false n = some p)
    (h : run C p ops = .ok (q, o)) (ht : 0 ≤ t) (hb : Before t ops) (hd : 0 ≤ d) (hes : Regular d t es)
    (h' : run C q (asOps es) = .ok (s, o')) (hlong : (6 + q.cmdQueue.length) * (300000 + d) < lastVisit t es - t) :
    sent o' ≠ [] ∨ 1 ≤ s.peerRx ∧ s.peerRx ≤ 68 := by
  refine (C67_keeps_sending_partial C info i n false p q s ops es o o' t d hs h ht hb hd hes h' hlong).imp_right fun hM => ?_
  rcases hM.1 with h1 | ⟨h1, -⟩
  · exact h1
  · exfalso
    have I := (newPd_inv hs).1
    have Iq := (run_timers I (newPd_timers ht hs) hb h).2
    have hp : p.flags.skipMark = false := by
      unfold newPd at hs
      split at hs
      · cases hs
      injection hs with hs; subst hs; rfl
    rw [run_skipMark Iq h', run_skipMark I h, hp] at h1
    cases h1

end Osdp.CpM
