import Verif.Lemmas.CpFrame
import Verif.Model.CpRun

/-! # Histories of a CP's PD object, and an invariant of its state machine -/

namespace Osdp.CpM

/-- does the reply at hand complete the exchange -/
def verdict (p : Pd) : Bool :=
  match p.state with
  | .init => p.replyId == Id.PDID
  | .capdet => p.replyId == Id.PDCAP
  | .scChlng => p.replyId == Id.CCRYPT
  | .scScrypt => p.replyId == Id.RMAC_I
  | .setScbk => p.replyId == Id.ACK
  | .online => if p.replyId = Id.ACK then true else if p.replyId = Id.NAK ∨ p.replyId = 0 then false else expectedReply p
  | _ => false

theorem stateCheckReply_inv {cb : Bool} {p q : Pd} {outs : List Out} {ok : Bool} (h : stateCheckReply cb p = .ok (q, outs, ok)) :
    ok = verdict p ∧ ((q = p ∧ outs = [] ∧ ¬ (p.state = .online ∧ p.replyId = Id.ACK ∧ p.cmdId = Id.KEYSET)) ∨
      (p.state = .online ∧ p.replyId = Id.ACK ∧ p.cmdId = Id.KEYSET ∧ keysetComplete cb p = .ok (q, outs))) := by
  unfold stateCheckReply at h
  unfold verdict
  cases hs : p.state with
  | online =>
    rw [hs] at h
    dsimp only at h ⊢
    unfold checkOnline at h
    split at h
    · rename_i ha
      rw [if_pos ha]
      split at h
      · rename_i hk
        obtain ⟨⟨p1, o1⟩, h1, h⟩ := Res.bind_eq_ok.mp h
        injection h with h; injection h with e1 h; injection h with e2 e3; subst e1 e2 e3
        exact ⟨rfl, .inr ⟨rfl, ha, hk, h1⟩⟩
      · rename_i hk
        injection h with h; injection h with e1 h; injection h with e2 e3; subst e1 e2 e3
        exact ⟨rfl, .inl ⟨rfl, rfl, fun x => hk x.2.2⟩⟩
    · rename_i ha
      rw [if_neg ha]
      split at h
      · rename_i hn
        rw [if_pos hn]
        injection h with h; injection h with e1 h; injection h with e2 e3; subst e1 e2 e3
        exact ⟨rfl, .inl ⟨rfl, rfl, fun x => ha x.2.1⟩⟩
      · rename_i hn
        rw [if_neg hn]
        injection h with h; injection h with e1 h; injection h with e2 e3; subst e1 e2 e3
        exact ⟨rfl, .inl ⟨rfl, rfl, fun x => ha x.2.1⟩⟩
  | _ =>
    rw [hs] at h
    injection h with h; injection h with e1 h; injection h with e2 e3; subst e1 e2 e3
    exact ⟨rfl, .inl ⟨rfl, rfl, fun x => by cases x.1⟩⟩

/-- the event callback call of a pending event -/
def eventOuts (cb : Bool) (p : Pd) : List Out :=
  match cb, p.eph with
  | true, .event e => [.event p.idx e]
  | _, _ => []

/-- pending requests, as a function -/
def afterRequests (p : Pd) : Pd :=
  { (if p.reqRestartSc then (Phy.stateReset p true).1 else p) with
    reqRestartSc := false, reqOffline := false, reqEventSend := false }

theorem requests_inv {cb : Bool} {p q : Pd} {n m : CpState} {outs : List Out} (h : requests cb p n = .ok (q, outs, m)) :
    (¬ (p.state = .online ∨ n = .online) ∧ q = p ∧ outs = [] ∧ m = n) ∨
    ((p.state = .online ∨ n = .online) ∧ q = afterRequests p ∧
      m = (if p.reqOffline then .offline else if p.reqRestartSc then .scChlng else n) ∧
      outs = (if p.reqRestartSc ∧ p.hasFlush then [.flush] else []) ++ (if p.reqEventSend then eventOuts cb p else [])) := by
  unfold requests at h
  split at h
  · rename_i hs
    refine .inr ⟨hs, ?_⟩
    have ev : ∀ {r : Pd} {o : List Out}, doEvent cb r = .ok o → r.idx = p.idx → r.eph = p.eph → o = eventOuts cb p := by
      intro r o h hi he
      unfold doEvent at h
      unfold eventOuts
      rw [hi, he] at h
      cases cb with
      | false => rw [if_neg (by simp)] at h; injection h with h; exact h.symm
      | true =>
        rw [if_pos rfl] at h
        split at h
        · rename_i e hev
          injection h with h; rw [hev]; exact h.symm
        · cases h
    unfold afterRequests
    have key : ∀ p : Pd, p.reqRestartSc = false → p.reqOffline = false → p.reqEventSend = false →
        p = { p with reqRestartSc := false, reqOffline := false, reqEventSend := false } := by
      intro p h1 h2 h3
      cases p; cases h1; cases h2; cases h3; rfl
    cases hr : p.reqRestartSc <;> cases ho : p.reqOffline <;> cases he : p.reqEventSend <;>
      simp only [hr, ho, he, Phy.stateReset, Bool.false_eq_true, if_true, if_false, false_and, true_and] at h ⊢
    all_goals first
      | (injection h with h; injection h with e1 h; injection h with e2 e3; subst e1 e2 e3
         refine ⟨?_, rfl, ?_⟩ <;> simp [hr, ho, he]
         done)
      | (injection h with h; injection h with e1 h; injection h with e2 e3; subst e1 e2 e3
         exact ⟨key p hr ho he, rfl, rfl⟩)
      | (obtain ⟨o, h1, h⟩ := Res.bind_eq_ok.mp h
         injection h with h; injection h with e1 h; injection h with e2 e3; subst e1 e2 e3
         have := ev h1 rfl rfl
         subst this
         refine ⟨?_, rfl, ?_⟩ <;> simp [hr, ho, he]
         done)
  · rename_i hs
    injection h with h; injection h with e1 h; injection h with e2 e3; subst e1 e2 e3
    exact .inl ⟨hs, rfl, rfl, rfl⟩

/-! ### the invariant -/

/-- what holds of a PD object of the CP between two visits -/
structure Inv (p : Pd) : Prop where
  cp : p.flags.pdMode = false
  phy : p.phyState = .idle ∨ p.phyState = .sendCmd ∨ p.phyState = .replyWait ∨ p.phyState = .wait
  restart : p.reqRestartSc = false
  lo : -1 ≤ p.seq
  hi : p.seq ≤ 3
  asked : p.phyState = .replyWait → 0 ≤ p.seq
  probe : p.state ≠ .probe
  secure : p.flags.scActive = true → p.state = .online ∨ p.state = .setScbk
  cmd : p.phyState ≠ .idle → CmdOf p.state p.cmdId
  install : p.state = .setScbk → p.flags.useScbkd = true

/-- what holds when the exchange is over and the next state is to be chosen -/
structure Pre (p : Pd) : Prop where
  cp : p.flags.pdMode = false
  phy : p.phyState = .idle
  restart : p.reqRestartSc = true → p.state = .online ∧ p.flags.scActive = false
  lo : -1 ≤ p.seq
  hi : p.seq ≤ 3
  probe : p.state ≠ .probe
  secure : p.flags.scActive = true → p.state = .online ∨ p.state = .setScbk
  install : p.state = .setScbk → p.flags.useScbkd = true

/-- what holds when the next state `n` has been chosen -/
structure Turn (p : Pd) (cur n : CpState) : Prop where
  cp : p.flags.pdMode = false
  phy : p.phyState = .idle
  state : p.state = cur
  restart : p.reqRestartSc = true → cur = .online ∧ p.flags.scActive = false
  lo : -1 ≤ p.seq
  hi : p.seq ≤ 3
  probe : n ≠ .probe
  secure : p.flags.scActive = true → n = .online ∨ n = .setScbk ∨ n = .offline
  install : n = .setScbk → p.flags.useScbkd = true
  off : cur = .offline → p.flags.scActive = false

theorem turn_ok {cb : Bool} {p p1 : Pd} {now : Int} {outs : List Out} {n : CpState} (I : Pre p)
    (h : nextOk cb p now = .ok (p1, outs, n)) : Turn p1 p.state n := by
  have hr : p.state ≠ .online → p.reqRestartSc = false := by
    intro hn
    cases hr : p.reqRestartSc with
    | false => rfl
    | true => exact absurd (I.restart hr).1 hn
  have ha : p.state ≠ .online → p.state ≠ .setScbk → p.flags.scActive = false := by
    intro h1 h2
    cases ha : p.flags.scActive with
    | false => rfl
    | true => rcases I.secure ha with h | h <;> contradiction
  unfold nextOk at h
  cases hs : p.state <;> rw [hs] at h hr ha <;> dsimp only at h
  case init =>
    injection h with h; injection h with e1 h; injection h with e2 e3; subst e1 e2 e3
    exact ⟨I.cp, I.phy, hs, by simp [hr], I.lo, I.hi, by simp, by simp [ha], by simp, by simp⟩
  case capdet =>
    split at h
    · injection h with h; injection h with e1 h; injection h with e2 e3; subst e1 e2 e3
      exact ⟨I.cp, I.phy, hs, by simp [hr, setUseScbkd], I.lo, I.hi, by simp, by simp [ha, setUseScbkd], by simp, by simp⟩
    · injection h with h; injection h with e1 h; injection h with e2 e3; subst e1 e2 e3
      exact ⟨I.cp, I.phy, hs, by simp [hr], I.lo, I.hi, by split <;> simp, by simp [ha], by split <;> simp, by simp⟩
  case scChlng =>
    injection h with h; injection h with e1 h; injection h with e2 e3; subst e1 e2 e3
    exact ⟨I.cp, I.phy, hs, by simp [hr], I.lo, I.hi, by simp, by simp [ha], by simp, by simp⟩
  case scScrypt =>
    split at h
    · rename_i hu
      injection h with h; injection h with e1 h; injection h with e2 e3; subst e1 e2 e3
      exact ⟨I.cp, I.phy, hs, by simp [hr, fillLocalKeyset, Pd.scActivate], I.lo, I.hi, by simp, by simp, fun _ => hu, by simp⟩
    · injection h with h; injection h with e1 h; injection h with e2 e3; subst e1 e2 e3
      exact ⟨I.cp, I.phy, hs, by simp [hr, Pd.scActivate], I.lo, I.hi, by simp, by simp, by simp, by simp⟩
  case setScbk =>
    obtain ⟨⟨p2, o2⟩, h1, h⟩ := Res.bind_eq_ok.mp h
    injection h with h; injection h with e1 h; injection h with e2 e3; subst e1 e2 e3
    obtain ⟨k, -, rfl, -⟩ := keysetComplete_inv h1
    exact ⟨I.cp, I.phy, hs, by simp [hr, hs], I.lo, I.hi, by simp, by simp, by simp, by simp⟩
  case online =>
    injection h with h; injection h with e1 h; injection h with e2 e3; subst e1 e2 e3
    refine ⟨I.cp, I.phy, hs, fun h => ⟨rfl, (I.restart h).2⟩, I.lo, I.hi, by split <;> simp, fun h => ?_, by split <;> simp, by simp⟩
    have : scShouldRetry p now = false := by unfold scShouldRetry Pd.scActive; rw [h]; simp
    rw [this]; simp
  case offline =>
    injection h with h; injection h with e1 h; injection h with e2 e3; subst e1 e2 e3
    exact ⟨I.cp, I.phy, hs, by simp [hr], I.lo, I.hi, by split <;> simp, by simp [ha], by split <;> simp, by simp [ha]⟩
  case probe => exact absurd hs I.probe

theorem turn_err {cb : Bool} {p p1 : Pd} {now : Int} {outs : List Out} {n : CpState} (I : Pre p)
    (h : nextErr cb p now = .ok (p1, outs, n)) : Turn p1 p.state n := by
  have hr : p.state ≠ .online → p.reqRestartSc = false := by
    intro hn
    cases hr : p.reqRestartSc with
    | false => rfl
    | true => exact absurd (I.restart hr).1 hn
  have ha : p.state ≠ .online → p.state ≠ .setScbk → p.flags.scActive = false := by
    intro h1 h2
    cases ha : p.flags.scActive with
    | false => rfl
    | true => rcases I.secure ha with h | h <;> contradiction
  unfold nextErr at h
  cases hs : p.state <;> rw [hs] at h hr ha <;> dsimp only at h
  case init =>
    injection h with h; injection h with e1 h; injection h with e2 e3; subst e1 e2 e3
    exact ⟨I.cp, I.phy, hs, by simp [hr], I.lo, I.hi, by simp, by simp, by simp, by simp⟩
  case capdet =>
    injection h with h; injection h with e1 h; injection h with e2 e3; subst e1 e2 e3
    exact ⟨I.cp, I.phy, hs, by simp [hr], I.lo, I.hi, by simp, by simp, by simp, by simp⟩
  case scChlng =>
    split at h
    · injection h with h; injection h with e1 h; injection h with e2 e3; subst e1 e2 e3
      exact ⟨I.cp, I.phy, hs, by simp [hr], I.lo, I.hi, by simp, by simp, by simp, by simp⟩
    split at h
    · injection h with h; injection h with e1 h; injection h with e2 e3; subst e1 e2 e3
      exact ⟨I.cp, I.phy, hs, by simp [hr, setUseScbkd], I.lo, I.hi, by simp, by simp [ha, setUseScbkd], by simp, by simp⟩
    · injection h with h; injection h with e1 h; injection h with e2 e3; subst e1 e2 e3
      exact ⟨I.cp, I.phy, hs, by simp [hr, setUseScbkd], I.lo, I.hi, by simp, by simp, by simp, by simp⟩
  case scScrypt =>
    injection h with h; injection h with e1 h; injection h with e2 e3; subst e1 e2 e3
    exact ⟨I.cp, I.phy, hs, by simp [hr], I.lo, I.hi, by split <;> simp, by simp [ha], by split <;> simp, by simp⟩
  case setScbk =>
    injection h with h; injection h with e1 h; injection h with e2 e3; subst e1 e2 e3
    exact ⟨I.cp, I.phy, hs, by simp [hr, Pd.scDeactivate], I.lo, I.hi, by split <;> simp, by simp [Pd.scDeactivate], by split <;> simp, by simp⟩
  case online =>
    injection h with h; injection h with e1 h; injection h with e2 e3; subst e1 e2 e3
    exact ⟨I.cp, I.phy, hs, fun h => ⟨rfl, (I.restart h).2⟩, I.lo, I.hi, by simp, by simp, by simp, by simp⟩
  case offline =>
    injection h with h; injection h with e1 h; injection h with e2 e3; subst e1 e2 e3
    exact ⟨I.cp, I.phy, hs, by simp [hr], I.lo, I.hi, by simp, by simp [ha], by simp, by simp [ha]⟩
  case probe => exact absurd hs I.probe

theorem turn_requests {cb : Bool} {p q : Pd} {cur n m : CpState} {outs : List Out} (T : Turn p cur n)
    (h : requests cb p n = .ok (q, outs, m)) : Turn q cur m ∧ q.reqRestartSc = false := by
  rcases requests_inv h with ⟨hn, rfl, -, rfl⟩ | ⟨hon, rfl, rfl, -⟩
  · refine ⟨T, ?_⟩
    cases hr : q.reqRestartSc with
    | false => rfl
    | true => exact absurd (.inl (T.state.trans (T.restart hr).1)) hn
  · have hf : (afterRequests p).flags = p.flags := by
      unfold afterRequests Phy.stateReset
      dsimp only
      split <;> rfl
    have hst : (afterRequests p).state = p.state := by
      unfold afterRequests Phy.stateReset
      dsimp only
      split <;> rfl
    have hps : (afterRequests p).phyState = .idle := by
      unfold afterRequests Phy.stateReset
      dsimp only
      split
      · rfl
      · exact T.phy
    have hsq : (afterRequests p).seq = p.seq ∨ (afterRequests p).seq = -1 := by
      unfold afterRequests Phy.stateReset
      dsimp only
      split
      · exact .inr rfl
      · exact .inl rfl
    have hlo := T.lo
    have hhi := T.hi
    refine ⟨⟨by rw [hf]; exact T.cp, hps, by rw [hst]; exact T.state, (fun h => by cases h), by omega, by omega, ?_, ?_, ?_, ?_⟩, rfl⟩
    · split
      · simp
      · split
        · simp
        · exact T.probe
    · rw [hf]
      intro ha
      split
      · simp
      · split
        · rename_i hr
          rw [(T.restart hr).2] at ha; cases ha
        · exact T.secure ha
    · rw [hf]
      intro hm
      split at hm
      · cases hm
      · split at hm
        · cases hm
        · exact T.install hm
    · rw [hf]; exact T.off

theorem advanced {cb : Bool} {p q : Pd} {env : Env} {ok : Bool} {outs : List Out} (I : Pre p)
    (h : advance cb p env p.state ok = .ok (q, outs)) : Inv q ∧ q.phyState = .idle := by
  cases advance_inv h with
  | mk h1 h2 =>
  rename_i p1 p2 o1 o2 n1 n2
  have T1 : Turn p1 p.state n1 := by
    cases ok with
    | true => exact turn_ok I h1
    | false => exact turn_err I h1
  obtain ⟨T, hr⟩ := turn_requests T1 h2
  have hlo := T.lo
  have hhi := T.hi
  have hph : p2.phyState = .replyWait → 0 ≤ p2.seq := fun h => by rw [T.phy] at h; cases h
  have hsc : n2 ≠ .online → n2 ≠ .setScbk → n2 ≠ .offline → p2.flags.scActive ≠ true := by
    intro h1 h2 h3 h
    rcases T.secure h with h | h | h <;> contradiction
  by_cases hc : p.state ≠ n2
  · rw [if_pos hc]
    unfold stateChange
    cases n2 with
    | init => exact ⟨⟨T.cp, .inl rfl, hr, by simp [Phy.stateReset], by simp [Phy.stateReset], (fun h => by cases h), by simp,
        fun h => absurd h (hsc (by simp) (by simp) (by simp)), fun h => absurd rfl h, (fun h => by cases h)⟩, rfl⟩
    | online => exact ⟨⟨T.cp, .inl T.phy, hr, T.lo, T.hi, hph, by simp, fun _ => .inl rfl, fun h => absurd T.phy h,
        (fun h => by cases h)⟩, T.phy⟩
    | offline => exact ⟨⟨T.cp, .inl T.phy, hr, T.lo, T.hi, hph, by simp, (fun h => by cases h), fun h => absurd T.phy h,
        (fun h => by cases h)⟩, T.phy⟩
    | scChlng => exact ⟨⟨T.cp, .inl T.phy, hr, T.lo, T.hi, hph, by simp,
        fun h => absurd h (hsc (by simp) (by simp) (by simp)), fun h => absurd T.phy h, (fun h => by cases h)⟩, T.phy⟩
    | capdet => exact ⟨⟨T.cp, .inl T.phy, hr, T.lo, T.hi, hph, by simp,
        fun h => absurd h (hsc (by simp) (by simp) (by simp)), fun h => absurd T.phy h, (fun h => by cases h)⟩, T.phy⟩
    | scScrypt => exact ⟨⟨T.cp, .inl T.phy, hr, T.lo, T.hi, hph, by simp,
        fun h => absurd h (hsc (by simp) (by simp) (by simp)), fun h => absurd T.phy h, (fun h => by cases h)⟩, T.phy⟩
    | setScbk => exact ⟨⟨T.cp, .inl T.phy, hr, T.lo, T.hi, hph, by simp,
        fun _ => .inr rfl, fun h => absurd T.phy h, fun _ => T.install rfl⟩, T.phy⟩
    | probe => exact absurd rfl T.probe
  · rw [if_neg hc]
    have hc : p.state = n2 := Decidable.not_not.mp hc
    subst hc
    refine ⟨⟨T.cp, .inl T.phy, hr, T.lo, T.hi, hph, by rw [T.state]; exact T.probe,
      fun h => ?_, fun h => absurd T.phy h, by rw [T.state]; exact T.install⟩, T.phy⟩
    rw [T.state]
    rcases T.secure h with h' | h' | h'
    · exact .inl h'
    · exact .inr h'
    · rw [T.off h'] at h; cases h

/-- what holds when the phy state machine is not running -/
structure Mid (p : Pd) : Prop where
  cp : p.flags.pdMode = false
  restart : p.reqRestartSc = false
  lo : -1 ≤ p.seq
  hi : p.seq ≤ 3
  probe : p.state ≠ .probe
  secure : p.flags.scActive = true → p.state = .online ∨ p.state = .setScbk
  install : p.state = .setScbk → p.flags.useScbkd = true

theorem Inv.mid {p : Pd} (I : Inv p) : Mid p := ⟨I.cp, I.restart, I.lo, I.hi, I.probe, I.secure, I.install⟩

/-- the state in which the next state is chosen when there is nothing to send -/
theorem nothing_pre {p p1 : Pd} {env : Env} {outs : List Out} {id : Nat} (M : Mid p) (hps : p.phyState = .idle)
    (h : stateGetCmd p env = .ok (p1, outs, id)) : Pre { p1 with cmdId := 0 } := by
  have hc : Chosen p p1 := (stateGetCmd_inv h).1
  unfold Chosen at hc
  rw [hc]
  exact ⟨M.cp, hps, fun h => by (have := M.restart.symm.trans h; cases this), M.lo, M.hi, M.probe, M.secure, M.install⟩

/-- the state in which the next state is chosen when an exchange is over -/
theorem over_pre {cb : Bool} {p p1 : Pd} {outs : List Out} {ok : Bool} (M : Mid p)
    (h : stateCheckReply cb p = .ok (p1, outs, ok)) : Pre (Phy.stateReset p1 false).1 := by
  obtain ⟨-, ⟨rfl, -, -⟩ | ⟨hs, -, -, h⟩⟩ := stateCheckReply_inv h
  · exact ⟨M.cp, rfl, fun h => by (have := M.restart.symm.trans h; cases this), M.lo, M.hi, M.probe, M.secure, M.install⟩
  · obtain ⟨k, -, rfl, -⟩ := keysetComplete_inv h
    exact ⟨M.cp, rfl, fun _ => ⟨hs, rfl⟩, M.lo, M.hi, M.probe, (fun h => by cases h), fun h => by
      rw [show p.state = _ from h] at hs; cases hs⟩

theorem settled {cb : Bool} {p q : Pd} {env : Env} {outs : List Out} (M : Mid p) (h : settle cb p env = .ok (q, outs)) :
    Inv q ∧ (q.phyState = .idle ∨ q.phyState = .sendCmd) := by
  cases settle_inv h with
  | command hps h1 hid =>
    rename_i p1 id
    obtain ⟨hc, hcmd, -, -⟩ := stateGetCmd_inv h1
    unfold Chosen at hc
    rw [hc]
    exact ⟨⟨M.cp, .inr (.inl rfl), M.restart, M.lo, M.hi, (fun h => by cases h), M.probe, M.secure, fun _ => hcmd hid, M.install⟩,
      .inr rfl⟩
  | nothing hps h1 h2 =>
    obtain ⟨I, h⟩ := advanced (nothing_pre M hps h1) h2
    exact ⟨I, .inl h⟩
  | over hps h1 h2 =>
    obtain ⟨I, h⟩ := advanced (over_pre M h1) h2
    exact ⟨I, .inl h⟩

theorem SendOutcome.seqNo {C : Cipher} {p q : Pd} {env : Env} {outs : List Out} {ok : Bool} (h : SendOutcome C p env q outs ok) :
    (q.seq = Phy.nextSeq p.seq true) ∨ (q.seq = p.seq ∧ ok = false ∧ outs = [] ∧ p.txBufSize < 69) := by
  cases h with
  | mute h => exact .inr ⟨rfl, rfl, rfl, h⟩
  | unbuilt b _ _ ho _ => rw [ho.keeps]; exact .inl rfl
  | built b l q o ok _ _ ho _ _ hs _ _ =>
    unfold Phy.Sending at hs
    rw [hs, ho.keeps]; exact .inl rfl

theorem nextSeq_range {s : Int} (h1 : -1 ≤ s) (h2 : s ≤ 3) : 0 ≤ Phy.nextSeq s true ∧ Phy.nextSeq s true ≤ 3 := by
  unfold Phy.nextSeq
  rw [if_pos rfl]
  split <;> omega

theorem Sent.keeps {p q : Pd} (h : Sent p q) : q.state = p.state ∧ q.phyState = p.phyState ∧ q.cmdId = p.cmdId ∧
    q.cmdQueue = p.cmdQueue ∧ q.retryCount = p.retryCount ∧ q.phyTstamp = p.phyTstamp ∧ q.waitMs = p.waitMs ∧
    q.reqRestartSc = p.reqRestartSc ∧ q.flags.pdMode = p.flags.pdMode ∧ q.hasFlush = p.hasFlush := by
  unfold Sent at h
  rw [h]
  exact ⟨rfl, rfl, rfl, rfl, rfl, rfl, rfl, rfl, rfl, rfl⟩

/-- a command could not be sent -/
theorem unsent_mid {C : Cipher} {p q : Pd} {env : Env} {outs : List Out} {ok : Bool} (I : Inv p)
    (h : SendOutcome C p env q outs ok) : Mid { q with phyState := .err } := by
  have hs := h.sent
  have hlo := I.lo
  have hhi := I.hi
  have hr := nextSeq_range hlo hhi
  have hq := h.seqNo
  unfold Sent at hs
  rw [hs]
  refine ⟨I.cp, I.restart, ?_, ?_, I.probe, I.secure, I.install⟩ <;> dsimp only <;> rcases hq with h | ⟨h, -⟩ <;> omega

/-- a reply came or did not come -/
theorem heard_mid {C : Cipher} {p q : Pd} {env : Env} {outs : List Out} {rc : CpErr} (I : Inv p) (hps : p.phyState = .replyWait)
    (h : Reply C p env q outs rc) : Mid q := by
  have hh := h.heard
  have hlo := I.asked hps
  have hhi := I.hi
  have hq := h.seqNo I.cp
  have ha := h.scActive
  obtain ⟨k1, k2, k3, k4, k5, k6, k7, k8, k9, k10⟩ := hh.keeps
  refine ⟨k9.trans I.cp, k8.trans I.restart, ?_, ?_, by rw [k1]; exact I.probe, fun h => by rw [k1]; exact I.secure (ha h), ?_⟩
  · rcases hq with h | ⟨h, -⟩ <;> omega
  · rcases hq with h | ⟨h, -⟩ <;> omega
  · rw [k1]
    intro hs
    have hu := I.install hs
    cases h with
    | nothing _ hc _ => exact hc.useScbkd.trans hu
    | bad _ hc _ => exact hc.useScbkd.trans hu
    | busy _ hc => exact hc.useScbkd.trans hu
    | seq _ hc => exact hc.useScbkd.trans hu
    | refused _ hc _ hd _ => exact hd.keepScbkd (hc.useScbkd.trans hu)
    | reply _ hc _ hd _ _ _ _ _ he =>
      have := hd.keepScbkd (hc.useScbkd.trans hu)
      cases he <;> exact this

theorem waited_mid {C : Cipher} {p q : Pd} {env : Env} {outs : List Out} {rc : CpErr} (I : Inv p) (hps : p.phyState = .replyWait)
    (h : Waited C p env q outs rc) : Mid q := by
  cases h with
  | answered h => have M := heard_mid I hps h; exact ⟨M.cp, M.restart, M.lo, M.hi, M.probe, M.secure, M.install⟩
  | ignored h _ _ => have M := heard_mid I hps h; exact ⟨M.cp, M.restart, M.lo, M.hi, M.probe, M.secure, M.install⟩
  | failed h _ => have M := heard_mid I hps h; exact ⟨M.cp, M.restart, M.lo, M.hi, M.probe, M.secure, M.install⟩
  | busy h => have M := heard_mid I hps h; exact ⟨M.cp, M.restart, M.lo, M.hi, M.probe, M.secure, M.install⟩
  | retry h _ _ => have M := heard_mid I hps h; exact ⟨M.cp, M.restart, M.lo, M.hi, M.probe, M.secure, M.install⟩
  | exhausted h _ _ => have M := heard_mid I hps h; exact ⟨M.cp, M.restart, M.lo, M.hi, M.probe, M.secure, M.install⟩
  | waiting h _ => exact heard_mid I hps h

theorem Inv.update {C : Cipher} {cb : Bool} {p q : Pd} {env : Env} {outs : List Out} {y : Bool} (I : Inv p)
    (h : Update C cb p env q outs y) : Inv q := by
  cases h with
  | hold _ _ => exact I
  | sent hm h =>
    rename_i p1
    obtain ⟨k1, k2, k3, k4, k5, k6, k7, k8, k9, k10⟩ := h.sent.keeps
    have M := unsent_mid I h
    have hq : p1.seq = Phy.nextSeq p.seq true := by
      rcases h.seqNo with h | ⟨-, h, -⟩
      · exact h
      · cases h
    have := nextSeq_range I.lo I.hi
    refine ⟨M.cp, .inr (.inr (.inl rfl)), M.restart, M.lo, M.hi, fun _ => ?_, M.probe, M.secure, fun _ => ?_, M.install⟩
    · show 0 ≤ p1.seq
      rw [hq]; exact this.1
    · show CmdOf p1.state p1.cmdId
      rw [k1, k3]
      refine I.cmd ?_
      rcases hm with h | ⟨h, -⟩ <;> rw [h] <;> simp
  | unsent _ h1 h2 => exact (settled (unsent_mid I h1) h2).1
  | replied hps h1 _ h2 => exact (settled (waited_mid I hps h1) h2).1
  | again hps h1 =>
    have M := waited_mid I hps h1
    have hcmd := I.cmd (by rw [hps]; simp)
    cases h1 with
    | busy h =>
      obtain ⟨k1, k2, k3, -⟩ := h.heard.keeps
      exact ⟨M.cp, .inr (.inr (.inr rfl)), M.restart, M.lo, M.hi, (fun h => by cases h), M.probe, M.secure,
        fun _ => by dsimp only; rw [k1, k3]; exact hcmd, M.install⟩
    | retry h _ _ =>
      obtain ⟨k1, k2, k3, -⟩ := h.heard.keeps
      exact ⟨M.cp, .inr (.inr (.inr rfl)), M.restart, M.lo, M.hi, (fun h => by cases h), M.probe, M.secure,
        fun _ => by dsimp only; rw [k1, k3]; exact hcmd, M.install⟩
  | waiting hps h1 =>
    have M := waited_mid I hps h1
    have hcmd := I.cmd (by rw [hps]; simp)
    cases h1 with
    | waiting h _ =>
      obtain ⟨k1, k2, k3, -⟩ := h.heard.keeps
      have hq := h.seqNo I.cp
      have := I.asked hps
      refine ⟨M.cp, .inr (.inr (.inl (k2.trans hps))), M.restart, M.lo, M.hi, fun _ => ?_, M.probe, M.secure,
        fun _ => by rw [k1, k3]; exact hcmd, M.install⟩
      rcases hq with h | ⟨-, h, -⟩
      · omega
      · cases h
  | idle _ h => exact (settled I.mid h).1

theorem modifyPd_flags (p : Pd) (f : BitVec 32) (b : Bool) :
    (modifyPd p f b).1 = { p with flags := { p.flags with
      enforceSecure := (modifyPd p f b).1.flags.enforceSecure
      installMode := (modifyPd p f b).1.flags.installMode
      ignUnsolicited := (modifyPd p f b).1.flags.ignUnsolicited } } := by
  unfold modifyPd
  split <;> rfl

/-- what `osdp_cp_send_command` can change -/
theorem sendPd_keeps (p : Pd) (env : Env) (c : Cmd) :
    (sendPd p env c).1 = { p with cmdQueue := (sendPd p env c).1.cmdQueue, file := (sendPd p env c).1.file } := by
  unfold sendPd
  split
  · rfl
  · dsimp only
    split
    · rfl
    · split
      · rfl
      · split <;> rfl
    · split <;> rfl

theorem Inv.step {C : Cipher} {p q : Pd} {op : Op} {outs : List Out} (I : Inv p) (h : step C p op = .ok (q, outs)) : Inv q := by
  cases op with
  | update cb env =>
    obtain ⟨⟨p1, o1, y⟩, h1, h⟩ := Res.bind_eq_ok.mp h
    injection h with h; injection h with e1 e2; subst e1 e2
    exact I.update (stateUpdate_inv I.cp h1)
  | send env c =>
    injection h with h; injection h with e1 e2; subst e1
    rw [sendPd_keeps]
    exact ⟨I.cp, I.phy, I.restart, I.lo, I.hi, I.asked, I.probe, I.secure, I.cmd, I.install⟩
  | flush =>
    injection h with h; injection h with e1 e2; subst e1
    exact ⟨I.cp, I.phy, I.restart, I.lo, I.hi, I.asked, I.probe, I.secure, I.cmd, I.install⟩
  | flag f b =>
    injection h with h; injection h with e1 e2; subst e1
    rw [modifyPd_flags]
    exact ⟨I.cp, I.phy, I.restart, I.lo, I.hi, I.asked, I.probe, I.secure, I.cmd, I.install⟩
  | fileOps =>
    injection h with h; injection h with e1 e2; subst e1
    exact ⟨I.cp, I.phy, I.restart, I.lo, I.hi, I.asked, I.probe, I.secure, I.cmd, I.install⟩
  | share =>
    injection h with h; injection h with e1 e2; subst e1
    exact ⟨I.cp, I.phy, I.restart, I.lo, I.hi, I.asked, I.probe, I.secure, I.cmd, I.install⟩

/-! ### histories -/

theorem run_snoc {C : Cipher} {p q s : Pd} {ops : List Op} {op : Op} {o o' : List Out} (h : run C p ops = .ok (q, o))
    (hs : CpM.step C q op = .ok (s, o')) : run C p (ops ++ [op]) = .ok (s, o ++ o') := by
  induction ops generalizing p o with
  | nil =>
    injection h with h; injection h with e1 e2; subst e1 e2
    show run C p [op] = _
    unfold run
    rw [hs]
    simp only [Res.ok_bind, run]
    show Except.ok (s, o' ++ []) = _
    rw [List.append_nil, List.nil_append]
  | cons a l ih =>
    obtain ⟨⟨p1, o1⟩, h2, h⟩ := Res.bind_eq_ok.mp h
    obtain ⟨⟨p2, o2⟩, h3, h⟩ := Res.bind_eq_ok.mp h
    injection h with h; injection h with e1 e2; subst e1 e2
    rw [List.cons_append]
    unfold run
    rw [h2]
    simp only [Res.ok_bind]
    rw [ih h3]
    show Except.ok _ = Except.ok _
    rw [List.append_assoc]

/-- Induction over a history, the last call first. -/
theorem run_ind {C : Cipher} {p : Pd} (I : List Op → Pd → List Out → Prop) (h0 : I [] p [])
    (hstep : ∀ ops op q o s o', run C p ops = .ok (q, o) → I ops q o → CpM.step C q op = .ok (s, o') → I (ops ++ [op]) s (o ++ o'))
    {ops : List Op} {q : Pd} {o : List Out} (h : run C p ops = .ok (q, o)) : I ops q o := by
  have key : ∀ (l pre : List Op) (r : Pd) (o1 : List Out), run C p pre = .ok (r, o1) → I pre r o1 →
      ∀ q o2, run C r l = .ok (q, o2) → I (pre ++ l) q (o1 ++ o2) := by
    intro l
    induction l with
    | nil =>
      intro pre r o1 hr hI q o2 h
      injection h with h; injection h with e1 e2; subst e1 e2
      rw [List.append_nil, List.append_nil]; exact hI
    | cons a l ih =>
      intro pre r o1 hr hI q o2 h
      obtain ⟨⟨p1, x1⟩, h2, h⟩ := Res.bind_eq_ok.mp h
      obtain ⟨⟨p2, x2⟩, h3, h⟩ := Res.bind_eq_ok.mp h
      injection h with h; injection h with e1 e2; subst e1 e2
      have hr' := run_snoc hr h2
      have := ih (pre ++ [a]) p1 (o1 ++ x1) hr' (hstep pre a r o1 p1 x1 hr hI h2) p2 x2 h3
      rw [List.append_assoc, List.append_assoc] at this
      exact this
  exact key ops [] p [] rfl h0 q o h

theorem newPd_inv {info : PdM.Info} {i : Nat} {sk : Bool} {n : Nat} {p : Pd} (h : newPd info i sk n = some p) :
    Inv p ∧ p.seq = -1 ∧ p.phyState = .idle ∧ p.state = .init := by
  unfold newPd at h
  split at h
  · cases h
  · injection h with h; subst h
    exact ⟨⟨rfl, .inl rfl, rfl, show (-1 : Int) ≤ -1 by decide, show (-1 : Int) ≤ 3 by decide, (fun h => by cases h), (fun h => by cases h), (fun h => by cases h),
      fun h => absurd rfl h, (fun h => by cases h)⟩, rfl, rfl, rfl⟩

/-- `q` is the CP's object for a PD after some history -/
def Reached (C : Cipher) (info : PdM.Info) (q : Pd) : Prop :=
  ∃ i sk n p ops o, newPd info i sk n = some p ∧ run C p ops = .ok (q, o)

theorem Reached.inv {C : Cipher} {info : PdM.Info} {q : Pd} (h : Reached C info q) : Inv q := by
  obtain ⟨i, sk, n, p, ops, o, hn, hr⟩ := h
  exact run_ind (C := C) (p := p) (fun _ q _ => Inv q) (newPd_inv hn).1 (fun _ _ _ _ _ _ _ I h => I.step h) hr

end Osdp.CpM
