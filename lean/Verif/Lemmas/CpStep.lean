import Verif.Lemmas.CpReply

/-! # One step of the CP for one PD, case by case -/

namespace Osdp.CpM

/-- the state after a command was sent -/
def sentState (p : Pd) (now : Int) : Pd :=
  { (Phy.stateReset p false).1 with replyId := 0, phyState := .replyWait, phyTstamp := now }

/-- the phy state machine lets a command out -/
def MaySend (p : Pd) (env : Env) : Prop :=
  p.phyState = .sendCmd ∨ p.phyState = .wait ∧ ¬ env.now - p.phyTstamp < p.waitMs

/-- All outcomes of `state_update`; the Boolean says "may yield". -/
inductive Update (C : Cipher) (cb : Bool) (p : Pd) (env : Env) : Pd → List Out → Bool → Prop
  /-- time to wait before a command is sent again -/
  | hold : p.phyState = .wait → env.now - p.phyTstamp < p.waitMs → Update C cb p env p [] true
  /-- a command goes out -/
  | sent {p1 : Pd} {outs : List Out} : MaySend p env → SendOutcome C p env p1 outs true →
      Update C cb p env (sentState p1 env.now) outs false
  /-- a command could not be sent -/
  | unsent {p1 q : Pd} {o1 o2 : List Out} : MaySend p env → SendOutcome C p env p1 o1 false →
      settle cb { p1 with phyState := .err } env = .ok (q, o2) → Update C cb p env q (o1 ++ o2) true
  /-- the exchange came to an end -/
  | replied {p1 q : Pd} {o1 o2 : List Out} {rc : CpErr} : p.phyState = .replyWait → Waited C p env p1 o1 rc →
      rc = .none ∨ rc = .generic → settle cb p1 env = .ok (q, o2) → Update C cb p env q (o1 ++ o2) true
  /-- to be sent again -/
  | again {q : Pd} {outs : List Out} : p.phyState = .replyWait → Waited C p env q outs .canYield →
      Update C cb p env q outs true
  /-- no reply yet -/
  | waiting {q : Pd} {outs : List Out} : p.phyState = .replyWait → Waited C p env q outs .inprog →
      Update C cb p env q outs false
  /-- no exchange going on -/
  | idle {q : Pd} {outs : List Out} : p.phyState = .idle ∨ p.phyState = .done ∨ p.phyState = .err →
      settle cb p env = .ok (q, outs) → Update C cb p env q outs true

theorem Waited.rc {C : Cipher} {p q : Pd} {env : Env} {outs : List Out} {rc : CpErr} (h : Waited C p env q outs rc) :
    rc = .none ∨ rc = .generic ∨ rc = .canYield ∨ rc = .inprog := by cases h <;> simp

theorem stateUpdate_inv {C : Cipher} {cb : Bool} {p q : Pd} {env : Env} {outs : List Out} {y : Bool}
    (hp : p.flags.pdMode = false) (h : stateUpdate C cb p env = .ok (q, outs, y)) : Update C cb p env q outs y := by
  unfold stateUpdate at h
  have send : phySend C p env >>= (fun x => if x.2.2 = CpErr.inprog then Except.ok (x.1, x.2.1, false)
      else if x.2.2 = CpErr.canYield then Except.ok (x.1, x.2.1, true)
      else settle cb x.1 env >>= fun y => Except.ok (y.1, x.2.1 ++ y.2, true)) = Except.ok (q, outs, y) →
      MaySend p env → Update C cb p env q outs y := by
    intro h hm
    obtain ⟨⟨p1, o1, rc⟩, h1, h⟩ := Res.bind_eq_ok.mp h
    unfold phySend at h1
    obtain ⟨⟨p2, o2, ok⟩, h2, h1⟩ := Res.bind_eq_ok.mp h1
    have ho := buildAndSend_outcome hp h2
    cases ok with
    | true =>
      injection h1 with h1; injection h1 with e1 h1; injection h1 with e2 e3; subst e1 e2 e3
      injection h with h; injection h with e1 h; injection h with e2 e3; subst e1 e2 e3
      exact .sent hm ho
    | false =>
      replace h1 := ite_inv h1
      rcases h1 with ⟨h0, -⟩ | ⟨-, h1⟩
      · cases h0
      split at h1
      · injection h1 with h1; injection h1 with e1 h1; injection h1 with e2 e3; subst e1 e2 e3
        obtain ⟨⟨p3, o3⟩, h3, h⟩ := Res.bind_eq_ok.mp h
        injection h with h; injection h with e1 h; injection h with e2 e3; subst e1 e2 e3
        exact .unsent hm ho h3
      · cases h1
  have run : ∀ rc' : Res (Pd × List Out × CpErr), (rc' >>= fun x => if x.2.2 = CpErr.inprog then Except.ok (x.1, x.2.1, false)
      else if x.2.2 = CpErr.canYield then Except.ok (x.1, x.2.1, true)
      else settle cb x.1 env >>= fun y => Except.ok (y.1, x.2.1 ++ y.2, true)) = Except.ok (q, outs, y) →
      phyUpdate C p env = rc' → phyRunning p = true → Update C cb p env q outs y := by
    intro rc' h he hr
    unfold phyUpdate at he
    cases hps : p.phyState with
    | idle => unfold phyRunning at hr; rw [hps] at hr; cases hr
    | done => unfold phyRunning at hr; rw [hps] at hr; cases hr
    | err => unfold phyRunning at hr; rw [hps] at hr; cases hr
    | sendCmd => rw [hps] at he; dsimp only at he; subst he; exact send h (.inl hps)
    | wait =>
      rw [hps] at he; dsimp only at he
      split at he
      · rename_i hw
        subst he
        injection h with h; injection h with e1 h; injection h with e2 e3; subst e1 e2 e3
        exact .hold hps hw
      · rename_i hw; subst he; exact send h (.inr ⟨hps, hw⟩)
    | replyWait =>
      rw [hps] at he; dsimp only at he; subst he
      obtain ⟨⟨p1, o1, rc⟩, h1, h⟩ := Res.bind_eq_ok.mp h
      have hw := phyReply_inv h1
      rcases hw.rc with hrc | hrc | hrc | hrc <;> subst hrc
      · obtain ⟨⟨p3, o3⟩, h3, h⟩ := Res.bind_eq_ok.mp h
        injection h with h; injection h with e1 h; injection h with e2 e3; subst e1 e2 e3
        exact .replied hps hw (.inl rfl) h3
      · obtain ⟨⟨p3, o3⟩, h3, h⟩ := Res.bind_eq_ok.mp h
        injection h with h; injection h with e1 h; injection h with e2 e3; subst e1 e2 e3
        exact .replied hps hw (.inr rfl) h3
      · injection h with h; injection h with e1 h; injection h with e2 e3; subst e1 e2 e3
        exact .again hps hw
      · injection h with h; injection h with e1 h; injection h with e2 e3; subst e1 e2 e3
        exact .waiting hps hw
  by_cases hr : phyRunning p = true
  · rw [if_pos hr] at h
    exact run _ h rfl hr
  · rw [if_neg hr] at h
    replace h : (settle cb p env >>= fun x => Except.ok (x.1, [] ++ x.2, true)) = Except.ok (q, outs, y) := h
    obtain ⟨⟨p3, o3⟩, h3, h⟩ := Res.bind_eq_ok.mp h
    injection h with h; injection h with e1 h; injection h with e2 e3; subst e1 e2 e3
    refine .idle ?_ h3
    unfold phyRunning at hr
    cases hps : p.phyState <;> rw [hps] at hr <;> simp at hr ⊢

/-- All outcomes of the second half of `state_update`. -/
inductive Settled (cb : Bool) (p : Pd) (env : Env) : Pd → List Out → Prop
  /-- a new command -/
  | command {p1 : Pd} {outs : List Out} {id : Nat} : p.phyState = .idle → stateGetCmd p env = .ok (p1, outs, id) → 0 < id →
      Settled cb p env { p1 with cmdId := id, phyState := .sendCmd } outs
  /-- nothing to send -/
  | nothing {p1 q : Pd} {o1 o2 : List Out} : p.phyState = .idle → stateGetCmd p env = .ok (p1, o1, 0) →
      advance cb { p1 with cmdId := 0 } env p1.state true = .ok (q, o2) → Settled cb p env q (o1 ++ o2)
  /-- the exchange is over -/
  | over {p1 q : Pd} {o1 o2 : List Out} {ok : Bool} : p.phyState = .done ∨ p.phyState = .err →
      stateCheckReply cb p = .ok (p1, o1, ok) →
      advance cb (Phy.stateReset p1 false).1 env p1.state (p.phyState == .done && ok) = .ok (q, o2) →
      Settled cb p env q (o1 ++ notifyCommand cb p1 ok ++ o2)

theorem settle_inv {cb : Bool} {p q : Pd} {env : Env} {outs : List Out} (h : settle cb p env = .ok (q, outs)) :
    Settled cb p env q outs := by
  unfold settle at h
  have over : ∀ b : Bool, p.phyState = .done ∨ p.phyState = .err → b = (p.phyState == .done) →
      (stateCheckReply cb p >>= fun x => advance cb (Phy.stateReset x.1 false).1 env (Phy.stateReset x.1 false).1.state (b && x.2.2) >>=
        fun y => Except.ok (y.1, x.2.1 ++ notifyCommand cb x.1 x.2.2 ++ y.2)) = Except.ok (q, outs) → Settled cb p env q outs := by
    rintro b hps rfl h
    obtain ⟨⟨p1, o1, ok⟩, h1, h⟩ := Res.bind_eq_ok.mp h
    obtain ⟨⟨p2, o2⟩, h2, h⟩ := Res.bind_eq_ok.mp h
    injection h with h; injection h with e1 e2; subst e1 e2
    exact .over hps h1 h2
  cases hps : p.phyState with
  | idle =>
    rw [hps] at h
    obtain ⟨⟨p1, o1, id⟩, h1, h⟩ := Res.bind_eq_ok.mp h
    replace h := ite_inv h
    rcases h with ⟨hid, h⟩ | ⟨hid, h⟩
    · injection h with h; injection h with e1 e2; subst e1 e2
      exact Settled.command (p1 := p1) (id := id) hps h1 hid
    · have : id = 0 := by omega
      subst this
      obtain ⟨⟨p2, o2⟩, h2, h⟩ := Res.bind_eq_ok.mp h
      injection h with h; injection h with e1 e2; subst e1 e2
      exact .nothing hps h1 h2
  | sendCmd => rw [hps] at h; cases h
  | replyWait => rw [hps] at h; cases h
  | wait => rw [hps] at h; cases h
  | done => rw [hps] at h; exact over _ (.inl hps) (by rw [hps]) h
  | err => rw [hps] at h; exact over _ (.inr hps) (by rw [hps]) h

/-- All outcomes of the choice of the next state. -/
inductive Advanced (cb : Bool) (p : Pd) (env : Env) (cur : CpState) (ok : Bool) : Pd → List Out → Prop
  | mk {p1 p2 : Pd} {o1 o2 : List Out} {n1 n2 : CpState} :
      (if ok then nextOk cb p env.now else nextErr cb p env.now) = .ok (p1, o1, n1) →
      requests cb p1 n1 = .ok (p2, o2, n2) →
      Advanced cb p env cur ok (if cur ≠ n2 then (stateChange cb p2 env n2).1 else p2)
        (o1 ++ o2 ++ if cur ≠ n2 then (stateChange cb p2 env n2).2 else [])

theorem advance_inv {cb : Bool} {p q : Pd} {env : Env} {cur : CpState} {ok : Bool} {outs : List Out}
    (h : advance cb p env cur ok = .ok (q, outs)) : Advanced cb p env cur ok q outs := by
  unfold advance at h
  replace h : ((if ok then nextOk cb p env.now else nextErr cb p env.now) >>= fun x => requests cb x.1 x.2.2 >>= fun y =>
      if cur ≠ y.2.2 then Except.ok ((stateChange cb y.1 env y.2.2).1, x.2.1 ++ y.2.1 ++ (stateChange cb y.1 env y.2.2).2)
      else Except.ok (y.1, x.2.1 ++ y.2.1)) = Except.ok (q, outs) := by
    cases ok <;> exact h
  obtain ⟨⟨p1, o1, n1⟩, h1, h⟩ := Res.bind_eq_ok.mp h
  obtain ⟨⟨p2, o2, n2⟩, h2, h⟩ := Res.bind_eq_ok.mp h
  have hm := Advanced.mk (cur := cur) (ok := ok) (p := p) h1 h2
  by_cases hc : cur ≠ n2
  · rw [if_pos hc, if_pos hc] at hm
    dsimp only at h
    rw [if_pos hc] at h
    injection h with h; injection h with e1 e2; subst e1 e2
    exact hm
  · rw [if_neg hc, if_neg hc, List.append_nil] at hm
    dsimp only at h
    rw [if_neg hc] at h
    injection h with h; injection h with e1 e2; subst e1 e2
    exact hm

end Osdp.CpM
