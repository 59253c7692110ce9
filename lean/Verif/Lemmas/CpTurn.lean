import Verif.Lemmas.CpHear

/-! # When the CP's connection to a PD changes state -/

namespace Osdp.CpM

/-- the judgement of a reply looks only at these members -/
theorem verdict_congr {p q : Pd} (h1 : q.state = p.state) (h2 : q.replyId = p.replyId) (h3 : q.cmdId = p.cmdId)
    (h4 : q.flags.ignUnsolicited = p.flags.ignUnsolicited) : verdict q = verdict p := by
  unfold verdict expectedReply
  rw [h1, h2, h3, h4]

theorem Heard.ign {p q : Pd} (h : Heard p q) : q.flags.ignUnsolicited = p.flags.ignUnsolicited := by
  unfold Heard at h
  rw [h]

/-- an effect leaves the id of the reply alone -/
theorem effect_replyId {C : Cipher} {p q : Pd} {env : Env} {body : List Byte} {outs : List Out} {rc : CpErr}
    (h : Effect C p env body q outs rc) : q.replyId = p.replyId := by
  cases h <;> rfl

/-- how an exchange ends: the command could not be sent, or a reply came, or none -/
inductive Ended (C : Cipher) (p : Pd) (env : Env) : Pd → List Out → Prop
  | unsent {p1 : Pd} {o : List Out} : MaySend p env → SendOutcome C p env p1 o false → Ended C p env { p1 with phyState := .err } o
  | waited {p1 : Pd} {o : List Out} {rc : CpErr} : p.phyState = .replyWait → Waited C p env p1 o rc →
      rc = .none ∨ rc = .generic → Ended C p env p1 o

/-- a list of effects without an event for the application -/
def NoEvent (outs : List Out) : Prop := ∀ o ∈ outs, ∀ i e, o ≠ Out.event i e

theorem NoEvent.append {a b : List Out} (ha : NoEvent a) (hb : NoEvent b) : NoEvent (a ++ b) := fun o ho =>
  (List.mem_append.mp ho).elim (ha o) (hb o)

theorem noEvent_fclose {outs : List Out} (h : ∀ o ∈ outs, o = Out.fclose) : NoEvent outs :=
  fun o ho i e he => by rw [h o ho] at he; cases he

theorem SendOutcome.noEvent {C : Cipher} {p q : Pd} {env : Env} {outs : List Out} {ok : Bool}
    (h : SendOutcome C p env q outs ok) : NoEvent outs := by
  have body : ∀ {b : Built} {p : Pd} {t : Phy.Tx}, CmdBody C p env t b → NoEvent b.outs := by
    intro b p t ho o h i e he
    obtain ⟨n, off, h⟩ := ho.outs o h
    rw [h] at he; cases he
  cases h with
  | mute _ => exact fun o ho => by cases ho
  | unbuilt b _ _ ho _ => exact body ho
  | built b l q outs ok _ _ ho hl hne hs hw _ =>
    refine (body ho).append ?_
    rcases hw with ⟨rfl, -⟩ | ⟨wire, q', -, -, -, -, rfl, -⟩
    · exact fun o ho => by cases ho
    · intro o ho i e he
      unfold Phy.sendOuts at ho
      subst he
      simp at ho

/-- a reply that does not end the exchange leaves what is pending alone -/
theorem Reply.pending {C : Cipher} {p q : Pd} {env : Env} {o : List Out} {rc : CpErr} (hcp : p.flags.pdMode = false)
    (h : Reply C p env q o rc) (hrc : rc = .retryCmd ∨ rc = .noData) :
    q.reqEventSend = p.reqEventSend ∧ ∀ e, q.eph = .event e → p.eph = .event e := by
  cases h with
  | nothing _ hc _ => exact ⟨by rw [hc.transp]; rfl, fun e he => by rw [hc.eph] at he; exact he⟩
  | busy _ hc => exact ⟨by rw [hc.transp]; rfl, fun e he => (hc.cp hcp).2.event e he⟩
  | bad _ _ _ => simp at hrc
  | seq _ _ => simp at hrc
  | refused _ _ _ _ _ => simp at hrc
  | reply _ hc _ hd _ _ _ _ _ he' =>
    have hcp1 := hc.transp.pdMode ▸ hcp
    have t := hc.transp.trans hd.transp
    cases he' with
    | busy _ => exact ⟨by show Pd.reqEventSend _ = _; rw [t]; rfl, fun e he => (hc.cp hcp).2.event e ((hd.cpEph hcp1).event e he)⟩
    | _ => exact absurd hrc (by (try split) <;> simp)

theorem Waited.pending {C : Cipher} {p q : Pd} {env : Env} {o : List Out} {rc : CpErr} (hcp : p.flags.pdMode = false)
    (h : Waited C p env q o rc) (hrc : rc = .canYield ∨ rc = .inprog) :
    q.reqEventSend = p.reqEventSend ∧ ∀ e, q.eph = .event e → p.eph = .event e := by
  cases h with
  | busy h => have k := h.pending hcp (.inl rfl); exact ⟨k.1, k.2⟩
  | retry h _ _ => have k := h.pending hcp (.inr rfl); exact ⟨k.1, k.2⟩
  | waiting h _ => exact h.pending hcp (.inr rfl)
  | _ => simp at hrc

/-- **A visit**: the exchange goes on; or a command is chosen; or there is none to be sent; or the exchange ends. -/
inductive Visit (C : Cipher) (cb : Bool) (p : Pd) (env : Env) : Pd → List Out → Prop
  | on {q : Pd} {outs : List Out} : q.state = p.state → q.cmdId = p.cmdId → q.cmdQueue = p.cmdQueue → q.phyState ≠ .idle →
      p.phyState ≠ .idle → NoEvent outs → q.reqEventSend = p.reqEventSend → (∀ e, q.eph = .event e → p.eph = .event e) →
      Visit C cb p env q outs
  | command {p1 : Pd} {outs : List Out} {id : Nat} : p.phyState = .idle → stateGetCmd p env = .ok (p1, outs, id) → 0 < id →
      Visit C cb p env { p1 with cmdId := id, phyState := .sendCmd } outs
  | nothing {p1 q : Pd} {o1 o2 : List Out} : p.phyState = .idle → stateGetCmd p env = .ok (p1, o1, 0) →
      advance cb { p1 with cmdId := 0 } env p1.state true = .ok (q, o2) → Visit C cb p env q (o1 ++ o2)
  | over {p1 p2 q : Pd} {o1 o2 o3 : List Out} {ok : Bool} : p.phyState ≠ .idle → Ended C p env p1 o1 → Mid p1 →
      p1.phyState = .done ∨ p1.phyState = .err → stateCheckReply cb p1 = .ok (p2, o2, ok) →
      advance cb (Phy.stateReset p2 false).1 env p2.state (p1.phyState == .done && ok) = .ok (q, o3) →
      Visit C cb p env q (o1 ++ (o2 ++ notifyCommand cb p2 ok ++ o3))

theorem Update.visit {C : Cipher} {cb : Bool} {p q : Pd} {env : Env} {outs : List Out} {y : Bool} (I : Inv p)
    (h : Update C cb p env q outs y) : Visit C cb p env q outs := by
  have fin : ∀ {p1 q : Pd} {o1 o2 : List Out}, p.phyState ≠ .idle → Ended C p env p1 o1 → Mid p1 →
      p1.phyState = .done ∨ p1.phyState = .err → settle cb p1 env = .ok (q, o2) → Visit C cb p env q (o1 ++ o2) := by
    intro p1 q o1 o2 hi he hm hps h
    cases settle_inv h with
    | command h0 _ _ => rcases hps with h | h <;> rw [h] at h0 <;> cases h0
    | nothing h0 _ _ => rcases hps with h | h <;> rw [h] at h0 <;> cases h0
    | over h1 h2 h3 => exact .over hi he hm h1 h2 h3
  cases h with
  | hold h _ => exact .on rfl rfl rfl (by simp [h]) (by simp [h]) (fun o ho => by cases ho) rfl (fun e he => he)
  | @sent p1 _ hm h =>
    obtain ⟨k1, -, k3, k4, -⟩ := h.sent.keeps
    have hs := h.sent
    unfold Sent at hs
    refine .on k1 k3 k4 (fun h => by cases h) ?_ h.noEvent (by show p1.reqEventSend = _; rw [hs]) fun e he => ?_
    · rcases hm with h | ⟨h, -⟩ <;> simp [h]
    · replace he : p1.eph = .event e := he
      rw [hs] at he; exact he
  | unsent hm h1 h2 =>
    exact fin (by rcases hm with h | ⟨h, -⟩ <;> simp [h]) (.unsent hm h1) (unsent_mid I h1) (.inr rfl) h2
  | replied hps h1 hrc h2 =>
    refine fin (by simp [hps]) (.waited hps h1 hrc) (waited_mid I hps h1) ?_ h2
    cases h1 with
    | answered _ => exact .inl rfl
    | ignored _ _ _ => exact .inl rfl
    | failed _ _ => exact .inr rfl
    | exhausted _ _ _ => exact .inr rfl
    | busy _ => simp at hrc
    | retry _ _ _ => simp at hrc
    | waiting _ _ => simp at hrc
  | again hps h1 =>
    have hr := h1.pending I.cp (.inl rfl)
    obtain ⟨k1, k3, k4⟩ := h1.state
    refine .on k1 k3 k4 ?_ (by simp [hps]) (noEvent_fclose h1.outs) hr.1 hr.2
    cases h1 <;> simp
  | waiting hps h1 =>
    have hr := h1.pending I.cp (.inr rfl)
    obtain ⟨k1, k3, k4⟩ := h1.state
    refine .on k1 k3 k4 ?_ (by simp [hps]) (noEvent_fclose h1.outs) hr.1 hr.2
    cases h1 with
    | waiting h _ => rw [h.heard.keeps.2.1, hps]; simp
  | idle hps h =>
    have hi : p.phyState = .idle := by
      rcases hps with h | h | h
      · exact h
      · rcases I.phy with h' | h' | h' | h' <;> rw [h] at h' <;> cases h'
      · rcases I.phy with h' | h' | h' | h' <;> rw [h] at h' <;> cases h'
    cases settle_inv h with
    | command h1 h2 h3 => exact .command h1 h2 h3
    | nothing h1 h2 h3 => exact .nothing h1 h2 h3
    | over h1 _ _ => rcases h1 with h | h <;> rw [h] at hi <;> cases hi

/-- the reply behind the end of an exchange that is taken to be successful -/
theorem Ended.answer {C : Cipher} {p p1 : Pd} {env : Env} {o : List Out} (h : Ended C p env p1 o) (hd : p1.phyState = .done) :
    p.phyState = .replyWait ∧ ∃ id body p2 p3 o rc, replyOf C p env = some (id, body) ∧ Phy.Transp p p2 ∧
      response C { p2 with replyId := id.toNat } env body = .ok (p3, o, rc) ∧
      Effect C { p2 with replyId := id.toNat } env body p3 o rc ∧
      (rc = .none ∨ rc = .unknown ∧ p.cmdId = Id.POLL ∧ p.flags.ignUnsolicited = true) ∧
      p1 = { p3 with tstamp := p1.tstamp, scTstamp := p1.scTstamp, phyState := .done } := by
  have key : ∀ {q : Pd} {rc : CpErr}, p.phyState = .replyWait → Reply C p env q o rc →
      (rc = .none ∨ rc = .unknown ∧ p.cmdId = Id.POLL ∧ p.flags.ignUnsolicited = true) →
      p1 = { q with tstamp := p1.tstamp, scTstamp := p1.scTstamp, phyState := .done } →
      p.phyState = .replyWait ∧ ∃ id body p2 p3 o rc, replyOf C p env = some (id, body) ∧ Phy.Transp p p2 ∧
      response C { p2 with replyId := id.toNat } env body = .ok (p3, o, rc) ∧
      Effect C { p2 with replyId := id.toNat } env body p3 o rc ∧
      (rc = .none ∨ rc = .unknown ∧ p.cmdId = Id.POLL ∧ p.flags.ignUnsolicited = true) ∧
      p1 = { p3 with tstamp := p1.tstamp, scTstamp := p1.scTstamp, phyState := .done } := by
    intro q rc hps hr hrc he
    refine ⟨hps, ?_⟩
    cases hr with
    | nothing _ _ _ => simp at hrc
    | bad _ _ _ => simp at hrc
    | busy _ _ => simp at hrc
    | seq _ _ => simp at hrc
    | refused _ _ _ _ _ => simp at hrc
    | @reply q1 q2 _ d id body _ _ h1 hc h2 hd hl hid _ hb hr he' =>
      refine ⟨id, body, q2, q, _, _, ?_, hc.transp.trans hd.transp, hr, he', hrc, he⟩
      unfold replyOf
      rw [if_pos hps, hb]
      exact Phy.heard_of h1 h2 hl hid
  cases h with
  | unsent _ _ => cases hd
  | waited hps hw hrc =>
    cases hw with
    | answered h => exact key hps h (.inl rfl) rfl
    | ignored h h2 h3 =>
      exact key hps h (.inr ⟨rfl, h.heard.keeps.2.2.1 ▸ h2, h.heard.ign ▸ h3⟩) rfl
    | failed _ _ => cases hd
    | exhausted _ _ _ => cases hd
    | busy _ => simp at hrc
    | retry _ _ _ => simp at hrc
    | waiting _ _ => simp at hrc

/-- the state of the connection when the exchange ends -/
theorem Ended.keeps {C : Cipher} {p p1 : Pd} {env : Env} {o : List Out} (h : Ended C p env p1 o) :
    p1.state = p.state ∧ p1.cmdId = p.cmdId ∧ p1.cmdQueue = p.cmdQueue ∧ NoEvent o := by
  cases h with
  | unsent hm h =>
    obtain ⟨k1, -, k3, k4, -⟩ := h.sent.keeps
    exact ⟨k1, k3, k4, h.noEvent⟩
  | waited _ h _ =>
    obtain ⟨k1, k3, k4⟩ := h.state
    exact ⟨k1, k3, k4, noEvent_fclose h.outs⟩

/-- judging the reply leaves the state alone -/
theorem stateCheckReply_state {cb : Bool} {p q : Pd} {outs : List Out} {ok : Bool} (h : stateCheckReply cb p = .ok (q, outs, ok)) :
    q.state = p.state ∧ q.cmdId = p.cmdId ∧ q.replyId = p.replyId ∧ q.eph = p.eph ∧ q.reqEventSend = p.reqEventSend ∧
      q.reqOffline = p.reqOffline := by
  rcases (stateCheckReply_inv h).2 with ⟨rfl, -⟩ | ⟨-, -, -, h⟩
  · exact ⟨rfl, rfl, rfl, rfl, rfl, rfl⟩
  · obtain ⟨k, -, rfl, -⟩ := keysetComplete_inv h; exact ⟨rfl, rfl, rfl, rfl, rfl, rfl⟩

/-- how the state of the connection changes in a visit -/
theorem Visit.moves {C : Cipher} {cb : Bool} {p q : Pd} {env : Env} {outs : List Out} (h : Visit C cb p env q outs) :
    q.state = p.state ∨ ∃ p1 ok, p1.state = p.state ∧ q.state = finalState p1 env.now ok ∧ (ok = true →
      p.state = .online ∨ p.state = .offline ∨ p.state = .probe ∨
      ∃ id body, replyOf C p env = some (id, body) ∧ verdict { p with replyId := id.toNat } = true) := by
  cases h with
  | on h _ _ _ _ _ _ _ => exact .inl h
  | command _ h1 _ =>
    have := (stateGetCmd_inv h1).1
    unfold Chosen at this
    exact .inl (by rw [this])
  | @nothing p1 q o1 o2 hps h1 h2 =>
    have hst : p1.state = p.state := by
      have := (stateGetCmd_inv h1).1
      unfold Chosen at this
      rw [this]
    refine .inr ⟨_, true, hst, advance_state (p := { p1 with cmdId := 0 }) h2, fun _ => ?_⟩
    unfold stateGetCmd at h1
    cases hs : p.state <;> rw [hs] at h1 <;> dsimp only at h1
    case online => simp
    case offline => simp
    case probe => simp
    all_goals
      injection h1 with h1; injection h1 with e1 h1; injection h1 with e2 e3
      cases e3
  | @over p1 p2 q o1 o2 o3 ok hi he hm hps h1 h2 =>
    have hst := (stateCheckReply_state h1).1
    refine .inr ⟨_, _, hst.trans he.keeps.1, advance_state (p := (Phy.stateReset p2 false).1) h2, fun hok => .inr (.inr (.inr ?_))⟩
    simp only [Bool.and_eq_true, beq_iff_eq] at hok
    obtain ⟨-, id, body, q2, q3, o, rc, h3, h4, h5, h6, h7, h8⟩ := he.answer hok.1
    refine ⟨id, body, h3, ?_⟩
    have hv := (stateCheckReply_inv h1).1
    rw [hok.2] at hv
    rw [hv]
    refine verdict_congr he.keeps.1.symm ?_ he.keeps.2.1.symm ?_
    · rw [h8]; exact (effect_replyId h6).symm
    · rw [h8]
      exact ((heard_transp h4).trans ((show Heard q2 { q2 with replyId := id.toNat } from rfl).trans (heard_effect h6))).ign.symm

end Osdp.CpM
