import Verif.Lemmas.CpRead
import Verif.Lemmas.SampleCp
import Verif.Props.C15

/-!
# C57: events are delivered only while online, with the contents received

The full statement — whenever the event callback runs for an event of a PD, that event is the one carried by the reply just
received, and the PD is online — fails: `C57_stale`. It holds whenever the PD was online before the visit (`C57_partial`); and
in all histories, what is delivered was carried by a reply received at some time (`C57_carried`).
-/

namespace Osdp.CpM

open Spec.Event

theorem Reply.reads {C : Cipher} {p q : Pd} {env : Env} {outs : List Out} {rc : CpErr} {id : Byte} {body : List Byte} {e : Event}
    (h : Reply C p env q outs rc) (hh : Phy.heard C p env = some (id, body)) (hr : Reads id.toNat body e)
    (hc : CountsOk { p with replyId := id.toNat } body) : q.reqEventSend = true ∧ q.eph = .event e ∧ rc = .none := by
  have no : ∀ {r : Phy.PktRet}, r ≠ .none → Phy.checkPacket p env = .ok (q, r) → False := by
    intro r hn h1
    unfold Phy.heard at hh
    rw [h1] at hh
    cases r <;> first | exact hn rfl | cases hh
  cases h with
  | nothing h1 _ h2 => exact (no (by rcases h2 with h | h <;> rw [h] <;> simp) h1).elim
  | bad h1 _ h2 => exact (no (by rcases h2 with h | h | h <;> rw [h] <;> simp) h1).elim
  | busy h1 _ => exact (no (by simp) h1).elim
  | seq h1 _ => exact (no (by simp) h1).elim
  | refused h1 _ h2 _ h3 =>
    unfold Phy.heard at hh
    rw [h1] at hh; dsimp only at hh
    rw [h2] at hh; dsimp only at hh
    rw [if_pos h3] at hh; cases hh
  | @reply p1 p2 q d id' body' _ _ h1 hc1 h2 hd hl hid _ hb hres _ =>
    have := Phy.heard_of h1 h2 hl hid
    rw [hh] at this
    injection this with this; injection this with e1 e2; subst e1
    rw [hb, ← e2] at hres
    have t := hc1.transp.trans hd.transp
    rw [response_reads (p := { p2 with replyId := id.toNat }) hr (by
      unfold CountsOk at hc ⊢
      show (_ → _ = (p2.cap 1).numItems.toNat) ∧ (_ → _ = (p2.cap 2).numItems.toNat)
      rw [t.cap]; exact hc)] at hres
    injection hres with hres; injection hres with e3 hres; injection hres with e4 e5; subst e3 e5
    exact ⟨rfl, rfl, rfl⟩

/-- **C57**, for a PD that is online before the visit: the callback runs at most once for an event of the PD, and that event is
the one carried by the reply received in this visit. -/
theorem C57_partial (C : Cipher) (info : PdM.Info) (p q : Pd) (cb : Bool) (env : Env) (outs : List Out) (hr : Reached C info p)
    (hon : p.state = .online) (h : step C p (.update cb env) = .ok (q, outs)) :
    pdEvents outs = [] ∨ ∃ id body e, replyOf C p env = some (id, body) ∧ Reads id.toNat body e ∧ pdEvents outs = [e] := by
  obtain ⟨⟨s1, o1, y⟩, hu, h⟩ := Res.bind_eq_ok.mp h
  injection h with h; injection h with e1 e2; subst e1 e2
  cases (stateUpdate_inv hr.inv.cp hu).telling hr.inv hr.buffered hr.tidy.proper with
  | quiet _ h _ _ _ => exact .inl h
  | unattended _ h _ _ _ _ => exact absurd hon h
  | attended h1 h2 _ _ =>
    rcases h1 with ⟨rfl, h1⟩ | ⟨rfl, id, body, e, h3, h4, rfl⟩
    · rw [hr.tidy.none hon] at h2; exact .inl h2
    · cases cb with
      | false => exact .inl h2
      | true => exact .inr ⟨id, body, e, h3, h4, h2⟩

/-- … and every such report is delivered (with as many inputs or outputs as the PD announced, where it reports on these). -/
theorem C57_delivered (C : Cipher) (info : PdM.Info) (p q : Pd) (env : Env) (outs : List Out) (id : Byte) (body : List Byte)
    (e : Event) (hr : Reached C info p) (hon : p.state = .online) (hh : replyOf C p env = some (id, body))
    (he : Reads id.toNat body e) (hc : CountsOk { p with replyId := id.toNat } body)
    (h : step C p (.update true env) = .ok (q, outs)) : pdEvents outs = [e] := by
  obtain ⟨⟨s1, o1, y⟩, hu, h1⟩ := Res.bind_eq_ok.mp h
  clear h
  injection h1 with h1; injection h1 with e1 e2; subst e1 e2
  have hps : p.phyState = .replyWait := by
    refine Classical.byContradiction fun hn => ?_
    unfold replyOf at hh
    rw [if_neg hn] at hh; cases hh
  unfold replyOf at hh
  rw [if_pos hps] at hh
  have I := hr.inv
  have no : ¬ MaySend p env := by
    intro h
    rcases h with h | ⟨h, -⟩ <;> rw [hps] at h <;> cases h
  cases stateUpdate_inv I.cp hu with
  | hold h _ => rw [hps] at h; cases h
  | sent h _ => exact (no h).elim
  | unsent h _ _ => exact (no h).elim
  | idle h _ => rw [hps] at h; rcases h with h | h | h <;> cases h
  | again _ hw =>
    cases hw with
    | busy h => cases (h.reads hh he hc).2.2
    | retry h _ _ => cases (h.reads hh he hc).2.2
  | waiting _ hw =>
    cases hw with
    | waiting h _ => cases (h.reads hh he hc).2.2
  | @replied p1 _ o1 o2 rc _ hw hrc hs =>
    have hp1 : p1.reqEventSend = true ∧ p1.eph = .event e ∧ p1.phyState = .done := by
      cases hw with
      | answered h => have := h.reads hh he hc; exact ⟨this.1, this.2.1, rfl⟩
      | ignored h _ _ => cases (h.reads hh he hc).2.2
      | failed h h' => rw [(h.reads hh he hc).2.2] at h'; simp at h'
      | exhausted h _ _ => cases (h.reads hh he hc).2.2
      | busy h => cases (h.reads hh he hc).2.2
      | retry h _ _ => cases (h.reads hh he hc).2.2
      | waiting h _ => cases (h.reads hh he hc).2.2
    have hst := hw.state.1
    cases settle_inv hs with
    | command h _ _ => rw [hp1.2.2] at h; cases h
    | nothing h _ _ => rw [hp1.2.2] at h; cases h
    | @over p2 _ o3 o4 ok h1 h2 h3 =>
      obtain ⟨k1, -, -, k4, k5, -⟩ := stateCheckReply_state h2
      have hpr : Proper (Phy.stateReset p2 false).1 := fun e' he' => by
        replace he' : p2.eph = .event e' := he'
        rw [k4, hp1.2.1] at he'
        injection he' with he'; subst he'; exact ⟨_, _, he⟩
      have := (advance_events hpr h3).1
      have e1 : (Phy.stateReset p2 false).1.reqEventSend = true := k5.trans hp1.1
      have e2 : (Phy.stateReset p2 false).1.eph = .event e := k4.trans hp1.2.1
      have e3 : (Phy.stateReset p2 false).1.state = .online := (k1.trans hst).trans hon
      have e4 : ∀ ok, attends (Phy.stateReset p2 false).1 env.now ok = true := fun ok => by
        unfold attends; rw [e3]; simp
      rw [e1, e2, e4] at this
      rw [pdEvents_append, pdEvents_append, pdEvents_append, (noEvent_fclose hw.outs).pdEvents, (stateCheckReply_only h2).pdEvents,
        notifyCommand_only.pdEvents, this]
      rfl

/-- The reply taken in by the visit `op`, made after the history `before`, reports the event `e`. -/
def Reported (C : Cipher) (p0 : Pd) (before : List Op) (op : Op) (e : Event) : Prop :=
  ∃ s o cb env id body, run C p0 before = .ok (s, o) ∧ op = .update cb env ∧ replyOf C s env = some (id, body) ∧
    Reads id.toNat body e

/-- Some reply of the history reports the event. -/
def Carried (C : Cipher) (p0 : Pd) (ops : List Op) (e : Event) : Prop :=
  ∃ a op b, ops = a ++ op :: b ∧ Reported C p0 a op e

theorem Carried.snoc {C : Cipher} {p0 : Pd} {ops : List Op} {e : Event} (h : Carried C p0 ops e) (op : Op) :
    Carried C p0 (ops ++ [op]) e := by
  obtain ⟨a, op1, b, rfl, h⟩ := h
  exact ⟨a, op1, b ++ [op], by simp, h⟩

theorem carried_step {C : Cipher} {p0 q s : Pd} {ops : List Op} {op : Op} {o o' : List Out} (I : Inv q) (B : Buffered q) (T : Tidy q)
    (hr : run C p0 ops = .ok (q, o)) (H : ∀ e, q.eph = .event e → Carried C p0 ops e) (h : step C q op = .ok (s, o')) :
    (∀ e, s.eph = .event e → Carried C p0 (ops ++ [op]) e) ∧ (∀ cb env, op = .update cb env → ∀ e ∈ pdEvents o', Carried C p0 (ops ++ [op]) e) := by
  by_cases hop : ¬ ∃ cb e, op = .update cb e
  · have ha := step_apiOnly h fun cb e he => hop ⟨cb, e, he⟩
    unfold Api at ha
    refine ⟨fun e he => (H e (by rw [ha] at he; exact he)).snoc op, fun cb env he => absurd ⟨cb, env, he⟩ hop⟩
  replace hop := Classical.not_not.mp hop
  obtain ⟨cb, env, rfl⟩ := hop
  obtain ⟨⟨s1, o1, y⟩, hu, h⟩ := Res.bind_eq_ok.mp h
  injection h with h; injection h with e1 e2; subst e1 e2
  have pend : ∀ {pend : Bool} {ev : Eph}, Pending C q env pend ev → ∀ e, ev = .event e → Carried C p0 (ops ++ [.update cb env]) e := by
    intro pd ev h e he
    rcases h with ⟨-, h⟩ | ⟨-, id, body, e', h1, hrd, h⟩
    · exact (H e (h e he)).snoc _
    · rw [he] at h; injection h with h; subst h
      exact ⟨ops, _, [], rfl, q, o, cb, env, id, body, hr, rfl, h1, hrd⟩
  cases (stateUpdate_inv I.cp hu).telling I B T.proper with
  | quiet _ h2 _ _ h5 => exact ⟨fun e he => (H e (h5 e he)).snoc _, fun _ _ _ e he => by rw [h2] at he; cases he⟩
  | unattended h1 _ _ h4 _ h6 => exact ⟨fun e he => pend h1 e (h6 e he), fun _ _ _ e he => by rw [h4] at he; cases he⟩
  | @attended pd ev h1 h2 _ h4 =>
    refine ⟨fun e he => pend h1 e (h4 e he), fun _ _ _ e he => ?_⟩
    rw [h2] at he
    split at he
    · split at he
      · rename_i ev' _
        rw [List.mem_singleton] at he; subst he
        exact pend h1 _ rfl
      · cases he
    · cases he

/-- **C57**, in all histories: what a visit delivers was carried by a reply received in this or an earlier visit. -/
theorem C57_carried (C : Cipher) (info : PdM.Info) (i : Nat) (sk : Bool) (n : Nat) (p0 q s : Pd) (ops : List Op) (cb : Bool)
    (env : Env) (o o' : List Out) (hn : newPd info i sk n = some p0) (hr : run C p0 ops = .ok (q, o))
    (h : step C q (.update cb env) = .ok (s, o')) : ∀ e ∈ pdEvents o', Carried C p0 (ops ++ [.update cb env]) e := by
  have R : ∀ {ops : List Op} {q : Pd} {o : List Out}, run C p0 ops = .ok (q, o) → Reached C info q :=
    fun hr => ⟨i, sk, n, p0, _, _, hn, hr⟩
  have H : ∀ e, q.eph = .event e → Carried C p0 ops e := by
    refine run_ind (C := C) (p := p0) (fun ops q _ => ∀ e, q.eph = .event e → Carried C p0 ops e) ?_ ?_ hr
    · intro e he
      unfold newPd at hn
      split at hn
      · cases hn
      · injection hn with hn; subst hn; cases he
    · intro ops op q o s o' hr H h
      exact (carried_step (R hr).inv (R hr).buffered (R hr).tidy hr H h).1
  exact (carried_step (R hr).inv (R hr).buffered (R hr).tidy hr H h).2 cb env rfl

/-! ### examples and witness -/

/-- a card read of 26 bits, on the wire -/
def rawCard : List Byte := [b8 Id.RAW, 0, 1, 26, 0, 0x11, 0x22, 0x33, 0x40]

/-- online in the clear; a card is presented -/
example : ∃ p q o outs, run xorCipher Sample.cp (Sample.meets [4, 0, 0] ++ [Sample.hears [] 100, Sample.hears [] 100]) = .ok (p, o) ∧
    Reached xorCipher Sample.pdInfo p ∧ p.state = .online ∧
    step xorCipher p (Sample.hears (Sample.reply 2 rawCard) 100) = .ok (q, outs) ∧ (pdEvents outs).length = 1 := by
  obtain ⟨p, o, q, outs, h1, h2, h3, h4⟩ := Sample.ran_step (C := xorCipher) (p := Sample.cp)
    (ops := Sample.meets [4, 0, 0] ++ [Sample.hears [] 100, Sample.hears [] 100]) (op := Sample.hears (Sample.reply 2 rawCard) 100)
    (fun p => p.state == .online) (fun _ outs => (pdEvents outs).length == 1) (by decide +kernel) (by decide +kernel)
  exact ⟨p, q, o, outs, h1, Sample.cp_reached h1, by simpa using h3, h2, by simpa using h4⟩

/-- what happens before the PD comes online: a card read in reply to the very first command takes the PD offline; five minutes
later the PD is met anew -/
def staleHistory : List Op :=
  Sample.asks (Sample.reply 0 rawCard) ++ [Sample.hears [] 400000] ++ Sample.asks (Sample.reply 0 Sample.pdidReply) 400000 ++
    [Sample.hears [] 400000, Sample.hears [] 400000]

/-- the capabilities of the PD arrive -/
def staleEnv : Env := { now := 400000, recv := Sample.blocks64 (Sample.reply 1 [b8 Id.PDCAP, 4, 0, 0]), random := Sample.rndA }

/-- **C57 fails**: the old card read is delivered in the visit in which the capabilities of the PD are received and it comes
online. -/
theorem C57_stale : ∃ p q o outs e id body,
    run xorCipher Sample.cp staleHistory = .ok (p, o) ∧ Reached xorCipher Sample.pdInfo p ∧ p.state ≠ .online ∧
    step xorCipher p (.update true staleEnv) = .ok (q, outs) ∧ replyOf xorCipher p staleEnv = some (id, body) ∧
    pdEvents outs = [e] ∧ ¬ Reads id.toNat body e := by
  obtain ⟨p, o, q, outs, h1, h2, h3, h4⟩ := Sample.ran_step (C := xorCipher) (p := Sample.cp)
    (ops := staleHistory) (op := .update true staleEnv)
    (fun p => p.state != .online && replyOf xorCipher p staleEnv == some (b8 Id.PDCAP, [4, 0, 0]))
    (fun _ outs => (pdEvents outs).length == 1) (by decide +kernel) (by decide +kernel)
  simp only [Bool.and_eq_true, bne_iff_ne, ne_eq, beq_iff_eq] at h3
  obtain ⟨e, he⟩ : ∃ e, pdEvents outs = [e] := by
    match hl : pdEvents outs, h4 with
    | [e], _ => exact ⟨e, rfl⟩
    | [], h => simp at h
    | _ :: _ :: _, h => simp at h
  refine ⟨p, q, o, outs, e, b8 Id.PDCAP, [4, 0, 0], h1, Sample.cp_reached h1, h3.1, h2, h3.2, he, ?_⟩
  intro hr
  generalize hid : (b8 Id.PDCAP).toNat = id at hr
  cases hr <;> exact absurd hid (by decide)

end Osdp.CpM
