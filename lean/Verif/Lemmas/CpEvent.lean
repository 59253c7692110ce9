import Verif.Lemmas.CpTurn
import Verif.Spec.EventRead

/-! # Events the CP reads from replies -/

namespace Osdp

/-- what is decoded lies in the packet buffer -/
theorem Phy.decodePacket_dataLen {C : Cipher} {p q : Pd} {d : Phy.Decoded} (h : Phy.decodePacket C p = .ok (q, d)) :
    d.data.length ≤ p.packetBuf.length := by
  unfold Phy.decodePacket at h
  obtain ⟨ctl, -, h⟩ := Res.bind_eq_ok.mp h
  dsimp only at h
  replace h := ite_inv h
  rcases h with ⟨-, h⟩ | ⟨-, h⟩
  · unfold Phy.decodeScb at h
    dsimp only at h
    replace h := ite_inv h
    rcases h with ⟨-, h⟩ | ⟨-, h⟩
    · injection h with h; injection h with _ h; subst h; simp
    obtain ⟨ty, -, h⟩ := Res.bind_eq_ok.mp h
    replace h := ite_inv h
    rcases h with ⟨-, h⟩ | ⟨-, h⟩
    · injection h with h; injection h with _ h; subst h; simp
    replace h := ite_inv h
    rcases h with ⟨-, h⟩ | ⟨-, h⟩
    · injection h with h; injection h with _ h; subst h; simp
    obtain ⟨d2, -, h⟩ := Res.bind_eq_ok.mp h
    obtain ⟨sb, -, h⟩ := Res.bind_eq_ok.mp h
    have en : (Phy.noteScbkd p ty d2).packetBuf = p.packetBuf := by unfold Phy.noteScbkd; split <;> rfl
    replace h := ite_inv h
    rcases h with ⟨-, h⟩ | ⟨-, h⟩
    · rw [← en]
      generalize Phy.noteScbkd p ty d2 = p1 at h
      unfold Phy.decodeSecured at h
      dsimp only at h
      replace h := ite_inv h
      rcases h with ⟨-, h⟩ | ⟨-, h⟩
      · cases h
      obtain ⟨sc, -, h⟩ := Res.bind_eq_ok.mp h
      replace h := ite_inv h
      rcases h with ⟨-, h⟩ | ⟨-, h⟩
      · injection h with h; injection h with _ h; subst h; simp
      replace h := ite_inv h
      rcases h with ⟨-, h⟩ | ⟨-, h⟩
      · unfold Phy.decodeCipher at h
        dsimp only at h
        obtain ⟨r, -, h⟩ := Res.bind_eq_ok.mp h
        cases r with
        | none => injection h with h; injection h with _ h; subst h; simp
        | some plain =>
          obtain ⟨buf, hb, h⟩ := Res.bind_eq_ok.mp h
          injection h with h; injection h with _ h; subst h
          have := Phy.writeAt_length hb
          have e : (Phy.setSc p1 sc).packetBuf = p1.packetBuf := rfl
          simp only [List.length_drop]
          rw [e] at this
          omega
      · injection h with h; injection h with _ h; subst h; simp
    · injection h with h; injection h with _ h; subst h; simp
  · unfold Phy.decodePlain at h
    dsimp only at h
    obtain ⟨d0, -, h⟩ := Res.bind_eq_ok.mp h
    replace h := ite_inv h
    rcases h with ⟨-, h⟩ | ⟨-, h⟩
    · injection h with h; injection h with _ h; subst h; simp
    · injection h with h; injection h with _ h; subst h; simp

/-- a reply is shorter than the packet buffer -/
theorem Phy.heard_short {C : Cipher} {p : Pd} {env : Env} {id : Byte} {body : List Byte} (hf : Phy.Framed p)
    (h : Phy.heard C p env = some (id, body)) : body.length < 256 := by
  unfold Phy.heard at h
  split at h
  · rename_i p1 h1
    split at h
    · rename_i q d h2
      split at h
      · cases h
      · have h3 := Phy.decodePacket_dataLen h2
        have h4 := (Phy.checkPacket_stored hf h1).buf
        cases hd : d.data[0]? with
        | none => rw [hd] at h; cases h
        | some x =>
          rw [hd] at h
          injection h with h; injection h with h5 h6; subst h6
          simp only [List.length_drop, List.length_take]
          omega
    · cases h
  · cases h

namespace CpM

open Spec.Event

theorem maskOf_bit : ∀ (body : List Byte) (i : Nat), (maskOf body).testBit i = match body[i]? with | some b => b != 0#8 | none => false := by
  intro body
  induction body with
  | nil => intro i; simp [maskOf]
  | cons b bs ih =>
    intro i
    cases i with
    | zero =>
      unfold maskOf
      by_cases h : b = 0#8
      · simp [h, Nat.testBit_zero]
      · simp [h, Nat.testBit_zero]
    | succ i =>
      unfold maskOf
      rw [Nat.testBit_succ]
      have : ((if b = 0#8 then 0 else 1) + 2 * maskOf bs) / 2 = maskOf bs := by split <;> omega
      rw [this, ih]; rfl

theorem maskOf_spec (body : List Byte) : MaskOf body (BitVec.ofNat 32 (maskOf body)) := by
  intro i hi
  rw [BitVec.getLsbD_ofNat, maskOf_bit]
  simp only [hi, decide_true, Bool.true_and]
  cases body[i]? <;> rfl

theorem cardFormat_spec (b : Byte) : cardFormat b = formatOf b := by
  revert b
  decide +kernel

theorem copyIn_inv {n : Nat} {src : List Byte} {d : Bytes n} (h : copyIn n src = .ok d) :
    src.length ≤ n ∧ d.1 = src ++ List.replicate (n - src.length) 0#8 := by
  unfold copyIn at h
  split at h
  · rename_i hl
    injection h with h; subst h
    refine ⟨hl, ?_⟩
    unfold Bytes.padTo
    dsimp only
    rw [List.take_of_length_le hl]
  · cases h

/-- a reply either carries an event, which becomes pending, or leaves pending events alone -/
theorem response_event {C : Cipher} {p q : Pd} {env : Env} {body : List Byte} {outs : List Out} {rc : CpErr}
    (hl : body.length < 256) (h : response C p env body = .ok (q, outs, rc)) :
    (q.eph = p.eph ∧ q.reqEventSend = p.reqEventSend) ∨
    ∃ e, Reads p.replyId body e ∧ q = event p e ∧ outs = [] ∧ rc = .none := by
  have fin : ∀ {a : Pd} {o : List Out} {r : CpErr}, Except.ok (a, o, r) = (Except.ok (q, outs, rc) : Res _) → a.eph = p.eph →
      a.reqEventSend = p.reqEventSend → (q.eph = p.eph ∧ q.reqEventSend = p.reqEventSend) ∨
    ∃ e, Reads p.replyId body e ∧ q = event p e ∧ outs = [] ∧ rc = .none := by
    intro a o r h h1 h2
    injection h with h; injection h with e1 h; injection h with e2 e3; subst e1 e2 e3
    exact .inl ⟨h1, h2⟩
  have ev : ∀ {e : Event}, Except.ok (event p e, [], CpErr.none) = (Except.ok (q, outs, rc) : Res _) → Reads p.replyId body e →
      (q.eph = p.eph ∧ q.reqEventSend = p.reqEventSend) ∨
    ∃ e, Reads p.replyId body e ∧ q = event p e ∧ outs = [] ∧ rc = .none := by
    intro e h h1
    injection h with h; injection h with e1 h; injection h with e2 e3; subst e1 e2 e3
    exact .inr ⟨e, h1, rfl, rfl, rfl⟩
  unfold response at h
  dsimp only at h
  replace h := ite_inv h
  rcases h with ⟨hid, h⟩ | ⟨hack, h⟩
  · split at h <;> exact fin h rfl rfl
  replace h := ite_inv h
  rcases h with ⟨hid, h⟩ | ⟨hnak, h⟩
  · split at h <;> exact fin h rfl rfl
  replace h := ite_inv h
  rcases h with ⟨hid, h⟩ | ⟨-, h⟩
  · split at h <;> exact fin h rfl rfl
  replace h := ite_inv h
  rcases h with ⟨hid, h⟩ | ⟨-, h⟩
  · split at h <;> exact fin h rfl rfl
  replace h := ite_inv h
  rcases h with ⟨hid, h⟩ | ⟨n1, h⟩
  · split at h
    · exact fin h rfl rfl
    · rename_i hb; rw [hid] at ev ⊢; exact ev h (.outputs body _ (maskOf_spec body) (by omega))
  replace h := ite_inv h
  rcases h with ⟨hid, h⟩ | ⟨n2, h⟩
  · split at h
    · exact fin h rfl rfl
    · rename_i hb; rw [hid] at ev ⊢; exact ev h (.inputs body _ (maskOf_spec body) (by omega))
  replace h := ite_inv h
  rcases h with ⟨hid, h⟩ | ⟨n3, h⟩
  · split at h
    · exact fin h rfl rfl
    · rename_i hb; rw [hid] at ev ⊢
      match body, Decidable.not_not.mp hb with
      | [a, b], _ => exact ev h (.device a b _ (maskOf_spec _))
  replace h := ite_inv h
  rcases h with ⟨hid, h⟩ | ⟨n4, h⟩
  · split at h
    · exact fin h rfl rfl
    · rename_i hb; rw [hid] at ev ⊢
      match body, Decidable.not_not.mp hb with
      | [a], _ => exact ev h (.reader a _ (maskOf_spec _))
  replace h := ite_inv h
  rcases h with ⟨hid, h⟩ | ⟨-, h⟩
  · split at h <;> exact fin h rfl rfl
  replace h := ite_inv h
  rcases h with ⟨hid, h⟩ | ⟨n5, h⟩
  · split at h
    · rename_i r n data
      split at h
      · exact fin h rfl rfl
      · rename_i hn
        obtain ⟨d, hd, h⟩ := Res.bind_eq_ok.mp h
        rw [hid] at ev ⊢
        exact ev h (.keys r n data _ rfl rfl (Decidable.not_not.mp hn) (copyIn_inv hd).2)
    · exact fin h rfl rfl
  replace h := ite_inv h
  rcases h with ⟨hid, h⟩ | ⟨n6, h⟩
  · split at h
    · rename_i r f l0 l1 data
      split at h
      · exact fin h rfl rfl
      · rename_i hn
        obtain ⟨d, hd, h⟩ := Res.bind_eq_ok.mp h
        rw [hid] at ev ⊢
        have e : ofLe [l0, l1] = l0.toNat + 256 * l1.toNat := rfl
        rw [e] at h hn
        exact ev h (.card r f l0 l1 data _ rfl (cardFormat_spec f) rfl rfl (by omega) (copyIn_inv hd).2)
    · exact fin h rfl rfl
  replace h := ite_inv h
  rcases h with ⟨hid, h⟩ | ⟨-, h⟩
  · exact fin h rfl rfl
  replace h := ite_inv h
  rcases h with ⟨hid, h⟩ | ⟨-, h⟩
  · split at h <;> exact fin h rfl rfl
  replace h := ite_inv h
  rcases h with ⟨hid, h⟩ | ⟨n7, h⟩
  · split at h
    · rename_i v0 v1 v2 c data
      split at h
      · exact fin h rfl rfl
      · rename_i hn
        rw [hid] at ev ⊢
        simp only [List.length_cons] at hl
        have e : data.length % 256 = data.length := by omega
        rw [e] at h hn
        refine ev h (.mfg v0 v1 v2 c data _ ?_ rfl ?_ ?_)
        · have h0 := v0.isLt; have h1 := v1.isLt; have h2 := v2.isLt
          simp only [BitVec.toNat_ofNat, ofLe]
          omega
        · simp [b8]; omega
        · unfold Bytes.padTo
          dsimp only
          rw [List.take_length, List.take_of_length_le (by omega)]
    · exact fin h rfl rfl
  replace h := ite_inv h
  rcases h with ⟨hid, h⟩ | ⟨-, h⟩
  · obtain ⟨r, hr, h⟩ := Res.bind_eq_ok.mp h
    exact fin h rfl rfl
  replace h := ite_inv h
  rcases h with ⟨hid, h⟩ | ⟨-, h⟩
  · split at h
    · exact fin h rfl rfl
    · split at h <;> exact fin h rfl rfl
  replace h := ite_inv h
  rcases h with ⟨hid, h⟩ | ⟨-, h⟩
  · split at h
    · exact fin h rfl rfl
    · split at h <;> exact fin h rfl rfl
  · exact fin h rfl rfl

/-! ### what the application is told -/

/-- the events of PDs handed to the application (notifications of the library excluded) -/
def pdEvents (outs : List Out) : List Event :=
  outs.filterMap fun
    | .event _ (.notification ..) => none
    | .event _ e => some e
    | _ => none

/-- the notifications of one kind handed to the application -/
def notes (t : NotifType) (outs : List Out) : List (Int × Int) :=
  outs.filterMap fun
    | .event _ (.notification t' a b) => if t' = t then some (a, b) else none
    | _ => none

theorem pdEvents_append (a b : List Out) : pdEvents (a ++ b) = pdEvents a ++ pdEvents b := List.filterMap_append

theorem notes_append (t : NotifType) (a b : List Out) : notes t (a ++ b) = notes t a ++ notes t b := List.filterMap_append

theorem NoEvent.pdEvents {outs : List Out} (h : NoEvent outs) : pdEvents outs = [] := by
  refine List.filterMap_eq_nil_iff.mpr fun o ho => ?_
  cases o with
  | event i e => exact absurd rfl (h _ ho i e)
  | _ => rfl

theorem NoEvent.notes {outs : List Out} (h : NoEvent outs) (t : NotifType) : notes t outs = [] := by
  refine List.filterMap_eq_nil_iff.mpr fun o ho => ?_
  cases o with
  | event i e => exact absurd rfl (h _ ho i e)
  | _ => rfl

/-- only notifications of one kind -/
def Only (t : NotifType) (outs : List Out) : Prop := ∀ o ∈ outs, ∃ i a b, o = Out.event i (.notification t a b)

theorem Only.pdEvents {t : NotifType} {outs : List Out} (h : Only t outs) : pdEvents outs = [] := by
  refine List.filterMap_eq_nil_iff.mpr fun o ho => ?_
  obtain ⟨i, a, b, rfl⟩ := h o ho
  rfl

theorem Only.notes {t t' : NotifType} {outs : List Out} (h : Only t outs) (ht : t ≠ t') : notes t' outs = [] := by
  refine List.filterMap_eq_nil_iff.mpr fun o ho => ?_
  obtain ⟨i, a, b, rfl⟩ := h o ho
  exact if_neg ht

theorem notify_only {cb : Bool} {p : Pd} {t : NotifType} {a b : Int} : Only t (notify cb p t a b) :=
  fun o ho => ⟨_, _, _, notify_outs o ho⟩

/-- the notifications are on: a callback is registered and the flag is set -/
def told (cb : Bool) (p : Pd) : Bool := cb && p.flags.enableNotif

theorem notify_notes {cb : Bool} {p : Pd} {t : NotifType} {a b : Int} :
    notes t (notify cb p t a b) = if told cb p then [(a, b)] else [] := by
  unfold notify told
  split
  · simp [notes]
  · rfl

/-- a pending event was read from a reply, and is no notification -/
def Proper (p : Pd) : Prop := ∀ e, p.eph = .event e → ∃ id body, Reads id body e

theorem reads_event {id : Nat} {body : List Byte} {e : Event} (h : Reads id body e) (i : Nat) :
    pdEvents [.event i e] = [e] ∧ ∀ t, notes t [.event i e] = [] := by
  cases h <;> exact ⟨rfl, fun _ => rfl⟩

theorem eventOuts_events {cb : Bool} {p : Pd} (h : Proper p) :
    (pdEvents (eventOuts cb p) = match cb, p.eph with | true, .event e => [e] | _, _ => []) ∧
    ∀ t, notes t (eventOuts cb p) = [] := by
  unfold eventOuts
  cases cb with
  | false => exact ⟨rfl, fun _ => rfl⟩
  | true =>
    cases he : p.eph with
    | event e =>
      obtain ⟨id, body, hr⟩ := h e he
      exact reads_event hr p.idx
    | _ => exact ⟨rfl, fun _ => rfl⟩

/-- choosing the next state leaves a pending event alone, unless the key of the PD is to be installed -/
theorem next_eph {cb : Bool} {p q : Pd} {now : Int} {ok : Bool} {outs : List Out} {n : CpState}
    (h : (if ok then nextOk cb p now else nextErr cb p now) = .ok (q, outs, n)) :
    (q.eph = p.eph ∨ ((∀ e, q.eph ≠ .event e) ∧ n = .setScbk ∧ p.state ≠ .online)) ∧
    q.reqEventSend = p.reqEventSend ∧ q.reqOffline = p.reqOffline ∧ q.idx = p.idx ∧ q.state = p.state ∧
    q.flags.enableNotif = p.flags.enableNotif ∧ Only .scStatus outs := by
  have ho : Only .scStatus outs := by
    cases ok with
    | true => exact nextOk_outs h
    | false => exact nextErr_outs h
  have hd : Drift p q ∧ q.state = p.state ∧ q.reqEventSend = p.reqEventSend ∧ q.reqOffline = p.reqOffline := by
    cases ok with
    | true => obtain ⟨a, b, -, -, -, -, -, -, c, d, -⟩ := nextOk_drift h; exact ⟨a, b, d, c⟩
    | false => obtain ⟨a, b, -, -, -, -, -, -, c, d, -⟩ := nextErr_drift h; exact ⟨a, b, d, c⟩
  refine ⟨?_, hd.2.2.1, hd.2.2.2, hd.1.keeps.2.2.2.2.2.2.2.1, hd.2.1, by rw [hd.1.flags], ho⟩
  cases ok with
  | false =>
    refine .inl ?_
    replace h : nextErr cb p now = .ok (q, outs, n) := h
    unfold nextErr at h
    cases hs : p.state <;> rw [hs] at h <;> dsimp only at h
    case scChlng =>
      split at h
      · injection h with h; injection h with e1 h; injection h with e2 e3; subst e1 e2 e3; rfl
      split at h
      all_goals
        injection h with h; injection h with e1 h; injection h with e2 e3; subst e1 e2 e3; rfl
    case probe => cases h
    all_goals
      injection h with h; injection h with e1 h; injection h with e2 e3; subst e1 e2 e3; rfl
  | true =>
    replace h : nextOk cb p now = .ok (q, outs, n) := h
    unfold nextOk at h
    cases hs : p.state <;> rw [hs] at h <;> dsimp only at h
    case setScbk =>
      obtain ⟨⟨p2, o2⟩, h1, h⟩ := Res.bind_eq_ok.mp h
      injection h with h; injection h with e1 h; injection h with e2 e3; subst e1 e2 e3
      obtain ⟨k, -, rfl, -⟩ := keysetComplete_inv h1
      exact .inl rfl
    case scScrypt =>
      split at h
      · injection h with h; injection h with e1 h; injection h with e2 e3; subst e1 e2 e3
        exact .inr ⟨(fun e he => by cases he), rfl, (by simp)⟩
      · injection h with h; injection h with e1 h; injection h with e2 e3; subst e1 e2 e3; exact .inl rfl
    case capdet =>
      split at h
      all_goals
        injection h with h; injection h with e1 h; injection h with e2 e3; subst e1 e2 e3; exact .inl rfl
    case probe => cases h
    all_goals
      injection h with h; injection h with e1 h; injection h with e2 e3; subst e1 e2 e3; exact .inl rfl

/-- whether pending requests are looked at -/
def attends (p : Pd) (now : Int) (ok : Bool) : Bool := decide (p.state = .online ∨ nextState p now ok = .online)

/-- **What choosing the next state tells the application.** -/
theorem advance_events {cb : Bool} {p q : Pd} {env : Env} {ok : Bool} {outs : List Out} (hp : Proper p)
    (h : advance cb p env p.state ok = .ok (q, outs)) :
    pdEvents outs = (if attends p env.now ok ∧ p.reqEventSend then
      match cb, p.eph with | true, .event e => [e] | _, _ => [] else []) ∧
    notes .pdStatus outs = (if q.state ≠ p.state ∧ (q.state = .online ∨ q.state = .offline) ∧ told cb p then [(1, 0)] else []) ∧
    notes .command outs = [] ∧
    q.reqEventSend = (if attends p env.now ok then false else p.reqEventSend) ∧
    (∀ e, q.eph = .event e → p.eph = .event e) ∧ q.flags.enableNotif = p.flags.enableNotif := by
  have hst := advance_state h
  cases advance_inv h with
  | mk h1 h2 =>
  rename_i p1 p2 o1 o2 n1 n2
  obtain ⟨a1, a2, a3, a4, a5, a6, a7⟩ := next_eph h1
  have hn : n1 = nextState p env.now ok := by
    cases ok with
    | true => exact (nextOk_state h1).1
    | false => exact (nextErr_state h1).1
  have hp1 : Proper p1 := by
    intro e he
    rcases a1 with a1 | ⟨a1, -⟩
    · exact hp e (a1 ▸ he)
    · exact absurd he (a1 e)
  obtain ⟨-, b2, -, -, -, -, -, b8, b9, -⟩ := requests_drift h2
  -- the requests
  have hreq : pdEvents o2 = (if attends p env.now ok ∧ p.reqEventSend then
      match cb, p.eph with | true, .event e => [e] | _, _ => [] else []) ∧ (∀ t, notes t o2 = []) ∧
      p2.reqEventSend = (if attends p env.now ok then false else p.reqEventSend) := by
    rcases requests_inv h2 with ⟨c1, rfl, rfl, -⟩ | ⟨c1, rfl, -, rfl⟩
    · have : attends p env.now ok = false := by
        unfold attends
        rw [decide_eq_false_iff_not, ← hn, ← a5]; exact c1
      rw [this]
      exact ⟨rfl, fun _ => rfl, a2⟩
    · have hat : attends p env.now ok = true := by
        unfold attends
        rw [decide_eq_true_iff, ← hn, ← a5]; exact c1
      rw [hat]
      have he : p1.eph = p.eph := by
        rcases a1 with a1 | ⟨-, a8, a9⟩
        · exact a1
        · rw [a8, a5] at c1
          rcases c1 with c | c
          · exact absurd c a9
          · cases c
      have hfl : NoEvent (if p1.reqRestartSc = true ∧ p1.hasFlush = true then [Out.flush] else []) := by
        intro o ho i e hoe
        split at ho
        · rw [List.mem_singleton] at ho; rw [ho] at hoe; cases hoe
        · cases ho
      rw [a2]
      refine ⟨?_, fun t => ?_, rfl⟩
      · rw [pdEvents_append, hfl.pdEvents, List.nil_append]
        cases hr : p.reqEventSend with
        | false => simp; rfl
        | true => simp only [true_and, if_true]; rw [(eventOuts_events hp1).1, he]
      · rw [notes_append, hfl.notes, List.nil_append]
        split
        · exact (eventOuts_events hp1).2 t
        · rfl
  -- the change of state
  have hch : (pdEvents (if p.state ≠ n2 then (stateChange cb p2 env n2).2 else []) = []) ∧
      (notes .pdStatus (if p.state ≠ n2 then (stateChange cb p2 env n2).2 else []) =
        if n2 ≠ p.state ∧ (n2 = .online ∨ n2 = .offline) ∧ told cb p then [(1, 0)] else []) ∧
      (notes .command (if p.state ≠ n2 then (stateChange cb p2 env n2).2 else []) = []) := by
    by_cases hc : p.state ≠ n2
    · rw [if_pos hc]
      have ht : ∀ r : Pd, r.flags.enableNotif = p.flags.enableNotif → told cb r = told cb p := by
        intro r hr; unfold told; rw [hr]
      have hf2 : p2.flags.enableNotif = p.flags.enableNotif := by rw [b8]; exact a6
      unfold stateChange
      cases n2 with
      | init =>
        have : NoEvent (Phy.stateReset p2 true).2 := by
          intro o ho i e hoe
          unfold Phy.stateReset at ho
          dsimp only at ho
          rw [if_pos rfl] at ho
          dsimp only at ho
          split at ho
          · rw [List.mem_singleton] at ho; rw [ho] at hoe; cases hoe
          · cases ho
        exact ⟨this.pdEvents, by rw [this.notes]; simp, this.notes _⟩
      | online =>
        have hc' : CpState.online ≠ p.state := fun h => hc h.symm
        refine ⟨notify_only.pdEvents, ?_, notify_only.notes (by simp)⟩
        dsimp only
        unfold notifyPdStatus
        rw [notify_notes, ht _ hf2]
        simp [hc']
      | offline =>
        have hc' : CpState.offline ≠ p.state := fun h => hc h.symm
        dsimp only
        unfold notifyScStatus notifyPdStatus
        rw [pdEvents_append, notes_append, notes_append, notify_only.pdEvents, notify_only.pdEvents, notify_only.notes (by simp),
          notify_only.notes (t' := .command) (by simp), notify_only.notes (t' := .command) (by simp), notify_notes,
          ht _ (by show p2.flags.enableNotif = _; exact hf2)]
        refine ⟨rfl, ?_, rfl⟩
        simp [hc']
      | _ => exact ⟨rfl, by simp [notes], rfl⟩
    · rw [if_neg hc]
      refine ⟨rfl, ?_, rfl⟩
      rw [if_neg (fun h => hc (fun h' => h.1 h'.symm))]; rfl
  have hqs : (if p.state ≠ n2 then (stateChange cb p2 env n2).1 else p2).state = n2 := by
    split
    · exact (stateChange_drift cb p2 env n2).2.1
    · rename_i hc; rw [b2, a5]; exact Decidable.not_not.mp hc
  rw [hqs]
  refine ⟨?_, ?_, ?_, ?_, ?_, ?_⟩
  · rw [pdEvents_append, pdEvents_append, a7.pdEvents, hch.1, List.nil_append, List.append_nil]; exact hreq.1
  · rw [notes_append, notes_append, a7.notes (by simp), hreq.2.1, List.nil_append, List.nil_append]; exact hch.2.1
  · rw [notes_append, notes_append, a7.notes (by simp), hreq.2.1, List.nil_append, List.nil_append]; exact hch.2.2
  · split
    · rw [(stateChange_drift cb p2 env n2).2.2.2.2.2.2.2.2]; exact hreq.2.2
    · exact hreq.2.2
  · intro e he
    have : p2.eph = .event e := by
      split at he
      · rw [(stateChange_drift cb p2 env n2).2.2.2.2.2.2.1] at he; exact he
      · exact he
    rw [b9] at this
    rcases a1 with a1 | ⟨a1, -⟩
    · exact a1 ▸ this
    · exact absurd this (a1 e)
  · have hf2 : p2.flags.enableNotif = p.flags.enableNotif := by rw [b8]; exact a6
    split
    · rw [(stateChange_drift cb p2 env n2).1.flags]; exact hf2
    · exact hf2

/-- choosing a command puts no event into the memory shared by commands and events -/
theorem stateGetCmd_eph {p q : Pd} {env : Env} {outs : List Out} {id : Nat} (h : stateGetCmd p env = .ok (q, outs, id)) :
    ∀ e, q.eph = .event e → p.eph = .event e := by
  have simple : ∀ n : Nat, Except.ok (p, ([] : List Out), n) = (Except.ok (q, outs, id) : Res _) →
      ∀ e, q.eph = .event e → p.eph = .event e := by
    intro n h e he
    injection h with h; injection h with h1 h; subst h1; exact he
  unfold stateGetCmd at h
  cases hs : p.state <;> rw [hs] at h <;> dsimp only at h
  case online =>
    intro e he
    unfold onlineCommand at h
    split at h
    · obtain ⟨⟨p1, n1⟩, h1, h⟩ := Res.bind_eq_ok.mp h
      injection h with h; injection h with e1 h; subst e1
      rw [(translate_inv h1).1] at he
      cases he
    · split at h
      dsimp only at h
      split at h
      · injection h with h; injection h with e1 h; subst e1; exact he
      · injection h with h; injection h with e1 h; subst e1; exact he
      · split at h
        all_goals
          injection h with h; injection h with e1 h; subst e1; exact he
  all_goals exact simple _ h

/-- what may be pending for the application when an exchange ends: what was pending before, or what the reply carried -/
def Pending (C : Cipher) (p : Pd) (env : Env) (pend : Bool) (ev : Eph) : Prop :=
  (pend = p.reqEventSend ∧ ∀ e, ev = .event e → p.eph = .event e) ∨
  (pend = true ∧ ∃ id body e, replyOf C p env = some (id, body) ∧ Reads id.toNat body e ∧ ev = .event e)

theorem Pending.proper {C : Cipher} {p p1 : Pd} {env : Env} {pend : Bool} (h : Pending C p env pend p1.eph) (hp : Proper p) :
    Proper p1 := by
  intro e he
  rcases h with ⟨-, h⟩ | ⟨-, id, body, e', -, hr, h⟩
  · exact hp e (h e he)
  · rw [he] at h; injection h with h; subst h; exact ⟨_, _, hr⟩

theorem Ended.pending {C : Cipher} {p p1 : Pd} {env : Env} {o : List Out} (hcp : p.flags.pdMode = false) (B : Buffered p)
    (h : Ended C p env p1 o) : Pending C p env p1.reqEventSend p1.eph := by
  cases h with
  | unsent _ h =>
    have := h.sent
    unfold Sent at this
    exact .inl ⟨by rw [this], fun e he => by rw [this] at he; exact he⟩
  | waited hps hw hrc =>
    have key : ∀ {q : Pd} {rc : CpErr}, Reply C p env q o rc → Pending C p env q.reqEventSend q.eph := by
      intro q rc hr
      have col : ∀ {q : Pd}, Phy.Collected p q → Pending C p env q.reqEventSend q.eph := by
        intro q hc
        exact .inl ⟨by rw [hc.transp]; rfl, fun e he => by rw [hc.eph] at he; exact he⟩
      have chk : ∀ {q : Pd} {r : Phy.PktRet}, Phy.Checked p q r → Pending C p env q.reqEventSend q.eph := by
        intro q r hc
        exact .inl ⟨by rw [hc.transp]; rfl, fun e he => (hc.cp hcp).2.event e he⟩
      cases hr with
      | nothing _ hc _ => exact col hc
      | bad _ hc _ => exact col hc
      | busy _ hc => exact chk hc
      | seq _ hc => exact chk hc
      | refused _ hc _ hd _ =>
        have hcp1 := hc.transp.pdMode ▸ hcp
        have t := hc.transp.trans hd.transp
        exact .inl ⟨by rw [t]; rfl, fun e he => (hc.cp hcp).2.event e ((hd.cpEph hcp1).event e he)⟩
      | @reply p1 p2 q d id body _ _ h1 hc h2 hd hl hid _ hb hr he' =>
        have hcp1 := hc.transp.pdMode ▸ hcp
        have t := hc.transp.trans hd.transp
        have hh : Phy.heard C p env = some (id, body) := by rw [hb]; exact Phy.heard_of h1 h2 hl hid
        rcases response_event (Phy.heard_short (B.framed hps) hh) hr with ⟨r1, r2⟩ | ⟨e, r1, r2, -⟩
        · refine .inl ⟨r2.trans (by show Pd.reqEventSend _ = _; rw [t]; rfl), fun e he => ?_⟩
          rw [r1] at he
          exact (hc.cp hcp).2.event e ((hd.cpEph hcp1).event e he)
        · refine .inr ⟨by rw [r2]; rfl, id, body, e, ?_, r1, by rw [r2]; rfl⟩
          unfold replyOf
          rw [if_pos hps]; exact hh
    cases hw with
    | answered h => have k := key h; exact k
    | ignored h _ _ => have k := key h; exact k
    | failed h _ => have k := key h; exact k
    | exhausted h _ _ => have k := key h; exact k
    | busy _ => simp at hrc
    | retry _ _ _ => simp at hrc
    | waiting _ _ => simp at hrc

/-- what the application is told in a visit -/
inductive Telling (C : Cipher) (cb : Bool) (p : Pd) (env : Env) (q : Pd) (outs : List Out) : Prop
  /-- the exchange goes on, or one begins -/
  | quiet : q.state = p.state → pdEvents outs = [] → notes .pdStatus outs = [] → q.reqEventSend = p.reqEventSend →
      (∀ e, q.eph = .event e → p.eph = .event e) → Telling C cb p env q outs
  /-- pending requests are not looked at -/
  | unattended {pend : Bool} {ev : Eph} : Pending C p env pend ev → p.state ≠ .online → q.state ≠ .online → pdEvents outs = [] →
      q.reqEventSend = pend → (∀ e, q.eph = .event e → ev = .event e) → Telling C cb p env q outs
  /-- pending requests are looked at -/
  | attended {pend : Bool} {ev : Eph} : Pending C p env pend ev →
      pdEvents outs = (if pend then match cb, ev with | true, .event e => [e] | _, _ => [] else []) →
      q.reqEventSend = false → (∀ e, q.eph = .event e → ev = .event e) → Telling C cb p env q outs

theorem notifyCommand_only {cb : Bool} {p : Pd} {s : Bool} : Only .command (notifyCommand cb p s) := by
  unfold notifyCommand
  split
  · exact fun o ho => by cases ho
  · exact notify_only

theorem stateCheckReply_only {cb : Bool} {p q : Pd} {outs : List Out} {ok : Bool} (h : stateCheckReply cb p = .ok (q, outs, ok)) :
    Only .scStatus outs := by
  rcases (stateCheckReply_inv h).2 with ⟨-, rfl, -⟩ | ⟨-, -, -, h⟩
  · exact fun o ho => by cases ho
  · obtain ⟨k, -, -, rfl⟩ := keysetComplete_inv h; exact notify_only

theorem finalState_online {p : Pd} {now : Int} {ok : Bool} (h : finalState p now ok = .online) : attends p now ok = true := by
  unfold finalState at h
  unfold attends
  rw [decide_eq_true_iff]
  refine Classical.byContradiction fun hn => ?_
  rw [if_neg hn] at h
  exact hn (.inr h)

theorem Update.telling {C : Cipher} {cb : Bool} {p q : Pd} {env : Env} {outs : List Out} {y : Bool} (I : Inv p) (B : Buffered p)
    (P : Proper p) (h : Update C cb p env q outs y) : Telling C cb p env q outs := by
  have adv : ∀ {p2 q : Pd} {o3 : List Out} {ok : Bool} {s : CpState}, p2.state = s → s = p.state →
      Pending C p env p2.reqEventSend p2.eph → advance cb p2 env s ok = .ok (q, o3) →
      ∀ {o : List Out}, pdEvents o = [] → Telling C cb p env q (o ++ o3) := by
    intro p2 q o3 ok s hs hsp hpd ha o ho
    subst hs
    have hst := advance_state ha
    obtain ⟨a1, -, -, a4, a5, -⟩ := advance_events (hpd.proper P) ha
    cases hat : attends p2 env.now ok with
    | true =>
      rw [hat] at a1 a4
      refine .attended hpd ?_ a4 a5
      rw [pdEvents_append, ho, a1]
      simp
    | false =>
      rw [hat] at a1 a4
      refine .unattended hpd ?_ ?_ ?_ a4 a5
      · intro hc
        unfold attends at hat
        rw [decide_eq_false_iff_not] at hat
        exact hat (.inl (hsp.trans hc))
      · intro hc
        rw [hst] at hc
        rw [finalState_online hc] at hat; cases hat
      · rw [pdEvents_append, ho, a1]; simp
  cases h.visit I with
  | on h1 _ _ _ _ no h7 h8 => exact .quiet h1 no.pdEvents (no.notes _) h7 h8
  | @command p1 _ id h1 h2 h3 =>
      obtain ⟨c1, -, c3, -⟩ := stateGetCmd_inv h2
      unfold Chosen at c1
      have no := noEvent_fclose c3
      exact .quiet (by show p1.state = _; rw [c1]) no.pdEvents (no.notes _) (by show p1.reqEventSend = _; rw [c1])
        fun e he => stateGetCmd_eph h2 e he
  | @nothing p1 _ o1 o2 h1 h2 h3 =>
      obtain ⟨c1, -, c3, -⟩ := stateGetCmd_inv h2
      unfold Chosen at c1
      exact adv (p2 := { p1 with cmdId := 0 }) rfl (by rw [c1]) (.inl ⟨by show p1.reqEventSend = _; rw [c1], fun e he => stateGetCmd_eph h2 e he⟩) h3
        (noEvent_fclose c3).pdEvents
  | @over p1 p2 _ o1 o2 o3 ok h1 h2 h3 h4 h5 h6 =>
      obtain ⟨k1, -, -, k4, k5, -⟩ := stateCheckReply_state h5
      have := adv (p2 := (Phy.stateReset p2 false).1) (o := o1 ++ (o2 ++ notifyCommand cb p2 ok)) rfl
        (k1.trans h2.keeps.1) (by show Pending C p env p2.reqEventSend p2.eph; rw [k4, k5]; exact h2.pending I.cp B) h6
        (by rw [pdEvents_append, pdEvents_append, h2.keeps.2.2.2.pdEvents, (stateCheckReply_only h5).pdEvents,
              notifyCommand_only.pdEvents]; rfl)
      rw [List.append_assoc, List.append_assoc] at this
      rw [List.append_assoc]
      exact this

theorem Ended.notif {C : Cipher} {p p1 : Pd} {env : Env} {o : List Out} (h : Ended C p env p1 o) :
    p1.flags.enableNotif = p.flags.enableNotif := by
  cases h with
  | unsent _ h =>
    have := h.sent
    unfold Sent at this
    rw [this]
  | waited _ hw _ =>
    have key : ∀ {q : Pd} {rc : CpErr}, Reply C p env q o rc → q.flags.enableNotif = p.flags.enableNotif := by
      intro q rc h
      have := h.heard
      unfold Heard at this
      rw [this]
    cases hw with
    | answered h => have k := key h; exact k
    | ignored h _ _ => have k := key h; exact k
    | failed h _ => have k := key h; exact k
    | exhausted h _ _ => have k := key h; exact k
    | busy h => have k := key h; exact k
    | retry h _ _ => have k := key h; exact k
    | waiting h _ => have k := key h; exact k

theorem stateCheckReply_notif {cb : Bool} {p q : Pd} {outs : List Out} {ok : Bool} (h : stateCheckReply cb p = .ok (q, outs, ok)) :
    q.flags.enableNotif = p.flags.enableNotif := by
  rcases (stateCheckReply_inv h).2 with ⟨rfl, -⟩ | ⟨-, -, -, h⟩
  · rfl
  · obtain ⟨k, -, rfl, -⟩ := keysetComplete_inv h; rfl

/-- **PD-status notifications**: one, with the argument 1, whenever the PD comes online or goes offline. -/
theorem Update.status {C : Cipher} {cb : Bool} {p q : Pd} {env : Env} {outs : List Out} {y : Bool} (I : Inv p) (B : Buffered p)
    (P : Proper p) (h : Update C cb p env q outs y) :
    notes .pdStatus outs = (if q.state ≠ p.state ∧ (q.state = .online ∨ q.state = .offline) ∧ told cb p then [(1, 0)] else []) := by
  have stay : ∀ {q : Pd} {outs : List Out}, q.state = p.state → NoEvent outs → notes .pdStatus outs =
      (if q.state ≠ p.state ∧ (q.state = .online ∨ q.state = .offline) ∧ told cb p then [(1, 0)] else []) := by
    intro q outs h no
    rw [no.notes, if_neg (fun hn => hn.1 h)]
  have adv : ∀ {p2 q : Pd} {o3 : List Out} {ok : Bool} {s : CpState}, p2.state = s → s = p.state →
      p2.flags.enableNotif = p.flags.enableNotif →
      Proper p2 → advance cb p2 env s ok = .ok (q, o3) →
      ∀ {o : List Out}, notes .pdStatus o = [] → notes .pdStatus (o ++ o3) =
      (if q.state ≠ p.state ∧ (q.state = .online ∨ q.state = .offline) ∧ told cb p then [(1, 0)] else []) := by
    intro p2 q o3 ok s hs hsp hf hpr ha o ho
    subst hs
    have ht : told cb p2 = told cb p := by unfold told; rw [hf]
    rw [notes_append, ho, List.nil_append, (advance_events hpr ha).2.1, hsp, ht]
  cases h.visit I with
  | on h1 _ _ _ _ no _ _ => exact stay h1 no
  | @command p1 _ id h1 h2 h3 =>
    obtain ⟨c1, -, c3, -⟩ := stateGetCmd_inv h2
    unfold Chosen at c1
    exact stay (by show p1.state = _; rw [c1]) (noEvent_fclose c3)
  | @nothing p1 _ o1 o2 h1 h2 h3 =>
    obtain ⟨c1, -, c3, -⟩ := stateGetCmd_inv h2
    unfold Chosen at c1
    exact adv (p2 := { p1 with cmdId := 0 }) rfl (by rw [c1]) (by show p1.flags.enableNotif = _; rw [c1])
      (fun e he => P e (stateGetCmd_eph h2 e he)) h3 ((noEvent_fclose c3).notes _)
  | @over p1 p2 _ o1 o2 o3 ok h1 h2 h3 h4 h5 h6 =>
    obtain ⟨k1, -, -, k4, k5, -⟩ := stateCheckReply_state h5
    have pr : Proper p1 := (h2.pending I.cp B).proper P
    have := adv (p2 := (Phy.stateReset p2 false).1) (o := o1 ++ (o2 ++ notifyCommand cb p2 ok)) rfl
      (k1.trans h2.keeps.1) ((stateCheckReply_notif h5).trans h2.notif)
      (fun e he => pr e (k4 ▸ he)) h6
      (by rw [notes_append, notes_append, h2.keeps.2.2.2.notes, (stateCheckReply_only h5).notes (by simp),
            notifyCommand_only.notes (by simp)]; rfl)
    rw [List.append_assoc, List.append_assoc] at this
    rw [List.append_assoc]
    exact this

/-- the invariant of events: what is pending was read from a reply, and nothing is pending while online -/
structure Tidy (p : Pd) : Prop where
  proper : Proper p
  none : p.state = .online → p.reqEventSend = false

theorem Tidy.step {C : Cipher} {p q : Pd} {op : Op} {outs : List Out} (I : Inv p) (B : Buffered p) (T : Tidy p)
    (h : step C p op = .ok (q, outs)) : Tidy q := by
  by_cases hop : ¬ ∃ cb e, op = .update cb e
  · have ha := step_apiOnly h fun cb e he => hop ⟨cb, e, he⟩
    unfold Api at ha
    exact ⟨fun e he => T.proper e (by rw [ha] at he; exact he), fun hs => by
      rw [ha] at hs ⊢; exact T.none hs⟩
  replace hop := Classical.not_not.mp hop
  obtain ⟨cb, env, rfl⟩ := hop
  obtain ⟨⟨s1, o1, y⟩, hu, h⟩ := Res.bind_eq_ok.mp h
  injection h with h; injection h with e1 e2; subst e1 e2
  have pend : ∀ {pend : Bool} {ev : Eph}, Pending C p env pend ev → ∀ e, ev = .event e → ∃ id body, Reads id body e := by
    intro pd ev h e he
    rcases h with ⟨-, h⟩ | ⟨-, id, body, e', -, hr, h⟩
    · exact T.proper e (h e he)
    · rw [he] at h; injection h with h; subst h; exact ⟨_, _, hr⟩
  cases (stateUpdate_inv I.cp hu).telling I B T.proper with
  | quiet h1 _ _ h2 h3 => exact ⟨fun e he => T.proper e (h3 e he), fun hs => h2.trans (T.none (h1 ▸ hs))⟩
  | unattended h1 _ h3 _ _ h6 => exact ⟨fun e he => pend h1 e (h6 e he), fun hs => absurd hs h3⟩
  | attended h1 _ h3 h4 => exact ⟨fun e he => pend h1 e (h4 e he), fun _ => h3⟩

theorem newPd_tidy {info : PdM.Info} {i n : Nat} {sk : Bool} {p : Pd} (h : newPd info i sk n = some p) : Tidy p := by
  unfold newPd at h
  split at h
  · cases h
  · injection h with h; subst h; exact ⟨(fun e he => by cases he), (fun hs => by cases hs)⟩

theorem Reached.tidy {C : Cipher} {info : PdM.Info} {q : Pd} (h : Reached C info q) : Tidy q := by
  obtain ⟨i, sk, n, p, ops, o, hn, hr⟩ := h
  exact run_ind (C := C) (p := p) (fun _ q _ => Tidy q) (newPd_tidy hn)
    (fun _ _ q _ _ _ hr T h => T.step (Reached.inv (C := C) ⟨i, sk, n, p, _, _, hn, hr⟩)
      (Reached.buffered (C := C) ⟨i, sk, n, p, _, _, hn, hr⟩) h) hr

end CpM
end Osdp
