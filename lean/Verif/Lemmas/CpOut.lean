import Verif.Lemmas.CpInv
import Verif.Lemmas.Stream
import Verif.Props.C04

/-! # What the CP puts on the wire in one visit, and what choosing the next state leaves alone -/

namespace Osdp.CpM

open Spec.Wire
open Phy (sendOuts DataOf)

theorem sent_nil {outs : List Out} (h : ∀ o ∈ outs, ∀ bs, o ≠ Out.send bs) : sent outs = [] := by
  unfold sent
  rw [List.filterMap_eq_nil_iff]
  intro o ho
  cases o with
  | send bs => exact absurd rfl (h _ ho bs)
  | _ => rfl

theorem sent_append (a b : List Out) : sent (a ++ b) = sent a ++ sent b := by
  unfold sent; exact List.filterMap_append

theorem notify_outs {cb : Bool} {p : Pd} {t : NotifType} {a b : Int} :
    ∀ o ∈ notify cb p t a b, o = Out.event p.idx (.notification t a b) := by
  unfold notify
  split
  · simp
  · simp

theorem nextOk_outs {cb : Bool} {p q : Pd} {now : Int} {outs : List Out} {n : CpState} (h : nextOk cb p now = .ok (q, outs, n)) :
    ∀ o ∈ outs, ∃ i a b, o = Out.event i (.notification .scStatus a b) := by
  unfold nextOk at h
  cases hs : p.state <;> rw [hs] at h <;> dsimp only at h
  case setScbk =>
    obtain ⟨⟨p2, o2⟩, h1, h⟩ := Res.bind_eq_ok.mp h
    injection h with h; injection h with e1 h; injection h with e2 e3; subst e1 e2 e3
    obtain ⟨k, -, -, rfl⟩ := keysetComplete_inv h1
    exact fun o ho => ⟨_, _, _, notify_outs o ho⟩
  case scScrypt =>
    split at h
    all_goals
      injection h with h; injection h with e1 h; injection h with e2 e3; subst e1 e2 e3
      exact fun o ho => ⟨_, _, _, notify_outs o ho⟩
  case capdet =>
    split at h <;> (injection h with h; injection h with e1 h; injection h with e2 e3; subst e1 e2 e3; simp)
  case probe => cases h
  all_goals
    injection h with h; injection h with e1 h; injection h with e2 e3; subst e1 e2 e3
    simp

theorem nextErr_outs {cb : Bool} {p q : Pd} {now : Int} {outs : List Out} {n : CpState} (h : nextErr cb p now = .ok (q, outs, n)) :
    ∀ o ∈ outs, ∃ i a b, o = Out.event i (.notification .scStatus a b) := by
  unfold nextErr at h
  cases hs : p.state <;> rw [hs] at h <;> dsimp only at h
  case setScbk =>
    injection h with h; injection h with e1 h; injection h with e2 e3; subst e1 e2 e3
    exact fun o ho => ⟨_, _, _, notify_outs o ho⟩
  case scChlng =>
    split at h
    · injection h with h; injection h with e1 h; injection h with e2 e3; subst e1 e2 e3; simp
    · split at h <;> (injection h with h; injection h with e1 h; injection h with e2 e3; subst e1 e2 e3; simp)
  case probe => cases h
  all_goals
    injection h with h; injection h with e1 h; injection h with e2 e3; subst e1 e2 e3
    simp

theorem eventOuts_outs {cb : Bool} {p : Pd} : ∀ o ∈ eventOuts cb p, ∃ e, p.eph = .event e ∧ o = Out.event p.idx e := by
  unfold eventOuts
  split
  · rename_i e he
    intro o ho
    rw [List.mem_singleton] at ho
    exact ⟨e, he, ho⟩
  · simp

theorem stateChange_outs {cb : Bool} {p : Pd} {env : Env} {n : CpState} : ∀ o ∈ (stateChange cb p env n).2,
    o = .flush ∧ n = .init ∨ ∃ i t a b, o = Out.event i (.notification t a b) := by
  unfold stateChange
  cases n with
  | init =>
    unfold Phy.stateReset
    dsimp only
    rw [if_pos rfl]
    intro o ho
    dsimp only at ho
    split at ho
    · rw [List.mem_singleton] at ho; exact .inl ⟨ho, rfl⟩
    · cases ho
  | online => exact fun o ho => .inr ⟨_, _, _, _, notify_outs o ho⟩
  | offline =>
    intro o ho
    rcases List.mem_append.mp ho with ho | ho <;> exact .inr ⟨_, _, _, _, notify_outs o ho⟩
  | _ => intro o ho; cases ho

/-- choosing the next state: only events and flushes -/
theorem advance_outs {cb : Bool} {p q : Pd} {env : Env} {cur : CpState} {ok : Bool} {outs : List Out}
    (h : advance cb p env cur ok = .ok (q, outs)) : ∀ o ∈ outs, o = .flush ∨ ∃ i e, o = Out.event i e := by
  cases advance_inv h with
  | mk h1 h2 =>
  intro o ho
  rcases List.mem_append.mp ho with ho | ho
  · rcases List.mem_append.mp ho with ho | ho
    · cases ok with
      | true => obtain ⟨i, a, b, h⟩ := nextOk_outs h1 o ho; exact .inr ⟨i, _, h⟩
      | false => obtain ⟨i, a, b, h⟩ := nextErr_outs h1 o ho; exact .inr ⟨i, _, h⟩
    · rcases requests_inv h2 with ⟨-, -, rfl, -⟩ | ⟨-, -, -, rfl⟩
      · cases ho
      · rcases List.mem_append.mp ho with ho | ho
        · split at ho
          · rw [List.mem_singleton] at ho; exact .inl ho
          · cases ho
        · split at ho
          · obtain ⟨e, -, h⟩ := eventOuts_outs o ho; exact .inr ⟨_, e, h⟩
          · cases ho
  · split at ho
    · rcases stateChange_outs o ho with h | ⟨i, t, a, b, h⟩
      · exact .inl h.1
      · exact .inr ⟨i, _, h⟩
    · cases ho

theorem notifyCommand_outs {cb : Bool} {p : Pd} {s : Bool} : ∀ o ∈ notifyCommand cb p s, ∃ i e, o = Out.event i e := by
  unfold notifyCommand
  split
  · simp
  · exact fun o ho => ⟨_, _, notify_outs o ho⟩

theorem settle_outs {cb : Bool} {p q : Pd} {env : Env} {outs : List Out} (h : settle cb p env = .ok (q, outs)) :
    ∀ o ∈ outs, o = .flush ∨ o = .fclose ∨ ∃ i e, o = Out.event i e := by
  cases settle_inv h with
  | command hps h1 hid => exact fun o ho => .inr (.inl ((stateGetCmd_inv h1).2.2.1 o ho))
  | nothing hps h1 h2 =>
    intro o ho
    rcases List.mem_append.mp ho with ho | ho
    · exact .inr (.inl ((stateGetCmd_inv h1).2.2.1 o ho))
    · rcases advance_outs h2 o ho with h | h
      · exact .inl h
      · exact .inr (.inr h)
  | over hps h1 h2 =>
    intro o ho
    rcases List.mem_append.mp ho with ho | ho
    · rcases List.mem_append.mp ho with ho | ho
      · obtain ⟨-, ⟨-, rfl, -⟩ | ⟨-, -, -, h⟩⟩ := stateCheckReply_inv h1
        · cases ho
        · obtain ⟨k, -, -, rfl⟩ := keysetComplete_inv h
          exact .inr (.inr ⟨_, _, notify_outs o ho⟩)
      · exact .inr (.inr (notifyCommand_outs o ho))
    · rcases advance_outs h2 o ho with h | h
      · exact .inl h
      · exact .inr (.inr h)

theorem settle_sent {cb : Bool} {p q : Pd} {env : Env} {outs : List Out} (h : settle cb p env = .ok (q, outs)) : sent outs = [] := by
  refine sent_nil fun o ho bs hb => ?_
  subst hb
  rcases settle_outs h _ ho with h | h | ⟨i, e, h⟩ <;> cases h

theorem statDecode_outs {file : Option FileSt} {env : Env} {body : List Byte} {r : File.Result}
    (h : File.statDecode file env body = .ok r) : ∀ o ∈ r.outs, o = Out.fclose := by
  unfold File.statDecode at h
  split at h
  · injection h with h; subst h; simp
  split at h
  · injection h with h; subst h; simp
  split at h
  · dsimp only at h
    split at h
    · cases h
    split at h
    · injection h with h; subst h; simp
    split at h
    · injection h with h; subst h; dsimp only; split <;> simp
    split at h
    · injection h with h; subst h; dsimp only; split <;> simp
    split at h
    · injection h with h; subst h; dsimp only; split <;> simp
    · injection h with h; subst h; dsimp only; split <;> simp
  · split at h
    · injection h with h; subst h; simp
    · cases h

theorem Reply.outs {C : Cipher} {p q : Pd} {env : Env} {outs : List Out} {rc : CpErr} (h : Reply C p env q outs rc) :
    ∀ o ∈ outs, o = Out.fclose := by
  cases h with
  | reply _ _ _ _ _ _ _ _ _ he =>
    cases he with
    | file r _ h => exact statDecode_outs h
    | _ => simp
  | _ => simp

theorem Waited.outs {C : Cipher} {p q : Pd} {env : Env} {outs : List Out} {rc : CpErr} (h : Waited C p env q outs rc) :
    ∀ o ∈ outs, o = Out.fclose := by
  cases h with
  | answered h => exact h.outs
  | ignored h _ _ => exact h.outs
  | failed h _ => exact h.outs
  | busy h => exact h.outs
  | retry h _ _ => exact h.outs
  | exhausted h _ _ => exact h.outs
  | waiting h _ => exact h.outs

theorem fclose_sent {outs : List Out} (h : ∀ o ∈ outs, o = Out.fclose) : sent outs = [] :=
  sent_nil fun o ho bs hb => by rw [h o ho] at hb; cases hb

theorem sendOuts_sent (p : Pd) (env : Env) (bs : List Byte) : sent (sendOuts p env bs) = [bs.take env.sendCap] := by
  unfold sendOuts sent
  split <;> rfl

/-- the bits of a sequence number in the control byte -/
theorem seq_ctl : ∀ n : Nat, n < 4 →
    ((b8 n ||| Phy.CTL_CRC ||| Phy.CTL_SCB).toNat % 4 = n ∧ (b8 n ||| Phy.CTL_CRC).toNat % 4 = n) := by decide

theorem seqBits_eq {s : Int} (h1 : 0 ≤ s) (h2 : s ≤ 3) : (Phy.seqBits s : Int) = s ∧ Phy.seqBits s < 4 := by
  have h : s = 0 ∨ s = 1 ∨ s = 2 ∨ s = 3 := by omega
  rcases h with rfl | rfl | rfl | rfl <;> decide

/-- A packet the CP transmits: its sequence number is the next one, it is for the PD's address, it is the command at hand
(or the single byte "abort" when file data could not be read), and it fits. -/
structure Packet.OfCmd (p : Pd) (k : Packet) : Prop where
  size : k.bytes.length ≤ p.txBufSize
  seq : (k.seq : Int) = Phy.nextSeq p.seq true
  addr : k.addr = i8 p.address &&& 0x7F#8
  id : k.id = some (b8 p.cmdId) ∨ p.cmdId = Id.FILETRANSFER ∧ k.id = some (b8 Id.ABORT)
  mark : k.mark = !p.flags.skipMark

theorem SendOutcome.packet {C : Cipher} {p q : Pd} {env : Env} {outs : List Out} {ok : Bool} (hlo : -1 ≤ p.seq) (hhi : p.seq ≤ 3)
    (h : SendOutcome C p env q outs ok) :
    (Spec.Wire.sent outs = [] ∧ ok = false) ∨ ∃ k, Packet.OfCmd p k ∧ Spec.Wire.sent outs = [k.bytes.take env.sendCap] ∧
      ok = decide (k.bytes.length ≤ env.sendCap) ∧ q.seq = Phy.nextSeq p.seq true := by
  cases h with
  | mute _ => exact .inl ⟨rfl, rfl⟩
  | unbuilt b _ _ ho _ =>
    refine .inl ⟨sent_nil fun o h bs hb => ?_, rfl⟩
    obtain ⟨n, off, h⟩ := ho.outs o h
    rw [h] at hb; cases hb
  | built b l q outs ok _ _ ho hl hne hs hw _ =>
    have hq : Spec.Wire.sent b.outs = [] := by
      refine sent_nil fun o h bs hb => ?_
      obtain ⟨n, off, h⟩ := ho.outs o h
      rw [h] at hb; cases hb
    rw [sent_append, hq, List.nil_append]
    rcases hw with ⟨rfl, rfl, -⟩ | ⟨wire, q', hm, hd, -, hsz, rfl, rfl⟩
    · exact .inl ⟨rfl, rfl⟩
    · refine .inr ⟨cmdPkt b l.length wire, ⟨hsz, ?_, ?_, ?_, ?_⟩, sendOuts_sent _ _ _, rfl, ?_⟩
      · have hr := nextSeq_range hlo hhi
        obtain ⟨e1, e2⟩ := seqBits_eq hr.1 hr.2
        have e : (cmdPkt b l.length wire).ctl = (cmdTx p).ctl :=
          (finalTx_fields b.t b.p l.length).2.2.2.trans ho.header.2.2.2
        unfold Packet.seq
        rw [e]
        unfold cmdTx
        dsimp only
        split
        · rw [(seq_ctl _ e2).1]; exact e1
        · rw [(seq_ctl _ e2).2]; exact e1
      · exact (finalTx_fields b.t b.p l.length).2.2.1.trans ho.header.2.2.1
      · have e : (cmdPkt b l.length wire).id = l.head? := hd.id
        rw [e]
        rcases ho.head hl with h | ⟨h1, h2⟩
        · exact .inl h
        · subst h2; exact .inr ⟨h1, rfl⟩
      · exact (finalTx_fields b.t b.p l.length).1.trans ho.header.1
      · unfold Phy.Sending at hs
        rw [hs, ho.keeps]; rfl

/-- **Everything one visit can put on the wire.** -/
theorem Update.packet {C : Cipher} {cb : Bool} {p q : Pd} {env : Env} {outs : List Out} {y : Bool} (I : Inv p)
    (h : Update C cb p env q outs y) :
    Spec.Wire.sent outs = [] ∨ (MaySend p env ∧ ∃ k, Packet.OfCmd p k ∧ Spec.Wire.sent outs = [k.bytes.take env.sendCap] ∧
      (k.bytes.length ≤ env.sendCap → q.seq = Phy.nextSeq p.seq true ∧ q.phyState = .replyWait ∧ q.state = p.state)) := by
  cases h with
  | hold _ _ => exact .inl rfl
  | sent hm h =>
    rename_i p1
    rcases h.packet I.lo I.hi with ⟨h, -⟩ | ⟨k, h1, h2, -, h3⟩
    · exact .inl h
    · exact .inr ⟨hm, k, h1, h2, fun _ => ⟨h3, rfl, h.sent.keeps.1⟩⟩
  | unsent hm h h2 =>
    rw [sent_append, settle_sent h2, List.append_nil]
    rcases h.packet I.lo I.hi with ⟨h, -⟩ | ⟨k, h1, h2, hk, h3⟩
    · exact .inl h
    · refine .inr ⟨hm, k, h1, h2, fun h => ?_⟩
      simp [h] at hk
  | replied _ h1 _ h2 => exact .inl (by rw [sent_append, settle_sent h2, List.append_nil]; exact fclose_sent h1.outs)
  | again _ h1 => exact .inl (fclose_sent h1.outs)
  | waiting _ h1 => exact .inl (fclose_sent h1.outs)
  | idle _ h => exact .inl (settle_sent h)

/-! ### what the rest of `state_update` leaves alone -/

/-- what choosing the next state can change -/
def Drift (p q : Pd) : Prop :=
  q = { p with
    state := q.state, phyState := q.phyState, seq := q.seq, retryCount := q.retryCount
    packetBufLen := q.packetBufLen, packetLen := q.packetLen, tstamp := q.tstamp, waitMs := q.waitMs, scTstamp := q.scTstamp
    eph := q.eph, reqRestartSc := q.reqRestartSc, reqOffline := q.reqOffline, reqEventSend := q.reqEventSend
    cmdQueue := q.cmdQueue, cmdId := q.cmdId, file := q.file
    flags := { p.flags with scActive := q.flags.scActive, useScbkd := q.flags.useScbkd }
    sc := q.sc }

theorem Drift.refl (p : Pd) : Drift p p := rfl

theorem Drift.trans {p q s : Pd} (h : Drift p q) (h' : Drift q s) : Drift p s := by
  unfold Drift at h h' ⊢
  rw [h', h]

theorem Drift.keeps {p q : Pd} (h : Drift p q) : q.address = p.address ∧ q.baudRate = p.baudRate ∧ q.id = p.id ∧ q.cap = p.cap ∧
    q.peerRx = p.peerRx ∧ q.replyId = p.replyId ∧ q.hasFlush = p.hasFlush ∧ q.idx = p.idx ∧ q.rx = p.rx ∧
    q.packetBuf = p.packetBuf := by
  unfold Drift at h
  rw [h]
  exact ⟨rfl, rfl, rfl, rfl, rfl, rfl, rfl, rfl, rfl, rfl⟩

theorem Drift.flags {p q : Pd} (h : Drift p q) :
    q.flags = { p.flags with scActive := q.flags.scActive, useScbkd := q.flags.useScbkd } := by
  unfold Drift at h
  rw [h]

theorem nextOk_drift {cb : Bool} {p q : Pd} {now : Int} {outs : List Out} {n : CpState} (h : nextOk cb p now = .ok (q, outs, n)) :
    Drift p q ∧ q.state = p.state ∧ q.seq = p.seq ∧ q.retryCount = p.retryCount ∧ q.phyState = p.phyState ∧
    q.cmdQueue = p.cmdQueue ∧ q.cmdId = p.cmdId ∧ q.file = p.file ∧ q.reqOffline = p.reqOffline ∧ q.reqEventSend = p.reqEventSend ∧
    q.tstamp = p.tstamp ∧ q.waitMs = p.waitMs ∧ q.sc.cpRandom = p.sc.cpRandom ∧ q.scTstamp = p.scTstamp := by
  unfold nextOk at h
  cases hs : p.state <;> rw [hs] at h <;> dsimp only at h
  case setScbk =>
    obtain ⟨⟨p2, o2⟩, h1, h⟩ := Res.bind_eq_ok.mp h
    injection h with h; injection h with e1 h; injection h with e2 e3; subst e1 e2 e3
    obtain ⟨k, -, rfl, -⟩ := keysetComplete_inv h1
    exact ⟨rfl, hs, rfl, rfl, rfl, rfl, rfl, rfl, rfl, rfl, rfl, rfl, rfl, rfl⟩
  case scScrypt =>
    split at h
    all_goals
      injection h with h; injection h with e1 h; injection h with e2 e3; subst e1 e2 e3
      exact ⟨rfl, hs, rfl, rfl, rfl, rfl, rfl, rfl, rfl, rfl, rfl, rfl, rfl, rfl⟩
  case capdet =>
    split at h
    all_goals
      injection h with h; injection h with e1 h; injection h with e2 e3; subst e1 e2 e3
      exact ⟨rfl, hs, rfl, rfl, rfl, rfl, rfl, rfl, rfl, rfl, rfl, rfl, rfl, rfl⟩
  case probe => cases h
  all_goals
    injection h with h; injection h with e1 h; injection h with e2 e3; subst e1 e2 e3
    exact ⟨rfl, hs, rfl, rfl, rfl, rfl, rfl, rfl, rfl, rfl, rfl, rfl, rfl, rfl⟩

theorem nextErr_drift {cb : Bool} {p q : Pd} {now : Int} {outs : List Out} {n : CpState} (h : nextErr cb p now = .ok (q, outs, n)) :
    Drift p q ∧ q.state = p.state ∧ q.seq = p.seq ∧ q.retryCount = p.retryCount ∧ q.phyState = p.phyState ∧
    q.cmdQueue = p.cmdQueue ∧ q.cmdId = p.cmdId ∧ q.file = p.file ∧ q.reqOffline = p.reqOffline ∧ q.reqEventSend = p.reqEventSend ∧
    q.tstamp = p.tstamp ∧ q.waitMs = p.waitMs ∧ q.sc = p.sc := by
  unfold nextErr at h
  cases hs : p.state <;> rw [hs] at h <;> dsimp only at h
  case scChlng =>
    split at h
    · injection h with h; injection h with e1 h; injection h with e2 e3; subst e1 e2 e3
      exact ⟨rfl, hs, rfl, rfl, rfl, rfl, rfl, rfl, rfl, rfl, rfl, rfl, rfl⟩
    split at h
    all_goals
      injection h with h; injection h with e1 h; injection h with e2 e3; subst e1 e2 e3
      exact ⟨rfl, hs, rfl, rfl, rfl, rfl, rfl, rfl, rfl, rfl, rfl, rfl, rfl⟩
  case probe => cases h
  all_goals
    injection h with h; injection h with e1 h; injection h with e2 e3; subst e1 e2 e3
    exact ⟨rfl, hs, rfl, rfl, rfl, rfl, rfl, rfl, rfl, rfl, rfl, rfl, rfl⟩

theorem requests_drift {cb : Bool} {p q : Pd} {n m : CpState} {outs : List Out} (h : requests cb p n = .ok (q, outs, m)) :
    Drift p q ∧ q.state = p.state ∧ (q.seq = p.seq ∧ q.retryCount = p.retryCount ∨ q.seq = -1 ∧ q.retryCount = 0 ∧ p.reqRestartSc = true) ∧
    q.cmdQueue = p.cmdQueue ∧ q.cmdId = p.cmdId ∧ q.file = p.file ∧ q.sc = p.sc ∧ q.flags = p.flags ∧ q.eph = p.eph ∧
    q.tstamp = p.tstamp ∧ q.waitMs = p.waitMs ∧ q.scTstamp = p.scTstamp := by
  rcases requests_inv h with ⟨-, rfl, -, -⟩ | ⟨-, rfl, -, -⟩
  · exact ⟨rfl, rfl, .inl ⟨rfl, rfl⟩, rfl, rfl, rfl, rfl, rfl, rfl, rfl, rfl, rfl⟩
  · unfold afterRequests
    cases hr : p.reqRestartSc with
    | false =>
      rw [if_neg (by simp)]
      exact ⟨rfl, rfl, .inl ⟨rfl, rfl⟩, rfl, rfl, rfl, rfl, rfl, rfl, rfl, rfl, rfl⟩
    | true =>
      rw [if_pos rfl]
      exact ⟨rfl, rfl, .inr ⟨rfl, rfl, rfl⟩, rfl, rfl, rfl, rfl, rfl, rfl, rfl, rfl, rfl⟩

theorem stateChange_drift (cb : Bool) (p : Pd) (env : Env) (n : CpState) :
    Drift p (stateChange cb p env n).1 ∧ (stateChange cb p env n).1.state = n ∧
    ((stateChange cb p env n).1.seq = p.seq ∧ (stateChange cb p env n).1.retryCount = p.retryCount ∨
      (stateChange cb p env n).1.seq = -1 ∧ (stateChange cb p env n).1.retryCount = 0 ∧ n = .init) ∧
    (stateChange cb p env n).1.cmdQueue = p.cmdQueue ∧ (stateChange cb p env n).1.cmdId = p.cmdId ∧
    (stateChange cb p env n).1.file = p.file ∧ (stateChange cb p env n).1.eph = p.eph ∧
    (stateChange cb p env n).1.reqOffline = p.reqOffline ∧ (stateChange cb p env n).1.reqEventSend = p.reqEventSend := by
  unfold stateChange
  cases n with
  | init => exact ⟨rfl, rfl, .inr ⟨rfl, rfl, rfl⟩, rfl, rfl, rfl, rfl, rfl, rfl⟩
  | scChlng =>
    exact ⟨rfl, rfl, .inl ⟨rfl, rfl⟩, rfl, rfl, rfl, rfl, rfl, rfl⟩
  | _ => exact ⟨rfl, rfl, .inl ⟨rfl, rfl⟩, rfl, rfl, rfl, rfl, rfl, rfl⟩

theorem advance_drift {cb : Bool} {p q : Pd} {env : Env} {cur : CpState} {ok : Bool} {outs : List Out}
    (h : advance cb p env cur ok = .ok (q, outs)) : Drift p q ∧ q.cmdQueue = p.cmdQueue ∧ q.cmdId = p.cmdId ∧ q.file = p.file := by
  cases advance_inv h with
  | mk h1 h2 =>
  rename_i p1 p2 o1 o2 n1 n2
  have d1 : Drift p p1 ∧ p1.cmdQueue = p.cmdQueue ∧ p1.cmdId = p.cmdId ∧ p1.file = p.file := by
    cases ok with
    | true => obtain ⟨a, -, -, -, -, b, c, d, -⟩ := nextOk_drift h1; exact ⟨a, b, c, d⟩
    | false => obtain ⟨a, -, -, -, -, b, c, d, -⟩ := nextErr_drift h1; exact ⟨a, b, c, d⟩
  obtain ⟨a2, -, -, b2, c2, e2, -⟩ := requests_drift h2
  obtain ⟨a1, b1, c1, e1⟩ := d1
  split
  · obtain ⟨a3, -, -, b3, c3, e3, -⟩ := stateChange_drift cb p2 env n2
    exact ⟨(a1.trans a2).trans a3, b3.trans (b2.trans b1), c3.trans (c2.trans c1), e3.trans (e2.trans e1)⟩
  · exact ⟨a1.trans a2, b2.trans b1, c2.trans c1, e2.trans e1⟩

theorem settle_drift {cb : Bool} {p q : Pd} {env : Env} {outs : List Out} (h : settle cb p env = .ok (q, outs)) : Drift p q := by
  cases settle_inv h with
  | command hps h1 hid =>
    have hc := (stateGetCmd_inv h1).1
    unfold Chosen at hc
    rw [hc]; rfl
  | nothing hps h1 h2 =>
    have hc := (stateGetCmd_inv h1).1
    refine Drift.trans ?_ (advance_drift h2).1
    unfold Chosen at hc
    rw [hc]; rfl
  | over hps h1 h2 =>
    refine Drift.trans ?_ (advance_drift h2).1
    obtain ⟨-, ⟨rfl, -⟩ | ⟨-, -, -, h⟩⟩ := stateCheckReply_inv h1
    · rfl
    · obtain ⟨k, -, rfl, -⟩ := keysetComplete_inv h; rfl

theorem Waited.state {C : Cipher} {p q : Pd} {env : Env} {outs : List Out} {rc : CpErr} (h : Waited C p env q outs rc) :
    q.state = p.state ∧ q.cmdId = p.cmdId ∧ q.cmdQueue = p.cmdQueue := by
  cases h with
  | answered h => exact ⟨h.heard.keeps.1, h.heard.keeps.2.2.1, h.heard.keeps.2.2.2.1⟩
  | ignored h _ _ => exact ⟨h.heard.keeps.1, h.heard.keeps.2.2.1, h.heard.keeps.2.2.2.1⟩
  | failed h _ => exact ⟨h.heard.keeps.1, h.heard.keeps.2.2.1, h.heard.keeps.2.2.2.1⟩
  | busy h => exact ⟨h.heard.keeps.1, h.heard.keeps.2.2.1, h.heard.keeps.2.2.2.1⟩
  | retry h _ _ => exact ⟨h.heard.keeps.1, h.heard.keeps.2.2.1, h.heard.keeps.2.2.2.1⟩
  | exhausted h _ _ => exact ⟨h.heard.keeps.1, h.heard.keeps.2.2.1, h.heard.keeps.2.2.2.1⟩
  | waiting h _ => exact ⟨h.heard.keeps.1, h.heard.keeps.2.2.1, h.heard.keeps.2.2.2.1⟩

/-- a visit either leaves the state of the connection alone or ends with the second half of `state_update` -/
theorem Update.split {C : Cipher} {cb : Bool} {p q : Pd} {env : Env} {outs : List Out} {y : Bool} (I : Inv p)
    (h : Update C cb p env q outs y) :
    (q.state = p.state ∧ q.cmdId = p.cmdId ∧ q.cmdQueue = p.cmdQueue ∧ q.phyState ≠ .idle ∧ p.phyState ≠ .idle) ∨
    ∃ p1 o1 o2, Mid p1 ∧ p1.state = p.state ∧ p1.cmdId = p.cmdId ∧ p1.cmdQueue = p.cmdQueue ∧
      settle cb p1 env = .ok (q, o2) ∧ outs = o1 ++ o2 ∧ (p1.phyState = .idle ∧ p1 = p ∧ o1 = [] ∨
        p.phyState ≠ .idle ∧ (p1.phyState = .done ∨ p1.phyState = .err)) := by
  cases h with
  | hold h _ => exact .inl ⟨rfl, rfl, rfl, by simp [h], by simp [h]⟩
  | sent hm h =>
    obtain ⟨k1, -, k3, k4, -⟩ := h.sent.keeps
    refine .inl ⟨k1, k3, k4, (fun h => by cases h), ?_⟩
    rcases hm with h | ⟨h, -⟩ <;> simp [h]
  | unsent hm h1 h2 =>
    obtain ⟨k1, -, k3, k4, -⟩ := h1.sent.keeps
    exact .inr ⟨_, _, _, unsent_mid I h1, k1, k3, k4, h2, rfl, .inr ⟨by rcases hm with h | ⟨h, -⟩ <;> simp [h], .inr rfl⟩⟩
  | replied hps h1 hrc h2 =>
    obtain ⟨k1, k3, k4⟩ := h1.state
    refine .inr ⟨_, _, _, waited_mid I hps h1, k1, k3, k4, h2, rfl, .inr ⟨by simp [hps], ?_⟩⟩
    cases h1 with
    | answered _ => exact .inl rfl
    | ignored _ _ _ => exact .inl rfl
    | failed _ _ => exact .inr rfl
    | exhausted _ _ _ => exact .inr rfl
    | busy _ => simp at hrc
    | retry _ _ _ => simp at hrc
    | waiting _ _ => simp at hrc
  | again hps h1 =>
    obtain ⟨k1, k3, k4⟩ := h1.state
    refine .inl ⟨k1, k3, k4, ?_, by simp [hps]⟩
    cases h1 <;> simp
  | waiting hps h1 =>
    obtain ⟨k1, k3, k4⟩ := h1.state
    refine .inl ⟨k1, k3, k4, ?_, by simp [hps]⟩
    cases h1 with
    | waiting h _ => rw [h.heard.keeps.2.1, hps]; simp
  | idle hps h =>
    have hi : p.phyState = .idle := by
      rcases hps with h | h | h
      · exact h
      · rcases I.phy with h' | h' | h' | h' <;> rw [h] at h' <;> cases h'
      · rcases I.phy with h' | h' | h' | h' <;> rw [h] at h' <;> cases h'
    exact .inr ⟨p, [], _, I.mid, rfl, rfl, rfl, h, rfl, .inl ⟨hi, rfl, rfl⟩⟩

/-- the state chosen next, from the state `p` in which the exchange is over -/
theorem settle_pre {cb : Bool} {p q : Pd} {env : Env} {outs : List Out} (M : Mid p) (h : settle cb p env = .ok (q, outs)) :
    (p.phyState = .idle ∧ q.state = p.state ∧ q.phyState = .sendCmd ∧ q.seq = p.seq ∧ CmdOf p.state q.cmdId ∧ 0 < q.cmdId) ∨
    ∃ p1 o1 o2 ok, Pre p1 ∧ p1.state = p.state ∧ p1.seq = p.seq ∧ advance cb p1 env p1.state ok = .ok (q, o2) ∧ outs = o1 ++ o2 ∧
      (p.phyState = .idle ∧ ok = true ∧ p1.cmdId = 0 ∧ (p.state ≠ .online → p1 = { p with cmdId := 0 } ∧ o1 = []) ∨
        (p.phyState = .done ∨ p.phyState = .err) ∧ ok = (p.phyState == .done && verdict p) ∧ p1.replyId = p.replyId ∧ p1.cmdId = p.cmdId) := by
  cases settle_inv h with
  | command hps h1 hid =>
    obtain ⟨hc, h2, -, -⟩ := stateGetCmd_inv h1
    unfold Chosen at hc
    refine .inl ⟨hps, ?_, rfl, ?_, h2 hid, hid⟩ <;> rw [hc]
  | nothing hps h1 h2 =>
    obtain ⟨hc, -, -, h3⟩ := stateGetCmd_inv h1
    refine .inr ⟨_, _, _, _, nothing_pre M hps h1, ?_, ?_, h2, rfl, .inl ⟨hps, rfl, rfl, fun h => ?_⟩⟩
    · unfold Chosen at hc; rw [hc]
    · unfold Chosen at hc; rw [hc]
    · obtain ⟨rfl, h'⟩ := h3 h; exact ⟨rfl, h'⟩
  | over hps h1 h2 =>
    rename_i p1 o1 o2 ok
    obtain ⟨hv, hj⟩ := stateCheckReply_inv h1
    refine .inr ⟨_, _, _, _, over_pre M h1, ?_, ?_, h2, rfl, .inr ⟨hps, by rw [hv], ?_, ?_⟩⟩
    · show p1.state = p.state
      rcases hj with ⟨rfl, -⟩ | ⟨-, -, -, h⟩
      · rfl
      · obtain ⟨k, -, rfl, -⟩ := keysetComplete_inv h; rfl
    · show p1.seq = p.seq
      rcases hj with ⟨rfl, -⟩ | ⟨-, -, -, h⟩
      · rfl
      · obtain ⟨k, -, rfl, -⟩ := keysetComplete_inv h; rfl
    · show p1.replyId = p.replyId
      rcases hj with ⟨rfl, -⟩ | ⟨-, -, -, h⟩
      · rfl
      · obtain ⟨k, -, rfl, -⟩ := keysetComplete_inv h; rfl
    · show p1.cmdId = p.cmdId
      rcases hj with ⟨rfl, -⟩ | ⟨-, -, -, h⟩
      · rfl
      · obtain ⟨k, -, rfl, -⟩ := keysetComplete_inv h; rfl

/-- the state chosen next, before pending requests are looked at -/
def nextState (p : Pd) (now : Int) : Bool → CpState
  | true => match p.state with
    | .init => .capdet
    | .capdet => if p.scCapable then .scChlng else if p.flags.enforceSecure then .offline else .online
    | .scChlng => .scScrypt
    | .scScrypt => if p.flags.useScbkd then .setScbk else .online
    | .setScbk => .scChlng
    | .online => if scShouldRetry p now then .scChlng else .online
    | .offline => if now - p.tstamp > p.waitMs then .init else .offline
    | .probe => .probe
  | false => match p.state with
    | .scChlng => if p.flags.enforceSecure then .offline else if p.flags.useScbkd then .online else .scChlng
    | .scScrypt => if p.flags.enforceSecure then .offline else .online
    | .setScbk => if p.flags.enforceSecure || p.flags.useScbkd then .offline else .online
    | _ => .offline

theorem nextOk_state {cb : Bool} {p q : Pd} {now : Int} {outs : List Out} {n : CpState} (h : nextOk cb p now = .ok (q, outs, n)) :
    n = nextState p now true ∧ q.reqRestartSc = p.reqRestartSc := by
  unfold nextOk at h
  unfold nextState
  cases hs : p.state <;> rw [hs] at h <;> dsimp only at h ⊢
  case setScbk =>
    obtain ⟨⟨p2, o2⟩, h1, h⟩ := Res.bind_eq_ok.mp h
    injection h with h; injection h with e1 h; injection h with e2 e3; subst e1 e2 e3
    obtain ⟨k, -, rfl, -⟩ := keysetComplete_inv h1
    refine ⟨rfl, ?_⟩
    dsimp only
    rw [if_neg (by simp [hs])]
  case scScrypt =>
    split at h
    · rename_i hu
      injection h with h; injection h with e1 h; injection h with e2 e3; subst e1 e2 e3
      exact ⟨(if_pos hu).symm, rfl⟩
    · rename_i hu
      injection h with h; injection h with e1 h; injection h with e2 e3; subst e1 e2 e3
      exact ⟨(if_neg hu).symm, rfl⟩
  case capdet =>
    split at h
    · rename_i hu
      injection h with h; injection h with e1 h; injection h with e2 e3; subst e1 e2 e3
      exact ⟨(if_pos hu).symm, rfl⟩
    · rename_i hu
      injection h with h; injection h with e1 h; injection h with e2 e3; subst e1 e2 e3
      exact ⟨(if_neg hu).symm, rfl⟩
  case probe => cases h
  all_goals
    injection h with h; injection h with e1 h; injection h with e2 e3; subst e1 e2 e3
    exact ⟨rfl, rfl⟩

theorem nextErr_state {cb : Bool} {p q : Pd} {now : Int} {outs : List Out} {n : CpState} (h : nextErr cb p now = .ok (q, outs, n)) :
    n = nextState p now false ∧ q.reqRestartSc = p.reqRestartSc := by
  unfold nextErr at h
  unfold nextState
  cases hs : p.state <;> rw [hs] at h <;> dsimp only at h ⊢
  case scChlng =>
    split at h
    · rename_i he
      injection h with h; injection h with e1 h; injection h with e2 e3; subst e1 e2 e3
      exact ⟨(if_pos he).symm, rfl⟩
    rename_i he
    rw [if_neg he]
    split at h
    · rename_i hu
      injection h with h; injection h with e1 h; injection h with e2 e3; subst e1 e2 e3
      exact ⟨(if_neg hu).symm, rfl⟩
    · rename_i hu
      injection h with h; injection h with e1 h; injection h with e2 e3; subst e1 e2 e3
      exact ⟨(if_pos (Decidable.not_not.mp hu)).symm, rfl⟩
  case probe => cases h
  all_goals
    injection h with h; injection h with e1 h; injection h with e2 e3; subst e1 e2 e3
    exact ⟨rfl, rfl⟩

/-- the state after pending requests were looked at -/
def finalState (p : Pd) (now : Int) (ok : Bool) : CpState :=
  if p.state = .online ∨ nextState p now ok = .online then
    if p.reqOffline then .offline else if p.reqRestartSc then .scChlng else nextState p now ok
  else nextState p now ok

/-- **The states of the connection**: which state is chosen next. -/
theorem advance_state {cb : Bool} {p q : Pd} {env : Env} {ok : Bool} {outs : List Out}
    (h : advance cb p env p.state ok = .ok (q, outs)) : q.state = finalState p env.now ok := by
  cases advance_inv h with
  | mk h1 h2 =>
  rename_i p1 p2 o1 o2 n1 n2
  have hn : n1 = nextState p env.now ok ∧ p1.reqRestartSc = p.reqRestartSc ∧ p1.state = p.state ∧ p1.reqOffline = p.reqOffline := by
    cases ok with
    | true => exact ⟨(nextOk_state h1).1, (nextOk_state h1).2, (nextOk_drift h1).2.1, (nextOk_drift h1).2.2.2.2.2.2.2.2.1⟩
    | false => exact ⟨(nextErr_state h1).1, (nextErr_state h1).2, (nextErr_drift h1).2.1, (nextErr_drift h1).2.2.2.2.2.2.2.2.1⟩
  obtain ⟨rfl, a2, a3, a4⟩ := hn
  have hm : n2 = finalState p env.now ok := by
    unfold finalState
    rcases requests_inv h2 with ⟨hn, -, -, rfl⟩ | ⟨hon, -, rfl, -⟩
    · rw [a3] at hn; rw [if_neg hn]
    · rw [a3] at hon; rw [if_pos hon, a4, a2]
  rw [← hm]
  split
  · exact (stateChange_drift cb p2 env n2).2.1
  · rename_i hc
    rw [(requests_drift h2).2.1, a3]
    exact Decidable.not_not.mp hc

/-- the packet of a command outside the secure channel -/
def plainCmd (p : Pd) (l : List Byte) : Packet :=
  ⟨!p.flags.skipMark, i8 p.address &&& 0x7F#8, b8 (Phy.seqBits (Phy.nextSeq p.seq true)) ||| Phy.CTL_CRC, [], l⟩

/-- a command outside the secure channel, not of the handshake: the body as built -/
theorem SendOutcome.plain {C : Cipher} {p q : Pd} {env : Env} {outs : List Out} {ok : Bool} (ha : p.flags.scActive = false)
    (hh : Phy.inHandshake false p.cmdId = false) (h : SendOutcome C p env q outs ok) :
    (Spec.Wire.sent outs = [] ∧ ok = false) ∨ ∃ b l, commandBody C (nextCmd p) env (cmdTx p) (p.txBufSize - (cmdTx p).dataOff) = .ok b ∧
      b.body = some l ∧ Spec.Wire.sent outs = [(plainCmd p l).bytes.take env.sendCap] ∧
      ok = decide ((plainCmd p l).bytes.length ≤ env.sendCap) := by
  have hscb : (cmdTx p).scb = [] := by
    unfold cmdTx Pd.scActive
    dsimp only
    rw [ha, hh]; rfl
  have hctl : (cmdTx p).ctl = b8 (Phy.seqBits (Phy.nextSeq p.seq true)) ||| Phy.CTL_CRC := by
    unfold cmdTx Pd.scActive
    dsimp only
    rw [ha, hh]; rfl
  cases h with
  | mute _ => exact .inl ⟨rfl, rfl⟩
  | unbuilt b _ _ ho _ =>
    refine .inl ⟨sent_nil fun o h bs hb => ?_, rfl⟩
    obtain ⟨n, off, h⟩ := ho.outs o h
    rw [h] at hb; cases hb
  | built b l q outs ok _ hb ho hl hne hs hw _ =>
    have hq : Spec.Wire.sent b.outs = [] := by
      refine sent_nil fun o h bs hb => ?_
      obtain ⟨n, off, h⟩ := ho.outs o h
      rw [h] at hb; cases hb
    rw [sent_append, hq, List.nil_append]
    rcases hw with ⟨rfl, rfl, -⟩ | ⟨wire, q', hm, hd, -, hsz, rfl, rfl⟩
    · exact .inl ⟨rfl, rfl⟩
    · have hbs : b.t.scb = [] := by
        have : Phy.inHandshake false (nextCmd p).cmdId = false := hh
        cases ho with
        | chlng hid _ _ => rw [hid] at this; cases this
        | scrypt sc hid _ _ _ => rw [hid] at this; cases this
        | _ => exact hscb
      have hft : finalTx b.t b.p l.length = b.t := by
        unfold finalTx
        rw [hbs]; rfl
      obtain ⟨e1, -, e3, e4⟩ := ho.header
      have hnot : ¬ Phy.Secured b.p (finalTx b.t b.p l.length) := by
        rw [hft]
        rintro ⟨-, -, ty, h, -⟩
        rw [hbs] at h; cases h
      have hwl := (hd.plain hnot).1
      subst hwl
      have hk : cmdPkt b wire.length wire = plainCmd p wire := by
        unfold cmdPkt Phy.pktOf plainCmd
        rw [hft, hbs, e1, e3, e4, hctl]
        rfl
      rw [sendOuts_sent, hk]
      exact .inr ⟨b, wire, hb, hl, rfl, rfl⟩

theorem txCommand_outs {file : Option FileSt} {env : Env} {i : Int} {fl : BitVec 32} :
    ∀ o ∈ (File.txCommand file env i fl).2.1, ∃ a b, o = Out.fopen a b := by
  intro o ho
  unfold File.txCommand at ho
  split at ho
  · cases ho
  split at ho
  · split at ho
    · split at ho <;> cases ho
    · cases ho
  split at ho
  · cases ho
  dsimp only at ho
  split at ho
  · rw [List.mem_singleton] at ho; exact ⟨_, _, ho⟩
  split at ho
  · rw [List.mem_singleton] at ho; exact ⟨_, _, ho⟩
  · rw [List.mem_singleton] at ho; exact ⟨_, _, ho⟩

theorem sendPd_outs {p : Pd} {env : Env} {c : Cmd} : ∀ o ∈ (sendPd p env c).2.1, ∃ a b, o = Out.fopen a b := by
  intro o ho
  unfold sendPd at ho
  split at ho
  · cases ho
  dsimp only at ho
  split at ho
  · exact txCommand_outs o ho
  · split at ho
    · cases ho
    · split at ho <;> cases ho
  · split at ho <;> cases ho

/-- API calls other than a visit leave the connection alone -/
theorem step_api {C : Cipher} {p q : Pd} {op : Op} {outs : List Out} (h : step C p op = .ok (q, outs))
    (hop : ∀ cb env, op ≠ .update cb env) :
    sent outs = [] ∧ q.state = p.state ∧ q.phyState = p.phyState ∧ q.seq = p.seq ∧ q.tstamp = p.tstamp ∧ q.waitMs = p.waitMs ∧
    q.address = p.address ∧ q.flags.scActive = p.flags.scActive ∧ q.cmdId = p.cmdId ∧ q.retryCount = p.retryCount ∧
    q.peerRx = p.peerRx ∧ q.flags.hasMark = p.flags.hasMark ∧ q.flags.skipMark = p.flags.skipMark := by
  cases op with
  | update cb env => exact absurd rfl (hop cb env)
  | send env c =>
    injection h with h; injection h with e1 e2; subst e1 e2
    refine ⟨?_, ?_⟩
    · refine sent_nil fun o ho bs hb => ?_
      subst hb
      obtain ⟨i, n, h⟩ := sendPd_outs _ ho
      cases h
    · rw [sendPd_keeps]; exact ⟨rfl, rfl, rfl, rfl, rfl, rfl, rfl, rfl, rfl, rfl, rfl, rfl⟩
  | flag f b =>
    injection h with h; injection h with e1 e2; subst e1 e2
    refine ⟨rfl, ?_⟩
    rw [modifyPd_flags]; exact ⟨rfl, rfl, rfl, rfl, rfl, rfl, rfl, rfl, rfl, rfl, rfl, rfl⟩
  | flush => injection h with h; injection h with e1 e2; subst e1 e2; exact ⟨rfl, rfl, rfl, rfl, rfl, rfl, rfl, rfl, rfl, rfl, rfl, rfl, rfl⟩
  | fileOps => injection h with h; injection h with e1 e2; subst e1 e2; exact ⟨rfl, rfl, rfl, rfl, rfl, rfl, rfl, rfl, rfl, rfl, rfl, rfl, rfl⟩
  | share => injection h with h; injection h with e1 e2; subst e1 e2; exact ⟨rfl, rfl, rfl, rfl, rfl, rfl, rfl, rfl, rfl, rfl, rfl, rfl, rfl⟩

/-! ### equations, to compute what a visit does -/

theorem step_update {C : Cipher} {cb : Bool} {p q : Pd} {env : Env} {o : List Out} {y : Bool}
    (h : stateUpdate C cb p env = .ok (q, o, y)) : CpM.step C p (.update cb env) = .ok (q, o) := by
  show (stateUpdate C cb p env >>= fun x => Except.ok (x.1, x.2.1)) = _
  rw [h]; rfl

theorem run_three {C : Cipher} {p q r s : Pd} {a b c : Op} {o1 o2 o3 : List Out} (h1 : CpM.step C p a = .ok (q, o1))
    (h2 : CpM.step C q b = .ok (r, o2)) (h3 : CpM.step C r c = .ok (s, o3)) :
    run C p [a, b, c] = .ok (s, o1 ++ (o2 ++ (o3 ++ []))) := by
  simp only [run, h1, h2, h3, Res.ok_bind]

theorem update_idle (C : Cipher) (cb : Bool) (p : Pd) (env : Env) (hi : p.phyState = .idle) :
    stateUpdate C cb p env = settle cb p env >>= fun x => .ok (x.1, x.2, true) := by
  unfold stateUpdate
  rw [if_neg (by unfold phyRunning; rw [hi]; decide)]
  rfl

theorem settle_nothing {cb : Bool} {p p1 : Pd} {env : Env} {o : List Out} (hi : p.phyState = .idle)
    (h : stateGetCmd p env = .ok (p1, o, 0)) :
    settle cb p env = advance cb { p1 with cmdId := 0 } env p1.state true >>= fun x => .ok (x.1, o ++ x.2) := by
  unfold settle
  rw [hi]
  dsimp only
  rw [h]
  rfl

theorem settle_command {cb : Bool} {p p1 : Pd} {env : Env} {o : List Out} {id : Nat} (hi : p.phyState = .idle)
    (h : stateGetCmd p env = .ok (p1, o, id)) (hid : 0 < id) :
    settle cb p env = .ok ({ p1 with cmdId := id, phyState := .sendCmd }, o) := by
  unfold settle
  rw [hi]
  dsimp only
  rw [h]
  simp only [Res.ok_bind]
  rw [if_pos hid]
  rfl

theorem requests_none {cb : Bool} {p : Pd} {n : CpState} (h1 : p.state ≠ .online) (h2 : n ≠ .online) :
    requests cb p n = .ok (p, [], n) := by
  unfold requests
  rw [if_neg]
  rintro (h | h)
  · exact h1 h
  · exact h2 h

theorem advance_ok {cb : Bool} {p p1 : Pd} {env : Env} {o : List Out} {n : CpState} (h : nextOk cb p env.now = .ok (p1, o, n))
    (hp : p1.state ≠ .online) (hn : n ≠ .online) (cur : CpState) :
    advance cb p env cur true = .ok (if cur ≠ n then ((stateChange cb p1 env n).1, o ++ (stateChange cb p1 env n).2) else (p1, o)) := by
  unfold advance
  rw [if_pos rfl, h]
  simp only [Res.ok_bind]
  rw [requests_none hp hn]
  simp only [Res.ok_bind, List.append_nil]
  split <;> rfl

theorem update_send (C : Cipher) (cb : Bool) (p : Pd) (env : Env) (hs : p.phyState = .sendCmd) {p1 : Pd} {o : List Out}
    (h : buildAndSend C p env = .ok (p1, o, true)) : stateUpdate C cb p env = .ok (sentState p1 env.now, o, false) := by
  unfold stateUpdate
  rw [if_pos (by unfold phyRunning; rw [hs]; decide)]
  unfold phyUpdate
  rw [hs]
  dsimp only
  unfold phySend
  rw [h]
  rfl

theorem buildAndSend_plain (C : Cipher) (p : Pd) (env : Env) (b : Built) (body : List Byte)
    (hp : p.flags.pdMode = false) (hsc : p.flags.scActive = false) (hh : Phy.inHandshake false p.cmdId = false)
    (hm : 69 ≤ p.txBufSize) (hmis : (p.flags.hasMark && p.flags.skipMark) = false) (hbuf : p.packetBuf.length = 256)
    (hb : commandBody C (nextCmd p) env (cmdTx p) (p.txBufSize - (cmdTx p).dataOff) = .ok b)
    (ht : b.t = cmdTx p) (hbs : b.p.flags.scActive = false) (hbb : b.p.packetBuf = p.packetBuf)
    (hbf : b.p.hasFlush = p.hasFlush) (hbody : b.body = some body) (hne : body ≠ [])
    (hfit : (plainCmd p body).bytes.length ≤ p.txBufSize) :
    ∃ q, buildAndSend C p env = .ok (q, b.outs ++ sendOuts p env (plainCmd p body).bytes,
      decide ((plainCmd p body).bytes.length ≤ env.sendCap)) ∧ Phy.Sending b.p q := by
  have htx : cmdTx p = ⟨!p.flags.skipMark, false, (plainCmd p body).addr, (plainCmd p body).ctl, []⟩ := by
    unfold cmdTx plainCmd Pd.scActive
    rw [hsc, hh, hmis]; simp
  have hpk : Phy.pktOf (cmdTx p) body = plainCmd p body := by
    rw [htx]; rfl
  have hle : p.txBufSize ≤ 256 := by unfold Pd.txBufSize; split <;> omega
  obtain ⟨q, hq⟩ := Phy.sendPacket_plain C b.p env (cmdTx p) body p.txBufSize hbs (by rw [htx]) hne
    (by rw [hpk]; exact hfit) (by rw [hpk, hbb, hbuf]; omega)
  refine ⟨q, ?_, ?_⟩
  · unfold buildAndSend
    dsimp only
    rw [packetInit_cp hp, if_neg (by omega)]
    dsimp only
    unfold buildCommand
    dsimp only
    have hd := cmdTx_dataOff p
    rw [if_neg (by omega), hb]
    simp only [Res.ok_bind]
    rw [hbody]
    have e1 : b.t.scb[1]? = none := by rw [ht, htx]; rfl
    have e2 : sendOuts b.p env (Phy.pktOf (cmdTx p) body).bytes = sendOuts p env (plainCmd p body).bytes := by
      unfold sendOuts; rw [hbf, hpk]
    simp only [Res.ok_bind, e1]
    rw [ht]
    show (Phy.sendPacket C b.p env (cmdTx p) body p.txBufSize >>= fun x => Except.ok (x.1, b.outs ++ x.2.1, x.2.2)) = _
    rw [hq, e2, hpk]
    rfl
  · exact (Phy.sendPacket_inv hne hq).1

/-! ### the receiver between visits -/

/-- The receive buffer has its size; while a reply is awaited it holds the beginning of at most one packet. -/
structure Buffered (p : Pd) : Prop where
  buf : p.packetBuf.length = 256
  framed : p.phyState = .replyWait → Phy.Framed p

theorem Reply.buffered {C : Cipher} {p q : Pd} {env : Env} {outs : List Out} {rc : CpErr} (hf : Phy.Framed p)
    (h : Reply C p env q outs rc) : q.packetBuf.length = 256 ∧ (rc = .noData → Phy.Framed q) := by
  cases h with
  | nothing h _ hr =>
    have := Phy.checkPacket_stored hf h
    refine ⟨this.buf, fun _ => this.framed ?_⟩
    rcases hr with h | h <;> simp [h]
  | bad h _ _ => exact ⟨(Phy.checkPacket_stored hf h).buf, (fun h => by cases h)⟩
  | busy h _ => exact ⟨(Phy.checkPacket_stored hf h).buf, (fun h => by cases h)⟩
  | seq h _ => exact ⟨(Phy.checkPacket_stored hf h).buf, (fun h => by cases h)⟩
  | refused h _ _ hd _ => exact ⟨hd.bufLen.trans (Phy.checkPacket_stored hf h).buf, (fun h => by cases h)⟩
  | reply h _ _ hd _ _ _ _ _ he =>
    have h1 := hd.bufLen.trans (Phy.checkPacket_stored hf h).buf
    cases he with
    | file r _ _ => exact ⟨h1, fun h => by split at h <;> cases h⟩
    | ccrypt sc u v w _ _ _ _ _ => exact ⟨h1, fun h => by split at h <;> cases h⟩
    | _ => exact ⟨h1, fun h => by cases h⟩

theorem SendOutcome.bufLen {C : Cipher} {p q : Pd} {env : Env} {outs : List Out} {ok : Bool} (h : SendOutcome C p env q outs ok) :
    q.packetBuf.length = p.packetBuf.length := by
  cases h with
  | mute _ => rfl
  | unbuilt b _ _ ho _ => rw [ho.keeps]; rfl
  | built b l q o ok _ _ ho _ _ hs _ hl => exact hl

theorem cleared_framed {p : Pd} (hb : p.packetBuf.length = 256) (h1 : p.packetBufLen = 0) (h2 : p.packetLen = 0) : Phy.Framed p :=
  ⟨hb, fun _ => by omega, fun h => absurd h2 h⟩

theorem Buffered.update {C : Cipher} {cb : Bool} {p q : Pd} {env : Env} {outs : List Out} {y : Bool} (I : Inv p) (B : Buffered p)
    (h : Update C cb p env q outs y) : Buffered q := by
  have hI := I.update h
  have waited : ∀ {p1 : Pd} {o : List Out} {rc : CpErr}, p.phyState = .replyWait → Waited C p env p1 o rc →
      p1.packetBuf.length = 256 := by
    intro p1 o rc hps h
    have hf := B.framed hps
    cases h with
    | answered h => exact (h.buffered hf).1
    | ignored h _ _ => exact (h.buffered hf).1
    | failed h _ => exact (h.buffered hf).1
    | busy h => exact (h.buffered hf).1
    | retry h _ _ => exact (h.buffered hf).1
    | exhausted h _ _ => exact (h.buffered hf).1
    | waiting h _ => exact (h.buffered hf).1
  have settles : ∀ {p1 : Pd} {o : List Out}, Mid p1 → p1.packetBuf.length = 256 → settle cb p1 env = .ok (q, o) → Buffered q := by
    intro p1 o M hb hs
    refine ⟨by rw [(settle_drift hs).keeps.2.2.2.2.2.2.2.2.2]; exact hb, fun hw => ?_⟩
    rcases (settled M hs).2 with h | h <;> rw [h] at hw <;> cases hw
  cases h with
  | hold _ _ => exact B
  | sent hm h =>
    have hb := h.bufLen.trans B.buf
    exact ⟨hb, fun _ => cleared_framed hb rfl rfl⟩
  | unsent _ h1 h2 => exact settles (unsent_mid I h1) (h1.bufLen.trans B.buf) h2
  | replied hps h1 _ h2 => exact settles (waited_mid I hps h1) (waited hps h1) h2
  | again hps h1 =>
    refine ⟨waited hps h1, fun hw => ?_⟩
    cases h1 <;> cases hw
  | waiting hps h1 =>
    refine ⟨waited hps h1, fun hw => ?_⟩
    cases h1 with
    | waiting h _ => exact (h.buffered (B.framed hps)).2 rfl
  | idle _ h => exact settles I.mid B.buf h

theorem Framed.of_eq {p q : Pd} (h1 : q.packetBuf = p.packetBuf) (h2 : q.packetBufLen = p.packetBufLen)
    (h3 : q.packetLen = p.packetLen) (h4 : q.flags.hasMark = p.flags.hasMark) (h5 : q.flags.pdMode = p.flags.pdMode)
    (h6 : q.address = p.address) (h : Phy.Framed p) : Phy.Framed q := by
  refine ⟨by rw [h1]; exact h.buf, by rw [h2, h3]; exact h.start, fun hn => ?_⟩
  rw [h3] at hn
  obtain ⟨a, b, c⟩ := h.rest hn
  refine ⟨by rw [h2]; exact a, by rw [h2, h3]; exact b, ?_⟩
  rw [h3, ← c]
  exact Phy.headerFields_take (by rw [h4]) (by unfold Pd.isCp; rw [h5]) (by unfold Pd.isPd; rw [h5]) (by rw [h1])

theorem Buffered.step {C : Cipher} {p q : Pd} {op : Op} {outs : List Out} (I : Inv p) (B : Buffered p)
    (h : CpM.step C p op = .ok (q, outs)) : Buffered q := by
  have key : ∀ {q : Pd}, q.packetBuf = p.packetBuf → q.packetBufLen = p.packetBufLen → q.packetLen = p.packetLen →
      q.flags.hasMark = p.flags.hasMark → q.flags.pdMode = p.flags.pdMode → q.address = p.address → q.phyState = p.phyState →
      Buffered q := by
    intro q h1 h2 h3 h4 h5 h6 h7
    exact ⟨by rw [h1]; exact B.buf, fun h => Framed.of_eq h1 h2 h3 h4 h5 h6 (B.framed (h7.symm.trans h))⟩
  cases op with
  | update cb env =>
    obtain ⟨⟨p1, o1, y⟩, h1, h⟩ := Res.bind_eq_ok.mp h
    injection h with h; injection h with e1 e2; subst e1 e2
    exact B.update I (stateUpdate_inv I.cp h1)
  | send env c =>
    injection h with h; injection h with e1 e2; subst e1
    rw [sendPd_keeps]
    exact key rfl rfl rfl rfl rfl rfl rfl
  | flag f b =>
    injection h with h; injection h with e1 e2; subst e1
    rw [modifyPd_flags]
    exact key rfl rfl rfl rfl rfl rfl rfl
  | flush => injection h with h; injection h with e1 e2; subst e1; exact key rfl rfl rfl rfl rfl rfl rfl
  | fileOps => injection h with h; injection h with e1 e2; subst e1; exact key rfl rfl rfl rfl rfl rfl rfl
  | share => injection h with h; injection h with e1 e2; subst e1; exact key rfl rfl rfl rfl rfl rfl rfl

theorem Reached.buffered {C : Cipher} {info : PdM.Info} {q : Pd} (h : Reached C info q) : Buffered q := by
  obtain ⟨i, sk, n, p, ops, o, hn, hr⟩ := h
  refine (run_ind (C := C) (p := p) (fun _ q _ => Inv q ∧ Buffered q) ⟨(newPd_inv hn).1, ?_⟩
    (fun _ _ _ _ _ _ _ I h => ⟨I.1.step h, I.2.step I.1 h⟩) hr).2
  refine ⟨?_, fun h => ?_⟩
  · unfold newPd at hn
    split at hn
    · cases hn
    · injection hn with hn; subst hn; exact List.length_replicate
  · rw [(newPd_inv hn).2.2.1] at h; cases h

end Osdp.CpM
