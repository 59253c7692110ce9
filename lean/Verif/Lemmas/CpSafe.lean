import Verif.Lemmas.CpFault

/-! # What the CP has stored, and that it gets through a visit (for C38) -/

namespace Osdp.CpM

open Phy (checkPacket EphCp heldFrame pend)
open Spec.Event (Reads)
open Spec.Block (Overlong)

theorem Reads.notAck {body : List Byte} {e : Event} (h : Reads Id.ACK body e) : False := by
  generalize hid : Id.ACK = id at h
  cases h <;> exact absurd hid (by decide)

/-- what reception leaves in the place where commands and events are stored -/
def Kept (C : Cipher) (p : Pd) (env : Env) (q : Pd) (rc : CpErr) : Prop :=
  (EphCp p q ∧ q.reqEventSend = p.reqEventSend ∧ (Phy.heard C p env ≠ none → q.eph = p.eph)) ∨
  (∃ e, q.eph = .event e) ∧ q.replyId ≠ Id.ACK ∧ rc = .none

theorem Reply.kept {C : Cipher} {p q : Pd} {env : Env} {outs : List Out} {rc : CpErr} (hcp : p.flags.pdMode = false)
    (hf : Phy.Framed p) (h : Reply C p env q outs rc) : Kept C p env q rc := by
  have no : ∀ {q : Pd} {r : Phy.PktRet}, r ≠ .none → checkPacket p env = .ok (q, r) → Phy.heard C p env = none := by
    intro q r hn h1
    unfold Phy.heard
    rw [h1]
    cases r <;> first | exact absurd rfl hn | rfl
  cases h with
  | nothing h1 hc h2 =>
    exact .inl ⟨.of_eq hc.eph, by rw [hc.transp]; rfl, fun _ => hc.eph⟩
  | bad h1 hc h2 =>
    exact .inl ⟨.of_eq hc.eph, by rw [hc.transp]; rfl, fun _ => hc.eph⟩
  | busy h1 hc => exact .inl ⟨(hc.cp hcp).2, by rw [hc.transp]; rfl, fun hn => absurd (no (by simp) h1) hn⟩
  | seq h1 hc => exact .inl ⟨(hc.cp hcp).2, by rw [hc.transp]; rfl, fun hn => absurd (no (by simp) h1) hn⟩
  | refused h1 hc h2 hd hl =>
    have hcp1 := hc.transp.pdMode ▸ hcp
    have t := hc.transp.trans hd.transp
    refine .inl ⟨(hc.cp hcp).2.trans (hd.cpEph hcp1), by rw [t]; rfl, fun hn => absurd ?_ hn⟩
    unfold Phy.heard
    rw [h1]; dsimp only; rw [h2]; dsimp only; rw [if_pos hl]
  | @reply p1 p2 q d id body _ _ h1 hc h2 hd hl hid _ hb hr he' =>
    have hcp1 := hc.transp.pdMode ▸ hcp
    have t := hc.transp.trans hd.transp
    have hh : Phy.heard C p env = some (id, body) := by rw [hb]; exact Phy.heard_of h1 h2 hl hid
    have he : p2.eph = p.eph := by
      rcases hd.outcome with ⟨h, -⟩ | ⟨-, h, -⟩
      · rw [h] at hl; exact absurd hl (by decide)
      · exact h.trans (hc.pending (by simp)).2
    rcases response_event (Phy.heard_short hf hh) hr with ⟨r1, r2⟩ | ⟨e, r1, r2, -, r4⟩
    · refine .inl ⟨.of_eq (r1.trans he), r2.trans (by show Pd.reqEventSend _ = _; rw [t]; rfl), fun _ => r1.trans he⟩
    · refine .inr ⟨⟨e, by rw [r2]; rfl⟩, fun ha => ?_, r4⟩
      rw [r2] at ha
      replace ha : id.toNat = Id.ACK := ha
      replace r1 : Reads id.toNat body e := r1
      rw [ha] at r1
      exact Reads.notAck r1

theorem Waited.kept {C : Cipher} {p q : Pd} {env : Env} {outs : List Out} {rc : CpErr} (hcp : p.flags.pdMode = false)
    (hf : Phy.Framed p) (h : Waited C p env q outs rc) : Kept C p env q rc := by
  have fin : ∀ {q q' : Pd} {rc rc' : CpErr}, Kept C p env q rc → q'.eph = q.eph → q'.reqEventSend = q.reqEventSend →
      q'.replyId = q.replyId → (rc = .none → rc' = .none) → Kept C p env q' rc' := by
    intro q q' rc rc' h h1 h2 h3 h4
    rcases h with ⟨a, b, c⟩ | ⟨⟨e, a⟩, b, c⟩
    · exact .inl ⟨a.trans (.of_eq h1), h2.trans b, fun hn => h1.trans (c hn)⟩
    · exact .inr ⟨⟨e, h1.trans a⟩, by rw [h3]; exact b, h4 c⟩
  cases h with
  | answered h => exact fin (h.kept hcp hf) rfl rfl rfl fun _ => rfl
  | ignored h _ _ => exact fin (h.kept hcp hf) rfl rfl rfl fun h => by cases h
  | failed h hr => exact fin (h.kept hcp hf) rfl rfl rfl fun h => by subst h; simp at hr
  | busy h => exact fin (h.kept hcp hf) rfl rfl rfl fun h => by cases h
  | retry h _ _ => exact fin (h.kept hcp hf) rfl rfl rfl fun h => by cases h
  | exhausted h _ _ => exact fin (h.kept hcp hf) rfl rfl rfl fun h => by cases h
  | waiting h _ => exact fin (h.kept hcp hf) rfl rfl rfl fun h => by cases h

theorem Waited.same {C : Cipher} {p q : Pd} {env : Env} {outs : List Out} {rc : CpErr} (h : Waited C p env q outs rc) :
    q.state = p.state ∧ q.cmdId = p.cmdId ∧ q.cmdQueue = p.cmdQueue := by
  cases h with
  | answered h => obtain ⟨a, -, b, c, -⟩ := h.heard.keeps; exact ⟨a, b, c⟩
  | ignored h _ _ => obtain ⟨a, -, b, c, -⟩ := h.heard.keeps; exact ⟨a, b, c⟩
  | failed h _ => obtain ⟨a, -, b, c, -⟩ := h.heard.keeps; exact ⟨a, b, c⟩
  | busy h => obtain ⟨a, -, b, c, -⟩ := h.heard.keeps; exact ⟨a, b, c⟩
  | retry h _ _ => obtain ⟨a, -, b, c, -⟩ := h.heard.keeps; exact ⟨a, b, c⟩
  | exhausted h _ _ => obtain ⟨a, -, b, c, -⟩ := h.heard.keeps; exact ⟨a, b, c⟩
  | waiting h _ => obtain ⟨a, -, b, c, -⟩ := h.heard.keeps; exact ⟨a, b, c⟩

/-- The commands in the queue are ones to be sent, the one being sent is stored, and so is the key about to be sent. -/
structure Stocked (p : Pd) : Prop where
  queue : ∀ c ∈ p.cmdQueue, Queued c
  load : p.phyState ≠ .idle → Loaded p
  key : p.phyState = .idle → p.state = .setScbk → ∃ k, p.eph = .cmd (.keyset k)

theorem next_key {cb : Bool} {p q : Pd} {now : Int} {ok : Bool} {outs : List Out}
    (h : (if ok then nextOk cb p now else nextErr cb p now) = .ok (q, outs, .setScbk)) : ∃ k, q.eph = .cmd (.keyset k) := by
  have key : ∀ {s : CpState} {a : Pd} {o : List Out}, s ≠ .setScbk → Except.ok (a, o, s) = (Except.ok (q, outs, CpState.setScbk) : Res _) → False := by
    intro s a o hs h
    injection h with h; injection h with e1 h; injection h with e2 e3
    exact hs e3
  cases ok with
  | false =>
    exfalso
    replace h : nextErr cb p now = .ok (q, outs, .setScbk) := h
    unfold nextErr at h
    cases hs : p.state <;> rw [hs] at h <;> dsimp only at h
    case scChlng =>
      split at h
      · exact key (by simp) h
      split at h <;> exact key (by simp) h
    case probe => cases h
    all_goals first
      | (refine key ?_ h; split <;> simp; done)
      | exact key (by simp) h
  | true =>
    replace h : nextOk cb p now = .ok (q, outs, .setScbk) := h
    unfold nextOk at h
    cases hs : p.state <;> rw [hs] at h <;> dsimp only at h
    case setScbk =>
      obtain ⟨⟨p2, o2⟩, h1, h⟩ := Res.bind_eq_ok.mp h
      exact (key (by simp) h).elim
    case scScrypt =>
      split at h
      · injection h with h; injection h with e1 h; subst e1; exact ⟨_, rfl⟩
      · exact (key (by simp) h).elim
    case capdet =>
      split at h
      · exact (key (by simp) h).elim
      · exact (key (by split <;> simp) h).elim
    case probe => cases h
    all_goals first
      | (refine (key ?_ h).elim; split <;> simp; done)
      | exact (key (by simp) h).elim

theorem advance_key {cb : Bool} {p q : Pd} {env : Env} {ok : Bool} {outs : List Out}
    (h : advance cb p env p.state ok = .ok (q, outs)) (hs : q.state = .setScbk) : ∃ k, q.eph = .cmd (.keyset k) := by
  cases advance_inv h with
  | mk h1 h2 =>
  rename_i p1 p2 o1 o2 n1 n2
  have hp1 : p1.state = p.state := by
    cases ok with
    | true => exact (nextOk_drift h1).2.1
    | false => exact (nextErr_drift h1).2.1
  obtain ⟨-, d1, -, -, -, -, -, -, d2, -⟩ := requests_drift h2
  have hn : n2 = .setScbk := by
    by_cases hc : p.state ≠ n2
    · rw [if_pos hc] at hs; rw [← (stateChange_drift cb p2 env n2).2.1]; exact hs
    · rw [if_neg hc] at hs
      rw [← Decidable.not_not.mp hc, ← hp1, ← d1]; exact hs
  have hn1 : n1 = .setScbk := by
    rcases requests_inv h2 with ⟨-, -, -, h⟩ | ⟨-, -, h, -⟩
    · exact h ▸ hn
    · rw [hn] at h
      split at h
      · cases h
      split at h
      · cases h
      · exact h.symm
  subst hn1
  obtain ⟨k, hk⟩ := next_key h1
  refine ⟨k, ?_⟩
  split
  · rw [(stateChange_drift cb p2 env n2).2.2.2.2.2.2.1, d2]; exact hk
  · rw [d2]; exact hk

theorem advance_stocked {cb : Bool} {p q : Pd} {env : Env} {ok : Bool} {outs : List Out} (I : Pre p)
    (hq : ∀ c ∈ p.cmdQueue, Queued c) (h : advance cb p env p.state ok = .ok (q, outs)) : Stocked q :=
  ⟨by rw [(advance_drift h).2.1]; exact hq, fun hn => absurd (advanced I h).2 hn, fun _ hs => advance_key h hs⟩

theorem settle_stocked {cb : Bool} {p q : Pd} {env : Env} {outs : List Out} (M : Mid p) (hq : ∀ c ∈ p.cmdQueue, Queued c)
    (hk : p.phyState = .idle → p.state = .setScbk → ∃ k, p.eph = .cmd (.keyset k))
    (h : settle cb p env = .ok (q, outs)) : Stocked q := by
  cases settle_inv h with
  | @command p1 _ id hps h1 hid =>
    obtain ⟨q', o', id', h', hl, hqu⟩ := stateGetCmd_total (env := env) hq (hk hps)
    rw [h1] at h'
    injection h' with h'; injection h' with e1 h'; injection h' with e2 e3; subst e1 e2 e3
    exact ⟨fun c hc => hq c (hqu c hc), fun _ => hl.of_eq rfl fun _ h => h, fun h => by cases h⟩
  | @nothing p1 _ _ _ hps h1 h2 =>
    obtain ⟨q', o', id', h', hl, hqu⟩ := stateGetCmd_total (env := env) hq (hk hps)
    rw [h1] at h'
    injection h' with h'; injection h' with e1 h'; injection h' with e2 e3; subst e1 e2 e3
    exact advance_stocked (p := { p1 with cmdId := 0 }) (nothing_pre M hps h1) (fun c hc => hq c (hqu c hc)) h2
  | @over p1 _ _ _ _ hps h1 h2 =>
    have hqu : p1.cmdQueue = p.cmdQueue := by
      rcases (stateCheckReply_inv h1).2 with ⟨rfl, -, -⟩ | ⟨-, -, -, h⟩
      · rfl
      · obtain ⟨k, -, rfl, -⟩ := keysetComplete_inv h; rfl
    exact advance_stocked (p := (Phy.stateReset p1 false).1) (over_pre M h1) (fun c hc => hq c (by rw [← hqu]; exact hc)) h2

theorem Stocked.update {C : Cipher} {cb : Bool} {p q : Pd} {env : Env} {outs : List Out} {y : Bool} (I : Inv p) (B : Buffered p)
    (S : Stocked p) (h : Update C cb p env q outs y) : Stocked q := by
  have notIdle : ∀ {s : Pd}, MaySend s env → s.phyState ≠ .idle := by
    intro s h; rcases h with h | ⟨h, -⟩ <;> rw [h] <;> simp
  have kept : ∀ {q' : Pd} {o : List Out} {rc : CpErr}, p.phyState = .replyWait → Waited C p env q' o rc → rc ≠ .none →
      q'.phyState ≠ .idle → Stocked q' := by
    intro q' o rc hps hw hrc hi
    obtain ⟨h1, h2, h3⟩ := hw.same
    refine ⟨by rw [h3]; exact S.queue, fun _ => ?_, fun h => absurd h hi⟩
    rcases hw.kept I.cp (B.framed hps) with ⟨a, -, -⟩ | ⟨-, -, c⟩
    · exact (S.load (by rw [hps]; simp)).of_eq h2 a.cmd
    · exact absurd c hrc
  cases h with
  | hold _ _ => exact S
  | @sent p1 _ hm ho =>
    have hs := ho.sent
    have hk := hs.keeps
    unfold Sent at hs
    refine ⟨by show ∀ c ∈ p1.cmdQueue, _; rw [hk.2.2.2.1]; exact S.queue,
      fun _ => (S.load (notIdle hm)).of_eq hk.2.2.1 fun c hc => ?_, fun h => by cases h⟩
    show p1.eph = _
    rw [hs]; exact hc
  | unsent hm ho h2 =>
    have hk := ho.sent.keeps
    exact settle_stocked (unsent_mid I ho) (by show ∀ c ∈ Pd.cmdQueue _, _; rw [hk.2.2.2.1]; exact S.queue) (fun h => by cases h) h2
  | replied hps hw hrc h2 =>
    refine settle_stocked (waited_mid I hps hw) (by rw [hw.same.2.2]; exact S.queue) (fun h => ?_) h2
    exfalso
    cases hw with
    | answered _ => cases h
    | ignored _ _ _ => cases h
    | failed _ _ => cases h
    | exhausted _ _ _ => cases h
    | busy _ => simp at hrc
    | retry _ _ _ => simp at hrc
    | waiting _ _ => simp at hrc
  | again hps hw =>
    refine kept hps hw (by simp) ?_
    cases hw <;> simp
  | waiting hps hw =>
    refine kept hps hw (by simp) ?_
    cases hw with
    | waiting h _ => rw [h.heard.keeps.2.1, hps]; simp
  | idle hps h2 => exact settle_stocked I.mid S.queue S.key h2

/-- what the application may do: the commands it gives are of a known kind, the lengths in them within their arrays;
`recv` stores at most as many bytes as it is asked for, and so does reading from a file -/
def Lawful : Op → Prop
  | .update _ env => (∀ c ∈ env.recv, c.length ≤ 64) ∧ Reads1 env
  | .send _ c => CmdOk c
  | _ => True

theorem Stocked.step {C : Cipher} {p q : Pd} {op : Op} {outs : List Out} (I : Inv p) (B : Buffered p) (S : Stocked p)
    (hl : Lawful op) (h : step C p op = .ok (q, outs)) : Stocked q := by
  by_cases hop : ¬ ∃ cb e, op = .update cb e
  · have ha := step_apiOnly h fun cb e he => hop ⟨cb, e, he⟩
    have e1 : q.phyState = p.phyState := by unfold Api at ha; rw [ha]
    have e2 : q.state = p.state := by unfold Api at ha; rw [ha]
    have e3 : q.eph = p.eph := by unfold Api at ha; rw [ha]
    have e4 : q.cmdId = p.cmdId := by unfold Api at ha; rw [ha]
    refine ⟨?_, fun hn => (S.load (e1 ▸ hn)).of_eq e4 fun c hc => e3.trans hc,
      fun h1 h2 => by rw [e3]; exact S.key (e1 ▸ h1) (e2 ▸ h2)⟩
    cases op with
    | update cb e => exact absurd ⟨cb, e, rfl⟩ hop
    | send env c =>
      injection h with h; injection h with e1 e2; subst e1
      have enq : Queued c → ∀ x ∈ p.cmdQueue ++ [c], Queued x := by
        intro hc x hx
        rcases List.mem_append.mp hx with h | h
        · exact S.queue x h
        · rw [List.mem_singleton.mp h]; exact hc
      unfold sendPd
      split
      · exact S.queue
      dsimp only
      split
      · exact S.queue
      · split
        · exact S.queue
        · split
          · exact enq ⟨hl, fun _ h => by cases h⟩
          · exact S.queue
      · rename_i hnf _
        split
        · exact enq ⟨hl, hnf⟩
        · exact S.queue
    | flush => injection h with h; injection h with e1 e2; subst e1; exact fun c hc => by cases hc
    | flag f b => injection h with h; injection h with e1 e2; subst e1; rw [modifyPd_flags]; exact S.queue
    | fileOps => injection h with h; injection h with e1 e2; subst e1; exact S.queue
    | share => injection h with h; injection h with e1 e2; subst e1; exact S.queue
  replace hop := Classical.not_not.mp hop
  obtain ⟨cb, env, rfl⟩ := hop
  obtain ⟨⟨s1, o1, y⟩, hu, h1⟩ := Res.bind_eq_ok.mp h
  injection h1 with h1; injection h1 with e1 e2; subst e1
  exact S.update I B (stateUpdate_inv I.cp hu)

theorem newPd_stocked {info : PdM.Info} {i : Nat} {sk : Bool} {n : Nat} {p : Pd} (h : newPd info i sk n = some p) : Stocked p := by
  obtain ⟨-, -, h1, h2⟩ := newPd_inv h
  refine ⟨?_, fun hn => absurd h1 hn, fun _ hs => by rw [h2] at hs; cases hs⟩
  unfold newPd at h
  split at h
  · cases h
  · injection h with h; subst h; exact fun c hc => by cases hc

theorem run_stocked {C : Cipher} {info : PdM.Info} {i : Nat} {sk : Bool} {n : Nat} {p0 q : Pd} {ops : List Op} {o : List Out}
    (h : newPd info i sk n = some p0) (hl : ∀ op ∈ ops, Lawful op) (hr : run C p0 ops = .ok (q, o)) : Stocked q := by
  refine run_ind (C := C) (p := p0) (fun ops q _ => (∀ op ∈ ops, Lawful op) → Stocked q) (fun _ => newPd_stocked h) ?_ hr hl
  intro ops op q o s o' hr ih hs hl
  have R : Reached C info q := ⟨i, sk, n, p0, ops, o, h, hr⟩
  exact (ih fun x hx => hl x (List.mem_append_left _ hx)).step R.inv R.buffered (hl op (by simp)) hs

/-! ### a visit -/

theorem stateUpdate_total {C : Cipher} {cb : Bool} {p : Pd} {env : Env} (I : Inv p) (B : Buffered p) (T : Tidy p) (S : Stocked p)
    (h64 : ∀ c ∈ env.recv, c.length ≤ 64) (hrd : Reads1 env)
    (hlong : ∀ a, p.phyState = .replyWait → ¬ [0x53#8, a, 0x00#8, 0x01#8] <:+: pend p ++ env.recv.flatten)
    (hblock : ∀ q, p.phyState = .replyWait → checkPacket p env = .ok (q, .none) → ¬ Overlong q.scActive (heldFrame q))
    (hk : ∀ r n d, replyOf C p env = some (0x53#8, r :: n :: d) → d.length ≤ 64)
    (hc : ∀ r f l0 l1 d, replyOf C p env = some (0x50#8, r :: f :: l0 :: l1 :: d) → d.length ≤ 64)
    (hs : ∀ body, replyOf C p env = some (0x7A#8, body) → StatOk p.file body)
    (hf : MaySend p env → p.cmdId = Id.FILETRANSFER → Sending1 p.file)
    (hm : MaySend p env → ∀ c, p.cmdId = Id.MFG → p.eph = .cmd (.mfg c) → 69 ≤ p.peerRx → 12 + c.length.toNat < p.peerRx)
    (hev : p.reqEventSend = true → ∃ e, p.eph = .event e)
    (hev' : p.reqEventSend = true → p.phyState = .replyWait → replyOf C p env ≠ none) :
    ∃ q o y, stateUpdate C cb p env = .ok (q, o, y) := by
  have send : MaySend p env → ∃ q o y, (phySend C p env >>= fun x => if x.2.2 = CpErr.inprog then Except.ok (x.1, x.2.1, false)
      else if x.2.2 = CpErr.canYield then Except.ok (x.1, x.2.1, true)
      else settle cb x.1 env >>= fun y => Except.ok (y.1, x.2.1 ++ y.2, true)) = (Except.ok (q, o, y) : Res (Pd × List Out × Bool)) := by
    intro hms
    have hni : p.phyState ≠ .idle := by rcases hms with h | ⟨h, -⟩ <;> rw [h] <;> simp
    have hcmd := I.cmd hni
    obtain ⟨q, o, ok, hb⟩ := buildAndSend_total (C := C) I.cp B.buf ⟨_, hcmd⟩ (S.load hni) hrd (hf hms) (hm hms) (by
      intro hid
      refine Bool.eq_false_iff.mpr fun ha => ?_
      rcases I.secure ha with h | h <;> rw [h] at hcmd <;> unfold CmdOf at hcmd
      · rcases hid with hid | hid <;> rw [hid] at hcmd <;> exact absurd hcmd (by decide)
      · rcases hid with hid | hid <;> rw [hid] at hcmd <;> exact absurd hcmd (by decide))
    have ho := buildAndSend_outcome I.cp hb
    have hkp := ho.sent.keeps
    have hse := ho.sent
    unfold Sent at hse
    unfold phySend
    rw [hb]
    cases ok with
    | true => exact ⟨_, _, _, rfl⟩
    | false =>
      have hnm : PdM.cmdNameOk q.cmdId = true := by rw [hkp.2.2.1]; exact cmdName hcmd
      obtain ⟨q2, o2, h2⟩ := settle_total (cb := cb) (p := { q with phyState := .err }) (env := env) (.inr (.inr rfl))
        (unsent_mid I ho).probe (unsent_mid I ho).install (by show ∀ c ∈ q.cmdQueue, _; rw [hkp.2.2.2.1]; exact S.queue)
        (fun h => by cases h)
        (fun _ _ hid => by
          obtain ⟨k, hk⟩ := (S.load hni).keyset (hkp.2.2.1 ▸ hid)
          exact ⟨k, by show q.eph = _; rw [hse]; exact hk⟩)
        (fun he => by
          replace he : q.reqEventSend = true := he
          show ∃ e, q.eph = .event e
          rw [hse] at he ⊢
          exact hev he)
        (fun h => by cases h)
      have hps : phySend C p env = .ok ({ q with phyState := .err }, o, .generic) := by
        unfold phySend
        rw [hb]
        dsimp only [bind, Except.bind]
        rw [if_neg (by simp), if_pos hnm]
        rfl
      have := hps
      unfold phySend at this
      rw [hb] at this
      rw [this]
      dsimp only [bind, Except.bind]
      rw [if_neg (by simp), if_neg (by simp), h2]
      exact ⟨_, _, _, rfl⟩
  suffices h : ∃ q o y, ((if phyRunning p then phyUpdate C p env else .ok (p, [], .none)) >>= fun x =>
      if x.2.2 = CpErr.inprog then Except.ok (x.1, x.2.1, false)
      else if x.2.2 = CpErr.canYield then Except.ok (x.1, x.2.1, true)
      else settle cb x.1 env >>= fun y => Except.ok (y.1, x.2.1 ++ y.2, true)) = (Except.ok (q, o, y) : Res (Pd × List Out × Bool)) by
    unfold stateUpdate
    by_cases hr : phyRunning p = true
    · rw [if_pos hr] at h ⊢; exact h
    · rw [if_neg hr] at h ⊢; exact h
  rcases I.phy with hps | hps | hps | hps
  · rw [if_neg (by unfold phyRunning; rw [hps]; decide)]
    obtain ⟨q2, o2, h2⟩ := settle_total (cb := cb) (p := p) (env := env) (.inl hps) I.probe I.install S.queue S.key
      (fun h => absurd hps h) hev (fun _ => T.none)
    dsimp only [bind, Except.bind]
    rw [if_neg (by simp), if_neg (by simp), h2]
    exact ⟨_, _, _, rfl⟩
  · rw [if_pos (by unfold phyRunning; rw [hps]; decide)]
    unfold phyUpdate
    rw [hps]
    exact send (.inl hps)
  · rw [if_pos (by unfold phyRunning; rw [hps]; decide)]
    unfold phyUpdate
    rw [hps]
    dsimp only
    have hro : replyOf C p env = Phy.heard C p env := by unfold replyOf; rw [if_pos hps]
    rw [hro] at hk hc hs hev'
    obtain ⟨q, o, rc, hr⟩ := phyReply_total (processReply_total (C := C) (B.framed hps) h64 (fun a => hlong a hps)
      (fun q => hblock q hps) hk hc hs)
    have hw := phyReply_inv hr
    rw [hr]
    dsimp only [bind, Except.bind]
    by_cases h1 : rc = .inprog
    · rw [if_pos h1]; exact ⟨_, _, _, rfl⟩
    by_cases h2 : rc = .canYield
    · rw [if_neg h1, if_pos h2]; exact ⟨_, _, _, rfl⟩
    rw [if_neg h1, if_neg h2]
    have hfin : q.phyState = .done ∨ q.phyState = .err := by
      cases hw <;> first | exact .inl rfl | exact .inr rfl | exact absurd rfl h1 | exact absurd rfl h2
    have hni : q.phyState ≠ .idle := by rcases hfin with h | h <;> rw [h] <;> simp
    obtain ⟨k1, k2, k3⟩ := hw.same
    have hkept := hw.kept I.cp (B.framed hps)
    have M := waited_mid I hps hw
    obtain ⟨q2, o2, h3⟩ := settle_total (cb := cb) (p := q) (env := env) (.inr hfin) M.probe M.install (by rw [k3]; exact S.queue)
      (fun h => absurd h hni)
      (fun _ ha hid => by
        rcases hkept with ⟨a, -, -⟩ | ⟨-, b, -⟩
        · obtain ⟨k, hk⟩ := (S.load (by rw [hps]; simp)).keyset (k2 ▸ hid)
          exact ⟨k, a.cmd _ hk⟩
        · exact absurd ha b)
      (fun he => by
        rcases hkept with ⟨-, b, c⟩ | ⟨e, -, -⟩
        · rw [b] at he
          rw [c (hev' he hps)]
          exact hev he
        · exact e)
      (fun h => absurd h hni)
    rw [h3]
    exact ⟨_, _, _, rfl⟩
  · rw [if_pos (by unfold phyRunning; rw [hps]; decide)]
    unfold phyUpdate
    rw [hps]
    dsimp only
    split
    · exact ⟨_, _, _, rfl⟩
    · rename_i hw
      exact send (.inr ⟨hps, hw⟩)

end Osdp.CpM
