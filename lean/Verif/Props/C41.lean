import Verif.Props.C42

/-!
# C41: command outcome notifications are truthful

The full statement — with notifications enabled the application is told 0 for a command exactly if the PD accepted it, and −1
otherwise — fails in three ways.

* The codes are 1 and 0 instead of 0 and −1 (`C41_codes`, in all histories).
* A command that could not be transmitted is reported with the outcome of the *previous* command (`C41_unsent`).
* A manufacturer specific command is reported only if the PD answered with an ACK; a refusal or a silent PD is not reported
  at all (`C41_mfg`).

With 1 for accepted and 0 for not accepted, the report is right for every other command that was transmitted
(`C41_partial`).
-/

namespace Osdp.CpM

/-! ### Specification -/

/-- the number of the application's command (`enum osdp_cmd_e`) behind the id of a command on the wire -/
def cmdCode (id : Nat) : Option Int :=
  [(0x68, 1), (0x69, 2), (0x6A, 3), (0x6B, 4), (0x6E, 6), (0x75, 5), (0x80, 7), (0x64, 9), (0x65, 9), (0x66, 9), (0x67, 9)].lookup id

/-- the PD accepts the command `cmd` by answering `reply`: with an ACK, or with what was asked for -/
def Accepts (cmd reply : Nat) : Prop :=
  reply = 0x40 ∨ (cmd, reply) ∈ [(0x64, 0x48), (0x65, 0x49), (0x66, 0x4A), (0x67, 0x4B), (0x6E, 0x54), (0x80, 0x90)]

instance (cmd reply : Nat) : Decidable (Accepts cmd reply) := by unfold Accepts; infer_instance

/-- the reply received in this visit accepts the command that is waited for -/
def Accepted (C : Cipher) (p : Pd) (env : Env) : Prop :=
  ∃ id body, replyOf C p env = some (id, body) ∧ Accepts p.cmdId id.toNat

/-! ### While a reply is awaited, none has been recorded -/

/-- no reply yet -/
def Blank (p : Pd) : Prop := p.phyState = .replyWait → p.replyId = 0

theorem Reply.noData_replyId {C : Cipher} {p q : Pd} {env : Env} {o : List Out} {rc : CpErr} (h : Reply C p env q o rc)
    (hrc : rc = .noData) : q.replyId = p.replyId := by
  cases h with
  | nothing _ hc _ => exact hc.replyId
  | reply _ _ _ _ _ _ _ _ _ he =>
    cases he with
    | _ => exact absurd hrc (by (try split) <;> simp)
  | _ => cases hrc

theorem Blank.step {C : Cipher} {p q : Pd} {op : Op} {outs : List Out} (I : Inv p) (B : Blank p) (h : step C p op = .ok (q, outs)) :
    Blank q := by
  by_cases hop : ¬ ∃ cb e, op = .update cb e
  · have ha := step_apiOnly h fun cb e he => hop ⟨cb, e, he⟩
    unfold Api at ha
    intro hps
    rw [ha] at hps ⊢; exact B hps
  replace hop := Classical.not_not.mp hop
  obtain ⟨cb, env, rfl⟩ := hop
  obtain ⟨⟨s1, o1, y⟩, hu, h1⟩ := Res.bind_eq_ok.mp h
  clear h
  injection h1 with h1; injection h1 with e1 e2; subst e1 e2
  have idle : ∀ {p1 q : Pd} {o : List Out}, Mid p1 → settle cb p1 env = .ok (q, o) → Blank q := by
    intro p1 q o hm hs hps
    rcases (settled hm hs).2 with h | h <;> rw [hps] at h <;> cases h
  cases stateUpdate_inv I.cp hu with
  | hold h _ => exact fun hps => by rw [h] at hps; cases hps
  | sent _ _ => exact fun _ => rfl
  | unsent _ h1 h2 => exact idle (unsent_mid I h1) h2
  | replied hps h1 _ h2 => exact idle (waited_mid I hps h1) h2
  | again hps h1 =>
    intro hq
    cases h1 <;> cases hq
  | waiting hps h1 =>
    intro hq
    cases h1 with
    | waiting h _ =>
      exact (h.noData_replyId rfl).trans (B hps)
  | idle _ h1 => exact idle I.mid h1

theorem Reached.blank {C : Cipher} {info : PdM.Info} {q : Pd} (h : Reached C info q) : Blank q := by
  obtain ⟨i, sk, n, p, ops, o, hn, hr⟩ := h
  refine run_ind (C := C) (p := p) (fun _ q _ => Blank q) ?_
    (fun _ _ q _ _ _ hr T h => T.step (Reached.inv (C := C) ⟨i, sk, n, p, _, _, hn, hr⟩) h) hr
  intro hps
  rw [(newPd_inv hn).2.2.1] at hps; cases hps

/-- the id recorded when an exchange ends, a reply having been awaited -/
theorem Ended.replyId {C : Cipher} {p p1 : Pd} {env : Env} {o : List Out} (hps : p.phyState = .replyWait)
    (hb : p.replyId = 0) (h : Ended C p env p1 o) :
    (∃ id body, replyOf C p env = some (id, body) ∧ p1.replyId = id.toNat) ∨
    ((∀ id body, replyOf C p env ≠ some (id, body)) ∧ (p1.replyId = 0 ∨ p1.replyId = Id.NAK)) := by
  cases h with
  | unsent hm _ => rcases hm with h | ⟨h, -⟩ <;> rw [hps] at h <;> cases h
  | waited _ hw hrc =>
    have key : ∀ {q : Pd} {rc : CpErr}, Reply C p env q o rc → (∃ id body, replyOf C p env = some (id, body) ∧ q.replyId = id.toNat) ∨
        ((∀ id body, replyOf C p env ≠ some (id, body)) ∧ (q.replyId = 0 ∨ q.replyId = Id.NAK)) := by
      intro q rc hr
      have no : ∀ {q : Pd} {r : Phy.PktRet}, r ≠ .none → Phy.checkPacket p env = .ok (q, r) →
          ∀ id body, replyOf C p env ≠ some (id, body) := by
        intro q r hn h1 id body hh
        unfold replyOf at hh
        rw [if_pos hps] at hh
        unfold Phy.heard at hh
        rw [h1] at hh
        cases r <;> first | exact hn rfl | cases hh
      cases hr with
      | nothing h1 hc h2 => exact .inr ⟨no (by rcases h2 with h | h <;> rw [h] <;> simp) h1, .inl (hc.replyId.trans hb)⟩
      | bad h1 hc h2 => exact .inr ⟨no (by rcases h2 with h | h | h <;> rw [h] <;> simp) h1, .inl (hc.replyId.trans hb)⟩
      | busy h1 hc => exact .inr ⟨no (by simp) h1, .inl ((hc.pending (by simp)).1.trans hb)⟩
      | seq h1 hc => exact .inr ⟨no (by simp) h1, .inr (hc.nack rfl).1⟩
      | refused h1 hc h2 hd h3 =>
        refine .inr ⟨fun id body hh => ?_, ?_⟩
        · unfold replyOf at hh
          rw [if_pos hps] at hh
          unfold Phy.heard at hh
          rw [h1] at hh; dsimp only at hh
          rw [h2] at hh; dsimp only at hh
          rw [if_pos h3] at hh; cases hh
        · rcases hd.outcome with ⟨-, h, -⟩ | ⟨h, -⟩
          · exact .inr h
          · exact .inl (h.trans ((hc.pending (by simp)).1.trans hb))
      | @reply q1 q2 _ d id body _ _ h1 hc h2 hd hl hid _ hb hr he =>
        refine .inl ⟨id, body, ?_, effect_replyId he⟩
        unfold replyOf
        rw [if_pos hps, hb]
        exact Phy.heard_of h1 h2 hl hid
    cases hw with
    | answered h => have k := key h; exact k
    | ignored h _ _ => have k := key h; exact k
    | failed h _ => have k := key h; exact k
    | exhausted h _ _ => have k := key h; exact k
    | busy _ => simp at hrc
    | retry _ _ _ => simp at hrc
    | waiting _ _ => simp at hrc

/-- the code's judgement of a reply is the specification's -/
theorem verdict_accepts {p : Pd} (hs : p.state = .online) (hc : (cmdCode p.cmdId).isSome) :
    verdict p = decide (Accepts p.cmdId p.replyId) := by
  unfold verdict
  rw [hs]
  dsimp only
  have key : p.cmdId ∈ [0x68, 0x69, 0x6A, 0x6B, 0x6E, 0x75, 0x80, 0x64, 0x65, 0x66, 0x67] := by
    refine Classical.byContradiction fun hn => ?_
    simp only [List.mem_cons, List.not_mem_nil, or_false, not_or] at hn
    unfold cmdCode at hc
    have e : ∀ n, ¬ p.cmdId = n → (p.cmdId == n) = false := fun n h => beq_eq_false_iff_ne.mpr h
    obtain ⟨h1, h2, h3, h4, h5, h6, h7, h8, h9, h10, h11⟩ := hn
    simp [List.lookup, e _ h1, e _ h2, e _ h3, e _ h4, e _ h5, e _ h6, e _ h7, e _ h8, e _ h9, e _ h10, e _ h11] at hc
  unfold Accepts expectedReply
  simp only [List.mem_cons, List.not_mem_nil, or_false] at key
  rw [Bool.eq_iff_iff]
  rcases key with h | h | h | h | h | h | h | h | h | h | h <;> rw [h] <;> simp [Id.ACK, Id.NAK, Id.POLL, Id.FILETRANSFER, Id.COMSET, Id.MFG, Id.LSTAT, Id.ISTAT, Id.OSTAT, Id.RSTAT, Id.COM, Id.MFGREP, Id.LSTATR, Id.ISTATR, Id.OSTATR, Id.RSTATR]
  all_goals omega

/-- the code's numbering of the commands is the specification's -/
theorem appCmd_code (p : Pd) : appCmd p = if p.cmdId = 0x80 ∧ p.replyId ≠ 0x40 then none else cmdCode p.cmdId := by
  unfold appCmd cmdCode
  by_cases key : p.cmdId ∈ [0x68, 0x69, 0x6A, 0x6B, 0x6E, 0x75, 0x80, 0x64, 0x65, 0x66, 0x67]
  · simp only [List.mem_cons, List.not_mem_nil, or_false] at key
    rcases key with h | h | h | h | h | h | h | h | h | h | h <;> rw [h]
    case inr.inr.inr.inr.inr.inr.inl =>
      by_cases h : p.replyId = 0x40
      · rw [h]; rfl
      · simp [h, Id.ACK, Id.MFG, Id.OUT, Id.LED, Id.BUZ, Id.TEXT, Id.COMSET, Id.ISTAT, Id.OSTAT, Id.LSTAT, Id.RSTAT, Id.KEYSET]
    all_goals rfl
  · simp only [List.mem_cons, List.not_mem_nil, or_false, not_or] at key
    have e : ∀ n, ¬ p.cmdId = n → (p.cmdId == n) = false := fun n h => beq_eq_false_iff_ne.mpr h
    obtain ⟨h1, h2, h3, h4, h5, h6, h7, h8, h9, h10, h11⟩ := key
    simp [List.lookup, h1, h2, h3, h4, h5, h6, h7, h8, h9, h10, h11, e _ h1, e _ h2, e _ h3, e _ h4, e _ h5, e _ h6, e _ h7, e _ h8,
      e _ h9, e _ h10, e _ h11, Id.ACK, Id.MFG, Id.OUT, Id.LED, Id.BUZ, Id.TEXT, Id.COMSET, Id.ISTAT, Id.OSTAT, Id.LSTAT, Id.RSTAT, Id.KEYSET]

theorem notifyCommand_notes {cb : Bool} {p : Pd} {ok : Bool} : notes .command (notifyCommand cb p ok) =
    match appCmd p with | none => [] | some a => if told cb p then [(a, if ok then 1 else 0)] else [] := by
  unfold notifyCommand
  cases appCmd p with
  | none => rfl
  | some a => exact notify_notes

/-- the notifications about commands, visit by visit -/
theorem Visit.command_notes {C : Cipher} {cb : Bool} {p q : Pd} {env : Env} {outs : List Out} (I : Inv p) (B : Buffered p)
    (P : Proper p) (h : Visit C cb p env q outs) :
    notes .command outs = [] ∨
    ∃ p1 o, q.phyState = .idle ∧ Ended C p env p1 o ∧ notes .command outs =
      match appCmd p1 with | none => [] | some a => if told cb p then [(a, if verdict p1 then 1 else 0)] else [] := by
  cases h with
  | on _ _ _ _ _ no _ _ => exact .inl (no.notes _)
  | command _ h1 _ => exact .inl ((noEvent_fclose (stateGetCmd_inv h1).2.2.1).notes _)
  | @nothing p1 _ o1 o2 h1 h2 h3 =>
    obtain ⟨c1, -, c3, -⟩ := stateGetCmd_inv h2
    unfold Chosen at c1
    refine .inl ?_
    rw [notes_append, (noEvent_fclose c3).notes,
      (advance_events (p := { p1 with cmdId := 0 }) (fun e he => P e (stateGetCmd_eph h2 e he)) h3).2.2.1]
    rfl
  | @over p1 p2 _ o1 o2 o3 ok h1 h2 h3 h4 h5 h6 =>
    obtain ⟨k1, k2, k3, k4, k5, -⟩ := stateCheckReply_state h5
    have pr : Proper p1 := (h2.pending I.cp B).proper P
    refine .inr ⟨p1, o1, (advanced (over_pre h3 h5) h6).2, h2, ?_⟩
    rw [notes_append, notes_append, notes_append, h2.keeps.2.2.2.notes, (stateCheckReply_only h5).notes (by simp),
      (advance_events (p := (Phy.stateReset p2 false).1) (fun e he => pr e (k4 ▸ he)) h6).2.2.1, List.append_nil, List.nil_append,
      List.nil_append, notifyCommand_notes, (stateCheckReply_inv h5).1]
    have e1 : appCmd p2 = appCmd p1 := by unfold appCmd; rw [k2, k3]
    have e2 : told cb p2 = told cb p := by unfold told; rw [stateCheckReply_notif h5, h2.notif]
    rw [e1, e2]

/-- **C41**, as far as it holds. The CP awaits the reply to a command of the application, the PD being online. In each visit
either nothing is reported; or the exchange is over and, if a callback is registered and notifications are enabled, this command
is reported: with 1 if the reply received accepts it and with 0 otherwise — a reply that refuses, a reply that makes no sense, no
reply at all. A manufacturer specific command is reported only if it was accepted with an ACK. -/
theorem C41_partial (C : Cipher) (info : PdM.Info) (p q : Pd) (cb : Bool) (env : Env) (outs : List Out) (code : Int)
    (hr : Reached C info p) (hon : p.state = .online) (hps : p.phyState = .replyWait) (hc : cmdCode p.cmdId = some code)
    (h : step C p (.update cb env) = .ok (q, outs)) :
    notes .command outs = [] ∨
    (q.phyState = .idle ∧ cb = true ∧ p.flags.enableNotif = true ∧
      (notes .command outs = [(code, 1)] ∧ Accepted C p env ∨ notes .command outs = [(code, 0)] ∧ ¬ Accepted C p env)) := by
  obtain ⟨⟨s1, o1, y⟩, hu, h⟩ := Res.bind_eq_ok.mp h
  injection h with h; injection h with e1 e2; subst e1 e2
  rcases ((stateUpdate_inv hr.inv.cp hu).visit hr.inv).command_notes hr.inv hr.buffered hr.tidy.proper with h | ⟨p1, o, hq, he, hn⟩
  · exact .inl h
  obtain ⟨k1, k2, -⟩ := he.keeps
  rw [hn, appCmd_code, k2, hc]
  split
  · exact .inl rfl
  · rename_i a ha
    split at ha
    · cases ha
    · injection ha with ha; subst ha
      split
      · rename_i ht
        unfold told at ht
        rw [Bool.and_eq_true] at ht
        refine .inr ⟨hq, ht.1, ht.2, ?_⟩
        rw [verdict_accepts (k1.trans hon) (by rw [k2, hc]; rfl), k2]
        rcases he.replyId hps (hr.blank hps) with ⟨id, body, h1, h2⟩ | ⟨h1, h2⟩
        · rw [h2]
          by_cases hA : Accepts p.cmdId id.toNat
          · exact .inl ⟨by simp [hA], id, body, h1, hA⟩
          · refine .inr ⟨by simp [hA], ?_⟩
            rintro ⟨id', body', h3, h4⟩
            rw [h1] at h3; injection h3 with h3; injection h3 with h3 _; subst h3
            exact hA h4
        · refine .inr ⟨?_, fun ⟨id', body', h3, _⟩ => h1 _ _ h3⟩
          have : ¬ Accepts p.cmdId p1.replyId := by
            unfold Accepts
            rcases h2 with h2 | h2 <;> rw [h2] <;> simp [Id.NAK]
          simp [this]
      · exact .inl rfl

/-- … and it is reported, whenever the exchange is over: a command other than a manufacturer specific one. -/
theorem C41_reported (C : Cipher) (info : PdM.Info) (p q : Pd) (env : Env) (outs : List Out) (code : Int)
    (hr : Reached C info p) (hps : p.phyState = .replyWait) (hc : cmdCode p.cmdId = some code) (hm : p.cmdId ≠ 0x80)
    (hn : p.flags.enableNotif = true) (h : step C p (.update true env) = .ok (q, outs)) (hq : q.phyState = .idle) :
    ∃ b, notes .command outs = [(code, b)] := by
  obtain ⟨⟨s1, o1, y⟩, hu, h1⟩ := Res.bind_eq_ok.mp h
  clear h
  injection h1 with h1; injection h1 with e1 e2; subst e1 e2
  have hv := (stateUpdate_inv hr.inv.cp hu).visit hr.inv
  have I := hr.inv
  cases hv with
  | on _ _ _ h _ _ _ _ => exact absurd hq h
  | command h _ _ => rw [hps] at h; cases h
  | nothing h _ _ => rw [hps] at h; cases h
  | @over p1 p2 _ o1 o2 o3 ok h1 h2 h3 h4 h5 h6 =>
    obtain ⟨k1, k2, k3, k4, k5, -⟩ := stateCheckReply_state h5
    have pr : Proper p1 := (h2.pending I.cp hr.buffered).proper hr.tidy.proper
    have e1 : appCmd p2 = some code := by rw [appCmd_code, k2, h2.keeps.2.1, if_neg (fun h => hm h.1), hc]
    have e2 : told true p2 = true := by unfold told; rw [stateCheckReply_notif h5, h2.notif, hn]; rfl
    refine ⟨if ok then 1 else 0, ?_⟩
    rw [notes_append, notes_append, notes_append, h2.keeps.2.2.2.notes, (stateCheckReply_only h5).notes (by simp),
      (advance_events (p := (Phy.stateReset p2 false).1) (fun e he => pr e (k4 ▸ he)) h6).2.2.1, List.append_nil, List.nil_append,
      List.nil_append, notifyCommand_notes, e1, e2]
    rfl

/-- **C41 fails**, in every history: no command is ever reported with −1, and 0 is not reported for an accepted command. -/
theorem C41_codes (C : Cipher) (info : PdM.Info) (p q : Pd) (cb : Bool) (env : Env) (outs : List Out)
    (hr : Reached C info p) (h : step C p (.update cb env) = .ok (q, outs)) : ∀ n ∈ notes .command outs, n.2 = 0 ∨ n.2 = 1 := by
  obtain ⟨⟨s1, o1, y⟩, hu, h⟩ := Res.bind_eq_ok.mp h
  injection h with h; injection h with e1 e2; subst e1 e2
  rcases ((stateUpdate_inv hr.inv.cp hu).visit hr.inv).command_notes hr.inv hr.buffered hr.tidy.proper with h | ⟨p1, o, hq, he, hn⟩
  · rw [h]; exact fun n hn => by cases hn
  rw [hn]
  intro n hm
  split at hm
  · cases hm
  · split at hm
    · rw [List.mem_singleton] at hm; subst hm
      dsimp only
      split <;> simp
    · cases hm

/-! ### examples and witnesses -/

/-- a buzzer command -/
def beep : Cmd := .buzzer ⟨0, 2, 1, 1, 1⟩

/-- the PD is online in the clear and has answered a POLL with an ACK -/
def polled : List Op := Sample.meets [4, 0, 0] ++ Sample.asks (Sample.reply 2 [b8 Id.ACK]) 100

/-- a buzzer command is accepted, refused, and lost -/
example : ∃ p o, run xorCipher chattyCp (polled ++ [.send { now := 100 } beep, Sample.hears [] 100, Sample.hears [] 100]) = .ok (p, o) ∧
    Reached xorCipher chatty p ∧ p.state = .online ∧ p.phyState = .replyWait ∧ cmdCode p.cmdId = some 3 := by
  obtain ⟨p, o, h, hp⟩ := Sample.ran (C := xorCipher) (p := chattyCp)
    (ops := polled ++ [.send { now := 100 } beep, Sample.hears [] 100, Sample.hears [] 100])
    (fun p _ => p.state == .online && p.phyState == .replyWait && cmdCode p.cmdId == some 3) (by decide +kernel)
  simp only [Bool.and_eq_true, beq_iff_eq] at hp
  exact ⟨p, o, h, chatty_reached h, hp.1.1, hp.1.2, hp.2⟩

example : ∃ p q o outs, run xorCipher chattyCp (polled ++ [.send { now := 100 } beep, Sample.hears [] 100, Sample.hears [] 100]) = .ok (p, o) ∧
    step xorCipher p (Sample.hears (Sample.reply 3 [b8 Id.ACK]) 100) = .ok (q, outs) ∧ notes .command outs = [(3, 1)] := by
  obtain ⟨p, o, q, outs, h1, h2, -, h4⟩ := Sample.ran_step (C := xorCipher) (p := chattyCp)
    (ops := polled ++ [.send { now := 100 } beep, Sample.hears [] 100, Sample.hears [] 100])
    (op := Sample.hears (Sample.reply 3 [b8 Id.ACK]) 100)
    (fun _ => true) (fun _ outs => notes .command outs == [(3, 1)]) (by decide +kernel) (by decide +kernel)
  exact ⟨p, q, o, outs, h1, h2, by simpa using h4⟩

example : ∃ p q o outs, run xorCipher chattyCp (polled ++ [.send { now := 100 } beep, Sample.hears [] 100, Sample.hears [] 100]) = .ok (p, o) ∧
    step xorCipher p (Sample.hears (Sample.reply 3 [b8 Id.NAK, 3]) 100) = .ok (q, outs) ∧ notes .command outs = [(3, 0)] := by
  obtain ⟨p, o, q, outs, h1, h2, -, h4⟩ := Sample.ran_step (C := xorCipher) (p := chattyCp)
    (ops := polled ++ [.send { now := 100 } beep, Sample.hears [] 100, Sample.hears [] 100])
    (op := Sample.hears (Sample.reply 3 [b8 Id.NAK, 3]) 100)
    (fun _ => true) (fun _ outs => notes .command outs == [(3, 0)]) (by decide +kernel) (by decide +kernel)
  exact ⟨p, q, o, outs, h1, h2, by simpa using h4⟩

/-- **C41 fails**: the channel does not take the buzzer command, and the command is reported as accepted, as the POLL before it
was; nothing was sent. -/
theorem C41_unsent : ∃ p q o outs, run xorCipher chattyCp (polled ++ [.send { now := 100 } beep, Sample.hears [] 100]) = .ok (p, o) ∧
    Reached xorCipher chatty p ∧ p.state = .online ∧ cmdCode p.cmdId = some 3 ∧
    step xorCipher p (.update true { now := 100, sendCap := 0 }) = .ok (q, outs) ∧ notes .command outs = [(3, 1)] ∧
    (∀ bs ∈ Spec.Wire.sent outs, bs = []) ∧ q.state = .offline := by
  obtain ⟨p, o, q, outs, h1, h2, h3, h4⟩ := Sample.ran_step (C := xorCipher) (p := chattyCp)
    (ops := polled ++ [.send { now := 100 } beep, Sample.hears [] 100]) (op := .update true { now := 100, sendCap := 0 })
    (fun p => p.state == .online && cmdCode p.cmdId == some 3)
    (fun q outs => notes .command outs == [(3, 1)] && (Spec.Wire.sent outs).all (· == []) && q.state == .offline)
    (by decide +kernel) (by decide +kernel)
  simp only [Bool.and_eq_true, beq_iff_eq, List.all_eq_true] at h3 h4
  exact ⟨p, q, o, outs, h1, chatty_reached h1, h3.1, h3.2, h2, h4.1.1, h4.1.2, h4.2⟩

/-- a manufacturer specific command -/
def custom : Cmd := .mfg ⟨0x010203, 0x42, 4, .fill 64 0x77#8⟩

/-- **C41 fails**: a manufacturer specific command is refused by the PD, and nothing is reported. -/
theorem C41_mfg : ∃ p q o outs, run xorCipher chattyCp (polled ++ [.send { now := 100 } custom, Sample.hears [] 100, Sample.hears [] 100]) =
      .ok (p, o) ∧ Reached xorCipher chatty p ∧ p.state = .online ∧ p.phyState = .replyWait ∧ cmdCode p.cmdId = some 7 ∧
    step xorCipher p (Sample.hears (Sample.reply 3 [b8 Id.NAK, 3]) 100) = .ok (q, outs) ∧ q.phyState = .idle ∧
    notes .command outs = [] := by
  obtain ⟨p, o, q, outs, h1, h2, h3, h4⟩ := Sample.ran_step (C := xorCipher) (p := chattyCp)
    (ops := polled ++ [.send { now := 100 } custom, Sample.hears [] 100, Sample.hears [] 100])
    (op := Sample.hears (Sample.reply 3 [b8 Id.NAK, 3]) 100)
    (fun p => p.state == .online && p.phyState == .replyWait && cmdCode p.cmdId == some 7)
    (fun q outs => q.phyState == .idle && notes .command outs == []) (by decide +kernel) (by decide +kernel)
  simp only [Bool.and_eq_true, beq_iff_eq] at h3 h4
  exact ⟨p, q, o, outs, h1, chatty_reached h1, h3.1.1, h3.1.2, h3.2, h2, h4.1, h4.2⟩

end Osdp.CpM
