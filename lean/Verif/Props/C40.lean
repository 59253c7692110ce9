import Verif.Props.C28

/-!
# C40: commands are sent in order, each exactly once, before file data and polls

A history of API calls and visits is followed, command by command: `accepted` are the commands for which `osdp_cp_send_command`
returned 0 (file transfer requests, which are not queued, aside), `begun` are the commands for which an exchange was begun, both in
order.

* `C40_order`: `begun` followed by the queue is, in order, a part of `accepted`.
* `C40_each_partial`: and if the queue is never flushed, it is all of `accepted`, but for KEYSETs and status commands of
  unknown type.  These can be dropped silently (`C40_dropped`), so the full statement fails.
* `C40_first`: a queued command takes precedence over file transfer and polling.
* `C40_packets`: what is sent to a PD that is online is the command begun last, or a POLL, or a file transfer command.
* `C40_flush`, `C40_refused`, `C40_accepted`: flush and send.
-/

namespace Osdp.CpM

open Spec.Wire

/-! ### Specification -/

/-- the id on the wire of an application command -/
def wireId : Cmd → Option Nat
  | .output _ => some 0x68
  | .led _ => some 0x69
  | .buzzer _ => some 0x6A
  | .text _ => some 0x6B
  | .comset _ => some 0x6E
  | .keyset _ => some 0x75
  | .mfg _ => some 0x80
  | .status s => match s.type with
    | .localStat => some 0x64
    | .input => some 0x65
    | .output => some 0x66
    | .remote => some 0x67
    | .other => none
  | .fileTx _ => none
  | .bad _ => none

/-- file transfers are requested with the same call, but are not queued -/
def isFile : Cmd → Bool
  | .fileTx _ => true
  | _ => false

/-- the command accepted in a step, if any -/
def acceptedIn (p : Pd) : Op → List Cmd
  | .send env c => if (sendPd p env c).2.2 = 0 ∧ isFile c = false then [c] else []
  | _ => []

/-- the commands accepted in a history -/
def accepted (C : Cipher) (p : Pd) : List Op → List Cmd
  | [] => []
  | op :: ops => match CpM.step C p op with
    | .ok (q, _) => acceptedIn p op ++ accepted C q ops
    | .error _ => []

/-- an exchange begins for this command: the PD is online, no exchange was under way, and this command is now to be sent -/
def begunIn (p : Pd) (op : Op) (q : Pd) : List Cmd := match op with
  | .update _ _ => match q.eph with
    | .cmd c => if p.state = .online ∧ p.phyState = .idle ∧ q.phyState = .sendCmd ∧ wireId c = some q.cmdId then [c] else []
    | _ => []
  | _ => []

/-- the commands for which an exchange was begun in a history -/
def begun (C : Cipher) (p : Pd) : List Op → List Cmd
  | [] => []
  | op :: ops => match CpM.step C p op with
    | .ok (q, _) => begunIn p op q ++ begun C q ops
    | .error _ => []

/-- commands that may get dropped -/
def droppable : Cmd → Bool
  | .keyset _ => true
  | .status s => s.type == .other
  | _ => false

/-! ### One step -/

/-- what happens to the queue when a command is chosen -/
theorem stateGetCmd_queue {p q : Pd} {env : Env} {outs : List Out} {id : Nat} (h : stateGetCmd p env = .ok (q, outs, id)) :
    (q.cmdQueue = p.cmdQueue ∧ (p.state = .online → p.cmdQueue = [] ∧ (id = 0 ∨ id = Id.POLL ∨ id = Id.FILETRANSFER ∨ id = Id.ABORT))) ∨
    ∃ c rest, p.state = .online ∧ p.cmdQueue = c :: rest ∧ q.cmdQueue = rest ∧ q.eph = .cmd c ∧
      (wireId c = some id ∨ (id = 0 ∧ droppable c = true)) := by
  by_cases hs : p.state = .online
  case neg =>
    have := ((stateGetCmd_inv h).2.2.2 hs).1
    exact .inl ⟨by rw [this], fun h => absurd h hs⟩
  unfold stateGetCmd at h
  rw [hs] at h
  dsimp only at h
  unfold onlineCommand at h
  cases hq : p.cmdQueue with
  | nil =>
    rw [hq] at h
    dsimp only at h
    left
    rcases hg : File.getCommand p.file env.now with ⟨f, o, n⟩
    rw [hg] at h
    have hids := (getCommand_inv hg).2
    dsimp only at h
    cases n with
    | send i =>
      injection h with h; injection h with e1 h; injection h with e2 e3; subst e1 e2 e3
      exact ⟨rfl, fun _ => ⟨rfl, by rcases hids _ rfl with h | h | h <;> simp [h]⟩⟩
    | hold =>
      injection h with h; injection h with e1 h; injection h with e2 e3; subst e1 e2 e3
      exact ⟨rfl, fun _ => ⟨rfl, .inl rfl⟩⟩
    | nothing =>
      dsimp only at h
      split at h
      all_goals
        injection h with h; injection h with e1 h; injection h with e2 e3; subst e1 e2 e3
        exact ⟨rfl, fun _ => ⟨rfl, by simp⟩⟩
  | cons c rest =>
    rw [hq] at h
    obtain ⟨⟨p1, id1⟩, ht, h⟩ := Res.bind_eq_ok.mp h
    injection h with h; injection h with e1 h; injection h with e2 e3; subst e1 e2 e3
    refine .inr ⟨c, rest, hs, rfl, ?_⟩
    rw [(translate_inv ht).1]
    refine ⟨rfl, rfl, ?_⟩
    unfold translate at ht
    unfold wireId droppable
    cases c with
    | status s =>
      dsimp only at ht ⊢
      cases hs : s.type <;> rw [hs] at ht <;> injection ht with ht <;> injection ht with _ e <;> subst e <;>
        first | exact .inl rfl | exact .inr ⟨rfl, rfl⟩
    | keyset k =>
      dsimp only at ht
      split at ht <;> injection ht with ht <;> injection ht with _ e <;> subst e
      · exact .inr ⟨rfl, rfl⟩
      · exact .inl rfl
    | fileTx _ => cases ht
    | bad _ => cases ht
    | _ => injection ht with ht; injection ht with _ e; subst e; exact .inl rfl

theorem wireId_app {c : Cmd} {id : Nat} (h : wireId c = some id) : id ≠ 0 ∧ id ≠ Id.POLL ∧ id ≠ Id.FILETRANSFER ∧ id ≠ Id.ABORT := by
  unfold wireId at h
  split at h <;> (try split at h) <;> first | (injection h with h; subst h; decide) | cases h

/-- what happens to the queue in a visit -/
theorem update_queue {C : Cipher} {cb : Bool} {p q : Pd} {env : Env} {outs : List Out} (I : Inv p)
    (h : step C p (.update cb env) = .ok (q, outs)) :
    (q.cmdQueue = p.cmdQueue ∧ begunIn p (.update cb env) q = [] ∧ (p.state = .online → p.phyState = .idle → p.cmdQueue = [])) ∨
    ∃ c rest, p.state = .online ∧ p.phyState = .idle ∧ p.cmdQueue = c :: rest ∧ q.cmdQueue = rest ∧
      ((begunIn p (.update cb env) q = [c] ∧ wireId c = some q.cmdId ∧ q.phyState = .sendCmd ∧ q.state = .online ∧ q.eph = .cmd c) ∨
       (begunIn p (.update cb env) q = [] ∧ droppable c = true ∧ q.phyState = .idle)) := by
  obtain ⟨⟨s1, o1, y⟩, hu, h⟩ := Res.bind_eq_ok.mp h
  injection h with h; injection h with e1 e2; subst e1 e2
  have none : ∀ {q : Pd}, p.phyState ≠ .idle ∨ q.phyState = .idle → begunIn p (.update cb env) q = [] := by
    intro q hn
    unfold begunIn
    dsimp only
    split
    · rw [if_neg]
      rintro ⟨-, h2, h3, -⟩
      rcases hn with h | h
      · exact h h2
      · rw [h] at h3; cases h3
    · rfl
  cases (stateUpdate_inv I.cp hu).visit I with
  | on h1 h2 h3 h4 h5 no h7 h8 => exact .inl ⟨h3, none (.inl h5), fun _ h => absurd h h5⟩
  | @command p1 _ id h1 h2 h3 =>
    have hst : p1.state = p.state := by
      have := (stateGetCmd_inv h2).1
      unfold Chosen at this
      rw [this]
    rcases stateGetCmd_queue h2 with ⟨a, b⟩ | ⟨c, rest, a1, a2, a3, a4, a5⟩
    · refine .inl ⟨a, ?_, fun h _ => (b h).1⟩
      unfold begunIn
      dsimp only
      split
      · rename_i c hc
        rw [if_neg]
        rintro ⟨hon, -, -, hw⟩
        obtain ⟨w1, w2, w3, w4⟩ := wireId_app hw
        rcases (b hon).2 with h | h | h | h
        · exact w1 h
        · exact w2 h
        · exact w3 h
        · exact w4 h
      · rfl
    · refine .inr ⟨c, rest, a1, h1, a2, a3, ?_⟩
      rcases a5 with a5 | ⟨a5, -⟩
      · refine .inl ⟨?_, a5, rfl, hst.trans a1, a4⟩
        unfold begunIn
        dsimp only
        rw [a4]
        exact if_pos ⟨a1, h1, rfl, a5⟩
      · omega
  | @nothing p1 _ o1 o2 h1 h2 h3 =>
    have hi := (advanced (p := { p1 with cmdId := 0 }) (nothing_pre I.mid h1 h2) h3).2
    have hd := (advance_drift h3).2.1
    rcases stateGetCmd_queue h2 with ⟨a, b⟩ | ⟨c, rest, a1, a2, a3, a4, a5⟩
    · exact .inl ⟨hd.trans a, none (.inr hi), fun h _ => (b h).1⟩
    · refine .inr ⟨c, rest, a1, h1, a2, hd.trans a3, .inr ⟨none (.inr hi), ?_, hi⟩⟩
      rcases a5 with a5 | ⟨-, a5⟩
      · exact absurd rfl (wireId_app a5).1
      · exact a5
  | @over p1 p2 _ o1 o2 o3 ok h1 h2 h3 h4 h5 h6 =>
    have hq : p2.cmdQueue = p1.cmdQueue := by
      rcases (stateCheckReply_inv h5).2 with ⟨rfl, -⟩ | ⟨-, -, -, h⟩
      · rfl
      · obtain ⟨k, -, rfl, -⟩ := keysetComplete_inv h; rfl
    exact .inl ⟨((advance_drift h6).2.1.trans hq).trans h2.keeps.2.2.1, none (.inl h1), fun _ h => absurd h h1⟩

/-- what happens to the queue in an API call -/
theorem api_queue {C : Cipher} {p q : Pd} {op : Op} {outs : List Out} (h : step C p op = .ok (q, outs))
    (hop : ∀ cb env, op ≠ .update cb env) : begunIn p op q = [] ∧
      (op = .flush → q.cmdQueue = []) ∧ (op ≠ .flush → q.cmdQueue = p.cmdQueue ++ acceptedIn p op) := by
  have nil : p.cmdQueue = p.cmdQueue ++ [] := by simp
  cases op with
  | update cb env => exact absurd rfl (hop cb env)
  | flush =>
    injection h with h; injection h with e1 e2; subst e1 e2
    exact ⟨rfl, fun _ => rfl, fun h => absurd rfl h⟩
  | flag f b =>
    injection h with h; injection h with e1 e2; subst e1 e2
    refine ⟨rfl, (fun h => by cases h), fun _ => ?_⟩
    rw [modifyPd_flags]
    exact nil
  | fileOps =>
    injection h with h; injection h with e1 e2; subst e1 e2
    exact ⟨rfl, (fun h => by cases h), fun _ => nil⟩
  | share =>
    injection h with h; injection h with e1 e2; subst e1 e2
    exact ⟨rfl, (fun h => by cases h), fun _ => nil⟩
  | send env c =>
    injection h with h; injection h with e1 e2; subst e1 e2
    refine ⟨rfl, (fun h => by cases h), fun _ => ?_⟩
    unfold acceptedIn
    dsimp only
    unfold sendPd isFile
    by_cases hs : p.state ≠ .online
    · rw [if_pos hs]; simp
    · rw [if_neg hs]
      dsimp only
      cases c with
      | fileTx f => simp
      | keyset k =>
        dsimp only
        split
        · simp
        · split <;> simp
      | _ =>
        dsimp only
        split <;> simp

/-! ### Histories -/

theorem queue_order {C : Cipher} {ops : List Op} {p q : Pd} {o : List Out} (I : Inv p) (h : run C p ops = .ok (q, o)) :
    (begun C p ops ++ q.cmdQueue).Sublist (p.cmdQueue ++ accepted C p ops) := by
  induction ops generalizing p o with
  | nil =>
    injection h with h; injection h with e1 e2; subst e1
    simp [begun, accepted]
  | cons op ops ih =>
    obtain ⟨⟨p1, o1⟩, h1, h⟩ := Res.bind_eq_ok.mp h
    obtain ⟨⟨p2, o2⟩, h2, h⟩ := Res.bind_eq_ok.mp h
    injection h with h; injection h with e1 e2; subst e1 e2
    have k := ih (I.step h1) h2
    unfold begun accepted
    rw [h1]
    dsimp only
    rw [List.append_assoc]
    by_cases hop : ∀ cb env, op ≠ .update cb env
    · obtain ⟨a, b⟩ := api_queue h1 hop
      rw [a, List.nil_append]
      by_cases hf : op = .flush
      · replace b := b.1 hf
        rw [b, List.nil_append] at k
        exact k.trans ((List.sublist_append_right _ _).trans (List.sublist_append_right _ _))
      · replace b := b.2 hf
        rw [b, List.append_assoc] at k
        exact k
    obtain ⟨cb, env, rfl⟩ : ∃ cb env, op = .update cb env :=
      Classical.byContradiction fun hn => hop fun cb env he => hn ⟨cb, env, he⟩
    show List.Sublist _ (_ ++ ([] ++ _))
    rw [List.nil_append]
    rcases update_queue I h1 with ⟨a, b, -⟩ | ⟨c, rest, -, -, a3, a4, ⟨b, -⟩ | ⟨b, -⟩⟩
    · rw [b, List.nil_append, ← a]; exact k
    · rw [b, a3, ← a4]
      exact k.cons_cons c
    · rw [b, a3, ← a4, List.nil_append]
      exact k.cons c

theorem queue_each {C : Cipher} {ops : List Op} {p q : Pd} {o : List Out} (I : Inv p) (hf : Op.flush ∉ ops)
    (h : run C p ops = .ok (q, o)) :
    (begun C p ops ++ q.cmdQueue).filter (!droppable ·) = (p.cmdQueue ++ accepted C p ops).filter (!droppable ·) := by
  induction ops generalizing p o with
  | nil =>
    injection h with h; injection h with e1 e2; subst e1
    simp [begun, accepted]
  | cons op ops ih =>
    obtain ⟨⟨p1, o1⟩, h1, h⟩ := Res.bind_eq_ok.mp h
    obtain ⟨⟨p2, o2⟩, h2, h⟩ := Res.bind_eq_ok.mp h
    injection h with h; injection h with e1 e2; subst e1 e2
    have k := ih (I.step h1) (fun h => hf (List.mem_cons_of_mem _ h)) h2
    unfold begun accepted
    rw [h1]
    dsimp only
    rw [List.append_assoc]
    by_cases hop : ∀ cb env, op ≠ .update cb env
    · obtain ⟨a, b⟩ := api_queue h1 hop
      rw [a, List.nil_append]
      replace b := b.2 fun h => hf (by rw [h]; exact List.mem_cons_self)
      rw [b, List.append_assoc] at k
      exact k
    obtain ⟨cb, env, rfl⟩ : ∃ cb env, op = .update cb env :=
      Classical.byContradiction fun hn => hop fun cb env he => hn ⟨cb, env, he⟩
    show _ = List.filter _ (_ ++ ([] ++ _))
    rw [List.nil_append]
    rcases update_queue I h1 with ⟨a, b, -⟩ | ⟨c, rest, -, -, a3, a4, ⟨b, -⟩ | ⟨b, hd, -⟩⟩
    · rw [b, List.nil_append, ← a]; exact k
    · rw [b, a3, ← a4]
      show List.filter _ (c :: (_ ++ _)) = List.filter _ (c :: (_ ++ _))
      rw [List.filter_cons, List.filter_cons, List.nil_append, k]
    · rw [b, a3, ← a4, List.nil_append, List.cons_append, List.filter_cons, hd]
      exact k

/-- **C40, the order.** In every history, the commands for which an exchange was begun, followed by those still queued, are some
of the commands that were accepted, in the order in which these were accepted: no command is begun before one accepted earlier, or
twice, or without having been accepted. -/
theorem C40_order {C : Cipher} {info : PdM.Info} {i : Nat} {sk : Bool} {n : Nat} {p0 q : Pd} {ops : List Op} {o : List Out}
    (hn : newPd info i sk n = some p0) (hr : run C p0 ops = .ok (q, o)) :
    (begun C p0 ops ++ q.cmdQueue).Sublist (accepted C p0 ops) := by
  have h := queue_order (newPd_inv hn).1 hr
  have h0 : p0.cmdQueue = [] := by
    unfold newPd at hn
    split at hn
    · cases hn
    · injection hn with hn; subst hn; rfl
  rw [h0] at h
  exact h

/-- **C40, each command (partial).** Full statement: every accepted command that is not flushed is transmitted. Proved for all but
KEYSETs and status commands of unknown type: in a history without flush, the others are begun, or still queued, exactly in
the order in which they were accepted. -/
theorem C40_each_partial {C : Cipher} {info : PdM.Info} {i : Nat} {sk : Bool} {n : Nat} {p0 q : Pd} {ops : List Op} {o : List Out}
    (hn : newPd info i sk n = some p0) (hr : run C p0 ops = .ok (q, o)) (hf : Op.flush ∉ ops) :
    (begun C p0 ops ++ q.cmdQueue).filter (!droppable ·) = (accepted C p0 ops).filter (!droppable ·) := by
  have h := queue_each (newPd_inv hn).1 hf hr
  have h0 : p0.cmdQueue = [] := by
    unfold newPd at hn
    split at hn
    · cases hn
    · injection hn with hn; subst hn; rfl
  rw [h0] at h
  exact h

/-- **C40, precedence.** A PD is online, no exchange is under way and a command is queued: the next visit takes up the first one
queued, whatever the state of a file transfer and whenever the last POLL was. (Or drops it, see `C40_dropped`.) -/
theorem C40_first {C : Cipher} {info : PdM.Info} {p q : Pd} {cb : Bool} {env : Env} {outs : List Out} {c : Cmd} {rest : List Cmd}
    (hr : Reached C info p) (hon : p.state = .online) (hps : p.phyState = .idle) (hq : p.cmdQueue = c :: rest)
    (h : step C p (.update cb env) = .ok (q, outs)) :
    q.cmdQueue = rest ∧ (begunIn p (.update cb env) q = [c] ∧ wireId c = some q.cmdId ∧ q.phyState = .sendCmd ∨ droppable c = true) := by
  rcases update_queue hr.inv h with ⟨-, -, h0⟩ | ⟨c', rest', -, -, a3, a4, b⟩
  · rw [h0 hon hps] at hq; cases hq
  · rw [hq] at a3
    injection a3 with e1 e2
    subst e1 e2
    rcases b with ⟨b1, b2, b3, -⟩ | ⟨-, b2, -⟩
    · exact ⟨a4, .inl ⟨b1, b2, b3⟩⟩
    · exact ⟨a4, .inr b2⟩

/-- **C40, flush.** `osdp_cp_flush_commands` returns the number of queued commands and empties the queue. -/
theorem C40_flush (c : Ctx) (i : Nat) (p : Pd) (h : c.pds[i]? = some p) :
    (flushCommands c i).2 = p.cmdQueue.length ∧ ((flushCommands c i).1.pds[i]?).map (·.cmdQueue) = some [] := by
  have hi : i < c.pds.length := (List.getElem?_eq_some_iff.mp h).1
  unfold flushCommands
  rw [if_pos (by omega)]
  have e : (i : Int).toNat = i := by omega
  rw [e, h]
  dsimp only
  refine ⟨rfl, ?_⟩
  rw [List.getElem?_set_self hi]
  rfl

/-- **C40, refusal.** Unless the PD is online, `osdp_cp_send_command` returns −1 and changes nothing. -/
theorem C40_refused (c : Ctx) (i : Nat) (p : Pd) (env : Env) (cmd : Cmd) (h : c.pds[i]? = some p) (hs : p.state ≠ .online) :
    sendCommand c i env cmd = (c, [], -1) := by
  have hi : i < c.pds.length := (List.getElem?_eq_some_iff.mp h).1
  unfold sendCommand
  rw [if_pos (by omega)]
  have e : (i : Int).toNat = i := by omega
  rw [e, h]
  dsimp only
  unfold sendPd
  rw [if_pos hs]
  dsimp only
  have : c.pds.set i p = c.pds := by
    rw [List.getElem?_eq_some_iff] at h
    obtain ⟨hi, h⟩ := h
    subst h
    exact List.set_getElem_self hi
  rw [this]

/-- **C40, acceptance.** While the PD is online and its queue has room, every command other than a file transfer or a KEYSET is
accepted and goes to the end of the queue. -/
theorem C40_accepted (c : Ctx) (i : Nat) (p : Pd) (env : Env) (cmd : Cmd) (h : c.pds[i]? = some p) (hs : p.state = .online)
    (hroom : p.cmdQueue.length < p.poolCap) (hf : isFile cmd = false) (hk : ∀ k, cmd ≠ .keyset k) :
    (sendCommand c i env cmd).2.2 = 0 ∧ ((sendCommand c i env cmd).1.pds[i]?).map (·.cmdQueue) = some (p.cmdQueue ++ [cmd]) := by
  have hi : i < c.pds.length := (List.getElem?_eq_some_iff.mp h).1
  unfold sendCommand
  rw [if_pos (by omega)]
  have e : (i : Int).toNat = i := by omega
  rw [e, h]
  dsimp only
  have key : sendPd p env cmd = ({ p with cmdQueue := p.cmdQueue ++ [cmd] }, [], 0) := by
    unfold sendPd
    rw [if_neg (by rw [hs]; simp)]
    dsimp only
    rw [if_pos hroom]
    cases cmd with
    | fileTx f => cases hf
    | keyset k => exact absurd rfl (hk k)
    | _ => rfl
  rw [key]
  dsimp only
  refine ⟨rfl, ?_⟩
  rw [List.getElem?_set_self hi]
  rfl

/-! ### What is sent -/

/-- a reply that does not end the exchange leaves the command in hand alone -/
theorem Reply.ephCmd {C : Cipher} {p q : Pd} {env : Env} {o : List Out} {rc : CpErr} (hcp : p.flags.pdMode = false)
    (h : Reply C p env q o rc) (hrc : rc = .retryCmd ∨ rc = .noData) : ∀ c, p.eph = .cmd c → q.eph = .cmd c := by
  cases h with
  | nothing _ hc _ => exact fun c h => by rw [hc.eph]; exact h
  | busy _ hc => exact (hc.cp hcp).2.cmd
  | bad _ _ _ => simp at hrc
  | seq _ _ => simp at hrc
  | refused _ _ _ _ _ => simp at hrc
  | reply _ hc _ hd _ _ _ _ _ he' =>
    have hcp1 := hc.transp.pdMode ▸ hcp
    cases he' with
    | busy _ => exact fun c h => (hd.cpEph hcp1).cmd c ((hc.cp hcp).2.cmd c h)
    | _ => exact absurd hrc (by (try split) <;> simp)

theorem Waited.ephCmd {C : Cipher} {p q : Pd} {env : Env} {o : List Out} {rc : CpErr} (hcp : p.flags.pdMode = false)
    (h : Waited C p env q o rc) (hrc : rc = .canYield ∨ rc = .inprog) : ∀ c, p.eph = .cmd c → q.eph = .cmd c := by
  cases h with
  | busy h => have k := h.ephCmd hcp (.inl rfl); exact k
  | retry h _ _ => have k := h.ephCmd hcp (.inr rfl); exact k
  | waiting h _ => exact h.ephCmd hcp (.inr rfl)
  | _ => simp at hrc

/-- the command in hand while the PD is online is the one begun last, or one of the CP's own -/
def InHand (b : List Cmd) (p : Pd) : Prop := p.state = .online → p.phyState ≠ .idle →
  p.cmdId = Id.POLL ∨ p.cmdId = Id.FILETRANSFER ∨ p.cmdId = Id.ABORT ∨
  ∃ c, b.getLast? = some c ∧ p.eph = .cmd c ∧ wireId c = some p.cmdId

theorem InHand.step {C : Cipher} {b : List Cmd} {p q : Pd} {op : Op} {outs : List Out} (I : Inv p) (H : InHand b p)
    (h : CpM.step C p op = .ok (q, outs)) : InHand (b ++ begunIn p op q) q := by
  by_cases hop : ∀ cb env, op ≠ .update cb env
  · rw [(api_queue h hop).1, List.append_nil]
    have ha := step_apiOnly h hop
    unfold Api at ha
    unfold InHand
    rw [ha]
    exact H
  obtain ⟨cb, env, rfl⟩ : ∃ cb env, op = .update cb env :=
    Classical.byContradiction fun hn => hop fun cb env he => hn ⟨cb, env, he⟩
  rcases update_queue I h with ⟨-, hb, hq⟩ | ⟨c, rest, -, -, -, -, ⟨hb, b2, b3, b4, b5⟩ | ⟨hb, -, b3⟩⟩
  · rw [hb, List.append_nil]
    intro hon hps
    obtain ⟨⟨s1, o1, y⟩, hu, h⟩ := Res.bind_eq_ok.mp h
    injection h with h; injection h with e1 e2; subst e1 e2
    have keep : s1.state = p.state → s1.cmdId = p.cmdId → p.phyState ≠ .idle → (∀ c, p.eph = .cmd c → s1.eph = .cmd c) →
        s1.cmdId = Id.POLL ∨ s1.cmdId = Id.FILETRANSFER ∨ s1.cmdId = Id.ABORT ∨
          ∃ c, b.getLast? = some c ∧ s1.eph = .cmd c ∧ wireId c = some s1.cmdId := by
      intro h1 h2 h3 h4
      rw [h2]
      rcases H (h1.symm.trans hon) h3 with h | h | h | ⟨c, a1, a2, a3⟩
      · exact .inl h
      · exact .inr (.inl h)
      · exact .inr (.inr (.inl h))
      · exact .inr (.inr (.inr ⟨c, a1, h4 c a2, a3⟩))
    have settles : ∀ {p1 : Pd} {o : List Out}, Mid p1 → p1.phyState = .done ∨ p1.phyState = .err → settle cb p1 env = .ok (s1, o) → False := by
      intro p1 o M hd hs
      cases settle_inv hs with
      | command h1 _ _ => rcases hd with h | h <;> rw [h] at h1 <;> cases h1
      | nothing h1 _ _ => rcases hd with h | h <;> rw [h] at h1 <;> cases h1
      | over _ h2 h3 => exact hps (advanced (over_pre M h2) h3).2
    cases stateUpdate_inv I.cp hu with
    | hold h1 _ => exact H hon (by rw [h1]; simp)
    | @sent p1 _ hm hs =>
      have hs' := hs.sent
      unfold Sent at hs'
      refine keep ?_ ?_ ?_ fun c hc => ?_
      · show p1.state = _; rw [hs']
      · show p1.cmdId = _; rw [hs']
      · rcases hm with h | ⟨h, -⟩ <;> rw [h] <;> simp
      · show p1.eph = _; rw [hs']; exact hc
    | unsent _ h1 h2 => exact (settles (unsent_mid I h1) (.inr rfl) h2).elim
    | replied h0 h1 hrc h2 =>
      refine (settles (waited_mid I h0 h1) ?_ h2).elim
      cases h1 with
      | answered _ => exact .inl rfl
      | ignored _ _ _ => exact .inl rfl
      | failed _ _ => exact .inr rfl
      | exhausted _ _ _ => exact .inr rfl
      | _ => simp at hrc
    | again h0 h1 => exact keep h1.state.1 h1.state.2.1 (by rw [h0]; simp) (h1.ephCmd I.cp (.inl rfl))
    | waiting h0 h1 => exact keep h1.state.1 h1.state.2.1 (by rw [h0]; simp) (h1.ephCmd I.cp (.inr rfl))
    | idle h0 h1 =>
      have h0 : p.phyState = .idle := by
        rcases I.phy with h | h | h | h
        · exact h
        all_goals rw [h] at h0; simp at h0
      cases settle_inv h1 with
      | command _ h2 hid =>
        rename_i p1 _ _
        have hst : p1.state = p.state := by
          have := (stateGetCmd_inv h2).1
          unfold Chosen at this
          rw [this]
        rcases stateGetCmd_queue h2 with ⟨-, a⟩ | ⟨c, rest, a1, a2, -⟩
        · rcases (a (hst.symm.trans hon)).2 with h | h | h | h
          · omega
          · exact .inl h
          · exact .inr (.inl h)
          · exact .inr (.inr (.inl h))
        · rw [hq a1 h0] at a2; cases a2
      | @nothing p1 _ _ _ _ h2 h3 => exact absurd (advanced (p := { p1 with cmdId := 0 }) (nothing_pre I.mid h0 h2) h3).2 hps
      | over h2 _ _ => rw [h0] at h2; simp at h2
  · rw [hb]
    intro _ _
    exact .inr (.inr (.inr ⟨c, by simp, b5, b2⟩))
  · intro _ h
    exact absurd b3 h

theorem inHand_run {C : Cipher} {ops : List Op} {b : List Cmd} {p q : Pd} {o : List Out} (I : Inv p) (H : InHand b p)
    (h : run C p ops = .ok (q, o)) : InHand (b ++ begun C p ops) q := by
  induction ops generalizing p o b with
  | nil =>
    injection h with h; injection h with e1 e2; subst e1
    simpa [begun] using H
  | cons op ops ih =>
    obtain ⟨⟨p1, o1⟩, h1, h⟩ := Res.bind_eq_ok.mp h
    obtain ⟨⟨p2, o2⟩, h2, h⟩ := Res.bind_eq_ok.mp h
    injection h with h; injection h with e1 e2; subst e1 e2
    have := ih (I.step h1) (H.step I h1) h2
    rw [List.append_assoc] at this
    unfold begun
    rw [h1]
    exact this

/-- **C40, what is sent.** Whatever is sent in a visit to a PD that is online is one packet; it is a POLL, a file transfer command or
an ABORT, or it has the id of the command begun last, with that command in hand. So no other command gets in between, and no
command is sent before its turn or after the next one has been begun. -/
theorem C40_packets {C : Cipher} {info : PdM.Info} {i : Nat} {sk : Bool} {n : Nat} {p0 p q : Pd} {ops : List Op} {cb : Bool} {env : Env}
    {o o' : List Out} (hn : newPd info i sk n = some p0) (hr : run C p0 ops = .ok (p, o)) (hon : p.state = .online)
    (h : step C p (.update cb env) = .ok (q, o')) (hs : sent o' ≠ []) :
    ∃ k : Spec.Wire.Packet, ∃ id : Byte, sent o' = [k.bytes.take env.sendCap] ∧ k.id = some id ∧
      (id.toNat = 0x60 ∨ id.toNat = 0x7C ∨ id.toNat = 0xA2 ∨
       ∃ c, (begun C p0 ops).getLast? = some c ∧ p.eph = .cmd c ∧ wireId c = some id.toNat) := by
  have R : Reached C info p := ⟨i, sk, n, p0, ops, o, hn, hr⟩
  have I := R.inv
  have H : InHand (begun C p0 ops) p := by
    have := inHand_run (b := []) (newPd_inv hn).1 (fun _ h => absurd (newPd_inv hn).2.2.1 h) hr
    exact this
  obtain ⟨⟨s1, o1, y⟩, hu, h⟩ := Res.bind_eq_ok.mp h
  injection h with h; injection h with e1 e2; subst e1 e2
  rcases (stateUpdate_inv I.cp hu).packet I with h | ⟨hm, k, hk, h2, -⟩
  · exact absurd h hs
  have hps : p.phyState ≠ .idle := by rcases hm with h | ⟨h, -⟩ <;> rw [h] <;> simp
  have hb : ∀ {id : Nat}, id < 256 → (b8 id).toNat = id := fun {id} h => by
    unfold b8
    rw [BitVec.toNat_ofNat]
    exact Nat.mod_eq_of_lt h
  rcases hk.id with hid | ⟨-, hid⟩
  · refine ⟨k, _, h2, hid, ?_⟩
    rcases H hon hps with h | h | h | ⟨c, a1, a2, a3⟩
    · exact .inl (by rw [h]; rfl)
    · exact .inr (.inl (by rw [h]; rfl))
    · exact .inr (.inr (.inl (by rw [h]; rfl)))
    · refine .inr (.inr (.inr ⟨c, a1, a2, ?_⟩))
      have : p.cmdId < 256 := by
        have := a3
        unfold wireId at this
        split at this <;> (try split at this) <;> first | (injection this with this; omega) | cases this
      rw [hb this]; exact a3
  · exact ⟨k, _, h2, hid, .inr (.inr (.inl rfl))⟩

/-! ### examples and witness -/

/-- two commands are accepted while the PD is online; the first one is begun and transmitted, the second one waits -/
def twoCmds : List Op := polled ++ [.send { now := 100 } beep, .send { now := 100 } custom, Sample.hears [] 100]

example : ∃ p o, run xorCipher chattyCp twoCmds = .ok (p, o) ∧ newPd chatty 0 false 16 = some chattyCp ∧ p.state = .online ∧
    p.phyState = .sendCmd ∧ accepted xorCipher chattyCp twoCmds = [beep, custom] ∧ begun xorCipher chattyCp twoCmds = [beep] ∧
    p.cmdQueue = [custom] ∧ Op.flush ∉ twoCmds := by
  obtain ⟨p, o, h1, h2⟩ := Sample.ran (C := xorCipher) (p := chattyCp) (ops := twoCmds)
    (fun p _ => p.state == .online && p.phyState == .sendCmd && p.cmdQueue == [custom]) (by decide +kernel)
  simp only [Bool.and_eq_true, beq_iff_eq] at h2
  refine ⟨p, o, h1, rfl, h2.1.1, h2.1.2, by decide +kernel, by decide +kernel, h2.2, ?_⟩
  intro h
  simp [twoCmds, polled, Sample.meets, Sample.asks, Sample.hears] at h

/-- the commands begun and accepted, the queue and the packets sent in a history of the sample CP -/
def account (ops : List Op) : Option ((List Cmd × List Cmd) × List Cmd × Nat × Bool) :=
  match run xorCipher Sample.cp ops with
  | .ok (p, o) => some ((accepted xorCipher Sample.cp ops, begun xorCipher Sample.cp ops), p.cmdQueue, (sent o).length, p.state == .online)
  | .error _ => none

/-- A KEYSET is accepted in a secure session; the session ends, the PD is met again without secure channel. -/
def keysetLate : List Op := (rekeyed 16).cpOps ++
  [Sample.hears [] 420, Sample.hears (Sample.reply 2 [b8 Id.ACK]) 420, Sample.hears [] 400000] ++ Sample.meetsAt 400000 [9, 0, 0] 0 1

/-- **C40 fails**: the KEYSET is removed from the queue and nothing is sent (or reported to the application). -/
theorem C40_dropped : account keysetLate = some (([rekey 16], []), [rekey 16], 8, true) ∧
    account (keysetLate ++ [Sample.hears [] 400000]) = some (([rekey 16], []), [], 8, true) := by decide +kernel

end Osdp.CpM
