import Verif.Lemmas.CpStep

/-! # What the pieces of the CP's state machine leave alone -/

namespace Osdp.CpM

open Phy (Transp)

/-- what a reply leaves alone -/
def Heard (p q : Pd) : Prop :=
  q = { p with
    rx := q.rx, packetBuf := q.packetBuf, packetBufLen := q.packetBufLen, packetLen := q.packetLen
    tstamp := q.tstamp, seq := q.seq, replyId := q.replyId, eph := q.eph
    flags := { p.flags with hasMark := q.flags.hasMark, broadcast := q.flags.broadcast, scActive := q.flags.scActive
                            useScbkd := q.flags.useScbkd, scCapable := q.flags.scCapable }
    sc := { q.sc with scbk := p.sc.scbk, cpRandom := p.sc.cpRandom, cpCryptogram := p.sc.cpCryptogram }
    id := q.id, cap := q.cap, peerRx := q.peerRx, address := q.address, baudRate := q.baudRate
    reqEventSend := q.reqEventSend, reqOffline := q.reqOffline, file := q.file }

theorem Heard.trans {p q s : Pd} (h : Heard p q) (h' : Heard q s) : Heard p s := by
  unfold Heard at h h' ⊢
  rw [h', h]

theorem heard_transp {p q : Pd} (h : Transp p q) : Heard p q := by
  unfold Transp Phy.upd Phy.chgOf at h
  unfold Heard
  rw [h]

theorem heard_effect {C : Cipher} {p q : Pd} {env : Env} {body : List Byte} {outs : List Out} {rc : CpErr}
    (h : Effect C p env body q outs rc) : Heard p q := by
  cases h with
  | ccrypt sc u v w _ _ _ _ hsc => subst hsc; rfl
  | pdcap _ _ => rfl
  | _ => rfl

theorem Reply.heard {C : Cipher} {p q : Pd} {env : Env} {outs : List Out} {rc : CpErr} (h : Reply C p env q outs rc) :
    Heard p q := by
  cases h with
  | nothing _ hc _ => exact heard_transp hc.transp
  | bad _ hc _ => exact heard_transp hc.transp
  | busy _ hc => exact heard_transp hc.transp
  | seq _ hc => exact heard_transp hc.transp
  | refused _ hc _ hd _ => exact heard_transp (hc.transp.trans hd.transp)
  | reply _ hc _ hd _ _ _ _ _ he =>
    refine (heard_transp (hc.transp.trans hd.transp)).trans (Heard.trans ?_ (heard_effect he))
    rfl

/-- the members that only the CP's second state machine changes -/
theorem Heard.keeps {p q : Pd} (h : Heard p q) : q.state = p.state ∧ q.phyState = p.phyState ∧ q.cmdId = p.cmdId ∧
    q.cmdQueue = p.cmdQueue ∧ q.retryCount = p.retryCount ∧ q.phyTstamp = p.phyTstamp ∧ q.waitMs = p.waitMs ∧
    q.reqRestartSc = p.reqRestartSc ∧ q.flags.pdMode = p.flags.pdMode ∧ q.hasFlush = p.hasFlush := by
  unfold Heard at h
  rw [h]
  exact ⟨rfl, rfl, rfl, rfl, rfl, rfl, rfl, rfl, rfl, rfl⟩

theorem effect_seq {C : Cipher} {p q : Pd} {env : Env} {body : List Byte} {outs : List Out} {rc : CpErr}
    (h : Effect C p env body q outs rc) : q.seq = p.seq ∧ q.flags.scActive = p.flags.scActive := by
  cases h <;> exact ⟨rfl, rfl⟩

/-- the sequence number: only a BUSY outside the sequence steps it back -/
theorem Reply.seqNo {C : Cipher} {p q : Pd} {env : Env} {outs : List Out} {rc : CpErr} (h : Reply C p env q outs rc)
    (hp : p.flags.pdMode = false) :
    q.seq = p.seq ∨ (q.seq = p.seq - 1 ∧ rc = .retryCmd ∧ outs = [] ∧ Phy.checkPacket p env = .ok (q, .busy)) := by
  cases h with
  | nothing _ hc _ => exact .inl hc.seq
  | bad _ hc _ => exact .inl hc.seq
  | busy h hc => exact .inr ⟨(hc.cp hp).1, rfl, rfl, h⟩
  | seq _ hc => exact .inl ((hc.cp hp).1.trans (if_neg (by simp)))
  | refused _ hc _ hd _ => exact .inl (hd.seq.trans ((hc.cp hp).1.trans (if_neg (by simp))))
  | reply _ hc _ hd _ _ _ _ _ he =>
    exact .inl ((effect_seq he).1.trans (hd.seq.trans ((hc.cp hp).1.trans (if_neg (by simp)))))

/-- a reply may end the secure channel, never open it -/
theorem Reply.scActive {C : Cipher} {p q : Pd} {env : Env} {outs : List Out} {rc : CpErr} (h : Reply C p env q outs rc) :
    q.flags.scActive = true → p.flags.scActive = true := by
  cases h with
  | nothing _ hc _ => exact fun h => hc.scActive ▸ h
  | bad _ hc _ => exact fun h => hc.scActive ▸ h
  | busy _ hc => exact hc.scActive
  | seq _ hc => exact hc.scActive
  | refused _ hc _ hd _ => exact fun h => hc.scActive (hd.scActive h)
  | reply _ hc _ hd _ _ _ _ _ he => exact fun h => hc.scActive (hd.scActive ((effect_seq he).2 ▸ h))

/-! ### choosing a command -/

/-- the commands of each state -/
def CmdOf : CpState → Nat → Prop
  | .init, id => id = Id.ID
  | .capdet, id => id = Id.CAP
  | .scChlng, id => id = Id.CHLNG
  | .scScrypt, id => id = Id.SCRYPT
  | .setScbk, id => id = Id.KEYSET
  | .online, id => id ∈ [Id.POLL, Id.LSTAT, Id.ISTAT, Id.OSTAT, Id.RSTAT, Id.OUT, Id.LED, Id.BUZ, Id.TEXT, Id.COMSET,
      Id.KEYSET, Id.MFG, Id.FILETRANSFER, Id.ABORT]
  | _, _ => False

/-- what choosing a command leaves alone -/
def Chosen (p q : Pd) : Prop :=
  q = { p with cmdQueue := q.cmdQueue, eph := q.eph, file := q.file, tstamp := q.tstamp }

theorem translate_inv {p q : Pd} {c : Cmd} {id : Nat} (h : translate p c = .ok (q, id)) :
    q = { p with eph := .cmd c } ∧ (0 < id → CmdOf .online id) := by
  unfold translate at h
  dsimp only at h
  cases c with
  | status s =>
    dsimp only at h
    cases hs : s.type <;> rw [hs] at h <;> injection h with h <;> injection h with h1 h2 <;> subst h1 h2 <;>
      exact ⟨rfl, fun _ => by unfold CmdOf; first | decide | contradiction⟩
  | keyset k =>
    dsimp only at h
    split at h <;> injection h with h <;> injection h with h1 h2 <;> subst h1 h2 <;>
      exact ⟨rfl, fun _ => by unfold CmdOf; first | decide | contradiction⟩
  | fileTx f => cases h
  | bad n => cases h
  | _ =>
    injection h with h; injection h with h1 h2; subst h1 h2
    exact ⟨rfl, fun _ => by unfold CmdOf; decide⟩

theorem getCommand_inv {file f : Option FileSt} {now : Int} {outs : List Out} {n : File.Next}
    (h : File.getCommand file now = (f, outs, n)) :
    (∀ o ∈ outs, o = Out.fclose) ∧ ∀ id, n = .send id → id = Id.ABORT ∨ id = Id.POLL ∨ id = Id.FILETRANSFER := by
  unfold File.getCommand at h
  split at h
  · injection h with h1 h; injection h with h2 h3; subst h1 h2 h3
    exact ⟨by simp, fun id hid => by cases hid⟩
  split at h
  · injection h with h1 h; injection h with h2 h3; subst h1 h2 h3
    exact ⟨by simp, fun id hid => by cases hid⟩
  split at h
  · unfold File.abort at h
    dsimp only at h
    split at h <;>
    · injection h with h1 h; injection h with h2 h3; subst h1 h2 h3
      exact ⟨by simp, fun id hid => by cases hid; exact .inl rfl⟩
  split at h
  · injection h with h1 h; injection h with h2 h3; subst h1 h2 h3
    refine ⟨by simp, fun id hid => ?_⟩
    split at hid <;> cases hid
  split at h
  · injection h with h1 h; injection h with h2 h3; subst h1 h2 h3
    exact ⟨by simp, fun id hid => by cases hid; exact .inr (.inl rfl)⟩
  · injection h with h1 h; injection h with h2 h3; subst h1 h2 h3
    exact ⟨by simp, fun id hid => by cases hid; exact .inr (.inr rfl)⟩

theorem stateGetCmd_inv {p q : Pd} {env : Env} {outs : List Out} {id : Nat} (h : stateGetCmd p env = .ok (q, outs, id)) :
    Chosen p q ∧ (0 < id → CmdOf p.state id) ∧ (∀ o ∈ outs, o = Out.fclose) ∧
    (p.state ≠ .online → q = p ∧ outs = []) := by
  have simple : ∀ n : Nat, Except.ok (p, ([] : List Out), n) = (Except.ok (q, outs, id) : Res _) → (0 < n → CmdOf p.state n) →
      Chosen p q ∧ (0 < id → CmdOf p.state id) ∧ (∀ o ∈ outs, o = Out.fclose) ∧ (p.state ≠ .online → q = p ∧ outs = []) := by
    intro n h hn
    injection h with h; injection h with h1 h; injection h with h2 h3; subst h1 h2 h3
    exact ⟨rfl, hn, by simp, fun _ => ⟨rfl, rfl⟩⟩
  unfold stateGetCmd at h
  cases hs : p.state with
  | init => rw [hs] at h; have := simple _ h (fun _ => by rw [hs]; rfl); rwa [hs] at this
  | capdet => rw [hs] at h; have := simple _ h (fun _ => by rw [hs]; rfl); rwa [hs] at this
  | scChlng => rw [hs] at h; have := simple _ h (fun _ => by rw [hs]; rfl); rwa [hs] at this
  | scScrypt => rw [hs] at h; have := simple _ h (fun _ => by rw [hs]; rfl); rwa [hs] at this
  | setScbk => rw [hs] at h; have := simple _ h (fun _ => by rw [hs]; rfl); rwa [hs] at this
  | probe => rw [hs] at h; have := simple _ h (fun h => by cases h); rwa [hs] at this
  | offline => rw [hs] at h; have := simple _ h (fun h => by cases h); rwa [hs] at this
  | online =>
    rw [hs] at h
    dsimp only at h
    unfold onlineCommand at h
    refine (fun x => ⟨x.1, x.2.1, x.2.2, fun hn => absurd rfl hn⟩ : _ ∧ _ ∧ _ → _) ?_
    split at h
    · obtain ⟨⟨p1, n⟩, h1, h⟩ := Res.bind_eq_ok.mp h
      injection h with h; injection h with e1 h; injection h with e2 e3; subst e1 e2 e3
      obtain ⟨rfl, hn⟩ := translate_inv h1
      exact ⟨rfl, hn, by simp⟩
    · cases hg : File.getCommand p.file env.now with
      | mk f x =>
      cases x with
      | mk o n =>
      rw [hg] at h
      obtain ⟨ho, hn⟩ := getCommand_inv hg
      cases n with
      | send k =>
        injection h with h; injection h with e1 h; injection h with e2 e3; subst e1 e2 e3
        refine ⟨rfl, fun _ => ?_, ho⟩
        rcases hn k rfl with rfl | rfl | rfl <;> (unfold CmdOf; decide)
      | hold =>
        injection h with h; injection h with e1 h; injection h with e2 e3; subst e1 e2 e3
        exact ⟨rfl, (fun h => by cases h), ho⟩
      | nothing =>
        dsimp only at h
        split at h <;> injection h with h <;> injection h with e1 h <;> injection h with e2 e3 <;> subst e1 e2 e3
        · exact ⟨rfl, fun _ => by unfold CmdOf; decide, ho⟩
        · exact ⟨rfl, (fun h => by cases h), ho⟩

/-! ### judging a reply and choosing the next state -/

/-- what judging a reply leaves alone -/
def Judged (p q : Pd) : Prop :=
  q = { p with flags := { p.flags with scActive := q.flags.scActive, useScbkd := q.flags.useScbkd }
               sc := { p.sc with scbk := q.sc.scbk }, reqRestartSc := q.reqRestartSc }

/-- `cp_keyset_complete` -/
theorem keysetComplete_inv {cb : Bool} {p q : Pd} {outs : List Out} (h : keysetComplete cb p = .ok (q, outs)) :
    ∃ k, (p.flags.useScbkd = true ∧ k = p.sc.scbk ∨ p.flags.useScbkd = false ∧ ∃ c, p.eph = .cmd (.keyset c) ∧
        k.1 = c.data.1.take 16) ∧
      q = { p with flags := { p.flags with scActive := false, useScbkd := false }, sc := { p.sc with scbk := k }
                   reqRestartSc := if p.state = .online then true else p.reqRestartSc } ∧
      outs = notify cb p .scStatus 0 0 := by
  unfold keysetComplete at h
  cases hu : p.flags.useScbkd with
  | true =>
    rw [hu] at h
    refine ⟨p.sc.scbk, .inl ⟨rfl, rfl⟩, ?_⟩
    dsimp only at h
    rw [if_neg (by simp)] at h
    injection h with h; injection h with h1 h2; subst h1 h2
    refine ⟨?_, rfl⟩
    unfold Pd.scDeactivate
    dsimp only
    by_cases hs : p.state = .online
    · rw [if_pos hs, if_pos hs]
    · rw [if_neg hs, if_neg hs]
  | false =>
    rw [hu] at h
    dsimp only at h
    rw [if_pos (by simp)] at h
    split at h
    · rename_i c he
      refine ⟨⟨c.data.1.take 16, by simp [c.data.2]⟩, .inr ⟨rfl, c, he, rfl⟩, ?_⟩
      injection h with h; injection h with h1 h2; subst h1 h2
      refine ⟨?_, ?_⟩
      · unfold Pd.scDeactivate
        dsimp only
        by_cases hs : p.state = .online
        · rw [if_pos hs, if_pos hs]
          congr 1
          cases hf : p.flags; rw [hf] at hu; cases hu; rfl
        · rw [if_neg hs, if_neg hs]
          congr 1
          cases hf : p.flags; rw [hf] at hu; cases hu; rfl
      · unfold notifyScStatus notify Pd.scDeactivate Pd.scActive
        dsimp only
        rw [hu]; rfl
    · cases h

end Osdp.CpM
