import Verif.Lemmas.CpSend

/-! # The CP receives a reply -/

namespace Osdp.CpM

open Phy (checkPacket decodePacket Transp Collected Checked DecodedTo Decoded)

/-- the reply ids that carry an event -/
def eventIds : List Nat := [Id.OSTATR, Id.ISTATR, Id.LSTATR, Id.RSTATR, Id.KEYPAD, Id.RAW, Id.MFGREP]

/-- the effect of a reply with id `p.replyId` and the bytes `body` after the id -/
inductive Effect (C : Cipher) (p : Pd) (env : Env) (body : List Byte) : Pd → List Out → CpErr → Prop
  | taken : p.replyId = Id.ACK ∧ body = [] ∨ p.replyId = Id.NAK ∧ body.length = 1 ∨ p.replyId = 0x51 →
      Effect C p env body p [] .none
  | malformed : Effect C p env body p [] .generic
  | unknown : p.replyId ≠ Id.ACK → p.replyId ≠ Id.NAK → p.replyId ∉ eventIds → Effect C p env body p [] .unknown
  | busy : p.replyId = Id.BUSY → body = [] → Effect C p env body p [] .retryCmd
  | pdid (i : PdId) : p.replyId = Id.PDID → pdid body = some i → Effect C p env body { p with id := i } [] .none
  | pdcap : p.replyId = Id.PDCAP → body.length % 3 = 0 → Effect C p env body (pdcap p body) [] .none
  | event (e : Event) : p.replyId ∈ eventIds → Effect C p env body (event p e) [] .none
  | com (a b0 b1 b2 b3 : Byte) : p.replyId = Id.COM → body = [a, b0, b1, b2, b3] →
      Effect C p env body { p with address := a.toNat, baudRate := ofLe32i [b0, b1, b2, b3] } [] .none
  | file (r : File.Result) : p.replyId = Id.FTSTAT → File.statDecode p.file env body = .ok r →
      Effect C p env body { p with file := r.file, reqOffline := p.reqOffline || r.offline } r.outs
        (if r.ok then .none else .generic)
  | ccrypt (sc : Sc) (u v : Half) (w : Block) : p.replyId = Id.CCRYPT → p.scActive = false → p.cmdId = Id.CHLNG →
      body = u.1 ++ v.1 ++ w.1 →
      sc = Sc.sessionKeys C p.flags.useScbkd { p.sc with pdClientUid := u, pdRandom := v, pdCryptogram := w } →
      Effect C p env body { p with sc := sc } [] (if Sc.verifyPdCryptogram C sc then .none else .generic)
  | rmac (m : Block) : p.replyId = Id.RMAC_I → p.scActive = false → p.cmdId = Id.SCRYPT → body = m.1 →
      Effect C p env body { p with sc := { p.sc with rMac := m } } [] .none

theorem response_effect {C : Cipher} {p q : Pd} {env : Env} {body : List Byte} {outs : List Out} {rc : CpErr}
    (h : response C p env body = .ok (q, outs, rc)) : Effect C p env body q outs rc := by
  have fin : ∀ {a : Pd} {o : List Out} {r : CpErr}, Effect C p env body a o r → Except.ok (a, o, r) = (Except.ok (q, outs, rc) : Res _) →
      Effect C p env body q outs rc := by
    intro a o r he h
    injection h with h; injection h with h1 h; injection h with h2 h3; subst h1 h2 h3
    exact he
  have ev : ∀ (e : Event) {n : Nat}, p.replyId = n → n ∈ eventIds → Effect C p env body (event p e) [] .none :=
    fun e n hn hm => .event e (hn ▸ hm)
  unfold response at h
  dsimp only at h
  replace h := ite_inv h
  rcases h with ⟨hid, h⟩ | ⟨hack, h⟩
  · split at h
    · exact fin .malformed h
    · rename_i hb; exact fin (.taken (.inl ⟨hid, Decidable.not_not.mp hb⟩)) h
  replace h := ite_inv h
  rcases h with ⟨hid, h⟩ | ⟨hnak, h⟩
  · split at h
    · exact fin .malformed h
    · rename_i hb; exact fin (.taken (.inr (.inl ⟨hid, Decidable.not_not.mp hb⟩))) h
  replace h := ite_inv h
  rcases h with ⟨hid, h⟩ | ⟨-, h⟩
  · split at h
    · exact fin .malformed h
    · rename_i i hi; exact fin (.pdid i hid hi) h
  replace h := ite_inv h
  rcases h with ⟨hid, h⟩ | ⟨-, h⟩
  · split at h
    · exact fin .malformed h
    · rename_i hb; exact fin (.pdcap hid (by omega)) h
  replace h := ite_inv h
  rcases h with ⟨hid, h⟩ | ⟨n1, h⟩
  · split at h
    · exact fin .malformed h
    · exact fin (ev _ hid (by decide)) h
  replace h := ite_inv h
  rcases h with ⟨hid, h⟩ | ⟨n2, h⟩
  · split at h
    · exact fin .malformed h
    · exact fin (ev _ hid (by decide)) h
  replace h := ite_inv h
  rcases h with ⟨hid, h⟩ | ⟨n3, h⟩
  · split at h
    · exact fin .malformed h
    · exact fin (ev _ hid (by decide)) h
  replace h := ite_inv h
  rcases h with ⟨hid, h⟩ | ⟨n4, h⟩
  · split at h
    · exact fin .malformed h
    · exact fin (ev _ hid (by decide)) h
  replace h := ite_inv h
  rcases h with ⟨hid, h⟩ | ⟨-, h⟩
  · split at h
    · rename_i a b0 b1 b2 b3; exact fin (.com a b0 b1 b2 b3 hid rfl) h
    · exact fin .malformed h
  replace h := ite_inv h
  rcases h with ⟨hid, h⟩ | ⟨n5, h⟩
  · split at h
    · split at h
      · exact fin .malformed h
      · obtain ⟨d, -, h⟩ := Res.bind_eq_ok.mp h
        exact fin (ev _ hid (by decide)) h
    · exact fin .malformed h
  replace h := ite_inv h
  rcases h with ⟨hid, h⟩ | ⟨n6, h⟩
  · split at h
    · split at h
      · exact fin .malformed h
      · obtain ⟨d, -, h⟩ := Res.bind_eq_ok.mp h
        exact fin (ev _ hid (by decide)) h
    · exact fin .malformed h
  replace h := ite_inv h
  rcases h with ⟨hid, h⟩ | ⟨-, h⟩
  · exact fin (.taken (.inr (.inr hid))) h
  replace h := ite_inv h
  rcases h with ⟨hid, h⟩ | ⟨-, h⟩
  · split at h
    · exact fin .malformed h
    · rename_i hb; exact fin (.busy hid (Decidable.not_not.mp hb)) h
  replace h := ite_inv h
  rcases h with ⟨hid, h⟩ | ⟨n7, h⟩
  · split at h
    · split at h
      · exact fin .malformed h
      · exact fin (ev _ hid (by decide)) h
    · exact fin .malformed h
  replace h := ite_inv h
  rcases h with ⟨hid, h⟩ | ⟨-, h⟩
  · obtain ⟨r, hr, h⟩ := Res.bind_eq_ok.mp h
    exact fin (.file r hid hr) h
  replace h := ite_inv h
  rcases h with ⟨hid, h⟩ | ⟨-, h⟩
  · split at h
    · exact fin .malformed h
    · rename_i hn
      split at h
      · exact fin .malformed h
      · rename_i hl
        have hl : body.length = 32 := Decidable.not_not.mp hl
        refine fin (.ccrypt _ ⟨body.take 8, by simp; omega⟩ ⟨(body.drop 8).take 8, by simp; omega⟩
          ⟨body.drop 16, by simp; omega⟩ hid (by simpa using fun h => hn (.inl h))
          (Decidable.not_not.mp fun h => hn (.inr h)) ?_ rfl) h
        show body = body.take 8 ++ (body.drop 8).take 8 ++ body.drop 16
        rw [← List.take_add, List.take_append_drop]
  replace h := ite_inv h
  rcases h with ⟨hid, h⟩ | ⟨-, h⟩
  · split at h
    · exact fin .malformed h
    · rename_i hn
      split at h
      · exact fin .malformed h
      · rename_i hl
        have hl : body.length = 16 := Decidable.not_not.mp hl
        exact fin (.rmac ⟨body, by omega⟩ hid (by simpa using fun h => hn (.inl h))
          (Decidable.not_not.mp fun h => hn (.inr h)) rfl) h
  · exact fin (.unknown hack hnak (by simp [eventIds, n1, n2, n3, n4, n5, n6, n7])) h

/-- All outcomes of `cp_process_reply`. -/
inductive Reply (C : Cipher) (p : Pd) (env : Env) : Pd → List Out → CpErr → Prop
  /-- no (complete) packet -/
  | nothing {q : Pd} {r : Phy.PktRet} : checkPacket p env = .ok (q, r) → Collected p q → r = .noData ∨ r = .wait →
      Reply C p env q [] .noData
  /-- an unusable packet, or one of another device -/
  | bad {q : Pd} {r : Phy.PktRet} : checkPacket p env = .ok (q, r) → Collected p q → r = .fmt ∨ r = .check ∨ r = .skip →
      Reply C p env q [] .generic
  /-- a BUSY reply outside the sequence -/
  | busy {q : Pd} : checkPacket p env = .ok (q, .busy) → Checked p q .busy → Reply C p env q [] .retryCmd
  /-- wrong sequence number -/
  | seq {q : Pd} : checkPacket p env = .ok (q, .nack) → Checked p q .nack → Reply C p env q [] .generic
  /-- a packet that cannot be decoded, or empty -/
  | refused {p1 q : Pd} {d : Decoded} : checkPacket p env = .ok (p1, .none) → Checked p p1 .none →
      decodePacket C p1 = .ok (q, d) → DecodedTo p1 q d → d.len ≤ 0 → Reply C p env q [] .generic
  | reply {p1 p2 q : Pd} {d : Decoded} {id : Byte} {body : List Byte} {outs : List Out} {rc : CpErr} :
      checkPacket p env = .ok (p1, .none) → Checked p p1 .none →
      decodePacket C p1 = .ok (p2, d) → DecodedTo p1 p2 d → 0 < d.len →
      d.data[0]? = some id → d.len.toNat ≤ d.data.length → body = (d.data.take d.len.toNat).drop 1 →
      response C { p2 with replyId := id.toNat } env body = .ok (q, outs, rc) →
      Effect C { p2 with replyId := id.toNat } env body q outs rc → Reply C p env q outs rc

theorem processReply_inv {C : Cipher} {p q : Pd} {env : Env} {outs : List Out} {rc : CpErr}
    (h : processReply C p env = .ok (q, outs, rc)) : Reply C p env q outs rc := by
  unfold processReply at h
  obtain ⟨⟨p1, r⟩, h1, h⟩ := Res.bind_eq_ok.mp h
  have hc := Phy.checkPacket_checked h1
  cases r with
  | none =>
    obtain ⟨⟨p2, d⟩, h2, h⟩ := Res.bind_eq_ok.mp h
    have hd := Phy.decodePacket_to h2
    dsimp only at h
    split at h
    · rename_i hl
      injection h with h; injection h with e1 h; injection h with e2 e3; subst e1 e2 e3
      exact .refused h1 hc h2 hd hl
    · rename_i hl
      unfold decodeResponse at h
      obtain ⟨id, hid, h⟩ := Res.bind_eq_ok.mp h
      have hid' := rd_some hid
      split at h
      · cases h
      · rename_i hlen
        exact .reply h1 hc h2 hd (by omega) hid' (by omega) rfl h (response_effect h)
  | nack =>
    injection h with h; injection h with e1 h; injection h with e2 e3; subst e1 e2 e3
    exact .seq h1 hc
  | busy =>
    injection h with h; injection h with e1 h; injection h with e2 e3; subst e1 e2 e3
    exact .busy h1 hc
  | skip =>
    injection h with h; injection h with e1 h; injection h with e2 e3; subst e1 e2 e3
    exact .bad h1 (hc.early (by simp) (by simp) (by simp)) (by simp)
  | noData =>
    injection h with h; injection h with e1 h; injection h with e2 e3; subst e1 e2 e3
    exact .nothing h1 (hc.early (by simp) (by simp) (by simp)) (by simp)
  | wait =>
    injection h with h; injection h with e1 h; injection h with e2 e3; subst e1 e2 e3
    exact .nothing h1 (hc.early (by simp) (by simp) (by simp)) (by simp)
  | fmt =>
    injection h with h; injection h with e1 h; injection h with e2 e3; subst e1 e2 e3
    exact .bad h1 (hc.early (by simp) (by simp) (by simp)) (by simp)
  | check =>
    injection h with h; injection h with e1 h; injection h with e2 e3; subst e1 e2 e3
    exact .bad h1 (hc.early (by simp) (by simp) (by simp)) (by simp)

/-! ### one step of the CP for one PD -/

/-- Waiting for the reply (`phyState = replyWait`). -/
inductive Waited (C : Cipher) (p : Pd) (env : Env) : Pd → List Out → CpErr → Prop
  /-- the reply came -/
  | answered {q : Pd} {outs : List Out} : Reply C p env q outs .none →
      Waited C p env { q with tstamp := env.now, scTstamp := if q.scActive then env.now else q.scTstamp, phyState := .done }
        outs .none
  /-- an unknown reply to a POLL, to be ignored -/
  | ignored {q : Pd} {outs : List Out} : Reply C p env q outs .unknown → q.cmdId = Id.POLL → q.flags.ignUnsolicited = true →
      Waited C p env { q with scTstamp := if q.scActive then env.now else q.scTstamp, phyState := .done } outs .none
  /-- an unusable reply -/
  | failed {q : Pd} {outs : List Out} {rc : CpErr} : Reply C p env q outs rc → rc = .generic ∨ rc = .unknown →
      Waited C p env { q with phyState := .err } outs .generic
  | busy {q : Pd} {outs : List Out} : Reply C p env q outs .retryCmd →
      Waited C p env { q with phyTstamp := env.now, waitMs := CMD_RETRY_WAIT, phyState := .wait } outs .canYield
  /-- no reply in time: try again -/
  | retry {q : Pd} {outs : List Out} : Reply C p env q outs .noData → env.now - q.phyTstamp > PdM.RESP_TOUT →
      q.retryCount < CMD_MAX_RETRIES →
      Waited C p env { q with waitMs := CMD_RETRY_WAIT, phyState := .wait, retryCount := q.retryCount + 1,
                              phyTstamp := env.now } outs .canYield
  /-- no reply in time, too often -/
  | exhausted {q : Pd} {outs : List Out} : Reply C p env q outs .noData → env.now - q.phyTstamp > PdM.RESP_TOUT →
      ¬ q.retryCount < CMD_MAX_RETRIES → Waited C p env { q with phyState := .err } outs .generic
  | waiting {q : Pd} {outs : List Out} : Reply C p env q outs .noData → ¬ env.now - q.phyTstamp > PdM.RESP_TOUT →
      Waited C p env q outs .inprog

theorem Reply.rc {C : Cipher} {p q : Pd} {env : Env} {outs : List Out} {rc : CpErr} (h : Reply C p env q outs rc) :
    rc = .none ∨ rc = .generic ∨ rc = .unknown ∨ rc = .retryCmd ∨ rc = .noData := by
  cases h with
  | reply _ _ _ _ _ _ _ _ _ he =>
    cases he <;> (try split) <;> simp
  | _ => simp

theorem phyReply_inv {C : Cipher} {p q : Pd} {env : Env} {outs : List Out} {rc : CpErr}
    (h : phyReply C p env = .ok (q, outs, rc)) : Waited C p env q outs rc := by
  unfold phyReply at h
  obtain ⟨⟨p1, o1, r⟩, h1, h⟩ := Res.bind_eq_ok.mp h
  have hr := processReply_inv h1
  have fin : ∀ {a : Pd} {o : List Out} {r' : CpErr}, Waited C p env a o r' → Except.ok (a, o, r') = (Except.ok (q, outs, rc) : Res _) →
      Waited C p env q outs rc := by
    intro a o r' he h
    injection h with h; injection h with h1 h; injection h with h2 h3; subst h1 h2 h3
    exact he
  replace h := ite_inv h
  rcases h with ⟨hn, h⟩ | ⟨hn, h⟩
  · subst hn; exact fin (.answered hr) h
  replace h := ite_inv h
  rcases h with ⟨⟨h1, h2, h3⟩, h⟩ | ⟨hu, h⟩
  · subst h1; exact fin (.ignored hr h2 h3) h
  replace h := ite_inv h
  rcases h with ⟨hg, h⟩ | ⟨hg, h⟩
  · exact fin (.failed hr hg) h
  replace h := ite_inv h
  rcases h with ⟨hb, h⟩ | ⟨hb, h⟩
  · subst hb; exact fin (.busy hr) h
  have : r = .noData := by
    rcases hr.rc with h | h | h | h | h
    · exact absurd h hn
    · exact absurd (.inl h) hg
    · exact absurd (.inr h) hg
    · exact absurd h hb
    · exact h
  subst this
  replace h := ite_inv h
  rcases h with ⟨ht, h⟩ | ⟨ht, h⟩
  · replace h := ite_inv h
    rcases h with ⟨hc, h⟩ | ⟨hc, h⟩
    · exact fin (.retry hr ht hc) h
    · exact fin (.exhausted hr ht hc) h
  · exact fin (.waiting hr ht) h

end Osdp.CpM
