import Verif.Lemmas.System
import Verif.Lemmas.PdKind
import Verif.Props.C59
import Verif.Lemmas.PdFits
import Verif.Lemmas.PdHear
import Verif.Lemmas.PdEffect
import Verif.Lemmas.CpSess

/-! # One exchange between a CP and its PD, as the two state machines carry it out -/

namespace Osdp

theorem Phy.dataOf_any {C : Cipher} {p q : Pd} {t : Phy.Tx} {data wire : List Byte} (h : Phy.DataOf C p t data wire q)
    (hs : p.scActive = true → Phy.Secured p t) (hlen : (Phy.pktOf t wire).bytes.length ≤ 256) :
    wire = Phy.anyData C p t data ∧ q = Phy.setSc p (Phy.anySc C p t data) := by
  unfold Phy.anyData Phy.anySc
  cases ha : p.scActive with
  | false =>
    obtain ⟨h1, h2⟩ := h.plain fun h => by rw [h.1] at ha; cases ha
    rw [if_neg (by simp), if_neg (by simp)]
    exact ⟨h1, h2⟩
  | true =>
    rw [if_pos rfl, if_pos rfl]
    obtain ⟨body, sc, hb, hw, hm, hq⟩ := h.secured (hs ha)
    have hb' : body = Phy.cipherData C p t data := by
      rw [hb]; unfold Phy.cipherData
      by_cases he : t.encrypted = true
      · rw [if_pos he, if_pos ((Phy.encrypted_iff t).mp he)]
      · rw [if_neg he, if_neg fun h => he ((Phy.encrypted_iff t).mpr h)]
    have htag : ((if p.isCp then sc.cMac else sc.rMac).1.take 4).length = 4 := by
      rw [List.length_take, (if p.isCp then sc.cMac else sc.rMac).2]; rfl
    have hml : (Phy.macMsg t body).length = 5 + t.scb.length + body.length := by
      unfold Phy.macMsg; simp [Phy.header]; omega
    have hcore : (Phy.pktOf t wire).core.take (5 + t.scb.length + body.length) = Phy.macMsg t body := by
      rw [hw, ← Phy.macMsg_core t body _ htag, ← hml, List.take_left']
      rfl
    have hl : (Phy.macMsg t body).length ≤ 256 := by
      have h1 := Phy.bytes_length (Phy.pktOf t wire)
      have h2 : (Phy.pktOf t wire).len = 5 + t.scb.length + wire.length + 2 := rfl
      have h3 := congrArg List.length hw
      rw [List.length_append, htag] at h3
      omega
    have hne : Phy.macMsg t body ≠ [] := by unfold Phy.macMsg; simp [Phy.header]
    rw [hcore] at hm
    have hsc : sc = Phy.chainSc C p t data := by
      unfold Phy.chainSc Phy.tagOf
      rw [← hb']
      cases hcp : p.isCp with
      | true =>
        rw [hcp, computeMac_cmd hne hl] at hm
        injection hm with hm; exact hm.symm
      | false =>
        rw [hcp, computeMac_reply hne hl] at hm
        injection hm with hm; exact hm.symm
    refine ⟨?_, by rw [hq, hsc]⟩
    rw [hw, hsc]
    unfold Phy.securedData Phy.chainSc
    rw [hb']
    cases p.isCp <;> rfl

namespace Link

open Spec.Wire
open Phy (Idle Arrives pktAddr pdAccept reload Held pktOf sendOuts anyData anySc Tx setSc SameSession)
open CpM (nextCmd cmdTx sentState commandBody)
open PdM (pdTx Holding ForUs commanded unbc replyTx replyBody bodyOr bodyLen touch expire)

/-- the command the CP is about to send: id and data -/
def commandBuilt (C : Cipher) (cp : Pd) (env : Env) : Option (List Byte) :=
  match commandBody C (nextCmd cp) env (cmdTx cp) (cp.txBufSize - (cmdTx cp).dataOff) with
  | .ok b => b.body
  | .error _ => none

/-- the reply the PD composes in a refresh: id and data -/
def replyBuilt (C : Cipher) (pd : Pd) (env : Env) : Option (List Byte) :=
  match PdM.receiveAndProcess C (expire pd env.now) env with
  | .ok (p, _, ret) =>
    match replyBody C (unbc (touch p ret env.now)) env (replyTx (touch p ret env.now)) ((touch p ret env.now).txBufSize - (replyTx (touch p ret env.now)).dataOff) with
    | .ok b => some (bodyOr b.body)
    | .error _ => none
  | .error _ => none

theorem sent_fread {outs : List Out} (h : ∀ o ∈ outs, ∃ n off, o = Out.fread n off) : Spec.Wire.sent outs = [] := by
  induction outs with
  | nil => rfl
  | cons o l ih =>
    obtain ⟨n, off, rfl⟩ := h o (by simp)
    exact ih fun o ho => h o (by simp [ho])

theorem cpTx_final {cp : Pd} (f : Option FileSt) (n : Nat) (hh : Phy.inHandshake false cp.cmdId = false) :
    CpM.finalTx (cmdTx cp) { nextCmd cp with file := f } n = cpTx cp n := by
  unfold CpM.finalTx cmdTx cpTx
  have : Pd.scActive { nextCmd cp with file := f } = cp.scActive := rfl
  rw [hh, this]
  cases hsc : cp.scActive <;> simp

theorem cpTx_secured {cp : Pd} (n : Nat) (h : cp.scActive = true) : Phy.Secured cp (cpTx cp n) := by
  obtain ⟨-, -, c3⟩ := ctl_cases cp.scActive (Phy.nextSeq cp.seq true) (cpTx cp n).ctl rfl
  exact ⟨h, c3.trans h, if n > 1 then 0x17#8 else 0x15#8, by unfold cpTx; rw [h]; rfl, by split <;> decide⟩

theorem outcome_sent {C : Cipher} {cp p1 : Pd} {env : Env} {o : List Out} {ok : Bool}
    (hh : cp.cmdId ≠ Id.CHLNG ∧ cp.cmdId ≠ Id.SCRYPT) (ho : CpM.SendOutcome C cp env p1 o ok) (hcap : 256 ≤ env.sendCap)
    (hs : sent o ≠ []) :
    ok = true ∧ ∃ f buf body, commandBuilt C cp env = some body ∧ body ≠ [] ∧ sent o = [(cpPkt C cp body).bytes] ∧
      (cpPkt C cp body).bytes.length ≤ 256 ∧
      p1 = { nextCmd cp with file := f, sc := anySc C cp (cpTx cp body.length) body, packetBuf := buf } ∧
      buf.length = cp.packetBuf.length := by
  have hhs : Phy.inHandshake false cp.cmdId = false := by
    unfold Phy.inHandshake; simp [hh.1, hh.2]
  have hle : cp.txBufSize ≤ 256 := by unfold Pd.txBufSize; split <;> omega
  cases ho with
  | mute _ => exact absurd rfl hs
  | unbuilt b _ _ ho _ => exact absurd (sent_fread ho.outs) hs
  | built b l _ outs _ hm hb ho hl hne hsend hw hbuf =>
    have hb0 : sent b.outs = [] := sent_fread ho.outs
    rw [CpM.sent_append, hb0, List.nil_append] at hs ⊢
    rcases hw with ⟨rfl, -⟩ | ⟨wire, q', hmis, hd, hsc, hfit, rfl, hok⟩
    · exact absurd rfl hs
    · have hform : ∃ f, b.p = { nextCmd cp with file := f } ∧ b.t = cmdTx cp := by
        cases ho with
        | same body => exact ⟨cp.file, rfl, rfl⟩
        | unbuilt h => exact h.elim (absurd · hh.1) (absurd · hh.2)
        | file f => exact ⟨f, rfl, rfl⟩
        | chlng h => exact absurd h hh.1
        | scrypt _ h => exact absurd h hh.2
      obtain ⟨f, hbp, hbt⟩ := hform
      have htx : CpM.finalTx b.t b.p l.length = cpTx cp l.length := by rw [hbp, hbt]; exact cpTx_final f _ hhs
      unfold CpM.cmdPkt at hfit hok ⊢
      rw [htx] at hd hfit hok ⊢
      have hact : b.p.scActive = cp.scActive := by rw [hbp]; rfl
      obtain ⟨w1, w2⟩ := Phy.dataOf_any hd (fun h => by
        obtain ⟨s1, s2⟩ := cpTx_secured l.length (hact.symm.trans h)
        exact ⟨h, s2⟩) (Nat.le_trans hfit hle)
      obtain ⟨a1, a2⟩ := PdM.anyData_congr (C := C) (p := b.p) (q := cp) (cpTx cp l.length) l (by rw [hbp]; rfl) (by rw [hbp]; rfl) (by rw [hbp]; rfl)
      rw [a1] at w1
      subst w1
      refine ⟨by rw [hok]; exact decide_eq_true (by omega), f, p1.packetBuf, l, ?_, hne, ?_, Nat.le_trans hfit hle, ?_, hbuf⟩
      · unfold commandBuilt; rw [hb]; exact hl
      · rw [CpM.sendOuts_sent, List.take_of_length_le (by omega)]; rfl
      · have hsc' : p1.sc = anySc C cp (cpTx cp l.length) l := by rw [hsc, w2, a2]; rfl
        have hse := hsend.buf
        rw [hsc', hbp] at hse
        exact hse

/-- What a CP outside a handshake hands to the channel, for the first time or again. -/
theorem command_passed {C : Cipher} {cp cp1 : Pd} {cb : Bool} {env : Env} {o : List Out} {bs : List Byte} (I : CpM.Inv cp)
    (hps : cp.phyState = .sendCmd ∨ cp.phyState = .wait) (hh : cp.cmdId ≠ Id.CHLNG ∧ cp.cmdId ≠ Id.SCRYPT)
    (h : CpM.step C cp (.update cb env) = .ok (cp1, o)) (hcap : 256 ≤ env.sendCap) (hs : sent o = [bs]) :
    ∃ f buf body, commandBuilt C cp env = some body ∧ body ≠ [] ∧ bs = (cpPkt C cp body).bytes ∧ bs.length ≤ 256 ∧
      cp1 = sentState { nextCmd cp with file := f, sc := anySc C cp (cpTx cp body.length) body, packetBuf := buf } env.now ∧
      buf.length = cp.packetBuf.length := by
  obtain ⟨⟨s1, o1, y⟩, hu, h1⟩ := Res.bind_eq_ok.mp h
  injection h1 with h1; injection h1 with e1 e2; subst e1 e2
  have hne : sent o1 ≠ [] := by rw [hs]; simp
  have hu := CpM.stateUpdate_inv I.cp hu
  clear h
  cases hu with
  | hold h _ => exact absurd rfl hne
  | sent _ ho =>
    obtain ⟨-, f, buf, body, b1, b2, b3, b4, rfl, b6⟩ := outcome_sent hh ho hcap hne
    rw [b3] at hs
    injection hs with hs _
    exact ⟨f, buf, body, b1, b2, hs.symm, hs ▸ b4, rfl, b6⟩
  | unsent _ ho hset =>
    rw [CpM.sent_append, CpM.settle_sent hset, List.append_nil] at hne
    have := (outcome_sent hh ho hcap hne).1
    cases this
  | replied h _ _ _ => rcases hps with hps | hps <;> (rw [hps] at h; cases h)
  | again h _ => rcases hps with hps | hps <;> (rw [hps] at h; cases h)
  | waiting h _ => rcases hps with hps | hps <;> (rw [hps] at h; cases h)
  | idle h _ => rcases hps with hps | hps <;> rcases h with h | h | h <;> (rw [hps] at h; cases h)

/-- What a CP outside a handshake hands to the channel. -/
theorem command_sent {C : Cipher} {cp cp1 : Pd} {cb : Bool} {env : Env} {o : List Out} {bs : List Byte} (I : CpM.Inv cp)
    (hps : cp.phyState = .sendCmd) (hh : cp.cmdId ≠ Id.CHLNG ∧ cp.cmdId ≠ Id.SCRYPT)
    (h : CpM.step C cp (.update cb env) = .ok (cp1, o)) (hcap : 256 ≤ env.sendCap) (hs : sent o = [bs]) :
    ∃ f buf body, commandBuilt C cp env = some body ∧ body ≠ [] ∧ bs = (cpPkt C cp body).bytes ∧ bs.length ≤ 256 ∧
      cp1 = sentState { nextCmd cp with file := f, sc := anySc C cp (cpTx cp body.length) body, packetBuf := buf } env.now ∧
      buf.length = cp.packetBuf.length := command_passed I (.inl hps) hh h hcap hs

theorem pdTx_final {p q : Pd} (n : Nat) (hq : q.scActive = p.scActive) (hh : Phy.inHandshake true p.replyId = false) :
    PdM.finalTx (replyTx p) q n = pdTx p n := by
  unfold PdM.finalTx
  rw [hq]
  unfold replyTx pdTx
  rw [hh]
  cases hsc : p.scActive <;> simp

theorem pdTx_secured {p : Pd} (n : Nat) (h : p.scActive = true) : Phy.Secured p (pdTx p n) := by
  obtain ⟨-, -, c3⟩ := ctl_cases p.scActive p.seq (pdTx p n).ctl rfl
  exact ⟨h, c3.trans h, if n > 1 then 0x18#8 else 0x16#8, by unfold pdTx; rw [h]; rfl, by split <;> decide⟩

/-- the reply to COMSET announces the address the PD takes on -/
theorem replyBody_com {C : Cipher} {p : Pd} {env : Env} {t : Tx} {room : Int} {b : PdM.Built} (hid : p.replyId = Id.COM)
    (h : replyBody C p env t room = .ok b) :
    ∃ (x : Byte) (y : List Byte) (baud : Int), b = ⟨{ p with address := x.toNat, baudRate := baud }, t, [], .ok (b8 Id.COM :: x :: y)⟩ := by
  unfold replyBody at h
  dsimp only at h
  rw [hid] at h
  iterate 9 (rw [if_neg (by decide)] at h)
  rw [if_pos rfl] at h
  obtain ⟨_, -, h⟩ := Res.bind_eq_ok.mp h
  split at h
  · rename_i c _
    injection h with h
    exact ⟨c.address, le32 c.baudRate.toNat, c.baudRate.toInt, by rw [hid]; exact h.symm⟩
  · cases h

/-- what a reply outside the handshake does to the PD -/
structure Replies (C : Cipher) (p : Pd) (env : Env) (n : Nat) (rb : List Byte) (q : Pd) : Prop where
  built : ∃ b, replyBody C (unbc p) env (replyTx p) (p.txBufSize - (replyTx p).dataOff) = .ok b ∧ rb = bodyOr b.body
  ne : rb ≠ []
  fits : (pdPktN C p n rb).bytes.length ≤ 256
  id : rb.head? = some (b8 p.replyId) ∨ rb = [b8 Id.NAK, Nak.RECORD]
  state : ∃ f a baud buf, q = { unbc p with file := f, address := a, baudRate := baud, packetBuf := buf, sc := anySc C p (pdTx p n) rb } ∧
    buf.length = p.packetBuf.length ∧
    (a = p.address ∧ rb.head? ≠ some (b8 Id.COM) ∨ ∃ (x : Byte) (y : List Byte), rb = b8 Id.COM :: x :: y ∧ a = x.toNat)

theorem reply_sent {C : Cipher} {p q : Pd} {env : Env} {o : List Out} {ok : Bool}
    (hrep : p.replyId ≠ Id.CCRYPT ∧ p.replyId ≠ Id.RMAC_I) (hlt : p.replyId < 256) (ho : PdM.SendOutcome C p env q o ok) (hcap : 256 ≤ env.sendCap) (hs : sent o ≠ []) :
    ok = true ∧ ∃ n rb, Replies C p env n rb q ∧ sent o = [(pdPktN C p n rb).bytes] := by
  have hhs : Phy.inHandshake true p.replyId = false := by
    unfold Phy.inHandshake; simp [hrep.1, hrep.2]
  have hle : p.txBufSize ≤ 256 := by unfold Pd.txBufSize; split <;> omega
  cases ho with
  | mute _ => exact absurd rfl hs
  | built b _ outs _ hb ho hhd hsend hw hbuf =>
    have hb0 : sent b.outs = [] := PdM.BodyOutcome.nosend ho
    rw [CpM.sent_append, hb0, List.nil_append] at hs ⊢
    rcases hw with ⟨rfl, -⟩ | ⟨wire, q', hd, hsc, hfit, rfl, hok⟩
    · exact absurd rfl hs
    have hform : b.t = replyTx p ∧ ∃ f a baud, b.p = { unbc p with file := f, address := a, baudRate := baud } ∧ (p.replyId ≠ Id.COM → a = p.address) := by
      cases ho with
      | same body => exact ⟨rfl, p.file, p.address, p.baudRate, rfl, fun _ => rfl⟩
      | com c h => exact ⟨rfl, p.file, _, _, rfl, fun hn => absurd h hn⟩
      | ftstat f _ _ _ _ _ => exact ⟨rfl, f, p.address, p.baudRate, rfl, fun _ => rfl⟩
      | ccrypt _ h => exact absurd h hrep.1
      | rmac _ _ h => exact absurd h hrep.2
    obtain ⟨hbt, f, a, baud, hbp, haddr⟩ := hform
    have hact : b.p.scActive = p.scActive := by rw [hbp]; rfl
    have htx : PdM.finalTx b.t b.p (bodyLen b.body) = pdTx p (bodyLen b.body) := by rw [hbt]; exact pdTx_final _ hact hhs
    rw [htx] at hd hfit hok ⊢
    obtain ⟨w1, w2⟩ := Phy.dataOf_any hd (fun h => by
      obtain ⟨s1, s2⟩ := pdTx_secured (bodyLen b.body) (hact.symm.trans h)
      exact ⟨h, s2⟩) (Nat.le_trans hfit hle)
    obtain ⟨a1, a2⟩ := PdM.anyData_congr (C := C) (p := b.p) (q := p) (pdTx p (bodyLen b.body)) (bodyOr b.body) (by rw [hbp]; rfl) (by rw [hbp]; rfl) (by rw [hbp]; rfl)
    rw [a1] at w1
    subst w1
    have hid : (bodyOr b.body).head? = some (b8 p.replyId) ∨ bodyOr b.body = [b8 Id.NAK, Nak.RECORD] := by
      cases hbd : b.body with
      | ok l => exact .inl (hhd l hbd)
      | error k => exact .inr rfl
    have hne : bodyOr b.body ≠ [] := by
      intro h
      rcases hid with h' | h' <;> rw [h] at h' <;> cases h'
    refine ⟨by rw [hok]; exact decide_eq_true (by omega), bodyLen b.body, bodyOr b.body, ⟨⟨b, hb, rfl⟩, hne, Nat.le_trans hfit hle, hid,
      f, a, baud, q.packetBuf, ?_, ?_, ?_⟩, ?_⟩
    · have hsc' : q.sc = anySc C p (pdTx p (bodyLen b.body)) (bodyOr b.body) := by rw [hsc, w2, a2]; rfl
      have hse := hsend.buf
      rw [hsc', hbp] at hse
      exact hse
    · rw [hbuf, hbp]; rfl
    · by_cases hc : p.replyId = Id.COM
      · obtain ⟨x, y, bd, hbe⟩ := replyBody_com (p := unbc p) hc hb
        right
        refine ⟨x, y, by rw [hbe]; rfl, ?_⟩
        have := congrArg (fun b => b.p.address) hbe
        dsimp only at this
        rw [hbp] at this
        exact this
      · left
        refine ⟨haddr hc, fun h => ?_⟩
        rcases hid with h' | h'
        · rw [h'] at h
          injection h with h
          apply hc
          have := congrArg BitVec.toNat h
          unfold b8 at this
          simp only [BitVec.toNat_ofNat, Id.COM] at this
          show p.replyId = 0x54
          omega
        · rw [h'] at h; exact absurd h (by decide)
    · rw [CpM.sendOuts_sent, List.take_of_length_le (by omega)]; rfl

/-- what executing a command outside the handshake leaves alone -/
structure Still (p q : Pd) : Prop where
  flags : q.flags = p.flags
  sc : q.sc = p.sc
  seq : q.seq = p.seq
  address : q.address = p.address
  rx : q.rx = p.rx
  buf : q.packetBuf = p.packetBuf
  cmdId : q.cmdId = p.cmdId

theorem Still.trans {p q s : Pd} (h : Still p q) (h' : Still q s) : Still p s :=
  ⟨h'.flags.trans h.flags, h'.sc.trans h.sc, h'.seq.trans h.seq, h'.address.trans h.address, h'.rx.trans h.rx, h'.buf.trans h.buf,
    h'.cmdId.trans h.cmdId⟩

theorem outcome_still {p q : Pd} {env : Env} {bd : List Byte} {o : List Out} {r : PdM.PdRet} (h : PdM.Outcome p env bd q o r)
    (h1 : p.cmdId ≠ Id.CHLNG) (h2 : p.cmdId ≠ Id.SCRYPT) : Still p q := by
  cases h with
  | plain hpl _ => obtain ⟨_, _, h⟩ := hpl.quiet; subst h; exact ⟨rfl, rfl, rfl, rfl, rfl, rfl, rfl⟩
  | poll _ _ => unfold PdM.pollEvent; split <;> exact ⟨rfl, rfl, rfl, rfl, rfl, rfl, rfl⟩
  | file _ _ => split <;> exact ⟨rfl, rfl, rfl, rfl, rfl, rfl, rfl⟩
  | chlng _ h => exact absurd h h1
  | scrypt _ h => exact absurd h h2
  | _ => exact ⟨rfl, rfl, rfl, rfl, rfl, rfl, rfl⟩

theorem replies_lt (c : Nat) : ∀ r ∈ Spec.Answer.replies c, r < 256 ∧ (c ≠ Id.CHLNG → r ≠ Id.CCRYPT) ∧ (c ≠ Id.SCRYPT → r ≠ Id.RMAC_I) ∧ r ≠ Id.BUSY := by
  unfold Spec.Answer.replies
  split <;> simp [Id.CHLNG, Id.CCRYPT, Id.SCRYPT, Id.RMAC_I, Id.BUSY]

/-- The answer of a PD to a command it takes, outside the handshake. -/
theorem pd_answers {C : Cipher} {pd pd1 P : Pd} {env : Env} {d0 : Byte} {rest bs : List Byte} {o : List Out}
    (hP : P.flags.pdMode = true) (hexp : expire pd env.now = pd)
    (hrec : PdM.receiveAndProcess C pd env = commanded P env d0 rest) (hnr : PdM.plainRefused (PdM.noteCmd P d0) = false)
    (h1 : d0.toNat ≠ Id.CHLNG) (h2 : d0.toNat ≠ Id.SCRYPT) (h : PdM.refresh C pd env = .ok (pd1, o)) (hcap : 256 ≤ env.sendCap)
    (hs : sent o = [bs]) :
    ∃ q n rb q2, Still (PdM.noteCmd P d0) q ∧ (q.replyId = Id.NAK ∨ q.replyId ∈ Spec.Answer.replies d0.toNat) ∧ Replies C q env n rb q2 ∧
      replyBuilt C pd env = some rb ∧ bs = (pdPktN C q n rb).bytes ∧
      (pd1 = (Phy.stateReset q2 false).1 ∨ d0.toNat = Id.KEYSET ∧ q.replyId = Id.ACK ∧ pd1.scActive = false ∧ pd1.packetBufLen = 0 ∧ pd1.packetLen = 0 ∧
        pd1.packetBuf = q2.packetBuf ∧ pd1.rx = q2.rx) := by
  have hr0 := hrec
  unfold PdM.refresh at h
  rw [hexp, hrec] at h
  unfold commanded at h hr0
  rw [hnr, if_neg (by simp)] at h hr0
  obtain ⟨⟨p1, o1, ret⟩, hdis, h⟩ := Res.bind_eq_ok.mp h
  obtain ⟨⟨p2, o2⟩, hfin, h⟩ := Res.bind_eq_ok.mp h
  injection h with h; injection h with e1 e2; subst e1 e2
  rw [hdis] at hr0
  have hout := PdM.dispatch_outcome (p := PdM.noteCmd P d0) hP hdis
  have hkind := PdM.dispatch_kind hdis
  have hst := outcome_still hout h1 h2
  have hno : sent o1 = [] := by
    refine CpM.sent_nil fun o ho bs hb => ?_
    subst hb
    exact (PdM.outcome_same hout).2.2 bs ho
  have hfin' := PdM.finish_inv (by rw [hst.flags]; exact hP) hfin
  rw [CpM.sent_append, hno, List.nil_append] at hs
  have hne : sent o2 ≠ [] := by rw [hs]; simp
  clear h hfin
  cases hfin' with
  | keep _ => exact absurd rfl hne
  | reset _ => exact absurd rfl hne
  | @reply q2 _ _ ok hr hsend haft =>
    have ht : Still p1 (touch p1 ret env.now) ∧ (touch p1 ret env.now).replyId = p1.replyId := by
      unfold touch; split <;> exact ⟨⟨rfl, rfl, rfl, rfl, rfl, rfl, rfl⟩, rfl⟩
    have hk : p1.replyId = Id.NAK ∨ p1.replyId ∈ Spec.Answer.replies d0.toNat := by
      rcases hkind with h | h | h
      · exact .inl h.1
      · exact .inr h.1
      · rcases hr with hr | hr <;> rw [hr] at h <;> cases h.2.2
    have hids : (touch p1 ret env.now).replyId < 256 ∧ (touch p1 ret env.now).replyId ≠ Id.CCRYPT ∧ (touch p1 ret env.now).replyId ≠ Id.RMAC_I := by
      rw [ht.2]
      rcases hk with h | h
      · rw [h]; decide
      · have := replies_lt _ _ h
        exact ⟨this.1, this.2.1 h1, this.2.2.1 h2⟩
    obtain ⟨hok, n, rb, hR, hsb⟩ := reply_sent ⟨hids.2.1, hids.2.2⟩ hids.1 hsend hcap hne
    have hS := hst.trans ht.1
    refine ⟨touch p1 ret env.now, n, rb, q2, hS, by rw [ht.2]; exact hk, hR, ?_, ?_, ?_⟩
    · obtain ⟨b, hb, hbr⟩ := hR.built
      unfold replyBuilt
      rw [hexp, hrec]
      unfold commanded
      rw [hnr, if_neg (by simp), hdis]
      dsimp only
      rw [hb]
      dsimp only
      rw [hbr]
    · rw [hs] at hsb; injection hsb
    · obtain ⟨f, a, baud, buf, hq2, -, -⟩ := hR.state
      rcases PdM.afterSend_inv haft with ⟨rfl, -⟩ | ⟨-, hc, hr', k, -, rfl⟩
      · exact .inl rfl
      · right
        rw [hq2] at hc hr'
        exact ⟨hS.cmdId.symm.trans hc, hr', rfl, rfl, rfl, rfl, rfl⟩

end Link
end Osdp
