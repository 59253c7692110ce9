import Verif.Lemmas.SendSc
import Verif.Lemmas.SecRound
import Verif.Lemmas.CpSendSc
import Verif.Lemmas.CpDeliver
import Verif.Lemmas.PdReply

/-! # Sending and reading a packet, in the clear or in a secure session -/

namespace Osdp.Phy

open Spec.Wire

/-- the data as transmitted: in a session under its keys -/
def anyData (C : Cipher) (p : Pd) (t : Tx) (data : List Byte) : List Byte := if p.scActive then securedData C p t data else data

/-- the session after that -/
def anySc (C : Cipher) (p : Pd) (t : Tx) (data : List Byte) : Sc := if p.scActive then chainSc C p t data else p.sc

theorem sendPacket_any (C : Cipher) (p : Pd) (env : Env) (t : Tx) (data : List Byte) (m : Nat) (hsec : p.scActive = true → Secured p t)
    (hmis : t.misaligned = false) (hd : data ≠ []) (hm : m ≤ 256) (hbuf : p.packetBuf.length = 256)
    (hfit : (pktOf t (anyData C p t data)).bytes.length ≤ m) :
    ∃ buf, sendPacket C p env t data m = .ok ({ p with sc := anySc C p t data, packetBuf := buf },
      sendOuts p env (pktOf t (anyData C p t data)).bytes,
      decide ((pktOf t (anyData C p t data)).bytes.length ≤ env.sendCap)) ∧ buf.length = 256 := by
  unfold anyData anySc at *
  cases ha : p.scActive with
  | true =>
    rw [ha, if_pos rfl] at hfit
    simp only [if_true]
    exact sendPacket_secured C p env t data m (hsec ha) hmis hd hm hbuf hfit
  | false =>
    rw [ha, if_neg (by simp)] at hfit
    rw [if_neg (by simp), if_neg (by simp)]
    obtain ⟨q, hq⟩ := sendPacket_plain C p env t data m ha hmis hd hfit (by omega)
    obtain ⟨hs, h⟩ := sendPacket_inv hd hq
    have hl := sendPacket_buf hq
    rcases h with ⟨h, -⟩ | ⟨wire, q', -, hw, hsc, -⟩
    · unfold sendOuts at h; split at h <;> cases h
    · obtain ⟨-, rfl⟩ := hw.plain fun h => by rw [h.1] at ha; cases ha
      unfold Sending at hs
      refine ⟨q.packetBuf, ?_, hl.trans hbuf⟩
      rw [hq]
      congr 2
      rw [hs, hsc]

/-- A packet of an end of the link, whose header is as the other end expects, is read as it was meant. -/
theorem decode_any (C : Cipher) (s r : Pd) (t : Tx) (data : List Byte) (hact : r.scActive = s.scActive)
    (hside : r.isPd = s.isCp) (hcap : r.scActive = true → r.isPd = true → r.scCapable = true)
    (hsame : s.scActive = true → Meets s.sc r.sc)
    (hcm : s.scActive = true → s.isCp = false → s.sc.cMac = r.sc.cMac) (hcrc : hasBit t.ctl CTL_CRC = true)
    (hsec : s.scActive = true → hasBit t.ctl CTL_SCB = true ∧ ∃ ty, t.scb = [2#8, ty] ∧ 0x15#8 ≤ ty ∧ ty ≤ 0x18#8)
    (hplain : s.scActive = false → hasBit t.ctl CTL_SCB = false ∧ t.scb = [])
    (hd : data ≠ []) (hfit : (pktOf t (anyData C s t data)).frame.length ≤ 256) :
    ∃ sc, decodeFrame C r (pktOf t (anyData C s t data)).frame = .ok (setSc r sc, (data.length : Int), data) ∧
      (s.scActive = true → SameSession (anySc C s t data) sc) ∧ sc = { r.sc with cMac := sc.cMac, rMac := sc.rMac } := by
  unfold anyData anySc at *
  cases ha : s.scActive with
  | true =>
    rw [ha, if_pos rfl] at hfit
    simp only [if_true]
    obtain ⟨h1, ty, h2, h3⟩ := hsec ha
    obtain ⟨sc, e1, e2, e3⟩ := decode_sent C s r t ty data (hact.trans ha) hside (hcap (hact.trans ha)) (hsame ha) (hcm ha) h2 h3 h1 hcrc hd hfit
    exact ⟨sc, e1, fun _ => e2, e3⟩
  | false =>
    rw [if_neg (by simp), if_neg (by simp)]
    obtain ⟨h1, h2⟩ := hplain ha
    obtain ⟨d0, l, rfl⟩ := List.exists_cons_of_ne_nil hd
    refine ⟨r.sc, ?_, (fun h => by cases h), rfl⟩
    refine decodeFrame_plain C r (pktOf t (d0 :: l)) hcrc h1 h2 d0 rfl ?_
    unfold plainRefused
    rw [hact, ha]
    simp

end Osdp.Phy

namespace Osdp.PdM

open Spec.Wire
open Phy (setNak Idle Arrives pktAddr pdAccept reload Held pktOf sendOuts anyData anySc Tx setSc)

/-- header of a reply -/
def pdTx (p : Pd) (n : Nat) : Tx :=
  { mark := p.flags.hasMark, misaligned := false
    addr := (if p.flags.broadcast then 0x7F#8 else i8 p.address &&& 0x7F#8) ||| 0x80#8
    ctl := if p.scActive then b8 (Phy.seqBits p.seq) ||| Phy.CTL_CRC ||| Phy.CTL_SCB else b8 (Phy.seqBits p.seq) ||| Phy.CTL_CRC
    scb := if p.scActive then [2#8, if n > 1 then 0x18#8 else 0x16#8] else [] }

/-- the packet of a reply -/
def pdPkt (C : Cipher) (p : Pd) (body : List Byte) : Packet := pktOf (pdTx p body.length) (anyData C p (pdTx p body.length) body)

theorem anyData_congr {C : Cipher} {p q : Pd} (t : Tx) (data : List Byte) (h1 : p.flags.scActive = q.flags.scActive)
    (h2 : p.flags.pdMode = q.flags.pdMode) (h3 : p.sc = q.sc) : anyData C p t data = anyData C q t data ∧ anySc C p t data = anySc C q t data := by
  have e1 : p.scActive = q.scActive := h1
  have e2 : p.isCp = q.isCp := by unfold Pd.isCp; rw [h2]
  unfold anyData anySc Phy.securedData Phy.chainSc Phy.tagOf Phy.cipherData
  rw [e1, e2, h3]
  exact ⟨rfl, rfl⟩

theorem sendReply_any (C : Cipher) (p : Pd) (env : Env) (b : Built) (body : List Byte)
    (hp : p.flags.pdMode = true) (hh : Phy.inHandshake true p.replyId = false)
    (hm : 69 ≤ p.txBufSize) (hbuf : p.packetBuf.length = 256)
    (hb : replyBody C (unbc p) env (replyTx p) (p.txBufSize - (replyTx p).dataOff) = .ok b)
    (ht : b.t = replyTx p) (hfl : b.p.flags = (unbc p).flags) (hbs : b.p.sc = p.sc) (hbb : b.p.packetBuf = p.packetBuf)
    (hbf : b.p.hasFlush = p.hasFlush) (hbody : b.body = .ok body) (hne : body ≠ [])
    (hfit : (pdPkt C p body).bytes.length ≤ p.txBufSize) :
    ∃ buf, sendReply C p env = .ok ({ b.p with sc := anySc C p (pdTx p body.length) body, packetBuf := buf },
      b.outs ++ sendOuts p env (pdPkt C p body).bytes, decide ((pdPkt C p body).bytes.length ≤ env.sendCap)) ∧ buf.length = 256 := by
  have hle : p.txBufSize ≤ 256 := by unfold Pd.txBufSize; split <;> omega
  have hact : b.p.scActive = p.scActive := by unfold Pd.scActive; rw [hfl]; rfl
  obtain ⟨c1, c2⟩ := anyData_congr (C := C) (p := b.p) (q := p) (pdTx p body.length) body (by rw [hfl]; rfl) (by rw [hfl]; rfl) hbs
  obtain ⟨buf, hs, hl⟩ := Phy.sendPacket_any C b.p env (pdTx p body.length) body p.txBufSize
    (fun h => by
      rw [hact] at h
      refine ⟨hact.trans h, ?_, if body.length > 1 then 0x18#8 else 0x16#8, ?_, ?_⟩
      · unfold pdTx; dsimp only; rw [h]
        exact CpM.ctl_scb _ (by unfold Phy.seqBits; omega)
      · unfold pdTx; dsimp only; rw [h]; rfl
      · split <;> decide)
    rfl hne hle (hbb ▸ hbuf) (by rw [c1]; exact hfit)
  rw [c1, c2] at hs
  refine ⟨buf, ?_, hl⟩
  unfold sendReply
  dsimp only
  rw [packetInit_pd hp, if_neg (by omega)]
  dsimp only
  have e2 : sendOuts b.p env (pdPkt C p body).bytes = sendOuts p env (pdPkt C p body).bytes := by
    unfold sendOuts; rw [hbf]
  have e3 : finalTx b.t b.p body.length = pdTx p body.length := by
    unfold finalTx
    rw [ht, hact]
    unfold replyTx pdTx
    rw [hh]
    cases hsc : p.scActive <;> simp
  have e4 : buildReply C (unbc p) env (replyTx p) p.txBufSize = .ok (b.p, pdTx p body.length, b.outs, body) := by
    rw [← e3]
    unfold buildReply finalTx
    dsimp only
    rw [hb]
    simp only [Res.ok_bind, hbody]
    rfl
  rw [e4]
  show (Phy.sendPacket C b.p env (pdTx p body.length) body p.txBufSize >>= fun x => Except.ok (x.1, b.outs ++ x.2.1, x.2.2)) = _
  rw [hs]
  show Except.ok (_, b.outs ++ sendOuts b.p env (pdPkt C p body).bytes, _) = _
  rw [e2]
  rfl

end Osdp.PdM

namespace Osdp.CpM

open Spec.Wire
open Phy (setNak Idle Arrives pktAddr pdAccept reload Held pktOf sendOuts anyData anySc Tx setSc)

theorem buildAndSend_any (C : Cipher) (p : Pd) (env : Env) (b : Built) (t : Tx) (body : List Byte)
    (hp : p.flags.pdMode = false) (hm : 69 ≤ p.txBufSize) (hbuf : p.packetBuf.length = 256)
    (hb : commandBody C (nextCmd p) env (cmdTx p) (p.txBufSize - (cmdTx p).dataOff) = .ok b) (hbody : b.body = some body)
    (hbb : b.p.packetBuf = p.packetBuf) (hbf : b.p.hasFlush = p.hasFlush)
    (ht : finalTx b.t b.p body.length = t) (hmis : t.misaligned = false) (hsec : b.p.scActive = true → Phy.Secured b.p t)
    (hne : body ≠ []) (hfit : (pktOf t (anyData C b.p t body)).bytes.length ≤ p.txBufSize) :
    ∃ buf, buildAndSend C p env = .ok ({ b.p with sc := anySc C b.p t body, packetBuf := buf },
      b.outs ++ sendOuts p env (pktOf t (anyData C b.p t body)).bytes,
      decide ((pktOf t (anyData C b.p t body)).bytes.length ≤ env.sendCap)) ∧ buf.length = 256 := by
  have hle : p.txBufSize ≤ 256 := by unfold Pd.txBufSize; split <;> omega
  obtain ⟨buf, hs, hl⟩ := Phy.sendPacket_any C b.p env t body p.txBufSize hsec hmis hne hle (by rw [hbb]; exact hbuf) hfit
  refine ⟨buf, ?_, hl⟩
  have hd := cmdTx_dataOff p
  have e2 : sendOuts b.p env (pktOf t (anyData C b.p t body)).bytes = sendOuts p env (pktOf t (anyData C b.p t body)).bytes := by
    unfold sendOuts; rw [hbf]
  have e4 : buildCommand C (nextCmd p) env (cmdTx p) p.txBufSize = .ok { b with t := t } := by
    rw [← ht]
    unfold buildCommand finalTx
    dsimp only
    rw [if_neg (by omega), hb]
    simp only [Res.ok_bind, hbody]
    rfl
  unfold buildAndSend
  dsimp only
  rw [packetInit_cp hp, if_neg (by omega)]
  dsimp only
  rw [e4]
  simp only [Res.ok_bind, hbody]
  rw [hs]
  show Except.ok (_, b.outs ++ sendOuts b.p env _, _) = _
  rw [e2]

end Osdp.CpM
