import Verif.Lemmas.Rounds

/-! # The packets of the secure channel handshake: sent by one end, read by the other -/

namespace Osdp.Phy

open Spec.Wire

/-- a packet that is not secured goes out as it was built, also when the session is already active -/
theorem sendPacket_clear (C : Cipher) (p : Pd) (env : Env) (t : Tx) (data : List Byte) (m : Nat)
    (hsec : t.secured p = false) (hmis : t.misaligned = false) (hd : data ≠ []) (hm : m ≤ 256)
    (hbuf : p.packetBuf.length = 256) (hfit : (pktOf t data).bytes.length ≤ m) :
    ∃ buf, sendPacket C p env t data m = .ok ({ p with packetBuf := buf }, sendOuts p env (pktOf t data).bytes,
      decide ((pktOf t data).bytes.length ≤ env.sendCap)) ∧ buf.length = 256 := by
  have hl := List.length_pos_iff.mpr hd
  have hb := bytes_length (pktOf t data)
  have e : (pktOf t data).len = 5 + t.scb.length + data.length + 2 := rfl
  rw [show (pktOf t data).mark = t.mark from rfl] at hb
  have hw : wrap t (header t (5 + t.scb.length + data.length + 2) ++ t.scb ++ data) (m - if t.mark then 1 else 0) =
      some (pktOf t data).bytes := by
    unfold wrap
    rw [header_core, core_length, if_neg ?_]
    · rw [← List.append_assoc, pktOf_bytes]
    · have e' : 5 + (pktOf t data).scb.length + (pktOf t data).data.length = 5 + t.scb.length + data.length := rfl
      omega
  have hf : finalize C p t data m = .ok (p, some (pktOf t data).bytes) := by
    unfold finalize
    dsimp only
    rw [if_neg (by simp [hmis]), if_neg (by omega), if_neg (by simp [hsec]), hw]
  have hwr : ∃ buf, writeAt p.packetBuf 0 (pktOf t data).bytes = .ok buf := by
    unfold writeAt
    rw [if_pos (by omega)]
    exact ⟨_, rfl⟩
  obtain ⟨buf, hwr⟩ := hwr
  have hq : ∃ q, sendPacket C p env t data m = .ok (q, sendOuts p env (pktOf t data).bytes,
      decide ((pktOf t data).bytes.length ≤ env.sendCap)) := by
    unfold sendPacket
    rw [hf]
    dsimp only [Res.ok_bind]
    rw [hwr]
    exact ⟨_, rfl⟩
  obtain ⟨q, hq⟩ := hq
  obtain ⟨hs, h⟩ := sendPacket_inv hd hq
  have hl := sendPacket_buf hq
  rcases h with ⟨h, -⟩ | ⟨wire, q', -, hw, hsc, -⟩
  · unfold sendOuts at h; split at h <;> cases h
  · obtain ⟨-, rfl⟩ := hw.plain fun h => by rw [(secured_iff p t).mpr h] at hsec; cases hsec
    unfold Sending at hs
    refine ⟨q.packetBuf, ?_, hl.trans hbuf⟩
    rw [hq]
    congr 2
    rw [hs, hsc]

end Osdp.Phy

namespace Osdp.Link

open Spec.Wire
open Phy (Idle Arrives pktAddr pdAccept reload Held pktOf sendOuts Tx setSc)
open CpM (nextCmd cmdTx sentState commandBody)
open PdM (Holding ForUs commanded unbc replyTx replyBody)

/-- A CP and its PD that can talk, whatever the PD still believes about an older session -/
structure Pair (cp pd : Pd) : Prop where
  cpMode : cp.flags.pdMode = false
  pdMode : pd.flags.pdMode = true
  address : cp.address = pd.address
  range : 0 ≤ pd.address ∧ pd.address ≤ 126
  cpIdle : Idle cp
  pdIdle : Idle pd
  clear : cp.scActive = false
  /-- the PD has a key, and was not told to do without the secure channel -/
  capable : pd.scCapable = true
  compliance : (pd.cap 9).compliance ≠ 0#8
  /-- neither end announced a receive buffer too small for any packet -/
  cpTx : 69 ≤ cp.txBufSize
  pdTx : 69 ≤ pd.txBufSize
  mark : (cp.flags.hasMark && cp.flags.skipMark) = false
  bc : pd.flags.broadcast = false
  cpSeq : -1 ≤ cp.seq ∧ cp.seq ≤ 3
  pdSeq : -1 ≤ pd.seq ∧ pd.seq ≤ 3
  seq : cp.seq = pd.seq ∨ cp.seq = -1

/-- a handshake packet of the CP -/
def hsCmd (cp : Pd) (ty x : Byte) (body : List Byte) : Packet :=
  pktOf { cmdTx cp with scb := [3#8, ty, x] } body

/-- a handshake packet of the PD -/
def hsReply (q : Pd) (ty x : Byte) (body : List Byte) : Packet :=
  pktOf { replyTx q with scb := [3#8, ty, x] } body

theorem hsCmd_length (cp : Pd) (ty x : Byte) (body : List Byte) (hb : body.length ≤ 33) : (hsCmd cp ty x body).bytes.length ≤ 69 := by
  rw [Phy.bytes_length]
  have : (hsCmd cp ty x body).len = 5 + 3 + body.length + 2 := rfl
  split <;> omega

theorem hsReply_length (cp : Pd) (ty x : Byte) (body : List Byte) (hb : body.length ≤ 33) : (hsReply cp ty x body).bytes.length ≤ 69 := by
  rw [Phy.bytes_length]
  have : (hsReply cp ty x body).len = 5 + 3 + body.length + 2 := rfl
  split <;> omega

theorem tx_unsecured (p : Pd) (t : Tx) (ty x : Byte) (hty : ty ≤ 0x14#8) : Tx.secured { t with scb := [3#8, ty, x] } p = false := by
  refine Bool.eq_false_iff.mpr fun h => ?_
  obtain ⟨-, -, ty', h1, h2⟩ := (Phy.secured_iff _ _).mp h
  injection h1 with h1
  rw [← h1] at h2
  have a : ty.toNat ≤ 0x14 := hty
  have b : 0x15 ≤ ty.toNat := h2
  omega

/-- The CP sends a handshake command. -/
theorem hs_sent (C : Cipher) (cp pd : Pd) (cb : Bool) (env : Env) (sc : Sc) (ty x : Byte) (body : List Byte) (P : Pair cp pd)
    (hty : ty ≤ 0x14#8) (hps : cp.phyState = .sendCmd) (hne : body ≠ []) (hlen : body.length ≤ 33) (hcap : 256 ≤ env.sendCap)
    (hb : commandBody C (nextCmd cp) env (cmdTx cp) (cp.txBufSize - (cmdTx cp).dataOff) =
      .ok ⟨{ nextCmd cp with sc := sc }, { cmdTx cp with scb := [3#8, ty, x] }, [], some body⟩) :
    ∃ buf, CpM.step C cp (.update cb env) = .ok (sentState { nextCmd cp with sc := sc, packetBuf := buf } env.now,
        sendOuts cp env (hsCmd cp ty x body).bytes) ∧ buf.length = 256 := by
  have hle : cp.txBufSize ≤ 256 := by unfold Pd.txBufSize; split <;> omega
  have hl := hsCmd_length cp ty x body hlen
  have hc : Pd.scActive { nextCmd cp with sc := sc } = false := P.clear
  have hd : Phy.anyData C { nextCmd cp with sc := sc } { cmdTx cp with scb := [3#8, ty, x] } body = body := by
    unfold Phy.anyData; rw [hc]; rfl
  have hs : Phy.anySc C { nextCmd cp with sc := sc } { cmdTx cp with scb := [3#8, ty, x] } body = sc := by
    unfold Phy.anySc; rw [hc]; rfl
  have hfit : (pktOf { cmdTx cp with scb := [3#8, ty, x] } body).bytes.length ≤ cp.txBufSize := Nat.le_trans hl P.cpTx
  obtain ⟨buf, hsend, hbl⟩ := CpM.buildAndSend_any C cp env _ { cmdTx cp with scb := [3#8, ty, x] } body P.cpMode P.cpTx P.cpIdle.buf hb rfl rfl rfl
    (by unfold CpM.finalTx
        dsimp only [List.getElem?_cons_succ, List.getElem?_cons_zero]
        rw [hc, if_neg (by simp)])
    P.mark (fun h => by rw [hc] at h; cases h) hne (by rw [hd]; exact hfit)
  rw [hd, hs] at hsend
  rw [decide_eq_true (show (pktOf { cmdTx cp with scb := [3#8, ty, x] } body).bytes.length ≤ env.sendCap from Nat.le_trans (Nat.le_trans hfit hle) hcap)] at hsend
  refine ⟨buf, ?_, hbl⟩
  show (CpM.stateUpdate C cb cp env >>= _) = _
  rw [CpM.update_send C cb cp env hps hsend]
  rfl

/-- The PD takes a handshake command from the line. -/
theorem hs_read (C : Cipher) (cp pd : Pd) (env : Env) (ty x d0 : Byte) (rest : List Byte) (P : Pair cp pd)
    (hh : Phy.inHandshake false cp.cmdId = true) (hty : 0x11#8 ≤ ty ∧ ty ≤ 0x14#8) (hlen : (d0 :: rest).length ≤ 33)
    (ha : Arrives env (hsCmd cp ty x (d0 :: rest)).bytes) :
    ∃ h, Holding pd (hsCmd cp ty x (d0 :: rest)) h ∧ PdM.receiveAndProcess C pd env =
      commanded (reload (Phy.noteScbkd (pdAccept pd (Phy.seqBits (Phy.nextSeq cp.seq true)) false) ty x) h) env d0 rest := by
  generalize hk : hsCmd cp ty x (d0 :: rest) = k at *
  obtain ⟨c1, c2, c3⟩ := ctl_cases true (Phy.nextSeq cp.seq true) k.ctl (by
    rw [← hk]
    show (cmdTx cp).ctl = _
    unfold cmdTx
    simp [hh])
  have hseq : k.seq = Phy.seqBits (Phy.nextSeq cp.seq true) := c1
  have hn : Phy.nextSeq cp.seq true = Spec.Seq.succ cp.seq ∧ 0 ≤ Phy.nextSeq cp.seq true ∧ Phy.nextSeq cp.seq true ≤ 3 ∧
      (Phy.nextSeq cp.seq true = 0 ↔ cp.seq = -1) := by
    have := P.cpSeq
    unfold Phy.nextSeq Spec.Seq.succ
    rw [if_pos rfl]
    split <;> split <;> omega
  have hsb : (Phy.seqBits (Phy.nextSeq cp.seq true) : Int) = Phy.nextSeq cp.seq true := by unfold Phy.seqBits; omega
  have haddr : (pktAddr k : Int) = pd.address := by
    rw [← hk]
    unfold pktAddr
    show (((i8 cp.address &&& 0x7F#8) &&& 0x7F#8).toNat : Int) = _
    rw [and7f_and, P.address, Phy.i8_addr _ (by have := P.range; omega)]
    have := P.range; omega
  have h127 : (pktAddr k == 127) = false := by
    have := P.range
    simp; omega
  have hl := hsCmd_length cp ty x (d0 :: rest) hlen
  have hF : ForUs pd k := by
    refine ⟨by rw [← hk]; omega, by rw [← hk]; exact and7f_bit _, c2, .inl haddr, P.pdSeq, ?_⟩
    rw [hseq]
    unfold Spec.Seq.Acceptable
    rcases P.seq with h | h
    · right; right; rw [hsb, hn.1, h]
    · left
      have := hn.2.2.2.mpr h
      omega
  have hdata : k.data = d0 :: rest := by rw [← hk]; rfl
  have hdec := Phy.decodeFrame_handshake C (pdAccept pd k.seq (pktAddr k == 127)) k c2 c3 ty x (by rw [← hk]; rfl) hty (fun _ => P.capable)
  rw [hdata] at hdec
  obtain ⟨h, h1, h2⟩ := PdM.receive_delivers C pd _ k env d0 rest P.pdMode P.pdIdle hF ha hdec (fun _ => by rw [← hk]; show 2 ≤ 3; omega)
  refine ⟨h, h1, ?_⟩
  rw [h2, hseq, h127]

/-- The PD sends a handshake reply. -/
theorem hs_reply (C : Cipher) (p : Pd) (env : Env) (b : PdM.Built) (ty x : Byte) (body : List Byte) (hp : p.flags.pdMode = true)
    (hsc : p.scActive = false) (hty : ty ≤ 0x14#8) (hm : 69 ≤ p.txBufSize) (hbuf : p.packetBuf.length = 256) (hcap : 256 ≤ env.sendCap)
    (hne : body ≠ []) (hlen : body.length ≤ 33) (hnk : p.cmdId ≠ Id.KEYSET)
    (hb : replyBody C (unbc p) env (replyTx p) (p.txBufSize - (replyTx p).dataOff) = .ok b)
    (ht : b.t = { replyTx p with scb := [3#8, ty, x] }) (hbb : b.p.packetBuf = p.packetBuf)
    (hbf : b.p.hasFlush = p.hasFlush) (hbc : b.p.cmdId = p.cmdId) (hbo : b.outs = []) (hbody : b.body = .ok body) :
    ∃ buf, PdM.finish C p env .none = .ok ((Phy.stateReset { b.p with packetBuf := buf } false).1,
        sendOuts p env (hsReply p ty x body).bytes) ∧ buf.length = 256 := by
  have hle : p.txBufSize ≤ 256 := by unfold Pd.txBufSize; split <;> omega
  have hl := hsReply_length p ty x body hlen
  obtain ⟨buf, hs, hbl⟩ := Phy.sendPacket_clear C b.p env { replyTx p with scb := [3#8, ty, x] } body p.txBufSize
    (tx_unsecured _ _ _ _ hty) rfl hne hle (by rw [hbb]; exact hbuf) (Nat.le_trans hl hm)
  have e2 : sendOuts b.p env (pktOf { replyTx p with scb := [3#8, ty, x] } body).bytes = sendOuts p env (hsReply p ty x body).bytes := by
    unfold sendOuts; rw [hbf]; rfl
  have e3 : PdM.finalTx b.t b.p body.length = { replyTx p with scb := [3#8, ty, x] } := by
    rw [ht]
    unfold PdM.finalTx
    dsimp only [List.getElem?_cons_succ, List.getElem?_cons_zero]
    refine if_neg fun h => ?_
    have a : ty.toNat ≤ 0x14 := hty
    have b : 0x14 < ty.toNat := h.1
    omega
  have e4 : PdM.buildReply C (unbc p) env (replyTx p) p.txBufSize = .ok (b.p, { replyTx p with scb := [3#8, ty, x] }, b.outs, body) := by
    rw [← e3]
    unfold PdM.buildReply PdM.finalTx
    dsimp only
    rw [hb]
    simp only [Res.ok_bind, hbody]
    rfl
  have hsr : PdM.sendReply C p env = .ok ({ b.p with packetBuf := buf }, sendOuts p env (hsReply p ty x body).bytes, true) := by
    unfold PdM.sendReply
    dsimp only
    rw [PdM.packetInit_pd hp, if_neg (by omega)]
    dsimp only
    rw [e4]
    simp only [Res.ok_bind]
    rw [hs, decide_eq_true (show (pktOf { replyTx p with scb := [3#8, ty, x] } body).bytes.length ≤ env.sendCap from Nat.le_trans hl (by omega))]
    simp only [Res.ok_bind, e2, hbo]
    rfl
  refine ⟨buf, ?_, hbl⟩
  have htch : PdM.touch p .none env.now = p := by unfold PdM.touch; rw [hsc]; simp
  unfold PdM.finish
  rw [if_neg (by decide), if_neg (by simp), if_neg (by decide), htch, hsr]
  simp only [Res.ok_bind]
  have haft : PdM.afterSend { b.p with packetBuf := buf } true = .ok (Phy.stateReset { b.p with packetBuf := buf } false).1 := by
    unfold PdM.afterSend PdM.commitKeyset
    rw [if_pos rfl, if_neg (fun h => hnk (hbc.symm.trans h.1))]
    rfl
  rw [haft]
  rfl

/-- The CP takes a handshake reply from the line. -/
theorem hs_answer (C : Cipher) (q cp : Pd) (env : Env) (ty x r0 : Byte) (rest : List Byte) (hcp : cp.flags.pdMode = false)
    (haddr : cp.address = q.address) (hr : 0 ≤ q.address ∧ q.address ≤ 126) (hi : Idle cp) (hbc : q.flags.broadcast = false)
    (hh : Phy.inHandshake true q.replyId = true) (hty : ty = 0x12#8 ∨ ty = 0x14#8)
    (hlen : (r0 :: rest).length ≤ 33) (hs : q.seq = cp.seq) (ha : Arrives env (hsReply q ty x (r0 :: rest)).bytes) :
    ∃ h, Holding cp (hsReply q ty x (r0 :: rest)) h ∧ CpM.processReply C cp env =
      CpM.response C { reload cp h with replyId := r0.toNat } env rest := by
  generalize hk : hsReply q ty x (r0 :: rest) = k at *
  obtain ⟨c1, c2, c3⟩ := ctl_cases true q.seq k.ctl (by
    rw [← hk]
    show (replyTx q).ctl = _
    unfold replyTx
    simp [hh])
  have hl := hsReply_length q ty x (r0 :: rest) hlen
  have ha' : k.addr = (i8 q.address &&& 0x7F#8) ||| 0x80#8 := by
    rw [← hk]
    show (if q.flags.broadcast then 0x7F#8 else i8 q.address &&& 0x7F#8) ||| 0x80#8 = _
    rw [hbc]; rfl
  have hF : CpM.FromPd cp k := by
    refine ⟨by rw [← hk]; omega, by rw [ha']; exact or80_bit _, c2, .inl ?_⟩
    unfold pktAddr
    rw [ha', or80_and, haddr, Phy.i8_addr _ (by omega)]
    omega
  have hdata : k.data = r0 :: rest := by rw [← hk]; rfl
  have hscb : k.scb = [3#8, ty, x] := by rw [← hk]; rfl
  have hdec := Phy.decodeFrame_handshake C cp k c2 c3 ty x hscb (by rcases hty with rfl | rfl <;> decide)
    (fun h => by rw [show cp.isPd = false from hcp] at h; cases h)
  have hns : Phy.noteScbkd cp ty x = cp := by
    unfold Phy.noteScbkd
    rw [if_neg]
    rintro ⟨h, -⟩
    rcases hty with rfl | rfl <;> revert h <;> decide
  rw [hdata, hns] at hdec
  exact (CpM.process_packet C cp cp k env r0 rest hcp hi hF (by rw [← hs]; exact c1) (by rw [hdata]; simp)
    (fun ⟨_, hu, _⟩ => by rw [hu] at hscb; cases hscb) ha hdec (fun _ => by rw [hscb]; show 2 ≤ 3; omega)).2

end Osdp.Link
