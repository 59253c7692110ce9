import Verif.Lemmas.SendAny
import Verif.Lemmas.CpTurn

/-! # A command from the CP to the PD and its reply back, in the clear or in a secure session -/

namespace Osdp.Link

open Spec.Wire
open Phy (Idle Arrives pktAddr pdAccept reload Held pktOf sendOuts anyData anySc Tx setSc SameSession)
open CpM (nextCmd cmdTx sentState commandBody)
open PdM (pdTx pdPkt Holding ForUs commanded)

/-- header of a command -/
def cpTx (p : Pd) (n : Nat) : Tx :=
  { mark := !p.flags.skipMark, misaligned := p.flags.hasMark && p.flags.skipMark
    addr := i8 p.address &&& 0x7F#8
    ctl := if p.scActive then b8 (Phy.seqBits (Phy.nextSeq p.seq true)) ||| Phy.CTL_CRC ||| Phy.CTL_SCB
      else b8 (Phy.seqBits (Phy.nextSeq p.seq true)) ||| Phy.CTL_CRC
    scb := if p.scActive then [2#8, if n > 1 then 0x17#8 else 0x15#8] else [] }

/-- the packet of a command -/
def cpPkt (C : Cipher) (p : Pd) (body : List Byte) : Packet := pktOf (cpTx p body.length) (anyData C p (cpTx p body.length) body)

/-- the CP and its PD -/
structure Ends (cp pd : Pd) : Prop where
  cpMode : cp.flags.pdMode = false
  pdMode : pd.flags.pdMode = true
  address : cp.address = pd.address
  range : 0 ≤ pd.address ∧ pd.address ≤ 126
  act : pd.scActive = cp.scActive
  same : cp.scActive = true → Phy.Meets cp.sc pd.sc
  capable : pd.scActive = true → pd.scCapable = true

theorem ctlBits (s : Int) (x : Byte) (hx : x ∈ [0x04#8, 0x0C#8]) :
    ((b8 (Phy.seqBits s) ||| x) : Byte).toNat % 4 = Phy.seqBits s ∧ Phy.hasBit (b8 (Phy.seqBits s) ||| x) Phy.CTL_CRC = true :=
  Phy.ctl_bits _ (by unfold Phy.seqBits; omega) _ hx

theorem ctl_or (n : Byte) : n ||| Phy.CTL_CRC ||| Phy.CTL_SCB = n ||| 0x0C#8 := by
  rw [BitVec.or_assoc]; rfl

theorem ctl_cases (a : Bool) (s : Int) (ctl : Byte)
    (h : ctl = if a then b8 (Phy.seqBits s) ||| Phy.CTL_CRC ||| Phy.CTL_SCB else b8 (Phy.seqBits s) ||| Phy.CTL_CRC) :
    ctl.toNat % 4 = Phy.seqBits s ∧ Phy.hasBit ctl Phy.CTL_CRC = true ∧ Phy.hasBit ctl Phy.CTL_SCB = a := by
  subst h
  have key : ∀ n < 4, ∀ a, Phy.hasBit (if a then b8 n ||| Phy.CTL_CRC ||| Phy.CTL_SCB else b8 n ||| Phy.CTL_CRC) Phy.CTL_SCB = a := by decide
  have h4 : Phy.seqBits s < 4 := by unfold Phy.seqBits; omega
  refine ⟨?_, ?_, key _ h4 a⟩
  · cases a
    · exact (ctlBits s 0x04#8 (by simp)).1
    · rw [if_pos rfl, ctl_or]; exact (ctlBits s 0x0C#8 (by simp)).1
  · cases a
    · exact (ctlBits s 0x04#8 (by simp)).2
    · rw [if_pos rfl, ctl_or]; exact (ctlBits s 0x0C#8 (by simp)).2

theorem and7f_bit (a : Byte) : Phy.hasBit (a &&& 0x7F#8) 0x80#8 = false := by revert a; decide +kernel
theorem or80_bit (a : Byte) : Phy.hasBit (a ||| 0x80#8) 0x80#8 = true := by revert a; decide +kernel
theorem or80_and (a : Byte) : ((a &&& 0x7F#8) ||| 0x80#8) &&& 0x7F#8 = a &&& 0x7F#8 := by revert a; decide +kernel
theorem and7f_and (a : Byte) : (a &&& 0x7F#8) &&& 0x7F#8 = a &&& 0x7F#8 := by revert a; decide +kernel

/-- A command packet of the CP is the command the PD executes. -/
theorem command_read (C : Cipher) (cp pd : Pd) (env : Env) (body : List Byte) (d0 : Byte) (rest : List Byte) (hbody : body = d0 :: rest)
    (E : Ends cp pd) (hi : Idle pd) (hfit : (cpPkt C cp body).bytes.length ≤ 256)
    (hs1 : -1 ≤ cp.seq ∧ cp.seq ≤ 3) (hs2 : -1 ≤ pd.seq ∧ pd.seq ≤ 3) (hs : cp.seq = pd.seq ∨ cp.seq = -1)
    (hs0 : cp.scActive = true → cp.seq ≠ -1) (ha : Arrives env (cpPkt C cp body).bytes) :
    ∃ h sc, Holding pd (cpPkt C cp body) h ∧ Phy.heard C pd env = some (d0, rest) ∧
      PdM.receiveAndProcess C pd env = commanded (reload (setSc (pdAccept pd (Phy.seqBits (Phy.nextSeq cp.seq true)) false) sc) h) env d0 rest ∧
      (pdAccept pd (Phy.seqBits (Phy.nextSeq cp.seq true)) false).scActive = cp.scActive ∧
      (cp.scActive = true → SameSession (anySc C cp (cpTx cp body.length) body) sc) ∧
      sc = { pd.sc with cMac := sc.cMac, rMac := sc.rMac } := by
  have hne : body ≠ [] := by rw [hbody]; simp
  obtain ⟨c1, c2, c3⟩ := ctl_cases cp.scActive (Phy.nextSeq cp.seq true) (cpTx cp body.length).ctl rfl
  have hseq : (cpPkt C cp body).seq = Phy.seqBits (Phy.nextSeq cp.seq true) := c1
  have hn : Phy.nextSeq cp.seq true = Spec.Seq.succ cp.seq ∧ 0 ≤ Phy.nextSeq cp.seq true ∧ Phy.nextSeq cp.seq true ≤ 3 ∧
      (Phy.nextSeq cp.seq true = 0 ↔ cp.seq = -1) := by
    unfold Phy.nextSeq Spec.Seq.succ
    rw [if_pos rfl]
    split <;> split <;> omega
  have hsb : (Phy.seqBits (Phy.nextSeq cp.seq true) : Int) = Phy.nextSeq cp.seq true := by unfold Phy.seqBits; omega
  have haddr : (pktAddr (cpPkt C cp body) : Int) = pd.address := by
    unfold pktAddr
    show (((i8 cp.address &&& 0x7F#8) &&& 0x7F#8).toNat : Int) = _
    rw [and7f_and, E.address, Phy.i8_addr _ (by have := E.range; omega)]
    have := E.range; omega
  have h127 : (pktAddr (cpPkt C cp body) == 127) = false := by
    have := E.range
    simp; omega
  have hF : ForUs pd (cpPkt C cp body) := by
    refine ⟨by omega, and7f_bit _, c2, .inl haddr, hs2, ?_⟩
    rw [hseq]
    unfold Spec.Seq.Acceptable
    rcases hs with h | h
    · right; right; rw [hsb, hn.1, h]
    · left
      have := hn.2.2.2.mpr h
      omega
  have hact : (pdAccept pd (Phy.seqBits (Phy.nextSeq cp.seq true)) false).scActive = cp.scActive := by
    show (pd.scActive && _ != 0) = _
    rw [E.act]
    cases hsc : cp.scActive with
    | false => rfl
    | true =>
      have := hs0 hsc
      simp
      intro h
      exact this (hn.2.2.2.mp (by omega))
  obtain ⟨sc, hdec, hss, hsc⟩ := Phy.decode_any C cp (pdAccept pd (Phy.seqBits (Phy.nextSeq cp.seq true)) false) (cpTx cp body.length) body hact
    (by show pd.flags.pdMode = !cp.flags.pdMode; rw [E.pdMode, E.cpMode]; rfl)
    (fun h _ => E.capable (by rw [E.act, ← hact]; exact h))
    (fun h => E.same h) (fun _ h => by have := E.cpMode; rw [show cp.isCp = !cp.flags.pdMode from rfl, this] at h; cases h) c2
    (fun h => ⟨c3.trans h, if body.length > 1 then 0x17#8 else 0x15#8, by unfold cpTx; rw [h]; rfl, by split <;> decide⟩)
    (fun h => ⟨c3.trans h, by unfold cpTx; rw [h]; rfl⟩) hne
    (by have := Phy.bytes_length (cpPkt C cp body); rw [← Phy.frame_length] at this; unfold cpPkt at this hfit; omega)
  have h8 : Phy.hasBit (cpPkt C cp body).ctl Phy.CTL_SCB = true → 2 ≤ (cpPkt C cp body).scb.length := fun h => by
    have hact : cp.scActive = true := c3.symm.trans h
    show 2 ≤ (cpTx cp body.length).scb.length
    unfold cpTx; rw [hact]; simp
  have hdec' : Phy.decodeFrame C (pdAccept pd (cpPkt C cp body).seq (pktAddr (cpPkt C cp body) == 127)) (cpPkt C cp body).frame =
      .ok (setSc (pdAccept pd (Phy.seqBits (Phy.nextSeq cp.seq true)) false) sc, ((d0 :: rest).length : Int), d0 :: rest) := by
    rw [hseq, h127, ← hbody]; exact hdec
  obtain ⟨h, hh1, hh2⟩ := PdM.receive_delivers C pd _ (cpPkt C cp body) env d0 rest E.pdMode hi hF ha hdec' h8
  refine ⟨h, sc, hh1, ?_, hh2, hact, hss, hsc⟩
  obtain ⟨t, ht⟩ := Phy.checkPacket_packet pd (cpPkt C cp body) env hi hF.len
    (by unfold Phy.dirOk; rw [hF.command]; show (false == !pd.flags.pdMode) = true; rw [E.pdMode]; rfl) ha
  rw [Phy.bodyFrame_packet pd _ hF.crc hF.addr,
    Phy.checkSeq_accept pd _ _ _ _ E.pdMode (by unfold Packet.seq; omega) hF.seqRange hF.seq] at ht
  obtain ⟨buf, data, hd2, htake, -⟩ := Phy.decodePacket_packet C pd _ _ (cpPkt C cp body) t _ _ h8 hdec'
  rw [Int.toNat_natCast] at htake
  have h0 : data[0]? = some d0 := by
    cases data with
    | nil => simp at htake
    | cons x l => simp at htake; rw [htake.1]; rfl
  rw [Phy.heard_of ht hd2 (by simp) h0]
  dsimp only
  rw [Int.toNat_natCast, htake]
  rfl

/-- A command the CP builds is sent, and is the command the PD executes. -/
theorem command_arrives (C : Cipher) (cp pd : Pd) (cb : Bool) (env env' : Env) (f : Option FileSt) (o : List Out) (body : List Byte) (d0 : Byte) (rest : List Byte) (hbody : body = d0 :: rest)
    (E : Ends cp pd) (hmis : (cp.flags.hasMark && cp.flags.skipMark) = false) (hps : cp.phyState = .sendCmd)
    (hbuf : cp.packetBuf.length = 256) (hi : Idle pd)
    (hm : 69 ≤ cp.txBufSize) (hh : Phy.inHandshake false cp.cmdId = false)
    (hb : commandBody C (nextCmd cp) env (cmdTx cp) (cp.txBufSize - (cmdTx cp).dataOff) =
      .ok ⟨{ nextCmd cp with file := f }, cmdTx cp, o, some body⟩)
    (hfit : (cpPkt C cp body).bytes.length ≤ cp.txBufSize) (hcap : 256 ≤ env.sendCap)
    (hs1 : -1 ≤ cp.seq ∧ cp.seq ≤ 3) (hs2 : -1 ≤ pd.seq ∧ pd.seq ≤ 3) (hs : cp.seq = pd.seq ∨ cp.seq = -1)
    (hs0 : cp.scActive = true → cp.seq ≠ -1) (ha : Arrives env' (cpPkt C cp body).bytes) :
    ∃ buf h sc, CpM.step C cp (.update cb env) = .ok (sentState { nextCmd cp with file := f, sc := anySc C cp (cpTx cp body.length) body, packetBuf := buf } env.now,
        o ++ sendOuts cp env (cpPkt C cp body).bytes) ∧ buf.length = 256 ∧
      Holding pd (cpPkt C cp body) h ∧ Phy.heard C pd env' = some (d0, rest) ∧
      PdM.receiveAndProcess C pd env' = commanded (reload (setSc (pdAccept pd (Phy.seqBits (Phy.nextSeq cp.seq true)) false) sc) h) env' d0 rest ∧
      (pdAccept pd (Phy.seqBits (Phy.nextSeq cp.seq true)) false).scActive = cp.scActive ∧
      (cp.scActive = true → SameSession (anySc C cp (cpTx cp body.length) body) sc) ∧
      sc = { pd.sc with cMac := sc.cMac, rMac := sc.rMac } := by
  have hne : body ≠ [] := by rw [hbody]; simp
  have hle : cp.txBufSize ≤ 256 := by unfold Pd.txBufSize; split <;> omega
  have htx : CpM.finalTx (cmdTx cp) { nextCmd cp with file := f } body.length = cpTx cp body.length := by
    unfold CpM.finalTx cmdTx cpTx
    have : Pd.scActive { nextCmd cp with file := f } = cp.scActive := rfl
    rw [hh, this]
    cases hsc : cp.scActive <;> simp
  obtain ⟨c1, c2, c3⟩ := ctl_cases cp.scActive (Phy.nextSeq cp.seq true) (cpTx cp body.length).ctl rfl
  obtain ⟨a1, a2⟩ := PdM.anyData_congr (C := C) (p := { nextCmd cp with file := f }) (q := cp) (cpTx cp body.length) body rfl rfl rfl
  obtain ⟨buf, hsend, hl⟩ := CpM.buildAndSend_any C cp env _ (cpTx cp body.length) body E.cpMode hm hbuf hb rfl rfl rfl htx hmis
    (fun h => ⟨h, c3.trans h, if body.length > 1 then 0x17#8 else 0x15#8, by unfold cpTx; rw [show cp.scActive = true from h]; rfl, by split <;> decide⟩)
    hne (by rw [a1]; exact hfit)
  rw [a1, a2] at hsend
  rw [decide_eq_true (show (pktOf (cpTx cp body.length) (anyData C cp (cpTx cp body.length) body)).bytes.length ≤ env.sendCap from Nat.le_trans (Nat.le_trans hfit hle) hcap)] at hsend
  obtain ⟨h, sc, hh1, hh2⟩ := command_read C cp pd env' body d0 rest hbody E hi (Nat.le_trans hfit hle) hs1 hs2 hs hs0 ha
  refine ⟨buf, h, sc, ?_, hl, hh1, hh2⟩
  show (CpM.stateUpdate C cb cp env >>= _) = _
  rw [CpM.update_send C cb cp env hps hsend]
  rfl

/-- the packet of a reply whose security block was chosen for a body of `n` bytes -/
def pdPktN (C : Cipher) (p : Pd) (n : Nat) (body : List Byte) : Packet := pktOf (pdTx p n) (anyData C p (pdTx p n) body)

/-- A reply the PD sends is the reply the CP reads. -/
theorem reply_read (C : Cipher) (q cp : Pd) (env : Env) (n : Nat) (body : List Byte) (r0 : Byte) (rest : List Byte) (hbody : body = r0 :: rest) (E : Ends cp q)
    (hcm : cp.scActive = true → cp.sc.cMac = q.sc.cMac) (hi : Idle cp) (hbc : q.flags.broadcast = false) (hlen : (pdPktN C q n body).bytes.length ≤ 256)
    (hs : Phy.seqBits q.seq = Phy.seqBits cp.seq) (hb : r0 ≠ b8 Id.BUSY) (ha : Arrives env (pdPktN C q n body).bytes) :
    Phy.heard C cp env = some (r0, rest) ∧
    ∃ h sc, Holding cp (pdPktN C q n body) h ∧
      CpM.processReply C cp env = CpM.response C { reload (setSc cp sc) h with replyId := r0.toNat } env rest ∧
      (cp.scActive = true → SameSession sc (anySc C q (pdTx q n) body)) ∧
      sc = { cp.sc with cMac := sc.cMac, rMac := sc.rMac } := by
  have hne : body ≠ [] := by rw [hbody]; simp
  obtain ⟨c1, c2, c3⟩ := ctl_cases q.scActive q.seq (pdTx q n).ctl rfl
  obtain ⟨sc, hdec, hss, hsc⟩ := Phy.decode_any C q cp (pdTx q n) body E.act.symm
    (by show cp.flags.pdMode = !q.flags.pdMode; rw [E.pdMode, E.cpMode]; rfl)
    (fun _ h => by rw [show cp.isPd = false from E.cpMode] at h; cases h)
    (fun h => (E.same (by rw [← E.act]; exact h)).symm) (fun h _ => (hcm (by rw [← E.act]; exact h)).symm) c2
    (fun h => ⟨c3.trans h, if n > 1 then 0x18#8 else 0x16#8, by unfold pdTx; rw [h]; rfl, by split <;> decide⟩)
    (fun h => ⟨c3.trans h, by unfold pdTx; rw [h]; rfl⟩) hne
    (by have := Phy.bytes_length (pdPktN C q n body); rw [← Phy.frame_length] at this; unfold pdPktN at this hlen; omega)
  have haddr : (pdPktN C q n body).addr = (i8 q.address &&& 0x7F#8) ||| 0x80#8 := by
    show (if q.flags.broadcast then 0x7F#8 else i8 q.address &&& 0x7F#8) ||| 0x80#8 = _
    rw [hbc]; rfl
  have hF : CpM.FromPd cp (pdPktN C q n body) := by
    refine ⟨hlen, by rw [haddr]; exact or80_bit _, c2, .inl ?_⟩
    unfold pktAddr
    rw [haddr, or80_and, E.address, Phy.i8_addr _ (by have := E.range; omega)]
    have := E.range; omega
  have hdata : (pdPktN C q n body).data.head? = some r0 := by
    show (anyData C q (pdTx q n) body).head? = _
    unfold anyData Phy.securedData Phy.cipherData
    rw [hbody]
    split
    · split <;> rfl
    · rfl
  have hdne : (pdPktN C q n body).data ≠ [] := by
    intro h; rw [h] at hdata; cases hdata
  obtain ⟨h1, h, hh1, hh2⟩ := CpM.process_packet C cp (setSc cp sc) (pdPktN C q n body) env r0 rest E.cpMode hi hF (c1.trans hs) hdne
    (fun ⟨_, _, hu⟩ => by rw [hu] at hdata; injection hdata with hdata; exact hb hdata.symm) ha (by rw [← hbody]; exact hdec)
    (fun h => by
      have hact : q.scActive = true := c3.symm.trans h
      show 2 ≤ (pdTx q n).scb.length
      unfold pdTx; rw [hact]; simp)
  exact ⟨h1, h, sc, hh1, hh2, fun h => (hss (by rw [E.act]; exact h)).symm, hsc⟩

end Osdp.Link
