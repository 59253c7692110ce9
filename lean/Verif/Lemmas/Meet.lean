import Verif.Lemmas.HandshakeEnds
import Verif.Props.C32

/-! # A CP asks a PD for its identity and its capabilities -/

namespace Osdp.Link

open Spec.Wire
open Phy (Idle Arrives pktAddr pdAccept reload Held pktOf sendOuts Tx setSc)
open CpM (nextCmd cmdTx sentState commandBody plainCmd)
open PdM (Holding ForUs commanded unbc replyTx replyBody plainReply)

/-- A CP and its PD that can talk in the clear, whatever the PD still believes about an older session -/
structure Couple (cp pd : Pd) : Prop where
  cpMode : cp.flags.pdMode = false
  pdMode : pd.flags.pdMode = true
  address : cp.address = pd.address
  range : 0 ≤ pd.address ∧ pd.address ≤ 126
  cpIdle : Idle cp
  pdIdle : Idle pd
  clear : cp.scActive = false
  /-- neither end announced a receive buffer too small for any packet -/
  cpTx : 69 ≤ cp.txBufSize
  pdTx : 69 ≤ pd.txBufSize
  mark : (cp.flags.hasMark && cp.flags.skipMark) = false
  bc : pd.flags.broadcast = false
  cpSeq : -1 ≤ cp.seq ∧ cp.seq ≤ 3
  pdSeq : -1 ≤ pd.seq ∧ pd.seq ≤ 3
  seq : cp.seq = pd.seq ∨ cp.seq = -1
  fresh : pd.scActive = false ∨ cp.seq = -1

theorem Couple.expire {cp pd : Pd} (P : Couple cp pd) (now : Int) : Couple cp (PdM.expire pd now) := by
  unfold PdM.expire
  split
  · exact ⟨P.cpMode, P.pdMode, P.address, P.range, P.cpIdle, ⟨P.pdIdle.bufLen, P.pdIdle.len, P.pdIdle.buf, P.pdIdle.rx⟩, P.clear,
      P.cpTx, P.pdTx, P.mark, P.bc, P.cpSeq, P.pdSeq, P.seq, .inl rfl⟩
  · exact P

/-- the two questions -/
def Question (id : Nat) : Prop := id = Id.ID ∨ id = Id.CAP

theorem plainCmd_length (cp : Pd) (id : Nat) : (plainCmd cp [b8 id, 0#8]).bytes.length ≤ 10 := by
  rw [Phy.bytes_length]
  have : (plainCmd cp [b8 id, 0#8]).len = 5 + 0 + 2 + 2 := rfl
  split <;> omega

theorem cmdTx_plain {cp : Pd} (hc : cp.scActive = false) (hh : Phy.inHandshake false cp.cmdId = false)
    (hm : (cp.flags.hasMark && cp.flags.skipMark) = false) (body : List Byte) :
    pktOf (cmdTx cp) body = plainCmd cp body ∧ (cmdTx cp).scb = [] ∧ (cmdTx cp).misaligned = false := by
  have e : cmdTx cp = ⟨!cp.flags.skipMark, false, i8 cp.address &&& 0x7F#8, b8 (Phy.seqBits (Phy.nextSeq cp.seq true)) ||| Phy.CTL_CRC, []⟩ := by
    unfold cmdTx
    rw [hc, hh, hm]; simp
  rw [e]
  exact ⟨rfl, rfl, rfl⟩

/-- The CP sends its question. -/
theorem cp_asks (C : Cipher) (cp pd : Pd) (cb : Bool) (env : Env) (P : Couple cp pd) (hps : cp.phyState = .sendCmd)
    (hq : Question cp.cmdId) (hcap : 256 ≤ env.sendCap) :
    ∃ buf, CpM.step C cp (.update cb env) = .ok (sentState { nextCmd cp with packetBuf := buf } env.now,
        sendOuts cp env (plainCmd cp [b8 cp.cmdId, 0#8]).bytes) ∧ buf.length = 256 := by
  have hh : Phy.inHandshake false cp.cmdId = false := by rcases hq with h | h <;> rw [h] <;> rfl
  have hle : cp.txBufSize ≤ 256 := by unfold Pd.txBufSize; split <;> omega
  have hl := plainCmd_length cp cp.cmdId
  obtain ⟨k1, k2, k3⟩ := cmdTx_plain P.clear hh P.mark [b8 cp.cmdId, 0#8]
  have hc : Pd.scActive (nextCmd cp) = false := P.clear
  have hb : commandBody C (nextCmd cp) env (cmdTx cp) (cp.txBufSize - (cmdTx cp).dataOff) =
      .ok { p := nextCmd cp, t := cmdTx cp, body := some [b8 cp.cmdId, 0#8] } := by
    have ha : PdM.assertLen 2 ((cp.txBufSize : Int) - (cmdTx cp).dataOff) = .ok () :=
      if_pos (by have := P.cpTx; have := CpM.cmdTx_dataOff cp; omega)
    unfold commandBody
    dsimp only
    rw [show (nextCmd cp).cmdId = cp.cmdId from rfl]
    rw [if_neg (by rcases hq with h | h <;> rw [h] <;> decide), if_pos (show cp.cmdId = Id.ID ∨ cp.cmdId = Id.CAP from hq), ha]
    rfl
  have hd : Phy.anyData C (nextCmd cp) (cmdTx cp) [b8 cp.cmdId, 0#8] = [b8 cp.cmdId, 0#8] := by
    unfold Phy.anyData; rw [hc]; rfl
  have hs : Phy.anySc C (nextCmd cp) (cmdTx cp) [b8 cp.cmdId, 0#8] = cp.sc := by
    unfold Phy.anySc; rw [hc]; rfl
  have hfit : (pktOf (cmdTx cp) [b8 cp.cmdId, 0#8]).bytes.length ≤ cp.txBufSize := by rw [k1]; have := P.cpTx; omega
  obtain ⟨buf, hsend, hbl⟩ := CpM.buildAndSend_any C cp env _ (cmdTx cp) _ P.cpMode P.cpTx P.cpIdle.buf hb rfl rfl rfl
    (by unfold CpM.finalTx; dsimp only; rw [k2]; rfl) k3 (fun h => by rw [hc] at h; cases h) (by simp) (by rw [hd]; exact hfit)
  rw [hd, hs] at hsend
  rw [decide_eq_true (show (pktOf (cmdTx cp) [b8 cp.cmdId, 0#8]).bytes.length ≤ env.sendCap by omega), k1] at hsend
  refine ⟨buf, ?_, hbl⟩
  show (CpM.stateUpdate C cb cp env >>= _) = _
  rw [CpM.update_send C cb cp env hps hsend]
  rfl

/-- The PD takes the question from the line. -/
theorem pd_reads (C : Cipher) (cp pd : Pd) (env : Env) (P : Couple cp pd) (ha : Arrives env (plainCmd cp [b8 cp.cmdId, 0#8]).bytes) :
    ∃ h, Holding pd (plainCmd cp [b8 cp.cmdId, 0#8]) h ∧ PdM.receiveAndProcess C pd env =
      commanded (reload (pdAccept pd (Phy.seqBits (Phy.nextSeq cp.seq true)) false) h) env (b8 cp.cmdId) [0#8] := by
  have hl := plainCmd_length cp cp.cmdId
  generalize hk : plainCmd cp [b8 cp.cmdId, 0#8] = k at *
  obtain ⟨c1, c2, c3⟩ := ctl_cases false (Phy.nextSeq cp.seq true) k.ctl (by rw [← hk]; rfl)
  have hseq : k.seq = Phy.seqBits (Phy.nextSeq cp.seq true) := c1
  have hn : Phy.nextSeq cp.seq true = Spec.Seq.succ cp.seq ∧ 0 ≤ Phy.nextSeq cp.seq true ∧ Phy.nextSeq cp.seq true ≤ 3 ∧
      (Phy.nextSeq cp.seq true = 0 ↔ cp.seq = -1) := by
    have := P.cpSeq
    unfold Phy.nextSeq Spec.Seq.succ
    rw [if_pos rfl]
    split <;> split <;> omega
  have hsb : (Phy.seqBits (Phy.nextSeq cp.seq true) : Int) = Phy.nextSeq cp.seq true := by unfold Phy.seqBits; omega
  have haddr : (pktAddr k : Int) = pd.address := by
    rw [← hk]
    unfold pktAddr
    show (((i8 cp.address &&& 0x7F#8) &&& 0x7F#8).toNat : Int) = _
    rw [and7f_and, P.address, Phy.i8_addr _ (by have := P.range; omega)]
    have := P.range; omega
  have h127 : (pktAddr k == 127) = false := by
    have := P.range
    simp; omega
  have hF : ForUs pd k := by
    refine ⟨by omega, by rw [← hk]; exact and7f_bit _, c2, .inl haddr, P.pdSeq, ?_⟩
    rw [hseq]
    unfold Spec.Seq.Acceptable
    rcases P.seq with h | h
    · right; right; rw [hsb, hn.1, h]
    · left
      have := hn.2.2.2.mpr h
      omega
  obtain ⟨h, h1, h2⟩ := PdM.receive_plain C pd k env (b8 cp.cmdId) [0#8] P.pdMode P.pdIdle hF ha c3 (by rw [← hk]; rfl) (by rw [← hk]; rfl)
    (P.fresh.imp_right fun h => by rw [hseq]; have := hn.2.2.2.mpr h; omega)
  refine ⟨h, h1, ?_⟩
  rw [h2, hseq, h127]

/-- The PD sends a reply in the clear. -/
theorem pd_says (C : Cipher) (p : Pd) (env : Env) (b : PdM.Built) (body : List Byte) (hp : p.flags.pdMode = true)
    (hsc : p.scActive = false) (hh : Phy.inHandshake true p.replyId = false) (hm : 69 ≤ p.txBufSize) (hbuf : p.packetBuf.length = 256)
    (hcap : 256 ≤ env.sendCap) (hne : body ≠ []) (hlen : body.length ≤ 61) (hnk : p.cmdId ≠ Id.KEYSET)
    (hb : replyBody C (unbc p) env (replyTx p) (p.txBufSize - (replyTx p).dataOff) = .ok b)
    (ht : b.t = replyTx p) (hbb : b.p.packetBuf = p.packetBuf)
    (hbf : b.p.hasFlush = p.hasFlush) (hbc : b.p.cmdId = p.cmdId) (hbo : b.outs = []) (hbody : b.body = .ok body) :
    ∃ buf, PdM.finish C p env .none = .ok ((Phy.stateReset { b.p with packetBuf := buf } false).1,
        sendOuts p env (plainReply p body).bytes) ∧ buf.length = 256 := by
  have hle : p.txBufSize ≤ 256 := by unfold Pd.txBufSize; split <;> omega
  have hl : (plainReply p body).bytes.length ≤ 69 := Nat.le_trans (PdM.plainReply_length p body) (by omega)
  have etx : replyTx p = ⟨p.flags.hasMark, false, (plainReply p body).addr, (plainReply p body).ctl, []⟩ := by
    unfold replyTx plainReply
    rw [hsc, hh]; simp
  have epk : pktOf (replyTx p) body = plainReply p body := by rw [etx]; rfl
  obtain ⟨buf, hs, hbl⟩ := Phy.sendPacket_clear C b.p env (replyTx p) body p.txBufSize
    (Bool.eq_false_iff.mpr fun h => by
      obtain ⟨-, -, ty', h1, -⟩ := (Phy.secured_iff _ _).mp h
      rw [etx] at h1; cases h1) (by rw [etx]) hne hle (by rw [hbb]; exact hbuf) (by rw [epk]; omega)
  have e2 : sendOuts b.p env (pktOf (replyTx p) body).bytes = sendOuts p env (plainReply p body).bytes := by
    unfold sendOuts; rw [hbf, epk]
  have e3 : PdM.finalTx b.t b.p body.length = replyTx p := by
    rw [ht]
    unfold PdM.finalTx
    rw [etx]
    rfl
  have e4 : PdM.buildReply C (unbc p) env (replyTx p) p.txBufSize = .ok (b.p, replyTx p, b.outs, body) := by
    have : PdM.buildReply C (unbc p) env (replyTx p) p.txBufSize = .ok (b.p, PdM.finalTx b.t b.p body.length, b.outs, body) := by
      unfold PdM.buildReply PdM.finalTx
      dsimp only
      rw [hb]
      simp only [Res.ok_bind, hbody]
      rfl
    rw [this, e3]
  have hsr : PdM.sendReply C p env = .ok ({ b.p with packetBuf := buf }, sendOuts p env (plainReply p body).bytes, true) := by
    unfold PdM.sendReply
    dsimp only
    rw [PdM.packetInit_pd hp, if_neg (by omega)]
    dsimp only
    rw [e4]
    simp only [Res.ok_bind]
    rw [hs, decide_eq_true (show (pktOf (replyTx p) body).bytes.length ≤ env.sendCap by rw [epk]; omega)]
    simp only [Res.ok_bind, e2, hbo]
    rfl
  refine ⟨buf, ?_, hbl⟩
  have htch : PdM.touch p .none env.now = p := by unfold PdM.touch; rw [hsc]; simp
  unfold PdM.finish
  rw [if_neg (by decide), if_neg (by simp), if_neg (by decide), htch, hsr]
  simp only [Res.ok_bind]
  have haft : PdM.afterSend { b.p with packetBuf := buf } true = .ok (Phy.stateReset { b.p with packetBuf := buf } false).1 := by
    unfold PdM.afterSend PdM.commitKeyset
    rw [if_pos rfl, if_neg (fun h => hnk (hbc.symm.trans h.1))]
    rfl
  rw [haft]
  rfl

/-- The CP takes a reply in the clear from the line. -/
theorem cp_hears (C : Cipher) (q cp : Pd) (env : Env) (r0 : Byte) (rest : List Byte) (hcp : cp.flags.pdMode = false)
    (haddr : cp.address = q.address) (hr : 0 ≤ q.address ∧ q.address ≤ 126) (hi : Idle cp) (hbc : q.flags.broadcast = false)
    (hact : cp.scActive = false) (hlen : (r0 :: rest).length ≤ 61) (hbusy : r0 ≠ b8 Id.BUSY)
    (hs : q.seq = cp.seq) (ha : Arrives env (plainReply q (r0 :: rest)).bytes) :
    ∃ h, Holding cp (plainReply q (r0 :: rest)) h ∧ CpM.processReply C cp env =
      CpM.response C { reload cp h with replyId := r0.toNat } env rest := by
  have hl := PdM.plainReply_length q (r0 :: rest)
  generalize hk : plainReply q (r0 :: rest) = k at *
  obtain ⟨c1, c2, c3⟩ := ctl_cases false q.seq k.ctl (by rw [← hk]; rfl)
  have ha' : k.addr = (i8 q.address &&& 0x7F#8) ||| 0x80#8 := by
    rw [← hk]
    show (if q.flags.broadcast then 0x7F#8 else i8 q.address &&& 0x7F#8) ||| 0x80#8 = _
    rw [hbc]; rfl
  have hF : CpM.FromPd cp k := by
    refine ⟨by omega, by rw [ha']; exact or80_bit _, c2, .inl ?_⟩
    unfold pktAddr
    rw [ha', or80_and, haddr, Phy.i8_addr _ (by omega)]
    omega
  have hdata : k.data = r0 :: rest := by rw [← hk]; rfl
  have hdec := Phy.decodeFrame_plain C cp k c2 c3 (by rw [← hk]; rfl) r0 (by rw [hdata]; rfl)
    (by unfold Phy.plainRefused; rw [hact]; simp)
  rw [hdata] at hdec
  exact (CpM.process_packet C cp cp k env r0 rest hcp hi hF (by rw [← hs]; exact c1) (by rw [hdata]; simp)
    (fun ⟨_, _, hu⟩ => hbusy (by rw [hdata] at hu; injection hu)) ha hdec (fun h => by rw [c3] at h; cases h)).2

end Osdp.Link

namespace Osdp.Link

open Spec.Wire
open Phy (Idle Arrives pktAddr pdAccept reload Held pktOf sendOuts Tx setSc)
open CpM (nextCmd cmdTx sentState commandBody plainCmd)
open PdM (Holding ForUs commanded unbc replyTx replyBody plainReply)

/-- What the PD is like while it replies (`q0`) and afterwards (`q`). -/
structure Shown (pd q0 q : Pd) (m : Bool) (s : Int) : Prop where
  mark : q0.flags.hasMark = m
  address : q0.address = pd.address
  bc : q0.flags.broadcast = false
  seq : q0.seq = s
  flags : q.flags = { pd.flags with scActive := false, broadcast := false, hasMark := q.flags.hasMark }
  sc : q.sc = pd.sc
  seq' : q.seq = s
  address' : q.address = pd.address
  cap : q.cap = pd.cap
  id : q.id = pd.id
  peerRx : q.peerRx = pd.peerRx
  idle : Idle q

/-- the answer to a question -/
def Explains (pd : Pd) (id : Nat) (r : List Byte) : Prop :=
  id = Id.ID ∧ r = PdM.pdidBody pd.id ∨
  id = Id.CAP ∧ ∃ room : Int, 48 ≤ room ∧ r = b8 Id.PDCAP :: PdM.capEntries pd.cap PdM.capIdx room

theorem capEntries_length (cap : Fin 17 → Cap) (is : List (Fin 17)) (room : Int) : (PdM.capEntries cap is room).length ≤ 3 * is.length := by
  induction is generalizing room with
  | nil => simp [PdM.capEntries]
  | cons i is ih =>
    unfold PdM.capEntries
    split
    · have := ih (room := room); simp only [List.length_cons]; omega
    · split
      · simp
      · have := ih (room := room - 3); simp only [List.length_cons] at *; omega

theorem Explains.length {pd : Pd} {id : Nat} {r : List Byte} (h : Explains pd id r) : r.length ≤ 61 ∧ r ≠ [] := by
  rcases h with ⟨-, rfl⟩ | ⟨-, room, -, rfl⟩
  · exact ⟨by unfold PdM.pdidBody; simp, by unfold PdM.pdidBody; simp⟩
  · have := capEntries_length pd.cap PdM.capIdx room
    rw [show PdM.capIdx.length = 16 from rfl] at this
    exact ⟨by rw [List.length_cons]; omega, by simp⟩

/-- The PD answers the question. -/
theorem pd_explains (C : Cipher) (cp pd : Pd) (env : Env) (P : Couple cp pd) (hq : Question cp.cmdId) (hcap : 256 ≤ env.sendCap)
    (ha : Arrives env (plainCmd cp [b8 cp.cmdId, 0#8]).bytes) :
    ∃ q0 q r, PdM.step C pd (.refresh env) = .ok (q, sendOuts q0 env (plainReply q0 r).bytes) ∧
      Shown pd q0 q (!cp.flags.skipMark) (Phy.nextSeq cp.seq true) ∧ Explains pd cp.cmdId r := by
  have PE := P.expire env.now
  obtain ⟨h, hH, hrec⟩ := pd_reads C cp (PdM.expire pd env.now) env PE ha
  have hseq : (Phy.seqBits (Phy.nextSeq cp.seq true) : Int) = Phy.nextSeq cp.seq true ∧ (cp.seq = -1 → Phy.seqBits (Phy.nextSeq cp.seq true) = 0) := by
    have := P.cpSeq
    unfold Phy.nextSeq
    rw [if_pos rfl]
    unfold Phy.seqBits
    split <;> constructor <;> omega
  generalize hX : reload _ h = X at hrec
  have hXe : X = { pd with
      seq := (Phy.seqBits (Phy.nextSeq cp.seq true) : Int), packetBuf := h.buf, packetBufLen := h.bufLen, packetLen := h.len, tstamp := h.ts, rx := h.rx,
      flags := { pd.flags with scActive := false, broadcast := false, hasMark := h.mark } } := by
    rw [← hX]
    have hb := P.bc
    have hf := P.fresh
    have : ∃ a, PdM.expire pd env.now = { pd with flags := { pd.flags with scActive := a } } ∧ (pd.scActive = false → a = false) := by
      unfold PdM.expire
      split
      · exact ⟨false, rfl, fun _ => rfl⟩
      · exact ⟨pd.flags.scActive, rfl, id⟩
    obtain ⟨a, h1, h2⟩ := this
    rw [h1]
    have ha : (a && Phy.seqBits (Phy.nextSeq cp.seq true) != 0) = false := by
      rcases hf with h | h
      · rw [h2 h]; rfl
      · rw [hseq.2 h]; simp
    unfold pdAccept reload
    simp only [hb, ha, Bool.false_or]
  have hid : (b8 cp.cmdId).toNat = cp.cmdId := by rcases hq with h | h <;> rw [h] <;> rfl
  let rep : Nat := if cp.cmdId = Id.ID then Id.PDID else Id.PDCAP
  let q0 : Pd := { PdM.noteCmd X (b8 cp.cmdId) with replyId := rep }
  have hdis : commanded X env (b8 cp.cmdId) [0#8] = .ok (q0, [], .none) := by
    have hc : (PdM.noteCmd X (b8 cp.cmdId)).cmdId = cp.cmdId := hid
    unfold commanded
    rw [if_neg (by
      unfold PdM.plainRefused
      rw [hc]
      rcases hq with h | h <;> rw [h] <;> simp)]
    unfold PdM.dispatch
    dsimp only
    rw [hc]
    show _ = Except.ok (({ PdM.noteCmd X (b8 cp.cmdId) with replyId := if cp.cmdId = Id.ID then Id.PDID else Id.PDCAP } : Pd), _, _)
    rcases hq with h | h <;> rw [h] <;> repeat rw [if_neg (by decide)]
    all_goals rw [if_pos rfl]; rfl
  have hq1 : q0.scActive = false := by show X.flags.scActive = _; rw [hXe]
  have hq2 : q0.flags.pdMode = true := by show X.flags.pdMode = true; rw [hXe]; exact P.pdMode
  have hq3 : q0.txBufSize = pd.txBufSize := by show X.txBufSize = _; rw [hXe]; rfl
  have hq4 : q0.packetBuf = h.buf := by show X.packetBuf = _; rw [hXe]
  have hm : 69 ≤ q0.txBufSize := by rw [hq3]; exact P.pdTx
  have hhs : Phy.inHandshake true q0.replyId = false := by
    show Phy.inHandshake true rep = false
    show Phy.inHandshake true (if _ then _ else _) = false
    split <;> rfl
  have hoff : (replyTx q0).dataOff ≤ 6 := by
    unfold Phy.Tx.dataOff replyTx
    rw [hq1, hhs]
    simp
    split <;> omega
  obtain ⟨r, hr⟩ : ∃ r, r = if cp.cmdId = Id.ID then PdM.pdidBody pd.id else
      b8 Id.PDCAP :: PdM.capEntries pd.cap PdM.capIdx ((q0.txBufSize : Int) - (replyTx q0).dataOff) := ⟨_, rfl⟩
  have hAns : Explains pd cp.cmdId r := by
    rcases hq with h | h
    · exact .inl ⟨h, by rw [hr, if_pos h]⟩
    · refine .inr ⟨h, (q0.txBufSize : Int) - (replyTx q0).dataOff, by omega, ?_⟩
      rw [hr, h, if_neg (by decide)]
  have hb : replyBody C (unbc q0) env (replyTx q0) (q0.txBufSize - (replyTx q0).dataOff) =
      .ok { p := unbc q0, t := replyTx q0, body := .ok r } := by
    have ha : ∀ n : Int, n ≤ 13 → PdM.assertLen n ((q0.txBufSize : Int) - (replyTx q0).dataOff) = .ok () := fun n hn => if_pos (by omega)
    have hid' : (unbc q0).id = pd.id := by show X.id = _; rw [hXe]
    have hcap' : (unbc q0).cap = pd.cap := by show X.cap = _; rw [hXe]
    rw [hr]
    unfold replyBody
    dsimp only
    rw [show (unbc q0).replyId = if cp.cmdId = Id.ID then Id.PDID else Id.PDCAP from rfl, hid', hcap']
    rcases hq with h | h <;> rw [h]
    · rw [if_pos rfl, if_pos rfl, if_neg (by decide), if_pos rfl, ha 13 (by omega)]
      rfl
    · rw [if_neg (by decide), if_neg (by decide), if_pos (by decide), ha 1 (by omega)]
      rfl
  obtain ⟨hrl, hrn⟩ := hAns.length
  obtain ⟨buf, hfin, hbl⟩ := pd_says C q0 env _ r hq2 hq1 hhs hm (by rw [hq4]; exact hH.buf) hcap hrn hrl
    (by show (b8 cp.cmdId).toNat ≠ _; rw [hid]; rcases hq with h | h <;> rw [h] <;> decide) hb rfl rfl rfl rfl rfl rfl
  have href : PdM.step C pd (.refresh env) = PdM.finish C q0 env .none >>= fun x => .ok (x.1, x.2) := by
    show PdM.refresh C pd env = _
    unfold PdM.refresh
    rw [hrec, hdis]
    rfl
  rw [hfin] at href
  refine ⟨q0, _, r, href, ⟨by show X.flags.hasMark = _; rw [hXe]; exact hH.mark, ?_, ?_, ?_, ?_, ?_, ?_, ?_, ?_, ?_, ?_, ⟨rfl, rfl, hbl, ?_⟩⟩, hAns⟩
  · show X.address = _; rw [hXe]
  · show X.flags.broadcast = _; rw [hXe]
  · show X.seq = _; rw [hXe]; exact hseq.1
  · show ({ X.flags with broadcast := false } : Flags) =
      { pd.flags with scActive := false, broadcast := false, hasMark := X.flags.hasMark }
    rw [hXe]
  · show X.sc = _; rw [hXe]
  · show X.seq = _; rw [hXe]; exact hseq.1
  · show X.address = _; rw [hXe]
  · show X.cap = _; rw [hXe]
  · show X.id = _; rw [hXe]
  · show X.peerRx = _; rw [hXe]
  · show X.rx = _; rw [hXe]; exact hH.rx

end Osdp.Link

namespace Osdp.Link

open Spec.Wire Spec.Ident
open Phy (Idle Arrives reload sendOuts)
open CpM (nextCmd sentState plainCmd)
open PdM (plainReply)

/-- What the CP is like when it has understood the reply `q0` sent; `d` is what it learnt. -/
structure Learnt (q0 cp q : Pd) (fl : Flags) : Prop where
  phy : q.phyState = .idle
  flags : q.flags = { fl with hasMark := q0.flags.hasMark }
  address : q.address = cp.address
  seq : q.seq = cp.seq
  idle : Idle q
  offline : q.reqOffline = cp.reqOffline
  event : q.reqEventSend = cp.reqEventSend

theorem notify_question {cb : Bool} {p : Pd} (h : Question p.cmdId) (st : Bool) : CpM.notifyCommand cb p st = [] := by
  have : CpM.appCmd p = none := by
    unfold CpM.appCmd
    rcases h with h | h <;> rw [h] <;> rfl
  unfold CpM.notifyCommand
  rw [this]

theorem init_settles {cb : Bool} {d : Pd} {env : Env} (hd : d.phyState = .done) (hst : d.state = .init) (hid : d.cmdId = Id.ID)
    (hr : d.replyId = Id.PDID) : CpM.settle cb d env = .ok ({ d with packetBufLen := 0, packetLen := 0, phyState := .idle, state := .capdet }, []) := by
  rw [settle_done hd (by unfold CpM.stateCheckReply; rw [hst, hr]; rfl) (notify_question (.inl hid) true), hst]
  rw [CpM.advance_ok (n := .capdet) (o := []) (p1 := (Phy.stateReset d false).1)
    (by unfold CpM.nextOk; rw [show (Phy.stateReset d false).1.state = .init from hst])
    (by rw [show (Phy.stateReset d false).1.state = .init from hst]; decide) (by decide)]
  rfl

theorem capdet_settles {cb : Bool} {d : Pd} {env : Env} (hd : d.phyState = .done) (hst : d.state = .capdet) (hid : d.cmdId = Id.CAP)
    (hr : d.replyId = Id.PDCAP) (hc : d.scCapable = true) : CpM.settle cb d env = .ok ({ d with
      packetBufLen := 0, packetLen := 0, phyState := .idle, state := .scChlng, sc := Sc.setup d.flags.hasScbk env.random d.sc
      flags := { d.flags with useScbkd := false } }, []) := by
  rw [settle_done hd (by unfold CpM.stateCheckReply; rw [hst, hr]; rfl) (notify_question (.inr hid) true), hst]
  rw [CpM.advance_ok (n := .scChlng) (o := []) (p1 := CpM.setUseScbkd (Phy.stateReset d false).1 false)
    (by unfold CpM.nextOk; rw [show (Phy.stateReset d false).1.state = .capdet from hst]
        dsimp only
        rw [if_pos (show (Phy.stateReset d false).1.scCapable = true from hc)])
    (by show d.state ≠ _; rw [hst]; decide) (by decide)]
  rfl

/-- without the secure channel -/
theorem capdet_online {cb : Bool} {d : Pd} {env : Env} (hd : d.phyState = .done) (hst : d.state = .capdet) (hid : d.cmdId = Id.CAP)
    (hr : d.replyId = Id.PDCAP) (hc : d.scCapable = false) (he : d.flags.enforceSecure = false)
    (h1 : d.reqRestartSc = false) (h2 : d.reqOffline = false) (h3 : d.reqEventSend = false) :
    ∃ o, CpM.settle cb d env = .ok ({ d with packetBufLen := 0, packetLen := 0, phyState := .idle, state := .online }, o) := by
  rw [settle_done hd (by unfold CpM.stateCheckReply; rw [hst, hr]; rfl) (notify_question (.inr hid) true), hst]
  unfold CpM.advance
  rw [if_pos rfl]
  unfold CpM.nextOk
  rw [show (Phy.stateReset d false).1.state = .capdet from hst]
  dsimp only
  rw [if_neg (by show ¬ d.scCapable = true; rw [hc]; decide), if_neg (by show ¬ d.flags.enforceSecure = true; rw [he]; decide)]
  simp only [Res.ok_bind]
  rw [requests_quiet (p := (Phy.stateReset d false).1) h1 h2 h3]
  simp only [Res.ok_bind]
  rw [if_pos (by decide)]
  exact ⟨_, rfl⟩

theorem answered_step {C : Cipher} {cb : Bool} {p q q' : Pd} {env : Env} {o o' : List Out} (hps : p.phyState = .replyWait)
    (hr : CpM.processReply C p env = .ok (q, o, .none))
    (hset : CpM.settle cb { q with tstamp := env.now, scTstamp := if q.scActive then env.now else q.scTstamp, phyState := .done } env = .ok (q', o')) :
    CpM.step C p (.update cb env) = .ok (q', o ++ o') := by
  show (CpM.stateUpdate C cb p env >>= _) = _
  rw [update_answered hps hr, hset]
  rfl

/-- The CP hears who the PD is. -/
theorem cp_learns_id (C : Cipher) (q0 cp : Pd) (cb : Bool) (env : Env) (i : PdId) (hcp : cp.flags.pdMode = false)
    (haddr : cp.address = q0.address) (hr : 0 ≤ q0.address ∧ q0.address ≤ 126) (hi : Idle cp) (hbc : q0.flags.broadcast = false)
    (hact : cp.scActive = false) (hs : q0.seq = cp.seq) (hps : cp.phyState = .replyWait) (hst : cp.state = .init) (hid : cp.cmdId = Id.ID)
    (ha : Arrives env (plainReply q0 (PdM.pdidBody i)).bytes) :
    ∃ q, CpM.step C cp (.update cb env) = .ok (q, []) ∧ q.state = .capdet ∧ q.sc = cp.sc ∧ q.peerRx = cp.peerRx ∧ q.cap = cp.cap ∧
      q.id = carried i ∧ Learnt q0 cp q cp.flags := by
  obtain ⟨h, hH, hrd⟩ := cp_hears C q0 cp env (b8 Id.PDID) (PdM.pdidBody i).tail hcp haddr hr hi hbc hact
    (by unfold PdM.pdidBody; simp) (by decide) hs ha
  have hresp : CpM.processReply C cp env = .ok ({ reload cp h with replyId := Id.PDID, id := carried i }, [], .none) := by
    rw [hrd]
    unfold CpM.response
    dsimp only
    rw [show (b8 Id.PDID).toNat = Id.PDID from rfl, if_neg (by decide), if_neg (by decide), if_pos rfl, pdid_carried]
  have hset := init_settles (cb := cb) (env := env)
    (d := { reload cp h with replyId := Id.PDID, id := carried i, tstamp := env.now
                             scTstamp := if cp.scActive then env.now else cp.scTstamp, phyState := .done }) rfl hst hid rfl
  exact ⟨_, answered_step hps hresp hset, rfl, rfl, rfl, rfl, rfl, ⟨rfl, by rw [← show h.mark = q0.flags.hasMark from hH.mark]; rfl, rfl, rfl, ⟨rfl, rfl, hH.buf, hH.rx⟩, rfl, rfl⟩⟩

/-- what the CP's table of capabilities says after the reply -/
def capsFrom (cp pd : Pd) (k : Fin 17) : Cap := if k ≠ 0 ∧ (pd.cap k).code.toNat = k.val then pd.cap k else cp.cap k

theorem capLoop_from (cp pd : Pd) {room : Int} (hr : 48 ≤ room) : CpM.capLoop cp.cap (PdM.capEntries pd.cap PdM.capIdx room) = capsFrom cp pd := by
  funext k
  have hk : (k ∈ PdM.capIdx ∧ (pd.cap k).code.toNat = k.val) ↔ (k ≠ 0 ∧ (pd.cap k).code.toNat = k.val) :=
    and_congr_left fun _ => ⟨capIdx_ne k, capIdx_mem k⟩
  rw [capLoop_entries _ _ _ _ (by rw [show PdM.capIdx.length = 16 from rfl]; omega)]
  unfold capsFrom
  simp only [hk]

/-- the size of the PD's receive buffer, as the CP now believes -/
def peerRxFrom (cp pd : Pd) : Nat :=
  if (capsFrom cp pd 10).code = 10#8 then (capsFrom cp pd 10).compliance.toNat + 256 * (capsFrom cp pd 10).numItems.toNat else cp.peerRx

/-- whether the PD offers the secure channel, as the CP now believes -/
def offersSc (cp pd : Pd) : Bool := (capsFrom cp pd 9).compliance.getLsbD 0

/-- The CP hears what the PD can do. -/
theorem cp_learns_cap (C : Cipher) (q0 cp pd : Pd) (cb : Bool) (env : Env) (room : Int) (hroom : 48 ≤ room) (hcp : cp.flags.pdMode = false)
    (haddr : cp.address = q0.address) (hr : 0 ≤ q0.address ∧ q0.address ≤ 126) (hi : Idle cp) (hbc : q0.flags.broadcast = false)
    (hact : cp.scActive = false) (hs : q0.seq = cp.seq) (hps : cp.phyState = .replyWait) (hst : cp.state = .capdet) (hid : cp.cmdId = Id.CAP)
    (ha : Arrives env (plainReply q0 (b8 Id.PDCAP :: PdM.capEntries pd.cap PdM.capIdx room)).bytes) :
    (offersSc cp pd = true → cp.flags.scDisabled = false →
      ∃ q, CpM.step C cp (.update cb env) = .ok (q, []) ∧ q.state = .scChlng ∧ q.sc = Sc.setup cp.flags.hasScbk env.random cp.sc ∧
        q.peerRx = peerRxFrom cp pd ∧ q.cap = capsFrom cp pd ∧ q.id = cp.id ∧
        Learnt q0 cp q { cp.flags with scCapable := true, useScbkd := false }) ∧
    ((offersSc cp pd && !cp.flags.scDisabled) = false → cp.flags.enforceSecure = false → cp.reqRestartSc = false → cp.reqOffline = false →
      cp.reqEventSend = false →
      ∃ q o, CpM.step C cp (.update cb env) = .ok (q, o) ∧ sent o = [] ∧ q.state = .online ∧ q.sc = cp.sc ∧
        q.peerRx = peerRxFrom cp pd ∧ q.cap = capsFrom cp pd ∧ q.id = cp.id ∧
        Learnt q0 cp q { cp.flags with scCapable := offersSc cp pd }) := by
  have hl := capEntries_length pd.cap PdM.capIdx room
  rw [show PdM.capIdx.length = 16 from rfl] at hl
  obtain ⟨h, hH, hrd⟩ := cp_hears C q0 cp env (b8 Id.PDCAP) (PdM.capEntries pd.cap PdM.capIdx room) hcp haddr hr hi hbc hact
    (by rw [List.length_cons]; omega) (by decide) hs ha
  have hresp : CpM.processReply C cp env = .ok ({ reload cp h with
      replyId := Id.PDCAP, cap := capsFrom cp pd, peerRx := peerRxFrom cp pd,
      flags := { cp.flags with hasMark := h.mark, scCapable := offersSc cp pd } }, [], .none) := by
    rw [hrd]
    unfold CpM.response
    dsimp only
    rw [show (b8 Id.PDCAP).toNat = Id.PDCAP from rfl, if_neg (by decide), if_neg (by decide), if_neg (by decide), if_pos rfl,
      if_neg (by rw [capEntries_mod]; simp)]
    unfold CpM.pdcap
    dsimp only
    rw [show (reload cp h).cap = cp.cap from rfl, capLoop_from cp pd hroom]
    rfl
  refine ⟨fun ho hd => ?_, fun ho he h1 h2 h3 => ?_⟩
  · have hset := capdet_settles (cb := cb) (env := env)
      (d := { reload cp h with
        replyId := Id.PDCAP, cap := capsFrom cp pd, peerRx := peerRxFrom cp pd, tstamp := env.now
        scTstamp := if cp.scActive then env.now else cp.scTstamp, phyState := .done
        flags := { cp.flags with hasMark := h.mark, scCapable := offersSc cp pd } }) rfl hst hid rfl
      (by unfold Pd.scCapable; simp [ho, hd])
    exact ⟨_, answered_step hps hresp hset, rfl, rfl, rfl, rfl, rfl, ⟨rfl, by rw [← show h.mark = q0.flags.hasMark from hH.mark, ← ho], rfl, rfl, ⟨rfl, rfl, hH.buf, hH.rx⟩, rfl, rfl⟩⟩
  · obtain ⟨o, hset⟩ := capdet_online (cb := cb) (env := env)
      (d := { reload cp h with
        replyId := Id.PDCAP, cap := capsFrom cp pd, peerRx := peerRxFrom cp pd, tstamp := env.now
        scTstamp := if cp.scActive then env.now else cp.scTstamp, phyState := .done
        flags := { cp.flags with hasMark := h.mark, scCapable := offersSc cp pd } }) rfl hst hid rfl
      ho he h1 h2 h3
    exact ⟨_, o, answered_step hps hresp hset, CpM.settle_sent hset, rfl, rfl, rfl, rfl, rfl, ⟨rfl, by rw [← show h.mark = q0.flags.hasMark from hH.mark], rfl, rfl, ⟨rfl, rfl, hH.buf, hH.rx⟩, rfl, rfl⟩⟩

/-- An idle CP outside the online and offline states chooses its next command. -/
theorem cp_chooses (C : Cipher) (cb : Bool) (cp : Pd) (env : Env) (id : Nat) (hi : cp.phyState = .idle)
    (h : CpM.stateGetCmd cp env = .ok (cp, [], id)) (hid : 0 < id) :
    CpM.step C cp (.update cb env) = .ok ({ cp with cmdId := id, phyState := .sendCmd }, []) := by
  show (CpM.stateUpdate C cb cp env >>= _) = _
  rw [CpM.update_idle C cb cp env hi, CpM.settle_command (id := id) hi h hid]
  rfl

/-- The wait is over: the CP starts from the beginning. -/
theorem cp_wakes (C : Cipher) (cb : Bool) (cp : Pd) (env : Env) (hi : cp.phyState = .idle) (hst : cp.state = .offline)
    (hw : env.now - cp.tstamp > cp.waitMs) :
    CpM.step C cp (.update cb env) = .ok ({ (Phy.stateReset { cp with cmdId := 0 } true).1 with state := .init }, (Phy.stateReset { cp with cmdId := 0 } true).2) := by
  show (CpM.stateUpdate C cb cp env >>= _) = _
  rw [CpM.update_idle C cb cp env hi, CpM.settle_nothing (p1 := cp) (o := []) hi (by unfold CpM.stateGetCmd; rw [hst]),
    CpM.advance_ok (n := .init) (o := []) (p1 := { cp with cmdId := 0 })
      (by unfold CpM.nextOk; rw [show ({ cp with cmdId := 0 } : Pd).state = .offline from hst]; dsimp only; rw [if_pos hw])
      (by show cp.state ≠ _; rw [hst]; decide) (by decide), if_pos (by rw [hst]; decide)]
  rfl

end Osdp.Link
