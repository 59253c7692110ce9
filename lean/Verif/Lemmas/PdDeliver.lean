import Verif.Lemmas.PdRefresh
import Verif.Props.C04

/-! # A command packet arrives at an idle PD, which replies -/

namespace Osdp.PdM

open Spec.Wire
open Phy (setNak Idle Arrives pktAddr pdAccept reload Held decodeFrame pktOf sendOuts)

/-- the PD executes a command taken from a packet, or refuses it -/
def commanded (p : Pd) (env : Env) (d0 : Byte) (body : List Byte) : Res (Pd × List Out × PdRet) :=
  if plainRefused (noteCmd p d0) then
    if cmdNameOk d0.toNat then .ok (setNak (noteCmd p d0) Nak.SC_COND, [], .reply) else .error .nullDeref
  else dispatch (noteCmd p d0) env body

/-- a well formed command packet for this PD, with a sequence number it accepts -/
structure ForUs (p : Pd) (k : Packet) : Prop where
  len : k.bytes.length ≤ 256
  command : Phy.hasBit k.addr 0x80#8 = false
  crc : Phy.hasBit k.ctl Phy.CTL_CRC = true
  addr : (pktAddr k : Int) = p.address ∨ pktAddr k = 127
  seqRange : -1 ≤ p.seq ∧ p.seq ≤ 3
  seq : Spec.Seq.Acceptable p.seq k.seq

/-- the packet the PD holds while it processes it -/
structure Holding (p : Pd) (k : Packet) (h : Held) : Prop where
  rx : h.rx = []
  len : h.len = k.bytes.length
  bufLen : h.bufLen = k.bytes.length
  mark : h.mark = k.mark
  buf : h.buf.length = 256

theorem held_buf_length (p : Pd) (k : Packet) (t : Int) (hl : k.bytes.length ≤ 256) (hb : p.packetBuf.length = 256) :
    (Phy.heldPkt p k t).buf.length = 256 := by
  unfold Phy.heldPkt Phy.heldLoaded
  rw [Phy.bytes_length, ← Phy.frame_length] at hl
  cases hm : k.mark <;> simp [hm] at hl ⊢ <;> omega

theorem receive_delivers (C : Cipher) (p q : Pd) (k : Packet) (env : Env) (d0 : Byte) (body : List Byte)
    (hp : p.flags.pdMode = true) (hi : Idle p) (hk : ForUs p k) (ha : Arrives env k.bytes)
    (hd : decodeFrame C (pdAccept p k.seq (pktAddr k == 127)) k.frame = .ok (q, ((d0 :: body).length : Int), d0 :: body))
    (h8 : Phy.hasBit k.ctl Phy.CTL_SCB = true → 2 ≤ k.scb.length) :
    ∃ h, Holding p k h ∧ receiveAndProcess C p env = commanded (reload q h) env d0 body := by
  obtain ⟨t, ht⟩ := Phy.checkPacket_packet p k env hi hk.len
    (by unfold Phy.dirOk; rw [hk.command]; show (false == !p.flags.pdMode) = true; rw [hp]; rfl) ha
  rw [Phy.bodyFrame_packet p k hk.crc hk.addr,
    Phy.checkSeq_accept p _ _ _ _ hp (by unfold Packet.seq; omega) hk.seqRange hk.seq] at ht
  obtain ⟨buf, data, hdec, htake, hbl⟩ := Phy.decodePacket_packet C p _ q k t _ _ h8 hd
  have hbuf := held_buf_length p k t hk.len hi.buf
  have hlen : ((if k.mark then [Phy.MARK] else []) ++ k.frame).length = k.bytes.length := rfl
  refine ⟨{ Phy.heldPkt p k t with buf := buf }, ⟨rfl, ?_, hlen, rfl, hbl.trans hbuf⟩, ?_⟩
  · show k.frame.length + (if k.mark then 1 else 0) = _
    rw [Phy.bytes_length, Phy.frame_length]; omega
  unfold receiveAndProcess
  rw [ht]
  show process C _ env = _
  unfold process
  rw [hdec]
  have hn : ¬ (((d0 :: body).length : Nat) : Int) ≤ 0 := by simp
  simp only [Res.ok_bind]
  rw [if_neg hn]
  unfold decodeCommand commanded
  rw [Int.toNat_natCast] at htake ⊢
  have h0 : rd data 0 = .ok d0 := by
    cases data with
    | nil => simp at htake
    | cons x l => simp at htake; rw [htake.1]; rfl
  have hl : ¬ data.length < (d0 :: body).length := by
    have := congrArg List.length htake
    rw [List.length_take] at this
    omega
  rw [h0]
  simp only [Res.ok_bind]
  rw [if_neg hl, htake]
  rfl

/-- the same for a packet without security block -/
theorem receive_plain (C : Cipher) (p : Pd) (k : Packet) (env : Env) (d0 : Byte) (body : List Byte)
    (hp : p.flags.pdMode = true) (hi : Idle p) (hk : ForUs p k) (ha : Arrives env k.bytes)
    (hs : Phy.hasBit k.ctl Phy.CTL_SCB = false) (hscb : k.scb = []) (hd : k.data = d0 :: body)
    (hsc : p.scActive = false ∨ k.seq = 0) :
    ∃ h, Holding p k h ∧
      receiveAndProcess C p env = commanded (reload (pdAccept p k.seq (pktAddr k == 127)) h) env d0 body := by
  refine receive_delivers C p _ k env d0 body hp hi hk ha ?_ (by rw [hs]; intro h; cases h)
  rw [Phy.decodeFrame_plain C _ k hk.crc hs hscb d0 (by rw [hd]; rfl) ?_, hd]
  have e1 : (pdAccept p k.seq (pktAddr k == 127)).isCp = false := by
    show (!p.flags.pdMode) = false
    rw [hp]; rfl
  have e2 : (pdAccept p k.seq (pktAddr k == 127)).scActive = false := by
    show (p.flags.scActive && k.seq != 0) = false
    rcases hsc with h | h
    · rw [show p.flags.scActive = false from h]; rfl
    · rw [h]; simp
  unfold Phy.plainRefused
  rw [e1, e2]; rfl

/-! ### replies in the clear -/

/-- the header of a plain reply -/
def plainReply (p : Pd) (body : List Byte) : Packet :=
  { mark := p.flags.hasMark
    addr := (if p.flags.broadcast then 0x7F#8 else i8 p.address &&& 0x7F#8) ||| 0x80#8
    ctl := b8 (Phy.seqBits p.seq) ||| 0x04#8
    scb := []
    data := body }

theorem plainReply_length (p : Pd) (body : List Byte) : (plainReply p body).bytes.length ≤ 8 + body.length := by
  rw [Phy.bytes_length]
  unfold plainReply Packet.len
  simp
  split <;> omega

theorem sendReply_plain (C : Cipher) (p : Pd) (env : Env) (b : Built) (body : List Byte)
    (hp : p.flags.pdMode = true) (hsc : p.scActive = false) (hh : Phy.inHandshake true p.replyId = false)
    (hm : 69 ≤ p.txBufSize) (hbuf : p.packetBuf.length = 256)
    (hb : replyBody C (unbc p) env (replyTx p) (p.txBufSize - (replyTx p).dataOff) = .ok b)
    (ht : b.t = replyTx p) (hbs : b.p.scActive = false) (hbb : b.p.packetBuf = p.packetBuf)
    (hbf : b.p.hasFlush = p.hasFlush) (hbody : b.body = .ok body) (hne : body ≠ [])
    (hfit : (plainReply p body).bytes.length ≤ p.txBufSize) :
    ∃ q, sendReply C p env = .ok (q, b.outs ++ sendOuts p env (plainReply p body).bytes,
      decide ((plainReply p body).bytes.length ≤ env.sendCap)) ∧
      Phy.Sending b.p q := by
  have htx : (replyTx p) = ⟨p.flags.hasMark, false, (plainReply p body).addr, (plainReply p body).ctl, []⟩ := by
    unfold replyTx plainReply
    rw [hsc, hh]; simp
  have hpk : pktOf (replyTx p) body = plainReply p body := by
    rw [htx]; rfl
  have hle : p.txBufSize ≤ 256 := by unfold Pd.txBufSize; split <;> omega
  obtain ⟨q, hq⟩ := Phy.sendPacket_plain C b.p env (replyTx p) body p.txBufSize hbs (by rw [htx]) hne
    (by rw [hpk]; exact hfit) (by rw [hpk, hbb, hbuf]; omega)
  refine ⟨q, ?_, ?_⟩
  · unfold sendReply
    dsimp only
    rw [packetInit_pd hp, if_neg (by omega)]
    dsimp only
    unfold buildReply
    dsimp only
    rw [hb]
    simp only [Res.ok_bind]
    rw [hbody]
    have e1 : b.t.scb[1]? = none := by rw [ht, htx]; rfl
    have e2 : sendOuts b.p env (pktOf (replyTx p) body).bytes = sendOuts p env (plainReply p body).bytes := by
      unfold sendOuts; rw [hbf, hpk]
    simp only [Res.ok_bind, e1]
    rw [ht, hq, e2, hpk]
    rfl
  · exact (Phy.sendPacket_inv hne hq).1

/-- after the reply the PD waits for the next packet -/
structure Ready (p q : Pd) : Prop where
  bufLen : q.packetBufLen = 0
  len : q.packetLen = 0
  rx : q.rx = p.rx
  flags : q.flags = { p.flags with broadcast := false }
  seq : q.seq = p.seq
  address : q.address = p.address

theorem finish_nak (C : Cipher) (p : Pd) (env : Env) (code : Byte) (ret : PdRet)
    (hr : ret = .none ∨ ret = .reply) (hp : p.flags.pdMode = true) (hsc : p.scActive = false)
    (hm : 69 ≤ p.txBufSize) (hbuf : p.packetBuf.length = 256) (hcap : 256 ≤ env.sendCap)
    (hid : p.replyId = Id.NAK) (heph : p.eph = .nak code) :
    ∃ q, finish C p env ret = .ok (q, sendOuts p env (plainReply p [b8 Id.NAK, code]).bytes) ∧ Ready p q := by
  have htch : touch p ret env.now = p := by unfold touch; rw [hsc]; simp
  have hl := plainReply_length p [b8 Id.NAK, code]
  have hdo : (replyTx p).dataOff ≤ 6 := by
    unfold Phy.Tx.dataOff replyTx
    rw [hsc, hid]
    simp [Phy.inHandshake, Id.NAK, Id.CCRYPT, Id.RMAC_I]
    split <;> omega
  have hb : replyBody C (unbc p) env (replyTx p) (p.txBufSize - (replyTx p).dataOff) =
      .ok ⟨unbc p, replyTx p, [], .ok [b8 Id.NAK, code]⟩ := by
    unfold replyBody
    have h1 : (unbc p).replyId = Id.NAK := hid
    have h2 : (unbc p).eph = .nak code := heph
    rw [h1, h2]
    have ha : assertLen 2 ((p.txBufSize : Int) - ((replyTx p).dataOff : Int)) = .ok () := by
      unfold assertLen; rw [if_pos (by omega)]
    simp only [Id.NAK, Id.ACK, Id.PDID, Id.PDCAP, Id.OSTATR, Id.ISTATR, Id.LSTATR, Id.RSTATR, Id.KEYPAD, Id.RAW, Id.COM]
    simp [ha]
  obtain ⟨q, hq, hs⟩ := sendReply_plain C p env _ [b8 Id.NAK, code] hp hsc (by rw [hid]; rfl) hm hbuf hb rfl hsc rfl rfl rfl
    (by simp) (by simp at hl; omega)
  have hok : decide ((plainReply p [b8 Id.NAK, code]).bytes.length ≤ env.sendCap) = true := by
    simp at hl; exact decide_eq_true (by omega)
  rw [hok] at hq
  have hqr : q.replyId = Id.NAK := by rw [hs.buf]; exact hid
  have haft : afterSend q true = .ok (Phy.stateReset q false).1 := by
    unfold afterSend commitKeyset
    rw [if_pos rfl, if_neg (by rw [hqr]; simp [Id.NAK, Id.ACK])]
    rfl
  refine ⟨(Phy.stateReset q false).1, ?_, ?_⟩
  · unfold finish
    rw [if_neg (by rcases hr with rfl | rfl <;> decide), if_neg (by rcases hr with rfl | rfl <;> simp),
      if_neg (by rcases hr with rfl | rfl <;> decide), htch, hq]
    simp only [Res.ok_bind, List.nil_append]
    rw [haft]
    rfl
  · rw [hs.buf]
    exact ⟨rfl, rfl, rfl, rfl, rfl, rfl⟩

theorem pktAddr_dev (k : Packet) : pktAddr k = k.dev := by
  unfold pktAddr Packet.dev
  rw [BitVec.toNat_and]
  exact Nat.and_two_pow_sub_one_eq_mod k.addr.toNat 7

theorem or80 (a : Byte) : ((a &&& 0x7F#8) ||| 0x80#8).toNat = 128 + (a &&& 0x7F#8).toNat := by
  revert a; decide +kernel

/-- a reply in the clear, from a state reached by accepting `k` -/
theorem plainReply_answers {p q : Pd} {k : Packet} (body : List Byte) (hseq : q.seq = (k.seq : Int))
    (ha : q.address = p.address) (hb : q.flags.broadcast = (pktAddr k == 127))
    (hr : 0 ≤ p.address ∧ p.address ≤ 127) : Answers p.address.toNat k (plainReply q body) body := by
  refine ⟨rfl, rfl, ?_, ?_⟩
  · unfold plainReply Packet.seq
    rw [hseq]
    have hks : k.seq < 4 := by unfold Packet.seq; omega
    have e : Phy.seqBits (k.seq : Int) = k.seq := by unfold Phy.seqBits; omega
    rw [e]
    exact (Phy.ctl_bits _ hks _ (by simp)).1
  · unfold plainReply
    dsimp only
    rw [ha, hb, ← pktAddr_dev]
    by_cases h7 : pktAddr k = 127
    · rw [h7, if_pos (by decide), if_pos rfl]; rfl
    · rw [if_neg h7, if_neg (by simp [h7]), or80, Phy.i8_addr _ hr]

theorem sendOuts_sent (p : Pd) (env : Env) (bs : List Byte) (h : bs.length ≤ env.sendCap) :
    sent (sendOuts p env bs) = [bs] ∧ ∀ c, Out.cmd c ∉ sendOuts p env bs := by
  unfold sendOuts sent
  rw [List.take_of_length_le h]
  constructor
  · split <;> simp
  · intro c hc
    split at hc <;> simp at hc

/-- A PD that is idle, has no secure channel and no broadcast outstanding. -/
structure Listening (p : Pd) : Prop where
  pd : p.flags.pdMode = true
  idle : Idle p
  sc : p.scActive = false
  bc : p.flags.broadcast = false
  addr : 0 ≤ p.address ∧ p.address ≤ 127

/-- the state in which the command in `k` is executed -/
def accepted (p : Pd) (k : Packet) (h : Held) : Pd := reload (pdAccept p k.seq (pktAddr k == 127)) h

theorem accepted_fields {p : Pd} (k : Packet) (h : Held) (hl : Listening p) :
    (accepted p k h).flags.pdMode = true ∧ (accepted p k h).scActive = false ∧
    (accepted p k h).flags.broadcast = (pktAddr k == 127) := by
  refine ⟨hl.pd, ?_, ?_⟩
  · show (p.flags.scActive && _) = false
    rw [show p.flags.scActive = false from hl.sc]; rfl
  · show (p.flags.broadcast || _) = _
    rw [hl.bc]; rfl

/-- The whole exchange when the command is refused without effect. -/
theorem refresh_refused (C : Cipher) (p q0 : Pd) (k : Packet) (env : Env) (h : Held) (code : Byte)
    (hl : Listening p) (hh : Holding p k h) (hm : 69 ≤ p.txBufSize) (hcap : 256 ≤ env.sendCap)
    (hrec : receiveAndProcess C p env = .ok (q0, [], .reply))
    (hq : ∃ id, q0 = setNak (noteCmd (accepted p k h) id) code) :
    ∃ q outs r, refresh C p env = .ok (q, outs) ∧ (∀ c, Out.cmd c ∉ outs) ∧ sent outs = [Packet.bytes r] ∧
      Answers p.address.toNat k r [b8 Id.NAK, code] := by
  obtain ⟨id, rfl⟩ := hq
  obtain ⟨f1, f2, f3⟩ := accepted_fields k h hl
  have hexp : expire p env.now = p := by unfold expire; rw [hl.sc]; simp
  obtain ⟨q, hf, -⟩ := finish_nak C (setNak (noteCmd (accepted p k h) id) code) env code .reply (.inr rfl) f1 f2
    hm hh.buf hcap rfl (setNak_eph (p := noteCmd (accepted p k h) id) f1 _)
  have hlen := plainReply_length (setNak (noteCmd (accepted p k h) id) code) [b8 Id.NAK, code]
  simp only [List.length_cons, List.length_nil] at hlen
  obtain ⟨hs, hn⟩ := sendOuts_sent (setNak (noteCmd (accepted p k h) id) code) env
    (plainReply (setNak (noteCmd (accepted p k h) id) code) [b8 Id.NAK, code]).bytes (by omega)
  refine ⟨q, _, _, ?_, hn, hs, ?_⟩
  · unfold refresh
    rw [hexp, hrec]
    simp only [Res.ok_bind]
    rw [hf]
    rfl
  · exact plainReply_answers _ rfl rfl f3 hl.addr

/-- a packet without security block arrives -/
theorem receive_listening (C : Cipher) (p : Pd) (k : Packet) (env : Env) (d0 : Byte) (body : List Byte)
    (hl : Listening p) (hk : ForUs p k) (ha : Arrives env k.bytes)
    (hs : Phy.hasBit k.ctl Phy.CTL_SCB = false) (hscb : k.scb = []) (hd : k.data = d0 :: body) :
    ∃ h, Holding p k h ∧ receiveAndProcess C p env = commanded (accepted p k h) env d0 body :=
  receive_plain C p k env d0 body hl.pd hl.idle hk ha hs hscb hd (.inl hl.sc)

end Osdp.PdM
