import Verif.Lemmas.PdDeliver
import Verif.Lemmas.PdStream

/-! # A complete exchange in the clear: a command arrives, is executed and answered -/

namespace Osdp.PdM

open Spec.Wire
open Phy (setNak Idle Arrives pktAddr pdAccept reload Held pktOf sendOuts)

theorem finish_plain (C : Cipher) (p : Pd) (env : Env) (ret : PdRet) (b : Built) (body : List Byte)
    (hr : ret = .none ∨ ret = .reply) (hp : p.flags.pdMode = true) (hsc : p.scActive = false)
    (hh : Phy.inHandshake true p.replyId = false) (hm : 69 ≤ p.txBufSize) (hbuf : p.packetBuf.length = 256)
    (hcap : 256 ≤ env.sendCap) (hnk : ¬ (p.cmdId = Id.KEYSET ∧ p.replyId = Id.ACK))
    (hb : replyBody C (unbc p) env (replyTx p) (p.txBufSize - (replyTx p).dataOff) = .ok b)
    (ht : b.t = replyTx p) (hbs : b.p.scActive = false) (hbb : b.p.packetBuf = p.packetBuf)
    (hbf : b.p.hasFlush = p.hasFlush) (hbc : b.p.cmdId = p.cmdId) (hbr : b.p.replyId = p.replyId)
    (hbody : b.body = .ok body) (hne : body ≠ [])
    (hfit : (plainReply p body).bytes.length ≤ p.txBufSize) :
    ∃ q, Phy.Sending b.p q ∧ q.packetBuf.length = 256 ∧
      finish C p env ret = .ok ((Phy.stateReset q false).1, b.outs ++ sendOuts p env (plainReply p body).bytes) := by
  have htch : touch p ret env.now = p := by unfold touch; rw [hsc]; simp
  obtain ⟨q, hq, hs⟩ := sendReply_plain C p env b body hp hsc hh hm hbuf hb ht hbs hbb hbf hbody hne hfit
  have hle : p.txBufSize ≤ 256 := by unfold Pd.txBufSize; split <;> omega
  have hok : decide ((plainReply p body).bytes.length ≤ env.sendCap) = true := decide_eq_true (by omega)
  rw [hok] at hq
  have hq1 : q.cmdId = p.cmdId := by rw [hs.buf]; exact hbc
  have hq2 : q.replyId = p.replyId := by rw [hs.buf]; exact hbr
  have haft : afterSend q true = .ok (Phy.stateReset q false).1 := by
    unfold afterSend commitKeyset
    rw [if_pos rfl, hq1, hq2, if_neg hnk]
    rfl
  have hfin : finish C p env ret = .ok ((Phy.stateReset q false).1, b.outs ++ sendOuts p env (plainReply p body).bytes) := ?_
  · refine ⟨q, hs, ?_, hfin⟩
    rcases finished_cleared (finish_inv hp hfin) with ⟨h, -, h2⟩ | h
    · rcases hr with rfl | rfl <;> simp at h2
    · exact (show q.packetBuf.length = _ from h.buf).trans hbuf
  unfold finish
  rw [if_neg (by rcases hr with rfl | rfl <;> decide), if_neg (by rcases hr with rfl | rfl <;> simp),
    if_neg (by rcases hr with rfl | rfl <;> decide), htch, hq]
  simp only [Res.ok_bind]
  rw [haft]
  rfl

theorem dataOff_plain (p : Pd) (hsc : p.scActive = false) (hh : Phy.inHandshake true p.replyId = false) :
    (replyTx p).dataOff ≤ 6 := by
  unfold Phy.Tx.dataOff replyTx
  rw [hsc, hh]
  simp
  split <;> omega

/-- A command executed in state `P`: the effects `o`, and a reply with body `rb` can be built. -/
structure Prepared (C : Cipher) (P : Pd) (env : Env) (body : List Byte) (q : Pd) (o : List Out) (b : Built)
    (rb : List Byte) : Prop where
  run : dispatch P env body = .ok (q, o, .none) ∨ dispatch P env body = .ok (q, o, .reply)
  flags : q.flags = P.flags
  seq : q.seq = P.seq
  address : q.address = P.address
  buf : q.packetBuf = P.packetBuf
  rx : q.rx = P.rx
  peerRx : 69 ≤ q.txBufSize
  hs : Phy.inHandshake true q.replyId = false
  noKey : ¬ (q.cmdId = Id.KEYSET ∧ q.replyId = Id.ACK)
  build : ∀ n : Int, 63 ≤ n → n = q.txBufSize - (replyTx q).dataOff → replyBody C (unbc q) env (replyTx q) n = .ok b
  bt : b.t = replyTx q
  bflags : b.p.flags = (unbc q).flags
  bbuf : b.p.packetBuf = q.packetBuf
  bflush : b.p.hasFlush = q.hasFlush
  bcmd : b.p.cmdId = q.cmdId
  brep : b.p.replyId = q.replyId
  brx : b.p.rx = q.rx
  bbody : b.body = .ok rb
  ne : rb ≠ []
  fit : (plainReply q rb).bytes.length ≤ q.txBufSize

/-- The whole exchange: `k` arrives, is executed and answered; the PD is idle again. -/
theorem exchange (R : Held → Pd → List Out → Built → List Byte → Prop) (C : Cipher) (p : Pd) (k : Packet) (env : Env) (d0 : Byte) (body : List Byte)
    (hl : Listening p) (hk : ForUs p k) (ha : Arrives env k.bytes)
    (hs : Phy.hasBit k.ctl Phy.CTL_SCB = false) (hscb : k.scb = []) (hd : k.data = d0 :: body)
    (hcap : 256 ≤ env.sendCap)
    (hpr : ∀ h, Holding p k h → plainRefused (noteCmd (accepted p k h) d0) = false ∧
      ∃ q o b rb, Prepared C (noteCmd (accepted p k h) d0) env body q o b rb ∧ R h q o b rb) :
    ∃ h q0 o b rb q, Holding p k h ∧ Prepared C (noteCmd (accepted p k h) d0) env body q0 o b rb ∧ R h q0 o b rb ∧
      Phy.Sending b.p q ∧ Idle (Phy.stateReset q false).1 ∧
      refresh C p env = .ok ((Phy.stateReset q false).1, o ++ (b.outs ++ sendOuts q0 env (plainReply q0 rb).bytes)) ∧
      (∃ r, Answers p.address.toNat k r rb ∧ sent (sendOuts q0 env (plainReply q0 rb).bytes) = [r.bytes]) ∧
      (∀ c, Out.cmd c ∉ sendOuts q0 env (plainReply q0 rb).bytes) := by
  obtain ⟨h, hh, hrec⟩ := receive_listening C p k env d0 body hl hk ha hs hscb hd
  obtain ⟨hnr, q0, o, b, rb, P, hR⟩ := hpr h hh
  obtain ⟨f1, f2, f3⟩ := accepted_fields k h hl
  have hq1 : q0.flags.pdMode = true := by rw [P.flags]; exact f1
  have hq2 : q0.scActive = false := by unfold Pd.scActive; rw [P.flags]; exact f2
  have hexp : expire p env.now = p := by unfold expire; rw [hl.sc]; simp
  have hbs : b.p.scActive = false := by unfold Pd.scActive; rw [P.bflags]; exact hq2
  have hdo := dataOff_plain q0 hq2 P.hs
  have hn : (63 : Int) ≤ (q0.txBufSize : Int) - (replyTx q0).dataOff := by have := P.peerRx; omega
  have hbl : q0.packetBuf.length = 256 := by rw [P.buf]; exact hh.buf
  have hfin := fun (ret : PdRet) (hr : ret = .none ∨ ret = .reply) => finish_plain C q0 env ret b rb hr hq1 hq2 P.hs P.peerRx
    hbl hcap P.noKey (P.build _ hn rfl) P.bt hbs P.bbuf P.bflush P.bcmd P.brep P.bbody P.ne P.fit
  have hlen : (plainReply q0 rb).bytes.length ≤ env.sendCap := by
    have := P.fit
    have : q0.txBufSize ≤ 256 := by unfold Pd.txBufSize; split <;> omega
    omega
  obtain ⟨s1, s2⟩ := sendOuts_sent q0 env (plainReply q0 rb).bytes hlen
  have key : ∀ ret, ret = .none ∨ ret = .reply → dispatch (noteCmd (accepted p k h) d0) env body = .ok (q0, o, ret) →
      ∃ q, Phy.Sending b.p q ∧ Idle (Phy.stateReset q false).1 ∧
      refresh C p env = .ok ((Phy.stateReset q false).1, o ++ (b.outs ++ sendOuts q0 env (plainReply q0 rb).bytes)) := by
    intro ret hr hdis
    obtain ⟨q, hq, hqb, hf⟩ := hfin ret hr
    refine ⟨q, hq, ⟨rfl, rfl, hqb, ?_⟩, ?_⟩
    · show q.rx = []
      rw [hq.buf]
      show b.p.rx = []
      rw [P.brx, P.rx]
      exact hh.rx
    · unfold refresh
      rw [hexp, hrec]
      unfold commanded
      rw [hnr, if_neg (by simp), hdis]
      simp only [Res.ok_bind]
      rw [hf]
      rfl
  have hans : Answers p.address.toNat k (plainReply q0 rb) rb :=
    plainReply_answers _ (P.seq.trans rfl) (P.address.trans rfl) (by rw [P.flags]; exact f3) hl.addr
  rcases P.run with hr | hr
  · obtain ⟨q, a, b', c⟩ := key .none (.inl rfl) hr
    exact ⟨h, q0, o, b, rb, q, hh, P, hR, a, b', c, ⟨_, hans, s1⟩, s2⟩
  · obtain ⟨q, a, b', c⟩ := key .reply (.inr rfl) hr
    exact ⟨h, q0, o, b, rb, q, hh, P, hR, a, b', c, ⟨_, hans, s1⟩, s2⟩

end Osdp.PdM
