import Verif.Props.C30
import Verif.Props.C36Sc

/-!
# Repeated commands: a CP that gets no answer, a PD and a CP that get a packet with a wrong number
-/

namespace Osdp.CpM

open Phy (Idle Arrives pktAddr heldPkt reload)
open Spec.Wire (Packet sent)

/-- an exchange that fails costs the PD its place online -/
theorem settle_fails {cb : Bool} {p q : Pd} {env : Env} {outs : List Out} (hps : p.phyState = .err)
    (hon : p.state = .online) (h : settle cb p env = .ok (q, outs)) : q.state ≠ .online := by
  intro hq
  have hs := settle_inv h
  clear h
  cases hs with
  | command hi _ _ => rw [hi] at hps; cases hps
  | nothing hi _ _ => rw [hi] at hps; cases hps
  | over hd hck had =>
    rename_i p1 o1 o2 ok
    obtain ⟨-, ⟨rfl, -, hnk⟩ | ⟨-, -, hkey, hkc⟩⟩ := stateCheckReply_inv hck
    · obtain ⟨e, hok⟩ := advance_online (p := (Phy.stateReset p1 false).1) (cur := p1.state) rfl hon had hq
      rw [hps] at hok; cases hok
    · obtain ⟨k, -, hp1, -⟩ := keysetComplete_inv hkc
      have hon1 : p1.state = .online := by rw [hp1]; exact hon
      obtain ⟨e, hok⟩ := advance_online (p := (Phy.stateReset p1 false).1) (cur := p1.state) rfl hon1 had hq
      rw [hps] at hok; cases hok

/-- The CP has waited for an answer for longer than 200 ms: it is going to repeat the command. -/
theorem timed_out {C : Cipher} {cb : Bool} {cp : Pd} {env : Env} (hi : Idle cp) (hps : cp.phyState = .replyWait) (hr : env.recv = [])
    (ht : PdM.RESP_TOUT < env.now - cp.phyTstamp) (hc : cp.retryCount < CMD_MAX_RETRIES) :
    step C cp (.update cb env) =
      .ok ({ cp with waitMs := CMD_RETRY_WAIT, phyState := .wait, retryCount := cp.retryCount + 1, phyTstamp := env.now }, []) := by
  have h1 : processReply C cp env = .ok (cp, [], .noData) := by
    unfold processReply
    rw [Phy.checkPacket_silent hi hr]
    rfl
  have h2 : phyUpdate C cp env =
      .ok ({ cp with waitMs := CMD_RETRY_WAIT, phyState := .wait, retryCount := cp.retryCount + 1, phyTstamp := env.now }, [], .canYield) := by
    unfold phyUpdate
    rw [hps]
    dsimp only
    unfold phyReply
    rw [h1]
    simp only [Res.ok_bind]
    rw [if_neg (by decide), if_neg (fun h => absurd h.1 (by decide)), if_neg (by decide), if_neg (by decide), if_pos ht, if_pos hc]
    rfl
  show (stateUpdate C cb cp env >>= _) = _
  unfold stateUpdate
  rw [if_pos (by unfold phyRunning; rw [hps]; rfl), h2]
  simp only [Res.ok_bind]
  rw [if_neg (by decide), if_pos trivial]
  rfl

/-- A reply with another number than that of the command is refused, and the PD taken offline. -/
theorem wrong_number {C : Cipher} {cb : Bool} {cp cp1 : Pd} {k : Packet} {env : Env} {o : List Out} (hp : cp.flags.pdMode = false) (hi : Idle cp)
    (hps : cp.phyState = .replyWait) (hon : cp.state = .online) (hk : FromPd cp k) (hs : k.seq ≠ Phy.seqBits cp.seq) (h0 : k.seq ≠ 0)
    (hsk : cp.flags.skipSeqCheck = false) (ha : Arrives env k.bytes) (h : step C cp (.update cb env) = .ok (cp1, o)) :
    cp1.state ≠ .online := by
  obtain ⟨t, ht⟩ := Phy.checkPacket_packet cp k env hi hk.len (hk.dir hp) ha
  rw [Phy.bodyFrame_packet cp k hk.crc hk.addr] at ht
  have hb : Phy.isBusy k.frame (k.len - 2) k.seq = .ok false := by
    unfold Phy.isBusy
    rw [if_neg (fun h => h0 h.1)]
  unfold Phy.checkSeq at ht
  rw [if_neg (by show ¬ cp.flags.pdMode = true; rw [hp]; simp), hb] at ht
  simp only [Res.ok_bind] at ht
  unfold Phy.seqVerdict Phy.mapReload at ht
  rw [if_neg (by decide), if_pos ⟨fun e => hs e.symm, by rw [hsk]; decide⟩] at ht
  obtain ⟨⟨s1, o1, y⟩, hu, h1⟩ := Res.bind_eq_ok.mp h
  injection h1 with h1; injection h1 with e1 e2; subst e1 e2
  obtain ⟨p1, o2, rc, hph, hcase⟩ := update_waits hps hu
  have h1 : processReply C cp env = .ok (reload (Phy.setNak cp Nak.SEQ_NUM) (heldPkt cp k t), [], .generic) := by
    unfold processReply
    rw [ht]
    rfl
  unfold phyReply at hph
  rw [h1] at hph
  simp only [Res.ok_bind] at hph
  rw [if_neg (by decide), if_neg (fun h => absurd h.1 (by decide)), if_pos (.inl trivial)] at hph
  injection hph with hph; injection hph with e1 hph; injection hph with e2 e3; subst e1 e2 e3
  rcases hcase with ⟨h, -⟩ | ⟨h, -⟩ | ⟨o2, hset⟩
  · cases h
  · cases h
  · refine settle_fails ?_ ?_ hset
    · rfl
    · exact hon

end Osdp.CpM

namespace Osdp.PdM

open Spec.Wire Spec.Seq
open Phy (Idle Arrives pktAddr heldPkt reload)

/-- What a PD makes of a packet for it with a number that is not acceptable. -/
theorem receive_wrong_number (C : Cipher) (p : Pd) (k : Packet) (env : Env) (hp : p.flags.pdMode = true) (hi : Idle p) (hb : p.flags.broadcast = false)
    (hk : k.bytes.length ≤ 256) (hcmd : Phy.hasBit k.addr 0x80#8 = false) (hcrc : Phy.hasBit k.ctl Phy.CTL_CRC = true)
    (hadr : (pktAddr k : Int) = p.address) (h7 : pktAddr k ≠ 127) (hseq : ¬ Acceptable p.seq k.seq)
    (hsk : p.flags.skipSeqCheck = false) (hrange : -1 ≤ p.seq ∧ p.seq ≤ 3) (ha : Arrives env k.bytes) :
    ∃ h, receiveAndProcess C p env = .ok (reload (Phy.setNak { p with seq := Phy.nextSeq p.seq true } Nak.SEQ_NUM) h, [], .reply) := by
  obtain ⟨t, ht⟩ := Phy.checkPacket_packet p k env hi hk
    (by unfold Phy.dirOk; rw [hcmd]; show (false == !p.flags.pdMode) = true; rw [hp]; rfl) ha
  rw [Phy.bodyFrame_packet p k hcrc (.inl hadr)] at ht
  have hsl : k.seq < 4 := by unfold Packet.seq; omega
  unfold Phy.checkSeq at ht
  rw [if_pos (show p.isPd = true from hp)] at ht
  obtain ⟨-, -, v3⟩ := seq_verdict (p := p) (s := k.seq) (bc := pktAddr k == 127)
    (q := (Phy.seqVerdict (Phy.pdSeqAdvance (Phy.pdSeqPrep p k.seq (pktAddr k == 127))) k.seq).1)
    (r := (Phy.seqVerdict (Phy.pdSeqAdvance (Phy.pdSeqPrep p k.seq (pktAddr k == 127))) k.seq).2) hsl hrange rfl
  have hv := v3 hseq hsk
  rw [show (pktAddr k == 127) = false by simp [h7]] at ht hv
  have e1 : Phy.pdSeqPrep p k.seq false = p := by
    unfold Acceptable at hseq
    have h0 : ¬ k.seq = 0 := by omega
    have h1 : ¬ (k.seq : Int) = p.seq := by omega
    unfold Phy.pdSeqPrep
    rw [if_neg h0, if_neg h1]
    rfl
  have hprep : Phy.seqVerdict (Phy.pdSeqAdvance (Phy.pdSeqPrep p k.seq false)) k.seq =
      (Phy.setNak { p with seq := Phy.nextSeq p.seq true } Nak.SEQ_NUM, .nack) := by
    unfold Phy.seqVerdict at hv ⊢
    split
    · rw [e1]; rfl
    · rename_i hn; rw [if_neg hn] at hv; cases hv
  rw [hprep] at ht
  refine ⟨heldPkt p k t, ?_⟩
  unfold receiveAndProcess
  rw [ht]; rfl

/-- What a PD answers goes to the CP, from the PD's address and with the number the PD holds. -/
theorem answer_from {C : Cipher} {p q cp : Pd} {env : Env} {o : List Out} {s : Nat} (hp : p.flags.pdMode = true)
    (hm : 164 ≤ p.txBufSize) (hcap : 256 ≤ env.sendCap) (hs : s < 4) (hseq : p.seq = (s : Int)) (hbc : p.flags.broadcast = false)
    (hadr : 0 ≤ p.address ∧ p.address ≤ 126) (hcp : cp.address = p.address) (h : finish C p env .reply = .ok (q, o)) :
    ∃ r, sent o = [Packet.bytes r] ∧ r.seq = s ∧ CpM.FromPd cp r := by
  cases finish_inv hp h with
  | keep hr => simp at hr
  | reset hr => simp at hr
  | reply _ hsend _ =>
    have ht : (touch p .reply env.now).txBufSize = p.txBufSize ∧ (touch p .reply env.now).seq = p.seq ∧
        (touch p .reply env.now).address = p.address ∧ (touch p .reply env.now).flags.broadcast = p.flags.broadcast := by
      unfold touch; split <;> exact ⟨rfl, rfl, rfl, rfl⟩
    obtain ⟨t1, t2, t3, t4⟩ := ht
    rw [← t1] at hm
    rw [← t3] at hadr hcp
    rw [← t4] at hbc
    rw [← t2] at hseq
    generalize touch p .reply env.now = P at *
    obtain ⟨r, e, hlen, ea, ec, -⟩ := sends hsend hm
    have hb : P.txBufSize ≤ 256 := by unfold Pd.txBufSize; split <;> omega
    rw [List.take_of_length_le (by omega)] at e
    have es : Phy.seqBits P.seq = s := by rw [hseq]; unfold Phy.seqBits; omega
    have ea' : r.addr = (i8 P.address &&& 0x7F#8) ||| 0x80#8 := by
      rw [ea]; unfold replyTx; dsimp only; rw [if_neg (by rw [hbc]; decide)]
    have ec' : r.ctl = b8 s ||| Phy.CTL_CRC ||| Phy.CTL_SCB ∨ r.ctl = b8 s ||| Phy.CTL_CRC := by
      rw [ec]; unfold replyTx; dsimp only; rw [es]
      split
      · exact .inl rfl
      · exact .inr rfl
    refine ⟨r, e, ?_, by omega, ?_, ?_, .inl ?_⟩
    · unfold Packet.seq
      rcases ec' with h | h <;> rw [h]
      · exact (show ∀ n < 4, (b8 n ||| Phy.CTL_CRC ||| Phy.CTL_SCB : Byte).toNat % 4 = n by decide) _ hs
      · exact (show ∀ n < 4, (b8 n ||| Phy.CTL_CRC : Byte).toNat % 4 = n by decide) _ hs
    · rw [ea']; exact Link.or80_bit _
    · rcases ec' with h | h <;> rw [h]
      · exact (show ∀ n < 4, Phy.hasBit (b8 n ||| Phy.CTL_CRC ||| Phy.CTL_SCB : Byte) Phy.CTL_CRC = true by decide) _ hs
      · exact (show ∀ n < 4, Phy.hasBit (b8 n ||| Phy.CTL_CRC : Byte) Phy.CTL_CRC = true by decide) _ hs
    · unfold pktAddr
      rw [ea', Link.or80_and, Phy.i8_addr _ (by omega), hcp]
      omega

end Osdp.PdM
