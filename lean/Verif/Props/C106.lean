import Verif.Props.C72
import Verif.Props.C105

/-!
# C106: a PD that answers late stays online

The full statement: if a PD answers a command only when the CP has given up waiting and is about to repeat the command, so that the late answer arrives before the
answer to the repetition, then the exchange is completed, the PD stays online, and so does its session.

While the CP waits to repeat the command it reads nothing, so the late answer does no harm yet (`C106_partial`).  The repetition bears the next number (as for C69).  The
first thing read after it is the late answer, which bears the number before, and for an answer with a wrong number a CP, every CP, takes the PD offline for five minutes
(`C106_number`; src/osdp_phy.c:487-494, src/osdp_cp.c:735-743).  `C106_late` is the history from setup: a PD that once needs a little more than 200 ms, and otherwise
does everything right, is taken offline.
-/

namespace Osdp.CpM

open Spec.Wire
open Phy (Idle Arrives pktAddr)

/-- **C106, the part that holds.**  Until the repetition is due nothing is read, sent or changed, whatever has arrived.  Missing: what follows, see `C106_late`. -/
theorem C106_partial (C : Cipher) (p : Pd) (cb : Bool) (env : Env) (hps : p.phyState = .wait) (hw : env.now - p.phyTstamp < p.waitMs) :
    step C p (.update cb env) = .ok (p, []) := by
  have h : stateUpdate C cb p env = .ok (p, [], true) := by
    unfold stateUpdate phyUpdate phyRunning
    rw [hps]
    simp only [hw]
    rfl
  show (stateUpdate C cb p env >>= _) = _
  rw [h]
  rfl

/-- **C106 fails for every CP: an answer with another number.**  The answer of an online PD is awaited, and an intact answer of this PD arrives that bears the number of
another command (and is no BUSY).  The PD is taken offline, for 300 s, and its session is over. -/
theorem C106_number (C : Cipher) (info : PdM.Info) (p : Pd) (k : Packet) (cb : Bool) (env : Env) (hr : Reached C info p) (hon : p.state = .online)
    (hps : p.phyState = .replyWait) (hreq : p.reqRestartSc = false) (hsk : p.flags.skipSeqCheck = false) (hi : Idle p) (hk : FromPd p k)
    (hs : k.seq ≠ Phy.seqBits p.seq) (hd : k.data ≠ []) (hb : ¬ Unsequenced k) (ha : Arrives env k.bytes) :
    ∃ q o, step C p (.update cb env) = .ok (q, o) ∧ q.state = .offline ∧ q.scActive = false ∧ q.tstamp = env.now ∧ q.waitMs = 300000 ∧ q.phyState = .idle := by
  have hp := hr.inv.cp
  obtain ⟨t, ht⟩ := Phy.checkPacket_packet p k env hi hk.len (hk.dir hp) ha
  rw [Phy.bodyFrame_packet p k hk.crc hk.addr] at ht
  unfold Phy.checkSeq at ht
  rw [if_neg (by show ¬ p.flags.pdMode = true; rw [hp]; simp), isBusy_not k hb hd] at ht
  unfold Phy.seqVerdict at ht
  simp only [Res.ok_bind, Bool.false_eq_true, if_false] at ht
  rw [if_pos ⟨fun h => hs h.symm, by rw [hsk]; simp⟩] at ht
  refine failed_offline C p (Phy.reload (Phy.setNak p Nak.SEQ_NUM) (Phy.heldPkt p k t)) cb env hps ?_ hon (.inr rfl) hreq (hr.tidy.none hon)
  unfold processReply
  rw [ht]
  rfl

/-- a PD that needs more than 200 ms for the answer to a POLL: the time for the answer is over at 350, the POLL is repeated at 1200 -/
def late106 : List Op := polledPd ++ [Sample.hears [] 350, Sample.hears [] 1200]

/-- the late answer, with the number of the first POLL -/
def lateAnswer106 : List Byte := Sample.reply 2 [b8 Id.ACK]

/-- **C106 violated.**  The answers to the POLL and to its repetition are both right, and follow each other; the PD is online, and is taken offline. -/
theorem C106_late : ∃ p o q outs, run xorCipher Sample.cp late106 = .ok (p, o) ∧ step xorCipher p (Sample.hears (lateAnswer106 ++ Sample.reply 3 [b8 Id.ACK]) 1210) = .ok (q, outs) ∧
    (p.state = .online ∧ p.phyState = .replyWait) ∧ q.state = .offline := by
  obtain ⟨p, o, q, outs, h1, h2, h3, h4⟩ := Sample.ran_step (C := xorCipher) (p := Sample.cp) (ops := late106)
    (op := Sample.hears (lateAnswer106 ++ Sample.reply 3 [b8 Id.ACK]) 1210) (fun p => decide (p.state = .online ∧ p.phyState = .replyWait)) (fun q _ => decide (q.state = .offline))
    (by decide +kernel) (by decide +kernel)
  exact ⟨p, o, q, outs, h1, h2, of_decide_eq_true h3, of_decide_eq_true h4⟩

/-- Without the late answer the same history goes on well; in time, the answer was right. -/
example : ((run xorCipher Sample.cp (late106 ++ [Sample.hears (Sample.reply 3 [b8 Id.ACK]) 1210])).toOption.map fun r => (r.1.state, r.1.phyState)) =
      some (.online, .idle) ∧
    ((run xorCipher Sample.cp (polledPd ++ [Sample.hears lateAnswer106 110])).toOption.map fun r => (r.1.state, r.1.phyState)) = some (.online, .idle) := by
  constructor <;> decide +kernel

/-- The hypotheses of `C106_partial` are met on the way, and those of `C106_number` in the session `securely`. -/
example : ((run xorCipher Sample.cp (polledPd ++ [Sample.hears [] 350])).toOption.map fun r => (r.1.phyState, decide ((400 : Int) - r.1.phyTstamp < r.1.waitMs))) =
      some (.wait, true) ∧
    securely.cp.flags.skipSeqCheck = false ∧ Phy.seqBits securely.cp.seq ≠ 0 ∧
    hearing104 (Sample.reply 0 [b8 Id.ACK]) 460 = some (.offline, false, .idle, 0) := by
  refine ⟨?_, ?_, ?_, ?_⟩ <;> decide +kernel

end Osdp.CpM
