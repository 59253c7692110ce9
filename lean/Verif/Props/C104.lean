import Verif.Props.C09Cp
import Verif.Props.C31
import Verif.Props.C103

/-!
# C104: a damaged answer is repaired by the repetition of the command

The full statement: an answer that arrives damaged is treated like one that does not arrive: the CP repeats the command, and the PD stays online and in its session
(C69 is about packets that do not arrive).

It holds as long as the damage leaves no complete packet, for example if the start byte is lost or the packet is cut off (`C104_partial`; the command is then
repeated at the end of the time for the answer).  It fails if a complete packet with a wrong check value is left: at every CP, for every PD that is online, one such
packet takes the PD offline for five minutes and ends the session (`C104_offline`; src/osdp_cp.c:742-743, 876-877, 1129-1140: OSDP_ERR_PKT_FMT is a generic error, for
which there is no repetition).
-/

namespace Osdp.CpM

open Spec.Wire

/-- an answer that cannot be used takes an online PD offline -/
theorem failed_offline (C : Cipher) (p p0 : Pd) (cb : Bool) (env : Env) (hps : p.phyState = .replyWait) (hc : processReply C p env = .ok (p0, [], .generic))
    (hon : p0.state = .online) (hid : p0.replyId = 0 ∨ p0.replyId = Id.NAK) (hreq : p0.reqRestartSc = false) (he : p0.reqEventSend = false) :
    ∃ q o, step C p (.update cb env) = .ok (q, o) ∧ q.state = .offline ∧ q.scActive = false ∧ q.tstamp = env.now ∧ q.waitMs = 300000 ∧ q.phyState = .idle := by
  have hrun : phyRunning p = true := by unfold phyRunning; rw [hps]; rfl
  let p1 : Pd := { p0 with phyState := .err }
  have h1 : phyUpdate C p env = .ok (p1, [], .generic) := by
    unfold phyUpdate
    rw [hps]
    show phyReply C p env = _
    unfold phyReply
    rw [hc]
    rfl
  have e1 : p1.state = .online := hon
  have e2 : p1.replyId = 0 ∨ p1.replyId = Id.NAK := hid
  have e3 : p1.reqRestartSc = false := hreq
  have e4 : p1.reqEventSend = false := he
  have e5 : p1.phyState = .err := rfl
  generalize p1 = s at *
  have h2 : ∃ q o, settle cb s env = .ok (q, o) ∧ q.state = .offline ∧ q.scActive = false ∧ q.tstamp = env.now ∧ q.waitMs = 300000 ∧ q.phyState = .idle := by
    have c1 : stateCheckReply cb s = .ok (s, [], false) := by
      unfold stateCheckReply
      rw [e1]
      show checkOnline cb s = _
      unfold checkOnline
      rcases e2 with e2 | e2 <;> rw [e2] <;> rfl
    let t := (Phy.stateReset s false).1
    have g1 : t.state = .online := e1
    have g3 : t.reqRestartSc = false := e3
    have g4 : t.reqEventSend = false := e4
    have g5 : t.phyState = .idle := rfl
    have c2 : ∃ q o, advance cb t env t.state false = .ok (q, o) ∧
        q.state = .offline ∧ q.scActive = false ∧ q.tstamp = env.now ∧ q.waitMs = 300000 ∧ q.phyState = .idle := by
      clear_value t
      have d1 : nextErr cb t env.now = .ok (t, [], .offline) := by unfold nextErr; rw [g1]
      have d2 : ∃ u, requests cb t .offline = .ok (u, [], .offline) ∧ u.phyState = .idle := by
        unfold requests
        rw [if_pos (.inl g1), g3]
        cases hq : t.reqOffline with
        | true =>
          refine ⟨{ t with reqOffline := false }, ?_, g5⟩
          simp [hq, g4]
        | false =>
          refine ⟨t, ?_, g5⟩
          simp [hq, g4]
      obtain ⟨u, d2, d3⟩ := d2
      refine ⟨(stateChange cb u env .offline).1, [] ++ [] ++ (stateChange cb u env .offline).2, ?_, rfl, rfl, rfl, rfl, d3⟩
      unfold advance
      rw [g1]
      show (nextErr cb t env.now >>= _) = _
      rw [d1]
      show (requests cb t .offline >>= _) = _
      rw [d2]
      rfl
    obtain ⟨q, o, c2, c3⟩ := c2
    refine ⟨q, [] ++ notifyCommand cb s false ++ o, ?_, c3⟩
    unfold settle
    rw [e5]
    show (stateCheckReply cb s >>= _) = _
    rw [c1]
    show (advance cb t env t.state false >>= _) = _
    rw [c2]
    rfl
  obtain ⟨q, o, h2, h3⟩ := h2
  refine ⟨q, [] ++ o, ?_, h3⟩
  have h4 : stateUpdate C cb p env = .ok (q, [] ++ o, true) := by
    unfold stateUpdate
    simp only [hrun, if_true, h1]
    show (settle cb s env >>= _) = _
    rw [h2]
    rfl
  show (stateUpdate C cb p env >>= _) = _
  rw [h4]
  rfl

/-- a packet that `osdp_phy_check_packet` finds unusable takes an online PD offline -/
theorem unusable_offline (C : Cipher) (info : PdM.Info) (p p0 : Pd) (cb : Bool) (env : Env) (r : Phy.PktRet) (hr : Reached C info p) (hon : p.state = .online)
    (hps : p.phyState = .replyWait) (hreq : p.reqRestartSc = false) (hc : Phy.checkPacket p env = .ok (p0, r)) (hbad : r = .fmt ∨ r = .check ∨ r = .skip) :
    ∃ q o, step C p (.update cb env) = .ok (q, o) ∧ q.state = .offline ∧ q.scActive = false ∧ q.tstamp = env.now ∧ q.waitMs = 300000 ∧ q.phyState = .idle := by
  have hcol : Phy.Collected p p0 := by
    rcases hbad with rfl | rfl | rfl <;> exact (Phy.checkPacket_checked hc).early (by simp) (by simp) (by simp)
  refine failed_offline C p p0 cb env hps ?_ (hcol.transp.state.trans hon) (.inl (hcol.replyId.trans (hr.blank hps))) (hcol.transp.reqRestartSc.trans hreq)
    (hcol.transp.reqEventSend.trans (hr.tidy.none hon))
  unfold processReply
  rw [hc]
  rcases hbad with rfl | rfl | rfl <;> rfl

/-- **C104 fails for every CP.**  A PD is online, its answer is awaited, and what comes is a packet with a wrong check value (of any contents).  After the visit the PD
is offline, without session, and is to be left alone for 300 s.  `hreq`: the application has not just asked for a new session. -/
theorem C104_offline (C : Cipher) (info : PdM.Info) (p : Pd) (m : Bool) (f : List Byte) (cb : Bool) (env : Env) (hr : Reached C info p) (hon : p.state = .online)
    (hps : p.phyState = .replyWait) (hreq : p.reqRestartSc = false) (hi : Phy.Idle p) (hw : Phy.WfFrame m f) (hbad : ¬ Intact f)
    (hdir : ∀ a, f[1]? = some a → 128 ≤ a.toNat) (ha : Phy.Arrives env (Phy.marked m f)) :
    ∃ q o, step C p (.update cb env) = .ok (q, o) ∧ q.state = .offline ∧ q.scActive = false ∧ q.tstamp = env.now ∧ q.waitMs = 300000 ∧ q.phyState = .idle := by
  have hto : Phy.Towards p f := by
    intro a h1
    have hge := hdir a h1
    unfold Phy.dirOk Pd.isCp
    rw [hr.inv.cp, (show ∀ a : Byte, 128 ≤ a.toNat → Phy.hasBit a 0x80#8 = true by decide +kernel) a hge]
    rfl
  obtain ⟨t, ht⟩ := Phy.checkPacket_frame p m f env hi hw hto ha
  rw [Phy.bodyFrame_bad _ m f hw hbad] at ht
  exact unusable_offline C info p _ cb env .fmt hr hon hps hreq ht (.inl rfl)

/-- **C104, the part that holds.**  As long as what has arrived is no complete packet (`osdp_phy_check_packet` waits for more) and the command may be repeated once more,
the PD stays as it is, online and in its session; when the time for the answer is over the repetition is scheduled.  Missing: a complete packet with a wrong check value
(see `C104_offline`). -/
theorem C104_partial (C : Cipher) (p p1 : Pd) (cb : Bool) (env : Env) (r : Phy.PktRet) (hps : p.phyState = .replyWait) (hc : Phy.checkPacket p env = .ok (p1, r))
    (hr : r = .noData ∨ r = .wait) (hk : p.retryCount < 8) :
    ∃ q, step C p (.update cb env) = .ok (q, []) ∧ q.state = p.state ∧ q.scActive = p.scActive ∧ q.sc = p.sc ∧ q.seq = p.seq ∧ q.cmdId = p.cmdId ∧ q.eph = p.eph ∧
      (env.now - p.phyTstamp ≤ 200 → q.phyState = .replyWait ∧ q.retryCount = p.retryCount) ∧
      (200 < env.now - p.phyTstamp → q.phyState = .wait ∧ q.retryCount = p.retryCount + 1 ∧ q.phyTstamp = env.now ∧ q.waitMs = 800) := by
  have hcol : Phy.Collected p p1 := by
    rcases hr with rfl | rfl <;> exact (Phy.checkPacket_checked hc).early (by simp) (by simp) (by simp)
  have T := hcol.transp
  have hrun : phyRunning p = true := by unfold phyRunning; rw [hps]; rfl
  have h0 : phyUpdate C p env = phyReply C p env := by unfold phyUpdate; rw [hps]
  have h1 : processReply C p env = .ok (p1, [], .noData) := by
    unfold processReply
    rw [hc]
    rcases hr with rfl | rfl <;> rfl
  have hts : p1.phyTstamp = p.phyTstamp := T.phyTstamp
  have hrc : p1.retryCount = p.retryCount := T.retryCount
  by_cases hlate : 200 < env.now - p.phyTstamp
  · let q : Pd := { p1 with waitMs := 800, phyState := .wait, retryCount := p1.retryCount + 1, phyTstamp := env.now }
    have h2 : phyReply C p env = .ok (q, [], .canYield) := by
      unfold phyReply
      rw [h1]
      have c1 : env.now - p1.phyTstamp > PdM.RESP_TOUT := by rw [hts]; exact hlate
      have c2 : p1.retryCount < CMD_MAX_RETRIES := by rw [hrc]; exact hk
      show (if env.now - p1.phyTstamp > PdM.RESP_TOUT then _ else _) = _
      rw [if_pos c1, if_pos c2]
      rfl
    have h3 : stateUpdate C cb p env = .ok (q, [], true) := by
      unfold stateUpdate
      simp only [hrun, if_true, h0, h2]
      rfl
    refine ⟨q, ?_, T.state, hcol.scActive, hcol.sc, hcol.seq, T.cmdId, hcol.eph, fun h => by omega, fun _ => ⟨rfl, congrArg (· + 1) hrc, rfl, rfl⟩⟩
    show (stateUpdate C cb p env >>= _) = _
    rw [h3]
    rfl
  · have h2 : phyReply C p env = .ok (p1, [], .inprog) := by
      unfold phyReply
      rw [h1]
      have c1 : ¬ env.now - p1.phyTstamp > PdM.RESP_TOUT := by rw [hts]; exact hlate
      show (if env.now - p1.phyTstamp > PdM.RESP_TOUT then _ else _) = _
      rw [if_neg c1]
      rfl
    have h3 : stateUpdate C cb p env = .ok (p1, [], false) := by
      unfold stateUpdate
      simp only [hrun, if_true, h0, h2]
      rfl
    refine ⟨p1, ?_, T.state, hcol.scActive, hcol.sc, hcol.seq, T.cmdId, hcol.eph, fun _ => ⟨T.phyState.trans hps, hrc⟩, fun h => absurd h hlate⟩
    show (stateUpdate C cb p env >>= _) = _
    rw [h3]
    rfl

/-- what becomes of a session in which the CP hears `bs` in place of the answer, at time `t` -/
def hearing104 (bs : List Byte) (t : Int) : Option (CpState × Bool × PhyState × Nat) :=
  (step xorCipher securely.cp (Sample.hears bs t)).toOption.map fun r => (r.1.state, r.1.flags.scActive, r.1.phyState, r.1.retryCount)

example : Reached xorCipher Sample.pdInfo securely.cp :=
  Link.turns_reached _ _ (Link.turns_reached _ _ (Sample.cp_reached (C := xorCipher) (ops := []) rfl))

/-- The cases of the theorems: the last byte of the answer of the PD is damaged; it is missing; the answer is missing altogether when the time for it is over. -/
example : securely.cp.phyState = .replyWait ∧ securely.cp.reqRestartSc = false ∧ securely.cp.packetBufLen = 0 ∧ securely.cp.rx = [] ∧
    hearing104 (cardRead.dropLast.concat 0#8) 460 = some (.offline, false, .idle, 0) ∧
    hearing104 cardRead.dropLast 460 = some (.online, true, .replyWait, 0) ∧
    hearing104 cardRead 460 = some (.online, true, .idle, 0) ∧
    hearing104 [] 900 = some (.online, true, .wait, 1) := by
  refine ⟨?_, ?_, ?_, ?_, ?_, ?_, ?_, ?_⟩ <;> decide +kernel

end Osdp.CpM
