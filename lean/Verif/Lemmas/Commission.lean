import Verif.Props.C20
import Verif.Lemmas.Meet
import Verif.Props.C30

/-!
# A CP installs its key in a PD it reached with the default key: the KEYSET and its acknowledgement
-/

namespace Osdp.Link

open Phy PdM CpM
open Spec.Wire (Packet sent)
open Spec.Command (asked)

/-- the data of the KEYSET command that carries the key `k` -/
def installBody (k : Block) : List Byte := b8 Id.KEYSET :: (1#8 :: 16#8 :: k.1)

/-- the command as the application of the PD gets it -/
def installCmd (k : Block) : Cmd := .keyset ⟨1#8, 16#8, .padTo 32 k.1⟩

theorem installBody_length (k : Block) : (installBody k).length = 19 := by simp [installBody, k.2]

theorem padTo_take (k : Block) : (Bytes.padTo 32 k.1).1.take 16 = k.1 := by
  have := k.2
  unfold Bytes.padTo
  show List.take 16 (List.take 32 k.val ++ _) = _
  rw [List.take_of_length_le (l := k.1) (by omega), List.take_append_of_le_length (by omega), List.take_of_length_le (by omega)]

theorem installPkt_length (C : Cipher) (cp : Pd) (k : Block) : (cpPkt C cp (installBody k)).bytes.length ≤ 47 := by
  have hne : installBody k ≠ [] := by simp [installBody]
  have hl := installBody_length k
  unfold cpPkt
  rw [Phy.bytes_length]
  show (if (!cp.flags.skipMark) = true then 1 else 0) + (5 + (cpTx cp (installBody k).length).scb.length + (anyData C cp (cpTx cp (installBody k).length) (installBody k)).length + 2) ≤ 47
  have h1 : (if (!cp.flags.skipMark) = true then 1 else 0) ≤ 1 := by split <;> omega
  cases hsc : cp.scActive with
  | false =>
    have ha : anyData C cp (cpTx cp (installBody k).length) (installBody k) = installBody k := by unfold anyData; rw [hsc]; rfl
    rw [ha]
    have : (cpTx cp (installBody k).length).scb = [] := by unfold cpTx; rw [hsc]; rfl
    rw [this]
    simp only [List.length_nil]
    omega
  | true =>
    have ha : anyData C cp (cpTx cp (installBody k).length) (installBody k) = securedData C cp (cpTx cp (installBody k).length) (installBody k) := by unfold anyData; rw [hsc]; rfl
    rw [ha, Phy.securedData_length C cp _ _ hne]
    have : (cpTx cp (installBody k).length).scb.length = 2 := by unfold cpTx; rw [hsc]; rfl
    rw [this]
    have h2 : Sc.aesPadLen (installBody k).length = 32 := by rw [hl]; rfl
    have h3 : (if (cpTx cp (installBody k).length).encrypted = true then 1 + Sc.aesPadLen (installBody k).length else (installBody k).length) ≤ 33 := by
      rw [h2, hl]; split <;> omega
    omega

/-- The CP sends its key. -/
theorem cp_installs (C : Cipher) (cp pd : Pd) (cb : Bool) (env : Env) (k : Block) (E : Ends cp pd) (hact : cp.scActive = true) (hci : Idle cp) (hpi : Idle pd)
    (hps : cp.phyState = .sendCmd) (hid : cp.cmdId = Id.KEYSET) (he : cp.eph = .cmd (installCmd k)) (hm : 69 ≤ cp.txBufSize)
    (hmk : (cp.flags.hasMark && cp.flags.skipMark) = false) (hseq : cp.seq = pd.seq) (h0 : 0 ≤ cp.seq ∧ cp.seq ≤ 3) (hcap : 256 ≤ env.sendCap) :
    ∃ buf, CpM.step C cp (.update cb env) =
      .ok (sentState { nextCmd cp with sc := anySc C cp (cpTx cp (installBody k).length) (installBody k), packetBuf := buf } env.now,
        sendOuts cp env (cpPkt C cp (installBody k)).bytes) ∧ buf.length = 256 := by
  have hl := installPkt_length C cp k
  have hb : commandBody C (nextCmd cp) env (cmdTx cp) (cp.txBufSize - (cmdTx cp).dataOff) =
      .ok ⟨nextCmd cp, cmdTx cp, [], some (installBody k)⟩ := by
    unfold commandBody
    rw [show (nextCmd cp).cmdId = Id.KEYSET from hid]
    dsimp only
    repeat rw [if_neg (by decide)]
    rw [if_pos rfl, if_neg (by show ¬ ¬ cp.scActive = true; rw [hact]; simp), show (nextCmd cp).eph = .cmd (installCmd k) from he]
    unfold installCmd
    dsimp only
    have ha : PdM.assertLen 19 ((cp.txBufSize : Int) - (cmdTx cp).dataOff) = .ok () := if_pos (by have := cmdTx_dataOff cp; omega)
    rw [ha]
    simp only [Res.ok_bind]
    rw [if_neg (by decide), if_pos trivial, padTo_take]
    rfl
  obtain ⟨buf, -, -, h1, h2, -⟩ := command_arrives C cp pd cb env (arriving 0 _) cp.file [] (installBody k) (b8 Id.KEYSET) (1#8 :: 16#8 :: k.1) rfl E hmk hps hci.buf hpi hm
    (by rw [hid]; decide) hb (by omega) hcap ⟨by omega, h0.2⟩ ⟨by omega, by omega⟩ (.inl hseq) (fun _ => by omega) (arriving_arrives 0 _ (by omega))
  exact ⟨buf, h1, h2⟩

/-- the PD once it has taken the key -/
structure Installed (pd q0 q : Pd) (k : Block) (m : Bool) (s : Int) : Prop where
  scbk : q.sc.scbk = k
  flags : q.flags = { pd.flags with scActive := false, broadcast := false, hasMark := m, useScbkd := false, installMode := false }
  seq : q.seq = s
  address : q.address = pd.address
  cap : q.cap = pd.cap
  peerRx : q.peerRx = pd.peerRx
  idle : Idle q
  /-- what the acknowledgement is sent from -/
  flags0 : q0.flags = { pd.flags with broadcast := false, hasMark := m }
  address0 : q0.address = pd.address
  seq0 : q0.seq = s

/-- The PD gets the key, its application accepts it, and the PD acknowledges. -/
theorem pd_installs (C : Cipher) (cp pd : Pd) (env : Env) (k : Block) (cbk : Nat → Cmd → Int × Cmd) (E : Ends cp pd) (hact : cp.scActive = true)
    (hpi : Idle pd) (hbc : pd.flags.broadcast = false) (hcomp : (pd.cap 9).compliance ≠ 0#8) (hm : 69 ≤ pd.txBufSize)
    (hseq : cp.seq = pd.seq) (h0 : 0 ≤ cp.seq ∧ cp.seq ≤ 3) (hcap : 256 ≤ env.sendCap) (hexp : expire pd env.now = pd)
    (hcb : env.cb = some cbk) (hacc : cbk 0 (installCmd k) = (0, installCmd k)) (ha : Arrives env (cpPkt C cp (installBody k)).bytes) :
    ∃ q0 q o, PdM.step C pd (.refresh env) = .ok (q, o) ∧ asked o = [installCmd k] ∧ sent o = [(pdPktN C q0 1 [b8 Id.ACK]).bytes] ∧
      (pdPktN C q0 1 [b8 Id.ACK]).bytes.length ≤ 256 ∧
      Installed pd q0 q k (!cp.flags.skipMark) (Phy.nextSeq cp.seq true) ∧ q0.scActive = true ∧
      SameSession (anySc C cp (cpTx cp (installBody k).length) (installBody k)) q0.sc := by
  have hl := installPkt_length C cp k
  obtain ⟨h, sc, hH, -, hrec, hpa, hss, hsc⟩ := command_read C cp pd env (installBody k) (b8 Id.KEYSET) (1#8 :: 16#8 :: k.1) rfl E hpi (by omega)
    ⟨by omega, h0.2⟩ ⟨by omega, by omega⟩ (.inl hseq) (fun _ => by omega) ha
  obtain ⟨s, hs⟩ : ∃ s, s = Phy.seqBits (Phy.nextSeq cp.seq true) := ⟨_, rfl⟩
  have hsn : (s : Int) = Phy.nextSeq cp.seq true := by
    rw [hs]; unfold Phy.nextSeq Phy.seqBits; rw [if_pos rfl]; split <;> omega
  rw [← hs] at hrec hpa
  obtain ⟨P, hP⟩ : ∃ P, P = reload (setSc (pdAccept pd s false) sc) h := ⟨_, rfl⟩
  rw [← hP] at hrec
  have hPa : P.scActive = true := by rw [hP]; exact hpa.trans hact
  have hPm : P.flags.pdMode = true := by rw [hP]; exact E.pdMode
  have hPf : P.flags = { pd.flags with broadcast := false, hasMark := !cp.flags.skipMark } := by
    have h1 : (pd.flags.scActive && s != 0) = pd.flags.scActive := by
      have : pd.flags.scActive = true := E.act.trans hact
      have h2 : (pd.flags.scActive && s != 0) = true := hpa.trans hact
      rw [h2, this]
    rw [hP]
    show ({ pd.flags with scActive := pd.flags.scActive && s != 0, broadcast := pd.flags.broadcast || false, hasMark := h.mark } : Flags) = _
    rw [h1, hbc, hH.mark]
    rfl
  have hk : (⟨(Bytes.padTo 32 k.1).1.take 16, by simp [(Bytes.padTo 32 k.1).2]⟩ : Block) = k := Subtype.ext (padTo_take k)
  let q1 : Pd := { setNak (noteCmd P (b8 Id.KEYSET)) Nak.SC_COND with eph := .key k, replyId := Id.ACK }
  have hcapP : PdM.capOk (setNak (noteCmd P (b8 Id.KEYSET)) Nak.SC_COND) none = (setNak (noteCmd P (b8 Id.KEYSET)) Nak.SC_COND, true) := by
    unfold PdM.capOk
    rw [if_pos]
    have e : (setNak (noteCmd P (b8 Id.KEYSET)) Nak.SC_COND).cap = pd.cap := by rw [hP]; rfl
    rw [e]
    show PdM.capAllows pd.cap Id.KEYSET none = true
    unfold PdM.capAllows
    simp only
    repeat rw [if_neg (by decide)]
    rw [if_pos (by decide)]
    simpa using hcomp
  have hdis : commanded P env (b8 Id.KEYSET) (1#8 :: 16#8 :: k.1) = .ok (q1, [.cmd (installCmd k)], .none) := by
    unfold commanded
    rw [if_neg (by
      unfold PdM.plainRefused
      rw [show (noteCmd P (b8 Id.KEYSET)).scActive = true from hPa]
      simp)]
    unfold PdM.dispatch
    dsimp only
    rw [show (noteCmd P (b8 Id.KEYSET)).cmdId = Id.KEYSET from rfl]
    repeat rw [if_neg (by decide)]
    rw [if_pos rfl]
    unfold PdM.keysetCmd
    rw [dif_neg (by simp [k.2])]
    dsimp only [List.getElem_cons_zero, List.getElem_cons_succ]
    rw [if_neg (by decide), hcapP]
    dsimp only
    rw [if_neg (by show ¬ ¬ P.scActive = true; rw [hPa]; simp), if_neg (by rw [hcb]; simp)]
    unfold PdM.callback
    rw [hcb]
    dsimp only
    rw [show cbk 0 (.keyset ⟨1#8, 16#8, .padTo 32 (List.drop 2 (1#8 :: 16#8 :: k.1))⟩) = (0, installCmd k) from hacc]
    dsimp only
    rw [if_neg (by simp)]
    show PdM.reply { setNak (noteCmd P (b8 Id.KEYSET)) Nak.SC_COND with eph := .key ⟨(Bytes.padTo 32 k.1).1.take 16, _⟩ } Id.ACK _ = _
    rw [hk]
    rfl
  let q0 : Pd := { q1 with scTstamp := env.now }
  have htch : PdM.touch q1 .none env.now = q0 := by
    unfold PdM.touch
    rw [if_pos ⟨rfl, hPa⟩]
  have hq0f : q0.flags = P.flags := rfl
  have htx : q0.txBufSize = pd.txBufSize := by show P.txBufSize = _; rw [hP]; rfl
  have hlr : (pdPkt C q0 [b8 Id.ACK]).bytes.length ≤ 69 := by
    unfold pdPkt
    rw [Phy.bytes_length]
    show (if q0.flags.hasMark = true then 1 else 0) + (5 + (pdTx q0 1).scb.length + (anyData C q0 (pdTx q0 1) [b8 Id.ACK]).length + 2) ≤ 69
    have h1 : (if q0.flags.hasMark = true then 1 else 0) ≤ 1 := by split <;> omega
    have ha : anyData C q0 (pdTx q0 1) [b8 Id.ACK] = securedData C q0 (pdTx q0 1) [b8 Id.ACK] := by unfold anyData; rw [show q0.scActive = true from hPa]; rfl
    rw [ha, Phy.securedData_length C q0 _ _ (by simp)]
    have : (pdTx q0 1).scb.length = 2 := by unfold pdTx; rw [show q0.scActive = true from hPa]; rfl
    rw [this]
    have h2 : Sc.aesPadLen ([b8 Id.ACK] : List Byte).length = 16 := rfl
    have h3 : (if (pdTx q0 1).encrypted = true then 1 + Sc.aesPadLen ([b8 Id.ACK] : List Byte).length else ([b8 Id.ACK] : List Byte).length) ≤ 17 := by
      rw [h2]; split <;> simp
    omega
  obtain ⟨buf, hsr, hbl⟩ := sendReply_any C q0 env { p := unbc q0, t := replyTx q0, body := .ok [b8 Id.ACK] } [b8 Id.ACK] hPm rfl (by rw [htx]; exact hm)
    (by show P.packetBuf.length = _; rw [hP]; exact hH.buf) (by
      unfold replyBody
      dsimp only
      rw [show (unbc q0).replyId = Id.ACK from rfl, if_pos rfl]
      have ha : PdM.assertLen 1 ((q0.txBufSize : Int) - (replyTx q0).dataOff) = .ok () := if_pos (by have := replyTx_dataOff q0; omega)
      rw [ha]
      rfl) rfl rfl rfl rfl rfl rfl (by simp) (by rw [htx]; omega)
  rw [decide_eq_true (show (pdPkt C q0 [b8 Id.ACK]).bytes.length ≤ env.sendCap by omega)] at hsr
  obtain ⟨q2, hq2⟩ : ∃ q2 : Pd, q2 = { unbc q0 with sc := anySc C q0 (pdTx q0 1) [b8 Id.ACK], packetBuf := buf } := ⟨_, rfl⟩
  have hsr' : PdM.sendReply C q0 env = .ok (q2, sendOuts q0 env (pdPkt C q0 [b8 Id.ACK]).bytes, true) := by rw [hsr, hq2]; rfl
  have haft : PdM.afterSend q2 true = .ok (Phy.stateReset (Pd.scDeactivate { q2 with
      sc := { q2.sc with scbk := k }, flags := { q2.flags with useScbkd := false, installMode := false } }) false).1 := by
    unfold PdM.afterSend PdM.commitKeyset
    rw [if_pos rfl, if_pos (by rw [hq2]; exact ⟨rfl, rfl⟩), show q2.eph = .key k by rw [hq2]; rfl]
    rfl
  have hfin : PdM.finish C q1 env .none = .ok ((Phy.stateReset (Pd.scDeactivate { q2 with
      sc := { q2.sc with scbk := k }, flags := { q2.flags with useScbkd := false, installMode := false } }) false).1,
      sendOuts q0 env (pdPkt C q0 [b8 Id.ACK]).bytes) := by
    unfold PdM.finish
    rw [if_neg (by decide), if_neg (by simp), if_neg (by decide), htch, hsr']
    simp only [Res.ok_bind]
    rw [haft]
    rfl
  obtain ⟨hso, -⟩ := PdM.sendOuts_sent q0 env (pdPkt C q0 [b8 Id.ACK]).bytes (by omega)
  refine ⟨q0, ?_, ?_, ?_, ?_, ?_, ?_, ?_, hPa, ?_⟩
  · exact (Phy.stateReset (Pd.scDeactivate { q2 with
      sc := { q2.sc with scbk := k }, flags := { q2.flags with useScbkd := false, installMode := false } }) false).1
  · exact [.cmd (installCmd k)] ++ sendOuts q0 env (pdPkt C q0 [b8 Id.ACK]).bytes
  · show PdM.refresh C pd env = _
    unfold PdM.refresh
    rw [hexp, hrec, hdis]
    simp only [Res.ok_bind]
    rw [hfin]
    rfl
  · show asked ([.cmd (installCmd k)] ++ sendOuts q0 env (pdPkt C q0 [b8 Id.ACK]).bytes) = _
    unfold asked sendOuts
    split <;> rfl
  · rw [CpM.sent_append, hso]; rfl
  · exact Nat.le_trans hlr (by decide)
  · refine ⟨rfl, ?_, ?_, ?_, ?_, ?_, ⟨rfl, rfl, by rw [hq2]; exact hbl, ?_⟩, hPf, ?_, ?_⟩
    · rw [hq2]
      show ({ P.flags with broadcast := false, useScbkd := false, installMode := false, scActive := false } : Flags) = _
      rw [hPf]
    · rw [hq2, ← hsn]; show P.seq = _; rw [hP]; rfl
    · rw [hq2]; show P.address = _; rw [hP]; rfl
    · rw [hq2]; show P.cap = _; rw [hP]; rfl
    · rw [hq2]; show P.peerRx = _; rw [hP]; rfl
    · rw [hq2]; show P.rx = _; rw [hP]; exact hH.rx
    · show P.address = _; rw [hP]; rfl
    · rw [← hsn]; show P.seq = _; rw [hP]; rfl
  · show SameSession _ P.sc
    rw [hP]
    exact hss hact

/-- The CP whose key was acknowledged closes the session and starts anew, with that key. -/
theorem keyset_settles {cb : Bool} {d : Pd} {env : Env} (hd : d.phyState = .done) (hst : d.state = .setScbk) (hid : d.cmdId = Id.KEYSET)
    (hr : d.replyId = Id.ACK) (hu : d.flags.useScbkd = true) :
    ∃ o, CpM.settle cb d env = .ok ({ d with
      packetBufLen := 0, packetLen := 0, phyState := .idle, state := .scChlng, sc := Sc.setup d.flags.hasScbk env.random d.sc
      flags := { d.flags with scActive := false, useScbkd := false } }, o) ∧ sent o = [] := by
  suffices h : ∃ o, CpM.settle cb d env = .ok ({ d with
      packetBufLen := 0, packetLen := 0, phyState := .idle, state := .scChlng, sc := Sc.setup d.flags.hasScbk env.random d.sc
      flags := { d.flags with scActive := false, useScbkd := false } }, o) from by
    obtain ⟨o, h⟩ := h
    exact ⟨o, h, CpM.settle_sent h⟩
  have hc : CpM.stateCheckReply cb d = .ok (d, [], true) := by unfold CpM.stateCheckReply; rw [hst, hr]; rfl
  obtain ⟨o1, key⟩ : ∃ o, CpM.keysetComplete cb (Phy.stateReset d false).1 =
      .ok ({ (Phy.stateReset d false).1 with flags := { d.flags with scActive := false, useScbkd := false } }, o) := by
    unfold CpM.keysetComplete
    rw [if_neg (by show ¬ ¬ d.flags.useScbkd = true; rw [hu]; simp)]
    simp only [Res.ok_bind]
    rw [if_neg (by show ¬ d.state = _; rw [hst]; decide)]
    exact ⟨_, rfl⟩
  unfold CpM.settle
  rw [hd]
  dsimp only
  rw [hc]
  simp only [Res.ok_bind]
  rw [show (PhyState.done == PhyState.done && true) = true from rfl]
  unfold CpM.advance
  rw [if_pos rfl]
  unfold CpM.nextOk
  rw [show (Phy.stateReset d false).1.state = .setScbk from hst]
  dsimp only
  rw [key]
  simp only [Res.ok_bind]
  rw [CpM.requests_none (by show d.state ≠ _; rw [hst]; decide) (by decide)]
  simp only [Res.ok_bind]
  rw [if_pos (by decide)]
  exact ⟨_, rfl⟩

/-- The CP hears the acknowledgement. -/
theorem cp_installed (C : Cipher) (q0 cp : Pd) (cb : Bool) (env : Env) (E : Ends cp q0) (hact : cp.scActive = true) (hi : Idle cp)
    (hcm : cp.sc.cMac = q0.sc.cMac) (hbc : q0.flags.broadcast = false) (hlen : (pdPktN C q0 1 [b8 Id.ACK]).bytes.length ≤ 256)
    (hs : q0.seq = cp.seq) (hps : cp.phyState = .replyWait) (hst : cp.state = .setScbk) (hid : cp.cmdId = Id.KEYSET)
    (hu : cp.flags.useScbkd = true) (ha : Arrives env (pdPktN C q0 1 [b8 Id.ACK]).bytes) :
    ∃ q o, CpM.step C cp (.update cb env) = .ok (q, o) ∧ sent o = [] ∧ q.state = .scChlng ∧ q.phyState = .idle ∧
      q.sc = Sc.setup cp.flags.hasScbk env.random cp.sc ∧
      q.flags = { cp.flags with hasMark := q0.flags.hasMark, scActive := false, useScbkd := false } ∧
      q.address = cp.address ∧ q.seq = cp.seq ∧ Idle q ∧ q.peerRx = cp.peerRx ∧ q.reqOffline = cp.reqOffline ∧ q.reqEventSend = cp.reqEventSend := by
  obtain ⟨-, h, sc, hH, hrd, -, hsc⟩ := reply_read C q0 cp env 1 [b8 Id.ACK] (b8 Id.ACK) [] rfl E (fun _ => hcm) hi hbc hlen (by rw [hs]) (by decide) ha
  have hresp : CpM.processReply C cp env = .ok ({ reload (setSc cp sc) h with replyId := Id.ACK }, [], .none) := by
    rw [hrd]
    unfold CpM.response
    dsimp only
    rw [show (b8 Id.ACK).toNat = Id.ACK from rfl, if_pos rfl]
    rfl
  obtain ⟨o', hset, hse⟩ := keyset_settles (cb := cb) (env := env)
    (d := { reload (setSc cp sc) h with replyId := Id.ACK, tstamp := env.now, scTstamp := if cp.scActive then env.now else cp.scTstamp, phyState := .done })
    rfl hst hid rfl hu
  have hstep := answered_step (cb := cb) hps hresp hset
  refine ⟨_, _, hstep, by rw [List.nil_append]; exact hse, rfl, rfl, ?_, ?_, rfl, rfl, ⟨rfl, rfl, hH.buf, hH.rx⟩, rfl, rfl, rfl⟩
  · show Sc.setup cp.flags.hasScbk env.random sc = _
    rw [hsc]; rfl
  · show ({ cp.flags with hasMark := h.mark, scActive := false, useScbkd := false } : Flags) = _
    rw [hH.mark]
    rfl

/-- A reply that fails is settled at once. -/
theorem refused_step {C : Cipher} {cb : Bool} {p q q' : Pd} {env : Env} {o o' : List Out} (hps : p.phyState = .replyWait)
    (hr : CpM.processReply C p env = .ok (q, o, .generic)) (hset : CpM.settle cb { q with phyState := .err } env = .ok (q', o')) :
    CpM.step C p (.update cb env) = .ok (q', o ++ o') := by
  show (CpM.stateUpdate C cb p env >>= _) = _
  unfold CpM.stateUpdate
  rw [if_pos (by unfold CpM.phyRunning; rw [hps]; decide)]
  unfold CpM.phyUpdate
  rw [hps]
  dsimp only
  unfold CpM.phyReply
  rw [hr]
  simp only [Res.ok_bind]
  rw [if_neg (by decide), if_neg (by rintro ⟨h, -⟩; cases h), if_pos (by decide)]
  show (CpM.settle cb { q with phyState := .err } env >>= fun x => Except.ok (x.1, o ++ x.2, true)) >>= _ = _
  rw [hset]
  rfl

/-- A CP whose challenge with its own key was answered wrongly tries the default key next, or gives up when it insists on its own. -/
theorem chlng_fails {cb : Bool} {d : Pd} {env : Env} (hd : d.phyState = .err) (hst : d.state = .scChlng) (hid : d.cmdId = Id.CHLNG)
    (hrep : d.replyId = Id.CCRYPT) (hu : d.flags.useScbkd = false) (he : d.flags.enforceSecure = false) :
    CpM.settle cb d env = .ok ({ d with packetBufLen := 0, packetLen := 0, phyState := .idle, flags := { d.flags with useScbkd := true } }, []) := by
  have hc : CpM.stateCheckReply cb d = .ok (d, [], true) := by unfold CpM.stateCheckReply; rw [hst, hrep]; rfl
  unfold CpM.settle
  rw [hd]
  dsimp only
  rw [hc]
  simp only [Res.ok_bind]
  rw [show (PhyState.err == PhyState.done && true) = false from rfl]
  unfold CpM.advance
  rw [if_neg (by decide)]
  unfold CpM.nextErr
  rw [show (Phy.stateReset d false).1.state = .scChlng from hst]
  dsimp only
  rw [if_neg (by show ¬ d.flags.enforceSecure = true; rw [he]; decide), if_pos (by show ¬ d.flags.useScbkd = true; rw [hu]; decide)]
  simp only [Res.ok_bind]
  rw [CpM.requests_none (by show d.state ≠ _; rw [hst]; decide) (by decide)]
  simp only [Res.ok_bind]
  rw [if_neg (by simp)]
  have hn : CpM.notifyCommand cb d true = [] := by unfold CpM.notifyCommand CpM.appCmd; rw [hid]; rfl
  rw [hn]
  rfl

/-- The CP gets a cryptogram that is not the one of its own key. -/
theorem cp_unconvinced (C : Cipher) (q0 cp : Pd) (cb : Bool) (env : Env) (x : Byte) (uid rnd : Half) (cg : Block)
    (hcp : cp.flags.pdMode = false) (haddr : cp.address = q0.address) (hr : 0 ≤ q0.address ∧ q0.address ≤ 126) (hi : Idle cp)
    (hbc : q0.flags.broadcast = false) (hrep : q0.replyId = Id.CCRYPT) (hs : q0.seq = cp.seq)
    (hps : cp.phyState = .replyWait) (hst : cp.state = .scChlng) (hid : cp.cmdId = Id.CHLNG) (hact : cp.scActive = false)
    (hu : cp.flags.useScbkd = false) (he : cp.flags.enforceSecure = false)
    (hcg : cg ≠ C.enc (Sc.sessionKeys C cp.flags.useScbkd cp.sc).sEnc (Bytes.join cp.sc.cpRandom rnd))
    (ha : Arrives env (hsReply q0 0x12#8 x (b8 Id.CCRYPT :: (uid.1 ++ rnd.1 ++ cg.1))).bytes) :
    ∃ q, CpM.step C cp (.update cb env) = .ok (q, []) ∧ q.state = .scChlng ∧ q.phyState = .idle ∧
      q.sc.scbk = cp.sc.scbk ∧ q.sc.cpRandom = cp.sc.cpRandom ∧
      q.flags = { cp.flags with hasMark := q0.flags.hasMark, useScbkd := true } ∧ q.address = cp.address ∧ q.seq = cp.seq ∧ q.peerRx = cp.peerRx ∧ Idle q ∧
      q.reqOffline = cp.reqOffline ∧ q.reqEventSend = cp.reqEventSend := by
  have hu' := uid.2
  have hn := rnd.2
  have hc := cg.2
  have hl : (uid.1 ++ rnd.1 ++ cg.1).length = 32 := by simp [hu', hn, hc]
  obtain ⟨h, hH, hrd⟩ := hs_answer C q0 cp env 0x12#8 x (b8 Id.CCRYPT) (uid.1 ++ rnd.1 ++ cg.1) hcp haddr hr hi hbc (by rw [hrep]; rfl) (.inl rfl)
    (by rw [List.length_cons, hl]; decide) hs ha
  let sc' : Sc := Sc.sessionKeys C cp.flags.useScbkd { cp.sc with pdClientUid := uid, pdRandom := rnd, pdCryptogram := cg }
  have hresp : CpM.processReply C cp env = .ok ({ reload cp h with replyId := Id.CCRYPT, sc := sc' }, [], .generic) := by
    rw [hrd]
    unfold CpM.response
    dsimp only
    rw [show (b8 Id.CCRYPT).toNat = Id.CCRYPT from rfl]
    repeat rw [if_neg (by decide)]
    rw [if_pos rfl, if_neg (by
      rintro (hx | hx)
      · exact absurd (hact.symm.trans hx) (by simp)
      · exact hx hid), dif_neg (by simp only [hl]; decide)]
    have e1 : (⟨(uid.1 ++ rnd.1 ++ cg.1).take 8, by simp [hu', hn, hc]⟩ : Half) = uid := Subtype.ext (by simp [hu'])
    have e2 : (⟨((uid.1 ++ rnd.1 ++ cg.1).drop 8).take 8, by simp [hu', hn, hc]⟩ : Half) = rnd := Subtype.ext (by simp [hu', hn])
    have e3 : (⟨(uid.1 ++ rnd.1 ++ cg.1).drop 16, by simp [hu', hn, hc]⟩ : Block) = cg := Subtype.ext (by
      show List.drop 16 (uid.1 ++ rnd.1 ++ cg.1) = _
      rw [List.drop_append, List.drop_eq_nil_of_le (by simp [hu', hn])]
      simp [hu', hn])
    simp only [e1, e2, e3]
    have hv : ¬ Sc.verifyPdCryptogram C sc' = true := fun h => hcg (of_decide_eq_true h)
    show Except.ok ({ reload cp h with replyId := Id.CCRYPT, sc := sc' }, [], if Sc.verifyPdCryptogram C sc' = true then _ else _) = _
    rw [if_neg hv]
  have hset := chlng_fails (cb := cb) (env := env) (d := { reload cp h with replyId := Id.CCRYPT, sc := sc', phyState := .err }) rfl hst hid rfl hu he
  have hstep := refused_step (cb := cb) hps hresp hset
  refine ⟨_, hstep, hst, rfl, rfl, rfl, ?_, rfl, rfl, rfl, ⟨rfl, rfl, hH.buf, hH.rx⟩, rfl, rfl⟩
  show ({ cp.flags with hasMark := h.mark, useScbkd := true } : Flags) = _
  rw [hH.mark]
  rfl

end Osdp.Link
