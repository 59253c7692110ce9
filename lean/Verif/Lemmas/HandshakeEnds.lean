import Verif.Lemmas.Handshake

/-! # The four steps of the secure channel handshake -/

namespace Osdp.Link

open Spec.Wire
open Phy (Idle Arrives pktAddr pdAccept reload Held pktOf sendOuts Tx setSc)
open CpM (nextCmd cmdTx sentState commandBody)
open PdM (Holding ForUs commanded unbc replyTx replyBody)

/-- third byte of the security block: 0 for the default key -/
def keyByte (p : Pd) : Byte := if p.flags.useScbkd then 0 else 1

theorem cmdTx_handshake (cp : Pd) (hc : cp.scActive = false) (hh : Phy.inHandshake false cp.cmdId = true) :
    (cmdTx cp).scb = [3#8, 0x11#8, 0#8] ∧ (cmdTx cp).dataOff ≤ 9 := by
  refine ⟨?_, CpM.cmdTx_dataOff cp⟩
  unfold cmdTx
  simp [hc, hh]

theorem replyTx_handshake (q : Pd) (hc : q.scActive = false) (hh : Phy.inHandshake true q.replyId = true) :
    (replyTx q).scb = [3#8, 0x11#8, 0#8] ∧ (replyTx q).dataOff ≤ 9 := by
  have : (replyTx q).scb = [3#8, 0x11#8, 0#8] := by unfold replyTx; simp [hc, hh]
  refine ⟨this, ?_⟩
  unfold Phy.Tx.dataOff
  rw [this]
  split <;> simp

/-- The CP sends its challenge. -/
theorem cp_challenges (C : Cipher) (cp pd : Pd) (cb : Bool) (env : Env) (P : Pair cp pd) (hps : cp.phyState = .sendCmd)
    (hid : cp.cmdId = Id.CHLNG) (hcap : 256 ≤ env.sendCap) :
    ∃ buf, CpM.step C cp (.update cb env) = .ok (sentState { nextCmd cp with packetBuf := buf } env.now,
        sendOuts cp env (hsCmd cp 0x11#8 (keyByte cp) (b8 Id.CHLNG :: cp.sc.cpRandom.1)).bytes) ∧ buf.length = 256 := by
  have hh : Phy.inHandshake false cp.cmdId = true := by rw [hid]; rfl
  obtain ⟨h1, h2⟩ := cmdTx_handshake cp P.clear hh
  have hl := cp.sc.cpRandom.2
  refine hs_sent C cp pd cb env cp.sc 0x11#8 (keyByte cp) (b8 Id.CHLNG :: cp.sc.cpRandom.1) P (by decide) hps (by simp) (by simp [hl]) hcap ?_
  generalize hR : (Except.ok _ : Res CpM.Built) = R
  unfold commandBody
  dsimp only
  rw [show (nextCmd cp).cmdId = Id.CHLNG from hid]
  repeat rw [if_neg (by decide)]
  rw [if_pos rfl]
  have ha : PdM.assertLen 9 ((cp.txBufSize : Int) - (cmdTx cp).dataOff) = .ok () := if_pos (by have := P.cpTx; omega)
  rw [ha]
  simp only [Res.ok_bind]
  rw [if_neg (by rw [h1]; intro h; rcases h with h | h; cases h; rw [show (cmdTx cp).misaligned = _ from P.mark] at h; cases h), if_neg (by rw [h1]; decide)]
  rw [← hR]
  rfl

/-- The CP sends its cryptogram. -/
theorem cp_proves (C : Cipher) (cp pd : Pd) (cb : Bool) (env : Env) (P : Pair cp pd) (hps : cp.phyState = .sendCmd)
    (hid : cp.cmdId = Id.SCRYPT) (hcap : 256 ≤ env.sendCap) :
    ∃ buf, CpM.step C cp (.update cb env) = .ok (sentState { nextCmd cp with sc := Sc.computeCpCryptogram C cp.sc, packetBuf := buf } env.now,
        sendOuts cp env (hsCmd cp 0x13#8 (keyByte cp) (b8 Id.SCRYPT :: (Sc.computeCpCryptogram C cp.sc).cpCryptogram.1)).bytes) ∧ buf.length = 256 := by
  have hh : Phy.inHandshake false cp.cmdId = true := by rw [hid]; rfl
  obtain ⟨h1, h2⟩ := cmdTx_handshake cp P.clear hh
  have hl := (Sc.computeCpCryptogram C cp.sc).cpCryptogram.2
  refine hs_sent C cp pd cb env (Sc.computeCpCryptogram C cp.sc) 0x13#8 (keyByte cp) (b8 Id.SCRYPT :: (Sc.computeCpCryptogram C cp.sc).cpCryptogram.1)
    P (by decide) hps (by simp) (by simp [hl]) hcap ?_
  unfold commandBody
  dsimp only
  rw [show (nextCmd cp).cmdId = Id.SCRYPT from hid]
  repeat rw [if_neg (by decide)]
  rw [if_pos rfl]
  have ha : PdM.assertLen 17 ((cp.txBufSize : Int) - (cmdTx cp).dataOff) = .ok () := if_pos (by have := P.cpTx; omega)
  rw [ha]
  simp only [Res.ok_bind]
  rw [if_neg (by rw [h1]; intro h; rcases h with h | h; cases h; rw [show (cmdTx cp).misaligned = _ from P.mark] at h; cases h), if_neg (by rw [h1]; decide)]
  rfl

theorem Pair.expire {cp pd : Pd} (P : Pair cp pd) (now : Int) : Pair cp (PdM.expire pd now) := by
  unfold PdM.expire
  split
  · exact ⟨P.cpMode, P.pdMode, P.address, P.range, P.cpIdle, ⟨P.pdIdle.bufLen, P.pdIdle.len, P.pdIdle.buf, P.pdIdle.rx⟩, P.clear, P.capable,
      P.compliance, P.cpTx, P.pdTx, P.mark, P.bc, P.cpSeq, P.pdSeq, P.seq⟩
  · exact P

/-- does the PD use the default key after this security block -/
def usesDefault (pd : Pd) (x : Byte) : Bool := pd.flags.useScbkd || (pd.flags.installMode && x == 0#8)

theorem noteScbkd_eq (p : Pd) (ty x : Byte) (hty : ty = 0x11#8 ∨ ty = 0x13#8) :
    Phy.noteScbkd p ty x = { p with flags := { p.flags with useScbkd := usesDefault p x } } := by
  unfold Phy.noteScbkd usesDefault
  by_cases h : p.flags.installMode = true ∧ x = 0#8
  · rw [if_pos ⟨hty, h.1, h.2⟩]
    obtain ⟨h1, h2⟩ := h
    simp [h1, h2]
  · rw [if_neg (fun hn => h ⟨hn.2.1, hn.2.2⟩)]
    have : (p.flags.installMode && x == 0#8) = false := by
      cases hi : p.flags.installMode with
      | false => rfl
      | true => simpa using fun hx => h ⟨hi, hx⟩
    rw [this, Bool.or_false]

/-- What the PD is like after its handshake reply. -/
structure Answered (pd q0 q : Pd) (m : Bool) (s : Int) (r : Nat) (x : Byte) (act : Bool) : Prop where
  mark : q0.flags.hasMark = m
  address : q0.address = pd.address
  bc : q0.flags.broadcast = false
  replyId : q0.replyId = r
  seq : q0.seq = s
  flags : q.flags = { pd.flags with scActive := act, broadcast := false, hasMark := q.flags.hasMark, useScbkd := usesDefault pd x }
  seq' : q.seq = s
  address' : q.address = pd.address
  cap : q.cap = pd.cap
  peerRx : q.peerRx = pd.peerRx
  idle : Idle q

theorem seq_step {cp pd : Pd} (P : Pair cp pd) : (Phy.seqBits (Phy.nextSeq cp.seq true) : Int) = Phy.nextSeq cp.seq true ∧
    0 ≤ Phy.nextSeq cp.seq true ∧ Phy.nextSeq cp.seq true ≤ 3 := by
  have h1 : 0 ≤ Phy.nextSeq cp.seq true ∧ Phy.nextSeq cp.seq true ≤ 3 := by
    have := P.cpSeq
    unfold Phy.nextSeq
    rw [if_pos rfl]
    split <;> omega
  exact ⟨by unfold Phy.seqBits; omega, h1⟩

/-- The PD answers the challenge. -/
theorem pd_challenged (C : Cipher) (cp pd : Pd) (env : Env) (x : Byte) (rnd : Half) (P : Pair cp pd) (hid : cp.cmdId = Id.CHLNG) (hcap : 256 ≤ env.sendCap)
    (ha : Arrives env (hsCmd cp 0x11#8 x (b8 Id.CHLNG :: rnd.1)).bytes) :
    ∃ q0 q, PdM.refresh C pd env = .ok (q, sendOuts q0 env (hsReply q0 0x12#8 (keyByte q)
        (b8 Id.CCRYPT :: (q.sc.pdClientUid.1 ++ q.sc.pdRandom.1 ++ q.sc.pdCryptogram.1))).bytes) ∧
      Answered pd q0 q (!cp.flags.skipMark) (Phy.nextSeq cp.seq true) Id.CCRYPT x false ∧
      q.sc = Sc.computePdCryptogram C (Sc.sessionKeys C (usesDefault pd x) { pd.sc with cpRandom := rnd, pdRandom := env.random }) := by
  have hh : Phy.inHandshake false cp.cmdId = true := by rw [hid]; rfl
  have hl := rnd.2
  have PE := P.expire env.now
  obtain ⟨h, hH, hrec⟩ := hs_read C cp (PdM.expire pd env.now) env 0x11#8 x (b8 Id.CHLNG) rnd.1 PE hh (by decide) (by simp [hl]) ha
  rw [noteScbkd_eq _ _ _ (.inl rfl)] at hrec
  obtain ⟨s1, s2, s3⟩ := seq_step P
  generalize hX : reload _ h = X at hrec
  have hex : ∃ a, PdM.expire pd env.now = { pd with flags := { pd.flags with scActive := a } } := by
    unfold PdM.expire
    split
    · exact ⟨false, rfl⟩
    · exact ⟨pd.flags.scActive, rfl⟩
  obtain ⟨a, hex⟩ := hex
  have hXe : ∃ a, X = { pd with
      seq := (Phy.seqBits (Phy.nextSeq cp.seq true) : Int), packetBuf := h.buf, packetBufLen := h.bufLen, packetLen := h.len, tstamp := h.ts, rx := h.rx,
      flags := { pd.flags with scActive := a, broadcast := false, useScbkd := usesDefault pd x, hasMark := h.mark } } := by
    rw [← hX, hex]
    refine ⟨a && Phy.seqBits (Phy.nextSeq cp.seq true) != 0, ?_⟩
    have hb := P.bc
    unfold pdAccept reload
    simp only [hb, Bool.false_or]
    rfl
  obtain ⟨a', hXe⟩ := hXe
  have hcapX : PdM.capOk (PdM.noteCmd X (b8 Id.CHLNG)) none = (PdM.noteCmd X (b8 Id.CHLNG), true) := by
    unfold PdM.capOk
    rw [if_pos]
    have e : (PdM.noteCmd X (b8 Id.CHLNG)).cap = pd.cap := by rw [hXe]; rfl
    rw [e]
    show PdM.capAllows pd.cap Id.CHLNG none = true
    unfold PdM.capAllows
    simp only
    repeat rw [if_neg (by decide)]
    rw [if_pos (by decide)]
    simpa using P.compliance
  let q0 : Pd := { (PdM.noteCmd X (b8 Id.CHLNG)).scDeactivate with sc := { X.sc with cpRandom := rnd }, replyId := Id.CCRYPT }
  have hdis : commanded X env (b8 Id.CHLNG) rnd.1 = .ok (q0, [], .none) := by
    unfold commanded
    rw [if_neg (by
      have : (PdM.noteCmd X (b8 Id.CHLNG)).cmdId = Id.CHLNG := rfl
      unfold PdM.plainRefused
      rw [this]
      simp)]
    unfold PdM.dispatch
    dsimp only
    rw [show (PdM.noteCmd X (b8 Id.CHLNG)).cmdId = Id.CHLNG from rfl]
    repeat rw [if_neg (by decide)]
    rw [if_pos rfl]
    unfold PdM.chlngCmd
    rw [dif_neg (by simp [hl]), hcapX]
    rfl
  have hq1 : q0.scActive = false := rfl
  have hq2 : q0.flags.pdMode = true := by show X.flags.pdMode = true; rw [hXe]; exact P.pdMode
  have hq3 : q0.txBufSize = pd.txBufSize := by
    show X.txBufSize = _; rw [hXe]; rfl
  have hq4 : q0.packetBuf = h.buf := by show X.packetBuf = _; rw [hXe]
  have hm : 69 ≤ q0.txBufSize := by rw [hq3]; exact P.pdTx
  obtain ⟨r1, r2⟩ := replyTx_handshake q0 hq1 rfl
  let sc' : Sc := Sc.computePdCryptogram C (Sc.sessionKeys C q0.flags.useScbkd { q0.sc with pdRandom := env.random })
  have hb : replyBody C (unbc q0) env (replyTx q0) (q0.txBufSize - (replyTx q0).dataOff) =
      .ok { p := { unbc q0 with sc := sc' }, t := { replyTx q0 with scb := [3#8, 0x12#8, if q0.flags.useScbkd then 0 else 1] }
            body := .ok (b8 Id.CCRYPT :: (sc'.pdClientUid.1 ++ sc'.pdRandom.1 ++ sc'.pdCryptogram.1)) } := by
    unfold replyBody
    dsimp only
    rw [show (unbc q0).replyId = Id.CCRYPT from rfl]
    repeat rw [if_neg (by decide)]
    rw [if_pos rfl, if_neg (by rw [r1]; simp), if_neg (by rw [r1]; decide)]
    have ha : PdM.assertLen 33 ((q0.txBufSize : Int) - (replyTx q0).dataOff) = .ok () := if_pos (by omega)
    rw [ha]
    rfl
  obtain ⟨buf, hfin, hbl⟩ := hs_reply C q0 env _ 0x12#8 (if q0.flags.useScbkd then 0 else 1) _ hq2 hq1 (by decide) hm (by rw [hq4]; exact hH.buf) hcap
    (by simp) (by simp [sc'.pdClientUid.2, sc'.pdRandom.2, sc'.pdCryptogram.2]) (by show Id.CHLNG ≠ _; decide) hb rfl rfl rfl rfl rfl rfl
  have hu : q0.flags.useScbkd = usesDefault pd x := by show X.flags.useScbkd = _; rw [hXe]
  have href : PdM.refresh C pd env = PdM.finish C q0 env .none >>= fun x => .ok (x.1, x.2) := by
    unfold PdM.refresh
    rw [hrec, hdis]
    rfl
  rw [hfin] at href
  refine ⟨q0, _, href, ⟨by show X.flags.hasMark = _; rw [hXe]; exact hH.mark, ?_, ?_, rfl, ?_, ?_, ?_, ?_, ?_, ?_, ⟨rfl, rfl, hbl, ?_⟩⟩, ?_⟩
  · show X.address = _; rw [hXe]
  · show X.flags.broadcast = _; rw [hXe]
  · show X.seq = _; rw [hXe]; exact s1
  · show ({ X.flags with scActive := false, broadcast := false } : Flags) =
      { pd.flags with scActive := false, broadcast := false, hasMark := X.flags.hasMark, useScbkd := usesDefault pd x }
    rw [hXe]
  · show X.seq = _; rw [hXe]; exact s1
  · show X.address = _; rw [hXe]
  · show X.cap = _; rw [hXe]
  · show X.peerRx = _; rw [hXe]
  · show X.rx = _; rw [hXe]; exact hH.rx
  · show sc' = _
    show Sc.computePdCryptogram C (Sc.sessionKeys C q0.flags.useScbkd { X.sc with cpRandom := rnd, pdRandom := env.random }) = _
    rw [hu, hXe]

/-- The PD checks the cryptogram and opens the channel. -/
theorem pd_convinced (C : Cipher) (cp pd : Pd) (env : Env) (x : Byte) (cg : Block) (P : Pair cp pd) (hact : pd.scActive = false)
    (hid : cp.cmdId = Id.SCRYPT) (hcap : 256 ≤ env.sendCap) (hcg : cg = C.enc pd.sc.sEnc (Bytes.join pd.sc.pdRandom pd.sc.cpRandom))
    (ha : Arrives env (hsCmd cp 0x13#8 x (b8 Id.SCRYPT :: cg.1)).bytes) :
    ∃ q0 q, PdM.refresh C pd env = .ok (q, sendOuts q0 env (hsReply q0 0x14#8 1#8 (b8 Id.RMAC_I :: q.sc.rMac.1)).bytes) ∧
      Answered pd q0 q (!cp.flags.skipMark) (Phy.nextSeq cp.seq true) Id.RMAC_I x true ∧
      q.sc = Sc.computeRmacI C { pd.sc with cpCryptogram := cg } := by
  have hh : Phy.inHandshake false cp.cmdId = true := by rw [hid]; rfl
  have hl := cg.2
  have hexp : PdM.expire pd env.now = pd := by unfold PdM.expire; rw [hact]; simp
  obtain ⟨h, hH, hrec⟩ := hs_read C cp pd env 0x13#8 x (b8 Id.SCRYPT) cg.1 P hh (by decide) (by simp [hl]) ha
  rw [noteScbkd_eq _ _ _ (.inr rfl)] at hrec
  obtain ⟨s1, s2, s3⟩ := seq_step P
  generalize hX : reload _ h = X at hrec
  have hXe : X = { pd with
      seq := (Phy.seqBits (Phy.nextSeq cp.seq true) : Int), packetBuf := h.buf, packetBufLen := h.bufLen, packetLen := h.len, tstamp := h.ts, rx := h.rx,
      flags := { pd.flags with scActive := false, broadcast := false, useScbkd := usesDefault pd x, hasMark := h.mark } } := by
    rw [← hX]
    have hb := P.bc
    have ha : pd.flags.scActive = false := hact
    unfold pdAccept reload
    simp only [hb, ha, Bool.false_or, Bool.false_and]
    rfl
  have hcapX : PdM.capOk (PdM.noteCmd X (b8 Id.SCRYPT)) none = (PdM.noteCmd X (b8 Id.SCRYPT), true) := by
    unfold PdM.capOk
    rw [if_pos]
    have e : (PdM.noteCmd X (b8 Id.SCRYPT)).cap = pd.cap := by rw [hXe]; rfl
    rw [e]
    show PdM.capAllows pd.cap Id.SCRYPT none = true
    unfold PdM.capAllows
    simp only
    repeat rw [if_neg (by decide)]
    rw [if_pos (by decide)]
    simpa using P.compliance
  let q0 : Pd := { PdM.noteCmd X (b8 Id.SCRYPT) with sc := { X.sc with cpCryptogram := cg }, replyId := Id.RMAC_I }
  have hq1 : q0.scActive = false := by show X.flags.scActive = _; rw [hXe]
  have hdis : commanded X env (b8 Id.SCRYPT) cg.1 = .ok (q0, [], .none) := by
    unfold commanded
    rw [if_neg (by
      have : (PdM.noteCmd X (b8 Id.SCRYPT)).cmdId = Id.SCRYPT := rfl
      unfold PdM.plainRefused
      rw [this]
      simp)]
    unfold PdM.dispatch
    dsimp only
    rw [show (PdM.noteCmd X (b8 Id.SCRYPT)).cmdId = Id.SCRYPT from rfl]
    repeat rw [if_neg (by decide)]
    rw [if_pos rfl]
    unfold PdM.scryptCmd
    rw [dif_neg (by simp [hl]), hcapX]
    dsimp only
    rw [if_neg (by show ¬ X.scActive = true; rw [show X.scActive = false from hq1]; simp)]
    rfl
  have hq2 : q0.flags.pdMode = true := by show X.flags.pdMode = true; rw [hXe]; exact P.pdMode
  have hq3 : q0.txBufSize = pd.txBufSize := by
    show X.txBufSize = _; rw [hXe]; rfl
  have hq4 : q0.packetBuf = h.buf := by show X.packetBuf = _; rw [hXe]
  have hm : 69 ≤ q0.txBufSize := by rw [hq3]; exact P.pdTx
  obtain ⟨r1, r2⟩ := replyTx_handshake q0 hq1 rfl
  let sc' : Sc := Sc.computeRmacI C q0.sc
  have hver : Sc.verifyCpCryptogram C sc' = true := by
    unfold Sc.verifyCpCryptogram
    refine decide_eq_true ?_
    show cg = C.enc X.sc.sEnc (Bytes.join X.sc.pdRandom X.sc.cpRandom)
    rw [hXe]
    exact hcg
  have hb : replyBody C (unbc q0) env (replyTx q0) (q0.txBufSize - (replyTx q0).dataOff) =
      .ok { p := { Pd.scActivate { unbc q0 with sc := sc' } with scTstamp := env.now }, t := { replyTx q0 with scb := [3#8, 0x14#8, 1#8] }
            body := .ok (b8 Id.RMAC_I :: sc'.rMac.1) } := by
    unfold replyBody
    dsimp only
    rw [show (unbc q0).replyId = Id.RMAC_I from rfl]
    repeat rw [if_neg (by decide)]
    rw [if_pos rfl, if_neg (by rw [r1]; simp), if_neg (by rw [r1]; decide)]
    have ha : PdM.assertLen 17 ((q0.txBufSize : Int) - (replyTx q0).dataOff) = .ok () := if_pos (by omega)
    rw [ha]
    simp only [Res.ok_bind]
    have hver' : Sc.verifyCpCryptogram C (Sc.computeRmacI C (unbc q0).sc) = true := hver
    rw [if_pos hver', if_pos hver']
    rfl
  obtain ⟨buf, hfin, hbl⟩ := hs_reply C q0 env _ 0x14#8 1#8 _ hq2 hq1 (by decide) hm (by rw [hq4]; exact hH.buf) hcap
    (by simp) (by simp [sc'.rMac.2]) (by show Id.SCRYPT ≠ _; decide) hb rfl rfl rfl rfl rfl rfl
  have href : PdM.refresh C pd env = PdM.finish C q0 env .none >>= fun x => .ok (x.1, x.2) := by
    unfold PdM.refresh
    rw [hexp, hrec, hdis]
    rfl
  rw [hfin] at href
  refine ⟨q0, _, href, ⟨by show X.flags.hasMark = _; rw [hXe]; exact hH.mark, ?_, ?_, rfl, ?_, ?_, ?_, ?_, ?_, ?_, ⟨rfl, rfl, hbl, ?_⟩⟩, ?_⟩
  · show X.address = _; rw [hXe]
  · show X.flags.broadcast = _; rw [hXe]
  · show X.seq = _; rw [hXe]; exact s1
  · show ({ X.flags with scActive := true, broadcast := false } : Flags) =
      { pd.flags with scActive := true, broadcast := false, hasMark := X.flags.hasMark, useScbkd := usesDefault pd x }
    rw [hXe]
  · show X.seq = _; rw [hXe]; exact s1
  · show X.address = _; rw [hXe]
  · show X.cap = _; rw [hXe]
  · show X.peerRx = _; rw [hXe]
  · show X.rx = _; rw [hXe]; exact hH.rx
  · show Sc.computeRmacI C { X.sc with cpCryptogram := cg } = _
    rw [hXe]

/-- An update in which the awaited reply is read without error: the next state is chosen. -/
theorem update_answered {C : Cipher} {cb : Bool} {p q : Pd} {env : Env} {o : List Out} (hps : p.phyState = .replyWait)
    (hr : CpM.processReply C p env = .ok (q, o, .none)) :
    CpM.stateUpdate C cb p env = CpM.settle cb { q with tstamp := env.now, scTstamp := if q.scActive then env.now else q.scTstamp, phyState := .done } env >>=
      fun x => .ok (x.1, o ++ x.2, true) := by
  unfold CpM.stateUpdate
  rw [if_pos (by unfold CpM.phyRunning; rw [hps]; decide)]
  unfold CpM.phyUpdate
  rw [hps]
  dsimp only
  unfold CpM.phyReply
  rw [hr]
  simp only [Res.ok_bind]
  rw [if_pos trivial]
  rfl

theorem settle_done {cb : Bool} {p : Pd} {env : Env} (hd : p.phyState = .done) (hc : CpM.stateCheckReply cb p = .ok (p, [], true))
    (hn : CpM.notifyCommand cb p true = []) : CpM.settle cb p env = CpM.advance cb (Phy.stateReset p false).1 env p.state true := by
  unfold CpM.settle
  rw [hd]
  dsimp only
  rw [hc]
  simp only [Res.ok_bind]
  rw [hn, show (PhyState.done == PhyState.done && true) = true from rfl]
  show CpM.advance cb (Phy.stateReset p false).1 env p.state true >>= _ = _
  cases CpM.advance cb (Phy.stateReset p false).1 env p.state true <;> rfl

theorem notify_none {cb : Bool} {p : Pd} (h : p.cmdId = Id.CHLNG ∨ p.cmdId = Id.SCRYPT) (st : Bool) : CpM.notifyCommand cb p st = [] := by
  have : CpM.appCmd p = none := by
    unfold CpM.appCmd
    rcases h with h | h <;> rw [h] <;> rfl
  unfold CpM.notifyCommand
  rw [this]

theorem chlng_settles {cb : Bool} {d : Pd} {env : Env} (hd : d.phyState = .done) (hst : d.state = .scChlng) (hid : d.cmdId = Id.CHLNG)
    (hr : d.replyId = Id.CCRYPT) : CpM.settle cb d env = .ok ({ d with packetBufLen := 0, packetLen := 0, phyState := .idle, state := .scScrypt }, []) := by
  rw [settle_done hd (by unfold CpM.stateCheckReply; rw [hst, hr]; rfl) (notify_none (.inl hid) true), hst]
  rw [CpM.advance_ok (n := .scScrypt) (o := []) (p1 := (Phy.stateReset d false).1)
    (by unfold CpM.nextOk; rw [show (Phy.stateReset d false).1.state = .scChlng from hst])
    (by rw [show (Phy.stateReset d false).1.state = .scChlng from hst]; decide) (by decide)]
  rfl

theorem chlng_answered {C : Cipher} {cb : Bool} {p q : Pd} {env : Env} {o : List Out} (hps : p.phyState = .replyWait)
    (hr : CpM.processReply C p env = .ok (q, o, .none)) (hst : q.state = .scChlng) (hid : q.cmdId = Id.CHLNG) (hrep : q.replyId = Id.CCRYPT) :
    CpM.step C p (.update cb env) = .ok ({ q with
      tstamp := env.now, scTstamp := if q.scActive then env.now else q.scTstamp
      packetBufLen := 0, packetLen := 0, phyState := .idle, state := .scScrypt }, o) := by
  show (CpM.stateUpdate C cb p env >>= _) = _
  have hs := chlng_settles (cb := cb) (env := env)
    (d := { q with tstamp := env.now, scTstamp := if q.scActive then env.now else q.scTstamp, phyState := .done }) rfl hst hid hrep
  rw [update_answered hps hr, hs]
  simp only [Res.ok_bind, List.append_nil]

theorem requests_quiet {cb : Bool} {p : Pd} {n : CpState} (h1 : p.reqRestartSc = false) (h2 : p.reqOffline = false) (h3 : p.reqEventSend = false) :
    CpM.requests cb p n = .ok (p, [], n) := by
  unfold CpM.requests
  rw [h1]
  dsimp only
  simp only [h2, h3, Bool.false_eq_true, if_false]
  split <;> rfl

/-- the state after the handshake: with the default key the CP now installs its own -/
def afterScrypt (p : Pd) : CpState := if p.flags.useScbkd then .setScbk else .online

/-- the command the CP installs its key with -/
def ownKey (p : Pd) : Cmd := .keyset ⟨1#8, 16#8, .padTo 32 p.sc.scbk.1⟩

/-- what the CP keeps at hand after the handshake: with the default key, the command that installs its own -/
def afterEph (p : Pd) : Eph := if p.flags.useScbkd then .cmd (ownKey p) else p.eph

theorem scrypt_settles {cb : Bool} {d : Pd} {env : Env} (hd : d.phyState = .done) (hst : d.state = .scScrypt) (hid : d.cmdId = Id.SCRYPT)
    (hr : d.replyId = Id.RMAC_I) (h1 : d.reqRestartSc = false) (h2 : d.reqOffline = false) (h3 : d.reqEventSend = false) :
    ∃ o, CpM.settle cb d env = .ok ({ d with
      packetBufLen := 0, packetLen := 0, phyState := .idle, state := afterScrypt d, eph := afterEph d
      flags := { d.flags with scActive := true } }, o) ∧ sent o = [] := by
  suffices h : ∃ o, CpM.settle cb d env = .ok ({ d with
      packetBufLen := 0, packetLen := 0, phyState := .idle, state := afterScrypt d, eph := afterEph d
      flags := { d.flags with scActive := true } }, o) from by
    obtain ⟨o, h⟩ := h
    exact ⟨o, h, CpM.settle_sent h⟩
  rw [settle_done hd (by unfold CpM.stateCheckReply; rw [hst, hr]; rfl) (notify_none (.inr hid) true), hst]
  unfold CpM.advance
  rw [if_pos rfl]
  unfold CpM.nextOk
  rw [show (Phy.stateReset d false).1.state = .scScrypt from hst]
  dsimp only
  unfold afterScrypt afterEph
  by_cases hu : d.flags.useScbkd = true
  · rw [if_pos (show (Phy.stateReset d false).1.scActivate.flags.useScbkd = true from hu)]
    simp only [Res.ok_bind, if_pos hu]
    rw [CpM.requests_none (by show d.state ≠ _; rw [hst]; decide) (by decide)]
    simp only [Res.ok_bind]
    rw [if_pos (by decide)]
    exact ⟨_, rfl⟩
  · rw [if_neg (show ¬ (Phy.stateReset d false).1.scActivate.flags.useScbkd = true from hu)]
    simp only [Res.ok_bind, if_neg hu]
    have hreq := requests_quiet (cb := cb) (p := (Phy.stateReset d false).1.scActivate) (n := .online) h1 h2 h3
    rw [hreq]
    simp only [Res.ok_bind]
    rw [if_pos (by decide)]
    exact ⟨_, rfl⟩

/-- The CP accepts the PD's cryptogram and goes on. -/
theorem cp_convinced (C : Cipher) (q0 cp : Pd) (cb : Bool) (env : Env) (x : Byte) (uid rnd : Half) (cg : Block)
    (hcp : cp.flags.pdMode = false) (haddr : cp.address = q0.address) (hr : 0 ≤ q0.address ∧ q0.address ≤ 126) (hi : Idle cp)
    (hbc : q0.flags.broadcast = false) (hrep : q0.replyId = Id.CCRYPT) (hs : q0.seq = cp.seq)
    (hps : cp.phyState = .replyWait) (hst : cp.state = .scChlng) (hid : cp.cmdId = Id.CHLNG) (hact : cp.scActive = false)
    (hcg : cg = C.enc (Sc.sessionKeys C cp.flags.useScbkd cp.sc).sEnc (Bytes.join cp.sc.cpRandom rnd))
    (ha : Arrives env (hsReply q0 0x12#8 x (b8 Id.CCRYPT :: (uid.1 ++ rnd.1 ++ cg.1))).bytes) :
    ∃ q, CpM.step C cp (.update cb env) = .ok (q, []) ∧ q.state = .scScrypt ∧ q.phyState = .idle ∧
      q.sc = Sc.sessionKeys C cp.flags.useScbkd { cp.sc with pdClientUid := uid, pdRandom := rnd, pdCryptogram := cg } ∧
      q.flags = { cp.flags with hasMark := q.flags.hasMark } ∧ q.address = cp.address ∧ q.seq = cp.seq ∧ q.peerRx = cp.peerRx ∧ Idle q ∧
      q.reqOffline = cp.reqOffline ∧ q.reqEventSend = cp.reqEventSend ∧ q.flags.hasMark = q0.flags.hasMark := by
  have hu := uid.2
  have hn := rnd.2
  have hc := cg.2
  have hl : (uid.1 ++ rnd.1 ++ cg.1).length = 32 := by simp [hu, hn, hc]
  obtain ⟨h, hH, hrd⟩ := hs_answer C q0 cp env 0x12#8 x (b8 Id.CCRYPT) (uid.1 ++ rnd.1 ++ cg.1) hcp haddr hr hi hbc (by rw [hrep]; rfl) (.inl rfl)
    (by rw [List.length_cons, hl]; decide) hs ha
  let sc' : Sc := Sc.sessionKeys C cp.flags.useScbkd { cp.sc with pdClientUid := uid, pdRandom := rnd, pdCryptogram := cg }
  have hresp : CpM.processReply C cp env = .ok ({ reload cp h with replyId := Id.CCRYPT, sc := sc' }, [], .none) := by
    rw [hrd]
    unfold CpM.response
    dsimp only
    rw [show (b8 Id.CCRYPT).toNat = Id.CCRYPT from rfl]
    repeat rw [if_neg (by decide)]
    rw [if_pos rfl, if_neg (by
      rintro (hx | hx)
      · exact absurd (hact.symm.trans hx) (by simp)
      · exact hx hid), dif_neg (by simp only [hl]; decide)]
    have e1 : (⟨(uid.1 ++ rnd.1 ++ cg.1).take 8, by simp [hu, hn, hc]⟩ : Half) = uid := Subtype.ext (by simp [hu])
    have e2 : (⟨((uid.1 ++ rnd.1 ++ cg.1).drop 8).take 8, by simp [hu, hn, hc]⟩ : Half) = rnd := Subtype.ext (by simp [hu, hn])
    have e3 : (⟨(uid.1 ++ rnd.1 ++ cg.1).drop 16, by simp [hu, hn, hc]⟩ : Block) = cg := Subtype.ext (by
      show List.drop 16 (uid.1 ++ rnd.1 ++ cg.1) = _
      rw [List.drop_append, List.drop_eq_nil_of_le (by simp [hu, hn])]
      simp [hu, hn])
    simp only [e1, e2, e3]
    have hv : Sc.verifyPdCryptogram C sc' = true := decide_eq_true hcg
    show Except.ok ({ reload cp h with replyId := Id.CCRYPT, sc := sc' }, [], if Sc.verifyPdCryptogram C sc' = true then _ else _) = _
    rw [if_pos hv]
  have hset := chlng_answered (cb := cb) hps hresp hst hid rfl
  exact ⟨_, hset, rfl, rfl, rfl, rfl, rfl, rfl, rfl, ⟨rfl, rfl, hH.buf, hH.rx⟩, rfl, rfl, hH.mark⟩

theorem scrypt_answered {C : Cipher} (cb : Bool) {p q : Pd} {env : Env} {o : List Out} (hps : p.phyState = .replyWait)
    (hr : CpM.processReply C p env = .ok (q, o, .none)) (hst : q.state = .scScrypt) (hid : q.cmdId = Id.SCRYPT) (hrep : q.replyId = Id.RMAC_I)
    (h1 : q.reqRestartSc = false) (h2 : q.reqOffline = false) (h3 : q.reqEventSend = false) :
    ∃ o', CpM.step C p (.update cb env) = .ok ({ q with
      tstamp := env.now, scTstamp := if q.scActive then env.now else q.scTstamp
      packetBufLen := 0, packetLen := 0, phyState := .idle, state := afterScrypt q, eph := afterEph q
      flags := { q.flags with scActive := true } }, o ++ o') ∧ sent o' = [] := by
  obtain ⟨o', hs, hse⟩ := scrypt_settles (cb := cb) (env := env)
    (d := { q with tstamp := env.now, scTstamp := if q.scActive then env.now else q.scTstamp, phyState := .done }) rfl hst hid hrep h1 h2 h3
  refine ⟨o', ?_, hse⟩
  show (CpM.stateUpdate C cb p env >>= _) = _
  rw [update_answered hps hr, hs]
  rfl

/-- The CP takes over the initial MAC and opens the channel. -/
theorem cp_opens (C : Cipher) (q0 cp : Pd) (cb : Bool) (env : Env) (x : Byte) (m : Block)
    (hcp : cp.flags.pdMode = false) (haddr : cp.address = q0.address) (hr : 0 ≤ q0.address ∧ q0.address ≤ 126) (hi : Idle cp)
    (hbc : q0.flags.broadcast = false) (hrep : q0.replyId = Id.RMAC_I) (hs : q0.seq = cp.seq)
    (hps : cp.phyState = .replyWait) (hst : cp.state = .scScrypt) (hid : cp.cmdId = Id.SCRYPT) (hact : cp.scActive = false)
    (h1 : cp.reqRestartSc = false) (h2 : cp.reqOffline = false) (h3 : cp.reqEventSend = false)
    (ha : Arrives env (hsReply q0 0x14#8 x (b8 Id.RMAC_I :: m.1)).bytes) :
    ∃ q o, CpM.step C cp (.update cb env) = .ok (q, o) ∧ sent o = [] ∧ q.state = afterScrypt cp ∧ q.phyState = .idle ∧
      q.sc = { cp.sc with rMac := m } ∧ q.flags = { cp.flags with hasMark := q.flags.hasMark, scActive := true } ∧
      q.address = cp.address ∧ q.seq = cp.seq ∧ Idle q ∧ q.flags.hasMark = q0.flags.hasMark ∧ q.eph = afterEph cp ∧ q.peerRx = cp.peerRx ∧
      q.reqOffline = cp.reqOffline ∧ q.reqEventSend = cp.reqEventSend ∧ q.cmdQueue = cp.cmdQueue := by
  have hl := m.2
  obtain ⟨h, hH, hrd⟩ := hs_answer C q0 cp env 0x14#8 x (b8 Id.RMAC_I) m.1 hcp haddr hr hi hbc (by rw [hrep]; rfl) (.inr rfl)
    (by rw [List.length_cons, hl]; decide) hs ha
  have hresp : CpM.processReply C cp env = .ok ({ reload cp h with replyId := Id.RMAC_I, sc := { cp.sc with rMac := m } }, [], .none) := by
    rw [hrd]
    unfold CpM.response
    dsimp only
    rw [show (b8 Id.RMAC_I).toNat = Id.RMAC_I from rfl]
    repeat rw [if_neg (by decide)]
    rw [if_pos rfl, if_neg (by
      rintro (hx | hx)
      · exact absurd (hact.symm.trans hx) (by simp)
      · exact hx hid), dif_neg (by simp only [hl]; decide)]
    rfl
  obtain ⟨o', hset, hse⟩ := scrypt_answered cb hps hresp hst hid rfl h1 h2 h3
  exact ⟨_, _, hset, hse, rfl, rfl, rfl, rfl, rfl, rfl, ⟨rfl, rfl, hH.buf, hH.rx⟩, hH.mark, rfl, rfl, rfl, rfl, rfl⟩

end Osdp.Link
