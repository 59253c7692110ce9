import Verif.Lemmas.Commission
import Verif.Props.C66

/-!
# C70: a new PD is commissioned

A CP with a key of its own meets a PD that does not have it but accepts the default key (installation mode). The CP finds out, opens a
session with the default key, hands its own key over in it, and starts again with that key; nothing is asked of the applications but
that the PD's accepts the key.
-/

namespace Osdp.Link

open Spec.Wire (sent)
open Spec.Command (asked)
open Phy (Idle Arrives sendOuts)

/-! ### the course of events -/

/-- The PD's answer to the challenge does not fit the CP's key: `wrong` holds of the random number the PD draws. -/
def Mistrusts (C : Cipher) (cb : Bool) (cp pd : Pd) (wrong : Half → Prop) (K : Pd → Pd → Prop) : Prop :=
  ∀ e1 : Env, 256 ≤ e1.sendCap → ∃ cp1 o1 b1, CpM.step C cp (.update cb e1) = .ok (cp1, o1) ∧ sent o1 = [b1] ∧
  ∀ e2 : Env, 256 ≤ e2.sendCap → Arrives e2 b1 → wrong e2.random → ∃ pd1 o2 b2, PdM.step C pd (.refresh e2) = .ok (pd1, o2) ∧ sent o2 = [b2] ∧
  ∀ e3 : Env, Arrives e3 b2 → ∃ cp2 o3, CpM.step C cp1 (.update cb e3) = .ok (cp2, o3) ∧ sent o3 = [] ∧ K cp2 pd1

/-- The key travels: a packet of the CP, on which the application of the PD is given the key and nothing else, and the answer. The PD
is visited while its session lasts; its application accepts the key. -/
def HandsOver (C : Cipher) (cb : Bool) (k : Block) (cp pd : Pd) (K : Half → Pd → Pd → Prop) : Prop :=
  ∀ e1 : Env, 256 ≤ e1.sendCap → ∃ cp1 o1 b1, CpM.step C cp (.update cb e1) = .ok (cp1, o1) ∧ sent o1 = [b1] ∧
  ∀ e2 : Env, 256 ≤ e2.sendCap → Arrives e2 b1 → e2.now - pd.scTstamp ≤ PdM.PD_SC_TIMEOUT →
    (∃ f, e2.cb = some f ∧ f 0 (installCmd k) = (0, installCmd k)) →
    ∃ pd1 o2 b2, PdM.step C pd (.refresh e2) = .ok (pd1, o2) ∧ asked o2 = [installCmd k] ∧ sent o2 = [b2] ∧
  ∀ e3 : Env, Arrives e3 b2 → ∃ cp2 o3, CpM.step C cp1 (.update cb e3) = .ok (cp2, o3) ∧ sent o3 = [] ∧ K e3.random cp2 pd1

/-- From the challenge with the default key to the session with the CP's own: `k` is that key. -/
def Commissions (C : Cipher) (cb : Bool) (k : Block) (cp pd : Pd) : Prop :=
  Handshakes C cb cp pd fun cp1 pd1 rb => Agree C Spec.Session.defaultKey cp.sc.cpRandom rb cp1 pd1 ∧
    Quiet C cb cp1 fun cp2 => HandsOver C cb k cp2 pd1 fun ra cp3 pd2 =>
      (cp3.scActive = false ∧ pd2.scActive = false ∧ pd2.sc.scbk = k ∧ pd2.flags.installMode = false ∧ pd2.flags.useScbkd = false) ∧
    Quiet C cb cp3 fun cp4 => Handshakes C cb cp4 pd2 fun cp5 pd3 rb' => Agree C k ra rb' cp5 pd3 ∧ cp5.state = .online ∧ Sync cp5 pd3 ∧ pd3.sc.scbk = k

/-! ### the steps -/

/-- **C70.** From the challenge with the default key on. -/
theorem C70_installs (C : Cipher) (cb : Bool) (cp pd : Pd) (R : Challenging cp pd) (hd : cp.flags.useScbkd = true) (hk : cp.flags.hasScbk = true) :
    Commissions C cb cp.sc.scbk cp pd := by
  have P := R.pair
  refine (handshake_ends C cb cp pd R).mono ?_
  rintro cp1 pd1 rb ⟨AG, -, -, O⟩
  refine ⟨by rw [show cpBase cp = Spec.Session.defaultKey by unfold cpBase; rw [hd]; rfl] at AG; exact AG, ?_⟩
  have st1 : cp1.state = .setScbk := by rw [O.state]; unfold afterScrypt; rw [hd]; rfl
  intro e4
  have hc := cp_chooses C cb cp1 e4 Id.KEYSET O.phy (by unfold CpM.stateGetCmd; rw [st1]) (by decide)
  refine ⟨_, hc, ?_⟩
  have I2 := O.inv.step hc
  generalize hx : ({ cp1 with cmdId := Id.KEYSET, phyState := .sendCmd } : Pd) = cp2 at hc I2
  have f : cp2.flags = cp1.flags ∧ cp2.sc = cp1.sc ∧ cp2.state = .setScbk ∧ cp2.phyState = .sendCmd ∧ cp2.cmdId = Id.KEYSET ∧ cp2.eph = cp1.eph ∧
      cp2.address = cp1.address ∧ cp2.seq = cp1.seq ∧ cp2.peerRx = cp1.peerRx ∧ cp2.reqOffline = cp1.reqOffline ∧ cp2.reqEventSend = cp1.reqEventSend ∧ Idle cp2 := by
    rw [← hx]
    exact ⟨rfl, rfl, st1, rfl, rfl, rfl, rfl, rfl, rfl, rfl, rfl, ⟨O.cpIdle.bufLen, O.cpIdle.len, O.cpIdle.buf, O.cpIdle.rx⟩⟩
  obtain ⟨f1, f2, f3, f4, f5, f6, f7, f8, f9, f10, f11, f12⟩ := f
  have act2 : cp2.scActive = true := by show cp2.flags.scActive = _; rw [f1]; exact AG.cpActive
  have u2 : cp2.flags.useScbkd = true := by rw [f1, O.flags]; exact hd
  have sq : 0 ≤ cp2.seq ∧ cp2.seq ≤ 3 := by
    exact ⟨by rw [f8]; exact O.seqOk, I2.hi⟩
  have E : Ends cp2 pd1 := by
    refine ⟨by rw [f1, O.flags]; exact P.cpMode, by rw [O.pdFlags]; exact P.pdMode, f7.trans O.address, by rw [O.pdAddress]; exact P.range, ?_, fun _ => ?_, fun _ => ?_⟩
    · rw [act2]; exact AG.pdActive
    · rw [f2]
      exact ⟨AG.enc.1.trans AG.enc.2.symm, AG.mac1.1.trans AG.mac1.2.symm, AG.mac2.1.trans AG.mac2.2.symm, AG.rmac.1⟩
    · have := P.capable
      unfold Pd.scCapable at *
      rw [O.pdFlags]; exact this
  have tx2 : 69 ≤ cp2.txBufSize := by
    have := P.cpTx
    unfold Pd.txBufSize at *
    rw [f9, O.peerRx]; exact this
  have txp : 69 ≤ pd1.txBufSize := by
    have := P.pdTx
    unfold Pd.txBufSize at *
    rw [O.pdPeerRx]; exact this
  have hl := installPkt_length C cp2 cp.sc.scbk
  have hsq : cp2.seq = pd1.seq := f8.trans O.seq
  intro e1 c1
  obtain ⟨buf, hs1, hbl⟩ := cp_installs C cp2 pd1 cb e1 cp.sc.scbk E act2 f12 O.pdIdle f4 f5 (by rw [f6]; exact O.eph hd) tx2
    (by rw [f1]; exact O.mark) hsq sq c1
  have I3 := I2.step hs1
  refine ⟨_, _, _, hs1, (PdM.sendOuts_sent cp2 e1 _ (by omega)).1, ?_⟩
  generalize hy : CpM.sentState _ e1.now = cp3 at hs1 I3
  have g : cp3.flags = { cp2.flags with hasMark := cp2.flags.hasMark || !cp2.flags.skipMark } ∧
      cp3.sc = Phy.anySc C cp2 (cpTx cp2 (installBody cp.sc.scbk).length) (installBody cp.sc.scbk) ∧ cp3.address = cp2.address ∧
      cp3.seq = Phy.nextSeq cp2.seq true ∧ cp3.peerRx = cp2.peerRx ∧ Idle cp3 ∧ cp3.reqOffline = cp2.reqOffline ∧ cp3.reqEventSend = cp2.reqEventSend ∧
      cp3.state = .setScbk ∧ cp3.cmdId = Id.KEYSET ∧ cp3.phyState = .replyWait := by
    rw [← hy]
    exact ⟨rfl, rfl, rfl, rfl, rfl, ⟨rfl, rfl, hbl, f12.rx⟩, rfl, rfl, f3, f5, rfl⟩
  obtain ⟨g1, g2, g3, g4, g5, g6, g7, g8, g9, g10, g11⟩ := g
  rintro e2 c2 a2 ht ⟨fn, hcb, hacc⟩
  obtain ⟨q0, pd2, o2, hp2, has2, hse2, hlen2, N, hq0, hss⟩ := pd_installs C cp2 pd1 e2 cp.sc.scbk fn E act2 O.pdIdle (by rw [O.pdFlags]) (by rw [O.pdCap]; exact P.compliance)
    txp hsq sq c2 (expire_recent ht) hcb hacc a2
  refine ⟨_, _, _, hp2, has2, hse2, ?_⟩
  intro e3 a3
  have act3 : cp3.scActive = true := by show cp3.flags.scActive = _; rw [g1]; exact act2
  have hs3 : q0.seq = cp3.seq := by rw [N.seq0, g4]
  rw [← g2] at hss
  obtain ⟨cp4, o4, h4, so4, st4, ph4, sc4, fl4, ad4, sq4, id4, rx4, ro4, re4⟩ := cp_installed C q0 cp3 cb e3
    ⟨by rw [g1]; exact E.cpMode, by rw [N.flags0]; exact E.pdMode, by rw [g3, N.address0]; exact E.address, by rw [N.address0]; exact E.range, hq0.trans act3.symm,
      fun _ => hss.meets, fun _ => by
        have := P.capable
        unfold Pd.scCapable at *
        rw [N.flags0, O.pdFlags]; exact this⟩
    act3 g6 hss.cMac (by rw [N.flags0]) hlen2 hs3 g11 g9 g10 (by rw [g1]; exact u2) a3
  have I4 := I3.step h4
  refine ⟨cp4, o4, h4, so4, ⟨by show cp4.flags.scActive = _; rw [fl4], by show pd2.flags.scActive = _; rw [N.flags], N.scbk, by rw [N.flags], by rw [N.flags]⟩, ?_⟩
  intro e5
  have hc5 := cp_chooses C cb cp4 e5 Id.CHLNG ph4 (by unfold CpM.stateGetCmd; rw [st4]) (by decide)
  refine ⟨_, hc5, ?_⟩
  have I5 := I4.step hc5
  generalize hz : ({ cp4 with cmdId := Id.CHLNG, phyState := .sendCmd } : Pd) = cp5 at hc5 I5
  have j : cp5.flags = cp4.flags ∧ cp5.sc = cp4.sc ∧ cp5.state = .scChlng ∧ cp5.phyState = .sendCmd ∧ cp5.cmdId = Id.CHLNG ∧
      cp5.address = cp4.address ∧ cp5.seq = cp4.seq ∧ cp5.peerRx = cp4.peerRx ∧ cp5.reqOffline = cp4.reqOffline ∧ cp5.reqEventSend = cp4.reqEventSend ∧ Idle cp5 := by
    rw [← hz]
    exact ⟨rfl, rfl, st4, rfl, rfl, rfl, rfl, rfl, rfl, rfl, ⟨id4.bufLen, id4.len, id4.buf, id4.rx⟩⟩
  obtain ⟨j1, j2, j3, j4, j5, j6, j7, j8, j9, j10, j11⟩ := j
  have hsk : cp3.sc.scbk = cp.sc.scbk := by
    rw [g2, show (Phy.anySc C cp2 (cpTx cp2 (installBody cp.sc.scbk).length) (installBody cp.sc.scbk)).scbk = cp2.sc.scbk by
      unfold Phy.anySc Phy.chainSc; rw [if_pos act2]; cases cp2.isCp <;> rfl, f2]
    exact O.scbk
  have hs5 : cp3.flags.hasScbk = true := by rw [g1, f1, O.flags]; exact hk
  have sc5 : cp5.sc = Sc.setup true e3.random cp3.sc := by rw [j2, sc4, hs5]
  have u5 : cp5.flags.useScbkd = false := by rw [j1, fl4]
  have hbase : cpBase cp5 = cp.sc.scbk := by
    unfold cpBase; rw [u5, sc5]; exact hsk
  have R5 : Challenging cp5 pd2 := by
    refine ⟨⟨by rw [j1, fl4, g1]; exact E.cpMode, by rw [N.flags]; exact E.pdMode, by rw [j6, ad4, g3, N.address]; exact E.address, by rw [N.address]; exact E.range, j11, N.idle,
      by show cp5.flags.scActive = _; rw [j1, fl4], ?_, by rw [N.cap, O.pdCap]; exact P.compliance, ?_, ?_, ?_, by rw [N.flags], ?_, ?_, .inl ?_⟩, I5, j3, j4, j5, ?_, ?_, ?_⟩
    · have := P.capable
      unfold Pd.scCapable at *
      rw [N.flags, O.pdFlags]; exact this
    · unfold Pd.txBufSize at *
      rw [j8, rx4, g5]; exact tx2
    · unfold Pd.txBufSize at *
      rw [N.peerRx]; exact txp
    · rw [j1, fl4]
      show (q0.flags.hasMark && cp3.flags.skipMark) = false
      rw [N.flags0, g1]
      cases cp2.flags.skipMark <;> rfl
    · exact ⟨I5.lo, I5.hi⟩
    · rw [N.seq, ← g4, ← sq4, ← j7]; exact ⟨I5.lo, I5.hi⟩
    · rw [j7, sq4, g4, N.seq]
    · rw [j9, ro4, g7, f10]; exact O.offline
    · rw [j10, re4, g8, f11]; exact O.event
    · rw [hbase]
      unfold pdBase
      rw [u5, show pd2.flags.useScbkd = false by rw [N.flags]]
      simp [N.scbk]
  refine (handshake_ends C cb cp5 pd2 R5).mono ?_
  rintro a b r ⟨A, -, -, O'⟩
  have hon := O'.sync R5 A u5
  rw [hbase, show cp5.sc.cpRandom = e3.random by rw [sc5]; rfl] at A
  exact ⟨A, hon.1, hon.2, by rw [O'.pdScbk]; exact N.scbk⟩

/-- **C70.** A CP that does not insist on its own key turns to the default key when the answer of the PD shows that it has another. The
PD is in installation mode, or uses the default key already. -/
theorem C70_falls_back (C : Cipher) (cb : Bool) (cp pd : Pd) (R : Calling cp pd) (hu : cp.flags.useScbkd = false) (he : cp.flags.enforceSecure = false)
    (hi : pd.flags.installMode = true ∨ pd.flags.useScbkd = true) :
    Mistrusts C cb cp pd (fun rb => Spec.Session.cryptogram C (Spec.Session.encKey C (pdBase cp pd) cp.sc.cpRandom) cp.sc.cpRandom rb ≠
      Spec.Session.cryptogram C (Spec.Session.encKey C cp.sc.scbk cp.sc.cpRandom) cp.sc.cpRandom rb) fun cp1 pd1 =>
    Quiet C cb cp1 fun cp2 => Challenging cp2 pd1 ∧ cp2.flags.useScbkd = true ∧ cp2.flags.hasScbk = cp.flags.hasScbk ∧ cp2.sc.scbk = cp.sc.scbk ∧
      cp2.sc.cpRandom = cp.sc.cpRandom := by
  have P := R.pair
  obtain ⟨s1, s2, s3⟩ := seq_step P
  intro e1 c1
  obtain ⟨buf1, hcp1, hbl1⟩ := cp_challenges C cp pd cb e1 P R.phy R.cmd c1
  have I1 := R.inv.step hcp1
  generalize hcp1e : CpM.sentState { CpM.nextCmd cp with packetBuf := buf1 } e1.now = cp1 at hcp1 I1
  have hl1 := hsCmd_length cp 0x11#8 (keyByte cp) (b8 Id.CHLNG :: cp.sc.cpRandom.1) (by simp [cp.sc.cpRandom.2])
  refine ⟨_, _, _, hcp1, (PdM.sendOuts_sent cp e1 _ (by omega)).1, ?_⟩
  intro e2 c2 a2 hw
  obtain ⟨q1, pd1, hpd1, A1, hsc1⟩ := pd_challenged C cp pd e2 (keyByte cp) cp.sc.cpRandom P R.cmd c2 a2
  have hl2 := hsReply_length q1 0x12#8 (keyByte pd1) (b8 Id.CCRYPT :: (pd1.sc.pdClientUid.1 ++ pd1.sc.pdRandom.1 ++ pd1.sc.pdCryptogram.1))
    (by simp [pd1.sc.pdClientUid.2, pd1.sc.pdRandom.2, pd1.sc.pdCryptogram.2])
  refine ⟨_, _, _, hpd1, (PdM.sendOuts_sent q1 e2 _ (by omega)).1, ?_⟩
  intro e3 a3
  have hk : Sc.baseKey (usesDefault pd (keyByte cp)) pd.sc = pdBase cp pd := by
    rw [baseKey_spec]
    unfold usesDefault pdBase
    rw [keyByte_zero]
  have hkc : Sc.baseKey cp.flags.useScbkd cp.sc = cp.sc.scbk := by rw [baseKey_spec, hu]; rfl
  have hrnd : pd1.sc.pdRandom = e2.random := by rw [hsc1]; rfl
  have hcpr : pd1.sc.cpRandom = cp.sc.cpRandom := by rw [hsc1]; rfl
  have henc : pd1.sc.sEnc = Spec.Session.encKey C (pdBase cp pd) cp.sc.cpRandom := by rw [hsc1, ← hk]; rfl
  have f1 : cp1.flags = { cp.flags with hasMark := cp.flags.hasMark || !cp.flags.skipMark } ∧ cp1.sc = cp.sc ∧ cp1.address = cp.address ∧
      cp1.seq = Phy.nextSeq cp.seq true ∧ cp1.peerRx = cp.peerRx ∧ Idle cp1 ∧ cp1.reqOffline = cp.reqOffline ∧ cp1.reqEventSend = cp.reqEventSend ∧
      cp1.state = cp.state ∧ cp1.cmdId = cp.cmdId ∧ cp1.phyState = .replyWait := by
    rw [← hcp1e]
    exact ⟨rfl, rfl, rfl, rfl, rfl, ⟨rfl, rfl, hbl1, P.cpIdle.rx⟩, rfl, rfl, rfl, rfl, rfl⟩
  obtain ⟨g1, g2, g3, g4, g5, g6, g7, g8, g9, g10, g11⟩ := f1
  obtain ⟨cp2, hcp2, st2, ph2, sk2, sr2, fl2, ad2, sq2, rx2, id2, ro2, re2⟩ := cp_unconvinced C q1 cp1 cb e3 (keyByte pd1) pd1.sc.pdClientUid pd1.sc.pdRandom
    pd1.sc.pdCryptogram (by rw [g1]; exact P.cpMode) (by rw [g3, A1.address]; exact P.address) (by rw [A1.address]; exact P.range) g6 A1.bc A1.replyId
    (A1.seq.trans g4.symm) g11 (g9.trans R.state) (g10.trans R.cmd) (by show cp1.flags.scActive = _; rw [g1]; exact P.clear)
    (by rw [g1]; exact hu) (by rw [g1]; exact he)
    (by
      rw [show pd1.sc.pdCryptogram = C.enc pd1.sc.sEnc (Bytes.join pd1.sc.cpRandom pd1.sc.pdRandom) by rw [hsc1]; rfl, henc, hcpr, hrnd, g2]
      rw [← hkc] at hw
      rw [show cp1.flags.useScbkd = cp.flags.useScbkd by rw [g1]]
      exact hw) a3
  have I2 := I1.step hcp2
  refine ⟨cp2, [], hcp2, rfl, ?_⟩
  intro e4
  have hc := cp_chooses C cb cp2 e4 Id.CHLNG ph2 (by unfold CpM.stateGetCmd; rw [st2]) (by decide)
  refine ⟨_, hc, ?_⟩
  have I3 := I2.step hc
  generalize hz : ({ cp2 with cmdId := Id.CHLNG, phyState := .sendCmd } : Pd) = cp3 at hc I3
  have j : cp3.flags = cp2.flags ∧ cp3.sc = cp2.sc ∧ cp3.state = .scChlng ∧ cp3.phyState = .sendCmd ∧ cp3.cmdId = Id.CHLNG ∧
      cp3.address = cp2.address ∧ cp3.seq = cp2.seq ∧ cp3.peerRx = cp2.peerRx ∧ cp3.reqOffline = cp2.reqOffline ∧ cp3.reqEventSend = cp2.reqEventSend ∧ Idle cp3 := by
    rw [← hz]
    exact ⟨rfl, rfl, st2, rfl, rfl, rfl, rfl, rfl, rfl, rfl, ⟨id2.bufLen, id2.len, id2.buf, id2.rx⟩⟩
  obtain ⟨j1, j2, j3, j4, j5, j6, j7, j8, j9, j10, j11⟩ := j
  have u3 : cp3.flags.useScbkd = true := by rw [j1, fl2]
  have hku : usesDefault pd (keyByte cp) = pd.flags.useScbkd := by unfold usesDefault; rw [keyByte_zero, hu]; simp
  refine ⟨⟨⟨by rw [j1, fl2, g1]; exact P.cpMode, by rw [A1.flags]; exact P.pdMode, by rw [j6, ad2, g3, A1.address']; exact P.address, by rw [A1.address']; exact P.range,
    j11, A1.idle, by show cp3.flags.scActive = _; rw [j1, fl2, g1]; exact P.clear, ?_, by rw [A1.cap]; exact P.compliance, ?_, ?_, ?_, by rw [A1.flags],
    ⟨I3.lo, I3.hi⟩, ?_, .inl ?_⟩, I3, j3, j4, j5, ?_, ?_, ?_⟩, u3, by rw [j1, fl2, g1], by rw [j2, sk2, g2], by rw [j2, sr2, g2]⟩
  · have := P.capable
    unfold Pd.scCapable at *
    rw [A1.flags]; exact this
  · have := P.cpTx
    unfold Pd.txBufSize at *
    rw [j8, rx2, g5]; exact this
  · have := P.pdTx
    unfold Pd.txBufSize at *
    rw [A1.peerRx]; exact this
  · rw [j1, fl2]
    show (q1.flags.hasMark && cp1.flags.skipMark) = false
    rw [A1.mark, g1]
    cases cp.flags.skipMark <;> rfl
  · rw [A1.seq', ← g4, ← sq2, ← j7]; exact ⟨I3.lo, I3.hi⟩
  · rw [j7, sq2, g4, A1.seq']
  · rw [j9, ro2, g7]; exact R.offline
  · rw [j10, re2, g8]; exact R.event
  · unfold cpBase pdBase
    rw [u3, if_pos rfl, if_pos ?_]
    rw [A1.flags, hku]
    rcases hi with h | h
    · simp [h]
    · simp [h]

/-- **C70.** From the beginning: the two get to know each other, the CP's key turns out not to be the PD's, and the PD is commissioned. -/
theorem C70_commissions (C : Cipher) (cb : Bool) (cp pd : Pd) (U : Unmet cp pd) (hk : cp.flags.hasScbk = true) (hon : cp.flags.scDisabled = false)
    (he : cp.flags.enforceSecure = false) (hpd : pd.scCapable = true) (hoff : (pd.cap 9).code = 9#8 ∧ (pd.cap 9).compliance.getLsbD 0 = true)
    (hi : pd.flags.installMode = true ∨ pd.flags.useScbkd = true) (hst : cp.state = .init) (hseq : cp.seq = -1) :
    Introduces C cb cp pd fun ra cp1 pd1 => Quiet C cb cp1 fun cp2 =>
    Mistrusts C cb cp2 pd1 (fun rb =>
      Spec.Session.cryptogram C (Spec.Session.encKey C (if pd.flags.useScbkd then Spec.Session.defaultKey else pd.sc.scbk) ra) ra rb ≠
      Spec.Session.cryptogram C (Spec.Session.encKey C cp.sc.scbk ra) ra rb) fun cp3 pd2 =>
    Quiet C cb cp3 fun cp4 => Commissions C cb cp.sc.scbk cp4 pd2 := by
  refine calls U hk hon hpd hoff hst hseq ?_
  intro ra x pd2 R hsc hu hxk hxe hpu hpi hps
  have hx : x.sc.cpRandom = ra := by rw [hsc]; rfl
  have hxs : x.sc.scbk = cp.sc.scbk := by rw [hsc]; rfl
  have h := C70_falls_back C cb x pd2 R hu (hxe.trans he) (by rw [hpi, hpu]; exact hi)
  rw [hx, hxs, show pdBase x pd2 = if pd.flags.useScbkd then Spec.Session.defaultKey else pd.sc.scbk by unfold pdBase; rw [hu, hpu, hps]; simp] at h
  intro e1 c1
  obtain ⟨p1, p2, p3, p4, p5, h⟩ := h e1 c1
  refine ⟨p1, p2, p3, p4, p5, fun e2 c2 a2 hw => ?_⟩
  obtain ⟨q1, q2, q3, q4, q5, h⟩ := h e2 c2 a2 hw
  refine ⟨q1, q2, q3, q4, q5, fun e3 a3 => ?_⟩
  obtain ⟨r1, r2, r3, r4, h⟩ := h e3 a3
  refine ⟨r1, r2, r3, r4, fun e4 => ?_⟩
  obtain ⟨t1, t2, T, tu, tk, ts, -⟩ := h e4
  refine ⟨t1, t2, ?_⟩
  have := C70_installs C cb t1 q1 T tu (tk.trans hxk)
  rw [ts] at this
  exact this

/-! ### the hypotheses can be met -/

/-- a PD as it leaves the factory, without a key -/
def factory : Pd := (PdM.setup { Sample.pdInfo with scbk := none } false 16).getD (PdM.blank 16)

/-- the sample CP and that PD -/
def newcomers (n : Nat) : Sample.Talk := Sample.Talk.turns xorCipher 20 n { cp := Sample.cp, pd := factory }

-- for `C70_commissions`
example : Unmet Sample.cp factory ∧ Sample.cp.flags.hasScbk = true ∧ Sample.cp.flags.scDisabled = false ∧ Sample.cp.flags.enforceSecure = false ∧
    factory.scCapable = true ∧ ((factory.cap 9).code = 9#8 ∧ (factory.cap 9).compliance.getLsbD 0 = true) ∧ factory.flags.installMode = true ∧
    factory.flags.useScbkd = false ∧ Sample.cp.state = .init ∧ Sample.cp.seq = -1 := by
  refine ⟨⟨(Sample.cp_reached (C := xorCipher) (ops := []) rfl).inv, by decide +kernel, by decide +kernel, by decide +kernel, by decide +kernel,
    ⟨by decide +kernel, by decide +kernel, by decide +kernel, by decide +kernel⟩, ⟨by decide +kernel, by decide +kernel, by decide +kernel, by decide +kernel⟩,
    by decide +kernel, by decide +kernel, by decide +kernel, by decide +kernel, by decide +kernel, by decide +kernel, by decide +kernel, by decide +kernel⟩,
    by decide +kernel⟩

-- the two cryptograms differ
example : Spec.Session.cryptogram xorCipher (Spec.Session.encKey xorCipher factory.sc.scbk Sample.rndA) Sample.rndA (.fill 8 0xB0#8) ≠
    Spec.Session.cryptogram xorCipher (Spec.Session.encKey xorCipher Sample.cp.sc.scbk Sample.rndA) Sample.rndA (.fill 8 0xB0#8) := by decide +kernel

-- this is how it goes: mistrust at the ninth visit, the session with the default key after fifteen, the key set after seventeen, the session with it
-- after twenty-four; the application was asked once
example : (newcomers 9).cp.flags.useScbkd = true ∧ (newcomers 15).cp.scActive = true ∧ (newcomers 15).pd.scActive = true ∧
    (newcomers 16).pd.sc.scbk = .zero 16 ∧ (newcomers 17).pd.sc.scbk = Sample.key ∧ (newcomers 17).pd.flags.installMode = false ∧
    (newcomers 24).cp.scActive = true ∧ (newcomers 24).pd.scActive = true ∧ (newcomers 24).cp.state = .online ∧ (newcomers 24).bad = false ∧
    asked (newcomers 24).pdOuts = [installCmd Sample.key] := by decide +kernel

-- for `C70_installs`
example : Challenging (newcomers 10).cp (newcomers 10).pd ∧ (newcomers 10).cp.flags.useScbkd = true ∧ (newcomers 10).cp.flags.hasScbk = true := by
  refine ⟨⟨⟨by decide +kernel, by decide +kernel, by decide +kernel, by decide +kernel,
    ⟨by decide +kernel, by decide +kernel, by decide +kernel, by decide +kernel⟩,
    ⟨by decide +kernel, by decide +kernel, by decide +kernel, by decide +kernel⟩,
    by decide +kernel, by decide +kernel, by decide +kernel, by decide +kernel, by decide +kernel, by decide +kernel, by decide +kernel,
    by decide +kernel, by decide +kernel, .inl (by decide +kernel)⟩, turns_inv _ _ ?_, by decide +kernel, by decide +kernel, by decide +kernel,
    by decide +kernel, by decide +kernel, by decide +kernel⟩, by decide +kernel⟩
  exact (Sample.cp_reached (C := xorCipher) (ops := []) rfl).inv

-- for `C70_falls_back`
example : Calling (newcomers 7).cp (newcomers 7).pd ∧ (newcomers 7).cp.flags.useScbkd = false ∧ (newcomers 7).cp.flags.enforceSecure = false ∧
    (newcomers 7).pd.flags.installMode = true := by
  refine ⟨⟨⟨by decide +kernel, by decide +kernel, by decide +kernel, by decide +kernel,
    ⟨by decide +kernel, by decide +kernel, by decide +kernel, by decide +kernel⟩,
    ⟨by decide +kernel, by decide +kernel, by decide +kernel, by decide +kernel⟩,
    by decide +kernel, by decide +kernel, by decide +kernel, by decide +kernel, by decide +kernel, by decide +kernel, by decide +kernel,
    by decide +kernel, by decide +kernel, .inl (by decide +kernel)⟩, turns_inv _ _ ?_, by decide +kernel, by decide +kernel, by decide +kernel,
    by decide +kernel, by decide +kernel⟩, by decide +kernel⟩
  exact (Sample.cp_reached (C := xorCipher) (ops := []) rfl).inv

end Osdp.Link
