import Verif.Lemmas.HandshakeEnds
import Verif.Props.C16

/-!
# C20: the secure channel handshake succeeds

A CP about to challenge and a PD with the same base key: if the four packets of the handshake are delivered,
both ends have an active secure channel, the same session keys and the same MAC to start from.
-/

namespace Osdp
namespace Link

open Spec.Wire
open Phy (Idle Arrives sendOuts)

/-- the base key the CP will use -/
def cpBase (cp : Pd) : Block := if cp.flags.useScbkd then Spec.Session.defaultKey else cp.sc.scbk

/-- the base key the PD will use: in installation mode it changes to the default key when asked to -/
def pdBase (cp pd : Pd) : Block :=
  if pd.flags.useScbkd || (pd.flags.installMode && cp.flags.useScbkd) then Spec.Session.defaultKey else pd.sc.scbk

/-- The CP is about to send its challenge; nothing else is pending. -/
structure Challenging (cp pd : Pd) : Prop where
  pair : Pair cp pd
  inv : CpM.Inv cp
  state : cp.state = .scChlng
  phy : cp.phyState = .sendCmd
  cmd : cp.cmdId = Id.CHLNG
  offline : cp.reqOffline = false
  event : cp.reqEventSend = false
  key : cpBase cp = pdBase cp pd

/-- The same, whatever the keys. -/
structure Calling (cp pd : Pd) : Prop where
  pair : Pair cp pd
  inv : CpM.Inv cp
  state : cp.state = .scChlng
  phy : cp.phyState = .sendCmd
  cmd : cp.cmdId = Id.CHLNG
  offline : cp.reqOffline = false
  event : cp.reqEventSend = false

theorem Calling.with {cp pd : Pd} (c : Calling cp pd) (h : cpBase cp = pdBase cp pd) : Challenging cp pd :=
  ⟨c.pair, c.inv, c.state, c.phy, c.cmd, c.offline, c.event, h⟩

theorem Challenging.calling {cp pd : Pd} (c : Challenging cp pd) : Calling cp pd :=
  ⟨c.pair, c.inv, c.state, c.phy, c.cmd, c.offline, c.event⟩

/-- The four packets are sent and, when each is delivered whole, end in `Done`. The CP is visited four times and once more in between
(it chooses SCRYPT); the visits come at any time and with any other circumstances. -/
def Handshakes (C : Cipher) (cb : Bool) (cp pd : Pd) (Done : Pd → Pd → Half → Prop) : Prop :=
  ∀ e1 : Env, 256 ≤ e1.sendCap → ∃ cp1 o1 b1, CpM.step C cp (.update cb e1) = .ok (cp1, o1) ∧ sent o1 = [b1] ∧
  ∀ e2 : Env, 256 ≤ e2.sendCap → Arrives e2 b1 → ∃ pd1 o2 b2, PdM.step C pd (.refresh e2) = .ok (pd1, o2) ∧ sent o2 = [b2] ∧
  ∀ e3 : Env, Arrives e3 b2 → ∃ cp2, CpM.step C cp1 (.update cb e3) = .ok (cp2, []) ∧
  ∀ e4 : Env, ∃ cp3, CpM.step C cp2 (.update cb e4) = .ok (cp3, []) ∧
  ∀ e5 : Env, 256 ≤ e5.sendCap → ∃ cp4 o5 b3, CpM.step C cp3 (.update cb e5) = .ok (cp4, o5) ∧ sent o5 = [b3] ∧
  ∀ e6 : Env, 256 ≤ e6.sendCap → Arrives e6 b3 → ∃ pd2 o6 b4, PdM.step C pd1 (.refresh e6) = .ok (pd2, o6) ∧ sent o6 = [b4] ∧
  ∀ e7 : Env, Arrives e7 b4 → ∃ cp5 o7, CpM.step C cp4 (.update cb e7) = .ok (cp5, o7) ∧ sent o7 = [] ∧ Done cp5 pd2 e2.random

/-- Both ends hold the session of base key `k`, the CP's random number and the PD's, and the same MAC to start from. -/
structure Agree (C : Cipher) (k : Block) (ra rb : Half) (cp pd : Pd) : Prop where
  cpActive : cp.scActive = true
  pdActive : pd.scActive = true
  enc : cp.sc.sEnc = Spec.Session.encKey C k ra ∧ pd.sc.sEnc = Spec.Session.encKey C k ra
  mac1 : cp.sc.sMac1 = Spec.Session.mac1Key C k ra ∧ pd.sc.sMac1 = Spec.Session.mac1Key C k ra
  mac2 : cp.sc.sMac2 = Spec.Session.mac2Key C k ra ∧ pd.sc.sMac2 = Spec.Session.mac2Key C k ra
  /-- the initial reply MAC is derived from the CP's cryptogram -/
  rmac : cp.sc.rMac = pd.sc.rMac ∧ pd.sc.rMac = C.enc (Spec.Session.mac2Key C k ra) (C.enc (Spec.Session.mac1Key C k ra)
    (Spec.Session.cryptogram C (Spec.Session.encKey C k ra) rb ra))

theorem keySeed_spec (t : Byte) (r : Half) : Sc.keySeed t r = Spec.Session.seed t r := rfl
theorem join_spec (a b : Half) : Bytes.join a b = ⟨a.1 ++ b.1, by simp [a.2, b.2]⟩ := rfl
theorem default_spec : Sc.scbkDefault = Spec.Session.defaultKey := by decide

theorem baseKey_spec (u : Bool) (sc : Sc) : Sc.baseKey u sc = if u then Spec.Session.defaultKey else sc.scbk := by
  unfold Sc.baseKey; rw [default_spec]

theorem keyByte_zero (p : Pd) : (keyByte p == 0#8) = p.flags.useScbkd := by
  unfold keyByte; cases p.flags.useScbkd <;> rfl

/-- What the handshake leaves of both ends, beside the session. -/
structure Opened (cp pd cp' pd' : Pd) : Prop where
  inv : CpM.Inv cp'
  phy : cp'.phyState = .idle
  state : cp'.state = afterScrypt cp
  eph : cp.flags.useScbkd = true → cp'.eph = .cmd (ownKey cp)
  scbk : cp'.sc.scbk = cp.sc.scbk
  flags : cp'.flags = { cp.flags with hasMark := cp'.flags.hasMark, scActive := true }
  mark : (cp'.flags.hasMark && cp'.flags.skipMark) = false
  offline : cp'.reqOffline = false
  event : cp'.reqEventSend = false
  peerRx : cp'.peerRx = cp.peerRx
  cpIdle : Idle cp'
  address : cp'.address = pd'.address
  seq : cp'.seq = pd'.seq
  seqOk : 0 ≤ cp'.seq
  pdFlags : pd'.flags = { pd.flags with scActive := true, broadcast := false, hasMark := pd'.flags.hasMark, useScbkd := usesDefault pd (keyByte cp) }
  pdScbk : pd'.sc.scbk = pd.sc.scbk
  pdAddress : pd'.address = pd.address
  pdCap : pd'.cap = pd.cap
  pdPeerRx : pd'.peerRx = pd.peerRx
  pdIdle : Idle pd'

theorem handshake_ends (C : Cipher) (cb : Bool) (cp pd : Pd) (R : Challenging cp pd) :
    Handshakes C cb cp pd fun cp' pd' rb => Agree C (cpBase cp) cp.sc.cpRandom rb cp' pd' ∧
      cp'.sc.cMac = cp.sc.cMac ∧ pd'.sc.cMac = pd.sc.cMac ∧ Opened cp pd cp' pd' := by
  have P := R.pair
  obtain ⟨s1, s2, s3⟩ := seq_step P
  intro e1 c1
  obtain ⟨buf1, hcp1, hbl1⟩ := cp_challenges C cp pd cb e1 P R.phy R.cmd c1
  have I1 := R.inv.step hcp1
  generalize hcp1e : CpM.sentState { CpM.nextCmd cp with packetBuf := buf1 } e1.now = cp1 at hcp1 I1
  have hl1 := hsCmd_length cp 0x11#8 (keyByte cp) (b8 Id.CHLNG :: cp.sc.cpRandom.1) (by simp [cp.sc.cpRandom.2])
  refine ⟨_, _, _, hcp1, (PdM.sendOuts_sent cp e1 _ (by omega)).1, ?_⟩
  intro e2 c2 a2
  obtain ⟨q1, pd1, hpd1, A1, hsc1⟩ := pd_challenged C cp pd e2 (keyByte cp) cp.sc.cpRandom P R.cmd c2 a2
  have hl2 := hsReply_length q1 0x12#8 (keyByte pd1) (b8 Id.CCRYPT :: (pd1.sc.pdClientUid.1 ++ pd1.sc.pdRandom.1 ++ pd1.sc.pdCryptogram.1))
    (by simp [pd1.sc.pdClientUid.2, pd1.sc.pdRandom.2, pd1.sc.pdCryptogram.2])
  refine ⟨_, _, _, hpd1, (PdM.sendOuts_sent q1 e2 _ (by omega)).1, ?_⟩
  intro e3 a3
  -- the keys of both ends
  have hk : Sc.baseKey (usesDefault pd (keyByte cp)) pd.sc = cpBase cp := by
    rw [R.key, baseKey_spec]
    unfold usesDefault pdBase
    rw [keyByte_zero]
  have hkc : Sc.baseKey cp.flags.useScbkd cp.sc = cpBase cp := by rw [baseKey_spec]; rfl
  have hrnd : pd1.sc.pdRandom = e2.random := by rw [hsc1]; rfl
  have hcpr : pd1.sc.cpRandom = cp.sc.cpRandom := by rw [hsc1]; rfl
  have henc : pd1.sc.sEnc = Spec.Session.encKey C (cpBase cp) cp.sc.cpRandom := by rw [hsc1, ← hk]; rfl
  have hm1 : pd1.sc.sMac1 = Spec.Session.mac1Key C (cpBase cp) cp.sc.cpRandom := by rw [hsc1, ← hk]; rfl
  have hm2 : pd1.sc.sMac2 = Spec.Session.mac2Key C (cpBase cp) cp.sc.cpRandom := by rw [hsc1, ← hk]; rfl
  have f1 : cp1.flags = { cp.flags with hasMark := cp.flags.hasMark || !cp.flags.skipMark } ∧ cp1.sc = cp.sc ∧ cp1.address = cp.address ∧
      cp1.seq = Phy.nextSeq cp.seq true ∧ cp1.peerRx = cp.peerRx ∧ Idle cp1 ∧ cp1.reqOffline = cp.reqOffline ∧ cp1.reqEventSend = cp.reqEventSend ∧
      cp1.state = cp.state ∧ cp1.cmdId = cp.cmdId ∧ cp1.phyState = .replyWait := by
    rw [← hcp1e]
    exact ⟨rfl, rfl, rfl, rfl, rfl, ⟨rfl, rfl, hbl1, P.cpIdle.rx⟩, rfl, rfl, rfl, rfl, rfl⟩
  obtain ⟨g1, g2, g3, g4, g5, g6, g7, g8, g9, g10, g11⟩ := f1
  obtain ⟨cp2, hcp2, st2, ph2, sc2, fl2, ad2, sq2, rx2, id2, ro2, re2, mk2⟩ := cp_convinced C q1 cp1 cb e3 (keyByte pd1) pd1.sc.pdClientUid pd1.sc.pdRandom
    pd1.sc.pdCryptogram (by rw [g1]; exact P.cpMode) (by rw [g3, A1.address]; exact P.address) (by rw [A1.address]; exact P.range) g6 A1.bc A1.replyId
    (A1.seq.trans g4.symm) g11 (g9.trans R.state) (g10.trans R.cmd) (by show cp1.flags.scActive = _; rw [g1]; exact P.clear)
    (by rw [show pd1.sc.pdCryptogram = C.enc pd1.sc.sEnc (Bytes.join pd1.sc.cpRandom pd1.sc.pdRandom) by rw [hsc1]; rfl, henc, hcpr, g2, ← hkc, g1]; rfl) a3
  have I2 := I1.step hcp2
  refine ⟨cp2, hcp2, ?_⟩
  intro e4
  have hcp3 : CpM.step C cp2 (.update cb e4) = .ok ({ cp2 with cmdId := Id.SCRYPT, phyState := .sendCmd }, []) := by
    show (CpM.stateUpdate C cb cp2 e4 >>= _) = _
    rw [CpM.update_idle C cb cp2 e4 ph2, CpM.settle_command (id := Id.SCRYPT) ph2 (by unfold CpM.stateGetCmd; rw [st2]) (by decide)]
    rfl
  have I3 := I2.step hcp3
  refine ⟨_, hcp3, ?_⟩
  generalize hcp3e : ({ cp2 with cmdId := Id.SCRYPT, phyState := .sendCmd } : Pd) = cp3 at hcp3 I3
  have f3 : cp3.flags = cp2.flags ∧ cp3.sc = cp2.sc ∧ cp3.address = cp2.address ∧ cp3.seq = cp2.seq ∧ cp3.peerRx = cp2.peerRx ∧ Idle cp3 ∧
      cp3.reqOffline = cp2.reqOffline ∧ cp3.reqEventSend = cp2.reqEventSend ∧ cp3.state = .scScrypt ∧ cp3.cmdId = Id.SCRYPT ∧ cp3.phyState = .sendCmd := by
    rw [← hcp3e]
    exact ⟨rfl, rfl, rfl, rfl, rfl, ⟨id2.bufLen, id2.len, id2.buf, id2.rx⟩, rfl, rfl, st2, rfl, rfl⟩
  obtain ⟨k1, k2, k3, k4, k5, k6, k7, k8, k9, k10, k11⟩ := f3
  have P3 : Pair cp3 pd1 := by
    have hf := A1.flags
    refine ⟨by rw [k1, fl2, g1]; exact P.cpMode, by rw [hf]; exact P.pdMode, ?_, by rw [A1.address']; exact P.range, k6, A1.idle, ?_, ?_, by rw [A1.cap]; exact P.compliance,
      ?_, ?_, ?_, by rw [hf], ?_, ?_, .inl ?_⟩
    · rw [k3, ad2, g3, A1.address']; exact P.address
    · show cp3.flags.scActive = _; rw [k1, fl2, g1]; exact P.clear
    · have := P.capable
      unfold Pd.scCapable at *
      rw [hf]; exact this
    · have := P.cpTx
      unfold Pd.txBufSize at *
      rw [k5, rx2, g5]; exact this
    · have := P.pdTx
      unfold Pd.txBufSize at *
      rw [A1.peerRx]; exact this
    · have : cp2.flags.skipMark = cp.flags.skipMark := by rw [fl2, g1]
      rw [k1, mk2, A1.mark, this]
      cases cp.flags.skipMark <;> rfl
    · rw [k4, sq2, g4]; omega
    · rw [A1.seq']; omega
    · rw [k4, sq2, g4, A1.seq']
  have u3 : cp3.flags.useScbkd = cp.flags.useScbkd := by rw [k1, fl2, g1]
  have esc3 : cp3.sc = Sc.sessionKeys C cp.flags.useScbkd { cp.sc with pdClientUid := pd1.sc.pdClientUid, pdRandom := pd1.sc.pdRandom, pdCryptogram := pd1.sc.pdCryptogram } := by
    rw [k2, sc2, g1, g2]
  have enc3 : cp3.sc.sEnc = Spec.Session.encKey C (cpBase cp) cp.sc.cpRandom := by rw [esc3, ← hkc]; rfl
  have m13 : cp3.sc.sMac1 = Spec.Session.mac1Key C (cpBase cp) cp.sc.cpRandom := by rw [esc3, ← hkc]; rfl
  have m23 : cp3.sc.sMac2 = Spec.Session.mac2Key C (cpBase cp) cp.sc.cpRandom := by rw [esc3, ← hkc]; rfl
  have rnd3 : cp3.sc.pdRandom = e2.random := by rw [esc3]; exact hrnd
  have cpr3 : cp3.sc.cpRandom = cp.sc.cpRandom := by rw [esc3]; rfl
  intro e5 c5
  obtain ⟨buf4, hcp4, hbl4⟩ := cp_proves C cp3 pd1 cb e5 P3 k11 k10 c5
  have I4 := I3.step hcp4
  have hl3 := hsCmd_length cp3 0x13#8 (keyByte cp3) (b8 Id.SCRYPT :: (Sc.computeCpCryptogram C cp3.sc).cpCryptogram.1)
    (by simp [(Sc.computeCpCryptogram C cp3.sc).cpCryptogram.2])
  refine ⟨_, _, _, hcp4, (PdM.sendOuts_sent cp3 e5 _ (by omega)).1, ?_⟩
  generalize hcp4e : CpM.sentState { CpM.nextCmd cp3 with sc := Sc.computeCpCryptogram C cp3.sc, packetBuf := buf4 } e5.now = cp4 at hcp4 I4
  have f4 : cp4.flags = { cp3.flags with hasMark := cp3.flags.hasMark || !cp3.flags.skipMark } ∧ cp4.sc = Sc.computeCpCryptogram C cp3.sc ∧ cp4.address = cp3.address ∧
      cp4.seq = Phy.nextSeq cp3.seq true ∧ Idle cp4 ∧ cp4.reqOffline = cp3.reqOffline ∧ cp4.reqEventSend = cp3.reqEventSend ∧
      cp4.state = cp3.state ∧ cp4.cmdId = cp3.cmdId ∧ cp4.phyState = .replyWait := by
    rw [← hcp4e]
    exact ⟨rfl, rfl, rfl, rfl, ⟨rfl, rfl, hbl4, k6.rx⟩, rfl, rfl, rfl, rfl, rfl⟩
  obtain ⟨j1, j2, j3, j4, j5, j6, j7, j8, j9, j10⟩ := f4
  intro e6 c6 a6
  have hcg : (Sc.computeCpCryptogram C cp3.sc).cpCryptogram = C.enc pd1.sc.sEnc (Bytes.join pd1.sc.pdRandom pd1.sc.cpRandom) := by
    show C.enc cp3.sc.sEnc (Bytes.join cp3.sc.pdRandom cp3.sc.cpRandom) = _
    rw [enc3, rnd3, cpr3, henc, hrnd, hcpr]
  obtain ⟨q2, pd2, hpd2, A2, hscp2⟩ := pd_convinced C cp3 pd1 e6 (keyByte cp3) (Sc.computeCpCryptogram C cp3.sc).cpCryptogram P3
    (by show pd1.flags.scActive = _; rw [A1.flags]) k10 c6 hcg a6
  have hl4 := hsReply_length q2 0x14#8 1#8 (b8 Id.RMAC_I :: pd2.sc.rMac.1) (by simp [pd2.sc.rMac.2])
  refine ⟨_, _, _, hpd2, (PdM.sendOuts_sent q2 e6 _ (by omega)).1, ?_⟩
  intro e7 a7
  obtain ⟨cp5, o7, hcp5, hs5, st5, ph5, sc5, fl5, ad5, sq5, id5, mk5, ep5, rx5, ro5, re5, -⟩ := cp_opens C q2 cp4 cb e7 1#8 pd2.sc.rMac (by rw [j1]; exact P3.cpMode)
    (by rw [j3, A2.address]; exact P3.address) (by rw [A2.address]; exact P3.range) j5 A2.bc A2.replyId (A2.seq.trans j4.symm) j10 (j8.trans k9) (j9.trans k10)
    (by show cp4.flags.scActive = _; rw [j1]; exact P3.clear) I4.restart (by rw [j6, k7, ro2, g7]; exact R.offline) (by rw [j7, k8, re2, g8]; exact R.event) a7
  have I5 := I4.step hcp5
  have u4 : cp4.flags.useScbkd = cp.flags.useScbkd := by rw [j1]; exact u3
  have act5 : cp5.scActive = true := by show cp5.flags.scActive = _; rw [fl5]
  have actp : pd2.scActive = true := by show pd2.flags.scActive = _; rw [A2.flags]
  have AG : Agree C (cpBase cp) cp.sc.cpRandom e2.random cp5 pd2 := by
    refine ⟨act5, actp, ⟨?_, ?_⟩, ⟨?_, ?_⟩, ⟨?_, ?_⟩, by rw [sc5], ?_⟩
    · rw [sc5, j2]; exact enc3
    · rw [hscp2]; exact henc
    · rw [sc5, j2]; exact m13
    · rw [hscp2]; exact hm1
    · rw [sc5, j2]; exact m23
    · rw [hscp2]; exact hm2
    · rw [hscp2]
      show C.enc pd1.sc.sMac2 (C.enc pd1.sc.sMac1 (Sc.computeCpCryptogram C cp3.sc).cpCryptogram) = _
      rw [hcg, hm1, hm2, henc, hrnd, hcpr]
      rfl
  refine ⟨cp5, o7, hcp5, hs5, AG, by rw [sc5, j2]; show cp3.sc.cMac = _; rw [esc3]; rfl, by rw [hscp2]; show pd1.sc.cMac = _; rw [hsc1]; rfl, ?_⟩
  obtain ⟨t1, t2, t3⟩ := seq_step P3
  have ufl : cp4.flags = { cp.flags with hasMark := cp4.flags.hasMark } := by rw [j1, k1, fl2, g1]
  have scb4 : cp4.sc.scbk = cp.sc.scbk := by rw [j2]; show cp3.sc.scbk = _; rw [esc3]; rfl
  refine ⟨I5, ph5, by rw [st5]; unfold afterScrypt; rw [u4], fun h => ?_, by rw [sc5]; exact scb4, by rw [fl5, ufl], ?_, by rw [ro5, j6, k7, ro2, g7]; exact R.offline,
    by rw [re5, j7, k8, re2, g8]; exact R.event, ?_, id5, ?_, ?_, ?_, ?_, ?_, by rw [A2.address', A1.address'], by rw [A2.cap, A1.cap], by rw [A2.peerRx, A1.peerRx], A2.idle⟩
  · rw [ep5]; unfold afterEph; rw [u4, if_pos h]; unfold ownKey; rw [scb4]
  · have : cp5.flags.skipMark = cp3.flags.skipMark := by rw [fl5, j1]
    rw [mk5, A2.mark, this]
    cases cp3.flags.skipMark <;> rfl
  · rw [rx5, ← hcp4e]; show cp3.peerRx = _; rw [k5, rx2, g5]
  · rw [ad5, j3, A2.address']; exact P3.address
  · rw [sq5, j4, A2.seq']
  · rw [sq5, j4]; exact t2
  · rw [A2.flags, A1.flags]
    have hkb : keyByte cp3 = keyByte cp := by unfold keyByte; rw [u3]
    have hd : usesDefault pd1 (keyByte cp) = (usesDefault pd (keyByte cp) || (pd.flags.installMode && keyByte cp == 0#8)) := by
      unfold usesDefault; rw [A1.flags]; rfl
    rw [hkb, hd]
    unfold usesDefault
    dsimp only
    cases pd.flags.useScbkd <;> cases pd.flags.installMode <;> cases (keyByte cp == 0#8) <;> rfl
  · rw [hscp2]; show pd1.sc.scbk = _; rw [hsc1]; rfl

theorem Opened.sync {C : Cipher} {k : Block} {ra rb : Half} {cp pd cp' pd' : Pd} (R : Challenging cp pd) (O : Opened cp pd cp' pd')
    (AG : Agree C k ra rb cp' pd') (h : cp.flags.useScbkd = false) : cp'.state = .online ∧ Sync cp' pd' := by
  have P := R.pair
  have hon : cp'.state = .online := by rw [O.state]; unfold afterScrypt; rw [h]; rfl
  refine ⟨hon, O.inv, hon, .inl O.phy, AG.cpActive, by rw [O.pdFlags]; exact P.pdMode, AG.pdActive, fun _ => ?_, fun _ => ⟨?_, ?_, ?_, ?_⟩, O.address, O.seq, O.seqOk,
    by rw [O.pdFlags], O.cpIdle, O.pdIdle, fun h => by cases h⟩
  · have := P.capable
    unfold Pd.scCapable at *
    rw [O.pdFlags]; exact this
  · rw [AG.enc.1, AG.enc.2]
  · rw [AG.mac1.1, AG.mac1.2]
  · rw [AG.mac2.1, AG.mac2.2]
  · exact AG.rmac.1

/-- A handshake may be claimed to end in less. -/
theorem Handshakes.mono {C : Cipher} {cb : Bool} {cp pd : Pd} {D D' : Pd → Pd → Half → Prop} (h : Handshakes C cb cp pd D)
    (hd : ∀ a b r, D a b r → D' a b r) : Handshakes C cb cp pd D' := by
  intro a1 b1
  obtain ⟨p1, p2, p3, p4, p5, h⟩ := h a1 b1
  refine ⟨p1, p2, p3, p4, p5, fun a2 b2 b3 => ?_⟩
  obtain ⟨q1, q2, q3, q4, q5, h⟩ := h a2 b2 b3
  refine ⟨q1, q2, q3, q4, q5, fun a3 b3 => ?_⟩
  obtain ⟨r1, r2, h⟩ := h a3 b3
  refine ⟨r1, r2, fun a4 => ?_⟩
  obtain ⟨s1, s2, h⟩ := h a4
  refine ⟨s1, s2, fun a5 b5 => ?_⟩
  obtain ⟨t1, t2, t3, t4, t5, h⟩ := h a5 b5
  refine ⟨t1, t2, t3, t4, t5, fun a6 b6 b7 => ?_⟩
  obtain ⟨u1, u2, u3, u4, u5, h⟩ := h a6 b6 b7
  refine ⟨u1, u2, u3, u4, u5, fun a7 b7 => ?_⟩
  obtain ⟨v1, v2, v3, v4, v5⟩ := h a7 b7
  exact ⟨v1, v2, v3, v4, hd _ _ _ v5⟩

/-- **C20.** What is missing from the full statement: of the MAC state only the reply MAC, from which the next message is computed, is
made equal; the command MAC stays at both ends what it was (see `C20_cmac`). -/
theorem C20_partial (C : Cipher) (cb : Bool) (cp pd : Pd) (R : Challenging cp pd) :
    Handshakes C cb cp pd fun cp' pd' rb => Agree C (cpBase cp) cp.sc.cpRandom rb cp' pd' ∧
      cp'.sc.cMac = cp.sc.cMac ∧ pd'.sc.cMac = pd.sc.cMac ∧
      (cp.flags.useScbkd = true → cp'.state = .setScbk) ∧ (cp.flags.useScbkd = false → cp'.state = .online ∧ Sync cp' pd') := by
  refine (handshake_ends C cb cp pd R).mono ?_
  rintro cp' pd' rb ⟨AG, h1, h2, O⟩
  exact ⟨AG, h1, h2, fun h => by rw [O.state]; unfold afterScrypt; rw [if_pos h], fun h => O.sync R AG h⟩

/-- the two ends of the sample link, about to shake hands -/
def hailing : Sample.Talk := Sample.talk.turns xorCipher 20 7

-- the CP and the PD of a link, when the CP has learnt that the PD can do this
example : Challenging hailing.cp hailing.pd := by
  refine ⟨⟨by decide +kernel, by decide +kernel, by decide +kernel, by decide +kernel,
    ⟨by decide +kernel, by decide +kernel, by decide +kernel, by decide +kernel⟩,
    ⟨by decide +kernel, by decide +kernel, by decide +kernel, by decide +kernel⟩,
    by decide +kernel, by decide +kernel, by decide +kernel, by decide +kernel, by decide +kernel, by decide +kernel, by decide +kernel,
    by decide +kernel, by decide +kernel, .inl (by decide +kernel)⟩, turns_inv _ _ ?_, by decide +kernel, by decide +kernel, by decide +kernel,
    by decide +kernel, by decide +kernel, by decide +kernel⟩
  exact (Sample.cp_reached (C := xorCipher) (ops := []) rfl).inv

/-- the controller is restarted and meets the PD again, which still remembers its last session -/
def rejoined (n : Nat) : Sample.Talk :=
  Sample.Talk.turns xorCipher 20 n { cp := Sample.cp, pd := settled.pd, now := settled.now }

/-- The command MAC of an older session survives a handshake at the PD: the two ends differ in it when the channel opens.
(The next command overwrites it at both ends before it is used.) -/
theorem C20_cmac : Challenging (rejoined 7).cp (rejoined 7).pd ∧ (rejoined 12).cp.scActive = true ∧ (rejoined 12).pd.scActive = true ∧
    (rejoined 12).cp.sc.rMac = (rejoined 12).pd.sc.rMac ∧ (rejoined 12).cp.sc.cMac ≠ (rejoined 12).pd.sc.cMac := by
  refine ⟨⟨⟨by decide +kernel, by decide +kernel, by decide +kernel, by decide +kernel,
    ⟨by decide +kernel, by decide +kernel, by decide +kernel, by decide +kernel⟩,
    ⟨by decide +kernel, by decide +kernel, by decide +kernel, by decide +kernel⟩,
    by decide +kernel, by decide +kernel, by decide +kernel, by decide +kernel, by decide +kernel, by decide +kernel, by decide +kernel,
    by decide +kernel, by decide +kernel, .inl (by decide +kernel)⟩, turns_inv _ _ ?_, by decide +kernel, by decide +kernel, by decide +kernel,
    by decide +kernel, by decide +kernel, by decide +kernel⟩, by decide +kernel, by decide +kernel, by decide +kernel, by decide +kernel⟩
  exact (Sample.cp_reached (C := xorCipher) (ops := []) rfl).inv

end Link
end Osdp
