import Verif.Lemmas.Meet
import Verif.Props.C20

/-!
# C66: a healthy link comes up by itself

A CP that starts, or that has given up on a PD and waited, gets the link going again without the application doing anything: it asks who the PD is
and what it can do, shakes hands and is online in a secure session. The PD may be new or may still believe in an older session.
-/

namespace Osdp.Link

open Spec.Wire
open Phy (Idle Arrives sendOuts)
open CpM (plainCmd)
open PdM (plainReply)

/-! ### what "comes up" means -/

/-- The CP sends a packet; delivered whole, the PD answers it with one packet; delivered whole, the CP takes it in without sending anything.
The visits come at any time. -/
def Exchange (C : Cipher) (cb : Bool) (cp pd : Pd) (K : Half → Pd → Pd → Prop) : Prop :=
  ∀ e1 : Env, 256 ≤ e1.sendCap → ∃ cp1 o1 b1, CpM.step C cp (.update cb e1) = .ok (cp1, o1) ∧ sent o1 = [b1] ∧
  ∀ e2 : Env, 256 ≤ e2.sendCap → Arrives e2 b1 → ∃ pd1 o2 b2, PdM.step C pd (.refresh e2) = .ok (pd1, o2) ∧ sent o2 = [b2] ∧
  ∀ e3 : Env, Arrives e3 b2 → ∃ cp2 o3, CpM.step C cp1 (.update cb e3) = .ok (cp2, o3) ∧ sent o3 = [] ∧ K e3.random cp2 pd1

/-- The CP is visited and changes its state quietly. -/
def Quiet (C : Cipher) (cb : Bool) (cp : Pd) (K : Pd → Prop) : Prop :=
  ∀ e : Env, ∃ cp1, CpM.step C cp (.update cb e) = .ok (cp1, []) ∧ K cp1

/-- Identity, capabilities, then `Rest`. -/
def Introduces (C : Cipher) (cb : Bool) (cp pd : Pd) (Rest : Half → Pd → Pd → Prop) : Prop :=
  Quiet C cb cp fun cp1 => Exchange C cb cp1 pd fun _ cp2 pd1 =>
  Quiet C cb cp2 fun cp3 => Exchange C cb cp3 pd1 Rest

/-- Identity, capabilities, handshake. -/
def ComesUp (C : Cipher) (cb : Bool) (cp pd : Pd) (Done : Half → Half → Pd → Pd → Prop) : Prop :=
  Introduces C cb cp pd fun ra cp1 pd1 => Quiet C cb cp1 fun cp2 => Handshakes C cb cp2 pd1 fun cp3 pd3 rb => Done ra rb cp3 pd3

/-! ### when it is claimed -/

/-- A CP that starts and a PD at its address: both receivers are in order, neither was told of too small a buffer, no request is pending.
Of the PD's session nothing is said. -/
structure Unmet (cp pd : Pd) : Prop where
  inv : CpM.Inv cp
  pdMode : pd.flags.pdMode = true
  phy : cp.phyState = .idle
  address : cp.address = pd.address
  range : 0 ≤ pd.address ∧ pd.address ≤ 126
  cpIdle : Idle cp
  pdIdle : Idle pd
  cpTx : 69 ≤ cp.txBufSize
  pdTx : 69 ≤ pd.txBufSize
  mark : (cp.flags.hasMark && cp.flags.skipMark) = false
  bc : pd.flags.broadcast = false
  pdSeq : -1 ≤ pd.seq ∧ pd.seq ≤ 3
  offline : cp.reqOffline = false
  event : cp.reqEventSend = false
  /-- the receive buffer the PD announces is "unlimited" or holds a packet -/
  announced : (pd.cap 10).code = 10#8 ∧
    ((pd.cap 10).compliance.toNat + 256 * (pd.cap 10).numItems.toNat = 0 ∨ 69 ≤ (pd.cap 10).compliance.toNat + 256 * (pd.cap 10).numItems.toNat)

/-- Both ends can use the secure channel and have the same key. -/
structure SameKey (cp pd : Pd) : Prop where
  cpKey : cp.flags.hasScbk = true
  cpOn : cp.flags.scDisabled = false
  pdOn : pd.scCapable = true
  offers : (pd.cap 9).code = 9#8 ∧ (pd.cap 9).compliance.getLsbD 0 = true
  same : cp.sc.scbk = pd.sc.scbk
  /-- the PD is not waiting to be installed -/
  installed : pd.flags.useScbkd = false

/-! ### proof -/

/-- the CP has sent its question -/
structure Asking (cp cp1 : Pd) : Prop where
  inv : CpM.Inv cp1
  flags : cp1.flags = { cp.flags with hasMark := cp.flags.hasMark || !cp.flags.skipMark }
  sc : cp1.sc = cp.sc
  address : cp1.address = cp.address
  seq : cp1.seq = Phy.nextSeq cp.seq true
  peerRx : cp1.peerRx = cp.peerRx
  cap : cp1.cap = cp.cap
  idle : Idle cp1
  offline : cp1.reqOffline = cp.reqOffline
  event : cp1.reqEventSend = cp.reqEventSend
  state : cp1.state = cp.state
  cmd : cp1.cmdId = cp.cmdId
  phy : cp1.phyState = .replyWait

theorem ask_exchange (C : Cipher) (cb : Bool) (cp pd : Pd) (K : Half → Pd → Pd → Prop) (I : CpM.Inv cp) (P : Couple cp pd)
    (hps : cp.phyState = .sendCmd) (hq : Question cp.cmdId)
    (hK : ∀ cp1 q0 pd1 r (e3 : Env), Asking cp cp1 → Shown pd q0 pd1 (!cp.flags.skipMark) (Phy.nextSeq cp.seq true) → Explains pd cp.cmdId r →
      Arrives e3 (plainReply q0 r).bytes →
      ∃ cp2 o3, CpM.step C cp1 (.update cb e3) = .ok (cp2, o3) ∧ sent o3 = [] ∧ K e3.random cp2 pd1) : Exchange C cb cp pd K := by
  intro e1 c1
  obtain ⟨buf, h1, hbl⟩ := cp_asks C cp pd cb e1 P hps hq c1
  have hl := plainCmd_length cp cp.cmdId
  refine ⟨_, _, _, h1, (PdM.sendOuts_sent cp e1 _ (by omega)).1, ?_⟩
  intro e2 c2 a2
  obtain ⟨q0, pd1, r, h2, S, E⟩ := pd_explains C cp pd e2 P hq c2 a2
  have hl2 := PdM.plainReply_length q0 r
  have hr := E.length.1
  refine ⟨_, _, _, h2, (PdM.sendOuts_sent q0 e2 _ (by omega)).1, ?_⟩
  intro e3 a3
  exact hK _ q0 pd1 r e3 ⟨I.step h1, rfl, rfl, rfl, rfl, rfl, rfl, ⟨rfl, rfl, hbl, P.cpIdle.rx⟩, rfl, rfl, rfl, rfl, rfl⟩ S E a3

theorem Couple.next {cp pd cp1 q0 pd1 cp2 cp3 : Pd} {fl : Flags} (P : Couple cp pd) (A : Asking cp cp1)
    (S : Shown pd q0 pd1 (!cp.flags.skipMark) (Phy.nextSeq cp.seq true)) (L : Learnt q0 cp1 cp2 fl) (h0 : fl.pdMode = cp.flags.pdMode)
    (h1 : fl.scActive = cp.flags.scActive) (h2 : fl.skipMark = cp.flags.skipMark) (htx : 69 ≤ cp2.txBufSize)
    (h3 : cp3.flags = cp2.flags) (h4 : cp3.address = cp2.address) (h5 : cp3.seq = cp2.seq) (h6 : cp3.peerRx = cp2.peerRx) (h7 : Idle cp3) :
    Couple cp3 pd1 := by
  have hs : -1 ≤ Phy.nextSeq cp.seq true ∧ Phy.nextSeq cp.seq true ≤ 3 := by
    have := P.cpSeq
    unfold Phy.nextSeq
    rw [if_pos rfl]
    split <;> omega
  have hf := S.flags
  refine ⟨by rw [h3, L.flags]; exact h0.trans P.cpMode, by rw [hf]; exact P.pdMode, ?_, by rw [S.address']; exact P.range, h7, S.idle, ?_, ?_, ?_, ?_,
    by rw [hf], ?_, by rw [S.seq']; exact hs, .inl ?_, .inl (by show pd1.flags.scActive = _; rw [hf])⟩
  · rw [h4, L.address, A.address, S.address']; exact P.address
  · show cp3.flags.scActive = _
    rw [h3, L.flags]; exact h1.trans P.clear
  · unfold Pd.txBufSize at *
    rw [h6]; exact htx
  · have := P.pdTx
    unfold Pd.txBufSize at *
    rw [S.peerRx]; exact this
  · rw [h3, L.flags, S.mark]
    show ((!cp.flags.skipMark) && fl.skipMark) = false
    rw [h2]
    cases cp.flags.skipMark <;> rfl
  · rw [h5, L.seq, A.seq]; exact hs
  · rw [h5, L.seq, A.seq, S.seq']

theorem Unmet.couple {cp pd : Pd} (U : Unmet cp pd) (hst : cp.state = .init) (hseq : cp.seq = -1) : Couple cp pd :=
  ⟨U.inv.cp, U.pdMode, U.address, U.range, U.cpIdle, U.pdIdle,
    Bool.eq_false_iff.mpr fun h => (U.inv.secure h).elim (fun h => by rw [hst] at h; cases h) (fun h => by rw [hst] at h; cases h),
    U.cpTx, U.pdTx, U.mark, U.bc, ⟨U.inv.lo, U.inv.hi⟩, U.pdSeq, .inr hseq, .inr hseq⟩


/-- Between two exchanges: `cp1`, `pd1` are what has become of `cp`, `pd`; the CP's flags are now `fl`. -/
structure Between (cp pd cp1 pd1 : Pd) (fl : Flags) : Prop where
  inv : CpM.Inv cp1
  couple : Couple cp1 pd1
  flags : cp1.flags = { fl with hasMark := cp1.flags.hasMark }
  offline : cp1.reqOffline = cp.reqOffline
  event : cp1.reqEventSend = cp.reqEventSend
  pdFlags : pd1.flags = { pd.flags with scActive := false, broadcast := false, hasMark := pd1.flags.hasMark }
  pdSc : pd1.sc = pd.sc
  pdCap : pd1.cap = pd.cap

/-- the CP chooses its next command -/
theorem Between.choose {cp pd cp1 pd1 : Pd} {fl : Flags} {C : Cipher} {cb : Bool} {e : Env} (B : Between cp pd cp1 pd1 fl) (id : Nat)
    (h : CpM.step C cp1 (.update cb e) = .ok ({ cp1 with cmdId := id, phyState := .sendCmd }, [])) :
    Between cp pd { cp1 with cmdId := id, phyState := .sendCmd } pd1 fl := by
  have P := B.couple
  exact ⟨B.inv.step h, ⟨P.cpMode, P.pdMode, P.address, P.range, ⟨P.cpIdle.bufLen, P.cpIdle.len, P.cpIdle.buf, P.cpIdle.rx⟩, P.pdIdle, P.clear, P.cpTx,
    P.pdTx, P.mark, P.bc, P.cpSeq, P.pdSeq, P.seq, P.fresh⟩, B.flags, B.offline, B.event, B.pdFlags, B.pdSc, B.pdCap⟩

/-- one question further -/
theorem between_next {cp pd cp1 q0 pd1 cp2 : Pd} {fl : Flags} (P : Couple cp pd) (A : Asking cp cp1)
    (S : Shown pd q0 pd1 (!cp.flags.skipMark) (Phy.nextSeq cp.seq true)) (L : Learnt q0 cp1 cp2 fl) (h0 : fl.pdMode = cp.flags.pdMode)
    (h1 : fl.scActive = cp.flags.scActive) (h2 : fl.skipMark = cp.flags.skipMark) (htx : 69 ≤ cp2.txBufSize) (I : CpM.Inv cp2) :
    Between cp pd cp2 pd1 fl :=
  ⟨I, P.next A S L h0 h1 h2 htx rfl rfl rfl rfl L.idle, by rw [L.flags], L.offline.trans A.offline, L.event.trans A.event, S.flags, S.sc, S.cap⟩

/-- who the PD is -/
theorem introduces {C : Cipher} {cb : Bool} {cp pd : Pd} {Rest : Half → Pd → Pd → Prop} (U : Unmet cp pd) (hst : cp.state = .init) (hseq : cp.seq = -1)
    (h : ∀ cp1 pd1, Between cp pd cp1 pd1 cp.flags → cp1.state = .capdet → cp1.cmdId = Id.CAP → cp1.phyState = .sendCmd → cp1.sc = cp.sc →
      Exchange C cb cp1 pd1 Rest) : Introduces C cb cp pd Rest := by
  intro e0
  have P0 := U.couple hst hseq
  have hc0 := cp_chooses C cb cp e0 Id.ID U.phy (by unfold CpM.stateGetCmd; rw [hst]) (by decide)
  refine ⟨_, hc0, ?_⟩
  have I0 := U.inv.step hc0
  generalize ha : ({ cp with cmdId := Id.ID, phyState := .sendCmd } : Pd) = a at hc0 I0
  have hP : Couple a pd := by
    rw [← ha]
    exact ⟨P0.cpMode, P0.pdMode, P0.address, P0.range, ⟨P0.cpIdle.bufLen, P0.cpIdle.len, P0.cpIdle.buf, P0.cpIdle.rx⟩, P0.pdIdle, P0.clear, P0.cpTx,
      P0.pdTx, P0.mark, P0.bc, P0.cpSeq, P0.pdSeq, P0.seq, P0.fresh⟩
  have f : a.flags = cp.flags ∧ a.cmdId = Id.ID ∧ a.phyState = .sendCmd ∧ a.state = .init ∧ a.sc = cp.sc ∧ a.reqOffline = cp.reqOffline ∧
      a.reqEventSend = cp.reqEventSend := by
    rw [← ha]; exact ⟨rfl, rfl, rfl, hst, rfl, rfl, rfl⟩
  obtain ⟨f1, f2, f3, f4, f5, f6, f7⟩ := f
  refine ask_exchange C cb a pd _ I0 hP f3 (.inl f2) ?_
  intro cp1 q0 pd1 r e3 A S E a3
  obtain ⟨-, rfl⟩ : a.cmdId = Id.ID ∧ r = PdM.pdidBody pd.id := by
    rcases E with h | ⟨h, -⟩
    · exact h
    · rw [f2] at h; exact absurd h (by decide)
  obtain ⟨cp2, h2, st2, sc2, rx2, -, -, L⟩ := cp_learns_id C q0 cp1 cb e3 pd.id (by rw [A.flags]; exact hP.cpMode)
    (by rw [A.address, S.address]; exact hP.address) (by rw [S.address]; exact hP.range) A.idle S.bc
    (by show cp1.flags.scActive = _; rw [A.flags]; exact hP.clear) (S.seq.trans A.seq.symm) A.phy (A.state.trans f4) (A.cmd.trans f2) a3
  refine ⟨cp2, [], h2, rfl, ?_⟩
  have B := between_next (fl := cp1.flags) hP A S L (by rw [A.flags]) (by rw [A.flags]) (by rw [A.flags])
    (by have := hP.cpTx; unfold Pd.txBufSize at *; rw [rx2, A.peerRx]; exact this) (A.inv.step h2)
  intro e4
  have hc1 := cp_chooses C cb cp2 e4 Id.CAP L.phy (by unfold CpM.stateGetCmd; rw [st2]) (by decide)
  refine ⟨_, hc1, ?_⟩
  have B1 := B.choose Id.CAP hc1
  refine h _ pd1 ⟨B1.inv, B1.couple, ?_, B1.offline.trans f6, B1.event.trans f7, B1.pdFlags, B1.pdSc, B1.pdCap⟩ st2 rfl rfl (by show cp2.sc = _; rw [sc2, A.sc, f5])
  have := B1.flags
  rw [A.flags, f1] at this
  exact this

theorem capsFrom_of {cp pd : Pd} {k : Fin 17} {c : Byte} (h0 : k ≠ 0) (h : (pd.cap k).code = c) (hc : c.toNat = k.val) : capsFrom cp pd k = pd.cap k := by
  unfold capsFrom
  rw [if_pos ⟨h0, by rw [h]; exact hc⟩]

/-- The CP gets to know a PD that has the secure channel, and is then about to challenge it with its own key. -/
theorem calls {C : Cipher} {cb : Bool} {cp pd : Pd} {Rest : Half → Pd → Pd → Prop} (U : Unmet cp pd) (hkey : cp.flags.hasScbk = true)
    (hon : cp.flags.scDisabled = false) (hpd : pd.scCapable = true) (hoff : (pd.cap 9).code = 9#8 ∧ (pd.cap 9).compliance.getLsbD 0 = true)
    (hst : cp.state = .init) (hseq : cp.seq = -1)
    (h : ∀ ra x pd2, Calling x pd2 → x.sc = Sc.setup true ra cp.sc → x.flags.useScbkd = false → x.flags.hasScbk = true →
      x.flags.enforceSecure = cp.flags.enforceSecure → pd2.flags.useScbkd = pd.flags.useScbkd → pd2.flags.installMode = pd.flags.installMode →
      pd2.sc = pd.sc → Rest ra x pd2) :
    Introduces C cb cp pd fun ra cp1 pd1 => Quiet C cb cp1 fun cp2 => Rest ra cp2 pd1 := by
  refine introduces U hst hseq ?_
  intro cp1 pd1 B st1 id1 ph1 sc1
  have hP := B.couple
  refine ask_exchange C cb cp1 pd1 _ B.inv hP ph1 (.inr id1) ?_
  intro cp2 q0 pd2 r e3 A S E a3
  obtain ⟨room, hroom, rfl⟩ : ∃ room : Int, 48 ≤ room ∧ r = b8 Id.PDCAP :: PdM.capEntries pd1.cap PdM.capIdx room := by
    rcases E with ⟨h, -⟩ | ⟨-, h⟩
    · rw [id1] at h; exact absurd h (by decide)
    · exact h
  have c9 : capsFrom cp2 pd1 9 = pd.cap 9 := by rw [capsFrom_of (c := 9#8) (by decide) (by rw [B.pdCap]; exact hoff.1) rfl, B.pdCap]
  have c10 : capsFrom cp2 pd1 10 = pd.cap 10 := by rw [capsFrom_of (c := 10#8) (by decide) (by rw [B.pdCap]; exact U.announced.1) rfl, B.pdCap]
  have fl2 : cp2.flags = { cp.flags with hasMark := cp2.flags.hasMark } := by rw [A.flags, B.flags]
  obtain ⟨cp3, h3, st3, sc3, rx3, -, -, L⟩ := (cp_learns_cap C q0 cp2 pd1 cb e3 room hroom (by rw [A.flags]; exact hP.cpMode)
    (by rw [A.address, S.address]; exact hP.address) (by rw [S.address]; exact hP.range) A.idle S.bc
    (by show cp2.flags.scActive = _; rw [A.flags]; exact hP.clear) (S.seq.trans A.seq.symm) A.phy (A.state.trans st1) (A.cmd.trans id1) a3).1
    (by unfold offersSc; rw [c9]; exact hoff.2) (by rw [fl2]; exact hon)
  refine ⟨cp3, [], h3, rfl, ?_⟩
  have B2 := between_next hP A S L (by rw [A.flags]) (by rw [A.flags]) (by rw [A.flags])
    (by
      have := U.announced.2
      unfold Pd.txBufSize
      rw [rx3]
      unfold peerRxFrom
      rw [c10, if_pos U.announced.1]
      split <;> omega) (A.inv.step h3)
  intro e4
  have hc := cp_chooses C cb cp3 e4 Id.CHLNG L.phy (by unfold CpM.stateGetCmd; rw [st3]) (by decide)
  refine ⟨_, hc, ?_⟩
  have B3 := B2.choose Id.CHLNG hc
  have Q := B3.couple
  generalize hx : ({ cp3 with cmdId := Id.CHLNG, phyState := .sendCmd } : Pd) = x at *
  have f : x.flags = cp3.flags ∧ x.sc = cp3.sc ∧ x.state = .scChlng ∧ x.phyState = .sendCmd ∧ x.cmdId = Id.CHLNG := by
    rw [← hx]; exact ⟨rfl, rfl, st3, rfl, rfl⟩
  obtain ⟨f1, f2, f3, f4, f5⟩ := f
  have hpf : pd2.flags = { pd.flags with scActive := false, broadcast := false, hasMark := pd2.flags.hasMark } := by rw [B3.pdFlags, B.pdFlags]
  have hu : x.flags.useScbkd = false := by rw [f1, L.flags]
  have hsc : x.sc = Sc.setup true e3.random cp.sc := by
    rw [f2, sc3, A.sc, sc1, show cp2.flags.hasScbk = true by rw [fl2]; exact hkey]
  refine h e3.random x pd2 ⟨⟨Q.cpMode, Q.pdMode, Q.address, Q.range, Q.cpIdle, Q.pdIdle, Q.clear, ?_, ?_, Q.cpTx, Q.pdTx, Q.mark, Q.bc, Q.cpSeq, Q.pdSeq, Q.seq⟩, B3.inv, f3, f4, f5,
      ?_, ?_⟩ hsc hu (by rw [f1, L.flags, fl2]; exact hkey) (by rw [f1, L.flags, fl2]) (by rw [hpf]) (by rw [hpf]) (by rw [B3.pdSc, B.pdSc])
  · unfold Pd.scCapable at *
    rw [hpf]; exact hpd
  · rw [B3.pdCap, B.pdCap]
    intro h
    have := hoff.2
    rw [h] at this
    exact absurd this (by decide)
  · rw [B3.offline, B.offline]; exact U.offline
  · rw [B3.event, B.event]; exact U.event

/-- **C66.** A CP in its initial state and a PD with the same key end up in one secure session, whatever session the PD remembers. -/
theorem C66_comes_up (C : Cipher) (cb : Bool) (cp pd : Pd) (U : Unmet cp pd) (K : SameKey cp pd) (hst : cp.state = .init) (hseq : cp.seq = -1) :
    ComesUp C cb cp pd fun ra rb cp' pd' => Agree C cp.sc.scbk ra rb cp' pd' ∧ cp'.state = .online ∧ Sync cp' pd' := by
  refine calls U K.cpKey K.cpOn K.pdOn K.offers hst hseq ?_
  intro ra x pd2 R hsc hu _ _ hpu _ hps
  have hbase : cpBase x = cp.sc.scbk := by
    unfold cpBase; rw [hu, hsc]; rfl
  have hH := C20_partial C cb x pd2 (R.with (by
    rw [hbase]
    unfold pdBase
    rw [hu, show pd2.flags.useScbkd = false from hpu.trans K.installed, hps]
    simp [K.same]))
  rw [hbase, show x.sc.cpRandom = ra by rw [hsc]; rfl] at hH
  exact hH.mono fun _ _ _ h => ⟨h.1, h.2.2.2.2 hu⟩

/-- A PD without the secure channel, or a CP told to do without: when the CP does not insist on it, the link comes up in the clear. -/
theorem C66_clear (C : Cipher) (cb : Bool) (cp pd : Pd) (U : Unmet cp pd) (hst : cp.state = .init) (hseq : cp.seq = -1) (h9 : (pd.cap 9).code = 9#8)
    (hno : (pd.cap 9).compliance.getLsbD 0 = false ∨ cp.flags.scDisabled = true) (he : cp.flags.enforceSecure = false) :
    Introduces C cb cp pd fun _ cp' pd' => cp'.state = .online ∧ cp'.scActive = false ∧ pd'.scActive = false ∧ Couple cp' pd' ∧ CpM.Inv cp' ∧ cp'.seq = pd'.seq := by
  refine introduces U hst hseq ?_
  intro cp1 pd1 B st1 id1 ph1 sc1
  have hP := B.couple
  refine ask_exchange C cb cp1 pd1 _ B.inv hP ph1 (.inr id1) ?_
  intro cp2 q0 pd2 r e3 A S E a3
  obtain ⟨room, hroom, rfl⟩ : ∃ room : Int, 48 ≤ room ∧ r = b8 Id.PDCAP :: PdM.capEntries pd1.cap PdM.capIdx room := by
    rcases E with ⟨h, -⟩ | ⟨-, h⟩
    · rw [id1] at h; exact absurd h (by decide)
    · exact h
  have c9 : capsFrom cp2 pd1 9 = pd.cap 9 := by rw [capsFrom_of (c := 9#8) (by decide) (by rw [B.pdCap]; exact h9) rfl, B.pdCap]
  have c10 : capsFrom cp2 pd1 10 = pd.cap 10 := by rw [capsFrom_of (c := 10#8) (by decide) (by rw [B.pdCap]; exact U.announced.1) rfl, B.pdCap]
  have fl2 : cp2.flags = { cp.flags with hasMark := cp2.flags.hasMark } := by rw [A.flags, B.flags]
  obtain ⟨cp3, o3, h3, so3, st3, sc3, rx3, -, -, L⟩ := (cp_learns_cap C q0 cp2 pd1 cb e3 room hroom (by rw [A.flags]; exact hP.cpMode)
    (by rw [A.address, S.address]; exact hP.address) (by rw [S.address]; exact hP.range) A.idle S.bc
    (by show cp2.flags.scActive = _; rw [A.flags]; exact hP.clear) (S.seq.trans A.seq.symm) A.phy (A.state.trans st1) (A.cmd.trans id1) a3).2
    (by unfold offersSc; rw [c9, show cp2.flags.scDisabled = cp.flags.scDisabled by rw [fl2]]; rcases hno with h | h <;> rw [h] <;> simp) (by rw [fl2]; exact he)
    A.inv.restart (by rw [A.offline, B.offline]; exact U.offline) (by rw [A.event, B.event]; exact U.event)
  have B2 := between_next hP A S L (by rw [A.flags]) (by rw [A.flags]) (by rw [A.flags])
    (by
      have := U.announced.2
      unfold Pd.txBufSize
      rw [rx3]
      unfold peerRxFrom
      rw [c10, if_pos U.announced.1]
      split <;> omega) (A.inv.step h3)
  refine ⟨cp3, o3, h3, so3, st3, B2.couple.clear, by show pd2.flags.scActive = _; rw [S.flags], B2.couple, B2.inv, ?_⟩
  rw [L.seq, A.seq, S.seq']

/-- A CP that has been offline for its waiting time starts again, and the link comes up. -/
theorem C66_comes_back (C : Cipher) (cb : Bool) (cp pd : Pd) (U : Unmet cp pd) (K : SameKey cp pd) (hst : cp.state = .offline)
    (e : Env) (hw : e.now - cp.tstamp > cp.waitMs) :
    ∃ cp0 o, CpM.step C cp (.update cb e) = .ok (cp0, o) ∧ sent o = [] ∧
      ComesUp C cb cp0 pd fun ra rb cp' pd' => Agree C cp.sc.scbk ra rb cp' pd' ∧ cp'.state = .online ∧ Sync cp' pd' := by
  have h := cp_wakes C cb cp e U.phy hst hw
  refine ⟨_, _, h, ?_, ?_⟩
  · show sent (if cp.hasFlush then [Out.flush] else []) = []
    cases cp.hasFlush <;> rfl
  · exact C66_comes_up C cb _ pd ⟨U.inv.step h, U.pdMode, rfl, U.address, U.range, ⟨rfl, rfl, U.cpIdle.buf, U.cpIdle.rx⟩, U.pdIdle, U.cpTx, U.pdTx, U.mark, U.bc,
      U.pdSeq, U.offline, U.event, U.announced⟩ ⟨K.cpKey, K.cpOn, K.pdOn, K.offers, K.same, K.installed⟩ rfl rfl

/-! ### the hypotheses can be met -/

-- two new devices
example : Unmet Sample.cp Sample.pd ∧ SameKey Sample.cp Sample.pd ∧ Sample.cp.state = .init ∧ Sample.cp.seq = -1 := by
  refine ⟨⟨(Sample.cp_reached (C := xorCipher) (ops := []) rfl).inv, by decide +kernel, by decide +kernel, by decide +kernel, by decide +kernel,
    ⟨by decide +kernel, by decide +kernel, by decide +kernel, by decide +kernel⟩, ⟨by decide +kernel, by decide +kernel, by decide +kernel, by decide +kernel⟩,
    by decide +kernel, by decide +kernel, by decide +kernel, by decide +kernel, by decide +kernel, by decide +kernel, by decide +kernel, by decide +kernel⟩,
    ⟨by decide +kernel, by decide +kernel, by decide +kernel, by decide +kernel, by decide +kernel, by decide +kernel⟩, by decide +kernel, by decide +kernel⟩

-- a restarted CP and a PD that still has the session of before
example : Unmet Sample.cp settled.pd ∧ SameKey Sample.cp settled.pd ∧ settled.pd.scActive = true := by
  refine ⟨⟨(Sample.cp_reached (C := xorCipher) (ops := []) rfl).inv, by decide +kernel, by decide +kernel, by decide +kernel, by decide +kernel,
    ⟨by decide +kernel, by decide +kernel, by decide +kernel, by decide +kernel⟩, ⟨by decide +kernel, by decide +kernel, by decide +kernel, by decide +kernel⟩,
    by decide +kernel, by decide +kernel, by decide +kernel, by decide +kernel, by decide +kernel, by decide +kernel, by decide +kernel, by decide +kernel⟩,
    ⟨by decide +kernel, by decide +kernel, by decide +kernel, by decide +kernel, by decide +kernel, by decide +kernel⟩, by decide +kernel⟩

/-- the PD is unplugged in the middle of a session: what becomes of the CP -/
def deserted : Pd := match CpM.run xorCipher settled.cp (Sample.silence 30) with | .ok (q, _) => q | .error _ => Sample.cp

theorem deserted_inv : CpM.Inv deserted := by
  unfold deserted
  split
  · rename_i q o h
    exact CpM.run_ind (C := xorCipher) (fun _ q _ => CpM.Inv q) settled_sync.inv (fun _ _ _ _ _ _ _ ih hs => ih.step hs) h
  · exact (Sample.cp_reached (C := xorCipher) (ops := []) rfl).inv

-- it is offline; five minutes later it tries again
example : Unmet deserted settled.pd ∧ SameKey deserted settled.pd ∧ deserted.state = .offline ∧ deserted.tstamp = 12500 ∧ deserted.waitMs = 300000 := by
  refine ⟨⟨deserted_inv, by decide +kernel, by decide +kernel, by decide +kernel, by decide +kernel,
    ⟨by decide +kernel, by decide +kernel, by decide +kernel, by decide +kernel⟩, ⟨by decide +kernel, by decide +kernel, by decide +kernel, by decide +kernel⟩,
    by decide +kernel, by decide +kernel, by decide +kernel, by decide +kernel, by decide +kernel, by decide +kernel, by decide +kernel, by decide +kernel⟩,
    ⟨by decide +kernel, by decide +kernel, by decide +kernel, by decide +kernel, by decide +kernel, by decide +kernel⟩, by decide +kernel, by decide +kernel,
    by decide +kernel⟩

/-- the sample PD, whose application took back the secure channel -/
def insecure : Pd := { Sample.pd with cap := fun k => if k = 9 then ⟨9, 0, 0⟩ else Sample.pd.cap k }

-- for the link in the clear
example : Unmet Sample.cp insecure ∧ (insecure.cap 9).code = 9#8 ∧ (insecure.cap 9).compliance.getLsbD 0 = false ∧ Sample.cp.flags.enforceSecure = false := by
  refine ⟨⟨(Sample.cp_reached (C := xorCipher) (ops := []) rfl).inv, by decide +kernel, by decide +kernel, by decide +kernel, by decide +kernel,
    ⟨by decide +kernel, by decide +kernel, by decide +kernel, by decide +kernel⟩, ⟨by decide +kernel, by decide +kernel, by decide +kernel, by decide +kernel⟩,
    by decide +kernel, by decide +kernel, by decide +kernel, by decide +kernel, by decide +kernel, by decide +kernel, by decide +kernel, by decide +kernel⟩,
    by decide +kernel, by decide +kernel, by decide +kernel⟩

end Osdp.Link
