import Verif.Lemmas.Frame

/-! # What receiving and decoding a packet can change -/

namespace Osdp.Phy

/-- the members that receiving and decoding may change -/
structure Chg where
  rx : List Byte
  packetBuf : List Byte
  packetBufLen : Nat
  packetLen : Nat
  tstamp : Int
  hasMark : Bool
  broadcast : Bool
  scActive : Bool
  useScbkd : Bool
  seq : Int
  replyId : Nat
  eph : Eph
  cMac : Block
  rMac : Block

/-- replace those members -/
def upd (p : Pd) (c : Chg) : Pd :=
  { p with
    rx := c.rx, packetBuf := c.packetBuf, packetBufLen := c.packetBufLen, packetLen := c.packetLen
    tstamp := c.tstamp, seq := c.seq, replyId := c.replyId, eph := c.eph
    flags := { p.flags with hasMark := c.hasMark, broadcast := c.broadcast, scActive := c.scActive,
                            useScbkd := c.useScbkd }
    sc := { p.sc with cMac := c.cMac, rMac := c.rMac } }

/-- their values -/
def chgOf (q : Pd) : Chg :=
  ⟨q.rx, q.packetBuf, q.packetBufLen, q.packetLen, q.tstamp, q.flags.hasMark, q.flags.broadcast,
   q.flags.scActive, q.flags.useScbkd, q.seq, q.replyId, q.eph, q.sc.cMac, q.sc.rMac⟩

/-- `q` differs from `p` at most in those members -/
def Transp (p q : Pd) : Prop := q = upd p (chgOf q)

theorem Transp.refl (p : Pd) : Transp p p := rfl

theorem Transp.trans {p q s : Pd} (h : Transp p q) (h' : Transp q s) : Transp p s := by
  unfold Transp at h h' ⊢
  rw [h', h]; rfl

section
variable {p q : Pd} (h : Transp p q)
include h
theorem Transp.idx : q.idx = p.idx := by rw [h]; rfl
theorem Transp.baudRate : q.baudRate = p.baudRate := by rw [h]; rfl
theorem Transp.address : q.address = p.address := by rw [h]; rfl
theorem Transp.id : q.id = p.id := by rw [h]; rfl
theorem Transp.cap : q.cap = p.cap := by rw [h]; rfl
theorem Transp.state : q.state = p.state := by rw [h]; rfl
theorem Transp.phyState : q.phyState = p.phyState := by rw [h]; rfl
theorem Transp.retryCount : q.retryCount = p.retryCount := by rw [h]; rfl
theorem Transp.waitMs : q.waitMs = p.waitMs := by rw [h]; rfl
theorem Transp.scTstamp : q.scTstamp = p.scTstamp := by rw [h]; rfl
theorem Transp.phyTstamp : q.phyTstamp = p.phyTstamp := by rw [h]; rfl
theorem Transp.reqRestartSc : q.reqRestartSc = p.reqRestartSc := by rw [h]; rfl
theorem Transp.reqEventSend : q.reqEventSend = p.reqEventSend := by rw [h]; rfl
theorem Transp.reqOffline : q.reqOffline = p.reqOffline := by rw [h]; rfl
theorem Transp.peerRx : q.peerRx = p.peerRx := by rw [h]; rfl
theorem Transp.cmdId : q.cmdId = p.cmdId := by rw [h]; rfl
theorem Transp.cmdQueue : q.cmdQueue = p.cmdQueue := by rw [h]; rfl
theorem Transp.eventQueue : q.eventQueue = p.eventQueue := by rw [h]; rfl
theorem Transp.poolCap : q.poolCap = p.poolCap := by rw [h]; rfl
theorem Transp.chanId : q.chanId = p.chanId := by rw [h]; rfl
theorem Transp.hasFlush : q.hasFlush = p.hasFlush := by rw [h]; rfl
theorem Transp.file : q.file = p.file := by rw [h]; rfl
theorem Transp.pdMode : q.flags.pdMode = p.flags.pdMode := by rw [h]; rfl
theorem Transp.scCapable : q.flags.scCapable = p.flags.scCapable := by rw [h]; rfl
theorem Transp.scDisabled : q.flags.scDisabled = p.flags.scDisabled := by rw [h]; rfl
theorem Transp.hasScbk : q.flags.hasScbk = p.flags.hasScbk := by rw [h]; rfl
theorem Transp.enforceSecure : q.flags.enforceSecure = p.flags.enforceSecure := by rw [h]; rfl
theorem Transp.installMode : q.flags.installMode = p.flags.installMode := by rw [h]; rfl
theorem Transp.ignUnsolicited : q.flags.ignUnsolicited = p.flags.ignUnsolicited := by rw [h]; rfl
theorem Transp.enableNotif : q.flags.enableNotif = p.flags.enableNotif := by rw [h]; rfl
theorem Transp.allowEmpty : q.flags.allowEmpty = p.flags.allowEmpty := by rw [h]; rfl
theorem Transp.skipMark : q.flags.skipMark = p.flags.skipMark := by rw [h]; rfl
theorem Transp.skipSeqCheck : q.flags.skipSeqCheck = p.flags.skipSeqCheck := by rw [h]; rfl
theorem Transp.chnShared : q.flags.chnShared = p.flags.chnShared := by rw [h]; rfl
theorem Transp.scbk : q.sc.scbk = p.sc.scbk := by rw [h]; rfl
theorem Transp.sEnc : q.sc.sEnc = p.sc.sEnc := by rw [h]; rfl
theorem Transp.sMac1 : q.sc.sMac1 = p.sc.sMac1 := by rw [h]; rfl
theorem Transp.sMac2 : q.sc.sMac2 = p.sc.sMac2 := by rw [h]; rfl
theorem Transp.cpRandom : q.sc.cpRandom = p.sc.cpRandom := by rw [h]; rfl
theorem Transp.pdRandom : q.sc.pdRandom = p.sc.pdRandom := by rw [h]; rfl
theorem Transp.pdClientUid : q.sc.pdClientUid = p.sc.pdClientUid := by rw [h]; rfl
theorem Transp.cpCryptogram : q.sc.cpCryptogram = p.sc.cpCryptogram := by rw [h]; rfl
theorem Transp.pdCryptogram : q.sc.pdCryptogram = p.sc.pdCryptogram := by rw [h]; rfl
theorem Transp.txBufSize : q.txBufSize = p.txBufSize := by rw [h]; rfl
end

/-- what collecting bytes may change, and what it keeps for certain -/
structure Collected (p q : Pd) : Prop where
  transp : Transp p q
  sc : q.sc = p.sc
  scActive : q.flags.scActive = p.flags.scActive
  useScbkd : q.flags.useScbkd = p.flags.useScbkd
  broadcast : q.flags.broadcast = p.flags.broadcast
  seq : q.seq = p.seq
  replyId : q.replyId = p.replyId
  eph : q.eph = p.eph

theorem Collected.refl (p : Pd) : Collected p p := ⟨.refl p, rfl, rfl, rfl, rfl, rfl, rfl, rfl⟩

theorem Collected.trans {p q s : Pd} (h : Collected p q) (h' : Collected q s) : Collected p s :=
  ⟨h.transp.trans h'.transp, h'.sc.trans h.sc, h'.scActive.trans h.scActive, h'.useScbkd.trans h.useScbkd,
   h'.broadcast.trans h.broadcast, h'.seq.trans h.seq, h'.replyId.trans h.replyId, h'.eph.trans h.eph⟩

theorem popInto_collected {p q : Pd} {n : Nat} (h : popInto p n = .ok q) : Collected p q := by
  obtain ⟨buf, -, h⟩ := Res.bind_eq_ok.mp h
  injection h with h; subst h
  exact ⟨rfl, rfl, rfl, rfl, rfl, rfl, rfl, rfl⟩

theorem headerStart_collected {p q : Pd} {b : Bool} (h : headerStart p = .ok (q, b)) : Collected p q := by
  unfold headerStart at h
  split at h
  · split at h
    · injection h with h; injection h with h _; subst h
      exact ⟨rfl, rfl, rfl, rfl, rfl, rfl, rfl, rfl⟩
    · obtain ⟨buf, -, h⟩ := Res.bind_eq_ok.mp h
      injection h with h; injection h with h _; subst h
      exact ⟨rfl, rfl, rfl, rfl, rfl, rfl, rfl, rfl⟩
    · obtain ⟨buf, -, h⟩ := Res.bind_eq_ok.mp h
      injection h with h; injection h with h _; subst h
      exact ⟨rfl, rfl, rfl, rfl, rfl, rfl, rfl, rfl⟩
  · injection h with h; injection h with h _; subst h
    exact .refl _

theorem headerRest_collected {p q : Pd} {r : HdrRet} (h : headerRest p = .ok (q, r)) : Collected p q := by
  unfold headerRest at h
  obtain ⟨p1, h1, h⟩ := Res.bind_eq_ok.mp h
  have c1 := popInto_collected h1
  split at h
  · injection h with h; injection h with h _; subst h; exact c1
  · obtain ⟨r', -, h⟩ := Res.bind_eq_ok.mp h
    injection h with h; injection h with h _; subst h; exact c1

theorem intake_collected {p q : Pd} {env : Env} (h : intake p env = .ok q) : Collected p q := by
  unfold intake at h
  obtain ⟨⟨rx, n⟩, -, h⟩ := Res.bind_eq_ok.mp h
  injection h with h; subst h
  dsimp only
  split <;> exact ⟨rfl, rfl, rfl, rfl, rfl, rfl, rfl, rfl⟩

/-- what reception does to the command or event stored on the CP -/
structure EphCp (p q : Pd) : Prop where
  cmd : ∀ c, p.eph = .cmd c → q.eph = .cmd c
  event : ∀ e, q.eph = .event e → p.eph = .event e
  back : ∀ c, q.eph = .cmd c → p.eph = .cmd c

theorem EphCp.of_eq {p q : Pd} (h : q.eph = p.eph) : EphCp p q :=
  ⟨fun _ hc => h.trans hc, fun _ he => h.symm.trans he, fun _ hc => h.symm.trans hc⟩

theorem EphCp.trans {p q s : Pd} (h : EphCp p q) (h' : EphCp q s) : EphCp p s :=
  ⟨fun c hc => h'.cmd c (h.cmd c hc), fun e he => h.event e (h'.event e he), fun c hc => h.back c (h'.back c hc)⟩

/-- A packet (or part of one) was collected in `p'`; `q` is the state after the checks on it. -/
structure Checked (p q : Pd) (r : PktRet) : Prop where
  transp : Transp p q
  sc : q.sc = p.sc
  useScbkd : q.flags.useScbkd = p.flags.useScbkd
  /-- the check may end the secure channel, never open it -/
  scActive : q.flags.scActive = true → p.flags.scActive = true
  cpActive : p.flags.pdMode = false → q.flags.scActive = p.flags.scActive
  /-- a pending reply is only set up by a sequence number error -/
  pending : r ≠ .nack → q.replyId = p.replyId ∧ q.eph = p.eph
  nack : r = .nack → q.replyId = Id.NAK ∧ (p.flags.pdMode = true → q.eph = .nak Nak.SEQ_NUM)
  /-- nothing else happens unless the packet got to the sequence number check -/
  early : r ≠ .none → r ≠ .nack → r ≠ .busy → Collected p q
  /-- only the CP knows BUSY -/
  notBusy : p.flags.pdMode = true → r ≠ .busy
  /-- the CP's sequence number and pending command -/
  cp : p.flags.pdMode = false → q.seq = (if r = .busy then p.seq - 1 else p.seq) ∧ EphCp p q

theorem Collected.checked {p q : Pd} {r : PktRet} (h : Collected p q) (hr : r ≠ .nack ∧ r ≠ .busy) : Checked p q r :=
  ⟨h.transp, h.sc, h.useScbkd, fun x => h.scActive ▸ x, fun _ => h.scActive, fun _ => ⟨h.replyId, h.eph⟩,
   fun x => absurd x hr.1, fun _ _ _ => h, fun _ => hr.2, fun _ => ⟨by rw [if_neg hr.2]; exact h.seq, .of_eq h.eph⟩⟩

theorem Collected.thenChecked {p q s : Pd} {r : PktRet} (h : Collected p q) (h' : Checked q s r) :
    Checked p s r where
  transp := h.transp.trans h'.transp
  sc := h'.sc.trans h.sc
  useScbkd := h'.useScbkd.trans h.useScbkd
  scActive := fun x => h.scActive ▸ h'.scActive x
  cpActive := fun x => by rw [h'.cpActive (by rw [h.transp.pdMode]; exact x), h.scActive]
  pending := fun x => ⟨by rw [(h'.pending x).1, h.replyId], by rw [(h'.pending x).2, h.eph]⟩
  nack := fun x => ⟨(h'.nack x).1, fun y => (h'.nack x).2 (by rw [h.transp.pdMode]; exact y)⟩
  early := fun a b c => h.trans (h'.early a b c)
  notBusy := fun x => h'.notBusy (by rw [h.transp.pdMode]; exact x)
  cp := fun x => by
    obtain ⟨h1, h2⟩ := h'.cp (by rw [h.transp.pdMode]; exact x)
    exact ⟨by rw [h1, h.seq], (EphCp.of_eq h.eph).trans h2⟩

theorem setNak_cp {p : Pd} {x : Byte} {c : Cmd} (hp : p.flags.pdMode = false) (hc : p.eph = .cmd c) :
    (setNak p x).eph = .cmd c := by
  unfold setNak; simp [hp, hc]

theorem setNak_ephCp {p : Pd} {x : Byte} (hp : p.flags.pdMode = false) : EphCp p (setNak p x) := by
  refine ⟨fun c hc => setNak_cp hp hc, fun e he => ?_, fun c hc => ?_⟩
  · unfold setNak at he
    dsimp only at he
    split at he <;> cases he
  · unfold setNak at hc
    dsimp only at hc
    split at hc
    · rename_i h; cases hc; exact h
    · cases hc

theorem pdSeqPrep_props (p : Pd) (comp : Nat) (b : Bool) :
    Transp p (pdSeqAdvance (pdSeqPrep p comp b)) ∧ (pdSeqAdvance (pdSeqPrep p comp b)).sc = p.sc ∧
    (pdSeqAdvance (pdSeqPrep p comp b)).flags.useScbkd = p.flags.useScbkd ∧
    ((pdSeqAdvance (pdSeqPrep p comp b)).flags.scActive = (p.flags.scActive && comp != 0)) ∧
    (pdSeqAdvance (pdSeqPrep p comp b)).replyId = p.replyId ∧
    (pdSeqAdvance (pdSeqPrep p comp b)).eph = p.eph ∧
    (pdSeqAdvance (pdSeqPrep p comp b)).flags.broadcast = (p.flags.broadcast || b) := by
  unfold pdSeqPrep pdSeqAdvance Transp
  by_cases h1 : comp = 0
  · simp only [h1, if_true]; cases b <;> refine ⟨rfl, rfl, rfl, ?_, rfl, rfl, ?_⟩ <;> simp [Pd.scDeactivate]
  · by_cases h2 : (comp : Int) = p.seq
    · simp only [h1, if_false, h2, if_true]
      cases b <;> refine ⟨rfl, rfl, rfl, ?_, rfl, rfl, ?_⟩ <;> simp [h1]
    · simp only [h1, if_false, h2]
      cases b <;> refine ⟨rfl, rfl, rfl, ?_, rfl, rfl, ?_⟩ <;> simp [h1]

theorem seqVerdict_props (p : Pd) (comp : Nat) :
    (seqVerdict p comp = (p, .none)) ∨ (seqVerdict p comp = (setNak p Nak.SEQ_NUM, .nack)) := by
  unfold seqVerdict; split
  · exact .inr rfl
  · exact .inl rfl

theorem checkSeq_checked {p q : Pd} {pkt : List Byte} {m comp : Nat} {bc : Bool} {r : PktRet}
    (h : checkSeq p pkt m comp bc = .ok (q, r)) : Checked p q r := by
  unfold checkSeq at h
  split at h
  · rename_i hpd
    injection h with h
    obtain ⟨a1, a2, a3, a4, a5, a6, a7⟩ := pdSeqPrep_props p comp bc
    have hpd' : (pdSeqAdvance (pdSeqPrep p comp bc)).flags.pdMode = true := by rw [a1.pdMode]; exact hpd
    rcases seqVerdict_props (pdSeqAdvance (pdSeqPrep p comp bc)) comp with hv | hv
    · rw [hv] at h; injection h with h1 h2; subst h1 h2
      exact ⟨a1, a2, a3, fun x => by rw [a4] at x; simp at x; exact x.1,
        fun x => by simp_all [Pd.isPd], fun _ => ⟨a5, a6⟩, (fun x => by cases x), fun x => absurd rfl x, fun _ => by simp,
        fun x => by simp_all [Pd.isPd]⟩
    · rw [hv] at h; injection h with h1 h2; subst h1 h2
      refine ⟨a1.trans rfl, a2, a3, fun x => ?_, fun x => by simp_all [Pd.isPd], fun x => absurd rfl x,
        fun _ => ⟨rfl, fun _ => ?_⟩, fun _ x => absurd rfl x, fun _ => by simp, fun x => by simp_all [Pd.isPd]⟩
      · have : (pdSeqAdvance (pdSeqPrep p comp bc)).flags.scActive = true := x
        rw [a4] at this; simp at this; exact this.1
      · unfold setNak; simp [hpd']
  · rename_i hcp
    obtain ⟨b, -, h⟩ := Res.bind_eq_ok.mp h
    split at h
    · injection h with h; injection h with h1 h2; subst h1 h2
      exact ⟨rfl, rfl, rfl, id, fun _ => rfl, fun _ => ⟨rfl, rfl⟩, (fun x => by cases x),
        fun _ _ x => absurd rfl x, fun x => absurd x hcp, fun _ => ⟨rfl, .of_eq rfl⟩⟩
    · injection h with h
      rcases seqVerdict_props p comp with hv | hv
      · rw [hv] at h; injection h with h1 h2; subst h1 h2
        exact ⟨rfl, rfl, rfl, id, fun _ => rfl, fun _ => ⟨rfl, rfl⟩, (fun x => by cases x), fun x => absurd rfl x, fun _ => by simp,
          fun _ => ⟨rfl, .of_eq rfl⟩⟩
      · rw [hv] at h; injection h with h1 h2; subst h1 h2
        exact ⟨rfl, rfl, rfl, id, fun _ => rfl, fun x => absurd rfl x,
          fun _ => ⟨rfl, fun x => absurd x hcp⟩, fun _ x => absurd rfl x, fun _ => by simp,
          fun hp => ⟨rfl, setNak_ephCp hp⟩⟩

theorem checkPacketBody_checked {p q : Pd} {r : PktRet} (h : checkPacketBody p = .ok (q, r)) : Checked p q r := by
  unfold checkPacketBody at h
  obtain ⟨⟨m, ok⟩, -, h⟩ := Res.bind_eq_ok.mp h
  dsimp only at h
  split at h
  · injection h with h; injection h with h1 h2; subst h1 h2
    exact (Collected.refl _).checked (by simp)
  · obtain ⟨a, -, h⟩ := Res.bind_eq_ok.mp h
    split at h
    · injection h with h; injection h with h1 h2; subst h1
      refine (Collected.refl _).checked ?_
      rw [← h2]; split <;> simp
    · obtain ⟨c, -, h⟩ := Res.bind_eq_ok.mp h
      exact checkSeq_checked h

theorem collect_checked {p q : Pd} {r : PktRet} (h : collect p = .ok (q, r)) : Checked p q r := by
  unfold collect at h
  obtain ⟨p1, h1, h⟩ := Res.bind_eq_ok.mp h
  have c1 := popInto_collected h1
  split at h
  · injection h with h; injection h with h1 h2; subst h1 h2
    exact c1.checked (by simp)
  · exact c1.thenChecked (checkPacketBody_checked h)

theorem assemble_checked {p q : Pd} {r : PktRet} (h : assemble p = .ok (q, r)) : Checked p q r := by
  by_cases hl : p.packetLen = 0
  · rw [assemble_eq p hl] at h
    obtain ⟨⟨p1, f⟩, h1, h⟩ := Res.bind_eq_ok.mp h
    have c1 := headerStart_collected h1
    cases f with
    | false =>
      injection h with h; injection h with h1 h2; subst h1 h2
      exact c1.checked (by simp)
    | true =>
      simp only [if_true] at h
      unfold assembleFrom at h
      obtain ⟨⟨p2, hr⟩, h2, h⟩ := Res.bind_eq_ok.mp h
      have c2 := c1.trans (headerRest_collected h2)
      cases hr with
      | err e =>
        unfold headerRest at h2
        obtain ⟨p3, -, h2⟩ := Res.bind_eq_ok.mp h2
        have he : e ≠ .nack ∧ e ≠ .busy := by
          split at h2
          · injection h2 with h2; injection h2 with _ h2; injection h2 with h2; subst h2; simp
          · obtain ⟨x, hx, h2⟩ := Res.bind_eq_ok.mp h2
            injection h2 with h2; injection h2 with _ h2; subst h2
            rcases headerFields_ret hx with hh | hh | ⟨n, hh, -⟩ <;> cases hh <;> simp
        injection h with h; injection h with h1 h2; subst h1 h2
        exact c2.checked he
      | len k =>
        have c3 : Collected p2 (setLen p2 k) := ⟨rfl, rfl, rfl, rfl, rfl, rfl, rfl, rfl⟩
        exact (c2.trans c3).thenChecked (collect_checked h)
  · rw [assemble_collect p hl] at h
    exact collect_checked h

theorem checkPacket_checked {p q : Pd} {env : Env} {r : PktRet} (h : checkPacket p env = .ok (q, r)) :
    Checked p q r := by
  unfold checkPacket at h
  obtain ⟨p1, h1, h⟩ := Res.bind_eq_ok.mp h
  exact (intake_collected h1).thenChecked (assemble_checked h)

/-! ### decoding -/

/-- What decoding guarantees about the state.  `len = PKT_NACK` with `data = []` is a refusal. -/
structure DecodedTo (p q : Pd) (d : Decoded) : Prop where
  transp : Transp p q
  /-- decoding may end the secure channel, never open it -/
  scActive : q.flags.scActive = true → p.flags.scActive = true
  /-- the default key is selected only in install mode -/
  useScbkd : q.flags.useScbkd = true → p.flags.useScbkd = true ∨ p.flags.installMode = true
  keepScbkd : p.flags.useScbkd = true → q.flags.useScbkd = true
  seq : q.seq = p.seq
  broadcast : q.flags.broadcast = p.flags.broadcast
  hasMark : q.flags.hasMark = p.flags.hasMark
  rx : q.rx = p.rx
  bufLen : q.packetBuf.length = p.packetBuf.length
  packetBufLen : q.packetBufLen = p.packetBufLen
  packetLen : q.packetLen = p.packetLen
  tstamp : q.tstamp = p.tstamp
  /-- a refusal sets up the NAK; anything else leaves the pending reply alone and keeps the channel -/
  outcome : (d.len = PKT_NACK ∧ q.replyId = Id.NAK ∧ (p.flags.pdMode = true → ∃ c, q.eph = .nak c)) ∨
    (q.replyId = p.replyId ∧ q.eph = p.eph ∧ q.flags.scActive = p.flags.scActive)
  /-- the CP keeps its pending command -/
  cpEph : p.flags.pdMode = false → EphCp p q

theorem nackWith_to {p : Pd} {c : Byte} : DecodedTo p (nackWith p c).1 (nackWith p c).2 := by
  refine ⟨rfl, id, .inl, id, rfl, rfl, rfl, rfl, rfl, rfl, rfl, rfl, .inl ⟨rfl, rfl, fun h => ⟨c, ?_⟩⟩, fun hp => (EphCp.trans (.of_eq rfl) (setNak_ephCp hp))⟩
  unfold nackWith setNak; simp [h]

theorem nackWith_off_to {p : Pd} {c : Byte} :
    DecodedTo p (nackWith p.scDeactivate c).1 (nackWith p.scDeactivate c).2 := by
  refine ⟨rfl, (fun h => by cases h), .inl, id, rfl, rfl, rfl, rfl, rfl, rfl, rfl, rfl,
    .inl ⟨rfl, rfl, fun h => ⟨c, ?_⟩⟩, fun hp => (EphCp.trans (p := p) (q := p.scDeactivate) (.of_eq rfl) (setNak_ephCp (p := p.scDeactivate) hp))⟩
  unfold nackWith setNak
  have : p.scDeactivate.flags.pdMode = true := h
  simp [this]

theorem decodeCipher_to {C : Cipher} {p q : Pd} {sb : Nat} {len : Int} {d : Decoded}
    (h : decodeCipher C p sb len = .ok (q, d)) : DecodedTo p q d := by
  unfold decodeCipher at h
  obtain ⟨x, -, h⟩ := Res.bind_eq_ok.mp h
  split at h
  · injection h with h
    have := nackWith_off_to (p := p) (c := Nak.SC_COND)
    rw [h] at this; exact this
  · obtain ⟨buf, hb, h⟩ := Res.bind_eq_ok.mp h
    injection h with h; injection h with h1 h2; subst h1 h2
    exact ⟨rfl, id, .inl, id, rfl, rfl, rfl, rfl, writeAt_length hb, rfl, rfl, rfl, .inr ⟨rfl, rfl, rfl⟩, fun _ => .of_eq rfl⟩

theorem computeMac_only {C : Cipher} {ic : Bool} {sc sc' : Sc} {m : List Byte}
    (h : Sc.computeMac C ic sc m = .ok sc') : sc' = { sc with cMac := sc'.cMac, rMac := sc'.rMac } := by
  unfold Sc.computeMac at h
  split at h
  · cases h
  · split at h
    · cases h
    · injection h with h
      split at h <;> (subst h; rfl)

theorem setSc_transp {p : Pd} {sc : Sc} (h : sc = { p.sc with cMac := sc.cMac, rMac := sc.rMac }) :
    Transp p (setSc p sc) := by
  unfold Transp setSc upd chgOf
  dsimp only
  congr 1

theorem DecodedTo.after {p p1 q : Pd} {d : Decoded} (h : Transp p p1)
    (hf : p1.flags = p.flags) (hs : p1.seq = p.seq) (hr : p1.rx = p.rx) (hb : p1.packetBuf = p.packetBuf)
    (hl : p1.packetBufLen = p.packetBufLen) (hpl : p1.packetLen = p.packetLen) (ht : p1.tstamp = p.tstamp)
    (hi : p1.replyId = p.replyId) (he : p1.eph = p.eph) (h' : DecodedTo p1 q d) : DecodedTo p q d where
  transp := h.trans h'.transp
  scActive := by rw [← hf]; exact h'.scActive
  useScbkd := by rw [← hf]; exact h'.useScbkd
  keepScbkd := by rw [← hf]; exact h'.keepScbkd
  seq := h'.seq.trans hs
  broadcast := by rw [← hf]; exact h'.broadcast
  hasMark := by rw [← hf]; exact h'.hasMark
  rx := h'.rx.trans hr
  bufLen := by rw [h'.bufLen, hb]
  packetBufLen := h'.packetBufLen.trans hl
  packetLen := h'.packetLen.trans hpl
  tstamp := h'.tstamp.trans ht
  outcome := by rw [← hf, ← hi, ← he]; exact h'.outcome
  cpEph := fun hp => (EphCp.of_eq he).trans (h'.cpEph (by rw [hf]; exact hp))

theorem decodeSecured_to {C : Cipher} {p q : Pd} {ty : Byte} {sb : Nat} {len : Int} {d : Decoded}
    (h : decodeSecured C p ty sb len = .ok (q, d)) : DecodedTo p q d := by
  unfold decodeSecured at h
  dsimp only at h
  split at h
  · cases h
  · obtain ⟨sc, hs, h⟩ := Res.bind_eq_ok.mp h
    have ht := setSc_transp (computeMac_only hs)
    refine DecodedTo.after (p1 := setSc p sc) ht rfl rfl rfl rfl rfl rfl rfl rfl rfl ?_
    generalize (if (setSc p sc).isPd = true then sc.cMac else sc.rMac) = mac at h
    split at h
    · injection h with h
      have := nackWith_off_to (p := setSc p sc) (c := Nak.SC_COND)
      rw [h] at this; exact this
    · split at h
      · exact decodeCipher_to h
      · injection h with h; injection h with h1 h2; subst h1 h2
        exact ⟨rfl, id, .inl, id, rfl, rfl, rfl, rfl, rfl, rfl, rfl, rfl, .inr ⟨rfl, rfl, rfl⟩, fun _ => .of_eq rfl⟩

theorem noteScbkd_to (p : Pd) (ty d2 : Byte) {q : Pd} {d : Decoded} (h : DecodedTo (noteScbkd p ty d2) q d) :
    DecodedTo p q d := by
  unfold noteScbkd at h
  split at h
  · rename_i hc
    have ht : Transp p { p with flags := { p.flags with useScbkd := true } } := rfl
    exact ⟨ht.trans h.transp, h.scActive, fun _ => .inr hc.2.1, fun _ => h.keepScbkd rfl, h.seq, h.broadcast,
      h.hasMark, h.rx, h.bufLen, h.packetBufLen, h.packetLen, h.tstamp, h.outcome,
      fun hp => ⟨(h.cpEph hp).cmd, (h.cpEph hp).event, (h.cpEph hp).back⟩⟩
  · exact h

theorem decodeScb_to {C : Cipher} {p q : Pd} {len : Int} {d : Decoded}
    (h : decodeScb C p len = .ok (q, d)) : DecodedTo p q d := by
  unfold decodeScb at h
  dsimp only at h
  split at h
  · injection h with h
    have := nackWith_to (p := p) (c := Nak.SC_UNSUP)
    rw [h] at this; exact this
  · obtain ⟨ty, -, h⟩ := Res.bind_eq_ok.mp h
    split at h
    · injection h with h
      have := nackWith_to (p := p) (c := Nak.SC_COND)
      rw [h] at this; exact this
    · split at h
      · injection h with h
        have := nackWith_to (p := p) (c := Nak.SC_COND)
        rw [h] at this; exact this
      · obtain ⟨d2, -, h⟩ := Res.bind_eq_ok.mp h
        obtain ⟨sb, -, h⟩ := Res.bind_eq_ok.mp h
        apply noteScbkd_to p ty d2
        split at h
        · exact decodeSecured_to h
        · injection h with h; injection h with h1 h2; subst h1 h2
          exact ⟨rfl, id, .inl, id, rfl, rfl, rfl, rfl, rfl, rfl, rfl, rfl, .inr ⟨rfl, rfl, rfl⟩, fun _ => .of_eq rfl⟩

theorem decodePlain_to {p q : Pd} {len : Int} {d : Decoded}
    (h : decodePlain p len = .ok (q, d)) : DecodedTo p q d := by
  unfold decodePlain at h
  dsimp only at h
  obtain ⟨d0, -, h⟩ := Res.bind_eq_ok.mp h
  split at h
  · injection h with h
    have := nackWith_to (p := p) (c := Nak.SC_COND)
    rw [h] at this; exact this
  · injection h with h; injection h with h1 h2; subst h1 h2
    exact ⟨rfl, id, .inl, id, rfl, rfl, rfl, rfl, rfl, rfl, rfl, rfl, .inr ⟨rfl, rfl, rfl⟩, fun _ => .of_eq rfl⟩

theorem decodePacket_to {C : Cipher} {p q : Pd} {d : Decoded}
    (h : decodePacket C p = .ok (q, d)) : DecodedTo p q d := by
  unfold decodePacket at h
  obtain ⟨ctl, -, h⟩ := Res.bind_eq_ok.mp h
  dsimp only at h
  split at h
  · exact decodeScb_to h
  · exact decodePlain_to h

end Osdp.Phy
