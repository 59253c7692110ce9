import Verif.Lemmas.Repeat
import Verif.Props.C64
import Verif.Props.C49

/-!
# C69: one lost packet is repaired by the repetition of the command

What is wanted: when the packet of a command, or the answer to it, is lost on the line, the CP repeats the command; the command has then been
carried out exactly once, and the PD is still online.

What the code does: the repetition (`C69_repeats`) carries the *next* sequence number.  For a PD that did not get the command that is a wrong number
(`C69_lost_command`): it refuses the command, and the CP gives the PD up.  For a PD that did, it is a new command: in the clear it is
carried out a second time (`C69_lost_answer_clear`).  In a secure session the MAC of the repetition is not the one the PD expects, so
(but for a coincidence of 4 bytes of two MACs) it is not carried out again (`C69_lost_answer_secure_partial`), but the session is over.
-/

namespace Osdp.Link

open Phy (Idle Arrives pktAddr reload anySc anyData setSc pdAccept pktOf macMsg tagOf)
open PdM (expire ForUs MayAsk)
open Spec.Command Spec.Session
open Spec.Wire (Packet sent SecuredFrame)
open Spec.Seq (Acceptable succ)

/-- A CP that issues the command `c` to its PD (visits at `e0`, `e1`: `bs` goes out), hears nothing for more than 200 ms (visit at `e2`) and repeats the
command (visit at `e3`: `bs'` goes out). -/
structure Repeated (C : Cipher) (cb : Bool) (cp pd : Pd) (c : Cmd) (bs : List Byte) (cp' : Pd) (bs' : List Byte) : Prop where
  start : Issues cp pd c
  valid : Valid cp.scActive c
  seq : cp.seq = pd.seq
  seqOk : 0 ≤ cp.seq
  budget : cp.retryCount < CpM.CMD_MAX_RETRIES
  cpIdle : Idle cp
  visits : ∃ (e0 e1 e2 e3 : Env) (p1 p2 p3 : Pd) (o0 o1 o2 o3 : List Out),
    CpM.step C cp (.update cb e0) = .ok (p1, o0) ∧
    CpM.step C p1 (.update cb e1) = .ok (p2, o1) ∧ 256 ≤ e1.sendCap ∧ sent o1 = [bs] ∧
    CpM.step C p2 (.update cb e2) = .ok (p3, o2) ∧ e2.recv = [] ∧ 200 < e2.now - e1.now ∧
    CpM.step C p3 (.update cb e3) = .ok (cp', o3) ∧ 256 ≤ e3.sendCap ∧ sent o3 = [bs']

/-- the command of a CP that has `c` to send -/
theorem built_command {C : Cipher} {cp : Pd} {env : Env} {c : Cmd} {body : List Byte} (hv : Valid cp.scActive c) (he : cp.eph = .cmd c)
    (hid : cp.cmdId = codeOf c) (h : commandBuilt C cp env = some body) : body = encode c := by
  unfold commandBuilt at h
  split at h
  · rename_i b hbb
    have := CpM.commandBody_built (c := c) (p := CpM.nextCmd cp) hv he hid hbb
    rw [this] at h
    injection h with h; exact h.symm
  · cases h

/-- what the CP is when it waits for the answer (`p`), when it repeats the command (`w`) and after that (`cp'`) -/
structure Again (C : Cipher) (cp pd : Pd) (c : Cmd) (bs : List Byte) (p w cp' : Pd) (bs' : List Byte) : Prop where
  first : bs = (cpPkt C cp (encode c)).bytes
  firstFit : bs.length ≤ 256
  second : bs' = (cpPkt C w (encode c)).bytes
  secondFit : bs'.length ≤ 256
  seq : w.seq = Phy.nextSeq cp.seq true
  act : w.scActive = cp.scActive
  address : w.address = cp.address
  cpMode : w.flags.pdMode = false
  sc : w.sc = anySc C cp (cpTx cp (encode c).length) (encode c)
  inv : CpM.Inv cp'
  online : cp'.state = .online
  phy : cp'.phyState = .replyWait
  seq' : cp'.seq = Phy.nextSeq w.seq true
  address' : cp'.address = cp.address
  skip : cp'.flags.skipSeqCheck = cp.flags.skipSeqCheck
  idle : Idle cp'
  cmd : p.cmdId = codeOf c
  same : w.seq = p.seq ∧ w.sc = p.sc ∧ w.scActive = p.scActive ∧ w.address = p.address
  asked : pd.flags.broadcast = false → (cp.scActive = false → pd.flags.enforceSecure = false) → Asked cp.scActive C p pd bs (encode c)

theorem keyset_only {c : Cmd} {s : Bool} (hv : Valid s c) (h : ∀ x, c ≠ .keyset x) : codeOf c ≠ Id.KEYSET := by
  cases c with
  | keyset k => exact absurd rfl (h k)
  | status x => cases x; rename_i t _ _; cases t <;> (unfold codeOf; dsimp only; decide)
  | fileTx x => cases hv
  | _ => unfold codeOf; dsimp only; decide

theorem keyset_secret {c : Cmd} {s : Bool} (hv : Valid s c) (hs : s = false) : codeOf c ≠ Id.KEYSET := by
  refine keyset_only hv ?_
  rintro k rfl
  subst hs
  obtain ⟨h, -⟩ := hv
  cases h

theorem Repeated.again {C : Cipher} {cb : Bool} {cp pd cp' : Pd} {c : Cmd} {bs bs' : List Byte} (R : Repeated C cb cp pd c bs cp' bs') :
    ∃ p w, Again C cp pd c bs p w cp' bs' := by
  have S := R.start
  have hv := R.valid
  obtain ⟨e0, e1, e2, e3, p1, p2, p3, o0, o1, o2, o3, h0, h1, hc1, hs1, h2, hr2, ht2, h3, hc3, hs3⟩ := R.visits
  obtain ⟨rest, h0'⟩ := S.takes hv C cb e0
  rw [h0'] at h0
  injection h0 with h0; injection h0 with e _
  have I1 := S.inv.step h0'
  rw [e] at I1
  have hh := (codeOf_ok hv).2.2
  have hids : codeOf c ≠ Id.CHLNG ∧ codeOf c ≠ Id.SCRYPT := by constructor <;> (intro e; rw [e] at hh; revert hh; decide)
  obtain ⟨f1, b1, body, hb, -, hbs, hfit, hp2, hbuf⟩ := command_sent I1 (by rw [← e]) (by rw [← e]; exact hids) h1 hc1 hs1
  have I2 := I1.step h1
  have hbody := built_command (c := c) (by rw [← e]; exact hv) (by rw [← e]) (by rw [← e]) hb
  subst hbody
  have hi2 : Idle p2 := ⟨by rw [hp2]; rfl, by rw [hp2]; rfl, by rw [hp2, ← e] at *; exact hbuf.trans R.cpIdle.buf, by rw [hp2, ← e]; exact R.cpIdle.rx⟩
  have h2' := CpM.timed_out (C := C) (cb := cb) (env := e2) hi2 (by rw [hp2]; rfl) hr2 (by rw [hp2]; exact ht2) (by rw [hp2, ← e]; exact R.budget)
  rw [h2'] at h2
  injection h2 with h2; injection h2 with ew _
  have I3 := I2.step h2'
  rw [ew] at I3
  obtain ⟨f2, b2, body, hb', -, hbs', hfit', hp4, hbuf'⟩ := command_passed I3 (.inr (by rw [← ew])) (by rw [← ew, hp2, ← e]; exact hids) h3 hc3 hs3
  have hbody := built_command (c := c) (by rw [← ew, hp2, ← e]; exact hv) (by rw [← ew, hp2, ← e]; rfl) (by rw [← ew, hp2, ← e]; rfl) hb'
  subst hbody
  have I4 := I3.step h3
  have hpk : cpPkt C p1 (encode c) = cpPkt C cp (encode c) := by rw [← e]; rfl
  have hsc : anySc C p1 (cpTx p1 (encode c).length) (encode c) = anySc C cp (cpTx cp (encode c).length) (encode c) := by rw [← e]; rfl
  rw [hpk] at hbs
  rw [hsc] at hp2
  obtain ⟨rs, hcode⟩ := encode_cons hv
  have E := S.ends
  refine ⟨p2, p3, hbs, hfit, hbs', hfit', ?_, ?_, ?_, ?_, ?_, I4, ?_, ?_, ?_, ?_, ?_, ?_, ?_, ?_, ?_⟩
  · rw [← ew, hp2, ← e]; rfl
  · rw [← ew, hp2, ← e]; rfl
  · rw [← ew, hp2, ← e]; rfl
  · rw [← ew, hp2, ← e]; exact E.cpMode
  · rw [← ew, hp2]; rfl
  · rw [hp4, ← ew, hp2, ← e]; exact S.online
  · rw [hp4]; rfl
  · rw [hp4]; rfl
  · rw [hp4, ← ew, hp2, ← e]; rfl
  · rw [hp4, ← ew, hp2, ← e]; rfl
  · refine ⟨by rw [hp4]; rfl, by rw [hp4]; rfl, ?_, ?_⟩
    · rw [hp4]; refine hbuf'.trans ?_; rw [← ew]; exact hi2.buf
    · rw [hp4]; show p3.rx = _; rw [← ew]; exact hi2.rx
  · rw [hp2, ← e]; rfl
  · rw [← ew]; exact ⟨rfl, rfl, rfl, rfl⟩
  · intro hbc henf
    refine ⟨I2, ?_, ?_, ?_, ?_, hbc, hi2, S.pdIdle, .inl ?_, cp, E, hbs, hfit, rfl, R.seqOk, S.inv.hi, R.seq, ?_, ?_, ?_⟩
    · rw [hp2, ← e]; exact S.online
    · rw [hp2]; rfl
    · rw [hp2, ← e]; rfl
    · intro hf
      refine ⟨?_, henf hf⟩
      rw [hp2, ← e]
      exact keyset_secret hv hf
    · rw [hcode, hp2, ← e]; rfl
    · rw [hp2, ← e]; rfl
    · rw [hp2, ← e]; rfl
    · rw [hp2]; rfl

/-! ## The repetition -/

theorem cpPkt_seq (C : Cipher) (cp : Pd) (body : List Byte) : (cpPkt C cp body).seq = Phy.seqBits (Phy.nextSeq cp.seq true) :=
  (ctl_cases cp.scActive (Phy.nextSeq cp.seq true) (cpTx cp body.length).ctl rfl).1

theorem nextSeq_succ {s : Int} (h : -1 ≤ s ∧ s ≤ 3) : Phy.nextSeq s true = succ s ∧ 0 ≤ succ s ∧ succ s ≤ 3 := by
  unfold Phy.nextSeq succ
  rw [if_pos rfl]
  split <;> split <;> omega

theorem seqBits_of {s : Int} (h : 0 ≤ s ∧ s ≤ 3) : (Phy.seqBits s : Int) = s := by unfold Phy.seqBits; omega

/-- **C69, the repetition.**  A CP that hears nothing repeats the command, with the next sequence number.  (In the clear the two packets carry
the same bytes.) -/
theorem C69_repeats {C : Cipher} {cb : Bool} {cp pd cp' : Pd} {c : Cmd} {bs bs' : List Byte} (R : Repeated C cb cp pd c bs cp' bs') :
    ∃ k k' : Packet, bs = k.bytes ∧ bs' = k'.bytes ∧ (k.seq : Int) = succ pd.seq ∧ (k'.seq : Int) = succ k.seq ∧ k'.addr = k.addr ∧
      (cp.scActive = false → k.data = encode c ∧ k'.data = encode c) := by
  obtain ⟨p, w, A⟩ := R.again
  have hlo := R.seqOk
  have hhi := R.start.inv.hi
  obtain ⟨n1, n2, n3⟩ := nextSeq_succ (s := cp.seq) (by omega)
  have hw := A.seq
  rw [n1] at hw
  obtain ⟨m1, m2, m3⟩ := nextSeq_succ (s := w.seq) (by omega)
  have ks : ((cpPkt C cp (encode c)).seq : Int) = succ cp.seq := by rw [cpPkt_seq, n1, seqBits_of ⟨n2, n3⟩]
  refine ⟨_, _, A.first, A.second, by rw [ks, R.seq], ?_, ?_, fun h => ⟨?_, ?_⟩⟩
  · rw [ks, cpPkt_seq, m1, seqBits_of ⟨m2, m3⟩, hw]
  · show i8 w.address &&& 0x7F#8 = i8 cp.address &&& 0x7F#8
    rw [A.address]
  · show anyData C cp _ _ = _
    unfold anyData
    rw [h]; rfl
  · show anyData C w _ _ = _
    unfold anyData
    rw [A.act, h]; rfl

/-! ## The command was lost -/

theorem twice_unacceptable {s : Int} (h : 0 ≤ s ∧ s ≤ 3) : ¬ Acceptable s (Phy.seqBits (succ (succ s))) := by
  have hs : s = 0 ∨ s = 1 ∨ s = 2 ∨ s = 3 := by omega
  unfold Acceptable
  rcases hs with rfl | rfl | rfl | rfl <;> decide

/-- **C69 is not what the code does, the packet of the command lost.**  The command is not carried out, although the repetition arrives: the
PD refuses it, and when its answer arrives the CP gives the PD up. -/
theorem C69_lost_command {C : Cipher} {cb : Bool} {cp pd cp' q : Pd} {c : Cmd} {bs bs' : List Byte} {e : Env} {o : List Out}
    (R : Repeated C cb cp pd c bs cp' bs') (hsk : pd.flags.skipSeqCheck = false) (hsk' : cp.flags.skipSeqCheck = false)
    (hbc : pd.flags.broadcast = false) (hm : 164 ≤ pd.txBufSize) (ha : Arrives e bs') (hcap : 256 ≤ e.sendCap) (hexp : expire pd e.now = pd)
    (h : PdM.step C pd (.refresh e) = .ok (q, o)) :
    asked o = [] ∧ ∃ r, sent o = [r] ∧
      ∀ e' cp'' o', Arrives e' r → CpM.step C cp' (.update cb e') = .ok (cp'', o') → cp''.state ≠ .online := by
  obtain ⟨p, w, A⟩ := R.again
  have hlo := R.seqOk
  have hhi := R.start.inv.hi
  have E := R.start.ends
  have hpd := R.seq
  obtain ⟨n1, n2, n3⟩ := nextSeq_succ (s := cp.seq) (by omega)
  have hw := A.seq
  rw [n1] at hw
  obtain ⟨m1, m2, m3⟩ := nextSeq_succ (s := w.seq) (by omega)
  have hks := cpPkt_seq C w (encode c)
  rw [m1, hw, hpd] at hks
  have haddr : (pktAddr (cpPkt C w (encode c)) : Int) = pd.address := by
    unfold pktAddr
    show (((i8 w.address &&& 0x7F#8) &&& 0x7F#8).toNat : Int) = _
    rw [and7f_and, A.address, E.address, Phy.i8_addr _ (by have := E.range; omega)]
    have := E.range; omega
  obtain ⟨c1, c2, c3⟩ := ctl_cases w.scActive (Phy.nextSeq w.seq true) (cpTx w (encode c).length).ctl rfl
  have hfit := A.secondFit
  rw [A.second] at ha hfit
  obtain ⟨hh, hrec⟩ := PdM.receive_wrong_number C pd _ e E.pdMode R.start.pdIdle hbc hfit (and7f_bit _) c2 haddr
    (by have := E.range; omega) (by rw [hks]; exact twice_unacceptable (by omega)) hsk R.start.pdSeq ha
  have h : PdM.refresh C pd e = .ok (q, o) := h
  unfold PdM.refresh at h
  rw [hexp, hrec] at h
  simp only [Res.ok_bind] at h
  obtain ⟨⟨p2, o2⟩, h2, h⟩ := Res.bind_eq_ok.mp h
  injection h with h; injection h with e1 e2; subst e1 e2
  have hout := PdM.finished_outs (PdM.finish_inv (p := reload (Phy.setNak { pd with seq := Phy.nextSeq pd.seq true } Nak.SEQ_NUM) hh) E.pdMode h2)
  obtain ⟨r, r1, r2, r3⟩ := PdM.answer_from (cp := cp') (s := Phy.seqBits (succ pd.seq))
    (p := reload (Phy.setNak { pd with seq := Phy.nextSeq pd.seq true } Nak.SEQ_NUM) hh) E.pdMode hm hcap
    (by unfold Phy.seqBits; omega)
    (by show Phy.nextSeq pd.seq true = _; rw [← hpd, n1, seqBits_of ⟨n2, n3⟩]) hbc E.range (A.address'.trans E.address) h2
  refine ⟨?_, r.bytes, r1, ?_⟩
  · unfold asked
    refine List.filterMap_eq_nil_iff.mpr ?_
    intro x hx
    rcases hout x hx with rfl | rfl | ⟨bs, rfl⟩ <;> rfl
  · intro e' cp'' o' ha' h'
    have hne : succ cp.seq ≠ succ (succ cp.seq) ∧ succ cp.seq ≠ 0 := by
      have hs : cp.seq = 0 ∨ cp.seq = 1 ∨ cp.seq = 2 ∨ cp.seq = 3 := by omega
      rcases hs with h | h | h | h <;> rw [h] <;> decide
    have hb1 := seqBits_of ⟨n2, n3⟩
    rw [hw] at m2 m3 m1
    have hb2 := seqBits_of ⟨m2, m3⟩
    refine CpM.wrong_number A.inv.cp A.idle A.phy A.online r3 ?_ ?_ (A.skip.trans hsk') ha' h'
    · rw [r2, A.seq', hw, m1, ← hpd]; omega
    · rw [r2, ← hpd]; omega

/-! ## The answer was lost -/

/-- **C69 is not what the code does, the answer lost.**  In the clear the command is carried out twice. -/
theorem C69_lost_answer_clear {C : Cipher} {cb : Bool} {cp pd cp' pd1 pd2 : Pd} {c : Cmd} {bs bs' r : List Byte} {e e' : Env} {o o' : List Out}
    (R : Repeated C cb cp pd c bs cp' bs') (hsc : cp.scActive = false) (hbc : pd.flags.broadcast = false) (henf : pd.flags.enforceSecure = false)
    (ha : Arrives e bs) (hcap : 256 ≤ e.sendCap) (hcb : e.cb.isSome = true) (hm : MayAsk pd.cap c)
    (h : PdM.step C pd (.refresh e) = .ok (pd1, o)) (hs : sent o = [r]) (haddr : pd1.address = pd.address)
    (ha' : Arrives e' bs') (hcb' : e'.cb.isSome = true) (h' : PdM.step C pd1 (.refresh e') = .ok (pd2, o')) :
    asked o = [carried c] ∧ asked o' = [carried c] := by
  obtain ⟨p, w, A⟩ := R.again
  have hlo := R.seqOk
  have hhi := R.start.inv.hi
  have E := R.start.ends
  have hact : pd.scActive = false := E.act.trans hsc
  have hexp : ∀ (x : Pd) n, x.scActive = false → expire x n = x := by intro x n hx; unfold expire; rw [if_neg]; rw [hx]; simp
  have hfit := A.firstFit
  have hfit' := A.secondFit
  have Q := A.asked hbc (fun _ => henf)
  rw [hsc] at Q
  obtain ⟨rb, -, T⟩ := Q.answers ha (hexp _ _ hact) h hcap hs
  obtain ⟨q, n, -, -, -, -, -, -, hT⟩ := T.sender
  rcases hT with ⟨hk, -⟩ | ⟨t1, t2, t3, t4, t5, t6, t7, -⟩
  · exact absurd hk (T.clear rfl).1
  rw [A.first] at ha hfit
  rw [A.second] at ha' hfit'
  refine ⟨asked_of E R.start.pdIdle R.valid hfit (by omega) R.start.pdSeq (.inl R.seq) (fun h => by rw [hsc] at h; cases h) ha (hexp _ _ hact) hcb
    (fun h => by rw [henf] at h; cases h) hm h, ?_⟩
  obtain ⟨n1, n2, n3⟩ := nextSeq_succ (s := cp.seq) (by omega)
  have hw := A.seq
  rw [n1] at hw
  have hconf := PdM.config_refresh E.pdMode h
  have hwa : w.scActive = false := A.act.trans hsc
  refine asked_of (cp := w) ⟨A.cpMode, t1, by rw [A.address, E.address, haddr], by rw [haddr]; exact E.range, t2.trans hwa.symm,
    fun h => absurd (hwa.symm.trans h) (by decide), fun h => absurd (t2.symm.trans h) (by decide)⟩ T.pdIdle (by rw [A.act]; exact R.valid) hfit' (by omega)
    (by rw [t5, ← A.same.1]; omega) (.inl ?_) (fun h => by rw [hwa] at h; cases h) ha' (hexp _ _ t2) hcb'
    (fun h => by rw [show pd1.flags.enforceSecure = pd.flags.enforceSecure from congrArg PdM.Config.enforceSecure hconf, henf] at h; cases h)
    (by rw [show pd1.cap = pd.cap from congrArg PdM.Config.cap hconf]; exact hm) h'
  rw [t5]; exact A.same.1

/-- **C69, the answer lost in a secure session, partial.**  The repetition arrives with a MAC chained to the answer before the lost one.  Unless its four
bytes are also those of the MAC chained to the lost answer, the command is not carried out again.  But the session is over (the full statement wants the
exchange to be completed). -/
theorem C69_lost_answer_secure_partial {C : Cipher} {cb : Bool} {cp pd cp' pd1 pd2 : Pd} {c : Cmd} {bs bs' r : List Byte} {e e' : Env} {o o' : List Out}
    (R : Repeated C cb cp pd c bs cp' bs') (hsc : cp.scActive = true) (hbc : pd.flags.broadcast = false)
    (ha : Arrives e bs) (hcap : 256 ≤ e.sendCap) (hcb : e.cb.isSome = true) (hm : MayAsk pd.cap c) (hexp : e.now - pd.scTstamp ≤ 8000)
    (h : PdM.step C pd (.refresh e) = .ok (pd1, o)) (hs : sent o = [r]) (haddr : pd1.address = pd.address) (hkey : ∀ x, c ≠ .keyset x)
    (ha' : Arrives e' bs') (hexp' : e'.now - pd1.scTstamp ≤ 8000) (h' : PdM.step C pd1 (.refresh e') = .ok (pd2, o')) :
    asked o = [carried c] ∧
    ∃ (k' : Packet) (msg tag : List Byte) (ctl ty id : Byte) (pl : List Byte), bs' = k'.bytes ∧ SecuredFrame k'.frame msg tag ctl ty id pl ∧
      tag = (mac C cp.sc.sMac1 cp.sc.sMac2 cp.sc.rMac msg).1.take 4 ∧
      (asked o' = [] ∧ pd2.scActive = false ∨ tag = (mac C cp.sc.sMac1 cp.sc.sMac2 pd1.sc.rMac msg).1.take 4) := by
  obtain ⟨p, w, A⟩ := R.again
  have hlo := R.seqOk
  have hhi := R.start.inv.hi
  have E := R.start.ends
  have hact : pd.scActive = true := E.act.trans hsc
  have hfit := A.firstFit
  have hfit' := A.secondFit
  have Q := A.asked hbc (fun h => by rw [hsc] at h; cases h)
  rw [hsc] at Q
  obtain ⟨rb, -, T⟩ := Q.answers ha (expire_recent hexp) h hcap hs
  obtain ⟨q, n, E', -, -, -, -, -, hT⟩ := T.sender
  obtain ⟨n1, n2, n3⟩ := nextSeq_succ (s := cp.seq) (by omega)
  have hw := A.seq
  rw [n1] at hw
  obtain ⟨m1, m2, m3⟩ := nextSeq_succ (s := w.seq) (by omega)
  rw [A.first] at ha hfit
  refine ⟨asked_of E R.start.pdIdle R.valid hfit (by omega) R.start.pdSeq (.inl R.seq) (fun _ => by omega) ha (expire_recent hexp) hcb
    (fun _ => hact) hm h, ?_⟩
  have hwa : w.scActive = true := A.act.trans hsc
  have hcp : cp.isCp = true := by show (!cp.flags.pdMode) = true; rw [E.cpMode]; rfl
  have hwcp : w.isCp = true := by show (!w.flags.pdMode) = true; rw [A.cpMode]; rfl
  -- the keys of the session
  have ksc : w.sc.sMac1 = cp.sc.sMac1 ∧ w.sc.sMac2 = cp.sc.sMac2 ∧ w.sc.rMac = cp.sc.rMac := by
    rw [A.sc]
    unfold anySc Phy.chainSc
    rw [hsc, if_pos rfl, if_pos hcp]
    exact ⟨rfl, rfl, rfl⟩
  -- the packet of the repetition
  obtain ⟨rs, hcode⟩ := encode_cons R.valid
  obtain ⟨c1, c2, c3⟩ := ctl_cases w.scActive (Phy.nextSeq w.seq true) (cpTx w (encode c).length).ctl rfl
  have hty : ∃ ty, (cpTx w (encode c).length).scb = [2#8, ty] ∧ 0x15#8 ≤ ty ∧ ty ≤ 0x18#8 := by
    refine ⟨if (encode c).length > 1 then 0x17#8 else 0x15#8, ?_, ?_⟩
    · unfold cpTx; rw [hwa]; rfl
    · split <;> decide
  obtain ⟨ty, hscb, hty⟩ := hty
  have hpk : cpPkt C w (encode c) = pktOf (cpTx w (encode c).length) (Phy.securedData C w (cpTx w (encode c).length) (b8 (codeOf c) :: rs)) := by
    unfold cpPkt anyData
    rw [hwa, if_pos rfl, hcode]
  have hff := Nat.le_trans (Phy.frame_le (cpPkt C w (encode c))) (by rw [← A.second]; exact hfit')
  rw [hpk] at hff
  obtain ⟨pl, -, hsf, -⟩ := Phy.sealed_pkt C w (t := cpTx w (encode c).length) (id := b8 (codeOf c)) rs hscb (c3.trans hwa) c2 hff
  have htag : tagOf C w (macMsg (cpTx w (encode c).length) (b8 (codeOf c) :: pl)) =
      mac C cp.sc.sMac1 cp.sc.sMac2 cp.sc.rMac (macMsg (cpTx w (encode c).length) (b8 (codeOf c) :: pl)) := by
    unfold tagOf
    rw [if_pos hwcp, ksc.1, ksc.2.1, ksc.2.2]
  rw [htag, ← hpk] at hsf
  generalize hmsg : macMsg (cpTx w (encode c).length) (b8 (codeOf c) :: pl) = msg at hsf
  clear htag hpk hff
  refine ⟨cpPkt C w (encode c), msg, _, _, ty, _, _, A.second, hsf, rfl, ?_⟩
  by_cases hcol : (mac C cp.sc.sMac1 cp.sc.sMac2 cp.sc.rMac msg).1.take 4 = (mac C cp.sc.sMac1 cp.sc.sMac2 pd1.sc.rMac msg).1.take 4
  · exact .inr hcol
  left
  -- the PD
  have hpd1 : pd1.scActive = true ∧ pd1.flags.pdMode = true ∧ pd1.scCapable = true ∧ pd1.seq = p.seq ∧ pd1.sc = anySc C q (PdM.pdTx q n) rb := by
    rcases hT with ⟨hid, hack⟩ | ⟨t1, t2, t3, t4, t5, t6, t7, -⟩
    · exact absurd (A.cmd.symm.trans hid) (keyset_only R.valid hkey)
    · exact ⟨t2, t1, t3 rfl, t5, t7⟩
  obtain ⟨hk, t1, t3, t5, t7⟩ := hpd1
  have keys : pd1.sc.sMac1 = cp.sc.sMac1 ∧ pd1.sc.sMac2 = cp.sc.sMac2 := by
    have M := E'.same (A.same.2.2.1.symm.trans hwa)
    rw [t7, ← ksc.1, ← ksc.2.1, A.same.2.1, M.sMac1, M.sMac2]
    unfold anySc Phy.chainSc
    split
    · split <;> exact ⟨rfl, rfl⟩
    · exact ⟨rfl, rfl⟩
  have hks := cpPkt_seq C w (encode c)
  rw [m1] at hks
  have hkb := seqBits_of ⟨m2, m3⟩
  have hnz : succ w.seq ≠ 0 := by
    have hs : w.seq = 0 ∨ w.seq = 1 ∨ w.seq = 2 ∨ w.seq = 3 := by omega
    rcases hs with h | h | h | h <;> rw [h] <;> decide
  have hka : (pktAddr (cpPkt C w (encode c)) : Int) = pd1.address := by
    unfold pktAddr
    show (((i8 w.address &&& 0x7F#8) &&& 0x7F#8).toNat : Int) = _
    rw [and7f_and, A.address, E.address, haddr, Phy.i8_addr _ (by have := E.range; omega)]
    have := E.range; omega
  have hF : ForUs pd1 (cpPkt C w (encode c)) := by
    refine ⟨by rw [← A.second]; exact hfit', and7f_bit _, c2, .inl hka, by rw [t5, ← A.same.1]; omega, ?_⟩
    unfold Acceptable
    right; right
    rw [hks, hkb, t5, A.same.1]
  have hdec := Phy.decodeFrame_secured C (pdAccept pd1 (cpPkt C w (encode c)).seq (pktAddr (cpPkt C w (encode c)) == 127)) hsf hty
    (by show (pd1.flags.scActive && _ != 0) = true
        rw [show pd1.flags.scActive = true from hk]
        simp; rw [hks]; omega) (fun _ => t3)
  rw [if_neg (by
    show ¬ _ = (mac C pd1.sc.sMac1 pd1.sc.sMac2 (if pd1.flags.pdMode = true then pd1.sc.rMac else pd1.sc.cMac) msg).1.take 4
    rw [if_pos t1, keys.1, keys.2]; exact hcol)] at hdec
  rw [A.second] at ha'
  obtain ⟨hh, hrec⟩ := PdM.receive_nacked_packet C pd1 _ _ e' t1 T.pdIdle hF ha' hdec (fun _ => by
    show 2 ≤ (cpTx w (encode c).length).scb.length; rw [hscb]; exact Nat.le_refl 2)
  have h' : PdM.refresh C pd1 e' = .ok (pd2, o') := h'
  unfold PdM.refresh at h'
  rw [expire_recent hexp', hrec] at h'
  simp only [Res.ok_bind] at h'
  obtain ⟨⟨p2, o2⟩, h2, h'⟩ := Res.bind_eq_ok.mp h'
  injection h' with h'; injection h' with e1 e2; subst e1 e2
  have hfin := PdM.finish_inv (by exact t1) h2
  refine ⟨?_, ?_⟩
  · unfold asked
    refine List.filterMap_eq_nil_iff.mpr ?_
    intro x hx
    rcases PdM.finished_outs hfin x hx with rfl | rfl | ⟨bs, rfl⟩ <;> rfl
  · cases PdM.finished_replied hfin with
    | same L _ _ => exact Bool.eq_false_iff.mpr fun hc => absurd (L.active hc) (by simp [reload, Phy.setNak, Pd.scDeactivate, Pd.scActive])
    | com _ h _ _ _ => exact absurd (show Id.NAK = Id.COM from h) (by decide)
    | ccrypt h _ _ _ => exact absurd (show Id.NAK = Id.CCRYPT from h) (by decide)
    | rmac h _ _ _ _ => exact absurd (show Id.NAK = Id.RMAC_I from h) (by decide)
    | keyset _ _ _ h _ _ _ _ _ => exact absurd (show Id.NAK = Id.ACK from h) (by decide)

/-! ## Examples -/

/-- a visit of the CP, if nothing goes wrong -/
def visit (C : Cipher) (cp : Pd) (e : Env) : Option (Pd × List (List Byte)) := (CpM.step C cp (.update true e)).toOption.map fun r => (r.1, sent r.2)

theorem visit_step {C : Cipher} {cp q : Pd} {e : Env} {l : List (List Byte)} (h : visit C cp e = some (q, l)) :
    ∃ o, CpM.step C cp (.update true e) = .ok (q, o) ∧ sent o = l := by
  unfold visit at h
  cases hs : CpM.step C cp (.update true e) with
  | error _ => rw [hs] at h; cases h
  | ok r =>
    rw [hs] at h
    injection h with h; injection h with e1 e2
    exact ⟨r.2, by rw [← e1], e2⟩

/-- the CP sends a command, hears nothing and repeats it: what it is then, the two packets -/
def repeating (C : Cipher) (cp : Pd) (now : Int) : Option (Pd × List Byte × List Byte) :=
  (visit C cp { now := now }).bind fun a => (visit C a.1 { now := now + 20 }).bind fun b =>
  (visit C b.1 { now := now + 300 }).bind fun c => (visit C c.1 { now := now + 1200 }).bind fun d =>
  match b.2, d.2 with
  | [x], [y] => some (d.1, x, y)
  | _, _ => none

theorem repeating_repeated {C : Cipher} {cp pd cp' : Pd} {c : Cmd} {bs bs' : List Byte} {now : Int} (S : Issues cp pd c) (hv : Valid cp.scActive c)
    (hs : cp.seq = pd.seq) (h0 : 0 ≤ cp.seq) (hb : cp.retryCount < CpM.CMD_MAX_RETRIES) (hi : Idle cp) (h : repeating C cp now = some (cp', bs, bs')) :
    Repeated C true cp pd c bs cp' bs' := by
  refine ⟨S, hv, hs, h0, hb, hi, ?_⟩
  unfold repeating at h
  obtain ⟨⟨p1, l1⟩, h1, h⟩ := Option.bind_eq_some_iff.mp h
  obtain ⟨⟨p2, l2⟩, h2, h⟩ := Option.bind_eq_some_iff.mp h
  obtain ⟨⟨p3, l3⟩, h3, h⟩ := Option.bind_eq_some_iff.mp h
  obtain ⟨⟨p4, l4⟩, h4, h⟩ := Option.bind_eq_some_iff.mp h
  obtain ⟨o1, v1, s1⟩ := visit_step h1
  clear h1
  obtain ⟨o2, v2, s2⟩ := visit_step h2
  clear h2
  obtain ⟨o3, v3, s3⟩ := visit_step h3
  clear h3
  obtain ⟨o4, v4, s4⟩ := visit_step h4
  clear h4
  dsimp only at h
  split at h
  · injection h with h; injection h with e1 h; injection h with e2 e3
    subst e1 e2 e3
    have hx := s2
    have hy := s4
    exact ⟨_, _, _, _, p1, p2, p3, o1, o2, o3, o4, v1, v2, by simp, hx, v3, rfl, by show (200 : Int) < now + 300 - (now + 20); omega, v4, by simp, hy⟩
  · cases h

/-- what the commands of the application of the PD are when these packets arrive, one after the other; is the session active at the end? -/
def obeyed (C : Cipher) (pd : Pd) (now : Int) : List (List Byte) → List (List Cmd) × Bool
  | [] => ([], pd.scActive)
  | bs :: l =>
    match PdM.step C pd (.refresh { (arriving now bs) with cb := some fun _ c => (0, c) }) with
    | .ok (q, o) => (asked o :: (obeyed C q (now + 20) l).1, (obeyed C q (now + 20) l).2)
    | .error _ => ([], false)

/-- the sample CP and PD in the clear, the LED command next -/
def plainOrdering : Sample.Talk := (plainTalk.cpDoes xorCipher (.send { now := 380 } blink)).turns xorCipher 20 2

theorem plain_issues : Issues plainOrdering.cp plainOrdering.pd blink := by
  refine ⟨turns_inv _ _ (cpDoes_inv plainTalk_inStep.inv _), by decide +kernel, by decide +kernel, by decide +kernel,
    ⟨by decide +kernel, by decide +kernel, by decide +kernel, ⟨by decide +kernel, by decide +kernel⟩, by decide +kernel,
      fun h => absurd h (by decide +kernel), by decide +kernel⟩,
    ⟨by decide +kernel, by decide +kernel, by decide +kernel, by decide +kernel⟩, ⟨by decide +kernel, by decide +kernel⟩,
    .inl (by decide +kernel), by decide +kernel⟩

theorem plain_idle : Idle plainOrdering.cp := ⟨by decide +kernel, by decide +kernel, by decide +kernel, by decide +kernel⟩
theorem blink_idle : Idle (ordering blink).cp := ⟨by decide +kernel, by decide +kernel, by decide +kernel, by decide +kernel⟩

theorem plain_repeated : ∃ cp' bs bs', repeating xorCipher plainOrdering.cp 440 = some (cp', bs, bs') ∧
    Repeated xorCipher true plainOrdering.cp plainOrdering.pd blink bs cp' bs' := by
  have h : (repeating xorCipher plainOrdering.cp 440).isSome = true := by decide +kernel
  obtain ⟨⟨cp', bs, bs'⟩, h⟩ := Option.isSome_iff_exists.mp h
  exact ⟨cp', bs, bs', h, repeating_repeated plain_issues trivial (by decide +kernel) (by decide +kernel) (by decide +kernel) plain_idle h⟩

theorem blink_repeated : ∃ cp' bs bs', repeating xorCipher (ordering blink).cp 460 = some (cp', bs, bs') ∧
    Repeated xorCipher true (ordering blink).cp (ordering blink).pd blink bs cp' bs' := by
  have h : (repeating xorCipher (ordering blink).cp 460).isSome = true := by decide +kernel
  obtain ⟨⟨cp', bs, bs'⟩, h⟩ := Option.isSome_iff_exists.mp h
  exact ⟨cp', bs, bs', h, repeating_repeated blink_issues trivial (by decide +kernel) (by decide +kernel) (by decide +kernel) blink_idle h⟩

/-- Non-vacuity: in the clear the LED command is carried out twice when the answer is lost, never when the packet of the command is lost; -/
example : ((repeating xorCipher plainOrdering.cp 440).map fun r => ((obeyed xorCipher plainOrdering.pd 480 [r.2.1, r.2.2]).1,
      (obeyed xorCipher plainOrdering.pd 480 [r.2.2]).1)) = some ([[carried blink], [carried blink]], [[]]) ∧
    plainOrdering.cp.scActive = false ∧ plainOrdering.pd.flags.broadcast = false ∧ plainOrdering.pd.flags.enforceSecure = false ∧
    plainOrdering.pd.flags.skipSeqCheck = false ∧ plainOrdering.cp.flags.skipSeqCheck = false ∧ 164 ≤ plainOrdering.pd.txBufSize := by
  decide +kernel

/-- in a session it is carried out once, or never, and in the first case the session is over. -/
example : ((repeating xorCipher (ordering blink).cp 460).map fun r => (obeyed xorCipher (ordering blink).pd 500 [r.2.1, r.2.2],
      (obeyed xorCipher (ordering blink).pd 500 [r.2.2]).1)) = some (([[carried blink], []], false), [[]]) ∧
    (ordering blink).cp.scActive = true ∧ (ordering blink).pd.flags.broadcast = false ∧
    (ordering blink).pd.flags.skipSeqCheck = false ∧ (ordering blink).cp.flags.skipSeqCheck = false ∧ 164 ≤ (ordering blink).pd.txBufSize := by
  decide +kernel

end Osdp.Link
