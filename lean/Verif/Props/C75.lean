import Verif.Props.C31

/-!
# C75: a status request is answered with the status the PD application gives
-/

namespace Osdp.Link

open Phy PdM CpM
open Spec.Wire (Packet sent)
open Spec.Event (Reads MaskOf)
open Spec.Command (Valid asked)

/-- A CP and its PD between two exchanges, in plain text or within a secure channel, and the request `s` next in the
CP's queue; the CP knows how many inputs and outputs the PD has (C32). -/
structure Enquires (C : Cipher) (info : PdM.Info) (cp pd : Pd) (s : StatusReport) : Prop where
  issues : Issues cp pd (.status s)
  reached : CpM.Reached C info cp
  cpIdle : Idle cp
  bc : pd.flags.broadcast = false
  inputs : (cp.cap 1).numItems = (pd.cap 1).numItems
  outputs : (cp.cap 2).numItems = (pd.cap 2).numItems

/-- what the PD makes of a status request -/
theorem dispatch_status {p : Pd} {env : Env} {f : Nat → Cmd → Int × Cmd} {s r : StatusReport} (hs : s.type ≠ .other)
    (hm : MayAsk p.cap (.status s)) (hid : p.cmdId = codeOf (.status s)) (hf : env.cb = some f)
    (hr : f 0 (.status ⟨s.type, 0, 0⟩) = (0, .status r)) (ht : r.type = s.type) :
    dispatch p env [] = .ok ({ p with eph := .event (.status r), replyId := eventReply (.status r) }, [.cmd (.status ⟨s.type, 0, 0⟩)], .none) := by
  have hst : ∀ id, statusCmd p env s.type id = .ok ({ p with eph := .event (.status r), replyId := id }, [.cmd (.status ⟨s.type, 0, 0⟩)], .none) := by
    intro id
    unfold statusCmd callback
    rw [hf]
    dsimp only
    rw [hr]
    rfl
  have hno : env.cb.isNone = false := by rw [hf]; rfl
  have hcap : s.type = .input ∨ s.type = .output → capOk p none = (p, true) := by
    intro hty
    have := mayAsk_allows (p := p) (s := p.scActive) (c := .status s) hs hm hid (by simp) (by simp)
      (fun x hx => by injection hx with hx; subst hx; exact hty)
    simpa [capArg] using this
  obtain ⟨ty, sn, sm⟩ := s
  obtain ⟨rt, rn, rm⟩ := r
  dsimp only at ht hst hs
  subst ht
  unfold dispatch
  dsimp only
  cases rt with
  | other => exact absurd rfl hs
  | localStat =>
    have hid : p.cmdId = Id.LSTAT := hid
    rw [if_neg (by rw [hid]; decide), if_pos hid, if_neg (by simp)]
    exact hst Id.LSTATR
  | input =>
    have hid : p.cmdId = Id.ISTAT := hid
    rw [if_neg (by rw [hid]; decide), if_neg (by rw [hid]; decide), if_pos hid, hno, if_neg (by simp), hcap (.inl rfl)]
    exact hst Id.ISTATR
  | output =>
    have hid : p.cmdId = Id.OSTAT := hid
    rw [if_neg (by rw [hid]; decide), if_neg (by rw [hid]; decide), if_neg (by rw [hid]; decide), if_pos hid, hno, if_neg (by simp), hcap (.inr rfl)]
    exact hst Id.OSTATR
  | remote =>
    have hid : p.cmdId = Id.RSTAT := hid
    rw [if_neg (by rw [hid]; decide), if_neg (by rw [hid]; decide), if_neg (by rw [hid]; decide), if_neg (by rw [hid]; decide), if_pos hid, hno, if_neg (by simp)]
    exact hst Id.RSTATR

theorem encode_status {s : StatusReport} : Spec.Command.encode (.status s) = [b8 (codeOf (.status s))] := by
  obtain ⟨ty, n, m⟩ := s
  cases ty <;> rfl

/-- The body of the answer to a status request. -/
theorem status_answer {C : Cipher} {P pd : Pd} {env : Env} {f : Nat → Cmd → Int × Cmd} {s r : StatusReport} {d0 : Byte} {rb : List Byte}
    (hexp : expire pd env.now = pd) (hrec : PdM.receiveAndProcess C pd env = commanded P env d0 [])
    (hnr : PdM.plainRefused (PdM.noteCmd P d0) = false) (hs : s.type ≠ .other) (hm : MayAsk P.cap (.status s))
    (hid : d0.toNat = codeOf (.status s)) (hf : env.cb = some f)
    (hr : f 0 (.status ⟨s.type, 0, 0⟩) = (0, .status r)) (ht : r.type = s.type)
    (hv : Spec.Event.Valid (ins P) (outsN P) (.status r)) (htx : 69 ≤ P.txBufSize) (hrb : replyBuilt C pd env = some rb) :
    rb = Spec.Event.encode (.status r) := by
  unfold replyBuilt at hrb
  rw [hexp, hrec] at hrb
  unfold commanded at hrb
  rw [hnr, if_neg (by simp), dispatch_status (p := noteCmd P d0) (f := f) hs hm hid hf hr ht] at hrb
  dsimp only at hrb
  generalize hX : touch { noteCmd P d0 with eph := .event (.status r), replyId := eventReply (.status r) } PdRet.none env.now = X at hrb
  have hXf : X.cap = P.cap ∧ X.eph = .event (.status r) ∧ X.replyId = eventReply (.status r) ∧ X.txBufSize = P.txBufSize := by
    rw [← hX]; unfold touch; split <;> exact ⟨rfl, rfl, rfl, rfl⟩
  have hlen : (Spec.Event.encode (.status r)).length ≤ 32 := by
    obtain ⟨ty, n, m⟩ := r
    show (_ :: Spec.Event.flags _ _).length ≤ 32
    cases ty with
    | other => exact hv.elim
    | input => obtain ⟨h1, h2⟩ := hv; dsimp only at h1; subst h1; simp [Spec.Event.flags, Spec.Event.entries]; omega
    | output => obtain ⟨h1, h2⟩ := hv; dsimp only at h1; subst h1; simp [Spec.Event.flags, Spec.Event.entries]; omega
    | _ => simp [Spec.Event.flags, Spec.Event.entries]
  have := replyTx_dataOff X
  rw [event_built C (unbc X) env (replyTx X) _ (.status r) (by unfold ins outsN at *; show Spec.Event.Valid ((X.cap 1).numItems.toNat) ((X.cap 2).numItems.toNat) (.status r); rw [hXf.1]; exact hv)
    hXf.2.2.1 hXf.2.1 (by rw [hXf.2.2.2]; omega)] at hrb
  injection hrb with hrb
  exact hrb.symm

/-- **C75 (partial: for PDs with at most 31 inputs and outputs; with more the PD shifts out of range, `C37_items`).**  The CP's application has asked for a status, and the request is next in the queue.  The CP takes it, sends it, the PD gets
the packet and its application answers the request with a report; what the PD transmits reaches the CP.  Then the PD's application
was asked once, for that status, and the CP's application gets exactly one event, the report (its entries: two for the device, one for
the reader, else as many as inputs or outputs). -/
theorem C75_partial (C : Cipher) (info : PdM.Info) (cp cp0 cp1 cp2 pd pd1 : Pd) (s r : StatusReport) (cb : Bool) (e0 e1 e2 e3 : Env)
    (f : Nat → Cmd → Int × Cmd) (o0 o1 o2 o3 : List Out) (bs bs2 : List Byte)
    (S : Enquires C info cp pd s) (hty : s.type ≠ .other) (hm : MayAsk pd.cap (.status s)) (htx : 69 ≤ pd.txBufSize)
    -- the application of the PD
    (hf : e2.cb = some f) (hr : f 0 (.status ⟨s.type, 0, 0⟩) = (0, .status r)) (ht : r.type = s.type)
    (hv : Spec.Event.Valid (ins pd) (outsN pd) (.status r))
    -- circumstances
    (hc1 : 256 ≤ e1.sendCap) (hc2 : 256 ≤ e2.sendCap) (hexp : expire pd e2.now = pd)
    (henf : pd.flags.enforceSecure = true → pd.scActive = true)
    -- the exchange
    (h0 : CpM.step C cp (.update cb e0) = .ok (cp0, o0))
    (h1 : CpM.step C cp0 (.update cb e1) = .ok (cp1, o1)) (hs1 : sent o1 = [bs]) (ha1 : Arrives e2 bs)
    (h2 : PdM.step C pd (.refresh e2) = .ok (pd1, o2)) (hs2 : sent o2 = [bs2]) (ha2 : Arrives e3 bs2)
    (h3 : CpM.step C cp1 (.update true e3) = .ok (cp2, o3)) :
    asked o2 = [.status ⟨s.type, 0, 0⟩] ∧ pdEvents o3 = [Spec.Event.carried (.status r)] := by
  have E := S.issues.ends
  have hvc : Valid cp.scActive (.status s) := hty
  obtain ⟨rest, h0'⟩ := S.issues.takes hvc C cb e0
  rw [h0] at h0'
  injection h0' with h0'; injection h0' with ecp0 _
  have hR0 := S.reached.step h0
  have I := hR0.inv
  have hh := (codeOf_ok hvc).2.2
  have hcode := b8_toNat (codeOf_ok hvc).2.1
  obtain ⟨fl, buf, body, hb, -, hbs, hfit, hcp1, hbl⟩ := command_sent I (by rw [ecp0]) (by
    rw [ecp0]
    show codeOf (.status s) ≠ Id.CHLNG ∧ codeOf (.status s) ≠ Id.SCRYPT
    constructor <;> (intro e; rw [e] at hh; revert hh; decide)) h1 hc1 hs1
  have hbody : body = [b8 (codeOf (.status s))] := by
    unfold commandBuilt at hb
    split at hb
    · rename_i b hbb
      have := commandBody_built (c := .status s) (by rw [ecp0]; exact hvc) (by rw [ecp0]; rfl) (by rw [ecp0]; rfl) hbb
      rw [this] at hb
      injection hb with hb; rw [← hb, encode_status]
    · cases hb
  subst hbody
  rw [hbs] at hfit ha1
  have E0 : Ends cp0 pd := by rw [ecp0]; exact ⟨E.cpMode, E.pdMode, E.address, E.range, E.act, E.same, E.capable⟩
  have hq0 : cp0.seq = cp.seq := by rw [ecp0]
  have ha0 : cp0.scActive = cp.scActive := by rw [ecp0]
  obtain ⟨hk, sc, hH, -, hrec, hpa, hss, hsc'⟩ := command_read C cp0 pd e2 [b8 (codeOf (.status s))] (b8 (codeOf (.status s))) [] rfl E0 S.issues.pdIdle hfit
    ⟨I.lo, I.hi⟩ S.issues.pdSeq (by rw [hq0]; exact S.issues.seq) (by rw [hq0, ha0]; exact S.issues.seqSc) ha1
  generalize hP : reload (setSc (pdAccept pd (Phy.seqBits (Phy.nextSeq cp0.seq true)) false) sc) hk = P at hrec
  have hPa : P.scActive = cp0.scActive := by rw [← hP]; exact hpa
  have hnr : PdM.plainRefused (PdM.noteCmd P (b8 (codeOf (.status s)))) = false := by
    unfold PdM.plainRefused
    show (P.flags.enforceSecure && !P.scActive && _ && _ && _ && _) = false
    have : P.flags.enforceSecure = pd.flags.enforceSecure := by rw [← hP]; rfl
    cases he : pd.flags.enforceSecure with
    | false => rw [this, he]; rfl
    | true => rw [hPa, ← E0.act, henf he]; simp
  have hne : (b8 (codeOf (.status s))).toNat ≠ Id.CHLNG ∧ (b8 (codeOf (.status s))).toNat ≠ Id.SCRYPT := by
    rw [hcode]
    constructor <;> (intro e; rw [e] at hh; revert hh; decide)
  obtain ⟨q, n, rb, q2, hS, hrid, hR, hrb, hbs', hpd1⟩ := pd_answers (P := P) (by rw [← hP]; exact E.pdMode) hexp hrec hnr hne.1 hne.2 h2 hc2 hs2
  have hrbe : rb = Spec.Event.encode (.status r) :=
    status_answer (P := P) (f := f) hexp hrec hnr hty (by rw [← hP]; exact hm) hcode hf hr ht (by rw [← hP]; exact hv) (by rw [← hP]; exact htx) hrb
  subst hrbe
  obtain ⟨id, body, he, hread, hin, hout, hbusy⟩ := encode_reads hv
  have hqa : q.scActive = cp0.scActive := by show q.flags.scActive = _; rw [hS.flags]; exact hPa
  have hcs : cp1.scActive = cp0.scActive := by rw [hcp1]; rfl
  have hqE : Ends cp1 q := by
    refine ⟨by rw [hcp1]; exact E0.cpMode, ?_, ?_, ?_, by rw [hqa, hcs], ?_, ?_⟩
    · rw [hS.flags, ← hP]; exact E.pdMode
    · rw [hcp1, hS.address, ← hP]; exact E0.address
    · rw [hS.address, ← hP]; exact E.range
    · intro ha
      rw [hS.sc, hcp1, ← hP]
      exact (hss (by rw [← hcs]; exact ha)).meets
    · intro ha
      unfold Pd.scCapable
      rw [hS.flags, ← hP]
      exact E0.capable (by rw [E0.act, ← hqa]; exact ha)
  have hidle : Idle cp1 := ⟨by rw [hcp1]; rfl, by rw [hcp1]; rfl, by rw [hcp1, ecp0] at *; exact hbl.trans S.cpIdle.buf, by rw [hcp1, ecp0]; exact S.cpIdle.rx⟩
  have hqbc : q.flags.broadcast = false := by
    rw [hS.flags, ← hP]
    show (pd.flags.broadcast || false) = false
    rw [S.bc]; rfl
  have hqs : Phy.seqBits q.seq = Phy.seqBits cp1.seq := by
    rw [hS.seq, hcp1, ← hP]
    show Phy.seqBits ((Phy.seqBits (Phy.nextSeq cp0.seq true) : Nat) : Int) = Phy.seqBits (Phy.nextSeq cp0.seq true)
    unfold Phy.seqBits; omega
  rw [hbs'] at ha2
  obtain ⟨hheard, -⟩ := reply_read C q cp1 e3 n (Spec.Event.encode (.status r)) id body he hqE (fun ha => by
      rw [hS.sc, hcp1, ← hP]
      exact (hss (by rw [← hcs]; exact ha)).cMac) hidle hqbc hR.fits hqs hbusy ha2
  constructor
  · have := asked_of (c := .status s) E0 S.issues.pdIdle (by rw [ha0]; exact hvc) (by rw [encode_status]; exact hfit) ⟨I.lo, I.hi⟩ S.issues.pdSeq
      (by rw [hq0]; exact S.issues.seq) (by rw [hq0, ha0]; exact S.issues.seqSc) (by rw [encode_status]; exact ha1) hexp (by rw [hf]; rfl) henf hm h2
    exact this
  refine C57_delivered C info cp1 cp2 e3 o3 id body _ (hR0.step h1) (by rw [hcp1, ecp0]; exact S.issues.online) ?_ hread ?_ h3
  · unfold replyOf
    rw [if_pos (by rw [hcp1]; rfl)]
    exact hheard
  · have hcap : cp1.cap = cp.cap := by rw [hcp1, ecp0]; rfl
    constructor
    · intro h
      show body.length = (cp1.cap 1).numItems.toNat
      rw [hcap, S.inputs]
      exact hin h
    · intro h
      show body.length = (cp1.cap 2).numItems.toNat
      rw [hcap, S.outputs]
      exact hout h

/-! ### example -/

/-- the application of the sample CP asks for the state of the inputs -/
def inputs2 : StatusReport := ⟨.input, 0, 0⟩

theorem inputs2_enquires : Enquires xorCipher Sample.pdInfo (ordering (.status inputs2)).cp (ordering (.status inputs2)).pd inputs2 := by
  refine ⟨⟨turns_inv _ _ (cpDoes_inv settled_sync.inv _), by decide +kernel, by decide +kernel, by decide +kernel,
    ⟨by decide +kernel, by decide +kernel, by decide +kernel, ⟨by decide +kernel, by decide +kernel⟩, by decide +kernel,
      fun _ => ⟨by decide +kernel, by decide +kernel, by decide +kernel, by decide +kernel⟩, by decide +kernel⟩,
    ⟨by decide +kernel, by decide +kernel, by decide +kernel, by decide +kernel⟩, ⟨by decide +kernel, by decide +kernel⟩,
    .inl (by decide +kernel), by decide +kernel⟩, ?_, ⟨by decide +kernel, by decide +kernel, by decide +kernel, by decide +kernel⟩,
    by decide +kernel, by decide +kernel, by decide +kernel⟩
  exact turns_reached _ _ (cpDoes_reached (turns_reached _ _ (Sample.cp_reached (C := xorCipher) (ops := []) rfl)) _)

/-- the exchange of `C75_partial` with the sample devices, in a secure session: the requests the PD's application gets, and the
events that the CP's application gets, if the PD's application answers `r` -/
def enquiry (s r : StatusReport) : Option (List Cmd × List Event) := do
  let t := ordering (.status s)
  let (cp, _) ← (CpM.step xorCipher t.cp (.update true { now := 440 })).toOption
  let (cp, o1) ← (CpM.step xorCipher cp (.update true { now := 440 })).toOption
  let (_, o2) ← (PdM.step xorCipher t.pd (.refresh { arriving 450 (sent o1).flatten with cb := some fun _ _ => (0, .status r) })).toOption
  let (_, o3) ← (CpM.step xorCipher cp (.update true (arriving 460 (sent o2).flatten))).toOption
  return (asked o2, pdEvents o3)

-- the four kinds; bits that no entry stands for are left out
example : enquiry inputs2 ⟨.input, 2, 0xFFFE⟩ = some ([.status ⟨.input, 0, 0⟩], [.status ⟨.input, 2, 2⟩]) ∧
    enquiry ⟨.localStat, 0, 0⟩ ⟨.localStat, 0, 2⟩ = some ([.status ⟨.localStat, 0, 0⟩], [.status ⟨.localStat, 2, 2⟩]) ∧
    enquiry ⟨.remote, 0, 0⟩ ⟨.remote, 7, 1⟩ = some ([.status ⟨.remote, 0, 0⟩], [.status ⟨.remote, 1, 1⟩]) := by
  refine ⟨by decide +kernel, by decide +kernel, by decide +kernel⟩

end Osdp.Link
