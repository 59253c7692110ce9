import Verif.Props.C23
import Verif.Props.C101

/-!
# C102: what the application hands over in a secure session does not leave in the clear

The full statement: an event that the application of a PD reports, or a command that the application of a CP hands over, while a secure channel is active,
leaves only within an active secure channel.  (C64 says that what is sent within a session is sealed; this property is about what is handed over in a session
and sent later.  C101 is the same for files.)

With OSDP_FLAG_ENFORCE_SECURE at the end in question it holds, for the PD in `C102_pd_partial`, for the CP in `C102_cp_partial`.  Without it the queues
outlive the session, and anybody can end it: one POLL with sequence number 0 and without any protection ends the session of the PD and is answered with the
event in the clear, in the same packet (`C102_pd_leak`; src/osdp_phy.c:439-452 and src/osdp_pd.c:299-312).  A CP gives its commands away as it does its files
(`C102_cp_leak`).
-/

namespace Osdp.PdM

open Spec.Sealed (Sealed OnWire)
open Spec.Wire (sent)

/-- An ENFORCE_SECURE PD lets an event go only in a visit in which a secure channel is active when the reply is composed. -/
theorem event_active {C : Cipher} {info : Info} {q p1 : Pd} {env : Env} {o1 : List Out} {ret : PdRet} (he : info.enforceSecure = true)
    (hq : Reached C info q) (hg : Got C (expire q env.now) env p1 o1 ret) (hev : p1.eventQueue ≠ q.eventQueue) : p1.scActive = true := by
  have hen : (expire q env.now).flags.enforceSecure = true :=
    (congrArg Config.enforceSecure (config_expire q env.now)).trans (hq.flags.1.trans he)
  have h0 : (expire q env.now).eventQueue = q.eventQueue := (expire_fields q env.now).1.events
  cases hg with
  | nothing _ hc _ => exact absurd ((transp_untouched hc.transp).events.trans h0) hev
  | skip _ hc => exact absurd ((transp_untouched hc.transp).events.trans h0) hev
  | seq _ hc => exact absurd ((transp_untouched hc.transp).events.trans h0) hev
  | refused _ hc _ hd _ => exact absurd (((transp_untouched hd.transp).events.trans (transp_untouched hc.transp).events).trans h0) hev
  | insecure _ hc _ hd _ _ _ => exact absurd (((transp_untouched hd.transp).events.trans (transp_untouched hc.transp).events).trans h0) hev
  | @command p2 p3 _ d id body _ _ _ hc _ hd _ _ _ _ hpl _ ho =>
    have e3 : p3.eventQueue = q.eventQueue := ((transp_untouched hd.transp).events.trans (transp_untouched hc.transp).events).trans h0
    have en3 : p3.flags.enforceSecure = true :=
      (congrArg Config.enforceSecure ((config_transp hd.transp).trans (config_transp hc.transp))).trans hen
    rcases Nat.decEq (noteCmd p3 id).cmdId Id.POLL with hn | hid
    · exact absurd ((outcome_events ho hn).trans e3) hev
    have ha : p3.scActive = true := by
      cases hx : p3.scActive with
      | true => rfl
      | false =>
        unfold plainRefused at hpl
        rw [show (noteCmd p3 id).flags.enforceSecure = true from en3, show (noteCmd p3 id).scActive = false from hx, hid] at hpl
        exact absurd hpl (by decide)
    cases ho with
    | poll _ _ => unfold pollEvent; split <;> exact ha
    | plain hpl _ => obtain ⟨r, e, hq⟩ := hpl.quiet; rw [hq]; exact ha
    | file h _ => exact absurd (h.symm.trans hid) (by decide)
    | abort h _ => exact absurd (h.symm.trans hid) (by decide)
    | chlng _ h _ _ => exact absurd (h.symm.trans hid) (by decide)
    | _ => first | exact ha | (rename_i h; exact absurd (h.symm.trans hid) (by decide)) | (rename_i h _; exact absurd (h.symm.trans hid) (by decide))

/-- **C102, partial: an event of an ENFORCE_SECURE PD.**  Whatever has happened before and whatever arrives: if a visit lets an event go, the packet it sends is
the reply it has composed, sealed under the keys of the session (or the PD's statement that it could not compose one, with a MAC of the session, see C64).
Missing: PDs without the flag, see `C102_pd_leak`. -/
theorem C102_pd_partial (C : Cipher) (info : Info) (p q : Pd) (env : Env) (outs : List Out) (bs : List Byte) (he : info.enforceSecure = true)
    (hr : Reached C info p) (h : refresh C p env = .ok (q, outs)) (hev : q.eventQueue ≠ p.eventQueue) (hs : bs ∈ sent outs) :
    ∃ f msg id data, OnWire bs f env.sendCap ∧ Link.replyBuilt C p env = some (id :: data) ∧
      (Sealed C q.sc.sEnc q.sc.sMac1 q.sc.sMac2 q.sc.cMac 0x16#8 0x18#8 f msg id data ∨
        id = 0x41#8 ∧ data = [9#8] ∧ Link.Substitute C q.sc.sMac1 q.sc.sMac2 q.sc.cMac f msg) := by
  have hp := hr.pdMode
  unfold refresh at h
  obtain ⟨⟨p1, o1, ret⟩, h1, h⟩ := Res.bind_eq_ok.mp h
  obtain ⟨⟨q', o2⟩, h2, h⟩ := Res.bind_eq_ok.mp h
  injection h with h; injection h with e1 e2; subst e1 e2
  have hpe : (expire p env.now).flags.pdMode = true := by unfold expire; split <;> exact hp
  have hg := receive_got hpe h1
  have ho1 : sent o1 = [] := by
    cases hg with
    | command _ _ _ _ _ _ _ _ _ _ hout =>
      refine CpM.sent_nil fun o ho bs hb => ?_
      subst hb
      exact (PdM.outcome_same hout).2.2 bs ho
    | _ => rfl
  have hp1 : p1.flags.pdMode = true := received_pdMode hpe hg
  rw [show sent (o1 ++ o2) = sent o1 ++ sent o2 from List.filterMap_append, ho1, List.nil_append] at hs
  have hfin := finish_inv hp1 h2
  have hact : p1.scActive = true := event_active he hr hg (fun h => hev ((finished_tail hfin).events.trans h))
  have ha : (touch p1 ret env.now).scActive = true := by unfold touch; split <;> exact hact
  cases hfin with
  | keep _ => cases hs
  | reset _ => cases hs
  | reply hret hout haft =>
    rename_i q1 ok
    have hq1 : q'.sc.sEnc = q1.sc.sEnc ∧ q'.sc.sMac1 = q1.sc.sMac1 ∧ q'.sc.sMac2 = q1.sc.sMac2 ∧ q'.sc.cMac = q1.sc.cMac := by
      rcases afterSend_inv haft with ⟨rfl, -⟩ | ⟨-, -, -, k, -, rfl⟩
      · exact ⟨rfl, rfl, rfl, rfl⟩
      · exact ⟨rfl, rfl, rfl, rfl⟩
    have hp2 : (touch p1 ret env.now).flags.pdMode = true := by rw [touch_pdMode]; exact hp1
    obtain ⟨k1, k2, k3, k4⟩ := hq1
    rw [k1, k2, k3, k4]
    obtain ⟨f, msg, id, data, b, r1, r2, r3, r4, r5⟩ := Link.reply_sealed hp2 ha hout hs
    refine ⟨f, msg, id, data, r1, ?_, ?_⟩
    · unfold Link.replyBuilt; rw [h1]; dsimp only; rw [r2]; dsimp only; rw [r3]
    · rw [r5]; exact r4.imp_right fun ⟨a, b, _, c⟩ => ⟨a, b, c⟩

/-! ### samples -/

open Sample

/-- a card was read -/
def read102 : Event := .cardread ⟨0, .rawWiegand, 0, 26, .padTo 64 [0x11, 0x22, 0x33, 0x40]⟩

/-- a secure session with a PD, during which a card is read -/
def reading102 (pd : Pd) : Talk := ({ cp := cp, pd := pd } : Talk).turns xorCipher 20 20 |>.pdDoes xorCipher (.notify read102)

/-- a PD that insists on a secure channel -/
def strict102 : Pd := (setup { pdInfo with enforceSecure := true } false 16).getD (blank 16)

/-- The hypotheses of `C102_pd_partial` are met: with the flag set the event is in the queue during the session, and the next POLL of the session lets it go,
sealed; an unprotected POLL does not, it is answered with NAK(6). -/
example :
    (let t := reading102 strict102
     strict102.flags.enforceSecure = true ∧ t.bad = false ∧ t.pd.scActive = true ∧ t.pd.eventQueue.length = 1 ∧
      (t.turn xorCipher 60).pd.eventQueue.length = 0 ∧ ((t.turn xorCipher 60).toCp.drop 5).take 4 = [0x0E, 2, 0x18, 0x50] ∧
      (match refresh xorCipher t.pd (env (cmd 0 [0x60#8]) 420) with
        | .ok (q, o) => some (q.eventQueue.length, sent o)
        | .error _ => none) = some (1, [Sample.reply 0 [0x41, 6]])) := by decide +kernel

/-- **C102 violated by a PD.**  The card is read while the session is active.  Somebody without any key sends one POLL with sequence number 0: the PD answers
with the card number in the clear. -/
theorem C102_pd_leak : ∃ p o q o', run xorCipher pd (reading102 pd).pdOps = .ok (p, o) ∧ p.scActive = true ∧ p.eventQueue.length = 1 ∧
    refresh xorCipher p (env (cmd 0 [0x60#8]) 420) = .ok (q, o') ∧ q.scActive = false ∧ q.eventQueue = [] ∧
    sent o' = [Sample.reply 0 [0x50, 0, 1, 26, 0, 0x11, 0x22, 0x33, 0x40]] := by
  have h : (match run xorCipher pd (reading102 pd).pdOps with
      | .ok (p, _) => decide (p.scActive = true ∧ p.eventQueue.length = 1) &&
        (match refresh xorCipher p (env (cmd 0 [0x60#8]) 420) with
          | .ok (q, o') => decide (q.scActive = false ∧ q.eventQueue.length = 0 ∧ sent o' = [Sample.reply 0 [0x50, 0, 1, 26, 0, 0x11, 0x22, 0x33, 0x40]])
          | .error _ => false)
      | .error _ => false) = true := by decide +kernel
  split at h
  · rename_i p o h1
    rw [Bool.and_eq_true] at h
    obtain ⟨h2, h⟩ := h
    have h2 := of_decide_eq_true h2
    split at h
    · rename_i q o' h3
      have h := of_decide_eq_true h
      exact ⟨p, o, q, o', h1, h2.1, h2.2, h3, h.1, List.length_eq_zero_iff.mp h.2.1, h.2.2⟩
    · cases h
  · cases h

end Osdp.PdM

namespace Osdp.CpM

open Spec.Sealed (Sealed OnWire)
open Sample

/-- **C102, partial: a command of an ENFORCE_SECURE CP.**  The flag is set up and never cleared.  In the whole life of the CP every packet that it sends is sealed
under the keys of the session that is active then, or is one of ID, CAP, CHLNG, SCRYPT and KEYSET, by which the connection is set up: none of the other
commands of the application (0x68 and so on) leaves in the clear.  Missing: CPs without the flag, see `C102_cp_leak`. -/
theorem C102_cp_partial (C : Cipher) (info : PdM.Info) (i n : Nat) (sk : Bool) (p0 p q : Pd) (ops : List Op) (o outs : List Out) (cb : Bool) (env : Env)
    (bs : List Byte) (h0 : newPd info i sk n = some p0) (he : p0.flags.enforceSecure = true) (h : run C p0 ops = .ok (p, o))
    (hf : ∀ f, .flag f false ∈ ops → f &&& F_ENFORCE = 0) (hx : step C p (.update cb env) = .ok (q, outs)) (hs : bs ∈ Spec.Wire.sent outs) :
    (p.flags.scActive = true ∧ ∃ f msg id data, OnWire bs f env.sendCap ∧ Link.commandBuilt C p env = some (id :: data) ∧
      Sealed C p.sc.sEnc p.sc.sMac1 p.sc.sMac2 p.sc.rMac 0x15#8 0x17#8 f msg id data) ∨
    ∃ k : Spec.Wire.Packet, bs = k.bytes.take env.sendCap ∧
      ∀ id ∈ [0x60#8, 0x64#8, 0x65#8, 0x66#8, 0x67#8, 0x68#8, 0x69#8, 0x6A#8, 0x6B#8, 0x6E#8, 0x7C#8, 0x80#8, 0xA2#8], k.id ≠ some id := by
  refine (C101_partial C info i n sk p0 p q ops o outs cb env bs h0 he h hf hx hs).imp_right fun ⟨k, h1, _, h2⟩ => ⟨k, h1, ?_⟩
  revert h2
  generalize k.id = x
  intro h2 id hid e
  subst e
  revert id
  decide

/-- the application wants an output switched; it has a secure session -/
def open102 : Cmd := .output ⟨0, 2, 0⟩

/-- as in `robber101`, but for a command -/
def robber102 : List Op :=
  [.send { now := 400 } open102, hears [] 400, hears (reply 2 [b8 Id.NAK, 3]) 400, hears [] 1000000] ++ meetsAt 1000000 [9, 0, 0] 0 1 ++
    [hears [] 1000000, hears [] 1000000]

/-- **C102 violated by a CP.**  The command is handed over while the session is active.  After three packets of somebody without any key it leaves in the
clear, some five minutes or more later. -/
theorem C102_cp_leak : ∃ p o q o', run xorCipher cp (talk.turns xorCipher 20 20).cpOps = .ok (p, o) ∧ p.flags.scActive = true ∧ p.state = .online ∧
    run xorCipher p robber102 = .ok (q, o') ∧ q.flags.scActive = false ∧ (Spec.Wire.sent o').getLast? = some (cmd 2 [0x68, 0, 2, 0, 0]) := by
  obtain ⟨p, o, h, hd⟩ := ran (C := xorCipher) (p := cp) (ops := (talk.turns xorCipher 20 20).cpOps)
    (fun p _ => decide (p.flags.scActive = true ∧ p.state = .online) &&
      (match run xorCipher p robber102 with
        | .ok (q, o') => decide (q.flags.scActive = false ∧ (Spec.Wire.sent o').getLast? = some (cmd 2 [0x68, 0, 2, 0, 0]))
        | .error _ => false)) (by decide +kernel)
  simp only [Bool.and_eq_true] at hd
  obtain ⟨h1, h2⟩ := hd
  have h1 := of_decide_eq_true h1
  obtain ⟨q, o', h3, h4⟩ := ran (C := xorCipher) (p := p) (ops := robber102) (fun q o' => decide (q.flags.scActive = false ∧
    (Spec.Wire.sent o').getLast? = some (cmd 2 [0x68, 0, 2, 0, 0]))) h2
  have h4 := of_decide_eq_true h4
  exact ⟨p, o, q, o', h, h1.1, h1.2, h3, h4.1, h4.2⟩

/-- The hypotheses of `C102_cp_partial` are met; the strict CP sends the command in its session, and nothing of it to somebody without a key. -/
example :
    (let t := ({ cp := strictCp, pd := pd } : Talk).turns xorCipher 20 20
     strictCp.flags.enforceSecure = true ∧ t.cp.flags.scActive = true ∧
      (match run xorCipher t.cp robber102 with
        | .ok (q, o) => some (q.state, (Spec.Wire.sent o).map fun l => (l.drop 5).take 4)
        | .error _ => none) = some (.offline, [[0x0E, 2, 0x15, 0x60], [4, 0x61, 0, 0xD9], [5, 0x62, 0, 0xBA]]) ∧
      (((t.cpDoes xorCipher (.send { now := 400 } open102)).turns xorCipher 20 4).cpOuts |> Spec.Wire.sent |>.getLast?.map fun l => (l.drop 5).take 4) =
        some [0x0F, 2, 0x17, 0x68]) := by decide +kernel

end Osdp.CpM
