import Verif.Lemmas.CpBeat
import Verif.Lemmas.CpEvent
import Verif.Lemmas.Rounds
import Verif.Lemmas.SampleCp
import Verif.Props.C57

/-!
# C81: unknown replies to a POLL and IGN_UNSOLICITED

include/osdp.h:47-53: with the flag the CP does not "error and fail" when the PD sends an unknown, unsolicited response to a POLL.
-/

namespace Osdp.CpM

open Spec.Event (Reads)

/-- Spec: the reply codes of OSDP that the library knows -/
def replyCodes : List Nat :=
  [0x40, 0x41, 0x45, 0x46, 0x48, 0x49, 0x4A, 0x4B, 0x50, 0x51, 0x53, 0x54, 0x76, 0x78, 0x79, 0x7A, 0x90]

/-! ## Helpers -/

theorem strange_response {C : Cipher} {p q : Pd} {env : Env} {body : List Byte} {o : List Out} {rc : CpErr}
    (hk : p.replyId ∉ replyCodes) (h : response C p env body = .ok (q, o, rc)) : q = p ∧ o = [] ∧ rc = .unknown := by
  have hn : ∀ n, n ∈ replyCodes → ¬ p.replyId = n := fun n hn h => hk (h ▸ hn)
  unfold response at h
  dsimp only at h
  repeat rw [if_neg (hn _ (by decide))] at h
  injection h with h; injection h with e1 h; injection h with e2 e3
  exact ⟨e1.symm, e2.symm, e3.symm⟩

/-- what the CP does when it has heard an unknown reply -/
theorem strange_processed {C : Cipher} {p q : Pd} {env : Env} {id : Byte} {body : List Byte} {o : List Out} {rc : CpErr}
    (hcp : p.flags.pdMode = false) (hh : Phy.heard C p env = some (id, body)) (hk : id.toNat ∉ replyCodes)
    (h : processReply C p env = .ok (q, o, rc)) :
    ∃ p2, Phy.Transp p p2 ∧ p2.flags.scActive = p.flags.scActive ∧ q = { p2 with replyId := id.toNat } ∧ o = [] ∧ rc = .unknown := by
  have hr := processReply_inv h
  have hl0 := hr.learned
  cases hr with
  | reply h1 hc h2 hd hlen hid hl hb h3 _ =>
    rw [Phy.heard_of h1 h2 hlen hid, ← hb] at hh
    injection hh with hh; injection hh with e1 e2; subst e1 e2
    obtain ⟨rfl, rfl, rfl⟩ := strange_response (by exact hk) h3
    refine ⟨_, hc.transp.trans hd.transp, ?_, rfl, rfl, rfl⟩
    rcases hd.outcome with ⟨h, -⟩ | ⟨-, -, h⟩
    · rw [h] at hlen; exact absurd hlen (by decide)
    · exact h.trans (hc.cpActive hcp)
  | _ =>
    rcases hl0 with ⟨-, -, hn⟩ | ⟨id', body', p2, h1, h2, h3, -⟩
    · rw [hh] at hn; cases hn
    · rw [hh] at h1
      injection h1 with h1; injection h1 with e1 e2; subst e1 e2
      have := (strange_response (by exact hk) h3).2.2
      cases this

/-- the whole visit in which an unknown reply is read -/
theorem strange_visit {C : Cipher} {cb : Bool} {p q : Pd} {env : Env} {id : Byte} {body : List Byte} {outs : List Out}
    (I : Inv p) (hh : replyOf C p env = some (id, body)) (hk : id.toNat ∉ replyCodes)
    (h : step C p (.update cb env) = .ok (q, outs)) :
    ∃ p2 o2, Phy.Transp p p2 ∧ p2.flags.scActive = p.flags.scActive ∧ Mid p2 ∧
      settle cb (if p.cmdId = Id.POLL ∧ p.flags.ignUnsolicited = true
        then { p2 with replyId := id.toNat, scTstamp := if p2.scActive then env.now else p2.scTstamp, phyState := .done }
        else { p2 with replyId := id.toNat, phyState := .err }) env = .ok (q, o2) := by
  obtain ⟨⟨s1, o1, y⟩, hu, h1⟩ := Res.bind_eq_ok.mp h
  injection h1 with h1; injection h1 with e1 e2; subst e1 e2
  have hps : p.phyState = .replyWait := by
    refine Classical.byContradiction fun hn => ?_
    unfold replyOf at hh
    rw [if_neg hn] at hh; cases hh
  unfold replyOf at hh
  rw [if_pos hps] at hh
  obtain ⟨p1, o1', r, hph, hcase⟩ := update_waits hps hu
  unfold phyReply at hph
  obtain ⟨⟨p', o', rc⟩, hpr, hph⟩ := Res.bind_eq_ok.mp hph
  obtain ⟨p2, ht, hact, rfl, rfl, rfl⟩ := strange_processed I.cp hh hk hpr
  have hm : Mid p2 := by
    have m := heard_mid I hps (processReply_inv hpr)
    exact ⟨m.cp, m.restart, m.lo, m.hi, m.probe, m.secure, m.install⟩
  dsimp only at hph
  rw [if_neg (by simp)] at hph
  have hcmd : p2.cmdId = p.cmdId := by rw [ht]; rfl
  have hign := ht.ignUnsolicited
  refine ⟨p2, ?_⟩
  by_cases hc : p.cmdId = Id.POLL ∧ p.flags.ignUnsolicited = true
  · rw [if_pos ⟨rfl, by rw [← hc.1]; exact hcmd, by rw [← hc.2]; exact hign⟩] at hph
    injection hph with hph; injection hph with e1 hph; injection hph with _ e3; subst e1 e3
    rw [if_pos hc]
    rcases hcase with ⟨hi, -⟩ | ⟨hi, -⟩ | ⟨o2, hs⟩
    · cases hi
    · cases hi
    · exact ⟨o2, ht, hact, hm, hs⟩
  · rw [if_neg (fun h => hc ⟨hcmd ▸ h.2.1, hign ▸ h.2.2⟩), if_pos (.inr rfl)] at hph
    injection hph with hph; injection hph with e1 hph; injection hph with _ e3; subst e1 e3
    rw [if_neg hc]
    rcases hcase with ⟨hi, -⟩ | ⟨hi, -⟩ | ⟨o2, hs⟩
    · cases hi
    · cases hi
    · exact ⟨o2, ht, hact, hm, hs⟩

/-! ### no request to go offline is left over while the PD is online -/

def Calm (p : Pd) : Prop := p.state = .online → p.reqOffline = false

theorem advance_calm {cb : Bool} {p q : Pd} {env : Env} {cur : CpState} {ok : Bool} {outs : List Out} (hc : cur = p.state)
    (h : advance cb p env cur ok = .ok (q, outs)) : Calm q := by
  subst hc
  cases advance_inv h with
  | @mk p1 p2 o1 o2 n1 n2 h1 h2 =>
  have hst : p1.state = p.state := by
    cases ok with
    | true => exact (nextOk_drift h1).2.1
    | false => exact (nextErr_drift h1).2.1
  intro hq
  have key : p2.reqOffline = false := by
    rcases requests_inv h2 with ⟨hn, rfl, -, rfl⟩ | ⟨-, rfl, -⟩
    · exfalso
      by_cases hne : p.state ≠ n2
      · rw [if_pos hne, (stateChange_drift cb p2 env n2).2.1] at hq
        exact hn (.inr hq)
      · rw [if_neg hne] at hq
        exact hn (.inl hq)
    · rfl
  by_cases hne : p.state ≠ n2
  · rw [if_pos hne, (stateChange_drift cb p2 env n2).2.2.2.2.2.2.2.1]; exact key
  · rw [if_neg hne]; exact key

theorem Reply.noOffline {C : Cipher} {p q : Pd} {env : Env} {o : List Out} {rc : CpErr} (h : Reply C p env q o rc)
    (hrc : rc = .retryCmd ∨ rc = .noData) : q.reqOffline = p.reqOffline := by
  cases h with
  | nothing _ hc _ => rw [hc.transp]; rfl
  | busy _ hc => rw [hc.transp]; rfl
  | bad _ _ _ => simp at hrc
  | seq _ _ => simp at hrc
  | refused _ _ _ _ _ => simp at hrc
  | reply _ hc _ hd _ _ _ _ _ he' =>
    have t := hc.transp.trans hd.transp
    cases he' with
    | busy _ => show Pd.reqOffline _ = _; rw [t]; rfl
    | _ => exact absurd hrc (by (try split) <;> simp)

theorem settle_calm {cb : Bool} {p q : Pd} {env : Env} {outs : List Out} (hc : Calm p) (h : settle cb p env = .ok (q, outs)) : Calm q := by
  cases settle_inv h with
  | @command p1 _ id h1 h2 h3 =>
    obtain ⟨c1, -⟩ := stateGetCmd_inv h2
    unfold Chosen at c1
    intro hq
    have e1 : p1.state = p.state := by rw [c1]
    have e2 : p1.reqOffline = p.reqOffline := by rw [c1]
    exact e2.trans (hc (e1.symm.trans hq))
  | nothing h1 h2 h3 => exact advance_calm rfl h3
  | over h1 h2 h3 => exact advance_calm rfl h3

theorem Calm.step {C : Cipher} {p q : Pd} {op : Op} {outs : List Out} (I : Inv p) (T : Calm p)
    (h : step C p op = .ok (q, outs)) : Calm q := by
  by_cases hop : ¬ ∃ cb e, op = .update cb e
  · have ha := step_apiOnly h fun cb e he => hop ⟨cb, e, he⟩
    unfold Api at ha
    exact fun hs => by rw [ha] at hs ⊢; exact T hs
  replace hop := Classical.not_not.mp hop
  obtain ⟨cb, env, rfl⟩ := hop
  obtain ⟨⟨s1, o1, y⟩, hu, h⟩ := Res.bind_eq_ok.mp h
  injection h with h; injection h with e1 e2; subst e1 e2
  have w : ∀ {q : Pd} {o : List Out} {rc : CpErr}, Waited C p env q o rc → rc = .canYield ∨ rc = .inprog → Calm q := by
    intro q o rc h hrc hq
    have hs := T (h.state.1.symm.trans hq)
    cases h with
    | busy h => exact (h.noOffline (.inl rfl)).trans hs
    | retry h _ _ => exact (h.noOffline (.inr rfl)).trans hs
    | waiting h _ => exact (h.noOffline (.inr rfl)).trans hs
    | _ => simp at hrc
  have fin : ∀ {p1 q : Pd} {o : List Out}, p1.phyState = .done ∨ p1.phyState = .err → settle cb p1 env = .ok (q, o) → Calm q := by
    intro p1 q o hps h
    cases settle_inv h with
    | command h0 _ _ => rcases hps with h | h <;> rw [h] at h0 <;> cases h0
    | nothing h0 _ _ => rcases hps with h | h <;> rw [h] at h0 <;> cases h0
    | over h1 h2 h3 => exact advance_calm rfl h3
  cases stateUpdate_inv I.cp hu with
  | hold _ _ => exact T
  | @sent p1 _ hm h =>
    have hs := h.sent
    unfold Sent at hs
    intro hq
    have e1 : p1.state = p.state := by rw [hs]
    show p1.reqOffline = _
    rw [hs]
    exact T (e1.symm.trans hq)
  | unsent hm h1 h2 => exact fin (.inr rfl) h2
  | replied hps h1 hrc h2 =>
    refine fin ?_ h2
    cases h1 with
    | answered _ => exact .inl rfl
    | ignored _ _ _ => exact .inl rfl
    | failed _ _ => exact .inr rfl
    | exhausted _ _ _ => exact .inr rfl
    | busy _ => simp at hrc
    | retry _ _ _ => simp at hrc
    | waiting _ _ => simp at hrc
  | again _ h1 => exact w h1 (.inl rfl)
  | waiting _ h1 => exact w h1 (.inr rfl)
  | idle _ h => exact settle_calm T h

theorem Reached.calm {C : Cipher} {info : PdM.Info} {q : Pd} (h : Reached C info q) : Calm q := by
  obtain ⟨i, sk, n, p, ops, o, hn, hr⟩ := h
  refine run_ind (C := C) (p := p) (fun _ q _ => Calm q) ?_
    (fun _ _ q _ _ _ hr T h => T.step (Reached.inv (C := C) ⟨i, sk, n, p, _, _, hn, hr⟩) h) hr
  unfold newPd at hn
  split at hn
  · cases hn
  · injection hn with hn; subst hn; exact fun hs => by cases hs

theorem strange_reads {id : Nat} {body : List Byte} {e : Event} (h : id ∉ replyCodes) : ¬ Reads id body e := by
  intro hr
  cases hr <;> exact h (by decide)

theorem strange_checked {cb : Bool} {p : Pd} (hs : p.state = .online) (hk : p.replyId ∉ replyCodes) :
    stateCheckReply cb p = .ok (p, [], decide (p.replyId ≠ 0 ∧ p.cmdId = Id.POLL ∧ p.flags.ignUnsolicited = true)) := by
  have hn : ∀ n, n ∈ replyCodes → ¬ p.replyId = n := fun n hn h => hk (h ▸ hn)
  unfold stateCheckReply checkOnline
  rw [hs]
  dsimp only
  rw [if_neg (hn _ (by decide))]
  by_cases hz : p.replyId = 0
  · rw [if_pos (.inr hz)]; simp [hz]
  rw [if_neg (fun h => h.elim (hn _ (by decide)) hz)]
  unfold expectedReply
  have b : ∀ n, n ∈ replyCodes → (p.replyId == n) = false := fun n h => by simpa using hn n h
  by_cases hp : p.cmdId = Id.POLL
  · rw [if_pos hp]
    have : [Id.LSTATR, Id.ISTATR, Id.OSTATR, Id.RSTATR, Id.MFGREP, Id.RAW, Id.KEYPAD].contains p.replyId = false := by
      rw [← Bool.not_eq_true, List.contains_iff_mem]
      intro hm
      refine hk (?_ : p.replyId ∈ replyCodes)
      revert hm
      generalize p.replyId = n
      intro hm
      simp only [List.mem_cons, List.not_mem_nil, or_false] at hm
      rcases hm with rfl | rfl | rfl | rfl | rfl | rfl | rfl <;> decide
    rw [this]
    cases hi : p.flags.ignUnsolicited <;> simp [hz, hp]
  · rw [if_neg hp, b _ (by decide), b _ (by decide), b _ (by decide), b _ (by decide), b _ (by decide), b _ (by decide), b _ (by decide)]
    simp [hp]

/-- what follows a good exchange while the PD is online and nobody asked for anything else -/
theorem strange_next {p : Pd} {now : Int} (hst : p.state = .online) (ho : p.reqOffline = false) (hr : p.reqRestartSc = false) :
    finalState p now true = .online ∨
      finalState p now true = .scChlng ∧ p.flags.scActive = false ∧ 600000 < now - p.scTstamp := by
  unfold finalState nextState
  rw [if_pos (.inl hst), if_neg (by rw [ho]; simp), if_neg (by rw [hr]; simp), hst]
  dsimp only
  by_cases hs : scShouldRetry p now = true
  · rw [if_pos hs]
    unfold scShouldRetry at hs
    simp only [Bool.and_eq_true, Bool.not_eq_true', decide_eq_true_eq] at hs
    exact .inr ⟨rfl, hs.1.2, hs.2⟩
  · rw [if_neg hs]; exact .inl rfl

/-- what follows a failed exchange while the PD is online -/
theorem strange_failed {p : Pd} {now : Int} (hst : p.state = .online) (hr : p.reqRestartSc = false) :
    finalState p now false = .offline := by
  unfold finalState nextState
  rw [if_pos (.inl hst), hst, if_neg (c := p.reqRestartSc = true) (by rw [hr]; simp)]
  dsimp only
  split <;> rfl

/-! ## The property -/

/-- **C81, ignored (partial: for reply codes other than 0).**  A PD is online, the CP has polled it, and the flag is set.  The reply has
a code the library does not know.  Then the PD stays online (or, having no session although it is capable of one, is challenged again
when it is time for that), ready for the next command; the application gets no event, the CP learns nothing about the PD, and the
commands waiting and the file transfer stay as they were. -/
theorem C81_partial (C : Cipher) (info : PdM.Info) (p q : Pd) (cb : Bool) (env : Env) (outs : List Out) (id : Byte) (body : List Byte)
    (hr : Reached C info p) (hon : p.state = .online) (hcmd : p.cmdId = 0x60) (hign : p.flags.ignUnsolicited = true)
    (hh : replyOf C p env = some (id, body)) (hk : id.toNat ∉ replyCodes) (hz : id ≠ 0#8)
    (h : step C p (.update cb env) = .ok (q, outs)) :
    (q.state = .online ∨ q.state = .scChlng ∧ p.flags.scActive = false ∧ 600000 < env.now - p.scTstamp) ∧ q.phyState = .idle ∧
      pdEvents outs = [] ∧ SameInfo p q ∧ q.cmdQueue = p.cmdQueue ∧ q.file = p.file ∧
      (q.state = .online → q.flags.scActive = p.flags.scActive) := by
  have hev : pdEvents outs = [] := by
    rcases C57_partial C info p q cb env outs hr hon h with h | ⟨id', body', e, h1, h2, -⟩
    · exact h
    · rw [hh] at h1
      injection h1 with h1; injection h1 with e1 e2; subst e1 e2
      exact absurd h2 (strange_reads hk)
  obtain ⟨p2, o2, ht, hact, hm, hs⟩ := strange_visit hr.inv hh hk h
  rw [if_pos ⟨hcmd, hign⟩] at hs
  have hidle := (over_idle (p := { p2 with replyId := id.toNat, scTstamp := if p2.scActive then env.now else p2.scTstamp, phyState := .done })
    ⟨hm.cp, hm.restart, hm.lo, hm.hi, hm.probe, hm.secure, hm.install⟩ (.inl rfl) hs).1
  have hcalm := hr.calm hon
  have hinv := hr.inv.restart
  cases settle_inv hs with
  | command h0 _ _ => cases h0
  | nothing h0 _ _ => cases h0
  | @over p3 _ o3 o4 ok h1 h2 h3 =>
    have hst2 : p2.state = .online := by rw [ht]; exact hon
    have hz' : id.toNat ≠ 0 := fun h => hz (BitVec.eq_of_toNat_eq h)
    rw [strange_checked (p := { p2 with replyId := id.toNat, scTstamp := if p2.scActive then env.now else p2.scTstamp, phyState := .done })
      hst2 hk] at h2
    have hcm2 : p2.cmdId = Id.POLL := by rw [ht]; exact hcmd
    have hig2 : p2.flags.ignUnsolicited = true := by rw [ht.ignUnsolicited]; exact hign
    injection h2 with h2; injection h2 with e1 h2; injection h2 with e2 e3; subst e1 e2 e3
    rw [decide_eq_true ⟨hz', hcm2, hig2⟩] at h3
    have hfs := advance_state h3
    obtain ⟨dr, d2, -, d4⟩ := advance_drift h3
    have ho2 : p2.reqOffline = false := by rw [ht]; exact hcalm
    have hr2 : p2.reqRestartSc = false := by rw [ht]; exact hinv
    have hact2 : p2.scActive = p.flags.scActive := hact
    refine ⟨?_, ?_, hev, ?_, ?_, ?_, ?_⟩
    · rw [hfs]
      refine (strange_next ?_ ?_ ?_).imp_right fun h => ?_
      · exact hst2
      · exact ho2
      · exact hr2
      · refine ⟨h.1, hact ▸ h.2.1, ?_⟩
        have h2 := h.2.2
        rw [show (Phy.stateReset { p2 with replyId := id.toNat, scTstamp := if p2.scActive then env.now else p2.scTstamp, phyState := .done } false).1.scTstamp
          = if p2.scActive then env.now else p2.scTstamp from rfl, if_neg (by rw [show p2.scActive = false from h.2.1]; simp), ht.scTstamp] at h2
        exact h2
    · exact hidle
    · have e : SameInfo p2 (Phy.stateReset { p2 with replyId := id.toNat, scTstamp := if p2.scActive then env.now else p2.scTstamp, phyState := .done } false).1 :=
        ⟨rfl, rfl, rfl, rfl, rfl, rfl⟩
      exact ((transp_info ht).trans e).trans dr.info
    · rw [d2]; show p2.cmdQueue = _; rw [ht]; rfl
    · rw [d4]; show p2.file = _; rw [ht]; rfl
    · intro hq
      rw [(advance_online (p := (Phy.stateReset { p2 with replyId := id.toNat, scTstamp := if p2.scActive then env.now else p2.scTstamp, phyState := .done } false).1) rfl hst2 h3 hq).1]
      exact hact

/-- **C81, without the flag** (and for every other command): the PD goes offline. -/
theorem C81_without (C : Cipher) (info : PdM.Info) (p q : Pd) (cb : Bool) (env : Env) (outs : List Out) (id : Byte) (body : List Byte)
    (hr : Reached C info p) (hon : p.state = .online) (hno : p.cmdId ≠ 0x60 ∨ p.flags.ignUnsolicited = false)
    (hh : replyOf C p env = some (id, body)) (hk : id.toNat ∉ replyCodes)
    (h : step C p (.update cb env) = .ok (q, outs)) : q.state = .offline := by
  obtain ⟨p2, o2, ht, hact, hm, hs⟩ := strange_visit hr.inv hh hk h
  have hst2 : p2.state = .online := by rw [ht]; exact hon
  have hr2 : p2.reqRestartSc = false := by rw [ht]; exact hr.inv.restart
  rw [if_neg (fun h => by rcases hno with h' | h'; exact h' h.1; rw [h'] at h; cases h.2)] at hs
  cases settle_inv hs with
  | command h0 _ _ => cases h0
  | nothing h0 _ _ => cases h0
  | @over p3 _ o3 o4 ok h1 h2 h3 =>
    rw [strange_checked (p := { p2 with replyId := id.toNat, phyState := .err }) hst2 hk] at h2
    injection h2 with h2; injection h2 with e1 h2; injection h2 with e2 e3; subst e1 e2 e3
    rw [advance_state h3]
    exact strange_failed (p := (Phy.stateReset { p2 with replyId := id.toNat, phyState := .err } false).1) hst2 hr2

/-- **C81 fails for the reply code 0**: the PD goes offline although the flag is set. -/
theorem C81_zero (C : Cipher) (info : PdM.Info) (p q : Pd) (cb : Bool) (env : Env) (outs : List Out) (body : List Byte)
    (hr : Reached C info p) (hon : p.state = .online) (hh : replyOf C p env = some (0#8, body))
    (h : step C p (.update cb env) = .ok (q, outs)) : q.state = .offline := by
  have hk : (0#8).toNat ∉ replyCodes := by decide
  obtain ⟨p2, o2, ht, hact, hm, hs⟩ := strange_visit hr.inv hh hk h
  have hst2 : p2.state = .online := by rw [ht]; exact hon
  have hr2 : p2.reqRestartSc = false := by rw [ht]; exact hr.inv.restart
  by_cases hf : p.cmdId = Id.POLL ∧ p.flags.ignUnsolicited = true
  · rw [if_pos hf] at hs
    cases settle_inv hs with
    | command h0 _ _ => cases h0
    | nothing h0 _ _ => cases h0
    | @over p3 _ o3 o4 ok h1 h2 h3 =>
      rw [strange_checked (p := { p2 with replyId := (0#8).toNat, scTstamp := if p2.scActive then env.now else p2.scTstamp, phyState := .done })
        hst2 hk, decide_eq_false (fun h => h.1 rfl)] at h2
      injection h2 with h2; injection h2 with e1 h2; injection h2 with e2 e3; subst e1 e2 e3
      rw [advance_state h3]
      exact strange_failed (p := (Phy.stateReset { p2 with replyId := (0#8).toNat, scTstamp := if p2.scActive then env.now else p2.scTstamp, phyState := .done } false).1) hst2 hr2
  · refine C81_without C info p q cb env outs 0#8 body hr hon ?_ hh hk h
    by_cases h1 : p.cmdId = Id.POLL
    · exact .inr (by rw [← Bool.not_eq_true]; exact fun h2 => hf ⟨h1, h2⟩)
    · exact .inl h1

/-! ### examples and the witness -/

namespace Sample81
open Osdp.Sample (meets hears reply ran ran_step blocks64 rndA)

/-- the sample PD, with the flag or without it -/
def info (flag : Bool) : PdM.Info := { Sample.pdInfo with ignUnsolicited := flag }
def cpPd (flag : Bool) : Pd := (newPd (info flag) 0 false 16).getD (PdM.blank 16)
theorem cpPd_new (flag : Bool) : newPd (info flag) 0 false 16 = some (cpPd flag) := by
  unfold cpPd newPd
  rw [if_neg (by intro h; cases h.2)]
  rfl

/-- it is online and has been polled -/
def asked : List Op := meets [4, 0, 0] ++ [hears [] 100, hears [] 100]
/-- a reply to the poll with a code and two bytes of data -/
def replyEnv (id : Byte) : Env := { now := 100, recv := blocks64 (reply 2 [id, 1, 2]), random := rndA }

/-- the situation of the theorems, and what the CP does with the reply; the last but one component is the state after it -/
theorem situation (flag : Bool) (id : Byte) (st : CpState)
    (h1 : (match run xorCipher (cpPd flag) asked with
      | .ok (p, _) => p.state == .online && p.cmdId == 0x60 && (p.flags.ignUnsolicited == flag) &&
          replyOf xorCipher p (replyEnv id) == some (id, [1, 2])
      | .error _ => false) = true)
    (h2 : (match run xorCipher (cpPd flag) asked >>= fun x => step xorCipher x.1 (.update true (replyEnv id)) with
      | .ok (q, _) => q.state == st
      | .error _ => false) = true) :
    ∃ p o q outs, Reached xorCipher (info flag) p ∧ run xorCipher (cpPd flag) asked = .ok (p, o) ∧ p.state = .online ∧ p.cmdId = 0x60 ∧
      p.flags.ignUnsolicited = flag ∧ replyOf xorCipher p (replyEnv id) = some (id, [1, 2]) ∧
      step xorCipher p (.update true (replyEnv id)) = .ok (q, outs) ∧ q.state = st := by
  revert h1 h2
  generalize hc : cpPd flag = c
  intro h1 h2
  split at h1
  · rename_i p o g1
    rw [g1] at h2
    replace h2 : (match step xorCipher p (.update true (replyEnv id)) with | .ok (q, _) => q.state == st | .error _ => false) = true := h2
    split at h2
    · rename_i q outs g2
      simp only [Bool.and_eq_true, beq_iff_eq] at h1 h2
      exact ⟨p, o, q, outs, ⟨0, false, 16, c, asked, o, hc ▸ cpPd_new flag, g1⟩, g1, h1.1.1.1, h1.1.1.2, h1.1.2, h1.2, g2, h2⟩
    · cases h2
  · cases h1

/-- `C81_partial` is not vacuous: a manufacturer status report (code 0x83) with the flag -/
example : ∃ p o q outs, Reached xorCipher (info true) p ∧ run xorCipher (cpPd true) asked = .ok (p, o) ∧ p.state = .online ∧ p.cmdId = 0x60 ∧
    p.flags.ignUnsolicited = true ∧ replyOf xorCipher p (replyEnv 0x83#8) = some (0x83#8, [1, 2]) ∧
    step xorCipher p (.update true (replyEnv 0x83#8)) = .ok (q, outs) ∧ q.state = .online :=
  situation true 0x83#8 .online (by decide +kernel) (by decide +kernel)

/-- `C81_without` is not vacuous: the same without the flag -/
example : ∃ p o q outs, Reached xorCipher (info false) p ∧ run xorCipher (cpPd false) asked = .ok (p, o) ∧ p.state = .online ∧ p.cmdId = 0x60 ∧
    p.flags.ignUnsolicited = false ∧ replyOf xorCipher p (replyEnv 0x83#8) = some (0x83#8, [1, 2]) ∧
    step xorCipher p (.update true (replyEnv 0x83#8)) = .ok (q, outs) ∧ q.state = .offline :=
  situation false 0x83#8 .offline (by decide +kernel) (by decide +kernel)

example : (0x83#8).toNat ∉ replyCodes := by decide

/-- the witness behind `C81_zero`: the flag is set, the PD is online and polled, its reply has the code 0, and it is offline -/
theorem C81_witness : ∃ p o q outs, Reached xorCipher (info true) p ∧ run xorCipher (cpPd true) asked = .ok (p, o) ∧ p.state = .online ∧
    p.cmdId = 0x60 ∧ p.flags.ignUnsolicited = true ∧ replyOf xorCipher p (replyEnv 0#8) = some (0#8, [1, 2]) ∧
    step xorCipher p (.update true (replyEnv 0#8)) = .ok (q, outs) ∧ q.state = .offline :=
  situation true 0#8 .offline (by decide +kernel) (by decide +kernel)

end Sample81

end Osdp.CpM
