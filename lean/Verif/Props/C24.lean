import Verif.Lemmas.CpEvent
import Verif.Props.C21

/-!
# C24: a PD that has to be secure is never online in the clear

The full statement fails for a flag set at run time: `osdp_cp_modify_flag` with `OSDP_FLAG_ENFORCE_SECURE` leaves a PD that is
online in the clear online in the clear (`C24_late`). It holds if the flag has been set since before the PD came online
(`C24_partial`); that includes the flag given at set up.
-/

namespace Osdp.CpM

open Spec.Session

/-- Bookkeeping beside the run: has the flag been set all the time since the PD was last not online? -/
def Vigil (C : Cipher) (b : Bool) (p : Pd) : List Op → Bool
  | [] => b
  | op :: ops => match CpM.step C p op with
    | .ok (q, _) => Vigil C ((b || decide (q.state ≠ .online)) && q.flags.enforceSecure) q ops
    | .error _ => b

theorem vigil_run {C : Cipher} {ops : List Op} {p q : Pd} {o : List Out} {b : Bool} (I : Inv p)
    (hb : b = true → p.flags.enforceSecure = true ∧ (p.state = .online → p.flags.scActive = true))
    (h : run C p ops = .ok (q, o)) :
    Vigil C b p ops = true → q.flags.enforceSecure = true ∧ (q.state = .online → q.flags.scActive = true) := by
  induction ops generalizing p o b with
  | nil =>
    injection h with h; injection h with e1 e2; subst e1
    exact hb
  | cons op ops ih =>
    obtain ⟨⟨p1, o1⟩, h1, h⟩ := Res.bind_eq_ok.mp h
    obtain ⟨⟨p2, o2⟩, h2, h⟩ := Res.bind_eq_ok.mp h
    injection h with h; injection h with e1 e2; subst e1 e2
    unfold Vigil
    rw [h1]
    refine ih (I.step h1) (fun hv => ?_) h2
    simp only [Bool.and_eq_true, Bool.or_eq_true, decide_eq_true_eq] at hv
    refine ⟨hv.2, fun hon => ?_⟩
    obtain ⟨he, hs⟩ := hb (hv.1.resolve_right fun h => h hon)
    by_cases hu : ∀ cb env, op ≠ .update cb env
    · have ha := step_apiOnly h1 hu
      unfold Api at ha
      rw [ha] at hon ⊢
      exact hs hon
    obtain ⟨cb, env, rfl⟩ : ∃ cb env, op = .update cb env :=
      Classical.byContradiction fun hn => hu fun cb env he => hn ⟨cb, env, he⟩
    obtain ⟨⟨s1, o3, y⟩, hu', h3⟩ := Res.bind_eq_ok.mp h1
    clear h1
    injection h3 with h3; injection h3 with e1 e2; subst e1 e2
    exact (stateUpdate_inv I.cp hu').guard I he hs hon

theorem Update.enforce {C : Cipher} {cb : Bool} {p q : Pd} {env : Env} {outs : List Out} {y : Bool} (I : Inv p)
    (h : Update C cb p env q outs y) : q.flags.enforceSecure = p.flags.enforceSecure := by
  have fin : ∀ {p1 q : Pd} {o : List Out}, Mid p1 → p1.flags.enforceSecure = p.flags.enforceSecure → settle cb p1 env = .ok (q, o) →
      q.flags.enforceSecure = p.flags.enforceSecure := by
    intro p1 q o M h1 h2
    rw [(settle_drift h2).flags]
    exact h1
  cases h with
  | hold _ _ => rfl
  | sent _ h =>
    have := h.sent
    unfold Sent at this
    unfold sentState
    rw [this]
    rfl
  | @unsent p1 _ _ _ _ h1 h2 =>
    have := h1.sent
    unfold Sent at this
    exact fin (unsent_mid I h1) (by rw [this]) h2
  | replied hps h1 _ h2 => exact fin (waited_mid I hps h1) h1.enforce h2
  | again _ h1 => exact h1.enforce
  | waiting _ h1 => exact h1.enforce
  | idle _ h1 => exact fin I.mid rfl h1

/-- the default key may get selected during an exchange, but not deselected -/
theorem Ended.scbkd {C : Cipher} {p p1 : Pd} {env : Env} {o : List Out} (I : Inv p) (h : Ended C p env p1 o)
    (hs : p.state = .scScrypt) : p.flags.useScbkd = true → p1.flags.useScbkd = true := by
  cases h with
  | unsent _ h => exact h.sent.sameKeys.scbkd
  | waited hps hw _ =>
    have key : ∀ {q : Pd} {rc : CpErr}, Reply C p env q o rc → p.flags.useScbkd = true → q.flags.useScbkd = true := by
      intro q rc h
      rcases h.keys with ⟨hk, -⟩ | ⟨_, _, _, _, _, _, _, h3, _⟩
      · exact hk.scbkd
      · have := I.cmd (by simp [hps])
        rw [hs, h3] at this
        exact absurd this (show ¬ Id.CHLNG = Id.SCRYPT by decide)
    cases hw with
    | answered h => have k := key h; exact k
    | ignored h _ _ => have k := key h; exact k
    | failed h _ => have k := key h; exact k
    | exhausted h _ _ => have k := key h; exact k
    | busy h => have k := key h; exact k
    | retry h _ _ => have k := key h; exact k
    | waiting h _ => have k := key h; exact k

theorem Ended.enforce {C : Cipher} {p p1 : Pd} {env : Env} {o : List Out} (h : Ended C p env p1 o) :
    p1.flags.enforceSecure = p.flags.enforceSecure := by
  cases h with
  | unsent _ h =>
    have := h.sent
    unfold Sent at this
    rw [this]
  | waited _ hw _ => exact hw.enforce

/-- when events are delivered, if the channel has to be secure -/
theorem Update.delivers {C : Cipher} {cb : Bool} {p q : Pd} {env : Env} {outs : List Out} {y : Bool} (I : Inv p) (B : Buffered p)
    (P : Proper p) (he : p.flags.enforceSecure = true) (h : Update C cb p env q outs y) :
    pdEvents outs ≠ [] → p.state = .online ∨ (p.state = .scScrypt ∧ p.flags.useScbkd = false) := by
  have adv : ∀ {p2 q : Pd} {o3 : List Out} {ok : Bool} {s : CpState}, p2.state = s → s = p.state →
      Pending C p env p2.reqEventSend p2.eph → p2.flags.enforceSecure = true →
      (p.state = .scScrypt → p.flags.useScbkd = true → p2.flags.useScbkd = true) → advance cb p2 env s ok = .ok (q, o3) →
      ∀ {o : List Out}, pdEvents o = [] → pdEvents (o ++ o3) ≠ [] → p.state = .online ∨ (p.state = .scScrypt ∧ p.flags.useScbkd = false) := by
    intro p2 q o3 ok s hs hsp hpd he2 hu ha o ho hne
    subst hs
    obtain ⟨a1, -⟩ := advance_events (hpd.proper P) ha
    rw [pdEvents_append, ho, a1] at hne
    have hat : attends p2 env.now ok = true := by
      cases hat : attends p2 env.now ok with
      | true => rfl
      | false => rw [hat] at hne; exact absurd rfl hne
    unfold attends at hat
    rw [decide_eq_true_eq, hsp] at hat
    rcases hat with h | h
    · exact .inl h
    · by_cases hon : p.state = .online
      · exact .inl hon
      right
      unfold nextState at h
      rw [hsp, he2] at h
      cases ok with
      | true =>
        cases hst : p.state <;> rw [hst] at h <;> dsimp only at h
        case scScrypt =>
          refine ⟨rfl, ?_⟩
          cases hp : p.flags.useScbkd with
          | false => rfl
          | true => rw [hu hst hp] at h; cases h
        case online => exact absurd hst hon
        case capdet => split at h <;> cases h
        case offline => split at h <;> cases h
        all_goals cases h
      | false =>
        cases hst : p.state <;> rw [hst] at h <;> cases h
  cases h.visit I with
  | on h1 _ _ _ _ no h7 h8 => exact fun h => absurd no.pdEvents h
  | @command p1 _ id h1 h2 h3 => exact fun h => absurd (noEvent_fclose (stateGetCmd_inv h2).2.2.1).pdEvents h
  | @nothing p1 _ o1 o2 h1 h2 h3 =>
      obtain ⟨c1, -, c3, -⟩ := stateGetCmd_inv h2
      unfold Chosen at c1
      exact adv (p2 := { p1 with cmdId := 0 }) rfl (by rw [c1]) (.inl ⟨by show p1.reqEventSend = _; rw [c1], fun e he => stateGetCmd_eph h2 e he⟩)
        (by rw [c1]; exact he) (fun _ h => by rw [c1]; exact h) h3 (noEvent_fclose c3).pdEvents
  | @over p1 p2 _ o1 o2 o3 ok h1 h2 h3 h4 h5 h6 =>
      obtain ⟨k1, -, -, k4, k5, -⟩ := stateCheckReply_state h5
      have hj := (stateCheckReply_inv h5).2
      have hfl : p2.flags.enforceSecure = p1.flags.enforceSecure ∧ (p.state = .scScrypt → p2.flags.useScbkd = p1.flags.useScbkd) := by
        rcases hj with ⟨rfl, -⟩ | ⟨hon, -, -, h⟩
        · exact ⟨rfl, fun _ => rfl⟩
        · obtain ⟨k, -, rfl, -⟩ := keysetComplete_inv h
          refine ⟨rfl, fun hs => ?_⟩
          rw [h2.keeps.1, hs] at hon; cases hon
      have := adv (p2 := (Phy.stateReset p2 false).1) (o := o1 ++ (o2 ++ notifyCommand cb p2 ok)) rfl
        (k1.trans h2.keeps.1) (by show Pending C p env p2.reqEventSend p2.eph; rw [k4, k5]; exact h2.pending I.cp B)
        (show p2.flags.enforceSecure = true by rw [hfl.1, h2.enforce]; exact he)
        (fun hs hu => show p2.flags.useScbkd = true by rw [hfl.2 hs]; exact h2.scbkd I hs hu) h6
        (by rw [pdEvents_append, pdEvents_append, h2.keeps.2.2.2.pdEvents, (stateCheckReply_only h5).pdEvents,
              notifyCommand_only.pdEvents]; rfl)
      rw [List.append_assoc, List.append_assoc] at this
      rw [List.append_assoc]
      exact this

/-- the commands by which the library itself sets up the connection -/
def setupIds : List Nat := [Id.ID, Id.CAP, Id.CHLNG, Id.SCRYPT, Id.KEYSET]

/-- **C24, with the flag set since before the PD came online.**  In every such history:
* a PD that is regarded as online has an active secure channel, whose keys stem from the key the CP holds for it and which was
  opened by proof of that key;
* otherwise only commands setting up the connection are sent;
* events are delivered only to a PD online, or in the visit that completes the handshake with that key. -/
theorem C24_partial (C : Cipher) (info : PdM.Info) (i n : Nat) (sk : Bool) (p0 p : Pd) (ops : List Op) (o : List Out)
    (h0 : newPd info i sk n = some p0) (h : run C p0 ops = .ok (p, o)) (hv : Vigil C p0.flags.enforceSecure p0 ops = true) :
    (p.state = .online → p.flags.scActive = true ∧ Proven C p.sc.scbk p.sc (Hail.none.over C p0 ops)) ∧
    ∀ (cb : Bool) (env : Env) (q : Pd) (outs : List Out), step C p (.update cb env) = .ok (q, outs) →
      (∀ bs ∈ Spec.Wire.sent outs, (p.state = .online ∧ p.flags.scActive = true) ∨
        ∃ id ∈ setupIds, ∃ k : Spec.Wire.Packet, k.id = some (b8 id) ∧ bs = k.bytes.take env.sendCap) ∧
      (pdEvents outs ≠ [] → (p.state = .online ∧ p.flags.scActive = true) ∨
        (p.state = .scScrypt ∧ Proven C p.sc.scbk p.sc (Hail.none.over C p0 ops))) := by
  obtain ⟨I0, -, -, hs0⟩ := newPd_inv h0
  obtain ⟨I, S⟩ := sess_run I0 (newPd_sess h0) h
  obtain ⟨he, hg⟩ := vigil_run I0 (fun h => ⟨h, fun h' => by rw [hs0] at h'; cases h'⟩) h hv
  have hr : Reached C info p := ⟨i, sk, n, p0, ops, o, h0, h⟩
  refine ⟨fun hon => ⟨hg hon, C21_online C info i n sk p0 p ops o h0 h (hg hon) hon⟩, fun cb env q outs hs => ?_⟩
  obtain ⟨⟨s1, o3, y⟩, hu', h3⟩ := Res.bind_eq_ok.mp hs
  clear hs
  injection h3 with h3; injection h3 with e1 e2; subst e1 e2
  have U := stateUpdate_inv I.cp hu'
  constructor
  · intro bs hbs
    by_cases hon : p.state = .online
    · exact .inl ⟨hon, hg hon⟩
    right
    rcases U.packet I with h | ⟨hm, k, hk, hse, -⟩
    · rw [h] at hbs; cases hbs
    · rw [hse] at hbs
      have hc := I.cmd (by rcases hm with h | ⟨h, -⟩ <;> simp [h])
      have hin : p.cmdId ∈ setupIds := by
        revert hc
        cases hst : p.state <;> unfold CmdOf <;> intro hc
        case online => exact absurd hst hon
        case probe => exact hc.elim
        case offline => exact hc.elim
        all_goals (rw [hc]; decide)
      refine ⟨p.cmdId, hin, k, ?_, List.mem_singleton.mp hbs⟩
      rcases hk.id with h | ⟨h, -⟩
      · exact h
      · rw [h] at hin; exact absurd hin (by decide)
  · intro hne
    rcases U.delivers I hr.buffered hr.tidy.proper he hne with h | ⟨h, hu⟩
    · exact .inl ⟨h, hg h⟩
    · obtain ⟨k, hk, hp⟩ := S.scrypt h
      rcases hk with rfl | ⟨hk, -⟩
      · exact .inr ⟨h, hp⟩
      · have := hu.symm.trans hk; cases this

/-- the flag given at set up and never cleared is such a case -/
theorem vigil_kept {C : Cipher} {ops : List Op} {p q : Pd} {o : List Out} (I : Inv p) (hp : p.flags.enforceSecure = true)
    (hf : ∀ f, .flag f false ∈ ops → f &&& F_ENFORCE = 0) (h : run C p ops = .ok (q, o)) : Vigil C true p ops = true := by
  induction ops generalizing p o with
  | nil => rfl
  | cons op ops ih =>
    obtain ⟨⟨p1, o1⟩, h1, h⟩ := Res.bind_eq_ok.mp h
    obtain ⟨⟨p2, o2⟩, h2, h⟩ := Res.bind_eq_ok.mp h
    injection h with h; injection h with e1 e2; subst e1 e2
    have he : p1.flags.enforceSecure = true := by
      cases op with
      | update cb env =>
        obtain ⟨⟨s1, o3, y⟩, hu', h3⟩ := Res.bind_eq_ok.mp h1
        clear h1
        injection h3 with h3; injection h3 with e1 e2; subst e1 e2
        rw [(stateUpdate_inv I.cp hu').enforce I]
        exact hp
      | flag f b =>
        injection h1 with h1; injection h1 with e1 e2; subst e1 e2
        unfold modifyPd
        dsimp only
        split
        · exact hp
        · dsimp only
          by_cases hz : f &&& F_ENFORCE ≠ 0
          · rw [if_pos hz]
            cases b with
            | true => rfl
            | false => exact absurd (hf f (by simp)) hz
          · rw [if_neg hz]; exact hp
      | send env c =>
        injection h1 with h1; injection h1 with e1 e2; subst e1 e2
        rw [sendPd_keeps]
        exact hp
      | _ => injection h1 with h1; injection h1 with e1 e2; subst e1 e2; exact hp
    unfold Vigil
    rw [h1]
    dsimp only
    rw [he]
    exact ih (I.step h1) he (fun f hm => hf f (List.mem_cons_of_mem _ hm)) h2

theorem C24_setup (C : Cipher) (info : PdM.Info) (i n : Nat) (sk : Bool) (p0 p : Pd) (ops : List Op) (o : List Out)
    (h0 : newPd info i sk n = some p0) (h : run C p0 ops = .ok (p, o)) (he : p0.flags.enforceSecure = true)
    (hf : ∀ f, .flag f false ∈ ops → f &&& F_ENFORCE = 0) (hon : p.state = .online) :
    p.flags.scActive = true ∧ Proven C p.sc.scbk p.sc (Hail.none.over C p0 ops) :=
  (C24_partial C info i n sk p0 p ops o h0 h (by rw [he]; exact vigil_kept (newPd_inv h0).1 he hf h)).1 hon

/-- the CP's object for the sample PD, to be secure -/
def strictCp : Pd := (newPd { Sample.pdInfo with enforceSecure := true } 0 false 16).getD (PdM.blank 16)

/-- it does get online with the sample PD, not with one that does not know the key -/
example :
    (let t := ({ cp := strictCp, pd := Sample.pd } : Sample.Talk).turns xorCipher 20 20
     strictCp.flags.enforceSecure = true ∧ t.cp.state = .online ∧ t.cp.flags.scActive = true ∧
      Vigil xorCipher true strictCp t.cpOps = true) ∧
    (let t := ({ newcomer with cp := strictCp } : Sample.Talk).turns xorCipher 20 12
     t.cp.state = .offline) := by decide +kernel

/-- **C24 fails** for a flag set while the PD is online in the clear: it stays online in the clear. -/
theorem C24_late : ∃ q o, run xorCipher Sample.cp (Sample.meets [4, 0, 0] ++ [.flag F_ENFORCE true, Sample.hears [] 100]) = .ok (q, o) ∧
    q.flags.enforceSecure = true ∧ q.state = .online ∧ q.flags.scActive = false ∧ Spec.Wire.sent o ≠ [] := by
  obtain ⟨q, o, h, hd⟩ := Sample.ran (C := xorCipher) (p := Sample.cp) (ops := Sample.meets [4, 0, 0] ++ [.flag F_ENFORCE true, Sample.hears [] 100])
    (fun q o => decide (q.flags.enforceSecure = true ∧ q.state = .online ∧ q.flags.scActive = false ∧ Spec.Wire.sent o ≠ [])) (by decide +kernel)
  exact ⟨q, o, h, of_decide_eq_true hd⟩

end Osdp.CpM
