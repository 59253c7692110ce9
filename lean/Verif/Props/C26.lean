import Verif.Props.C27

/-!
# C26: an acknowledged KEYSET installs exactly that key and ends install mode for good
-/

namespace Osdp.PdM

open Spec.Wire

theorem txBufSize_le (p : Pd) : p.txBufSize ≤ 256 := by
  unfold Pd.txBufSize; split <;> omega

/-- **C26, the key.**  In any history, if a refresh hands the application a KEYSET `c`, the application accepts it
(as it is) and the PD answers, then afterwards the base key is the 16 bytes of `c`, install mode is off and the
session is closed; `c` is of type 1 and length 16. -/
theorem C26_keyset_installs (C : Cipher) (info : Info) (q s : Pd) (env : Env) (outs : List Out) (c : CmdKeyset)
    (cb : Nat → Cmd → Int × Cmd) (hq : Reached C info q) (h : refresh C q env = .ok (s, outs))
    (hc : Out.cmd (.keyset c) ∈ outs) (hcb : env.cb = some cb) (hacc : cb 0 (.keyset c) = (0, .keyset c))
    (hcap : 256 ≤ env.sendCap) (hans : sent outs ≠ []) :
    s.sc.scbk.1 = c.data.1.take 16 ∧ c.type = 1#8 ∧ c.length = 16#8 ∧ s.flags.installMode = false ∧
      s.flags.useScbkd = false ∧ s.scActive = false := by
  obtain ⟨p1, p2, p3, d, id, body, o1, o2, ret, rfl, hm, -, -, -, -, -, -, -, hdis, hout, hfin, -, hp2⟩ := refresh_cmd hq.pdMode h hc
  have hid : (noteCmd p2 id).cmdId = Id.KEYSET := by
    rcases outcome_cmd hout hm with hl | ⟨-, x, hx⟩
    · exact hl.1
    · cases hx
  have hno := outs_nosend hout
  rw [show sent (o1 ++ o2) = sent o1 ++ sent o2 from List.filterMap_append, hno, List.nil_append] at hans
  rcases keyset_inv (p := noteCmd p2 id) hp2 hid hdis with ⟨-, -, h | ⟨cb', c', h1, h2, h3⟩⟩ | ⟨cb', k, h1, h2, h3, h4, h5, h6, h7, h8, h9⟩
  · rw [h] at hm; simp at hm
  · rw [h2] at hm
    simp only [List.mem_singleton] at hm
    injection hm with hm; subst hm
    rw [hcb] at h1; injection h1 with h1; subst h1
    rw [hacc] at h3; exact absurd rfl h3
  · rw [h5] at hm
    simp only [List.mem_singleton] at hm
    injection hm with hm; injection hm with hm; subst hm
    rw [hcb] at h1; injection h1 with h1; subst h1
    rw [hacc] at h6
    injection h6 with _ h6; injection h6 with h6; subst h6
    have hcid : p3.cmdId = Id.KEYSET := (outcome_lasting hout).2.1.trans hid
    have tl := finished_tail hfin
    cases hfin with
    | keep _ => exact absurd rfl hans
    | reset _ => exact absurd rfl hans
    | @reply q1 _ _ ok _ hs ha =>
      obtain ⟨-, t1, t2, t3, -⟩ := touch_fields p3 ret env.now
      generalize touch p3 ret env.now = P at hs t1 t2 t3
      have key : ok = true ∧ q1.cmdId = Id.KEYSET ∧ q1.replyId = Id.ACK := by
        cases hs with
        | mute _ => exact absurd rfl hans
        | built b _ o _ hb hbo hh hsend hcase hl =>
          obtain ⟨e1, e2, e3⟩ := body_same hbo (by
            show P.replyId ≠ _ ∧ P.replyId ≠ _ ∧ P.replyId ≠ _ ∧ P.replyId ≠ _
            rw [t1, h8]; decide)
          rw [e3, List.nil_append] at hans
          refine ⟨?_, ?_, ?_⟩
          · rcases hcase with ⟨rfl, -⟩ | ⟨w, q', -, -, hle, -, rfl⟩
            · exact absurd rfl hans
            · have := txBufSize_le P
              exact decide_eq_true (by omega)
          · rw [hsend]; show b.p.cmdId = _; rw [e1]; exact t2.trans hcid
          · rw [hsend]; show b.p.replyId = _; rw [e1]; exact t1.trans h8
      rcases afterSend_inv ha with ⟨-, hn⟩ | ⟨-, -, -, k', h3', rfl⟩
      · exact absurd key hn
      · have e : p3.eph = .key k' := tl.eph.symm.trans h3'
        rw [h9] at e
        injection e with e
        subst e
        exact ⟨rfl, rfl, rfl, rfl, rfl, rfl⟩

/-- **C26, for good.**  Install mode is never switched on again, whatever happens. -/
theorem C26_install_mode_stays_off (C : Cipher) (info : Info) (q s : Pd) (ops : List Op) (outs : List Out)
    (hq : Reached C info q) (h : run C q ops = .ok (s, outs)) (hoff : q.flags.installMode = false) :
    s.flags.installMode = false := by
  refine (run_inv (C := C) (ops := ops) (fun p => p.flags.pdMode = true ∧ p.flags.installMode = false) (fun _ => True)
    (fun p op q outs _ hp h => ⟨⟨step_pdMode hp.1 h, ?_⟩, fun _ _ => trivial⟩) ⟨hq.pdMode, hoff⟩ h).1.2
  cases op with
  | refresh env =>
    obtain ⟨p1, o1, ret, o2, hg, hp1, hfin, rfl⟩ := refresh_inv hp.1 h
    have hl := ((expire_lasting p env.now).trans (got_lasting hg).1).installMode.trans hp.2
    cases finished_replied hfin with
    | same a _ _ => exact a.installMode.trans hl
    | com c _ _ a _ _ => exact a.installMode.trans hl
    | ccrypt _ a _ _ => exact a.installMode.trans hl
    | rmac _ _ a _ _ => exact a.installMode.trans hl
    | keyset k bs h1 h2 h3 h4 a _ _ => exact a.installMode
  | notify e =>
    injection h with h; injection h with e1 e2; subst e1
    unfold notifyEvent; split <;> exact hp.2
  | flush => injection h with h; injection h with e1 e2; subst e1; exact hp.2
  | setCaps l => injection h with h; injection h with e1 e2; subst e1; exact hp.2
  | fileOps => injection h with h; injection h with e1 e2; subst e1; exact hp.2

/-- Non-vacuity: a PD in install mode without own key, a session under the default key, then KEYSET. -/
example :
    let p := (setup { Sample.pdInfo with scbk := none } false 16).getD Sample.pd
    let se := { Sample.session Aes.aes Sc.scbkDefault with scbk := Sc.scbkDefault }
    let hist := [Sample.scbCmd 0#8 [3#8, 0x11#8, 0#8] (0x76#8 :: Sample.rndA.1), Sample.scrypt 1#8 se]
    let last := Sample.env (Sample.secCmd Aes.aes se 2#8 0x75#8 (1#8 :: 16#8 :: newKey)).1
    p.flags.installMode = true ∧
    ((Sample.feed Aes.aes p hist).toOption.bind fun r => (refresh Aes.aes r.1 last).toOption.map fun r' =>
      (r.1.scActive, (Sample.asked r'.2).length, (sent r'.2).length, r'.1.flags.installMode, r'.1.sc.scbk.1)) =
      some (true, 1, 1, false, newKey) := by decide +kernel

end Osdp.PdM
