import Verif.Lemmas.PdSend

/-! # One refresh of a PD, case by case -/

namespace Osdp.PdM

open Phy (setNak checkPacket decodePacket stateReset Decoded Transp Collected Checked DecodedTo)

/-- All outcomes of `pd_receive_and_process_command`. -/
inductive Got (C : Cipher) (p : Pd) (env : Env) : Pd → List Out → PdRet → Prop
  /-- no (complete) packet, or an unusable one -/
  | nothing {q : Pd} {r : Phy.PktRet} {ret : PdRet} : checkPacket p env = .ok (q, r) → Collected p q →
      r = .noData ∧ ret = .noData ∨ r = .wait ∧ ret = .wait ∨ r = .fmt ∧ ret = .generic ∨ r = .check ∧ ret = .ignore →
      Got C p env q [] ret
  /-- a packet of another device -/
  | skip {q : Pd} : checkPacket p env = .ok (q, .skip) → Collected p q → Got C p env (stateReset q false).1 [] .ignore
  /-- wrong sequence number -/
  | seq {q : Pd} : checkPacket p env = .ok (q, .nack) → Checked p q .nack → Got C p env q [] .reply
  /-- a packet that cannot be decoded, or empty -/
  | refused {p1 q : Pd} {d : Decoded} : checkPacket p env = .ok (p1, .none) → Checked p p1 .none →
      decodePacket C p1 = .ok (q, d) → DecodedTo p1 q d → d.len ≤ 0 →
      Got C p env q [] (if d.len = Phy.PKT_NACK then .reply else .generic)
  /-- plain text where a secure channel is required -/
  | insecure {p1 q : Pd} {d : Decoded} {id : Byte} : checkPacket p env = .ok (p1, .none) → Checked p p1 .none →
      decodePacket C p1 = .ok (q, d) → DecodedTo p1 q d → 0 < d.len → d.data[0]? = some id →
      plainRefused (noteCmd q id) = true → Got C p env (setNak (noteCmd q id) Nak.SC_COND) [] .reply
  /-- a command was executed or refused by the command switch -/
  | command {p1 p2 q : Pd} {d : Decoded} {id : Byte} {body : List Byte} {outs : List Out} {ret : PdRet} :
      checkPacket p env = .ok (p1, .none) → Checked p p1 .none →
      decodePacket C p1 = .ok (p2, d) → DecodedTo p1 p2 d → 0 < d.len →
      d.data[0]? = some id → d.len.toNat ≤ d.data.length → body = (d.data.take d.len.toNat).drop 1 →
      plainRefused (noteCmd p2 id) = false → dispatch (noteCmd p2 id) env body = .ok (q, outs, ret) →
      Outcome (noteCmd p2 id) env body q outs ret → Got C p env q outs ret

theorem receive_got {C : Cipher} {p q : Pd} {env : Env} {outs : List Out} {ret : PdRet}
    (hp : p.flags.pdMode = true) (h : receiveAndProcess C p env = .ok (q, outs, ret)) : Got C p env q outs ret := by
  unfold receiveAndProcess at h
  obtain ⟨⟨p1, r⟩, h1, h⟩ := Res.bind_eq_ok.mp h
  have hc := Phy.checkPacket_checked h1
  have hp1 : p1.flags.pdMode = true := by rw [hc.transp.pdMode]; exact hp
  cases r with
  | none =>
    replace h : process C p1 env = .ok (q, outs, ret) := h
    unfold process at h
    obtain ⟨⟨p2, d⟩, h2, h⟩ := Res.bind_eq_ok.mp h
    have hd := Phy.decodePacket_to h2
    have hp2 : p2.flags.pdMode = true := by rw [hd.transp.pdMode]; exact hp1
    dsimp only at h
    split at h
    · rename_i hl
      injection h with h; injection h with e1 h; injection h with e2 e3; subst e1 e2 e3
      exact .refused h1 hc h2 hd hl
    · rename_i hl
      unfold decodeCommand at h
      obtain ⟨id, hid, h⟩ := Res.bind_eq_ok.mp h
      have hid' := rd_some hid
      split at h
      · rename_i hpr
        split at h
        · injection h with h; injection h with e1 h; injection h with e2 e3; subst e1 e2 e3
          exact .insecure h1 hc h2 hd (by omega) hid' hpr
        · cases h
      · rename_i hpr
        split at h
        · cases h
        · rename_i hlen
          exact .command h1 hc h2 hd (by omega) hid' (by omega) rfl (by simpa using hpr) h
            (dispatch_outcome (p := noteCmd p2 id) hp2 h)
  | nack =>
    injection h with h; injection h with e1 h; injection h with e2 e3; subst e1 e2 e3
    exact .seq h1 hc
  | skip =>
    injection h with h; injection h with e1 h; injection h with e2 e3; subst e1 e2 e3
    exact .skip h1 (hc.early (by simp) (by simp) (by simp))
  | busy => exact absurd rfl (hc.notBusy hp)
  | noData =>
    injection h with h; injection h with e1 h; injection h with e2 e3; subst e1 e2 e3
    exact .nothing h1 (hc.early (by simp) (by simp) (by simp)) (by simp)
  | wait =>
    injection h with h; injection h with e1 h; injection h with e2 e3; subst e1 e2 e3
    exact .nothing h1 (hc.early (by simp) (by simp) (by simp)) (by simp)
  | fmt =>
    injection h with h; injection h with e1 h; injection h with e2 e3; subst e1 e2 e3
    exact .nothing h1 (hc.early (by simp) (by simp) (by simp)) (by simp)
  | check =>
    injection h with h; injection h with e1 h; injection h with e2 e3; subst e1 e2 e3
    exact .nothing h1 (hc.early (by simp) (by simp) (by simp)) (by simp)

/-- All outcomes of what follows. -/
inductive Finished (C : Cipher) (p : Pd) (env : Env) (ret : PdRet) : Pd → List Out → Prop
  | keep : ret = .ignore ∨ ret = .noData ∨ (ret = .wait ∧ env.now - p.tstamp < RESP_TOUT) → Finished C p env ret p []
  | reset : ret = .generic ∨ (ret = .wait ∧ ¬ env.now - p.tstamp < RESP_TOUT) → Finished C p env ret (errorReset p) []
  | reply {q s : Pd} {outs : List Out} {ok : Bool} : ret = .none ∨ ret = .reply →
      SendOutcome C (touch p ret env.now) env q outs ok → afterSend q ok = .ok s → Finished C p env ret s outs

theorem touch_pdMode (p : Pd) (ret : PdRet) (now : Int) : (touch p ret now).flags = p.flags := by
  unfold touch; split <;> rfl

theorem finish_inv {C : Cipher} {p q : Pd} {env : Env} {ret : PdRet} {outs : List Out}
    (hp : p.flags.pdMode = true) (h : finish C p env ret = .ok (q, outs)) : Finished C p env ret q outs := by
  unfold finish at h
  replace h := ite_inv h
  rcases h with ⟨hr, h⟩ | ⟨hr, h⟩
  · injection h with h; injection h with e1 e2; subst e1 e2
    exact .keep (by rcases hr with h | h <;> simp [h])
  replace h := ite_inv h
  rcases h with ⟨hr', h⟩ | ⟨hr', h⟩
  · injection h with h; injection h with e1 e2; subst e1 e2
    exact .keep (.inr (.inr hr'))
  replace h := ite_inv h
  rcases h with ⟨hr'', h⟩ | ⟨hr'', h⟩
  · injection h with h; injection h with e1 e2; subst e1 e2
    refine .reset ?_
    cases ret <;> simp_all
  · obtain ⟨⟨q1, o1, ok⟩, h1, h⟩ := Res.bind_eq_ok.mp h
    obtain ⟨s, h2, h⟩ := Res.bind_eq_ok.mp h
    injection h with h; injection h with e1 e2; subst e1 e2
    refine .reply ?_ (sendReply_outcome (by rw [touch_pdMode]; exact hp) h1) h2
    cases ret <;> simp_all

/-- the effects of a refresh, in two parts -/
theorem refresh_inv {C : Cipher} {p q : Pd} {env : Env} {outs : List Out} (hp : p.flags.pdMode = true)
    (h : refresh C p env = .ok (q, outs)) :
    ∃ p1 o1 ret o2, Got C (expire p env.now) env p1 o1 ret ∧ p1.flags.pdMode = true ∧
      Finished C p1 env ret q o2 ∧ outs = o1 ++ o2 := by
  unfold refresh at h
  obtain ⟨⟨p1, o1, ret⟩, h1, h⟩ := Res.bind_eq_ok.mp h
  obtain ⟨⟨q', o2⟩, h2, h⟩ := Res.bind_eq_ok.mp h
  injection h with h; injection h with e1 e2; subst e1 e2
  have he : (expire p env.now).flags.pdMode = true := by unfold expire; split <;> exact hp
  have hg := receive_got he h1
  have hp1 : p1.flags.pdMode = true := by
    have ho : ∀ {a b : Pd} {bd o r}, Outcome a env bd b o r → a.flags.pdMode = true → b.flags.pdMode = true := by
      intro a b bd o r ho ha
      cases ho with
      | plain hpl _ => rw [hpl.quiet.flags]; exact ha
      | poll _ _ => unfold pollEvent; split <;> exact ha
      | file _ _ => split <;> exact ha
      | _ => exact ha
    cases hg with
    | nothing _ hc _ => rw [hc.transp.pdMode]; exact he
    | skip _ hc => exact hc.transp.pdMode.trans he
    | seq _ hc => rw [hc.transp.pdMode]; exact he
    | refused _ hc _ hd _ => rw [hd.transp.pdMode, hc.transp.pdMode]; exact he
    | insecure _ hc _ hd _ _ _ =>
      show Pd.isPd _ = true
      exact (hd.transp.pdMode.trans hc.transp.pdMode).trans he
    | command _ hc _ hd _ _ _ _ _ _ hout =>
      exact ho hout ((hd.transp.pdMode.trans hc.transp.pdMode).trans he)
  exact ⟨p1, o1, ret, o2, hg, hp1, finish_inv hp1 h2, rfl⟩

end Osdp.PdM
