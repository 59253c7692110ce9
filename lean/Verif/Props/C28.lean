import Verif.Lemmas.CpSess
import Verif.Props.C41
import Verif.Props.C12
import Verif.Props.C21

/-!
# C28: the CP's base key changes only when the PD acknowledged that key

The full statement fails: when a KEYSET cannot be built (its length field is not 16) or sent, the exchange is judged by the id of
the *previous* reply; if that was an ACK, the key of the unsent command is taken over (`C28_unsent`).

`C28_partial` describes exactly when the key changes. It is about a CP that has been given a key at set up: without one, the
secure channel is disabled (src/osdp_cp.c:1423-1428) and there is no key to replace.
-/

namespace Osdp.CpM

/-- choosing the next state does not touch the key -/
theorem advance_scbk {cb : Bool} {p q : Pd} {env : Env} {ok : Bool} {outs : List Out} (P : Pre p) (hh : p.flags.hasScbk = true)
    (h : advance cb p env p.state ok = .ok (q, outs)) : q.sc.scbk = p.sc.scbk := by
  cases advance_inv h with
  | mk h1 h2 =>
  rename_i p1 p2 o1 o2 n1 n2
  obtain ⟨-, hst, -, -, -, -, hsc, hfl, -⟩ := requests_drift h2
  have key : p1.sc.scbk = p.sc.scbk ∧ p1.flags.hasScbk = true := by
    have hd : Drift p p1 := by
      cases ok with
      | true => exact (nextOk_drift h1).1
      | false => exact (nextErr_drift h1).1
    refine ⟨?_, by rw [hd.flags]; exact hh⟩
    cases ok with
    | true =>
      replace h1 : nextOk cb p env.now = .ok (p1, o1, n1) := h1
      unfold nextOk at h1
      cases hs : p.state <;> rw [hs] at h1 <;> dsimp only at h1
      case setScbk =>
        obtain ⟨⟨p3, o3⟩, h3, h1⟩ := Res.bind_eq_ok.mp h1
        injection h1 with h1; injection h1 with e1 h1; injection h1 with e2 e3; subst e1 e2 e3
        obtain ⟨k, hk, rfl, -⟩ := keysetComplete_inv h3
        rcases hk with ⟨-, rfl⟩ | ⟨hu, -⟩
        · rfl
        · have := hu.symm.trans (P.install hs); cases this
      all_goals
        (try split at h1)
        all_goals (first | (injection h1 with h1; injection h1 with e1 h1; injection h1 with e2 e3; subst e1 e2 e3; rfl) | cases h1)
    | false =>
      replace h1 : nextErr cb p env.now = .ok (p1, o1, n1) := h1
      unfold nextErr at h1
      cases hs : p.state <;> rw [hs] at h1 <;> dsimp only at h1
      all_goals
        (try split at h1)
        all_goals (try split at h1)
        all_goals (first | (injection h1 with h1; injection h1 with e1 h1; injection h1 with e2 e3; subst e1 e2 e3; rfl) | cases h1)
  have e2 : p2.sc.scbk = p.sc.scbk := by rw [hsc]; exact key.1
  have f2 : p2.flags.hasScbk = true := by rw [hfl]; exact key.2
  split
  · cases n2 <;> first | exact e2 | (show (Sc.setup p2.flags.hasScbk env.random p2.sc).scbk = _; rw [f2]; exact e2)
  · exact e2

/-- the end of an exchange: the key changes only to that of a KEYSET that is regarded as acknowledged -/
theorem settle_scbk {cb : Bool} {p q : Pd} {env : Env} {outs : List Out} (M : Mid p) (hh : p.flags.hasScbk = true)
    (h : settle cb p env = .ok (q, outs)) : q.sc.scbk = p.sc.scbk ∨
      (p.phyState = .done ∨ p.phyState = .err) ∧ p.state = .online ∧ p.replyId = Id.ACK ∧ p.cmdId = Id.KEYSET ∧
        ∃ c, p.eph = .cmd (.keyset c) ∧ q.sc.scbk.1 = c.data.1.take 16 := by
  cases settle_inv h with
  | command hps h1 hid =>
    obtain ⟨hc, -⟩ := stateGetCmd_inv h1
    unfold Chosen at hc
    rw [hc]
    exact .inl rfl
  | nothing hps h1 h2 =>
    rename_i p1 o1 o2
    have P := nothing_pre M hps h1
    obtain ⟨hc, -⟩ := stateGetCmd_inv h1
    unfold Chosen at hc
    left
    rw [advance_scbk (p := { p1 with cmdId := 0 }) P (by rw [hc]; exact hh) h2, hc]
  | over hps h1 h2 =>
    rename_i p1 o1 o2 ok
    have P := over_pre M h1
    obtain ⟨-, hj⟩ := stateCheckReply_inv h1
    rcases hj with ⟨rfl, -⟩ | ⟨hon, ha, hc, hkc⟩
    · exact .inl (advance_scbk (p := (Phy.stateReset p1 false).1) P hh h2)
    · obtain ⟨k, hk, rfl, -⟩ := keysetComplete_inv hkc
      have e : q.sc.scbk = k := advance_scbk (p := (Phy.stateReset _ false).1) P hh h2
      rcases hk with ⟨-, rfl⟩ | ⟨-, c, h3, h4⟩
      · exact .inl e
      · exact .inr ⟨hps, hon, ha, hc, c, h3, by rw [e]; exact h4⟩

/-- receiving does not make up commands -/
theorem Reply.ephBack {C : Cipher} {p q : Pd} {env : Env} {outs : List Out} {rc : CpErr} (hcp : p.flags.pdMode = false)
    (h : Reply C p env q outs rc) : ∀ c, q.eph = .cmd c → p.eph = .cmd c := by
  cases h with
  | nothing _ hc _ => exact fun c h => by rw [← hc.eph]; exact h
  | bad _ hc _ => exact fun c h => by rw [← hc.eph]; exact h
  | busy _ hc => exact (hc.cp hcp).2.back
  | seq _ hc => exact (hc.cp hcp).2.back
  | refused _ hc _ hd _ =>
    refine fun c h => (hc.cp hcp).2.back c ((hd.cpEph ?_).back c h)
    rw [hc.transp]; exact hcp
  | @reply p1 p2 _ d id body _ _ h1 hc h2 hd hl hid _ hb hr he =>
    have back : ∀ c, p2.eph = .cmd c → p.eph = .cmd c := by
      refine fun c h => (hc.cp hcp).2.back c ((hd.cpEph ?_).back c h)
      rw [hc.transp]; exact hcp
    cases he with
    | event e _ => exact fun c h => by cases h
    | _ => exact back

theorem Waited.ephBack {C : Cipher} {p q : Pd} {env : Env} {outs : List Out} {rc : CpErr} (hcp : p.flags.pdMode = false)
    (h : Waited C p env q outs rc) : ∀ c, q.eph = .cmd c → p.eph = .cmd c := by
  cases h with
  | answered h => have k := h.ephBack hcp; exact k
  | ignored h _ _ => have k := h.ephBack hcp; exact k
  | failed h _ => have k := h.ephBack hcp; exact k
  | busy h => have k := h.ephBack hcp; exact k
  | retry h _ _ => have k := h.ephBack hcp; exact k
  | exhausted h _ _ => have k := h.ephBack hcp; exact k
  | waiting h _ => have k := h.ephBack hcp; exact k

theorem Waited.scbk {C : Cipher} {p q : Pd} {env : Env} {outs : List Out} {rc : CpErr}
    (h : Waited C p env q outs rc) : q.sc.scbk = p.sc.scbk ∧ q.flags.hasScbk = p.flags.hasScbk := by
  have key : ∀ {q : Pd} {rc : CpErr}, Reply C p env q outs rc → q.sc.scbk = p.sc.scbk ∧ q.flags.hasScbk = p.flags.hasScbk := by
    intro q rc h
    have := h.heard
    unfold Heard at this
    rw [this]; exact ⟨rfl, rfl⟩
  cases h with
  | answered h => have k := key h; exact k
  | ignored h _ _ => have k := key h; exact k
  | failed h _ => have k := key h; exact k
  | busy h => have k := key h; exact k
  | retry h _ _ => have k := key h; exact k
  | exhausted h _ _ => have k := key h; exact k
  | waiting h _ => have k := key h; exact k

/-- The key changes only at the end of an exchange for a KEYSET, to the key of that command: either the PD has answered with an
ACK, or the command could not be sent and the reply before it was an ACK. -/
theorem Update.scbk {C : Cipher} {cb : Bool} {p q : Pd} {env : Env} {outs : List Out} {y : Bool} (I : Inv p) (B : Blank p)
    (hh : p.flags.hasScbk = true) (h : Update C cb p env q outs y) : q.sc.scbk = p.sc.scbk ∨
      p.state = .online ∧ p.cmdId = Id.KEYSET ∧ (∃ c, p.eph = .cmd (.keyset c) ∧ q.sc.scbk.1 = c.data.1.take 16) ∧
      ((p.phyState = .replyWait ∧ ∃ id body, replyOf C p env = some (id, body) ∧ id.toNat = Id.ACK) ∨
        (MaySend p env ∧ p.replyId = Id.ACK ∧ ∃ p1 o, SendOutcome C p env p1 o false)) := by
  cases h with
  | hold _ _ => exact .inl rfl
  | sent _ h => exact .inl h.sent.sameKeys.scbk
  | @unsent p1 _ o1 _ hm h1 h2 =>
    have hs := h1.sent
    unfold Sent at hs
    rcases settle_scbk (unsent_mid I h1) (by rw [hs]; exact hh) h2 with h | ⟨-, a, b, c, k, d, e⟩
    · exact .inl (h.trans h1.sent.sameKeys.scbk)
    · rw [hs] at a b c d
      exact .inr ⟨a, c, ⟨k, d, e⟩, .inr ⟨hm, b, p1, o1, h1⟩⟩
  | @replied p1 _ o1 _ rc hps h1 hrc h2 =>
    have hk := h1.scbk
    rcases settle_scbk (waited_mid I hps h1) (hk.2.trans hh) h2 with h | ⟨-, a, b, c, k, d, e⟩
    · exact .inl (h.trans hk.1)
    · obtain ⟨k1, k2, -⟩ := h1.state
      refine .inr ⟨k1.symm.trans a, k2.symm.trans c, ⟨k, h1.ephBack I.cp _ d, e⟩, .inl ⟨hps, ?_⟩⟩
      rcases Ended.replyId hps (B hps) (.waited hps h1 hrc) with ⟨id, body, h3, h4⟩ | ⟨-, h | h⟩
      · exact ⟨id, body, h3, h4.symm.trans b⟩
      · rw [b] at h; exact absurd h (by decide)
      · rw [b] at h; exact absurd h (by decide)
  | again _ h1 => exact .inl h1.scbk.1
  | waiting _ h1 => exact .inl h1.scbk.1
  | idle hps h1 =>
    rcases settle_scbk I.mid hh h1 with h | ⟨h, -⟩
    · exact .inl h
    · rcases I.phy with h' | h' | h' | h' <;> rcases h with h | h <;> rw [h'] at h <;> cases h

/-- The CP waits for the answer to the KEYSET command `c`, sent with the packet `k`: the packet went out, complete, with the id of a
KEYSET when `c` was the command in hand, and the CP has been waiting for the answer to it ever since. -/
def AwaitsKey (C : Cipher) (info : PdM.Info) (c : CmdKeyset) (k : Spec.Wire.Packet) (p : Pd) : Prop :=
  Awaits C info k.bytes p ∧ k.id = some (b8 Id.KEYSET) ∧
    ∃ p0 p1 cb env o, Reached C info p0 ∧ step C p0 (.update cb env) = .ok (p1, o) ∧ Spec.Wire.sent o = [k.bytes] ∧
      p0.eph = .cmd (.keyset c)

/-- what is known about the packet whose answer is awaited -/
def Underway (C : Cipher) (info : PdM.Info) (q : Pd) : Prop := q.phyState = .replyWait →
  ∃ k p0 p1 cb env o, Reached C info p0 ∧ step C p0 (.update cb env) = .ok (p1, o) ∧ Spec.Wire.sent o = [k.bytes] ∧
    Packet.OfCmd p0 k ∧ Awaits C info k.bytes q ∧ q.cmdId = p0.cmdId ∧ ∀ c, q.eph = .cmd c → p0.eph = .cmd c

theorem Underway.step {C : Cipher} {info : PdM.Info} {p q : Pd} {op : Op} {o : List Out} (R : Reached C info p) (U : Underway C info p)
    (h : CpM.step C p op = .ok (q, o)) : Underway C info q := by
  intro hq
  have I := R.inv
  have kept : p.phyState = .replyWait → q.cmdId = p.cmdId → (∀ c, q.eph = .cmd c → p.eph = .cmd c) → Underway C info q := fun hp h1 h2 _ => by
    obtain ⟨k, p0, p1, cb, env, o1, a1, a2, a3, a4, a5, a6, a7⟩ := U hp
    exact ⟨k, p0, p1, cb, env, o1, a1, a2, a3, a4, a5.more h hq, h1.trans a6, fun c hc => a7 c (h2 c hc)⟩
  by_cases hop : ∀ cb env, op ≠ .update cb env
  · have ha := step_apiOnly h hop
    unfold Api at ha
    exact kept (by rw [ha] at hq; exact hq) (by rw [ha]) (fun c hc => by rw [ha] at hc; exact hc) hq
  obtain ⟨cb, env, rfl⟩ : ∃ cb env, op = .update cb env :=
    Classical.byContradiction fun hn => hop fun cb env he => hn ⟨cb, env, he⟩
  have h' := h
  obtain ⟨⟨s1, o1, y⟩, hu, h1⟩ := Res.bind_eq_ok.mp h'
  clear h'
  injection h1 with h1; injection h1 with e1 e2; subst e1 e2
  have idle : ∀ {p1 q : Pd} {o : List Out}, Mid p1 → settle cb p1 env = .ok (q, o) → q.phyState ≠ .replyWait := by
    intro p1 q o hm hs hps
    rcases (settled hm hs).2 with h | h <;> rw [hps] at h <;> cases h
  cases stateUpdate_inv I.cp hu with
  | hold hw _ => rw [hw] at hq; cases hq
  | sent hm hs =>
    rename_i p1
    rcases hs.packet I.lo I.hi with ⟨-, h0⟩ | ⟨k, h1, h2, h3, -⟩
    · cases h0
    have hl : k.bytes.take env.sendCap = k.bytes := List.take_of_length_le (by simpa using h3.symm)
    rw [hl] at h2
    have hs' := hs.sent
    unfold Sent at hs'
    refine ⟨k, p, _, cb, env, _, R, h, h2, h1, .sent R h h2 hq, ?_, ?_⟩
    · show p1.cmdId = _; rw [hs']
    · intro c hc
      have hc : p1.eph = .cmd c := hc
      rw [hs'] at hc; exact hc
  | unsent _ h1 h2 => exact absurd hq (idle (unsent_mid I h1) h2)
  | replied hps h1 _ h2 => exact absurd hq (idle (waited_mid I hps h1) h2)
  | again hps h1 => cases h1 <;> cases hq
  | waiting hps h1 => exact kept hps h1.state.2.1 (h1.ephBack I.cp) hq
  | idle _ h1 => exact absurd hq (idle I.mid h1)

theorem Reached.underway {C : Cipher} {info : PdM.Info} {q : Pd} (h : Reached C info q) : Underway C info q := by
  obtain ⟨i, sk, n, p, ops, o, hn, hr⟩ := h
  refine run_ind (C := C) (p := p) (fun _ q _ => Underway C info q) ?_
    (fun _ _ q _ _ _ hr T h => T.step (C := C) ⟨i, sk, n, p, _, _, hn, hr⟩ h) hr
  intro hps
  rw [(newPd_inv hn).2.2.1] at hps; cases hps

/-- **C28 (partial).** Full statement: the CP replaces the key it holds for a PD by the key of a KEYSET command only if that command
was actually transmitted and acknowledged.

For a CP that has been given a key at set up, the key changes only while the PD is online and a KEYSET is the command in hand, and
then it becomes the key of that command. Either that command has been transmitted and an ACK has just been heard in answer, or
(contrary to the full statement) the command could not be sent just now and the reply before it was an ACK. -/
theorem C28_partial {C : Cipher} {info : PdM.Info} {p q : Pd} {op : Op} {o : List Out} (hr : Reached C info p)
    (hh : p.flags.hasScbk = true) (hs : step C p op = .ok (q, o)) (hne : q.sc.scbk ≠ p.sc.scbk) :
    p.state = .online ∧ ∃ cb env c, op = .update cb env ∧ q.sc.scbk.1 = c.data.1.take 16 ∧
      ((∃ k, AwaitsKey C info c k p ∧ ∃ id body, replyOf C p env = some (id, body) ∧ id.toNat = Id.ACK) ∨
       (p.eph = .cmd (.keyset c) ∧ p.cmdId = Id.KEYSET ∧ MaySend p env ∧ p.replyId = Id.ACK ∧ ∃ p1 o, SendOutcome C p env p1 o false)) := by
  by_cases hop : ∀ cb env, op ≠ .update cb env
  · have ha := step_apiOnly hs hop
    unfold Api at ha
    rw [ha] at hne
    exact absurd rfl hne
  obtain ⟨cb, env, rfl⟩ : ∃ cb env, op = .update cb env :=
    Classical.byContradiction fun hn => hop fun cb env he => hn ⟨cb, env, he⟩
  obtain ⟨⟨s1, o1, y⟩, hu, h1⟩ := Res.bind_eq_ok.mp hs
  clear hs
  injection h1 with h1; injection h1 with e1 e2; subst e1 e2
  have I := hr.inv
  rcases (stateUpdate_inv I.cp hu).scbk I hr.blank hh with h | ⟨hon, hc, ⟨c, h1, h2⟩, h3⟩
  · exact absurd h hne
  refine ⟨hon, cb, env, c, rfl, h2, ?_⟩
  rcases h3 with ⟨hps, ha⟩ | ⟨hm, ha, hso⟩
  · obtain ⟨k, p0, p1, cb0, env0, o0, a1, a2, a3, a4, a5, a6, a7⟩ := hr.underway hps
    refine .inl ⟨k, ⟨a5, ?_, p0, p1, cb0, env0, o0, a1, a2, a3, a7 _ h1⟩, ha⟩
    rcases a4.id with h | ⟨h, -⟩
    · rw [h, ← a6, hc]
    · rw [← a6, hc] at h; exact absurd h (by decide)
  · exact .inr ⟨h1, hc, hm, ha, hso⟩

/-- the application's KEYSET, with a length field -/
def rekey (length : Byte) : Cmd := .keyset ⟨1, length, .fill 32 0x5A#8⟩

/-- the sample CP and PD are in a secure session, and the application asks for a new key -/
def rekeyed (length : Byte) : Sample.Talk := ((Sample.talk.turns xorCipher 20 20).cpDoes xorCipher (.send { now := 400 } (rekey length)))

/-- the hypotheses of `C28_partial` are met when the PD acknowledges a KEYSET: the CP changes the key then -/
example : (let t := (rekeyed 16).turns xorCipher 60 4
    t.bad = false ∧ t.cp.flags.hasScbk = true ∧ t.cp.state = .online ∧ t.cp.phyState = .replyWait ∧ t.cp.cmdId = Id.KEYSET ∧ t.cp.sc.scbk = Sample.key) ∧
    (let t := (rekeyed 16).turns xorCipher 60 5
     t.bad = false ∧ t.cp.sc.scbk = .fill 16 0x5A#8 ∧ t.pd.sc.scbk = .fill 16 0x5A#8) := by decide +kernel

/-- **C28 fails**: the application asks for a new key with a wrong length. Nothing is sent; the CP takes the new key over and closes
the session, while the PD still has the old key. The two never get a secure channel again: the CP goes on in the clear. -/
theorem C28_unsent :
    (let t := (rekeyed 17).turns xorCipher 60 3
     t.bad = false ∧ t.cp.state = .online ∧ t.cp.flags.scActive = true ∧ t.cp.phyState = .sendCmd ∧ t.cp.cmdId = Id.KEYSET ∧ t.cp.sc.scbk = Sample.key) ∧
    (let t := (rekeyed 17).turns xorCipher 60 4
     t.bad = false ∧ t.cp.sc.scbk = .fill 16 0x5A#8 ∧ t.pd.sc.scbk = Sample.key ∧ t.cp.flags.scActive = false ∧
     Spec.Wire.sent t.cpOuts = Spec.Wire.sent ((rekeyed 17).turns xorCipher 60 3).cpOuts) ∧
    (let t := (rekeyed 17).turns xorCipher 60 11
     t.bad = false ∧ t.cp.state = .online ∧ t.cp.flags.scActive = false ∧ t.cp.sc.scbk = .fill 16 0x5A#8 ∧ t.pd.sc.scbk = Sample.key) := by
  decide +kernel

end Osdp.CpM
