import Verif.Lemmas.PdKey
import Verif.Lemmas.SampleSc
import Verif.Props.C17

/-!
# C29: the secure channel of a PD times out 8 s after its last use

The first two parts of the property hold: `C29_timeout` (a session unused for more than 8 s is gone before the next packet
is looked at) and `C29_last_use` (the time that counts is that of the last use).  The third part does not: KEEPACTIVE
has no effect on the time limit (`C29_keepactive_no_effect`).
-/

namespace Osdp.PdM

open Spec.Wire Spec.Session

/-- **C29, timeout.**  More than 8 s after the last use, whatever is received: the PD behaves in every respect like the same
PD without the session, and the session can be active afterwards only if a handshake was completed in this very call. -/
theorem C29_timeout (C : Cipher) (q s : Pd) (env : Env) (outs : List Out) (hp : q.flags.pdMode = true)
    (hact : q.scActive = true) (hto : env.now - q.scTstamp > 8000) (h : refresh C q env = .ok (s, outs)) :
    refresh C { q with flags := { q.flags with scActive := false } } env = .ok (s, outs) ∧
    (s.scActive = true → s.replyId = Id.RMAC_I ∧ s.scTstamp = env.now) := by
  have he : expire q env.now = { q with flags := { q.flags with scActive := false } } := by
    unfold expire; rw [if_pos ⟨hact, hto⟩]; rfl
  have he' : expire { q with flags := { q.flags with scActive := false } } env.now = { q with flags := { q.flags with scActive := false } } := by
    unfold expire; rw [if_neg (fun h => by cases h.1)]
  constructor
  · unfold refresh at h ⊢
    rw [he, ← he'] at h
    rw [← h, he']
  · intro hs
    obtain ⟨p1, o1, ret, o2, hg, hp1, hfin, rfl⟩ := refresh_inv hp h
    have hlast := (got_lasting hg).1
    have tl := finished_tail hfin
    have hp1a : p1.scActive = false := by
      cases hx : p1.scActive with
      | false => rfl
      | true =>
        have := hlast.active hx
        rw [he] at this; cases this
    cases hfin with
    | keep _ => rw [hp1a] at hs; cases hs
    | reset _ => cases hs
    | @reply q1 _ outs' ok _ hsnd haft =>
      have hto : touch p1 ret env.now = p1 := by unfold touch; rw [hp1a]; simp
      rw [hto] at hsnd
      have hq1 : q1.scActive = true ∧ s.scTstamp = q1.scTstamp := by
        rcases afterSend_inv haft with ⟨rfl, -⟩ | ⟨-, -, -, k, -, rfl⟩
        · exact ⟨hs, rfl⟩
        · cases hs
      cases hsnd with
      | mute _ => rw [hp1a] at hq1; cases hq1.1
      | built b _ o _ hb hbo hh hsend hc hl =>
        unfold Phy.Sending at hsend
        have hb1 : b.p.scActive = true ∧ s.scTstamp = b.p.scTstamp := by
          rw [hsend] at hq1; exact hq1
        cases hbo with
        | rmac sc v h1 _ _ _ =>
          cases v with
          | true => exact ⟨tl.replyId.trans h1, hb1.2⟩
          | false => exact absurd hb1.1 (by show ¬ p1.scActive = true; rw [hp1a]; decide)
        | _ => exact absurd hb1.1 (by show ¬ p1.scActive = true; rw [hp1a]; decide)

/-- In this refresh a command was processed without error. -/
def Processed (C : Cipher) (q : Pd) (env : Env) : Prop :=
  ∃ q' o, receiveAndProcess C (expire q env.now) env = .ok (q', o, .none)

/-- what the time stamp is after a reply, if the session is active -/
theorem finished_stamp {C : Cipher} {p q : Pd} {env : Env} {ret : PdRet} {outs : List Out}
    (h : Finished C p env ret q outs) (hq : q.scActive = true) :
    (q.scTstamp = env.now ∧ q.replyId = Id.RMAC_I) ∨
    (p.scActive = true ∧ q.scTstamp = if ret = .none then env.now else p.scTstamp) := by
  have tl := finished_tail h
  cases h with
  | keep hr => exact .inr ⟨hq, by rw [if_neg]; rintro rfl; simp at hr⟩
  | reset hr => cases hq
  | @reply q1 _ outs' ok hr hs ha =>
    have hq1 : q1.scActive = true ∧ q.scTstamp = q1.scTstamp := by
      rcases afterSend_inv ha with ⟨rfl, -⟩ | ⟨-, -, -, k, -, rfl⟩
      · exact ⟨hq, rfl⟩
      · cases hq
    have key : (touch p ret env.now).scActive = true → q.scTstamp = (touch p ret env.now).scTstamp →
        p.scActive = true ∧ q.scTstamp = if ret = .none then env.now else p.scTstamp := by
      intro h1 h2
      have hp : p.scActive = true := by unfold Pd.scActive at h1 ⊢; rw [touch_pdMode] at h1; exact h1
      refine ⟨hp, h2.trans ?_⟩
      unfold touch
      by_cases hn : ret = .none
      · rw [if_pos ⟨hn, hp⟩, if_pos hn]
      · rw [if_neg (fun h => hn h.1), if_neg hn]
    cases hs with
    | mute _ => exact .inr (key hq1.1 hq1.2)
    | built b _ o _ hb hbo hh hsend hc hl =>
      unfold Phy.Sending at hsend
      have hb1 : b.p.scActive = true ∧ q.scTstamp = b.p.scTstamp := by
        rw [hsend] at hq1; exact hq1
      cases hbo with
      | rmac sc v h1 _ _ _ =>
        have hrid : q.replyId = Id.RMAC_I := by
          rw [tl.replyId, ← (touch_fields p ret env.now).2.1]; exact h1
        cases v with
        | true => exact .inl ⟨hb1.2, hrid⟩
        | false => exact .inr (key hb1.1 hb1.2)
      | _ => exact .inr (key hb1.1 hb1.2)

/-- nothing but a command processed without error changes the time stamp while a packet is processed -/
theorem got_stamp {C : Cipher} {p q : Pd} {env : Env} {outs : List Out} {ret : PdRet} (h : Got C p env q outs ret)
    (hr : ret ≠ .none) : q.scTstamp = p.scTstamp := by
  cases h with
  | nothing _ hc _ => exact hc.transp.scTstamp
  | skip _ hc => exact hc.transp.scTstamp
  | seq _ hc => exact hc.transp.scTstamp
  | refused _ hc _ hd _ => exact hd.transp.scTstamp.trans hc.transp.scTstamp
  | insecure _ hc _ hd _ _ _ => exact hd.transp.scTstamp.trans hc.transp.scTstamp
  | @command p1 p2 _ d id body _ _ _ hc _ hd _ _ _ _ _ _ ho =>
    have e : p2.scTstamp = p.scTstamp := hd.transp.scTstamp.trans hc.transp.scTstamp
    cases ho with
    | plain hpl _ => obtain ⟨_, _, h⟩ := hpl.quiet; subst h; exact e
    | file _ _ => split <;> exact e
    | _ => exact absurd rfl hr

/-- In the history `ops` from `p` the session was last used (or opened) at time `t`: at `t` a refresh processed a command, or
sent the last packet of a handshake, and after it no refresh processed a command. -/
def LastUse (C : Cipher) (p : Pd) (ops : List Op) (t : Int) : Prop :=
  ∃ before env after q o s o', ops = before ++ Op.refresh env :: after ∧ run C p before = .ok (q, o) ∧
    refresh C q env = .ok (s, o') ∧ t = env.now ∧ (Processed C q env ∨ s.replyId = Id.RMAC_I) ∧
    ∀ b1 e b2 q1 o1, after = b1 ++ Op.refresh e :: b2 → run C p (before ++ Op.refresh env :: b1) = .ok (q1, o1) → ¬ Processed C q1 e

theorem LastUse.more {C : Cipher} {p : Pd} {ops : List Op} {t : Int} (h : LastUse C p ops t) (op : Op)
    (hn : ∀ e q o, op = .refresh e → run C p ops = .ok (q, o) → ¬ Processed C q e) : LastUse C p (ops ++ [op]) t := by
  obtain ⟨b, env, a, q, o, s, o', rfl, r, h1, h2, h3, h4⟩ := h
  refine ⟨b, env, a ++ [op], q, o, s, o', by simp, r, h1, h2, h3, ?_⟩
  intro b1 e b2 q1 o1 he hr
  rcases List.eq_nil_or_concat b2 with rfl | ⟨b2', x, rfl⟩
  · have := List.append_inj' he rfl
    obtain ⟨rfl, h⟩ := this
    injection h with h
    exact hn e q1 o1 h hr
  · have he' : a ++ [op] = (b1 ++ Op.refresh e :: b2') ++ [x] := by rw [he]; simp
    have := List.append_inj' he' rfl
    exact h4 b1 e b2' q1 o1 this.1 hr

/-- **C29, last use.**  For every configuration and every history of API calls and received bytes: while the secure channel
is active, its time stamp is the time of its last use.  So, with `C29_timeout`, a session is dropped when, and for
inactivity only when, its last use is more than 8 s ago. -/
theorem C29_last_use (C : Cipher) (info : Info) (skipMark : Bool) (n : Nat) (p q : Pd) (ops : List Op) (o : List Out)
    (hs : setup info skipMark n = some p) (h : run C p ops = .ok (q, o)) (hq : q.scActive = true) :
    LastUse C p ops q.scTstamp := by
  revert hq
  refine run_ind (C := C) (p := p) (fun ops q _ => q.scActive = true → LastUse C p ops q.scTstamp) ?_ ?_ h
  · intro h
    unfold setup at hs
    split at hs
    · cases hs
    · injection hs with hs; subst hs
      cases h
  · intro ops op q o s o' hr ih hst hk
    have hR : Reached C info q := ⟨skipMark, n, p, ops, o, hs, hr⟩
    cases op with
    | refresh env =>
      have hst' := hst
      replace hst : refresh C q env = .ok (s, o') := hst
      have hst0 := hst
      unfold refresh at hst
      obtain ⟨⟨p1, o1, ret⟩, h1, hst⟩ := Res.bind_eq_ok.mp hst
      obtain ⟨⟨s', o2⟩, h2, hst⟩ := Res.bind_eq_ok.mp hst
      injection hst with hst; injection hst with e1 e2; subst e1 e2
      have hpe : (expire q env.now).flags.pdMode = true := by
        rw [(expire_kept q env.now).1.pdMode]; exact hR.pdMode
      have hg := receive_got hpe h1
      have hp1 : p1.flags.pdMode = true := by
        have := got_lasting hg
        exact (congrArg Config.pdMode (config_got hg)).trans hpe
      have hfin := finish_inv hp1 h2
      have hnow : ∀ {x : Prop}, s'.scTstamp = env.now → (Processed C q env ∨ s'.replyId = Id.RMAC_I) → LastUse C p (ops ++ [.refresh env]) s'.scTstamp := by
        intro _ ht hu
        refine ⟨ops, env, [], q, o, s', _, rfl, hr, hst0, ht, hu, ?_⟩
        intro b1 e b2 q1 o1 he
        simp at he
      rcases finished_stamp hfin hk with ⟨ht, hrid⟩ | ⟨ha, ht⟩
      · exact hnow (x := True) ht (.inr hrid)
      · by_cases hn : ret = .none
        · rw [if_pos hn] at ht
          subst hn
          exact hnow (x := True) ht (.inl ⟨p1, o1, h1⟩)
        · rw [if_neg hn, got_stamp hg hn] at ht
          have hqa : q.scActive = true := ((expire_lasting q env.now).trans (got_lasting hg).1).active ha
          have hte : (expire q env.now).scTstamp = q.scTstamp := by unfold expire; split <;> rfl
          rw [ht, hte]
          refine (ih hqa).more _ ?_
          intro e x ox he hrun
          injection he with he; subst he
          rw [hr] at hrun
          injection hrun with hrun; injection hrun with hrun _; subst hrun
          rintro ⟨z, oz, hz⟩
          rw [h1] at hz
          injection hz with hz; injection hz with _ hz; injection hz with _ hz
          exact hn hz
    | notify e =>
      injection hst with hst; injection hst with e1 e2; subst e1
      have e1 : (notifyEvent q e).1.scActive = q.scActive := by unfold notifyEvent; split <;> rfl
      have e2 : (notifyEvent q e).1.scTstamp = q.scTstamp := by unfold notifyEvent; split <;> rfl
      rw [e1] at hk; rw [e2]
      exact (ih hk).more _ (fun _ _ _ h => by cases h)
    | flush => injection hst with hst; injection hst with e1 e2; subst e1; exact (ih hk).more _ (fun _ _ _ h => by cases h)
    | setCaps l => injection hst with hst; injection hst with e1 e2; subst e1; exact (ih hk).more _ (fun _ _ _ h => by cases h)
    | fileOps => injection hst with hst; injection hst with e1 e2; subst e1; exact (ih hk).more _ (fun _ _ _ h => by cases h)

/-- **C29, no early drop.**  Within 8 s of the last use, a refresh that finds nothing on the line and no packet in progress
leaves the session and its time stamp alone. -/
theorem C29_kept (C : Cipher) (q : Pd) (env : Env) (hp : q.flags.pdMode = true) (hi : Phy.Idle q) (ha : Phy.Arrives env [])
    (hact : q.scActive = true) (hto : env.now - q.scTstamp ≤ 8000) :
    ∃ s, refresh C q env = .ok (s, []) ∧ s.scActive = true ∧ s.scTstamp = q.scTstamp := by
  have hexp : expire q env.now = q := by
    unfold expire
    rw [if_neg]
    rintro ⟨-, h⟩
    have : (8000 : Int) < env.now - q.scTstamp := h
    omega
  obtain ⟨t, ht⟩ := Phy.checkPacket_eq q env hi.rx ha.1 (by rw [ha.2]; simp)
  rw [ha.2, Phy.assemble_eq (Phy.setRx q []) hi.len, Phy.headerStart_scan (Phy.setRx q []) hi.bufLen] at ht
  refine ⟨Phy.setTs (Phy.setRx q []) t, ?_, ?_, ?_⟩
  · unfold refresh receiveAndProcess
    rw [hexp, ht]
    rfl
  · exact hact
  · rfl

/-- the sample session, used once more at time `t0` by `packet` -/
def usedAt (t0 : Int) (id : Byte) (body : List Byte) : Res (Pd × List Out) := do
  let r ← inSession
  refresh Aes.aes r.1 (Sample.env (Sample.secCmd Aes.aes (Sample.session Aes.aes Sample.key) 2#8 id body).1 t0)

/-- is the session active after a refresh at time `t` in which nothing is received -/
def activeAt (r : Res (Pd × List Out)) (t : Int) : Option Bool :=
  (r.toOption.bind fun r => (refresh Aes.aes r.1 (Sample.env [] t)).toOption).map fun r => r.1.scActive

/-- Non-vacuity: a POLL at time 5000 keeps the session alive until time 13000, not longer. -/
example : (inSession.toOption.map fun r => (r.1.scActive, r.1.scTstamp)) = some (true, 0) ∧
    activeAt inSession 8000 = some true ∧ activeAt inSession 8001 = some false ∧
    activeAt (usedAt 5000 0x60#8 []) 13000 = some true ∧ activeAt (usedAt 5000 0x60#8 []) 13001 = some false := by decide +kernel

/-- **C29 violated.**  KEEPACTIVE (id 0xA7) asks for 60 s, is acknowledged, and has no effect on the limit beyond that of any
other command: src/osdp_pd.c:572 moves the time stamp forward, but the same call of `osdp_pd_update` overwrites it with the
current time (src/osdp_pd.c:1037). -/
theorem C29_keepactive_no_effect :
    activeAt (usedAt 5000 0xA7#8 [0x60#8, 0xEA#8]) 13000 = some true ∧
    activeAt (usedAt 5000 0xA7#8 [0x60#8, 0xEA#8]) 13001 = some false ∧
    ((usedAt 5000 0xA7#8 [0x60#8, 0xEA#8]).toOption.map fun r => (r.1.replyId, (sent r.2).length)) = some (0x40, 1) := by decide +kernel

end Osdp.PdM
