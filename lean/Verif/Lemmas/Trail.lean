import Verif.Lemmas.CtxSetup

/-!
# Histories of the whole CP as a sequence of visits
-/

namespace Osdp.CpM

open Spec.Wire (sent)

/-- one visit of a refresh: the position of the PD in the list given to `osdp_cp_setup`, what is
observed, the CP before and after, the effects, and whether the refresh goes on -/
structure Visit1 where
  pos : Nat
  env : Env
  before : Ctx
  after : Ctx
  outs : List Out
  more : Bool

/-- the visits of one refresh (up to a fault) -/
def visits (C : Cipher) : Nat → Nat → Ctx → (Nat → Env) → List Visit1
  | 0, _, _, _ => []
  | n + 1, k, c, envs =>
    match refreshPd C c c.cur (envs k) with
    | .error _ => []
    | .ok (c', outs, more) =>
      ⟨c.cur, envs k, c, c', outs, more⟩ :: if more then visits C n (k + 1) { c' with cur := nextIdx c' c'.cur } envs else []

/-- the visits of a history (up to a fault) -/
def ctxVisits (C : Cipher) (c : Ctx) : List CtxOp → List Visit1
  | [] => []
  | op :: ops =>
    (match op with
      | .refresh envs => visits C c.pds.length 0 c envs
      | _ => []) ++
    match ctxStep C c op with
    | .error _ => []
    | .ok (c', _) => ctxVisits C c' ops

/-- no PDs are added at run time -/
def NoAdd (ops : List CtxOp) : Prop := ∀ op ∈ ops, ∀ a b n, op ≠ .add a b n

/-- one channel only: all PDs are on it -/
def Single (c : Ctx) : Prop := c.numChannels = 1 → ∀ p ∈ c.pds, ∀ q ∈ c.pds, p.chanId = q.chanId

/-- what an API call changes -/
structure Near (c c' : Ctx) : Prop where
  cur : c'.cur = c.cur
  num : c'.numChannels = c.numChannels
  len : c'.pds.length = c.pds.length
  pds : ∀ (i : Nat) (p : Pd), c.pds[i]? = some p → ∃ q, c'.pds[i]? = some q ∧ Api p q

theorem Api.refl (p : Pd) : Api p p := rfl

theorem Near.refl (c : Ctx) : Near c c := ⟨rfl, rfl, rfl, fun _ p h => ⟨p, h, .refl p⟩⟩

theorem Near.back {c c' : Ctx} (h : Near c c') {i : Nat} {q : Pd} (hq : c'.pds[i]? = some q) : ∃ p, c.pds[i]? = some p ∧ Api p q := by
  have hi := (List.getElem?_eq_some_iff.mp hq).1
  rw [h.len] at hi
  obtain ⟨q', h1, h2⟩ := h.pds i _ (List.getElem?_eq_getElem hi)
  rw [hq] at h1
  injection h1 with h1; subst h1
  exact ⟨_, List.getElem?_eq_getElem hi, h2⟩

theorem Api.same {p q : Pd} (h : Api p q) : q.phyState = p.phyState ∧ q.phyTstamp = p.phyTstamp ∧ q.chanId = p.chanId ∧ q.idx = p.idx := by
  unfold Api at h
  rw [h]; exact ⟨rfl, rfl, rfl, rfl⟩

theorem Single.near {c c' : Ctx} (S : Single c) (h : Near c c') : Single c' := by
  intro hn p hp q hq
  obtain ⟨i, hi⟩ := List.getElem?_of_mem hp
  obtain ⟨j, hj⟩ := List.getElem?_of_mem hq
  obtain ⟨p', hp', ha⟩ := h.back hi
  obtain ⟨q', hq', hb⟩ := h.back hj
  rw [ha.same.2.2.1, hb.same.2.2.1]
  exact S (by rw [← h.num]; exact hn) p' (mem_of_get hp') q' (mem_of_get hq')

/-! ### one visit -/

/-- a command has been sent to the PD at position `i`, at time `t`; its reply is awaited -/
def Awaiting (c : Ctx) (i : Nat) (t : Int) : Prop := ∃ p, c.pds[i]? = some p ∧ p.phyState = .replyWait ∧ p.phyTstamp = t

/-- more than part of a packet has come in from the PD -/
def HeardFrom (v : Visit1) : Prop :=
  ∃ p q r, v.before.pds[v.pos]? = some p ∧ Phy.checkPacket p v.env = .ok (q, r) ∧ r ≠ .noData ∧ r ≠ .wait

/-- the PD was attended to, in contrast to passed over -/
def Served (C : Cipher) (v : Visit1) : Prop :=
  ∃ p q y, v.before.pds[v.pos]? = some p ∧ stateUpdate C v.before.cb p v.env = .ok (q, v.outs, y) ∧ v.after.pds[v.pos]? = some q

/-- what a visit is -/
structure Good (C : Cipher) (v : Visit1) : Prop where
  before : Well v.before
  after : Well v.after
  cur : v.before.cur = v.pos
  run : refreshPd C v.before v.pos v.env = .ok (v.after, v.outs, v.more)

theorem refreshPd_same {C : Cipher} {c c' : Ctx} {i : Nat} {env : Env} {outs : List Out} {more : Bool} (W : Well c)
    (h : refreshPd C c i env = .ok (c', outs, more)) : c'.cur = c.cur ∧ c'.pds.length = c.pds.length ∧ c'.numChannels = c.numChannels ∧ c'.cb = c.cb := by
  obtain ⟨p, hp, hv, -⟩ := refreshPd_visited W h
  cases hv with
  | blocked _ _ => exact ⟨rfl, rfl, rfl, rfl⟩
  | served _ _ he => rw [he]; simp

theorem Good.other {C : Cipher} {v : Visit1} (G : Good C v) {i : Nat} (hi : i ≠ v.pos) : v.after.pds[i]? = v.before.pds[i]? := by
  obtain ⟨p, hp, hv, -⟩ := refreshPd_visited G.before G.run
  generalize v.after = c' at hv ⊢
  generalize v.outs = outs at hv
  generalize v.more = more at hv
  cases hv with
  | blocked _ _ => rfl
  | served _ _ he => rw [he]; exact List.getElem?_set_ne (Ne.symm hi)

/-- all a visit can do -/
theorem Good.cases {C : Cipher} {v : Visit1} (G : Good C v) : ∃ p, v.before.pds[v.pos]? = some p ∧
    ((Blocked v.before v.pos p ∧ v.after = v.before ∧ v.outs = [] ∧ v.more = true) ∨
     ∃ q y, ¬ Blocked v.before v.pos p ∧ stateUpdate C v.before.cb p v.env = .ok (q, v.outs, y) ∧ Inv p ∧ v.after.pds[v.pos]? = some q ∧
      v.more = (y || !p.flags.chnShared || decide (v.before.numChannels ≠ 1))) := by
  obtain ⟨p, hp, hv, -⟩ := refreshPd_visited G.before G.run
  refine ⟨p, hp, ?_⟩
  have hlen := (List.getElem?_eq_some_iff.mp hp).1
  have I := G.before.inv p (mem_of_get hp)
  generalize hc : v.after = c' at hv ⊢
  generalize v.outs = outs at hv ⊢
  generalize v.more = more at hv ⊢
  cases hv with
  | blocked h _ => exact .inl ⟨h, rfl, rfl, rfl⟩
  | served h1 h2 he =>
    refine .inr ⟨_, _, h1, h2, I, ?_, rfl⟩
    rw [he]
    exact List.getElem?_set_self hlen

theorem Reply.quiet {C : Cipher} {p q : Pd} {env : Env} {o : List Out} {rc : CpErr} (h : Reply C p env q o rc) :
    (rc = .noData ∧ ∃ q r, Phy.checkPacket p env = .ok (q, r) ∧ (r = .noData ∨ r = .wait)) ∨
    ∃ q r, Phy.checkPacket p env = .ok (q, r) ∧ r ≠ .noData ∧ r ≠ .wait := by
  cases h with
  | nothing h _ hr => exact .inl ⟨rfl, _, _, h, hr⟩
  | bad h _ hr => refine .inr ⟨_, _, h, ?_⟩; rcases hr with rfl | rfl | rfl <;> exact ⟨(fun h => by cases h), (fun h => by cases h)⟩
  | busy h _ => exact .inr ⟨_, _, h, (fun h => by cases h), (fun h => by cases h)⟩
  | seq h _ => exact .inr ⟨_, _, h, (fun h => by cases h), (fun h => by cases h)⟩
  | refused h _ _ _ _ => exact .inr ⟨_, _, h, (fun h => by cases h), (fun h => by cases h)⟩
  | reply h _ _ _ _ _ _ _ _ _ => exact .inr ⟨_, _, h, (fun h => by cases h), (fun h => by cases h)⟩

/-- a visit to a PD whose reply is awaited: it stays so only if nothing came and the time is not over -/
theorem Update.awaits {C : Cipher} {cb : Bool} {p q : Pd} {env : Env} {outs : List Out} {y : Bool} (h : Update C cb p env q outs y)
    (hw : p.phyState = .replyWait) :
    Spec.Wire.sent outs = [] ∧ ((q.phyState = .replyWait ∧ q.phyTstamp = p.phyTstamp ∧ env.now - p.phyTstamp ≤ 200) ∨
      (∃ s r, Phy.checkPacket p env = .ok (s, r) ∧ r ≠ .noData ∧ r ≠ .wait) ∨ p.phyTstamp + 200 < env.now) := by
  have nosend : ∀ {a : Pd} {o : List Out} {rc : CpErr}, Waited C p env a o rc → Spec.Wire.sent o = [] := by
    intro a o rc h
    refine sent_nil fun x hx bs hb => ?_
    rw [hb] at hx
    have := h.outs _ hx; cases this
  have key : ∀ {a : Pd} {o : List Out} {rc : CpErr}, Waited C p env a o rc → rc ≠ .inprog →
      (∃ s r, Phy.checkPacket p env = .ok (s, r) ∧ r ≠ .noData ∧ r ≠ .wait) ∨ p.phyTstamp + 200 < env.now := by
    intro a o rc h hrc
    have late : ∀ {b : Pd} {o : List Out} {rc : CpErr}, Reply C p env b o rc → env.now - b.phyTstamp > PdM.RESP_TOUT → p.phyTstamp + 200 < env.now := by
      intro b o rc h ht
      rw [h.heard.keeps.2.2.2.2.2.1] at ht
      have : (PdM.RESP_TOUT : Int) = 200 := rfl
      omega
    cases h with
    | answered h => rcases h.quiet with ⟨h, -⟩ | h; cases h; exact .inl h
    | ignored h _ _ => rcases h.quiet with ⟨h, -⟩ | h; cases h; exact .inl h
    | failed h hr => rcases h.quiet with ⟨h, -⟩ | h; (rcases hr with rfl | rfl <;> cases h); exact .inl h
    | busy h => rcases h.quiet with ⟨h, -⟩ | h; cases h; exact .inl h
    | retry h ht _ => exact .inr (late h ht)
    | exhausted h ht _ => exact .inr (late h ht)
    | waiting _ _ => exact absurd rfl hrc
  cases h with
  | hold h _ => rw [hw] at h; cases h
  | sent hm _ => rcases hm with h | ⟨h, -⟩ <;> (rw [hw] at h; cases h)
  | unsent hm _ _ => rcases hm with h | ⟨h, -⟩ <;> (rw [hw] at h; cases h)
  | replied _ h hr h2 =>
    refine ⟨by rw [sent_append, nosend h, settle_sent h2]; rfl, .inr (key h ?_)⟩
    rcases hr with rfl | rfl <;> (intro h; cases h)
  | again _ h => exact ⟨nosend h, .inr (key h (by intro h; cases h))⟩
  | waiting _ h =>
    refine ⟨nosend h, .inl ?_⟩
    cases h with
    | waiting h ht =>
      have hk := h.heard.keeps
      refine ⟨by rw [hk.2.1]; exact hw, hk.2.2.2.2.2.1, ?_⟩
      rw [hk.2.2.2.2.2.1] at ht
      have : (PdM.RESP_TOUT : Int) = 200 := rfl
      omega
  | idle h _ => rcases h with h | h | h <;> (rw [hw] at h; cases h)

/-- a visit to a PD whose reply is not awaited -/
theorem Update.begins {C : Cipher} {cb : Bool} {p q : Pd} {env : Env} {outs : List Out} {y : Bool} (I : Inv p) (h : Update C cb p env q outs y)
    (hw : p.phyState ≠ .replyWait) :
    (q.phyState = .replyWait → q.phyTstamp = env.now) ∧
    (Spec.Wire.sent outs ≠ [] → 256 ≤ env.sendCap → q.phyState = .replyWait) := by
  have nost : ∀ {a : Pd} {o : List Out}, Mid a → settle cb a env = .ok (q, o) → q.phyState ≠ .replyWait := by
    intro a o M h he
    rcases (settled M h).2 with h | h <;> rw [h] at he <;> cases he
  cases h with
  | hold _ _ => exact ⟨fun h => absurd h hw, fun h => absurd rfl h⟩
  | sent _ _ => exact ⟨fun _ => rfl, fun _ _ => rfl⟩
  | unsent _ h h2 =>
    refine ⟨fun h' => absurd h' (nost (unsent_mid I h) h2), fun hs hc => absurd ?_ hs⟩
    rw [sent_append, settle_sent h2, List.append_nil]
    have noX : ∀ {o : List Out}, (∀ x ∈ o, ∀ bs, x ≠ .send bs) → Spec.Wire.sent o = [] := fun h => sent_nil fun o ho bs hb => h o ho bs hb
    have cmdOuts : ∀ {b : Built}, CmdBody C (nextCmd p) env (cmdTx p) b → ∀ x ∈ b.outs, ∀ bs, x ≠ .send bs := by
      intro b hb x hx bs he
      rw [he] at hx
      obtain ⟨_, _, h⟩ := hb.outs _ hx
      cases h
    generalize hok : false = ok at h
    cases h with
    | mute _ => rfl
    | unbuilt b _ _ hb _ => exact noX (cmdOuts hb)
    | built b l q outs ok _ _ hb _ _ _ hcase _ =>
      rw [sent_append, noX (cmdOuts hb)]
      rcases hcase with ⟨h, -, -⟩ | ⟨wire, q', -, -, -, hlen, ho, hok'⟩
      · rw [h]; rfl
      · exfalso
        have : (cmdPkt b l.length wire).bytes.length ≤ env.sendCap := by
          have : p.txBufSize ≤ 256 := by unfold Pd.txBufSize; split <;> omega
          omega
        rw [hok', decide_eq_true this] at hok
        cases hok
  | replied h _ _ _ => exact absurd h hw
  | again h _ => exact absurd h hw
  | waiting h _ => exact absurd h hw
  | idle _ h => exact ⟨fun h' => absurd h' (nost I.mid h), fun hs => absurd (settle_sent h) hs⟩

theorem Update.stays {C : Cipher} {cb : Bool} {p q : Pd} {env : Env} {outs : List Out} {y : Bool} (I : Inv p) (h : Update C cb p env q outs y)
    (hp : p.phyState = .replyWait) (hq : q.phyState = .replyWait) : q.phyTstamp = p.phyTstamp ∧ env.now - p.phyTstamp ≤ 200 := by
  have hy := (h.yields I).mpr hq
  cases h with
  | waiting _ h =>
    cases h with
    | waiting h ht =>
      have hk := h.heard.keeps.2.2.2.2.2.1
      rw [hk] at ht
      have : (PdM.RESP_TOUT : Int) = 200 := rfl
      exact ⟨hk, by omega⟩
  | sent hm _ => rcases hm with h | ⟨h, -⟩ <;> (rw [hp] at h; cases h)
  | _ => cases hy

theorem Good.awaits {C : Cipher} {v : Visit1} (G : Good C v) {t : Int} (ha : Awaiting v.before v.pos t) :
    sent v.outs = [] ∧ ((Awaiting v.after v.pos t ∧ v.env.now - t ≤ 200) ∨ HeardFrom v ∨ t + 200 < v.env.now) := by
  obtain ⟨p', hp', hw, rfl⟩ := ha
  obtain ⟨p, hp, h⟩ := G.cases
  rw [hp] at hp'; injection hp' with hp'; subst hp'
  rcases h with ⟨⟨j, r, ht, he, hr⟩, -⟩ | ⟨q, y, -, hu, I, hq, -⟩
  · exact absurd hr (G.before.excl _ j _ r ht he hw)
  · obtain ⟨h1, h2⟩ := (stateUpdate_inv I.cp hu).awaits hw
    refine ⟨h1, ?_⟩
    rcases h2 with ⟨a, b, c⟩ | ⟨s, r, h⟩ | h
    · exact .inl ⟨⟨q, hq, a, b⟩, c⟩
    · exact .inr (.inl ⟨p, s, r, hp, h⟩)
    · exact .inr (.inr h)

/-- a reply is awaited for at most 200 ms -/
theorem Good.over {C : Cipher} {v : Visit1} (G : Good C v) {t t' : Int} (ha : Awaiting v.before v.pos t) (ha' : Awaiting v.after v.pos t') :
    t' = t ∧ v.env.now - t ≤ 200 := by
  obtain ⟨p', hp', hw, rfl⟩ := ha
  obtain ⟨q', hq', hw', rfl⟩ := ha'
  obtain ⟨p, hp, h⟩ := G.cases
  rw [hp] at hp'; injection hp' with hp'; subst hp'
  rcases h with ⟨⟨j, r, ht, he, hr⟩, -⟩ | ⟨q, y, -, hu, I, hq, -⟩
  · exact absurd hr (G.before.excl _ j _ r ht he hw)
  · rw [hq] at hq'; injection hq' with hq'; subst hq'
    exact (stateUpdate_inv I.cp hu).stays I hw hw'

/-- who is awaited after a visit was so before, or has just been sent a command -/
theorem Good.awaiting {C : Cipher} {v : Visit1} (G : Good C v) {i : Nat} {t : Int} (ha : Awaiting v.after i t) :
    Awaiting v.before i t ∨ i = v.pos ∧ t = v.env.now ∧ ∀ p, v.before.pds[i]? = some p → ¬ Blocked v.before i p := by
  by_cases hi : i = v.pos
  · subst hi
    obtain ⟨p, hp, h⟩ := G.cases
    rcases h with ⟨-, h, -⟩ | ⟨q, y, hb, hu, I, hq, -⟩
    · left; rw [← h]; exact ha
    · obtain ⟨q', hq', hw, ht⟩ := ha
      rw [hq] at hq'; injection hq' with hq'; subst hq'
      have hup := stateUpdate_inv I.cp hu
      by_cases hpw : p.phyState = .replyWait
      · exact .inl ⟨p, hp, hpw, (hup.stays I hpw hw).1.symm.trans ht⟩
      · right
        refine ⟨rfl, ?_, fun p' hp' => ?_⟩
        · rw [← ht]; exact (hup.begins I hpw).1 hw
        · rw [hp] at hp'; injection hp' with hp'; subst hp'; exact hb
  · left
    obtain ⟨q, hq, h⟩ := ha
    rw [G.other hi] at hq
    exact ⟨q, hq, h⟩

/-- a command is sent only if no other PD on the channel is waited for -/
theorem Good.sends {C : Cipher} {v : Visit1} (G : Good C v) (hs : sent v.outs ≠ []) :
    (∀ p, v.before.pds[v.pos]? = some p → ¬ Blocked v.before v.pos p) ∧ (256 ≤ v.env.sendCap → Awaiting v.after v.pos v.env.now) := by
  obtain ⟨p, hp, h⟩ := G.cases
  rcases h with ⟨-, -, h, -⟩ | ⟨q, y, hb, hu, I, hq, -⟩
  · rw [h] at hs; exact absurd rfl hs
  · have hup := stateUpdate_inv I.cp hu
    refine ⟨fun p' hp' => ?_, fun hc => ?_⟩
    · rw [hp] at hp'; injection hp' with hp'; subst hp'; exact hb
    · by_cases hpw : p.phyState = .replyWait
      · exact absurd (hup.awaits hpw).1 hs
      · have := (hup.begins I hpw).2 hs hc
        exact ⟨q, hq, this, (hup.begins I hpw).1 this⟩

/-- the refresh stops early only at a PD that is waited for, if there is one shared channel -/
theorem Good.stops {C : Cipher} {v : Visit1} (G : Good C v) (hm : v.more = false) :
    (∃ t, Awaiting v.after v.pos t) ∧ v.before.numChannels = 1 := by
  obtain ⟨p, hp, h⟩ := G.cases
  rcases h with ⟨-, -, -, h⟩ | ⟨q, y, hb, hu, I, hq, h⟩
  · rw [h] at hm; cases hm
  · rw [h] at hm
    simp only [Bool.or_eq_false_iff, decide_eq_false_iff_not, Decidable.not_not] at hm
    obtain ⟨⟨hy, -⟩, hn⟩ := hm
    exact ⟨⟨_, q, hq, ((stateUpdate_inv I.cp hu).yields I).mp hy, rfl⟩, hn⟩

/-- who is not blocked is served -/
theorem Good.served {C : Cipher} {v : Visit1} (G : Good C v) (h : ∀ p, v.before.pds[v.pos]? = some p → ¬ Blocked v.before v.pos p) : Served C v := by
  obtain ⟨p, hp, hc⟩ := G.cases
  rcases hc with ⟨hb, -⟩ | ⟨q, y, hb, hu, -, hq, -⟩
  · exact absurd hb (h p hp)
  · exact ⟨p, q, y, hp, hu, hq⟩

theorem nextIdx_well {c : Ctx} {i : Nat} (W : Well c) (hi : i < c.pds.length) : nextIdx c i = if i + 1 ≥ c.pds.length then 0 else i + 1 := by
  unfold nextIdx
  rw [List.getElem?_eq_getElem hi]
  dsimp only
  rw [W.idx i _ (List.getElem?_eq_getElem hi)]

/-- the CP after a visit -/
def moved (c : Ctx) (more : Bool) : Ctx := if more then { c with cur := nextIdx c c.cur } else c

theorem Good.len {C : Cipher} {v : Visit1} (G : Good C v) : v.pos < v.before.pds.length ∧ v.after.pds.length = v.before.pds.length ∧
    v.after.cur = v.pos ∧ v.after.numChannels = v.before.numChannels := by
  obtain ⟨p, hp, -⟩ := G.cases
  have h := refreshPd_same G.before G.run
  exact ⟨(List.getElem?_eq_some_iff.mp hp).1, h.2.1, h.1.trans G.cur, h.2.2.1⟩

theorem moved_pds (c : Ctx) (m : Bool) : (moved c m).pds = c.pds ∧ (moved c m).numChannels = c.numChannels ∧ (moved c m).lock = c.lock := by
  unfold moved; split <;> exact ⟨rfl, rfl, rfl⟩

theorem Good.moved {C : Cipher} {v : Visit1} (G : Good C v) : Well (moved v.after v.more) := by
  have W := G.after
  have hl := G.len
  unfold CpM.moved
  split
  · refine ⟨W.inv, W.idx, W.shared, W.nonzero, W.lock, W.locks, W.excl, .inl ?_⟩
    show nextIdx v.after v.after.cur < v.after.pds.length
    rw [nextIdx_well W (by omega)]
    split <;> omega
  · exact W

theorem Good.pos {C : Cipher} {v : Visit1} (G : Good C v) : (CpM.moved v.after v.more).cur = if v.more then (v.pos + 1) % v.before.pds.length else v.pos := by
  have hl := G.len
  unfold CpM.moved
  split
  · show nextIdx v.after v.after.cur = _
    rw [nextIdx_well G.after (by omega), hl.2.2.1, hl.2.1]
    split
    · have : v.pos + 1 = v.before.pds.length := by omega
      rw [this, Nat.mod_self]
    · rw [Nat.mod_eq_of_lt (by omega)]
  · exact hl.2.2.1

/-- the PD at a position is on a channel -/
def OnChan (c : Ctx) (i : Nat) (ch : Int) : Prop := ∃ p, c.pds[i]? = some p ∧ p.chanId = ch

theorem Good.onChan {C : Cipher} {v : Visit1} (G : Good C v) {i : Nat} {ch : Int} : OnChan v.after i ch ↔ OnChan v.before i ch := by
  by_cases hi : i = v.pos
  · subst hi
    obtain ⟨p, hp, h⟩ := G.cases
    unfold OnChan
    rcases h with ⟨-, he, -⟩ | ⟨q, y, -, hu, I, hq, -⟩
    · rw [he]
    · rw [hp, hq]
      have := (stateUpdate_inv I.cp hu).place.chanId
      constructor
      · rintro ⟨x, hx, h⟩; injection hx with hx; subst hx; exact ⟨p, rfl, by rw [← this]; exact h⟩
      · rintro ⟨x, hx, h⟩; injection hx with hx; subst hx; exact ⟨q, rfl, by rw [this]; exact h⟩
  · unfold OnChan; rw [G.other hi]

theorem Near.onChan {c c' : Ctx} (n : Near c c') {i : Nat} {ch : Int} : OnChan c' i ch ↔ OnChan c i ch := by
  constructor
  · rintro ⟨q, hq, h⟩
    obtain ⟨p, hp, ha⟩ := n.back hq
    exact ⟨p, hp, by rw [← ha.same.2.2.1]; exact h⟩
  · rintro ⟨p, hp, h⟩
    obtain ⟨q, hq, ha⟩ := n.pds i p hp
    exact ⟨q, hq, by rw [ha.same.2.2.1]; exact h⟩

theorem Near.awaiting {c c' : Ctx} (n : Near c c') {i : Nat} {t : Int} : Awaiting c' i t ↔ Awaiting c i t := by
  constructor
  · rintro ⟨q, hq, h1, h2⟩
    obtain ⟨p, hp, ha⟩ := n.back hq
    exact ⟨p, hp, by rw [← ha.same.1]; exact h1, by rw [← ha.same.2.1]; exact h2⟩
  · rintro ⟨p, hp, h1, h2⟩
    obtain ⟨q, hq, ha⟩ := n.pds i p hp
    exact ⟨q, hq, by rw [ha.same.1]; exact h1, by rw [ha.same.2.1]; exact h2⟩

theorem moved_awaiting {c : Ctx} {m : Bool} {i : Nat} {t : Int} : Awaiting (moved c m) i t ↔ Awaiting c i t := by
  unfold Awaiting; rw [(moved_pds c m).1]

theorem moved_onChan {c : Ctx} {m : Bool} {i : Nat} {ch : Int} : OnChan (moved c m) i ch ↔ OnChan c i ch := by
  unfold OnChan; rw [(moved_pds c m).1]

/-- two PDs on one channel are not both waited for -/
theorem Well.once {c : Ctx} (W : Well c) {i j : Nat} {ch t t' : Int} (hi : OnChan c i ch) (hj : OnChan c j ch) (ha : Awaiting c i t) (hb : Awaiting c j t') :
    i = j := by
  refine Classical.byContradiction fun hn => ?_
  obtain ⟨p, hp, h1⟩ := hi
  obtain ⟨q, hq, h2⟩ := hj
  obtain ⟨p', hp', h3, -⟩ := ha
  obtain ⟨q', hq', h4, -⟩ := hb
  rw [hp] at hp'; injection hp' with hp'; subst hp'
  rw [hq] at hq'; injection hq' with hq'; subst hq'
  exact W.excl i j p q ⟨hn, hp, hq⟩ (h1.trans h2.symm) h3 h4

theorem Single.onChan {c : Ctx} (S : Single c) (hn : c.numChannels = 1) {i j : Nat} {ch : Int} (hj : OnChan c j ch) (hi : i < c.pds.length) : OnChan c i ch := by
  obtain ⟨q, hq, h⟩ := hj
  have hp := List.getElem?_eq_getElem hi
  exact ⟨_, hp, (S hn _ (mem_of_get hp) _ (mem_of_get hq)).trans h⟩

theorem Good.single {C : Cipher} {v : Visit1} (G : Good C v) (S : Single v.before) : Single (CpM.moved v.after v.more) := by
  intro hn p hp q hq
  rw [(moved_pds _ _).2.1, G.len.2.2.2] at hn
  rw [(moved_pds _ _).1] at hp hq
  obtain ⟨i, hi⟩ := List.getElem?_of_mem hp
  obtain ⟨j, hj⟩ := List.getElem?_of_mem hq
  obtain ⟨p', hp', h1⟩ := G.onChan.mp ⟨p, hi, rfl⟩
  obtain ⟨q', hq', h2⟩ := G.onChan.mp ⟨q, hj, rfl⟩
  rw [← h1, ← h2]
  exact S hn p' (mem_of_get hp') q' (mem_of_get hq')

/-! ### a history as a chain of visits -/

inductive Trail (C : Cipher) : Ctx → List Visit1 → Prop
  | nil (c : Ctx) : Trail C c []
  | api {c c' : Ctx} {vs : List Visit1} : Well c' → Near c c' → Trail C c' vs → Trail C c vs
  | visit {v : Visit1} {vs : List Visit1} : Good C v → Trail C (moved v.after v.more) vs → Trail C v.before (v :: vs)

theorem Trail.after {C : Cipher} {c : Ctx} {v : Visit1} {vs : List Visit1} (T : Trail C c (v :: vs)) : Good C v ∧ Trail C (moved v.after v.more) vs := by
  generalize h : v :: vs = l at T
  induction T with
  | nil => cases h
  | api _ _ _ ih => exact ih h
  | visit g t _ => injection h with h1 h2; subst h1 h2; exact ⟨g, t⟩

theorem Trail.drop {C : Cipher} {c : Ctx} {a : List Visit1} {v : Visit1} {b : List Visit1} (T : Trail C c (a ++ v :: b)) :
    Good C v ∧ Trail C (moved v.after v.more) b := by
  induction a generalizing c with
  | nil => exact T.after
  | cons x xs ih => exact ih T.after.2

/-- an invariant of the chain: kept by API calls, and by visits as long as they are of a kind -/
theorem Trail.keeps {C : Cipher} {P : Ctx → List Visit1 → Prop} {K : Visit1 → Prop} {c : Ctx} {b : List Visit1} {w : Visit1} {d : List Visit1}
    (T : Trail C c (b ++ w :: d)) (h0 : P c (b ++ w :: d)) (hb : ∀ u ∈ b, K u)
    (api : ∀ c c' vs, Near c c' → Well c' → P c vs → P c' vs)
    (visit : ∀ v vs, Good C v → K v → P v.before (v :: vs) → P (moved v.after v.more) vs) : P w.before (w :: d) := by
  generalize hl : b ++ w :: d = l at T h0
  induction T generalizing b with
  | nil => cases b <;> cases hl
  | api W n _ ih => exact ih hb hl (api _ _ _ n W h0)
  | visit g t ih =>
    cases b with
    | nil => injection hl with h1 h2; subst h1 h2; exact h0
    | cons x xs =>
      injection hl with h1 h2; subst h1
      exact ih (fun u hu => hb u (List.mem_cons_of_mem _ hu)) h2 (visit _ _ g (hb _ List.mem_cons_self) h0)

theorem ctxStep_api {C : Cipher} {c c' : Ctx} {op : CtxOp} {o : List Out} (W : Well c) (hop : ∀ a b n, op ≠ .add a b n) (hop' : ∀ envs, op ≠ .refresh envs)
    (h : ctxStep C c op = .ok (c', o)) : Well c' ∧ Near c c' ∧ sent o = [] := by
  have put : ∀ {i : Nat} {p q : Pd} {op : Op} {o : List Out}, c.pds[i]? = some p → step C p op = .ok (q, o) → (∀ cb env, op ≠ .update cb env) →
      op ≠ .share → Well { c with pds := c.pds.set i q } ∧ Near c { c with pds := c.pds.set i q } := by
    intro i p q op o hp h h1 h2
    refine ⟨W.api hp h h1 h2, rfl, rfl, by simp, ?_⟩
    intro j r hj
    by_cases hij : i = j
    · subst hij
      rw [hp] at hj; injection hj with hj; subst hj
      exact ⟨q, List.getElem?_set_self (List.getElem?_eq_some_iff.mp hp).1, step_apiOnly h h1⟩
    · exact ⟨r, by rw [← hj]; exact List.getElem?_set_ne hij, .refl r⟩
  cases op with
  | refresh envs => exact absurd rfl (hop' envs)
  | add a b n => exact absurd rfl (hop a b n)
  | callback b => injection h with h; injection h with e1 e2; subst e1 e2; exact ⟨W.cb b, ⟨rfl, rfl, rfl, fun _ p h => ⟨p, h, .refl p⟩⟩, rfl⟩
  | send i env cmd =>
    injection h with h; injection h with e1 e2; subst e1 e2
    unfold sendCommand
    split
    · cases hp : c.pds[i.toNat]? with
      | none => exact ⟨W, .refl c, rfl⟩
      | some p =>
        have := put (op := .send env cmd) hp rfl (by intro _ _ h; cases h) (by intro h; cases h)
        refine ⟨this.1, this.2, sent_nil fun o ho bs hb => ?_⟩
        rw [hb] at ho
        obtain ⟨_, _, h⟩ := sendPd_outs _ ho
        cases h
    · exact ⟨W, .refl c, rfl⟩
  | flush i =>
    injection h with h; injection h with e1 e2; subst e1 e2
    unfold flushCommands
    split
    · cases hp : c.pds[i.toNat]? with
      | none => exact ⟨W, .refl c, rfl⟩
      | some p =>
        have := put (op := .flush) hp rfl (by intro _ _ h; cases h) (by intro h; cases h)
        exact ⟨this.1, this.2, rfl⟩
    · exact ⟨W, .refl c, rfl⟩
  | flag i f b =>
    injection h with h; injection h with e1 e2; subst e1 e2
    unfold modifyFlag
    split
    · cases hp : c.pds[i.toNat]? with
      | none => exact ⟨W, .refl c, rfl⟩
      | some p =>
        have := put (op := .flag f b) hp rfl (by intro _ _ h; cases h) (by intro h; cases h)
        exact ⟨this.1, this.2, rfl⟩
    · exact ⟨W, .refl c, rfl⟩
  | fileOps i =>
    injection h with h; injection h with e1 e2; subst e1 e2
    unfold fileRegisterOps
    split
    · cases hp : c.pds[i.toNat]? with
      | none => exact ⟨W, .refl c, rfl⟩
      | some p =>
        have := put (op := .fileOps) hp rfl (by intro _ _ h; cases h) (by intro h; cases h)
        exact ⟨this.1, this.2, rfl⟩
    · exact ⟨W, .refl c, rfl⟩

theorem visits_trail {C : Cipher} : ∀ {n k : Nat} {c : Ctx} {envs : Nat → Env} {rest : List Visit1}, Well c →
    (∀ e, refreshLoop C n k c envs = .error e → rest = []) →
    (∀ c' o, refreshLoop C n k c envs = .ok (c', o) → Well c' → Trail C c' rest) → Trail C c (visits C n k c envs ++ rest)
  | 0, k, c, envs, rest, W, _, h => h c [] rfl W
  | n + 1, k, c, envs, rest, W, he, h => by
    unfold visits
    cases h1 : refreshPd C c c.cur (envs k) with
    | error e =>
      have : refreshLoop C (n + 1) k c envs = .error e := by unfold refreshLoop; rw [h1]; rfl
      rw [he e this]
      exact .nil c
    | ok r =>
      obtain ⟨c1, o1, more⟩ := r
      dsimp only
      obtain ⟨p, hp, hv, W1⟩ := refreshPd_visited W h1
      have G : Good C ⟨c.cur, envs k, c, c1, o1, more⟩ := ⟨W, W1, rfl, h1⟩
      refine .visit (v := ⟨c.cur, envs k, c, c1, o1, more⟩) G ?_
      have Wm := G.moved
      dsimp only at Wm ⊢
      cases more with
      | false => exact h c1 o1 (by unfold refreshLoop; rw [h1]; rfl) W1
      | true =>
        refine visits_trail Wm (fun e h2 => he e ?_) (fun c' o h2 W' => h c' (o1 ++ o) ?_ W')
        · unfold refreshLoop; rw [h1]
          show (refreshLoop C n (k + 1) (moved c1 true) envs >>= _) = _
          rw [h2]; rfl
        · unfold refreshLoop; rw [h1]
          show (refreshLoop C n (k + 1) (moved c1 true) envs >>= _) = _
          rw [h2]; rfl

theorem refreshLoop_visits {C : Cipher} : ∀ {n k : Nat} {c c' : Ctx} {envs : Nat → Env} {outs : List Out}, Well c →
    refreshLoop C n k c envs = .ok (c', outs) → outs = (visits C n k c envs).flatMap (·.outs) ∧ Well c' ∧
      ((visits C n k c envs).length = n ∨ ∃ v, (visits C n k c envs).getLast? = some v ∧ v.more = false)
  | 0, k, c, c', envs, outs, W, h => by
    injection h with h; injection h with e1 e2; subst e1 e2
    exact ⟨rfl, W, .inl rfl⟩
  | n + 1, k, c, c', envs, outs, W, h => by
    unfold refreshLoop at h
    obtain ⟨⟨c1, o1, more⟩, h1, h⟩ := Res.bind_eq_ok.mp h
    obtain ⟨p, hp, hv, W1⟩ := refreshPd_visited W h1
    have G : Good C ⟨c.cur, envs k, c, c1, o1, more⟩ := ⟨W, W1, rfl, h1⟩
    unfold visits
    rw [h1]
    dsimp only
    cases more with
    | false =>
      injection h with h; injection h with e1 e2; subst e1 e2
      exact ⟨by simp, W1, .inr ⟨_, rfl, rfl⟩⟩
    | true =>
      obtain ⟨⟨c2, o2⟩, h2, h⟩ := Res.bind_eq_ok.mp h
      injection h with h; injection h with e1 e2; subst e1 e2
      obtain ⟨a, b, d⟩ := refreshLoop_visits G.moved h2
      refine ⟨by rw [if_pos rfl, List.flatMap_cons, a]; rfl, b, ?_⟩
      rw [if_pos rfl]
      rcases d with d | ⟨v, hv, hm⟩
      · exact .inl (by rw [List.length_cons]; exact congrArg (· + 1) d)
      · refine .inr ⟨v, ?_, hm⟩
        rw [List.getLast?_cons]
        show some (((visits C n (k + 1) (moved c1 true) envs).getLast?).getD _) = _
        rw [show (visits C n (k + 1) (moved c1 true) envs).getLast? = some v from hv]; rfl

theorem ctxVisits_trail {C : Cipher} {c : Ctx} {ops : List CtxOp} (W : Well c) (hop : NoAdd ops) : Trail C c (ctxVisits C c ops) := by
  induction ops generalizing c with
  | nil => exact .nil c
  | cons op ops ih =>
    have hop' : NoAdd ops := fun op h => hop op (List.mem_cons_of_mem _ h)
    unfold ctxVisits
    by_cases hr : ∃ envs, op = .refresh envs
    · obtain ⟨envs, rfl⟩ := hr
      refine visits_trail W (fun e he => ?_) (fun c' o he W' => ?_)
      · have : ctxStep C c (.refresh envs) = .error e := he
        rw [this]
      · have : ctxStep C c (.refresh envs) = .ok (c', o) := he
        rw [this]
        exact ih W' hop'
    · have hr' : ∀ envs, op ≠ .refresh envs := fun envs h => hr ⟨envs, h⟩
      have : (match op with | .refresh envs => visits C c.pds.length 0 c envs | _ => []) = [] := by
        cases op with
        | refresh envs => exact absurd rfl (hr' envs)
        | _ => rfl
      rw [this, List.nil_append]
      cases h : ctxStep C c op with
      | error e => exact .nil c
      | ok r =>
        obtain ⟨c', o⟩ := r
        obtain ⟨W', n, -⟩ := ctxStep_api W (hop op List.mem_cons_self) hr' h
        exact .api W' n (ih W' hop')

/-- The visits account for everything a history sends. -/
theorem ctxVisits_sent {C : Cipher} {c c' : Ctx} {ops : List CtxOp} {o : List Out} (W : Well c) (hop : NoAdd ops)
    (h : ctxRun C c ops = .ok (c', o)) : sent o = (ctxVisits C c ops).flatMap (fun v => sent v.outs) ∧ Well c' := by
  induction ops generalizing c o with
  | nil => injection h with h; injection h with e1 e2; subst e1 e2; exact ⟨rfl, W⟩
  | cons op ops ih =>
    obtain ⟨⟨c1, o1⟩, h1, h⟩ := Res.bind_eq_ok.mp h
    obtain ⟨⟨c2, o2⟩, h2, h⟩ := Res.bind_eq_ok.mp h
    injection h with h; injection h with e1 e2; subst e1 e2
    have hop' : NoAdd ops := fun op h => hop op (List.mem_cons_of_mem _ h)
    unfold ctxVisits
    rw [h1, sent_append, List.flatMap_append]
    dsimp only
    by_cases hr : ∃ envs, op = .refresh envs
    · obtain ⟨envs, rfl⟩ := hr
      obtain ⟨a, W1, -⟩ := refreshLoop_visits W h1
      obtain ⟨b, W2⟩ := ih W1 hop' h2
      refine ⟨?_, W2⟩
      rw [← b]
      congr 1
      rw [a]
      show sent ((visits C c.pds.length 0 c envs).flatMap _) = (visits C c.pds.length 0 c envs).flatMap _
      generalize visits C c.pds.length 0 c envs = vs
      clear a
      induction vs with
      | nil => rfl
      | cons v vs ih => rw [List.flatMap_cons, List.flatMap_cons, sent_append, ih]
    · have hr' : ∀ envs, op ≠ .refresh envs := fun envs h => hr ⟨envs, h⟩
      obtain ⟨W1, -, hs⟩ := ctxStep_api W (hop op List.mem_cons_self) hr' h1
      obtain ⟨b, W2⟩ := ih W1 hop' h2
      refine ⟨?_, W2⟩
      rw [← b, hs]
      cases op with
      | refresh envs => exact absurd rfl (hr' envs)
      | _ => rfl

end Osdp.CpM
