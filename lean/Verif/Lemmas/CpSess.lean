import Verif.Lemmas.CpHear
import Verif.Lemmas.CpTurn
import Verif.Spec.Session

/-! # The CP's session keys -/

namespace Osdp.CpM

open Spec.Session

/-- the same keys; the default key may have been selected, and the channel may have been closed -/
structure SameKeys (p q : Pd) : Prop where
  scbk : q.sc.scbk = p.sc.scbk
  rnd : q.sc.cpRandom = p.sc.cpRandom
  enc : q.sc.sEnc = p.sc.sEnc
  mac1 : q.sc.sMac1 = p.sc.sMac1
  mac2 : q.sc.sMac2 = p.sc.sMac2
  scbkd : p.flags.useScbkd = true → q.flags.useScbkd = true
  active : q.flags.scActive = true → p.flags.scActive = true

theorem SameKeys.refl (p : Pd) : SameKeys p p := ⟨rfl, rfl, rfl, rfl, rfl, id, id⟩

theorem SameKeys.trans {p q s : Pd} (h : SameKeys p q) (h' : SameKeys q s) : SameKeys p s :=
  ⟨h'.scbk.trans h.scbk, h'.rnd.trans h.rnd, h'.enc.trans h.enc, h'.mac1.trans h.mac1, h'.mac2.trans h.mac2,
    fun x => h'.scbkd (h.scbkd x), fun x => h.active (h'.active x)⟩

theorem Sent.sameKeys {p q : Pd} (h : Sent p q) : SameKeys p q := by
  unfold Sent at h
  rw [h]; exact ⟨rfl, rfl, rfl, rfl, rfl, id, id⟩

theorem transp_sameKeys {p q : Pd} (h : Phy.Transp p q) (h1 : p.flags.useScbkd = true → q.flags.useScbkd = true)
    (h2 : q.flags.scActive = true → p.flags.scActive = true) : SameKeys p q := by
  unfold Phy.Transp Phy.upd Phy.chgOf at h
  refine ⟨?_, ?_, ?_, ?_, ?_, h1, h2⟩ <;> rw [h]

theorem seed_eq (t : Byte) (r : Half) : Sc.keySeed t r = seed t r := rfl

/-- a reply leaves the keys alone, except for CCRYPT, which determines them -/
theorem Reply.keys {C : Cipher} {p q : Pd} {env : Env} {outs : List Out} {rc : CpErr} (h : Reply C p env q outs rc) :
    (SameKeys p q ∧ (rc = .none → q.replyId ≠ Id.CCRYPT)) ∨
    ∃ (id : Byte) (u r : Half) (w k : Block), Phy.heard C p env = some (id, u.1 ++ r.1 ++ w.1) ∧ id.toNat = Id.CCRYPT ∧
      p.cmdId = Id.CHLNG ∧ (rc = .none ∨ rc = .generic) ∧ q.flags.scActive = false ∧
      q.sc.scbk = p.sc.scbk ∧ q.sc.cpRandom = p.sc.cpRandom ∧
      (q.flags.useScbkd = false ∧ k = p.sc.scbk ∨ q.flags.useScbkd = true ∧ k = Sc.scbkDefault) ∧
      q.sc.sEnc = encKey C k p.sc.cpRandom ∧ q.sc.sMac1 = mac1Key C k p.sc.cpRandom ∧ q.sc.sMac2 = mac2Key C k p.sc.cpRandom ∧
      (rc = .none → w = cryptogram C q.sc.sEnc p.sc.cpRandom r) := by
  cases h with
  | nothing _ hc _ =>
    exact .inl ⟨transp_sameKeys hc.transp (fun h => hc.useScbkd ▸ h) (fun h => hc.scActive ▸ h), fun h => by cases h⟩
  | bad _ hc _ =>
    exact .inl ⟨transp_sameKeys hc.transp (fun h => hc.useScbkd ▸ h) (fun h => hc.scActive ▸ h), fun h => by cases h⟩
  | busy _ hc => exact .inl ⟨transp_sameKeys hc.transp (fun h => hc.useScbkd ▸ h) hc.scActive, fun h => by cases h⟩
  | seq _ hc => exact .inl ⟨transp_sameKeys hc.transp (fun h => hc.useScbkd ▸ h) hc.scActive, fun h => by cases h⟩
  | refused _ hc _ hd _ =>
    exact .inl ⟨(transp_sameKeys hc.transp (fun h => hc.useScbkd ▸ h) hc.scActive).trans
      (transp_sameKeys hd.transp hd.keepScbkd hd.scActive), fun h => by cases h⟩
  | @reply p1 p2 _ d id body _ _ h1 hc h2 hd hl hid _ hb hr he =>
    have hk : SameKeys p p2 := (transp_sameKeys hc.transp (fun h => hc.useScbkd ▸ h) hc.scActive).trans
      (transp_sameKeys hd.transp hd.keepScbkd hd.scActive)
    have same : ∀ {q : Pd}, q.sc = p2.sc → q.flags.useScbkd = p2.flags.useScbkd → q.flags.scActive = p2.flags.scActive → SameKeys p q := by
      intro q e1 e2 e3
      exact hk.trans ⟨by rw [e1], by rw [e1], by rw [e1], by rw [e1], by rw [e1], fun h => e2 ▸ h, fun h => e3 ▸ h⟩
    have hcmd : p2.cmdId = p.cmdId := by
      have := hc.transp.trans hd.transp
      unfold Phy.Transp Phy.upd Phy.chgOf at this
      rw [this]
    have no : ∀ {n : Nat}, id.toNat = n → n ≠ Id.CCRYPT → ¬ id.toNat = Id.CCRYPT := fun e h h' => h (e.symm.trans h')
    cases he with
    | ccrypt sc u v w e1 e2 e3 e4 e5 =>
      refine .inr ⟨id, u, v, w, Sc.baseKey p2.flags.useScbkd p2.sc, ?_, e1, hcmd.symm.trans e3, ?_, e2, ?_, ?_, ?_, ?_, ?_, ?_, fun hrc => ?_⟩
      · rw [Phy.heard_of h1 h2 hl hid, ← hb, e4]
      · split <;> simp
      · rw [e5]; exact hk.scbk
      · rw [e5]; exact hk.rnd
      · unfold Sc.baseKey
        show p2.flags.useScbkd = false ∧ _ ∨ p2.flags.useScbkd = true ∧ _
        cases hu : p2.flags.useScbkd with
        | false => exact .inl ⟨rfl, hk.scbk⟩
        | true => exact .inr ⟨rfl, rfl⟩
      · rw [e5, ← hk.rnd]; rfl
      · rw [e5, ← hk.rnd]; rfl
      · rw [e5, ← hk.rnd]; rfl
      · have hv : Sc.verifyPdCryptogram C sc = true := by
          cases hv : Sc.verifyPdCryptogram C sc with
          | true => rfl
          | false => rw [hv] at hrc; cases hrc
        unfold Sc.verifyPdCryptogram at hv
        replace hv := of_decide_eq_true hv
        rw [e5] at hv
        show w = cryptogram C sc.sEnc _ _
        rw [e5, ← hk.rnd]
        exact hv
    | rmac m e _ _ _ => exact .inl ⟨hk.trans ⟨rfl, rfl, rfl, rfl, rfl, fun h => h, fun h => h⟩, fun _ => no e (by decide)⟩
    | taken e =>
      refine .inl ⟨same rfl rfl rfl, fun _ => ?_⟩
      rcases e with ⟨e, -⟩ | ⟨e, -⟩ | e <;> exact no e (by decide)
    | malformed => exact .inl ⟨same rfl rfl rfl, fun h => by cases h⟩
    | unknown _ _ _ => exact .inl ⟨same rfl rfl rfl, fun h => by cases h⟩
    | busy _ _ => exact .inl ⟨same rfl rfl rfl, fun h => by cases h⟩
    | pdid i e _ => exact .inl ⟨same rfl rfl rfl, fun _ => no e (by decide)⟩
    | pdcap e _ => exact .inl ⟨same rfl rfl rfl, fun _ => no e (by decide)⟩
    | event _ e =>
      refine .inl ⟨same rfl rfl rfl, fun _ h => ?_⟩
      have : Id.CCRYPT ∈ eventIds := (show id.toNat = Id.CCRYPT from h) ▸ e
      exact absurd this (by decide)
    | com _ _ _ _ _ e _ => exact .inl ⟨same rfl rfl rfl, fun _ => no e (by decide)⟩
    | file _ e _ => exact .inl ⟨same rfl rfl rfl, fun _ => no e (by decide)⟩

/-- the choice of the next state, as far as the session is concerned -/
inductive Moves (p : Pd) (env : Env) (ok : Bool) (q : Pd) : Prop
  | online : q.state = .online → p.state = .online → ok = true → q.flags = p.flags → q.sc = p.sc → Moves p env ok q
  | opened : q.state = .online → p.state = .scScrypt → ok = true → p.flags.useScbkd = false →
      q.flags = { p.flags with scActive := true } → q.sc = p.sc → Moves p env ok q
  | install : q.state = .setScbk → p.state = .scScrypt → ok = true → p.flags.useScbkd = true →
      q.flags = { p.flags with scActive := true } → q.sc = p.sc → Moves p env ok q
  | answered : q.state = .scScrypt → p.state = .scChlng → ok = true → q.flags = p.flags → q.sc = p.sc → Moves p env ok q
  | again : q.state = .scChlng → p.state = .scChlng → q.flags.scActive = false → q.sc = p.sc → Moves p env ok q
  | challenge : q.state = .scChlng → p.state ≠ .scChlng → q.flags.scActive = false → q.sc.cpRandom = env.random → Moves p env ok q
  | closed : q.flags.scActive = false → q.state ≠ .scChlng → q.state ≠ .scScrypt → q.state ≠ .setScbk →
      (q.state = .online → p.flags.enforceSecure = false) → Moves p env ok q

theorem advance_moves {cb : Bool} {p q : Pd} {env : Env} {ok : Bool} {outs : List Out} (P : Pre p) (I : Inv q)
    (h : advance cb p env p.state ok = .ok (q, outs)) : Moves p env ok q := by
  cases advance_inv h with
  | mk h1 h2 =>
  rename_i p1 p2 o1 o2 n1 n2
  obtain ⟨-, hst, -, -, -, -, hsc, hfl, -⟩ := requests_drift h2
  have hsec : p.state ≠ .online → p.state ≠ .setScbk → p.flags.scActive = false := by
    intro a b
    cases hs : p.flags.scActive with
    | false => rfl
    | true => rcases P.secure hs with h | h <;> contradiction
  have hins := P.install
  have key : p1.state = p.state ∧ (p.state = .scChlng → p1.sc = p.sc) ∧
      (n1 = .scScrypt → p.state = .scChlng ∧ ok = true ∧ p1.flags = p.flags) ∧
      (n1 = .setScbk → p.state = .scScrypt ∧ ok = true ∧ p.flags.useScbkd = true ∧ p1.flags = { p.flags with scActive := true } ∧ p1.sc = p.sc) ∧
      (n1 = .online → (p.state = .online ∧ ok = true ∧ p1.flags = p.flags ∧ p1.sc = p.sc) ∨
        (p.state = .scScrypt ∧ ok = true ∧ p.flags.useScbkd = false ∧ p1.flags = { p.flags with scActive := true } ∧ p1.sc = p.sc) ∨
        (p.flags.enforceSecure = false ∧ p1.flags.scActive = false)) := by
    cases ok with
    | true =>
      replace h1 : nextOk cb p env.now = .ok (p1, o1, n1) := h1
      unfold nextOk at h1
      cases hs : p.state <;> rw [hs] at h1 hsec <;> dsimp only at h1
      case probe => cases h1
      case setScbk =>
        obtain ⟨⟨p3, o3⟩, h3, h1⟩ := Res.bind_eq_ok.mp h1
        injection h1 with h1; injection h1 with e1 h1; injection h1 with e2 e3; subst e1 e2 e3
        obtain ⟨k, -, rfl, -⟩ := keysetComplete_inv h3
        exact ⟨hs, by simp, by simp, by simp, by simp⟩
      case scScrypt =>
        split at h1
        · rename_i hu
          injection h1 with h1; injection h1 with e1 h1; injection h1 with e2 e3; subst e1 e2 e3
          exact ⟨hs, by simp, by simp, fun _ => ⟨rfl, rfl, hu, rfl, rfl⟩, by simp⟩
        · rename_i hu
          injection h1 with h1; injection h1 with e1 h1; injection h1 with e2 e3; subst e1 e2 e3
          exact ⟨hs, by simp, by simp, by simp, fun _ => .inr (.inl ⟨rfl, rfl, by simpa [Pd.scActivate] using hu, rfl, rfl⟩)⟩
      case capdet =>
        split at h1
        · injection h1 with h1; injection h1 with e1 h1; injection h1 with e2 e3; subst e1 e2 e3
          exact ⟨hs, by simp, by simp, by simp, by simp⟩
        · injection h1 with h1; injection h1 with e1 h1; injection h1 with e2 e3; subst e1 e2 e3
          refine ⟨hs, by simp, ?_, ?_, fun h => .inr (.inr ⟨?_, hsec (by simp) (by simp)⟩)⟩
          · split <;> simp
          · split <;> simp
          · cases he : p.flags.enforceSecure with
            | false => rfl
            | true => rw [he] at h; cases h
      case online =>
        injection h1 with h1; injection h1 with e1 h1; injection h1 with e2 e3; subst e1 e2 e3
        refine ⟨hs, by simp, ?_, ?_, fun _ => .inl ⟨rfl, rfl, rfl, rfl⟩⟩
        · split <;> simp
        · split <;> simp
      case offline =>
        injection h1 with h1; injection h1 with e1 h1; injection h1 with e2 e3; subst e1 e2 e3
        refine ⟨hs, by simp, ?_, ?_, ?_⟩
        · split <;> simp
        · split <;> simp
        · split <;> simp
      all_goals
        injection h1 with h1; injection h1 with e1 h1; injection h1 with e2 e3; subst e1 e2 e3
        exact ⟨hs, by simp, by simp, by simp, by simp⟩
    | false =>
      replace h1 : nextErr cb p env.now = .ok (p1, o1, n1) := h1
      unfold nextErr at h1
      cases hs : p.state <;> rw [hs] at h1 hsec hins <;> dsimp only at h1
      case probe => cases h1
      case scChlng =>
        split at h1
        · injection h1 with h1; injection h1 with e1 h1; injection h1 with e2 e3; subst e1 e2 e3
          exact ⟨hs, by simp, by simp, by simp, by simp⟩
        · rename_i he
          split at h1
          · injection h1 with h1; injection h1 with e1 h1; injection h1 with e2 e3; subst e1 e2 e3
            exact ⟨hs, fun _ => rfl, by simp, by simp, by simp⟩
          · injection h1 with h1; injection h1 with e1 h1; injection h1 with e2 e3; subst e1 e2 e3
            exact ⟨hs, fun _ => rfl, by simp, by simp, fun _ => .inr (.inr ⟨by simpa using he, hsec (by simp) (by simp)⟩)⟩
      case scScrypt =>
        injection h1 with h1; injection h1 with e1 h1; injection h1 with e2 e3; subst e1 e2 e3
        refine ⟨hs, by simp, ?_, ?_, fun h => .inr (.inr ⟨?_, hsec (by simp) (by simp)⟩)⟩
        · split <;> simp
        · split <;> simp
        · cases he : p.flags.enforceSecure with
          | false => rfl
          | true => rw [he] at h; cases h
      case setScbk =>
        injection h1 with h1; injection h1 with e1 h1; injection h1 with e2 e3; subst e1 e2 e3
        refine ⟨hs, by simp, ?_, ?_, fun h => .inr (.inr ⟨?_, rfl⟩)⟩
        · split <;> simp
        · split <;> simp
        · cases he : p.flags.enforceSecure with
          | false => rfl
          | true => rw [show p.scDeactivate.flags.enforceSecure = true from he] at h; cases h
      all_goals
        injection h1 with h1; injection h1 with e1 h1; injection h1 with e2 e3; subst e1 e2 e3
        exact ⟨hs, by simp, by simp, by simp, by simp⟩
  obtain ⟨k1, k2, k3, k4, k5⟩ := key
  have hn : n2 = .offline ∨ n2 = .scChlng ∨ n2 = n1 := by
    rcases requests_inv h2 with ⟨-, -, -, hm⟩ | ⟨-, -, hm, -⟩
    · exact .inr (.inr hm)
    · rw [hm]
      split
      · exact .inl rfl
      · split
        · exact .inr (.inl rfl)
        · exact .inr (.inr rfl)
  have hp2 : p2.state = p.state := hst.trans k1
  revert I
  cases n2 with
  | scChlng =>
    intro I
    by_cases hc : p.state = .scChlng
    · rw [if_neg (by simp [hc])] at I ⊢
      refine .again (hp2.trans hc) hc ?_ (hsc.trans (k2 hc))
      cases ha : p2.flags.scActive with
      | false => rfl
      | true => rcases I.secure ha with h | h <;> rw [hp2, hc] at h <;> cases h
    · rw [if_pos hc] at I ⊢
      refine .challenge rfl hc ?_ rfl
      cases ha : (stateChange cb p2 env .scChlng).1.flags.scActive with
      | false => rfl
      | true => rcases I.secure ha with h | h <;> cases h
  | scScrypt =>
    intro I
    have : n1 = .scScrypt := by rcases hn with h | h | h <;> first | exact h.symm | cases h
    obtain ⟨a, b, c⟩ := k3 this
    rw [if_pos (by rw [a]; simp)] at I ⊢
    exact .answered rfl a b (hfl.trans c) (hsc.trans (k2 a))
  | setScbk =>
    intro I
    have : n1 = .setScbk := by rcases hn with h | h | h <;> first | exact h.symm | cases h
    obtain ⟨a, b, c, d, e⟩ := k4 this
    rw [if_pos (by rw [a]; simp)] at I ⊢
    exact .install rfl a b c (hfl.trans d) (hsc.trans e)
  | online =>
    intro I
    have : n1 = .online := by rcases hn with h | h | h <;> first | exact h.symm | cases h
    rcases k5 this with ⟨a, o, b, c⟩ | ⟨a, b, c, d, e⟩ | ⟨a, b⟩
    · rw [if_neg (by rw [a]; simp)]
      exact .online (hp2.trans a) a o (hfl.trans b) (hsc.trans c)
    · rw [if_pos (by rw [a]; simp)]
      exact .opened rfl a b c (hfl.trans d) (hsc.trans e)
    · by_cases ho : p.state = .online
      · rw [if_neg (by rw [ho]; simp)]
        refine .closed (by rw [hfl]; exact b) ?_ ?_ ?_ (fun _ => a) <;> (rw [hp2, ho]; simp)
      · rw [if_pos ho]
        exact .closed (show p2.flags.scActive = false by rw [hfl]; exact b) (fun h => by cases h) (fun h => by cases h) (fun h => by cases h) (fun _ => a)
  | _ =>
    intro I
    have hq : ∀ r : Pd, Inv r → r.state ≠ .online → r.state ≠ .setScbk → r.state ≠ .scChlng → r.state ≠ .scScrypt → Moves p env ok r := by
      intro r I h1 h2 h3 h4
      refine .closed ?_ h3 h4 h2 (fun h => absurd h h1)
      cases ha : r.flags.scActive with
      | false => rfl
      | true => rcases I.secure ha with h | h <;> contradiction
    refine hq _ I ?_ ?_ ?_ ?_ <;>
    · split
      · intro h; cases h
      · rename_i hc
        rw [hp2, Decidable.not_not.mp hc]
        simp

/-- Bookkeeping beside the run: the random number last drawn for a challenge and the body of the CCRYPT that answered it. -/
structure Hail where
  rnd : Half
  answer : Option (List Byte)

/-- the CCRYPT heard in an update by a CP that challenges the PD -/
def Hail.hear (g : Hail) (C : Cipher) (p : Pd) (env : Env) : Hail :=
  if p.state = .scChlng then
    match replyOf C p env with
    | some (id, body) => if id.toNat = Id.CCRYPT then { g with answer := some body } else g
    | none => g
  else g

/-- a new challenge -/
def Hail.renew (g : Hail) (p : Pd) (env : Env) (q : Pd) : Hail :=
  if q.state = .scChlng ∧ p.state ≠ .scChlng then ⟨env.random, none⟩ else g

/-- The answer to the challenge proves knowledge of `k`: it carries the cryptogram computed from `k`, the CP's random
number and the PD's; the session keys are those of `k` and the CP's random number. -/
def Proven (C : Cipher) (k : Block) (sc : Sc) (g : Hail) : Prop :=
  ∃ (u r : Half) (w : Block), g.answer = some (u.1 ++ r.1 ++ w.1) ∧ w = cryptogram C (encKey C k g.rnd) g.rnd r ∧
    sc.sEnc = encKey C k g.rnd ∧ sc.sMac1 = mac1Key C k g.rnd ∧ sc.sMac2 = mac2Key C k g.rnd

structure Sess (C : Cipher) (p : Pd) (g : Hail) : Prop where
  rnd : p.state = .scChlng ∨ p.state = .scScrypt ∨ p.flags.scActive = true → p.sc.cpRandom = g.rnd
  scrypt : p.state = .scScrypt → ∃ k, (k = p.sc.scbk ∨ p.flags.useScbkd = true ∧ k = Sc.scbkDefault) ∧ Proven C k p.sc g
  active : p.flags.scActive = true → ∃ k, (k = p.sc.scbk ∨ p.state = .setScbk ∧ k = Sc.scbkDefault) ∧ Proven C k p.sc g

theorem Proven.congr {C : Cipher} {k : Block} {s s' : Sc} {g : Hail} (h : Proven C k s g) (h1 : s'.sEnc = s.sEnc)
    (h2 : s'.sMac1 = s.sMac1) (h3 : s'.sMac2 = s.sMac2) : Proven C k s' g := by
  obtain ⟨u, r, w, a, b, c, d, e⟩ := h
  exact ⟨u, r, w, a, b, h1.trans c, h2.trans d, h3.trans e⟩

theorem Sess.same {C : Cipher} {p q : Pd} {g : Hail} (S : Sess C p g) (hk : SameKeys p q) (hs : q.state = p.state) : Sess C q g := by
  refine ⟨fun h => ?_, fun h => ?_, fun h => ?_⟩
  · rw [hk.rnd]
    rw [hs] at h
    exact S.rnd (h.imp id fun h => h.imp id hk.active)
  · obtain ⟨k, hk', hp⟩ := S.scrypt (hs.symm.trans h)
    exact ⟨k, hk'.imp (fun h => by rw [hk.scbk]; exact h) (fun h => ⟨hk.scbkd h.1, h.2⟩), hp.congr hk.enc hk.mac1 hk.mac2⟩
  · obtain ⟨k, hk', hp⟩ := S.active (hk.active h)
    exact ⟨k, hk'.imp (fun h => by rw [hk.scbk]; exact h) (fun h => ⟨hs.trans h.1, h.2⟩), hp.congr hk.enc hk.mac1 hk.mac2⟩

/-- what is heard while challenging does not matter to a session that is not yet there -/
theorem Sess.heard {C : Cipher} {p : Pd} {env : Env} {g : Hail} (I : Inv p) (S : Sess C p g) : Sess C p (g.hear C p env) := by
  by_cases hc : p.state = .scChlng
  · have hg : (g.hear C p env).rnd = g.rnd := by
      unfold Hail.hear
      rw [if_pos hc]
      split
      · split <;> rfl
      · rfl
    refine ⟨fun h => by rw [hg]; exact S.rnd h, (fun h => by rw [hc] at h; cases h), fun h => ?_⟩
    rcases I.secure h with h | h <;> rw [hc] at h <;> cases h
  · unfold Hail.hear
    rw [if_neg hc]
    exact S

/-- the keys are those of an answered challenge -/
def Keyed (C : Cipher) (p : Pd) (g : Hail) : Prop :=
  ∃ k, (k = p.sc.scbk ∨ p.flags.useScbkd = true ∧ k = Sc.scbkDefault) ∧ Proven C k p.sc g

theorem Moves.sess {C : Cipher} {p q : Pd} {env : Env} {ok : Bool} {g : Hail} (S : Sess C p g)
    (hk : p.state = .scChlng → ok = true → Keyed C p g) (h : Moves p env ok q) : Sess C q (g.renew p env q) := by
  have old : ¬ (q.state = .scChlng ∧ p.state ≠ .scChlng) → g.renew p env q = g := fun h => if_neg h
  cases h with
  | online a b _ c d =>
    rw [old (by rw [a]; simp)]
    exact S.same ⟨by rw [d], by rw [d], by rw [d], by rw [d], by rw [d], fun h => c ▸ h, fun h => c ▸ h⟩ (a.trans b.symm)
  | opened a b c d e f =>
    rw [old (by rw [a]; simp)]
    refine ⟨fun _ => by rw [f]; exact S.rnd (.inr (.inl b)), (fun h => by rw [a] at h; cases h), fun _ => ?_⟩
    obtain ⟨k, hk, hp⟩ := S.scrypt b
    rw [f]
    refine ⟨k, .inl (hk.elim id fun h => ?_), hp⟩
    have := d.symm.trans h.1; cases this
  | install a b c d e f =>
    rw [old (by rw [a]; simp)]
    refine ⟨fun _ => by rw [f]; exact S.rnd (.inr (.inl b)), (fun h => by rw [a] at h; cases h), fun _ => ?_⟩
    obtain ⟨k, hk, hp⟩ := S.scrypt b
    rw [f]
    exact ⟨k, hk.imp id fun h => ⟨a, h.2⟩, hp⟩
  | answered a b c d e =>
    rw [old (by rw [a]; simp)]
    refine ⟨fun _ => by rw [e]; exact S.rnd (.inl b), fun _ => ?_, fun h => ?_⟩
    · obtain ⟨k, hk, hp⟩ := hk b c
      rw [e, d]
      exact ⟨k, hk, hp⟩
    · rw [d] at h
      obtain ⟨k, hk, hp⟩ := S.active h
      rw [e]
      refine ⟨k, hk.imp id fun h => ?_, hp⟩
      rw [b] at h; exact absurd h.1 (by simp)
  | again a b c d =>
    rw [old (fun h => h.2 b)]
    refine ⟨fun _ => by rw [d]; exact S.rnd (.inl b), (fun h => by rw [a] at h; cases h), fun h => ?_⟩
    have := c.symm.trans h; cases this
  | challenge a b c d =>
    have : g.renew p env q = ⟨env.random, none⟩ := if_pos ⟨a, b⟩
    rw [this]
    refine ⟨fun _ => d, (fun h => by rw [a] at h; cases h), fun h => ?_⟩
    have := c.symm.trans h; cases this
  | closed a b c d e =>
    rw [old (fun h => b h.1)]
    have na : ¬ q.flags.scActive = true := by rw [a]; simp
    exact ⟨fun h => absurd h (by simp [b, c, na]), fun h => absurd h c, fun h => absurd h na⟩

/-- the end of an exchange -/
theorem settle_sess {C : Cipher} {cb : Bool} {p q : Pd} {env : Env} {outs : List Out} {g : Hail} (M : Mid p) (S : Sess C p g)
    (hk : p.state = .scChlng → p.phyState = .done → p.replyId = Id.CCRYPT → Keyed C p g)
    (h : settle cb p env = .ok (q, outs)) : Sess C q (g.renew p env q) := by
  have I := (settled M h).1
  cases settle_inv h with
  | command hps h1 hid =>
    obtain ⟨hc, -⟩ := stateGetCmd_inv h1
    unfold Chosen at hc
    rw [hc]
    unfold Hail.renew
    rw [if_neg (fun h => h.2 h.1)]
    exact S.same ⟨rfl, rfl, rfl, rfl, rfl, id, id⟩ rfl
  | nothing hps h1 h2 =>
    rename_i p1 o1 o2
    have P := nothing_pre M hps h1
    obtain ⟨hc, -⟩ := stateGetCmd_inv h1
    unfold Chosen at hc
    have hst : p1.state = p.state := by rw [hc]
    have S1 : Sess C { p1 with cmdId := 0 } g := by
      rw [hc]; exact S.same ⟨rfl, rfl, rfl, rfl, rfl, id, id⟩ rfl
    have hm := advance_moves (p := { p1 with cmdId := 0 }) P I h2
    have := hm.sess S1 (fun h => by
      exfalso
      rw [show ({ p1 with cmdId := 0 } : Pd).state = p.state from hst] at h
      unfold stateGetCmd at h1
      rw [h] at h1
      injection h1 with h1; injection h1 with _ h1; injection h1 with _ h1; cases h1)
    unfold Hail.renew at this ⊢
    rw [show ({ p1 with cmdId := 0 } : Pd).state = p.state from hst] at this
    exact this
  | over hps h1 h2 =>
    rename_i p1 o1 o2 ok
    have P := over_pre M h1
    obtain ⟨hv, hj⟩ := stateCheckReply_inv h1
    have hst : p1.state = p.state := by
      rcases hj with ⟨rfl, -⟩ | ⟨-, -, -, h⟩
      · rfl
      · obtain ⟨k, -, rfl, -⟩ := keysetComplete_inv h; rfl
    have S1 : Sess C (Phy.stateReset p1 false).1 g := by
      rcases hj with ⟨rfl, -⟩ | ⟨hon, -, -, h⟩
      · exact S.same ⟨rfl, rfl, rfl, rfl, rfl, id, id⟩ rfl
      · obtain ⟨k, -, rfl, -⟩ := keysetComplete_inv h
        refine ⟨fun h => ?_, fun h => ?_, fun h => by cases h⟩
        · rcases h with h | h | h
          · have := hon.symm.trans h; cases this
          · have := hon.symm.trans h; cases this
          · cases h
        · have := hon.symm.trans h; cases this
    have hm := advance_moves (p := (Phy.stateReset p1 false).1) P I h2
    have := hm.sess S1 (fun h hok => by
      have hs : p.state = .scChlng := hst.symm.trans h
      have e : p1 = p := by
        rcases hj with ⟨e, -⟩ | ⟨hon, -⟩
        · exact e
        · rw [hs] at hon; cases hon
      subst e
      have hd : p1.phyState = .done ∧ ok = true := by simpa using hok
      have hr : p1.replyId = Id.CCRYPT := by
        have := hv.symm.trans hd.2
        unfold verdict at this
        rw [hs] at this
        simpa using this
      exact hk hs hd.1 hr)
    unfold Hail.renew at this ⊢
    rw [show (Phy.stateReset p1 false).1.state = p.state from hst] at this
    exact this

/-- a reply; what it leaves -/
theorem Reply.sess {C : Cipher} {p q : Pd} {env : Env} {outs : List Out} {rc : CpErr} {g : Hail} (I : Inv p) (S : Sess C p g)
    (hps : p.phyState = .replyWait) (h : Reply C p env q outs rc) : Sess C q (g.hear C p env) ∧
      (p.state = .scChlng → rc = .none → q.replyId = Id.CCRYPT → Keyed C q (g.hear C p env)) := by
  have hs : q.state = p.state := h.heard.keeps.1
  have S' := S.heard (env := env) I
  rcases h.keys with ⟨hk, hr⟩ | ⟨id, u, r, w, k, h1, h2, h3, h4, h5, h6, h7, h8, h9, h10, h11, h12⟩
  · exact ⟨S'.same hk hs, fun _ a b => absurd b (hr a)⟩
  · have hc : p.state = .scChlng := by
      have := I.cmd (by simp [hps])
      rw [h3] at this
      revert this
      cases p.state <;> unfold CmdOf <;> simp [Id.CHLNG, Id.ID, Id.CAP, Id.SCRYPT, Id.KEYSET, Id.POLL, Id.LSTAT, Id.ISTAT, Id.OSTAT,
        Id.RSTAT, Id.OUT, Id.LED, Id.BUZ, Id.TEXT, Id.COMSET, Id.MFG, Id.FILETRANSFER, Id.ABORT]
    have hg : g.hear C p env = { g with answer := some (u.1 ++ r.1 ++ w.1) } := by
      unfold Hail.hear replyOf
      rw [if_pos hc, if_pos hps, h1]
      dsimp only
      rw [if_pos h2]
    have hrnd := S.rnd (.inl hc)
    refine ⟨⟨fun _ => ?_, fun h => ?_, fun h => ?_⟩, fun _ hrc _ => ⟨k, ?_, ?_⟩⟩
    · rw [hg, h7]; exact hrnd
    · rw [hs, hc] at h; cases h
    · have := h5.symm.trans h; cases this
    · rcases h8 with ⟨-, h⟩ | h
      · exact .inl (h.trans h6.symm)
      · exact .inr h
    · rw [hg]
      refine ⟨u, r, w, rfl, ?_, ?_, ?_, ?_⟩
      · rw [h12 hrc, h9, hrnd]
      · rw [h9, hrnd]
      · rw [h10, hrnd]
      · rw [h11, hrnd]

theorem Waited.sess {C : Cipher} {p q : Pd} {env : Env} {outs : List Out} {rc : CpErr} {g : Hail} (I : Inv p) (S : Sess C p g)
    (hps : p.phyState = .replyWait) (h : Waited C p env q outs rc) : Sess C q (g.hear C p env) ∧
      (p.state = .scChlng → q.phyState = .done → q.replyId = Id.CCRYPT → Keyed C q (g.hear C p env)) := by
  have hcmd := h.state.2.1
  cases h with
  | answered h =>
    obtain ⟨a, b⟩ := h.sess I S hps
    exact ⟨a.same ⟨rfl, rfl, rfl, rfl, rfl, id, id⟩ rfl, fun h1 _ h2 => b h1 rfl h2⟩
  | ignored h hc _ =>
    obtain ⟨a, b⟩ := h.sess I S hps
    refine ⟨a.same ⟨rfl, rfl, rfl, rfl, rfl, id, id⟩ rfl, fun h1 _ h2 => ?_⟩
    have := I.cmd (by simp [hps])
    rw [h1, ← hcmd, show _ = Id.POLL from hc] at this
    exact absurd this (show ¬ Id.POLL = Id.CHLNG by decide)
  | failed h _ => exact ⟨(h.sess I S hps).1.same ⟨rfl, rfl, rfl, rfl, rfl, id, id⟩ rfl, fun _ h => by cases h⟩
  | busy h => exact ⟨(h.sess I S hps).1.same ⟨rfl, rfl, rfl, rfl, rfl, id, id⟩ rfl, fun _ h => by cases h⟩
  | retry h _ _ => exact ⟨(h.sess I S hps).1.same ⟨rfl, rfl, rfl, rfl, rfl, id, id⟩ rfl, fun _ h => by cases h⟩
  | exhausted h _ _ => exact ⟨(h.sess I S hps).1.same ⟨rfl, rfl, rfl, rfl, rfl, id, id⟩ rfl, fun _ h => by cases h⟩
  | waiting h _ =>
    refine ⟨(h.sess I S hps).1, fun _ h' => ?_⟩
    have := h.heard.keeps
    rw [this.2.1, hps] at h'
    cases h'

theorem Update.sess {C : Cipher} {cb : Bool} {p q : Pd} {env : Env} {outs : List Out} {y : Bool} {g : Hail} (I : Inv p) (S : Sess C p g)
    (h : Update C cb p env q outs y) : Sess C q ((g.hear C p env).renew p env q) := by
  have S' := S.heard (env := env) I
  have stays : ∀ {q : Pd}, q.state = p.state → (g.hear C p env).renew p env q = g.hear C p env :=
    fun h => if_neg fun h' => h'.2 (h ▸ h'.1)
  have re : ∀ {p1 q : Pd}, p1.state = p.state → (g.hear C p env).renew p1 env q = (g.hear C p env).renew p env q := by
    intro p1 q h
    unfold Hail.renew
    rw [h]
  cases h with
  | hold _ _ => rw [stays rfl]; exact S'
  | sent _ h =>
    have hs := h.sent.keeps.1
    rw [stays (q := sentState _ _) hs]
    have hk := h.sent.sameKeys
    exact S'.same (q := sentState _ _) ⟨hk.scbk, hk.rnd, hk.enc, hk.mac1, hk.mac2, hk.scbkd, hk.active⟩ hs
  | @unsent p1 _ _ _ _ h1 h2 =>
    have hs := h1.sent.keeps.1
    have hk := h1.sent.sameKeys
    have := settle_sess (unsent_mid I h1)
      (S'.same (q := { p1 with phyState := .err }) ⟨hk.scbk, hk.rnd, hk.enc, hk.mac1, hk.mac2, hk.scbkd, hk.active⟩ hs) (fun _ h => by cases h) h2
    rw [re (p1 := { p1 with phyState := .err }) hs] at this
    exact this
  | replied hps h1 hrc h2 =>
    have M := waited_mid I hps h1
    have hs := h1.state.1
    obtain ⟨a, b⟩ := h1.sess I S hps
    have := settle_sess M a (fun h => b (hs.symm.trans h)) h2
    rw [re hs] at this
    exact this
  | again hps h1 => rw [stays h1.state.1]; exact (h1.sess I S hps).1
  | waiting hps h1 => rw [stays h1.state.1]; exact (h1.sess I S hps).1
  | idle hps h1 =>
    have := settle_sess I.mid S' (fun h h' => by rcases I.phy with h | h | h | h <;> rw [h'] at h <;> cases h) h1
    exact this

/-- a reply ends the session only by being refused -/
theorem Reply.active {C : Cipher} {p q : Pd} {env : Env} {outs : List Out} {rc : CpErr} (hcp : p.flags.pdMode = false)
    (h : Reply C p env q outs rc) : q.flags.scActive = p.flags.scActive ∨ rc = .generic := by
  cases h with
  | nothing _ hc _ => exact .inl hc.scActive
  | bad _ hc _ => exact .inl hc.scActive
  | busy _ hc => exact .inl (hc.cpActive hcp)
  | seq _ hc => exact .inr rfl
  | refused _ hc _ hd _ => exact .inr rfl
  | reply _ hc _ hd hl _ _ _ _ he =>
    rcases hd.outcome with ⟨h, -⟩ | ⟨-, -, h⟩
    · rw [h] at hl; simp [Phy.PKT_NACK] at hl
    · exact .inl ((effect_seq he).2.trans (h.trans (hc.cpActive hcp)))

theorem Waited.active {C : Cipher} {p q : Pd} {env : Env} {outs : List Out} {rc : CpErr} (hcp : p.flags.pdMode = false)
    (h : Waited C p env q outs rc) : q.flags.scActive = p.flags.scActive ∨ q.phyState = .err := by
  cases h with
  | answered h => exact (h.active hcp).imp id fun h => by cases h
  | ignored h _ _ => exact (h.active hcp).imp id fun h => by cases h
  | failed _ _ => exact .inr rfl
  | busy h => exact (h.active hcp).imp id fun h => by cases h
  | retry h _ _ => exact (h.active hcp).imp id fun h => by cases h
  | exhausted h _ _ => exact .inr rfl
  | waiting h _ => exact (h.active hcp).imp id fun h => by cases h

theorem Waited.enforce {C : Cipher} {p q : Pd} {env : Env} {outs : List Out} {rc : CpErr} (h : Waited C p env q outs rc) :
    q.flags.enforceSecure = p.flags.enforceSecure := by
  have key : ∀ {q : Pd} {rc : CpErr}, Reply C p env q outs rc → q.flags.enforceSecure = p.flags.enforceSecure := by
    intro q rc h
    have := h.heard
    unfold Heard at this
    rw [this]
  cases h with
  | answered h => have k := key h; exact k
  | ignored h _ _ => have k := key h; exact k
  | failed h _ => have k := key h; exact k
  | busy h => have k := key h; exact k
  | retry h _ _ => have k := key h; exact k
  | exhausted h _ _ => have k := key h; exact k
  | waiting h _ => have k := key h; exact k

/-- a PD that becomes or stays online, if its channel has to be secure -/
theorem Moves.guard {p q : Pd} {env : Env} {ok : Bool} (h : Moves p env ok q) (he : p.flags.enforceSecure = true)
    (hs : p.state = .online → ok = true → p.flags.scActive = true) : q.state = .online → q.flags.scActive = true := by
  intro hq
  cases h with
  | online a b c d e => rw [d]; exact hs b c
  | opened _ _ _ _ e _ => rw [e]
  | install a => rw [a] at hq; cases hq
  | answered a => rw [a] at hq; cases hq
  | again a => rw [a] at hq; cases hq
  | challenge a => rw [a] at hq; cases hq
  | closed _ _ _ _ a => have := (a hq).symm.trans he; cases this

theorem settle_guard {cb : Bool} {p q : Pd} {env : Env} {outs : List Out} (M : Mid p) (he : p.flags.enforceSecure = true)
    (hs : p.state = .online → p.phyState ≠ .err → p.flags.scActive = true)
    (h : settle cb p env = .ok (q, outs)) : q.state = .online → q.flags.scActive = true := by
  have I := (settled M h).1
  cases settle_inv h with
  | command hps h1 hid =>
    obtain ⟨hc, -⟩ := stateGetCmd_inv h1
    unfold Chosen at hc
    rw [hc]
    exact fun h => hs h (by rw [hps]; simp)
  | nothing hps h1 h2 =>
    rename_i p1 o1 o2
    have P := nothing_pre M hps h1
    obtain ⟨hc, -⟩ := stateGetCmd_inv h1
    unfold Chosen at hc
    have hm := advance_moves (p := { p1 with cmdId := 0 }) P I h2
    refine hm.guard (by rw [hc]; exact he) (fun h _ => ?_)
    rw [hc] at h ⊢
    exact hs h (by rw [hps]; simp)
  | over hps h1 h2 =>
    rename_i p1 o1 o2 ok
    have P := over_pre M h1
    obtain ⟨hv, hj⟩ := stateCheckReply_inv h1
    have hm := advance_moves (p := (Phy.stateReset p1 false).1) P I h2
    rcases hj with ⟨rfl, -⟩ | ⟨hon, -, -, hk⟩
    · refine hm.guard he (fun h hok => hs h ?_)
      have hd : p1.phyState = .done ∧ ok = true := by simpa using hok
      rw [hd.1]; simp
    · -- the key is set: the PD is to be challenged again
      obtain ⟨k, -, rfl, -⟩ := keysetComplete_inv hk
      intro hq
      have hfs := advance_state (p := (Phy.stateReset _ false).1) h2
      rw [hfs] at hq
      exfalso
      revert hq
      unfold finalState
      simp only [Phy.stateReset, hon]
      simp
      split <;> simp

theorem Update.guard {C : Cipher} {cb : Bool} {p q : Pd} {env : Env} {outs : List Out} {y : Bool} (I : Inv p)
    (he : p.flags.enforceSecure = true) (hs : p.state = .online → p.flags.scActive = true) (h : Update C cb p env q outs y) :
    q.state = .online → q.flags.scActive = true := by
  cases h with
  | hold _ _ => exact hs
  | sent _ h =>
    have := h.sent
    unfold Sent at this
    unfold sentState
    rw [this]
    exact hs
  | @unsent p1 _ _ _ _ h1 h2 =>
    have := h1.sent
    unfold Sent at this
    refine settle_guard (unsent_mid I h1) (by rw [this]; exact he) (fun _ h => absurd rfl h) h2
  | replied hps h1 hrc h2 =>
    have hst := h1.state.1
    refine settle_guard (waited_mid I hps h1) ?_ (fun h h' => ?_) h2
    · rw [h1.enforce]; exact he
    · rw [(h1.active I.cp).resolve_right h']
      exact hs (hst.symm.trans h)
  | again hps h1 =>
    intro hq
    rw [(h1.active I.cp).resolve_right (by cases h1 <;> simp)]
    exact hs (h1.state.1.symm.trans hq)
  | waiting hps h1 =>
    intro hq
    have hps' : q.phyState ≠ .err := by
      cases h1 with
      | waiting h _ => rw [h.heard.keeps.2.1, hps]; simp
    rw [(h1.active I.cp).resolve_right hps']
    exact hs (h1.state.1.symm.trans hq)
  | idle hps h1 => exact settle_guard I.mid he (fun h _ => hs h) h1

end Osdp.CpM
