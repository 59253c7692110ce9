import Verif.Lemmas.PdKey
import Verif.Lemmas.SampleSc

/-!
# C25: the default key works only in install mode
-/

namespace Osdp.PdM

open Spec.Session

/-- the session keys of a PD are those for base key `k` and some random number of the CP -/
def Keyed (C : Cipher) (k : Block) (sc : Sc) : Prop :=
  ∃ rnd, sc.sEnc = encKey C k rnd ∧ sc.sMac1 = mac1Key C k rnd ∧ sc.sMac2 = mac2Key C k rnd

theorem seed_eq (tag : Byte) (rnd : Half) : Sc.keySeed tag rnd = seed tag rnd := by
  apply Subtype.ext
  unfold Sc.keySeed seed
  simp [List.replicate]

theorem default_eq : Sc.scbkDefault = defaultKey := by
  apply Subtype.ext; rfl

/-- One refresh either leaves the session keys alone or derives new ones, from the PD's base key or, with the
flag `useScbkd`, from the default key. -/
theorem refresh_keyed {C : Cipher} {p q : Pd} {env : Env} {outs : List Out} (hp : p.flags.pdMode = true)
    (h : refresh C p env = .ok (q, outs)) :
    (q.sc.sEnc = p.sc.sEnc ∧ q.sc.sMac1 = p.sc.sMac1 ∧ q.sc.sMac2 = p.sc.sMac2) ∨ Keyed C p.sc.scbk q.sc ∨
    (Keyed C defaultKey q.sc ∧ (p.flags.useScbkd = true ∨ p.flags.installMode = true)) := by
  obtain ⟨p1, o1, ret, o2, hg, hp1, hfin, rfl⟩ := refresh_inv hp h
  obtain ⟨hl, hu⟩ := got_lasting hg
  have hl := (expire_lasting p env.now).trans hl
  cases finished_replied hfin with
  | same a _ _ => exact .inl ⟨a.sEnc.trans hl.sEnc, a.sMac1.trans hl.sMac1, a.sMac2.trans hl.sMac2⟩
  | com c _ _ a _ _ => exact .inl ⟨a.sEnc.trans hl.sEnc, a.sMac1.trans hl.sMac1, a.sMac2.trans hl.sMac2⟩
  | rmac _ _ a _ _ => exact .inl ⟨a.sEnc.trans hl.sEnc, a.sMac1.trans hl.sMac1, a.sMac2.trans hl.sMac2⟩
  | keyset k bs h1 h2 h3 h4 a _ _ => exact .inl ⟨a.sEnc.trans hl.sEnc, a.sMac1.trans hl.sMac1, a.sMac2.trans hl.sMac2⟩
  | ccrypt _ a _ _ =>
    right
    obtain ⟨x1, -, -, -, -, x5, x6, -⟩ := expire_fields p env.now
    cases hd : p1.flags.useScbkd with
    | false =>
      left
      rw [hd] at a
      refine ⟨p1.sc.cpRandom, ?_, ?_, ?_⟩
      · rw [a.sEnc]; show C.enc p1.sc.scbk _ = _; rw [hl.scbk, seed_eq]; rfl
      · rw [a.sMac1]; show C.enc p1.sc.scbk _ = _; rw [hl.scbk, seed_eq]; rfl
      · rw [a.sMac2]; show C.enc p1.sc.scbk _ = _; rw [hl.scbk, seed_eq]; rfl
    | true =>
      right
      rw [hd] at a
      refine ⟨⟨p1.sc.cpRandom, ?_, ?_, ?_⟩, ?_⟩
      · rw [a.sEnc, ← default_eq]; show C.enc Sc.scbkDefault _ = _; rw [seed_eq]; rfl
      · rw [a.sMac1, ← default_eq]; show C.enc Sc.scbkDefault _ = _; rw [seed_eq]; rfl
      · rw [a.sMac2, ← default_eq]; show C.enc Sc.scbkDefault _ = _; rw [seed_eq]; rfl
      · rcases hu hd with h | h
        · exact .inl (x6 ▸ h)
        · exact .inr (x1.installMode ▸ h)

/-- a PD with its own key, set up without install mode, stays out of it -/
theorem own_key_flags {C : Cipher} {info : Info} {k : Block} {q : Pd} (hk : info.scbk = some k) (hi : info.installMode = false)
    (hq : Reached C info q) : q.flags.useScbkd = false ∧ q.flags.installMode = false := by
  refine hq.ind (fun q => q.flags.useScbkd = false ∧ q.flags.installMode = false) ?_ ?_
  · intro sk n p hs
    unfold setup at hs
    split at hs
    · cases hs
    · injection hs with hs; subst hs
      exact ⟨rfl, by show (info.installMode || info.scbk.isNone) = false; rw [hk, hi]; rfl⟩
  · intro p op q outs hR hp h
    cases op with
    | refresh env =>
      obtain ⟨p1, o1, ret, o2, hg, hp1, hfin, rfl⟩ := refresh_inv hR.pdMode h
      obtain ⟨hl, hu⟩ := got_lasting hg
      obtain ⟨x1, -, -, -, -, x5, x6, -⟩ := expire_fields p env.now
      have h1 : p1.flags.useScbkd = false := by
        cases hd : p1.flags.useScbkd with
        | false => rfl
        | true =>
          rcases hu hd with h | h
          · rw [x6, hp.1] at h; cases h
          · rw [x1.installMode, hp.2] at h; cases h
      have h2 : p1.flags.installMode = false := (hl.installMode.trans x1.installMode).trans hp.2
      cases finished_replied hfin with
      | same a b _ => exact ⟨b.trans h1, a.installMode.trans h2⟩
      | com c _ _ a b _ => exact ⟨b.trans h1, a.installMode.trans h2⟩
      | ccrypt _ a b _ => exact ⟨b.trans h1, a.installMode.trans h2⟩
      | rmac _ _ a b _ => exact ⟨b.trans h1, a.installMode.trans h2⟩
      | keyset k bs h1 h2 h3 h4 a b _ => exact ⟨b, a.installMode⟩
    | notify e =>
      injection h with h; injection h with e1 e2; subst e1
      unfold notifyEvent; split <;> exact hp
    | flush => injection h with h; injection h with e1 e2; subst e1; exact hp
    | setCaps l => injection h with h; injection h with e1 e2; subst e1; exact hp
    | fileOps => injection h with h; injection h with e1 e2; subst e1; exact hp

/-- **C25.**  A PD set up with its own key and without install mode, in any history: its session keys (whether or
not the channel is active) are still the initial zeros, or they were derived from a base key this PD had at some
earlier moment of the history - its own key or one installed by KEYSET.  No session is keyed by the default key. -/
theorem C25_own_key_only (C : Cipher) (info : Info) (k : Block) (skipMark : Bool) (n : Nat) (p q : Pd) (ops : List Op)
    (outs : List Out) (hk : info.scbk = some k) (hi : info.installMode = false)
    (hs : setup info skipMark n = some p) (h : run C p ops = .ok (q, outs)) :
    (q.sc.sEnc = .zero 16 ∧ q.sc.sMac1 = .zero 16 ∧ q.sc.sMac2 = .zero 16) ∨
    ∃ before after q' o', ops = before ++ after ∧ run C p before = .ok (q', o') ∧ Keyed C q'.sc.scbk q.sc := by
  refine run_ind (C := C) (p := p) (fun ops q _ => (q.sc.sEnc = .zero 16 ∧ q.sc.sMac1 = .zero 16 ∧ q.sc.sMac2 = .zero 16) ∨
    ∃ before after q' o', ops = before ++ after ∧ run C p before = .ok (q', o') ∧ Keyed C q'.sc.scbk q.sc) ?_ ?_ h
  · left
    unfold setup at hs
    split at hs
    · cases hs
    · injection hs with hs; subst hs
      exact ⟨rfl, rfl, rfl⟩
  · intro ops op q o s o' hr ih hst
    have hR : Reached C info q := ⟨skipMark, n, p, ops, o, hs, hr⟩
    have keep : (s.sc.sEnc = q.sc.sEnc ∧ s.sc.sMac1 = q.sc.sMac1 ∧ s.sc.sMac2 = q.sc.sMac2) →
        (s.sc.sEnc = .zero 16 ∧ s.sc.sMac1 = .zero 16 ∧ s.sc.sMac2 = .zero 16) ∨
        ∃ before after q' o', ops ++ [op] = before ++ after ∧ run C p before = .ok (q', o') ∧ Keyed C q'.sc.scbk s.sc := by
      rintro ⟨a, b, c⟩
      rcases ih with ⟨x, y, z⟩ | ⟨be, af, q', o', h1, h2, rnd, x, y, z⟩
      · exact .inl ⟨a.trans x, b.trans y, c.trans z⟩
      · exact .inr ⟨be, af ++ [op], q', o', by rw [h1, List.append_assoc], h2, rnd, a.trans x, b.trans y, c.trans z⟩
    cases op with
    | refresh env =>
      rcases refresh_keyed hR.pdMode hst with h | h | ⟨-, h⟩
      · exact keep h
      · exact .inr ⟨ops, [.refresh env], q, o, rfl, hr, h⟩
      · obtain ⟨f1, f2⟩ := own_key_flags hk hi hR
        rw [f1, f2] at h
        simp at h
    | notify e =>
      injection hst with hst; injection hst with e1 e2; subst e1
      apply keep
      unfold notifyEvent; split <;> exact ⟨rfl, rfl, rfl⟩
    | flush => injection hst with hst; injection hst with e1 e2; subst e1; exact keep ⟨rfl, rfl, rfl⟩
    | setCaps l => injection hst with hst; injection hst with e1 e2; subst e1; exact keep ⟨rfl, rfl, rfl⟩
    | fileOps => injection hst with hst; injection hst with e1 e2; subst e1; exact keep ⟨rfl, rfl, rfl⟩

/-- Non-vacuity: a CHLNG asking for the default key gets an answer keyed by the PD's own key. -/
example : ((Sample.feed Aes.aes Sample.pd [Sample.scbCmd 0#8 [3#8, 0x11#8, 0#8] (0x76#8 :: Sample.rndA.1)]).toOption.map
      fun r => (r.1.sc.sEnc, (Spec.Wire.sent r.2).length)) = some (encKey Aes.aes Sample.key Sample.rndA, 1) ∧
    encKey Aes.aes Sample.key Sample.rndA ≠ encKey Aes.aes defaultKey Sample.rndA := by decide +kernel

end Osdp.PdM
