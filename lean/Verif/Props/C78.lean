import Verif.Props.C22

/-!
# C78: install mode admits one session with the default key

`include/osdp.h` says of `OSDP_FLAG_INSTALL_MODE` that the PD allows one session with SCBK-D. In fact it allows any number of them until a key is set
(`C78_twice`); and even then the session that was used to set it can be opened once more (`C78_reopened`), as its keys and random numbers are kept. After
the key was set, however, no new session keys are derived from the default key (`C78_partial`).
-/

namespace Osdp.PdM

open Spec.Session

/-- a key was set: the PD left install mode, or has another key -/
def KeySet (p q : Pd) : Prop := (p.flags.installMode = true ∧ q.flags.installMode = false) ∨ q.sc.scbk ≠ p.sc.scbk

/-- setting a key ends install mode and the session -/
theorem keySet_ends {C : Cipher} {p q : Pd} {env : Env} {outs : List Out} (hp : p.flags.pdMode = true) (h : refresh C p env = .ok (q, outs)) (hk : KeySet p q) :
    q.flags.useScbkd = false ∧ q.flags.installMode = false ∧ q.scActive = false := by
  obtain ⟨p1, o1, ret, o2, hg, hp1, hfin, rfl⟩ := refresh_inv hp h
  have hl := (expire_lasting p env.now).trans (got_lasting hg).1
  have no : q.flags.installMode = p1.flags.installMode → q.sc.scbk = p1.sc.scbk → False := by
    intro h1 h2
    rcases hk with ⟨a, b⟩ | a
    · rw [b, hl.installMode, a] at h1; cases h1
    · exact a (h2.trans hl.scbk)
  cases finished_replied hfin with
  | same a b _ => exact (no a.installMode a.scbk).elim
  | com c _ _ a b _ => exact (no a.installMode a.scbk).elim
  | ccrypt _ a b _ => exact (no a.installMode a.scbk).elim
  | rmac _ _ a b _ => exact (no a.installMode a.scbk).elim
  | keyset k bs h1 h2 h3 h4 a b _ =>
    refine ⟨b, a.installMode, ?_⟩
    cases hs : q.scActive with
    | false => rfl
    | true => cases a.active hs

/-- out of install mode, a PD stays out of it -/
theorem out_of_install {C : Cipher} {p q : Pd} {op : Op} {outs : List Out} (hp : p.flags.pdMode = true)
    (h0 : p.flags.useScbkd = false ∧ p.flags.installMode = false) (h : step C p op = .ok (q, outs)) :
    q.flags.useScbkd = false ∧ q.flags.installMode = false := by
  cases op with
  | refresh env =>
    obtain ⟨p1, o1, ret, o2, hg, hp1, hfin, rfl⟩ := refresh_inv hp h
    obtain ⟨hl, hu⟩ := got_lasting hg
    obtain ⟨x1, -, -, -, -, x5, x6, -⟩ := expire_fields p env.now
    have h1 : p1.flags.useScbkd = false := by
      cases hd : p1.flags.useScbkd with
      | false => rfl
      | true =>
        rcases hu hd with h | h
        · rw [x6, h0.1] at h; cases h
        · rw [x1.installMode, h0.2] at h; cases h
    have h2 : p1.flags.installMode = false := (hl.installMode.trans x1.installMode).trans h0.2
    cases finished_replied hfin with
    | same a b _ => exact ⟨b.trans h1, a.installMode.trans h2⟩
    | com c _ _ a b _ => exact ⟨b.trans h1, a.installMode.trans h2⟩
    | ccrypt _ a b _ => exact ⟨b.trans h1, a.installMode.trans h2⟩
    | rmac _ _ a b _ => exact ⟨b.trans h1, a.installMode.trans h2⟩
    | keyset k bs h1 h2 h3 h4 a b _ => exact ⟨b, a.installMode⟩
  | notify e =>
    injection h with h; injection h with e1 e2; subst e1
    unfold notifyEvent; split <;> exact h0
  | flush => injection h with h; injection h with e1 e2; subst e1; exact h0
  | setCaps l => injection h with h; injection h with e1 e2; subst e1; exact h0
  | fileOps => injection h with h; injection h with e1 e2; subst e1; exact h0

/-- **C78, as far as it holds.**  Once a key has been set, the session is over, and whatever happens then, the session keys of the PD are still those of that
time or were derived from the key the PD held at a later moment. -/
theorem C78_partial (C : Cipher) (info : Info) (skipMark : Bool) (n : Nat) (p q1 q2 q : Pd) (before after : List Op) (env : Env) (o1 o2 o3 : List Out)
    (hs : setup info skipMark n = some p) (h1 : run C p before = .ok (q1, o1)) (h2 : refresh C q1 env = .ok (q2, o2)) (hk : KeySet q1 q2)
    (h3 : run C q2 after = .ok (q, o3)) :
    q2.scActive = false ∧ ((q.sc.sEnc = q2.sc.sEnc ∧ q.sc.sMac1 = q2.sc.sMac1 ∧ q.sc.sMac2 = q2.sc.sMac2) ∨
      ∃ a b q' o', after = a ++ b ∧ run C q2 a = .ok (q', o') ∧ Keyed C q'.sc.scbk q.sc) := by
  have R1 : Reached C info q1 := ⟨skipMark, n, p, before, o1, hs, h1⟩
  obtain ⟨k1, k2, k3⟩ := keySet_ends R1.pdMode h2 hk
  have R2 : Reached C info q2 := R1.step (op := .refresh env) h2
  refine ⟨k3, ?_⟩
  have key := run_ind (C := C) (p := q2) (fun after q _ => (Reached C info q ∧ q.flags.useScbkd = false ∧ q.flags.installMode = false) ∧
    ((q.sc.sEnc = q2.sc.sEnc ∧ q.sc.sMac1 = q2.sc.sMac1 ∧ q.sc.sMac2 = q2.sc.sMac2) ∨
      ∃ a b q' o', after = a ++ b ∧ run C q2 a = .ok (q', o') ∧ Keyed C q'.sc.scbk q.sc)) ⟨⟨R2, k1, k2⟩, .inl ⟨rfl, rfl, rfl⟩⟩ ?_ h3
  · exact key.2
  · rintro ops op q o s o' hr ⟨⟨hR, hf⟩, ih⟩ hst
    refine ⟨⟨hR.step hst, out_of_install hR.pdMode hf hst⟩, ?_⟩
    have keep : (s.sc.sEnc = q.sc.sEnc ∧ s.sc.sMac1 = q.sc.sMac1 ∧ s.sc.sMac2 = q.sc.sMac2) →
        (s.sc.sEnc = q2.sc.sEnc ∧ s.sc.sMac1 = q2.sc.sMac1 ∧ s.sc.sMac2 = q2.sc.sMac2) ∨
        ∃ a b q' o', ops ++ [op] = a ++ b ∧ run C q2 a = .ok (q', o') ∧ Keyed C q'.sc.scbk s.sc := by
      rintro ⟨a, b, c⟩
      rcases ih with ⟨x, y, z⟩ | ⟨be, af, q', o', h1, h2, rnd, x, y, z⟩
      · exact .inl ⟨a.trans x, b.trans y, c.trans z⟩
      · exact .inr ⟨be, af ++ [op], q', o', by rw [h1, List.append_assoc], h2, rnd, a.trans x, b.trans y, c.trans z⟩
    cases op with
    | refresh env =>
      rcases refresh_keyed hR.pdMode hst with h | h | ⟨-, h⟩
      · exact keep h
      · exact .inr ⟨ops, [.refresh env], q, o, rfl, hr, h⟩
      · rw [hf.1, hf.2] at h
        simp at h
    | notify e =>
      injection hst with hst; injection hst with e1 e2; subst e1
      apply keep
      unfold notifyEvent; split <;> exact ⟨rfl, rfl, rfl⟩
    | flush => injection hst with hst; injection hst with e1 e2; subst e1; exact keep ⟨rfl, rfl, rfl⟩
    | setCaps l => injection hst with hst; injection hst with e1 e2; subst e1; exact keep ⟨rfl, rfl, rfl⟩
    | fileOps => injection hst with hst; injection hst with e1 e2; subst e1; exact keep ⟨rfl, rfl, rfl⟩

/-! ### witnesses -/

/-- a PD without a key -/
def keyless : Pd := (setup { Sample.pdInfo with scbk := none } false 4).getD (blank 4)

/-- a session of the default key -/
def defaultSession : Sc := Sample.session Aes.aes defaultKey

/-- CHLNG and SCRYPT for it -/
def defaultOpens : List (List Byte) := [Sample.scbCmd 0#8 [3#8, 0x11#8, 0#8] (0x76#8 :: Sample.rndA.1), Sample.scrypt 1#8 defaultSession]

/-- KEYSET in it -/
def defaultSets (seq : Byte) (k : Block) : List Byte := (Sample.secCmd Aes.aes defaultSession seq 0x75#8 (1#8 :: 16#8 :: k.1)).1

/-- what became of the PD: is a session active, is it in install mode, is the session one of the default key, which key does it hold -/
def installedAfter (l : List (List Byte)) : Option (Bool × Bool × Bool × List Byte) :=
  (Sample.feed Aes.aes keyless l).toOption.map fun r =>
    (r.1.scActive, r.1.flags.installMode, decide (r.1.sc.sEnc = encKey Aes.aes defaultKey Sample.rndA), r.1.sc.scbk.1)

/-- The hypotheses of `C78_partial` are met when the session is used to set a key; a new handshake with the default key then fails. -/
example : installedAfter defaultOpens = some (true, true, true, (Bytes.zero 16).1) ∧
    installedAfter (defaultOpens ++ [defaultSets 2#8 Sample.key]) = some (false, false, true, Sample.key.1) ∧
    installedAfter (defaultOpens ++ [defaultSets 2#8 Sample.key] ++ defaultOpens) = some (false, false, false, Sample.key.1) := by decide +kernel

/-- **C78 fails**: a second session with the default key, after the first was closed by a POLL in the clear. -/
theorem C78_twice : setup { Sample.pdInfo with scbk := none } false 4 = some keyless ∧
    installedAfter (defaultOpens ++ [Sample.poll]) = some (false, true, true, (Bytes.zero 16).1) ∧
    installedAfter (defaultOpens ++ [Sample.poll] ++ defaultOpens) = some (true, true, true, (Bytes.zero 16).1) := by
  refine ⟨rfl, ?_⟩
  decide +kernel

/-- **C78 fails** even after a key was set: the same SCRYPT opens the old session of the default key again, in which a KEYSET is carried out. Everybody who
heard the commissioning can replace the PD's key with their own. -/
theorem C78_reopened :
    installedAfter (defaultOpens ++ [defaultSets 2#8 Sample.key, Sample.scrypt 3#8 defaultSession]) = some (true, false, true, Sample.key.1) ∧
    installedAfter (defaultOpens ++ [defaultSets 2#8 Sample.key, Sample.scrypt 3#8 defaultSession, defaultSets 1#8 (.fill 16 0xEE#8)]) =
      some (false, false, true, List.replicate 16 0xEE#8) := by decide +kernel

end Osdp.PdM
