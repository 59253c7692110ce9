import Verif.Props.C24
import Verif.Props.C78
import Verif.Props.C20

/-!
# C96: a session is keyed by the key that the CP asks for

The CP names the base key in the security block of CHLNG: 1 for the PD's own key, 0 for the default key.

Full statement: the session keys a PD derives for a CHLNG are those of its own key if the block says 1, and in install mode those of the
default key if it says 0; its own key is one it was given, at set up or by KEYSET.
-/

namespace Osdp.PdM

open Spec.Session

/-! ### spec -/

/-- the base key that the PD should use: byte `x` of the block, given whether it is in install mode, and its own key -/
def keyWanted (x : Byte) (install : Bool) (own : Block) : Block := if x = 0#8 ∧ install = true then defaultKey else own

/-! ### lemmas -/

theorem got_keeps {C : Cipher} {p q : Pd} {env : Env} {outs : List Out} {ret : PdRet} (h : Got C p env q outs ret)
    (hu : p.flags.useScbkd = true) : q.flags.useScbkd = true := by
  cases h with
  | nothing _ hc _ => exact hc.useScbkd.trans hu
  | skip _ hc => exact hc.useScbkd.trans hu
  | seq _ hc => exact hc.useScbkd.trans hu
  | refused _ hc _ hd _ => exact hd.keepScbkd (hc.useScbkd.trans hu)
  | insecure _ hc _ hd _ _ _ => exact hd.keepScbkd (hc.useScbkd.trans hu)
  | command _ hc _ hd _ _ _ _ _ _ ho =>
    obtain ⟨-, -, e⟩ := outcome_lasting ho
    exact e.trans (hd.keepScbkd (hc.useScbkd.trans hu))

/-- the choice of the default key is taken back by KEYSET only, and as long as it stands, new session keys come from the default key -/
theorem refresh_spoiled {C : Cipher} {p q : Pd} {env : Env} {outs : List Out} (hp : p.flags.pdMode = true) (hu : p.flags.useScbkd = true)
    (h : refresh C p env = .ok (q, outs)) :
    q.flags.installMode = false ∨ q.flags.useScbkd = true ∧ q.flags.installMode = p.flags.installMode ∧
      ((q.sc.sEnc = p.sc.sEnc ∧ q.sc.sMac1 = p.sc.sMac1 ∧ q.sc.sMac2 = p.sc.sMac2) ∨ Keyed C defaultKey q.sc) := by
  obtain ⟨p1, o1, ret, o2, hg, hp1, hfin, rfl⟩ := refresh_inv hp h
  obtain ⟨x1, -, -, -, -, x5, x6, -⟩ := expire_fields p env.now
  have h1 := got_keeps hg (x6.trans hu)
  have hl := (expire_lasting p env.now).trans (got_lasting hg).1
  cases finished_replied hfin with
  | same a b _ =>
    exact .inr ⟨b.trans h1, a.installMode.trans hl.installMode, .inl ⟨a.sEnc.trans hl.sEnc, a.sMac1.trans hl.sMac1, a.sMac2.trans hl.sMac2⟩⟩
  | com c _ _ a b _ =>
    exact .inr ⟨b.trans h1, a.installMode.trans hl.installMode, .inl ⟨a.sEnc.trans hl.sEnc, a.sMac1.trans hl.sMac1, a.sMac2.trans hl.sMac2⟩⟩
  | rmac _ _ a b _ =>
    exact .inr ⟨b.trans h1, a.installMode.trans hl.installMode, .inl ⟨a.sEnc.trans hl.sEnc, a.sMac1.trans hl.sMac1, a.sMac2.trans hl.sMac2⟩⟩
  | keyset k bs h1 h2 h3 h4 a _ _ => exact .inl a.installMode
  | ccrypt _ a b _ =>
    refine .inr ⟨b.trans h1, a.installMode.trans hl.installMode, .inr ⟨p1.sc.cpRandom, ?_, ?_, ?_⟩⟩ <;> rw [h1] at a
    · rw [a.sEnc, ← default_eq]; show C.enc Sc.scbkDefault _ = _; rw [seed_eq]; rfl
    · rw [a.sMac1, ← default_eq]; show C.enc Sc.scbkDefault _ = _; rw [seed_eq]; rfl
    · rw [a.sMac2, ← default_eq]; show C.enc Sc.scbkDefault _ = _; rw [seed_eq]; rfl

theorem step_installs {C : Cipher} {p q : Pd} {op : Op} {outs : List Out} (hp : p.flags.pdMode = true)
    (h : step C p op = .ok (q, outs)) (hi : q.flags.installMode = true) : p.flags.installMode = true := by
  cases op with
  | refresh env =>
    obtain ⟨p1, o1, ret, o2, hg, hp1, hfin, rfl⟩ := refresh_inv hp h
    have hl := (expire_lasting p env.now).trans (got_lasting hg).1
    cases finished_replied hfin with
    | same a b _ => exact (a.installMode.trans hl.installMode).symm.trans hi
    | com c _ _ a b _ => exact (a.installMode.trans hl.installMode).symm.trans hi
    | rmac _ _ a b _ => exact (a.installMode.trans hl.installMode).symm.trans hi
    | ccrypt _ a b _ => exact (a.installMode.trans hl.installMode).symm.trans hi
    | keyset k bs h1 h2 h3 h4 a _ _ => rw [a.installMode] at hi; cases hi
  | notify e =>
    injection h with h; injection h with e1 e2; subst e1
    revert hi
    unfold notifyEvent; split <;> exact id
  | flush => injection h with h; injection h with e1 e2; subst e1; exact hi
  | setCaps l => injection h with h; injection h with e1 e2; subst e1; exact hi
  | fileOps => injection h with h; injection h with e1 e2; subst e1; exact hi

/-! ### the claims -/

/-- **C96 fails.**  Once a packet has named the default key, the PD derives no session keys from its own key any more, whatever the CP asks
for, until it leaves install mode (by a KEYSET). -/
theorem C96_spoiled (C : Cipher) (info : Info) (q r : Pd) (ops : List Op) (o : List Out) (hq : Reached C info q)
    (hu : q.flags.useScbkd = true) (hr : run C q ops = .ok (r, o)) (hi : r.flags.installMode = true) :
    (r.sc.sEnc = q.sc.sEnc ∧ r.sc.sMac1 = q.sc.sMac1 ∧ r.sc.sMac2 = q.sc.sMac2) ∨ Keyed C defaultKey r.sc := by
  have key := run_ind (C := C) (p := q) (fun _ r _ => Reached C info r ∧ (r.flags.installMode = true → r.flags.useScbkd = true ∧
    ((r.sc.sEnc = q.sc.sEnc ∧ r.sc.sMac1 = q.sc.sMac1 ∧ r.sc.sMac2 = q.sc.sMac2) ∨ Keyed C defaultKey r.sc)))
    ⟨hq, fun _ => ⟨hu, .inl ⟨rfl, rfl, rfl⟩⟩⟩ ?_ hr
  · exact (key.2 hi).2
  · rintro ops op s o t o' - ⟨R, ih⟩ hst
    refine ⟨R.step hst, fun hi => ?_⟩
    obtain ⟨k1, k2⟩ := ih (step_installs R.pdMode hst hi)
    cases op with
    | refresh env =>
      rcases refresh_spoiled R.pdMode k1 hst with h | ⟨h1, -, h2⟩
      · rw [h] at hi; cases hi
      · refine ⟨h1, ?_⟩
        rcases h2 with ⟨a, b, c⟩ | h2
        · rcases k2 with ⟨x, y, z⟩ | ⟨rnd, x, y, z⟩
          · exact .inl ⟨a.trans x, b.trans y, c.trans z⟩
          · exact .inr ⟨rnd, a.trans x, b.trans y, c.trans z⟩
        · exact .inr h2
    | notify e =>
      injection hst with hst; injection hst with e1 e2; subst e1
      unfold notifyEvent; split <;> exact ⟨k1, k2⟩
    | flush => injection hst with hst; injection hst with e1 e2; subst e1; exact ⟨k1, k2⟩
    | setCaps l => injection hst with hst; injection hst with e1 e2; subst e1; exact ⟨k1, k2⟩
    | fileOps => injection hst with hst; injection hst with e1 e2; subst e1; exact ⟨k1, k2⟩

/-- **C96 (partial).**  A PD to which no packet has named the default key so far: the keys it derives for a CHLNG are those of the key it
should use, and its reply carries the block that names this key.  Missing: the PDs of `C96_spoiled`, and that its own key was given to it
(`C96_zero_key`). -/
theorem C96_partial (C : Cipher) (cp pd : Pd) (env : Env) (x : Byte) (rnd : Half) (P : Link.Pair cp pd) (hid : cp.cmdId = Id.CHLNG)
    (hcap : 256 ≤ env.sendCap) (ha : Phy.Arrives env (Link.hsCmd cp 0x11#8 x (b8 Id.CHLNG :: rnd.1)).bytes)
    (hu : pd.flags.useScbkd = false) :
    ∃ q0 q o k, refresh C pd env = .ok (q, o) ∧ k = keyWanted x pd.flags.installMode pd.sc.scbk ∧
      q.sc.sEnc = encKey C k rnd ∧ q.sc.sMac1 = mac1Key C k rnd ∧ q.sc.sMac2 = mac2Key C k rnd ∧
      q.sc.pdCryptogram = cryptogram C (encKey C k rnd) rnd env.random ∧
      Spec.Wire.sent o = [(Link.hsReply q0 0x12#8 (if x = 0#8 ∧ pd.flags.installMode = true then 0 else 1)
        (b8 Id.CCRYPT :: (q.sc.pdClientUid.1 ++ env.random.1 ++ q.sc.pdCryptogram.1))).bytes] := by
  obtain ⟨q0, q, h1, h2, h3⟩ := Link.pd_challenged C cp pd env x rnd P hid hcap ha
  have hk : Sc.baseKey (Link.usesDefault pd x) pd.sc = keyWanted x pd.flags.installMode pd.sc.scbk := by
    rw [Link.baseKey_spec]
    unfold Link.usesDefault keyWanted
    rw [hu]
    by_cases hx : x = 0#8 <;> cases pd.flags.installMode <;> simp [hx]
  have hkb : Link.keyByte q = if x = 0#8 ∧ pd.flags.installMode = true then 0 else 1 := by
    unfold Link.keyByte
    rw [h2.flags]
    show (if Link.usesDefault pd x = true then 0#8 else 1#8) = _
    unfold Link.usesDefault
    rw [hu]
    by_cases hx : x = 0#8 <;> cases pd.flags.installMode <;> simp [hx]
  have hrnd : q.sc.pdRandom = env.random := by rw [h3]; rfl
  rw [hkb, hrnd] at h1
  have hl := Link.hsReply_length q0 0x12#8 (if x = 0#8 ∧ pd.flags.installMode = true then 0 else 1)
    (b8 Id.CCRYPT :: (q.sc.pdClientUid.1 ++ env.random.1 ++ q.sc.pdCryptogram.1)) (by simp [q.sc.pdClientUid.2, env.random.2, q.sc.pdCryptogram.2])
  refine ⟨q0, q, _, _, h1, rfl, ?_, ?_, ?_, ?_, (PdM.sendOuts_sent q0 env _ (by omega)).1⟩ <;> rw [h3, ← hk] <;> rfl

/-! ### samples -/

open Sample

/-- the sample PD, with its own key, in install mode -/
def ready96 : Pd := (setup { Sample.pdInfo with installMode := true } false 4).getD (blank 4)

/-- CHLNG that names the default key -/
def namesDefault : List Byte := scbCmd 0#8 [3#8, 0x11#8, 0#8] (0x76#8 :: rndA.1)

/-- which key were the session keys derived from, and the byte of the block in the last reply -/
def answers96 (p : Pd) (l : List (List Byte)) : Option ((Bool × Bool × Bool) × Option Byte) :=
  (feed Aes.aes p l).toOption.map fun r =>
    ((decide (r.1.sc.sEnc = encKey Aes.aes key rndA), decide (r.1.sc.sEnc = encKey Aes.aes defaultKey rndA),
      decide (r.1.sc.sEnc = encKey Aes.aes (.zero 16) rndA)), ((Spec.Wire.sent r.2).getLast?.getD [])[8]?)

/-- **C96 fails.**  Asked for the PD's own key, the PD of `C96_partial` uses it.  After one CHLNG for the default key it does not any more. Nor
after a POLL with the same block, which is no CHLNG at all. -/
theorem C96_asked : setup { Sample.pdInfo with installMode := true } false 4 = some ready96 ∧
    answers96 ready96 [chlng 0] = some ((true, false, false), some 1#8) ∧
    answers96 ready96 [namesDefault] = some ((false, true, false), some 0#8) ∧
    answers96 ready96 [namesDefault, chlng 0] = some ((false, true, false), some 0#8) ∧
    answers96 ready96 [scbCmd 0#8 [3#8, 0x11#8, 0#8] [0x60#8], chlng 0] = some ((false, true, false), some 0#8) := by
  refine ⟨rfl, ?_, ?_, ?_, ?_⟩ <;> decide +kernel

/-- **C96 fails.**  A PD without a key that is asked for its own key opens a session with a key of zeros. -/
theorem C96_zero_key : setup { Sample.pdInfo with scbk := none } false 4 = some keyless ∧
    answers96 keyless [chlng 0] = some ((false, false, true), some 1#8) ∧
    ((feed Aes.aes keyless [chlng 0, scrypt 1#8 (session Aes.aes (.zero 16))]).toOption.map fun r => r.1.scActive) = some true := by
  refine ⟨rfl, ?_, ?_⟩ <;> decide +kernel

/-- a stranger sends one packet to the PD -/
def disturbed : Pd := ((feed xorCipher ready96 [namesDefault]).toOption.getD (ready96, [])).1

/-- how many commands `id` with a security block of three bytes the CP has sent -/
def sends96 (t : Talk) (id : Byte) : Nat := ((Spec.Wire.sent t.cpOuts).filter fun l => l[6]? = some 3#8 ∧ l[9]? = some id).length

/-- **C96 fails.**  A CP with ENFORCE_SECURE that holds the key of the PD gets its session at once; but after one CHLNG from a stranger it
does not get it any more, although PD, CP and their keys are what they were. -/
theorem C96_locked_out :
    (let t := ({ cp := CpM.strictCp, pd := ready96 } : Talk).turns xorCipher 20 20
     t.bad = false ∧ t.cp.state = .online ∧ t.cp.scActive = true ∧ t.pd.scActive = true) ∧
    (disturbed.flags.installMode = true ∧ disturbed.sc.scbk = ready96.sc.scbk ∧ disturbed.scActive = false ∧ disturbed.flags.useScbkd = true) ∧
    (let t := ({ cp := CpM.strictCp, pd := disturbed } : Talk).turns xorCipher 20 20
     t.bad = false ∧ t.cp.state = .offline ∧ t.cp.scActive = false) ∧
    (let t := ({ cp := CpM.strictCp, pd := disturbed } : Talk).turns xorCipher 1000000 60
     t.bad = false ∧ t.cp.scActive = false ∧ t.pd.scActive = false ∧ sends96 t 0x76#8 = 6 ∧ sends96 t 0x77#8 = 0) ∧
    (let t := ({ cp := CpM.strictCp, pd := ready96 } : Talk).turns xorCipher 1000000 12
     t.bad = false ∧ t.cp.scActive = true ∧ sends96 t 0x76#8 = 1 ∧ sends96 t 0x77#8 = 1) := by
  refine ⟨?_, ?_, ?_, ?_, ?_⟩ <;> decide +kernel

/-- the CP and the undisturbed PD, about to shake hands -/
def hailing96 : Talk := ({ cp := CpM.strictCp, pd := ready96 } : Talk).turns xorCipher 20 7

/-- the hypotheses of `C96_partial` are met -/
example : Link.Pair hailing96.cp hailing96.pd ∧ hailing96.cp.cmdId = Id.CHLNG ∧ hailing96.pd.flags.useScbkd = false ∧
    hailing96.pd.flags.installMode = true := by
  refine ⟨⟨by decide +kernel, by decide +kernel, by decide +kernel, by decide +kernel,
    ⟨by decide +kernel, by decide +kernel, by decide +kernel, by decide +kernel⟩,
    ⟨by decide +kernel, by decide +kernel, by decide +kernel, by decide +kernel⟩,
    by decide +kernel, by decide +kernel, by decide +kernel, by decide +kernel, by decide +kernel, by decide +kernel, by decide +kernel,
    by decide +kernel, by decide +kernel, .inl (by decide +kernel)⟩, by decide +kernel, by decide +kernel, by decide +kernel⟩

/-- those of `C96_spoiled` -/
example : (match run xorCipher disturbed [.refresh (env (chlng 0))] with
    | .ok (r, _) => decide (r.flags.installMode = true ∧ r.sc.sEnc = encKey xorCipher defaultKey rndA)
    | .error _ => false) = true := by decide +kernel

end Osdp.PdM
