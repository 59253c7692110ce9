import Verif.Props.C25
import Verif.Lemmas.SampleSc

/-!
# C22: handshake soundness at the PD

The code violates the property (witnesses at the end): a PD that never issued a challenge, or whose last challenge was
already answered, accepts a cryptogram for it.
-/

namespace Osdp.PdM

open Spec.Session

/-- Somewhere in the history the PD (then in state `q1`) issued the challenge `s.pdRandom`, a fresh random number, and
derived from its base key - or the default key, if the peer asked for it in install mode - the session keys in `s`. -/
def Challenged (C : Cipher) (p : Pd) (ops : List Op) (s : Sc) : Prop :=
  ∃ before env after q1 o1 q2 o2, ops = before ++ Op.refresh env :: after ∧ run C p before = .ok (q1, o1) ∧
    refresh C q1 env = .ok (q2, o2) ∧ s.pdRandom = env.random ∧
    (Keyed C q1.sc.scbk s ∨ (Keyed C defaultKey s ∧ (q1.flags.useScbkd = true ∨ q1.flags.installMode = true)))

/-- Somewhere in the history the PD received a command SCRYPT carrying the cryptogram `x`. -/
def Presented (C : Cipher) (p : Pd) (ops : List Op) (x : Block) : Prop :=
  ∃ before env after q1 o1 m m' d, ops = before ++ Op.refresh env :: after ∧ run C p before = .ok (q1, o1) ∧
    Phy.checkPacket (expire q1 env.now) env = .ok (m, .none) ∧ Phy.decodePacket C m = .ok (m', d) ∧
    d.data.take d.len.toNat = 0x77#8 :: x.1

/-- The channel was opened: the PD held session keys, a challenge and the peer's random number, and a
cryptogram that answers the challenge. -/
def Opened (C : Cipher) (p : Pd) (ops : List Op) : Prop :=
  ∃ before env after q1 o1 q2 o2, ops = before ++ Op.refresh env :: after ∧ run C p before = .ok (q1, o1) ∧
    refresh C q1 env = .ok (q2, o2) ∧
    q2.sc.cpCryptogram = cryptogram C q2.sc.sEnc q2.sc.pdRandom q2.sc.cpRandom ∧
    (Challenged C p (before ++ [.refresh env]) q2.sc ∨ (q2.sc.sEnc = .zero 16 ∧ q2.sc.pdRandom = .zero 8)) ∧
    (Presented C p (before ++ [.refresh env]) q2.sc.cpCryptogram ∨ q2.sc.cpCryptogram = .zero 16)

theorem Challenged.more {C : Cipher} {p : Pd} {ops : List Op} {s : Sc} (h : Challenged C p ops s) (l : List Op) :
    Challenged C p (ops ++ l) s := by
  obtain ⟨b, e, a, q1, o1, q2, o2, rfl, h⟩ := h
  exact ⟨b, e, a ++ l, q1, o1, q2, o2, by simp, h⟩

theorem Presented.more {C : Cipher} {p : Pd} {ops : List Op} {s : Block} (h : Presented C p ops s) (l : List Op) :
    Presented C p (ops ++ l) s := by
  obtain ⟨b, e, a, q1, o1, q2, o2, d, rfl, h⟩ := h
  exact ⟨b, e, a ++ l, q1, o1, q2, o2, d, by simp, h⟩

theorem Opened.more {C : Cipher} {p : Pd} {ops : List Op} (h : Opened C p ops) (l : List Op) : Opened C p (ops ++ l) := by
  obtain ⟨b, e, a, q1, o1, q2, o2, rfl, h⟩ := h
  exact ⟨b, e, a ++ l, q1, o1, q2, o2, by simp, h⟩

/-- the reply does not touch the cryptogram received -/
theorem finished_cryptogram {C : Cipher} {p q : Pd} {env : Env} {ret : PdRet} {outs : List Out}
    (h : Finished C p env ret q outs) : q.sc.cpCryptogram = p.sc.cpCryptogram := by
  cases h with
  | keep _ => rfl
  | reset _ => rfl
  | @reply q1 _ _ ok _ hs ha =>
    obtain ⟨-, -, -, -, -, -, t6⟩ := touch_fields p ret env.now
    generalize touch p ret env.now = P at hs t6
    have e1 : q1.sc.cpCryptogram = P.sc.cpCryptogram := by
      cases hs with
      | mute _ => rfl
      | built b _ o _ hb hbo hh hsend hc hl =>
        unfold Phy.Sending at hsend
        rw [hsend]
        cases hbo with
        | ccrypt sc _ _ h => subst h; rfl
        | rmac sc v _ _ h _ => subst h; cases v <;> rfl
        | _ => rfl
    rw [t6] at e1
    rcases afterSend_inv ha with ⟨rfl, -⟩ | ⟨-, -, -, k, -, rfl⟩ <;> exact e1

/-- where a new cryptogram comes from -/
theorem got_cryptogram {C : Cipher} {p q : Pd} {env : Env} {outs : List Out} {ret : PdRet} (h : Got C p env q outs ret) :
    q.sc.cpCryptogram = p.sc.cpCryptogram ∨ ∃ m m' d, Phy.checkPacket p env = .ok (m, .none) ∧
      Phy.decodePacket C m = .ok (m', d) ∧ d.data.take d.len.toNat = 0x77#8 :: q.sc.cpCryptogram.1 := by
  cases h with
  | nothing _ hc _ => exact .inl hc.transp.cpCryptogram
  | skip _ hc => exact .inl hc.transp.cpCryptogram
  | seq _ hc => exact .inl hc.transp.cpCryptogram
  | refused _ hc _ hd _ => exact .inl (hd.transp.cpCryptogram.trans hc.transp.cpCryptogram)
  | insecure _ hc _ hd _ _ _ => exact .inl (hd.transp.cpCryptogram.trans hc.transp.cpCryptogram)
  | @command m m' _ d id body _ _ h1 hc h2 hd hpos hid hlen hbody _ _ ho =>
    have e : m'.sc.cpCryptogram = p.sc.cpCryptogram := hd.transp.cpCryptogram.trans hc.transp.cpCryptogram
    cases ho with
    | plain hpl _ => obtain ⟨_, _, h⟩ := hpl.quiet; subst h; exact .inl e
    | poll _ _ => left; unfold pollEvent; split <;> exact e
    | file _ _ => left; split <;> exact e
    | scrypt cg hcmd hb _ _ =>
      refine .inr ⟨m, m', d, h1, h2, ?_⟩
      show d.data.take d.len.toNat = 0x77#8 :: cg.1
      rw [← hb, hbody]
      cases hdd : d.data with
      | nil => rw [hdd] at hid; cases hid
      | cons x l =>
        rw [hdd] at hid; injection hid with hid; subst hid
        have : x = 0x77#8 := by
          have : x.toNat = 0x77 := hcmd
          apply BitVec.eq_of_toNat_eq; rw [this]; rfl
        subst this
        obtain ⟨n, hn⟩ : ∃ n, d.len.toNat = n + 1 := ⟨d.len.toNat - 1, by omega⟩
        rw [hn]; rfl
    | _ => exact .inl e

/-- **C22 (partial).**  Whenever the PD's secure channel is active, it was opened in this history, and at that
moment the PD had received a cryptogram equal to E(S-ENC, its challenge ‖ the peer's random number), where S-ENC was
derived from the PD's base key (the default key in install mode) when that challenge was issued.  So the peer that
produced the cryptogram knew the base key.

What is missing for the full statement, and false of the code: (1) that there was a challenge at all - without one
the keys and the challenge are all zero; (2) that a cryptogram is good for one session only.  See `C22_no_challenge` and
`C22_replay`. -/
theorem C22_active_partial (C : Cipher) (info : Info) (skipMark : Bool) (n : Nat) (p q : Pd) (ops : List Op) (outs : List Out)
    (hs : setup info skipMark n = some p) (h : run C p ops = .ok (q, outs)) :
    (q.scActive = true → Opened C p ops) ∧
    (Challenged C p ops q.sc ∨ (q.sc.sEnc = .zero 16 ∧ q.sc.pdRandom = .zero 8)) ∧
    (Presented C p ops q.sc.cpCryptogram ∨ q.sc.cpCryptogram = .zero 16) := by
  refine run_ind (C := C) (p := p) (fun ops q _ => (q.scActive = true → Opened C p ops) ∧
    (Challenged C p ops q.sc ∨ (q.sc.sEnc = .zero 16 ∧ q.sc.pdRandom = .zero 8)) ∧
    (Presented C p ops q.sc.cpCryptogram ∨ q.sc.cpCryptogram = .zero 16)) ?_ ?_ h
  · unfold setup at hs
    split at hs
    · cases hs
    · injection hs with hs; subst hs
      exact ⟨(fun h => by cases h), .inr ⟨rfl, rfl⟩, .inr rfl⟩
  · rintro ops op q o s o' hr ⟨i1, i2, i3⟩ hst
    have hR : Reached C info q := ⟨skipMark, n, p, ops, o, hs, hr⟩
    have keep : s.sc = q.sc → s.scActive = q.scActive → (s.scActive = true → Opened C p (ops ++ [op])) ∧
        (Challenged C p (ops ++ [op]) s.sc ∨ (s.sc.sEnc = .zero 16 ∧ s.sc.pdRandom = .zero 8)) ∧
        (Presented C p (ops ++ [op]) s.sc.cpCryptogram ∨ s.sc.cpCryptogram = .zero 16) := by
      intro h1 h2
      rw [h1, h2]
      exact ⟨fun h => (i1 h).more _, i2.imp_left fun h => h.more _, i3.imp_left fun h => h.more _⟩
    cases op with
    | refresh env =>
      have hst' : refresh C q env = .ok (s, o') := hst
      obtain ⟨p1, o1, ret, o2, hg, hp1, hfin, rfl⟩ := refresh_inv hR.pdMode hst'
      have hgl := (got_lasting hg).1
      have hl := (expire_lasting q env.now).trans hgl
      have hx : (expire q env.now).sc.cpCryptogram = q.sc.cpCryptogram := by unfold expire; split <;> rfl
      -- the cryptogram
      have c3 : Presented C p (ops ++ [.refresh env]) s.sc.cpCryptogram ∨ s.sc.cpCryptogram = .zero 16 := by
        rw [finished_cryptogram hfin]
        rcases got_cryptogram hg with h | ⟨m, m', d, h1, h2, h3⟩
        · rw [h, hx]; exact i3.imp_left fun h => h.more _
        · exact .inl ⟨ops, env, [], q, o, m, m', d, rfl, hr, h1, h2, h3⟩
      -- keys and challenge
      have same : s.sc.sEnc = q.sc.sEnc → s.sc.sMac1 = q.sc.sMac1 → s.sc.sMac2 = q.sc.sMac2 → s.sc.pdRandom = q.sc.pdRandom →
          Challenged C p (ops ++ [.refresh env]) s.sc ∨ (s.sc.sEnc = .zero 16 ∧ s.sc.pdRandom = .zero 8) := by
        intro h1 h2 h3 h4
        rcases i2 with ⟨b, e, a, q1, o1, q2, o2, r1, r2, r3, r4, r5⟩ | ⟨r1, r2⟩
        · refine .inl ⟨b, e, a ++ [.refresh env], q1, o1, q2, o2, by rw [r1]; simp, r2, r3, h4.trans r4, ?_⟩
          unfold Keyed at r5 ⊢
          rw [h1, h2, h3]; exact r5
        · exact .inr ⟨h1.trans r1, h4.trans r2⟩
      have act : (s.scActive = true → p1.scActive = true) → s.scActive = true → Opened C p (ops ++ [.refresh env]) :=
        fun a h => (i1 (hl.active (a h))).more _
      cases finished_replied hfin with
      | same a _ _ =>
        have a' := hl.trans a
        exact ⟨act a.active, same a'.sEnc a'.sMac1 a'.sMac2 a'.pdRandom, c3⟩
      | com c _ _ a _ _ =>
        exact ⟨act a.active, same (a.sEnc.trans hl.sEnc) (a.sMac1.trans hl.sMac1) (a.sMac2.trans hl.sMac2) (a.pdRandom.trans hl.pdRandom), c3⟩
      | keyset k bs h1 h2 h3 h4 a _ _ =>
        exact ⟨act (fun h => by cases a.active h),
          same (a.sEnc.trans hl.sEnc) (a.sMac1.trans hl.sMac1) (a.sMac2.trans hl.sMac2) (a.pdRandom.trans hl.pdRandom), c3⟩
      | rmac h1 h2 a _ e =>
        have c2 := same (a.sEnc.trans hl.sEnc) (a.sMac1.trans hl.sMac1) (a.sMac2.trans hl.sMac2) (a.pdRandom.trans hl.pdRandom)
        refine ⟨fun _ => ⟨ops, env, [], q, o, s, _, rfl, hr, hst', ?_, c2, c3⟩, c2, c3⟩
        rw [finished_cryptogram hfin, h2, a.sEnc, a.pdRandom, e]
        rfl
      | ccrypt h1 a _ e =>
        refine ⟨act a.active, .inl ⟨ops, env, [], q, o, s, _, rfl, hr, hst', a.pdRandom, ?_⟩, c3⟩
        rcases refresh_keyed hR.pdMode hst' with ⟨k1, k2, k3⟩ | h | h
        · -- the new keys happen to equal the old ones
          obtain ⟨x1, -, -, -, -, x5, x6, -⟩ := expire_fields q env.now
          have hu := (got_lasting hg).2
          cases hd : p1.flags.useScbkd with
          | false =>
            left
            rw [hd] at a
            refine ⟨p1.sc.cpRandom, ?_, ?_, ?_⟩
            · rw [a.sEnc]; show C.enc p1.sc.scbk _ = _; rw [hl.scbk, seed_eq]; rfl
            · rw [a.sMac1]; show C.enc p1.sc.scbk _ = _; rw [hl.scbk, seed_eq]; rfl
            · rw [a.sMac2]; show C.enc p1.sc.scbk _ = _; rw [hl.scbk, seed_eq]; rfl
          | true =>
            right
            rw [hd] at a
            refine ⟨⟨p1.sc.cpRandom, ?_, ?_, ?_⟩, ?_⟩
            · rw [a.sEnc, ← default_eq]; show C.enc Sc.scbkDefault _ = _; rw [seed_eq]; rfl
            · rw [a.sMac1, ← default_eq]; show C.enc Sc.scbkDefault _ = _; rw [seed_eq]; rfl
            · rw [a.sMac2, ← default_eq]; show C.enc Sc.scbkDefault _ = _; rw [seed_eq]; rfl
            · rcases hu hd with h | h
              · exact .inl (x6 ▸ h)
              · exact .inr (x1.installMode ▸ h)
        · exact .inl h
        · exact .inr h
    | notify e =>
      injection hst with hst; injection hst with e1 e2; subst e1
      apply keep <;> (unfold notifyEvent; split <;> rfl)
    | flush => injection hst with hst; injection hst with e1 e2; subst e1; exact keep rfl rfl
    | setCaps l => injection hst with hst; injection hst with e1 e2; subst e1; exact keep rfl rfl
    | fileOps => injection hst with hst; injection hst with e1 e2; subst e1; exact keep rfl rfl

/-- is the channel active after these packets (`none`: a crash) -/
def activeAfter (p : Pd) (l : List (List Byte)) : Option Bool :=
  (Sample.feed Aes.aes p l).toOption.map fun r => r.1.scActive

/-- Non-vacuity: a proper handshake opens the channel, a wrong cryptogram does not. -/
example : activeAfter Sample.pd [Sample.chlng 0#8, Sample.scrypt 1#8 (Sample.session Aes.aes Sample.key)] = some true ∧
    activeAfter Sample.pd [Sample.chlng 0#8, Sample.scrypt 1#8 (Sample.session Aes.aes defaultKey)] = some false := by decide +kernel

/-- the ENFORCE_SECURE PD of the witness -/
def guarded : Pd := (setup { Sample.pdInfo with enforceSecure := true } false 4).getD (blank 4)

/-- what a peer without any key can compute: the cryptogram of an all zero session -/
def noKey : Sc := Sc.computeCpCryptogram Aes.aes Sc.zero

/-- **C22 violated (1).**  A PD just set up, ENFORCE_SECURE and with its own key, takes an SCRYPT that answers no challenge
and proves nothing: the channel is active, with all-zero session keys. -/
theorem C22_no_challenge :
    setup { Sample.pdInfo with enforceSecure := true } false 4 = some guarded ∧
    activeAfter guarded [Sample.scrypt 0#8 noKey] = some true := by
  refine ⟨rfl, ?_⟩
  decide +kernel

/-- **C22 violated (2).**  After a session (closed by a plain POLL with sequence number 0) the recorded SCRYPT alone opens the
channel again: the old session is back, without a new challenge. -/
theorem C22_replay :
    (let record := [Sample.chlng 0#8, Sample.scrypt 1#8 (Sample.session Aes.aes Sample.key)]
     activeAfter Sample.pd (record ++ [Sample.poll]) = some false ∧
     activeAfter Sample.pd (record ++ [Sample.poll, Sample.scrypt 1#8 (Sample.session Aes.aes Sample.key)]) = some true) := by
  decide +kernel

end Osdp.PdM
