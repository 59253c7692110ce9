import Verif.Lemmas.PdReach

/-! # What one refresh of a PD can change: keys, session, address -/

namespace Osdp.PdM

open Spec.Wire
open Phy (Transp)

/-- the members that only the reply can change -/
structure Lasting (p q : Pd) : Prop where
  scbk : q.sc.scbk = p.sc.scbk
  sEnc : q.sc.sEnc = p.sc.sEnc
  sMac1 : q.sc.sMac1 = p.sc.sMac1
  sMac2 : q.sc.sMac2 = p.sc.sMac2
  pdRandom : q.sc.pdRandom = p.sc.pdRandom
  uid : q.sc.pdClientUid = p.sc.pdClientUid
  address : q.address = p.address
  baudRate : q.baudRate = p.baudRate
  installMode : q.flags.installMode = p.flags.installMode
  active : q.scActive = true → p.scActive = true

theorem Lasting.refl (p : Pd) : Lasting p p := ⟨rfl, rfl, rfl, rfl, rfl, rfl, rfl, rfl, rfl, id⟩

theorem Lasting.trans {p q s : Pd} (h : Lasting p q) (h' : Lasting q s) : Lasting p s :=
  ⟨h'.scbk.trans h.scbk, h'.sEnc.trans h.sEnc, h'.sMac1.trans h.sMac1, h'.sMac2.trans h.sMac2, h'.pdRandom.trans h.pdRandom,
    h'.uid.trans h.uid, h'.address.trans h.address, h'.baudRate.trans h.baudRate, h'.installMode.trans h.installMode,
    fun x => h.active (h'.active x)⟩

theorem transp_lasting {p q : Pd} (h : Transp p q) (ha : q.flags.scActive = true → p.flags.scActive = true) : Lasting p q := by
  refine ⟨?_, ?_, ?_, ?_, ?_, ?_, ?_, ?_, ?_, ha⟩ <;> (unfold Transp at h; rw [h]; rfl)

theorem expire_lasting (p : Pd) (now : Int) : Lasting p (expire p now) := by
  unfold expire
  split
  · exact ⟨rfl, rfl, rfl, rfl, rfl, rfl, rfl, rfl, rfl, fun h => by cases h⟩
  · exact .refl p

theorem outcome_lasting {p q : Pd} {env : Env} {bd : List Byte} {o : List Out} {r : PdRet} (h : Outcome p env bd q o r) :
    Lasting p q ∧ q.cmdId = p.cmdId ∧ q.flags.useScbkd = p.flags.useScbkd := by
  cases h with
  | plain hpl _ =>
    obtain ⟨_, _, h⟩ := hpl.quiet; subst h
    exact ⟨⟨rfl, rfl, rfl, rfl, rfl, rfl, rfl, rfl, rfl, id⟩, rfl, rfl⟩
  | poll _ _ => unfold pollEvent; split <;> exact ⟨⟨rfl, rfl, rfl, rfl, rfl, rfl, rfl, rfl, rfl, id⟩, rfl, rfl⟩
  | file _ _ => split <;> exact ⟨⟨rfl, rfl, rfl, rfl, rfl, rfl, rfl, rfl, rfl, id⟩, rfl, rfl⟩
  | chlng _ _ _ _ => exact ⟨⟨rfl, rfl, rfl, rfl, rfl, rfl, rfl, rfl, rfl, fun h => by cases h⟩, rfl, rfl⟩
  | _ => exact ⟨⟨rfl, rfl, rfl, rfl, rfl, rfl, rfl, rfl, rfl, id⟩, rfl, rfl⟩

/-- receiving and executing a command -/
theorem got_lasting {C : Cipher} {p q : Pd} {env : Env} {outs : List Out} {ret : PdRet} (h : Got C p env q outs ret) :
    Lasting p q ∧ (q.flags.useScbkd = true → p.flags.useScbkd = true ∨ p.flags.installMode = true) := by
  have dec : ∀ {p1 q : Pd} {d : Phy.Decoded} {id : Byte}, Phy.Checked p p1 .none → Phy.DecodedTo p1 q d →
      Lasting p q ∧ (q.flags.useScbkd = true → p.flags.useScbkd = true ∨ p.flags.installMode = true) := by
    intro p1 q d id hc hd
    refine ⟨(transp_lasting hc.transp hc.scActive).trans (transp_lasting hd.transp hd.scActive), fun h => ?_⟩
    rcases hd.useScbkd h with h | h
    · exact .inl (hc.useScbkd ▸ h)
    · exact .inr ((transp_untouched hc.transp).installMode ▸ h)
  cases h with
  | nothing _ hc _ => exact ⟨transp_lasting hc.transp (fun h => hc.scActive ▸ h), fun h => .inl (hc.useScbkd ▸ h)⟩
  | skip _ hc =>
    have := transp_lasting hc.transp (fun h => hc.scActive ▸ h)
    exact ⟨this.trans ⟨rfl, rfl, rfl, rfl, rfl, rfl, rfl, rfl, rfl, id⟩, fun h => .inl (hc.useScbkd ▸ h)⟩
  | seq _ hc => exact ⟨transp_lasting hc.transp hc.scActive, fun h => .inl (hc.useScbkd ▸ h)⟩
  | refused _ hc _ hd _ => exact dec (id := 0#8) hc hd
  | insecure _ hc _ hd _ _ _ =>
    obtain ⟨l, u⟩ := dec (id := 0#8) hc hd
    exact ⟨l.trans ⟨rfl, rfl, rfl, rfl, rfl, rfl, rfl, rfl, rfl, id⟩, u⟩
  | command _ hc _ hd _ _ _ _ _ _ ho =>
    obtain ⟨l, u⟩ := dec (id := 0#8) hc hd
    obtain ⟨l', -, e⟩ := outcome_lasting ho
    refine ⟨l.trans ⟨l'.scbk, l'.sEnc, l'.sMac1, l'.sMac2, l'.pdRandom, l'.uid, l'.address, l'.baudRate, l'.installMode, l'.active⟩,
      fun h => u ?_⟩
    rw [e] at h; exact h

/-- What the reply can change. -/
inductive Replied (C : Cipher) (p : Pd) (env : Env) (q : Pd) (outs : List Out) : Prop
  /-- nothing of the above -/
  | same : Lasting p q → q.flags.useScbkd = p.flags.useScbkd → q.sc.cpRandom = p.sc.cpRandom → Replied C p env q outs
  /-- new address and speed -/
  | com (c : CmdComset) : p.replyId = Id.COM → p.eph = .cmd (.comset c) →
      Lasting { p with address := c.address.toNat, baudRate := c.baudRate.toInt } q → q.flags.useScbkd = p.flags.useScbkd →
      q.sc.cpRandom = p.sc.cpRandom → Replied C p env q outs
  /-- new session keys -/
  | ccrypt : p.replyId = Id.CCRYPT →
      Lasting { p with sc := Sc.sessionKeys C p.flags.useScbkd { p.sc with pdRandom := env.random } } q →
      q.flags.useScbkd = p.flags.useScbkd → q.sc.cpRandom = p.sc.cpRandom → Replied C p env q outs
  /-- the secure channel becomes active -/
  | rmac : p.replyId = Id.RMAC_I → p.sc.cpCryptogram = C.enc p.sc.sEnc (Bytes.join p.sc.pdRandom p.sc.cpRandom) →
      Lasting p.scActivate q → q.flags.useScbkd = p.flags.useScbkd → q.sc.cpRandom = p.sc.cpRandom → Replied C p env q outs
  /-- a new base key -/
  | keyset (k : Block) (bs : List Byte) : p.cmdId = Id.KEYSET → p.replyId = Id.ACK → p.eph = .key k → Out.send bs ∈ outs →
      Lasting (Pd.scDeactivate { p with sc := { p.sc with scbk := k }, flags := { p.flags with installMode := false } }) q →
      q.flags.useScbkd = false → q.sc.cpRandom = p.sc.cpRandom → Replied C p env q outs

theorem finished_replied {C : Cipher} {p q : Pd} {env : Env} {ret : PdRet} {outs : List Out}
    (h : Finished C p env ret q outs) : Replied C p env q outs := by
  cases h with
  | keep _ => exact .same (.refl _) rfl rfl
  | reset _ => exact .same ⟨rfl, rfl, rfl, rfl, rfl, rfl, rfl, rfl, rfl, fun h => by cases h⟩ rfl rfl
  | @reply q1 _ outs' ok _ hs ha =>
    obtain ⟨tu, t1, t2, t3, -, t5, t6⟩ := touch_fields p ret env.now
    generalize touch p ret env.now = P at hs t1 t2 t3 t5 t6 tu
    have lp : Lasting p P := ⟨by rw [t6], by rw [t6], by rw [t6], by rw [t6], by rw [t6], by rw [t6], tu.address, tu.baudRate,
      by rw [t5], fun h => by unfold Pd.scActive at h ⊢; rwa [t5] at h⟩
    -- before the commit
    have pre : (Lasting P q1 ∧ q1.flags.useScbkd = P.flags.useScbkd ∧ q1.sc.cpRandom = P.sc.cpRandom ∧
          (ok = true → ∃ bs, Out.send bs ∈ outs) ∧ q1.replyId = P.replyId ∧ q1.cmdId = P.cmdId ∧ q1.eph = P.eph) ∨
        (P.replyId ≠ Id.ACK ∧ q1.replyId = P.replyId ∧ Replied C P env q1 outs) := by
      cases hs with
      | mute _ => exact .inl ⟨.refl _, rfl, rfl, (by intro h; cases h), rfl, rfl, rfl⟩
      | built b _ o _ hb hbo hh hsend hc hl =>
        have hok : ok = true → ∃ bs, Out.send bs ∈ b.outs ++ o := by
          intro hk
          rcases hc with ⟨-, h, -⟩ | ⟨w, q', -, -, -, rfl, -⟩
          · rw [h] at hk; cases hk
          · refine ⟨List.take env.sendCap (Phy.pktOf (finalTx b.t b.p (bodyLen b.body)) w).bytes, List.mem_append_right _ ?_⟩
            unfold Phy.sendOuts
            split <;> simp
        have hS : ∀ r : Pd, Phy.Sending r q1 → Lasting r q1 ∧ q1.flags.useScbkd = r.flags.useScbkd ∧ q1.sc.cpRandom = r.sc.cpRandom ∧
            q1.replyId = r.replyId ∧ q1.cmdId = r.cmdId ∧ q1.eph = r.eph := by
          intro r hr
          unfold Phy.Sending at hr
          refine ⟨⟨?_, ?_, ?_, ?_, ?_, ?_, ?_, ?_, ?_, fun h => ?_⟩, ?_, ?_, ?_, ?_, ?_⟩ <;> first | (rw [hr]; done) | (rw [hr]; rfl) | (rw [hr] at h; exact h)
        obtain ⟨s1, s2, s3, s4, s5, s6⟩ := hS _ hsend
        have lu : Lasting P (unbc P) := ⟨rfl, rfl, rfl, rfl, rfl, rfl, rfl, rfl, rfl, id⟩
        cases hbo with
        | same _ => exact .inl ⟨lu.trans s1, s2, s3, hok, s4, s5, s6⟩
        | com c h1 h2 =>
          have h1' : P.replyId = Id.COM := h1
          refine .inr ⟨by rw [h1']; decide, s4, .com c h1' h2 (Lasting.trans ?_ s1) s2 s3⟩
          exact ⟨rfl, rfl, rfl, rfl, rfl, rfl, rfl, rfl, rfl, id⟩
        | ftstat f o' r _ h1 h2 =>
          refine .inl ⟨Lasting.trans ?_ s1, s2, s3, hok, s4, s5, s6⟩
          exact ⟨rfl, rfl, rfl, rfl, rfl, rfl, rfl, rfl, rfl, id⟩
        | ccrypt sc h1 _ h2 =>
          have h1' : P.replyId = Id.CCRYPT := h1
          subst h2
          refine .inr ⟨by rw [h1']; decide, s4, .ccrypt h1' (Lasting.trans ?_ s1) s2 s3⟩
          exact ⟨rfl, rfl, rfl, rfl, rfl, rfl, rfl, rfl, rfl, id⟩
        | rmac sc v h1 _ h2 h3 =>
          have h1' : P.replyId = Id.RMAC_I := h1
          subst h2
          cases v with
          | false =>
            refine .inl ⟨Lasting.trans ?_ s1, s2, s3, hok, s4, s5, s6⟩
            exact ⟨rfl, rfl, rfl, rfl, rfl, rfl, rfl, rfl, rfl, id⟩
          | true =>
            have hv : P.sc.cpCryptogram = C.enc P.sc.sEnc (Bytes.join P.sc.pdRandom P.sc.cpRandom) := of_decide_eq_true h3.symm
            refine .inr ⟨by rw [h1']; decide, s4, .rmac h1' hv (Lasting.trans ?_ s1) s2 s3⟩
            exact ⟨rfl, rfl, rfl, rfl, rfl, rfl, rfl, rfl, rfl, id⟩
    have back : Replied C P env q outs → Replied C p env q outs := by
      intro h
      cases h with
      | same a b c => exact .same (lp.trans a) (by rw [b, t5]) (by rw [c, t6])
      | com c h1 h2 a b e =>
        refine .com c (t1 ▸ h1) (t3 ▸ h2) (Lasting.trans ?_ a) (by rw [b, t5]) (by rw [e, t6])
        exact ⟨lp.scbk, lp.sEnc, lp.sMac1, lp.sMac2, lp.pdRandom, lp.uid, rfl, rfl, lp.installMode, lp.active⟩
      | ccrypt h1 a b e =>
        refine .ccrypt (t1 ▸ h1) (Lasting.trans ?_ a) (by rw [b, t5]) (by rw [e, t6])
        rw [t5, t6]
        exact ⟨rfl, rfl, rfl, rfl, rfl, rfl, lp.address, lp.baudRate, rfl, id⟩
      | rmac h1 h2 a b e =>
        refine .rmac (t1 ▸ h1) (by rw [t6] at h2; exact h2) (Lasting.trans ?_ a) (by rw [b, t5]) (by rw [e, t6])
        exact ⟨lp.scbk, lp.sEnc, lp.sMac1, lp.sMac2, lp.pdRandom, lp.uid, lp.address, lp.baudRate, lp.installMode, fun _ => rfl⟩
      | keyset k bs h1 h2 h3 h4 a b e =>
        refine .keyset k bs (t2 ▸ h1) (t1 ▸ h2) (t3 ▸ h3) h4 (Lasting.trans ?_ a) b (by rw [e, t6])
        exact ⟨rfl, lp.sEnc, lp.sMac1, lp.sMac2, lp.pdRandom, lp.uid, lp.address, lp.baudRate, rfl, fun h => by cases h⟩
    apply back
    have lr : Lasting q1 (Phy.stateReset q1 false).1 := ⟨rfl, rfl, rfl, rfl, rfl, rfl, rfl, rfl, rfl, id⟩
    rcases afterSend_inv ha with ⟨rfl, -⟩ | ⟨hk, h1, h2, k, h3, rfl⟩
    · rcases pre with ⟨a, b, c, -⟩ | ⟨-, -, h⟩
      · exact .same (a.trans lr) b c
      · cases h with
        | same a b c => exact .same (a.trans lr) b c
        | com c h1 h2 a b e => exact .com c h1 h2 (a.trans lr) b e
        | ccrypt h1 a b e => exact .ccrypt h1 (a.trans lr) b e
        | rmac h1 h2 a b e => exact .rmac h1 h2 (a.trans lr) b e
        | keyset k bs h1 h2 h3 h4 a b e => exact .keyset k bs h1 h2 h3 h4 (a.trans lr) b e
    · rcases pre with ⟨a, b, c, d, e1, e2, e3⟩ | ⟨n, e, -⟩
      · obtain ⟨bs, hbs⟩ := d hk
        refine .keyset k bs (e2 ▸ h1) (e1 ▸ h2) (e3 ▸ h3) hbs ?_ rfl c
        exact ⟨rfl, a.sEnc, a.sMac1, a.sMac2, a.pdRandom, a.uid, a.address, a.baudRate, rfl, fun h => by cases h⟩
      · rw [e] at h2; exact absurd h2 n

end Osdp.PdM
