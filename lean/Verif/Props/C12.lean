import Verif.Lemmas.CpResend
import Verif.Lemmas.CpTurn
import Verif.Lemmas.SampleCp
import Verif.Props.C15

/-!
# C12: BUSY makes the CP repeat the same command with the same sequence number

Full statement: when the PD answers BUSY, the CP waits 800 ms and sends the same command with the same sequence
number; no error is reported and no other command is sent to that PD in between.
-/

namespace Osdp.CpM

open Spec.Wire
open Phy (Idle Arrives)

/-- The CP sent the packet `b` and waits for the reply; the first of these steps is the one that sent it. -/
inductive Awaits (C : Cipher) (info : PdM.Info) (b : List Byte) : Pd → Prop
  | sent {p q : Pd} {cb : Bool} {env : Env} {o : List Out} : Reached C info p → step C p (.update cb env) = .ok (q, o) →
      sent o = [b] → q.phyState = .replyWait → Awaits C info b q
  | more {p q : Pd} {op : Op} {o : List Out} : Awaits C info b p → step C p op = .ok (q, o) → q.phyState = .replyWait →
      Awaits C info b q

theorem Awaits.reached {C : Cipher} {info : PdM.Info} {b : List Byte} {p : Pd} (h : Awaits C info b p) : Reached C info p := by
  induction h with
  | sent hr h _ _ => exact hr.step h
  | more _ h _ ih => exact ih.step h

theorem SendOutcome.rMac {C : Cipher} {p q : Pd} {env : Env} {outs : List Out} (hp : p.flags.pdMode = false)
    (h : SendOutcome C p env q outs true) : q.sc.rMac = p.sc.rMac ∧ q.packetBuf.length = p.packetBuf.length := by
  cases h with
  | built b l q o ok _ _ ho _ _ hs hc hbuf =>
    refine ⟨?_, hbuf⟩
    rcases hc with ⟨-, hc, -⟩ | ⟨wire, q', -, hd, hsc, -⟩
    · cases hc
    rw [hsc]
    have hb : b.p.sc.rMac = p.sc.rMac := by rw [ho.keeps]; rfl
    have hm : b.p.isCp = true := by
      unfold Pd.isCp; rw [ho.keeps]; show (!p.flags.pdMode) = true; rw [hp]; rfl
    rcases Classical.em (Phy.Secured b.p (finalTx b.t b.p l.length)) with h | h
    · obtain ⟨body, sc, -, -, hm', rfl⟩ := hd.secured h
      rw [hm] at hm'
      unfold Sc.computeMac at hm'
      split at hm'
      · cases hm'
      split at hm'
      · cases hm'
      injection hm' with hm'
      show sc.rMac = _
      rw [← hm', if_pos rfl]; exact hb
    · rw [(hd.plain h).2]; exact hb

/-- a step that sends a packet and then waits -/
theorem step_sends {C : Cipher} {cb : Bool} {p q : Pd} {env : Env} {o : List Out} {b : List Byte} (I : Inv p)
    (h : step C p (.update cb env) = .ok (q, o)) (hb : sent o = [b]) (hw : q.phyState = .replyWait) :
    ∃ p1, buildAndSend C p env = .ok (p1, o, true) ∧ q = sentState p1 env.now := by
  obtain ⟨⟨s1, o1, y⟩, hu, h1⟩ := Res.bind_eq_ok.mp h
  clear h
  injection h1 with h1; injection h1 with e1 e2; subst e1 e2
  have hup := stateUpdate_inv I.cp hu
  have hm : MaySend p env := by
    cases hup with
    | hold _ _ => cases hb
    | sent hm _ => exact hm
    | unsent hm _ _ => exact hm
    | replied hps hw' _ hse =>
      rcases (settled (waited_mid I hps hw') hse).2 with h | h <;> rw [h] at hw <;> cases hw
    | again _ hw' => rw [fclose_sent hw'.outs] at hb; cases hb
    | waiting _ hw' => rw [fclose_sent hw'.outs] at hb; cases hb
    | idle hps hse => rcases (settled I.mid hse).2 with h | h <;> rw [h] at hw <;> cases hw
  have hsend : ∀ (r : Res (Pd × List Out × CpErr)), phySend C p env = r →
      (r >>= fun x => if x.2.2 = CpErr.inprog then Except.ok (x.1, x.2.1, false)
      else if x.2.2 = CpErr.canYield then Except.ok (x.1, x.2.1, true)
      else settle cb x.1 env >>= fun y => Except.ok (y.1, x.2.1 ++ y.2, true)) = Except.ok (s1, o1, y) →
      ∃ p1, buildAndSend C p env = .ok (p1, o1, true) ∧ s1 = sentState p1 env.now := by
    intro r hr h
    subst hr
    obtain ⟨⟨p1, o1, rc⟩, h1, h⟩ := Res.bind_eq_ok.mp h
    unfold phySend at h1
    obtain ⟨⟨p2, o2, ok⟩, h2, h1⟩ := Res.bind_eq_ok.mp h1
    cases ok with
    | true =>
      injection h1 with h1; injection h1 with e1 h1; injection h1 with e2 e3; subst e1 e2 e3
      injection h with h; injection h with e1 h; injection h with e2 e3; subst e1 e2 e3
      exact ⟨p2, h2, rfl⟩
    | false =>
      replace h1 := ite_inv h1
      rcases h1 with ⟨h0, -⟩ | ⟨-, h1⟩
      · cases h0
      split at h1
      · injection h1 with h1; injection h1 with e1 h1; injection h1 with e2 e3; subst e1 e2 e3
        obtain ⟨⟨p3, o3⟩, h3, h⟩ := Res.bind_eq_ok.mp h
        injection h with h; injection h with e1 h; injection h with e2 e3; subst e1 e2 e3
        have := (settled (unsent_mid I (buildAndSend_outcome I.cp h2)) h3).2
        rcases this with h | h <;> rw [h] at hw <;> cases hw
      · cases h1
  unfold stateUpdate at hu
  have hr : phyRunning p = true := by unfold phyRunning; rcases hm with h | ⟨h, -⟩ <;> rw [h] <;> decide
  rw [if_pos hr] at hu
  have he : phyUpdate C p env = phySend C p env := by
    unfold phyUpdate
    rcases hm with h | ⟨h, ht⟩ <;> rw [h]
    dsimp only
    rw [if_neg ht]
  rw [he] at hu
  exact hsend _ rfl hu

theorem Effect.data {C : Cipher} {p q : Pd} {env : Env} {body : List Byte} {outs : List Out} {rc : CpErr}
    (h : Effect C p env body q outs rc) : rc ≠ .noData := by
  intro hrc
  cases h with
  | _ => exact absurd hrc (by (try split) <;> simp)

theorem Reply.collected {C : Cipher} {p q : Pd} {env : Env} {outs : List Out} {rc : CpErr} (h : Reply C p env q outs rc)
    (hrc : rc = .noData) : Phy.Collected p q := by
  cases h with
  | nothing _ hc _ => exact hc
  | reply _ _ _ _ _ _ _ _ _ he => exact absurd hrc he.data
  | _ => cases hrc

/-- what the CP holds while it waits for the reply to the packet `b` -/
structure Pended (C : Cipher) (b : List Byte) (p : Pd) : Prop where
  inv : Inv p
  buf : Buffered p
  phy : p.phyState = .replyWait
  sent : ∃ p0 env p1 o, p0.flags.pdMode = false ∧ buildAndSend C p0 env = .ok (p1, o, true) ∧ Spec.Wire.sent o = [b] ∧
    p0.packetBuf.length = 256 ∧ -1 ≤ p0.seq ∧ p0.seq ≤ 3 ∧ p.seq = Phy.nextSeq p0.seq true ∧ (p.flags.skipMark = false → SameCmd p0 { p with seq := p0.seq })

theorem Api.sameCmd {p0 p q : Pd} {s : Int} (h : Api p q) (hs : SameCmd p0 { p with seq := s }) :
    SameCmd p0 { q with seq := s } := by
  unfold Api at h
  rw [h]
  exact ⟨hs.cp, hs.cmdId, hs.eph, hs.scActive, hs.useScbkd, hs.skipMark, hs.hasMark, hs.address, hs.seq, hs.peerRx, hs.hasFlush,
    hs.buf, hs.sc⟩

theorem Awaits.pended {C : Cipher} {info : PdM.Info} {b : List Byte} {p : Pd} (h : Awaits C info b p) : Pended C b p := by
  induction h with
  | sent hr h hb hw =>
    rename_i p q cb env o
    have I := hr.inv
    have I' := I.step h
    obtain ⟨p1, hbs, hq⟩ := step_sends I h hb hw
    refine ⟨I', hr.buffered.step I h, hw, p, env, p1, o, I.cp, hbs, hb, hr.buffered.buf, I.lo, I.hi, ?_, ?_⟩
    · rcases (buildAndSend_outcome I.cp hbs).seqNo with h | ⟨-, h, -⟩
      · rw [hq]; exact h
      · cases h
    · intro hsk
      have ho := buildAndSend_outcome I.cp hbs
      have hs := ho.sent
      obtain ⟨hm, hl⟩ := ho.rMac I.cp
      rw [hq] at hsk ⊢
      have hsk' : p1.flags.skipMark = false := hsk
      unfold Sent at hs
      have e1 : p1.flags = { p.flags with hasMark := p1.flags.hasMark } := by rw [hs]
      have e2 : p.flags.skipMark = false := by rw [e1] at hsk'; exact hsk'
      refine ⟨?_, ?_, ?_, ?_, ?_, ?_, ?_, ?_, ?_, ?_, ?_, hl, ?_⟩
      · show p1.flags.pdMode = _; rw [e1]
      · show p1.cmdId = _; rw [hs]
      · show p1.eph = _; rw [hs]
      · show p1.flags.scActive = _; rw [e1]
      · show p1.flags.useScbkd = _; rw [e1]
      · show p1.flags.skipMark = _; rw [e1]
      · show (p1.flags.hasMark && p1.flags.skipMark) = _; rw [hsk', e2]; simp
      · show p1.address = _; rw [hs]
      · rfl
      · show p1.peerRx = _; rw [hs]
      · show p1.hasFlush = _; rw [hs]
      · show p1.sc = { p.sc with cMac := p1.sc.cMac, cpCryptogram := p1.sc.cpCryptogram }
        have e3 : p1.sc = { p.sc with cMac := p1.sc.cMac, rMac := p1.sc.rMac, cpCryptogram := p1.sc.cpCryptogram } := by
          rw [hs]
        rw [hm] at e3
        exact e3
  | more _ h hw ih =>
    rename_i p q op o _
    have I' := ih.inv.step h
    have B' := ih.buf.step ih.inv h
    obtain ⟨p0, env0, p1, o1, g1, g2, g3, gb, g4, g5, g6, g7⟩ := ih.sent
    by_cases hop : ∀ cb env, op ≠ .update cb env
    · have ha := step_apiOnly h hop
      refine ⟨I', B', hw, p0, env0, p1, o1, g1, g2, g3, gb, g4, g5, ?_, ?_⟩
      · rw [show q.seq = p.seq by unfold Api at ha; rw [ha]]; exact g6
      · intro hsk
        exact ha.sameCmd (g7 (by unfold Api at ha; rw [ha] at hsk; exact hsk))
    · obtain ⟨cb, env, rfl⟩ : ∃ cb env, op = .update cb env :=
        Classical.byContradiction fun hn => hop fun cb env he => hn ⟨cb, env, he⟩
      obtain ⟨⟨s1, o2, y⟩, hu, h1⟩ := Res.bind_eq_ok.mp h
      clear h
      injection h1 with h1; injection h1 with e1 e2; subst e1 e2
      have hps := ih.phy
      cases stateUpdate_inv ih.inv.cp hu with
      | hold h _ => rw [hps] at h; cases h
      | sent hm _ => rcases hm with h | ⟨h, -⟩ <;> rw [hps] at h <;> cases h
      | unsent hm _ _ => rcases hm with h | ⟨h, -⟩ <;> rw [hps] at h <;> cases h
      | replied _ hw' _ hse =>
        rcases (settled (waited_mid ih.inv hps hw') hse).2 with h | h <;> rw [h] at hw <;> cases hw
      | again _ hw' => cases hw' <;> cases hw
      | idle h _ => rw [hps] at h; simp at h
      | waiting _ hw' =>
        have hc : Phy.Collected p s1 ∧ s1.phyState = .replyWait := by
          refine ⟨?_, hw⟩
          cases hw' with
          | waiting hr _ => exact hr.collected rfl
        have ht := hc.1.transp
        unfold Phy.Transp Phy.upd Phy.chgOf at ht
        refine ⟨I', B', hw, p0, env0, p1, o1, g1, g2, g3, gb, g4, g5, ?_, ?_⟩
        · rw [hc.1.seq]; exact g6
        · intro hsk
          have hsk' : p.flags.skipMark = false := by rw [ht] at hsk; exact hsk
          have hs := g7 hsk'
          have hp0 : p0.flags.skipMark = false := hs.skipMark.symm.trans hsk'
          refine ⟨?_, ?_, ?_, ?_, ?_, ?_, ?_, ?_, rfl, ?_, ?_, ?_, ?_⟩
          · show s1.flags.pdMode = _; rw [ht]; exact hs.cp
          · show s1.cmdId = _; rw [ht]; exact hs.cmdId
          · show s1.eph = _; rw [hc.1.eph]; exact hs.eph
          · show s1.flags.scActive = _; rw [hc.1.scActive]; exact hs.scActive
          · show s1.flags.useScbkd = _; rw [hc.1.useScbkd]; exact hs.useScbkd
          · show s1.flags.skipMark = _; rw [ht]; exact hs.skipMark
          · show (s1.flags.hasMark && s1.flags.skipMark) = _; rw [hsk, hp0]; simp
          · show s1.address = _; rw [ht]; exact hs.address
          · show s1.peerRx = _; rw [ht]; exact hs.peerRx
          · show s1.hasFlush = _; rw [ht]; exact hs.hasFlush
          · show s1.packetBuf.length = _; rw [B'.buf, gb]
          · show s1.sc = { p0.sc with cMac := s1.sc.cMac, cpCryptogram := s1.sc.cpCryptogram }
            rw [hc.1.sc]; exact hs.sc

/-- the state after BUSY: a packet to be sent again at `t` + 800 ms -/
structure Holds (C : Cipher) (b : List Byte) (t : Int) (st : CpState) (c : Nat) (q : Pd) : Prop where
  phy : q.phyState = .wait
  since : q.phyTstamp = t
  wait : q.waitMs = 800
  state : q.state = st
  cmd : q.cmdId = c
  mark : q.flags.skipMark = false
  sent : ∃ p0 env p1 o, p0.flags.pdMode = false ∧ buildAndSend C p0 env = .ok (p1, o, true) ∧ Spec.Wire.sent o = [b] ∧
    SameCmd p0 q ∧ p0.cmdId ≠ Id.FILETRANSFER

theorem Holds.step {C : Cipher} {b : List Byte} {t : Int} {st : CpState} {c : Nat} {p q : Pd} {op : Op} {o : List Out}
    (H : Holds C b t st c p) (hc : p.flags.pdMode = false) (hop : ∀ cb env, op = .update cb env → env.now < t + 800)
    (h : CpM.step C p op = .ok (q, o)) :
    Holds C b t st c q ∧ Spec.Wire.sent o = [] ∧ NoEvent o := by
  by_cases hu : ∀ cb env, op ≠ .update cb env
  · have ha := step_apiOnly h hu
    have he := (step_api h hu).1
    obtain ⟨p0, env, p1, o1, g1, g2, g3, g4, g5⟩ := H.sent
    have hs : SameCmd p0 q := ha.sameCmd (s := p.seq) g4 |> fun k => by
      have e : q.seq = p.seq := by unfold Api at ha; rw [ha]
      rw [← e] at k
      exact k
    refine ⟨⟨?_, ?_, ?_, ?_, ?_, ?_, p0, env, p1, o1, g1, g2, g3, hs, g5⟩, he, ?_⟩
    · unfold Api at ha; rw [ha]; exact H.phy
    · unfold Api at ha; rw [ha]; exact H.since
    · unfold Api at ha; rw [ha]; exact H.wait
    · unfold Api at ha; rw [ha]; exact H.state
    · unfold Api at ha; rw [ha]; exact H.cmd
    · unfold Api at ha; rw [ha]; exact H.mark
    · cases op with
      | update cb env => exact absurd rfl (hu cb env)
      | send env c =>
        injection h with h; injection h with e1 e2; subst e1 e2
        intro o ho i e hb
        obtain ⟨i, n, h⟩ := sendPd_outs _ ho
        rw [h] at hb; cases hb
      | flush => injection h with h; injection h with e1 e2; subst e1 e2; intro o ho; cases ho
      | flag _ _ => injection h with h; injection h with e1 e2; subst e1 e2; intro o ho; cases ho
      | fileOps => injection h with h; injection h with e1 e2; subst e1 e2; intro o ho; cases ho
      | share => injection h with h; injection h with e1 e2; subst e1 e2; intro o ho; cases ho
  · obtain ⟨cb, env, rfl⟩ : ∃ cb env, op = .update cb env :=
      Classical.byContradiction fun hn => hu fun cb env he => hn ⟨cb, env, he⟩
    have hw := hop cb env rfl
    obtain ⟨⟨s1, o2, y⟩, hu', h1⟩ := Res.bind_eq_ok.mp h
    clear h
    injection h1 with h1; injection h1 with e1 e2; subst e1 e2
    have hlt : env.now - p.phyTstamp < p.waitMs := by rw [H.since, H.wait]; omega
    have hm : ¬ MaySend p env := by
      rintro (h | ⟨-, h⟩)
      · rw [H.phy] at h; cases h
      · exact h hlt
    cases stateUpdate_inv hc hu' with
    | hold _ _ => exact ⟨H, rfl, fun o ho => by cases ho⟩
    | sent h _ => exact absurd h hm
    | unsent h _ _ => exact absurd h hm
    | replied h _ _ _ => rw [H.phy] at h; cases h
    | again h _ => rw [H.phy] at h; cases h
    | waiting h _ => rw [H.phy] at h; cases h
    | idle h _ => rw [H.phy] at h; simp at h

/-- the sequence number is the same the second time -/
theorem nextSeq_again {s : Int} (h1 : -1 ≤ s) (h2 : s ≤ 3) :
    Phy.nextSeq (Phy.nextSeq s true - 1) true = Phy.nextSeq s true := by
  unfold Phy.nextSeq
  simp only [if_true]
  split <;> split <;> omega

/-- the state after a BUSY reply: the number taken back, the reply in the buffer -/
def busied (p : Pd) (h : Phy.Held) (t : Int) : Pd :=
  { Phy.reload { p with seq := p.seq - 1 } h with phyTstamp := t, waitMs := CMD_RETRY_WAIT, phyState := .wait }

/-- what follows a BUSY reply -/
theorem busy_core {C : Cipher} {info : PdM.Info} {b : List Byte} {p : Pd} (ha : Awaits C info b p) (h : Phy.Held) (t : Int)
    (hR : Reached C info (busied p h t)) (hsk : p.flags.skipMark = false) (hf : p.cmdId ≠ Id.FILETRANSFER) :
    ∀ ops r o, (∀ cb e, Op.update cb e ∈ ops → e.now < t + 800) → run C (busied p h t) ops = .ok (r, o) →
        sent o = [] ∧ NoEvent o ∧ r.state = p.state ∧
        ∀ cb e, t + 800 ≤ e.now → 256 ≤ e.sendCap →
          ∃ s o', step C r (.update cb e) = .ok (s, o') ∧ sent o' = [b] ∧ NoEvent o' ∧ s.state = p.state ∧
            Awaits C info b s ∧ s.cmdId = p.cmdId := by
  intro ops r o hops hr
  have P := ha.pended
  obtain ⟨p0, env0, p1, o1, g1, g2, g3, gb, g4, g5, g6, g7⟩ := P.sent
  have B := hR.buffered
  have I := hR.inv
  have hs := g7 hsk
  have H : Holds C b t p.state p.cmdId (busied p h t) := by
    refine ⟨rfl, rfl, rfl, rfl, rfl, hsk, p0, env0, p1, o1, g1, g2, g3, ?_, ?_⟩
    · have hp0 : p0.flags.skipMark = false := hs.skipMark.symm.trans hsk
      refine ⟨hs.cp, hs.cmdId, hs.eph, hs.scActive, hs.useScbkd, hs.skipMark, ?_, hs.address, ?_, hs.peerRx, hs.hasFlush,
        ?_, hs.sc⟩
      · show (_ && p.flags.skipMark) = _; rw [hsk, hp0]; simp
      · show Phy.nextSeq (p.seq - 1) true = _
        rw [g6]; exact nextSeq_again g4 g5
      · exact B.buf.trans gb.symm
    · rw [← show p.cmdId = p0.cmdId from hs.cmdId]; exact hf
  have key : (∀ cb e, Op.update cb e ∈ ops → e.now < t + 800) →
      (Holds C b t p.state p.cmdId r ∧ Inv r) ∧ sent o = [] ∧ NoEvent o := by
    refine run_ind (C := C) (fun ops r o => (∀ cb e, Op.update cb e ∈ ops → e.now < t + 800) →
      (Holds C b t p.state p.cmdId r ∧ Inv r) ∧ sent o = [] ∧ NoEvent o) (fun _ => ⟨⟨H, I⟩, rfl, fun o ho => by cases ho⟩) ?_ hr
    intro ops op r o s o' _ ih h hops
    obtain ⟨⟨H, I⟩, h1, h2⟩ := ih fun cb e he => hops cb e (List.mem_append_left _ he)
    obtain ⟨H', h3, h4⟩ := H.step I.cp (fun cb e he => hops cb e (by rw [he]; simp)) h
    exact ⟨⟨H', I.step h⟩, by rw [sent_append, h1, h3]; rfl, h2.append h4⟩
  obtain ⟨⟨H', I'⟩, h1, h2⟩ := key hops
  refine ⟨h1, h2, H'.state, fun cb e he hcap => ?_⟩
  obtain ⟨p0, env0, p1, o1, g1, g2, g3, g4, g5⟩ := H'.sent
  obtain ⟨s, o', hbs, hse⟩ := resend g4 g1 g5 hcap g2
  have hout := buildAndSend_outcome I'.cp hbs
  have hstep : step C r (.update cb e) = .ok (sentState s e.now, o') := by
    refine step_update (y := false) ?_
    unfold stateUpdate
    rw [if_pos (by unfold phyRunning; rw [H'.phy]; decide)]
    unfold phyUpdate
    rw [H'.phy]
    dsimp only
    rw [if_neg (by rw [H'.since, H'.wait]; omega)]
    unfold phySend
    rw [hbs]
    rfl
  refine ⟨sentState s e.now, o', hstep, hse.trans g3, ?_, ?_, .sent (hR.run hr) hstep (hse.trans g3) rfl, ?_⟩
  · exact hout.noEvent
  · show s.state = _
    rw [← H'.state]
    have := hout.sent
    unfold Sent at this
    rw [this]
  · show s.cmdId = _
    have := hout.sent
    unfold Sent at this
    rw [this]
    exact H'.cmd


/-- Missing from the full statement: a BUSY reply that carries the sequence number of the command (see `C12_numbered`)
or a security block, pieces of files (whose content is read again from the application), a CP built
with `OPT_OSDP_SKIP_MARK_BYTE`, and a BUSY reply behind other bytes (for one in several parts see `C12_parts_partial`).

When a reply BUSY with sequence number 0 arrives while the CP waits for the reply to a packet, nothing is reported.  Whatever
API calls and visits follow within 800 ms, nothing is sent and nothing reported, and the state of the PD stays the same.  The
first visit after that sends the very same packet, and the CP waits for the reply again, so that all of this applies to the
next BUSY, too. -/
theorem C12_partial (C : Cipher) (info : PdM.Info) (b : List Byte) (p : Pd) (k : Packet) (cb : Bool) (env : Env)
    (ha : Awaits C info b p) (hi : Idle p) (hk : FromPd p k) (hb : Unsequenced k) (hv : Arrives env k.bytes)
    (hsk : p.flags.skipMark = false) (hf : p.cmdId ≠ Id.FILETRANSFER) :
    ∃ q, step C p (.update cb env) = .ok (q, []) ∧ q.state = p.state ∧
      ∀ ops r o, (∀ cb e, Op.update cb e ∈ ops → e.now < env.now + 800) → run C q ops = .ok (r, o) →
        sent o = [] ∧ NoEvent o ∧ r.state = p.state ∧
        ∀ cb e, env.now + 800 ≤ e.now → 256 ≤ e.sendCap →
          ∃ s o', step C r (.update cb e) = .ok (s, o') ∧ sent o' = [b] ∧ NoEvent o' ∧ s.state = p.state ∧
            Awaits C info b s ∧ s.cmdId = p.cmdId := by
  have P := ha.pended
  have hc := P.inv.cp
  obtain ⟨t, ht⟩ := checkPacket_busy p k env hc hi hk hb hv
  have hst : step C p (.update cb env) = .ok (busied p (Phy.heldPkt p k t) env.now, []) := by
    refine step_update (y := true) ?_
    unfold stateUpdate
    rw [if_pos (by unfold phyRunning; rw [P.phy]; decide)]
    unfold phyUpdate
    rw [P.phy]
    dsimp only
    unfold phyReply processReply
    rw [ht]
    rfl
  exact ⟨_, hst, rfl, busy_core ha _ _ (ha.reached.step hst) hsk hf⟩

/-! ### BUSY in parts -/

/-- visits in which nothing or a part of a packet came in -/
inductive Collects : Pd → List Env → Pd → Prop
  | nil {p : Pd} : Collects p [] p
  | cons {p p1 q : Pd} {e : Env} {es : List Env} {r : Phy.PktRet} : Phy.checkPacket p e = .ok (p1, r) → r = .wait ∨ r = .noData →
      Collects p1 es q → Collects p (e :: es) q

/-- a packet is complete with the last bytes, not before -/
theorem receive_split {es : List Env} {last : Env} {p q : Pd} {r : Phy.PktRet} (h : Phy.receive p (es ++ [last]) = .ok (q, r, []))
    (hr : ¬ (r = .wait ∨ r = .noData)) (hne : Phy.taken last.recv ≠ []) :
    ∃ p1, Collects p es p1 ∧ Phy.checkPacket p1 last = .ok (q, r) := by
  induction es generalizing p with
  | nil =>
    obtain ⟨⟨q1, r1⟩, h1, h2⟩ := Res.bind_eq_ok.mp h
    dsimp only at h2
    refine ⟨p, .nil, ?_⟩
    by_cases hw : r1 = .wait ∨ r1 = .noData
    · rw [if_pos hw] at h2
      injection h2 with h2; injection h2 with _ h2; injection h2 with e _
      exact absurd (.inl e.symm) hr
    · rw [if_neg hw] at h2
      injection h2 with h2; injection h2 with e1 h2; injection h2 with e2 e3
      have hrx : q1.rx = [] := (List.append_eq_nil_iff.mp e3).1
      have e4 : Phy.setRx q1 [] = q1 := by rw [← hrx]; rfl
      rw [h1, ← e1, ← e2, e4]
  | cons e es ih =>
    obtain ⟨⟨q1, r1⟩, h1, h2⟩ := Res.bind_eq_ok.mp h
    dsimp only at h2
    by_cases hw : r1 = .wait ∨ r1 = .noData
    · rw [if_pos hw] at h2
      obtain ⟨p1, hc, hl⟩ := ih h2
      exact ⟨p1, .cons h1 hw hc, hl⟩
    · rw [if_neg hw] at h2
      injection h2 with h2; injection h2 with e1 h2; injection h2 with e2 e3
      have h4 := (List.append_eq_nil_iff.mp e3).2
      exfalso
      apply hne
      have h5 : Phy.line es ++ Phy.taken last.recv = [] := by
        rw [← h4]
        show _ = Phy.line (es ++ [last])
        simp [Phy.line]
      exact (List.append_eq_nil_iff.mp h5).2

theorem run_append {C : Cipher} {p q r : Pd} {a b : List Op} {o1 o2 : List Out} (h1 : run C p a = .ok (q, o1))
    (h2 : run C q b = .ok (r, o2)) : run C p (a ++ b) = .ok (r, o1 ++ o2) := by
  induction a generalizing p o1 with
  | nil => injection h1 with h1; injection h1 with e1 e2; subst e1 e2; exact h2
  | cons op ops ih =>
    obtain ⟨⟨p1, o3⟩, h3, h1⟩ := Res.bind_eq_ok.mp h1
    obtain ⟨⟨p2, o4⟩, h4, h1⟩ := Res.bind_eq_ok.mp h1
    injection h1 with h1; injection h1 with e1 e2; subst e1 e2
    show (step C p op >>= _) = _
    rw [h3]
    show (run C p1 (ops ++ b) >>= _) = _
    rw [ih h4]
    show Except.ok _ = _
    rw [List.append_assoc]

/-- the CP in these visits -/
theorem Collects.run {C : Cipher} {cb : Bool} {p q : Pd} {es : List Env} (h : Collects p es q) (hp : p.phyState = .replyWait)
    (hpd : p.flags.pdMode = false) (ht : ∀ e ∈ es, e.now - p.phyTstamp ≤ 200) :
    CpM.run C p (es.map fun e => .update cb e) = .ok (q, []) ∧ q.phyState = .replyWait ∧ q.flags.pdMode = false := by
  induction h with
  | nil => exact ⟨rfl, hp, hpd⟩
  | cons h1 hw _ ih =>
    rename_i p p1 q e es r _
    have htr := (Phy.checkPacket_checked h1).transp
    unfold Phy.Transp Phy.upd Phy.chgOf at htr
    have e1 : p1.phyState = p.phyState := by rw [htr]
    have e2 : p1.phyTstamp = p.phyTstamp := by rw [htr]
    have e3 : p1.flags.pdMode = p.flags.pdMode := by rw [htr]
    obtain ⟨i1, i2⟩ := ih (e1.trans hp) (e3.trans hpd) (fun e' he' => by rw [e2]; exact ht e' (List.mem_cons_of_mem _ he'))
    refine ⟨?_, i2⟩
    have hst : step C p (.update cb e) = .ok (p1, []) := by
      refine step_update (y := false) ?_
      have hle := ht e List.mem_cons_self
      have hpr : processReply C p e = .ok (p1, [], .noData) := by
        unfold processReply
        rw [h1]
        rcases hw with rfl | rfl <;> rfl
      unfold stateUpdate
      rw [if_pos (by unfold phyRunning; rw [hp]; decide)]
      unfold phyUpdate
      rw [hp]
      dsimp only
      unfold phyReply
      rw [hpr]
      simp only [Res.ok_bind]
      rw [if_neg (by decide), if_neg (by rintro ⟨h, -⟩; cases h), if_neg (by decide), if_neg (by decide), if_neg (by rw [e2]; show ¬ _ > (200 : Int); omega)]
      rfl
    rw [List.map_cons, CpM.run, hst]
    simp only [Res.ok_bind]
    rw [i1]
    rfl

/-- **C12 in parts.** As `C12_partial`, however the BUSY reply is divided between visits (before the CP gives up waiting). -/
theorem C12_parts_partial (C : Cipher) (info : PdM.Info) (b : List Byte) (p : Pd) (k : Packet) (cb : Bool) (es : List Env) (last : Env)
    (ha : Awaits C info b p) (hi : Idle p) (hk : FromPd p k) (hb : Unsequenced k)
    (h64 : ∀ e ∈ es ++ [last], ∀ c ∈ e.recv, c.length ≤ 64) (hl : Phy.line (es ++ [last]) = k.bytes) (hne : Phy.taken last.recv ≠ [])
    (ht : ∀ e ∈ es, e.now - p.phyTstamp ≤ 200) (hsk : p.flags.skipMark = false) (hf : p.cmdId ≠ Id.FILETRANSFER) :
    ∃ q, run C p ((es ++ [last]).map fun e => .update cb e) = .ok (q, []) ∧ q.state = p.state ∧
      ∀ ops r o, (∀ cb e, Op.update cb e ∈ ops → e.now < last.now + 800) → run C q ops = .ok (r, o) →
        sent o = [] ∧ NoEvent o ∧ r.state = p.state ∧
        ∀ cb e, last.now + 800 ≤ e.now → 256 ≤ e.sendCap →
          ∃ s o', step C r (.update cb e) = .ok (s, o') ∧ sent o' = [b] ∧ NoEvent o' ∧ s.state = p.state ∧
            Awaits C info b s ∧ s.cmdId = p.cmdId := by
  have P := ha.pended
  have hc := P.inv.cp
  have hbody : Phy.bodyFrame p k.frame = .ok ({ p with seq := p.seq - 1 }, .busy) := by
    rw [Phy.bodyFrame_packet p k hk.crc hk.addr]
    unfold Phy.checkSeq
    rw [if_neg (by show ¬ p.flags.pdMode = true; rw [hc]; simp), isBusy_packet k hb]
    rfl
  have hfit : Phy.Fits (es ++ [last]) := by
    intro e he
    refine ⟨h64 e he, ?_⟩
    have hle : (Phy.taken e.recv).length ≤ (Phy.line (es ++ [last])).length := by
      obtain ⟨a, b, hab⟩ := List.append_of_mem he
      rw [hab]
      simp [Phy.line]
      omega
    rw [hl] at hle
    have := hk.len
    omega
  obtain ⟨m1, t, hrec⟩ : ∃ m1 t, Phy.receive p (es ++ [last]) =
      .ok (Phy.reload { p with seq := p.seq - 1 } { Phy.heldLoaded p m1 k.frame [] with rx := [], ts := t }, .busy, []) := by
    obtain ⟨m1, h1⟩ := Phy.receive_frame p k.mark k.frame [] (es ++ [last]) (Phy.frame_wf k hk.len)
      (fun a h => by rw [Phy.frame_cons] at h; cases h; exact hk.dir hc) hi.bufLen hi.len hi.buf hi.rx hfit
      (by rw [hl, Phy.bytes_marked, List.append_nil])
    rw [Phy.packetOutcome_eq hbody] at h1
    cases hr : Phy.receive p (es ++ [last]) with
    | error e => rw [hr] at h1; exact absurd h1 id
    | ok v =>
      rcases v with ⟨q, r', rest'⟩
      rw [hr] at h1
      obtain ⟨e1, e2, e3⟩ := h1
      refine ⟨m1, q.tstamp, ?_⟩
      have := congrArg (fun x => Phy.setTs x q.tstamp) e1
      have e4 : q = Phy.reload { p with seq := p.seq - 1 } { Phy.heldLoaded p m1 k.frame [] with rx := [], ts := q.tstamp } := this
      rw [e2, e3, ← e4]
  obtain ⟨p1, hcol, hlast⟩ := receive_split hrec (by decide) hne
  obtain ⟨hrun, hph, hpd⟩ := hcol.run (C := C) (cb := cb) P.phy hc ht
  have hst : step C p1 (.update cb last) =
      .ok (busied p { Phy.heldLoaded p m1 k.frame [] with rx := [], ts := t } last.now, []) := by
    refine step_update (y := true) ?_
    unfold stateUpdate
    rw [if_pos (by unfold phyRunning; rw [hph]; decide)]
    unfold phyUpdate
    rw [hph]
    dsimp only
    unfold phyReply processReply
    rw [hlast]
    rfl
  have hall : run C p ((es ++ [last]).map fun e => .update cb e) =
      .ok (busied p { Phy.heldLoaded p m1 k.frame [] with rx := [], ts := t } last.now, []) := by
    rw [List.map_append]
    exact run_append hrun (by rw [List.map_cons, List.map_nil, CpM.run, hst]; rfl)
  exact ⟨_, hall, rfl, busy_core ha _ _ (ha.reached.run hall) hsk hf⟩


/-- the reply BUSY with sequence number `s` -/
def busyReply (s : Byte) : Packet := ⟨true, 101#8 ||| 0x80#8, s ||| 4#8, [], [b8 Id.BUSY]⟩

/-- the CP has polled and waits -/
def polling : List Op := Sample.meets [4, 0, 0] ++ [Sample.hears [] 100]

/-- BUSY arrives while the CP waits for the answer to a POLL -/
example : ∃ p b, Awaits xorCipher Sample.pdInfo b p ∧ Idle p ∧ FromPd p (busyReply 0) ∧ Unsequenced (busyReply 0) ∧
    Arrives { now := 150, recv := [(busyReply 0).bytes] } (busyReply 0).bytes ∧ p.flags.skipMark = false ∧
    p.cmdId = Id.POLL ∧ b = [0xFF, 0x53, 101, 8, 0, 6, 0x60, 0x02, 0xF6] := by
  obtain ⟨p0, o, p, o', h1, h2, -, h4⟩ := Sample.ran_step (C := xorCipher) (p := Sample.cp) (ops := polling)
    (op := Sample.hears [] 100) (fun _ => true)
    (fun p o => p.phyState == .replyWait && p.rx == [] && p.packetBufLen == 0 && p.packetLen == 0 && p.address == 101 &&
      !p.flags.skipMark && p.cmdId == Id.POLL && sent o == [[0xFF, 0x53, 101, 8, 0, 6, 0x60, 0x02, 0xF6]])
    (by decide +kernel) (by decide +kernel)
  simp only [Bool.and_eq_true, beq_iff_eq, Bool.not_eq_true'] at h4
  obtain ⟨⟨⟨⟨⟨⟨⟨a1, a2⟩, a3⟩, a4⟩, a5⟩, a6⟩, a7⟩, a8⟩ := h4
  have hr := Sample.cp_reached h1
  exact ⟨p, _, .sent hr h2 a8 a1, ⟨a3, a4, (hr.step h2).buffered.buf, a2⟩, ⟨by decide +kernel, by decide, by decide, .inl (by rw [a5]; decide)⟩,
    ⟨by decide, rfl, rfl⟩, ⟨by decide +kernel, by decide +kernel⟩, a6, a7, rfl⟩

/-- the same BUSY reply in two parts, 20 ms apart, with a visit that hears nothing in between -/
example : ∃ p b, Awaits xorCipher Sample.pdInfo b p ∧ Idle p ∧ FromPd p (busyReply 0) ∧ Unsequenced (busyReply 0) ∧
    (∀ e ∈ [({ now := 150, recv := [(busyReply 0).bytes.take 5] } : Env), { now := 160, recv := [] }] ++
      [{ now := 170, recv := [(busyReply 0).bytes.drop 5] }], ∀ c ∈ e.recv, c.length ≤ 64) ∧
    Phy.line ([({ now := 150, recv := [(busyReply 0).bytes.take 5] } : Env), { now := 160, recv := [] }] ++
      [{ now := 170, recv := [(busyReply 0).bytes.drop 5] }]) = (busyReply 0).bytes ∧
    Phy.taken [(busyReply 0).bytes.drop 5] ≠ [] ∧
    (∀ e ∈ [({ now := 150, recv := [(busyReply 0).bytes.take 5] } : Env), { now := 160, recv := [] }], e.now - p.phyTstamp ≤ 200) ∧
    p.flags.skipMark = false ∧ p.cmdId ≠ Id.FILETRANSFER := by
  obtain ⟨p0, o, p, o', h1, h2, -, h4⟩ := Sample.ran_step (C := xorCipher) (p := Sample.cp) (ops := polling)
    (op := Sample.hears [] 100) (fun _ => true)
    (fun p o => p.phyState == .replyWait && p.rx == [] && p.packetBufLen == 0 && p.packetLen == 0 && p.address == 101 &&
      !p.flags.skipMark && p.cmdId == Id.POLL && p.phyTstamp == 100 && sent o == [[0xFF, 0x53, 101, 8, 0, 6, 0x60, 0x02, 0xF6]])
    (by decide +kernel) (by decide +kernel)
  simp only [Bool.and_eq_true, beq_iff_eq, Bool.not_eq_true'] at h4
  obtain ⟨⟨⟨⟨⟨⟨⟨⟨a1, a2⟩, a3⟩, a4⟩, a5⟩, a6⟩, a7⟩, a9⟩, a8⟩ := h4
  have hr := Sample.cp_reached h1
  refine ⟨p, _, .sent hr h2 a8 a1, ⟨a3, a4, (hr.step h2).buffered.buf, a2⟩, ⟨by decide +kernel, by decide, by decide, .inl (by rw [a5]; decide)⟩,
    ⟨by decide, rfl, rfl⟩, by decide +kernel, by decide +kernel, by decide +kernel, ?_, a6, by rw [a7]; decide⟩
  intro e he
  rw [a9]
  rcases List.mem_cons.mp he with rfl | he
  · decide
  · rcases List.mem_cons.mp he with rfl | he
    · decide
    · cases he

/-- **C12 fails for a BUSY reply that carries the number of the command**: the CP repeats the command with the next
sequence number. -/
theorem C12_numbered : ∃ q o, run xorCipher Sample.cp
      (polling ++ [Sample.hears [] 100, Sample.hears (busyReply 2).bytes 150, Sample.hears [] 950]) = .ok (q, o) ∧
    (sent o).drop 2 = [[0xFF, 0x53, 101, 8, 0, 6, 0x60, 0x02, 0xF6], [0xFF, 0x53, 101, 8, 0, 7, 0x60, 0x33, 0xC5]] := by
  obtain ⟨q, o, h, hp⟩ := Sample.ran (C := xorCipher) (p := Sample.cp)
    (ops := polling ++ [Sample.hears [] 100, Sample.hears (busyReply 2).bytes 150, Sample.hears [] 950])
    (fun _ o => (sent o).drop 2 == [[0xFF, 0x53, 101, 8, 0, 6, 0x60, 0x02, 0xF6], [0xFF, 0x53, 101, 8, 0, 7, 0x60, 0x33, 0xC5]])
    (by decide +kernel)
  exact ⟨q, o, h, by simpa using hp⟩

end Osdp.CpM
