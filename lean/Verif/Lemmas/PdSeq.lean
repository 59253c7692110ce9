import Verif.Lemmas.Body
import Verif.Lemmas.PdRun
import Verif.Lemmas.PdStream
import Verif.Lemmas.PdDeliver
import Verif.Spec.Seq

/-! # Sequence numbers at the PD -/

namespace Osdp.PdM

open Spec.Seq
open Phy (Framed bodyFrame heldFrame)

/-- what sending a reply leaves alone -/
structure Tail (p q : Pd) : Prop where
  seq : q.seq = p.seq
  events : q.eventQueue = p.eventQueue
  peerRx : q.peerRx = p.peerRx
  cap : q.cap = p.cap
  cmdId : q.cmdId = p.cmdId
  replyId : q.replyId = p.replyId
  poolCap : q.poolCap = p.poolCap
  eph : q.eph = p.eph

theorem Tail.trans {p q s : Pd} (h : Tail p q) (h' : Tail q s) : Tail p s :=
  ⟨h'.seq.trans h.seq, h'.events.trans h.events, h'.peerRx.trans h.peerRx, h'.cap.trans h.cap, h'.cmdId.trans h.cmdId,
    h'.replyId.trans h.replyId, h'.poolCap.trans h.poolCap, h'.eph.trans h.eph⟩

theorem finished_tail {C : Cipher} {p q : Pd} {env : Env} {ret : PdRet} {outs : List Out}
    (h : Finished C p env ret q outs) : Tail p q := by
  cases h with
  | keep _ => exact ⟨rfl, rfl, rfl, rfl, rfl, rfl, rfl, rfl⟩
  | reset _ => exact ⟨rfl, rfl, rfl, rfl, rfl, rfl, rfl, rfl⟩
  | @reply q1 _ outs' ok _ hs ha =>
    have h1 : Tail p (touch p ret env.now) := by
      unfold touch; split <;> exact ⟨rfl, rfl, rfl, rfl, rfl, rfl, rfl, rfl⟩
    have h3 : Tail q1 q := by
      rcases afterSend_inv ha with ⟨rfl, -⟩ | ⟨-, -, -, k, -, rfl⟩ <;> exact ⟨rfl, rfl, rfl, rfl, rfl, rfl, rfl, rfl⟩
    refine (h1.trans ?_).trans h3
    cases hs with
    | mute _ => exact ⟨rfl, rfl, rfl, rfl, rfl, rfl, rfl, rfl⟩
    | built b _ o ok hb hbo hh hsend hc hl =>
      have h4 : Tail (touch p ret env.now) b.p := by
        cases hbo with
        | rmac sc ok _ _ _ _ => cases ok <;> exact ⟨rfl, rfl, rfl, rfl, rfl, rfl, rfl, rfl⟩
        | _ => exact ⟨rfl, rfl, rfl, rfl, rfl, rfl, rfl, rfl⟩
      refine h4.trans ?_
      unfold Phy.Sending at hsend
      rw [hsend]
      exact ⟨rfl, rfl, rfl, rfl, rfl, rfl, rfl, rfl⟩

/-- the verdict on a packet, unfolded for a PD -/
theorem bodyFrame_pd {p q : Pd} {f : List Byte} {r : Phy.PktRet} (hp : p.flags.pdMode = true)
    (h : bodyFrame p f = .ok (q, r)) (hr : r = .none ∨ r = .nack) :
    ∃ a ctl, f[1]? = some a ∧ f[4]? = some ctl ∧
      (q, r) = Phy.seqVerdict (Phy.pdSeqAdvance (Phy.pdSeqPrep p (ctl.toNat % 4) ((a &&& 0x7F#8).toNat == 0x7F))) (ctl.toNat % 4) := by
  unfold Phy.bodyFrame at h
  obtain ⟨⟨m, ok⟩, h1, h⟩ := Res.bind_eq_ok.mp h
  dsimp only at h
  split at h
  · injection h with h; injection h with _ h; subst h; simp at hr
  obtain ⟨a, h2, h⟩ := Res.bind_eq_ok.mp h
  split at h
  · injection h with h; injection h with _ h; subst h
    have : p.isCp = false := by unfold Pd.isCp; rw [hp]; rfl
    rw [this] at hr; simp at hr
  obtain ⟨ctl, h4, h⟩ := Res.bind_eq_ok.mp h
  unfold Phy.checkSeq at h
  rw [if_pos (show p.isPd = true from hp), Phy.and3] at h
  injection h with h
  exact ⟨a, ctl, rd_some h2, rd_some h4, h.symm⟩

/-- the counter after a packet with sequence number `s` -/
theorem seq_verdict {p q : Pd} {s : Nat} {bc : Bool} {r : Phy.PktRet} (hs : s < 4) (hr : -1 ≤ p.seq ∧ p.seq ≤ 3)
    (h : (q, r) = Phy.seqVerdict (Phy.pdSeqAdvance (Phy.pdSeqPrep p s bc)) s) :
    (-1 ≤ q.seq ∧ q.seq ≤ 3) ∧
    (Acceptable p.seq s → r = .none ∧ q.seq = s) ∧
    (¬ Acceptable p.seq s → p.flags.skipSeqCheck = false → r = .nack) := by
  have e1 : (Phy.pdSeqPrep p s bc).seq = if s = 0 then -1 else if (s : Int) = p.seq then p.seq - 1 else p.seq := by
    unfold Phy.pdSeqPrep Pd.scDeactivate
    dsimp only
    split <;> split <;> (try split) <;> rfl
  have e2 : (Phy.pdSeqPrep p s bc).flags.skipSeqCheck = p.flags.skipSeqCheck := by
    unfold Phy.pdSeqPrep Pd.scDeactivate
    dsimp only
    split <;> split <;> (try split) <;> rfl
  have e3 : (Phy.pdSeqAdvance (Phy.pdSeqPrep p s bc)).seq = Phy.nextSeq (Phy.pdSeqPrep p s bc).seq true := rfl
  have e4 : (Phy.pdSeqAdvance (Phy.pdSeqPrep p s bc)).flags.skipSeqCheck = p.flags.skipSeqCheck := e2
  rw [e1] at e3
  generalize Phy.pdSeqAdvance (Phy.pdSeqPrep p s bc) = a at h e3 e4
  unfold Phy.nextSeq at e3
  rw [if_pos rfl] at e3
  have hq : q.seq = a.seq ∧ (r = .none ↔ ¬ (Phy.seqBits a.seq ≠ s ∧ ¬ a.flags.skipSeqCheck = true)) ∧ (r = .none ∨ r = .nack) := by
    unfold Phy.seqVerdict at h
    split at h
    · rename_i hc
      injection h with h1 h2; subst h1 h2
      exact ⟨rfl, ⟨fun h => (nomatch h), fun h => absurd hc h⟩, .inr rfl⟩
    · rename_i hc
      injection h with h1 h2; subst h1 h2
      exact ⟨rfl, ⟨fun _ => hc, fun _ => rfl⟩, .inl rfl⟩
  obtain ⟨q1, q2, q3⟩ := hq
  have e5 : Phy.seqBits a.seq = (a.seq % 4).toNat := rfl
  rw [e5] at q2
  unfold Acceptable succ
  refine ⟨?_, ?_, ?_⟩
  · rw [q1, e3]
    split <;> (split <;> (try split) <;> omega)
  · intro ha
    have : a.seq = s := by
      rw [e3]
      by_cases h0 : s = 0
      · subst h0; simp
      · rw [if_neg h0]
        by_cases h1 : (s : Int) = p.seq
        · rw [if_pos h1, if_neg (by omega)]; omega
        · rw [if_neg h1]
          rcases ha with h | h | h
          · exact absurd h h0
          · exact absurd h h1
          · split at h <;> (split <;> omega)
    refine ⟨q2.mpr ?_, q1.trans this⟩
    rw [this]
    omega
  · intro ha hsk
    rcases q3 with h | h
    · have := q2.mp h
      rw [e4, hsk] at this
      exfalso
      apply ha
      have : (a.seq % 4).toNat = s := by simpa using this
      rw [e3] at this
      by_cases h0 : s = 0
      · exact .inl h0
      · rw [if_neg h0] at this
        by_cases h1 : (s : Int) = p.seq
        · exact .inr (.inl h1)
        · rw [if_neg h1] at this
          refine .inr (.inr ?_)
          split
          · split at this <;> omega
          · split at this <;> omega
    · exact h

theorem outcome_seq {p q : Pd} {env : Env} {bd : List Byte} {o : List Out} {r : PdRet} (ho : Outcome p env bd q o r) :
    q.seq = p.seq := by
  cases ho with
  | plain hpl _ => obtain ⟨_, _, h⟩ := hpl.quiet; subst h; rfl
  | poll _ _ => unfold pollEvent; split <;> rfl
  | file _ _ => split <;> rfl
  | _ => rfl

/-- The sequence counter of a PD after one refresh. -/
theorem refresh_seq {C : Cipher} {p q : Pd} {env : Env} {outs : List Out} (hp : p.flags.pdMode = true) (hf : Framed p)
    (hr : -1 ≤ p.seq ∧ p.seq ≤ 3) (h : refresh C p env = .ok (q, outs)) : -1 ≤ q.seq ∧ q.seq ≤ 3 := by
  obtain ⟨p1, o1, ret, o2, hg, hp1, hfin, rfl⟩ := refresh_inv hp h
  rw [(finished_tail hfin).seq]
  obtain ⟨hk, -⟩ := expire_kept p env.now
  have hse : (expire p env.now).seq = p.seq := by unfold expire; split <;> rfl
  have key : ∀ {p2 : Pd} {r : Phy.PktRet}, Phy.checkPacket (expire p env.now) env = .ok (p2, r) → r = .none ∨ r = .nack →
      -1 ≤ p2.seq ∧ p2.seq ≤ 3 := by
    intro p2 r hc hr'
    obtain ⟨p3, hcol, hb⟩ := Phy.checkPacket_body (hk.framed hf) hc (by rcases hr' with h | h <;> simp [h])
    obtain ⟨a, ctl, -, -, hv⟩ := bodyFrame_pd ((hcol.transp.pdMode.trans hk.pdMode).trans hp) hb hr'
    exact (seq_verdict (by omega) (by rw [hcol.seq, hse]; exact hr) hv).1
  cases hg with
  | nothing _ hc _ => rw [hc.seq, hse]; exact hr
  | skip _ hc => rw [show (Phy.stateReset _ false).1.seq = _ from hc.seq, hse]; exact hr
  | seq hc _ => exact key hc (.inr rfl)
  | refused hc _ _ hd _ => rw [hd.seq]; exact key hc (.inl rfl)
  | insecure hc _ _ hd _ _ _ => rw [show (Phy.setNak (noteCmd _ _) _).seq = _ from hd.seq]; exact key hc (.inl rfl)
  | command hc _ _ hd _ _ _ _ _ _ hout =>
    rw [outcome_seq hout, show (noteCmd _ _).seq = _ from hd.seq]; exact key hc (.inl rfl)

end Osdp.PdM

namespace Osdp.PdM

open Spec.Seq Spec.Wire
open Phy (Framed bodyFrame heldFrame)

/-- a state a PD application can get its PD into: `osdp_pd_setup`, then any API calls and received bytes -/
def Reached (C : Cipher) (info : Info) (q : Pd) : Prop :=
  ∃ skipMark n p ops outs, setup info skipMark n = some p ∧ run C p ops = .ok (q, outs)

theorem Reached.step {C : Cipher} {info : Info} {p q : Pd} {op : Op} {outs : List Out} (h : Reached C info p)
    (hs : step C p op = .ok (q, outs)) : Reached C info q := by
  obtain ⟨sk, n, p0, ops, o, h0, h1⟩ := h
  refine ⟨sk, n, p0, ops ++ [op], o ++ outs, h0, ?_⟩
  clear h0
  induction ops generalizing p0 o with
  | nil =>
    injection h1 with h1; injection h1 with e1 e2; subst e1 e2
    show run C p0 [op] = _
    unfold run
    rw [hs]
    simp only [Res.ok_bind, run]
    show Except.ok (q, outs ++ []) = _
    rw [List.append_nil, List.nil_append]
  | cons a l ih =>
    obtain ⟨⟨p1, o1⟩, h2, h1⟩ := Res.bind_eq_ok.mp h1
    obtain ⟨⟨p2, o2⟩, h3, h1⟩ := Res.bind_eq_ok.mp h1
    injection h1 with h1; injection h1 with e1 e2; subst e1 e2
    rw [List.cons_append]
    unfold run
    rw [h2]
    simp only [Res.ok_bind]
    rw [ih p1 o2 h3]
    show Except.ok _ = Except.ok _
    rw [List.append_assoc]

theorem Reached.refresh {C : Cipher} {info : Info} {p q : Pd} {env : Env} {outs : List Out} (h : Reached C info p)
    (hs : refresh C p env = .ok (q, outs)) : Reached C info q := h.step (op := .refresh env) hs

/-- Invariants may be proved by looking at the calls one by one. -/
theorem Reached.ind {C : Cipher} {info : Info} (I : Pd → Prop)
    (h0 : ∀ sk n p, setup info sk n = some p → I p)
    (hstep : ∀ p op q outs, Reached C info p → I p → PdM.step C p op = .ok (q, outs) → I q) {q : Pd} (h : Reached C info q) : I q := by
  obtain ⟨sk, n, p, ops, o, hs, hr⟩ := h
  have hI := h0 sk n p hs
  have hR : Reached C info p := ⟨sk, n, p, [], [], hs, rfl⟩
  exact (run_inv (C := C) (ops := ops) (fun p => Reached C info p ∧ I p) (fun _ => True)
    (fun p op q outs _ hp h => ⟨⟨hp.1.step h, hstep p op q outs hp.1 hp.2 h⟩, fun _ _ => trivial⟩) ⟨hR, hI⟩ hr).1.2

theorem Reached.pdMode {C : Cipher} {info : Info} {q : Pd} (h : Reached C info q) : q.flags.pdMode = true :=
  h.ind (fun p => p.flags.pdMode = true) (fun _ _ _ => setup_pdMode) fun _ _ _ _ _ hp hs => step_pdMode hp hs

/-- the configuration flags, as given at set-up -/
theorem Reached.flags {C : Cipher} {info : Info} {q : Pd} (h : Reached C info q) :
    q.flags.enforceSecure = info.enforceSecure ∧ q.flags.skipSeqCheck = false ∧ q.flags.scCapable = true ∧
    q.flags.scDisabled = false ∧ q.flags.allowEmpty = info.allowEmpty ∧ q.hasFlush = info.hasFlush := by
  refine h.ind (fun q => q.flags.enforceSecure = info.enforceSecure ∧ q.flags.skipSeqCheck = false ∧ q.flags.scCapable = true ∧
    q.flags.scDisabled = false ∧ q.flags.allowEmpty = info.allowEmpty ∧ q.hasFlush = info.hasFlush) ?_ ?_
  · intro sk n p hs
    unfold setup at hs
    split at hs
    · cases hs
    · injection hs with hs; subst hs; exact ⟨rfl, rfl, rfl, rfl, rfl, rfl⟩
  · intro p op q outs hr hp hs
    cases op with
    | refresh env =>
      have e := config_refresh hr.pdMode hs
      exact ⟨(congrArg Config.enforceSecure e).trans hp.1, (congrArg Config.skipSeqCheck e).trans hp.2.1,
        (congrArg Config.scCapable e).trans hp.2.2.1, (congrArg Config.scDisabled e).trans hp.2.2.2.1,
        (congrArg Config.allowEmpty e).trans hp.2.2.2.2.1, (congrArg Config.hasFlush e).trans hp.2.2.2.2.2⟩
    | notify e =>
      injection hs with h; injection h with e1 e2; subst e1
      unfold notifyEvent; split <;> exact hp
    | flush => injection hs with h; injection h with e1 e2; subst e1; exact hp
    | setCaps l => injection hs with h; injection h with e1 e2; subst e1; exact hp
    | fileOps => injection hs with h; injection h with e1 e2; subst e1; exact hp

/-- what a refused command must leave alone -/
structure Untouched (p q : Pd) : Prop where
  events : q.eventQueue = p.eventQueue
  key : q.sc.scbk = p.sc.scbk
  address : q.address = p.address
  baudRate : q.baudRate = p.baudRate
  file : q.file = p.file
  peerRx : q.peerRx = p.peerRx
  installMode : q.flags.installMode = p.flags.installMode

theorem Untouched.refl (p : Pd) : Untouched p p := ⟨rfl, rfl, rfl, rfl, rfl, rfl, rfl⟩

theorem Untouched.trans {p q s : Pd} (h : Untouched p q) (h' : Untouched q s) : Untouched p s :=
  ⟨h'.events.trans h.events, h'.key.trans h.key, h'.address.trans h.address, h'.baudRate.trans h.baudRate, h'.file.trans h.file,
    h'.peerRx.trans h.peerRx, h'.installMode.trans h.installMode⟩

theorem transp_untouched {p q : Pd} (h : Phy.Transp p q) : Untouched p q := by
  unfold Phy.Transp at h
  rw [h]; exact ⟨rfl, rfl, rfl, rfl, rfl, rfl, rfl⟩

theorem touch_fields (p : Pd) (ret : PdRet) (now : Int) : Untouched p (touch p ret now) ∧ (touch p ret now).replyId = p.replyId ∧
    (touch p ret now).cmdId = p.cmdId ∧ (touch p ret now).eph = p.eph ∧ (touch p ret now).seq = p.seq ∧
    (touch p ret now).flags = p.flags ∧ (touch p ret now).sc = p.sc := by
  unfold touch; split <;> exact ⟨⟨rfl, rfl, rfl, rfl, rfl, rfl, rfl⟩, rfl, rfl, rfl, rfl, rfl, rfl⟩

theorem expire_fields (p : Pd) (now : Int) : Untouched p (expire p now) ∧ (expire p now).replyId = p.replyId ∧
    (expire p now).cmdId = p.cmdId ∧ (expire p now).eph = p.eph ∧ (expire p now).seq = p.seq ∧ (expire p now).sc = p.sc ∧
    (expire p now).flags.useScbkd = p.flags.useScbkd ∧ (expire p now).flags.broadcast = p.flags.broadcast := by
  unfold expire; split <;> exact ⟨⟨rfl, rfl, rfl, rfl, rfl, rfl, rfl⟩, rfl, rfl, rfl, rfl, rfl, rfl, rfl⟩

/-- a reply that is not one of the five with side effects has none -/
theorem body_same {C : Cipher} {p : Pd} {env : Env} {t : Phy.Tx} {b : Built} (h : BodyOutcome C p env t b)
    (hid : p.replyId ≠ Id.COM ∧ p.replyId ≠ Id.FTSTAT ∧ p.replyId ≠ Id.CCRYPT ∧ p.replyId ≠ Id.RMAC_I) :
    b.p = p ∧ b.t = t ∧ b.outs = [] := by
  cases h with
  | same _ => exact ⟨rfl, rfl, rfl⟩
  | com _ h _ => exact absurd h hid.1
  | ftstat _ _ _ _ h _ => exact absurd h hid.2.1
  | ccrypt _ h _ _ => exact absurd h hid.2.2.1
  | rmac _ _ h _ _ _ => exact absurd h hid.2.2.2

/-- sending a NAK has no other effect -/
theorem finished_nak {C : Cipher} {p q : Pd} {env : Env} {ret : PdRet} {outs : List Out}
    (h : Finished C p env ret q outs) (hid : p.replyId = Id.NAK) :
    Untouched p q ∧ (∀ o ∈ outs, o = .flush ∨ ∃ bs, o = .send bs) := by
  cases h with
  | keep _ => exact ⟨.refl _, by simp⟩
  | reset _ => exact ⟨⟨rfl, rfl, rfl, rfl, rfl, rfl, rfl⟩, by simp⟩
  | @reply q1 _ outs' ok _ hs ha =>
    obtain ⟨t1, t2, t3, -⟩ := touch_fields p ret env.now
    have ht := t2.trans hid
    have key : Untouched (touch p ret env.now) q1 ∧ q1.replyId = Id.NAK ∧ (∀ o ∈ outs, o = .flush ∨ ∃ bs, o = .send bs) := by
      cases hs with
      | mute _ => exact ⟨.refl _, ht, by simp⟩
      | built b _ o ok hb hbo hh hsend hc hl =>
        obtain ⟨e1, e2, e3⟩ := body_same hbo (by
          show (touch p ret env.now).replyId ≠ _ ∧ (touch p ret env.now).replyId ≠ _ ∧ (touch p ret env.now).replyId ≠ _ ∧
            (touch p ret env.now).replyId ≠ _
          rw [ht]; decide)
        unfold Phy.Sending at hsend
        rw [e1] at hsend
        refine ⟨?_, ?_, ?_⟩
        · rw [hsend]; exact ⟨rfl, rfl, rfl, rfl, rfl, rfl, rfl⟩
        · rw [hsend]; exact ht
        · rw [e3, List.nil_append]
          rcases hc with ⟨rfl, -⟩ | ⟨w, q', -, -, -, rfl, -⟩
          · simp
          · unfold Phy.sendOuts
            intro x hx
            split at hx <;> simp at hx
            · rcases hx with rfl | rfl
              · exact .inl rfl
              · exact .inr ⟨_, rfl⟩
            · subst hx; exact .inr ⟨_, rfl⟩
    refine ⟨t1.trans (key.1.trans ?_), key.2.2⟩
    rcases afterSend_inv ha with ⟨rfl, -⟩ | ⟨-, -, h, -⟩
    · exact ⟨rfl, rfl, rfl, rfl, rfl, rfl, rfl⟩
    · rw [key.2.1] at h; exact absurd h (by decide)

end Osdp.PdM
