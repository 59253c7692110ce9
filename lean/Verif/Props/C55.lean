import Verif.Lemmas.CpOut
import Verif.Lemmas.SampleCp
import Verif.Props.C15

/-!
# C55: offline back-off
-/

namespace Osdp.CpM

open Spec.Wire
open Phy (sendOuts)

/-- going offline starts the back-off -/
theorem advance_offline {cb : Bool} {p q : Pd} {env : Env} {ok : Bool} {outs : List Out}
    (h : advance cb p env p.state ok = .ok (q, outs)) (hp : p.state ≠ .offline) (hq : q.state = .offline) :
    q.tstamp = env.now ∧ q.waitMs = 300000 := by
  have hs := advance_state h
  cases advance_inv h with
  | mk h1 h2 =>
  rename_i p1 p2 o1 o2 n1 n2
  have hst : p2.state = p.state := by
    rw [(requests_drift h2).2.1]
    cases ok with
    | true => exact (nextOk_drift h1).2.1
    | false => exact (nextErr_drift h1).2.1
  split at hq
  · rename_i hc
    rw [(stateChange_drift cb p2 env n2).2.1] at hq
    subst hq
    rw [if_pos hc]
    exact ⟨rfl, rfl⟩
  · rw [hst] at hq; exact absurd hq hp

theorem settle_offline {cb : Bool} {p q : Pd} {env : Env} {outs : List Out} (M : Mid p)
    (h : settle cb p env = .ok (q, outs)) (hp : p.state ≠ .offline) (hq : q.state = .offline) :
    q.tstamp = env.now ∧ q.waitMs = 300000 := by
  rcases settle_pre M h with ⟨-, h, -⟩ | ⟨p1, o1, o2, ok, -, h1, -, h2, -, -⟩
  · rw [h] at hq; exact absurd hq hp
  · exact advance_offline h2 (by rw [h1]; exact hp) hq

/-- the PD object while the CP waits, until `t` -/
structure Backoff (p : Pd) (t : Int) : Prop where
  state : p.state = .offline
  deadline : p.tstamp + p.waitMs = t

theorem Inv.offlineIdle {p : Pd} (I : Inv p) (h : p.state = .offline) : p.phyState = .idle := by
  refine Decidable.not_not.mp fun hn => ?_
  have := I.cmd hn
  rw [h] at this
  exact this

/-- a visit while offline, as an equation -/
theorem offline_eq (C : Cipher) (cb : Bool) (p : Pd) (env : Env) (hs : p.state = .offline) (hi : p.phyState = .idle) :
    stateUpdate C cb p env = .ok (if p.waitMs < env.now - p.tstamp then
      ({ (Phy.stateReset { p with cmdId := 0 } true).1 with state := .init }, (Phy.stateReset { p with cmdId := 0 } true).2, true)
      else ({ p with cmdId := 0 }, [], true)) := by
  have hg : stateGetCmd p env = .ok (p, [], 0) := by unfold stateGetCmd; rw [hs]
  have hn : nextOk cb { p with cmdId := 0 } env.now = .ok ({ p with cmdId := 0 }, [],
      if p.waitMs < env.now - p.tstamp then .init else .offline) := by
    unfold nextOk; dsimp only; rw [hs]
  rw [update_idle C cb p env hi, settle_nothing hi hg, advance_ok hn (by simp [hs]) (by split <;> simp)]
  rw [hs]
  simp only [Res.ok_bind]
  by_cases ht : p.waitMs < env.now - p.tstamp
  · rw [if_pos ht, if_pos ht, if_pos (by simp)]; rfl
  · rw [if_neg ht, if_neg ht, if_neg (by simp)]; rfl

/-- the configuration of the connection -/
structure SameLine (p q : Pd) : Prop where
  address : q.address = p.address
  peerRx : q.peerRx = p.peerRx
  hasMark : q.flags.hasMark = p.flags.hasMark
  skipMark : q.flags.skipMark = p.flags.skipMark

theorem SameLine.trans {p q s : Pd} (h : SameLine p q) (h' : SameLine q s) : SameLine p s :=
  ⟨h'.1.trans h.1, h'.2.trans h.2, h'.3.trans h.3, h'.4.trans h.4⟩

/-- a visit while offline -/
theorem offline_update {C : Cipher} {cb : Bool} {p q : Pd} {env : Env} {outs : List Out} {y : Bool} (I : Inv p)
    (hs : p.state = .offline) (h : stateUpdate C cb p env = .ok (q, outs, y)) :
    sent outs = [] ∧ SameLine p q ∧
    (env.now - p.tstamp ≤ p.waitMs ∧ q.state = .offline ∧ q.tstamp = p.tstamp ∧ q.waitMs = p.waitMs ∨
     p.waitMs < env.now - p.tstamp ∧ q.state = .init ∧ q.seq = -1 ∧ q.phyState = .idle ∧ q.retryCount = 0) := by
  rw [offline_eq C cb p env hs (I.offlineIdle hs)] at h
  by_cases ht : p.waitMs < env.now - p.tstamp
  · rw [if_pos ht] at h
    injection h with h; injection h with e1 h; injection h with e2 e3; subst e1 e2
    refine ⟨?_, ⟨rfl, rfl, rfl, rfl⟩, .inr ⟨ht, rfl, rfl, rfl, rfl⟩⟩
    unfold Phy.stateReset
    dsimp only
    cases p.hasFlush <;> rfl
  · rw [if_neg ht] at h
    injection h with h; injection h with e1 h; injection h with e2 e3; subst e1 e2
    exact ⟨rfl, ⟨rfl, rfl, rfl, rfl⟩, .inl ⟨by omega, hs, rfl, rfl⟩⟩

/-- what holds until the deadline -/
theorem backoff_run {C : Cipher} {p q : Pd} {ops : List Op} {o : List Out} {t : Int} (I : Inv p) (B : Buffered p) (hb : Backoff p t)
    (hops : ∀ cb e, Op.update cb e ∈ ops → e.now ≤ t) (h : run C p ops = .ok (q, o)) :
    sent o = [] ∧ Inv q ∧ Backoff q t ∧ SameLine p q ∧ Buffered q := by
  have key := run_ind (C := C) (p := p)
    (fun ops q o => (∀ cb e, Op.update cb e ∈ ops → e.now ≤ t) → sent o = [] ∧ Inv q ∧ Backoff q t ∧ SameLine p q ∧ Buffered q)
    (fun _ => ⟨rfl, I, hb, ⟨rfl, rfl, rfl, rfl⟩, B⟩) (fun ops op r o s o' _ ih hs hall => ?_) h
  · exact key hops
  obtain ⟨h1, h2, h3, h4, h5⟩ := ih fun cb e he => hall cb e (List.mem_append_left _ he)
  rw [sent_append, h1, List.nil_append]
  by_cases hop : ∃ cb e, op = .update cb e
  · obtain ⟨cb, e, rfl⟩ := hop
    have ht := hall cb e (List.mem_append_right _ List.mem_cons_self)
    have hI := h2.step hs
    have hB := h5.step h2 hs
    obtain ⟨⟨p1, o1, y⟩, hu, hs⟩ := Res.bind_eq_ok.mp hs
    injection hs with hs; injection hs with e1 e2; subst e1 e2
    obtain ⟨u1, u2, u3⟩ := offline_update h2 h3.state hu
    have hd := h3.deadline
    rcases u3 with ⟨-, a, b, c⟩ | ⟨a, -⟩
    · exact ⟨u1, hI, ⟨a, by rw [b, c]; exact hd⟩, h4.trans u2, hB⟩
    · omega
  · have hI := h2.step hs
    have hB := h5.step h2 hs
    obtain ⟨a1, a2, -, -, a5, a6, a7, -, -, -, a8, a9, a10⟩ := step_api hs fun cb e he => hop ⟨cb, e, he⟩
    exact ⟨a1, hI, ⟨a2.trans h3.state, by rw [a5, a6]; exact h3.deadline⟩, h4.trans ⟨a7, a8, a9, a10⟩, hB⟩

/-- a visit makes the PD offline -/
structure GoesOffline (C : Cipher) (p q : Pd) (now : Int) : Prop where
  before : p.state ≠ .offline
  after : q.state = .offline
  visit : ∃ cb env o, env.now = now ∧ step C p (.update cb env) = .ok (q, o)

theorem GoesOffline.backoff {C : Cipher} {info : PdM.Info} {p q : Pd} {t : Int} (hp : Reached C info p) (h : GoesOffline C p q t) :
    Inv q ∧ Buffered q ∧ Backoff q (t + 300000) := by
  obtain ⟨cb, env, o, rfl, hs⟩ := h.visit
  refine ⟨hp.inv.step hs, hp.buffered.step hp.inv hs, h.after, ?_⟩
  obtain ⟨⟨p1, o1, y⟩, hu, hs⟩ := Res.bind_eq_ok.mp hs
  injection hs with hs; injection hs with e1 e2; subst e1 e2
  have hU := stateUpdate_inv hp.inv.cp hu
  rcases hU.split hp.inv with ⟨k, -⟩ | ⟨p2, o1, o2, M, k, -, -, hset, -, -⟩
  · have := h.after; rw [k] at this; exact absurd this h.before
  · obtain ⟨e1, e2⟩ := settle_offline M hset (by rw [k]; exact h.before) h.after
    rw [e1, e2]; rfl

/-- **C55, silence.**  A PD in any state it can get into goes offline at time `t`.  Whatever happens then (commands and other
API calls, and visits by `osdp_cp_refresh` at times up to `t` + 300 s, in any order), nothing is sent to it and it stays
offline. -/
theorem C55_silent (C : Cipher) (info : PdM.Info) (p q r : Pd) (t : Int) (ops : List Op) (o : List Out)
    (hp : Reached C info p) (hoff : GoesOffline C p q t) (hops : ∀ cb e, Op.update cb e ∈ ops → e.now ≤ t + 300000)
    (h : run C q ops = .ok (r, o)) : sent o = [] ∧ r.state = .offline := by
  obtain ⟨I, hb, B⟩ := hoff.backoff hp
  obtain ⟨h1, -, h2, -⟩ := backoff_run I hb B hops h
  exact ⟨h1, h2.state⟩

/-- nothing has been sent since communication was to be (re)started -/
def Fresh (p : Pd) : Prop := p.state = .offline ∨ p.state = .init ∧ p.seq = -1 ∧ (p.phyState = .idle ∨ p.phyState = .sendCmd)

/-- the ID command with sequence number 0, for address `a` -/
def restartPacket (mark : Bool) (a : Int) : Packet := ⟨mark, i8 a &&& 0x7F#8, 0x04#8, [], [0x61#8, 0x00#8]⟩

theorem fresh_update {C : Cipher} {cb : Bool} {p q : Pd} {env : Env} {outs : List Out} {y : Bool} (I : Inv p) (F : Fresh p)
    (h : stateUpdate C cb p env = .ok (q, outs, y)) :
    (sent outs = [] ∧ Fresh q ∧ q.address = p.address) ∨
    ∃ m, sent outs = [(restartPacket m p.address).bytes.take env.sendCap] := by
  rcases F with hs | ⟨hs, hseq, hps⟩
  · obtain ⟨u1, u2, u3⟩ := offline_update I hs h
    rcases u3 with ⟨-, a, -⟩ | ⟨-, a, b, c, -⟩
    · exact .inl ⟨u1, .inl a, u2.address⟩
    · exact .inl ⟨u1, .inr ⟨a, b, .inl c⟩, u2.address⟩
  have hU := stateUpdate_inv I.cp h
  have ha : p.flags.scActive = false := by
    cases ha : p.flags.scActive with
    | false => rfl
    | true => rcases I.secure ha with h | h <;> rw [hs] at h <;> cases h
  have hid : p.phyState = .sendCmd → p.cmdId = Id.ID := by
    intro h
    have := I.cmd (by rw [h]; simp)
    rw [hs] at this
    exact this
  have hout : ∀ {p1 : Pd} {o : List Out} {ok : Bool}, MaySend p env → SendOutcome C p env p1 o ok →
      (sent o = [] ∧ ok = false) ∨ ∃ m, sent o = [(restartPacket m p.address).bytes.take env.sendCap] := by
    intro p1 o ok hm h
    have hc : p.cmdId = Id.ID := by
      rcases hm with h | ⟨h, -⟩
      · exact hid h
      · rcases hps with h' | h' <;> rw [h] at h' <;> cases h'
    rcases h.plain ha (by rw [hc]; rfl) with h | ⟨b, l, hb, hl, h1, -⟩
    · exact .inl h
    · have hn : (nextCmd p).cmdId = Id.ID := hc
      unfold commandBody at hb
      dsimp only at hb
      rw [hn, if_neg (by decide), if_pos (by decide)] at hb
      obtain ⟨u, -, hb⟩ := Res.bind_eq_ok.mp hb
      injection hb with hb; subst hb
      injection hl with hl; subst hl
      have e : plainCmd p [b8 Id.ID, 0#8] = restartPacket (!p.flags.skipMark) p.address := by
        unfold plainCmd restartPacket
        rw [hseq]; rfl
      rw [e] at h1
      exact .inr ⟨_, h1⟩
  cases hU with
  | hold hx _ => rcases hps with h' | h' <;> rw [hx] at h' <;> cases h'
  | sent hm hsn =>
    rcases hout hm hsn with ⟨-, h⟩ | h
    · cases h
    · exact .inr h
  | unsent hm hsn h2 =>
    rw [sent_append, settle_sent h2, List.append_nil]
    rcases hout hm hsn with ⟨h0, -⟩ | h
    · refine .inl ⟨h0, .inl ?_, (settle_drift h2).keeps.1.trans (by have := hsn.sent; unfold Sent at this; rw [this])⟩
      have M := unsent_mid I hsn
      rcases settle_pre M h2 with ⟨h', -⟩ | ⟨p1, o1, o2, ok, -, h3, -, h4, -, h5⟩
      · cases h'
      have hk : p1.state = .init := h3.trans (hsn.sent.keeps.1.trans hs)
      have hok : ok = false := by
        rcases h5 with ⟨h', -⟩ | ⟨-, h', -⟩
        · cases h'
        · exact h'
      subst hok
      rw [advance_state h4]
      unfold finalState nextState
      simp [hk]
    · exact .inr h
  | replied hx _ _ _ => rcases hps with h' | h' <;> rw [hx] at h' <;> cases h'
  | again hx _ => rcases hps with h' | h' <;> rw [hx] at h' <;> cases h'
  | waiting hx _ => rcases hps with h' | h' <;> rw [hx] at h' <;> cases h'
  | idle hx hset =>
    refine .inl ⟨settle_sent hset, ?_, (settle_drift hset).keeps.1⟩
    have hi : p.phyState = .idle := by
      rcases hps with h' | h'
      · exact h'
      · rcases hx with h | h | h <;> rw [h'] at h <;> cases h
    cases settle_inv hset with
    | command hps h1 hid =>
      have hc := (stateGetCmd_inv h1).1
      unfold Chosen at hc
      rw [hc]
      exact .inr ⟨hs, hseq, .inr rfl⟩
    | nothing hps h1 h2 =>
      unfold stateGetCmd at h1
      rw [hs] at h1
      injection h1 with h1; injection h1 with e1 h1; injection h1 with e2 e3
      cases e3
    | over hps _ _ => rcases hps with h | h <;> rw [hi] at h <;> cases h

theorem fresh_run {C : Cipher} {p q : Pd} {ops : List Op} {o : List Out} (I : Inv p) (F : Fresh p)
    (h : run C p ops = .ok (q, o)) :
    (sent o = [] ∧ Inv q ∧ Fresh q ∧ q.address = p.address) ∨
    ∃ m cap rest, sent o = (restartPacket m p.address).bytes.take cap :: rest := by
  refine run_ind (C := C) (p := p) (fun ops q o => (sent o = [] ∧ Inv q ∧ Fresh q ∧ q.address = p.address) ∨
    ∃ m cap rest, sent o = (restartPacket m p.address).bytes.take cap :: rest) (.inl ⟨rfl, I, F, rfl⟩)
    (fun ops op r o s o' _ ih hs => ?_) h
  rw [sent_append]
  rcases ih with ⟨h1, h2, h3, h4⟩ | ⟨m, cap, rest, h1⟩
  · rw [h1, List.nil_append]
    have hI := h2.step hs
    by_cases hop : ∃ cb e, op = .update cb e
    · obtain ⟨cb, e, rfl⟩ := hop
      obtain ⟨⟨p1, o1, y⟩, hu, hs⟩ := Res.bind_eq_ok.mp hs
      injection hs with hs; injection hs with e1 e2; subst e1 e2
      rcases fresh_update h2 h3 hu with ⟨a, b, c⟩ | ⟨m, h⟩
      · exact .inl ⟨a, hI, b, c.trans h4⟩
      · rw [h4] at h; exact .inr ⟨m, e.sendCap, [], h⟩
    · obtain ⟨a1, a2, a3, a4, -, -, a7, -⟩ := step_api hs fun cb e he => hop ⟨cb, e, he⟩
      refine .inl ⟨a1, hI, ?_, a7.trans h4⟩
      unfold Fresh
      rw [a2, a3, a4]; exact h3
  · rw [h1]; exact .inr ⟨m, cap, rest ++ sent o', rfl⟩

/-- **C55, restart.**  Whatever happens after the PD went offline, the first packet the CP sends it is the ID command with
sequence number 0, in the clear (what the channel takes of it). -/
theorem C55_first (C : Cipher) (info : PdM.Info) (p q r : Pd) (t : Int) (ops : List Op) (o : List Out)
    (hp : Reached C info p) (hoff : GoesOffline C p q t) (h : run C q ops = .ok (r, o)) :
    sent o = [] ∨ ∃ m cap rest, sent o = (restartPacket m q.address).bytes.take cap :: rest := by
  obtain ⟨I, -, B⟩ := hoff.backoff hp
  rcases fresh_run I (.inl B.state) h with ⟨h, -⟩ | h
  · exact .inl h
  · exact .inr h

/-- **C55, restart in time.**  The first visit later than 300 s after the PD went offline prepares the restart, the next two
send the ID command -- unless the PD announced a receive buffer of fewer than 69 bytes (or the application set
`SKIP_MARK` after bytes with a mark were sent) and no command can be sent to it at all (see C58). -/
theorem C55_restarts (C : Cipher) (info : PdM.Info) (p q r : Pd) (t : Int) (ops : List Op) (o : List Out)
    (hp : Reached C info p) (hoff : GoesOffline C p q t) (hops : ∀ cb e, Op.update cb e ∈ ops → e.now ≤ t + 300000)
    (h : run C q ops = .ok (r, o)) (cb : Bool) (e1 e2 e3 : Env) (ht : t + 300000 < e1.now)
    (hroom : 69 ≤ q.txBufSize) (hcap : 10 ≤ e3.sendCap) (hm : ¬ (q.flags.hasMark = true ∧ q.flags.skipMark = true)) :
    ∃ s o', run C r [.update cb e1, .update cb e2, .update cb e3] = .ok (s, o') ∧
      sent o' = [(restartPacket (!q.flags.skipMark) q.address).bytes] := by
  obtain ⟨I, hb, B⟩ := hoff.backoff hp
  obtain ⟨-, Ir, Br, L, hbr⟩ := backoff_run I hb B hops h
  have hdl := Br.deadline
  have u1 := offline_eq C cb r e1 Br.state (Ir.offlineIdle Br.state)
  rw [if_pos (by omega)] at u1
  have hu1 : ∃ r1 o1, stateUpdate C cb r e1 = .ok (r1, o1, true) ∧ sent o1 = [] ∧ r1.state = .init ∧ r1.phyState = .idle ∧
      r1.seq = -1 ∧ SameLine r r1 := by
    obtain ⟨a, b, c⟩ := offline_update Ir Br.state u1
    rcases c with ⟨c, -⟩ | ⟨-, c, d, e, -⟩
    · omega
    · exact ⟨_, _, u1, a, c, e, d, b⟩
  obtain ⟨r1, o1, hu1, s1, st1, ph1, sq1, L1⟩ := hu1
  have hs1 : CpM.step C r (.update cb e1) = .ok (r1, o1) := step_update hu1
  have I1 := Ir.step hs1
  have B1 := hbr.step Ir hs1
  have ha1 : r1.flags.scActive = false := by
    cases ha : r1.flags.scActive with
    | false => rfl
    | true => rcases I1.secure ha with h | h <;> rw [st1] at h <;> cases h
  have hg : stateGetCmd r1 e2 = .ok (r1, [], Id.ID) := by unfold stateGetCmd; rw [st1]
  have hs2 : CpM.step C r1 (.update cb e2) = .ok ({ r1 with cmdId := Id.ID, phyState := .sendCmd }, []) := by
    refine step_update (y := true) ?_
    rw [update_idle C cb r1 e2 ph1, settle_command ph1 hg (by decide)]; rfl
  generalize hr2 : { r1 with cmdId := Id.ID, phyState := PhyState.sendCmd } = r2 at hs2
  have L2 : SameLine q r2 := by
    subst hr2; exact L.trans (L1.trans ⟨rfl, rfl, rfl, rfl⟩)
  have hsz : r2.txBufSize = q.txBufSize := by unfold Pd.txBufSize; rw [L2.peerRx]
  have hcmd : r2.cmdId = Id.ID := by subst hr2; rfl
  have hn : (nextCmd r2).cmdId = Id.ID := hcmd
  have hpk : plainCmd r2 [b8 Id.ID, 0#8] = restartPacket (!q.flags.skipMark) q.address := by
    unfold plainCmd restartPacket
    rw [L2.skipMark, L2.address, show r2.seq = -1 by subst hr2; exact sq1]; rfl
  have hlen : (restartPacket (!q.flags.skipMark) q.address).bytes.length ≤ 10 := by
    rw [Phy.bytes_length]
    unfold restartPacket
    cases q.flags.skipMark <;> simp [Packet.len]
  have hbody : commandBody C (nextCmd r2) e3 (cmdTx r2) (r2.txBufSize - (cmdTx r2).dataOff) =
      .ok { p := nextCmd r2, t := cmdTx r2, body := some [b8 Id.ID, 0#8] } := by
    have hd := cmdTx_dataOff r2
    unfold commandBody
    dsimp only
    rw [hn, if_neg (by decide), if_pos (by decide)]
    unfold PdM.assertLen
    rw [if_pos (by omega)]
    rfl
  obtain ⟨s, hs, -⟩ := buildAndSend_plain C r2 e3 _ [b8 Id.ID, 0#8] (by subst hr2; exact I1.cp) (by subst hr2; exact ha1)
    (by rw [hcmd]; rfl) (by omega) (by rw [L2.hasMark, L2.skipMark]; simpa using hm) (by subst hr2; exact B1.buf)
    hbody rfl (by subst hr2; exact ha1) rfl rfl rfl (by simp) (by rw [hpk]; omega)
  rw [hpk, decide_eq_true (by omega)] at hs
  have hs3 := step_update (update_send C cb r2 e3 (by subst hr2; rfl) hs)
  refine ⟨_, _, run_three hs1 hs2 hs3, ?_⟩
  rw [sent_append, s1, List.append_nil]
  show sent ([] ++ sendOuts r2 e3 _) = _
  rw [List.nil_append, sendOuts_sent, List.take_of_length_le (by omega)]

/-- the hypotheses are met: nobody answers the sample CP, which gives up after 13 s -/
example : ∃ p q, Reached xorCipher Sample.pdInfo p ∧ GoesOffline xorCipher p q 13000 ∧ 69 ≤ q.txBufSize ∧
    ¬ (q.flags.hasMark = true ∧ q.flags.skipMark = true) := by
  obtain ⟨p, o, h, hp⟩ := Sample.ran (C := xorCipher) (p := Sample.cp) (ops := Sample.silence 26)
    (fun p _ => decide (p.state = .init)) (by decide +kernel)
  obtain ⟨q, o', h', hq⟩ := Sample.ran (C := xorCipher) (p := Sample.cp) (ops := Sample.silence 27)
    (fun q _ => decide (q.state = .offline ∧ 69 ≤ q.txBufSize ∧ ¬ (q.flags.hasMark = true ∧ q.flags.skipMark = true)))
    (by decide +kernel)
  obtain ⟨h1, h2, h3⟩ := of_decide_eq_true hq
  have e : Sample.silence 27 = Sample.silence 26 ++ [.update true { now := 13000 }] := rfl
  rw [e] at h'
  obtain ⟨s, o1, o2, hs, hst, -⟩ := Sample.run_split h'
  obtain ⟨⟨s', o3⟩, hst', hr⟩ := Res.bind_eq_ok.mp hst
  injection hr with hr; injection hr with e1 e2; subst e1
  rw [h] at hs; injection hs with hs; injection hs with e1 e2; subst e1
  refine ⟨p, _, Sample.cp_reached h, ⟨?_, h1, true, { now := 13000 }, _, rfl, hst'⟩, h2, h3⟩
  rw [of_decide_eq_true hp]; intro h; cases h

/-- and what happens next: nothing for 300 s, then the ID command again, with sequence number 0 -/
example : (match run xorCipher Sample.cp (Sample.silence 630) with
    | .ok (_, o) => decide ((sent o).drop 9 = [(restartPacket true 101).bytes])
    | .error _ => false) = true := by decide +kernel

end Osdp.CpM
