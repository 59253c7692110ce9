import Verif.Lemmas.PdStream
import Verif.Lemmas.PdDeliver

/-! # A pause on the line empties the receiver of a PD -/

namespace Osdp.Phy

/-- what is left of the received bytes after one attempt to find a packet in them -/
structure Drained (p q : Pd) (r : PktRet) : Prop where
  none : r = .noData → q.packetBufLen = 0 ∧ q.packetLen = 0 ∧ q.rx = []
  wait : r = .wait → q.rx = []
  some : r ≠ .noData → r ≠ .wait → q.rx.length < (pend p).length
  le : q.rx.length ≤ p.rx.length

theorem got_length {p : Pd} (h : p.packetBufLen ≤ p.packetBuf.length) : (got p).length = p.packetBufLen := by
  unfold got; rw [List.length_take]; omega

theorem headerStart_rx {p q : Pd} {b : Bool} (h : headerStart p = .ok (q, b)) : q.rx.length ≤ p.rx.length := by
  rcases Nat.decEq p.packetBufLen 0 with hz | hz
  · unfold headerStart at h
    rw [if_neg hz] at h
    injection h with h; injection h with h _; subst h; exact Nat.le_refl _
  · rw [headerStart_scan p hz] at h
    cases hs : scan 0#8 p.rx with
    | none =>
      rw [hs] at h
      injection h with h; injection h with h _; subst h; exact Nat.zero_le _
    | some v =>
      rcases v with ⟨m, rest⟩
      rw [hs] at h
      obtain ⟨buf, -, h⟩ := Res.bind_eq_ok.mp h
      injection h with h; injection h with h _; subst h
      obtain ⟨pre, he, -⟩ := scan_split hs
      rw [he, List.length_append, List.length_cons]
      show rest.length ≤ _
      omega

theorem collect_drained {p q : Pd} {r : PktRet} (hf : Framed p) (hl : p.packetLen ≠ 0) (h : collect p = .ok (q, r)) :
    Drained p q r := by
  unfold collect at h
  obtain ⟨p1, h1, h⟩ := Res.bind_eq_ok.mp h
  obtain ⟨hpend, -⟩ := popInto_pend h1
  obtain ⟨h5, hle, hh⟩ := hf.rest hl
  have hlen := popInto_le h1
  obtain ⟨buf, hw, he⟩ := popInto_inv h1
  have hpl : p1.packetLen = p.packetLen := by rw [he]; rfl
  have hrx : p1.rx = p.rx.drop (p.packetLen - p.packetBufLen) := by rw [he]; rfl
  have hbl : p1.packetBufLen = p.packetBufLen + (p.rx.take (p.packetLen - p.packetBufLen)).length := by rw [he]; rfl
  rw [List.length_take] at hbl
  have hg := got_length hlen
  split at h
  · rename_i hne
    injection h with h; injection h with h h'; subst h h'
    refine ⟨by simp, fun _ => ?_, by simp, by rw [hrx, List.length_drop]; omega⟩
    rw [hrx]
    exact List.drop_eq_nil_of_le (by omega)
  · have hck := checkPacketBody_checked h
    have hret := checkPacketBody_ret h
    have k5 : q.rx = p1.rx := by
      have hh1 : headerFields p1 = .ok (.len p1.packetLen) := by
        have hfl : p1.flags = p.flags := by rw [he]; rfl
        rw [hpl, ← hh]
        exact headerFields_take (by rw [hfl]) (by unfold Pd.isCp; rw [hfl]) (by unfold Pd.isPd; rw [hfl])
          (got_take5 h5 (by obtain ⟨-, hx⟩ := writeAt_take hw; omega) (popInto_pend h1).2)
      rename_i heq
      obtain ⟨-, -, e3⟩ := heldFrame_eq hlen (by simpa using heq) hh1
      rw [e3] at h
      exact congrArg Held.rx (bodyFrame_keeps h)
    refine ⟨fun hr => (by subst hr; simp at hret), fun hr => (by subst hr; simp at hret), fun _ _ => ?_,
      by rw [k5, hrx, List.length_drop]; omega⟩
    rw [k5, ← hpend]
    unfold pend
    rw [List.length_append]
    omega

theorem assemble_drained {p q : Pd} {r : PktRet} (hf : Framed p) (h : assemble p = .ok (q, r)) : Drained p q r := by
  unfold assemble at h
  replace h := ite_inv h
  rcases h with ⟨h0, h⟩ | ⟨h0, h⟩
  · obtain ⟨⟨p2, hr⟩, h1, h⟩ := Res.bind_eq_ok.mp h
    unfold checkHeader at h1
    obtain ⟨⟨p1, b⟩, h2, h1⟩ := Res.bind_eq_ok.mp h1
    obtain ⟨s1, s2, s3, s4, s5⟩ := headerStart_pend h2
    have h4 := s4 (hf.start h0)
    have hle0 := headerStart_rx h2
    dsimp only at h1
    replace h1 := ite_inv h1
    rcases h1 with ⟨hb, h1⟩ | ⟨hb, h1⟩
    · injection h1 with h1; injection h1 with h1 h1'; subst h1 h1'
      injection h with h; injection h with h h'; subst h h'
      have hbf : b = false := by simpa using hb
      subst hbf
      refine ⟨fun _ => ⟨s5 rfl, s3.trans h0, ?_⟩, by simp, by simp, hle0⟩
      unfold headerStart at h2
      have hz : p.packetBufLen = 0 := by
        refine Classical.byContradiction fun hn => ?_
        rw [if_neg hn] at h2
        injection h2 with h2; injection h2 with _ h2; cases h2
      have h2' := h2
      rw [← headerStart.eq_1] at h2
      rw [headerStart_scan p hz] at h2
      cases hs : scan 0#8 p.rx with
      | none =>
        rw [hs] at h2
        injection h2 with h2; injection h2 with h2 _; subst h2; rfl
      | some v =>
        rcases v with ⟨m, rest⟩
        rw [hs] at h2
        obtain ⟨buf, -, h2⟩ := Res.bind_eq_ok.mp h2
        injection h2 with h2; injection h2 with _ h2; cases h2
    · unfold headerRest at h1
      obtain ⟨p3, h3, h1⟩ := Res.bind_eq_ok.mp h1
      obtain ⟨hpend, -⟩ := popInto_pend h3
      have hle3 := popInto_le h3
      obtain ⟨buf, hw, he⟩ := popInto_inv h3
      have hb3 : p3.packetBuf.length = 256 := by
        rw [he, ← hf.buf, ← s2]; exact writeAt_length hw
      have hrx : p3.rx = p1.rx.drop (5 - p1.packetBufLen) := by rw [he]; rfl
      have hbl : p3.packetBufLen = p1.packetBufLen + (p1.rx.take (5 - p1.packetBufLen)).length := by rw [he]; rfl
      rw [List.length_take] at hbl
      have hg := got_length hle3
      have hle4 : p3.rx.length ≤ p.rx.length := by rw [hrx, List.length_drop]; omega
      have hsub : (pend p3).length ≤ (pend p).length := by rw [hpend]; exact s1.length_le
      have hsum : (pend p3).length = p3.packetBufLen + p3.rx.length := by unfold pend; rw [List.length_append, hg]
      replace h1 := ite_inv h1
      rcases h1 with ⟨hlt, h1⟩ | ⟨hlt, h1⟩
      · injection h1 with h1; injection h1 with h1 h1'; subst h1 h1'
        injection h with h; injection h with h h'; subst h h'
        refine ⟨by simp, fun _ => ?_, by simp, by omega⟩
        rw [hrx]
        exact List.drop_eq_nil_of_le (by omega)
      · obtain ⟨r', hhf, h1⟩ := Res.bind_eq_ok.mp h1
        injection h1 with h1; injection h1 with h1 h1'; subst h1 h1'
        cases r' with
        | err e =>
          injection h with h; injection h with h h'; subst h h'
          have hne : e ≠ .noData ∧ e ≠ .wait := by
            rcases headerFields_ret hhf with h | h | ⟨n, h, -⟩
            · injection h with h; subst h; simp
            · injection h with h; subst h; simp
            · cases h
          exact ⟨fun h => absurd h hne.1, fun h => absurd h hne.2, fun _ _ => by omega, hle4⟩
        | len k =>
          obtain ⟨_, lo, hi, -, -, -, -, -, -, hn, hn6, -⟩ := headerFields_len hhf
          have hfr : Framed (setLen p3 k) := by
            refine ⟨hb3, fun h => ?_, fun _ => ⟨?_, ?_, hhf⟩⟩
            · have : k = 0 := h
              omega
            · show 5 ≤ p3.packetBufLen
              omega
            · show p3.packetBufLen ≤ k
              omega
          have hs := collect_drained (p := setLen p3 k) hfr (show k ≠ 0 by omega) h
          refine ⟨hs.none, hs.wait, fun a b => Nat.lt_of_lt_of_le (hs.some a b) hsub, Nat.le_trans hs.le hle4⟩
  · exact collect_drained hf h0 h

theorem intake_quiet {p q : Pd} {env : Env} (hr : env.recv = []) (h : intake p env = .ok q) : q = p := by
  unfold intake at h
  rw [hr] at h
  replace h : Except.ok (if _ ∧ _ ∧ (0 : Int) > 0 then _ else _) = Except.ok q := h
  rw [if_neg (by omega)] at h
  injection h with h
  exact h.symm

theorem assemble_tstamp {p q : Pd} {r : PktRet} (h : assemble p = .ok (q, r)) : q.tstamp = p.tstamp := by
  have h2 := assemble_setTs p p.tstamp
  rw [show setTs p p.tstamp = p from rfl, h] at h2
  injection h2 with h2; injection h2 with h2 _
  rw [h2]; rfl

theorem channelReceive_cap {cs : List (List Byte)} {rx rx' : List Byte} {n : Int} (hle : rx.length ≤ RB_CAP)
    (h : channelReceive cs rx = .ok (rx', n)) : rx'.length ≤ RB_CAP := by
  induction cs generalizing rx rx' n with
  | nil => injection h with h; injection h with h _; subst h; exact hle
  | cons c cs ih =>
    unfold channelReceive at h
    replace h := ite_inv h
    rcases h with ⟨-, h⟩ | ⟨-, h⟩
    · injection h with h; injection h with h _; subst h; exact hle
    replace h := ite_inv h
    rcases h with ⟨-, h⟩ | ⟨-, h⟩
    · cases h
    replace h := ite_inv h
    rcases h with ⟨-, h⟩ | ⟨h2, h⟩
    · injection h with h; injection h with h _; subst h
      rw [List.length_append, List.length_take]; omega
    replace h := ite_inv h
    rcases h with ⟨-, h⟩ | ⟨-, h⟩
    · obtain ⟨⟨rx2, n2⟩, h1, h⟩ := Res.bind_eq_ok.mp h
      injection h with h; injection h with h _; subst h
      exact ih (by rw [List.length_append]; omega) h1
    · injection h with h; injection h with h _; subst h
      rw [List.length_append]; omega

/-- the FIFO is never overfull, the time stamp is that of some visit -/
theorem checkPacket_bounds {p q : Pd} {r : PktRet} {env : Env} (hf : Framed p) (hle : p.rx.length ≤ RB_CAP)
    (h : checkPacket p env = .ok (q, r)) : q.rx.length ≤ RB_CAP ∧ (q.tstamp = p.tstamp ∨ q.tstamp = env.now) := by
  unfold checkPacket at h
  obtain ⟨p1, h1, h2⟩ := Res.bind_eq_ok.mp h
  clear h
  unfold intake at h1
  obtain ⟨⟨rx, n⟩, h3, h1⟩ := Res.bind_eq_ok.mp h1
  have hc := channelReceive_cap hle h3
  injection h1 with h1
  have : Framed p1 ∧ p1.rx = rx ∧ (p1.tstamp = p.tstamp ∨ p1.tstamp = env.now) := by
    subst h1
    split
    · exact ⟨⟨hf.buf, hf.start, hf.rest⟩, rfl, .inr rfl⟩
    · exact ⟨⟨hf.buf, hf.start, hf.rest⟩, rfl, .inl rfl⟩
  obtain ⟨a, b, c⟩ := this
  rw [assemble_tstamp h2]
  refine ⟨Nat.le_trans (assemble_drained a h2).le ?_, c⟩
  rw [b]; exact hc

/-- one attempt, nothing having arrived -/
theorem checkPacket_quiet {p q : Pd} {r : PktRet} {env : Env} (hf : Framed p) (hr : env.recv = [])
    (h : checkPacket p env = .ok (q, r)) : Drained p q r ∧ q.tstamp = p.tstamp := by
  unfold checkPacket at h
  obtain ⟨p1, h1, h2⟩ := Res.bind_eq_ok.mp h
  clear h
  obtain rfl := intake_quiet hr h1
  exact ⟨assemble_drained hf h2, assemble_tstamp h2⟩

end Osdp.Phy

namespace Osdp.PdM

open Phy (Framed Idle pend checkPacket)

theorem tstamp_outcome {p q : Pd} {env : Env} {body : List Byte} {outs : List Out} {ret : PdRet}
    (h : Outcome p env body q outs ret) : q.tstamp = p.tstamp := by
  cases h with
  | plain hpl _ => obtain ⟨_, _, rfl⟩ := hpl.quiet; rfl
  | poll _ _ => unfold pollEvent; split <;> rfl
  | file _ _ => split <;> rfl
  | _ => rfl

theorem sent_tstamp {C : Cipher} {p q : Pd} {env : Env} {outs : List Out} {ok : Bool}
    (h : SendOutcome C p env q outs ok) : q.tstamp = p.tstamp := by
  cases h with
  | mute _ => rfl
  | built b q outs ok hb ho hh hs hc hl =>
    rw [show q.tstamp = b.p.tstamp by rw [hs]]
    have : ∀ {p' : Pd} {t}, BodyOutcome C p' env t b → b.p.tstamp = p'.tstamp := by
      intro p' t h
      cases h <;> try rfl
      split <;> rfl
    have e := this ho
    exact e

theorem finished_tstamp {C : Cipher} {p q : Pd} {env : Env} {ret : PdRet} {outs : List Out}
    (h : Finished C p env ret q outs) : q.tstamp = p.tstamp := by
  cases h with
  | keep _ => rfl
  | reset _ => rfl
  | reply _ hs ha =>
    have e2 : (touch p ret env.now).tstamp = p.tstamp := by unfold touch; split <;> rfl
    rw [← e2, ← sent_tstamp hs]
    rcases afterSend_inv ha with ⟨rfl, -⟩ | ⟨-, -, -, k, -, rfl⟩ <;> rfl

/-- what one refresh leaves of the received bytes, nothing having arrived -/
theorem got_quiet {C : Cipher} {p q : Pd} {env : Env} {outs : List Out} {ret : PdRet} (hp : p.flags.pdMode = true) (hf : Framed p)
    (hr : env.recv = []) (h : Got C p env q outs ret) : q.tstamp = p.tstamp ∧ q.packetBuf.length = 256 ∧
      (ret = .noData ∧ Idle q ∨ ret = .wait ∧ q.rx = [] ∨ q.rx.length < (pend p).length ∧ (ret = .ignore → q.packetBufLen = 0 ∧ q.packetLen = 0) ∧
        ret ≠ .noData) := by
  cases h with
  | nothing hc hcol hrr =>
    have hs := Phy.checkPacket_stored hf hc
    obtain ⟨hd, ht⟩ := Phy.checkPacket_quiet hf hr hc
    refine ⟨ht, hs.buf, ?_⟩
    rcases hrr with ⟨rfl, rfl⟩ | ⟨rfl, rfl⟩ | ⟨rfl, rfl⟩ | ⟨rfl, rfl⟩
    · obtain ⟨a, b, c⟩ := hd.none rfl
      exact .inl ⟨rfl, a, b, hs.buf, c⟩
    · exact .inr (.inl ⟨rfl, hd.wait rfl⟩)
    · exact .inr (.inr ⟨hd.some (by simp) (by simp), by simp, by simp⟩)
    · exact absurd rfl (hs.notCheck hp)
  | skip hc hcol =>
    have hs := Phy.checkPacket_stored hf hc
    obtain ⟨hd, ht⟩ := Phy.checkPacket_quiet hf hr hc
    exact ⟨ht, hs.buf, .inr (.inr ⟨hd.some (by simp) (by simp), fun _ => ⟨rfl, rfl⟩, by simp⟩)⟩
  | seq hc hck =>
    have hs := Phy.checkPacket_stored hf hc
    obtain ⟨hd, ht⟩ := Phy.checkPacket_quiet hf hr hc
    exact ⟨ht, hs.buf, .inr (.inr ⟨hd.some (by simp) (by simp), by simp, by simp⟩)⟩
  | refused hc hck hdc hdt hl =>
    have hs := Phy.checkPacket_stored hf hc
    obtain ⟨hd, ht⟩ := Phy.checkPacket_quiet hf hr hc
    refine ⟨hdt.tstamp.trans ht, hdt.bufLen.trans hs.buf, .inr (.inr ⟨?_, ?_, ?_⟩)⟩
    · rw [hdt.rx]; exact hd.some (by simp) (by simp)
    · split <;> simp
    · split <;> simp
  | insecure hc hck hdc hdt hl hid hpr =>
    have hs := Phy.checkPacket_stored hf hc
    obtain ⟨hd, ht⟩ := Phy.checkPacket_quiet hf hr hc
    refine ⟨hdt.tstamp.trans ht, hdt.bufLen.trans hs.buf, .inr (.inr ⟨?_, by simp, by simp⟩)⟩
    have := hd.some (by simp) (by simp)
    rw [← hdt.rx] at this
    exact this
  | command hc hck hdc hdt hl hid hlen hb hpr hdis hout =>
    have hs := Phy.checkPacket_stored hf hc
    obtain ⟨hd, ht⟩ := Phy.checkPacket_quiet hf hr hc
    have hk := kept_outcome hout
    have hnot : ret ≠ .ignore ∧ ret ≠ .noData := by
      cases hout with
      | plain hpl _ => rcases hpl.ret with h | h
                       · rw [h]; simp
                       · rw [h.1]; simp
      | file _ _ => split <;> simp
      | _ => simp
    refine ⟨(tstamp_outcome hout).trans (hdt.tstamp.trans ht), ?_, .inr (.inr ⟨?_, fun h => absurd h hnot.1, hnot.2⟩)⟩
    · rw [hk.buf]; exact hdt.bufLen.trans hs.buf
    · rw [show q.rx = _ from hk.rx.trans hdt.rx]
      exact hd.some (by simp) (by simp)

/-- the FIFO is never overfull, the time stamp never in the future -/
structure Timed (t : Int) (p : Pd) : Prop where
  cap : p.rx.length ≤ Phy.RB_CAP
  time : p.tstamp ≤ t

theorem got_timed {C : Cipher} {p q : Pd} {env : Env} {outs : List Out} {ret : PdRet} {t : Int} (hf : Framed p)
    (ht : Timed t p) (hn : env.now ≤ t) (h : Got C p env q outs ret) : Timed t q := by
  have key : ∀ {p1 : Pd} {r : Phy.PktRet}, checkPacket p env = .ok (p1, r) → q.rx = p1.rx → q.tstamp = p1.tstamp → Timed t q := by
    intro p1 r hc h1 h2
    obtain ⟨a, b⟩ := Phy.checkPacket_bounds hf ht.cap hc
    refine ⟨by rw [h1]; exact a, ?_⟩
    rw [h2]
    rcases b with b | b
    · rw [b]; exact ht.time
    · rw [b]; exact hn
  cases h with
  | nothing hc _ _ => exact key hc rfl rfl
  | skip hc _ => exact key hc rfl rfl
  | seq hc _ => exact key hc rfl rfl
  | refused hc _ _ hdt _ => exact key hc hdt.rx hdt.tstamp
  | insecure hc _ _ hdt _ _ _ => exact key hc hdt.rx hdt.tstamp
  | command hc _ _ hdt _ _ _ _ _ _ hout =>
    exact key hc ((kept_outcome hout).rx.trans hdt.rx) ((tstamp_outcome hout).trans hdt.tstamp)

theorem refresh_timed {C : Cipher} {p q : Pd} {env : Env} {outs : List Out} {t : Int} (hp : p.flags.pdMode = true)
    (hf : Framed p) (ht : Timed t p) (hn : env.now ≤ t) (h : refresh C p env = .ok (q, outs)) : Timed t q := by
  obtain ⟨p1, o1, ret, o2, hg, hp1, hfin, rfl⟩ := refresh_inv hp h
  obtain ⟨hk, -⟩ := expire_kept p env.now
  have hte : (expire p env.now).tstamp = p.tstamp := by unfold expire; split <;> rfl
  have h1 := got_timed (hk.framed hf) ⟨by rw [hk.rx]; exact ht.cap, by rw [hte]; exact ht.time⟩ hn hg
  refine ⟨?_, by rw [finished_tstamp hfin]; exact h1.time⟩
  rcases finished_cleared hfin with ⟨rfl, -, -⟩ | hc
  · exact h1.cap
  · rw [hc.rx]; exact h1.cap

/-- **one refresh during a pause** -/
theorem refresh_quiet {C : Cipher} {p q : Pd} {env : Env} {outs : List Out} (hp : p.flags.pdMode = true) (hf : Framed p)
    (hr : env.recv = []) (ht : RESP_TOUT ≤ env.now - p.tstamp) (h : refresh C p env = .ok (q, outs)) :
    Framed q ∧ q.tstamp = p.tstamp ∧ (Idle q ∨ (pend q).length < (pend p).length) := by
  obtain ⟨p1, o1, ret, o2, hg, hp1, hfin, rfl⟩ := refresh_inv hp h
  obtain ⟨hk, -⟩ := expire_kept p env.now
  have hte : (expire p env.now).tstamp = p.tstamp := by unfold expire; split <;> rfl
  have hpe : pend (expire p env.now) = pend p := by unfold Phy.pend Phy.got; rw [hk.buf, hk.bufLen, hk.rx]
  obtain ⟨g1, g2, g3⟩ := got_quiet (hk.pdMode.trans hp) (hk.framed hf) hr hg
  rw [hpe] at g3
  have hts := (finished_tstamp hfin).trans (g1.trans hte)
  have cl : Cleared p1 q → (p1.rx = [] ∨ p1.rx.length < (pend p).length) → Framed q ∧ (Idle q ∨ (pend q).length < (pend p).length) := by
    intro hc hrx
    refine ⟨hc.framed g2, ?_⟩
    rcases hrx with h | h
    · exact .inl ⟨hc.bufLen, hc.len, hc.buf.trans g2, hc.rx.trans h⟩
    · right; rw [hc.pend]; exact h
  refine (fun x => ⟨x.1, hts, x.2⟩ : Framed q ∧ (Idle q ∨ (pend q).length < (pend p).length) → _) ?_
  have hfc := finished_cleared hfin
  clear h
  have keep : ret = .ignore ∨ ret = .noData ∨ (ret = .wait ∧ env.now - p1.tstamp < RESP_TOUT) → q = p1 →
      Framed q ∧ (Idle q ∨ (pend q).length < (pend p).length) := by
    intro h hq
    subst hq
    rcases h with rfl | rfl | ⟨-, h⟩
    · rcases g3 with ⟨h1, -⟩ | ⟨h1, -⟩ | ⟨h1, h2, -⟩
      · cases h1
      · cases h1
      · obtain ⟨a, b⟩ := h2 rfl
        exact cl ⟨a, b, rfl, rfl⟩ (.inr h1)
    · rcases g3 with ⟨-, h2⟩ | ⟨h1, -⟩ | ⟨-, -, h3⟩
      · exact ⟨⟨g2, fun _ => by rw [h2.bufLen]; omega, fun h => absurd h2.len h⟩, .inl h2⟩
      · cases h1
      · exact absurd rfl h3
    · rw [g1, hte] at h; omega
  have gone : Cleared p1 q → Framed q ∧ (Idle q ∨ (pend q).length < (pend p).length) := by
    intro hc
    rcases g3 with ⟨rfl, h2⟩ | ⟨rfl, h2⟩ | ⟨h1, -, -⟩
    · exact cl hc (.inl h2.rx)
    · exact cl hc (.inl h2)
    · exact cl hc (.inr h1)
  cases hfin with
  | keep h => exact keep h rfl
  | reset h => exact gone ⟨rfl, rfl, rfl, rfl⟩
  | reply h h1 h2 =>
    rcases hfc with ⟨-, -, h3⟩ | hc
    · rcases h with rfl | rfl <;> simp at h3
    · exact gone hc

end Osdp.PdM
