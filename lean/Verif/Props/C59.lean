import Verif.Lemmas.PdReach
import Verif.Lemmas.PdOut

/-!
# C59: addresses of replies

Broadcast commands are those sent to address 0x7F; the reply bit of the address byte is 0x80.
-/

namespace Osdp.PdM

open Spec.Seq Spec.Wire
open Phy (Framed heldFrame pktAddr Arrives)

theorem outcome_same {p q : Pd} {env : Env} {body : List Byte} {outs : List Out} {ret : PdRet}
    (h : Outcome p env body q outs ret) :
    q.address = p.address ∧ q.flags.broadcast = p.flags.broadcast ∧ ∀ bs, Out.send bs ∉ outs := by
  refine ⟨?_, ?_, ?_⟩
  · cases h with
    | plain hpl _ => obtain ⟨r, e, h⟩ := hpl.quiet; subst h; rfl
    | poll _ _ => unfold pollEvent; split <;> rfl
    | file _ _ => split <;> rfl
    | _ => rfl
  · cases h with
    | plain hpl _ => obtain ⟨r, e, h⟩ := hpl.quiet; subst h; rfl
    | poll _ _ => unfold pollEvent; split <;> rfl
    | file _ _ => split <;> rfl
    | _ => rfl
  · intro bs hb
    cases h with
    | plain hpl _ => obtain ⟨c, hc, -⟩ := hpl.outs _ hb; cases hc
    | abort _ _ =>
      unfold File.abort at hb
      split at hb
      · cases hb
      · split at hb
        · rw [List.mem_singleton] at hb; cases hb
        · cases hb
    | file _ hdec =>
      obtain ⟨f, c, -, -, h⟩ := File.txDecode_outs hdec _ hb
      rcases h with h | h | h <;> cases h
    | _ => cases hb

/-- whom the packet `f` is sent to -/
def toAll (f : List Byte) : Bool := f[1]? == some 0x7F#8

theorem finished_bc {C : Cipher} {p q : Pd} {env : Env} {ret : PdRet} {outs : List Out}
    (h : Finished C p env ret q outs) :
    (q.flags.broadcast = true → p.flags.broadcast = true) ∧
    (∀ bs, Out.send bs ∈ outs → q.flags.broadcast = false) := by
  cases h with
  | keep _ => exact ⟨id, fun bs hb => by simp at hb⟩
  | reset _ => exact ⟨id, fun bs hb => by simp at hb⟩
  | @reply q1 _ outs' ok _ hs ha =>
    have h3 : q.flags.broadcast = q1.flags.broadcast := by
      rcases afterSend_inv ha with ⟨rfl, -⟩ | ⟨-, -, -, k, -, rfl⟩ <;> rfl
    rw [h3]
    have h1 := touch_pdMode p ret env.now
    cases hs with
    | mute _ => exact ⟨fun h => by rw [← h1]; exact h, fun bs hb => by simp at hb⟩
    | built b _ o ok hb hbo hh hsend hc hl =>
      have h4 : b.p.flags.broadcast = false := by
        cases hbo with
        | rmac sc ok _ _ _ _ => cases ok <;> rfl
        | _ => rfl
      unfold Phy.Sending at hsend
      rw [hsend]
      exact ⟨(fun h => by have h' : b.p.flags.broadcast = true := h; rw [h4] at h'; cases h'), fun _ _ => h4⟩

/-- **C59, any history.**  A PD in any state it can get into, whatever it receives: everything it transmits is (what the
channel takes of) a reply packet; it answers an intact command packet `f` for the PD, and comes from the broadcast address
if `f` was sent there -- or if the flag left behind by an earlier broadcast is still set -- and from the PD's own address
otherwise.  Sending clears the flag; it is set only by a broadcast command. -/
theorem C59_addresses (C : Cipher) (info : Info) (q s : Pd) (env : Env) (outs : List Out) (hq : Reached C info q)
    (ha : 0 ≤ q.address ∧ q.address ≤ 127) (h : refresh C q env = .ok (s, outs)) :
    (∀ bs, Out.send bs ∈ outs → s.flags.broadcast = false ∧
      ∃ f r, Intact f ∧ CommandFor q.address f ∧ bs = (Packet.bytes r).take env.sendCap ∧
        r.addr.toNat = 128 + if q.flags.broadcast || toAll f then 127 else q.address.toNat) ∧
    (s.flags.broadcast = true → q.flags.broadcast = true ∨
      ∃ f, Intact f ∧ toAll f = true ∧ ∀ bs, Out.send bs ∉ outs) := by
  have hp := hq.pdMode
  have hf := hq.framed
  obtain ⟨p1, o1, ret, o2, hg, hp1, hfin, rfl⟩ := refresh_inv hp h
  obtain ⟨hk, hadr⟩ := expire_kept q env.now
  obtain ⟨x1, x2, x3, x4, x5, x6, -, x7⟩ := expire_fields q env.now
  have key : ∀ {p2 : Pd} {r : Phy.PktRet}, Phy.checkPacket (expire q env.now) env = .ok (p2, r) → r = .none ∨ r = .nack →
      ∃ f, Intact f ∧ CommandFor q.address f ∧ p2.flags.broadcast = (q.flags.broadcast || toAll f) := by
    intro p2 r hc hr
    obtain ⟨w1, w2, w3, w4⟩ := (Phy.checkPacket_stored (hk.framed hf) hc).whole hr
    obtain ⟨p3, hcol, hb⟩ := Phy.checkPacket_body (hk.framed hf) hc (by rcases hr with h | h <;> simp [h])
    obtain ⟨a, ctl, h1, h4, hv⟩ := bodyFrame_pd ((hcol.transp.pdMode.trans hk.pdMode).trans hp) hb hr
    have w5 : CommandFor q.address (heldFrame p2) := by rw [← hadr]; exact w4 (hk.pdMode.trans hp)
    refine ⟨heldFrame p2, w3, w5, ?_⟩
    have e1 : p2.flags.broadcast = (Phy.pdSeqAdvance (Phy.pdSeqPrep p3 (ctl.toNat % 4) ((a &&& 0x7F#8).toNat == 0x7F))).flags.broadcast := by
      unfold Phy.seqVerdict at hv
      split at hv <;> (injection hv with hv _; subst hv; rfl)
    rw [e1, (Phy.pdSeqPrep_props p3 _ _).2.2.2.2.2.2, hcol.broadcast, x7]
    congr 1
    unfold toAll
    rw [h1]
    obtain ⟨b, hb1, hb2, -⟩ := w5
    rw [h1] at hb1; injection hb1 with hb1; subst hb1
    have : ∀ a : Byte, a.toNat < 128 → ((a &&& 0x7F#8).toNat == 0x7F) = (some a == some 0x7F#8) := by decide
    exact this a hb2
  have fb := finished_bc hfin
  have main : (∀ bs, Out.send bs ∉ o1) → p1.address = q.address →
      ((ret = .none ∨ ret = .reply) → ∃ f, Intact f ∧ CommandFor q.address f ∧ p1.flags.broadcast = (q.flags.broadcast || toAll f)) →
      (p1.flags.broadcast = true → q.flags.broadcast = true ∨ ∃ f, Intact f ∧ toAll f = true) →
      (∀ bs, Out.send bs ∈ o1 ++ o2 → s.flags.broadcast = false ∧
        ∃ f r, Intact f ∧ CommandFor q.address f ∧ bs = (Packet.bytes r).take env.sendCap ∧
          r.addr.toNat = 128 + if q.flags.broadcast || toAll f then 127 else q.address.toNat) ∧
      (s.flags.broadcast = true → q.flags.broadcast = true ∨
        ∃ f, Intact f ∧ toAll f = true ∧ ∀ bs, Out.send bs ∉ o1 ++ o2) := by
    intro hno hadr1 hcmd hset
    refine ⟨fun bs hb => ?_, fun hs => ?_⟩
    · have hb : Out.send bs ∈ o2 := (List.mem_append.mp hb).resolve_left (hno bs)
      refine ⟨fb.2 bs hb, ?_⟩
      have hret : ret = .none ∨ ret = .reply := by
        cases hfin with
        | keep _ => simp at hb
        | reset _ => simp at hb
        | reply h _ _ => exact h
      obtain ⟨f, f1, f2, f3⟩ := hcmd hret
      obtain ⟨r, r1, r2⟩ := finished_packet hfin hb
      refine ⟨f, r, f1, f2, r1, ?_⟩
      rw [r2.addr, f3, hadr1]
      cases q.flags.broadcast || toAll f with
      | true => rw [if_pos rfl, if_pos rfl]; rfl
      | false => simp only [Bool.false_eq_true, if_false]; rw [or80, Phy.i8_addr _ ha]
    · rcases hset (fb.1 hs) with h | ⟨f, h1, h2⟩
      · exact .inl h
      · refine .inr ⟨f, h1, h2, fun bs hb => ?_⟩
        rcases List.mem_append.mp hb with hb | hb
        · exact hno bs hb
        · have := fb.2 bs hb; rw [hs] at this; cases this
  have lift : ∀ {x : Pd} {b : Bool}, x.flags.broadcast = (q.flags.broadcast || b) → x.flags.broadcast = true →
      q.flags.broadcast = true ∨ b = true := by
    intro x b h1 h2; rw [h1] at h2; simpa using h2
  cases hg with
  | nothing _ hc hr =>
    refine main (by simp) (by rw [hc.transp.address, hadr]) (fun hret => ?_) (fun h => .inl ?_)
    · rcases hr with ⟨-, h⟩ | ⟨-, h⟩ | ⟨-, h⟩ | ⟨-, h⟩ <;> rw [h] at hret <;> simp at hret
    · rw [← x7, ← hc.broadcast]; exact h
  | @skip q' _ hc =>
    refine main (by simp) ?_ (fun hret => by simp at hret) (fun h => .inl ?_)
    · show q'.address = _; rw [hc.transp.address, hadr]
    · rw [← x7, ← hc.broadcast]; exact h
  | seq hc hck =>
    obtain ⟨f, f1, f2, f3⟩ := key hc (.inr rfl)
    exact main (by simp) (by rw [hck.transp.address, hadr]) (fun _ => ⟨f, f1, f2, f3⟩)
      (fun h => (lift f3 h).imp_right fun h => ⟨f, f1, h⟩)
  | @refused p2 _ d hc hck _ hd _ =>
    obtain ⟨f, f1, f2, f3⟩ := key hc (.inl rfl)
    exact main (by simp) (by rw [hd.transp.address, hck.transp.address, hadr]) (fun _ => ⟨f, f1, f2, by rw [hd.broadcast, f3]⟩)
      (fun h => (lift (hd.broadcast.trans f3) h).imp_right fun h => ⟨f, f1, h⟩)
  | @insecure p2 q2 d id hc hck _ hd _ _ _ =>
    obtain ⟨f, f1, f2, f3⟩ := key hc (.inl rfl)
    exact main (by simp) (by show q2.address = _; rw [hd.transp.address, hck.transp.address, hadr])
      (fun _ => ⟨f, f1, f2, by show q2.flags.broadcast = _; rw [hd.broadcast, f3]⟩)
      (fun h => (lift (hd.broadcast.trans f3) h).imp_right fun h => ⟨f, f1, h⟩)
  | @command p2 q2 q3 d id body o r hc hck _ hd _ _ _ _ _ _ hout =>
    obtain ⟨f, f1, f2, f3⟩ := key hc (.inl rfl)
    obtain ⟨o1, o2, o3⟩ := outcome_same hout
    have e : p1.flags.broadcast = (q.flags.broadcast || toAll f) :=
      o2.trans (show q2.flags.broadcast = _ by rw [hd.broadcast, f3])
    exact main o3 (o1.trans (show q2.address = _ by rw [hd.transp.address, hck.transp.address, hadr]))
      (fun _ => ⟨f, f1, f2, e⟩) (fun h => (lift e h).imp_right fun h => ⟨f, f1, h⟩)

/-- **C59, partial.**  After a refresh in which the PD transmitted something, and right after setup, the next reply comes
from the address its command was sent to: a command to the PD's own address is answered from there, a broadcast from 0x7F.

Missing: refreshes after a broadcast that the PD did not answer; `C59_unanswered_broadcast_spoils_next_reply` shows that
the code then answers from the wrong address. -/
theorem C59_addresses_partial (C : Cipher) (info : Info) (q s : Pd) (env : Env) (outs : List Out) (hq : Reached C info q)
    (ha : 0 ≤ q.address ∧ q.address ≤ 127)
    (hlast : (∃ skipMark n, setup info skipMark n = some q) ∨
      ∃ q0 env0 outs0 bs0, Reached C info q0 ∧ (0 ≤ q0.address ∧ q0.address ≤ 127) ∧ refresh C q0 env0 = .ok (q, outs0) ∧
        Out.send bs0 ∈ outs0)
    (h : refresh C q env = .ok (s, outs)) (bs : List Byte) (hb : Out.send bs ∈ outs) :
    ∃ f r, Intact f ∧ CommandFor q.address f ∧ bs = (Packet.bytes r).take env.sendCap ∧
      r.addr.toNat = 128 + if toAll f then 127 else q.address.toNat := by
  have hbc : q.flags.broadcast = false := by
    rcases hlast with ⟨sm, n, hs⟩ | ⟨q0, env0, outs0, bs0, h1, h2, h3, h4⟩
    · unfold setup at hs
      split at hs
      · cases hs
      · injection hs with hs; subst hs; rfl
    · exact ((C59_addresses C info q0 q env0 outs0 h1 h2 h3).1 bs0 h4).1
  obtain ⟨-, f, r, f1, f2, f3, f4⟩ := (C59_addresses C info q s env outs hq ha h).1 bs hb
  rw [hbc, Bool.false_or] at f4
  exact ⟨f, r, f1, f2, f3, f4⟩

/-- a packet to address `a`, sequence number 0 -/
def pkt (a : Byte) (data : List Byte) : Packet := ⟨true, a, 0x04#8, [], data⟩

/-- the address bytes of the replies when these packets arrive, one per refresh -/
def origins (p : Pd) : List (List Byte) → List (List Byte)
  | [] => []
  | bs :: l =>
    match refresh Aes.aes p (Sample.env bs) with
    | .ok (q, outs) => ((sent outs).map fun b => b.getD 2 0) :: origins q l
    | .error _ => []

/-- Non-vacuity: POLLs to the PD's own address (0x65) and to 0x7F, in any order. -/
example : origins Sample.pd [(pkt 0x65 [0x60#8]).bytes, (pkt 0x7F [0x60#8]).bytes, (pkt 0x65 [0x60#8]).bytes] =
    [[0xE5#8], [0xFF#8], [0xE5#8]] := by decide +kernel

example : Reached Aes.aes Sample.pdInfo Sample.pd ∧ 0 ≤ Sample.pd.address ∧ Sample.pd.address ≤ 127 :=
  ⟨sample_reached _, by decide⟩

/-- **Witness.**  An intact but empty broadcast packet, which gets no answer, leaves the flag set: the POLL that
follows, sent to the PD's own address, is answered from the broadcast address. -/
theorem C59_unanswered_broadcast_spoils_next_reply :
    origins Sample.pd [(pkt 0x7F []).bytes, (pkt 0x65 [0x60#8]).bytes, (pkt 0x65 [0x60#8]).bytes] =
      [[], [0xFF#8], [0xE5#8]] := by decide +kernel

end Osdp.PdM
