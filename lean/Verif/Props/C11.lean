import Verif.Lemmas.PdReach

/-!
# C11: which sequence numbers a PD accepts

`Spec.Seq.Acceptable last s`: `s` is 0, `last` or the number after `last`.
-/

namespace Osdp.PdM

open Spec.Seq Spec.Wire
open Phy (Framed heldFrame pktAddr Arrives)

/-- the sequence number of the packet `f` -/
def seqOf (f : List Byte) : Nat := (f[4]?.getD 0).toNat % 4

/-- **C11, any history.**  A PD in any state it can get into, and whatever it receives: a refresh either does
nothing and leaves the counter as it is; or it handles a packet with an acceptable number, which becomes the last
accepted number; or it refuses a packet with another number, which has no effect but (at most) a packet sent.

Missing: in the third case the counter moves on by one (the full statement wants `s.seq = q.seq`;
`C11_rejected_packet_moves_counter` shows that the code does not do that). -/
theorem C11_acceptance_partial (C : Cipher) (info : Info) (q s : Pd) (env : Env) (outs : List Out)
    (hq : Reached C info q) (h : refresh C q env = .ok (s, outs)) :
    (outs = [] ∧ s.seq = q.seq) ∨
    (∃ f, Intact f ∧ CommandFor q.address f ∧ Acceptable q.seq (seqOf f) ∧ s.seq = seqOf f) ∨
    (∃ f, Intact f ∧ CommandFor q.address f ∧ ¬ Acceptable q.seq (seqOf f) ∧ s.seq = succ q.seq ∧
      Untouched q s ∧ ∀ o ∈ outs, o = .flush ∨ ∃ bs, o = .send bs) := by
  have hp := hq.pdMode
  have hf := hq.framed
  obtain ⟨p1, o1, ret, o2, hg, hp1, hfin, rfl⟩ := refresh_inv hp h
  obtain ⟨hk, hadr⟩ := expire_kept q env.now
  obtain ⟨x1, x2, x3, x4, x5, x6, x7⟩ := expire_fields q env.now
  have hskip : (expire q env.now).flags.skipSeqCheck = false :=
    (congrArg Config.skipSeqCheck (config_expire q env.now)).trans hq.flags.2.1
  have tl := (finished_tail hfin).seq
  have quiet : ret ≠ .none → ret ≠ .reply → o2 = [] := by
    intro n1 n2
    cases hfin with
    | keep _ => rfl
    | reset _ => rfl
    | reply h _ _ => rcases h with h | h <;> contradiction
  have key : ∀ {p2 : Pd} {r : Phy.PktRet}, Phy.checkPacket (expire q env.now) env = .ok (p2, r) → r = .none ∨ r = .nack →
      ∃ f, Intact f ∧ CommandFor q.address f ∧
        (r = .none → Acceptable q.seq (seqOf f) ∧ p2.seq = seqOf f) ∧
        (r = .nack → ¬ Acceptable q.seq (seqOf f) ∧ p2.seq = succ q.seq) := by
    intro p2 r hc hr
    obtain ⟨w1, w2, w3, w4⟩ := (Phy.checkPacket_stored (hk.framed hf) hc).whole hr
    obtain ⟨p3, hcol, hb⟩ := Phy.checkPacket_body (hk.framed hf) hc (by rcases hr with h | h <;> simp [h])
    obtain ⟨a, ctl, -, h4, hv⟩ := bodyFrame_pd ((hcol.transp.pdMode.trans hk.pdMode).trans hp) hb hr
    have hso : seqOf (heldFrame p2) = ctl.toNat % 4 := by unfold seqOf; rw [h4]; rfl
    have hsq : p3.seq = q.seq := hcol.seq.trans x5
    have hv' := hv
    obtain ⟨-, v2, v3⟩ := seq_verdict (by omega) (by rw [hsq]; exact hq.seqRange) hv
    rw [hsq] at v2 v3
    have hsk : p3.flags.skipSeqCheck = false := by
      rw [show p3.flags.skipSeqCheck = _ from congrArg Config.skipSeqCheck (config_transp hcol.transp)]; exact hskip
    refine ⟨heldFrame p2, w3, by rw [← hadr]; exact w4 (hk.pdMode.trans hp), ?_, ?_⟩
    · rintro rfl
      rw [hso]
      by_cases ha : Acceptable q.seq (ctl.toNat % 4)
      · exact ⟨ha, (v2 ha).2⟩
      · exact absurd (v3 ha hsk) (by simp)
    · rintro rfl
      rw [hso]
      have ha : ¬ Acceptable q.seq (ctl.toNat % 4) := fun ha => absurd (v2 ha).1 (by simp)
      refine ⟨ha, ?_⟩
      unfold Phy.seqVerdict at hv'
      split at hv'
      · injection hv' with hv' _; subst hv'
        show Phy.nextSeq (Phy.pdSeqPrep p3 _ _).seq true = _
        have e1 : ∀ bc, (Phy.pdSeqPrep p3 (ctl.toNat % 4) bc).seq = q.seq := by
          intro bc
          unfold Acceptable at ha
          have h0 : ¬ ctl.toNat % 4 = 0 := by omega
          have h1 : ¬ ((ctl.toNat % 4 : Nat) : Int) = p3.seq := by rw [hsq]; omega
          unfold Phy.pdSeqPrep
          rw [if_neg h0, if_neg h1]
          dsimp only
          split <;> exact hsq
        rw [e1]
        have := hq.seqRange
        unfold Phy.nextSeq succ
        rw [if_pos rfl]
        split <;> split <;> omega
      · injection hv' with _ hv'; cases hv'
  cases hg with
  | nothing _ hc hr =>
    refine .inl ⟨?_, by rw [tl, hc.seq, x5]⟩
    rw [List.nil_append]
    exact quiet (by rcases hr with ⟨-, h⟩ | ⟨-, h⟩ | ⟨-, h⟩ | ⟨-, h⟩ <;> rw [h] <;> simp)
      (by rcases hr with ⟨-, h⟩ | ⟨-, h⟩ | ⟨-, h⟩ | ⟨-, h⟩ <;> rw [h] <;> simp)
  | skip _ hc =>
    refine .inl ⟨?_, by rw [tl, show (Phy.stateReset _ false).1.seq = _ from hc.seq, x5]⟩
    rw [List.nil_append]
    exact quiet (by simp) (by simp)
  | seq hc hck =>
    obtain ⟨f, f1, f2, -, f4⟩ := key hc (.inr rfl)
    obtain ⟨g1, g2⟩ := f4 rfl
    obtain ⟨n1, n2⟩ := finished_nak hfin (hck.nack rfl).1
    exact .inr (.inr ⟨f, f1, f2, g1, tl.trans g2, x1.trans ((transp_untouched hck.transp).trans n1), by simpa using n2⟩)
  | refused hc _ _ hd _ =>
    obtain ⟨f, f1, f2, f3, -⟩ := key hc (.inl rfl)
    obtain ⟨g1, g2⟩ := f3 rfl
    exact .inr (.inl ⟨f, f1, f2, g1, by rw [tl, hd.seq, g2]⟩)
  | insecure hc _ _ hd _ _ _ =>
    obtain ⟨f, f1, f2, f3, -⟩ := key hc (.inl rfl)
    obtain ⟨g1, g2⟩ := f3 rfl
    exact .inr (.inl ⟨f, f1, f2, g1, by rw [tl, show (Phy.setNak (noteCmd _ _) _).seq = _ from hd.seq, g2]⟩)
  | command hc _ _ hd _ _ _ _ _ _ hout =>
    obtain ⟨f, f1, f2, f3, -⟩ := key hc (.inl rfl)
    obtain ⟨g1, g2⟩ := f3 rfl
    refine .inr (.inl ⟨f, f1, f2, g1, ?_⟩)
    rw [tl, outcome_seq hout, show (noteCmd _ _).seq = _ from hd.seq, g2]

/-- **C11, the answer.**  A packet for an idle PD (no secure channel) with a number that is not acceptable is
answered with NAK(sequence error), whatever command it carries; no command reaches the application. -/
theorem C11_sequence_error_answered (C : Cipher) (p : Pd) (k : Packet) (env : Env) (hl : Listening p)
    (hk : k.bytes.length ≤ 256) (hcmd : Phy.hasBit k.addr 0x80#8 = false) (hcrc : Phy.hasBit k.ctl Phy.CTL_CRC = true)
    (hadr : (k.dev : Int) = p.address ∨ k.dev = 127) (hseq : ¬ Acceptable p.seq k.seq)
    (hsk : p.flags.skipSeqCheck = false) (hrange : -1 ≤ p.seq ∧ p.seq ≤ 3)
    (hm : 69 ≤ p.txBufSize) (hcap : 256 ≤ env.sendCap) (ha : Arrives env k.bytes) :
    ∃ q outs r, refresh C p env = .ok (q, outs) ∧ (∀ c, Out.cmd c ∉ outs) ∧ sent outs = [Packet.bytes r] ∧
      r.data = [b8 Id.NAK, Nak.SEQ_NUM] ∧ r.addr.toNat = 128 + if k.dev = 127 then 127 else p.address.toNat := by
  rw [← pktAddr_dev] at hadr ⊢
  have hp := hl.pd
  have hexp : expire p env.now = p := by unfold expire; rw [hl.sc]; simp
  obtain ⟨t, ht⟩ := Phy.checkPacket_packet p k env hl.idle hk
    (by unfold Phy.dirOk; rw [hcmd]; show (false == !p.flags.pdMode) = true; rw [hp]; rfl) ha
  rw [Phy.bodyFrame_packet p k hcrc hadr] at ht
  have hsl : k.seq < 4 := by unfold Packet.seq; omega
  unfold Phy.checkSeq at ht
  rw [if_pos (show p.isPd = true from hp)] at ht
  obtain ⟨v1, -, v3⟩ := seq_verdict (p := p) (s := k.seq) (bc := pktAddr k == 127)
    (q := (Phy.seqVerdict (Phy.pdSeqAdvance (Phy.pdSeqPrep p k.seq (pktAddr k == 127))) k.seq).1)
    (r := (Phy.seqVerdict (Phy.pdSeqAdvance (Phy.pdSeqPrep p k.seq (pktAddr k == 127))) k.seq).2) hsl hrange rfl
  have hv := v3 hseq hsk
  generalize hbc : (pktAddr k == 127) = bc at ht hv v1
  have hprep : Phy.seqVerdict (Phy.pdSeqAdvance (Phy.pdSeqPrep p k.seq bc)) k.seq =
      (Phy.setNak { p with seq := Phy.nextSeq p.seq true, flags := { p.flags with broadcast := bc } } Nak.SEQ_NUM, .nack) := by
    have e1 : Phy.pdSeqPrep p k.seq bc = { p with flags := { p.flags with broadcast := bc } } := by
      unfold Acceptable at hseq
      have h0 : ¬ k.seq = 0 := by omega
      have h1 : ¬ (k.seq : Int) = p.seq := by omega
      unfold Phy.pdSeqPrep
      rw [if_neg h0, if_neg h1]
      dsimp only
      cases bc with
      | true => rw [if_pos rfl]
      | false => rw [if_neg (by decide)]; conv => lhs; rw [show p = { p with flags := { p.flags with broadcast := p.flags.broadcast } } from rfl, hl.bc]
    unfold Phy.seqVerdict at hv ⊢
    split
    · rw [e1]; rfl
    · rename_i hn; rw [if_neg hn] at hv; cases hv
  rw [hprep] at ht
  generalize hP : ({ p with seq := Phy.nextSeq p.seq true, flags := { p.flags with broadcast := bc } } : Pd) = P at ht
  have P1 : P.flags.pdMode = true := by rw [← hP]; exact hp
  have P2 : P.flags.broadcast = bc := by rw [← hP]
  have P3 : P.address = p.address := by rw [← hP]
  have P4 : P.scActive = false := by rw [← hP]; exact hl.sc
  have P5 : P.txBufSize = p.txBufSize := by rw [← hP]; rfl
  have hbuf := held_buf_length p k t hk hl.idle.buf
  have hrec : receiveAndProcess C p env = .ok (Phy.reload (Phy.setNak P Nak.SEQ_NUM) (Phy.heldPkt p k t), [], .reply) := by
    unfold receiveAndProcess
    rw [ht]; rfl
  have heph : (Phy.setNak P Nak.SEQ_NUM).eph = .nak Nak.SEQ_NUM := setNak_eph P1 _
  obtain ⟨q, hfin, -⟩ := finish_nak C (Phy.reload (Phy.setNak P Nak.SEQ_NUM) (Phy.heldPkt p k t)) env Nak.SEQ_NUM .reply
    (.inr rfl) P1 P4 (by show 69 ≤ P.txBufSize; rw [P5]; exact hm) hbuf hcap rfl heph
  have hlen := plainReply_length (Phy.reload (Phy.setNak P Nak.SEQ_NUM) (Phy.heldPkt p k t)) [b8 Id.NAK, Nak.SEQ_NUM]
  simp only [List.length_cons, List.length_nil] at hlen
  obtain ⟨hs, hn⟩ := sendOuts_sent (Phy.reload (Phy.setNak P Nak.SEQ_NUM) (Phy.heldPkt p k t)) env
    (plainReply (Phy.reload (Phy.setNak P Nak.SEQ_NUM) (Phy.heldPkt p k t)) [b8 Id.NAK, Nak.SEQ_NUM]).bytes (by omega)
  refine ⟨q, _, plainReply (Phy.reload (Phy.setNak P Nak.SEQ_NUM) (Phy.heldPkt p k t)) [b8 Id.NAK, Nak.SEQ_NUM], ?_, hn, hs, rfl, ?_⟩
  · unfold refresh
    rw [hexp, hrec]
    simp only [Res.ok_bind]
    rw [hfin]
    rfl
  · show ((if P.flags.broadcast = true then 0x7F#8 else i8 P.address &&& 0x7F#8) ||| 0x80#8).toNat = _
    rw [P2, P3, ← hbc]
    by_cases h7 : pktAddr k = 127
    · rw [h7, if_pos (by decide), if_pos rfl]; rfl
    · rw [if_neg h7, if_neg (by simp [h7]), or80, Phy.i8_addr _ hl.addr]

/-- a command that reaches the application: BUZ, with sequence number `s` -/
def buz (s : Nat) : List Byte := Sample.cmd s [0x6A#8, 0#8, 2#8, 1#8, 1#8, 1#8]

/-- the commands the application gets when these packets arrive, one per refresh -/
def told (p : Pd) : List (List Byte) → List Nat
  | [] => []
  | bs :: l =>
    match refresh Aes.aes p (Sample.env bs) with
    | .ok (q, outs) => (outs.filter fun o => match o with | .cmd _ => true | _ => false).length :: told q l
    | .error _ => []

/-- Non-vacuity: sequence numbers 0, 1, 1 (repeated) and 2 are accepted, and the sample PD is listening. -/
example : told Sample.pd [buz 0, buz 1, buz 1, buz 2] = [1, 1, 1, 1] ∧
    ¬ Acceptable 1 3 ∧ Acceptable 1 2 ∧ Acceptable 1 1 ∧ Acceptable 3 1 := by decide +kernel

example : Reached Aes.aes Sample.pdInfo Sample.pd ∧ Listening Sample.pd ∧ Sample.pd.flags.skipSeqCheck = false ∧
    69 ≤ Sample.pd.txBufSize ∧ ¬ Acceptable Sample.pd.seq (Packet.seq ⟨true, 101#8, 7#8, [], [b8 Id.POLL]⟩) := by
  refine ⟨sample_reached _, ⟨by decide +kernel, ⟨rfl, rfl, by decide +kernel, rfl⟩, by decide +kernel, by decide +kernel, by decide +kernel⟩, ?_⟩
  decide +kernel

/-- **Violation.**  After 0 and 1 the number 3 is refused (no command reaches the application), but the same
packet sent again is executed: the refused packet changed what the PD accepts. -/
theorem C11_rejected_packet_moves_counter :
    told Sample.pd [buz 0, buz 1, buz 3, buz 3] = [1, 1, 0, 1] ∧ ¬ Acceptable 1 3 := by decide +kernel

end Osdp.PdM
