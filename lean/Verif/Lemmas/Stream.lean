import Verif.Lemmas.Transp
import Verif.Lemmas.Send
import Verif.Props.C03
import Verif.Props.C07

/-! # The receiver collects contiguous bytes of the line, and accepts only intact packets -/

namespace Osdp.Phy

open Spec.Wire

/-- what the receiver holds: the bytes of the packet being collected, and the FIFO -/
def pend (p : Pd) : List Byte := got p ++ p.rx

/-- the state of the receiver between calls -/
structure Framed (p : Pd) : Prop where
  buf : p.packetBuf.length = 256
  start : p.packetLen = 0 → p.packetBufLen ≤ 4
  rest : p.packetLen ≠ 0 → 5 ≤ p.packetBufLen ∧ p.packetBufLen ≤ p.packetLen ∧
    headerFields p = .ok (.len p.packetLen)

theorem channelReceive_sublist {cs : List (List Byte)} {rx rx' : List Byte} {n : Int}
    (h : channelReceive cs rx = .ok (rx', n)) : ∃ x, rx' = rx ++ x ∧ x.Sublist cs.flatten := by
  induction cs generalizing rx rx' n with
  | nil => injection h with h; injection h with h _; exact ⟨[], by simp [h], by simp⟩
  | cons c cs ih =>
    unfold channelReceive at h
    split at h
    · injection h with h; injection h with h _; exact ⟨[], by simp [h], by simp⟩
    split at h
    · cases h
    split at h
    · injection h with h; injection h with h _
      refine ⟨_, h.symm, ?_⟩
      rw [List.flatten_cons]
      exact (List.take_sublist _ _).trans (List.sublist_append_left _ _)
    split at h
    · obtain ⟨⟨rx2, n2⟩, h1, h⟩ := Res.bind_eq_ok.mp h
      injection h with h; injection h with h _; subst h
      obtain ⟨x, e, hx⟩ := ih h1
      refine ⟨c ++ x, by rw [e]; simp, ?_⟩
      rw [List.flatten_cons]
      exact List.Sublist.append (List.Sublist.refl _) hx
    · injection h with h; injection h with h _
      refine ⟨_, h.symm, ?_⟩
      rw [List.flatten_cons]
      exact List.sublist_append_left _ _

theorem intake_inv {p q : Pd} {env : Env} (h : intake p env = .ok q) :
    ∃ x ts, x.Sublist env.recv.flatten ∧ q = { p with rx := p.rx ++ x, tstamp := ts } := by
  unfold intake at h
  obtain ⟨⟨rx, n⟩, h1, h⟩ := Res.bind_eq_ok.mp h
  injection h with h; subst h
  obtain ⟨x, rfl, hx⟩ := channelReceive_sublist h1
  dsimp only
  split
  · exact ⟨x, env.now, hx, rfl⟩
  · exact ⟨x, p.tstamp, hx, rfl⟩

theorem writeAt_take {buf buf' bs : List Byte} {i : Nat} (h : writeAt buf i bs = .ok buf') :
    buf'.take (i + bs.length) = buf.take i ++ bs ∧ i + bs.length ≤ buf.length := by
  unfold writeAt at h
  split at h
  · rename_i hl
    injection h with h; subst h
    refine ⟨?_, hl⟩
    rw [List.take_append_of_le_length (by simp; omega), List.take_of_length_le (by simp; omega)]
  · cases h

theorem popInto_pend {p q : Pd} {n : Nat} (h : popInto p n = .ok q) :
    pend q = pend p ∧ got p <+: got q := by
  obtain ⟨buf, hw, rfl⟩ := popInto_inv h
  obtain ⟨e, -⟩ := writeAt_take hw
  have e2 : got (setBuf (setRx p (p.rx.drop n)) buf (p.packetBufLen + (p.rx.take n).length)) =
      got p ++ p.rx.take n := e
  unfold pend
  rw [e2]
  refine ⟨?_, ⟨_, rfl⟩⟩
  show _ ++ p.rx.drop n = _
  rw [List.append_assoc, List.take_append_drop]

theorem scan_split {prev : Byte} {a rest : List Byte} {m : Bool} (h : scan prev a = some (m, rest)) :
    ∃ pre, a = pre ++ SOM :: rest ∧ m = decide (pre.getLast?.getD prev = MARK) := by
  induction a generalizing prev with
  | nil => cases h
  | cons x a ih =>
    rw [scan] at h
    split at h
    · rename_i hx
      injection h with h; injection h with h1 h2; subst h1 h2 hx
      exact ⟨[], rfl, rfl⟩
    · obtain ⟨pre, rfl, h2⟩ := ih h
      refine ⟨x :: pre, rfl, ?_⟩
      rw [h2, List.getLast?_cons]; simp

theorem scan_start {a rest : List Byte} {m : Bool} (h : scan 0#8 a = some (m, rest)) :
    (startBytes m ++ rest).Sublist a := by
  obtain ⟨pre, rfl, hm⟩ := scan_split h
  cases m with
  | false => exact List.sublist_append_right _ _
  | true =>
    have hl : pre.getLast?.getD 0#8 = MARK := by simpa using hm.symm
    cases hp : pre.getLast? with
    | none => rw [hp] at hl; exact absurd hl (by decide)
    | some x =>
      rw [hp] at hl
      obtain ⟨ys, rfl⟩ := List.getLast?_eq_some_iff.mp hp
      have hx : x = MARK := hl
      subst hx
      rw [List.append_assoc]
      exact List.sublist_append_right _ _

theorem headerStart_pend {p q : Pd} {b : Bool} (h : headerStart p = .ok (q, b)) :
    (pend q).Sublist (pend p) ∧ q.packetBuf.length = p.packetBuf.length ∧ q.packetLen = p.packetLen ∧
    (p.packetBufLen ≤ 4 → q.packetBufLen ≤ 4) ∧ (b = false → q.packetBufLen = 0) := by
  by_cases h0 : p.packetBufLen = 0
  · rw [headerStart_scan p h0] at h
    have e0 : got p = [] := by unfold got; rw [h0]; rfl
    cases hs : scan 0#8 p.rx with
    | none =>
      rw [hs] at h
      injection h with h; injection h with h h'; subst h h'
      refine ⟨?_, rfl, rfl, fun h => h, fun _ => h0⟩
      have e1 : got (setRx p []) = [] := e0
      unfold pend
      rw [e1]; simp
    | some v =>
      rcases v with ⟨m, rest⟩
      rw [hs] at h
      obtain ⟨buf, hw, h⟩ := Res.bind_eq_ok.mp h
      injection h with h; injection h with h h'; subst h h'
      obtain ⟨e, -⟩ := writeAt_take hw
      refine ⟨?_, writeAt_length hw, rfl, fun _ => ?_, fun h => by cases h⟩
      · have e1 : got (startPkt (setRx p rest) buf (startBytes m).length m) = startBytes m := by
          simpa [got] using e
        unfold pend
        rw [e1, e0]
        exact scan_start hs
      · show (startBytes m).length ≤ 4
        cases m <;> decide
  · unfold headerStart at h
    rw [if_neg h0] at h
    injection h with h; injection h with h h'; subst h h'
    exact ⟨List.Sublist.refl _, rfl, rfl, fun h => h, fun h => by cases h⟩

theorem rd_take {l l' : List Byte} {n i : Nat} (h : l.take n = l'.take n) (hi : i < n) : rd l i = rd l' i := by
  have e : l[i]? = l'[i]? := by
    rw [← List.getElem?_take_of_lt hi, h, List.getElem?_take_of_lt hi]
  unfold rd
  rw [e]

/-- the header checks look at the first bytes only -/
theorem headerFields_take {p q : Pd} (hm : q.flags.hasMark = p.flags.hasMark) (hc : q.isCp = p.isCp)
    (hpd : q.isPd = p.isPd) (h : q.packetBuf.take 5 = p.packetBuf.take 5) : headerFields q = headerFields p := by
  have em : markLen q = markLen p := by unfold markLen; rw [hm]
  have e : ∀ i, i < 4 → rd (q.packetBuf.drop (markLen q)) i = rd (p.packetBuf.drop (markLen p)) i := by
    intro i hi
    rw [em]
    refine rd_take (n := 4) ?_ hi
    have hle : markLen p ≤ 1 := by unfold markLen; split <;> omega
    have h' := congrArg (fun l => (l.drop (markLen p)).take 4) h
    simp only [List.drop_take, List.take_take] at h'
    rw [show min 4 (5 - markLen p) = 4 by omega] at h'
    exact h'
  unfold headerFields
  dsimp only
  rw [e 0 (by omega), e 1 (by omega), e 2 (by omega), e 3 (by omega), hc, hpd, em]

theorem headerFields_len {p : Pd} {n : Nat} (h : headerFields p = .ok (.len n)) :
    ∃ a lo hi, (p.packetBuf.drop (markLen p))[0]? = some SOM ∧ (p.packetBuf.drop (markLen p))[1]? = some a ∧
      (p.packetBuf.drop (markLen p))[2]? = some lo ∧ (p.packetBuf.drop (markLen p))[3]? = some hi ∧
      (p.isPd = true → hasBit a 0x80#8 = false) ∧ (p.isCp = true → hasBit a 0x80#8 = true) ∧
      n = lo.toNat + 256 * hi.toNat + markLen p ∧
      6 ≤ lo.toNat + 256 * hi.toNat ∧ lo.toNat + 256 * hi.toNat ≤ 256 := by
  unfold headerFields at h
  dsimp only at h
  obtain ⟨s, h0, h⟩ := Res.bind_eq_ok.mp h
  split at h
  · cases h
  rename_i hs
  obtain ⟨a, h1, h⟩ := Res.bind_eq_ok.mp h
  split at h
  · cases h
  rename_i hd
  obtain ⟨lo, h2, h⟩ := Res.bind_eq_ok.mp h
  obtain ⟨hi, h3, h⟩ := Res.bind_eq_ok.mp h
  split at h
  · cases h
  rename_i hn
  injection h with h; injection h with h
  simp only [BUF_SIZE] at hn
  refine ⟨a, lo, hi, ?_, rd_some h1, rd_some h2, rd_some h3, ?_, ?_, h.symm, by omega, by omega⟩
  · have := rd_some h0
    rw [this]; simpa using hs
  · intro hp; rw [hp] at hd
    cases hb : hasBit a 0x80#8
    · rfl
    · rw [hb] at hd; simp at hd
  · intro hp; rw [hp] at hd
    cases hb : hasBit a 0x80#8
    · rw [hb] at hd; simp at hd
    · rfl

theorem and7f_of_cmd : ∀ a : Byte, hasBit a 0x80#8 = false → (a &&& 0x7F#8).toNat = a.toNat ∧ a.toNat < 128 := by
  decide +kernel

theorem byteSum_toNat (l : List Byte) : (Crc.byteSum l).toNat = (l.map BitVec.toNat).sum % 256 := by
  induction l with
  | nil => rfl
  | cons b l ih => simp only [Crc.byteSum, BitVec.toNat_add, ih, List.map_cons, List.sum_cons]; omega

theorem crcBit : ∀ c : Byte, hasBit c CTL_CRC = c.getLsbD 2 := by decide +kernel

theorem checkValue_true {f : List Byte} {m : Nat} (h6 : 6 ≤ f.length) (h : checkValue f f.length = .ok (m, true)) :
    ∃ ctl, f[4]? = some ctl ∧
      if ctl.getLsbD 2 then Spec.Crc.ValidFrame f else (f.map BitVec.toNat).sum % 256 = 0 := by
  unfold checkValue at h
  obtain ⟨c, h4, h⟩ := Res.bind_eq_ok.mp h
  have hb := crcBit c
  refine ⟨c, rd_some h4, ?_⟩
  rw [hb] at h
  split at h
  · rename_i hc
    rw [if_pos hc]
    dsimp only at h
    obtain ⟨lo, hlo, h⟩ := Res.bind_eq_ok.mp h
    obtain ⟨hi, hhi, h⟩ := Res.bind_eq_ok.mp h
    injection h with h; injection h with _ h
    have hv : (Crc.computeCrc16 (f.take (f.length - 2))).toNat = lo.toNat + 256 * hi.toNat := by simpa using h
    refine ⟨f.take (f.length - 2), ?_⟩
    rw [← le16_crc, hv]
    have e1 : f = f.take (f.length - 2) ++ f.drop (f.length - 2) := (List.take_append_drop _ _).symm
    have e2 : f.drop (f.length - 2) = [lo, hi] := by
      have hl : (f.drop (f.length - 2)).length = 2 := by simp; omega
      have g0 := rd_some hlo
      have g1 := rd_some hhi
      match hd : f.drop (f.length - 2), hl with
      | [x, y], _ =>
        have k0 : (f.drop (f.length - 2))[0]? = some lo := by rw [List.getElem?_drop]; exact g0
        have k1 : (f.drop (f.length - 2))[1]? = some hi := by rw [List.getElem?_drop]; exact g1
        rw [hd] at k0 k1
        simp at k0 k1
        rw [k0, k1]
    have e3 : le16 (lo.toNat + 256 * hi.toNat) = [lo, hi] := by
      have := lo.isLt; have := hi.isLt
      unfold le16
      simp only [byteOf_mod]
      congr 1
      · apply BitVec.eq_of_toNat_eq; simp; omega
      · congr 1; apply BitVec.eq_of_toNat_eq; simp; omega
    rw [e3, ← e2]
    exact e1
  · rename_i hc
    rw [if_neg hc]
    dsimp only at h
    obtain ⟨c', hc', h⟩ := Res.bind_eq_ok.mp h
    injection h with h; injection h with _ h
    have hv : Crc.computeChecksum (f.take (f.length - 1)) = c' := by simpa using h
    have e2 : f = f.take (f.length - 1) ++ [c'] := by
      conv => lhs; rw [← List.take_append_drop (f.length - 1) f]
      congr 1
      have hl : (f.drop (f.length - 1)).length = 1 := by simp; omega
      match hd : f.drop (f.length - 1), hl with
      | [x], _ =>
        have k0 : (f.drop (f.length - 1))[0]? = some c' := by rw [List.getElem?_drop]; exact rd_some hc'
        rw [hd] at k0
        simp at k0
        rw [k0]
    rw [← byteSum_toNat, e2, ← hv, Crc.C03_checksum_sums_to_zero]
    rfl

/-- a whole packet is held -/
theorem heldFrame_eq {p : Pd} (hl : p.packetBufLen ≤ p.packetBuf.length) (he : p.packetBufLen = p.packetLen)
    (hh : headerFields p = .ok (.len p.packetLen)) :
    (heldFrame p).length + markLen p = p.packetLen ∧ 6 ≤ (heldFrame p).length ∧
    checkPacketBody p = bodyFrame p (heldFrame p) := by
  obtain ⟨a, lo, hi, h0, h1, h2, h3, -, -, hn, h6, -⟩ := headerFields_len hh
  have hfl : (heldFrame p).length + markLen p = p.packetLen := by
    unfold heldFrame
    simp; omega
  refine ⟨hfl, by omega, ?_⟩
  refine body_frame p (heldFrame p) ((p.packetBuf.drop (markLen p)).drop (p.packetLen - markLen p)) ?_ (by omega) (by omega)
  unfold heldFrame
  rw [List.take_append_drop]

theorem bodyFrame_accept {p q : Pd} {f : List Byte} {r : PktRet} (h : bodyFrame p f = .ok (q, r))
    (hr : r = .none ∨ r = .nack) :
    ∃ m a, checkValue f f.length = .ok (m, true) ∧ f[1]? = some a ∧
      (((a &&& 0x7F#8).toNat : Int) = p.address ∨ (a &&& 0x7F#8).toNat = 0x7F) := by
  unfold bodyFrame at h
  obtain ⟨⟨m, ok⟩, h1, h⟩ := Res.bind_eq_ok.mp h
  dsimp only at h
  split at h
  · injection h with h; injection h with _ h; subst h; simp at hr
  rename_i hok
  obtain ⟨a, h2, h⟩ := Res.bind_eq_ok.mp h
  split at h
  · injection h with h; injection h with _ h; subst h
    split at hr <;> simp at hr
  rename_i ha
  refine ⟨m, a, ?_, rd_some h2, ?_⟩
  · simp at hok; rw [h1, hok]
  · omega

theorem bodyFrame_notCheck {p q : Pd} {f : List Byte} {r : PktRet} (hp : p.isPd = true)
    (h : bodyFrame p f = .ok (q, r)) : r ≠ .check := by
  unfold bodyFrame at h
  obtain ⟨⟨m, ok⟩, h1, h⟩ := Res.bind_eq_ok.mp h
  dsimp only at h
  split at h
  · injection h with h; injection h with _ h; subst h; simp
  obtain ⟨a, h2, h⟩ := Res.bind_eq_ok.mp h
  split at h
  · injection h with h; injection h with _ h; subst h
    have : p.isCp = false := by unfold Pd.isPd at hp; simp [Pd.isCp, hp]
    rw [this]; simp
  obtain ⟨c, h3, h⟩ := Res.bind_eq_ok.mp h
  rcases checkSeq_ret h with h | h | h <;> rw [h] <;> simp

/-- What `osdp_phy_check_packet` guarantees. -/
structure Stored (p q : Pd) (r : PktRet) (x : List Byte) : Prop where
  pend : (pend q).Sublist (pend p ++ x)
  buf : q.packetBuf.length = 256
  framed : r = .noData ∨ r = .wait ∨ r = .none ∨ r = .nack → Framed q
  whole : r = .none ∨ r = .nack → q.packetLen ≠ 0 ∧ q.packetBufLen = q.packetLen ∧ Intact (heldFrame q) ∧
    (p.isPd = true → CommandFor p.address (heldFrame q))
  short : r = .wait → q.packetLen = 0 ∨ q.packetBufLen < q.packetLen
  notCheck : p.isPd = true → r ≠ .check
  /-- a packet that was kept is looked at again -/
  again : p.packetLen ≠ 0 → p.packetBufLen = p.packetLen →
    q.rx.Sublist (p.rx ++ x) ∧ r ≠ .wait ∧ r ≠ .noData
  fits : r = .none ∨ r = .nack → q.packetBufLen ≤ 256

theorem got_take5 {p q : Pd} (h5 : 5 ≤ p.packetBufLen) (hl : p.packetBufLen ≤ p.packetBuf.length) (h : got p <+: got q) :
    q.packetBuf.take 5 = p.packetBuf.take 5 := by
  obtain ⟨s, hs⟩ := h
  unfold got at hs
  have hle : p.packetBufLen ≤ q.packetBufLen := by
    have := congrArg List.length hs
    simp at this
    omega
  have := congrArg (List.take 5) hs
  rw [List.take_append_of_le_length (by simp; omega), List.take_take, List.take_take] at this
  rw [show min 5 p.packetBufLen = 5 by omega, show min 5 q.packetBufLen = 5 by omega] at this
  exact this.symm

theorem collect_stored {p q : Pd} {r : PktRet} (hf : Framed p) (hl : p.packetLen ≠ 0) (h : collect p = .ok (q, r)) :
    Stored p q r [] := by
  unfold collect at h
  obtain ⟨p1, h1, h⟩ := Res.bind_eq_ok.mp h
  obtain ⟨hpend, hpre⟩ := popInto_pend h1
  obtain ⟨h5, hle, hh⟩ := hf.rest hl
  have hc1 := popInto_collected h1
  have hlen := popInto_le h1
  obtain ⟨buf, hw, he⟩ := popInto_inv h1
  have hb1 : p1.packetBuf.length = 256 := by rw [he, ← hf.buf]; exact writeAt_length hw
  have hfl : p1.flags = p.flags := by rw [he]; rfl
  have hpl : p1.packetLen = p.packetLen := by rw [he]; rfl
  have hbl : p1.packetBufLen = p.packetBufLen + (p.rx.take (p.packetLen - p.packetBufLen)).length := by rw [he]; rfl
  have hbl' := hbl
  rw [List.length_take] at hbl'
  have hh1 : headerFields p1 = .ok (.len p1.packetLen) := by
    rw [hpl, ← hh]
    exact headerFields_take (by rw [hfl]) (by unfold Pd.isCp; rw [hfl]) (by unfold Pd.isPd; rw [hfl])
      (got_take5 h5 (by
        obtain ⟨-, hx⟩ := writeAt_take hw
        omega) hpre)
  have hf1 : Framed p1 := ⟨hb1, fun h => absurd (hpl.symm.trans h) hl, fun _ => ⟨by omega, by omega, hh1⟩⟩
  split at h
  · rename_i hne
    injection h with h; injection h with h h'; subst h h'
    exact ⟨by rw [hpend, List.append_nil]; exact List.Sublist.refl _, hb1, fun _ => hf1, by simp,
      fun _ => .inr (by omega), by simp, fun _ _ => by omega, by simp⟩
  · rename_i heq
    have heq' : p1.packetBufLen = p1.packetLen := by simpa using heq
    obtain ⟨e1, e2, e3⟩ := heldFrame_eq hlen heq' hh1
    have hck := checkPacketBody_checked h
    rw [e3] at h
    have hk := bodyFrame_keeps h
    have k1 : q.packetBuf = p1.packetBuf := congrArg Held.buf hk
    have k2 : q.packetBufLen = p1.packetBufLen := congrArg Held.bufLen hk
    have k3 : q.packetLen = p1.packetLen := congrArg Held.len hk
    have k4 : q.flags.hasMark = p1.flags.hasMark := congrArg Held.mark hk
    have k5 : q.rx = p1.rx := congrArg Held.rx hk
    have hpq : pend q = pend p1 := by unfold pend got; rw [k1, k2, k5]
    have hhf : heldFrame q = heldFrame p1 := by unfold heldFrame markLen; rw [k1, k3, k4]
    have hhq : headerFields q = .ok (.len q.packetLen) := by
      rw [k3, ← hh1]
      exact headerFields_take k4 (by unfold Pd.isCp; rw [hck.transp.pdMode]) (by unfold Pd.isPd; rw [hck.transp.pdMode])
        (by rw [k1])
    have hret := checkPacketBody_ret (e3 ▸ h : checkPacketBody p1 = .ok (q, r))
    refine ⟨by rw [hpq, hpend, List.append_nil]; exact List.Sublist.refl _, by rw [k1]; exact hb1,
      fun _ => ⟨by rw [k1]; exact hb1, fun h => absurd (k3.symm.trans h) (by rw [hpl]; exact hl), fun _ => ⟨by omega, by omega, hhq⟩⟩,
      fun hr => ?_, fun hr => by subst hr; simp at hret, fun hp => ?_, fun _ _ => ⟨?_, ?_, ?_⟩, fun _ => by omega⟩
    rotate_left
    · exact bodyFrame_notCheck (by unfold Pd.isPd; rw [hfl]; exact hp) h
    · rw [k5, he, List.append_nil]; exact List.drop_sublist _ _
    · rintro rfl; simp at hret
    · rintro rfl; simp at hret
    obtain ⟨m, a, hv, ha, had⟩ := bodyFrame_accept h hr
    obtain ⟨a', lo, hi, g0, g1, g2, g3, gd, -, gn, -, -⟩ := headerFields_len hh1
    have hget : ∀ i, i < 6 → (heldFrame p1)[i]? = (p1.packetBuf.drop (markLen p1))[i]? := by
      intro i hi
      unfold heldFrame
      rw [List.getElem?_take_of_lt]
      omega
    rw [hhf]
    refine ⟨by rw [k3, hpl]; exact hl, by omega, ⟨by rw [hget 0 (by omega)]; exact g0,
      ⟨lo, hi, by rw [hget 2 (by omega)]; exact g2, by rw [hget 3 (by omega)]; exact g3, by omega⟩, e2,
      checkValue_true e2 hv⟩, fun hp => ?_⟩
    have haa : a = a' := by
      rw [hget 1 (by omega), g1] at ha
      injection ha with ha
      exact ha.symm
    subst haa
    obtain ⟨c1, c2⟩ := and7f_of_cmd a (gd (by unfold Pd.isPd; rw [hfl]; exact hp))
    rw [c1] at had
    refine ⟨a, by rw [hget 1 (by omega)]; exact g1, c2, ?_⟩
    rw [hc1.transp.address] at had
    exact had

theorem assemble_stored {p q : Pd} {r : PktRet} (hf : Framed p) (h : assemble p = .ok (q, r)) :
    Stored p q r [] := by
  unfold assemble at h
  replace h := ite_inv h
  rcases h with ⟨h0, h⟩ | ⟨h0, h⟩
  · obtain ⟨⟨p2, hr⟩, h1, h⟩ := Res.bind_eq_ok.mp h
    unfold checkHeader at h1
    obtain ⟨⟨p1, b⟩, h2, h1⟩ := Res.bind_eq_ok.mp h1
    obtain ⟨s1, s2, s3, s4, s5⟩ := headerStart_pend h2
    have hc1 := headerStart_collected h2
    have h4 := s4 (hf.start h0)
    dsimp only at h1
    replace h1 := ite_inv h1
    rcases h1 with ⟨hb, h1⟩ | ⟨hb, h1⟩
    · injection h1 with h1; injection h1 with h1 h1'; subst h1 h1'
      injection h with h; injection h with h h'; subst h h'
      exact ⟨by rw [List.append_nil]; exact s1, s2.trans hf.buf,
        fun _ => ⟨s2.trans hf.buf, fun _ => h4, fun h => absurd (s3.trans h0) h⟩, by simp, by simp, by simp,
        fun h => absurd h0 h, by simp⟩
    · unfold headerRest at h1
      obtain ⟨p3, h3, h1⟩ := Res.bind_eq_ok.mp h1
      obtain ⟨hpend, hpre⟩ := popInto_pend h3
      have hc3 := popInto_collected h3
      have hle3 := popInto_le h3
      obtain ⟨buf, hw, he⟩ := popInto_inv h3
      have hb3 : p3.packetBuf.length = 256 := by
        rw [he, ← hf.buf, ← s2]; exact writeAt_length hw
      have hpl : p3.packetLen = 0 := by rw [he]; exact s3.trans h0
      have hbl' : p3.packetBufLen ≤ 5 := by
        have : p3.packetBufLen = p1.packetBufLen + (p1.rx.take (5 - p1.packetBufLen)).length := by rw [he]; rfl
        rw [List.length_take] at this
        omega
      have hsub : (pend p3).Sublist (pend p) := by rw [hpend]; exact s1
      replace h1 := ite_inv h1
      rcases h1 with ⟨hlt, h1⟩ | ⟨hlt, h1⟩
      · injection h1 with h1; injection h1 with h1 h1'; subst h1 h1'
        injection h with h; injection h with h h'; subst h h'
        exact ⟨by rw [List.append_nil]; exact hsub, hb3, fun _ => ⟨hb3, fun _ => by omega, fun h => absurd hpl h⟩,
          by simp, fun _ => .inl hpl, by simp, fun h => absurd h0 h, by simp⟩
      · obtain ⟨r', hhf, h1⟩ := Res.bind_eq_ok.mp h1
        injection h1 with h1; injection h1 with h1 h1'; subst h1 h1'
        cases r' with
        | err e =>
          injection h with h; injection h with h h'; subst h h'
          refine ⟨by rw [List.append_nil]; exact hsub, hb3, ?_, ?_, ?_, ?_, fun h => absurd h0 h, ?_⟩
          · rcases headerFields_ret hhf with h | h | ⟨n, h, -⟩
            · injection h with h; subst h; simp
            · injection h with h; subst h; simp
            · cases h
          · rcases headerFields_ret hhf with h | h | ⟨n, h, -⟩
            · injection h with h; subst h; simp
            · injection h with h; subst h; simp
            · cases h
          · rcases headerFields_ret hhf with h | h | ⟨n, h, -⟩
            · injection h with h; subst h; simp
            · injection h with h; subst h; simp
            · cases h
          · rcases headerFields_ret hhf with h | h | ⟨n, h, -⟩
            · injection h with h; subst h; simp
            · injection h with h; subst h; simp
            · cases h
          · rcases headerFields_ret hhf with h | h | ⟨n, h, -⟩
            · injection h with h; subst h; simp
            · injection h with h; subst h; simp
            · cases h
        | len k =>
          obtain ⟨_, lo, hi, -, -, -, -, -, -, hn, hn6, -⟩ := headerFields_len hhf
          have hfr : Framed (setLen p3 k) := by
            refine ⟨hb3, fun h => ?_, fun _ => ⟨?_, ?_, hhf⟩⟩
            · have : k = 0 := h
              omega
            · show 5 ≤ p3.packetBufLen
              omega
            · show p3.packetBufLen ≤ k
              omega
          have hs := collect_stored (p := setLen p3 k) hfr (show k ≠ 0 by omega) h
          refine ⟨?_, hs.buf, hs.framed, fun hr => ?_, hs.short, fun hp => hs.notCheck ((hc1.trans hc3).transp.pdMode.trans hp),
            fun h => absurd h0 h, hs.fits⟩
          · exact hs.pend.trans (List.Sublist.append hsub (List.Sublist.refl []))
          · obtain ⟨w1, w2, w3, w4⟩ := hs.whole hr
            refine ⟨w1, w2, w3, fun hp => ?_⟩
            have e1 : (setLen p3 k).isPd = true := (hc1.trans hc3).transp.pdMode.trans hp
            have e2 : (setLen p3 k).address = p.address := (hc1.trans hc3).transp.address
            have := w4 e1
            rw [e2] at this
            exact this
  · exact collect_stored hf h0 h

theorem checkPacket_stored {p q : Pd} {r : PktRet} {env : Env} (hf : Framed p) (h : checkPacket p env = .ok (q, r)) :
    Stored p q r env.recv.flatten := by
  unfold checkPacket at h
  obtain ⟨p1, h1, h⟩ := Res.bind_eq_ok.mp h
  obtain ⟨x, ts, hx, rfl⟩ := intake_inv h1
  have hs := assemble_stored (p := { p with rx := p.rx ++ x, tstamp := ts }) ⟨hf.buf, hf.start, hf.rest⟩ h
  refine ⟨?_, hs.buf, hs.framed, hs.whole, hs.short, hs.notCheck, fun h1 h2 => ⟨?_, (hs.again h1 h2).2⟩, hs.fits⟩
  rotate_left
  · have := (hs.again h1 h2).1
    rw [List.append_nil] at this
    exact this.trans (List.Sublist.append (List.Sublist.refl _) hx)
  have := hs.pend
  rw [List.append_nil] at this
  refine this.trans ?_
  show (got p ++ (p.rx ++ x)).Sublist (got p ++ p.rx ++ _)
  rw [List.append_assoc]
  exact List.Sublist.append (List.Sublist.refl _) (List.Sublist.append (List.Sublist.refl _) hx)

end Osdp.Phy
