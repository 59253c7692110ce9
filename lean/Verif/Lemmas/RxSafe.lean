import Verif.Lemmas.Stream

/-! # What can go wrong while receiving -/

namespace Osdp

theorem Res.bind_eq_error {α β} {x : Res α} {f : α → Res β} {e : Fault} :
    (x >>= f) = .error e ↔ x = .error e ∨ ∃ a, x = .ok a ∧ f a = .error e := by
  cases x with
  | error e' => simp
  | ok a => simp

namespace Phy

/-- new bytes are a prefix of what the channel offers -/
theorem channelReceive_prefix {cs : List (List Byte)} {rx rx' : List Byte} {n : Int}
    (h : channelReceive cs rx = .ok (rx', n)) : ∃ x, rx' = rx ++ x ∧ x <+: cs.flatten := by
  induction cs generalizing rx rx' n with
  | nil => injection h with h; injection h with h _; exact ⟨[], by simp [h], by simp⟩
  | cons c cs ih =>
    unfold channelReceive at h
    split at h
    · injection h with h; injection h with h _; exact ⟨[], by simp [h], by simp⟩
    split at h
    · cases h
    split at h
    · injection h with h; injection h with h _
      refine ⟨_, h.symm, ?_⟩
      rw [List.flatten_cons]
      exact (List.take_prefix _ _).trans (List.prefix_append _ _)
    split at h
    · obtain ⟨⟨rx2, n2⟩, h1, h⟩ := Res.bind_eq_ok.mp h
      injection h with h; injection h with h _; subst h
      obtain ⟨x, e, hx⟩ := ih h1
      refine ⟨c ++ x, by rw [e]; simp, ?_⟩
      rw [List.flatten_cons]
      exact (List.prefix_append_right_inj c).mpr hx
    · injection h with h; injection h with h _
      refine ⟨_, h.symm, ?_⟩
      rw [List.flatten_cons]
      exact List.prefix_append _ _

theorem channelReceive_error {cs : List (List Byte)} {rx : List Byte} {e : Fault}
    (h : channelReceive cs rx = .error e) : e = .contract ∧ ∃ c ∈ cs, 64 < c.length := by
  induction cs generalizing rx with
  | nil => cases h
  | cons c cs ih =>
    unfold channelReceive at h
    split at h
    · cases h
    split at h
    · rename_i hc
      injection h with h
      exact ⟨h.symm, c, by simp, hc⟩
    split at h
    · cases h
    split at h
    · rcases Res.bind_eq_error.mp h with h | ⟨a, -, h⟩
      · obtain ⟨h1, d, hd, h2⟩ := ih h
        exact ⟨h1, d, List.mem_cons_of_mem _ hd, h2⟩
      · cases h
    · cases h

theorem scan_suffix {a rest : List Byte} {m : Bool} (h : scan 0#8 a = some (m, rest)) :
    (startBytes m ++ rest) <:+ a := by
  obtain ⟨pre, rfl, hm⟩ := scan_split h
  cases m with
  | false => exact List.suffix_append _ _
  | true =>
    have hl : pre.getLast?.getD 0#8 = MARK := by simpa using hm.symm
    cases hp : pre.getLast? with
    | none => rw [hp] at hl; exact absurd hl (by decide)
    | some x =>
      rw [hp] at hl
      obtain ⟨ys, rfl⟩ := List.getLast?_eq_some_iff.mp hp
      have hx : x = MARK := hl
      subst hx
      rw [List.append_assoc]
      exact List.suffix_append _ _

theorem headerStart_suffix {p q : Pd} {b : Bool} (h : headerStart p = .ok (q, b)) : pend q <:+ pend p := by
  by_cases h0 : p.packetBufLen = 0
  · rw [headerStart_scan p h0] at h
    have e0 : got p = [] := by unfold got; rw [h0]; rfl
    cases hs : scan 0#8 p.rx with
    | none =>
      rw [hs] at h
      injection h with h; injection h with h h'; subst h h'
      have e1 : got (setRx p []) = [] := e0
      unfold pend
      rw [e1]
      exact List.nil_suffix
    | some v =>
      rcases v with ⟨m, rest⟩
      rw [hs] at h
      obtain ⟨buf, hw, h⟩ := Res.bind_eq_ok.mp h
      injection h with h; injection h with h h'; subst h h'
      obtain ⟨e, -⟩ := writeAt_take hw
      have e1 : got (startPkt (setRx p rest) buf (startBytes m).length m) = startBytes m := by
        simpa [got] using e
      unfold pend
      rw [e1, e0]
      exact scan_suffix hs
  · unfold headerStart at h
    rw [if_neg h0] at h
    injection h with h; injection h with h h'; subst h h'
    exact List.suffix_rfl

theorem writeAt_error {buf bs : List Byte} {i : Nat} {e : Fault} (h : writeAt buf i bs = .error e) :
    e = .oobWrite ∧ buf.length < i + bs.length := by
  unfold writeAt at h
  split at h
  · cases h
  · injection h with h; exact ⟨h.symm, by omega⟩

theorem popInto_fault {p : Pd} {n : Nat} {e : Fault} (h : popInto p n = .error e) :
    e = .oobWrite ∧ p.packetBuf.length < p.packetBufLen + n := by
  unfold popInto at h
  rcases Res.bind_eq_error.mp h with h | ⟨a, -, h⟩
  · obtain ⟨h1, h2⟩ := writeAt_error h
    rw [List.length_take] at h2
    exact ⟨h1, by omega⟩
  · cases h

theorem rd_exists {l : List Byte} {i : Nat} (h : i < l.length) : ∃ b, rd l i = .ok b :=
  ⟨l[i], rd_ok (List.getElem?_eq_getElem h)⟩

theorem headerFields_total {p : Pd} (h : 5 ≤ p.packetBuf.length) : ∃ r, headerFields p = .ok r := by
  have hm : markLen p ≤ 1 := by unfold markLen; split <;> omega
  have hl : 4 ≤ (p.packetBuf.drop (markLen p)).length := by rw [List.length_drop]; omega
  obtain ⟨b0, h0⟩ := rd_exists (l := p.packetBuf.drop (markLen p)) (i := 0) (by omega)
  obtain ⟨b1, h1⟩ := rd_exists (l := p.packetBuf.drop (markLen p)) (i := 1) (by omega)
  obtain ⟨b2, h2⟩ := rd_exists (l := p.packetBuf.drop (markLen p)) (i := 2) (by omega)
  obtain ⟨b3, h3⟩ := rd_exists (l := p.packetBuf.drop (markLen p)) (i := 3) (by omega)
  unfold headerFields
  dsimp only
  rw [h0, h1, h2, h3]
  dsimp only [Res.ok_bind, Res.pure_eq]
  split
  · exact ⟨_, rfl⟩
  split
  · exact ⟨_, rfl⟩
  split <;> exact ⟨_, rfl⟩

theorem checkValue_total {f : List Byte} {n : Nat} (h : n ≤ f.length) (h6 : 6 ≤ n) :
    ∃ m b, checkValue f n = .ok (m, b) ∧ m + 1 ≤ n := by
  obtain ⟨b4, h4⟩ := rd_exists (l := f) (i := 4) (by omega)
  obtain ⟨c1, g1⟩ := rd_exists (l := f) (i := n - 2) (by omega)
  obtain ⟨c2, g2⟩ := rd_exists (l := f) (i := n - 2 + 1) (by omega)
  obtain ⟨c3, g3⟩ := rd_exists (l := f) (i := n - 1) (by omega)
  unfold checkValue
  rw [h4]
  dsimp only [Res.ok_bind, Res.pure_eq]
  split
  · rw [g1]
    dsimp only [Res.ok_bind]
    rw [g2]
    exact ⟨_, _, rfl, by omega⟩
  · rw [g3]
    exact ⟨_, _, rfl, by omega⟩

theorem checkPacketBody_total {p : Pd} (h : p.packetLen ≤ p.packetBuf.length) (h6 : 6 ≤ p.packetLen - markLen p) :
    ∃ r, checkPacketBody p = .ok r := by
  have hl : p.packetLen - markLen p ≤ (p.packetBuf.drop (markLen p)).length := by rw [List.length_drop]; omega
  obtain ⟨m, b, hv, hm⟩ := checkValue_total hl h6
  obtain ⟨b1, h1⟩ := rd_exists (l := p.packetBuf.drop (markLen p)) (i := 1) (by omega)
  obtain ⟨b4, h4⟩ := rd_exists (l := p.packetBuf.drop (markLen p)) (i := 4) (by omega)
  obtain ⟨b5, h5⟩ := rd_exists (l := p.packetBuf.drop (markLen p)) (i := 5) (by omega)
  unfold checkPacketBody
  dsimp only
  rw [hv, h1, h4]
  dsimp only [Res.ok_bind, Res.pure_eq]
  split
  · exact ⟨_, rfl⟩
  split
  · exact ⟨_, rfl⟩
  unfold checkSeq
  split
  · exact ⟨_, rfl⟩
  · unfold isBusy
    split
    · rw [h5]
      dsimp only [Res.ok_bind, Res.pure_eq]
      split <;> exact ⟨_, rfl⟩
    · exact ⟨_, rfl⟩

/-- The receiver between calls, for a packet buffer of any size. -/
structure Sound (p : Pd) : Prop where
  buf : 256 ≤ p.packetBuf.length
  start : p.packetLen = 0 → p.packetBufLen ≤ 4
  rest : p.packetLen ≠ 0 → 5 ≤ p.packetBufLen ∧ p.packetBufLen ≤ p.packetLen ∧
    headerFields p = .ok (.len p.packetLen)

theorem Framed.sound {p : Pd} (h : Framed p) : Sound p := ⟨by rw [h.buf]; exact Nat.le_refl _, h.start, h.rest⟩

theorem collect_fault {p : Pd} {e : Fault} (hs : Sound p) (hl : p.packetLen ≠ 0) (h : collect p = .error e) :
    e = .oobWrite ∧ p.packetBuf.length = 256 ∧ p.flags.hasMark = true ∧ ∃ a, [SOM, a, 0x00#8, 0x01#8] <:+: pend p := by
  obtain ⟨h5, hle, hh⟩ := hs.rest hl
  obtain ⟨a, lo, hi, g0, g1, g2, g3, -, -, hn, h6, h256⟩ := headerFields_len hh
  have hm : markLen p ≤ 1 := by unfold markLen; split <;> omega
  unfold collect at h
  rcases Res.bind_eq_error.mp h with h | ⟨q, hq, h⟩
  · obtain ⟨rfl, hlt⟩ := popInto_fault h
    have hb := hs.buf
    refine ⟨rfl, by omega, ?_, a, ?_⟩
    · have : markLen p = 1 := by omega
      unfold markLen at this
      split at this
      · assumption
      · cases this
    · have hm1 : markLen p = 1 := by omega
      have elo : lo = 0x00#8 := by apply BitVec.eq_of_toNat_eq; simp; have := hi.isLt; have := lo.isLt; omega
      have ehi : hi = 0x01#8 := by apply BitVec.eq_of_toNat_eq; simp; have := hi.isLt; have := lo.isLt; omega
      subst elo ehi
      have : [SOM, a, 0x00#8, 0x01#8] = (p.packetBuf.drop 1).take 4 := by
        rw [hm1] at g0 g1 g2 g3
        have hlen : ((p.packetBuf.drop 1).take 4).length = 4 := by simp; omega
        refine List.ext_getElem? fun i => ?_
        match i with
        | 0 => rw [List.getElem?_take_of_lt (by omega), g0]; rfl
        | 1 => rw [List.getElem?_take_of_lt (by omega), g1]; rfl
        | 2 => rw [List.getElem?_take_of_lt (by omega), g2]; rfl
        | 3 => rw [List.getElem?_take_of_lt (by omega), g3]; rfl
        | i + 4 => simp; omega
      rw [this]
      have e2 : (p.packetBuf.drop 1).take 4 <:+: got p := by
        unfold got
        have : ((p.packetBuf.take p.packetBufLen).drop 1).take 4 = (p.packetBuf.drop 1).take 4 := by
          rw [List.drop_take, List.take_take]
          congr 1
          omega
        rw [← this]
        exact (List.take_prefix _ _).isInfix.trans (List.drop_suffix _ _).isInfix
      exact e2.trans (List.prefix_append _ _).isInfix
  · split at h
    · cases h
    · rename_i he
      obtain ⟨buf, hw, hqe⟩ := popInto_inv hq
      have hlen := popInto_le hq
      have e1 : q.packetLen = p.packetLen := by rw [hqe]; rfl
      have e2 : markLen q = markLen p := by rw [hqe]; rfl
      obtain ⟨r, hr⟩ := checkPacketBody_total (p := q) (by omega) (by rw [e1, e2]; omega)
      rw [hr] at h; cases h

theorem assemble_fault {p : Pd} {e : Fault} (hs : Sound p) (h : assemble p = .error e) :
    e = .oobWrite ∧ p.packetBuf.length = 256 ∧ ∃ a, [SOM, a, 0x00#8, 0x01#8] <:+: pend p := by
  unfold assemble at h
  split at h
  · rename_i h0
    have h4 := hs.start h0
    have hb := hs.buf
    rcases Res.bind_eq_error.mp h with h | ⟨⟨q, r⟩, hq, h⟩
    · exfalso
      unfold checkHeader at h
      rcases Res.bind_eq_error.mp h with h | ⟨⟨p1, found⟩, h1, h⟩
      · by_cases hz : p.packetBufLen = 0
        · rw [headerStart_scan p hz] at h
          split at h
          · cases h
          · rename_i m rest _
            rcases Res.bind_eq_error.mp h with h | ⟨_, -, h⟩
            · have := (writeAt_error h).2
              have : (startBytes m).length ≤ 2 := by cases m <;> decide
              omega
            · cases h
        · unfold headerStart at h
          rw [if_neg hz] at h; cases h
      · obtain ⟨-, e1, e2, e3, -⟩ := headerStart_pend h1
        dsimp only at h
        split at h
        · cases h
        · unfold headerRest at h
          rcases Res.bind_eq_error.mp h with h | ⟨p2, h2, h⟩
          · have := (popInto_fault h).2
            have := e3 h4
            omega
          · split at h
            · cases h
            · obtain ⟨buf, hw, he⟩ := popInto_inv h2
              have hl2 : p2.packetBuf.length = p1.packetBuf.length := by rw [he]; exact writeAt_length hw
              obtain ⟨r, hr⟩ := headerFields_total (p := p2) (by omega)
              rw [hr] at h
              cases h
    · cases r with
      | err r => cases h
      | len k =>
        dsimp only at h
        unfold checkHeader at hq
        obtain ⟨⟨p1, found⟩, h1, hq⟩ := Res.bind_eq_ok.mp hq
        obtain ⟨-, e1, e2, e3, -⟩ := headerStart_pend h1
        have hsuf := headerStart_suffix h1
        dsimp only at hq
        split at hq
        · injection hq with hq; injection hq with _ hq; cases hq
        · unfold headerRest at hq
          obtain ⟨p2, h2, hq⟩ := Res.bind_eq_ok.mp hq
          split at hq
          · injection hq with hq; injection hq with _ hq; cases hq
          · rename_i h5
            obtain ⟨r, hr, hq⟩ := Res.bind_eq_ok.mp hq
            injection hq with hq; injection hq with hq1 hq2; subst hq1 hq2
            obtain ⟨buf, hw, he⟩ := popInto_inv h2
            have hl2 : p2.packetBuf.length = p1.packetBuf.length := by rw [he]; exact writeAt_length hw
            obtain ⟨hpe, -⟩ := popInto_pend h2
            have hbl : p2.packetBufLen = 5 := by
              have : p2.packetBufLen = p1.packetBufLen + (p1.rx.take (5 - p1.packetBufLen)).length := by rw [he]; rfl
              rw [List.length_take] at this
              have := e3 h4
              omega
            obtain ⟨a, lo, hi, g0, g1, g2, g3, -, -, hn, h6, h256⟩ := headerFields_len hr
            have hsd : Sound { p2 with packetLen := k } := by
              refine ⟨by show 256 ≤ p2.packetBuf.length; omega, fun hk => ?_, fun _ => ⟨by show 5 ≤ p2.packetBufLen; omega, ?_, hr⟩⟩
              · have : k = 0 := hk
                omega
              · show p2.packetBufLen ≤ k; omega
            obtain ⟨f1, f2, -, a, f3⟩ := collect_fault hsd (by show k ≠ 0; omega) h
            refine ⟨f1, by rw [← e1, ← hl2]; exact f2, a, ?_⟩
            have f3' : [SOM, a, 0x00#8, 0x01#8] <:+: pend p2 := f3
            rw [hpe] at f3'
            exact f3'.trans hsuf.isInfix
  · rename_i h0
    obtain ⟨f1, f2, -, f3⟩ := collect_fault hs h0 h
    exact ⟨f1, f2, f3⟩

/-- All faults of the receiver. -/
theorem checkPacket_fault {p : Pd} {env : Env} {e : Fault} (hs : Sound p) (h : checkPacket p env = .error e) :
    (e = .contract ∧ ∃ c ∈ env.recv, 64 < c.length) ∨
    (e = .oobWrite ∧ p.packetBuf.length = 256 ∧ ∃ a, [SOM, a, 0x00#8, 0x01#8] <:+: pend p ++ env.recv.flatten) := by
  unfold checkPacket at h
  rcases Res.bind_eq_error.mp h with h | ⟨q, hq, h⟩
  · left
    unfold intake at h
    rcases Res.bind_eq_error.mp h with h | ⟨a, -, h⟩
    · exact channelReceive_error h
    · cases h
  · right
    unfold intake at hq
    obtain ⟨⟨rx, n⟩, h1, hq⟩ := Res.bind_eq_ok.mp hq
    injection hq with hq
    obtain ⟨x, rfl, hx⟩ := channelReceive_prefix h1
    have hsq : Sound q ∧ pend q = pend p ++ x ∧ q.packetBuf.length = p.packetBuf.length := by
      rw [← hq]
      dsimp only
      split <;> exact ⟨⟨hs.buf, hs.start, hs.rest⟩, by unfold pend got; simp, rfl⟩
    obtain ⟨f1, f2, a, f3⟩ := assemble_fault hsq.1 h
    rw [hsq.2.1] at f3
    exact ⟨f1, by rw [← hsq.2.2]; exact f2, a,
      f3.trans ((List.prefix_append_right_inj _).mpr hx).isInfix⟩

/-- an intact packet passes the check -/
theorem checkValue_intact {f : List Byte} (h : Spec.Wire.Intact f) : ∃ m, checkValue f f.length = .ok (m, true) := by
  obtain ⟨-, -, h6, ctl, h4, hck⟩ := h
  unfold checkValue
  rw [rd_ok h4]
  dsimp only [Res.ok_bind, Res.pure_eq]
  have hb := crcBit ctl
  by_cases hc : ctl.getLsbD 2 = true
  · rw [if_pos hc] at hck
    rw [if_pos (by rw [hb]; exact hc)]
    obtain ⟨m, hm⟩ := hck
    rw [← le16_crc] at hm
    have hl : f.length = m.length + 2 := by rw [hm]; simp [le16]
    rw [show f.length - 2 = m.length by omega]
    have hlo : rd f m.length = .ok (byteOf 0 (Crc.computeCrc16 m).toNat) := by
      apply rd_ok; rw [hm, List.getElem?_append_right (by omega)]; simp [le16]
    have hhi : rd f (m.length + 1) = .ok (byteOf 1 (Crc.computeCrc16 m).toNat) := by
      apply rd_ok; rw [hm, List.getElem?_append_right (by omega)]; simp [le16]
    rw [hlo, hhi]
    dsimp only [Res.ok_bind]
    have ht : f.take m.length = m := by rw [hm, List.take_left]
    rw [ht, byteOf_mod, byteOf_mod]
    have := (Crc.computeCrc16 m).isLt
    refine ⟨m.length, ?_⟩
    congr 2
    apply decide_eq_true
    simp; omega
  · rw [if_neg hc] at hck
    rw [if_neg (by rw [hb]; exact hc)]
    obtain ⟨c, hc'⟩ := rd_exists (l := f) (i := f.length - 1) (by omega)
    rw [hc']
    dsimp only [Res.ok_bind]
    have e2 : f = f.take (f.length - 1) ++ [c] := by
      conv => lhs; rw [← List.take_append_drop (f.length - 1) f]
      congr 1
      have hl : (f.drop (f.length - 1)).length = 1 := by simp; omega
      match hd : f.drop (f.length - 1), hl with
      | [x], _ =>
        have k0 : (f.drop (f.length - 1))[0]? = some c := by rw [List.getElem?_drop]; exact rd_some hc'
        rw [hd] at k0
        simp at k0
        rw [k0]
    refine ⟨f.length - 1, ?_⟩
    congr 2
    apply decide_eq_true
    rw [Crc.computeChecksum_eq]
    have hz : Crc.byteSum (f.take (f.length - 1) ++ [c]) = 0#8 := by
      rw [← e2]
      apply BitVec.eq_of_toNat_eq
      rw [byteSum_toNat, hck]; rfl
    rw [Crc.byteSum_append] at hz
    have hz' : Crc.byteSum (f.take (f.length - 1)) + c = 0#8 := by simpa [Crc.byteSum] using hz
    have e3 := BitVec.add_left_neg (Crc.byteSum (f.take (f.length - 1)))
    rw [BitVec.add_comm] at e3
    exact ((BitVec.add_right_inj _).mp (e3.trans hz'.symm))

/-- a packet of the other direction: only its first five bytes are taken -/
theorem assemble_wrongdir (p : Pd) (m : Bool) (a lo hi ctl : Byte) (tail : List Byte)
    (hb : p.packetBufLen = 0) (hpl : p.packetLen = 0) (hbuf : p.packetBuf.length = 256)
    (hrx : p.rx = (if m then [MARK] else []) ++ (SOM :: a :: lo :: hi :: ctl :: tail))
    (hdir : dirOk p a = false) :
    assemble p = .ok (hold (setMark p m) (startBytes m ++ (a :: lo :: hi :: ctl :: tail).take (5 - (startBytes m).length))
      ((a :: lo :: hi :: ctl :: tail).drop (5 - (startBytes m).length)), .skip) := by
  have hrx' : p.rx = startBytes m ++ (a :: lo :: hi :: ctl :: tail) := by
    rw [hrx]; cases m <;> simp [startBytes]
  rw [assemble_eq p hpl, headerStart_frame p m _ hb (by omega) hrx']
  simp only [Res.ok_bind, if_true]
  unfold assembleFrom headerRest
  have hm : (startBytes m).length = 1 + (if m then 1 else 0) := by cases m <;> rfl
  simp only [hold_packetBufLen]
  rw [popInto_hold _ _ _ _ (by simp only [setMark_packetBuf, List.length_take]; cases m <;> simp [startBytes] <;> omega)]
  simp only [Res.ok_bind, hold_packetBufLen]
  have h5' : ¬ (startBytes m ++ List.take (5 - (startBytes m).length) (a :: lo :: hi :: ctl :: tail)).length < 5 := by
    cases m <;> simp [startBytes]
  simp only [h5', if_false]
  have hf : headerFields (hold (setMark p m) (startBytes m ++ List.take (5 - (startBytes m).length)
      (a :: lo :: hi :: ctl :: tail)) (List.drop (5 - (startBytes m).length)
      (a :: lo :: hi :: ctl :: tail))) = .ok (.err .skip) := by
    unfold headerFields
    simp only [markLen_hold, markLen_setMark, hold_packetBuf]
    have hd : ((!p.flags.pdMode && !hasBit a 0x80#8) || (p.flags.pdMode && hasBit a 0x80#8)) = true := by
      unfold dirOk at hdir
      simp only [Pd.isCp] at hdir
      revert hdir; cases hasBit a 0x80#8 <;> cases p.flags.pdMode <;> simp
    cases m
    · simp only [startBytes, Bool.false_eq_true, if_false, List.drop_zero, List.length_cons, List.length_nil,
        List.cons_append, List.nil_append, List.take]
      rw [rd_ok (b := SOM) rfl]
      simp only [Res.ok_bind, ne_eq, not_true_eq_false, if_false]
      rw [rd_ok (b := a) rfl]
      simp only [Res.ok_bind]
      simp only [Pd.isCp, Pd.isPd, hold_flags, setMark_pdMode, hd]
      rfl
    · simp only [startBytes, if_true, List.length_cons, List.length_nil,
        List.cons_append, List.nil_append, List.take, List.drop]
      rw [rd_ok (b := SOM) rfl]
      simp only [Res.ok_bind, ne_eq, not_true_eq_false, if_false]
      rw [rd_ok (b := a) rfl]
      simp only [Res.ok_bind]
      simp only [Pd.isCp, Pd.isPd, hold_flags, setMark_pdMode, hd]
      rfl
  rw [hf]
  rfl

end Phy
end Osdp
