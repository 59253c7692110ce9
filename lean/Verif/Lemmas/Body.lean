import Verif.Lemmas.Stream

/-! # The packet a receiver accepts -/

namespace Osdp.Phy

theorem collect_body {p q : Pd} {r : PktRet} (hf : Framed p) (hl : p.packetLen ≠ 0) (h : collect p = .ok (q, r))
    (hr : r ≠ .wait) : ∃ p1, Collected p p1 ∧ bodyFrame p1 (heldFrame q) = .ok (q, r) := by
  unfold collect at h
  obtain ⟨p1, h1, h⟩ := Res.bind_eq_ok.mp h
  obtain ⟨hpend, hpre⟩ := popInto_pend h1
  obtain ⟨h5, hle, hh⟩ := hf.rest hl
  have hlen := popInto_le h1
  obtain ⟨buf, hw, he⟩ := popInto_inv h1
  have hfl : p1.flags = p.flags := by rw [he]; rfl
  have hpl : p1.packetLen = p.packetLen := by rw [he]; rfl
  have hh1 : headerFields p1 = .ok (.len p1.packetLen) := by
    rw [hpl, ← hh]
    exact headerFields_take (by rw [hfl]) (by unfold Pd.isCp; rw [hfl]) (by unfold Pd.isPd; rw [hfl])
      (got_take5 h5 (by
        obtain ⟨-, hx⟩ := writeAt_take hw
        omega) hpre)
  split at h
  · injection h with h; injection h with h h'; subst h'
    exact absurd rfl hr
  · rename_i heq
    have heq' : p1.packetBufLen = p1.packetLen := by simpa using heq
    obtain ⟨e1, e2, e3⟩ := heldFrame_eq hlen heq' hh1
    rw [e3] at h
    have hk := bodyFrame_keeps h
    have k1 : q.packetBuf = p1.packetBuf := congrArg Held.buf hk
    have k3 : q.packetLen = p1.packetLen := congrArg Held.len hk
    have k4 : q.flags.hasMark = p1.flags.hasMark := congrArg Held.mark hk
    have hhf : heldFrame q = heldFrame p1 := by unfold heldFrame markLen; rw [k1, k3, k4]
    exact ⟨p1, popInto_collected h1, by rw [hhf]; exact h⟩

/-- When a packet was collected, the verdict is that on the bytes held. -/
theorem checkPacket_body {p q : Pd} {r : PktRet} {env : Env} (hf : Framed p) (h : checkPacket p env = .ok (q, r))
    (hr : r = .none ∨ r = .nack ∨ r = .busy) :
    ∃ p1, Collected p p1 ∧ bodyFrame p1 (heldFrame q) = .ok (q, r) := by
  have hw : r ≠ .wait := by rcases hr with h | h | h <;> rw [h] <;> simp
  unfold checkPacket at h
  obtain ⟨p0, h0, h⟩ := Res.bind_eq_ok.mp h
  have hc0 := intake_collected h0
  obtain ⟨x, ts, hx, rfl⟩ := intake_inv h0
  unfold assemble at h
  replace h := ite_inv h
  rcases h with ⟨hz, h⟩ | ⟨hz, h⟩
  · obtain ⟨⟨p2, hd⟩, h1, h⟩ := Res.bind_eq_ok.mp h
    unfold checkHeader at h1
    obtain ⟨⟨p1, b⟩, h2, h1⟩ := Res.bind_eq_ok.mp h1
    obtain ⟨s1, s2, s3, s4, s5⟩ := headerStart_pend h2
    have hc1 := headerStart_collected h2
    have h4 := s4 (hf.start hz)
    dsimp only at h1
    replace h1 := ite_inv h1
    rcases h1 with ⟨hb, h1⟩ | ⟨hb, h1⟩
    · injection h1 with h1; injection h1 with h1 h1'; subst h1 h1'
      injection h with h; injection h with h h'; subst h'
      simp at hr
    · have hc3 := headerRest_collected h1
      unfold headerRest at h1
      obtain ⟨p3, h3, h1⟩ := Res.bind_eq_ok.mp h1
      have hle3 := popInto_le h3
      obtain ⟨buf, hw', he⟩ := popInto_inv h3
      have hb3 : p3.packetBuf.length = 256 := by
        rw [he, ← hf.buf]; exact (writeAt_length hw').trans s2
      replace h1 := ite_inv h1
      rcases h1 with ⟨hlt, h1⟩ | ⟨hlt, h1⟩
      · injection h1 with h1; injection h1 with h1 h1'; subst h1 h1'
        injection h with h; injection h with h h'; subst h'
        simp at hr
      · obtain ⟨r', hhf, h1⟩ := Res.bind_eq_ok.mp h1
        injection h1 with h1; injection h1 with h1 h1'; subst h1 h1'
        cases r' with
        | err e =>
          injection h with h; injection h with h h'; subst h'
          rcases headerFields_ret hhf with h | h | ⟨n, h, -⟩
          · injection h with h; subst h; simp at hr
          · injection h with h; subst h; simp at hr
          · cases h
        | len k =>
          obtain ⟨_, lo, hi, -, -, -, -, -, -, hn, hn6, -⟩ := headerFields_len hhf
          have hbl' : p3.packetBufLen ≤ 5 := by
            have : p3.packetBufLen = p1.packetBufLen + (p1.rx.take (5 - p1.packetBufLen)).length := by rw [he]; rfl
            rw [List.length_take] at this
            omega
          have hfr : Framed (setLen p3 k) := by
            refine ⟨hb3, fun h => ?_, fun _ => ⟨?_, ?_, hhf⟩⟩
            · have : k = 0 := h
              omega
            · show 5 ≤ p3.packetBufLen
              omega
            · show p3.packetBufLen ≤ k
              omega
          obtain ⟨p4, hc4, hb4⟩ := collect_body (p := setLen p3 k) hfr (show k ≠ 0 by omega) h hw
          have hc5 : Collected p3 p4 := ⟨hc4.transp, hc4.sc, hc4.scActive, hc4.useScbkd, hc4.broadcast, hc4.seq, hc4.replyId, hc4.eph⟩
          exact ⟨p4, ((hc0.trans hc1).trans hc3).trans hc5, hb4⟩
  · obtain ⟨p4, hc4, hb4⟩ := collect_body (p := { p with rx := p.rx ++ x, tstamp := ts }) ⟨hf.buf, hf.start, hf.rest⟩ hz h hw
    exact ⟨p4, hc0.trans hc4, hb4⟩

end Osdp.Phy
