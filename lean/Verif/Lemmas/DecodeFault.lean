import Verif.Spec.Block
import Verif.Lemmas.RxSafe
import Verif.Lemmas.Mac
import Verif.Lemmas.Body
import Verif.Lemmas.CpEvent

/-!
# When taking a packet apart goes wrong

Only a security block that is longer than the packet makes `osdp_phy_decode_packet` leave its buffer.
-/

namespace Osdp.Phy

open Spec.Block (Overlong checkLen)

theorem hasBit_scb (c : Byte) : hasBit c CTL_SCB = c.getLsbD 3 := by revert c; decide +kernel
theorem hasBit_crc (c : Byte) : hasBit c CTL_CRC = c.getLsbD 2 := by revert c; decide +kernel

theorem computeMac_total (C : Cipher) (ic : Bool) (sc : Sc) (msg : List Byte) (h : msg ≠ []) (hl : msg.length ≤ 256) :
    ∃ s, Sc.computeMac C ic sc msg = .ok s := by
  cases ic
  · exact ⟨_, computeMac_reply h hl⟩
  · exact ⟨_, computeMac_cmd h hl⟩

theorem writeAt_total {buf bs : List Byte} {i : Nat} (h : i + bs.length ≤ buf.length) : ∃ b, writeAt buf i bs = .ok b := by
  unfold writeAt; rw [if_pos h]; exact ⟨_, rfl⟩

/-- A packet is held completely. -/
structure Held1 (q : Pd) : Prop where
  buf : q.packetBuf.length = 256
  full : q.packetBufLen = q.packetLen
  fits : q.packetBufLen ≤ 256
  least : markLen q + 6 ≤ q.packetLen

theorem Held1.mark {q : Pd} (h : Held1 q) : markLen q ≤ 1 := by unfold markLen; split <;> omega

theorem Held1.length {q : Pd} (h : Held1 q) : (heldFrame q).length = q.packetLen - markLen q := by
  unfold heldFrame
  have := h.buf; have := h.full; have := h.fits
  simp only [List.length_take, List.length_drop]; omega

theorem Held1.at {q : Pd} (h : Held1 q) {i : Nat} (hi : i < q.packetLen - markLen q) :
    (heldFrame q)[i]? = (q.packetBuf.drop (markLen q))[i]? := by
  unfold heldFrame
  rw [List.getElem?_take_of_lt hi]

theorem checkPacket_held {p q : Pd} {env : Env} (hf : Framed p) (h : checkPacket p env = .ok (q, .none)) : Held1 q := by
  have hs := checkPacket_stored hf h
  obtain ⟨w1, w2, w3, -⟩ := hs.whole (.inl rfl)
  obtain ⟨-, -, hh⟩ := (hs.framed (.inr (.inr (.inl rfl)))).rest w1
  obtain ⟨a, lo, hi, -, -, -, -, -, -, hn, h6, -⟩ := headerFields_len hh
  exact ⟨hs.buf, w2, hs.fits (.inl rfl), by omega⟩

theorem decryptData_total {C : Cipher} {ae ic : Bool} {sc : Sc} {data : List Byte} {n : Int} (h : 0 ≤ n) :
    ∃ r, Sc.decryptData C ae ic sc data n = .ok r := by
  unfold Sc.decryptData
  split
  · exact ⟨_, rfl⟩
  rw [if_neg (by omega)]
  split
  · exact ⟨_, rfl⟩
  · exact ⟨_, rfl⟩

/-- a NAK is pending -/
def NakSet (q : Pd) : Prop := q.replyId = Id.NAK ∧ (q.flags.pdMode = true → ∃ c, q.eph = .nak c)

theorem nakSet (p : Pd) (c : Byte) : NakSet (nackWith p c).1 := by
  refine ⟨rfl, fun h => ⟨c, ?_⟩⟩
  have h : p.flags.pdMode = true := h
  unfold nackWith setNak; simp [h]

theorem decodeCipher_total {C : Cipher} {p : Pd} {sb : Nat} {len : Int} (h1 : 1 ≤ len)
    (h2 : markLen p + 5 + sb + len ≤ p.packetBuf.length) :
    ∃ q d, decodeCipher C p sb len = .ok (q, d) ∧ ((d.len = PKT_NACK ∧ NakSet q) ∨
      (1 ≤ d.len ∧ d.len ≤ d.data.length)) := by
  unfold decodeCipher
  obtain ⟨r, hr⟩ := decryptData_total (C := C) (ae := p.flags.allowEmpty) (ic := p.isPd) (sc := p.sc)
    (data := p.packetBuf.drop (markLen p + 5 + sb + 1)) (n := len - 1) (by omega)
  dsimp only
  rw [hr]
  cases r with
  | none => exact ⟨_, _, rfl, .inl ⟨rfl, nakSet _ _⟩⟩
  | some plain =>
    obtain ⟨-, hl⟩ := decryptData_some hr
    obtain ⟨b, hb⟩ := writeAt_total (buf := p.packetBuf) (i := markLen p + 5 + sb + 1)
      (bs := plain ++ List.replicate ((len - 1).toNat - plain.length) 0#8) (by simp; omega)
    show ∃ q d, (writeAt p.packetBuf (markLen p + 5 + sb + 1) (plain ++ List.replicate ((len - 1).toNat - plain.length) 0#8) >>= _) = _ ∧ _
    rw [hb]
    refine ⟨_, _, rfl, .inr ⟨?_, ?_⟩⟩
    · show (1 : Int) ≤ (plain.length : Int) + 1; omega
    · have := writeAt_length hb
      show (plain.length : Int) + 1 ≤ ((b.drop (markLen p + 5 + sb + 1 - 1)).length : Int)
      rw [List.length_drop]; omega

/-- Taking apart a packet whose security block fits never leaves the buffer; a negative answer is a NAK, and what is
handed on lies within the buffer. -/
theorem decodePacket_total {C : Cipher} {p : Pd} (h : Held1 p) (hn : ¬ Overlong p.scActive (heldFrame p)) :
    ∃ q d, decodePacket C p = .ok (q, d) ∧ (d.len = PKT_NACK → NakSet q) ∧
      (0 < d.len → d.len ≤ d.data.length) := by
  have hb := h.buf; have hfu := h.full; have hfi := h.fits; have hle := h.least; have hm := h.mark
  have hl : (p.packetBuf.drop (markLen p)).length = 256 - markLen p := by rw [List.length_drop, hb]
  obtain ⟨ctl, hc⟩ := rd_exists (l := p.packetBuf.drop (markLen p)) (i := 4) (by omega)
  obtain ⟨sb, h5⟩ := rd_exists (l := p.packetBuf.drop (markLen p)) (i := 5) (by omega)
  obtain ⟨ty, h6⟩ := rd_exists (l := p.packetBuf.drop (markLen p)) (i := 6) (by omega)
  obtain ⟨d2, h7⟩ := rd_exists (l := p.packetBuf.drop (markLen p)) (i := 7) (by omega)
  have gc : (heldFrame p)[4]? = some ctl := (h.at (by omega)).trans (rd_some hc)
  have g5 : (heldFrame p)[5]? = some sb := (h.at (by omega)).trans (rd_some h5)
  unfold decodePacket
  rw [hc]
  dsimp only [bind, Except.bind]
  rw [hasBit_scb, hasBit_crc]
  have hcl : (if ctl.getLsbD 2 = true then 2 else 1 : Int) = (checkLen ctl : Int) := by
    unfold checkLen; split <;> rfl
  rw [hcl]
  have hcl2 : checkLen ctl = 1 ∨ checkLen ctl = 2 := by unfold checkLen; split <;> simp
  by_cases hs : ctl.getLsbD 3 = true
  · rw [if_pos hs]
    have n1 : 5 + sb.toNat + 1 + checkLen ctl ≤ p.packetLen - markLen p := by
      rw [← h.length]
      exact Nat.le_of_not_lt fun hx => hn ⟨ctl, sb, gc, hs, g5, .inl hx⟩
    have g6 : (heldFrame p)[6]? = some ty := (h.at (by omega)).trans (rd_some h6)
    unfold decodeScb
    dsimp only
    split
    · exact ⟨_, _, rfl, fun _ => nakSet _ _, fun h => absurd h (by simp [nackWith, PKT_NACK])⟩
    rw [h6]
    dsimp only [bind, Except.bind]
    split
    · exact ⟨_, _, rfl, fun _ => nakSet _ _, fun h => absurd h (by simp [nackWith, PKT_NACK])⟩
    split
    · exact ⟨_, _, rfl, fun _ => nakSet _ _, fun h => absurd h (by simp [nackWith, PKT_NACK])⟩
    rw [h7]
    dsimp only
    rw [h5]
    dsimp only
    have e1 : (noteScbkd p ty d2).packetBuf = p.packetBuf ∧ markLen (noteScbkd p ty d2) = markLen p ∧
        (noteScbkd p ty d2).scActive = p.scActive := by
      unfold noteScbkd; split <;> exact ⟨rfl, rfl, rfl⟩
    generalize noteScbkd p ty d2 = p1 at e1
    obtain ⟨e1, e2, e3⟩ := e1
    split
    · rename_i ha
      rw [e3] at ha
      have n2 : 5 + sb.toNat + 1 + 4 + checkLen ctl ≤ p.packetLen - markLen p := by
        rw [← h.length]
        exact Nat.le_of_not_lt fun hx => hn ⟨ctl, sb, gc, hs, g5, .inr ⟨ha.1, ⟨ty, g6, ha.2⟩, hx⟩⟩
      unfold decodeSecured
      dsimp only
      rw [if_neg (by omega), e1, e2]
      obtain ⟨s, hsc⟩ := computeMac_total C p1.isPd p1.sc
        ((p.packetBuf.drop (markLen p)).take ((p.packetBufLen : Int) - markLen p - checkLen ctl - 4).toNat)
        (by intro hx; have := congrArg List.length hx; simp only [List.length_take, List.length_nil] at this; omega)
        (by simp only [List.length_take]; omega)
      rw [hsc]
      dsimp only [bind, Except.bind]
      generalize (if (setSc p1 s).isPd = true then s.cMac else s.rMac) = mm
      split
      · exact ⟨_, _, rfl, fun _ => nakSet _ _, fun h => absurd h (by simp [nackWith, PKT_NACK])⟩
      split
      · obtain ⟨q, d, hd, ho⟩ := decodeCipher_total (C := C) (p := setSc p1 s) (sb := sb.toNat)
          (len := (p.packetBufLen : Int) - markLen p - checkLen ctl - 5 - sb.toNat - 4) (by omega)
          (by show (markLen p1 : Int) + _ + _ + _ ≤ (p1.packetBuf.length : Int); rw [e1, e2]; omega)
        refine ⟨q, d, hd, fun hx => ?_, fun hx => ?_⟩
        · rcases ho with ho | ho
          · exact ho.2
          · rw [hx] at ho; exact absurd ho.1 (by decide)
        · rcases ho with ho | ho
          · rw [ho.1] at hx; exact absurd hx (by decide)
          · exact ho.2
      · refine ⟨_, _, rfl, fun hx => ?_, fun _ => ?_⟩
        · have hx : (p.packetBufLen : Int) - markLen p - checkLen ctl - 5 - sb.toNat - 4 = -6 := hx
          omega
        · show _ ≤ (((p.packetBuf.drop (markLen p)).drop (5 + sb.toNat)).length : Int)
          rw [List.length_drop, hl]; dsimp only; omega
    · refine ⟨_, _, rfl, fun hx => ?_, fun _ => ?_⟩
      · have hx : (p.packetBufLen : Int) - markLen p - checkLen ctl - 5 - sb.toNat = -6 := hx
        omega
      · show _ ≤ (((p.packetBuf.drop (markLen p)).drop (5 + sb.toNat)).length : Int)
        rw [List.length_drop, hl]; dsimp only; omega
  · rw [if_neg hs]
    unfold decodePlain
    dsimp only
    rw [h5]
    dsimp only [bind, Except.bind]
    split
    · exact ⟨_, _, rfl, fun _ => nakSet _ _, fun h => absurd h (by simp [nackWith, PKT_NACK])⟩
    · refine ⟨_, _, rfl, fun hx => ?_, fun _ => ?_⟩
      · have hx : (p.packetBufLen : Int) - markLen p - checkLen ctl - 5 = -6 := hx
        omega
      · show _ ≤ (((p.packetBuf.drop (markLen p)).drop 5).length : Int)
        rw [List.length_drop, hl]; dsimp only; omega

end Osdp.Phy
