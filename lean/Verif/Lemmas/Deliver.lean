import Verif.Props.C07
import Verif.Lemmas.Send
import Verif.Spec.Seq

/-! # A packet arrives at an idle receiver -/

namespace Osdp.Phy

open Spec.Wire

theorem frame_cons (k : Packet) : k.frame = SOM :: k.addr :: BitVec.ofNat 8 k.len :: BitVec.ofNat 8 (k.len / 256) ::
    k.ctl :: (k.scb ++ k.data ++ le16 (Crc.computeCrc16 k.core).toNat) := by
  unfold Packet.frame
  rw [← le16_crc]
  simp [Packet.core]

theorem frame_wf (k : Packet) (h : k.bytes.length ≤ 256) : WfFrame k.mark k.frame := by
  rw [bytes_length] at h
  refine ⟨⟨k.addr, BitVec.ofNat 8 k.len, BitVec.ofNat 8 (k.len / 256), k.ctl, _, frame_cons k, ?_, ?_⟩, ?_⟩
  · intro hn
    have := congrArg List.length hn
    simp [le16] at this
  · rw [frame_length]; simp; omega
  · rw [frame_length]; exact h

theorem bytes_marked (k : Packet) : k.bytes = marked k.mark k.frame := rfl

theorem len_ge (k : Packet) : 7 ≤ k.len := by unfold Packet.len; omega

theorem checkValue_packet (k : Packet) (hc : hasBit k.ctl CTL_CRC = true) :
    checkValue k.frame k.frame.length = .ok (k.len - 2, true) := by
  have h4 : rd k.frame 4 = .ok k.ctl := by rw [frame_cons]; rfl
  have hl := frame_length k
  have h7 := len_ge k
  have hcl : k.core.length = k.len - 2 := by rw [core_length]; unfold Packet.len; omega
  have hf : k.frame = k.core ++ le16 (Crc.computeCrc16 k.core).toNat := by rw [le16_crc]; rfl
  have ht : k.frame.take (k.len - 2) = k.core := by rw [hf, ← hcl, List.take_left]
  have hlo : rd k.frame (k.len - 2) = .ok (byteOf 0 (Crc.computeCrc16 k.core).toNat) := by
    apply rd_ok; rw [hf, ← hcl, List.getElem?_append_right (by omega)]; simp [le16]
  have hhi : rd k.frame (k.len - 2 + 1) = .ok (byteOf 1 (Crc.computeCrc16 k.core).toNat) := by
    apply rd_ok; rw [hf, ← hcl, List.getElem?_append_right (by omega)]; simp [le16]
  unfold checkValue
  rw [h4]
  dsimp only [Res.ok_bind]
  rw [if_pos hc, hl, hlo]
  dsimp only [Res.ok_bind]
  rw [hhi]
  dsimp only [Res.ok_bind]
  rw [ht, byteOf_mod, byteOf_mod]
  have : (Crc.computeCrc16 k.core).toNat < 65536 := (Crc.computeCrc16 k.core).isLt
  have e : (Crc.computeCrc16 k.core).toNat = (BitVec.ofNat 8 ((Crc.computeCrc16 k.core).toNat / 256 ^ 0)).toNat +
      256 * (BitVec.ofNat 8 ((Crc.computeCrc16 k.core).toNat / 256 ^ 1)).toNat := by
    simp; omega
  rw [decide_eq_true e]
  rfl

/-- the device a packet is addressed to -/
def pktAddr (k : Packet) : Nat := (k.addr &&& 0x7F#8).toNat

theorem and3 (b : Byte) : (b &&& 0x03#8).toNat = b.toNat % 4 := by
  rw [BitVec.toNat_and]
  exact Nat.and_two_pow_sub_one_eq_mod b.toNat 2

theorem bodyFrame_packet (p : Pd) (k : Packet) (hc : hasBit k.ctl CTL_CRC = true)
    (ha : (pktAddr k : Int) = p.address ∨ pktAddr k = 127) :
    bodyFrame p k.frame = checkSeq p k.frame (k.len - 2) k.seq (pktAddr k == 127) := by
  unfold bodyFrame
  rw [checkValue_packet k hc]
  have h1 : rd k.frame 1 = .ok k.addr := by rw [frame_cons]; rfl
  have h4 : rd k.frame 4 = .ok k.ctl := by rw [frame_cons]; rfl
  rw [h1, h4]
  dsimp only [Res.ok_bind]
  have hn : ¬ (((k.addr &&& 0x7F#8).toNat : Int) ≠ p.address ∧ (k.addr &&& 0x7F#8).toNat ≠ 127) := by
    unfold pktAddr at ha; omega
  rw [if_neg (by decide), if_neg hn, and3]
  rfl

/-- a packet of the PD's own direction for another address is skipped -/
theorem bodyFrame_foreign (p : Pd) (k : Packet) (hc : hasBit k.ctl CTL_CRC = true)
    (ha : (pktAddr k : Int) ≠ p.address ∧ pktAddr k ≠ 127) :
    bodyFrame p k.frame = .ok (p, if p.isCp then .check else .skip) := by
  unfold bodyFrame
  rw [checkValue_packet k hc]
  have h1 : rd k.frame 1 = .ok k.addr := by rw [frame_cons]; rfl
  rw [h1]
  dsimp only [Res.ok_bind]
  unfold pktAddr at ha
  rw [if_neg (by decide), if_pos ha]
  rfl

/-- a PD takes note of an acceptable sequence number -/
def pdAccept (p : Pd) (s : Nat) (bc : Bool) : Pd :=
  { p with seq := s, flags := { p.flags with scActive := p.flags.scActive && s != 0,
                                             broadcast := p.flags.broadcast || bc } }

theorem checkSeq_accept (p : Pd) (f : List Byte) (m s : Nat) (bc : Bool) (hp : p.flags.pdMode = true)
    (hs : s < 4) (hr : -1 ≤ p.seq ∧ p.seq ≤ 3) (ha : Spec.Seq.Acceptable p.seq s) :
    checkSeq p f m s bc = .ok (pdAccept p s bc, .none) := by
  unfold checkSeq
  rw [if_pos (show p.isPd = true from hp)]
  have key : pdSeqAdvance (pdSeqPrep p s bc) = pdAccept p s bc := by
    unfold Spec.Seq.Acceptable Spec.Seq.succ at ha
    unfold pdSeqAdvance pdSeqPrep pdAccept nextSeq
    by_cases h0 : s = 0
    · subst h0
      cases bc <;> simp [Pd.scDeactivate]
    · by_cases h1 : (s : Int) = p.seq
      · have e : (if p.seq - 1 + 1 > 3 then 1 else p.seq - 1 + 1) = (s : Int) := by
          rw [if_neg (by omega)]; omega
        have e2 : (p.flags.scActive && s != 0) = p.flags.scActive := by simp [h0]
        simp only [h0, if_false, h1, if_true, e2]
        cases bc <;> simp <;> omega
      · have e : (if p.seq + 1 > 3 then 1 else p.seq + 1) = (s : Int) := by
          rcases ha with h | h | h
          · omega
          · exact absurd h h1
          · split at h <;> (split <;> omega)
        have e2 : (p.flags.scActive && s != 0) = p.flags.scActive := by simp [h0]
        simp only [h0, if_false, h1, e2]
        cases bc <;> simp <;> omega
  rw [key]
  unfold seqVerdict seqBits
  have : ¬ (((pdAccept p s bc).seq % 4).toNat ≠ s ∧ ¬ (pdAccept p s bc).flags.skipSeqCheck = true) := by
    show ¬ (((s : Int) % 4).toNat ≠ s ∧ _)
    omega
  rw [if_neg this]

/-- nothing is being received -/
structure Idle (p : Pd) : Prop where
  bufLen : p.packetBufLen = 0
  len : p.packetLen = 0
  buf : p.packetBuf.length = 256
  rx : p.rx = []

/-- exactly these bytes arrive during one refresh -/
def Arrives (e : Env) (bs : List Byte) : Prop :=
  (∀ c ∈ e.recv, c.length ≤ 64) ∧ taken e.recv = bs

/-- where a packet is stored -/
def heldPkt (p : Pd) (k : Packet) (t : Int) : Held := { heldLoaded p k.mark k.frame [] with ts := t }

theorem reload_reload_ts (q : Pd) (p : Pd) (k : Packet) (t t' : Int) :
    setTs (reload q (heldPkt p k t)) t' = reload q (heldPkt p k t') := rfl

/-- a whole packet arrives -/
theorem checkPacket_packet (p : Pd) (k : Packet) (e : Env) (hi : Idle p) (hl : k.bytes.length ≤ 256)
    (hdir : dirOk p k.addr = true) (ha : Arrives e k.bytes) :
    ∃ t, checkPacket p e = mapReload (heldPkt p k t) (bodyFrame p k.frame) := by
  obtain ⟨t, ht⟩ := checkPacket_eq p e hi.rx ha.1 (by rw [ha.2]; omega)
  refine ⟨t, ?_⟩
  rw [ht, ha.2]
  obtain ⟨⟨a, lo, hi', ctl, tail, hf, htl, hlen⟩, hfit⟩ := frame_wf k hl
  have hf0 := frame_cons k
  have hk : a = k.addr := by
    rw [hf] at hf0; injection hf0 with _ hf0; injection hf0
  have := assemble_bodyFrame (setRx p k.bytes) k.mark a lo hi' ctl tail [] hi.bufLen hi.len hi.buf
    (by rw [← hf]; simp [bytes_marked, marked]) (by rw [← hf]; exact hlen) htl (by rw [← hf]; exact hfit)
    (by rw [hk]; exact hdir)
  rw [this, ← hf]
  have e1 : loaded (setRx p k.bytes) k.mark k.frame [] = reload p (heldLoaded p k.mark k.frame []) := rfl
  rw [e1, bodyFrame_reload]
  cases bodyFrame p k.frame with
  | error e => rfl
  | ok v => rfl

/-! ### decoding -/

theorem decodeFrame_plain (C : Cipher) (p : Pd) (k : Packet) (hc : hasBit k.ctl CTL_CRC = true)
    (hs : hasBit k.ctl CTL_SCB = false) (hscb : k.scb = []) (d0 : Byte) (hd : k.data.head? = some d0)
    (hpr : plainRefused p d0 = false) : decodeFrame C p k.frame = .ok (p, k.data.length, k.data) := by
  have h4 : rd k.frame 4 = .ok k.ctl := by rw [frame_cons]; rfl
  obtain ⟨l, hk⟩ : ∃ l, k.data = d0 :: l := by
    cases hdd : k.data with
    | nil => rw [hdd] at hd; cases hd
    | cons x l => rw [hdd] at hd; injection hd with hd; exact ⟨l, by rw [hd]⟩
  have h5 : rd k.frame 5 = .ok d0 := by rw [frame_cons, hscb, hk]; rfl
  unfold decodeFrame
  rw [h4]
  dsimp only [Res.ok_bind]
  rw [if_pos hc, hs]
  unfold framePlain
  rw [h5]
  dsimp only [Res.ok_bind]
  rw [hpr, frame_length]
  have e1 : (k.len : Int) - 2 - 5 = k.data.length := by unfold Packet.len; rw [hscb]; simp; omega
  have e2 : (k.frame.drop 5).take k.data.length = k.data := by
    rw [frame_cons, hscb]; simp
  simp only [Bool.false_eq_true, if_false]
  rw [e1, Int.toNat_natCast, e2]
  rfl

/-- a handshake packet is decoded without MAC -/
theorem decodeFrame_handshake (C : Cipher) (p : Pd) (k : Packet) (hc : hasBit k.ctl CTL_CRC = true)
    (hs : hasBit k.ctl CTL_SCB = true) (ty x : Byte) (hscb : k.scb = [3#8, ty, x])
    (hty : 0x11#8 ≤ ty ∧ ty ≤ 0x14#8) (hcap : p.isPd = true → p.scCapable = true)
    : decodeFrame C p k.frame = .ok (noteScbkd p ty x, k.data.length, k.data) := by
  have h4 : rd k.frame 4 = .ok k.ctl := by rw [frame_cons]; rfl
  have h5 : rd k.frame 5 = .ok 3#8 := by rw [frame_cons, hscb]; rfl
  have h6 : rd k.frame 6 = .ok ty := by rw [frame_cons, hscb]; rfl
  have h7 : rd k.frame 7 = .ok x := by rw [frame_cons, hscb]; rfl
  unfold decodeFrame
  rw [h4]
  dsimp only [Res.ok_bind]
  rw [if_pos hc, if_pos hs]
  unfold frameScb
  rw [h5, h6, h7]
  dsimp only [Res.ok_bind]
  have hcc : (p.isPd && !p.scCapable) = false := by
    cases h1 : p.isPd
    · rfl
    · simp [hcap h1]
  have ht1 : ¬ (ty < 0x11#8 ∨ ty > 0x18#8) := by
    have := hty.1; have := hty.2
    simp only [BitVec.lt_def, BitVec.le_def, gt_iff_lt] at *
    simp at *; omega
  have ht2 : ¬ (¬ p.scActive = true ∧ ty > 0x14#8) := by
    have := hty.2
    simp only [BitVec.le_def, gt_iff_lt, BitVec.lt_def] at *
    omega
  have ht3 : ¬ ((noteScbkd p ty x).scActive = true ∧ 0x15#8 ≤ ty) := by
    have := hty.2
    simp only [BitVec.le_def] at *
    simp at *; omega
  rw [if_neg (by rw [hcc]; decide), if_neg ht1, if_neg ht2, if_neg ht3, frame_length]
  have e1 : (k.len : Int) - 2 - 5 - ((3#8).toNat : Nat) = k.data.length := by
    unfold Packet.len; rw [hscb]; simp; omega
  have e2 : (k.frame.drop (5 + (3#8).toNat)).take k.data.length = k.data := by
    rw [frame_cons, hscb]; simp
  rw [e1, Int.toNat_natCast, e2]
  rfl

/-- The state and body `decodePacket` yields for a stored packet, given those of `decodeFrame`. -/
theorem decodePacket_packet (C : Cipher) (p q0 q : Pd) (k : Packet) (t : Int) (n : Int) (body : List Byte)
    (h8 : hasBit k.ctl CTL_SCB = true → 2 ≤ k.scb.length) (h : decodeFrame C q0 k.frame = .ok (q, n, body)) :
    ∃ buf data, decodePacket C (reload q0 (heldPkt p k t)) = .ok (reload q { heldPkt p k t with buf := buf }, ⟨n, data⟩) ∧
      data.take n.toNat = body ∧ buf.length = (heldPkt p k t).buf.length := by
  have hl := frame_length k
  have hr := decode_frame C (reload q0 (heldPkt p k t)) k.frame
    (p.packetBuf.drop (((if k.mark then [MARK] else []) ++ k.frame).length)) (by
      show List.drop (if k.mark then 1 else 0) _ = _
      unfold heldPkt heldLoaded reload
      cases k.mark <;> simp)
    (by
      show ((if k.mark then [MARK] else []) ++ k.frame).length = (if k.mark then 1 else 0) + k.frame.length
      cases k.mark <;> simp <;> omega) (by have := len_ge k; omega)
    (by
      intro c hc hb
      rw [frame_cons] at hc
      injection hc with hc; subst hc
      have := h8 hb
      rw [hl]; unfold Packet.len; omega)
  rw [decodeFrame_reload, h] at hr
  cases hd : decodePacket C (reload q0 (heldPkt p k t)) with
  | error e => rw [hd] at hr; exact absurd hr id
  | ok v =>
    rcases v with ⟨v1, v2⟩
    rw [hd] at hr
    obtain ⟨h1, h2, buf, hb, hv⟩ := hr
    refine ⟨buf, v2.data, ?_, ?_, ?_⟩
    · rw [hv, ← h1]
      rfl
    · exact h2
    · rw [hb]; rfl

end Osdp.Phy
