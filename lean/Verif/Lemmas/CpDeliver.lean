import Verif.Lemmas.PdDeliver
import Verif.Lemmas.CpHear

/-! # A reply packet arrives at the CP -/

namespace Osdp.CpM

open Spec.Wire
open Phy (Idle Arrives pktAddr reload Held decodeFrame heldPkt)

/-- a well formed reply packet from this PD -/
structure FromPd (p : Pd) (k : Packet) : Prop where
  len : k.bytes.length ≤ 256
  reply : Phy.hasBit k.addr 0x80#8 = true
  crc : Phy.hasBit k.ctl Phy.CTL_CRC = true
  addr : (pktAddr k : Int) = p.address ∨ pktAddr k = 127

/-- is this the BUSY reply that keeps its place in the sequence: number 0, nothing but the id -/
def Unsequenced (k : Packet) : Prop := k.seq = 0 ∧ k.scb = [] ∧ k.data = [b8 Id.BUSY]

theorem isBusy_packet (k : Packet) (h : Unsequenced k) : Phy.isBusy k.frame (k.len - 2) k.seq = .ok true := by
  obtain ⟨h1, h2, h3⟩ := h
  have hl : k.len - 2 = 6 := by unfold Packet.len; rw [h2, h3]; rfl
  have h5 : rd k.frame 5 = .ok (b8 Id.BUSY) := by rw [Phy.frame_cons, h2, h3]; rfl
  unfold Phy.isBusy
  rw [if_pos ⟨h1, hl⟩, h5]
  rfl

theorem isBusy_not (k : Packet) (h : ¬ Unsequenced k) (hd : k.data ≠ []) :
    Phy.isBusy k.frame (k.len - 2) k.seq = .ok false := by
  unfold Phy.isBusy
  by_cases hc : k.seq = 0 ∧ k.len - 2 = 6
  · rw [if_pos hc]
    obtain ⟨h1, h2⟩ := hc
    have hl : k.scb.length + k.data.length = 1 := by unfold Packet.len at h2; omega
    obtain ⟨x, l, hk⟩ := List.exists_cons_of_ne_nil hd
    have hl' : k.data.length = l.length + 1 := by rw [hk]; rfl
    have hs : k.scb = [] := List.eq_nil_of_length_eq_zero (by omega)
    have hn : l = [] := List.eq_nil_of_length_eq_zero (by omega)
    have h5 : rd k.frame 5 = .ok x := by rw [Phy.frame_cons, hs, hk]; rfl
    rw [h5]
    have : x ≠ b8 Id.BUSY := fun e => h ⟨h1, hs, by rw [hk, hn, e]⟩
    simp [this]
  · rw [if_neg hc]

theorem FromPd.dir {p : Pd} {k : Packet} (h : FromPd p k) (hp : p.flags.pdMode = false) : Phy.dirOk p k.addr = true := by
  unfold Phy.dirOk
  rw [h.reply]
  show (true == !p.flags.pdMode) = true
  rw [hp]; rfl

/-- a BUSY reply with number 0 arrives -/
theorem checkPacket_busy (p : Pd) (k : Packet) (env : Env) (hp : p.flags.pdMode = false) (hi : Idle p) (hk : FromPd p k)
    (hb : Unsequenced k) (ha : Arrives env k.bytes) :
    ∃ t, Phy.checkPacket p env = .ok (reload { p with seq := p.seq - 1 } (heldPkt p k t), .busy) := by
  obtain ⟨t, ht⟩ := Phy.checkPacket_packet p k env hi hk.len (hk.dir hp) ha
  refine ⟨t, ?_⟩
  rw [Phy.bodyFrame_packet p k hk.crc hk.addr] at ht
  unfold Phy.checkSeq at ht
  rw [if_neg (by show ¬ p.flags.pdMode = true; rw [hp]; simp), isBusy_packet k hb] at ht
  exact ht

/-- a reply with the number of the command arrives -/
theorem checkPacket_answer (p : Pd) (k : Packet) (env : Env) (hp : p.flags.pdMode = false) (hi : Idle p) (hk : FromPd p k)
    (hs : k.seq = Phy.seqBits p.seq) (hd : k.data ≠ []) (hb : ¬ Unsequenced k) (ha : Arrives env k.bytes) :
    ∃ t, Phy.checkPacket p env = .ok (reload p (heldPkt p k t), .none) := by
  obtain ⟨t, ht⟩ := Phy.checkPacket_packet p k env hi hk.len (hk.dir hp) ha
  refine ⟨t, ?_⟩
  rw [Phy.bodyFrame_packet p k hk.crc hk.addr] at ht
  unfold Phy.checkSeq at ht
  rw [if_neg (by show ¬ p.flags.pdMode = true; rw [hp]; simp), isBusy_not k hb hd] at ht
  rw [ht]
  unfold Phy.seqVerdict Phy.mapReload
  simp only [Res.ok_bind, Bool.false_eq_true, if_false]
  rw [if_neg (fun h => h.1 hs.symm)]
  rfl

/-- The reply a CP with an empty receive buffer takes from a packet, if the packet decodes. -/
theorem process_packet (C : Cipher) (p q : Pd) (k : Packet) (env : Env) (d0 : Byte) (body : List Byte)
    (hp : p.flags.pdMode = false) (hi : Idle p) (hk : FromPd p k) (hs : k.seq = Phy.seqBits p.seq) (hne : k.data ≠ [])
    (hb : ¬ Unsequenced k) (ha : Arrives env k.bytes)
    (hd : decodeFrame C p k.frame = .ok (q, ((d0 :: body).length : Int), d0 :: body))
    (h8 : Phy.hasBit k.ctl Phy.CTL_SCB = true → 2 ≤ k.scb.length) :
    Phy.heard C p env = some (d0, body) ∧
    ∃ h, PdM.Holding p k h ∧ processReply C p env = response C { reload q h with replyId := d0.toNat } env body := by
  obtain ⟨t, ht⟩ := checkPacket_answer p k env hp hi hk hs hne hb ha
  obtain ⟨buf, data, hdec, htake, hbl⟩ := Phy.decodePacket_packet C p _ q k t _ _ h8 hd
  rw [Int.toNat_natCast] at htake
  have h0 : rd data 0 = .ok d0 ∧ data[0]? = some d0 := by
    cases data with
    | nil => simp at htake
    | cons x l => simp at htake; rw [htake.1]; exact ⟨rfl, rfl⟩
  have hbuf := PdM.held_buf_length p k t hk.len hi.buf
  have hlen : ((if k.mark then [Phy.MARK] else []) ++ k.frame).length = k.bytes.length := rfl
  refine ⟨?_, { heldPkt p k t with buf := buf }, ⟨rfl, ?_, hlen, rfl, hbl.trans hbuf⟩, ?_⟩
  · have := Phy.heard_of ht hdec (by simp) h0.2
    rw [this]
    dsimp only
    rw [Int.toNat_natCast, htake]
    rfl
  · show k.frame.length + (if k.mark then 1 else 0) = _
    rw [Phy.bytes_length, Phy.frame_length]; omega
  · unfold processReply
    rw [ht]
    simp only [Res.ok_bind]
    rw [hdec]
    have hn : ¬ (((d0 :: body).length : Nat) : Int) ≤ 0 := by simp
    simp only [Res.ok_bind]
    rw [if_neg hn]
    unfold decodeResponse
    rw [Int.toNat_natCast, h0.1]
    have hl : ¬ data.length < (d0 :: body).length := by
      have := congrArg List.length htake
      rw [List.length_take] at this
      omega
    simp only [Res.ok_bind]
    rw [if_neg hl, htake]
    rfl

/-- the same for a reply in the clear -/
theorem process_plain (C : Cipher) (p : Pd) (k : Packet) (env : Env) (d0 : Byte) (body : List Byte)
    (hp : p.flags.pdMode = false) (hi : Idle p) (hk : FromPd p k) (hs : k.seq = Phy.seqBits p.seq)
    (hb : ¬ Unsequenced k) (ha : Arrives env k.bytes)
    (hscb : Phy.hasBit k.ctl Phy.CTL_SCB = false) (hsc : k.scb = []) (hd : k.data = d0 :: body)
    (hr : Phy.plainRefused p d0 = false) :
    Phy.heard C p env = some (d0, body) ∧
    ∃ h, PdM.Holding p k h ∧ processReply C p env = response C { reload p h with replyId := d0.toNat } env body := by
  refine process_packet C p p k env d0 body hp hi hk hs (by rw [hd]; simp) hb ha ?_ (by rw [hscb]; intro h; cases h)
  rw [Phy.decodeFrame_plain C p k hk.crc hscb hsc d0 (by rw [hd]; rfl) hr, hd]

end Osdp.CpM
