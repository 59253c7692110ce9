import Verif.Lemmas.PdReply
import Verif.Spec.EventWire

/-! # Events in replies -/

namespace Osdp.PdM

open Spec.Wire

/-- the numbers of inputs and outputs of a PD -/
def ins (p : Pd) : Nat := (p.cap 1).numItems.toNat
def outsN (p : Pd) : Nat := (p.cap 2).numItems.toNat

theorem encode_length (i o : Nat) (e : Event) (h : Spec.Event.Valid i o e) : (Spec.Event.encode e).length ≤ 133 := by
  cases e with
  | cardread c =>
    obtain ⟨-, -, -, h1, h2⟩ := h
    simp [Spec.Event.encode]; omega
  | keypress k =>
    obtain ⟨-, -, h1, h2⟩ := h
    simp [Spec.Event.encode]; omega
  | mfgrep m =>
    obtain ⟨-, h2⟩ := h
    simp [Spec.Event.encode]; omega
  | status s =>
    obtain ⟨ty, n, m⟩ := s
    cases ty <;> simp [Spec.Event.Valid] at h <;> simp [Spec.Event.encode, Spec.Event.flags, Spec.Event.entries] <;> omega
  | notification _ _ _ => exact h.elim
  | bad _ => exact h.elim

theorem b8_byte (a : Nat) : b8 a = BitVec.ofNat 8 a := rfl

theorem byteOf_at (k n : Nat) : byteOf k n = BitVec.ofNat 8 (n / 256 ^ k) := Phy.byteOf_mod k n

theorem assertLen_of {a b : Int} (h : a < b) : assertLen a b = .ok () := by unfold assertLen; rw [if_pos h]

theorem event_built (C : Cipher) (p : Pd) (env : Env) (t : Phy.Tx) (n : Int) (e : Event)
    (hv : Spec.Event.Valid (ins p) (outsN p) e) (hr : p.replyId = eventReply e) (he : p.eph = .event e)
    (hn : (Spec.Event.encode e).length < n) :
    replyBody C p env t n = .ok ⟨p, t, [], .ok (Spec.Event.encode e)⟩ := by
  unfold replyBody
  rw [hr]
  cases e with
  | cardread c =>
    obtain ⟨rn, fm, dr, ln, dat⟩ := c
    obtain ⟨hf, hr1, hr2, h1, h2⟩ := hv
    dsimp only at hf hr1 hr2 h1 h2
    obtain ⟨k, rfl⟩ := Int.eq_ofNat_of_zero_le h1
    have e1 : eventReply (.cardread ⟨rn, fm, dr, k, dat⟩) = Id.RAW := by
      rcases hf with rfl | rfl <;> rfl
    rw [e1]
    have hlen : (Spec.Event.encode (.cardread ⟨rn, fm, dr, k, dat⟩)).length = 5 + (k + 7) / 8 := by
      have := dat.2
      simp [Spec.Event.encode]; omega
    rw [hlen] at hn
    have ed : Int.tdiv ((k : Int) + 7) 8 = ((k + 7) / 8 : Nat) := by
      exact Int.tdiv_eq_ediv_of_nonneg (by omega)
    have ec : copyOut dat.1 (((k + 7) / 8 : Nat) : Int) = .ok (dat.1.take ((k + 7) / 8)) := by
      unfold copyOut
      rw [if_pos ⟨by omega, by rw [dat.2]; omega⟩]
      rfl
    have e16 : le16 (u32 (k : Int)) = [BitVec.ofNat 8 k, BitVec.ofNat 8 (k / 256)] := by
      have : u32 (k : Int) = k := by unfold u32; omega
      rw [this]
      unfold le16
      rw [byteOf_at, byteOf_at]
      simp
    simp only [Id.ACK, Id.PDID, Id.PDCAP, Id.OSTATR, Id.ISTATR, Id.LSTATR, Id.RSTATR, Id.KEYPAD, Id.RAW, he]
    rw [ed, ec]
    simp only [assertLen_of (show (4 : Int) + ((k + 7) / 8 : Nat) < n by omega), Res.ok_bind, e16]
    rcases hf with rfl | rfl <;> rfl
  | keypress c =>
    obtain ⟨rn, ln, dat⟩ := c
    obtain ⟨hr1, hr2, h1, h2⟩ := hv
    dsimp only at hr1 hr2 h1 h2
    obtain ⟨k, rfl⟩ := Int.eq_ofNat_of_zero_le h1
    have e1 : eventReply (.keypress ⟨rn, k, dat⟩) = Id.KEYPAD := rfl
    rw [e1]
    have hlen : (Spec.Event.encode (.keypress ⟨rn, k, dat⟩)).length = 3 + k := by
      have := dat.2
      simp [Spec.Event.encode]; omega
    rw [hlen] at hn
    have ec : copyOut dat.1 (k : Int) = .ok (dat.1.take k) := by
      unfold copyOut
      rw [if_pos ⟨by omega, by rw [dat.2]; omega⟩]
      rfl
    simp only [Id.ACK, Id.PDID, Id.PDCAP, Id.OSTATR, Id.ISTATR, Id.LSTATR, Id.RSTATR, Id.KEYPAD, Id.RAW, he]
    simp only [ec, assertLen_of (show (2 : Int) + (k : Int) < n by omega), Res.ok_bind]
    rfl
  | mfgrep m =>
    obtain ⟨vn, cm, ln, dat⟩ := m
    obtain ⟨hvn, h2⟩ := hv
    dsimp only at hvn h2
    have e1 : eventReply (.mfgrep ⟨vn, cm, ln, dat⟩) = Id.MFGREP := rfl
    rw [e1]
    have hlen : (Spec.Event.encode (.mfgrep ⟨vn, cm, ln, dat⟩)).length = 5 + ln.toNat := by
      have := dat.2
      simp [Spec.Event.encode]; omega
    rw [hlen] at hn
    have ec : copyOut dat.1 (ln.toNat : Int) = .ok (dat.1.take ln.toNat) := by
      unfold copyOut
      rw [if_pos ⟨by omega, by rw [dat.2]; omega⟩]
      rfl
    simp only [Id.ACK, Id.PDID, Id.PDCAP, Id.OSTATR, Id.ISTATR, Id.LSTATR, Id.RSTATR, Id.KEYPAD, Id.RAW, Id.COM, Id.NAK,
      Id.MFGREP, he]
    simp only [ec, assertLen_of (show (4 : Int) + (ln.toNat : Int) < n by omega), Res.ok_bind, byteOf_at]
    simp [Spec.Event.encode]
  | status s =>
    obtain ⟨ty, m, k⟩ := s
    have hlen : (Spec.Event.encode (.status ⟨ty, m, k⟩)).length = 1 + Spec.Event.entries ⟨ty, m, k⟩ := by
      simp [Spec.Event.encode, Spec.Event.flags]; omega
    rw [hlen] at hn
    cases ty with
    | input =>
      obtain ⟨hm, hk⟩ := hv
      dsimp only at hm
      subst hm
      have hE : Spec.Event.entries ⟨.input, (ins p : Int), k⟩ = ins p := by simp [Spec.Event.entries]
      rw [hE] at hn
      have : eventReply (.status ⟨.input, (ins p : Int), k⟩) = Id.ISTATR := rfl
      rw [this]
      have es : statusReply p t (p.cap 1) n = .ok ⟨p, t, [], .ok (Spec.Event.encode (.status ⟨.input, (ins p : Int), k⟩))⟩ := by
        unfold statusReply
        simp only [he]
        rw [if_neg (by show ¬ (ins p : Int) ≠ (ins p : Int); simp)]
        simp only [assertLen_of (show ((p.cap 1).numItems.toNat : Int) + 1 < n by show (ins p : Int) + 1 < n; omega), Res.ok_bind]
        rw [if_neg (by show ¬ ins p > 31; omega)]
        simp only [hr]
        show _ = Except.ok (⟨p, t, [], .ok (0x49#8 :: Spec.Event.flags (Spec.Event.entries ⟨.input, (ins p : Int), k⟩) k)⟩ : Built)
        rw [hE]
        rfl
      simp only [Id.ACK, Id.PDID, Id.PDCAP, Id.OSTATR, Id.ISTATR, es]
      rfl
    | output =>
      obtain ⟨hm, hk⟩ := hv
      dsimp only at hm
      subst hm
      have hE : Spec.Event.entries ⟨.output, (outsN p : Int), k⟩ = outsN p := by simp [Spec.Event.entries]
      rw [hE] at hn
      have : eventReply (.status ⟨.output, (outsN p : Int), k⟩) = Id.OSTATR := rfl
      rw [this]
      have es : statusReply p t (p.cap 2) n = .ok ⟨p, t, [], .ok (Spec.Event.encode (.status ⟨.output, (outsN p : Int), k⟩))⟩ := by
        unfold statusReply
        simp only [he]
        rw [if_neg (by show ¬ (outsN p : Int) ≠ (outsN p : Int); simp)]
        simp only [assertLen_of (show ((p.cap 2).numItems.toNat : Int) + 1 < n by show (outsN p : Int) + 1 < n; omega), Res.ok_bind]
        rw [if_neg (by show ¬ outsN p > 31; omega)]
        simp only [hr]
        show _ = Except.ok (⟨p, t, [], .ok (0x4A#8 :: Spec.Event.flags (Spec.Event.entries ⟨.output, (outsN p : Int), k⟩) k)⟩ : Built)
        rw [hE]
        rfl
      simp only [Id.ACK, Id.PDID, Id.PDCAP, Id.OSTATR, es]
      rfl
    | localStat =>
      have : eventReply (.status ⟨.localStat, m, k⟩) = Id.LSTATR := rfl
      rw [this]
      have hE : Spec.Event.entries ⟨.localStat, m, k⟩ = 2 := rfl
      rw [hE] at hn
      simp only [Id.ACK, Id.PDID, Id.PDCAP, Id.OSTATR, Id.ISTATR, Id.LSTATR, he,
        assertLen_of (show (3 : Int) < n by omega), Res.ok_bind]
      rfl
    | remote =>
      have : eventReply (.status ⟨.remote, m, k⟩) = Id.RSTATR := rfl
      rw [this]
      have hE : Spec.Event.entries ⟨.remote, m, k⟩ = 1 := rfl
      rw [hE] at hn
      simp only [Id.ACK, Id.PDID, Id.PDCAP, Id.OSTATR, Id.ISTATR, Id.LSTATR, Id.RSTATR, he,
        assertLen_of (show (2 : Int) < n by omega), Res.ok_bind]
      rfl
    | other => exact hv.elim
  | notification _ _ _ => exact hv.elim
  | bad _ => exact hv.elim

end Osdp.PdM
