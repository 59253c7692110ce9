import Verif.Lemmas.DecodeFault
import Verif.Lemmas.Send

/-! # Sending a packet stays within the packet buffer -/

namespace Osdp.Phy

theorem wrap_length {t : Tx} {body bs : List Byte} {m : Nat} (h : wrap t body m = some bs) :
    bs.length ≤ (if t.mark then 1 else 0) + m := by
  unfold wrap at h
  split at h
  · cases h
  · injection h with h; subst h
    cases t.mark <;> simp [le16] <;> omega

theorem finalizeMac_total (C : Cipher) (p : Pd) (t : Tx) (data : List Byte) {m : Nat} (hm : m ≤ 256) :
    ∃ q r, finalizeMac C p t data m = .ok (q, r) ∧ q.packetBuf = p.packetBuf ∧
      (∀ bs, r = some bs → bs.length ≤ (if t.mark then 1 else 0) + m) := by
  unfold finalizeMac
  dsimp only
  split
  · exact ⟨_, _, rfl, rfl, fun _ h => by cases h⟩
  · rename_i hl
    obtain ⟨s, hs⟩ := computeMac_total C p.isCp p.sc (header t (5 + t.scb.length + data.length + 6) ++ t.scb ++ data)
      (by simp [header]) (by simp [header]; omega)
    rw [hs]
    refine ⟨_, _, rfl, rfl, fun bs h => wrap_length h⟩

theorem sendPacket_total (C : Cipher) (p : Pd) (env : Env) (t : Tx) (data : List Byte) {m : Nat} (hm : m ≤ 256)
    (hb : p.packetBuf.length = 256) (h1 : 1 ≤ m)
    (hpad : t.encrypted = true → (if t.mark then 1 else 0) + 5 + t.scb.length + 1 + Sc.aesPadLen ((data.drop 1).length + 1) ≤ 256) :
    ∃ q o ok, sendPacket C p env t data m = .ok (q, o, ok) := by
  have hmk : (if t.mark then 1 else 0) ≤ 1 := by split <;> omega
  have hw : ∀ body bs k, wrap t body k = some bs → bs.length ≤ (if t.mark then 1 else 0) + k := fun _ _ _ h => wrap_length h
  have hfm := fun d k hk => finalizeMac_total C p t d (m := k) hk
  have key : ∃ q r, finalize C p t data m = .ok (q, r) ∧ q.packetBuf = p.packetBuf ∧ (∀ bs, r = some bs → bs.length ≤ 256) := by
    unfold finalize finalizeSecured
    dsimp only
    generalize (if t.mark = true then 1 else 0) = mk at *
    by_cases c1 : t.misaligned = true
    · rw [if_pos c1]; exact ⟨_, none, rfl, rfl, fun _ h => by cases h⟩
    rw [if_neg c1]
    by_cases c2 : mk + 5 + t.scb.length + data.length ≤ 5
    · rw [if_pos c2]; exact ⟨_, none, rfl, rfl, fun _ h => by cases h⟩
    rw [if_neg c2]
    by_cases c3 : t.secured p = true
    · rw [if_pos c3]
      by_cases c4 : t.encrypted = true
      · rw [if_pos c4]
        by_cases c5 : Sc.aesPadLen ((data.drop 1).length + 1) > m - mk
        · rw [if_pos c5]; exact ⟨_, none, rfl, rfl, fun _ h => by cases h⟩
        rw [if_neg c5, if_neg (by have := hpad c4; show ¬ _ > 256; omega)]
        obtain ⟨q, r, h1, h2, h3⟩ := hfm (data.take 1 ++ Sc.encryptData C p.isCp p.sc (data.drop 1)) (m - mk) (by omega)
        exact ⟨q, r, h1, h2, fun bs hx => by have := h3 bs hx; omega⟩
      · rw [if_neg c4]
        obtain ⟨q, r, h1, h2, h3⟩ := hfm data (m - mk) (by omega)
        exact ⟨q, r, h1, h2, fun bs hx => by have := h3 bs hx; omega⟩
    · rw [if_neg c3]
      exact ⟨_, _, rfl, rfl, fun bs hx => by have := hw _ _ _ hx; omega⟩
  obtain ⟨q, r, hf, hq, hr⟩ := key
  unfold sendPacket
  rw [hf]
  cases r with
  | none => exact ⟨_, _, _, rfl⟩
  | some bs =>
    have := hr bs rfl
    obtain ⟨b, hw⟩ := writeAt_total (buf := q.packetBuf) (i := 0) (bs := bs) (by rw [hq, hb]; omega)
    show ∃ q' o ok, (writeAt q.packetBuf 0 bs >>= _) = _
    rw [hw]
    exact ⟨_, _, _, rfl⟩

end Osdp.Phy
