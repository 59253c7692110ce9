import Verif.Lemmas.Stream
import Verif.Lemmas.Mac

/-! # Packets received while the secure channel is active -/

namespace Osdp.Phy

open Spec.Session Spec.Wire

/-- What a packet must look like to be handed on by the decoder while the secure channel is active. -/
theorem decode_active {C : Cipher} {p q : Pd} {d : Decoded} (hb : p.packetBuf.length = 256) (hm : p.packetBufLen ≤ 256)
    (he : p.packetBufLen = p.packetLen)    (h6 : 6 ≤ (heldFrame p).length) (hact : p.scActive = true) (h : decodePacket C p = .ok (q, d)) (hd : 0 < d.len) :
    ∃ ctl, (heldFrame p)[4]? = some ctl ∧
      ((hasBit ctl CTL_SCB = false ∧ ∃ d0, (heldFrame p)[5]? = some d0 ∧ plainRefused p d0 = false ∧ d.data[0]? = some d0) ∨
       (hasBit ctl CTL_SCB = true ∧ ∃ ty, (heldFrame p)[6]? = some ty ∧
        ((0x11#8 ≤ ty ∧ ty ≤ 0x14#8) ∨
         (0x15#8 ≤ ty ∧ ty ≤ 0x18#8 ∧
          Authentic C p.sc.sMac1 p.sc.sMac2 (if p.isPd then p.sc.rMac else p.sc.cMac) (heldFrame p))))) := by
  have hfl : (heldFrame p).length = p.packetBufLen - markLen p := by
    unfold heldFrame; simp; omega
  have hget : ∀ i, i < (heldFrame p).length → (heldFrame p)[i]? = (p.packetBuf.drop (markLen p))[i]? := by
    intro i hi
    unfold heldFrame at hi ⊢
    simp only [List.length_take] at hi
    rw [List.getElem?_take_of_lt (by omega)]
  have hfr : heldFrame p = (p.packetBuf.drop (markLen p)).take (p.packetBufLen - markLen p) := by
    unfold heldFrame; rw [he]
  unfold decodePacket at h
  obtain ⟨ctl, hctl, h⟩ := Res.bind_eq_ok.mp h
  have hctl' := rd_some hctl
  refine ⟨ctl, by rw [hget 4 (by omega)]; exact hctl', ?_⟩
  dsimp only at h
  have hck : ∃ c : Nat, (c = 1 ∨ c = 2) ∧ ((p.packetBufLen : Int) - markLen p - (if hasBit ctl CTL_CRC then 2 else 1)) =
      ((heldFrame p).length : Int) - c := by
    cases hasBit ctl CTL_CRC
    · exact ⟨1, .inl rfl, by rw [hfl]; simp; omega⟩
    · exact ⟨2, .inr rfl, by rw [hfl]; simp; omega⟩
  obtain ⟨c, hc, hc'⟩ := hck
  rw [hc'] at h
  generalize (heldFrame p).length = n at *
  replace h := ite_inv h
  rcases h with ⟨hs, h⟩ | ⟨hs, h⟩
  · refine .inr ⟨hs, ?_⟩
    unfold decodeScb at h
    dsimp only at h
    replace h := ite_inv h
    rcases h with ⟨-, h⟩ | ⟨-, h⟩
    · injection h with h; injection h with _ h; subst h; exact absurd hd (by decide)
    obtain ⟨ty, hty, h⟩ := Res.bind_eq_ok.mp h
    replace hty := rd_some hty
    replace h := ite_inv h
    rcases h with ⟨-, h⟩ | ⟨hr, h⟩
    · injection h with h; injection h with _ h; subst h; exact absurd hd (by decide)
    have hr' : 0x11#8 ≤ ty ∧ ty ≤ 0x18#8 := by
      constructor
      · exact BitVec.not_lt.mp fun hn => hr (.inl hn)
      · exact BitVec.not_lt.mp fun hn => hr (.inr hn)
    replace h := ite_inv h
    rcases h with ⟨-, h⟩ | ⟨-, h⟩
    · injection h with h; injection h with _ h; subst h; exact absurd hd (by decide)
    obtain ⟨d2, -, h⟩ := Res.bind_eq_ok.mp h
    obtain ⟨sb, -, h⟩ := Res.bind_eq_ok.mp h
    have es : (noteScbkd p ty d2).sc = p.sc := by unfold noteScbkd; split <;> rfl
    have ea : (noteScbkd p ty d2).scActive = p.scActive := by unfold noteScbkd; split <;> rfl
    have ei : (noteScbkd p ty d2).isPd = p.isPd := by unfold noteScbkd; split <;> rfl
    replace h := ite_inv h
    rcases h with ⟨h15, h⟩ | ⟨h15, h⟩
    · -- secured
      unfold decodeSecured at h
      dsimp only at h
      rw [noteScbkd_packetBuf, noteScbkd_markLen, es, ei] at h
      replace h := ite_inv h
      rcases h with ⟨-, h⟩ | ⟨hpos, h⟩
      · cases h
      obtain ⟨sc, hmac, h⟩ := Res.bind_eq_ok.mp h
      replace h := ite_inv h
      rcases h with ⟨-, h⟩ | ⟨heq, h⟩
      · injection h with h; injection h with _ h; subst h; exact absurd hd (by decide)
      -- the type byte lies in the frame
      have hn7 : 7 ≤ n := by
        refine Classical.byContradiction fun hn => ?_
        replace h := ite_inv h
        rcases h with ⟨-, h⟩ | ⟨-, h⟩
        · unfold decodeCipher at h
          dsimp only at h
          obtain ⟨r, hr2, h⟩ := Res.bind_eq_ok.mp h
          cases r with
          | none => injection h with h; injection h with _ h; subst h; exact absurd hd (by decide)
          | some pl =>
            have := (decryptData_some hr2).1
            omega
        · injection h with h; injection h with _ h; subst h
          dsimp only at hd
          omega
      refine ⟨ty, by rw [hget 6 (by omega)]; exact hty, .inr ⟨h15.2, hr'.2, ?_⟩⟩
      replace heq := Decidable.not_not.mp heq
      rw [show (setSc (noteScbkd p ty d2) sc).isPd = p.isPd from ei] at heq
      have hml : markLen p ≤ 1 := by unfold markLen; split <;> omega
      have hpk : (p.packetBuf.drop (markLen p)).length = 256 - markLen p := by rw [List.length_drop, hb]
      generalize p.packetBuf.drop (markLen p) = pkt at *
      have hn : p.packetBufLen - markLen p = n := hfl.symm
      rw [hn] at hfr
      obtain ⟨k, hk⟩ : ∃ k : Nat, ((n : Int) - c - 4).toNat = k ∧ k + 4 + c = n := ⟨_, rfl, by omega⟩
      rw [hk.1] at heq hmac
      have hmsg : (pkt.take k).length = k := by rw [List.length_take]; omega
      have hne : pkt.take k ≠ [] := by
        intro h0; rw [h0] at hmsg; simp at hmsg; omega
      refine ⟨pkt.take k, (pkt.drop k).take 4, (pkt.drop (k + 4)).take c, ?_, ?_, ?_, ?_⟩
      · rw [hfr, ← hk.2, List.take_add, List.take_add]
      · rw [List.length_take, List.length_drop]; omega
      · rw [List.length_take, List.length_drop]; omega
      · rw [heq]
        cases hpd : p.isPd with
        | true =>
          rw [hpd, computeMac_cmd hne (by omega)] at hmac
          injection hmac with hmac; subst hmac; rfl
        | false =>
          rw [hpd, computeMac_reply hne (by omega)] at hmac
          injection hmac with hmac; subst hmac; rfl
    · -- handshake type
      have h14 : ty ≤ 0x14#8 := by
        refine Classical.byContradiction fun hn => h15 ⟨by rw [ea]; exact hact, ?_⟩
        have := BitVec.not_le.mp hn
        rw [BitVec.lt_def] at this
        rw [BitVec.le_def]
        have e1 : (0x14#8).toNat = 20 := rfl
        have e2 : (0x15#8).toNat = 21 := rfl
        omega
      injection h with h; injection h with _ h; subst h
      dsimp only at hd
      exact ⟨ty, by rw [hget 6 (by omega)]; exact hty, .inl ⟨hr'.1, h14⟩⟩
  · refine .inl ⟨by simpa using hs, ?_⟩
    unfold decodePlain at h
    obtain ⟨d0, hd0, h⟩ := Res.bind_eq_ok.mp h
    replace hd0 := rd_some hd0
    replace h := ite_inv h
    rcases h with ⟨-, h⟩ | ⟨hr, h⟩
    · injection h with h; injection h with _ h; subst h; exact absurd hd (by decide)
    injection h with h; injection h with _ h; subst h
    refine ⟨d0, by rw [hget 5 (by omega)]; exact hd0, by simpa using hr, ?_⟩
    dsimp only
    rw [List.getElem?_drop]; exact hd0

end Osdp.Phy
