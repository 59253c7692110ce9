import Verif.Lemmas.SendSc
import Verif.Lemmas.Secured

/-! # What one end of a secure session sends, the other reads -/

namespace Osdp.Phy

open Spec.Wire

/-- the two ends of a session hold the same keys and MACs -/
structure SameSession (a b : Sc) : Prop where
  sEnc : a.sEnc = b.sEnc
  sMac1 : a.sMac1 = b.sMac1
  sMac2 : a.sMac2 = b.sMac2
  cMac : a.cMac = b.cMac
  rMac : a.rMac = b.rMac

/-- the same session, as far as the next command is concerned: it is chained to the last reply MAC -/
structure Meets (a b : Sc) : Prop where
  sEnc : a.sEnc = b.sEnc
  sMac1 : a.sMac1 = b.sMac1
  sMac2 : a.sMac2 = b.sMac2
  rMac : a.rMac = b.rMac

theorem Meets.symm {a b : Sc} (h : Meets a b) : Meets b a := ⟨h.sEnc.symm, h.sMac1.symm, h.sMac2.symm, h.rMac.symm⟩

theorem SameSession.meets {a b : Sc} (h : SameSession a b) : Meets a b := ⟨h.sEnc, h.sMac1, h.sMac2, h.rMac⟩

theorem SameSession.symm {a b : Sc} (h : SameSession a b) : SameSession b a :=
  ⟨h.sEnc.symm, h.sMac1.symm, h.sMac2.symm, h.cMac.symm, h.rMac.symm⟩

theorem securedFrame_pkt {t : Tx} {ty id : Byte} {pl tag : List Byte} (hscb : t.scb = [2#8, ty]) (hbit : hasBit t.ctl CTL_SCB = true)
    (hcrc : hasBit t.ctl CTL_CRC = true) (htag : tag.length = 4) (hfit : (pktOf t (id :: pl ++ tag)).frame.length ≤ 256) :
    SecuredFrame (pktOf t (id :: pl ++ tag)).frame (macMsg t (id :: pl)) tag t.ctl ty id pl := by
  refine ⟨?_, by rw [← scbBit]; exact hbit, htag, hfit⟩
  have hc : (pktOf t (id :: pl ++ tag)).core = macMsg t (id :: pl) ++ tag := (macMsg_core t (id :: pl) tag htag).symm
  refine ⟨t.addr, byteOf 0 (5 + 2 + (id :: pl).length + 6), byteOf 1 (5 + 2 + (id :: pl).length + 6), 2#8, [],
    le16 (Crc.computeCrc16 (pktOf t (id :: pl ++ tag)).core).toNat, ?_, ?_, rfl, ?_⟩
  · unfold macMsg header
    rw [hscb]
    simp [SOM]
  · unfold Packet.frame
    rw [← le16_crc, hc, List.append_assoc]
  · rw [← crcBit, hcrc, if_pos rfl]; rfl

theorem decode_sent (C : Cipher) (s r : Pd) (t : Tx) (ty : Byte) (data : List Byte) (hr : r.scActive = true)
    (hside : r.isPd = s.isCp) (hcap : r.isPd = true → r.scCapable = true) (hsame : Meets s.sc r.sc)
    (hcm : s.isCp = false → s.sc.cMac = r.sc.cMac) (hscb : t.scb = [2#8, ty]) (hty : 0x15#8 ≤ ty ∧ ty ≤ 0x18#8) (hbit : hasBit t.ctl CTL_SCB = true) (hcrc : hasBit t.ctl CTL_CRC = true)
    (hd : data ≠ []) (hfit : (pktOf t (securedData C s t data)).frame.length ≤ 256) :
    ∃ sc, decodeFrame C r (pktOf t (securedData C s t data)).frame = .ok (setSc r sc, (data.length : Int), data) ∧
      SameSession (chainSc C s t data) sc ∧ sc = { r.sc with cMac := sc.cMac, rMac := sc.rMac } := by
  obtain ⟨id, pay, rfl⟩ := List.exists_cons_of_ne_nil hd
  obtain ⟨pl, hpl⟩ : ∃ pl, cipherData C s t (id :: pay) = id :: pl := by
    unfold cipherData
    split
    · exact ⟨_, rfl⟩
    · exact ⟨_, rfl⟩
  have htag : ∀ msg, ((tagOf C s msg).1.take 4).length = 4 := fun msg => by rw [List.length_take, (tagOf C s msg).2]; rfl
  have hsd : securedData C s t (id :: pay) = id :: pl ++ (tagOf C s (macMsg t (id :: pl))).1.take 4 := by
    unfold securedData; rw [hpl]
  have hF := securedFrame_pkt (t := t) (ty := ty) (id := id) (pl := pl) hscb hbit hcrc (htag (macMsg t (id :: pl))) (by rw [← hsd]; exact hfit)
  rw [← hsd] at hF
  have hmac : macOf C r.isPd r.sc (macMsg t (id :: pl)) = tagOf C s (macMsg t (id :: pl)) := by
    unfold macOf tagOf
    rw [hside, hsame.sMac1, hsame.sMac2, hsame.rMac]
    cases hs : s.isCp with
    | true => rfl
    | false => simp only [Bool.false_eq_true, if_false]; rw [hcm hs]
  have hch : SameSession (chainSc C s t (id :: pay)) (chained C r.isPd r.sc (macMsg t (id :: pl))) := by
    have e : (if r.isPd then { r.sc with cMac := macOf C r.isPd r.sc (macMsg t (id :: pl)) } else
        { r.sc with rMac := macOf C r.isPd r.sc (macMsg t (id :: pl)) }) = chained C r.isPd r.sc (macMsg t (id :: pl)) := by
      unfold chained macOf; cases r.isPd <;> rfl
    rw [← e, hmac, hside]
    unfold chainSc
    rw [hpl]
    cases hs : s.isCp with
    | true => exact ⟨hsame.sEnc, hsame.sMac1, hsame.sMac2, rfl, hsame.rMac⟩
    | false => exact ⟨hsame.sEnc, hsame.sMac1, hsame.sMac2, hcm hs, rfl⟩
  refine ⟨_, ?_, hch, ?_⟩
  · rw [decodeFrame_secured C r hF hty hr hcap, if_pos (by rw [hmac])]
    have hst : t.scbType = some ty := by unfold Tx.scbType; rw [hscb]; rfl
    by_cases he : ty = 0x17#8 ∨ ty = 0x18#8
    · rw [if_pos he]
      have henc : t.encrypted = true := by
        unfold Tx.encrypted
        rw [hst]
        rcases he with rfl | rfl <;> decide
      have hp : pl = Sc.encryptData C s.isCp s.sc pay := by
        have : id :: pl = id :: Sc.encryptData C s.isCp s.sc pay := by
          rw [← hpl]; unfold cipherData; rw [if_pos henc]; rfl
        injection this
      have hdec := Sc.decrypt_encrypt C r.flags.allowEmpty r.isPd s.sc (chained C r.isPd r.sc (macMsg t (id :: pl))) pay
        ((pktOf t (securedData C s t (id :: pay))).frame.drop (macMsg t (id :: pl)).length)
        (by rw [← hch.sEnc]; unfold chainSc; split <;> rfl)
        (by
          unfold Sc.dataIv chained
          rw [hside]
          cases hs : s.isCp with
          | true => simp [hsame.rMac]
          | false => simp [hcm hs])
      rw [hside] at hdec
      rw [hside, hp, Sc.encryptData_length]
      rw [hp] at hdec
      rw [hdec]
      show Except.ok _ = Except.ok _
      simp
    · rw [if_neg he]
      have henc : ¬ t.encrypted = true := by
        unfold Tx.encrypted
        rw [hst]
        intro h
        simp at h
        exact he h
      have hp : pl = pay := by
        have : id :: pl = id :: pay := by rw [← hpl]; unfold cipherData; rw [if_neg henc]
        injection this
      rw [hp]
      simp
  · unfold chained; cases r.isPd <;> rfl

end Osdp.Phy
