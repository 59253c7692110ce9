import Verif.Lemmas.Send
import Verif.Lemmas.Mac
import Verif.Props.C15

/-! # A secured packet that fits is sent -/

namespace Osdp.Phy

open Spec.Session (mac)

/-- the data block as it is transmitted -/
def cipherData (C : Cipher) (p : Pd) (t : Tx) (data : List Byte) : List Byte :=
  if t.encrypted then data.take 1 ++ Sc.encryptData C p.isCp p.sc (data.drop 1) else data

/-- what the MAC is computed over -/
def macMsg (t : Tx) (body : List Byte) : List Byte := header t (5 + t.scb.length + body.length + 6) ++ t.scb ++ body

/-- the MAC -/
def tagOf (C : Cipher) (p : Pd) (msg : List Byte) : Block :=
  mac C p.sc.sMac1 p.sc.sMac2 (if p.isCp then p.sc.rMac else p.sc.cMac) msg

/-- the data block with the MAC -/
def securedData (C : Cipher) (p : Pd) (t : Tx) (data : List Byte) : List Byte :=
  cipherData C p t data ++ (tagOf C p (macMsg t (cipherData C p t data))).1.take 4

/-- the session after that -/
def chainSc (C : Cipher) (p : Pd) (t : Tx) (data : List Byte) : Sc :=
  if p.isCp then { p.sc with cMac := tagOf C p (macMsg t (cipherData C p t data)) }
  else { p.sc with rMac := tagOf C p (macMsg t (cipherData C p t data)) }

theorem cipherData_length (C : Cipher) (p : Pd) (t : Tx) (data : List Byte) (hd : data ≠ []) :
    (cipherData C p t data).length = if t.encrypted then 1 + Sc.aesPadLen data.length else data.length := by
  have := List.length_pos_iff.mpr hd
  unfold cipherData
  split
  · rw [List.length_append, Sc.encryptData_length, List.length_take, List.length_drop]
    rw [show data.length - 1 + 1 = data.length by omega]; omega
  · rfl

theorem securedData_length (C : Cipher) (p : Pd) (t : Tx) (data : List Byte) (hd : data ≠ []) :
    (securedData C p t data).length = (if t.encrypted then 1 + Sc.aesPadLen data.length else data.length) + 4 := by
  unfold securedData
  rw [List.length_append, cipherData_length C p t data hd, List.length_take, (tagOf C p _).2]; rfl

theorem macMsg_core (t : Tx) (body tag : List Byte) (h : tag.length = 4) : macMsg t body ++ tag = (pktOf t (body ++ tag)).core := by
  unfold macMsg
  rw [← header_core]
  simp only [List.length_append, h, List.append_assoc]
  congr 2

theorem finalize_secured (C : Cipher) (p : Pd) (t : Tx) (data : List Byte) (m : Nat) (hsec : Secured p t)
    (hmis : t.misaligned = false) (hd : data ≠ []) (hm : m ≤ 256)
    (hfit : (pktOf t (securedData C p t data)).bytes.length ≤ m) :
    finalize C p t data m = .ok (setSc p (chainSc C p t data), some (pktOf t (securedData C p t data)).bytes) := by
  have hl := List.length_pos_iff.mpr hd
  have hb := bytes_length (pktOf t (securedData C p t data))
  have e : (pktOf t (securedData C p t data)).len = 5 + t.scb.length + (securedData C p t data).length + 2 := rfl
  rw [show (pktOf t (securedData C p t data)).mark = t.mark from rfl] at hb
  have htag : ∀ msg, ((tagOf C p msg).1.take 4).length = 4 := fun msg => by rw [List.length_take, (tagOf C p msg).2]; rfl
  have hsl : (securedData C p t data).length = (cipherData C p t data).length + 4 := by
    unfold securedData; rw [List.length_append, htag]
  have hc := cipherData_length C p t data hd
  have hmsg : (macMsg t (cipherData C p t data)).length = 5 + t.scb.length + (cipherData C p t data).length := by
    unfold macMsg; simp [header]; omega
  have hmac : finalizeMac C p t (cipherData C p t data) (m - if t.mark then 1 else 0) =
      .ok (setSc p (chainSc C p t data), some (pktOf t (securedData C p t data)).bytes) := by
    unfold finalizeMac
    dsimp only
    rw [if_neg (by omega)]
    have hne : macMsg t (cipherData C p t data) ≠ [] := by unfold macMsg; simp [header]
    have hcm : Sc.computeMac C p.isCp p.sc (macMsg t (cipherData C p t data)) = .ok (chainSc C p t data) := by
      unfold chainSc tagOf
      cases p.isCp with
      | true => exact computeMac_cmd hne (by omega)
      | false => exact computeMac_reply hne (by omega)
    rw [show header t (5 + t.scb.length + (cipherData C p t data).length + 6) ++ t.scb ++ cipherData C p t data =
      macMsg t (cipherData C p t data) from rfl, hcm]
    simp only [Res.ok_bind]
    have hch : (if p.isCp then (chainSc C p t data).cMac else (chainSc C p t data).rMac) = tagOf C p (macMsg t (cipherData C p t data)) := by
      unfold chainSc; cases p.isCp <;> rfl
    rw [hch, macMsg_core _ _ _ (htag _)]
    unfold wrap
    rw [core_length, if_neg ?_, ← List.append_assoc, pktOf_bytes]
    · rfl
    · have e' : 5 + (pktOf t (cipherData C p t data ++ List.take 4 (tagOf C p (macMsg t (cipherData C p t data))).1)).scb.length +
        (pktOf t (cipherData C p t data ++ List.take 4 (tagOf C p (macMsg t (cipherData C p t data))).1)).data.length =
        5 + t.scb.length + (securedData C p t data).length := rfl
      rw [e']; omega
  unfold finalize
  dsimp only
  rw [if_neg (by simp [hmis]), if_neg (by omega), if_pos ((secured_iff p t).mpr hsec)]
  unfold finalizeSecured
  have hdl : (data.drop 1).length + 1 = data.length := by rw [List.length_drop]; omega
  rw [hc] at hsl
  unfold cipherData at hmac
  split
  · rename_i he
    rw [if_pos he] at hmac hsl
    dsimp only
    rw [hdl, if_neg, if_neg]
    · exact hmac
    · show ¬ (if t.mark = true then 1 else 0) + 5 + t.scb.length + 1 + Sc.aesPadLen data.length > 256
      omega
    · omega
  · rename_i he
    rw [if_neg he] at hmac
    exact hmac

theorem sendPacket_secured (C : Cipher) (p : Pd) (env : Env) (t : Tx) (data : List Byte) (m : Nat) (hsec : Secured p t)
    (hmis : t.misaligned = false) (hd : data ≠ []) (hm : m ≤ 256) (hbuf : p.packetBuf.length = 256)
    (hfit : (pktOf t (securedData C p t data)).bytes.length ≤ m) :
    ∃ buf, sendPacket C p env t data m = .ok ({ p with sc := chainSc C p t data, packetBuf := buf },
      sendOuts p env (pktOf t (securedData C p t data)).bytes,
      decide ((pktOf t (securedData C p t data)).bytes.length ≤ env.sendCap)) ∧ buf.length = 256 := by
  unfold sendPacket
  rw [finalize_secured C p t data m hsec hmis hd hm hfit]
  simp only [Res.ok_bind]
  have hwr : ∃ buf, writeAt p.packetBuf 0 (pktOf t (securedData C p t data)).bytes = .ok buf := by
    unfold writeAt
    rw [if_pos (by omega)]
    exact ⟨_, rfl⟩
  obtain ⟨buf, hwr⟩ := hwr
  refine ⟨buf, ?_, ?_⟩
  · show (writeAt p.packetBuf 0 _ >>= _) = _
    rw [hwr]
    rfl
  · rw [writeAt_length hwr]; exact hbuf

end Osdp.Phy
