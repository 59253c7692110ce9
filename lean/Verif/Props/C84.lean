import Verif.Lemmas.ScMem
import Verif.Props.C83

/-!
# C84: data is sealed and opened in place

`Model/ScMem.lean` follows `osdp_encrypt_data`, `osdp_decrypt_data` and `osdp_compute_mac` store by store, on a
buffer in which the data begins at index `o`, with the bundled AES of C83.
-/

namespace Osdp.ScMem
open Osdp.AesMem
open Osdp.Aes (aes)
open Osdp.Spec

/-- the MAC whose complement is the initial vector: that of the message before, from the other end -/
abbrev before (isCmd : Bool) (sc : Sc) : Block := if isCmd then sc.rMac else sc.cMac

theorem pieces {buf : List Byte} {o n : Nat} (h : o + n ≤ buf.length) :
    ∃ pre mid post, buf = pre ++ (mid ++ post) ∧ pre.length = o ∧ mid.length = n ∧ pre = buf.take o ∧ mid = (buf.drop o).take n ∧
      post = buf.drop (o + n) := by
  obtain ⟨he, h1, h2⟩ := split3 buf o n h
  exact ⟨_, _, _, he, h1, h2, rfl, rfl, rfl⟩

/-- **C84 (sealing).** `osdp_encrypt_data` where the data, a marker byte and zeros up to a whole block fit into the
buffer: that much is replaced by its CBC encryption and its length returned; the bytes in front and behind stay. -/
theorem C84_seal (stack : Ctx) (hs : stack.roundKey.length = 176) (isCmd : Bool) (sc : Sc) (buf : List Byte) (o length : Nat)
    (h : o + (length / 16 + 1) * 16 ≤ buf.length) : ∃ n out, encryptData stack isCmd sc buf o length = .ok (n, out) ∧
      n = (length / 16 + 1) * 16 ∧ out.length = buf.length ∧ out.take o = buf.take o ∧ out.drop (o + n) = buf.drop (o + n) ∧
      Cbc.Chained sc.sEnc (before isCmd sc).compl
        ((buf.drop o).take length ++ 0x80#8 :: List.replicate (15 - length % 16) 0#8) ((out.drop o).take n) := by
  have hpl : Sc.aesPadLen (length + 1) = (length / 16 + 1) * 16 := by unfold Sc.aesPadLen; omega
  obtain ⟨pre, mid, post, rfl, hp, hm, h1, h2, h3⟩ := pieces h
  have hd : (mid.take length).length = length := by rw [List.length_take]; omega
  have hrun := encryptData_run stack hs isCmd sc pre (mid.take length) (mid.drop length) post (by rw [hd, hpl, List.length_drop, hm])
  have helen := Sc.encryptData_length aes isCmd sc (mid.take length)
  rw [hd] at hrun helen
  rw [← List.append_assoc (mid.take length), List.take_append_drop, hp, hpl] at hrun
  rw [hpl] at helen
  have hpd : Sc.padData (mid.take length) = mid.take length ++ 0x80#8 :: List.replicate (15 - length % 16) 0#8 := by
    unfold Sc.padData
    rw [hd, hpl, show (length / 16 + 1) * 16 - length - 1 = 15 - length % 16 by omega]
  refine ⟨_, _, hrun, rfl, ?_, ?_, ?_, ?_⟩
  · simp only [List.length_append, helen, hm]
  · rw [List.take_left' hp, List.take_left' hp]
  · rw [← h3, ← List.append_assoc, List.drop_left' (by rw [List.length_append, helen, hp])]
  · have hc := chained_enc sc.sEnc (before isCmd sc).compl (toBlocks (Sc.padData (mid.take length)))
    rw [ofBlocks_toBlocks _ (by rw [Sc.padData_length, hd]; exact Sc.aesPadLen_mod _), hpd] at hc
    rw [List.drop_left' hp, List.drop_left' hp, List.take_left' helen, List.take_append_of_le_length (by omega)]
    unfold Sc.encryptData
    rw [hpd]
    exact hc

/-- **C84 (opening).** `osdp_decrypt_data` on one or more whole blocks within the buffer: the bytes in front and behind
stay.  If the blocks are the CBC encryption of `d`, a marker byte and zeros, the length of `d` is returned and `d` stands at
the front of the data; otherwise -1 is returned. -/
theorem C84_open_partial (stack : Ctx) (hs : stack.roundKey.length = 176) (ae isCmd : Bool) (sc : Sc) (buf : List Byte) (o n : Nat)
    (hn : n ≠ 0) (h : o + 16 * n ≤ buf.length) : ∃ r out, decryptData stack ae isCmd sc buf o (16 * n) = .ok (r, out) ∧
      out.length = buf.length ∧ out.take o = buf.take o ∧ out.drop (o + 16 * n) = buf.drop (o + 16 * n) ∧
      ∃ plain, Cbc.Chained sc.sEnc (before isCmd sc).compl plain ((buf.drop o).take (16 * n)) ∧
        ((∃ d z, plain = d ++ 0x80#8 :: List.replicate z 0#8 ∧ r = (d.length : Int) ∧ (out.drop o).take d.length = d) ∨
          (r = -1 ∧ ¬ ∃ d z, plain = d ++ 0x80#8 :: List.replicate z 0#8)) := by
  obtain ⟨pre, ct, post, rfl, hp, hm, h1, h2, h3⟩ := pieces h
  have hne : ct ≠ [] := List.length_pos_iff.mp (by omega)
  obtain ⟨plain, hpl, hpe, hrun⟩ := decryptData_run stack hs ae isCmd sc pre ct post (by omega) hne
  have hch : Cbc.Chained sc.sEnc (before isCmd sc).compl plain ct := by
    have := chained_dec sc.sEnc (before isCmd sc).compl (toBlocks ct)
    rw [ofBlocks_toBlocks ct (by omega)] at this
    rw [hpe]
    exact this
  rw [hp, hm] at hrun
  have hct : ((pre ++ (ct ++ post)).drop o).take (16 * n) = ct := by rw [List.drop_left' hp, List.take_left' hm]
  obtain ⟨d, b, z, hd, hb⟩ := last_nonzero plain (List.length_pos_iff.mp (by omega))
  by_cases h80 : b = 0x80#8
  · subst h80
    have hst : Sc.stripPad plain = some d := by rw [hd]; exact stripPad_marked d z
    rw [hst] at hrun
    have hle : d.length ≤ plain.length := by rw [hd]; simp
    refine ⟨_, _, hrun, ?_, ?_, ?_, plain, by rw [hct]; exact hch, .inl ⟨d, z, hd, rfl, ?_⟩⟩
    · simp only [List.length_append, List.length_replicate]; omega
    · rw [List.take_left' hp, List.take_left' hp]
    · rw [← h3, ← List.append_assoc d, ← List.append_assoc pre]
      refine List.drop_left' ?_
      simp only [List.length_append, List.length_replicate]; omega
    · rw [List.drop_left' hp, List.take_left]
  · have hst : Sc.stripPad plain = none := by rw [hd]; exact stripPad_other d b z hb h80
    rw [hst] at hrun
    refine ⟨_, _, hrun, ?_, ?_, ?_, plain, by rw [hct]; exact hch, .inr ⟨rfl, fun ⟨d', z', he⟩ => ?_⟩⟩
    · simp only [List.length_append]; omega
    · rw [List.take_left' hp, List.take_left' hp]
    · rw [← h3, ← List.append_assoc]
      exact List.drop_left' (by rw [List.length_append]; omega)
    · rw [he, stripPad_marked] at hst
      cases hst

/-- **C84 (round trip).** What `osdp_encrypt_data` sealed, `osdp_decrypt_data` opens in the same place. -/
theorem C84_roundtrip (stack stack' : Ctx) (hs : stack.roundKey.length = 176) (hs' : stack'.roundKey.length = 176) (ae isCmd : Bool)
    (snd rcv : Sc) (hk : rcv.sEnc = snd.sEnc) (hm : before isCmd rcv = before isCmd snd) (buf : List Byte) (o length : Nat)
    (h : o + (length / 16 + 1) * 16 ≤ buf.length) : ∃ n out out', encryptData stack isCmd snd buf o length = .ok (n, out) ∧
      decryptData stack' ae isCmd rcv out o n = .ok ((length : Int), out') ∧ out'.take (o + length) = buf.take (o + length) := by
  have hpl : Sc.aesPadLen (length + 1) = (length / 16 + 1) * 16 := by unfold Sc.aesPadLen; omega
  obtain ⟨pre, mid, post, rfl, hp, hml, h1, h2, h3⟩ := pieces h
  have hd : (mid.take length).length = length := by rw [List.length_take]; omega
  have hrun := encryptData_run stack hs isCmd snd pre (mid.take length) (mid.drop length) post (by rw [hd, hpl, List.length_drop, hml])
  have helen := Sc.encryptData_length aes isCmd snd (mid.take length)
  rw [hd] at hrun helen
  rw [← List.append_assoc (mid.take length), List.take_append_drop, hp] at hrun
  have hmod := Sc.aesPadLen_mod (length + 1)
  obtain ⟨plain, hpl', hpe, hdec⟩ := decryptData_run stack' hs' ae isCmd rcv pre (Sc.encryptData aes isCmd snd (mid.take length)) post
    (by rw [helen]; exact hmod) (List.length_pos_iff.mp (by rw [helen, hpl]; omega))
  have hiv : Sc.dataIv isCmd rcv = Sc.dataIv isCmd snd := congrArg Bytes.compl hm
  have hplain : plain = Sc.padData (mid.take length) := by
    rw [hpe, hk, hiv, Sc.encryptData, toBlocks_ofBlocks, cbcDec_cbcEnc, ofBlocks_toBlocks]
    rw [Sc.padData_length]; exact Sc.aesPadLen_mod _
  have hst : Sc.stripPad plain = some (mid.take length) := by rw [hplain]; exact Sc.stripPad_padData _
  rw [hst, helen, hp] at hdec
  dsimp only at hdec
  rw [hd] at hdec
  refine ⟨_, _, _, hrun, hdec, ?_⟩
  have e1 : (pre ++ (mid.take length ++ (List.replicate (plain.length - length) 0#8 ++ post))).take (o + length) =
      pre ++ mid.take length := by
    rw [← List.append_assoc]
    exact List.take_left' (by rw [List.length_append]; omega)
  have e2 : (pre ++ (mid ++ post)).take (o + length) = pre ++ mid.take length := by
    rw [← hp, List.take_length_add_append, List.take_append_of_le_length (by omega)]
  rw [e1, e2]

/-- **C84 (MAC).** `osdp_compute_mac` over a message of 1 to 256 bytes stores the MAC of the message, chained to that of the
message before. -/
theorem C84_mac (stack : Ctx) (hs : stack.roundKey.length = 176) (isCmd : Bool) (sc : Sc) (msg : List Byte) (hne : msg ≠ [])
    (hl : msg.length ≤ 256) : computeMac stack isCmd sc msg = .ok (Session.mac aes sc.sMac1 sc.sMac2 (before isCmd sc) msg).1 := by
  rw [computeMac_run stack hs]
  cases isCmd with
  | true => rw [computeMac_cmd hne hl]; rfl
  | false => rw [computeMac_reply hne hl]; rfl

/-- **C84 (no data).** With no data and without OSDP_FLAG_ALLOW_EMPTY_ENCRYPTED_DATA_BLOCK the search for the marker goes
backwards over what precedes the data, down to the last byte there that is not zero.  A negative value is returned; a marker
byte found there is overwritten. -/
theorem C84_empty_partial (stack : Ctx) (hs : stack.roundKey.length = 176) (isCmd : Bool) (sc : Sc) (pre : List Byte) (b : Byte)
    (hb : b ≠ 0#8) (z : Nat) (post : List Byte) :
    decryptData stack false isCmd sc (pre ++ b :: (List.replicate z 0#8 ++ post)) (pre.length + 1 + z) 0 =
      .ok (if b = 0x80#8 then (-(z + 1 : Int), pre ++ 0#8 :: (List.replicate z 0#8 ++ post))
        else (-1, pre ++ b :: (List.replicate z 0#8 ++ post))) := by
  have hbuf : pre ++ b :: (List.replicate z 0#8 ++ post) = (pre ++ b :: List.replicate z 0#8) ++ ([] ++ post) := by simp
  have hl : (pre ++ b :: List.replicate z 0#8).length = pre.length + 1 + z := by simp; omega
  have hdec := decrypt_whole stack hs sc.sEnc (Sc.dataIv isCmd sc) [] post rfl
  rw [toBlocks_nil] at hdec
  have hat : at_ (osdpDecrypt stack sc.sEnc.1 (some (Sc.dataIv isCmd sc).1)) (pre ++ b :: (List.replicate z 0#8 ++ post))
      (pre.length + 1 + z) 0 = .ok (pre ++ b :: (List.replicate z 0#8 ++ post)) := by
    unfold at_
    rw [hbuf, List.drop_left' hl, List.take_left' hl]
    have hdec' : osdpDecrypt stack sc.sEnc.1 (some (Sc.dataIv isCmd sc).1) ([] ++ post) 0 = .ok post := hdec
    rw [hdec']
    rfl
  unfold decryptData
  rw [if_neg (by decide), if_neg (by simp), hat]
  simp only [Res.ok_bind]
  have hgb : get (pre ++ b :: (List.replicate z 0#8 ++ post)) pre.length = .ok b := get_shift pre _ 0
  have hscan := scan_back (pre ++ b :: (List.replicate z 0#8 ++ post)) (pre.length + 1 + z) pre.length z (by omega) b hgb hb
    (fun i h1 h2 => by
      obtain ⟨j, rfl⟩ : ∃ j, i = pre.length + (j + 1) := ⟨i - pre.length - 1, by omega⟩
      rw [get_shift]
      show get (List.replicate z 0#8 ++ post) j = _
      rw [get_front _ _ _ (by rw [List.length_replicate]; omega), get_eq _ _ (by rw [List.length_replicate]; omega),
        List.getElem_replicate])
  unfold unpad
  rw [show pre.length + 1 + z + 0 = pre.length + z + 1 by omega, hscan]
  simp only [Res.ok_bind, hgb]
  by_cases h80 : b = 0x80#8
  · subst h80
    rw [if_neg (by simp), if_pos rfl, wr_end]
    simp only [Res.ok_bind]
    rw [show ((pre.length : Nat) : Int) - (pre.length + 1 + z : Nat) = -(z + 1 : Int) by omega]
  · rw [if_pos h80, if_neg h80]

/-! ### samples -/

/-- keys of a session -/
def sc84 : Sc := { Sc.zero with sEnc := key83, sMac1 := iv83, sMac2 := key83, rMac := iv83, cMac := key83 }

/-- a packet so far: five bytes, three bytes of data, and room -/
def buf84 : List Byte := [0x53, 0x65, 0x00, 0x00, 0x6A, 0x01, 0x02, 0x03] ++ List.replicate 14 0xEE#8

/-- sealed in a buffer that has one byte more than needed, which stays; opened again -/
example : 5 + (3 / 16 + 1) * 16 ≤ buf84.length ∧
    (encryptData dirty true sc84 buf84 5 3).toOption.map (fun r => (r.1, r.2.take 5, r.2.drop 21)) =
      some (16, [0x53, 0x65, 0x00, 0x00, 0x6A], [0xEE]) ∧
    ((encryptData dirty true sc84 buf84 5 3).toOption.bind fun r => (decryptData dirty false true sc84 r.2 5 16).toOption) =
      some (3, [0x53, 0x65, 0x00, 0x00, 0x6A, 0x01, 0x02, 0x03] ++ List.replicate 13 0#8 ++ [0xEE]) := by
  refine ⟨?_, ?_, ?_⟩ <;> decide +kernel

/-- one byte less of room: the padding runs over the end -/
example : (encryptData dirty true sc84 (buf84.take 20) 5 3).toOption = none := by decide +kernel

/-- blocks that do not end in a marker are refused -/
example : (decryptData dirty false true sc84 buf84 5 16).toOption.map (·.1) = some (-1) := by decide +kernel

example : (computeMac dirty true sc84 (buf84.take 20)).toOption.map List.length = some 16 := by decide +kernel

/-- **C84, refuted for no data.** The vendor command 0x80 with an empty enciphered block, without the flag: the search for
the marker finds the command id, in front of the data, and overwrites it. -/
theorem C84_before : (decryptData dirty false true sc84 [0x53, 0x65, 0x0E, 0x00, 0x0C, 0x02, 0x17, 0x80, 0xAA] 8 0).toOption =
    some (-1, [0x53, 0x65, 0x0E, 0x00, 0x0C, 0x02, 0x17, 0x00, 0xAA]) := by decide +kernel

end Osdp.ScMem
