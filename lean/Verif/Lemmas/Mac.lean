import Verif.Lemmas.Sc
import Verif.Spec.Session

/-! # The model's message authentication code is the specified one -/

namespace Osdp

open Spec.Session

theorem padMac_drop (l : List Byte) (h : 16 ≤ l.length) : Sc.padMac l = l.take 16 ++ Sc.padMac (l.drop 16) := by
  unfold Sc.padMac
  have e : (l.drop 16).length = l.length - 16 := by simp
  by_cases hm : l.length % 16 = 0
  · rw [if_pos hm, if_pos (by rw [e]; omega), List.take_append_drop]
  · rw [if_neg hm, if_neg (by rw [e]; omega), ← List.append_assoc, List.take_append_drop, e]
    have : Sc.aesPadLen l.length - l.length - 1 = Sc.aesPadLen (l.length - 16) - (l.length - 16) - 1 := by
      unfold Sc.aesPadLen; omega
    rw [this]

theorem toBlocks_nil : toBlocks [] = [] := by
  unfold toBlocks
  rw [dif_neg (by simp)]

theorem toBlocks_cons (b : List Byte) (hb : b.length = 16) (l : List Byte) : toBlocks (b ++ l) = ⟨b, hb⟩ :: toBlocks l := by
  rw [toBlocks]
  rw [dif_pos (by simp; omega)]
  congr 1
  · apply Subtype.ext
    show (b ++ l).take 16 = b
    rw [← hb, List.take_left]
  · rw [← hb, List.drop_left]

theorem blocks_chunks (l : List Byte) : toBlocks (Sc.padMac l) = chunks l := by
  rw [chunks]
  split
  · rename_i h; subst h
    exact toBlocks_nil
  rename_i hn
  have hpos := List.length_pos_iff.mpr hn
  split
  · rename_i h16
    have e : Sc.padMac l = (l ++ 0x80#8 :: List.replicate (15 - l.length) 0#8) ++ [] := by
      unfold Sc.padMac
      rw [if_neg (by omega), List.append_nil]
      have : Sc.aesPadLen l.length - l.length - 1 = 15 - l.length := by unfold Sc.aesPadLen; omega
      rw [this]
    rw [e, toBlocks_cons _ (by simp; omega), toBlocks_nil]
  · rename_i h16
    have hle : 16 ≤ l.length := by omega
    rw [padMac_drop l hle, toBlocks_cons _ (by simp; omega), blocks_chunks (l.drop 16)]
  termination_by l.length
  decreasing_by simp; omega

theorem chunks_ne {l : List Byte} (h : l ≠ []) : chunks l ≠ [] := by
  rw [chunks, dif_neg h]
  split <;> simp

theorem cbc_last (C : Cipher) (k iv b : Block) (bs : List Block) :
    (cbcEnc C k iv (b :: bs)).getLast?.getD iv = (cbcEnc C k (C.enc k (b.xor iv)) bs).getLast?.getD (C.enc k (b.xor iv)) := by
  show ((C.enc k (b.xor iv)) :: cbcEnc C k (C.enc k (b.xor iv)) bs).getLast?.getD iv = _
  cases hb : cbcEnc C k (C.enc k (b.xor iv)) bs with
  | nil => rfl
  | cons x l =>
    rw [List.getLast?_cons_cons]
    cases hl : (x :: l).getLast? with
    | none => simp at hl
    | some y => rfl

theorem macBlocks_chain (C : Cipher) (k1 k2 iv : Block) (bs : List Block) (h : bs ≠ []) :
    Sc.macBlocks C k1 k2 iv bs = some (chain C k1 k2 iv bs) := by
  induction bs generalizing iv with
  | nil => exact absurd rfl h
  | cons b bs ih =>
    cases bs with
    | nil => rfl
    | cons b' bs =>
      have := ih (C.enc k1 (b.xor iv)) (by simp)
      unfold chain
      rw [← this]
      unfold Sc.macBlocks
      rw [List.getLast?_cons_cons]
      cases hl : (b' :: bs).getLast? with
      | none => simp at hl
      | some y =>
        dsimp only
        rw [List.dropLast_cons_cons, cbc_last]

theorem computeMac_cmd {C : Cipher} {sc : Sc} {msg : List Byte} (h : msg ≠ []) (hl : msg.length ≤ 256) :
    Sc.computeMac C true sc msg = .ok { sc with cMac := mac C sc.sMac1 sc.sMac2 sc.rMac msg } := by
  unfold Sc.computeMac
  rw [if_neg (by omega), if_pos rfl, blocks_chunks, macBlocks_chain _ _ _ _ _ (chunks_ne h)]
  rfl

theorem computeMac_reply {C : Cipher} {sc : Sc} {msg : List Byte} (h : msg ≠ []) (hl : msg.length ≤ 256) :
    Sc.computeMac C false sc msg = .ok { sc with rMac := mac C sc.sMac1 sc.sMac2 sc.cMac msg } := by
  unfold Sc.computeMac
  rw [if_neg (by omega), if_neg (by simp), blocks_chunks, macBlocks_chain _ _ _ _ _ (chunks_ne h)]
  rfl

end Osdp
