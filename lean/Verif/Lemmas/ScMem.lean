import Verif.Model.ScMem
import Verif.Lemmas.AesCbc
import Verif.Lemmas.Mac

/-!
# The data functions of the secure channel on memory compute those of `Model/Sc.lean`
-/

namespace Osdp.ScMem
open Osdp.AesMem
open Osdp.Aes (aes)

theorem wr_end (m : List Byte) (b v : Byte) (post : List Byte) : wr (m ++ b :: post) m.length v = .ok (m ++ v :: post) := by
  have := wr_shift m (b :: post) 0 v
  rw [Nat.add_zero] at this
  rw [this]
  rfl

/-- writing `vs` one after the other -/
theorem fill_run (f : Nat → Prog Unit) (vs : List Byte) (pre olds post : List Byte) (hl : olds.length = vs.length)
    (hf : ∀ i, (h : i < vs.length) → f (pre.length + i) = st (pre.length + i) vs[i]) :
    run (loop f pre.length vs.length) (pre ++ (olds ++ post)) = .ok ((), pre ++ (vs ++ post)) := by
  induction vs generalizing pre olds with
  | nil =>
    cases olds with
    | nil => rfl
    | cons b l => simp at hl
  | cons v vs ih =>
    cases olds with
    | nil => simp at hl
    | cons b olds =>
      have h0 := hf 0 (by simp)
      rw [Nat.add_zero] at h0
      have h1 : run (f pre.length) (pre ++ ((b :: olds) ++ post)) = .ok ((), (pre ++ [v]) ++ (olds ++ post)) := by
        rw [h0]
        show (wr _ _ _ >>= _) = _
        rw [List.cons_append, wr_end]
        simp [run]
      rw [List.length_cons, loop, run_seq h1]
      have h2 := ih (pre ++ [v]) olds (by simpa using hl) (fun i hi => by
        have := hf (i + 1) (by simpa using hi)
        rw [List.length_append, List.length_singleton, Nat.add_assoc, Nat.add_comm 1 i]
        exact this)
      rw [List.length_append, List.length_singleton] at h2
      rw [h2]
      simp

theorem pad_run (d olds post : List Byte) (h : olds.length = Sc.aesPadLen (d.length + 1) - d.length) :
    run (pad d.length) (d ++ (olds ++ post)) = .ok ((), Sc.padData d ++ post) := by
  have hp := Sc.le_aesPadLen (d.length + 1)
  cases olds with
  | nil => simp at h; omega
  | cons b olds =>
    have h1 : run (st d.length 0x80#8) (d ++ ((b :: olds) ++ post)) = .ok ((), (d ++ [0x80#8]) ++ (olds ++ post)) := by
      show (wr _ _ _ >>= _) = _
      rw [List.cons_append, wr_end]
      simp [run]
    unfold pad
    rw [run_seq h1]
    have h2 := fill_run (fun i => st i 0#8) (List.replicate (Sc.aesPadLen (d.length + 1) - d.length - 1) 0#8) (d ++ [0x80#8]) olds post
      (by rw [List.length_replicate]; simp at h; omega) (fun i hi => by rw [List.getElem_replicate])
    rw [List.length_replicate, List.length_append, List.length_singleton] at h2
    rw [h2]
    simp [Sc.padData]

/-- a buffer up to `o`, `n` bytes, and the rest -/
theorem split3 (buf : List Byte) (o n : Nat) (h : o + n ≤ buf.length) :
    buf = buf.take o ++ ((buf.drop o).take n ++ buf.drop (o + n)) ∧ (buf.take o).length = o ∧ ((buf.drop o).take n).length = n := by
  refine ⟨?_, by rw [List.length_take]; omega, by rw [List.length_take, List.length_drop]; omega⟩
  rw [← List.drop_drop, List.take_append_drop, List.take_append_drop]

theorem encrypt_whole (stack : Ctx) (hs : stack.roundKey.length = 176) (key iv : Block) (l post : List Byte) (hl : l.length % 16 = 0) :
    osdpEncrypt stack key.1 (some iv.1) (l ++ post) l.length = .ok (ofBlocks (cbcEnc aes key iv (toBlocks l)) ++ post) := by
  have h := osdpEncrypt_cbc stack hs key iv (toBlocks l) post
  rw [ofBlocks_toBlocks l hl, toBlocks_length, show 16 * (l.length / 16) = l.length by omega] at h
  exact h

theorem decrypt_whole (stack : Ctx) (hs : stack.roundKey.length = 176) (key iv : Block) (l post : List Byte) (hl : l.length % 16 = 0) :
    osdpDecrypt stack key.1 (some iv.1) (l ++ post) l.length = .ok (ofBlocks (cbcDec aes key iv (toBlocks l)) ++ post) := by
  have h := osdpDecrypt_cbc stack hs key iv (toBlocks l) post
  rw [ofBlocks_toBlocks l hl, toBlocks_length, show 16 * (l.length / 16) = l.length by omega] at h
  exact h

/-- `osdp_encrypt_data` where the padded data fits -/
theorem encryptData_run (stack : Ctx) (hs : stack.roundKey.length = 176) (isCmd : Bool) (sc : Sc) (pre d olds post : List Byte)
    (h : olds.length = Sc.aesPadLen (d.length + 1) - d.length) :
    encryptData stack isCmd sc (pre ++ (d ++ (olds ++ post))) pre.length d.length =
      .ok (Sc.aesPadLen (d.length + 1), pre ++ (Sc.encryptData aes isCmd sc d ++ post)) := by
  have hm := Sc.aesPadLen_mod (d.length + 1)
  have he := encrypt_whole stack hs sc.sEnc (Sc.dataIv isCmd sc) (Sc.padData d) post (by rw [Sc.padData_length]; exact hm)
  rw [Sc.padData_length] at he
  unfold encryptData
  rw [run_at, pad_run d olds post h]
  simp only [Res.ok_bind]
  unfold at_
  rw [List.drop_left, List.take_left, he]
  rfl

/-- the loop that skips zeros stops at the byte before them -/
theorem scan_zeros (buf : List Byte) (o p z : Nat) (h0 : o ≤ p) (b : Byte) (hb : get buf p = .ok b) (hne : b ≠ 0#8 ∨ p = o)
    (hz : ∀ i, p < i → i ≤ p + z → get buf i = .ok 0#8) : scan buf o (p + z + 1) = .ok p := by
  induction z with
  | zero =>
    unfold scan
    by_cases hp : p = o
    · rw [if_pos (by omega)]
    · rw [if_neg (by omega), hb]
      simp only [Res.ok_bind]
      rw [if_neg (by rcases hne with h | h; exact h; exact absurd h hp)]
  | succ z ih =>
    unfold scan
    rw [if_neg (by omega), show p + (z + 1) = p + z + 1 by omega, hz (p + z + 1) (by omega) (by omega)]
    simp only [Res.ok_bind]
    exact ih fun i h1 h2 => hz i h1 (by omega)

/-- below the data, too -/
theorem scan_back (buf : List Byte) (o p z : Nat) (h0 : p + z < o) (b : Byte) (hb : get buf p = .ok b) (hne : b ≠ 0#8)
    (hz : ∀ i, p < i → i ≤ p + z → get buf i = .ok 0#8) : scan buf o (p + z + 1) = .ok p := by
  induction z with
  | zero =>
    unfold scan
    rw [if_neg (by omega), hb]
    simp only [Res.ok_bind]
    rw [if_neg hne]
  | succ z ih =>
    unfold scan
    rw [if_neg (by omega), show p + (z + 1) = p + z + 1 by omega, hz (p + z + 1) (by omega) (by omega)]
    simp only [Res.ok_bind]
    exact ih (by omega) fun i h1 h2 => hz i h1 (by omega)

/-- a list is empty, or ends in zeros after a byte that is not zero or is the first -/
theorem last_nonzero (l : List Byte) (h : l ≠ []) : ∃ d b z, l = d ++ b :: List.replicate z 0#8 ∧ (b ≠ 0#8 ∨ d = []) := by
  induction l with
  | nil => exact absurd rfl h
  | cons a l ih =>
    by_cases hl : l = []
    · subst hl; exact ⟨[], a, 0, rfl, .inr rfl⟩
    · obtain ⟨d, b, z, rfl, hb⟩ := ih hl
      rcases hb with hb | rfl
      · exact ⟨a :: d, b, z, rfl, .inl hb⟩
      · by_cases hz : b = 0#8
        · subst hz
          exact ⟨[], a, z + 1, by rw [List.replicate_succ]; rfl, .inr rfl⟩
        · exact ⟨[a], b, z, rfl, .inl hz⟩

theorem dropWhile_zeros (d : List Byte) (b : Byte) (z : Nat) (hb : b ≠ 0#8) :
    (d ++ b :: List.replicate z 0#8).reverse.dropWhile (· = 0#8) = b :: d.reverse := by
  simp only [List.reverse_append, List.reverse_cons, List.reverse_replicate, List.append_assoc]
  induction z with
  | zero => simp [hb]
  | succ z ih => rw [List.replicate_succ, List.cons_append, List.dropWhile_cons_of_pos (by simp)]; exact ih

theorem stripPad_marked (d : List Byte) (z : Nat) : Sc.stripPad (d ++ 0x80#8 :: List.replicate z 0#8) = some d := by
  unfold Sc.stripPad
  rw [dropWhile_zeros d _ z (by decide)]
  simp

theorem stripPad_other (d : List Byte) (b : Byte) (z : Nat) (hb : b ≠ 0#8 ∨ d = []) (h : b ≠ 0x80#8) :
    Sc.stripPad (d ++ b :: List.replicate z 0#8) = none := by
  unfold Sc.stripPad
  by_cases hz : b = 0#8
  · have hd : d = [] := by rcases hb with hb | hb; exact absurd hz hb; exact hb
    subst hz hd
    have : ([] ++ 0#8 :: List.replicate z 0#8 : List Byte).reverse.dropWhile (· = 0#8) = [] := by
      rw [List.nil_append, ← List.replicate_succ, List.reverse_replicate]
      clear h hb
      induction z with
      | zero => rfl
      | succ z ih => rw [List.replicate_succ, List.dropWhile_cons_of_pos (by simp)]; exact ih
    rw [this]
  · rw [dropWhile_zeros d b z hz]
    simp [h]

/-- from the deciphered blocks to the value returned -/
theorem unpad_run (pre plain post : List Byte) (h : plain ≠ []) :
    unpad (pre ++ (plain ++ post)) pre.length plain.length = .ok (match Sc.stripPad plain with
      | none => (-1, pre ++ (plain ++ post))
      | some d => ((d.length : Int), pre ++ (d ++ (List.replicate (plain.length - d.length) 0#8 ++ post)))) := by
  obtain ⟨d, b, z, rfl, hb⟩ := last_nonzero plain h
  have hlen : (d ++ b :: List.replicate z 0#8).length = d.length + z + 1 := by simp; omega
  have hg : ∀ i, (hi : i < d.length + z + 1) → get (pre ++ ((d ++ b :: List.replicate z 0#8) ++ post)) (pre.length + i) =
      .ok ((d ++ b :: List.replicate z 0#8)[i]'(by rw [hlen]; exact hi)) := fun i hi => by
    rw [get_shift, get_front _ _ _ (by rw [hlen]; exact hi), get_eq]
  have hgb : get (pre ++ ((d ++ b :: List.replicate z 0#8) ++ post)) (pre.length + d.length) = .ok b := by
    rw [hg d.length (by omega)]
    simp
  have hscan := scan_zeros (pre ++ ((d ++ b :: List.replicate z 0#8) ++ post)) pre.length (pre.length + d.length) z (by omega) b hgb
    (hb.imp_right fun hd => by rw [hd]; rfl) (fun i h1 h2 => by
      obtain ⟨j, rfl⟩ : ∃ j, i = pre.length + j := ⟨i - pre.length, by omega⟩
      rw [hg j (by omega), List.getElem_append_right (by omega)]
      obtain ⟨k, hk⟩ : ∃ k, j - d.length = k + 1 := ⟨j - d.length - 1, by omega⟩
      simp [hk])
  unfold unpad
  rw [hlen, show pre.length + (d.length + z + 1) = pre.length + d.length + z + 1 by omega, hscan]
  simp only [Res.ok_bind, hgb]
  by_cases h80 : b = 0x80#8
  · subst h80
    rw [if_neg (by simp), stripPad_marked]
    have hw : wr (pre ++ ((d ++ 0x80#8 :: List.replicate z 0#8) ++ post)) (pre.length + d.length) 0#8 =
        .ok (pre ++ (d ++ (List.replicate (z + 1) 0#8 ++ post))) := by
      have := wr_end (pre ++ d) 0x80#8 0#8 (List.replicate z 0#8 ++ post)
      rw [List.length_append] at this
      simp only [List.append_assoc, List.cons_append] at this ⊢
      rw [this, List.replicate_succ]
      rfl
    rw [hw]
    simp only [Res.ok_bind]
    rw [show d.length + z + 1 - d.length = z + 1 by omega, show ((pre.length + d.length : Nat) : Int) - (pre.length : Nat) = d.length by omega]
  · rw [if_pos h80, stripPad_other d b z hb h80]

/-- `osdp_decrypt_data` on one or more whole blocks -/
theorem decryptData_run (stack : Ctx) (hs : stack.roundKey.length = 176) (ae isCmd : Bool) (sc : Sc) (pre ct post : List Byte)
    (hm : ct.length % 16 = 0) (hne : ct ≠ []) :
    ∃ plain, plain.length = ct.length ∧ plain = ofBlocks (cbcDec aes sc.sEnc (Sc.dataIv isCmd sc) (toBlocks ct)) ∧
      decryptData stack ae isCmd sc (pre ++ (ct ++ post)) pre.length ct.length = .ok (match Sc.stripPad plain with
        | none => (-1, pre ++ (plain ++ post))
        | some d => ((d.length : Int), pre ++ (d ++ (List.replicate (plain.length - d.length) 0#8 ++ post)))) := by
  have hlen : (ofBlocks (cbcDec aes sc.sEnc (Sc.dataIv isCmd sc) (toBlocks ct))).length = ct.length := by
    have : ∀ iv bs, (cbcDec aes sc.sEnc iv bs).length = bs.length := fun iv bs => by
      induction bs generalizing iv with
      | nil => rfl
      | cons b bs ih => simp [cbcDec, ih]
    rw [ofBlocks_length, this, toBlocks_length]; omega
  refine ⟨_, hlen, rfl, ?_⟩
  have hpos := List.length_pos_iff.mpr hne
  unfold decryptData
  rw [if_neg (by omega), if_neg (by omega)]
  unfold at_
  rw [List.drop_left, List.take_left, decrypt_whole stack hs sc.sEnc _ ct post hm]
  simp only [Res.ok_bind]
  have := unpad_run pre (ofBlocks (cbcDec aes sc.sEnc (Sc.dataIv isCmd sc) (toBlocks ct))) post
    (List.length_pos_iff.mp (by rw [hlen]; exact hpos))
  rw [hlen] at this
  rw [hlen]
  exact this

/-! ### the MAC -/

theorem wr_oob (m : List Byte) (i : Nat) (v : Byte) (h : m.length ≤ i) : wr m i v = .error .oobWrite := by
  induction m generalizing i with
  | nil => rfl
  | cons b m ih =>
    cases i with
    | zero => simp at h
    | succ i => rw [wr, ih i (by simpa using h)]; rfl

theorem copy_loop (data olds post : List Byte) (n : Nat) (hn : n ≤ data.length) (h : olds.length = n) :
    run (loop (fun i => do st i (← other (get data i))) 0 n) (olds ++ post) = .ok ((), data.take n ++ post) := by
  have hl : (data.take n).length = n := by rw [List.length_take]; omega
  have := fill_run (fun i => do st i (← other (get data i))) (data.take n) [] olds post (by omega) (fun i hi => by
    rw [List.length_nil, Nat.zero_add, get_eq data i (by omega), List.getElem_take]
    rfl)
  rw [hl] at this
  exact this

theorem copyMsg_run (data : List Byte) (h : data.length ≤ 256) :
    run (copyMsg data) (List.replicate 256 0#8) =
      .ok ((), Sc.padMac data ++ List.replicate (256 - (Sc.padMac data).length) 0#8) := by
  have hc := copy_loop data (List.replicate data.length 0#8) (List.replicate (256 - data.length) 0#8) data.length (Nat.le_refl _) (by simp)
  rw [List.replicate_append_replicate, show data.length + (256 - data.length) = 256 by omega, List.take_length] at hc
  unfold copyMsg
  rw [run_seq hc]
  by_cases hm : data.length % 16 = 0
  · rw [if_neg (by omega)]
    simp only [Sc.padMac, if_pos hm]
    rfl
  · have hp := Sc.le_aesPadLen data.length
    have hlt := Sc.aesPadLen_lt data.length
    have hpm := Sc.aesPadLen_mod data.length
    rw [if_pos hm]
    simp only [Sc.padMac, if_neg hm]
    obtain ⟨k, hk⟩ : ∃ k, 256 - data.length = k + 1 := ⟨255 - data.length, by omega⟩
    rw [hk, List.replicate_succ]
    show (wr _ _ _ >>= _) = _
    rw [wr_end]
    simp only [Res.ok_bind, run]
    rw [List.append_assoc, List.cons_append, List.replicate_append_replicate]
    have : k = Sc.aesPadLen data.length - data.length - 1 + (256 - (data ++ 0x80#8 :: List.replicate
        (Sc.aesPadLen data.length - data.length - 1) 0#8).length) := by simp; omega
    rw [← this]

theorem copyMsg_long (data : List Byte) (h : 256 < data.length) :
    run (copyMsg data) (List.replicate 256 0#8) = .error .oobWrite := by
  have hc := copy_loop data (List.replicate 256 0#8) [] 256 (by omega) List.length_replicate
  rw [List.append_nil, List.append_nil] at hc
  have hl : (data.take 256).length = 256 := by rw [List.length_take]; omega
  unfold copyMsg
  rw [run_bind, show data.length = 256 + (data.length - 257 + 1) by omega]
  rw [loop_add _ _ _ _ _ hc, loop, run_bind, run_bind, run_other, get_eq data _ (by omega)]
  simp only [Res.ok_bind]
  have : run (st (0 + 256) (data[0 + 256]'(by omega))) (data.take 256) = .error .oobWrite := by
    show (wr _ _ _ >>= _) = _
    rw [wr_oob _ _ _ (by omega)]
    rfl
  rw [this]
  rfl

theorem read_at (pre : List Byte) (v : Block) (post : List Byte) :
    run (read16 (fun i => ld (pre.length + i)) 0 16) (pre ++ (v.1 ++ post)) = .ok (v.1, pre ++ (v.1 ++ post)) := by
  refine read16_run (v := v.1) (fun i hi => ?_) 0 16 (by rw [v.2])
  show (get _ (pre.length + i) >>= _) = _
  rw [get_shift, get_front _ _ _ hi, get_eq _ _ hi]
  rfl

theorem macLast_run (stack : Ctx) (hs : stack.roundKey.length = 176) (k2 iv last : Block) (pre post : List Byte) (n : Nat)
    (hn : n = pre.length + 16) : macLast stack k2.1 iv.1 (pre ++ (last.1 ++ post)) n = .ok (aes.enc k2 (last.xor iv)).1 := by
  have he := osdpEncrypt_cbc stack hs k2 iv [last] post
  have h1 : ∀ b : Block, ofBlocks [b] = b.1 := fun b => by simp [ofBlocks]
  rw [h1, show cbcEnc aes k2 iv [last] = [aes.enc k2 (last.xor iv)] from rfl, h1] at he
  have he' : osdpEncrypt stack k2.1 (some iv.1) (last.1 ++ post) 16 = .ok ((aes.enc k2 (last.xor iv)).1 ++ post) := he
  unfold macLast at_
  rw [if_neg (by omega), show n - 16 = pre.length by omega, List.drop_left, List.take_left, he']
  simp only [Res.ok_bind]
  rw [read_at]
  rfl

theorem ofBlocks_append (a b : List Block) : ofBlocks (a ++ b) = ofBlocks a ++ ofBlocks b := by simp [ofBlocks]

theorem macFirst_one (stack : Ctx) (k1 iv buf : List Byte) (n : Nat) (h : n ≤ 16) : macFirst stack k1 iv buf n = .ok (buf, iv) := by
  unfold macFirst
  rw [if_neg (by omega)]

theorem macFirst_run (stack : Ctx) (hs : stack.roundKey.length = 176) (k1 iv : Block) (bs : List Block) (hne : bs ≠ [])
    (post : List Byte) (n : Nat) (hn : n = 16 * bs.length + 16) :
    macFirst stack k1.1 iv.1 (ofBlocks bs ++ post) n =
      .ok (ofBlocks (cbcEnc aes k1 iv bs) ++ post, ((cbcEnc aes k1 iv bs).getLast?.getD iv).1) := by
  have hpos := List.length_pos_iff.mpr hne
  have hlen := Osdp.cbcEnc_length aes k1 iv bs
  have hne' : cbcEnc aes k1 iv bs ≠ [] := List.length_pos_iff.mp (by omega)
  have hr := read_at (ofBlocks (cbcEnc aes k1 iv bs).dropLast) ((cbcEnc aes k1 iv bs).getLast hne') post
  have hsplit : ofBlocks (cbcEnc aes k1 iv bs) ++ post = ofBlocks (cbcEnc aes k1 iv bs).dropLast ++
      (((cbcEnc aes k1 iv bs).getLast hne').1 ++ post) := by
    conv => lhs; rw [← List.dropLast_concat_getLast hne']
    rw [ofBlocks_append, List.append_assoc]
    simp [ofBlocks]
  rw [ofBlocks_length, List.length_dropLast, hlen, ← hsplit] at hr
  unfold macFirst
  rw [if_pos (by omega), show n - 16 = 16 * bs.length by omega, osdpEncrypt_cbc stack hs]
  simp only [Res.ok_bind]
  rw [show n - 32 = 16 * (bs.length - 1) by omega, hr, List.getLast?_eq_some_getLast hne']
  rfl

/-- `osdp_compute_mac` is the MAC of the model, faults included -/
theorem computeMac_run (stack : Ctx) (hs : stack.roundKey.length = 176) (isCmd : Bool) (sc : Sc) (data : List Byte) :
    computeMac stack isCmd sc data = Sc.computeMac aes isCmd sc data >>= fun s => .ok (if isCmd then s.cMac else s.rMac).1 := by
  unfold computeMac Sc.computeMac
  by_cases hl : data.length > 256
  · rw [copyMsg_long data hl, if_pos hl]
    rfl
  · rw [copyMsg_run data (by omega), if_neg hl]
    simp only [Res.ok_bind]
    have hpl : (if data.length % 16 = 0 then data.length else Sc.aesPadLen data.length) = (Sc.padMac data).length := by
      unfold Sc.padMac
      have hp := Sc.le_aesPadLen data.length
      split
      · rfl
      · rename_i h
        have hpm := Sc.aesPadLen_mod data.length
        simp; omega
    have hm : (Sc.padMac data).length % 16 = 0 := by
      rw [← hpl]; split
      · assumption
      · exact Sc.aesPadLen_mod _
    rw [hpl]
    have hb : Sc.padMac data = ofBlocks (toBlocks (Sc.padMac data)) := (ofBlocks_toBlocks _ hm).symm
    have hbl : (Sc.padMac data).length = 16 * (toBlocks (Sc.padMac data)).length := by rw [toBlocks_length]; omega
    rw [hbl, hb]
    rw [toBlocks_ofBlocks]
    generalize toBlocks (Sc.padMac data) = bs
    generalize List.replicate (256 - 16 * bs.length) 0#8 = post
    generalize (if isCmd = true then sc.rMac else sc.cMac) = iv
    rcases List.eq_nil_or_concat bs with rfl | ⟨bs, last, rfl⟩
    · rfl
    · rw [List.concat_eq_append]
      have hmb : Sc.macBlocks aes sc.sMac1 sc.sMac2 iv (bs ++ [last]) =
          some (aes.enc sc.sMac2 (last.xor ((cbcEnc aes sc.sMac1 iv bs).getLast?.getD iv))) := by
        unfold Sc.macBlocks
        rw [List.getLast?_append]
        simp
      have h1 : ofBlocks (bs ++ [last]) = ofBlocks bs ++ last.1 := by rw [ofBlocks_append]; simp [ofBlocks]
      rw [hmb, h1, List.append_assoc, List.length_append, List.length_singleton]
      have hfin : ∀ m : Block, (Except.ok m.1 : Res (List Byte)) = ((match (some m : Option Block) with
          | none => .error .oobRead
          | some m => .ok (if isCmd = true then { sc with cMac := m } else { sc with rMac := m })) >>= fun s : Sc =>
            (.ok (if isCmd = true then s.cMac else s.rMac).1 : Res (List Byte))) := fun m => by
        cases isCmd <;> rfl
      rw [← hfin]
      by_cases hne : bs = []
      · subst hne
        rw [macFirst_one _ _ _ _ _ (by simp)]
        simp only [Res.ok_bind]
        exact macLast_run stack hs sc.sMac2 iv last [] post _ rfl
      · rw [macFirst_run stack hs sc.sMac1 iv bs hne _ _ (by omega)]
        simp only [Res.ok_bind]
        exact macLast_run stack hs sc.sMac2 _ last _ post _ (by rw [ofBlocks_length, Osdp.cbcEnc_length]; omega)

end Osdp.ScMem
