import Verif.Lemmas.AesMem
import Verif.Lemmas.Sc
import Verif.Props.C14

/-!
# The in-place CBC code computes the functions of `Model/Cbc.lean`
-/

namespace Osdp.AesMem
open Osdp.Aes (State toBlock ofBlock encBlock decBlock aes toBlock_ofBlock)

theorem cipher_block {rk : List Byte} {key : Block} (h : Schedule rk (ofBlock key)) (b : Block) (post : List Byte) :
    run (cipher rk) (b.1 ++ post) = .ok ((), (encBlock key b).1 ++ post) := by
  have := cipher_run h (ofBlock b) post
  rwa [toBlock_ofBlock] at this

theorem invCipher_block {rk : List Byte} {key : Block} (h : Schedule rk (ofBlock key)) (b : Block) (post : List Byte) :
    run (invCipher rk) (b.1 ++ post) = .ok ((), (decBlock key b).1 ++ post) := by
  have := invCipher_run h (ofBlock b) post
  rwa [toBlock_ofBlock] at this

theorem xor_states (s v : State) (post : List Byte) :
    run (xorWithIv 0 fun i => other (get (toBlock v).1 i)) ((toBlock s).1 ++ post) =
      .ok ((), ((toBlock s).xor (toBlock v)).1 ++ post) := rfl

theorem xor_chained (v s : State) (post : List Byte) :
    run (xorWithIv 16 fun i => ld (0 + i)) ((toBlock v).1 ++ ((toBlock s).1 ++ post)) =
      .ok ((), (toBlock v).1 ++ (((toBlock s).xor (toBlock v)).1 ++ post)) := rfl

/-- `XorWithIv` with the vector outside the data -/
theorem xor_ctx (pre : List Byte) (b v : Block) (post : List Byte) :
    run (xorWithIv pre.length fun i => other (get v.1 i)) (pre ++ (b.1 ++ post)) = .ok ((), pre ++ ((b.xor v).1 ++ post)) := by
  have he : xorWithIv pre.length (fun i => other (get v.1 i)) = Prog.at_ pre.length (xorWithIv 0 fun i => other (get v.1 i)) := by
    unfold xorWithIv
    rw [loop_at]
    refine loop_congr 0 16 fun i _ _ => ?_
    dsimp only
    rw [Nat.zero_add]
    cases get v.1 i <;> rfl
  have h := xor_states (ofBlock b) (ofBlock v) post
  rw [toBlock_ofBlock, toBlock_ofBlock] at h
  rw [he, run_at, h]
  rfl

/-- `XorWithIv` with the vector in the data, just before the block -/
theorem xor_prev (pre : List Byte) (b v : Block) (post : List Byte) :
    run (xorWithIv (pre ++ v.1).length fun i => ld (pre.length + i)) ((pre ++ v.1) ++ (b.1 ++ post)) =
      .ok ((), (pre ++ v.1) ++ ((b.xor v).1 ++ post)) := by
  have he : xorWithIv (pre ++ v.1).length (fun i => ld (pre.length + i)) = Prog.at_ pre.length (xorWithIv 16 fun i => ld (0 + i)) := by
    unfold xorWithIv
    rw [loop_at]
    refine loop_congr 0 16 fun i _ _ => ?_
    dsimp only
    rw [List.length_append, v.2, Nat.add_assoc, Nat.zero_add]
    rfl
  have h := xor_chained (ofBlock v) (ofBlock b) post
  rw [toBlock_ofBlock, toBlock_ofBlock] at h
  rw [he, List.append_assoc, run_at, h]
  simp

/-- the pointer `Iv` points at `v`, after the data `pre` has been dealt with -/
def IvIs (c : Ctx) (pre : List Byte) (v : Block) : Option Nat → Prop
  | none => c.iv = v.1
  | some p => ∃ pre0, pre = pre0 ++ v.1 ∧ p = pre0.length

theorem xor_run {c : Ctx} {pre : List Byte} {v : Block} {iv : Option Nat} (h : IvIs c pre v iv) (b : Block) (post : List Byte) :
    run (xorWithIv pre.length (ivAt c iv)) (pre ++ (b.1 ++ post)) = .ok ((), pre ++ ((b.xor v).1 ++ post)) := by
  cases iv with
  | none =>
    have h' : c.iv = v.1 := h
    rw [show ivAt c none = fun i => other (get v.1 i) by funext i; simp [ivAt, h']]
    exact xor_ctx pre b v post
  | some p =>
    obtain ⟨pre0, rfl, rfl⟩ := h
    exact xor_prev pre0 b v post

theorem cbcEncLoop_run {c : Ctx} {key : Block} (h : Schedule c.roundKey (ofBlock key)) (bs : List Block) (post : List Byte)
    (pre : List Byte) (v : Block) (iv : Option Nat) (hv : IvIs c pre v iv) :
    ∃ iv' w, run (cbcEncLoop c bs.length pre.length iv) (pre ++ (ofBlocks bs ++ post)) =
        .ok (iv', pre ++ (ofBlocks (cbcEnc aes key v bs) ++ post)) ∧
      IvIs c (pre ++ ofBlocks (cbcEnc aes key v bs)) w iv' := by
  induction bs generalizing pre v iv with
  | nil => exact ⟨iv, v, rfl, by simpa [cbcEnc, ofBlocks] using hv⟩
  | cons b bs ih =>
    have hsplit : ∀ (x : Block) (xs : List Block), ofBlocks (x :: xs) ++ post = x.1 ++ (ofBlocks xs ++ post) := fun x xs => by
      simp [ofBlocks]
    have hc : run (Prog.at_ pre.length (cipher c.roundKey)) (pre ++ ((b.xor v).1 ++ (ofBlocks bs ++ post))) =
        .ok ((), pre ++ ((encBlock key (b.xor v)).1 ++ (ofBlocks bs ++ post))) := by
      rw [run_at, cipher_block h]
      rfl
    obtain ⟨iv', w, hrun, hw⟩ := ih (pre ++ (encBlock key (b.xor v)).1) (encBlock key (b.xor v)) (some pre.length) ⟨pre, rfl, rfl⟩
    refine ⟨iv', w, ?_, ?_⟩
    · rw [hsplit, List.length_cons, cbcEncLoop, run_seq (xor_run hv b _), run_seq hc]
      rw [List.length_append, (encBlock key (b.xor v)).2, List.append_assoc] at hrun
      rw [hrun, cbcEnc, hsplit, List.append_assoc]
      rfl
    · rw [List.append_assoc] at hw
      exact hw

theorem run_other {α : Type} (x : Res α) (m : List Byte) : run (other x) m = x >>= fun a => .ok (a, m) := by
  cases x <;> rfl

/-- sixteen bytes read with `memcpy` -/
theorem read16_run {src : Nat → Prog Byte} {m : List Byte} {v : List Byte}
    (h : ∀ i, (hi : i < v.length) → run (src i) m = .ok (v[i], m)) (s n : Nat) (hn : s + n = v.length) :
    run (read16 src s n) m = .ok (v.drop s, m) := by
  induction n generalizing s with
  | zero => rw [List.drop_eq_nil_of_le (by omega)]; rfl
  | succ n ih =>
    rw [read16, run_seq (h s (by omega)), run_seq (ih (s + 1) (by omega)), List.drop_eq_getElem_cons (i := s) (by omega)]
    rfl

theorem read_iv {c : Ctx} {pre post : List Byte} {v : Block} {iv : Option Nat} (h : IvIs c pre v iv) :
    run (read16 (ivAt c iv) 0 16) (pre ++ post) = .ok (v.1, pre ++ post) := by
  refine read16_run (v := v.1) (fun i hi => ?_) 0 16 (by rw [v.2])
  cases iv with
  | none =>
    have h' : c.iv = v.1 := h
    rw [ivAt, run_other, h', get_eq _ _ hi]
    rfl
  | some p =>
    obtain ⟨pre0, rfl, rfl⟩ := h
    show (get _ (pre0.length + i) >>= _) = _
    rw [List.append_assoc, get_shift, get_front _ _ _ hi, get_eq _ _ hi]
    rfl

theorem cbcEncrypt_run {c : Ctx} {key v : Block} (h : Schedule c.roundKey (ofBlock key)) (hv : c.iv = v.1) (bs : List Block)
    (post : List Byte) : ∃ c', run (cbcEncrypt c (16 * bs.length)) (ofBlocks bs ++ post) =
      .ok (c', ofBlocks (cbcEnc aes key v bs) ++ post) := by
  obtain ⟨iv', w, hrun, hw⟩ := cbcEncLoop_run h bs post [] v none hv
  refine ⟨{ c with iv := w.1 }, ?_⟩
  unfold cbcEncrypt
  rw [show blocksOf (16 * bs.length) = bs.length by unfold blocksOf; omega, run_seq (show run (cbcEncLoop c bs.length 0 none) (ofBlocks bs ++ post) = _ from hrun),
    ← List.append_assoc, run_seq (read_iv hw)]
  rfl

theorem cbcDecLoop_run {key : Block} (bs : List Block) (post : List Byte) (pre : List Byte) (c : Ctx) (v : Block)
    (h : Schedule c.roundKey (ofBlock key)) (hv : c.iv = v.1) :
    ∃ c', run (cbcDecLoop c bs.length pre.length) (pre ++ (ofBlocks bs ++ post)) =
        .ok (c', pre ++ (ofBlocks (cbcDec aes key v bs) ++ post)) := by
  induction bs generalizing pre c v with
  | nil => exact ⟨c, rfl⟩
  | cons b bs ih =>
    have hsplit : ∀ (x : Block) (xs : List Block), ofBlocks (x :: xs) ++ post = x.1 ++ (ofBlocks xs ++ post) := fun x xs => by
      simp [ofBlocks]
    have hr : run (read16 (fun i => ld (pre.length + i)) 0 16) (pre ++ (b.1 ++ (ofBlocks bs ++ post))) =
        .ok (b.1, pre ++ (b.1 ++ (ofBlocks bs ++ post))) := by
      refine read16_run (v := b.1) (fun i hi => ?_) 0 16 (by rw [b.2])
      show (get _ (pre.length + i) >>= _) = _
      rw [get_shift, get_front _ _ _ hi, get_eq _ _ hi]
      rfl
    have hc : run (Prog.at_ pre.length (invCipher c.roundKey)) (pre ++ (b.1 ++ (ofBlocks bs ++ post))) =
        .ok ((), pre ++ ((decBlock key b).1 ++ (ofBlocks bs ++ post))) := by
      rw [run_at, invCipher_block h]
      rfl
    have hx : run (xorWithIv pre.length fun i => other (get c.iv i)) (pre ++ ((decBlock key b).1 ++ (ofBlocks bs ++ post))) =
        .ok ((), pre ++ (((decBlock key b).xor v).1 ++ (ofBlocks bs ++ post))) := by
      rw [hv]
      exact xor_ctx pre _ v _
    obtain ⟨c', hrun⟩ := ih (pre ++ ((decBlock key b).xor v).1) { c with iv := b.1 } b h rfl
    refine ⟨c', ?_⟩
    rw [hsplit, List.length_cons, cbcDecLoop, run_seq hr, run_seq hc, run_seq hx]
    rw [List.length_append, ((decBlock key b).xor v).2, List.append_assoc] at hrun
    rw [hrun, cbcDec, hsplit, List.append_assoc]
    rfl

theorem initCtx_iv (stack : Ctx) (hs : stack.roundKey.length = 176) (key iv : Block) :
    ∃ c, initCtx stack key.1 (some iv.1) = .ok c ∧ Schedule c.roundKey (ofBlock key) ∧ c.iv = iv.1 := by
  obtain ⟨rk, hrk, -, hsch⟩ := keyExpansion_run (ofBlock key) stack.roundKey hs
  rw [toBlock_ofBlock] at hrk
  refine ⟨⟨rk, iv.1⟩, ?_, hsch, rfl⟩
  unfold initCtx take16
  rw [hrk]
  simp only [Res.ok_bind]
  rw [if_pos (by rw [iv.2]; decide), Res.ok_bind, List.take_of_length_le (by rw [iv.2]; decide)]

theorem initCtx_none (stack : Ctx) (hs : stack.roundKey.length = 176) (key : Block) :
    ∃ c, initCtx stack key.1 none = .ok c ∧ Schedule c.roundKey (ofBlock key) := by
  obtain ⟨rk, hrk, -, hsch⟩ := keyExpansion_run (ofBlock key) stack.roundKey hs
  rw [toBlock_ofBlock] at hrk
  refine ⟨{ stack with roundKey := rk }, ?_, hsch⟩
  unfold initCtx
  rw [hrk]
  rfl

/-- `osdp_encrypt` with a vector -/
theorem osdpEncrypt_cbc (stack : Ctx) (hs : stack.roundKey.length = 176) (key iv : Block) (bs : List Block) (post : List Byte) :
    osdpEncrypt stack key.1 (some iv.1) (ofBlocks bs ++ post) (16 * bs.length) =
      .ok (ofBlocks (cbcEnc aes key iv bs) ++ post) := by
  obtain ⟨c, hc, hsch, hiv⟩ := initCtx_iv stack hs key iv
  obtain ⟨c', hrun⟩ := cbcEncrypt_run hsch hiv bs post
  unfold osdpEncrypt
  dsimp only
  rw [hc, Res.ok_bind, hrun]
  rfl

/-- `osdp_decrypt` with a vector -/
theorem osdpDecrypt_cbc (stack : Ctx) (hs : stack.roundKey.length = 176) (key iv : Block) (bs : List Block) (post : List Byte) :
    osdpDecrypt stack key.1 (some iv.1) (ofBlocks bs ++ post) (16 * bs.length) =
      .ok (ofBlocks (cbcDec aes key iv bs) ++ post) := by
  obtain ⟨c, hc, hsch, hiv⟩ := initCtx_iv stack hs key iv
  obtain ⟨c', hrun⟩ := cbcDecLoop_run bs post [] c iv hsch hiv
  have hrun' : run (cbcDecLoop c bs.length 0) (ofBlocks bs ++ post) = .ok (c', ofBlocks (cbcDec aes key iv bs) ++ post) := hrun
  unfold osdpDecrypt
  dsimp only
  rw [hc, Res.ok_bind, show blocksOf (16 * bs.length) = bs.length by unfold blocksOf; omega, hrun']
  rfl

/-- `osdp_encrypt` without a vector -/
theorem osdpEncrypt_ecb (stack : Ctx) (hs : stack.roundKey.length = 176) (key b : Block) (post : List Byte) :
    osdpEncrypt stack key.1 none (b.1 ++ post) 16 = .ok ((encBlock key b).1 ++ post) := by
  obtain ⟨c, hc, hsch⟩ := initCtx_none stack hs key
  unfold osdpEncrypt
  dsimp only
  rw [if_pos (by decide), hc, Res.ok_bind, cipher_block hsch]
  rfl

/-- `osdp_decrypt` without a vector -/
theorem osdpDecrypt_ecb (stack : Ctx) (hs : stack.roundKey.length = 176) (key b : Block) (post : List Byte) :
    osdpDecrypt stack key.1 none (b.1 ++ post) 16 = .ok ((decBlock key b).1 ++ post) := by
  obtain ⟨c, hc, hsch⟩ := initCtx_none stack hs key
  unfold osdpDecrypt
  dsimp only
  rw [if_pos (by decide), hc, Res.ok_bind, invCipher_block hsch]
  rfl

end Osdp.AesMem
