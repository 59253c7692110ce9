import Verif.Lemmas.KeyMem
import Verif.Props.C84
import Verif.Spec.Session

/-!
# C88: keys and cryptograms are computed in place

`Model/KeyMem.lean` follows src/osdp_sc.c:17-131 store by store on `struct osdp_secure_channel`, an array of 152 bytes.  `Holds m sc`
says that the members found in the array `m` are those of `sc`.  Every function leaves an array whose members are those named in the
protocol (`Spec/Session.lean`), all others being as they were, and stays within its arrays.
-/

namespace Osdp.KeyMem
open Osdp.AesMem
open Osdp.Aes (aes)
open Osdp.Spec

/-! ### spec -/

/-- the members of the structure, each at its place -/
structure Holds (m : List Byte) (sc : Sc) : Prop where
  size : m.length = 152
  scbk : (m.drop 0).take 16 = sc.scbk.1
  sEnc : (m.drop 16).take 16 = sc.sEnc.1
  sMac1 : (m.drop 32).take 16 = sc.sMac1.1
  sMac2 : (m.drop 48).take 16 = sc.sMac2.1
  rMac : (m.drop 64).take 16 = sc.rMac.1
  cMac : (m.drop 80).take 16 = sc.cMac.1
  cpRandom : (m.drop 96).take 8 = sc.cpRandom.1
  pdRandom : (m.drop 104).take 8 = sc.pdRandom.1
  pdClientUid : (m.drop 112).take 8 = sc.pdClientUid.1
  cpCryptogram : (m.drop 120).take 16 = sc.cpCryptogram.1
  pdCryptogram : (m.drop 136).take 16 = sc.pdCryptogram.1

/-- the key the session keys are derived from -/
def base (useScbkd : Bool) (sc : Sc) : Block := if useScbkd then Session.defaultKey else sc.scbk

/-! ### lemmas -/

/-- a store within a slice -/
theorem slice_patch_in {m : List Byte} {o k n : Nat} {bs : List Byte} (h : o + n ≤ m.length) (hk : k + bs.length ≤ n) :
    slice (patch m (o + k) bs) o n = patch (slice m o n) k bs := by
  have hl := slice_length h
  refine List.ext_getElem? fun j => ?_
  rw [slice_get, patch_get (m := m) (by omega), patch_get (m := slice m o n) (by omega), slice_get]
  by_cases hj : j < n
  · rw [if_pos hj, if_pos hj]
    by_cases hin : k ≤ j ∧ j < k + bs.length
    · rw [if_pos (by omega), if_pos hin]; congr 1; omega
    · rw [if_neg (by omega), if_neg hin]
  · rw [if_neg hj, if_neg hj, if_neg (by omega)]

theorem replace_at {m : List Byte} {o n : Nat} {bs : List Byte} (hn : bs.length = n) (h : o + n ≤ m.length) :
    ((patch m o bs).drop o).take n = bs := slice_patch_at hn h

theorem keep {m : List Byte} {o : Nat} {bs : List Byte} (h : o + bs.length ≤ m.length) {s n : Nat} {x : List Byte}
    (hd : s + n ≤ o ∨ o + bs.length ≤ s) (hx : (m.drop s).take n = x) : ((patch m o bs).drop s).take n = x :=
  (slice_patch_ne h hd).trans hx

theorem seed_slice {m m9 : List Byte} {B : Nat} {tag : Byte} {rnd : Half} (h9 : slice m9 B 16 = 0x01#8 :: tag :: List.replicate 14 0#8)
    (hr : slice m9 CP_RANDOM 8 = rnd.1)
    (h : ∀ j, j < 16 → m[B + j]? = if 2 ≤ j ∧ j < 8 then m9[CP_RANDOM + (j - 2)]? else m9[B + j]?) :
    slice m B 16 = (Session.seed tag rnd).1 := by
  refine List.ext_getElem? fun j => ?_
  rw [slice_get]
  have hsl : (Session.seed tag rnd).1.length = 16 := (Session.seed tag rnd).2
  by_cases hj : j < 16
  · rw [if_pos hj, h j hj]
    have e9 : m9[B + j]? = (0x01#8 :: tag :: List.replicate 14 0#8)[j]? := by rw [← h9, slice_get, if_pos hj]
    rw [e9]
    show _ = (0x01#8 :: tag :: (rnd.1.take 6 ++ [0#8, 0#8, 0#8, 0#8, 0#8, 0#8, 0#8, 0#8]))[j]?
    match j, hj with
    | 0, _ => rfl
    | 1, _ => rfl
    | j + 2, hj =>
      have h6 : (rnd.1.take 6).length = 6 := by rw [List.length_take, rnd.2]; rfl
      show _ = (rnd.1.take 6 ++ [0#8, 0#8, 0#8, 0#8, 0#8, 0#8, 0#8, 0#8])[j]?
      by_cases h8 : j < 6
      · rw [if_pos (by omega), List.getElem?_append_left (by omega), List.getElem?_take_of_lt h8, ← hr, slice_get, if_pos (by omega)]
        congr 1
      · rw [if_neg (by omega), List.getElem?_append_right (by omega), h6]
        show (List.replicate 14 0#8)[j]? = (List.replicate 8 0#8)[j - 6]?
        rw [List.getElem?_replicate, List.getElem?_replicate, if_pos (by omega), if_pos (by omega)]
  · rw [if_neg hj, List.getElem?_eq_none (by omega)]

/-- the array before the random number is put in -/
def cleared (m : List Byte) : List Byte :=
  patch (patch (patch (patch (patch (patch (patch (patch (patch m 16 (List.replicate 16 0#8)) 32 (List.replicate 16 0#8)) 48 (List.replicate 16 0#8))
    (16 + 0) [0x01#8]) (16 + 1) [0x82#8]) (32 + 0) [0x01#8]) (32 + 1) [0x01#8]) (48 + 0) [0x01#8]) (48 + 1) [0x02#8]

theorem cleared_facts (m : List Byte) (hl : m.length = 152) : (cleared m).length = 152 ∧
    run seeds m = run (loop spread 2 6) (cleared m) ∧
    slice (cleared m) 16 16 = 0x01#8 :: 0x82#8 :: List.replicate 14 0#8 ∧
    slice (cleared m) 32 16 = 0x01#8 :: 0x01#8 :: List.replicate 14 0#8 ∧
    slice (cleared m) 48 16 = 0x01#8 :: 0x02#8 :: List.replicate 14 0#8 ∧
    ∀ s n, s + n ≤ 16 ∨ 64 ≤ s → slice (cleared m) s n = slice m s n := by
  have z16 : (List.replicate 16 0#8 : List Byte).length = 16 := rfl
  unfold cleared
  have l1 := patch_length (m := m) (o := 16) (bs := List.replicate 16 0#8) (by rw [z16]; omega)
  generalize hm1 : patch m 16 (List.replicate 16 0#8) = m1 at *
  have l2 := patch_length (m := m1) (o := 32) (bs := List.replicate 16 0#8) (by rw [z16]; omega)
  generalize hm2 : patch m1 32 (List.replicate 16 0#8) = m2 at *
  have l3 := patch_length (m := m2) (o := 48) (bs := List.replicate 16 0#8) (by rw [z16]; omega)
  generalize hm3 : patch m2 48 (List.replicate 16 0#8) = m3 at *
  have l4 := patch_length (m := m3) (o := 16 + 0) (bs := [0x01#8]) (by simp; omega)
  generalize hm4 : patch m3 (16 + 0) [0x01#8] = m4 at *
  have l5 := patch_length (m := m4) (o := 16 + 1) (bs := [0x82#8]) (by simp; omega)
  generalize hm5 : patch m4 (16 + 1) [0x82#8] = m5 at *
  have l6 := patch_length (m := m5) (o := 32 + 0) (bs := [0x01#8]) (by simp; omega)
  generalize hm6 : patch m5 (32 + 0) [0x01#8] = m6 at *
  have l7 := patch_length (m := m6) (o := 32 + 1) (bs := [0x01#8]) (by simp; omega)
  generalize hm7 : patch m6 (32 + 1) [0x01#8] = m7 at *
  have l8 := patch_length (m := m7) (o := 48 + 0) (bs := [0x01#8]) (by simp; omega)
  generalize hm8 : patch m7 (48 + 0) [0x01#8] = m8 at *
  have l9 := patch_length (m := m8) (o := 48 + 1) (bs := [0x02#8]) (by simp; omega)
  have one : ∀ b : Byte, [b].length = 1 := fun _ => rfl
  refine ⟨by omega, ?_, ?_, ?_, ?_, ?_⟩
  · unfold seeds
    rw [run_seq (zero_run m S_ENC 16 (by show 16 + 16 ≤ _; omega))]
    rw [show patch m S_ENC (List.replicate 16 0#8) = m1 from hm1, run_seq (zero_run m1 S_MAC1 16 (by show 32 + 16 ≤ _; omega)),
      show patch m1 S_MAC1 (List.replicate 16 0#8) = m2 from hm2, run_seq (zero_run m2 S_MAC2 16 (by show 48 + 16 ≤ _; omega)),
      show patch m2 S_MAC2 (List.replicate 16 0#8) = m3 from hm3, run_seq (st_patch (by show 16 + 0 < _; omega) _),
      show patch m3 (S_ENC + 0) [0x01#8] = m4 from hm4, run_seq (st_patch (by show 16 + 1 < _; omega) _),
      show patch m4 (S_ENC + 1) [0x82#8] = m5 from hm5, run_seq (st_patch (by show 32 + 0 < _; omega) _),
      show patch m5 (S_MAC1 + 0) [0x01#8] = m6 from hm6, run_seq (st_patch (by show 32 + 1 < _; omega) _),
      show patch m6 (S_MAC1 + 1) [0x01#8] = m7 from hm7, run_seq (st_patch (by show 48 + 0 < _; omega) _),
      show patch m7 (S_MAC2 + 0) [0x01#8] = m8 from hm8, run_seq (st_patch (by show 48 + 1 < _; omega) _)]
    rfl
  · rw [slice_patch_ne (by rw [one]; omega) (by omega), ← hm8, slice_patch_ne (by rw [one]; omega) (by omega), ← hm7,
      slice_patch_ne (by rw [one]; omega) (by omega), ← hm6, slice_patch_ne (by rw [one]; omega) (by omega), ← hm5,
      slice_patch_in (by omega) (by rw [one]; omega), ← hm4, slice_patch_in (by omega) (by rw [one]; omega), ← hm3,
      slice_patch_ne (by rw [z16]; omega) (by omega), ← hm2, slice_patch_ne (by rw [z16]; omega) (by omega), ← hm1,
      slice_patch_at z16 (by omega)]
    rfl
  · rw [slice_patch_ne (by rw [one]; omega) (by omega), ← hm8, slice_patch_ne (by rw [one]; omega) (by omega), ← hm7,
      slice_patch_in (by omega) (by rw [one]; omega), ← hm6, slice_patch_in (by omega) (by rw [one]; omega), ← hm5,
      slice_patch_ne (by rw [one]; omega) (by rw [one]; omega), ← hm4, slice_patch_ne (by rw [one]; omega) (by rw [one]; omega), ← hm3,
      slice_patch_ne (by rw [z16]; omega) (by omega), ← hm2, slice_patch_at z16 (by omega)]
    rfl
  · rw [slice_patch_in (by omega) (by rw [one]; omega), ← hm8, slice_patch_in (by omega) (by rw [one]; omega), ← hm7,
      slice_patch_ne (by rw [one]; omega) (by rw [one]; omega), ← hm6, slice_patch_ne (by rw [one]; omega) (by rw [one]; omega), ← hm5,
      slice_patch_ne (by rw [one]; omega) (by rw [one]; omega), ← hm4, slice_patch_ne (by rw [one]; omega) (by rw [one]; omega), ← hm3,
      slice_patch_at z16 (by omega)]
    rfl
  · intro s n hs
    rw [slice_patch_ne (by rw [one]; omega) (by rw [one]; omega), ← hm8, slice_patch_ne (by rw [one]; omega) (by rw [one]; omega), ← hm7,
      slice_patch_ne (by rw [one]; omega) (by rw [one]; omega), ← hm6, slice_patch_ne (by rw [one]; omega) (by rw [one]; omega), ← hm5,
      slice_patch_ne (by rw [one]; omega) (by rw [one]; omega), ← hm4, slice_patch_ne (by rw [one]; omega) (by rw [one]; omega), ← hm3,
      slice_patch_ne (by rw [z16]; omega) (by rw [z16]; omega), ← hm2, slice_patch_ne (by rw [z16]; omega) (by rw [z16]; omega), ← hm1,
      slice_patch_ne (by rw [z16]; omega) (by rw [z16]; omega)]

theorem from_key {B j : Nat} (hB : B = 16 ∨ B = 32 ∨ B = 48) (hj : j < 16) :
    from_ 2 6 (B + j) = if 2 ≤ j ∧ j < 8 then 96 + (j - 2) else B + j := by
  unfold from_
  simp only [S_ENC, S_MAC1, S_MAC2, CP_RANDOM]
  repeat' split
  all_goals omega

theorem from_rest {j : Nat} (h : j < 16 ∨ 64 ≤ j) : from_ 2 6 j = j := by
  unfold from_
  simp only [S_ENC, S_MAC1, S_MAC2, CP_RANDOM]
  rw [if_neg (by omega), if_neg (by omega), if_neg (by omega)]

theorem seeds_run {m : List Byte} {sc : Sc} (h : Holds m sc) : ∃ m', run seeds m = .ok ((), m') ∧ m'.length = 152 ∧
    slice m' 16 16 = (Session.seed 0x82#8 sc.cpRandom).1 ∧ slice m' 32 16 = (Session.seed 0x01#8 sc.cpRandom).1 ∧
    slice m' 48 16 = (Session.seed 0x02#8 sc.cpRandom).1 ∧ ∀ s n, s + n ≤ 16 ∨ 64 ≤ s → slice m' s n = slice m s n := by
  obtain ⟨c1, c2, c3, c4, c5, c6⟩ := cleared_facts m h.size
  obtain ⟨m', r, l, g⟩ := spread_run 6 (cleared m) c1 2 (by omega) (by omega)
  have hr : slice (cleared m) CP_RANDOM 8 = sc.cpRandom.1 := (c6 96 8 (by omega)).trans h.cpRandom
  have hk : ∀ B, (B = 16 ∨ B = 32 ∨ B = 48) → ∀ j, j < 16 →
      m'[B + j]? = if 2 ≤ j ∧ j < 8 then (cleared m)[CP_RANDOM + (j - 2)]? else (cleared m)[B + j]? := by
    intro B hB j hj
    rw [g, from_key hB hj]
    split <;> rfl
  refine ⟨m', by rw [c2]; exact r, l, seed_slice c3 hr (hk 16 (by omega)), seed_slice c4 hr (hk 32 (by omega)),
    seed_slice c5 hr (hk 48 (by omega)), ?_⟩
  intro s n hs
  rw [← c6 s n hs]
  refine List.ext_getElem? fun j => ?_
  rw [slice_get, slice_get]
  split
  · rw [g, from_rest (by omega)]
  · rfl

theorem baseKey_holds {m : List Byte} {sc : Sc} (h : Holds m sc) (u : Bool) : baseKey u m = (base u sc).1 := by
  unfold baseKey base
  cases u with
  | true => exact (by decide : Sc.scbkDefault.1 = Session.defaultKey.1)
  | false => exact h.scbk

/-- **C88 (session keys).** -/
theorem C88_keys (stack : Ctx) (hs : stack.roundKey.length = 176) (useScbkd : Bool) {m : List Byte} {sc : Sc} (h : Holds m sc) :
    ∃ m', sessionKeys stack useScbkd m = .ok m' ∧ Holds m' { sc with
      sEnc := Session.encKey aes (base useScbkd sc) sc.cpRandom
      sMac1 := Session.mac1Key aes (base useScbkd sc) sc.cpRandom
      sMac2 := Session.mac2Key aes (base useScbkd sc) sc.cpRandom } := by
  obtain ⟨m0, r, l0, s1, s2, s3, so⟩ := seeds_run h
  unfold sessionKeys
  dsimp only
  rw [r]
  simp only [Res.ok_bind]
  rw [baseKey_holds h, encryptAt_run stack hs _ _ m0 S_ENC (by show 16 + 16 ≤ _; omega) s1]
  simp only [Res.ok_bind]
  have b1 : (aes.enc (base useScbkd sc) (Session.seed 0x82#8 sc.cpRandom)).1.length = 16 := (aes.enc _ _).2
  have b2 : (aes.enc (base useScbkd sc) (Session.seed 0x01#8 sc.cpRandom)).1.length = 16 := (aes.enc _ _).2
  have b3 : (aes.enc (base useScbkd sc) (Session.seed 0x02#8 sc.cpRandom)).1.length = 16 := (aes.enc _ _).2
  have l1 := patch_length (m := m0) (o := 16) (bs := (aes.enc (base useScbkd sc) (Session.seed 0x82#8 sc.cpRandom)).1) (by omega)
  rw [encryptAt_run stack hs _ _ _ S_MAC1 (by show 32 + 16 ≤ (patch m0 16 _).length; omega) ((slice_patch_ne (by show 16 + _ ≤ _; omega) (by rw [b1]; show 32 + 16 ≤ 16 ∨ 16 + 16 ≤ 32; omega)).trans s2)]
  simp only [Res.ok_bind]
  have l2 := patch_length (m := patch m0 16 (aes.enc (base useScbkd sc) (Session.seed 0x82#8 sc.cpRandom)).1) (o := 32)
    (bs := (aes.enc (base useScbkd sc) (Session.seed 0x01#8 sc.cpRandom)).1) (by omega)
  rw [encryptAt_run stack hs _ _ _ S_MAC2 (by show 48 + 16 ≤ (patch (patch m0 16 _) 32 _).length; omega)
    ((slice_patch_ne (by show 32 + _ ≤ (patch m0 16 _).length; omega) (by rw [b2]; show 48 + 16 ≤ 32 ∨ 32 + 16 ≤ 48; omega)).trans
      ((slice_patch_ne (by show 16 + _ ≤ _; omega) (by rw [b1]; show 48 + 16 ≤ 16 ∨ 16 + 16 ≤ 48; omega)).trans s3))]
  have l3 := patch_length (m := patch (patch m0 16 (aes.enc (base useScbkd sc) (Session.seed 0x82#8 sc.cpRandom)).1) 32
    (aes.enc (base useScbkd sc) (Session.seed 0x01#8 sc.cpRandom)).1) (o := 48)
    (bs := (aes.enc (base useScbkd sc) (Session.seed 0x02#8 sc.cpRandom)).1) (by omega)
  have out : ∀ s n x, (s + n ≤ 16 ∨ 64 ≤ s) → (m.drop s).take n = x →
      ((patch (patch (patch m0 16 (aes.enc (base useScbkd sc) (Session.seed 0x82#8 sc.cpRandom)).1) 32
        (aes.enc (base useScbkd sc) (Session.seed 0x01#8 sc.cpRandom)).1) 48
        (aes.enc (base useScbkd sc) (Session.seed 0x02#8 sc.cpRandom)).1).drop s).take n = x := fun s n x hx hy =>
    keep (by omega) (by omega) (keep (by omega) (by omega) (keep (by omega) (by omega) ((so s n hx).trans hy)))
  refine ⟨_, rfl, ?_, out 0 16 _ (by omega) h.scbk, ?_, ?_, ?_, out 64 16 _ (by omega) h.rMac, out 80 16 _ (by omega) h.cMac,
    out 96 8 _ (by omega) h.cpRandom, out 104 8 _ (by omega) h.pdRandom, out 112 8 _ (by omega) h.pdClientUid,
    out 120 16 _ (by omega) h.cpCryptogram, out 136 16 _ (by omega) h.pdCryptogram⟩
  · show (patch (patch (patch m0 16 _) 32 _) 48 _).length = 152
    omega
  · exact keep (by show 48 + _ ≤ (patch (patch m0 16 _) 32 _).length; omega) (by show 16 + 16 ≤ 48 ∨ _; omega)
      (keep (by show 32 + _ ≤ (patch m0 16 _).length; omega) (by show 16 + 16 ≤ 32 ∨ _; omega) (replace_at b1 (by omega)))
  · exact keep (by show 48 + _ ≤ (patch (patch m0 16 _) 32 _).length; omega) (by show 32 + 16 ≤ 48 ∨ _; omega)
      (replace_at b2 (by show 32 + 16 ≤ (patch m0 16 _).length; omega))
  · exact replace_at b3 (by show 48 + 16 ≤ (patch (patch m0 16 _) 32 _).length; omega)

theorem patch_two {m : List Byte} {o : Nat} {a b : List Byte} (h : o + a.length + b.length ≤ m.length) :
    patch (patch m o a) (o + a.length) b = patch m o (a ++ b) := by
  have h1 : o + a.length ≤ m.length := by omega
  refine List.ext_getElem? fun j => ?_
  rw [patch_get (by rw [patch_length h1]; omega), patch_get h1, patch_get (by rw [List.length_append]; omega), List.length_append]
  by_cases ha : o ≤ j ∧ j < o + a.length
  · rw [if_neg (by omega), if_pos ha, if_pos (by omega), List.getElem?_append_left (by omega)]
  · by_cases hb : o + a.length ≤ j ∧ j < o + a.length + b.length
    · rw [if_pos hb, if_pos (by omega), List.getElem?_append_right (by omega)]
      congr 1; omega
    · rw [if_neg hb, if_neg ha, if_neg (by omega)]

theorem patch_over {m : List Byte} {o : Nat} {a b : List Byte} (hl : a.length = b.length) (h : o + a.length ≤ m.length) :
    patch (patch m o a) o b = patch m o b := by
  refine List.ext_getElem? fun j => ?_
  rw [patch_get (by rw [patch_length h]; omega), patch_get h, patch_get (by omega)]
  by_cases ha : o ≤ j ∧ j < o + b.length
  · rw [if_pos ha, if_pos ha]
  · rw [if_neg ha, if_neg (by omega), if_neg ha]

/-- two halves copied one behind the other, and the block encrypted -/
theorem cryptogram_run (stack : Ctx) (hs : stack.roundKey.length = 176) {m : List Byte} (hl : m.length = 152) (o s1 s2 : Nat) (key : Block)
    (a b : Half) (ho : 112 ≤ o ∧ o + 16 ≤ 152) (h1 : s1 + 8 ≤ 112) (h2 : s2 + 8 ≤ 112) (ha : slice m s1 8 = a.1) (hb : slice m s2 8 = b.1)
    (hk : slice m 16 16 = key.1) :
    (do
      let (_, m) ← run (do copy (o + 0) s1 8; copy (o + 8) s2 8) m
      encryptAt stack (slice m S_ENC 16) m o) = .ok (patch m o (Session.cryptogram aes key a b).1) := by
  have e1 : o + 0 + 8 ≤ m.length := by omega
  rw [run_seq (copy_run m (o + 0) s1 8 e1 (by omega) (by omega)), ha]
  have l1 : (patch m (o + 0) a.1).length = 152 := by rw [patch_length (by rw [a.2]; omega)]; exact hl
  rw [copy_run _ (o + 8) s2 8 (by omega) (by omega) (by omega), slice_patch_ne (by rw [a.2]; omega) (by omega), hb]
  have e2 : patch (patch m (o + 0) a.1) (o + 8) b.1 = patch m o (a.1 ++ b.1) := by
    have := patch_two (m := m) (o := o) (a := a.1) (b := b.1) (by rw [a.2, b.2]; omega)
    rw [a.2] at this
    rw [Nat.add_zero]; exact this
  rw [e2]
  simp only [Res.ok_bind]
  have hlen : (a.1 ++ b.1).length = 16 := by rw [List.length_append, a.2, b.2]
  have e3 : slice (patch m o (a.1 ++ b.1)) S_ENC 16 = key.1 := by
    rw [slice_patch_ne (by omega) (by show 16 + 16 ≤ o ∨ _; omega)]; exact hk
  rw [e3, encryptAt_run stack hs key ⟨a.1 ++ b.1, hlen⟩ _ o (by rw [patch_length (by rw [hlen]; omega)]; omega) (slice_patch_at hlen (by omega)),
    patch_over (by rw [hlen]; exact (aes.enc _ _).2.symm) (by rw [hlen]; omega)]
  rfl

/-- **C88 (the CP's cryptogram).** -/
theorem C88_cp_cryptogram (stack : Ctx) (hs : stack.roundKey.length = 176) {m : List Byte} {sc : Sc} (h : Holds m sc) :
    ∃ m', cpCryptogram stack m = .ok m' ∧
      Holds m' { sc with cpCryptogram := Session.cryptogram aes sc.sEnc sc.pdRandom sc.cpRandom } := by
  have hl := h.size
  have b : (Session.cryptogram aes sc.sEnc sc.pdRandom sc.cpRandom).1.length = 16 := (aes.enc _ _).2
  refine ⟨_, cryptogram_run stack hs hl CP_CRYPTOGRAM PD_RANDOM CP_RANDOM sc.sEnc sc.pdRandom sc.cpRandom (by show 112 ≤ 120 ∧ 120 + 16 ≤ 152; omega)
    (by show 104 + 8 ≤ 112; omega) (by show 96 + 8 ≤ 112; omega) h.pdRandom h.cpRandom h.sEnc, ?_⟩
  have out : ∀ s n x, (s + n ≤ 120 ∨ 136 ≤ s) → (m.drop s).take n = x →
      ((patch m 120 (Session.cryptogram aes sc.sEnc sc.pdRandom sc.cpRandom).1).drop s).take n = x := fun s n x hx hy =>
    keep (by omega) (by omega) hy
  exact ⟨(patch_length (by show 120 + _ ≤ _; omega)).trans hl, out _ _ _ (by omega) h.scbk, out _ _ _ (by omega) h.sEnc, out _ _ _ (by omega) h.sMac1,
    out _ _ _ (by omega) h.sMac2, out _ _ _ (by omega) h.rMac, out _ _ _ (by omega) h.cMac, out _ _ _ (by omega) h.cpRandom,
    out _ _ _ (by omega) h.pdRandom, out _ _ _ (by omega) h.pdClientUid, replace_at b (by omega), out _ _ _ (by omega) h.pdCryptogram⟩

/-- **C88 (the PD's cryptogram).** -/
theorem C88_pd_cryptogram (stack : Ctx) (hs : stack.roundKey.length = 176) {m : List Byte} {sc : Sc} (h : Holds m sc) :
    ∃ m', pdCryptogram stack m = .ok m' ∧
      Holds m' { sc with pdCryptogram := Session.cryptogram aes sc.sEnc sc.cpRandom sc.pdRandom } := by
  have hl := h.size
  have b : (Session.cryptogram aes sc.sEnc sc.cpRandom sc.pdRandom).1.length = 16 := (aes.enc _ _).2
  refine ⟨_, cryptogram_run stack hs hl PD_CRYPTOGRAM CP_RANDOM PD_RANDOM sc.sEnc sc.cpRandom sc.pdRandom (by show 112 ≤ 136 ∧ 136 + 16 ≤ 152; omega)
    (by show 96 + 8 ≤ 112; omega) (by show 104 + 8 ≤ 112; omega) h.cpRandom h.pdRandom h.sEnc, ?_⟩
  have out : ∀ s n x, s + n ≤ 136 → (m.drop s).take n = x →
      ((patch m 136 (Session.cryptogram aes sc.sEnc sc.cpRandom sc.pdRandom).1).drop s).take n = x := fun s n x hx hy =>
    keep (by omega) (by omega) hy
  exact ⟨(patch_length (by show 136 + _ ≤ _; omega)).trans hl, out _ _ _ (by omega) h.scbk, out _ _ _ (by omega) h.sEnc, out _ _ _ (by omega) h.sMac1,
    out _ _ _ (by omega) h.sMac2, out _ _ _ (by omega) h.rMac, out _ _ _ (by omega) h.cMac, out _ _ _ (by omega) h.cpRandom,
    out _ _ _ (by omega) h.pdRandom, out _ _ _ (by omega) h.pdClientUid, out _ _ _ (by omega) h.cpCryptogram, replace_at b (by omega)⟩

/-- **C88 (the first MAC).** -/
theorem C88_rmac (stack : Ctx) (hs : stack.roundKey.length = 176) {m : List Byte} {sc : Sc} (h : Holds m sc) :
    ∃ m', rmacI stack m = .ok m' ∧ Holds m' { sc with rMac := aes.enc sc.sMac2 (aes.enc sc.sMac1 sc.cpCryptogram) } := by
  have hl := h.size
  have hc : slice m CP_CRYPTOGRAM 16 = sc.cpCryptogram.1 := h.cpCryptogram
  have b0 : sc.cpCryptogram.1.length = 16 := sc.cpCryptogram.2
  have b1 : (aes.enc sc.sMac1 sc.cpCryptogram).1.length = 16 := (aes.enc _ _).2
  have b2 : (aes.enc sc.sMac2 (aes.enc sc.sMac1 sc.cpCryptogram)).1.length = 16 := (aes.enc _ _).2
  refine ⟨patch m 64 (aes.enc sc.sMac2 (aes.enc sc.sMac1 sc.cpCryptogram)).1, ?_, ?_⟩
  · unfold rmacI
    rw [copy_run m R_MAC CP_CRYPTOGRAM 16 (by show 64 + 16 ≤ _; omega) (by show 120 + 16 ≤ _; omega) (by show 120 + 16 ≤ 64 ∨ 64 + 16 ≤ 120; omega), hc]
    simp only [Res.ok_bind]
    have k1 : ∀ b : Block, slice (patch m R_MAC b.1) S_MAC1 16 = sc.sMac1.1 := fun b =>
      keep (by rw [b.2]; show 64 + 16 ≤ _; omega) (by show 32 + 16 ≤ 64 ∨ _; omega) h.sMac1
    have k2 : ∀ b : Block, slice (patch m R_MAC b.1) S_MAC2 16 = sc.sMac2.1 := fun b =>
      keep (by rw [b.2]; show 64 + 16 ≤ _; omega) (by show 48 + 16 ≤ 64 ∨ _; omega) h.sMac2
    have ll : ∀ b : Block, R_MAC + 16 ≤ (patch m R_MAC b.1).length := fun b => by
      rw [patch_length (by rw [b.2]; show 64 + 16 ≤ _; omega)]; show 64 + 16 ≤ _; omega
    have pa : ∀ b : Block, slice (patch m R_MAC b.1) R_MAC 16 = b.1 := fun b => slice_patch_at b.2 (by show 64 + 16 ≤ _; omega)
    have po : ∀ a b : Block, patch (patch m R_MAC a.1) R_MAC b.1 = patch m R_MAC b.1 := fun a b =>
      patch_over (by rw [a.2, b.2]) (by rw [a.2]; show 64 + 16 ≤ _; omega)
    rw [k1, encryptAt_run stack hs _ _ _ R_MAC (ll _) (pa _), po]
    simp only [Res.ok_bind]
    rw [k2, encryptAt_run stack hs _ _ _ R_MAC (ll _) (pa _), po]
  · have out : ∀ s n x, (s + n ≤ 64 ∨ 80 ≤ s) → (m.drop s).take n = x →
        ((patch m 64 (aes.enc sc.sMac2 (aes.enc sc.sMac1 sc.cpCryptogram)).1).drop s).take n = x := fun s n x hx hy =>
      keep (by omega) (by omega) hy
    exact ⟨(patch_length (by show 64 + _ ≤ _; omega)).trans hl, out _ _ _ (by omega) h.scbk, out _ _ _ (by omega) h.sEnc, out _ _ _ (by omega) h.sMac1,
      out _ _ _ (by omega) h.sMac2, replace_at b2 (by omega), out _ _ _ (by omega) h.cMac, out _ _ _ (by omega) h.cpRandom,
      out _ _ _ (by omega) h.pdRandom, out _ _ _ (by omega) h.pdClientUid, out _ _ _ (by omega) h.cpCryptogram, out _ _ _ (by omega) h.pdCryptogram⟩

/-- the local array of the two functions that verify a cryptogram -/
theorem local_run (stack : Ctx) (hs : stack.roundKey.length = 176) (key : Block) (a b : Half) (junk : List Byte) (hj : junk.length = 16) :
    (do
      let (_, loc) ← run (do copyFrom a.1 0 8; copyFrom b.1 8 8) junk
      encryptAt stack key.1 loc 0) = .ok (Session.cryptogram aes key a b).1 := by
  have r1 := copyFrom_run a.1 junk 0 (by rw [a.2]; omega)
  have l1 := patch_length (m := junk) (o := 0) (bs := a.1) (by rw [a.2]; omega)
  have r2 := copyFrom_run b.1 (patch junk 0 a.1) 8 (by rw [b.2]; omega)
  rw [a.2] at r1
  rw [b.2] at r2
  rw [run_seq r1, r2]
  simp only [Res.ok_bind]
  have hlen : (a.1 ++ b.1).length = 16 := by rw [List.length_append, a.2, b.2]
  have full : ∀ x : List Byte, x.length = 16 → patch junk 0 x = x := by
    intro x hx
    unfold patch
    rw [List.take_zero, List.drop_of_length_le (by omega)]; simp
  have e2 : patch (patch junk 0 a.1) 8 b.1 = a.1 ++ b.1 := by
    have := patch_two (m := junk) (o := 0) (a := a.1) (b := b.1) (by rw [a.2, b.2]; omega)
    rw [a.2, full _ hlen] at this
    exact this
  rw [e2, encryptAt_run stack hs key ⟨a.1 ++ b.1, hlen⟩ _ 0 (by omega) (by unfold slice; rw [List.drop_zero, List.take_of_length_le (by omega)])]
  show Except.ok _ = Except.ok _
  unfold patch
  rw [(aes.enc key _).2, List.take_zero, List.drop_of_length_le (by omega)]
  simp [Session.cryptogram]

theorem compare_run (x y : Block) : (ctCompare x.1 y.1 0 16 0#8 >>= fun r => .ok (decide (r = 0#8))) = (.ok (decide (x = y)) : Res Bool) := by
  obtain ⟨r, h1, h2⟩ := ctCompare_run x.1 y.1 0 16 0#8 (by rw [x.2]; omega) (by rw [y.2]; omega)
  rw [h1]
  show Except.ok _ = Except.ok _
  congr 1
  have hsl : ∀ b : Block, slice b.1 0 16 = b.1 := by
    intro b
    unfold slice
    rw [List.drop_zero, List.take_of_length_le (by rw [b.2]; omega)]
  rw [hsl, hsl] at h2
  rw [decide_eq_decide, h2]
  exact ⟨fun h => Subtype.ext h.2, fun h => ⟨rfl, congrArg _ h⟩⟩

/-- **C88 (verifying).** 0 is returned if and only if all 16 bytes are as computed, whatever the local array held. -/
theorem C88_verify (stack : Ctx) (hs : stack.roundKey.length = 176) {m : List Byte} {sc : Sc} (h : Holds m sc) (junk : List Byte)
    (hj : junk.length = 16) :
    verifyCp stack m junk = .ok (decide (sc.cpCryptogram = Session.cryptogram aes sc.sEnc sc.pdRandom sc.cpRandom)) ∧
    verifyPd stack m junk = .ok (decide (sc.pdCryptogram = Session.cryptogram aes sc.sEnc sc.cpRandom sc.pdRandom)) := by
  have e1 : slice m PD_RANDOM 8 = sc.pdRandom.1 := h.pdRandom
  have e2 : slice m CP_RANDOM 8 = sc.cpRandom.1 := h.cpRandom
  have e3 : slice m S_ENC 16 = sc.sEnc.1 := h.sEnc
  have e4 : slice m CP_CRYPTOGRAM 16 = sc.cpCryptogram.1 := h.cpCryptogram
  have e5 : slice m PD_CRYPTOGRAM 16 = sc.pdCryptogram.1 := h.pdCryptogram
  constructor
  · unfold verifyCp
    rw [e1, e2, e3, e4]
    have := local_run stack hs sc.sEnc sc.pdRandom sc.cpRandom junk hj
    obtain ⟨⟨u, loc⟩, r1, r2⟩ := Res.bind_eq_ok.mp this
    rw [r1]
    simp only [Res.ok_bind]
    dsimp only at r2
    rw [r2]
    exact compare_run _ _
  · unfold verifyPd
    rw [e1, e2, e3, e5]
    have := local_run stack hs sc.sEnc sc.cpRandom sc.pdRandom junk hj
    obtain ⟨⟨u, loc⟩, r1, r2⟩ := Res.bind_eq_ok.mp this
    rw [r1]
    simp only [Res.ok_bind]
    dsimp only at r2
    rw [r2]
    exact compare_run _ _

/-- **C88 (the key of a PD from the master key).** 16 bytes of the buffer are replaced, the others stay. -/
theorem C88_scbk (stack : Ctx) (hs : stack.roundKey.length = 176) {m : List Byte} {sc : Sc} (h : Holds m sc) (master : Block)
    (buf : List Byte) (o : Nat) (ho : o + 16 ≤ buf.length) :
    computeScbk stack m master.1 buf o = .ok (buf.take o ++ (aes.enc master
      ⟨sc.pdClientUid.1 ++ sc.pdClientUid.1.map (~~~ ·), by simp [sc.pdClientUid.2]⟩).1 ++ buf.drop (o + 16)) := by
  have hu : slice m CLIENT_UID 8 = sc.pdClientUid.1 := h.pdClientUid
  have hul : sc.pdClientUid.1.length = 8 := sc.pdClientUid.2
  unfold computeScbk
  rw [hu]
  generalize sc.pdClientUid = uid at *
  have r1 := copyFrom_run uid.1 buf o (by omega)
  rw [hul] at r1
  rw [run_seq r1]
  have l1 := patch_length (m := buf) (o := o) (bs := uid.1) (by omega)
  have r2 := fill_patch (fun i => do st (o + i) (~~~ (← ld (o + (i - 8))))) o (uid.1.map (~~~ ·)) (patch buf o uid.1) 8
    (by rw [List.length_map]; omega) (fun k hk m' hm' hout _ => by
      rw [List.length_map, hul] at hk
      refine ⟨~~~ uid.1[k], by rw [List.getElem?_map, List.getElem?_eq_getElem (by omega)]; rfl, ?_⟩
      have hg : m'[o + (8 + k - 8)]? = some uid.1[k] := by
        rw [hout _ (by omega), patch_get (by omega), if_pos (by omega), show o + (8 + k - 8) - o = k by omega]
        exact List.getElem?_eq_getElem _
      rw [run_seq (ld_run hg), show o + 8 + k = o + (8 + k) by omega]
      exact st_patch (by omega) _)
  rw [List.length_map, hul] at r2
  rw [r2]
  simp only [Res.ok_bind]
  have e2 := patch_two (m := buf) (o := o) (a := uid.1) (b := uid.1.map (~~~ ·)) (by rw [List.length_map]; omega)
  rw [hul] at e2
  have hlen : (uid.1 ++ uid.1.map (~~~ ·)).length = 16 := by rw [List.length_append, List.length_map, hul]
  rw [e2, encryptAt_run stack hs master ⟨uid.1 ++ uid.1.map (~~~ ·), hlen⟩ _ o (by rw [patch_length (by rw [hlen]; omega)]; omega)
    (slice_patch_at hlen (by omega)), patch_over (by rw [hlen]; exact (aes.enc _ _).2.symm) (by rw [hlen]; omega)]
  show Except.ok _ = Except.ok _
  unfold patch
  rw [(aes.enc master _).2, List.append_assoc]

/-- **C88 (a new handshake).** Everything but the key and the new random number is zero; without a key of its own that is zero, too. -/
theorem C88_setup (hasScbk : Bool) (random : Half) {m : List Byte} {sc : Sc} (h : Holds m sc) :
    ∃ m', setup hasScbk random.1 m = .ok m' ∧
      Holds m' { Sc.zero with scbk := if hasScbk then sc.scbk else .zero 16, cpRandom := random } := by
  have hl := h.size
  have hk : slice m SCBK 16 = sc.scbk.1 := h.scbk
  unfold setup
  dsimp only
  rw [hk, run_seq (zero_run m 0 SIZE (by show 0 + 152 ≤ _; omega))]
  have hz : patch m 0 (List.replicate SIZE 0#8) = List.replicate 152 0#8 := by
    unfold patch
    rw [List.take_zero, List.drop_of_length_le (by rw [List.length_replicate]; show _ ≤ 0 + 152; omega)]
    rw [List.nil_append, List.append_nil]
  rw [hz]
  have r2 : ∀ l : List Byte, l.length = 152 → run (copyFrom random.1 CP_RANDOM 8) l = .ok ((), patch l 96 random.1) := by
    intro l hl
    have := copyFrom_run random.1 l 96 (by rw [random.2]; omega)
    rw [random.2] at this
    exact this
  have zl : (List.replicate 152 0#8 : List Byte).length = 152 := List.length_replicate
  have zs : ∀ s n, s + n ≤ 152 → (((List.replicate 152 0#8 : List Byte).drop s).take n) = List.replicate n 0#8 := by
    intro s n hx
    rw [List.drop_replicate, List.take_replicate]
    congr 1; omega
  have rl : random.1.length = 8 := random.2
  cases hasScbk with
  | false =>
    have out : ∀ s n, (s + n ≤ 96 ∨ 104 ≤ s) → s + n ≤ 152 → ((patch (List.replicate 152 0#8) 96 random.1).drop s).take n = List.replicate n 0#8 :=
      fun s n hx hy => keep (by omega) (by omega) (zs s n hy)
    refine ⟨patch (List.replicate 152 0#8) 96 random.1, ?_, ?_⟩
    · show (run (copyFrom random.1 CP_RANDOM 8) _ >>= _) = _
      rw [r2 _ zl]; rfl
    · exact ⟨(patch_length (by omega)).trans zl, out _ _ (by omega) (by omega), out _ _ (by omega) (by omega), out _ _ (by omega) (by omega),
        out _ _ (by omega) (by omega), out _ _ (by omega) (by omega), out _ _ (by omega) (by omega), replace_at rl (by omega),
        out _ _ (by omega) (by omega), out _ _ (by omega) (by omega), out _ _ (by omega) (by omega), out _ _ (by omega) (by omega)⟩
  | true =>
    have kl : sc.scbk.1.length = 16 := sc.scbk.2
    have pl : (patch (List.replicate 152 0#8) 0 sc.scbk.1).length = 152 := (patch_length (by omega)).trans zl
    have out : ∀ s n, 16 ≤ s → (s + n ≤ 96 ∨ 104 ≤ s) → s + n ≤ 152 →
        ((patch (patch (List.replicate 152 0#8) 0 sc.scbk.1) 96 random.1).drop s).take n = List.replicate n 0#8 :=
      fun s n h1 hx hy => keep (by omega) (by omega) (keep (by omega) (by omega) (zs s n hy))
    refine ⟨patch (patch (List.replicate 152 0#8) 0 sc.scbk.1) 96 random.1, ?_, ?_⟩
    · have r1 := copyFrom_run sc.scbk.1 (List.replicate 152 0#8) 0 (by omega)
      rw [kl] at r1
      show (run (copyFrom sc.scbk.1 SCBK 16 >>= fun _ => copyFrom random.1 CP_RANDOM 8) _ >>= _) = _
      rw [run_seq r1, r2 _ pl]; rfl
    · exact ⟨(patch_length (by omega)).trans pl, keep (by omega) (by omega) (replace_at kl (by omega)), out _ _ (by omega) (by omega) (by omega),
        out _ _ (by omega) (by omega) (by omega), out _ _ (by omega) (by omega) (by omega), out _ _ (by omega) (by omega) (by omega),
        out _ _ (by omega) (by omega) (by omega), replace_at rl (by omega), out _ _ (by omega) (by omega) (by omega),
        out _ _ (by omega) (by omega) (by omega), out _ _ (by omega) (by omega) (by omega), out _ _ (by omega) (by omega) (by omega)⟩

/-- **C88 (the model).** The functions of `Model/Sc.lean`, on which the claims about the handshake rest, are those of the code: each
leaves the members the code leaves. -/
theorem C88_model (stack : Ctx) (hs : stack.roundKey.length = 176) {m : List Byte} {sc : Sc} (h : Holds m sc) (u k : Bool) (random : Half)
    (junk : List Byte) (hj : junk.length = 16) :
    (∃ m', sessionKeys stack u m = .ok m' ∧ Holds m' (Sc.sessionKeys aes u sc)) ∧
    (∃ m', cpCryptogram stack m = .ok m' ∧ Holds m' (Sc.computeCpCryptogram aes sc)) ∧
    (∃ m', pdCryptogram stack m = .ok m' ∧ Holds m' (Sc.computePdCryptogram aes sc)) ∧
    (∃ m', rmacI stack m = .ok m' ∧ Holds m' (Sc.computeRmacI aes sc)) ∧
    verifyCp stack m junk = .ok (Sc.verifyCpCryptogram aes sc) ∧ verifyPd stack m junk = .ok (Sc.verifyPdCryptogram aes sc) ∧
    (∃ m', setup k random.1 m = .ok m' ∧ Holds m' (Sc.setup k random sc)) := by
  have hb : base u sc = Sc.baseKey u sc := by
    unfold base Sc.baseKey
    rw [show Session.defaultKey = Sc.scbkDefault by decide]
  refine ⟨?_, C88_cp_cryptogram stack hs h, C88_pd_cryptogram stack hs h, C88_rmac stack hs h, (C88_verify stack hs h junk hj).1,
    (C88_verify stack hs h junk hj).2, C88_setup k random h⟩
  have := C88_keys stack hs u h
  rw [hb] at this
  have hseed : ∀ tag, Session.seed tag sc.cpRandom = Sc.keySeed tag sc.cpRandom := fun tag => Subtype.ext (by simp [Session.seed, Sc.keySeed])
  unfold Session.encKey Session.mac1Key Session.mac2Key at this
  rw [hseed, hseed, hseed] at this
  exact this

/-! ### samples -/

/-- the structure as the members of `sc` make it up -/
def image (sc : Sc) : List Byte :=
  sc.scbk.1 ++ sc.sEnc.1 ++ sc.sMac1.1 ++ sc.sMac2.1 ++ sc.rMac.1 ++ sc.cMac.1 ++ sc.cpRandom.1 ++ sc.pdRandom.1 ++ sc.pdClientUid.1 ++
    sc.cpCryptogram.1 ++ sc.pdCryptogram.1

example : Holds (image ScMem.sc84) ScMem.sc84 := by
  refine ⟨?_, ?_, ?_, ?_, ?_, ?_, ?_, ?_, ?_, ?_, ?_, ?_⟩ <;> decide +kernel

/-- keys, both cryptograms and the first MAC one after the other, as at the two ends of a handshake -/
example : (do
    let m ← sessionKeys dirty true (image ScMem.sc84)
    let m ← pdCryptogram dirty m
    let m ← cpCryptogram dirty m
    let m ← rmacI dirty m
    let a ← verifyCp dirty m (List.replicate 16 0xEE#8)
    let b ← verifyPd dirty m (List.replicate 16 0xEE#8)
    let c ← wr m 151 (0x11#8) >>= fun m => verifyPd dirty m (List.replicate 16 0xEE#8)
    .ok (m, a, b, c) : Res (List Byte × Bool × Bool × Bool)).toOption =
    some (image (Sc.computeRmacI aes (Sc.computeCpCryptogram aes (Sc.computePdCryptogram aes (Sc.sessionKeys aes true ScMem.sc84)))),
      true, true, false) := by decide +kernel

example : (16 : Nat) ≤ (List.replicate 40 0xEE#8 : List Byte).length ∧
    ((computeScbk dirty (image ScMem.sc84) ScMem.sc84.scbk.1 (List.replicate 20 0xEE#8) 3).toOption.map fun b =>
      (b.take 3, b.drop 19, (b.drop 3).take 16 == (Sc.computeScbk aes ScMem.sc84.pdClientUid ScMem.sc84.scbk).1)) =
      some ([0xEE, 0xEE, 0xEE], [0xEE], true) := by
  refine ⟨?_, ?_⟩ <;> decide +kernel

end Osdp.KeyMem
