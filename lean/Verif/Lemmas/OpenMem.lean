import Verif.Model.OpenMem
import Verif.Lemmas.PhyMem
import Verif.Lemmas.DecodeFault
import Verif.Props.C84

/-!
# Opening a packet on memory agrees with `Model/Phy.lean`
-/

namespace Osdp.OpenMem
open Osdp.AesMem
open Osdp.Aes (aes)
open Osdp.Phy (hasBit CTL_CRC CTL_SCB Decoded markLen nackWith noteScbkd setSc Held1)

/-- The outcome `y` is `x` up to the packet buffer, which is that of `x` unless the packet is refused, and differs from `b0` only
from index `lo` up to index `hi`. -/
def Like (b0 : List Byte) (lo hi : Nat) (x y : Res (Pd × Decoded)) : Prop :=
  match x with
  | .error e => y = .error e
  | .ok r => ∃ buf, y = .ok ({ r.1 with packetBuf := buf }, r.2) ∧ (0 ≤ r.2.len → buf = r.1.packetBuf) ∧
      buf.length = b0.length ∧ buf.take lo = b0.take lo ∧ buf.drop hi = b0.drop hi

theorem Like.same {b0 : List Byte} {lo hi : Nat} {q : Pd} {d : Decoded} (h : q.packetBuf = b0) : Like b0 lo hi (.ok (q, d)) (.ok (q, d)) :=
  ⟨q.packetBuf, rfl, fun _ => rfl, by rw [h], by rw [h], by rw [h]⟩

theorem Like.nack {p : Pd} {lo hi : Nat} {c : Byte} :
    Like p.packetBuf lo hi (.ok (nackWith p.scDeactivate c)) (.ok (nackWith p.scDeactivate c)) :=
  Like.same (q := (nackWith p.scDeactivate c).1) (d := (nackWith p.scDeactivate c).2) rfl

theorem last_nonzero (buf : List Byte) (c : Nat) {v : Byte} (hv : buf[c]? = some v) (hne : v ≠ 0#8) (n : Nat) (hn : c + 1 + n ≤ buf.length) :
    ∃ pre b z post, buf = pre ++ b :: (List.replicate z 0#8 ++ post) ∧ b ≠ 0#8 ∧ pre.length + 1 + z = c + 1 + n ∧ c ≤ pre.length := by
  induction n with
  | zero =>
    have hc : c < buf.length := by omega
    have hvc : buf[c] = v := by rw [List.getElem?_eq_getElem hc] at hv; exact Option.some.inj hv
    refine ⟨buf.take c, v, 0, buf.drop (c + 1), ?_, hne, by rw [List.length_take]; omega, by rw [List.length_take]; omega⟩
    rw [List.replicate_zero, List.nil_append, ← hvc, List.getElem_cons_drop hc, List.take_append_drop]
  | succ n ih =>
    obtain ⟨pre, b, z, post, he, hb, hl, hc⟩ := ih (by omega)
    have hbl : buf.length = pre.length + 1 + z + post.length := by rw [he]; simp; omega
    cases post with
    | nil => exfalso; rw [List.length_nil] at hbl; omega
    | cons w post =>
      by_cases hw : w = 0#8
      · refine ⟨pre, b, z + 1, post, ?_, hb, by omega, hc⟩
        rw [he, hw, List.replicate_succ', List.append_assoc]; rfl
      · refine ⟨pre ++ b :: List.replicate z 0#8, w, 0, post, ?_, hw, by simp; omega, by simp; omega⟩
        rw [he]; simp

/-- With no data the search for the marker stops at a byte that is not zero, and the value returned is negative. -/
theorem empty_run (stack : Ctx) (hs : stack.roundKey.length = 176) (isCmd : Bool) (sc : Sc) (buf : List Byte) (c o : Nat) {v : Byte}
    (hv : buf[c]? = some v) (hne : v ≠ 0#8) (hc : c < o) (ho : o ≤ buf.length) :
    ∃ r out, ScMem.decryptData stack false isCmd sc buf o 0 = .ok (r, out) ∧ r < 0 ∧ out.length = buf.length ∧ out.take c = buf.take c ∧
      out.drop o = buf.drop o := by
  obtain ⟨pre, b, z, post, he, hb, hl, hcp⟩ := last_nonzero buf c hv hne (o - c - 1) (by omega)
  have hl' : o = pre.length + 1 + z := by omega
  have hrun := ScMem.C84_empty_partial stack hs isCmd sc pre b hb z post
  rw [← he, ← hl'] at hrun
  by_cases h80 : b = 0x80#8
  · rw [if_pos h80] at hrun
    refine ⟨_, _, hrun, by omega, by rw [he]; simp, ?_, ?_⟩
    · rw [he, List.take_append_of_le_length hcp, List.take_append_of_le_length hcp]
    · rw [he, hl', show pre ++ 0#8 :: (List.replicate z 0#8 ++ post) = (pre ++ 0#8 :: List.replicate z 0#8) ++ post by simp,
        show pre ++ b :: (List.replicate z 0#8 ++ post) = (pre ++ b :: List.replicate z 0#8) ++ post by simp,
        List.drop_left' (by simp; omega), List.drop_left' (by simp; omega)]
  · rw [if_neg h80] at hrun
    exact ⟨_, _, hrun, by omega, rfl, rfl, rfl⟩

theorem cipher_like (stack : Ctx) (hs : stack.roundKey.length = 176) (p : Pd) (sb : Nat) (len : Int) (hi : Nat) {v : Byte}
    (hv : p.packetBuf[markLen p + 4]? = some v) (hne : v ≠ 0#8) (hb : p.packetBuf.length = 256)
    (hin : 1 ≤ len → markLen p + 5 + sb + 1 + (len - 1).toNat ≤ 256 ∧ markLen p + 5 + sb + 1 + (len - 1).toNat ≤ hi) :
    Like p.packetBuf (markLen p + 4) hi (Phy.decodeCipher aes p sb len) (decodeCipher stack p sb len) := by
  unfold Phy.decodeCipher decodeCipher Sc.decryptData
  dsimp only
  by_cases h0 : len - 1 < 0
  · rw [if_pos h0]
    by_cases h16 : (len - 1) % 16 = 0
    · have h16' : ¬ (len - 1) % 16 ≠ 0 := fun h => h h16
      rw [if_neg h16', if_neg h16', if_pos h0]
      exact rfl
    · have h16' : (len - 1) % 16 ≠ 0 := h16
      rw [if_pos h16', if_pos h0, if_pos h16']
      simp only [Res.ok_bind]
      exact Like.nack
  rw [if_neg h0, if_neg h0]
  obtain ⟨n, hn⟩ : ∃ n : Nat, len - 1 = n := ⟨(len - 1).toNat, by omega⟩
  rw [hn]
  obtain ⟨hin1, hin2⟩ := hin (by omega)
  rw [hn] at hin1 hin2
  dsimp only [Int.toNat_natCast] at hin1 hin2 ⊢
  obtain ⟨o, ho⟩ : ∃ o, o = markLen p + 5 + sb + 1 := ⟨_, rfl⟩
  rw [← ho] at hin1 hin2 ⊢
  by_cases h16 : n % 16 ≠ 0
  · rw [if_pos (show (n : Int) % 16 ≠ 0 by omega)]
    unfold ScMem.decryptData
    rw [if_pos h16]
    exact Like.nack
  rw [if_neg (show ¬ (n : Int) % 16 ≠ 0 by omega)]
  by_cases hz : n = 0
  · subst hz
    rw [if_pos (show ((0 : Nat) : Int) = 0 from rfl)]
    cases ha : p.flags.allowEmpty with
    | true =>
      unfold ScMem.decryptData
      rw [if_neg (show ¬ 0 % 16 ≠ 0 by decide), if_pos (show true = true ∧ 0 = 0 from ⟨rfl, rfl⟩), if_pos (show true = true from rfl)]
      simp only [Res.ok_bind]
      unfold Phy.writeAt
      rw [if_pos (by simp; omega)]
      simp only [Res.ok_bind, List.nil_append, List.length_nil, List.replicate_zero, List.append_nil, Nat.sub_self, List.replicate_zero, List.length_nil, Nat.add_zero, List.take_append_drop]
      exact Like.same rfl
    | false =>
      obtain ⟨r, out, hrun, hr, h1, h2, h3⟩ := empty_run stack hs p.isPd p.sc p.packetBuf (markLen p + 4) o hv hne (by omega) (by omega)
      rw [hrun, if_neg (by simp)]
      simp only [Res.ok_bind]
      unfold deciphered
      rw [if_pos hr]
      refine ⟨out, rfl, fun h => absurd (show (0 : Int) ≤ -6 from h) (by decide), h1, h2, ?_⟩
      obtain ⟨k, rfl⟩ : ∃ k, hi = o + k := ⟨hi - o, by omega⟩
      rw [← List.drop_drop, h3, List.drop_drop]
  · rw [if_neg (by omega)]
    simp only [Res.ok_bind]
    obtain ⟨pre, ct, post, he, hp, hm, h1, h2, h3⟩ := ScMem.pieces (buf := p.packetBuf) (o := o) (n := n) (by omega)
    obtain ⟨plain, hpl, hpe, hrun⟩ := ScMem.decryptData_run stack hs p.flags.allowEmpty p.isPd p.sc pre ct post (by omega)
      (List.length_pos_iff.mp (by omega))
    rw [← he, hp, hm] at hrun
    rw [hrun, ← h2, ← hpe]
    simp only [Res.ok_bind]
    have hpost : ∀ x : List Byte, x.length = n → (pre ++ (x ++ post)).length = p.packetBuf.length ∧
        (pre ++ (x ++ post)).take (markLen p + 4) = p.packetBuf.take (markLen p + 4) ∧
        (pre ++ (x ++ post)).drop hi = p.packetBuf.drop hi := by
      intro x hx
      obtain ⟨k, rfl⟩ : ∃ k, hi = o + n + k := ⟨hi - (o + n), by omega⟩
      refine ⟨by rw [he]; simp [hx, hm], ?_, ?_⟩
      · rw [he, List.take_append_of_le_length (by omega), List.take_append_of_le_length (by omega)]
      · have hcut : ∀ y : List Byte, y.length = n → (pre ++ (y ++ post)).drop (o + n + k) = post.drop k := by
          intro y hy
          rw [← List.append_assoc, show o + n + k = (pre ++ y).length + k by simp; omega, List.drop_length_add_append]
        rw [he, hcut x hx, hcut ct hm]
    cases hst : Sc.stripPad plain with
    | none =>
      dsimp only
      unfold deciphered
      rw [if_pos (show (-1 : Int) < 0 by decide)]
      exact ⟨_, rfl, fun h => absurd (show (0 : Int) ≤ -6 from h) (by decide), hpost plain (by omega)⟩
    | some d =>
      dsimp only
      have hd : d.length ≤ plain.length := Phy.stripPad_length hst
      unfold deciphered
      have hx : (d ++ List.replicate (n - d.length) 0#8).length = n := by simp; omega
      have hbuf : Phy.writeAt p.packetBuf o (d ++ List.replicate (n - d.length) 0#8) =
          .ok (pre ++ (d ++ (List.replicate (plain.length - d.length) 0#8 ++ post))) := by
        unfold Phy.writeAt
        rw [if_pos (by rw [hx]; omega), hx, ← h1, ← h3, hpl, hm]; simp
      rw [hbuf, if_neg (show ¬ (d.length : Int) < 0 by omega)]
      simp only [Res.ok_bind]
      have := hpost _ hx
      rw [List.append_assoc, ← hm, ← hpl] at this
      exact ⟨_, rfl, fun _ => rfl, this⟩

theorem storeMac_ok (isPd : Bool) (sc : Sc) (m : Block) :
    storeMac isPd sc m.1 = .ok (if isPd then { sc with cMac := m } else { sc with rMac := m }) := by
  unfold storeMac
  rw [dif_pos m.2]

theorem storeMac_run (isPd : Bool) (sc : Sc) (msg : List Byte) :
    (Sc.computeMac aes isPd sc msg >>= fun s => storeMac isPd sc (if isPd then s.cMac else s.rMac).1) = Sc.computeMac aes isPd sc msg := by
  unfold Sc.computeMac
  split
  · rfl
  · cases Sc.macBlocks aes sc.sMac1 sc.sMac2 (if isPd then sc.rMac else sc.cMac) (toBlocks (Sc.padMac msg)) with
    | none => rfl
    | some m =>
      cases isPd
      · exact storeMac_ok false sc m
      · exact storeMac_ok true sc m

theorem matched_like (stack : Ctx) (hs : stack.roundKey.length = 176) (p : Pd) (ty : Byte) (sb : Nat) (len0 : Int) (hi : Nat) (mac : List Byte)
    {v : Byte} (hv : p.packetBuf[markLen p + 4]? = some v) (hne : v ≠ 0#8) (hb : p.packetBuf.length = 256) (h4 : 0 < len0 - 4)
    (hin : (markLen p : Int) + len0 ≤ 256) (hhi : (markLen p : Int) + len0 - 4 ≤ hi) (hmac : mac.length = 16) :
    Like p.packetBuf (markLen p + 4) hi
      (if ((p.packetBuf.drop (markLen p)).drop (len0 - 4).toNat).take 4 ≠ mac.take 4 then
        .ok (nackWith p.scDeactivate Nak.SC_COND)
      else if ty = 0x17#8 ∨ ty = 0x18#8 then Phy.decodeCipher aes p sb (len0 - 5 - sb - 4)
      else .ok (p, ⟨len0 - 5 - sb - 4, (p.packetBuf.drop (markLen p)).drop (5 + sb)⟩))
      (sameMac p.packetBuf (markLen p + (len0 - 4).toNat) mac >>= decodeMatched stack p ty sb len0) := by
  have hsame : sameMac p.packetBuf (markLen p + (len0 - 4).toNat) mac =
      .ok ((p.packetBuf.drop (markLen p + (len0 - 4).toNat)).take 4 == mac.take 4) := by
    unfold sameMac PhyMem.front
    rw [if_pos (by rw [List.length_drop]; omega), if_pos (by omega)]
    rfl
  rw [hsame]
  simp only [Res.ok_bind]
  unfold decodeMatched
  rw [List.drop_drop, List.drop_drop]
  by_cases he : ((p.packetBuf.drop (markLen p + (len0 - 4).toNat)).take 4) = mac.take 4
  · rw [if_neg (fun h => h he), he, beq_self_eq_true, if_neg (show ¬ (!true) = true by decide)]
    by_cases ht : ty = 0x17#8 ∨ ty = 0x18#8
    · rw [if_pos ht, if_pos ht]
      exact cipher_like stack hs p sb _ hi hv hne hb (fun h => by omega)
    · rw [if_neg ht, if_neg ht]
      exact Like.same rfl
  · rw [if_pos he, beq_false_of_ne he, if_pos (show (!false) = true by decide)]
    exact Like.nack

theorem secured_like (stack : Ctx) (hs : stack.roundKey.length = 176) (p : Pd) (ty : Byte) (sb : Nat) (len0 : Int) (hi : Nat)
    {v : Byte} (hv : p.packetBuf[markLen p + 4]? = some v) (hne : v ≠ 0#8) (hb : p.packetBuf.length = 256)
    (hin : (markLen p : Int) + len0 ≤ 256) (hhi : (markLen p : Int) + len0 - 4 ≤ hi) :
    Like p.packetBuf (markLen p + 4) hi (Phy.decodeSecured aes p ty sb len0) (decodeSecured stack p ty sb len0) := by
  unfold Phy.decodeSecured decodeSecured
  dsimp only
  by_cases h4 : len0 - 4 ≤ 0
  · rw [if_pos h4, if_pos h4]; exact rfl
  rw [if_neg h4, if_neg h4]
  unfold PhyMem.front
  rw [if_pos (by rw [List.length_drop]; omega)]
  simp only [Res.ok_bind]
  rw [ScMem.computeMac_run stack hs]
  have hst := storeMac_run p.isPd p.sc ((p.packetBuf.drop (markLen p)).take (len0 - 4).toNat)
  cases hc : Sc.computeMac aes p.isPd p.sc ((p.packetBuf.drop (markLen p)).take (len0 - 4).toNat) with
  | error e => exact rfl
  | ok s =>
    rw [hc] at hst
    simp only [Res.ok_bind] at hst ⊢
    rw [hst]
    simp only [Res.ok_bind]
    exact matched_like stack hs (setSc p s) ty sb len0 hi (if p.isPd then s.cMac else s.rMac).1 hv hne hb (by omega) hin hhi (if p.isPd then s.cMac else s.rMac).2

theorem Like.bind {α : Type} {b0 : List Byte} {lo hi : Nat} {x : Res α} {f g : α → Res (Pd × Decoded)}
    (h : ∀ a, x = .ok a → Like b0 lo hi (f a) (g a)) : Like b0 lo hi (x >>= f) (x >>= g) := by
  cases x with
  | error e => exact rfl
  | ok a => exact h a rfl

theorem Like.ite {b0 : List Byte} {lo hi : Nat} {c : Prop} [Decidable c] {a b a' b' : Res (Pd × Decoded)} (h1 : c → Like b0 lo hi a a')
    (h2 : ¬ c → Like b0 lo hi b b') : Like b0 lo hi (if c then a else b) (if c then a' else b') := by
  by_cases h : c
  · rw [if_pos h, if_pos h]; exact h1 h
  · rw [if_neg h, if_neg h]; exact h2 h

theorem scb_like (stack : Ctx) (hs : stack.roundKey.length = 176) (p : Pd) (len0 : Int) (hi : Nat)
    {v : Byte} (hv : p.packetBuf[markLen p + 4]? = some v) (hne : v ≠ 0#8) (hb : p.packetBuf.length = 256)
    (hin : (markLen p : Int) + len0 ≤ 256) (hhi : (markLen p : Int) + len0 - 4 ≤ hi) :
    Like p.packetBuf (markLen p + 4) hi (Phy.decodeScb aes p len0) (decodeScb stack p len0) := by
  unfold Phy.decodeScb decodeScb
  dsimp only
  apply Like.ite
  · intro _; exact Like.same (q := (nackWith p Nak.SC_UNSUP).1) (d := (nackWith p Nak.SC_UNSUP).2) rfl
  intro _
  apply Like.bind; intro ty _
  apply Like.ite
  · intro _; exact Like.same (q := (nackWith p Nak.SC_COND).1) (d := (nackWith p Nak.SC_COND).2) rfl
  intro _
  apply Like.ite
  · intro _; exact Like.same (q := (nackWith p Nak.SC_COND).1) (d := (nackWith p Nak.SC_COND).2) rfl
  intro _
  apply Like.bind; intro d2 _
  apply Like.bind; intro sb _
  have e1 : (noteScbkd p ty d2).packetBuf = p.packetBuf ∧ markLen (noteScbkd p ty d2) = markLen p := by
    unfold noteScbkd; split <;> exact ⟨rfl, rfl⟩
  generalize noteScbkd p ty d2 = p1 at e1
  obtain ⟨e1, e2⟩ := e1
  rw [← e1, ← e2] at hv ⊢
  rw [← e2] at hin hhi
  rw [← e1] at hb
  apply Like.ite
  · intro _; exact secured_like stack hs p1 ty sb.toNat len0 hi hv hne hb hin hhi
  · intro _; exact Like.same rfl

theorem packet_like (stack : Ctx) (hs : stack.roundKey.length = 176) (p : Pd) (hb : p.packetBuf.length = 256) (hl : p.packetBufLen ≤ 256) :
    Like p.packetBuf (markLen p + 4) p.packetBufLen (Phy.decodePacket aes p) (decodePacket stack p) := by
  unfold Phy.decodePacket decodePacket
  apply Like.bind; intro ctl hc
  dsimp only
  have h12 : (0 : Int) ≤ (if hasBit ctl CTL_CRC = true then 2 else 1) := by split <;> decide
  apply Like.ite
  · intro hscb
    refine scb_like stack hs p _ _ (v := ctl) ?_ ?_ hb (by omega) (by omega)
    · have := rd_some hc
      rw [List.getElem?_drop] at this
      exact this
    · rintro rfl
      exact absurd hscb (by decide)
  · intro _
    unfold Phy.decodePlain
    dsimp only
    apply Like.bind; intro d0 _
    apply Like.ite
    · intro _; exact Like.same (q := (nackWith p Nak.SC_COND).1) (d := (nackWith p Nak.SC_COND).2) rfl
    · intro _; exact Like.same rfl

/-! ### the stack does not matter -/

theorem decryptData_stack (stack stack' : Ctx) (hs : stack.roundKey.length = 176) (hs' : stack'.roundKey.length = 176) (ae isCmd : Bool) (sc : Sc)
    (buf : List Byte) (o n : Nat) (h : o + n ≤ buf.length) :
    ScMem.decryptData stack ae isCmd sc buf o n = ScMem.decryptData stack' ae isCmd sc buf o n := by
  unfold ScMem.decryptData
  by_cases h16 : n % 16 ≠ 0
  · rw [if_pos h16, if_pos h16]
  rw [if_neg h16, if_neg h16]
  congr 1
  have h16' : n % 16 = 0 := by omega
  obtain ⟨pre, ct, post, he, hp, hm, h1, h2, h3⟩ := ScMem.pieces h
  have hat : ∀ s : Ctx, s.roundKey.length = 176 → ScMem.at_ (osdpDecrypt s sc.sEnc.1 (some (Sc.dataIv isCmd sc).1)) buf o n =
      .ok (pre ++ (ofBlocks (cbcDec aes sc.sEnc (Sc.dataIv isCmd sc) (toBlocks ct)) ++ post)) := by
    intro s hs
    unfold ScMem.at_
    rw [he, List.drop_left' hp, List.take_left' hp, ← hm, ScMem.decrypt_whole s hs _ _ _ _ (by rw [hm]; exact h16')]
    rfl
  rw [hat stack hs, hat stack' hs']

theorem bind_congr {α β : Type} {x : Res α} {f g : α → Res β} (h : ∀ a, x = .ok a → f a = g a) : (x >>= f) = (x >>= g) := by
  cases x with
  | error e => rfl
  | ok a => exact h a rfl

theorem secured_stack (stack stack' : Ctx) (hs : stack.roundKey.length = 176) (hs' : stack'.roundKey.length = 176) (p : Pd) (ty : Byte) (sb : Nat)
    (len0 : Int) (hb : p.packetBuf.length = 256) (hin : (markLen p : Int) + len0 ≤ 256) :
    decodeSecured stack p ty sb len0 = decodeSecured stack' p ty sb len0 := by
  unfold decodeSecured
  by_cases h4 : len0 - 4 ≤ 0
  · rw [if_pos h4, if_pos h4]
  rw [if_neg h4, if_neg h4]
  refine bind_congr fun msg _ => ?_
  rw [ScMem.computeMac_run stack hs, ScMem.computeMac_run stack' hs']
  refine bind_congr fun m _ => bind_congr fun sc _ => bind_congr fun same _ => ?_
  unfold decodeMatched
  by_cases hsame : (!same) = true
  · rw [if_pos hsame, if_pos hsame]
  rw [if_neg hsame, if_neg hsame]
  by_cases ht : ty = 0x17#8 ∨ ty = 0x18#8
  · rw [if_pos ht, if_pos ht]
    unfold decodeCipher
    by_cases h0 : len0 - 5 - sb - 4 - 1 < 0
    · rw [if_pos h0, if_pos h0]
    rw [if_neg h0, if_neg h0]
    rw [decryptData_stack stack stack' hs hs' _ _ _ _ _ _ (by
      show markLen p + 5 + sb + 1 + _ ≤ p.packetBuf.length
      rw [hb]; omega)]
  · rw [if_neg ht, if_neg ht]

theorem packet_stack (stack stack' : Ctx) (hs : stack.roundKey.length = 176) (hs' : stack'.roundKey.length = 176) (p : Pd)
    (hb : p.packetBuf.length = 256) (hl : p.packetBufLen ≤ 256) : decodePacket stack p = decodePacket stack' p := by
  unfold decodePacket
  refine bind_congr fun ctl _ => ?_
  dsimp only
  have h12 : (0 : Int) ≤ (if hasBit ctl CTL_CRC = true then 2 else 1) := by split <;> decide
  by_cases hscb : hasBit ctl CTL_SCB = true
  · rw [if_pos hscb, if_pos hscb]
    unfold decodeScb
    dsimp only
    split
    · rfl
    refine bind_congr fun ty _ => ?_
    split
    · rfl
    split
    · rfl
    refine bind_congr fun d2 _ => bind_congr fun sb _ => ?_
    have e1 : (noteScbkd p ty d2).packetBuf = p.packetBuf ∧ markLen (noteScbkd p ty d2) = markLen p := by
      unfold noteScbkd; split <;> exact ⟨rfl, rfl⟩
    split
    · exact secured_stack stack stack' hs hs' _ _ _ _ (by rw [e1.1]; exact hb) (by rw [e1.2]; omega)
    · rfl
  · rw [if_neg hscb, if_neg hscb]

end Osdp.OpenMem
