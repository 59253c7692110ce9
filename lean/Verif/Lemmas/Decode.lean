import Verif.Lemmas.Phy
import Verif.Lemmas.Sc

/-! # `osdp_phy_decode_packet` as a function of the bytes of one frame -/

namespace Osdp.Phy

/-- `decodeCipher` on the bytes of a frame: state (packet buffer not updated), length and body -/
def frameCipher (C : Cipher) (p : Pd) (f : List Byte) (sb : Nat) (len : Int) : Res (Pd × Int × List Byte) := do
  match ← Sc.decryptData C p.flags.allowEmpty p.isPd p.sc (f.drop (5 + sb + 1)) (len - 1) with
  | none => return (setNak p.scDeactivate Nak.SC_COND, PKT_NACK, [])
  | some plain => return (p, plain.length + 1, (f.drop (5 + sb)).take 1 ++ plain)

/-- `decodeSecured` on the bytes of a frame -/
def frameSecured (C : Cipher) (p : Pd) (f : List Byte) (ty : Byte) (sb : Nat) (len0 : Int) :
    Res (Pd × Int × List Byte) :=
  if len0 - 4 ≤ 0 then .error .oobRead
  else do
    let sc ← Sc.computeMac C p.isPd p.sc (f.take (len0 - 4).toNat)
    let p := setSc p sc
    if (f.drop (len0 - 4).toNat).take 4 ≠ (if p.isPd then sc.cMac else sc.rMac).1.take 4 then
      return (setNak p.scDeactivate Nak.SC_COND, PKT_NACK, [])
    if ty = 0x17#8 ∨ ty = 0x18#8 then frameCipher C p f sb (len0 - 5 - sb - 4)
    else return (p, len0 - 5 - sb - 4, (f.drop (5 + sb)).take (len0 - 5 - sb - 4).toNat)

/-- `decodeScb` on the bytes of a frame -/
def frameScb (C : Cipher) (p : Pd) (f : List Byte) (len0 : Int) : Res (Pd × Int × List Byte) := do
  if p.isPd && !p.scCapable then return (setNak p Nak.SC_UNSUP, PKT_NACK, [])
  let ty ← rd f 6
  if ty < 0x11#8 ∨ ty > 0x18#8 then return (setNak p Nak.SC_COND, PKT_NACK, [])
  if ¬ p.scActive ∧ ty > 0x14#8 then return (setNak p Nak.SC_COND, PKT_NACK, [])
  let d2 ← rd f 7
  let p := noteScbkd p ty d2
  let sb := (← rd f 5).toNat
  if p.scActive ∧ 0x15#8 ≤ ty then frameSecured C p f ty sb len0
  else return (p, len0 - 5 - sb, (f.drop (5 + sb)).take (len0 - 5 - sb).toNat)

/-- `decodePlain` on the bytes of a frame -/
def framePlain (p : Pd) (f : List Byte) (len0 : Int) : Res (Pd × Int × List Byte) := do
  let d0 ← rd f 5
  if plainRefused p d0 then return (setNak p Nak.SC_COND, PKT_NACK, [])
  return (p, len0 - 5, (f.drop 5).take (len0 - 5).toNat)

/-- `decodePacket` on the bytes of a frame -/
def decodeFrame (C : Cipher) (p : Pd) (f : List Byte) : Res (Pd × Int × List Byte) := do
  let ctl ← rd f 4
  let len0 : Int := (f.length : Int) - (if hasBit ctl CTL_CRC then 2 else 1)
  if hasBit ctl CTL_SCB then frameScb C p f len0 else framePlain p f len0

theorem rd_append {f : List Byte} {i : Nat} (x : List Byte) (h : i < f.length) : rd (f ++ x) i = rd f i := by
  unfold rd; rw [List.getElem?_append_left h]

/-- the relation between the two decoders -/
def DecRel : Res (Pd × Decoded) → Res (Pd × Int × List Byte) → Prop
  | .error e, .error e' => e = e'
  | .ok (q, d), .ok (q', len, body) =>
    d.len = len ∧ d.data.take len.toNat = body ∧ ∃ buf, buf.length = q'.packetBuf.length ∧ q = setBuf q' buf q'.packetBufLen
  | _, _ => False

theorem setBuf_self (p : Pd) : p = setBuf p p.packetBuf p.packetBufLen := rfl

theorem DecRel.same {p : Pd} {len : Int} {data body : List Byte} (h : data.take len.toNat = body) :
    DecRel (.ok (p, ⟨len, data⟩)) (.ok (p, len, body)) :=
  ⟨rfl, h, p.packetBuf, rfl, rfl⟩

theorem DecRel.bind {α} {x : Res α} {f : α → Res (Pd × Decoded)} {g : α → Res (Pd × Int × List Byte)}
    (h : ∀ a, x = .ok a → DecRel (f a) (g a)) : DecRel (x >>= f) (x >>= g) := by
  cases x with
  | error e => exact rfl
  | ok a => exact h a rfl

theorem DecRel.ite {c : Prop} [Decidable c] {a b} {a' b'} (h1 : c → DecRel a a') (h2 : ¬ c → DecRel b b') :
    DecRel (if c then a else b) (if c then a' else b') := by
  by_cases h : c
  · rw [if_pos h, if_pos h]; exact h1 h
  · rw [if_neg h, if_neg h]; exact h2 h

theorem stripPad_length {l r : List Byte} (h : Sc.stripPad l = some r) : r.length ≤ l.length := by
  unfold Sc.stripPad at h
  split at h
  · cases h
  · rename_i b r' hr
    split at h
    · injection h with h; subst h
      have := (List.dropWhile_suffix (p := fun x => decide (x = 0#8)) (l := l.reverse)).length_le
      rw [hr] at this
      simp at this ⊢; omega
    · cases h

theorem cbcDec_length (C : Cipher) (k iv : Block) (bs : List Block) : (cbcDec C k iv bs).length = bs.length := by
  induction bs generalizing iv with
  | nil => rfl
  | cons b bs ih => simp [cbcDec, ih]

theorem decryptData_some {C : Cipher} {ae ic : Bool} {sc : Sc} {data : List Byte} {n : Int} {plain : List Byte}
    (h : Sc.decryptData C ae ic sc data n = .ok (some plain)) : 0 ≤ n ∧ (plain.length : Int) ≤ n := by
  unfold Sc.decryptData at h
  split at h
  · cases h
  · split at h
    · cases h
    · split at h
      · rename_i h0
        injection h with h
        split at h
        · injection h with h; subst h; simp; omega
        · cases h
      · injection h with h
        have := stripPad_length h
        rw [ofBlocks_length, cbcDec_length, toBlocks_length, List.length_take] at this
        omega

theorem decryptData_take (C : Cipher) (ae ic : Bool) (sc : Sc) (a b : List Byte) (n : Int)
    (h : a.take n.toNat = b.take n.toNat) :
    Sc.decryptData C ae ic sc a n = Sc.decryptData C ae ic sc b n := by
  unfold Sc.decryptData; rw [h]

theorem take_drop_append {f x : List Byte} {i n : Nat} (h : i + n ≤ f.length) :
    ((f ++ x).drop i).take n = (f.drop i).take n := by
  rw [List.drop_append_of_le_length (by omega), List.take_append_of_le_length (by simp; omega)]

theorem take_drop_int {f x : List Byte} (k : Int) (i : Nat) (hk : (i : Int) + k ≤ f.length) :
    List.take k.toNat (List.drop i (f ++ x)) = List.take k.toNat (List.drop i f) := by
  by_cases hk0 : k ≤ 0
  · rw [show k.toNat = 0 by omega]; simp
  · exact take_drop_append (by omega)

theorem cipher_frame (C : Cipher) (p : Pd) (f x : List Byte) (hf : p.packetBuf.drop (markLen p) = f ++ x)
    (sb : Nat) (len : Int) (hlen : (5 + sb : Nat) + len ≤ f.length) :
    DecRel (decodeCipher C p sb len) (frameCipher C p f sb len) := by
  unfold decodeCipher frameCipher
  have e : List.drop (markLen p + 5 + sb + 1) p.packetBuf = List.drop (5 + sb + 1) (f ++ x) := by
    rw [← hf, List.drop_drop]; congr 1; omega
  dsimp only
  rw [e, decryptData_take C _ _ _ (List.drop (5 + sb + 1) (f ++ x)) (List.drop (5 + sb + 1) f) (len - 1)
    (take_drop_int _ _ (by omega))]
  apply DecRel.bind; intro pl hpl
  cases pl with
  | none => exact DecRel.same rfl
  | some plain =>
    obtain ⟨h1, h2⟩ := decryptData_some hpl
    have hlen' : (f ++ x).length = p.packetBuf.length - markLen p := by rw [← hf]; simp
    have hml : markLen p ≤ p.packetBuf.length := by
      simp only [List.length_append] at hlen'; omega
    have hw : markLen p + 5 + sb + 1 + (plain ++ List.replicate ((len - 1).toNat - plain.length) 0#8).length ≤
        p.packetBuf.length := by
      simp only [List.length_append, List.length_replicate] at hlen' ⊢
      omega
    dsimp only
    rw [writeAt_ok hw]
    refine ⟨rfl, ?_, _, ?_, rfl⟩
    · have e2 : List.take (markLen p + 5 + sb + 1) p.packetBuf =
          List.take (markLen p) p.packetBuf ++ (f.take (5 + sb) ++ (f.drop (5 + sb)).take 1) := by
        rw [show markLen p + 5 + sb + 1 = markLen p + ((5 + sb) + 1) by omega,
          List.take_add, hf, List.take_append_of_le_length (by omega), List.take_add]
      rw [e2]
      have e3 : (List.take (markLen p) p.packetBuf).length = markLen p := by simp; omega
      have e4 : (f.take (5 + sb)).length = 5 + sb := by simp; omega
      have e5 : ((f.drop (5 + sb)).take 1).length = 1 := by simp; omega
      generalize List.take (markLen p) p.packetBuf = A at e3
      generalize f.take (5 + sb) = B at e4
      generalize (f.drop (5 + sb)).take 1 = D at e5
      have e6 : markLen p + 5 + sb + 1 - 1 = (A ++ B).length := by simp [e3, e4]; omega
      rw [e6, show A ++ (B ++ D) = (A ++ B) ++ D by simp, List.append_assoc, List.append_assoc (A ++ B),
        List.drop_left, List.take_append, e5]
      congr 1
      · rw [List.take_of_length_le (by rw [e5]; omega)]
      · rw [show ((plain.length : Int) + 1).toNat - 1 = plain.length by omega, List.append_assoc, List.take_left]
    · show (List.take _ p.packetBuf ++ _ ++ List.drop _ p.packetBuf).length = p.packetBuf.length
      simp only [List.length_append, List.length_replicate, List.length_take, List.length_drop] at hw ⊢
      omega

theorem noteScbkd_packetBuf (p : Pd) (a b) : (noteScbkd p a b).packetBuf = p.packetBuf := by
  unfold noteScbkd; split <;> rfl
theorem noteScbkd_markLen (p : Pd) (a b) : markLen (noteScbkd p a b) = markLen p := by
  unfold noteScbkd; split <;> rfl

theorem secured_frame (C : Cipher) (p : Pd) (f x : List Byte) (hf : p.packetBuf.drop (markLen p) = f ++ x)
    (ty : Byte) (sb : Nat) (len0 : Int) (hlen : len0 ≤ f.length) :
    DecRel (decodeSecured C p ty sb len0) (frameSecured C p f ty sb len0) := by
  unfold decodeSecured frameSecured
  dsimp only
  rw [hf]
  apply DecRel.ite
  · intro _; exact rfl
  · intro hmo
    rw [List.take_append_of_le_length (show (len0 - 4).toNat ≤ f.length by omega),
      take_drop_append (show (len0 - 4).toNat + 4 ≤ f.length by omega)]
    apply DecRel.bind; intro sc _
    apply DecRel.ite
    · intro _; exact DecRel.same rfl
    · intro _
      apply DecRel.ite
      · intro _; exact cipher_frame C (setSc p sc) f x hf _ _ (by omega)
      · intro _; exact DecRel.same (take_drop_int _ _ (by omega))

theorem scb_frame (C : Cipher) (p : Pd) (f x : List Byte) (hf : p.packetBuf.drop (markLen p) = f ++ x)
    (len0 : Int) (hlen : len0 ≤ f.length) (h8 : 8 ≤ f.length) :
    DecRel (decodeScb C p len0) (frameScb C p f len0) := by
  unfold decodeScb frameScb
  dsimp only
  rw [hf, rd_append x (show 6 < f.length by omega), rd_append x (show 7 < f.length by omega),
      rd_append x (show 5 < f.length by omega)]
  apply DecRel.ite
  · intro _; exact DecRel.same rfl
  · intro _
    apply DecRel.bind; intro ty _
    apply DecRel.ite
    · intro _; exact DecRel.same rfl
    · intro _
      apply DecRel.ite
      · intro _; exact DecRel.same rfl
      · intro _
        apply DecRel.bind; intro d2 _
        apply DecRel.bind; intro sb _
        apply DecRel.ite
        · intro _
          exact secured_frame C _ f x (by rw [noteScbkd_packetBuf, noteScbkd_markLen, hf]) _ _ _ hlen
        · intro _
          exact DecRel.same (take_drop_int _ _ (by omega))

theorem plain_frame (p : Pd) (f x : List Byte) (hf : p.packetBuf.drop (markLen p) = f ++ x)
    (len0 : Int) (hlen : len0 ≤ f.length) (h6 : 6 ≤ f.length) :
    DecRel (decodePlain p len0) (framePlain p f len0) := by
  unfold decodePlain framePlain
  dsimp only
  rw [hf, rd_append x (show 5 < f.length by omega)]
  apply DecRel.bind; intro d0 _
  apply DecRel.ite
  · intro _; exact DecRel.same rfl
  · intro _; exact DecRel.same (take_drop_int _ _ (by omega))

/-- Decoding depends on the bytes of the frame only (not on older bytes in the buffer), if a frame
with a security block has at least 8 bytes. -/
theorem decode_frame (C : Cipher) (p : Pd) (f x : List Byte) (hf : p.packetBuf.drop (markLen p) = f ++ x)
    (hn : p.packetBufLen = markLen p + f.length) (h6 : 6 ≤ f.length)
    (h8 : ∀ c, f[4]? = some c → hasBit c CTL_SCB = true → 8 ≤ f.length) :
    DecRel (decodePacket C p) (decodeFrame C p f) := by
  unfold decodePacket decodeFrame
  dsimp only
  rw [hn, hf, rd_append x (show 4 < f.length by omega)]
  apply DecRel.bind
  intro ctl hctl
  have e0 : ((markLen p + f.length : Nat) : Int) - (markLen p : Nat) = f.length := by omega
  rw [e0]
  have hc : (if hasBit ctl CTL_CRC = true then (2 : Int) else 1) ≥ 0 := by split <;> simp
  apply DecRel.ite
  · intro hscb
    have h8' : 8 ≤ f.length := by
      refine h8 ctl ?_ hscb
      unfold rd at hctl
      cases hx : f[4]? with
      | none => rw [hx] at hctl; cases hctl
      | some v => rw [hx] at hctl; injection hctl with hctl; rw [hctl]
    exact scb_frame C p f x hf _ (by omega) h8'
  · intro _
    exact plain_frame p f x hf _ (by omega) h6

end Osdp.Phy
