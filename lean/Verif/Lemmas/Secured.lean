import Verif.Lemmas.Secure
import Verif.Lemmas.PdDeliver
import Verif.Props.C09

/-! # Secured packets -/

namespace Osdp

open Spec.Session

theorem decipher_cbc (C : Cipher) (key iv : Block) (bs : List Block) :
    decipher C key iv bs = ofBlocks (cbcDec C key iv bs) := by
  induction bs generalizing iv with
  | nil => rfl
  | cons c cs ih =>
    unfold decipher cbcDec
    rw [ih]
    simp [ofBlocks]

theorem chunks_blocks {l : List Byte} (h : l.length % 16 = 0) : chunks l = toBlocks l := by
  rw [← blocks_chunks]
  unfold Sc.padMac
  rw [if_pos h]

theorem stripPad_some {l d : List Byte} : Sc.stripPad l = some d ↔ ∃ z, l = d ++ 0x80#8 :: List.replicate z 0#8 := by
  constructor
  · intro h
    unfold Sc.stripPad at h
    have hs := List.takeWhile_append_dropWhile (p := fun b : Byte => decide (b = 0#8)) (l := l.reverse)
    have hall : ∀ b ∈ l.reverse.takeWhile (fun b : Byte => decide (b = 0#8)), b = 0#8 := by
      intro b hb
      simpa using List.all_eq_true.mp (List.all_takeWhile (p := fun b : Byte => decide (b = 0#8)) (l := l.reverse)) b hb
    generalize l.reverse.takeWhile (fun b : Byte => decide (b = 0#8)) = t at hs hall
    cases hd : l.reverse.dropWhile (fun b : Byte => decide (b = 0#8)) with
    | nil => rw [hd] at h; cases h
    | cons b r =>
      rw [hd] at h hs
      dsimp only at h
      split at h
      · rename_i hb
        injection h with h; subst h hb
        refine ⟨t.length, ?_⟩
        have ht : t = List.replicate t.length 0#8 := List.eq_replicate_iff.mpr ⟨rfl, hall⟩
        have := congrArg List.reverse hs
        rw [List.reverse_reverse] at this
        rw [← this]
        rw [ht]
        simp
      · cases h
  · rintro ⟨z, rfl⟩
    unfold Sc.stripPad
    have : ∀ n, ((List.replicate n 0#8 ++ 0x80#8 :: d.reverse).dropWhile (· = 0#8)) = 0x80#8 :: d.reverse := by
      intro n
      induction n with
      | zero => simp
      | succ n ih => simpa [List.replicate_succ] using ih
    simp [this]

theorem decryptData_opens {C : Cipher} {ae isCmd : Bool} {sc : Sc} {ct d : List Byte} (tail : List Byte)
    (h : Opens C sc.sEnc (if isCmd then sc.rMac else sc.cMac) ct d) :
    Sc.decryptData C ae isCmd sc (ct ++ tail) ct.length = .ok (some d) := by
  obtain ⟨h16, z, hz⟩ := h
  rw [decipher_cbc, chunks_blocks h16] at hz
  have hne : ct ≠ [] := by
    rintro rfl
    rw [toBlocks_nil] at hz
    have := congrArg List.length hz
    simp [cbcDec, ofBlocks] at this
  have hpos := List.length_pos_iff.mpr hne
  unfold Sc.decryptData
  rw [if_neg (by omega), if_neg (by omega), if_neg (by omega), Int.toNat_natCast, List.take_left]
  unfold Sc.dataIv
  rw [stripPad_some.mpr ⟨z, hz⟩]

theorem decryptData_refused {C : Cipher} {ae isCmd : Bool} {sc : Sc} {ct : List Byte} (tail : List Byte)
    (h : ¬ ∃ d, Opens C sc.sEnc (if isCmd then sc.rMac else sc.cMac) ct d) (he : ct ≠ [] ∨ ae = false) :
    Sc.decryptData C ae isCmd sc (ct ++ tail) ct.length = .ok none := by
  unfold Sc.decryptData
  by_cases h16 : ct.length % 16 = 0
  · rw [if_neg (by omega), if_neg (by omega)]
    by_cases h0 : ct = []
    · subst h0
      rw [if_pos (show (([] : List Byte).length : Int) = 0 from rfl), if_neg (by rcases he with h | h; exact absurd rfl h; rw [h]; decide)]
    · have hpos := List.length_pos_iff.mpr h0
      rw [if_neg (by omega), Int.toNat_natCast, List.take_left]
      congr 1
      cases hs : Sc.stripPad _ with
      | none => rfl
      | some d =>
        refine absurd ⟨d, h16, ?_⟩ h
        rw [decipher_cbc, chunks_blocks h16]
        exact stripPad_some.mp hs
  · rw [if_pos (by omega)]

end Osdp

namespace Osdp.Phy

open Spec.Session Spec.Wire

/-- the session after a MAC was computed over a received message -/
def chained (C : Cipher) (isPd : Bool) (sc : Sc) (msg : List Byte) : Sc :=
  if isPd then { sc with cMac := mac C sc.sMac1 sc.sMac2 sc.rMac msg } else { sc with rMac := mac C sc.sMac1 sc.sMac2 sc.cMac msg }

/-- the MAC of a received message -/
def macOf (C : Cipher) (isPd : Bool) (sc : Sc) (msg : List Byte) : Block :=
  mac C sc.sMac1 sc.sMac2 (if isPd then sc.rMac else sc.cMac) msg

theorem scbBit : ∀ c : Byte, hasBit c CTL_SCB = c.getLsbD 3 := by decide +kernel

theorem decodeFrame_secured (C : Cipher) (p : Pd) {f msg tag : List Byte} {ctl ty id : Byte} {pl : List Byte}
    (hf : SecuredFrame f msg tag ctl ty id pl) (hty : 0x15#8 ≤ ty ∧ ty ≤ 0x18#8) (hact : p.scActive = true)
    (hcap : p.isPd = true → p.scCapable = true) :
    decodeFrame C p f =
      if tag = (macOf C p.isPd p.sc msg).1.take 4 then
        if ty = 0x17#8 ∨ ty = 0x18#8 then
          (Sc.decryptData C p.flags.allowEmpty p.isPd (chained C p.isPd p.sc msg) (pl ++ f.drop msg.length) pl.length) >>= fun
            | none => .ok (setNak (setSc p (chained C p.isPd p.sc msg)).scDeactivate Nak.SC_COND, PKT_NACK, [])
            | some plain => .ok (setSc p (chained C p.isPd p.sc msg), plain.length + 1, id :: plain)
        else .ok (setSc p (chained C p.isPd p.sc msg), pl.length + 1, id :: pl)
      else .ok (setNak (setSc p (chained C p.isPd p.sc msg)).scDeactivate Nak.SC_COND, PKT_NACK, []) := by
  obtain ⟨⟨a, lo, hi, sb, x, chk, hm, hfm, hsb, hchk⟩, hscb, h4, hfit⟩ := hf
  rw [← crcBit] at hchk
  rw [← scbBit] at hscb
  have hml : msg.length = 8 + x.length + pl.length := by rw [hm]; simp; omega
  have hfl : f.length = msg.length + 4 + chk.length := by rw [hfm]; simp; omega
  have e4 : rd f 4 = .ok ctl := by rw [hfm, hm]; rfl
  have e5 : rd f 5 = .ok sb := by rw [hfm, hm]; rfl
  have e6 : rd f 6 = .ok ty := by rw [hfm, hm]; rfl
  obtain ⟨d2, e7⟩ := rd_exists (l := f) (i := 7) (by omega)
  unfold decodeFrame
  rw [e4]
  dsimp only [Res.ok_bind]
  rw [if_pos hscb]
  have hl0 : ((f.length : Int) - (if hasBit ctl CTL_CRC then 2 else 1)) = (msg.length + 4 : Nat) := by
    rw [hfl, hchk]
    split <;> omega
  rw [hl0]
  unfold frameScb
  rw [e5, e6, e7]
  dsimp only [Res.ok_bind]
  have hcc : (p.isPd && !p.scCapable) = false := by
    cases h : p.isPd with
    | false => rfl
    | true => rw [hcap h]; rfl
  have hn : noteScbkd p ty d2 = p := by
    unfold noteScbkd
    rw [if_neg]
    rintro ⟨h | h, -⟩ <;> (subst h; exact absurd hty (by decide))
  have ht1 : ¬ (ty < 0x11#8 ∨ ty > 0x18#8) := by
    have := hty.1; have := hty.2
    simp only [BitVec.le_def, gt_iff_lt, BitVec.lt_def] at *
    simp at *; omega
  rw [if_neg (by rw [hcc]; decide), if_neg ht1, if_neg (fun h => h.1 hact), hn, if_pos ⟨hact, hty.1⟩]
  unfold frameSecured
  have e0 : ((msg.length + 4 : Nat) : Int) - 4 = msg.length := by omega
  rw [e0, if_neg (by omega), Int.toNat_natCast]
  have et : f.take msg.length = msg := by rw [hfm, List.take_left]
  have ed : f.drop msg.length = tag ++ chk := by rw [hfm, List.drop_left]
  have hmne : msg ≠ [] := by rw [hm]; simp
  have hmac : Sc.computeMac C p.isPd p.sc (f.take msg.length) = .ok (chained C p.isPd p.sc msg) := by
    rw [et]
    unfold chained
    cases p.isPd with
    | true => exact computeMac_cmd hmne (by omega)
    | false => exact computeMac_reply hmne (by omega)
  rw [hmac]
  dsimp only [Res.ok_bind]
  have etag : (f.drop msg.length).take 4 = tag := by rw [ed, ← h4, List.take_left]
  have emac : (if (setSc p (chained C p.isPd p.sc msg)).isPd then (chained C p.isPd p.sc msg).cMac else (chained C p.isPd p.sc msg).rMac) =
      macOf C p.isPd p.sc msg := by
    show (if p.isPd then _ else _) = _
    unfold chained macOf
    cases p.isPd <;> rfl
  rw [etag, emac]
  have edrop : f.drop (5 + sb.toNat) = id :: (pl ++ f.drop msg.length) := by
    rw [ed, hfm, hm, hsb]
    have : 5 + (2 + x.length) = (SOM :: a :: lo :: hi :: ctl :: sb :: ty :: x).length := by simp; omega
    rw [this, List.append_assoc, List.drop_left]
    simp
  have edrop1 : f.drop (5 + sb.toNat + 1) = pl ++ f.drop msg.length := by
    rw [← List.drop_drop, edrop]; rfl
  have elen : ((msg.length + 4 : Nat) : Int) - 5 - sb.toNat - 4 = (pl.length : Int) + 1 := by omega
  by_cases htag : tag = (macOf C p.isPd p.sc msg).1.take 4
  · rw [if_neg (fun h => h htag), if_pos htag]
    by_cases h17 : ty = 0x17#8 ∨ ty = 0x18#8
    · rw [if_pos h17, if_pos h17]
      unfold frameCipher
      rw [elen, edrop, edrop1, show (pl.length : Int) + 1 - 1 = pl.length by omega]
      show (Sc.decryptData C p.flags.allowEmpty p.isPd (chained C p.isPd p.sc msg) _ _ >>= _) = _
      congr 1
    · rw [if_neg h17, if_neg h17, elen, edrop]
      have : ((pl.length : Int) + 1).toNat = pl.length + 1 := by omega
      rw [this, List.take_succ_cons, List.take_left]
      rfl
  · rw [if_pos htag, if_neg htag]
    rfl

end Osdp.Phy

namespace Osdp.PdM

open Spec.Wire
open Phy (setNak Idle Arrives pdAccept reload Held decodeFrame WfFrame marked)

/-- an intact command for this PD, with a sequence number it accepts -/
structure FrameFor (p : Pd) (m : Bool) (f : List Byte) (a ctl : Byte) : Prop where
  wf : WfFrame m f
  intact : Intact f
  a1 : f[1]? = some a
  c4 : f[4]? = some ctl
  command : a.toNat < 128
  addr : (a.toNat : Int) = p.address ∨ a.toNat = 127
  seqRange : -1 ≤ p.seq ∧ p.seq ≤ 3
  seq : Spec.Seq.Acceptable p.seq (ctl.toNat % 4)

/-- the PD after it accepted the sequence number of a frame -/
def frameAccepted (p : Pd) (a ctl : Byte) : Pd := pdAccept p (ctl.toNat % 4) (a.toNat == 127)

theorem check_frame {p : Pd} {m : Bool} {f : List Byte} {a ctl : Byte} {env : Env} (hp : p.flags.pdMode = true) (hi : Idle p)
    (hk : FrameFor p m f a ctl) (ha : Arrives env (marked m f)) :
    ∃ t, Phy.checkPacket p env = .ok (reload (frameAccepted p a ctl) { Phy.heldLoaded p m f [] with ts := t }, .none) := by
  have hto : Phy.Towards p f := by
    intro b h1
    rw [hk.a1] at h1; injection h1 with h1; subst h1
    have hcp : p.isCp = false := by unfold Pd.isCp; rw [hp]; rfl
    unfold Phy.dirOk
    rw [hcp]
    have : ∀ a : Byte, a.toNat < 128 → Phy.hasBit a 0x80#8 = false := by decide +kernel
    rw [this a hk.command]; rfl
  obtain ⟨t, ht⟩ := Phy.checkPacket_frame p m f env hi hk.wf hto ha
  obtain ⟨n, hv⟩ := Phy.checkValue_intact hk.intact
  have h7 : ∀ a : Byte, a.toNat < 128 → (a &&& 0x7F#8).toNat = a.toNat := by decide +kernel
  have hb : Phy.bodyFrame p f = .ok (frameAccepted p a ctl, .none) := by
    unfold Phy.bodyFrame
    rw [hv, Phy.rd_ok hk.a1, Phy.rd_ok hk.c4]
    dsimp only [Res.ok_bind]
    have := hk.addr
    rw [h7 a hk.command, if_neg (by decide), if_neg (by omega), Phy.and3]
    exact Phy.checkSeq_accept p f n (ctl.toNat % 4) (a.toNat == 127) hp (by omega) hk.seqRange hk.seq
  refine ⟨t, ?_⟩
  rw [ht, hb]
  rfl

/-- a packet that cannot be decoded -/
theorem receive_nacked (C : Cipher) {p q : Pd} {m : Bool} {f : List Byte} {a ctl : Byte} {env : Env} (hp : p.flags.pdMode = true)
    (hi : Idle p) (hk : FrameFor p m f a ctl) (ha : Arrives env (marked m f))
    (h8 : Phy.hasBit ctl Phy.CTL_SCB = true → 8 ≤ f.length)
    (hd : decodeFrame C (frameAccepted p a ctl) f = .ok (q, Phy.PKT_NACK, [])) :
    ∃ h : Held, h.buf.length = 256 ∧ h.rx = [] ∧ h.mark = m ∧ receiveAndProcess C p env = .ok (reload q h, [], .reply) := by
  obtain ⟨t, ht⟩ := check_frame hp hi hk ha
  have hfit := hk.wf.fits
  have hbl : ({ Phy.heldLoaded p m f [] with ts := t } : Held).buf.length = 256 := by
    show (((if m then [Phy.MARK] else []) ++ f) ++ p.packetBuf.drop _).length = 256
    rw [List.length_append, List.length_drop, hi.buf]
    cases m <;> simp at hfit ⊢ <;> omega
  have hr := Phy.decode_frame C (reload (frameAccepted p a ctl) { Phy.heldLoaded p m f [] with ts := t }) f
    (p.packetBuf.drop (((if m then [Phy.MARK] else []) ++ f).length)) (by
      show List.drop (if m then 1 else 0) _ = _
      unfold Phy.heldLoaded reload
      cases m <;> simp)
    (by
      show ((if m then [Phy.MARK] else []) ++ f).length = (if m then 1 else 0) + f.length
      cases m <;> simp <;> omega) hk.intact.min
    (by
      intro c hc hb
      rw [hk.c4] at hc; injection hc with hc; subst hc
      exact h8 hb)
  rw [Phy.decodeFrame_reload, hd] at hr
  cases hdp : Phy.decodePacket C (reload (frameAccepted p a ctl) { Phy.heldLoaded p m f [] with ts := t }) with
  | error e => rw [hdp] at hr; exact absurd hr id
  | ok v =>
    rcases v with ⟨v1, v2⟩
    rw [hdp] at hr
    obtain ⟨h1, h2, buf, hb, hv⟩ := hr
    refine ⟨{ Phy.heldLoaded p m f [] with ts := t, buf := buf }, hb.trans hbl, rfl, rfl, ?_⟩
    unfold receiveAndProcess
    rw [ht]
    show process C _ env = _
    unfold process
    rw [hdp]
    dsimp only [Res.ok_bind]
    rw [h1, if_pos (by decide), if_pos rfl, hv]
    rfl

end Osdp.PdM
