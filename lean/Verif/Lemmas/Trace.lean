import Verif.Model.Trace
import Verif.Lemmas.DecodeFault
import Verif.Lemmas.PhyMem

/-!
# Tracing: what the traced functions have in common with the others
-/

namespace Osdp.Trace
open Osdp.AesMem
open Osdp.Phy (hasBit SOM MARK CTL_CRC CTL_SCB BUF_SIZE Decoded markLen writeAt heldFrame Held1)
open Spec.Block (Overlong checkLen)

/-- an end that leaves a trace of itself only -/
def markExit : Exit := fun p off len => .ok (p, ⟨len, p.packetBuf.drop off⟩, some [])

/-- a refusal, or data within the buffer -/
def Goes (d : Decoded) (c : Option (List Byte)) : Prop := c = none ∨ (0 < d.len ∧ d.len ≤ d.data.length)

theorem decodeCipher_goes {C : Cipher} {p : Pd} {sb : Nat} {len : Int} (h1 : 1 ≤ len)
    (h2 : markLen p + 5 + sb + len ≤ p.packetBuf.length) :
    ∃ q d c, decodeCipher C markExit p sb len = .ok (q, d, c) ∧ Goes d c := by
  unfold decodeCipher
  obtain ⟨r, hr⟩ := Phy.decryptData_total (C := C) (ae := p.flags.allowEmpty) (ic := p.isPd) (sc := p.sc)
    (data := p.packetBuf.drop (markLen p + 5 + sb + 1)) (n := len - 1) (by omega)
  dsimp only
  rw [hr]
  cases r with
  | none => exact ⟨_, _, _, rfl, .inl rfl⟩
  | some plain =>
    obtain ⟨-, hl⟩ := Phy.decryptData_some hr
    obtain ⟨b, hb⟩ := Phy.writeAt_total (buf := p.packetBuf) (i := markLen p + 5 + sb + 1)
      (bs := plain ++ List.replicate ((len - 1).toNat - plain.length) 0#8) (by simp; omega)
    show ∃ q d c, (writeAt p.packetBuf (markLen p + 5 + sb + 1) (plain ++ List.replicate ((len - 1).toNat - plain.length) 0#8) >>= _) = _ ∧ _
    rw [hb]
    refine ⟨_, _, _, rfl, .inr ⟨?_, ?_⟩⟩
    · show (0 : Int) < (plain.length : Int) + 1; omega
    · have := Phy.writeAt_length hb
      show (plain.length : Int) + 1 ≤ ((b.drop (markLen p + 5 + sb + 1 - 1)).length : Int)
      rw [List.length_drop]; omega

/-- Taking apart a packet whose security block fits either refuses it or hands on at least one byte of the buffer. -/
theorem decodePacket_goes {C : Cipher} {p : Pd} (h : Held1 p) (hn : ¬ Overlong p.scActive (heldFrame p))
    (hr : ∀ ctl, (heldFrame p)[4]? = some ctl → 6 + checkLen ctl ≤ (heldFrame p).length) :
    ∃ q d c, decodePacket C markExit p = .ok (q, d, c) ∧ Goes d c := by
  have hb := h.buf; have hfu := h.full; have hfi := h.fits; have hle := h.least; have hm := h.mark
  have hl : (p.packetBuf.drop (markLen p)).length = 256 - markLen p := by rw [List.length_drop, hb]
  obtain ⟨ctl, hc⟩ := Phy.rd_exists (l := p.packetBuf.drop (markLen p)) (i := 4) (by omega)
  obtain ⟨sb, h5⟩ := Phy.rd_exists (l := p.packetBuf.drop (markLen p)) (i := 5) (by omega)
  obtain ⟨ty, h6⟩ := Phy.rd_exists (l := p.packetBuf.drop (markLen p)) (i := 6) (by omega)
  obtain ⟨d2, h7⟩ := Phy.rd_exists (l := p.packetBuf.drop (markLen p)) (i := 7) (by omega)
  have gc : (heldFrame p)[4]? = some ctl := (h.at (by omega)).trans (rd_some hc)
  have g5 : (heldFrame p)[5]? = some sb := (h.at (by omega)).trans (rd_some h5)
  have hr := hr ctl gc
  rw [h.length] at hr
  unfold decodePacket
  rw [hc]
  dsimp only [bind, Except.bind]
  rw [Phy.hasBit_scb, Phy.hasBit_crc]
  have hcl : (if ctl.getLsbD 2 = true then 2 else 1 : Int) = (checkLen ctl : Int) := by
    unfold checkLen; split <;> rfl
  rw [hcl]
  have hcl2 : checkLen ctl = 1 ∨ checkLen ctl = 2 := by unfold checkLen; split <;> simp
  by_cases hs : ctl.getLsbD 3 = true
  · rw [if_pos hs]
    have n1 : 5 + sb.toNat + 1 + checkLen ctl ≤ p.packetLen - markLen p := by
      rw [← h.length]
      exact Nat.le_of_not_lt fun hx => hn ⟨ctl, sb, gc, hs, g5, .inl hx⟩
    have g6 : (heldFrame p)[6]? = some ty := (h.at (by omega)).trans (rd_some h6)
    unfold decodeScb
    split
    · exact ⟨_, _, _, rfl, .inl rfl⟩
    rw [h6]
    dsimp only [bind, Except.bind]
    split
    · exact ⟨_, _, _, rfl, .inl rfl⟩
    split
    · exact ⟨_, _, _, rfl, .inl rfl⟩
    unfold decodeAllowed
    dsimp only [bind, Except.bind]
    rw [h7]
    dsimp only
    rw [h5]
    dsimp only
    have e1 : (Phy.noteScbkd p ty d2).packetBuf = p.packetBuf ∧ markLen (Phy.noteScbkd p ty d2) = markLen p ∧
        (Phy.noteScbkd p ty d2).scActive = p.scActive := by
      unfold Phy.noteScbkd; split <;> exact ⟨rfl, rfl, rfl⟩
    generalize Phy.noteScbkd p ty d2 = p1 at e1
    obtain ⟨e1, e2, e3⟩ := e1
    split
    · rename_i ha
      have n2 : 5 + sb.toNat + 1 + 4 + checkLen ctl ≤ p.packetLen - markLen p := by
        rw [← h.length]
        exact Nat.le_of_not_lt fun hx => hn ⟨ctl, sb, gc, hs, g5, .inr ⟨ha.1, ⟨ty, g6, ha.2⟩, hx⟩⟩
      unfold decodeSecured
      dsimp only
      rw [if_neg (by omega), e1, e2]
      obtain ⟨s, hsc⟩ := Phy.computeMac_total C p1.isPd p1.sc
        ((p.packetBuf.drop (markLen p)).take ((p.packetBufLen : Int) - markLen p - checkLen ctl - 4).toNat)
        (by intro hx; have := congrArg List.length hx; simp only [List.length_take, List.length_nil] at this; omega)
        (by simp only [List.length_take]; omega)
      rw [hsc]
      dsimp only [bind, Except.bind]
      generalize (if p1.isPd = true then s.cMac else s.rMac) = mm
      split
      · exact ⟨_, _, _, rfl, .inl rfl⟩
      unfold decodeMatched
      split
      · obtain ⟨q, d, c, hd, ho⟩ := decodeCipher_goes (C := C) (p := Phy.setSc p1 s) (sb := sb.toNat)
          (len := (p.packetBufLen : Int) - markLen p - checkLen ctl - 5 - sb.toNat - 4) (by omega)
          (by show (markLen p1 : Int) + _ + _ + _ ≤ (p1.packetBuf.length : Int); rw [e1, e2]; omega)
        exact ⟨q, d, c, hd, ho⟩
      · refine ⟨_, _, _, rfl, .inr ⟨?_, ?_⟩⟩
        · show (0 : Int) < (p.packetBufLen : Int) - markLen p - checkLen ctl - 5 - sb.toNat - 4
          omega
        · show _ ≤ ((p1.packetBuf.drop (markLen p1 + (5 + sb.toNat))).length : Int)
          rw [List.length_drop, e1, e2]; dsimp only; omega
    · refine ⟨_, _, _, rfl, .inr ⟨?_, ?_⟩⟩
      · show (0 : Int) < (p.packetBufLen : Int) - markLen p - checkLen ctl - 5 - sb.toNat
        omega
      · show _ ≤ ((p1.packetBuf.drop (markLen p + (5 + sb.toNat))).length : Int)
        rw [List.length_drop, e1]; dsimp only; omega
  · rw [if_neg hs]
    unfold decodePlain
    rw [h5]
    dsimp only [bind, Except.bind]
    split
    · exact ⟨_, _, _, rfl, .inl rfl⟩
    · refine ⟨_, _, _, rfl, .inr ⟨?_, ?_⟩⟩
      · show (0 : Int) < (p.packetBufLen : Int) - markLen p - checkLen ctl - 5
        omega
      · show _ ≤ ((p.packetBuf.drop (markLen p + 5)).length : Int)
        rw [List.length_drop]; dsimp only; omega


/-- without captured bytes -/
def bare (r : Res (Pd × Decoded)) : Result := r >>= fun x => .ok (x.1, x.2, none)

theorem bare_ok (x : Pd × Decoded) : bare (.ok x) = .ok (x.1, x.2, none) := rfl
theorem bare_error (e : Fault) : bare (.error e) = .error e := rfl

theorem bare_cipher (C : Cipher) (p : Pd) (sb : Nat) (len : Int) :
    decodeCipher C plainExit p sb len = bare (Phy.decodeCipher C p sb len) := by
  unfold decodeCipher Phy.decodeCipher
  dsimp only
  cases Sc.decryptData C p.flags.allowEmpty p.isPd p.sc (p.packetBuf.drop (markLen p + 5 + sb + 1)) (len - 1) with
  | error e => rfl
  | ok r =>
    cases r with
    | none => rfl
    | some plain =>
      show (writeAt _ _ _ >>= _) = bare (writeAt _ _ _ >>= _)
      cases writeAt p.packetBuf (markLen p + 5 + sb + 1) (plain ++ List.replicate ((len - 1).toNat - plain.length) 0#8) with
      | error e => rfl
      | ok b => rfl

theorem bare_secured (C : Cipher) (p : Pd) (ty : Byte) (sb : Nat) (len : Int) :
    decodeSecured C plainExit p ty sb len = bare (Phy.decodeSecured C p ty sb len) := by
  unfold decodeSecured Phy.decodeSecured
  dsimp only
  split
  · rfl
  cases Sc.computeMac C p.isPd p.sc ((p.packetBuf.drop (markLen p)).take (len - 4).toNat) with
  | error e => rfl
  | ok sc =>
    dsimp only [bind, Except.bind]
    show _ = bare (if _ ≠ List.take 4 (if p.isPd = true then sc.cMac else sc.rMac).1 then _ else _)
    split <;> split
    any_goals rfl
    all_goals
      unfold decodeMatched
      split
      · exact bare_cipher C _ sb _
      · show Except.ok _ = Except.ok _
        rw [List.drop_drop]; rfl

theorem bare_scb (C : Cipher) (p : Pd) (len : Int) : decodeScb C plainExit p len = bare (Phy.decodeScb C p len) := by
  unfold decodeScb Phy.decodeScb
  dsimp only
  split
  · rfl
  cases rd (p.packetBuf.drop (markLen p)) 6 with
  | error e => rfl
  | ok ty =>
  dsimp only [bind, Except.bind]
  split
  · rfl
  split
  · rfl
  unfold decodeAllowed
  dsimp only [bind, Except.bind]
  cases rd (p.packetBuf.drop (markLen p)) 7 with
  | error e => rfl
  | ok d2 =>
  dsimp only
  cases rd (p.packetBuf.drop (markLen p)) 5 with
  | error e => rfl
  | ok sb =>
  dsimp only
  have e1 : (Phy.noteScbkd p ty d2).packetBuf = p.packetBuf ∧ markLen (Phy.noteScbkd p ty d2) = markLen p ∧
      (Phy.noteScbkd p ty d2).scActive = p.scActive := by
    unfold Phy.noteScbkd; split <;> exact ⟨rfl, rfl, rfl⟩
  generalize Phy.noteScbkd p ty d2 = p1 at e1
  obtain ⟨e1, e2, e3⟩ := e1
  rw [e3]
  split
  · exact bare_secured C p1 ty _ len
  · show Except.ok _ = Except.ok _
    rw [List.drop_drop, e1]

theorem bare_plain (p : Pd) (len : Int) : decodePlain plainExit p len = bare (Phy.decodePlain p len) := by
  unfold decodePlain Phy.decodePlain
  dsimp only
  cases rd (p.packetBuf.drop (markLen p)) 5 with
  | error e => rfl
  | ok d0 =>
  dsimp only [bind, Except.bind]
  split
  · rfl
  · show Except.ok _ = Except.ok _
    rw [List.drop_drop]

/-- Ending as without data trace, the function is the one of `Model/Phy.lean`. -/
theorem bare_packet (C : Cipher) (p : Pd) : decodePacket C plainExit p = bare (Phy.decodePacket C p) := by
  unfold decodePacket Phy.decodePacket
  cases rd (p.packetBuf.drop (markLen p)) 4 with
  | error e => rfl
  | ok ctl =>
  dsimp only [bind, Except.bind]
  split
  · exact bare_scb C p _
  · exact bare_plain p _

/-- What a decoding function may do with its end: it fails or refuses before, or comes to it. -/
inductive Shape (p : Pd) (f : Exit → Result) : Prop
  | fault (e : Fault) (h : ∀ exit, f exit = .error e)
  | refused (q : Pd) (h : ∀ exit, f exit = .ok (q, ⟨Phy.PKT_NACK, []⟩, none))
  | done (q : Pd) (off : Nat) (len : Int) (h : ∀ exit, f exit = exit q off len) (hm : markLen q = markLen p)
      (hl : q.packetBuf.length = p.packetBuf.length) (ht : q.packetBuf.take (markLen p + 5) = p.packetBuf.take (markLen p + 5))
      (ho : markLen p + 5 ≤ off)

theorem Shape.change {p p' : Pd} {f : Exit → Result} (h : Shape p' f) (hb : p'.packetBuf = p.packetBuf) (hm : markLen p' = markLen p) :
    Shape p f := by
  cases h with
  | fault e h => exact .fault e h
  | refused q h => exact .refused q h
  | done q off len h h1 h2 h3 h4 =>
    rw [hb] at h2 h3; rw [hm] at h1 h3 h4
    exact .done q off len h h1 h2 h3 h4

theorem shape_cipher (C : Cipher) (p : Pd) (sb : Nat) (len : Int) : Shape p (fun exit => decodeCipher C exit p sb len) := by
  unfold decodeCipher
  dsimp only
  cases Sc.decryptData C p.flags.allowEmpty p.isPd p.sc (p.packetBuf.drop (markLen p + 5 + sb + 1)) (len - 1) with
  | error e => exact .fault e fun _ => rfl
  | ok r =>
    cases r with
    | none => exact .refused _ fun _ => rfl
    | some plain =>
      show Shape p (fun exit => (writeAt _ _ _ >>= _))
      cases hw : writeAt p.packetBuf (markLen p + 5 + sb + 1) (plain ++ List.replicate ((len - 1).toNat - plain.length) 0#8) with
      | error e => exact .fault e fun _ => rfl
      | ok b =>
        refine .done _ _ _ (fun _ => rfl) rfl (Phy.writeAt_length hw) ?_ (by omega)
        unfold writeAt at hw
        split at hw
        · cases hw
          show List.take _ _ = _
          rw [List.append_assoc, List.take_append_of_le_length (by rw [List.length_take]; omega), List.take_take, Nat.min_eq_left (by omega)]
        · cases hw

theorem shape_matched (C : Cipher) (p : Pd) (ty : Byte) (sb : Nat) (len : Int) : Shape p (fun exit => decodeMatched C exit p ty sb len) := by
  unfold decodeMatched
  split
  · exact shape_cipher C p sb _
  · exact .done _ _ _ (fun _ => rfl) rfl rfl rfl (by omega)

theorem shape_secured (C : Cipher) (p : Pd) (ty : Byte) (sb : Nat) (len : Int) : Shape p (fun exit => decodeSecured C exit p ty sb len) := by
  unfold decodeSecured
  dsimp only
  split
  · exact .fault _ fun _ => rfl
  cases Sc.computeMac C p.isPd p.sc ((p.packetBuf.drop (markLen p)).take (len - 4).toNat) with
  | error e => exact .fault e fun _ => rfl
  | ok sc =>
    dsimp only [bind, Except.bind]
    split <;> split
    any_goals exact .refused _ fun _ => rfl
    all_goals exact (shape_matched C (Phy.setSc p sc) ty sb len).change rfl rfl

theorem shape_allowed (C : Cipher) (p : Pd) (ty : Byte) (len : Int) : Shape p (fun exit => decodeAllowed C exit p ty len) := by
  unfold decodeAllowed
  dsimp only [bind, Except.bind]
  cases rd (p.packetBuf.drop (markLen p)) 7 with
  | error e => exact .fault e fun _ => rfl
  | ok d2 =>
  dsimp only
  cases rd (p.packetBuf.drop (markLen p)) 5 with
  | error e => exact .fault e fun _ => rfl
  | ok sb =>
  dsimp only
  have e1 : (Phy.noteScbkd p ty d2).packetBuf = p.packetBuf ∧ markLen (Phy.noteScbkd p ty d2) = markLen p := by
    unfold Phy.noteScbkd; split <;> exact ⟨rfl, rfl⟩
  generalize Phy.noteScbkd p ty d2 = p1 at e1
  obtain ⟨e1, e2⟩ := e1
  split
  · exact (shape_secured C p1 ty _ len).change e1 e2
  · exact .done _ _ _ (fun _ => rfl) e2 (by rw [e1]) (by rw [e1]) (by omega)

theorem shape_packet (C : Cipher) (p : Pd) : Shape p (fun exit => decodePacket C exit p) := by
  unfold decodePacket
  cases rd (p.packetBuf.drop (markLen p)) 4 with
  | error e => exact .fault e fun _ => rfl
  | ok ctl =>
  dsimp only [bind, Except.bind]
  split
  · unfold decodeScb
    dsimp only [bind, Except.bind]
    split
    · exact .refused _ fun _ => rfl
    cases rd (p.packetBuf.drop (markLen p)) 6 with
    | error e => exact .fault e fun _ => rfl
    | ok ty =>
    dsimp only
    split
    · exact .refused _ fun _ => rfl
    split
    · exact .refused _ fun _ => rfl
    · exact shape_allowed C p ty _
  · unfold decodePlain
    dsimp only [bind, Except.bind]
    cases rd (p.packetBuf.drop (markLen p)) 5 with
    | error e => exact .fault e fun _ => rfl
    | ok d0 =>
    dsimp only
    split
    · exact .refused _ fun _ => rfl
    · exact .done _ _ _ (fun _ => rfl) rfl rfl rfl (by omega)

end Osdp.Trace
