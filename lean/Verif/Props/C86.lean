import Verif.Lemmas.PhyMem
import Verif.Lemmas.SendFault
import Verif.Props.C64
import Verif.Props.C84

/-!
# C86: a packet is finished in its buffer

`Model/PhyMem.lean` follows `osdp_phy_packet_init` and `osdp_phy_packet_finalize` store by store, on the 256-byte packet
buffer, with the functions of C84 and the AES of C83.
-/

namespace Osdp.PhyMem
open Osdp.AesMem
open Osdp.Aes (aes)
open Osdp.Phy (Tx header hasBit SOM MARK CTL_CRC CTL_SCB pktOf Secured)
open Osdp.Spec
open Spec.Wire (Packet)

/-- the packet `k` before it is finished: no check value, anything in the length field -/
def unfinished (k : Packet) (lo hi : Byte) : List Byte :=
  (if k.mark then [0xFF#8] else []) ++ [0x53#8, k.addr, lo, hi, k.ctl] ++ k.scb ++ k.data

/-- the packet has a security block exactly if its control byte says so, and the block begins with its length -/
def Formed (k : Packet) : Prop :=
  (k.scb = [] ∧ k.ctl.getLsbD 3 = false) ∨
    (k.ctl.getLsbD 3 = true ∧ ∃ sb ty x, k.scb = sb :: ty :: x ∧ sb.toNat = k.scb.length)

/-- the MAC of its last packet an end keeps, afterwards -/
def kept (p : Pd) (d : Done) : List Byte := d.mac.getD (if p.isCp then p.sc.cMac else p.sc.rMac).1

/-- the header of `k` as the model keeps it -/
def txOf (k : Packet) : Tx := ⟨k.mark, false, k.addr, k.ctl, k.scb⟩

theorem well_of {k : Packet} (h : Formed k) : Well (txOf k) := by
  unfold Well
  rw [Phy.scbBit]
  exact h

theorem unfinished_eq (k : Packet) (lo hi : Byte) : unfinished k lo hi = markOf (txOf k) ++ raw (txOf k) lo hi k.data := by
  unfold unfinished markOf raw txOf
  simp

theorem unfinished_length (k : Packet) (lo hi : Byte) :
    (unfinished k lo hi).length = (if k.mark then 1 else 0) + 5 + k.scb.length + k.data.length := by
  unfold unfinished
  cases k.mark <;> simp <;> omega

/-- **C86 (in the clear).** Outside a session, the packet with its length and check value replaces the unfinished one in the
buffer and its length is returned, if it is not longer than allowed; otherwise the result is negative.  The rest of the buffer
and the MAC kept stay. -/
theorem C86_plain (stack : Ctx) (hs : stack.roundKey.length = 176) (p : Pd) (hact : p.scActive = false) (k : Packet) (hk : Formed k)
    (hne : k.data ≠ []) (lo hi : Byte) (post : List Byte) (hbuf : (unfinished k lo hi ++ post).length = 256) (maxLen : Nat)
    (hm : maxLen ≤ 256) (hml : (unfinished k lo hi).length ≤ maxLen) :
    ∃ d, finalize stack p.isCp false k.mark p.sc (unfinished k lo hi ++ post) (unfinished k lo hi).length maxLen = .ok d ∧
      d.buf.drop maxLen = (unfinished k lo hi ++ post).drop maxLen ∧ kept p d = (if p.isCp then p.sc.cMac else p.sc.rMac).1 ∧
      if k.bytes.length ≤ maxLen then d.len = some k.bytes.length ∧ d.buf = k.bytes ++ (unfinished k lo hi ++ post).drop k.bytes.length
      else d.len = none := by
  have hsec : (txOf k).secured p = false := by
    unfold Tx.secured
    cases (txOf k).scbType <;> simp [hact]
  have hfin := finalize_agrees stack hs p (txOf k) (well_of hk) rfl lo hi k.data post hne maxLen maxLen hm (Nat.le_refl _)
    (by rw [← unfinished_eq]; exact hml) (fun h => by rw [hsec] at h; cases h)
    (by rw [← List.append_assoc, ← unfinished_eq]; exact hbuf)
  rw [← List.append_assoc, ← unfinished_eq, hact] at hfin
  have hlen := unfinished_length k lo hi
  have hbl := Phy.bytes_length k
  have hkl : k.len = 5 + k.scb.length + k.data.length + 2 := rfl
  have hdl := List.length_pos_iff.mpr hne
  have hf : Phy.finalize aes p (txOf k) k.data maxLen = .ok (p, if k.bytes.length ≤ maxLen then some k.bytes else none) := by
    unfold Phy.finalize
    dsimp only
    rw [if_neg (show ¬ (txOf k).misaligned = true from Bool.false_ne_true),
      if_neg (show ¬ (if (txOf k).mark = true then 1 else 0) + 5 + (txOf k).scb.length + k.data.length ≤ 5 by omega), hsec]
    rw [if_neg Bool.false_ne_true, Phy.header_core]
    unfold Phy.wrap
    rw [Phy.core_length, ← List.append_assoc, Phy.pktOf_bytes]
    show Except.ok (p, if 5 + k.scb.length + k.data.length + 2 > maxLen - (if k.mark = true then 1 else 0) then none else some k.bytes) = _
    by_cases c : k.bytes.length ≤ maxLen
    · rw [if_pos c, if_neg (by omega)]
    · rw [if_neg c, if_pos (by omega)]
  rw [hf] at hfin
  cases hr : finalize stack p.isCp false k.mark p.sc (unfinished k lo hi ++ post) (unfinished k lo hi).length maxLen with
  | error e =>
    rw [show (txOf k).mark = k.mark from rfl, hr] at hfin
    exact hfin.elim
  | ok d =>
    rw [show (txOf k).mark = k.mark from rfl, hr] at hfin
    obtain ⟨-, h2, h3, h4⟩ := hfin
    refine ⟨d, rfl, h2, h3, ?_⟩
    by_cases c : k.bytes.length ≤ maxLen
    · rw [if_pos c] at h4 ⊢
      obtain ⟨core, he, h5, h6⟩ := h4
      rw [List.nil_append] at he
      rw [he]
      exact ⟨h5, h6⟩
    · rw [if_neg c] at h4 ⊢
      exact h4

/-- length of the finished packet of a session with `n` bytes of data -/
def sealedLen (mark : Bool) (n : Nat) : Nat := (if mark then 1 else 0) + 8 + (if n = 0 then 0 else (n / 16 + 1) * 16) + 6

/-- the packet of a session before it is finished -/
abbrev openPkt (mark : Bool) (a ctl bare full id : Byte) (data : List Byte) : Packet :=
  ⟨mark, a, ctl, [2#8, if data = [] then bare else full], id :: data⟩

theorem sealed_facts (p : Pd) (hact : p.scActive = true) (mark : Bool) (a lo hi ctl id : Byte)
    (hctl : ctl.getLsbD 3 = true ∧ ctl.getLsbD 2 = true) (bare full : Byte) (hty : (bare, full) = (0x15#8, 0x17#8) ∨ (bare, full) = (0x16#8, 0x18#8))
    (data : List Byte) (k : Packet) (hkk : k = openPkt mark a ctl bare full id data) :
    Formed k ∧ (unfinished k lo hi).length = (if mark then 1 else 0) + 8 + data.length ∧ Secured p (txOf k) ∧
      (txOf k).encrypted = decide (data ≠ []) ∧
      (pktOf (txOf k) (Phy.securedData aes p (txOf k) (id :: data))).bytes.length = sealedLen mark data.length := by
  subst hkk
  have h15 : 0x15#8 ≤ (if data = [] then bare else full) ∧ (txOf (openPkt mark a ctl bare full id data)).encrypted = decide (data ≠ []) := by
    unfold Tx.encrypted Tx.scbType
    rcases hty with h | h <;> cases h <;> by_cases hd : data = [] <;> simp [txOf, hd]
  have hsec : Secured p (txOf (openPkt mark a ctl bare full id data)) := by
    refine ⟨hact, ?_, _, rfl, h15.1⟩
    rw [Phy.scbBit]; exact hctl.1
  refine ⟨.inr ⟨hctl.1, _, _, [], rfl, rfl⟩, ?_, hsec, h15.2, ?_⟩
  · rw [unfinished_length]; simp; omega
  · have hz : data.length = 0 ↔ data = [] := List.length_eq_zero_iff
    rw [Phy.bytes_length]
    show (if mark = true then 1 else 0) + (5 + 2 + (Phy.securedData aes p _ (id :: data)).length + 2) = _
    rw [Phy.securedData_length aes p _ (id :: data) (by simp), h15.2]
    unfold sealedLen
    by_cases hd : data = []
    · simp [hd]
    · have hpad : Sc.aesPadLen (data.length + 1) = (data.length / 16 + 1) * 16 := by unfold Sc.aesPadLen; omega
      rw [decide_eq_true hd, if_pos rfl, if_neg (fun h => hd (hz.mp h)), List.length_cons, hpad]
      omega

/-- **C86 (in a session).** If the sealed packet is not longer than allowed, it replaces the unfinished one in the buffer, its
length is returned and its MAC stored; the rest of the buffer stays.  `bare` and `full` are the types of the security
block of packets without and with data. -/
theorem C86_sealed (stack : Ctx) (hs : stack.roundKey.length = 176) (p : Pd) (hact : p.scActive = true) (mark : Bool) (a lo hi ctl id : Byte)
    (hctl : ctl.getLsbD 3 = true ∧ ctl.getLsbD 2 = true) (bare full : Byte) (hty : (bare, full) = (0x15#8, 0x17#8) ∨ (bare, full) = (0x16#8, 0x18#8))
    (data post : List Byte) (buf : List Byte)
    (hb : buf = unfinished (openPkt mark a ctl bare full id data) lo hi ++ post) (hbuf : buf.length = 256)
    (maxLen : Nat) (hm : maxLen ≤ 256) (hfit : sealedLen mark data.length ≤ maxLen) :
    ∃ d f msg, finalize stack p.isCp true mark p.sc buf ((if mark then 1 else 0) + 8 + data.length) maxLen = .ok d ∧
      d.len = some (sealedLen mark data.length) ∧
      d.buf = (if mark then [0xFF#8] else []) ++ f ++ buf.drop (sealedLen mark data.length) ∧
      Sealed.Sealed aes p.sc.sEnc p.sc.sMac1 p.sc.sMac2 (ScMem.before p.isCp p.sc) bare full f msg id data ∧
      Crc.ValidFrame f ∧ f.length = sealedLen mark data.length - (if mark then 1 else 0) ∧
      kept p d = (Session.mac aes p.sc.sMac1 p.sc.sMac2 (ScMem.before p.isCp p.sc) msg).1 := by
  have hz : data.length = 0 ↔ data = [] := List.length_eq_zero_iff
  obtain ⟨hk, hlen, hsec, henc, htot⟩ := sealed_facts p hact mark a lo hi ctl id hctl bare full hty data _ rfl
  generalize hkk : openPkt mark a ctl bare full id data = k at *
  have hkm : k.mark = mark := by rw [← hkk]
  have hkd : k.data = id :: data := by rw [← hkk]
  have hks : k.scb = [2#8, if data = [] then bare else full] := by rw [← hkk]
  have hpad : data ≠ [] → Sc.aesPadLen (data.length + 1) = (data.length / 16 + 1) * 16 := fun _ => by unfold Sc.aesPadLen; omega
  have hf := Phy.finalize_secured aes p (txOf k) (id :: data) maxLen hsec rfl (by simp) hm (by rw [htot]; exact hfit)
  have hle := Sc.le_aesPadLen (data.length + 1)
  have hfin := finalize_agrees stack hs p (txOf k) (well_of hk) rfl lo hi (id :: data) post (by simp) maxLen 256 hm hm
    (by rw [← hkd, ← unfinished_eq]; rw [hb, List.length_append] at hbuf; omega)
    (fun _ he => by
      rw [henc] at he
      have hd : data ≠ [] := of_decide_eq_true he
      rw [List.length_cons, hpad hd, show (txOf k).scb = k.scb from rfl, hks]
      have : (markOf (txOf k)).length = if mark then 1 else 0 := by
        unfold markOf; rw [show (txOf k).mark = mark from hkm]; cases mark <;> rfl
      rw [this]
      unfold sealedLen at hfit
      rw [if_neg (fun h => hd (hz.mp h))] at hfit
      simp only [List.length_cons, List.length_nil]
      omega)
    (by rw [← hkd, ← List.append_assoc, ← unfinished_eq, ← hb]; exact hbuf)
  rw [← hkd, ← List.append_assoc, ← unfinished_eq, hact, hlen, ← hb, show (txOf k).mark = mark from hkm] at hfin
  rw [hkd, hf] at hfin
  cases hr : finalize stack p.isCp true mark p.sc buf ((if mark then 1 else 0) + 8 + data.length) maxLen with
  | error e =>
    rw [hr] at hfin
    exact hfin.elim
  | ok d =>
    rw [hr] at hfin
    obtain ⟨-, -, h3, core, he, h5, h6⟩ := hfin
    rw [List.nil_append] at he
    rw [← he, htot] at h5 h6
    have hbytes : (pktOf (txOf k) (Phy.securedData aes p (txOf k) (id :: data))).bytes =
        (if mark then [0xFF#8] else []) ++ (pktOf (txOf k) (Phy.securedData aes p (txOf k) (id :: data))).frame := by
      unfold Packet.bytes
      rw [show (pktOf (txOf k) (Phy.securedData aes p (txOf k) (id :: data))).mark = mark from hkm]
    obtain ⟨pl, hci, hF, hop⟩ := Phy.sealed_pkt aes p (t := txOf k) (id := id) data hks
      (by rw [Phy.scbBit, ← hkk]; exact hctl.1) (by rw [Phy.crcBit, ← hkk]; exact hctl.2)
      (Nat.le_trans (Phy.frame_le _) (by rw [htot]; omega))
    refine ⟨d, (pktOf (txOf k) (Phy.securedData aes p (txOf k) (id :: data))).frame, Phy.macMsg (txOf k) (id :: pl), rfl, h5, ?_,
      ⟨_, (txOf k).ctl, pl, ?_, rfl, ?_⟩, ⟨_, rfl⟩, ?_, ?_⟩
    · rw [h6, hbytes]
    · exact hF
    · rw [henc] at hop
      by_cases hd : data = []
      · rw [if_pos hd]
        simpa [hd] using hop
      · rw [if_neg hd]
        rw [decide_eq_true hd, if_pos rfl] at hop
        exact hop
    · rw [← htot, hbytes, List.length_append]
      cases mark <;> simp
    · show d.mac.getD (own p).1 = _
      rw [h3, ← hci]
      unfold own Phy.setSc Phy.chainSc
      show (if p.isCp = true then _ else _ : Block).1 = _
      cases hcp : p.isCp <;> simp [Phy.tagOf, hcp, ScMem.before]

/-- **C86 (refused in a session).** If the sealed packet is longer than allowed, the result is negative.  Full statement: nothing
at or behind index `maxLen` is changed.  Missing: the data is encrypted before the length is known, so this holds only from the
end of the padded data on, which moreover must lie in the buffer (`C86_beyond`, `C86_overflow`). -/
theorem C86_refused_partial (stack : Ctx) (hs : stack.roundKey.length = 176) (p : Pd) (hact : p.scActive = true) (mark : Bool) (a lo hi ctl id : Byte)
    (hctl : ctl.getLsbD 3 = true ∧ ctl.getLsbD 2 = true) (bare full : Byte) (hty : (bare, full) = (0x15#8, 0x17#8) ∨ (bare, full) = (0x16#8, 0x18#8))
    (data post : List Byte) (buf : List Byte)
    (hb : buf = unfinished (openPkt mark a ctl bare full id data) lo hi ++ post) (hbuf : buf.length = 256)
    (maxLen : Nat) (hm : maxLen ≤ 256) (hfit : maxLen < sealedLen mark data.length) (hpad : sealedLen mark data.length ≤ 256 + 6)
    (K : Nat) (hK : maxLen ≤ K) (hK1 : (unfinished (openPkt mark a ctl bare full id data) lo hi).length ≤ K) (hK2 : sealedLen mark data.length - 6 ≤ K) :
    ∃ d, finalize stack p.isCp true mark p.sc buf ((if mark then 1 else 0) + 8 + data.length) maxLen = .ok d ∧ d.len = none ∧
      d.buf.length = 256 ∧ d.buf.drop K = buf.drop K := by
  have hz : data.length = 0 ↔ data = [] := List.length_eq_zero_iff
  obtain ⟨hk, hlen, hsec, henc, htot⟩ := sealed_facts p hact mark a lo hi ctl id hctl bare full hty data _ rfl
  generalize hkk : openPkt mark a ctl bare full id data = k at *
  have hkm : k.mark = mark := by rw [← hkk]
  have hkd : k.data = id :: data := by rw [← hkk]
  have hks : k.scb = [2#8, if data = [] then bare else full] := by rw [← hkk]
  have hmk : (markOf (txOf k)).length = if mark then 1 else 0 := by
    unfold markOf; rw [show (txOf k).mark = mark from hkm]; cases mark <;> rfl
  have hpl : data ≠ [] → Sc.aesPadLen (data.length + 1) = (data.length / 16 + 1) * 16 ∧
      sealedLen mark data.length = (if mark then 1 else 0) + 8 + (data.length / 16 + 1) * 16 + 6 := fun hd => by
    refine ⟨by unfold Sc.aesPadLen; omega, ?_⟩
    unfold sealedLen
    rw [if_neg (fun h => hd (hz.mp h))]
  have hfin := finalize_agrees stack hs p (txOf k) (well_of hk) rfl lo hi (id :: data) post (by simp) maxLen K hm hK
    (by rw [← hkd, ← unfinished_eq]; exact hK1)
    (fun _ he => by
      rw [henc] at he
      obtain ⟨e1, e2⟩ := hpl (of_decide_eq_true he)
      rw [List.length_cons, e1, show (txOf k).scb = k.scb from rfl, hks, hmk]
      simp only [List.length_cons, List.length_nil]
      omega)
    (by rw [← hkd, ← List.append_assoc, ← unfinished_eq, ← hb]; exact hbuf)
  rw [← hkd, ← List.append_assoc, ← unfinished_eq, hact, hlen, ← hb, show (txOf k).mark = mark from hkm, hkd] at hfin
  have hok : ∃ q r, Phy.finalize aes p (txOf k) (id :: data) maxLen = .ok (q, r) := by
    have htotal := fun b m (h : m ≤ 256) => Phy.finalizeMac_total aes p (txOf k) b (m := m) h
    unfold Phy.finalize Phy.finalizeSecured
    dsimp only
    rw [show (txOf k).mark = mark from hkm]
    generalize hmkk : (if mark = true then 1 else 0) = mk at *
    have c2 : ¬ mk + 5 + (txOf k).scb.length + (id :: data).length ≤ 5 := by rw [List.length_cons]; omega
    rw [if_neg (show ¬ (txOf k).misaligned = true from Bool.false_ne_true), if_neg c2, if_pos ((Phy.secured_iff p _).mpr hsec)]
    by_cases hd : data = []
    · rw [henc, if_neg (show ¬ decide (data ≠ []) = true by simp [hd])]
      obtain ⟨q, r, h, -⟩ := htotal (id :: data) (maxLen - mk) (by omega)
      exact ⟨q, r, h⟩
    · obtain ⟨e1, e2⟩ := hpl hd
      rw [henc, if_pos (show decide (data ≠ []) = true by simp [hd])]
      by_cases c3 : Sc.aesPadLen ((List.drop 1 (id :: data)).length + 1) > maxLen - mk
      · rw [if_pos c3]; exact ⟨_, _, rfl⟩
      · rw [if_neg c3, if_neg ?_]
        · obtain ⟨q, r, h, -⟩ := htotal (List.take 1 (id :: data) ++ Sc.encryptData aes p.isCp p.sc (List.drop 1 (id :: data))) (maxLen - mk) (by omega)
          exact ⟨q, r, h⟩
        · rw [show (List.drop 1 (id :: data)).length = data.length from rfl, e1, show (txOf k).scb = k.scb from rfl, hks]
          show ¬ _ > 256
          simp only [List.length_cons, List.length_nil]
          omega
  obtain ⟨q, r, hf⟩ := hok
  have hnone : r = none := by
    cases r with
    | none => rfl
    | some bs =>
      obtain ⟨-, h2⟩ := Phy.finalize_inv (by simp) hf
      obtain ⟨-, wire, hd, he, hl⟩ := h2 bs rfl
      obtain ⟨w1, -⟩ := Phy.dataOf_any hd (fun _ => hsec) (by rw [← he]; omega)
      have : wire = Phy.securedData aes p (txOf k) (id :: data) := by rw [w1]; unfold Phy.anyData; rw [if_pos hact]
      rw [he, this, htot] at hl
      omega
  subst hnone
  rw [hf] at hfin
  cases hr : finalize stack p.isCp true mark p.sc buf ((if mark then 1 else 0) + 8 + data.length) maxLen with
  | error e =>
    rw [hr] at hfin
    exact hfin.elim
  | ok d =>
    rw [hr] at hfin
    obtain ⟨h1, h2, -, h4⟩ := hfin
    exact ⟨d, rfl, h4, h1.trans hbuf, h2⟩

theorem initAddr_run (isPd bc : Bool) (ad : Int) (a0 a1 : Byte) (post : List Byte) :
    run (initAddr isPd bc ad) (a0 :: a1 :: post) = .ok ((), SOM ::
      (if isPd then (if bc then 0x7F#8 else i8 ad &&& 0x7F#8) ||| 0x80#8 else i8 ad &&& 0x7F#8) :: post) := by
  cases isPd <;> cases bc <;> rfl

theorem initCtl_run (seq : Int) (act hand : Bool) (a0 a1 a2 a3 a4 a5 a6 : Byte) (post : List Byte) :
    run (initCtl seq act hand) (a0 :: a1 :: a2 :: a3 :: a4 :: a5 :: a6 :: post) =
      .ok (if act then (2, a0 :: a1 :: a2 :: a3 :: (b8 (Phy.seqBits seq) ||| CTL_CRC ||| CTL_SCB) :: 2#8 :: 0x15#8 :: post)
        else if hand then (3, a0 :: a1 :: a2 :: a3 :: (b8 (Phy.seqBits seq) ||| CTL_CRC ||| CTL_SCB) :: 3#8 :: 0x11#8 :: post)
        else (0, a0 :: a1 :: a2 :: a3 :: (b8 (Phy.seqBits seq) ||| CTL_CRC) :: a5 :: a6 :: post)) := by
  cases act <;> cases hand <;> rfl

theorem initHeader_run (p : Pd) (a0 a1 a2 a3 a4 a5 a6 : Byte) (post : List Byte) :
    run (initHeader p) (a0 :: a1 :: a2 :: a3 :: a4 :: a5 :: a6 :: post) = .ok (
      let ad := if p.isPd then (if p.flags.broadcast then 0x7F#8 else i8 p.address &&& 0x7F#8) ||| 0x80#8 else i8 p.address &&& 0x7F#8
      let c := b8 (Phy.seqBits (Phy.nextSeq p.seq p.isCp)) ||| CTL_CRC
      if p.scActive then (2, SOM :: ad :: a2 :: a3 :: (c ||| CTL_SCB) :: 2#8 :: 0x15#8 :: post)
      else if Phy.inHandshake p.isPd (if p.isPd then p.replyId else p.cmdId) then
        (3, SOM :: ad :: a2 :: a3 :: (c ||| CTL_SCB) :: 3#8 :: 0x11#8 :: post)
      else (0, SOM :: ad :: a2 :: a3 :: c :: a5 :: a6 :: post)) := by
  unfold initHeader
  rw [run_seq (initAddr_run ..), initCtl_run]

/-- **C86 (beginning).** `osdp_phy_packet_init` on a buffer of at least 8 bytes, when it does not refuse: a mark byte if one is
due, start byte, address, control byte and the first two bytes of the security block, if there is one, are
written; all else stays.  `t` is what the model takes to be in the buffer from then on. -/
theorem C86_init (p q : Pd) (t : Tx) (maxLen : Nat) (h : Phy.packetInit p maxLen = some (q, t)) (b0 b1 b2 b3 b4 b5 b6 b7 : Byte) (post : List Byte) :
    init p (b0 :: b1 :: b2 :: b3 :: b4 :: b5 :: b6 :: b7 :: post) maxLen =
      .ok (some ((if q.flags.hasMark then 1 else 0) + 5 + t.scb.length),
        if t.mark then 0xFF#8 :: 0x53#8 :: t.addr :: b3 :: b4 :: t.ctl :: (if t.scb = [] then b6 :: b7 :: post else t.scb.take 2 ++ post)
        else 0x53#8 :: t.addr :: b2 :: b3 :: t.ctl :: (if t.scb = [] then b5 :: b6 :: b7 :: post else t.scb.take 2 ++ b7 :: post)) := by
  unfold Phy.packetInit at h
  unfold init
  by_cases hm : maxLen < 5 + 64
  · rw [if_pos hm] at h; cases h
  rw [if_neg hm] at h ⊢
  dsimp only at h
  injection h with h
  injection h with h1 h2
  subst h1 h2
  have hrun := fun a0 a1 a2 a3 a4 a5 a6 post => initHeader_run p a0 a1 a2 a3 a4 a5 a6 post
  have hmk : run (st 0 MARK) (b0 :: b1 :: b2 :: b3 :: b4 :: b5 :: b6 :: b7 :: post) =
    .ok ((), MARK :: b1 :: b2 :: b3 :: b4 :: b5 :: b6 :: b7 :: post) := rfl
  unfold writesMark
  by_cases hw : (p.isPd && p.flags.hasMark || p.isCp && !p.flags.skipMark) = true
  · simp only [hw, if_true, hmk, Res.ok_bind, List.drop_succ_cons, List.drop_zero, hrun]
    by_cases ha : p.scActive = true
    · cases hp : p.isPd <;> cases hb : p.flags.broadcast <;> simp [ha]
    · by_cases hh : Phy.inHandshake p.isPd (if p.isPd = true then p.replyId else p.cmdId) = true
      · cases hp : p.isPd <;> cases hb : p.flags.broadcast <;> simp_all
      · cases hp : p.isPd <;> cases hb : p.flags.broadcast <;> simp_all
  · simp only [hw, Res.ok_bind, hrun]
    by_cases ha : p.scActive = true
    · cases hp : p.isPd <;> cases hb : p.flags.broadcast <;> simp [ha, hb]
    · by_cases hh : Phy.inHandshake p.isPd (if p.isPd = true then p.replyId else p.cmdId) = true
      · cases hp : p.isPd <;> cases hb : p.flags.broadcast <;> simp_all
      · cases hp : p.isPd <;> cases hb : p.flags.broadcast <;> simp_all

/-! ### samples -/

/-- a CP in a session -/
def cp86 : Pd := { Sample.cp with flags := { Sample.cp.flags with scActive := true, pdMode := false }, sc := ScMem.sc84 }

/-- a POLL in the clear -/
def poll86 : Packet := ⟨true, 101#8, 0x05#8, [], [0x60#8]⟩

/-- the rest of a packet buffer in which `n` bytes are taken -/
def room (n : Nat) : List Byte := List.replicate (256 - n) 0xEE#8

example : Formed poll86 ∧ (unfinished poll86 0#8 0#8 ++ room 7).length = 256 ∧ (unfinished poll86 0#8 0#8).length ≤ 69 ∧
    ((finalize dirty true false true ScMem.sc84 (unfinished poll86 0#8 0#8 ++ room 7) 7 69).toOption.map fun d => (d.len, d.buf.take 10)) =
      some (some 9, poll86.bytes ++ [0xEE#8]) := by
  refine ⟨.inl ⟨rfl, rfl⟩, ?_, ?_, ?_⟩ <;> decide +kernel

/-- no room for the check value -/
example : ((finalize dirty true false true ScMem.sc84 (unfinished poll86 0#8 0#8 ++ room 7) 7 8).toOption.map (·.len)) = some none := by
  decide +kernel

/-- an output command with three bytes of data, in a session -/
def out86 : List Byte := unfinished (openPkt false 101#8 0x0D#8 0x15#8 0x17#8 0x68#8 [1, 2, 3]) 0#8 0#8 ++ room 11

example : out86.length = 256 ∧ sealedLen false 3 = 30 ∧
    ((finalize dirty true true false ScMem.sc84 out86 11 69).toOption.map fun d =>
      (d.len, d.buf.take 8, d.buf.drop 30 == out86.drop 30, d.mac.map List.length)) =
      some (some 30, [0x53, 0x65, 30, 0, 0x0D, 2, 0x17, 0x68], true, some 16) := by
  refine ⟨?_, ?_, ?_⟩ <;> decide +kernel

/-- the same, refused for want of one byte: from index 29 on nothing is changed -/
example : sealedLen false 3 - 6 ≤ 29 ∧ ((finalize dirty true true false ScMem.sc84 out86 11 29).toOption.map fun d =>
    (d.len, d.buf.drop 29 == out86.drop 29)) = some (none, true) := by
  refine ⟨?_, ?_⟩ <;> decide +kernel

example : (Phy.packetInit cp86 256).map (fun r => (r.2.mark, r.2.scb)) = some (true, [2, 0x15]) ∧
    ((init cp86 (room 0) 256).toOption.map fun r => (r.1, r.2.take 9)) =
      some (some 8, [0xFF, 0x53, 0x65, 0xEE, 0xEE, 0x0C, 0x02, 0x15, 0xEE]) := by
  refine ⟨?_, ?_⟩ <;> decide +kernel

/-- 60 bytes of data where 69 bytes may be used -/
def text86 : List Byte := unfinished (openPkt false 101#8 0x0D#8 0x15#8 0x17#8 0x6B#8 (List.replicate 60 0x41#8)) 0#8 0#8 ++ room 68

/-- **C86, refuted for packets that are refused.** 69 bytes of the buffer may be used; the packet is refused, but the
padded data has been written up to index 72. -/
theorem C86_beyond : text86.length = 256 ∧ ((finalize dirty true true false ScMem.sc84 text86 68 69).toOption.map fun d =>
    (d.len, d.buf.drop 69 == text86.drop 69, d.buf.drop 72 == text86.drop 72)) = some (none, false, true) := by
  refine ⟨?_, ?_⟩ <;> decide +kernel

/-- 240 bytes of data in the whole packet buffer -/
def huge86 : List Byte := unfinished (openPkt false 101#8 0x0D#8 0x15#8 0x17#8 0x80#8 (List.replicate 240 0x41#8)) 0#8 0#8 ++ room 248

/-- **C86, refuted for large packets.** The padded data (256 bytes) is compared with the whole of the buffer, although it begins
eight bytes into it: it is written past the end. -/
theorem C86_overflow : huge86.length = 256 ∧
    (finalize dirty true true false ScMem.sc84 huge86 248 256 matches .error .oobWrite) = true := by
  refine ⟨?_, ?_⟩ <;> decide +kernel

end Osdp.PhyMem
