import Verif.Lemmas.OpenMem
import Verif.Props.C36Sc
import Verif.Props.C86

/-!
# C92: a received packet is opened inside its buffer

`Model/OpenMem.lean` follows `osdp_phy_decode_packet` on the 256-byte packet buffer with the functions of C84 and the AES of
C83: the MAC is computed in a local copy, the data is deciphered where it lies.

* `C92_within_partial`: whatever packet is held, opening it touches nothing outside the buffer, changes nothing before its control
  byte nor from the end of the packet on, depends on nothing left on the stack, and what is handed on lies in the buffer.  Missing:
  security blocks that claim more bytes than the packet has (`C92_overlong`).
* `C92_opens`: a packet sealed under the keys of the session is opened: command or reply id and data are handed on and its MAC is
  kept.
* `C92_refuses`: any other packet that claims to belong to the session is refused and ends it.
* `C92_roundtrip`: what one end seals in its buffer, the other end opens in its own.
* `C92_agrees`: the outcome is that of `Phy.decodePacket`, which the other properties are about.
-/

namespace Osdp.OpenMem
open Osdp.AesMem
open Osdp.Aes (aes)
open Osdp.Phy (Decoded markLen heldFrame Held1)
open Osdp.Spec
open Spec.Block (Overlong)
open Spec.Wire (SecuredFrame)
open Spec.Session (mac Opens)

/-- `b` is `a` but for places from `lo` up to `hi`. -/
def OnlyWithin (lo hi : Nat) (a b : List Byte) : Prop := b.length = a.length ∧ ∀ i, i < lo ∨ hi ≤ i → b[i]? = a[i]?

theorem within_of {a b : List Byte} {lo hi : Nat} (h0 : b.length = a.length) (h1 : b.take lo = a.take lo) (h2 : b.drop hi = a.drop hi) :
    OnlyWithin lo hi a b := by
  refine ⟨h0, fun i hi' => ?_⟩
  rcases hi' with hi' | hi'
  · have := congrArg (fun l : List Byte => l[i]?) h1
    simpa [List.getElem?_take, hi'] using this
  · have := congrArg (fun l : List Byte => l[i - hi]?) h2
    simp only [List.getElem?_drop] at this
    rwa [show hi + (i - hi) = i by omega] at this

/-- **C92 (agreement).** The outcome on memory is that of the model the other properties are about: the same device, up to the
contents of the packet buffer after a refusal, the same value returned, the same bytes handed on, the same faults. -/
theorem C92_agrees (stack : Ctx) (hs : stack.roundKey.length = 176) (p : Pd) (h : Held1 p) :
    match Phy.decodePacket aes p with
    | .error e => decodePacket stack p = .error e
    | .ok (q, d) => ∃ buf, decodePacket stack p = .ok ({ q with packetBuf := buf }, d) ∧ (0 ≤ d.len → buf = q.packetBuf) ∧
        OnlyWithin (markLen p + 4) p.packetLen p.packetBuf buf := by
  have hl := packet_like stack hs p h.buf h.fits
  rw [h.full] at hl
  unfold Like at hl
  cases hd : Phy.decodePacket aes p with
  | error e => rw [hd] at hl; exact hl
  | ok r =>
    rw [hd] at hl
    obtain ⟨buf, h1, h2, h3, h4, h5⟩ := hl
    exact ⟨buf, h1, h2, within_of h3 h4 h5⟩

/-- **C92 (inside the buffer).** Full statement: for every packet held. -/
theorem C92_within_partial (p : Pd) (h : Held1 p) (hn : ¬ Overlong p.scActive (heldFrame p)) :
    ∃ q d, (∀ stack : Ctx, stack.roundKey.length = 176 → decodePacket stack p = .ok (q, d)) ∧
      OnlyWithin (markLen p + 4) p.packetLen p.packetBuf q.packetBuf ∧ (0 < d.len → d.len ≤ d.data.length) := by
  obtain ⟨q, d, hd, -, hlen⟩ := Phy.decodePacket_total (C := aes) h hn
  have hag := fun stack hs => C92_agrees stack hs p h
  rw [hd] at hag
  obtain ⟨buf, h1, -, h3⟩ := hag dirty (by decide +kernel)
  exact ⟨{ q with packetBuf := buf }, d, fun stack hs => (packet_stack stack dirty hs (by decide +kernel) p h.buf h.fits).trans h1, h3, hlen⟩

/-- the outcome from the bytes of the packet -/
theorem of_frame (stack : Ctx) (hs : stack.roundKey.length = 176) (p : Pd) (h : Held1 p) (h8 : 8 ≤ (heldFrame p).length) {q' : Pd} {len : Int}
    {body : List Byte} (hf : Phy.decodeFrame aes p (heldFrame p) = .ok (q', len, body)) :
    ∃ q d, decodePacket stack p = .ok (q, d) ∧ d.len = len ∧ d.data.take len.toNat = body ∧
      OnlyWithin (markLen p + 4) p.packetLen p.packetBuf q.packetBuf ∧ q = { q' with packetBuf := q.packetBuf } := by
  have hrel := Phy.decode_frame aes p (heldFrame p) (p.packetBuf.drop p.packetLen) (by
      have hle := h.least
      unfold heldFrame
      rw [show p.packetBuf.drop p.packetLen = (p.packetBuf.drop (markLen p)).drop (p.packetLen - markLen p) by
        rw [List.drop_drop]; congr 1; omega, List.take_append_drop])
    (by have := h.least; rw [h.length, h.full]; omega) (by omega) (fun _ _ _ => h8)
  rw [hf] at hrel
  have hag := C92_agrees stack hs p h
  cases hd : Phy.decodePacket aes p with
  | error e => rw [hd] at hrel; exact hrel.elim
  | ok r =>
    obtain ⟨q, d⟩ := r
    rw [hd] at hrel hag
    obtain ⟨h1, h2, b, -, rfl⟩ := hrel
    obtain ⟨buf, g1, -, g3⟩ := hag
    exact ⟨_, d, g1, h1, h2, g3, rfl⟩

/-- the types of security blocks of the messages of one end -/
def Types (bare full : Byte) : Prop := (bare, full) = (0x15#8, 0x17#8) ∨ (bare, full) = (0x16#8, 0x18#8)

/-- the secure channel state with the MAC of the message received -/
def withMac (isPd : Bool) (sc : Sc) (m : Block) : Sc := if isPd then { sc with cMac := m } else { sc with rMac := m }

theorem chained_eq (isPd : Bool) (sc : Sc) (msg : List Byte) :
    Phy.chained aes isPd sc msg = withMac isPd sc (mac aes sc.sMac1 sc.sMac2 (ScMem.before isPd sc) msg) := by
  unfold Phy.chained withMac ScMem.before
  cases isPd <;> rfl

theorem frame_eight {f msg tag : List Byte} {ctl ty id : Byte} {pl : List Byte} (hf : SecuredFrame f msg tag ctl ty id pl) : 8 ≤ f.length := by
  obtain ⟨⟨a, lo, hi, sb, x, chk, hm, hfm, -, -⟩, -, -, -⟩ := hf
  rw [hfm, hm]; simp; omega

/-- **C92 (opening).** A packet sealed under the keys of the session, for the message that comes next: id and data are handed on, the
MAC of the packet is kept for the next message, and the session goes on. -/
theorem C92_opens (stack : Ctx) (hs : stack.roundKey.length = 176) (p : Pd) (h : Held1 p) (hact : p.scActive = true)
    (hcap : p.isPd = true → p.scCapable = true) (bare full : Byte) (hty : Types bare full) (msg : List Byte) (id : Byte) (data : List Byte)
    (hf : Sealed.Sealed aes p.sc.sEnc p.sc.sMac1 p.sc.sMac2 (ScMem.before p.isPd p.sc) bare full (heldFrame p) msg id data) :
    ∃ q d, decodePacket stack p = .ok (q, d) ∧ d.len = data.length + 1 ∧ d.data.take (data.length + 1) = id :: data ∧
      q.sc = withMac p.isPd p.sc (mac aes p.sc.sMac1 p.sc.sMac2 (ScMem.before p.isPd p.sc) msg) ∧ q.scActive = true ∧
      OnlyWithin (markLen p + 4) p.packetLen p.packetBuf q.packetBuf := by
  obtain ⟨tag, ctl, pl, hfr, htag, hpl⟩ := hf.frame
  have hbf : bare = 0x15#8 ∧ full = 0x17#8 ∨ bare = 0x16#8 ∧ full = 0x18#8 := by
    rcases hty with h | h
    · exact .inl (Prod.mk.inj h)
    · exact .inr (Prod.mk.inj h)
  have hdec := Phy.decodeFrame_secured aes p hfr (by rcases hbf with ⟨rfl, rfl⟩ | ⟨rfl, rfl⟩ <;> split <;> decide) hact hcap
  rw [if_pos (show tag = (Phy.macOf aes p.isPd p.sc msg).1.take 4 from htag)] at hdec
  have hkeep : (Phy.chained aes p.isPd p.sc msg).sEnc = p.sc.sEnc ∧
      (if p.isPd then (Phy.chained aes p.isPd p.sc msg).rMac else (Phy.chained aes p.isPd p.sc msg).cMac) = ScMem.before p.isPd p.sc := by
    unfold Phy.chained ScMem.before
    cases p.isPd <;> exact ⟨rfl, rfl⟩
  have hdec' : Phy.decodeFrame aes p (heldFrame p) =
      .ok (Phy.setSc p (Phy.chained aes p.isPd p.sc msg), ((data.length + 1 : Nat) : Int), id :: data) := by
    rw [hdec]
    by_cases hd : data = []
    · rw [if_pos hd] at hpl
      rw [if_neg (by rw [if_pos hd]; rcases hbf with ⟨rfl, rfl⟩ | ⟨rfl, rfl⟩ <;> decide), hpl, hd]; rfl
    · rw [if_neg hd] at hpl
      rw [if_pos (by rw [if_neg hd]; rcases hbf with ⟨rfl, rfl⟩ | ⟨rfl, rfl⟩ <;> decide),
        decryptData_opens (sc := Phy.chained aes p.isPd p.sc msg) (isCmd := p.isPd) _ (by rw [hkeep.1, hkeep.2]; exact hpl.1)]
      rfl
  obtain ⟨q, d, h1, h2, h3, h4, h5⟩ := of_frame stack hs p h (frame_eight hfr) hdec'
  refine ⟨q, d, h1, by rw [h2]; rfl, by simpa using h3, ?_, ?_, h4⟩
  · rw [h5, ← chained_eq]; rfl
  · rw [h5]; exact hact

/-- **C92 (refusing).** A packet with a security block of the session whose MAC is not the one expected, or whose data does not
decipher to something that ends in a marker, is refused, and the session is over. -/
theorem C92_refuses (stack : Ctx) (hs : stack.roundKey.length = 176) (p : Pd) (h : Held1 p) (hact : p.scActive = true)
    (hcap : p.isPd = true → p.scCapable = true) (ctl ty id : Byte) (hty : 0x15#8 ≤ ty ∧ ty ≤ 0x18#8) (msg tag pl : List Byte)
    (hf : SecuredFrame (heldFrame p) msg tag ctl ty id pl)
    (hbad : tag ≠ (mac aes p.sc.sMac1 p.sc.sMac2 (ScMem.before p.isPd p.sc) msg).1.take 4 ∨
      (ty = 0x17#8 ∨ ty = 0x18#8) ∧ (¬ ∃ d, Opens aes p.sc.sEnc (ScMem.before p.isPd p.sc) pl d) ∧ (pl ≠ [] ∨ p.flags.allowEmpty = false)) :
    ∃ q d, decodePacket stack p = .ok (q, d) ∧ d.len < 0 ∧ q.scActive = false ∧
      OnlyWithin (markLen p + 4) p.packetLen p.packetBuf q.packetBuf := by
  have hdec := Phy.decodeFrame_secured aes p hf hty hact hcap
  have hdec' : Phy.decodeFrame aes p (heldFrame p) =
      .ok (Phy.setNak (Phy.setSc p (Phy.chained aes p.isPd p.sc msg)).scDeactivate Nak.SC_COND, Phy.PKT_NACK, []) := by
    rw [hdec]
    by_cases ht : tag = (Phy.macOf aes p.isPd p.sc msg).1.take 4
    · rw [if_pos ht]
      rcases hbad with hbad | ⟨h1, h2, h3⟩
      · exact absurd ht hbad
      have hkeep : (Phy.chained aes p.isPd p.sc msg).sEnc = p.sc.sEnc ∧
          (if p.isPd then (Phy.chained aes p.isPd p.sc msg).rMac else (Phy.chained aes p.isPd p.sc msg).cMac) = ScMem.before p.isPd p.sc := by
        unfold Phy.chained ScMem.before
        cases p.isPd <;> exact ⟨rfl, rfl⟩
      rw [if_pos h1, decryptData_refused (sc := Phy.chained aes p.isPd p.sc msg) _ (by rw [hkeep.1, hkeep.2]; exact h2) h3]
      rfl
    · rw [if_neg ht]
  obtain ⟨q, d, h1, h2, -, h4, h5⟩ := of_frame stack hs p h (frame_eight hf) hdec'
  refine ⟨q, d, h1, by rw [h2]; decide, ?_, h4⟩
  rw [h5]; rfl

/-- **C92 (round trip).** Two ends share the keys of a session and the MAC of the message before.  The unfinished packet in the buffer
of the one is sealed there; its bytes, in the buffer of the other, are opened there, whatever else is in the buffers and on the
stacks. -/
theorem C92_roundtrip (stack stack' : Ctx) (hs : stack.roundKey.length = 176) (hs' : stack'.roundKey.length = 176) (snd rcv : Pd)
    (hact : snd.scActive = true) (hact' : rcv.scActive = true) (hcap : rcv.isPd = true → rcv.scCapable = true)
    (hkeys : rcv.sc.sEnc = snd.sc.sEnc ∧ rcv.sc.sMac1 = snd.sc.sMac1 ∧ rcv.sc.sMac2 = snd.sc.sMac2)
    (hlast : ScMem.before rcv.isPd rcv.sc = ScMem.before snd.isCp snd.sc) (mark : Bool) (a lo hi ctl id : Byte)
    (hctl : ctl.getLsbD 3 = true ∧ ctl.getLsbD 2 = true) (bare full : Byte) (hty : Types bare full) (data post buf : List Byte)
    (hb : buf = PhyMem.unfinished (PhyMem.openPkt mark a ctl bare full id data) lo hi ++ post) (hbuf : buf.length = 256)
    (maxLen : Nat) (hm : maxLen ≤ 256) (hfit : PhyMem.sealedLen mark data.length ≤ maxLen) :
    ∃ sealed n, PhyMem.finalize stack snd.isCp true mark snd.sc buf ((if mark then 1 else 0) + 8 + data.length) maxLen = .ok sealed ∧
      sealed.len = some n ∧ n ≤ 256 ∧ (Held1 rcv → rcv.packetBuf.take n = sealed.buf.take n → rcv.packetBufLen = n → rcv.flags.hasMark = mark →
        ∃ q d, decodePacket stack' rcv = .ok (q, d) ∧ d.len = data.length + 1 ∧ d.data.take (data.length + 1) = id :: data ∧
          PhyMem.kept snd sealed = (if rcv.isPd then q.sc.cMac else q.sc.rMac).1) := by
  obtain ⟨s, f, msg, h1, h2, h3, h4, -, h6, h7⟩ := PhyMem.C86_sealed stack hs snd hact mark a lo hi ctl id hctl bare full hty data post buf hb hbuf
    maxLen hm hfit
  refine ⟨s, _, h1, h2, by omega, fun hh hpk hln hmk => ?_⟩
  have hfr : heldFrame rcv = f := by
    have hml : markLen rcv = if mark then 1 else 0 := by unfold markLen; rw [hmk]
    have hle := hh.least
    have hpl : rcv.packetLen = PhyMem.sealedLen mark data.length := by rw [← hh.full, hln]
    unfold heldFrame
    rw [← List.drop_take, hpl, hpk, h3]
    rw [List.take_left' (by rw [List.length_append, h6]; cases mark <;> simp <;> omega), hml]
    cases mark <;> rfl
  rw [← hkeys.1, ← hkeys.2.1, ← hkeys.2.2, ← hlast, ← hfr] at h4
  obtain ⟨q, d, g1, g2, g3, g4, -, -⟩ := C92_opens stack' hs' rcv hh hact' hcap bare full hty msg id data h4
  refine ⟨q, d, g1, g2, g3, ?_⟩
  rw [h7, ← hkeys.2.1, ← hkeys.2.2, ← hlast, g4]
  unfold withMac
  cases rcv.isPd <;> rfl

/-! ### samples -/

/-- the packet `bs` in the packet buffer of `p`, behind it other bytes -/
def holding92 (p : Pd) (mark : Bool) (bs : List Byte) : Pd :=
  { p with packetBuf := bs ++ List.replicate (256 - bs.length) 0xEE#8, packetBufLen := bs.length, packetLen := bs.length,
           flags := { p.flags with hasMark := mark } }

theorem holding_held (p : Pd) (mark : Bool) (bs : List Byte) (h7 : 7 ≤ bs.length) (h : bs.length ≤ 256) : Held1 (holding92 p mark bs) where
  buf := by show (bs ++ List.replicate (256 - bs.length) 0xEE#8).length = 256; rw [List.length_append, List.length_replicate]; omega
  full := rfl
  fits := h
  least := by show (if mark then 1 else 0) + 6 ≤ bs.length; cases mark <;> simp <;> omega

/-- a PD in the session of `PhyMem.cp86` -/
def pd92 : Pd := { PdM.talkingPd with sc := ScMem.sc84 }

/-- the output command of `PhyMem.out86`, sealed -/
def sealed92 : List Byte := [83, 101, 30, 0, 13, 2, 23, 104, 135, 58, 222, 193, 6, 16, 52, 184, 211, 92, 51, 98, 142, 158, 165, 114, 95, 98, 70, 206, 128, 242]

/-- what comes of a packet: value returned, bytes handed on, whether the session goes on, and the MAC kept -/
def opened92 (p : Pd) : Option (Int × List Byte × Bool × List Byte) :=
  (decodePacket dirty p).toOption.map fun r => (r.2.len, r.2.data.take r.2.len.toNat, r.1.scActive, r.1.sc.cMac.1.take 4)

/-- what the CP seals -/
example : ((PhyMem.finalize dirty true true false ScMem.sc84 PhyMem.out86 11 69).toOption.map fun d => d.buf.take 30) = some sealed92 := by
  decide +kernel

/-- The PD holds it, with the keys and the MAC the CP has. -/
example : Held1 (holding92 pd92 false sealed92) ∧ pd92.scActive = true ∧ pd92.isPd = true ∧ pd92.scCapable = true ∧
    pd92.sc.rMac = PhyMem.cp86.sc.rMac ∧ PhyMem.cp86.scActive = true := by
  refine ⟨holding_held _ _ _ ?_ ?_, ?_, ?_, ?_, ?_, ?_⟩ <;> decide +kernel

/-- It is opened. -/
example : opened92 (holding92 pd92 false sealed92) = some (4, [0x68, 1, 2, 3], true, [95, 98, 70, 206]) := by decide +kernel

/-- One bit of the data changed: refused. -/
example : (opened92 (holding92 pd92 false (sealed92.set 10 223#8))).map (fun r => (r.1, r.2.2.1)) = some (-6, false) := by decide +kernel

/-- a packet with a right MAC whose data is not made of blocks -/
def odd92 : List Byte := [83, 101, 16, 0, 13, 2, 23, 104, 1, 2, 113, 97, 44, 244, 0, 0]

example : Held1 (holding92 pd92 false odd92) ∧
    (opened92 (holding92 pd92 false odd92)).map (fun r => (r.1, r.2.2.1, r.2.2.2)) = some (-6, false, [113, 97, 44, 244]) :=
  ⟨holding_held _ _ _ (by decide +kernel) (by decide +kernel), by decide +kernel⟩

/-- a packet with a right MAC whose data does not end in a marker -/
def noMarker92 : List Byte := [83, 101, 30, 0, 13, 2, 23, 104, 7, 7, 7, 7, 7, 7, 7, 7, 7, 7, 7, 7, 7, 7, 7, 7, 151, 104, 89, 47, 0, 0]

example : (opened92 (holding92 pd92 false noMarker92)).map (fun r => (r.1, r.2.2.1, r.2.2.2)) = some (-6, false, [151, 104, 89, 47]) := by
  decide +kernel

/-- the vendor command 0x80 with an empty enciphered block and a right MAC -/
def empty92 : List Byte := [83, 101, 14, 0, 13, 2, 23, 128, 33, 217, 126, 114, 0, 0]

/-- It is refused; its id is overwritten, as `ScMem.C84_before` has it. -/
example : ((decodePacket dirty (holding92 pd92 false empty92)).toOption.map fun r => (r.2.len, r.1.packetBuf[7]?)) = some (-6, some 0#8) := by
  decide +kernel

/-- a packet with a right MAC and one byte behind what should be a security block of two bytes but claims to have 18 -/
def long92 : List Byte := [83, 101, 14, 0, 13, 18, 23, 96, 80, 106, 124, 210, 0, 0]

theorem long_overlong : Overlong true (heldFrame (holding92 pd92 false long92)) :=
  ⟨0x0D#8, 18#8, by decide +kernel, by decide +kernel, by decide +kernel, .inl (by decide +kernel)⟩

/-- **C92, refuted.** The other end of the session sends a packet whose security block claims to have more bytes than there are: a
negative number of bytes is deciphered. -/
theorem C92_overlong : Held1 (holding92 pd92 false long92) ∧ Overlong pd92.scActive (heldFrame (holding92 pd92 false long92)) ∧
    (decodePacket dirty (holding92 pd92 false long92) matches .error .oobWrite) = true := by
  refine ⟨holding_held _ _ _ ?_ ?_, ?_, ?_⟩
  · decide +kernel
  · decide +kernel
  · rw [show pd92.scActive = true by decide +kernel]; exact long_overlong
  · decide +kernel

end Osdp.OpenMem
