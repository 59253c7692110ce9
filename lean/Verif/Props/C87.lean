import Verif.Lemmas.Trace
import Verif.Props.C86
import Verif.Props.C36Sc

/-!
# C87 Tracing a conversation does not change it

Asking for packets to be captured changes neither what is sent nor what is made of a received packet, and every packet captured
can be taken apart by its own length field.

* `C87_sent`: the finished packet, its buffer and its MAC are the same with data trace as without, or the same fault occurs.
* `C87_sent_capture`: what is captured then is the packet before encryption: the header with a length field that is the number
  of bytes captured and bit 7 of the control byte set, and the bytes that were in the buffer.
* `C87_received_partial`: with data trace an accepted packet that has a command id is refused exactly when it is without, with the
  same device left behind, and is otherwise handed on with the same length and bytes; the device left differs in nothing but the
  packet buffer.  Captured is start byte and address as received, a length field that is the number of bytes captured, the control
  byte without the security bit and with bit 7, and the bytes handed on.
* `C87_line_out`, `C87_line_in`: capturing a packet as it is on the line cannot fail, and captures its bytes.
* `C87_crash`: the code violates the property for packets without a command id: a packet whose security block claims more bytes than
  the packet has is disregarded without data trace; with it the device moves a block of (size_t)-17 bytes.
* `C87_assert`: a packet of 255 bytes to be finished fails an assertion in the capture.
-/

namespace Osdp.Trace
open Osdp.AesMem
open Osdp.Phy (hasBit SOM MARK CTL_CRC CTL_SCB BUF_SIZE Decoded markLen writeAt heldFrame Held1)
open Spec.Block (Overlong checkLen)

/-! ### spec -/

/-- The packet `k` has a command id: header, security block, MAC and check value leave at least one byte. -/
def HasId (active : Bool) (k : List Byte) : Prop :=
  ¬ Overlong active k ∧ ∀ ctl, k[4]? = some ctl → 6 + checkLen ctl ≤ k.length

/-- `c` begins with start byte, address, length field and control byte, its length field is its size and its control byte has
bit 7 set. -/
structure Dissectable (c : List Byte) (addr ctl : Byte) (data : List Byte) : Prop where
  parts : ∃ lo hi, c = 0x53#8 :: addr :: lo :: hi :: ctl :: data ∧ lo.toNat + 256 * hi.toNat = c.length
  mangled : ctl.getLsbD 7 = true

/-! ### lemmas -/

theorem le_field {n : Nat} (h : n < 65536) : (byteOf 0 n).toNat + 256 * (byteOf 1 n).toNat = n := by
  rw [Phy.byteOf_mod, Phy.byteOf_mod]
  simp only [BitVec.toNat_ofNat]
  omega

theorem mangled_bit (c : Byte) : (c ||| MANGLED).getLsbD 7 = true := by revert c; decide +kernel

/-- a buffer of at least `n` bytes begins with `n` bytes -/
theorem five {buf : List Byte} (h : 5 ≤ buf.length) :
    ∃ a b c d e t, buf = a :: b :: c :: d :: e :: t := by
  match buf, h with
  | a :: b :: c :: d :: e :: t, _ => exact ⟨a, b, c, d, e, t, rfl⟩

theorem capture_ok {buf : List Byte} {n : Nat} (h : n ≤ 256) (hl : n ≤ buf.length) : capture buf n = .ok (buf.take n) := by
  unfold capture PhyMem.front
  rw [if_neg (show ¬ n > BUF_SIZE by show ¬ n > 256; omega), if_pos hl]

theorem traceOut_run (a b c d e : Byte) (t : List Byte) (len : Nat) (h1 : 5 ≤ len + 2) (h : len + 2 ≤ 256) (hl : len + 2 ≤ t.length + 5) :
    traceOut (a :: b :: c :: d :: e :: t) len =
      .ok (a :: b :: c :: d :: e :: t, a :: b :: c :: d :: (e ||| MANGLED) :: t.take (len + 2 - 5)) := by
  unfold traceOut
  show (capture (a :: b :: c :: d :: (e ||| MANGLED) :: t) (len + 2) >>= _) = _
  rw [capture_ok h (by simpa using hl)]
  obtain ⟨k, hk⟩ : ∃ k, len + 2 = k + 5 := ⟨len + 2 - 5, by omega⟩
  rw [hk]
  rfl

theorem packet_run (stack : Ctx) (isCp active : Bool) (sc : Sc) (a b c d e : Byte) (t : List Byte) (len maxLen : Nat)
    (h1 : 5 ≤ len + 2) (h : len + 2 ≤ 256) (hl : len + 2 ≤ t.length + 5) (ha : a = SOM) :
    packet stack isCp active sc (a :: b :: c :: d :: e :: t) len maxLen =
      (PhyMem.packet stack isCp active sc (a :: b :: c :: d :: e :: t) len maxLen >>= fun r =>
        .ok (r, a :: b :: byteOf 0 (len + 2) :: byteOf 1 (len + 2) :: (e ||| MANGLED) :: t.take (len + 2 - 5))) := by
  unfold packet PhyMem.packet
  show (if a ≠ SOM then _ else _) = ((if a ≠ SOM then _ else _) >>= _)
  rw [if_neg (by simp [ha]), if_neg (by simp [ha])]
  show (traceOut (a :: b :: byteOf 0 (len + 2) :: byteOf 1 (len + 2) :: e :: t) len >>= _) = (PhyMem.rest _ _ _ _ (a :: b :: byteOf 0 (len + 2) :: byteOf 1 (len + 2) :: e :: t) _ _ >>= _)
  rw [traceOut_run _ _ _ _ _ _ _ h1 h hl]
  rfl

theorem packet_not (stack : Ctx) (isCp active : Bool) (sc : Sc) (a : Byte) (t : List Byte) (len maxLen : Nat) (ha : a ≠ SOM) :
    packet stack isCp active sc (a :: t) len maxLen = .ok (⟨none, a :: t, none⟩, []) ∧
    PhyMem.packet stack isCp active sc (a :: t) len maxLen = .ok ⟨none, a :: t, none⟩ := by
  unfold packet PhyMem.packet
  refine ⟨?_, ?_⟩
  · show (if a ≠ SOM then _ else _) = _
    rw [if_pos ha]
  · show (if a ≠ SOM then _ else _) = _
    rw [if_pos ha]

theorem packet_same (stack : Ctx) (isCp active : Bool) (sc : Sc) (buf : List Byte) (len maxLen : Nat)
    (h1 : 5 ≤ len + 2) (h : len + 2 ≤ 256) (hl : len + 2 ≤ buf.length) :
    (packet stack isCp active sc buf len maxLen >>= fun r => .ok r.1) = PhyMem.packet stack isCp active sc buf len maxLen := by
  obtain ⟨a, b, c, d, e, t, rfl⟩ := five (buf := buf) (by omega)
  by_cases ha : a = SOM
  · rw [packet_run _ _ _ _ _ _ _ _ _ _ _ _ h1 h (by simpa using hl) ha]
    cases PhyMem.packet stack isCp active sc (a :: b :: c :: d :: e :: t) len maxLen <;> rfl
  · obtain ⟨e1, e2⟩ := packet_not stack isCp active sc a (b :: c :: d :: e :: t) len maxLen ha
    rw [e1, e2]; rfl

/-! ### sending -/

/-- **C87, sending.** -/
theorem C87_sent (stack : Ctx) (isCp active mark : Bool) (sc : Sc) (buf : List Byte) (len maxLen : Nat)
    (h : len + 2 ≤ 256) (hl : len + 2 ≤ buf.length) :
    (finalize stack isCp active mark sc buf len maxLen >>= fun r => .ok r.1) =
      PhyMem.finalize stack isCp active mark sc buf len maxLen := by
  unfold finalize PhyMem.finalize
  split
  · rfl
  cases mark with
  | false => exact packet_same _ _ _ _ _ _ _ (by omega) h hl
  | true =>
    match buf, hl with
    | b :: buf, hl =>
      show (marked _ _ _ _ (b :: buf) _ _ >>= _) = PhyMem.marked _ _ _ _ (b :: buf) _ _
      unfold marked PhyMem.marked
      show ((if b ≠ MARK then _ else _) >>= _) = if b ≠ MARK then _ else _
      split
      · rfl
      · have := packet_same stack isCp active sc buf (len - 1) (maxLen - 1) (by omega) (by omega) (by simp at hl; omega)
        show (packet stack isCp active sc buf (len - 1) (maxLen - 1) >>= _ >>= _) = (PhyMem.packet stack isCp active sc buf (len - 1) (maxLen - 1) >>= _)
        rw [← this]
        cases packet stack isCp active sc buf (len - 1) (maxLen - 1) <;> rfl

/-- **C87, what is captured when sending.** -/
theorem C87_sent_capture (stack : Ctx) (isCp active mark : Bool) (sc : Sc) (addr l0 l1 ctl : Byte) (t : List Byte) (len maxLen : Nat)
    (h6 : 6 ≤ len) (h : len + 2 ≤ 256) (hl : len ≤ t.length + 3) {d : PhyMem.Done} {cap : List Byte}
    (hf : finalize stack isCp active mark sc ((if mark then [0xFF#8] else []) ++ 0x53#8 :: addr :: l0 :: l1 :: ctl :: t)
      ((if mark then 1 else 0) + len) maxLen = .ok (d, cap)) :
    Dissectable cap addr (ctl ||| 0x80#8) (t.take (len - 3)) ∧ cap.length = len + 2 := by
  have hp : ∀ {mx : Nat} {d cap}, packet stack isCp active sc (0x53#8 :: addr :: l0 :: l1 :: ctl :: t) len mx = .ok (d, cap) →
      cap = 0x53#8 :: addr :: byteOf 0 (len + 2) :: byteOf 1 (len + 2) :: (ctl ||| 0x80#8) :: t.take (len - 3) := by
    intro mx d cap hx
    rw [packet_run stack isCp active sc _ addr l0 l1 ctl t len mx (by omega) h (by omega) rfl] at hx
    obtain ⟨r, -, h2⟩ := Res.bind_eq_ok.mp hx
    cases h2
    rfl
  have hc : cap = 0x53#8 :: addr :: byteOf 0 (len + 2) :: byteOf 1 (len + 2) :: (ctl ||| 0x80#8) :: t.take (len - 3) := by
    unfold finalize at hf
    rw [if_neg (by split <;> omega)] at hf
    cases mark with
    | false =>
      simp only [Bool.false_eq_true, if_false, List.nil_append, Nat.zero_add] at hf
      exact hp hf
    | true =>
      change marked _ _ _ _ (0xFF#8 :: 0x53#8 :: addr :: l0 :: l1 :: ctl :: t) (1 + len) maxLen = _ at hf
      have hmk : marked stack isCp active sc (0xFF#8 :: 0x53#8 :: addr :: l0 :: l1 :: ctl :: t) (1 + len) maxLen =
          (packet stack isCp active sc (0x53#8 :: addr :: l0 :: l1 :: ctl :: t) (1 + len - 1) (maxLen - 1) >>= fun x =>
            .ok ({ x.1 with len := x.1.len.map (· + 1), buf := 0xFF#8 :: x.1.buf }, x.2)) := rfl
      rw [hmk, Nat.add_sub_cancel_left] at hf
      obtain ⟨⟨d1, c1⟩, h1, h2⟩ := Res.bind_eq_ok.mp hf
      cases h2
      exact hp h1
  have hlen : cap.length = len + 2 := by
    rw [hc]; simp only [List.length_cons, List.length_take]; omega
  refine ⟨⟨⟨_, _, hc, ?_⟩, mangled_bit ctl⟩, hlen⟩
  rw [hlen]; exact le_field (by omega)

theorem wr_within {m m' : List Byte} {i : Nat} {v : Byte} (h : wr m i v = .ok m') : m'.length = m.length ∧ i < m.length := by
  induction m generalizing i m' with
  | nil => cases h
  | cons b m ih =>
    cases i with
    | zero => cases h; exact ⟨rfl, by simp⟩
    | succ i =>
      obtain ⟨m1, h1, h2⟩ := Res.bind_eq_ok.mp (show (wr m i v >>= fun m' => .ok (b :: m')) = _ from h)
      cases h2
      have := ih h1
      simp only [List.length_cons]; omega

/-- `d` lies within its buffer and within `n` bytes -/
def Within (n : Nat) (d : PhyMem.Done) : Prop := ∀ k, d.len = some k → k ≤ n ∧ k ≤ d.buf.length

theorem within_none (n : Nat) (buf : List Byte) (mac : Option (List Byte)) : Within n ⟨none, buf, mac⟩ := by intro k hk; cases hk

theorem addCrc_within {buf : List Byte} {len n : Nat} {mac : Option (List Byte)} {d : PhyMem.Done}
    (h : PhyMem.addCrc buf len n mac = .ok d) : Within n d := by
  unfold PhyMem.addCrc at h
  split at h
  · cases h; exact within_none _ _ _
  · obtain ⟨msg, -, h⟩ := Res.bind_eq_ok.mp h
    obtain ⟨⟨u, b⟩, h1, h⟩ := Res.bind_eq_ok.mp h
    cases h
    intro k hk
    cases hk
    refine ⟨by omega, ?_⟩
    obtain ⟨b1, h2, h3⟩ := Res.bind_eq_ok.mp (show (wr buf (len + 0) _ >>= fun b1 => run (st (len + 1) _) b1) = _ from h1)
    obtain ⟨b2, h4, h5⟩ := Res.bind_eq_ok.mp (show (wr b1 (len + 1) _ >>= fun b2 => .ok ((), b2)) = _ from h3)
    cases h5
    have := wr_within h2; have := wr_within h4
    show len + 2 ≤ b.length
    omega

theorem addMac_within {stack : Ctx} {isCp : Bool} {sc : Sc} {buf : List Byte} {len n : Nat} {d : PhyMem.Done}
    (h : PhyMem.addMac stack isCp sc buf len n = .ok d) : Within n d := by
  unfold PhyMem.addMac at h
  split at h
  · cases h; exact within_none _ _ _
  · obtain ⟨⟨u, b⟩, -, h⟩ := Res.bind_eq_ok.mp h
    obtain ⟨msg, -, h⟩ := Res.bind_eq_ok.mp h
    obtain ⟨mac, -, h⟩ := Res.bind_eq_ok.mp h
    obtain ⟨⟨u, b⟩, -, h⟩ := Res.bind_eq_ok.mp h
    exact addCrc_within h

theorem secure_within {stack : Ctx} {isCp : Bool} {sc : Sc} {buf : List Byte} {len n : Nat} {d : PhyMem.Done}
    (h : PhyMem.secure stack isCp sc buf len n = .ok d) : Within n d := by
  unfold PhyMem.secure at h
  obtain ⟨ty, -, h⟩ := Res.bind_eq_ok.mp h
  split at h
  · obtain ⟨sb, -, h⟩ := Res.bind_eq_ok.mp h
    unfold PhyMem.encrypt at h
    split at h
    · cases h
    split at h
    · cases h; exact within_none _ _ _
    · obtain ⟨⟨k, b⟩, -, h⟩ := Res.bind_eq_ok.mp h
      exact addMac_within h
  · exact addMac_within h

theorem packet_within {stack : Ctx} {isCp active : Bool} {sc : Sc} {buf : List Byte} {len n : Nat} {d : PhyMem.Done}
    (h : PhyMem.packet stack isCp active sc buf len n = .ok d) : Within n d := by
  unfold PhyMem.packet at h
  obtain ⟨som, -, h⟩ := Res.bind_eq_ok.mp h
  split at h
  · cases h; exact within_none _ _ _
  · obtain ⟨⟨u, b⟩, -, h⟩ := Res.bind_eq_ok.mp h
    unfold PhyMem.rest at h
    obtain ⟨s, -, h⟩ := Res.bind_eq_ok.mp h
    split at h
    · exact secure_within h
    · exact addCrc_within h

/-- **C87, the packet as it is sent.** Capturing a finished packet cannot fail; captured are its bytes. -/
theorem C87_line_out {stack : Ctx} {isCp active mark : Bool} {sc : Sc} {buf : List Byte} {len maxLen : Nat} {d : PhyMem.Done} {n : Nat}
    (hm : 0 < maxLen ∧ maxLen ≤ 256) (h : PhyMem.finalize stack isCp active mark sc buf len maxLen = .ok d) (hn : d.len = some n) :
    tracePacketOut d = .ok (d.buf.take n) ∧ n ≤ d.buf.length := by
  have hw : Within maxLen d := by
    unfold PhyMem.finalize at h
    split at h
    · cases h; exact within_none _ _ _
    split at h
    · unfold PhyMem.marked at h
      obtain ⟨b, hb, h⟩ := Res.bind_eq_ok.mp h
      split at h
      · cases h; exact within_none _ _ _
      · obtain ⟨d1, h1, h⟩ := Res.bind_eq_ok.mp h
        cases h
        intro k hk
        have hk : d1.len.map (· + 1) = some k := hk
        cases hl : d1.len with
        | none => rw [hl] at hk; cases hk
        | some j =>
          rw [hl] at hk
          cases hk
          have := packet_within h1 j hl
          refine ⟨(by show j + 1 ≤ maxLen; omega), ?_⟩
          have hbl : 1 ≤ buf.length := by cases buf with
            | nil => cases hb
            | cons _ _ => simp
          show j + 1 ≤ (buf.take 1 ++ d1.buf).length
          rw [List.length_append, List.length_take]; omega
    · exact packet_within h
  obtain ⟨h1, h2⟩ := hw n hn
  refine ⟨?_, h2⟩
  unfold tracePacketOut
  rw [hn]
  exact capture_ok (by omega) h2

/-! ### receiving -/

theorem mangle_run (mk : List Byte) (s a lo hi c : Byte) (t : List Byte) (k n : Nat) (h : k + n ≤ t.length) :
    mangle (mk ++ s :: a :: lo :: hi :: c :: t) mk.length (mk.length + 5 + k) n =
      .ok (mk ++ s :: a :: byteOf 0 (n + 5) :: byteOf 1 (n + 5) :: ((c &&& ~~~CTL_SCB) ||| MANGLED) :: ((t.drop k).take n ++ t.drop n)) := by
  unfold mangle
  rw [if_neg (by simp only [List.length_append, List.length_cons]; omega)]
  have e1 : (mk ++ s :: a :: lo :: hi :: c :: t).drop (mk.length + 5 + k) = t.drop k := by
    rw [PhyMem.drop_past _ _ (by omega), show mk.length + 5 + k - mk.length = k + 5 by omega]
    rfl
  rw [e1]
  have hn : ((t.drop k).take n).length = n := by rw [List.length_take, List.length_drop]; omega
  have e2 : writeAt (mk ++ s :: a :: lo :: hi :: c :: t) (mk.length + 5) ((t.drop k).take n) =
      .ok (mk ++ s :: a :: lo :: hi :: c :: ((t.drop k).take n ++ t.drop n)) := by
    unfold writeAt
    rw [hn, if_pos (by simp only [List.length_append, List.length_cons]; omega)]
    have : (mk ++ s :: a :: lo :: hi :: c :: t).take (mk.length + 5) = mk ++ [s, a, lo, hi, c] := by
      rw [List.take_append, List.take_of_length_le (by omega), Nat.add_sub_cancel_left]; rfl
    rw [this, PhyMem.drop_past _ _ (by omega), show mk.length + 5 + n - mk.length = n + 5 by omega]
    simp
  rw [e2]
  simp only [Res.ok_bind]
  have e3 : run (do
      st (mk.length + 4) ((← ld (mk.length + 4)) &&& ~~~CTL_SCB)
      st (mk.length + 4) ((← ld (mk.length + 4)) ||| MANGLED)
      st (mk.length + 2) (byteOf 0 (n + 5))
      st (mk.length + 3) (byteOf 1 (n + 5))) (mk ++ s :: a :: lo :: hi :: c :: ((t.drop k).take n ++ t.drop n)) = _ :=
    run_at mk (do
      st 4 ((← ld 4) &&& ~~~CTL_SCB)
      st 4 ((← ld 4) ||| MANGLED)
      st 2 (byteOf 0 (n + 5))
      st 3 (byteOf 1 (n + 5))) _
  rw [e3]
  rfl

/-- the end of the function with data trace, against the end without -/
theorem traceExit_run (q : Pd) (off : Nat) (len : Int) (hm : markLen q + 5 ≤ off) (h0 : 0 ≤ len) (h : off + len ≤ q.packetBuf.length)
    (h256 : q.packetBuf.length ≤ 256) (hs : q.packetBuf[markLen q]? = some SOM) :
    ∃ q' d cap addr ctl, traceExit q off len = .ok (q', d, some cap) ∧ q' = { q with packetBuf := q'.packetBuf } ∧ d.len = len ∧
      d.data.take len.toNat = (q.packetBuf.drop off).take len.toNat ∧
      (q.packetBuf.drop (markLen q))[1]? = some addr ∧ (q.packetBuf.drop (markLen q))[4]? = some ctl ∧
      Dissectable cap addr ((ctl &&& ~~~CTL_SCB) ||| 0x80#8) ((q.packetBuf.drop off).take len.toNat) := by
  obtain ⟨n, rfl⟩ : ∃ n : Nat, len = n := ⟨len.toNat, by omega⟩
  unfold traceExit
  rw [if_neg (by omega)]
  generalize hmk : markLen q = m at *
  obtain ⟨k, rfl⟩ : ∃ k, off = m + 5 + k := ⟨off - (m + 5), by omega⟩
  have hlm : (q.packetBuf.take m).length = m := by rw [List.length_take]; omega
  have hsplit : q.packetBuf = q.packetBuf.take m ++ q.packetBuf.drop m := (List.take_append_drop _ _).symm
  obtain ⟨s, a, lo, hi, c, t, ht⟩ := five (buf := q.packetBuf.drop m) (by rw [List.length_drop]; omega)
  have htl : t.length + 5 = q.packetBuf.length - m := by
    rw [← List.length_drop, ht]; rfl
  have hsom : s = SOM := by
    have : (q.packetBuf.drop m)[0]? = some SOM := by rw [List.getElem?_drop]; exact hs
    rw [ht] at this
    simpa using this
  subst hsom
  have hrun := mangle_run (q.packetBuf.take m) SOM a lo hi c t k n (by omega)
  rw [hlm, ← ht, ← hsplit] at hrun
  have hd : q.packetBuf.drop (m + 5 + k) = t.drop k := by
    rw [show m + 5 + k = m + (5 + k) by omega, ← List.drop_drop, ht, show 5 + k = k + 5 by omega]; rfl
  have hn : ((t.drop k).take n).length = n := by rw [List.length_take, List.length_drop]; omega
  have hcap : SOM :: a :: byteOf 0 (n + 5) :: byteOf 1 (n + 5) :: ((c &&& ~~~CTL_SCB) ||| MANGLED) :: (t.drop k).take n =
      (SOM :: a :: byteOf 0 (n + 5) :: byteOf 1 (n + 5) :: ((c &&& ~~~CTL_SCB) ||| MANGLED) :: ((t.drop k).take n ++ t.drop n)).take (n + 5) := by
    simp only [List.take_succ_cons]
    rw [List.take_append_of_le_length (by omega), List.take_of_length_le (by omega : ((t.drop k).take n).length ≤ n)]
  have hdrop : ∀ x : List Byte, (q.packetBuf.take m ++ x).drop m = x := by
    intro x
    rw [PhyMem.drop_past _ _ (by omega), hlm, Nat.sub_self]; rfl
  have hdrop5 : ∀ x : List Byte, (q.packetBuf.take m ++ x).drop (m + 5) = x.drop 5 := by
    intro x
    rw [PhyMem.drop_past _ _ (by omega), hlm, Nat.add_sub_cancel_left]
  rw [show ((n : Int)).toNat = n by omega, hd]
  refine ⟨{ q with packetBuf := q.packetBuf.take m ++ SOM :: a :: byteOf 0 (n + 5) :: byteOf 1 (n + 5) ::
      ((c &&& ~~~CTL_SCB) ||| MANGLED) :: ((t.drop k).take n ++ t.drop n) }, ⟨n, ((t.drop k).take n ++ t.drop n)⟩, _, a, c, ?_, rfl, rfl, ?_,
    by rw [ht]; rfl, by rw [ht]; rfl, ⟨⟨byteOf 0 (n + 5), byteOf 1 (n + 5), rfl, ?_⟩, mangled_bit _⟩⟩
  · rw [hrun]
    simp only [Res.ok_bind]
    rw [hdrop, hdrop5, capture_ok (by omega) (by simp only [List.length_cons, List.length_append, hn, List.length_drop]; omega), ← hcap]
    rfl
  · show List.take n ((t.drop k).take n ++ t.drop n) = _
    rw [List.take_append_of_le_length (by omega), List.take_of_length_le (by omega : ((t.drop k).take n).length ≤ n)]
  · simp only [List.length_cons, hn]
    exact le_field (by omega)

/-- **C87, receiving.** -/
theorem C87_received_partial {C : Cipher} {p0 p : Pd} {env : Env} (hf : Phy.Framed p0) (hc : Phy.checkPacket p0 env = .ok (p, .none))
    (hid : HasId p.scActive (heldFrame p)) :
    ∃ q d, Phy.decodePacket C p = .ok (q, d) ∧
      ((d.len = Phy.PKT_NACK ∧ decodePacket C traceExit p = .ok (q, d, none)) ∨
        0 < d.len ∧ ∃ q' d' cap addr ctl, decodePacket C traceExit p = .ok (q', d', some cap) ∧
          q' = { q with packetBuf := q'.packetBuf } ∧ d'.len = d.len ∧ d'.data.take d.len.toNat = d.data.take d.len.toNat ∧
          (heldFrame p)[1]? = some addr ∧ (heldFrame p)[4]? = some ctl ∧
          Dissectable cap addr ((ctl &&& 0xF7#8) ||| 0x80#8) (d.data.take d.len.toNat)) := by
  have h := Phy.checkPacket_held hf hc
  have hs : p.packetBuf[markLen p]? = some 0x53#8 := by
    have hst := Phy.checkPacket_stored hf hc
    obtain ⟨w1, -⟩ := hst.whole (.inl rfl)
    obtain ⟨-, -, hh⟩ := (hst.framed (.inr (.inr (.inl rfl)))).rest w1
    obtain ⟨a, lo, hi, h0, -⟩ := Phy.headerFields_len hh
    rw [List.getElem?_drop] at h0
    exact h0
  obtain ⟨q, dm, cm, hd, hg⟩ := decodePacket_goes (C := C) h hid.1 hid.2
  have hbare := bare_packet C p
  cases shape_packet C p with
  | fault e hx => rw [hx] at hd; cases hd
  | refused q hx =>
    rw [hx] at hbare
    cases hp : Phy.decodePacket C p with
    | error e => rw [hp, bare_error] at hbare; cases hbare
    | ok r =>
      obtain ⟨r1, r2⟩ := r
      rw [hp, bare_ok] at hbare
      cases hbare
      exact ⟨_, _, rfl, .inl ⟨rfl, hx _⟩⟩
  | done q1 off len hx hm hl ht ho =>
    rw [hx] at hd
    cases hd
    rcases hg with hg | ⟨hg1, hg2⟩
    · cases hg
    rw [hx] at hbare
    cases hp : Phy.decodePacket C p with
    | error e => rw [hp, bare_error] at hbare; cases hbare
    | ok r =>
      obtain ⟨r1, r2⟩ := r
      rw [hp, bare_ok] at hbare
      obtain ⟨rfl, rfl⟩ : q = r1 ∧ (⟨len, q.packetBuf.drop off⟩ : Decoded) = r2 := by
        have := Except.ok.inj hbare
        exact ⟨congrArg Prod.fst this, congrArg (fun x => x.2.1) this⟩
      change 0 < len at hg1
      change len ≤ ((q.packetBuf.drop off).length : Int) at hg2
      rw [List.length_drop] at hg2
      have hb := h.buf
      have hat : ∀ i, i < 5 → (q.packetBuf.drop (markLen q))[i]? = (heldFrame p)[i]? := by
        intro i hi
        have hle := h.least
        rw [h.at (by omega), hm, List.getElem?_drop, List.getElem?_drop]
        have := congrArg (fun l => l[markLen p + i]?) ht
        simpa [List.getElem?_take, show i < 5 from hi] using this
      have hs' : q.packetBuf[markLen q]? = some SOM := by
        have := congrArg (fun l => l[markLen p]?) ht
        rw [hm]
        simpa [List.getElem?_take, hs] using this
      obtain ⟨q', d', cap, addr, ctl, h1, h2, h3, h4, h5, h6, h7⟩ :=
        traceExit_run q off len (by omega) (by omega) (by omega) (by omega) hs'
      refine ⟨q, ⟨len, q.packetBuf.drop off⟩, rfl, .inr ⟨hg1, q', d', cap, addr, ctl, (hx _).trans h1, h2, h3, h4, ?_, ?_, h7⟩⟩
      · rw [← hat 1 (by omega)]; exact h5
      · rw [← hat 4 (by omega)]; exact h6

/-- **C87, the packet as it is received.** Capturing a packet that is accepted cannot fail; captured are its bytes. -/
theorem C87_line_in {p0 p : Pd} {env : Env} (hf : Phy.Framed p0) (hc : Phy.checkPacket p0 env = .ok (p, .none)) :
    tracePacketIn p = .ok (p.packetBuf.take (markLen p) ++ heldFrame p) := by
  have h := Phy.checkPacket_held hf hc
  have hb := h.buf; have hfi := h.fits; have hfu := h.full; have hle := h.least
  unfold tracePacketIn heldFrame
  rw [capture_ok hfi (by omega)]
  conv => lhs; rw [← List.take_append_drop (markLen p) p.packetBuf]
  rw [List.take_append, List.length_take, Nat.min_eq_left (by omega), List.take_of_length_le (by rw [List.length_take]; omega), hfu]

/-! ### samples -/

/-- what is made of a packet, without and with data trace: length and data, the same and the bytes captured -/
structure Both where
  plain : Res (Int × List Byte)
  traced : Res (Int × List Byte × Option (List Byte))
  deriving DecidableEq

/-- what a PD makes of a packet it accepts -/
def both (C : Cipher) (pd : Pd) (bytes : List Byte) : Option Both :=
  match Phy.checkPacket pd (Sample.env bytes) with
  | .ok (p, .none) => some ⟨Phy.decodePacket C p >>= fun r => .ok (r.2.len, r.2.data.take r.2.len.toNat),
      decodePacket C traceExit p >>= fun r => .ok (r.2.1.len, r.2.1.data.take r.2.1.len.toNat, r.2.2)⟩
  | _ => none

theorem sample_framed : Phy.Framed Sample.pd := ⟨by decide +kernel, fun _ => by decide +kernel, fun h => absurd h (by decide +kernel)⟩

/-- a POLL of a PD just set up -/
example : ∃ p, Phy.checkPacket Sample.pd (Sample.env Sample.poll) = .ok (p, .none) ∧ HasId p.scActive (heldFrame p) ∧
    both xorCipher Sample.pd Sample.poll =
      some ⟨.ok (1, [0x60]), .ok (1, [0x60], some [0x53, 101, 6, 0, 0x84, 0x60])⟩ := by
  have hn : (match Phy.checkPacket Sample.pd (Sample.env Sample.poll) with
      | .ok (q, .none) => some (heldFrame q) | _ => none) = some (Sample.poll.drop 1) := by decide +kernel
  cases h : Phy.checkPacket Sample.pd (Sample.env Sample.poll) with
  | error e => rw [h] at hn; cases hn
  | ok r =>
    obtain ⟨p, c⟩ := r
    rw [h] at hn
    cases c <;> first | cases hn; done | skip
    refine ⟨p, rfl, ?_, by decide +kernel⟩
    rw [Option.some.inj hn]
    refine ⟨?_, ?_⟩
    · rintro ⟨ctl, sb, h4, h3, -⟩
      cases h4
      exact absurd h3 (by decide)
    · intro ctl h4
      cases h4
      decide

/-- a POLL of a session, its MAC right: the security block and the MAC are left out of what is captured -/
example : both Aes.aes PdM.talkingPd (PdM.talkingPoll 227#8).bytes =
    some ⟨.ok (1, [0x60]), .ok (1, [0x60], some [0x53, 101, 6, 0, 0x86, 0x60])⟩ := by decide +kernel

/-- its MAC wrong: it is refused, and nothing captured -/
example : both Aes.aes PdM.talkingPd (PdM.talkingPoll 0#8).bytes = some ⟨.ok (-6, []), .ok (-6, [], none)⟩ := by decide +kernel

/-- an output command of a session, finished with data trace -/
example : ((finalize dirty true true false ScMem.sc84 PhyMem.out86 11 69).toOption.map fun d => (d.1.len, d.2)) =
    some (some 30, [0x53, 0x65, 13, 0, 0x8D, 2, 0x17, 0x68, 1, 2, 3, 0xEE, 0xEE]) := by decide +kernel

/-- a packet of ten bytes whose security block claims to have twenty -/
def long87 : List Byte := [0xff, 0x53, 0x65, 0x0a, 0x00, 0x0c, 0x14, 0x11, 0x01, 0x65, 0x5e]

/-- **C87, refuted.** Without data trace the PD disregards the packet; with it, a block of (size_t)-17 bytes is moved. -/
theorem C87_crash : both xorCipher Sample.pd long87 = some ⟨.ok (-17, []), .error .oobRead⟩ ∧
    ((PdM.refresh xorCipher Sample.pd (Sample.env long87)).toOption.map fun r => r.2.length) = some 0 := by
  refine ⟨?_, ?_⟩ <;> decide +kernel

/-- **C87, refuted for sending.** A packet of 255 bytes to be finished makes the assertion in `osdp_capture_packet` fail (the
callers make none as long). -/
theorem C87_assert : (finalize dirty true false false ScMem.sc84 (0x53#8 :: List.replicate 300 0#8) 255 300 matches .error .assertFail) = true := by
  decide +kernel

end Osdp.Trace
