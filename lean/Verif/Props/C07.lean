import Verif.Lemmas.Frame
import Verif.Lemmas.Sample

/-!
# C07: packet recognition does not depend on how bytes are chunked
-/

namespace Osdp.Phy

/-! ## Specification -/

/-- The bytes one refresh call takes from the channel when there is room for them: the library calls
`recv` for 64 bytes at a time until it gets fewer. -/
def taken : List (List Byte) → List Byte
  | [] => []
  | c :: cs => if c.length = 64 then c ++ taken cs else c

/-- The line: the bytes that arrive, refresh by refresh. -/
def line (es : List Env) : List Byte := es.flatMap fun e => taken e.recv

/-- Successive refresh calls until a packet has been dealt with: the receiver state, the verdict, and
the bytes left for later. -/
def receive : Pd → List Env → Res (Pd × PktRet × List Byte)
  | p, [] => .ok (p, .wait, [])
  | p, e :: es => do
    let (q, r) ← checkPacket p e
    if r = .wait ∨ r = .noData then receive q es
    else .ok (setRx q [], r, q.rx ++ line es)

/-- No refresh call ended between the first start byte on the line and a mark byte before it. -/
def Uncut : List Env → Prop
  | [] => True
  | e :: es => SOM ∈ taken e.recv ∨
      (((taken e.recv).getLast? ≠ some MARK ∨ (line es).head? ≠ some SOM) ∧ Uncut es)

/-- the channel keeps its contract and the receive buffer does not overflow -/
def Fits (es : List Env) : Prop :=
  ∀ e ∈ es, (∀ c ∈ e.recv, c.length ≤ 64) ∧ (taken e.recv).length ≤ 511

/-! ## Proofs -/

theorem channelReceive_taken (cs : List (List Byte)) (rx : List Byte) (h64 : ∀ c ∈ cs, c.length ≤ 64)
    (hl : rx.length + (taken cs).length ≤ 511) :
    channelReceive cs rx = .ok (rx ++ taken cs, ((taken cs).length : Int)) := by
  induction cs generalizing rx with
  | nil => simp [channelReceive, taken]
  | cons c cs ih =>
    have hc : c.length ≤ 64 := h64 c (by simp)
    rw [taken] at hl ⊢
    rw [channelReceive]
    by_cases h0 : c = []
    · subst h0; simp
    · rw [if_neg h0, if_neg (by omega)]
      by_cases h : c.length = 64
      · rw [if_pos h] at hl ⊢
        simp only [List.length_append] at hl ⊢
        rw [if_neg (by simp only [RB_CAP]; omega), if_pos h, ih (rx ++ c) (fun x hx => h64 x (by simp [hx]))
          (by simp only [List.length_append]; omega)]
        simp only [Res.ok_bind, List.append_assoc]
        rw [if_neg (by omega)]
        simp [h]; omega
      · rw [if_neg h] at hl ⊢
        rw [if_neg (by simp only [RB_CAP]; omega), if_neg h]

theorem checkPacket_eq (p : Pd) (e : Env) (hrx : p.rx = []) (h64 : ∀ c ∈ e.recv, c.length ≤ 64)
    (hl : (taken e.recv).length ≤ 511) :
    ∃ t, checkPacket p e = mapTs t (assemble (setRx p (taken e.recv))) := by
  unfold checkPacket intake
  rw [hrx, channelReceive_taken _ _ h64 (by simpa using hl)]
  simp only [Res.ok_bind, List.nil_append]
  by_cases hc : p.isPd ∧ p.packetBufLen = 0 ∧ ((taken e.recv).length : Int) > 0
  · refine ⟨e.now, ?_⟩
    rw [← assemble_setTs]
    have : (if (({ p with rx := taken e.recv } : Pd).isPd = true ∧ ({ p with rx := taken e.recv } : Pd).packetBufLen = 0 ∧
        ((taken e.recv).length : Int) > 0) then ({ p with rx := taken e.recv, tstamp := e.now } : Pd)
        else { p with rx := taken e.recv }) = setTs (setRx p (taken e.recv)) e.now := if_pos hc
    exact congrArg assemble this
  · refine ⟨p.tstamp, ?_⟩
    rw [← assemble_setTs]
    have : (if (({ p with rx := taken e.recv } : Pd).isPd = true ∧ ({ p with rx := taken e.recv } : Pd).packetBufLen = 0 ∧
        ((taken e.recv).length : Int) > 0) then ({ p with rx := taken e.recv, tstamp := e.now } : Pd)
        else { p with rx := taken e.recv }) = setTs (setRx p (taken e.recv)) p.tstamp := if_neg hc
    exact congrArg assemble this

/-- the outcome of handing over all bytes at once -/
def whole (p : Pd) (bs : List Byte) : Res (Pd × PktRet × List Byte) := do
  let (q, r) ← assemble (setRx p bs)
  if r = .wait ∨ r = .noData then .ok (q, .wait, [])
  else .ok (setRx q [], r, q.rx)

/-- equality up to the time stamp -/
def SameRx (a b : Res (Pd × PktRet × List Byte)) : Prop :=
  match a, b with
  | .ok (p, r, l), .ok (q, s, m) => setTs p 0 = setTs q 0 ∧ r = s ∧ l = m
  | .error e, .error f => e = f
  | _, _ => False

theorem SameRx.refl (a) : SameRx a a := by
  rcases a with e | ⟨p, r, l⟩ <;> simp [SameRx]

theorem SameRx.symm {a b} (h : SameRx a b) : SameRx b a := by
  rcases a with e | ⟨p, r, l⟩ <;> rcases b with f | ⟨q, s, m⟩ <;> simp_all [SameRx]

theorem SameRx.trans {a b c} (h : SameRx a b) (h' : SameRx b c) : SameRx a c := by
  rcases a with e | ⟨p, r, l⟩ <;> rcases b with f | ⟨q, s, m⟩ <;> rcases c with g | ⟨u, v, w⟩ <;>
    simp_all [SameRx]

theorem whole_setTs (p : Pd) (t : Int) (bs) : SameRx (whole (setTs p t) bs) (whole p bs) := by
  unfold whole
  rw [show setRx (setTs p t) bs = setTs (setRx p bs) t from rfl, assemble_setTs]
  cases assemble (setRx p bs) with
  | error e => rfl
  | ok v =>
    rcases v with ⟨q, r⟩
    show SameRx (if _ then _ else _) (if _ then _ else _)
    split
    · exact ⟨rfl, rfl, rfl⟩
    · exact ⟨rfl, rfl, rfl⟩

theorem rxOk_setTs {p : Pd} {t : Int} (h : RxOk p) : RxOk (setTs p t) := h

theorem line_cons (e : Env) (es : List Env) : line (e :: es) = taken e.recv ++ line es := rfl

theorem receive_whole (p : Pd) (es : List Env) (hok : RxOk p) (hrx : p.rx = []) (hf : Fits es)
    (hu : p.packetBufLen = 0 → Uncut es) : SameRx (receive p es) (whole p (line es)) := by
  induction es generalizing p with
  | nil =>
    have e0 : setRx p (line []) = p := by show setRx p [] = p; rw [← hrx]; rfl
    unfold receive whole
    rw [e0]
    rcases assemble_nil hok hrx with h | h <;> rw [h] <;> exact ⟨rfl, rfl, rfl⟩
  | cons e es ih =>
    obtain ⟨h64, h511⟩ := hf e (by simp)
    have hf' : Fits es := fun x hx => hf x (by simp [hx])
    obtain ⟨t, ht⟩ := checkPacket_eq p e hrx h64 h511
    have hokp : RxOk (setRx p (taken e.recv)) := hok
    rw [receive, ht, line_cons]
    cases ha : assemble (setRx p (taken e.recv)) with
    | error f =>
      have := assemble_error (line es) hokp ha
      unfold whole
      rw [show setRx p (taken e.recv ++ line es) = setRx (setRx p (taken e.recv))
        ((setRx p (taken e.recv)).rx ++ line es) from rfl, this]
      exact rfl
    | ok v =>
      rcases v with ⟨q, r⟩
      obtain ⟨s1, s2, s3⟩ := assemble_step (line es) hokp ha
      have e1 : setRx (setRx p (taken e.recv)) ((setRx p (taken e.recv)).rx ++ line es) =
        setRx p (taken e.recv ++ line es) := rfl
      rw [e1] at s1 s2 s3
      show SameRx (if r = .wait ∨ r = .noData then receive (setTs q t) es else
        .ok (setRx (setTs q t) [], r, (setTs q t).rx ++ line es)) _
      by_cases hr1 : r = .wait
      · rw [if_pos (.inl hr1)]
        obtain ⟨a1, a2, a3, a4⟩ := s1 hr1
        refine (ih (setTs q t) a1 a2 hf' (fun h0 => absurd h0 a3)).trans ((whole_setTs q t _).trans ?_)
        unfold whole; rw [a4]
        cases assemble (setRx p (taken e.recv ++ line es)) with
        | error f => rfl
        | ok v => rcases v with ⟨u, w⟩; dsimp only [Res.ok_bind]; split <;> exact ⟨rfl, rfl, rfl⟩
      · by_cases hr2 : r = .noData
        · rw [if_pos (.inr hr2)]
          obtain ⟨a1, a2, a0, a3⟩ := s2 hr2
          obtain ⟨hu1, hu2⟩ := (hu a2).resolve_left a0
          have hq : q = p := by rw [a1]; show setRx p [] = p; rw [← hrx]; rfl
          subst hq
          refine (ih (setTs q t) hok hrx hf' (fun _ => hu2)).trans ((whole_setTs q t _).trans ?_)
          unfold whole
          have : assemble (setRx q (line es)) = assemble (setRx q (taken e.recv ++ line es)) := a3 hu1
          rw [this]
          cases assemble (setRx q (taken e.recv ++ line es)) with
          | error f => rfl
          | ok v => rcases v with ⟨u, w⟩; dsimp only [Res.ok_bind]; split <;> exact ⟨rfl, rfl, rfl⟩
        · rw [if_neg (by simp [hr1, hr2])]
          unfold whole
          rw [s3 hr1 hr2]
          simp only [Res.ok_bind]
          rw [if_neg (by simp [hr1, hr2])]
          exact ⟨rfl, rfl, rfl⟩

/-! ## A whole packet -/

/-- A packet on the line: header with the right length field, at least one more byte, fitting the
packet buffer. -/
structure WfFrame (m : Bool) (f : List Byte) : Prop where
  head : ∃ a lo hi ctl tail, f = SOM :: a :: lo :: hi :: ctl :: tail ∧ tail ≠ [] ∧
    f.length = lo.toNat + 256 * hi.toNat
  fits : (if m then 1 else 0) + f.length ≤ 256

/-- the mark byte, if any, and the packet -/
def marked (m : Bool) (f : List Byte) : List Byte := (if m then [MARK] else []) ++ f

/-- the bytes of the packet the receiver holds -/
def heldFrame (q : Pd) : List Byte := (q.packetBuf.drop (markLen q)).take (q.packetLen - markLen q)

/-- length and body as extracted by the receiver -/
def extracted (C : Cipher) (q : Pd) : Res (Int × List Byte) :=
  (decodePacket C q).map fun x => (x.2.len, x.2.data.take x.2.len.toNat)

/-- is the packet for this kind of receiver: commands for PDs, replies for CPs -/
def Towards (p : Pd) (f : List Byte) : Prop := ∀ a, f[1]? = some a → dirOk p a = true

theorem uncut_som (es : List Env) (r : List Byte) (h : line es = SOM :: r) : Uncut es := by
  induction es with
  | nil => trivial
  | cons e es ih =>
    rw [line_cons] at h
    cases ht : taken e.recv with
    | nil =>
      rw [ht] at h
      exact .inr ⟨.inl (by rw [ht]; simp), ih h⟩
    | cons x xs =>
      rw [ht] at h
      injection h with h _
      left; rw [ht, h]; simp

/-- the outcome for a packet, in terms of its bytes -/
def packetOutcome (p : Pd) (m : Bool) (f rest : List Byte) : Res (Pd × PktRet × List Byte) := do
  let (q, r) ← bodyFrame (loaded p m f rest) f
  .ok (setRx q [], r, q.rx)

theorem packetOutcome_setTs (p : Pd) (m f rest) (t : Int) (h6 : 6 ≤ f.length) :
    SameRx (packetOutcome (setTs p t) m f rest) (packetOutcome p m f rest) := by
  unfold packetOutcome
  rw [loaded_reload, loaded_reload, show heldLoaded (setTs p t) m f rest = { heldLoaded p m f rest with ts := t } from rfl,
    show reload (setTs p t) { heldLoaded p m f rest with ts := t } = reload p { heldLoaded p m f rest with ts := t } from rfl,
    bodyFrame_reload, bodyFrame_reload]
  obtain ⟨q, r, hq⟩ := bodyFrame_ok p f h6
  rw [hq]
  exact ⟨rfl, rfl, rfl⟩

theorem whole_frame (p : Pd) (m : Bool) (f rest : List Byte) (hw : WfFrame m f) (hd : Towards p f)
    (hb : p.packetBufLen = 0) (hpl : p.packetLen = 0) (hbuf : p.packetBuf.length = 256) :
    whole p (marked m f ++ rest) = packetOutcome p m f rest := by
  obtain ⟨⟨a, lo, hi, ctl, tail, rfl, ht, hl⟩, hfit⟩ := hw
  unfold whole packetOutcome
  rw [assemble_bodyFrame (setRx p (marked m (SOM :: a :: lo :: hi :: ctl :: tail) ++ rest)) m a lo hi ctl tail rest
    hb hpl hbuf rfl hl ht hfit (hd a rfl)]
  have e : loaded (setRx p (marked m (SOM :: a :: lo :: hi :: ctl :: tail) ++ rest)) m
    (SOM :: a :: lo :: hi :: ctl :: tail) rest = loaded p m (SOM :: a :: lo :: hi :: ctl :: tail) rest := rfl
  rw [e]
  have h6 : 6 ≤ (SOM :: a :: lo :: hi :: ctl :: tail).length := by
    have := List.length_pos_iff.mpr ht; simp; omega
  have hret : ∀ q r, bodyFrame (loaded p m (SOM :: a :: lo :: hi :: ctl :: tail) rest)
      (SOM :: a :: lo :: hi :: ctl :: tail) = .ok (q, r) → ¬ (r = .wait ∨ r = .noData) := by
    intro q r hq
    have hbf := body_frame _ _ _ (loaded_pkt p m (SOM :: a :: lo :: hi :: ctl :: tail) rest)
      (by rw [markLen_loaded]; exact Nat.add_comm _ _) h6
    rw [← hbf] at hq
    rcases checkPacketBody_ret hq with h | h | h | h | h | h <;> simp [h]
  obtain ⟨q, r, hq⟩ := bodyFrame_ok (loaded p m (SOM :: a :: lo :: hi :: ctl :: tail) rest)
    (SOM :: a :: lo :: hi :: ctl :: tail) h6
  have hr := hret q r hq
  rw [hq]
  simp only [Res.ok_bind, hr, if_false]

/-- Whatever the division, the outcome is that of the whole packet with or without its mark. -/
theorem receive_frame (p : Pd) (m : Bool) (f rest : List Byte) (es : List Env) (hw : WfFrame m f)
    (hd : Towards p f) (hb : p.packetBufLen = 0) (hpl : p.packetLen = 0)
    (hbuf : p.packetBuf.length = 256) (hrx : p.rx = []) (hf : Fits es)
    (hl : line es = marked m f ++ rest) :
    ∃ m', SameRx (receive p es) (packetOutcome p m' f rest) := by
  have hok : RxOk p := ⟨by omega, .inl ⟨hpl, by omega⟩⟩
  obtain ⟨a, lo, hi, ctl, tail, hfe, ht, hlen⟩ := hw.head
  cases m with
  | false =>
    refine ⟨false, ?_⟩
    rw [← whole_frame p false f rest hw hd hb hpl hbuf, ← hl]
    refine receive_whole p es hok hrx hf (fun _ => uncut_som es (a :: lo :: hi :: ctl :: tail ++ rest) ?_)
    rw [hl, hfe]; rfl
  | true =>
    have hl' : line es = MARK :: SOM :: (a :: lo :: hi :: ctl :: tail ++ rest) := by rw [hl, hfe]; rfl
    induction es generalizing p with
    | nil => cases hl'
    | cons e es ih =>
      obtain ⟨h64, h511⟩ := hf e (by simp)
      have hf' : Fits es := fun x hx => hf x (by simp [hx])
      rw [line_cons] at hl hl'
      match htk : taken e.recv with
      | [] =>
        rw [htk] at hl hl'
        obtain ⟨t, ht'⟩ := checkPacket_eq p e hrx h64 h511
        rw [htk, show setRx p [] = p by rw [← hrx]; rfl] at ht'
        have hnd : assemble p = .ok (p, .noData) := by
          rw [assemble_eq p hpl, headerStart_scan p hb, hrx]
          show Except.ok (setRx p [], _) = _
          rw [← hrx]; rfl
        rw [hnd] at ht'
        have hrec : receive p (e :: es) = receive (setTs p t) es := by
          rw [receive, ht']
          rfl
        obtain ⟨m', hm'⟩ := ih (setTs p t) hd hb hpl hbuf hrx hf' (rxOk_setTs hok) hl hl'
        refine ⟨m', ?_⟩
        rw [hrec]
        refine hm'.trans ?_
        exact packetOutcome_setTs p m' f rest t (by
          have := List.length_pos_iff.mpr ht; rw [hfe]; simp; omega)
      | [x] =>
        rw [htk] at hl hl'
        injection hl' with hx hl''
        subst hx
        obtain ⟨t, ht'⟩ := checkPacket_eq p e hrx h64 h511
        rw [htk] at ht'
        have hnd : assemble (setRx p [MARK]) = .ok (p, .noData) := by
          rw [assemble_eq _ (show (setRx p [MARK]).packetLen = 0 from hpl),
            headerStart_scan _ (show (setRx p [MARK]).packetBufLen = 0 from hb)]
          have : scan 0#8 [MARK] = none := by decide
          simp only [setRx_rx, this]
          show Except.ok (setRx p [], _) = _
          rw [← hrx]; rfl
        rw [hnd] at ht'
        have hrec : receive p (e :: es) = receive (setTs p t) es := by
          rw [receive, ht']
          rfl
        refine ⟨false, ?_⟩
        rw [hrec]
        have hw' : WfFrame false f := ⟨hw.head, by have := hw.fits; simp at this ⊢; omega⟩
        have h1 := receive_whole (setTs p t) es (rxOk_setTs hok) hrx hf' (fun _ => uncut_som es _ hl'')
        refine h1.trans ((whole_setTs p t _).trans ?_)
        have : line es = marked false f ++ rest := by rw [hfe]; exact hl''
        rw [this, whole_frame p false f rest hw' hd hb hpl hbuf]
        exact .refl _
      | x :: y :: l =>
        refine ⟨true, ?_⟩
        rw [← whole_frame p true f rest hw hd hb hpl hbuf, ← hl, ← line_cons]
        refine receive_whole p _ hok hrx hf (fun _ => .inl ?_)
        rw [htk] at hl' ⊢
        injection hl' with _ hl'; injection hl' with hy _
        rw [hy]; simp

theorem packetOutcome_eq {p q0 : Pd} {f : List Byte} {r : PktRet} (hq : bodyFrame p f = .ok (q0, r)) (m : Bool)
    (rest : List Byte) : packetOutcome p m f rest =
      .ok (reload q0 { heldLoaded p m f rest with rx := [] }, r, rest) := by
  unfold packetOutcome
  rw [loaded_reload, bodyFrame_reload, hq]; rfl

theorem heldFrame_reload (p q0 : Pd) (m : Bool) (f rest : List Byte) (t : Int) :
    heldFrame (reload q0 { heldLoaded p m f rest with rx := [], ts := t }) = f := by
  have : (reload q0 { heldLoaded p m f rest with rx := [], ts := t }).packetLen = f.length + if m then 1 else 0 := rfl
  have h2 : markLen (reload q0 { heldLoaded p m f rest with rx := [], ts := t }) = if m then 1 else 0 := rfl
  have h3 : (reload q0 { heldLoaded p m f rest with rx := [], ts := t }).packetBuf =
    ((if m then [MARK] else []) ++ f) ++ p.packetBuf.drop ((if m then [MARK] else []) ++ f).length := rfl
  unfold heldFrame
  rw [this, h2, h3]
  cases m <;> simp

theorem extracted_reload (C : Cipher) (p q0 : Pd) (m : Bool) (f rest : List Byte) (t : Int) (h6 : 6 ≤ f.length)
    (h8 : ∀ c, f[4]? = some c → hasBit c CTL_SCB = true → 8 ≤ f.length) :
    extracted C (reload q0 { heldLoaded p m f rest with rx := [], ts := t }) =
      (decodeFrame C q0 f).map fun x => (x.2.1, x.2.2) := by
  have h := decode_frame C (reload q0 { heldLoaded p m f rest with rx := [], ts := t }) f
    (p.packetBuf.drop (((if m then [MARK] else []) ++ f).length)) (by cases m <;> rfl)
    (by
      show ((if m then [MARK] else []) ++ f).length = (if m then 1 else 0) + f.length
      cases m <;> simp <;> omega) h6 h8
  rw [decodeFrame_reload] at h
  unfold extracted
  cases hd : decodeFrame C q0 f with
  | error e =>
    rw [hd] at h
    cases hp : decodePacket C (reload q0 { heldLoaded p m f rest with rx := [], ts := t }) with
    | error e' => rw [hp] at h; exact congrArg Except.error h
    | ok v => rw [hp] at h; exact absurd h id
  | ok v =>
    rw [hd] at h
    cases hp : decodePacket C (reload q0 { heldLoaded p m f rest with rx := [], ts := t }) with
    | error e' => rw [hp] at h; exact absurd h id
    | ok w =>
      rw [hp] at h
      obtain ⟨h1, h2, -⟩ := h
      rcases v with ⟨v1, v2, v3⟩
      rcases w with ⟨w1, w2⟩
      show Except.ok (w2.len, w2.data.take w2.len.toNat) = Except.ok (v2, v3)
      dsimp only at h1 h2
      rw [h1, h2]

/-! ## The property -/

/-- **C07.** Take any packet addressed in the receiver's direction and any two divisions of it (and of what
follows it) between successive refresh and `recv` calls, with or without the optional mark byte in
front.  An idle receiver comes to the same verdict in both cases, holds exactly the packet's bytes (so
the same address and sequence number), has the same sequence counter and extracts the same body.
A packet with a security block is supposed to have room for one (8 bytes); shorter ones are read
beyond their end (see `DESIGN.md`). -/
theorem C07_packet_division_independent (C : Cipher) (p : Pd) (m m' : Bool) (f rest : List Byte)
    (es fs : List Env) (hw : WfFrame m f) (hw' : WfFrame m' f) (hd : Towards p f)
    (h8 : ∀ c, f[4]? = some c → hasBit c CTL_SCB = true → 8 ≤ f.length)
    (hb : p.packetBufLen = 0) (hpl : p.packetLen = 0) (hbuf : p.packetBuf.length = 256) (hrx : p.rx = [])
    (he : Fits es) (hf : Fits fs) (hle : line es = marked m f ++ rest) (hlf : line fs = marked m' f ++ rest) :
    ∃ q q' r, receive p es = .ok (q, r, rest) ∧ receive p fs = .ok (q', r, rest) ∧
      heldFrame q = f ∧ heldFrame q' = f ∧ q.seq = q'.seq ∧ extracted C q = extracted C q' := by
  have h6 : 6 ≤ f.length := by
    obtain ⟨a, lo, hi, ctl, tail, hfe, ht, -⟩ := hw.head
    have := List.length_pos_iff.mpr ht; rw [hfe]; simp; omega
  obtain ⟨q0, r, hq⟩ := bodyFrame_ok p f h6
  have key : ∀ es m, WfFrame m f → Fits es → line es = marked m f ++ rest →
      ∃ m1 t, receive p es = .ok (reload q0 { heldLoaded p m1 f rest with rx := [], ts := t }, r, rest) := by
    intro es m hw he hl
    obtain ⟨m1, h1⟩ := receive_frame p m f rest es hw hd hb hpl hbuf hrx he hl
    rw [packetOutcome_eq hq] at h1
    cases hr : receive p es with
    | error e => rw [hr] at h1; exact absurd h1 id
    | ok v =>
      rcases v with ⟨q, r', rest'⟩
      rw [hr] at h1
      obtain ⟨e1, e2, e3⟩ := h1
      refine ⟨m1, q.tstamp, ?_⟩
      have := congrArg (fun x => setTs x q.tstamp) e1
      have e4 : q = reload q0 { heldLoaded p m1 f rest with rx := [], ts := q.tstamp } := this
      rw [e2, e3, ← e4]
  obtain ⟨m1, t1, e1⟩ := key es m hw he hle
  obtain ⟨m2, t2, e2⟩ := key fs m' hw' hf hlf
  exact ⟨_, _, r, e1, e2, heldFrame_reload _ _ _ _ _ _, heldFrame_reload _ _ _ _ _ _, rfl,
    (extracted_reload C p q0 m1 f rest t1 h6 h8).trans (extracted_reload C p q0 m2 f rest t2 h6 h8).symm⟩

/-- For arbitrary bytes (not only well formed packets): however the same bytes are divided between
successive refresh calls, the receiver reaches the same verdict with the same bytes left over, and ends
in the same state - provided no refresh call happened to fall between the first start byte and a mark
byte before it. `SameRx` compares everything but the time of arrival. -/
theorem C07_stream_division_independent (p : Pd) (es fs : List Env) (hok : RxOk p) (hrx : p.rx = [])
    (he : Fits es) (hf : Fits fs) (hue : p.packetBufLen = 0 → Uncut es)
    (huf : p.packetBufLen = 0 → Uncut fs) (hl : line es = line fs) :
    SameRx (receive p es) (receive p fs) := by
  have h := receive_whole p es hok hrx he hue
  rw [hl] at h
  exact h.trans (receive_whole p fs hok hrx hf huf).symm

/-- one refresh with these bytes -/
def feed (bs : List Byte) : Env := { now := 0, recv := [bs] }

/-- Non-vacuity: the POLL packet satisfies the hypotheses, whole or cut after the mark. -/
example : WfFrame true (Sample.poll.drop 1) ∧ Towards Sample.pd (Sample.poll.drop 1) ∧
    Fits [feed Sample.poll] ∧ Fits [feed [MARK], feed (Sample.poll.drop 1)] ∧
    line [feed Sample.poll] = marked true (Sample.poll.drop 1) ++ [] ∧
    line [feed [MARK], feed (Sample.poll.drop 1)] = marked true (Sample.poll.drop 1) ++ [] := by
  refine ⟨⟨⟨101#8, 8#8, 0#8, 4#8, [0x60#8, 0x60#8, 0x90#8], rfl, by simp, rfl⟩, by decide⟩, ?_, ?_, ?_, rfl, rfl⟩
  · intro a ha; injection ha with ha; subst ha; decide
  · intro e he; simp only [List.mem_singleton] at he; subst he; decide
  · intro e he; simp only [List.mem_cons, List.not_mem_nil, or_false] at he
    rcases he with rfl | rfl <;> decide

/-- ... and is accepted with the body `60` and sequence number 0. -/
example : (receive Sample.pd [feed [MARK], feed (Sample.poll.drop 1)]).map (fun x => (x.2.1, x.1.seq)) =
      .ok (.none, 0) ∧
    ((receive Sample.pd [feed Sample.poll]).bind fun x => extracted Aes.aes x.1) = .ok (1, [0x60#8]) := by
  constructor
  · decide +kernel
  · decide +kernel

/-- The exception is real: cutting between mark and start byte, a packet in the wrong direction (here a
reply seen by a PD) leaves one byte less behind, so that the search for the next packet starts at
another byte. -/
theorem C07_cut_mark_differs :
    (receive Sample.pd [feed [0xFF#8, 0x53#8, 0xE5#8, 8#8, 0#8, 4#8]]).map (·.2.2) = .ok [4#8] ∧
    (receive Sample.pd [feed [0xFF#8], feed [0x53#8, 0xE5#8, 8#8, 0#8, 4#8]]).map (·.2.2) = .ok [] := by
  constructor <;> decide +kernel

end Osdp.Phy
