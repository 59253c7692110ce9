import Verif.Lemmas.Decode

/-! # `phy_check_packet` as a function of the bytes of one frame -/

namespace Osdp.Phy

/-- `checkPacketBody` on exactly the bytes `f` of a frame (without mark) -/
def bodyFrame (p : Pd) (f : List Byte) : Res (Pd × PktRet) := do
  let (m, ok) ← checkValue f f.length
  if !ok then return (p, .fmt)
  let pdAddr := ((← rd f 1) &&& 0x7F#8).toNat
  if (pdAddr : Int) ≠ p.address ∧ pdAddr ≠ 0x7F then
    return (p, if p.isCp then .check else .skip)
  let comp := ((← rd f 4) &&& 0x03#8).toNat
  checkSeq p f m comp (pdAddr == 0x7F)

theorem checkValue_frame (f x : List Byte) (h : 6 ≤ f.length) :
    checkValue (f ++ x) f.length = checkValue f f.length := by
  unfold checkValue
  dsimp only
  rw [rd_append x (show 4 < f.length by omega), rd_append x (show f.length - 2 < f.length by omega),
    rd_append x (show f.length - 2 + 1 < f.length by omega), rd_append x (show f.length - 1 < f.length by omega),
    List.take_append_of_le_length (by omega), List.take_append_of_le_length (by omega)]

theorem checkValue_fst {f : List Byte} {m : Nat} {b : Bool} (h : checkValue f f.length = .ok (m, b)) :
    m = f.length - 2 ∨ m = f.length - 1 := by
  unfold checkValue at h
  obtain ⟨c, -, h⟩ := Res.bind_eq_ok.mp h
  split at h
  · obtain ⟨lo, -, h⟩ := Res.bind_eq_ok.mp h
    obtain ⟨hi, -, h⟩ := Res.bind_eq_ok.mp h
    injection h with h; injection h with h _; exact .inl h.symm
  · obtain ⟨lo, -, h⟩ := Res.bind_eq_ok.mp h
    injection h with h; injection h with h _; exact .inr h.symm

theorem checkSeq_append (p : Pd) (f x : List Byte) (m comp : Nat) (b : Bool) (h : 6 ≤ f.length) :
    checkSeq p (f ++ x) m comp b = checkSeq p f m comp b := by
  unfold checkSeq isBusy
  rw [rd_append x (show 5 < f.length by omega)]

theorem body_frame (p : Pd) (f x : List Byte) (hf : p.packetBuf.drop (markLen p) = f ++ x)
    (hn : p.packetLen = markLen p + f.length) (h6 : 6 ≤ f.length) :
    checkPacketBody p = bodyFrame p f := by
  unfold checkPacketBody bodyFrame
  dsimp only
  rw [hn, hf, show markLen p + f.length - markLen p = f.length by omega, checkValue_frame f x h6,
    rd_append x (show 4 < f.length by omega), rd_append x (show 1 < f.length by omega)]
  simp only [checkSeq_append _ f x _ _ _ h6]

/-- what describes where and when the received bytes were stored -/
structure Held where
  buf : List Byte
  bufLen : Nat
  len : Nat
  mark : Bool
  ts : Int
  rx : List Byte

/-- these members of an object -/
def held (p : Pd) : Held := ⟨p.packetBuf, p.packetBufLen, p.packetLen, p.flags.hasMark, p.tstamp, p.rx⟩

/-- replace them -/
def reload (p : Pd) (h : Held) : Pd :=
  { p with packetBuf := h.buf, packetBufLen := h.bufLen, packetLen := h.len, tstamp := h.ts, rx := h.rx,
           flags := { p.flags with hasMark := h.mark } }

theorem reload_held (p : Pd) : reload p (held p) = p := rfl
theorem held_reload (p : Pd) (h : Held) : held (reload p h) = h := rfl
theorem reload_reload (p : Pd) (h h' : Held) : reload (reload p h) h' = reload p h' := rfl
theorem reload_of_held {q : Pd} {h : Held} (e : held q = h) : reload q h = q := by subst e; rfl

/-- carry `reload` through a result -/
def mapReload {β} (hd : Held) (r : Res (Pd × β)) : Res (Pd × β) :=
  r.map fun q => (reload q.1 hd, q.2)

theorem seqVerdict_reload (p : Pd) (c hd) :
    seqVerdict (reload p hd) c = (reload (seqVerdict p c).1 hd, (seqVerdict p c).2) := by
  unfold seqVerdict
  by_cases h : seqBits p.seq ≠ c ∧ ¬ p.flags.skipSeqCheck
  · rw [if_pos h, if_pos (show seqBits (reload p hd).seq ≠ c ∧ ¬ (reload p hd).flags.skipSeqCheck from h)]; rfl
  · rw [if_neg h, if_neg (show ¬ (seqBits (reload p hd).seq ≠ c ∧ ¬ (reload p hd).flags.skipSeqCheck) from h)]

theorem pdSeqPrep_reload (p : Pd) (c b hd) :
    pdSeqPrep (reload p hd) c b = reload (pdSeqPrep p c b) hd := by
  have hs : (reload p hd).seq = p.seq := rfl
  unfold pdSeqPrep
  by_cases h1 : c = 0
  · simp only [h1, if_true]; cases b <;> rfl
  · by_cases h2 : (c : Int) = p.seq
    · simp only [h1, if_false, hs, h2, if_true]; cases b <;> rfl
    · simp only [h1, if_false, hs, h2]; cases b <;> rfl

theorem checkSeq_reload (p : Pd) (pkt k c b hd) :
    checkSeq (reload p hd) pkt k c b = mapReload hd (checkSeq p pkt k c b) := by
  unfold checkSeq
  by_cases h : p.isPd = true
  · have h' : (reload p hd).isPd = true := h
    rw [if_pos h, if_pos h', pdSeqPrep_reload]
    exact congrArg Except.ok (seqVerdict_reload (pdSeqAdvance (pdSeqPrep p c b)) _ _)
  · have h' : ¬ (reload p hd).isPd = true := h
    rw [if_neg h, if_neg h']
    cases isBusy pkt k c with
    | error e => rfl
    | ok b => cases b <;> simp [seqVerdict_reload] <;> rfl

theorem bodyFrame_reload (p : Pd) (f hd) :
    bodyFrame (reload p hd) f = mapReload hd (bodyFrame p f) := by
  unfold bodyFrame
  cases checkValue f f.length with
  | error e => rfl
  | ok v =>
    rcases v with ⟨k, ok⟩
    cases ok
    · rfl
    · simp only [Res.ok_bind, Bool.not_true, Bool.false_eq_true, if_false]
      cases rd f 1 with
      | error e => rfl
      | ok a =>
        simp only [Res.ok_bind]
        by_cases h : ((a &&& 0x7F#8).toNat : Int) ≠ p.address ∧ (a &&& 0x7F#8).toNat ≠ 0x7F
        · have h' : ((a &&& 0x7F#8).toNat : Int) ≠ (reload p hd).address ∧ (a &&& 0x7F#8).toNat ≠ 0x7F := h
          rw [if_pos h, if_pos h']; rfl
        · have h' : ¬ (((a &&& 0x7F#8).toNat : Int) ≠ (reload p hd).address ∧ (a &&& 0x7F#8).toNat ≠ 0x7F) := h
          rw [if_neg h, if_neg h']
          cases rd f 4 with
          | error e => rfl
          | ok c => exact checkSeq_reload _ _ _ _ _ _

theorem rd_lt {l : List Byte} {i : Nat} (h : i < l.length) : rd l i = .ok l[i] :=
  rd_ok (List.getElem?_eq_getElem h)

theorem isBusy_ok (f : List Byte) (m c : Nat) (h : 6 ≤ f.length) : ∃ b, isBusy f m c = .ok b := by
  unfold isBusy
  split
  · rw [rd_lt (show 5 < f.length by omega)]; exact ⟨_, rfl⟩
  · exact ⟨_, rfl⟩

theorem checkValue_ok (f : List Byte) (h : 6 ≤ f.length) : ∃ v, checkValue f f.length = .ok v := by
  unfold checkValue
  dsimp only
  rw [rd_lt (show 4 < f.length by omega), Res.ok_bind]
  split
  · rw [rd_lt (show f.length - 2 < f.length by omega), Res.ok_bind,
      rd_lt (show f.length - 2 + 1 < f.length by omega)]; exact ⟨_, rfl⟩
  · rw [rd_lt (show f.length - 1 < f.length by omega)]; exact ⟨_, rfl⟩

/-- checking a complete frame never faults -/
theorem bodyFrame_ok (p : Pd) (f : List Byte) (h : 6 ≤ f.length) : ∃ q r, bodyFrame p f = .ok (q, r) := by
  unfold bodyFrame
  obtain ⟨⟨m, ok⟩, hv⟩ := checkValue_ok f h
  rw [hv, Res.ok_bind]
  cases ok
  · exact ⟨_, _, rfl⟩
  · rw [rd_lt (show 1 < f.length by omega)]
    simp only [Res.ok_bind, Bool.not_true, Bool.false_eq_true, if_false]
    split
    · exact ⟨_, _, rfl⟩
    · rw [rd_lt (show 4 < f.length by omega), Res.ok_bind]
      unfold checkSeq
      split
      · exact ⟨_, _, rfl⟩
      · obtain ⟨b, hb⟩ := isBusy_ok f m ((f[4] &&& 3#8).toNat) h
        rw [hb]; cases b <;> exact ⟨_, _, rfl⟩

@[simp] theorem markLen_loaded (p : Pd) (m f rest) : markLen (loaded p m f rest) = if m then 1 else 0 := rfl

theorem loaded_pkt (p : Pd) (m f rest) : (loaded p m f rest).packetBuf.drop (markLen (loaded p m f rest)) =
    f ++ p.packetBuf.drop (((if m then [MARK] else []) ++ f).length) := by
  cases m <;> rfl

/-- where `loaded` puts the bytes -/
def heldLoaded (p : Pd) (m : Bool) (f rest : List Byte) : Held :=
  { buf := ((if m then [MARK] else []) ++ f) ++ p.packetBuf.drop ((if m then [MARK] else []) ++ f).length
    bufLen := ((if m then [MARK] else []) ++ f).length
    len := f.length + if m then 1 else 0
    mark := m, ts := p.tstamp, rx := rest }

theorem loaded_reload (p : Pd) (m f rest) : loaded p m f rest = reload p (heldLoaded p m f rest) := rfl

/-- A complete frame of the right direction in the FIFO of an idle receiver: what is done with it is
a function of the bytes of the frame. -/
theorem assemble_bodyFrame (p : Pd) (m : Bool) (a lo hi ctl : Byte) (tail rest : List Byte)
    (hb : p.packetBufLen = 0) (hpl : p.packetLen = 0) (hbuf : p.packetBuf.length = 256)
    (hrx : p.rx = (if m then [MARK] else []) ++ (SOM :: a :: lo :: hi :: ctl :: tail) ++ rest)
    (hlen : (SOM :: a :: lo :: hi :: ctl :: tail).length = lo.toNat + 256 * hi.toNat)
    (h6 : tail ≠ []) (hmax : (if m then 1 else 0) + (SOM :: a :: lo :: hi :: ctl :: tail).length ≤ 256)
    (hdir : dirOk p a = true) :
    assemble p = bodyFrame (loaded p m (SOM :: a :: lo :: hi :: ctl :: tail) rest) (SOM :: a :: lo :: hi :: ctl :: tail) := by
  rw [assemble_frame p m a lo hi ctl tail rest hb hpl hbuf hrx hlen h6 hmax hdir]
  have : 0 < tail.length := List.length_pos_iff.mpr h6
  refine body_frame _ _ _ (loaded_pkt _ _ _ _) ?_ (by simp; omega)
  show (SOM :: a :: lo :: hi :: ctl :: tail).length + (if m then 1 else 0) = _
  rw [markLen_loaded]; omega

/-- checking a packet leaves the stored bytes alone -/
theorem bodyFrame_keeps {p q : Pd} {f : List Byte} {r : PktRet} (h : bodyFrame p f = .ok (q, r)) :
    held q = held p := by
  have e := bodyFrame_reload p f (held p)
  rw [reload_held, h] at e
  injection e with e
  injection e with e _
  exact (congrArg held e : held q = held (reload q (held p)))

/-! ### decoding and `reload` -/

theorem setNak_reload (p : Pd) (c hd) : setNak (reload p hd) c = reload (setNak p c) hd := rfl

theorem noteScbkd_reload (p : Pd) (a b hd) :
    noteScbkd (reload p hd) a b = reload (noteScbkd p a b) hd := by
  unfold noteScbkd
  by_cases h : (a = 0x11#8 ∨ a = 0x13#8) ∧ p.flags.installMode = true ∧ b = 0#8
  · rw [if_pos h, if_pos (show (a = 0x11#8 ∨ a = 0x13#8) ∧ (reload p hd).flags.installMode = true ∧ b = 0#8 from h)]
    rfl
  · rw [if_neg h, if_neg (show ¬ ((a = 0x11#8 ∨ a = 0x13#8) ∧ (reload p hd).flags.installMode = true ∧ b = 0#8) from h)]

theorem mapReload_bind {α β} (x : Res α) (g : α → Res (Pd × β)) (hd) :
    mapReload hd (x >>= g) = x >>= fun a => mapReload hd (g a) := by
  cases x <;> rfl

theorem mapReload_ite {β} (c : Prop) [Decidable c] (x y : Res (Pd × β)) (hd) :
    mapReload hd (if c then x else y) = if c then mapReload hd x else mapReload hd y := by
  split <;> rfl

theorem frameCipher_reload (C : Cipher) (p : Pd) (f sb len hd) :
    frameCipher C (reload p hd) f sb len = mapReload hd (frameCipher C p f sb len) := by
  unfold frameCipher
  rw [mapReload_bind]
  show (Sc.decryptData C p.flags.allowEmpty p.isPd p.sc (f.drop (5 + sb + 1)) (len - 1) >>= _) = _
  congr 1
  funext a
  cases a <;> rfl

theorem frameSecured_reload (C : Cipher) (p : Pd) (f ty sb len hd) :
    frameSecured C (reload p hd) f ty sb len = mapReload hd (frameSecured C p f ty sb len) := by
  unfold frameSecured
  rw [mapReload_ite]
  split
  · rfl
  · rw [mapReload_bind]
    show (Sc.computeMac C p.isPd p.sc (f.take (len - 4).toNat) >>= _) = _
    congr 1
    funext sc
    dsimp only
    rw [mapReload_ite, mapReload_ite, ← frameCipher_reload]
    rfl

theorem frameScb_reload (C : Cipher) (p : Pd) (f len hd) :
    frameScb C (reload p hd) f len = mapReload hd (frameScb C p f len) := by
  unfold frameScb
  simp only [mapReload_ite, mapReload_bind, ← frameSecured_reload, noteScbkd_reload]
  rfl

theorem framePlain_reload (p : Pd) (f len hd) :
    framePlain (reload p hd) f len = mapReload hd (framePlain p f len) := by
  unfold framePlain
  simp only [mapReload_ite, mapReload_bind]
  rfl

theorem decodeFrame_reload (C : Cipher) (p : Pd) (f hd) :
    decodeFrame C (reload p hd) f = mapReload hd (decodeFrame C p f) := by
  unfold decodeFrame
  simp only [mapReload_ite, mapReload_bind, ← frameScb_reload, ← framePlain_reload]

end Osdp.Phy
