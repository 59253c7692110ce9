import Verif.Model.Phy

/-! Helper lemmas about the physical layer. -/

namespace Osdp

theorem rd_some {l : List Byte} {i : Nat} {b : Byte} (h : rd l i = .ok b) : l[i]? = some b := by
  unfold rd at h
  split at h
  · rename_i x hx; rw [hx]; injection h with h; rw [h]
  · cases h

end Osdp

namespace Osdp.Phy

theorem writeAt_ok {buf : List Byte} {i : Nat} {bs : List Byte} (h : i + bs.length ≤ buf.length) :
    writeAt buf i bs = .ok (buf.take i ++ bs ++ buf.drop (i + bs.length)) := by
  simp [writeAt, h]

theorem writeAt_err {buf : List Byte} {i : Nat} {bs : List Byte} (h : ¬ i + bs.length ≤ buf.length) :
    writeAt buf i bs = .error .oobWrite := by
  simp [writeAt, h]

theorem writeAt_length {buf : List Byte} {i : Nat} {bs buf' : List Byte}
    (h : writeAt buf i bs = .ok buf') : buf'.length = buf.length := by
  unfold writeAt at h
  split at h
  · injection h with h; subst h; simp; omega
  · cases h

theorem writeAt_split (buf : List Byte) (i : Nat) (a b : List Byte) :
    writeAt buf i (a ++ b) = (writeAt buf i a >>= fun buf' => writeAt buf' (i + a.length) b) := by
  by_cases h : i + a.length ≤ buf.length
  · rw [writeAt_ok h, Res.ok_bind]
    have hl : (buf.take i ++ a ++ buf.drop (i + a.length)).length = buf.length := by simp; omega
    have e1 : (buf.take i ++ a ++ buf.drop (i + a.length)).take (i + a.length) = buf.take i ++ a := by
      rw [List.take_append_of_le_length (by simp; omega), List.take_of_length_le (by simp; omega)]
    have e2 : (buf.take i ++ a ++ buf.drop (i + a.length)).drop (i + a.length + b.length) =
        buf.drop (i + (a ++ b).length) := by
      rw [← List.drop_drop, List.drop_append_of_le_length (by simp; omega),
        List.drop_of_length_le (l := buf.take i ++ a) (by simp; omega)]
      simp [List.drop_drop]; congr 1; omega
    unfold writeAt
    rw [hl, e1, e2]
    simp [Nat.add_assoc]
  · rw [writeAt_err h, writeAt_err (by simp; omega)]; rfl

/-- replace the content of the receive FIFO -/
def setRx (p : Pd) (rx : List Byte) : Pd := { p with rx := rx }

@[simp] theorem setRx_rx (p : Pd) (x) : (setRx p x).rx = x := rfl
@[simp] theorem setRx_setRx (p : Pd) (x y) : setRx (setRx p x) y = setRx p y := rfl
@[simp] theorem setRx_self (p : Pd) : setRx p p.rx = p := rfl
@[simp] theorem setRx_packetBuf (p : Pd) (x) : (setRx p x).packetBuf = p.packetBuf := rfl
@[simp] theorem setRx_packetBufLen (p : Pd) (x) : (setRx p x).packetBufLen = p.packetBufLen := rfl
@[simp] theorem setRx_packetLen (p : Pd) (x) : (setRx p x).packetLen = p.packetLen := rfl
@[simp] theorem setRx_flags (p : Pd) (x) : (setRx p x).flags = p.flags := rfl
@[simp] theorem setRx_seq (p : Pd) (x) : (setRx p x).seq = p.seq := rfl

/-- what has been collected of the current packet -/
def got (p : Pd) : List Byte := p.packetBuf.take p.packetBufLen

theorem popInto_ok {p : Pd} {n : Nat} (h : p.packetBufLen + (p.rx.take n).length ≤ p.packetBuf.length) :
    popInto p n = .ok { p with
      rx := p.rx.drop n
      packetBuf := p.packetBuf.take p.packetBufLen ++ p.rx.take n ++
        p.packetBuf.drop (p.packetBufLen + (p.rx.take n).length)
      packetBufLen := p.packetBufLen + (p.rx.take n).length } := by
  simp [popInto, writeAt_ok h]

/-- set the collected bytes -/
def setBuf (p : Pd) (buf : List Byte) (n : Nat) : Pd := { p with packetBuf := buf, packetBufLen := n }

@[simp] theorem setBuf_rx (p : Pd) (x n) : (setBuf p x n).rx = p.rx := rfl
@[simp] theorem setBuf_packetBuf (p : Pd) (x n) : (setBuf p x n).packetBuf = x := rfl
@[simp] theorem setBuf_packetBufLen (p : Pd) (x n) : (setBuf p x n).packetBufLen = n := rfl
@[simp] theorem setBuf_packetLen (p : Pd) (x n) : (setBuf p x n).packetLen = p.packetLen := rfl
@[simp] theorem setBuf_flags (p : Pd) (x n) : (setBuf p x n).flags = p.flags := rfl

theorem setBuf_setBuf (p : Pd) (x n y m) : setBuf (setBuf p x n) y m = setBuf p y m := rfl
theorem setRx_setBuf (p : Pd) (x n y) : setRx (setBuf p x n) y = setBuf (setRx p y) x n := rfl

theorem popInto_eq (p : Pd) (n : Nat) : popInto p n =
    (writeAt p.packetBuf p.packetBufLen (p.rx.take n) >>= fun buf =>
      .ok (setBuf (setRx p (p.rx.drop n)) buf (p.packetBufLen + (p.rx.take n).length))) := rfl

theorem popInto_inv {p q : Pd} {n : Nat} (h : popInto p n = .ok q) :
    ∃ buf, writeAt p.packetBuf p.packetBufLen (p.rx.take n) = .ok buf ∧
      q = setBuf (setRx p (p.rx.drop n)) buf (p.packetBufLen + (p.rx.take n).length) := by
  rw [popInto_eq] at h
  obtain ⟨buf, h1, h2⟩ := Res.bind_eq_ok.mp h
  injection h2 with h2
  exact ⟨buf, h1, h2.symm⟩

theorem popInto_le {p q : Pd} {n : Nat} (h : popInto p n = .ok q) :
    q.packetBufLen ≤ q.packetBuf.length := by
  obtain ⟨buf, hw, rfl⟩ := popInto_inv h
  have hl := writeAt_length hw
  unfold writeAt at hw
  split at hw
  · simp only [setBuf_packetBuf, setBuf_packetBufLen, hl]; assumption
  · cases hw

/-- Fewer bytes than wanted: the rest can be popped later. -/
theorem popInto_short {p q : Pd} {n : Nat} (b : List Byte) (ha : p.rx.length ≤ n)
    (h : popInto p n = .ok q) :
    q.rx = [] ∧ q.packetBufLen = p.packetBufLen + p.rx.length ∧ q.packetLen = p.packetLen ∧
    q.flags = p.flags ∧
    popInto (setRx q b) (n - p.rx.length) = popInto (setRx p (p.rx ++ b)) n := by
  obtain ⟨buf, hw, rfl⟩ := popInto_inv h
  rw [List.take_of_length_le ha] at hw
  rw [List.take_of_length_le ha, List.drop_of_length_le ha]
  refine ⟨rfl, rfl, rfl, rfl, ?_⟩
  have e : (p.rx ++ b).take n = p.rx ++ b.take (n - p.rx.length) := by
    rw [List.take_append, List.take_of_length_le ha]
  have e' : (p.rx ++ b).drop n = b.drop (n - p.rx.length) := by
    rw [List.drop_append, List.drop_of_length_le ha, List.nil_append]
  rw [popInto_eq, popInto_eq]
  simp only [setRx_rx, setRx_packetBuf, setRx_packetBufLen, setBuf_packetBuf, setBuf_packetBufLen, e, e',
    writeAt_split, hw, Res.ok_bind, List.length_append, Nat.add_assoc, setRx_setRx, setRx_setBuf, setBuf_setBuf, setBuf_rx]

/-- Enough bytes: later ones do not matter. -/
theorem popInto_more {p q : Pd} {n : Nat} (b : List Byte) (ha : n ≤ p.rx.length)
    (h : popInto p n = .ok q) :
    q.packetBufLen = p.packetBufLen + n ∧ q.packetLen = p.packetLen ∧ q.flags = p.flags ∧
    popInto (setRx p (p.rx ++ b)) n = .ok (setRx q (q.rx ++ b)) := by
  obtain ⟨buf, hw, rfl⟩ := popInto_inv h
  refine ⟨by simp; omega, rfl, rfl, ?_⟩
  rw [popInto_eq]
  simp only [setRx_rx, setRx_packetBuf, setRx_packetBufLen, setRx_setBuf, setRx_setRx, setBuf_rx,
    List.take_append_of_le_length ha, List.drop_append_of_le_length ha, hw, Res.ok_bind]

theorem headerFields_setRx (p : Pd) (x) : headerFields (setRx p x) = headerFields p := rfl

/-- set the expected packet length -/
def setLen (p : Pd) (n : Nat) : Pd := { p with packetLen := n }
theorem setLen_setRx (p : Pd) (n x) : setLen (setRx p x) n = setRx (setLen p n) x := rfl
@[simp] theorem setLen_packetLen (p : Pd) (n) : (setLen p n).packetLen = n := rfl
@[simp] theorem setLen_packetBufLen (p : Pd) (n) : (setLen p n).packetBufLen = p.packetBufLen := rfl
@[simp] theorem setLen_packetBuf (p : Pd) (n) : (setLen p n).packetBuf = p.packetBuf := rfl
@[simp] theorem setLen_flags (p : Pd) (n) : (setLen p n).flags = p.flags := rfl
@[simp] theorem setLen_rx (p : Pd) (n) : (setLen p n).rx = p.rx := rfl

/-- after the header: src/osdp_phy.c:516-539 -/
def afterHeader (r : Pd × HdrRet) : Res (Pd × PktRet) :=
  match r.2 with
  | .err e => .ok (r.1, e)
  | .len k => collect (setLen r.1 k)

/-- from the header on (src/osdp_phy.c:363-539) -/
def assembleFrom (p : Pd) : Res (Pd × PktRet) := headerRest p >>= afterHeader

theorem assemble_eq (p : Pd) (h : p.packetLen = 0) :
    assemble p = (headerStart p >>= fun r => if r.2 then assembleFrom r.1 else .ok (r.1, .noData)) := by
  unfold assemble assembleFrom checkHeader
  rw [if_pos h]
  cases headerStart p with
  | error e => rfl
  | ok r =>
    rcases r with ⟨q, f⟩
    cases f
    · rfl
    · simp only [Res.ok_bind, Bool.not_true, Bool.false_eq_true, if_false, if_true]
      cases headerRest q with
      | error e => rfl
      | ok s => rcases s with ⟨s, r⟩; cases r <;> rfl

theorem assemble_collect (p : Pd) (h : p.packetLen ≠ 0) : assemble p = collect p := by
  simp [assemble, h]

theorem seqVerdict_ret (p : Pd) (comp : Nat) : (seqVerdict p comp).2 = .nack ∨ (seqVerdict p comp).2 = .none := by
  unfold seqVerdict; split <;> simp

theorem checkSeq_ret {p q : Pd} {pkt : List Byte} {m comp : Nat} {bc : Bool} {r : PktRet}
    (h : checkSeq p pkt m comp bc = .ok (q, r)) : r = .none ∨ r = .nack ∨ r = .busy := by
  unfold checkSeq at h
  by_cases hp : p.isPd = true
  · rw [if_pos hp] at h
    injection h with h
    have := seqVerdict_ret (pdSeqAdvance (pdSeqPrep p comp bc)) comp
    rw [h] at this; rcases this with h | h <;> simp_all
  · rw [if_neg hp] at h
    cases hb : isBusy pkt m comp with
    | error e => rw [hb] at h; cases h
    | ok b =>
      rw [hb] at h
      cases b
      · injection h with h
        have := seqVerdict_ret p comp
        rw [h] at this; rcases this with h | h <;> simp_all
      · injection h with h; injection h with _ h; exact .inr (.inr h.symm)

theorem checkPacketBody_ret {p q : Pd} {r : PktRet} (h : checkPacketBody p = .ok (q, r)) :
    r = .none ∨ r = .nack ∨ r = .busy ∨ r = .fmt ∨ r = .check ∨ r = .skip := by
  unfold checkPacketBody at h
  simp only [Res.bind_eq_ok] at h
  obtain ⟨⟨m, ok⟩, -, h⟩ := h
  cases ok
  · injection h with h; injection h with _ h; simp [← h]
  · simp only [Bool.not_true, Bool.false_eq_true, if_false, Res.bind_eq_ok] at h
    obtain ⟨a, -, h⟩ := h
    split at h
    · injection h with h; injection h with _ h; subst h; cases p.isCp <;> simp
    · obtain ⟨c, -, h⟩ := Res.bind_eq_ok.mp h
      have := checkSeq_ret h; rcases this with h | h | h <;> simp [h]


/-- carry the receive FIFO through a result -/
def mapRx {β} (x : List Byte) (r : Res (Pd × β)) : Res (Pd × β) := r.map fun q => (setRx q.1 x, q.2)

@[simp] theorem mapRx_ok {β} (x) (q : Pd × β) : mapRx x (.ok q : Res (Pd × β)) = .ok (setRx q.1 x, q.2) := rfl

theorem seqVerdict_setRx (p : Pd) (c x) :
    seqVerdict (setRx p x) c = (setRx (seqVerdict p c).1 x, (seqVerdict p c).2) := by
  unfold seqVerdict
  by_cases h : seqBits p.seq ≠ c ∧ ¬ p.flags.skipSeqCheck
  · rw [if_pos h, if_pos (show seqBits (setRx p x).seq ≠ c ∧ ¬ (setRx p x).flags.skipSeqCheck from h)]; rfl
  · rw [if_neg h, if_neg (show ¬ (seqBits (setRx p x).seq ≠ c ∧ ¬ (setRx p x).flags.skipSeqCheck) from h)]

theorem pdSeqPrep_setRx (p : Pd) (c b x) : pdSeqPrep (setRx p x) c b = setRx (pdSeqPrep p c b) x := by
  unfold pdSeqPrep
  by_cases h1 : c = 0
  · simp only [h1, if_true]; cases b <;> rfl
  · by_cases h2 : (c : Int) = p.seq
    · simp only [h1, if_false, setRx_seq, h2, if_true]; cases b <;> rfl
    · simp only [h1, if_false, setRx_seq, h2]; cases b <;> rfl

theorem checkSeq_setRx (p : Pd) (pkt m c b x) :
    checkSeq (setRx p x) pkt m c b = mapRx x (checkSeq p pkt m c b) := by
  unfold checkSeq
  by_cases h : p.isPd = true
  · have h' : (setRx p x).isPd = true := h
    rw [if_pos h, if_pos h', pdSeqPrep_setRx]
    exact congrArg Except.ok (seqVerdict_setRx (pdSeqAdvance (pdSeqPrep p c b)) _ _)
  · have h' : ¬ (setRx p x).isPd = true := h
    rw [if_neg h, if_neg h']
    cases isBusy pkt m c with
    | error e => rfl
    | ok b => cases b <;> simp [seqVerdict_setRx] <;> rfl

theorem checkPacketBody_setRx (p : Pd) (x) :
    checkPacketBody (setRx p x) = mapRx x (checkPacketBody p) := by
  unfold checkPacketBody
  have e1 : markLen (setRx p x) = markLen p := rfl
  simp only [setRx_packetBuf, setRx_packetLen, e1]
  cases checkValue (List.drop (markLen p) p.packetBuf) (p.packetLen - markLen p) with
  | error e => rfl
  | ok v =>
    rcases v with ⟨m, ok⟩
    cases ok
    · rfl
    · simp only [Res.ok_bind, Bool.not_true, Bool.false_eq_true, if_false]
      cases rd (List.drop (markLen p) p.packetBuf) 1 with
      | error e => rfl
      | ok a =>
        simp only [Res.ok_bind]
        by_cases h : ((a &&& 0x7F#8).toNat : Int) ≠ p.address ∧ (a &&& 0x7F#8).toNat ≠ 0x7F
        · have h' : ((a &&& 0x7F#8).toNat : Int) ≠ (setRx p x).address ∧ (a &&& 0x7F#8).toNat ≠ 0x7F := h
          rw [if_pos h, if_pos h']; rfl
        · have h' : ¬ (((a &&& 0x7F#8).toNat : Int) ≠ (setRx p x).address ∧ (a &&& 0x7F#8).toNat ≠ 0x7F) := h
          rw [if_neg h, if_neg h']
          cases rd (List.drop (markLen p) p.packetBuf) 4 with
          | error e => rfl
          | ok c => exact checkSeq_setRx _ _ _ _ _ _

/-- Resuming the collection of a packet. -/
theorem collect_resume {p q : Pd} (b : List Byte) (hle : p.packetBufLen ≤ p.packetLen)
    (h : collect p = .ok (q, .wait)) :
    q.rx = [] ∧ q.packetLen = p.packetLen ∧ q.packetBufLen < q.packetLen ∧
    q.packetBufLen ≤ q.packetBuf.length ∧
    collect (setRx q b) = collect (setRx p (p.rx ++ b)) := by
  unfold collect at h
  obtain ⟨p1, hp, h⟩ := Res.bind_eq_ok.mp h
  by_cases ha : p.rx.length ≤ p.packetLen - p.packetBufLen
  · obtain ⟨h1, h2, h3, -, h4⟩ := popInto_short b ha hp
    split at h
    · rename_i hne
      injection h with h; injection h with h _; subst h
      refine ⟨h1, h3, by omega, popInto_le hp, ?_⟩
      unfold collect
      have e : p1.packetLen - p1.packetBufLen = p.packetLen - p.packetBufLen - p.rx.length := by omega
      simp only [setRx_packetLen, setRx_packetBufLen, e, h4]
    · exfalso; have := checkPacketBody_ret h; simp at this
  · exfalso
    obtain ⟨h1, h2, -⟩ := popInto_more [] (by omega) hp
    rw [if_neg (by omega)] at h
    have := checkPacketBody_ret h; simp at this

/-- Bytes behind a finished packet do not matter. -/
theorem collect_more {p q : Pd} {r : PktRet} (b : List Byte) (hle : p.packetBufLen ≤ p.packetLen)
    (h : collect p = .ok (q, r)) (hr : r ≠ .wait) :
    collect (setRx p (p.rx ++ b)) = .ok (setRx q (q.rx ++ b), r) := by
  unfold collect at h
  obtain ⟨p1, hp, h⟩ := Res.bind_eq_ok.mp h
  have hlen : p.packetLen - p.packetBufLen ≤ p.rx.length := by
    by_cases ha : p.rx.length ≤ p.packetLen - p.packetBufLen
    · obtain ⟨h1, h2, h3, -, h4⟩ := popInto_short b ha hp
      split at h
      · injection h with h; injection h with _ h; exact absurd h.symm hr
      · omega
    · omega
  obtain ⟨h1, h2, -, h3⟩ := popInto_more b hlen hp
  rw [if_neg (by omega)] at h
  unfold collect
  have hne : p1.packetBufLen = p1.packetLen := by omega
  simp only [setRx_packetLen, setRx_packetBufLen, h3, Res.ok_bind, hne, ne_eq, not_true_eq_false, if_false]
  rw [checkPacketBody_setRx, h]
  have : q.rx = p1.rx := by
    have := checkPacketBody_setRx p1 p1.rx
    rw [setRx_self, h, mapRx_ok] at this
    injection this with this; injection this with this _
    rw [this]; rfl
  rw [mapRx_ok, this]

theorem headerRest_resume {p q : Pd} (b : List Byte) (hle : p.packetBufLen ≤ 4)
    (h : headerRest p = .ok (q, .err .wait)) :
    q.rx = [] ∧ q.packetLen = p.packetLen ∧ q.packetBufLen = p.packetBufLen + p.rx.length ∧ q.packetBufLen ≤ 4 ∧
    q.packetBufLen ≤ q.packetBuf.length ∧
    headerRest (setRx q b) = headerRest (setRx p (p.rx ++ b)) := by
  unfold headerRest at h
  obtain ⟨p1, hp, h⟩ := Res.bind_eq_ok.mp h
  have hnw : ¬ headerFields p1 = .ok (.err .wait) := by
    intro h
    unfold headerFields at h
    simp only [Res.bind_eq_ok] at h
    obtain ⟨a, -, h⟩ := h
    split at h
    · simp at h
    · obtain ⟨a, -, h⟩ := Res.bind_eq_ok.mp h
      split at h
      · simp at h
      · simp only [Res.bind_eq_ok] at h
        obtain ⟨a, -, b, -, h⟩ := h
        split at h <;> simp at h
  by_cases hw : p1.packetBufLen < 5
  · rw [if_pos hw] at h
    injection h with h; injection h with h _; subst h
    by_cases ha : p.rx.length ≤ 5 - p.packetBufLen
    · obtain ⟨h1, h2, h3, -, h4⟩ := popInto_short b ha hp
      refine ⟨h1, h3, h2, by omega, popInto_le hp, ?_⟩
      unfold headerRest
      have e : 5 - p1.packetBufLen = 5 - p.packetBufLen - p.rx.length := by omega
      simp only [setRx_packetBufLen, e, h4]
    · obtain ⟨h1, -⟩ := popInto_more [] (by omega) hp
      omega
  · rw [if_neg hw] at h
    obtain ⟨a, h1, h⟩ := Res.bind_eq_ok.mp h
    injection h with h; injection h with _ h; subst h
    exact absurd h1 hnw

theorem headerRest_more {p q : Pd} {r : HdrRet} (b : List Byte)
    (h : headerRest p = .ok (q, r)) (hr : r ≠ .err .wait) :
    headerRest (setRx p (p.rx ++ b)) = .ok (setRx q (q.rx ++ b), r) := by
  unfold headerRest at h
  obtain ⟨p1, hp, h⟩ := Res.bind_eq_ok.mp h
  by_cases hw : p1.packetBufLen < 5
  · rw [if_pos hw] at h
    injection h with h; injection h with _ h; exact absurd h.symm hr
  · rw [if_neg hw] at h
    obtain ⟨a, h1, h⟩ := Res.bind_eq_ok.mp h
    injection h with h; injection h with h h'; subst h; subst h'
    have ha : 5 - p.packetBufLen ≤ p.rx.length := by
      by_cases ha : p.rx.length ≤ 5 - p.packetBufLen
      · obtain ⟨h1, h2, h3, -, h4⟩ := popInto_short b ha hp; omega
      · omega
    obtain ⟨h2, h3, -, h4⟩ := popInto_more b ha hp
    unfold headerRest
    simp only [setRx_packetBufLen, h4, Res.ok_bind, hw, if_false, headerFields_setRx, h1]; rfl

theorem headerFields_ret {p : Pd} {r : HdrRet} (h : headerFields p = .ok r) :
    r = .err .fmt ∨ r = .err .skip ∨ ∃ n, r = .len (n + markLen p) ∧ 6 ≤ n ∧ n ≤ 256 := by
  unfold headerFields at h
  simp only [Res.bind_eq_ok] at h
  obtain ⟨a, -, h⟩ := h
  split at h
  · simp at h; simp [← h]
  · obtain ⟨a, -, h⟩ := Res.bind_eq_ok.mp h
    split at h
    · simp at h; simp [← h]
    · simp only [Res.bind_eq_ok] at h
      obtain ⟨a, -, b, -, h⟩ := h
      split at h
      · simp at h; simp [← h]
      · rename_i hn
        injection h with h
        exact .inr (.inr ⟨_, h.symm, by simp only [BUF_SIZE] at hn; omega, by simp only [BUF_SIZE] at hn; omega⟩)

theorem scan_none {prev : Byte} {a : List Byte} (b : List Byte) (h : scan prev a = none) :
    scan prev (a ++ b) = scan (a.getLast?.getD prev) b := by
  induction a generalizing prev with
  | nil => rfl
  | cons x a ih =>
    rw [scan] at h
    split at h
    · cases h
    · rename_i hx
      rw [List.cons_append, scan, if_neg hx, ih h, List.getLast?_cons]; simp

theorem scan_none_som {prev : Byte} {a : List Byte} (h : scan prev a = none) : SOM ∉ a := by
  induction a generalizing prev with
  | nil => simp
  | cons x a ih =>
    rw [scan] at h
    split at h
    · cases h
    · rename_i hx
      simp only [List.mem_cons, not_or]
      exact ⟨fun he => hx he.symm, ih h⟩

theorem scan_some {prev : Byte} {a : List Byte} {m : Bool} {rest : List Byte} (b : List Byte)
    (h : scan prev a = some (m, rest)) : scan prev (a ++ b) = some (m, rest ++ b) := by
  induction a generalizing prev with
  | nil => simp [scan] at h
  | cons x a ih =>
    rw [scan] at h
    rw [List.cons_append, scan]
    split at h
    · rename_i hx; rw [if_pos hx]; injection h with h; injection h with h1 h2; rw [h1, h2]
    · rename_i hx; rw [if_neg hx, ih h]

theorem scan_prev (prev : Byte) (b : List Byte) (h : prev ≠ MARK ∨ b.head? ≠ some SOM) :
    scan prev b = scan 0#8 b := by
  cases b with
  | nil => rfl
  | cons x b =>
    rw [scan, scan]
    split
    · rename_i hx
      have : prev ≠ MARK := by
        rcases h with h | h
        · exact h
        · exact absurd (by simp [hx]) h
      have h0 : (0#8 : Byte) ≠ MARK := by decide
      simp [this, h0]
    · rfl

/-- start a packet -/
def startPkt (p : Pd) (buf : List Byte) (n : Nat) (m : Bool) : Pd :=
  { p with packetBuf := buf, packetBufLen := n, flags := { p.flags with hasMark := m } }

@[simp] theorem startPkt_packetBufLen (p : Pd) (buf n m) : (startPkt p buf n m).packetBufLen = n := rfl
@[simp] theorem startPkt_packetLen (p : Pd) (buf n m) : (startPkt p buf n m).packetLen = p.packetLen := rfl
@[simp] theorem startPkt_packetBuf (p : Pd) (buf n m) : (startPkt p buf n m).packetBuf = buf := rfl
@[simp] theorem startPkt_rx (p : Pd) (buf n m) : (startPkt p buf n m).rx = p.rx := rfl
theorem setRx_startPkt (p : Pd) (buf n m x) : setRx (startPkt p buf n m) x = startPkt (setRx p x) buf n m := rfl

/-- the bytes stored when a packet starts -/
def startBytes (m : Bool) : List Byte := if m then [MARK, SOM] else [SOM]

theorem headerStart_scan (p : Pd) (h : p.packetBufLen = 0) : headerStart p =
    match scan 0#8 p.rx with
    | none => .ok (setRx p [], false)
    | some (m, rest) => writeAt p.packetBuf 0 (startBytes m) >>= fun buf =>
        .ok (startPkt (setRx p rest) buf (startBytes m).length m, true) := by
  unfold headerStart
  rw [if_pos h]
  cases scan 0#8 p.rx with
  | none => rfl
  | some v => rcases v with ⟨m, rest⟩; cases m <;> rfl

/-- what the receiver maintains between two refresh calls -/
def RxOk (p : Pd) : Prop :=
  p.packetBufLen ≤ p.packetBuf.length ∧
  ((p.packetLen = 0 ∧ p.packetBufLen ≤ 4) ∨
   (p.packetLen ≠ 0 ∧ 5 ≤ p.packetBufLen ∧ p.packetBufLen < p.packetLen))

theorem collect_wait_le {p q : Pd} (h : collect p = .ok (q, .wait)) : p.packetBufLen ≤ q.packetBufLen := by
  unfold collect at h
  obtain ⟨p3, hp, hc⟩ := Res.bind_eq_ok.mp h
  split at hc
  · injection hc with hc; injection hc with hc _; subst hc
    obtain ⟨buf, -, rfl⟩ := popInto_inv hp
    simp
  · have := checkPacketBody_ret hc; simp at this

theorem collect_rxOk {p q : Pd} (hle : p.packetBufLen ≤ p.packetLen) (h5 : 5 ≤ p.packetBufLen)
    (h : collect p = .ok (q, .wait)) : RxOk q := by
  obtain ⟨-, h1, h2, h3, -⟩ := collect_resume [] hle h
  have := collect_wait_le h
  exact ⟨h3, .inr ⟨by omega, by omega, by omega⟩⟩

theorem assembleFrom_step {p q : Pd} {r : PktRet} (b : List Byte) (hl : p.packetLen = 0)
    (hle : p.packetBufLen ≤ 4) (h : assembleFrom p = .ok (q, r)) :
    (r = .wait → RxOk q ∧ q.rx = [] ∧ (p.packetBufLen ≠ 0 → q.packetBufLen ≠ 0) ∧
      ((q.packetLen = 0 ∧ assembleFrom (setRx q b) = assembleFrom (setRx p (p.rx ++ b))) ∨
       (q.packetLen ≠ 0 ∧ collect (setRx q b) = assembleFrom (setRx p (p.rx ++ b))))) ∧
    (r ≠ .wait → r ≠ .noData ∧ assembleFrom (setRx p (p.rx ++ b)) = .ok (setRx q (q.rx ++ b), r)) := by
  unfold assembleFrom at h
  obtain ⟨⟨p1, hr⟩, h1, h⟩ := Res.bind_eq_ok.mp h
  by_cases hw : hr = .err .wait
  · subst hw
    obtain ⟨a1, a2, a3, a4, a6, a5⟩ := headerRest_resume b hle h1
    injection h with h; injection h with h h'; subst h; subst h'
    refine ⟨fun _ => ⟨⟨a6, .inl ⟨by rw [← hl, ← a2], a4⟩⟩, a1, by dsimp only; omega, .inl ⟨by rw [← hl, ← a2], ?_⟩⟩,
      fun h => absurd rfl h⟩
    unfold assembleFrom; rw [a5]
  · have hm := headerRest_more b h1 hw
    have hb : 5 ≤ p1.packetBufLen ∧ p1.packetBufLen ≤ 5 ∧ headerFields p1 = .ok hr := by
      unfold headerRest at h1
      obtain ⟨p2, hp, h1⟩ := Res.bind_eq_ok.mp h1
      split at h1
      · injection h1 with h1; injection h1 with _ h1; exact absurd h1.symm hw
      · obtain ⟨a, h2, h1⟩ := Res.bind_eq_ok.mp h1
        injection h1 with h1; injection h1 with h1 h3; subst h1; subst h3
        refine ⟨by omega, ?_, h2⟩
        obtain ⟨buf, -, rfl⟩ := popInto_inv hp
        simp; omega
    rcases headerFields_ret hb.2.2 with e | e | ⟨n, e, hn⟩
    · subst e
      injection h with h; injection h with h h'; subst h; subst h'
      refine ⟨fun h => (by cases h), fun _ => ⟨by simp, ?_⟩⟩
      unfold assembleFrom; rw [hm]; rfl
    · subst e
      injection h with h; injection h with h h'; subst h; subst h'
      refine ⟨fun h => (by cases h), fun _ => ⟨by simp, ?_⟩⟩
      unfold assembleFrom; rw [hm]; rfl
    · subst e
      have hc : collect (setLen p1 (n + markLen p1)) = .ok (q, r) := h
      have hle' : (setLen p1 (n + markLen p1)).packetBufLen ≤ (setLen p1 (n + markLen p1)).packetLen := by
        simp; omega
      constructor
      · intro hw; subst hw
        obtain ⟨c1, c2, c3, -, c4⟩ := collect_resume b hle' hc
        have hq : (setLen p1 (n + markLen p1)).packetBufLen ≤ q.packetBufLen := collect_wait_le hc
        rw [setLen_packetBufLen] at hq
        refine ⟨collect_rxOk hle' (by simp; omega) hc, c1, by omega, .inr ⟨by omega, ?_⟩⟩
        rw [c4]; unfold assembleFrom; rw [hm]; rfl
      · intro hw
        refine ⟨?_, ?_⟩
        · intro hn; subst hn
          unfold collect at hc
          obtain ⟨p3, hp, hc⟩ := Res.bind_eq_ok.mp hc
          split at hc
          · injection hc with hc; injection hc with _ hc; cases hc
          · have := checkPacketBody_ret hc; simp at this
        · unfold assembleFrom; rw [hm]
          exact collect_more b hle' hc hw

/-- One refresh worth of bytes, then more: the same as all of them at once, unless the bytes were cut
between a mark byte and the start of a packet. -/
theorem assemble_step {p q : Pd} {r : PktRet} (b : List Byte) (hok : RxOk p)
    (h : assemble p = .ok (q, r)) :
    (r = .wait → RxOk q ∧ q.rx = [] ∧ q.packetBufLen ≠ 0 ∧
      assemble (setRx q b) = assemble (setRx p (p.rx ++ b))) ∧
    (r = .noData → q = setRx p [] ∧ p.packetBufLen = 0 ∧ SOM ∉ p.rx ∧
      (p.rx.getLast? ≠ some MARK ∨ b.head? ≠ some SOM →
        assemble (setRx q b) = assemble (setRx p (p.rx ++ b)))) ∧
    (r ≠ .wait → r ≠ .noData → assemble (setRx p (p.rx ++ b)) = .ok (setRx q (q.rx ++ b), r)) := by
  by_cases hl : p.packetLen = 0
  · rw [assemble_eq p hl] at h
    have hle : p.packetBufLen ≤ 4 := by
      rcases hok.2 with ⟨_, h⟩ | ⟨h, _, _⟩
      · exact h
      · exact absurd hl h
    obtain ⟨⟨p1, f⟩, h1, h⟩ := Res.bind_eq_ok.mp h
    by_cases hb : p.packetBufLen = 0
    · rw [headerStart_scan p hb] at h1
      cases hs : scan 0#8 p.rx with
      | none =>
        rw [hs] at h1
        injection h1 with h1; injection h1 with h1 h2; subst h1; subst h2
        injection h with h; injection h with h h2; subst h; subst h2
        refine ⟨fun h => (by cases h), fun _ => ⟨rfl, hb, scan_none_som hs, fun hc => ?_⟩, fun _ h => absurd rfl h⟩
        have e1 := scan_none b hs
        rw [scan_prev _ b (by
          rcases hc with hc | hc
          · left; cases hl : p.rx.getLast? with
            | none => simp; decide
            | some x => rw [hl] at hc; simpa using hc
          · exact .inr hc)] at e1
        rw [assemble_eq _ (show (setRx (setRx p []) b).packetLen = 0 from hl),
          assemble_eq _ (show (setRx p (p.rx ++ b)).packetLen = 0 from hl),
          headerStart_scan _ (show (setRx (setRx p []) b).packetBufLen = 0 from hb),
          headerStart_scan _ (show (setRx p (p.rx ++ b)).packetBufLen = 0 from hb)]
        simp only [setRx_rx, e1, setRx_setRx, setRx_packetBuf]
      | some v =>
        rcases v with ⟨m, rest⟩
        rw [hs] at h1
        obtain ⟨buf, hw, h1⟩ := Res.bind_eq_ok.mp h1
        injection h1 with h1; injection h1 with h1 h2; subst h1; subst h2
        have e2 := scan_some b hs
        have hB : (startBytes m).length ≤ 2 ∧ 1 ≤ (startBytes m).length := by cases m <;> simp [startBytes]
        obtain ⟨A, B⟩ := assembleFrom_step b (p := startPkt (setRx p rest) buf (startBytes m).length m)
          (by exact hl) (by simp; omega) h
        have e3 : assemble (setRx p (p.rx ++ b)) =
            assembleFrom (setRx (startPkt (setRx p rest) buf (startBytes m).length m) (rest ++ b)) := by
          rw [assemble_eq _ (show (setRx p (p.rx ++ b)).packetLen = 0 from hl),
            headerStart_scan _ (show (setRx p (p.rx ++ b)).packetBufLen = 0 from hb)]
          simp only [setRx_rx, e2, setRx_packetBuf, hw, Res.ok_bind, if_true, setRx_setRx, setRx_startPkt]
        have e4 : (startPkt (setRx p rest) buf (startBytes m).length m).rx ++ b = rest ++ b := rfl
        rw [e4] at A B
        refine ⟨fun hr => ?_, fun hr => ?_, fun hr1 hr2 => ?_⟩
        · obtain ⟨a1, a2, a3, a4⟩ := A hr
          have hq0 : q.packetBufLen ≠ 0 := a3 (by rw [startPkt_packetBufLen]; omega)
          refine ⟨a1, a2, hq0, ?_⟩
          rw [e3]
          rcases a4 with ⟨b1, b2⟩ | ⟨b1, b2⟩
          · rw [← b2, assemble_eq _ (show (setRx q b).packetLen = 0 from b1)]
            unfold headerStart
            rw [if_neg (show ¬ (setRx q b).packetBufLen = 0 from hq0)]; rfl
          · rw [← b2, assemble_collect _ (show (setRx q b).packetLen ≠ 0 from b1)]
        · exact absurd hr (B (by simp [hr])).1
        · rw [e3]; exact (B hr1).2
    · have e0 : ∀ x, assemble (setRx p x) = assembleFrom (setRx p x) := by
        intro x
        rw [assemble_eq _ (show (setRx p x).packetLen = 0 from hl)]
        unfold headerStart
        rw [if_neg (show ¬ (setRx p x).packetBufLen = 0 from hb)]; rfl
      have hf : assembleFrom p = .ok (q, r) := by
        unfold headerStart at h1
        rw [if_neg hb] at h1
        injection h1 with h1; injection h1 with h1 h2; subst h1; subst h2
        exact h
      obtain ⟨A, B⟩ := assembleFrom_step b hl hle hf
      refine ⟨fun hr => ?_, fun hr => ?_, fun hr1 hr2 => ?_⟩
      · obtain ⟨a1, a2, a3, a4⟩ := A hr
        have hq0 : q.packetBufLen ≠ 0 := a3 hb
        refine ⟨a1, a2, hq0, ?_⟩
        rw [e0]
        rcases a4 with ⟨b1, b2⟩ | ⟨b1, b2⟩
        · rw [← b2, assemble_eq _ (show (setRx q b).packetLen = 0 from b1)]
          unfold headerStart
          rw [if_neg (show ¬ (setRx q b).packetBufLen = 0 from hq0)]; rfl
        · rw [← b2, assemble_collect _ (show (setRx q b).packetLen ≠ 0 from b1)]
      · exact absurd hr (B (by simp [hr])).1
      · rw [e0]; exact (B hr1).2
  · have hle : 5 ≤ p.packetBufLen ∧ p.packetBufLen ≤ p.packetLen := by
      rcases hok.2 with ⟨h, _⟩ | ⟨_, h1, h2⟩
      · exact absurd h hl
      · omega
    rw [assemble_collect p hl] at h
    have e0 : ∀ x, assemble (setRx p x) = collect (setRx p x) := fun x =>
      assemble_collect _ (show (setRx p x).packetLen ≠ 0 from hl)
    refine ⟨fun hr => ?_, fun hr => ?_, fun hr1 hr2 => ?_⟩
    · subst hr
      obtain ⟨c1, c2, c3, -, c4⟩ := collect_resume b hle.2 h
      have := collect_wait_le h
      refine ⟨collect_rxOk hle.2 hle.1 h, c1, by omega, ?_⟩
      · rw [assemble_collect _ (show (setRx q b).packetLen ≠ 0 by rw [setRx_packetLen, c2]; exact hl), c4, e0]
    · subst hr
      exfalso
      unfold collect at h
      obtain ⟨p3, hp, h⟩ := Res.bind_eq_ok.mp h
      split at h
      · injection h with h; injection h with _ h; cases h
      · have := checkPacketBody_ret h; simp at this
    · rw [e0]; exact collect_more b hle.2 h hr1

/-! ### the time stamp plays no role in recognising packets -/

/-- replace the time stamp -/
def setTs (p : Pd) (t : Int) : Pd := { p with tstamp := t }

/-- carry the time stamp through a result -/
def mapTs {β} (t : Int) (r : Res (Pd × β)) : Res (Pd × β) := r.map fun q => (setTs q.1 t, q.2)

theorem popInto_setTs (p : Pd) (n : Nat) (t : Int) :
    popInto (setTs p t) n = (popInto p n).map fun q => setTs q t := by
  rw [popInto_eq, popInto_eq]
  show (writeAt p.packetBuf p.packetBufLen (p.rx.take n) >>= _) = _
  cases writeAt p.packetBuf p.packetBufLen (p.rx.take n) <;> rfl

theorem seqVerdict_setTs (p : Pd) (c t) :
    seqVerdict (setTs p t) c = (setTs (seqVerdict p c).1 t, (seqVerdict p c).2) := by
  unfold seqVerdict
  by_cases h : seqBits p.seq ≠ c ∧ ¬ p.flags.skipSeqCheck
  · rw [if_pos h, if_pos (show seqBits (setTs p t).seq ≠ c ∧ ¬ (setTs p t).flags.skipSeqCheck from h)]; rfl
  · rw [if_neg h, if_neg (show ¬ (seqBits (setTs p t).seq ≠ c ∧ ¬ (setTs p t).flags.skipSeqCheck) from h)]

theorem pdSeqPrep_setTs (p : Pd) (c b t) : pdSeqPrep (setTs p t) c b = setTs (pdSeqPrep p c b) t := by
  have hs : (setTs p t).seq = p.seq := rfl
  unfold pdSeqPrep
  by_cases h1 : c = 0
  · simp only [h1, if_true]; cases b <;> rfl
  · by_cases h2 : (c : Int) = p.seq
    · simp only [h1, if_false, hs, h2, if_true]; cases b <;> rfl
    · simp only [h1, if_false, hs, h2]; cases b <;> rfl

theorem checkSeq_setTs (p : Pd) (pkt m c b t) :
    checkSeq (setTs p t) pkt m c b = mapTs t (checkSeq p pkt m c b) := by
  unfold checkSeq
  by_cases h : p.isPd = true
  · have h' : (setTs p t).isPd = true := h
    rw [if_pos h, if_pos h', pdSeqPrep_setTs]
    exact congrArg Except.ok (seqVerdict_setTs (pdSeqAdvance (pdSeqPrep p c b)) _ _)
  · have h' : ¬ (setTs p t).isPd = true := h
    rw [if_neg h, if_neg h']
    cases isBusy pkt m c with
    | error e => rfl
    | ok b => cases b <;> simp [seqVerdict_setTs] <;> rfl

theorem checkPacketBody_setTs (p : Pd) (t) :
    checkPacketBody (setTs p t) = mapTs t (checkPacketBody p) := by
  unfold checkPacketBody
  have e1 : markLen (setTs p t) = markLen p := rfl
  have e2 : (setTs p t).packetBuf = p.packetBuf := rfl
  have e3 : (setTs p t).packetLen = p.packetLen := rfl
  simp only [e1, e2, e3]
  cases checkValue (List.drop (markLen p) p.packetBuf) (p.packetLen - markLen p) with
  | error e => rfl
  | ok v =>
    rcases v with ⟨m, ok⟩
    cases ok
    · rfl
    · simp only [Res.ok_bind, Bool.not_true, Bool.false_eq_true, if_false]
      cases rd (List.drop (markLen p) p.packetBuf) 1 with
      | error e => rfl
      | ok a =>
        simp only [Res.ok_bind]
        by_cases h : ((a &&& 0x7F#8).toNat : Int) ≠ p.address ∧ (a &&& 0x7F#8).toNat ≠ 0x7F
        · have h' : ((a &&& 0x7F#8).toNat : Int) ≠ (setTs p t).address ∧ (a &&& 0x7F#8).toNat ≠ 0x7F := h
          rw [if_pos h, if_pos h']; rfl
        · have h' : ¬ (((a &&& 0x7F#8).toNat : Int) ≠ (setTs p t).address ∧ (a &&& 0x7F#8).toNat ≠ 0x7F) := h
          rw [if_neg h, if_neg h']
          cases rd (List.drop (markLen p) p.packetBuf) 4 with
          | error e => rfl
          | ok c => exact checkSeq_setTs _ _ _ _ _ _

theorem collect_setTs (p : Pd) (t) : collect (setTs p t) = mapTs t (collect p) := by
  unfold collect
  rw [show (setTs p t).packetLen - (setTs p t).packetBufLen = p.packetLen - p.packetBufLen from rfl,
    popInto_setTs]
  cases popInto p (p.packetLen - p.packetBufLen) with
  | error e => rfl
  | ok q =>
    show (if q.packetBufLen ≠ q.packetLen then _ else checkPacketBody (setTs q t)) = mapTs t (if _ then _ else _)
    rw [checkPacketBody_setTs]
    split <;> rfl

theorem headerRest_setTs (p : Pd) (t) : headerRest (setTs p t) = mapTs t (headerRest p) := by
  unfold headerRest
  rw [show (setTs p t).packetBufLen = p.packetBufLen from rfl, popInto_setTs]
  cases popInto p (5 - p.packetBufLen) with
  | error e => rfl
  | ok q =>
    show (if q.packetBufLen < 5 then _ else headerFields q >>= _) = mapTs t (if q.packetBufLen < 5 then _ else _)
    split
    · rfl
    · cases headerFields q <;> rfl

theorem headerStart_setTs (p : Pd) (t) : headerStart (setTs p t) = mapTs t (headerStart p) := by
  by_cases h : p.packetBufLen = 0
  · rw [headerStart_scan p h, headerStart_scan (setTs p t) h]
    show (match scan 0#8 p.rx with
      | none => _
      | some (m, rest) => writeAt p.packetBuf 0 (startBytes m) >>= _) = _
    cases scan 0#8 p.rx with
    | none => rfl
    | some v => rcases v with ⟨m, rest⟩; dsimp only; cases writeAt p.packetBuf 0 (startBytes m) <;> rfl
  · unfold headerStart
    rw [if_neg h, if_neg (show ¬ (setTs p t).packetBufLen = 0 from h)]; rfl

theorem assemble_setTs (p : Pd) (t) : assemble (setTs p t) = mapTs t (assemble p) := by
  by_cases h : p.packetLen = 0
  · rw [assemble_eq p h, assemble_eq (setTs p t) h, headerStart_setTs]
    cases headerStart p with
    | error e => rfl
    | ok r =>
      rcases r with ⟨q, f⟩
      cases f
      · rfl
      · show assembleFrom (setTs q t) = mapTs t (assembleFrom q)
        unfold assembleFrom
        rw [headerRest_setTs]
        cases headerRest q with
        | error e => rfl
        | ok s =>
          rcases s with ⟨s, r⟩
          cases r with
          | err e => rfl
          | len k => exact collect_setTs (setLen s k) t
  · rw [assemble_collect p h, assemble_collect (setTs p t) h, collect_setTs]

/-! ### faults do not go away when more bytes arrive -/

theorem popInto_error {p : Pd} {n : Nat} {e : Fault} (b : List Byte) (h : popInto p n = .error e) :
    popInto (setRx p (p.rx ++ b)) n = .error e := by
  rw [popInto_eq] at h ⊢
  unfold writeAt at h ⊢
  simp only [setRx_rx, setRx_packetBuf, setRx_packetBufLen] at h ⊢
  by_cases hc : p.packetBufLen + (p.rx.take n).length ≤ p.packetBuf.length
  · rw [if_pos hc] at h; cases h
  · rw [if_neg hc] at h
    have : ¬ p.packetBufLen + ((p.rx ++ b).take n).length ≤ p.packetBuf.length := by
      simp only [List.length_take, List.length_append] at hc ⊢; omega
    simp only [this, if_false]; exact h

theorem collect_error {p : Pd} {e : Fault} (b : List Byte) (hle : p.packetBufLen ≤ p.packetLen)
    (h : collect p = .error e) :
    collect (setRx p (p.rx ++ b)) = .error e := by
  unfold collect at h ⊢
  simp only [setRx_packetLen, setRx_packetBufLen]
  cases hp : popInto p (p.packetLen - p.packetBufLen) with
  | error e' => rw [hp] at h; rw [popInto_error b hp]; exact h
  | ok q =>
    rw [hp, Res.ok_bind] at h
    by_cases ha : p.rx.length < p.packetLen - p.packetBufLen
    · obtain ⟨-, h2, h3, -⟩ := popInto_short b (by omega) hp
      rw [if_pos (by omega)] at h; cases h
    · obtain ⟨h1, h2, -, h3⟩ := popInto_more b (by omega) hp
      have hne : q.packetBufLen = q.packetLen := by omega
      rw [h3]
      simp only [Res.ok_bind, setRx_packetBufLen, setRx_packetLen, hne, ne_eq, not_true_eq_false, if_false] at h ⊢
      rw [checkPacketBody_setRx, h]; rfl

theorem assembleFrom_error {p : Pd} {e : Fault} (b : List Byte) (hl : p.packetBufLen ≤ 4)
    (h : assembleFrom p = .error e) : assembleFrom (setRx p (p.rx ++ b)) = .error e := by
  unfold assembleFrom at h ⊢
  cases hr : headerRest p with
  | error e' =>
    rw [hr] at h
    have : headerRest (setRx p (p.rx ++ b)) = .error e' := by
      unfold headerRest at hr ⊢
      simp only [setRx_packetBufLen]
      cases hp : popInto p (5 - p.packetBufLen) with
      | error e'' => rw [hp] at hr; rw [popInto_error b hp]; exact hr
      | ok q =>
        rw [hp, Res.ok_bind] at hr
        by_cases hw : q.packetBufLen < 5
        · rw [if_pos hw] at hr; cases hr
        · rw [if_neg hw] at hr
          have ha : 5 - p.packetBufLen ≤ p.rx.length := by
            by_cases ha : p.rx.length ≤ 5 - p.packetBufLen
            · obtain ⟨h1, h2, h3, -, h4⟩ := popInto_short b ha hp; omega
            · omega
          obtain ⟨h2, h3, -, h4⟩ := popInto_more b ha hp
          simp only [h4, Res.ok_bind, setRx_packetBufLen, hw, if_false, headerFields_setRx]
          cases hf : headerFields q with
          | error e3 => rw [hf] at hr; exact hr
          | ok v => rw [hf] at hr; cases hr
    rw [this]; exact h
  | ok r =>
    rcases r with ⟨q, r⟩
    rw [hr, Res.ok_bind] at h
    cases r with
    | err r => cases h
    | len k =>
      rw [headerRest_more b hr (by simp)]
      have hb : q.packetBufLen = 5 ∧ headerFields q = .ok (.len k) := by
        unfold headerRest at hr
        obtain ⟨p2, hp, hr⟩ := Res.bind_eq_ok.mp hr
        split at hr
        · injection hr with hr; injection hr with _ hr; cases hr
        · obtain ⟨a, h2, h1⟩ := Res.bind_eq_ok.mp hr
          injection h1 with h1; injection h1 with h1 h3; subst h1; subst h3
          refine ⟨?_, h2⟩
          obtain ⟨buf, -, rfl⟩ := popInto_inv hp
          simp at *; omega
      obtain ⟨hb1, hb2⟩ := hb
      rcases headerFields_ret hb2 with e | e | ⟨n, e, hn⟩
      · cases e
      · cases e
      · injection e with e
        exact collect_error (p := setLen q k) b (by simp; omega) h

theorem assemble_error {p : Pd} {e : Fault} (b : List Byte) (hok : RxOk p)
    (h : assemble p = .error e) : assemble (setRx p (p.rx ++ b)) = .error e := by
  by_cases hl : p.packetLen = 0
  · rw [assemble_eq _ hl] at h
    rw [assemble_eq _ (show (setRx p (p.rx ++ b)).packetLen = 0 from hl)]
    have hle : p.packetBufLen ≤ 4 := by
      rcases hok.2 with ⟨_, h⟩ | ⟨h, _, _⟩
      · exact h
      · exact absurd hl h
    by_cases hb : p.packetBufLen = 0
    · rw [headerStart_scan p hb] at h
      rw [headerStart_scan _ (show (setRx p (p.rx ++ b)).packetBufLen = 0 from hb)]
      cases hs : scan 0#8 p.rx with
      | none => rw [hs] at h; cases h
      | some v =>
        rcases v with ⟨m, rest⟩
        rw [hs] at h
        simp only [setRx_rx, scan_some b hs, setRx_packetBuf]
        cases hw : writeAt p.packetBuf 0 (startBytes m) with
        | error e' => simp only [hw] at h; exact h
        | ok buf =>
          simp only [hw, Res.ok_bind, if_true] at h ⊢
          exact assembleFrom_error (p := startPkt (setRx p rest) buf (startBytes m).length m) b
            (by cases m <;> simp [startBytes]) h
    · unfold headerStart at h ⊢
      rw [if_neg hb] at h
      rw [if_neg (show ¬ (setRx p (p.rx ++ b)).packetBufLen = 0 from hb)]
      exact assembleFrom_error b hle h
  · rw [assemble_collect p hl] at h
    rw [assemble_collect _ (show (setRx p (p.rx ++ b)).packetLen ≠ 0 from hl)]
    rcases hok.2 with ⟨h', _⟩ | ⟨_, _, h'⟩
    · exact absurd h' hl
    · exact collect_error b (by omega) h

theorem popInto_nil {p : Pd} (n : Nat) (h : p.packetBufLen ≤ p.packetBuf.length) (hrx : p.rx = []) :
    popInto p n = .ok p := by
  rw [popInto_eq, hrx, List.take_nil, writeAt_ok (by simpa using h)]
  simp only [Res.ok_bind, List.append_nil, List.length_nil, Nat.add_zero, List.take_append_drop, List.drop_nil]
  rw [← hrx]; rfl

/-- Without new bytes nothing changes. -/
theorem assemble_nil {p : Pd} (hok : RxOk p) (hrx : p.rx = []) :
    assemble p = .ok (p, .wait) ∨ assemble p = .ok (p, .noData) := by
  rcases hok with ⟨h1, ⟨h2, h3⟩ | ⟨h2, h3, h4⟩⟩
  · rw [assemble_eq p h2]
    by_cases hb : p.packetBufLen = 0
    · right
      rw [headerStart_scan p hb, hrx]
      show Except.ok (setRx p [], _) = _
      rw [← hrx]; rfl
    · left
      unfold headerStart
      rw [if_neg hb]
      show assembleFrom p = _
      unfold assembleFrom headerRest
      rw [popInto_nil _ h1 hrx, Res.ok_bind, if_pos (by omega)]; rfl
  · left
    rw [assemble_collect p h2]
    unfold collect
    rw [popInto_nil _ h1 hrx, Res.ok_bind, if_pos (by omega)]; rfl

/-! ### a complete frame -/

/-- set the mark flag -/
def setMark (p : Pd) (m : Bool) : Pd := { p with flags := { p.flags with hasMark := m } }

@[simp] theorem setMark_packetBuf (p : Pd) (m) : (setMark p m).packetBuf = p.packetBuf := rfl
@[simp] theorem setMark_pdMode (p : Pd) (m) : (setMark p m).flags.pdMode = p.flags.pdMode := rfl
@[simp] theorem markLen_setMark (p : Pd) (m) : markLen (setMark p m) = if m then 1 else 0 := rfl

/-- the state in which `l` has been collected and `x` is still in the FIFO -/
def hold (p : Pd) (l x : List Byte) : Pd := setBuf (setRx p x) (l ++ p.packetBuf.drop l.length) l.length

@[simp] theorem hold_packetBufLen (p : Pd) (l x) : (hold p l x).packetBufLen = l.length := rfl
@[simp] theorem hold_packetLen (p : Pd) (l x) : (hold p l x).packetLen = p.packetLen := rfl
@[simp] theorem hold_packetBuf (p : Pd) (l x) : (hold p l x).packetBuf = l ++ p.packetBuf.drop l.length := rfl
@[simp] theorem hold_rx (p : Pd) (l x) : (hold p l x).rx = x := rfl
@[simp] theorem hold_flags (p : Pd) (l x) : (hold p l x).flags = p.flags := rfl
@[simp] theorem markLen_hold (p : Pd) (l x) : markLen (hold p l x) = markLen p := rfl

theorem writeAt_hold (old l bs : List Byte) (h : l.length + bs.length ≤ old.length) :
    writeAt (l ++ old.drop l.length) l.length bs = .ok (l ++ bs ++ old.drop (l ++ bs).length) := by
  rw [writeAt_ok (by simp; omega)]
  congr 1
  rw [List.take_left, ← List.drop_drop, List.drop_left, List.drop_drop, List.length_append]

theorem popInto_hold (p : Pd) (l x : List Byte) (n : Nat) (h : l.length + (x.take n).length ≤ p.packetBuf.length) :
    popInto (hold p l x) n = .ok (hold p (l ++ x.take n) (x.drop n)) := by
  rw [popInto_eq]
  simp only [hold_rx, hold_packetBuf, hold_packetBufLen]
  rw [writeAt_hold _ _ _ h]
  simp only [Res.ok_bind, List.length_append]
  unfold hold
  simp only [List.length_append]; rfl

theorem headerStart_frame (p : Pd) (m : Bool) (rest : List Byte) (hb : p.packetBufLen = 0)
    (hl : 2 ≤ p.packetBuf.length) (hrx : p.rx = startBytes m ++ rest) :
    headerStart p = .ok (hold (setMark p m) (startBytes m) rest, true) := by
  have hs : scan 0#8 p.rx = some (m, rest) := by
    have h1 : ¬ (0#8 = MARK) := by decide
    have h2 : ¬ (MARK = SOM) := by decide
    rw [hrx]; cases m <;> simp [startBytes, scan, h1, h2]
  rw [headerStart_scan p hb, hs]
  have hm : (startBytes m).length ≤ 2 := by cases m <;> simp [startBytes]
  simp only
  rw [writeAt_ok (by omega)]
  simp only [List.take_zero, List.nil_append, Nat.zero_add, Res.ok_bind]; rfl

/-- does the direction bit of the address byte fit -/
def dirOk (p : Pd) (a : Byte) : Bool := hasBit a 0x80#8 == p.isCp

/-- the state in which a whole frame has been collected -/
def loaded (p : Pd) (m : Bool) (f rest : List Byte) : Pd :=
  setLen (hold (setMark p m) ((if m then [MARK] else []) ++ f) rest) (f.length + if m then 1 else 0)

theorem rd_ok {l : List Byte} {i : Nat} {b : Byte} (h : l[i]? = some b) : rd l i = .ok b := by
  unfold rd; rw [h]

/-- A complete frame of the right direction in the FIFO of an idle receiver is collected whole. -/
theorem assemble_frame (p : Pd) (m : Bool) (a lo hi ctl : Byte) (tail rest : List Byte)
    (hb : p.packetBufLen = 0) (hpl : p.packetLen = 0) (hbuf : p.packetBuf.length = 256)
    (hrx : p.rx = (if m then [MARK] else []) ++ (SOM :: a :: lo :: hi :: ctl :: tail) ++ rest)
    (hlen : (SOM :: a :: lo :: hi :: ctl :: tail).length = lo.toNat + 256 * hi.toNat)
    (h6 : tail ≠ []) (hmax : (if m then 1 else 0) + (SOM :: a :: lo :: hi :: ctl :: tail).length ≤ 256)
    (hdir : dirOk p a = true) :
    assemble p = checkPacketBody (loaded p m (SOM :: a :: lo :: hi :: ctl :: tail) rest) := by
  have htl : 0 < tail.length := List.length_pos_iff.mpr h6
  have hrx' : p.rx = startBytes m ++ (a :: lo :: hi :: ctl :: tail ++ rest) := by
    rw [hrx]; cases m <;> simp [startBytes]
  rw [assemble_eq p hpl, headerStart_frame p m _ hb (by omega) hrx']
  simp only [Res.ok_bind, if_true]
  unfold assembleFrom headerRest
  have hm : (startBytes m).length = 1 + (if m then 1 else 0) := by cases m <;> rfl
  simp only [hold_packetBufLen]
  rw [popInto_hold _ _ _ _ (by simp only [setMark_packetBuf, List.length_take]; cases m <;> simp [startBytes] <;> omega)]
  simp only [Res.ok_bind, hold_packetBufLen]
  have h5 : (startBytes m ++ List.take (5 - (startBytes m).length) (a :: lo :: hi :: ctl :: tail ++ rest)).length = 5 := by
    cases m <;> simp [startBytes]
  have h5' : ¬ (startBytes m ++ List.take (5 - (startBytes m).length) (a :: lo :: hi :: ctl :: tail ++ rest)).length < 5 := by
    omega
  simp only [h5', if_false]
  have hf : headerFields (hold (setMark p m) (startBytes m ++ List.take (5 - (startBytes m).length)
      (a :: lo :: hi :: ctl :: tail ++ rest)) (List.drop (5 - (startBytes m).length)
      (a :: lo :: hi :: ctl :: tail ++ rest))) =
      .ok (.len ((SOM :: a :: lo :: hi :: ctl :: tail).length + if m then 1 else 0)) := by
    unfold headerFields
    simp only [markLen_hold, markLen_setMark, hold_packetBuf]
    have hd : ((!p.flags.pdMode && !hasBit a 0x80#8) || (p.flags.pdMode && hasBit a 0x80#8)) = false := by
      unfold dirOk at hdir
      simp only [Pd.isCp] at hdir
      revert hdir; cases hasBit a 0x80#8 <;> cases p.flags.pdMode <;> simp
    have hn : ¬ (lo.toNat + 256 * hi.toNat > BUF_SIZE ∨ lo.toNat + 256 * hi.toNat < 6) := by
      simp only [BUF_SIZE]
      rw [← hlen]; simp only [List.length_cons] at hmax ⊢
      split at hmax <;> omega
    cases m
    · simp only [startBytes, Bool.false_eq_true, if_false, List.drop_zero, List.length_cons, List.length_nil,
        List.cons_append, List.nil_append, List.take]
      rw [rd_ok (b := SOM) rfl]
      simp only [Res.ok_bind, ne_eq, not_true_eq_false, if_false]
      rw [rd_ok (b := a) rfl]
      simp only [Res.ok_bind]
      simp only [Pd.isCp, Pd.isPd, hold_flags, setMark_pdMode, hd]
      rw [rd_ok (b := lo) rfl, rd_ok (b := hi) rfl]
      simp only [Res.ok_bind, Bool.false_eq_true, if_false, hn]
      simp [← hlen]
    · simp only [startBytes, if_true, List.length_cons, List.length_nil,
        List.cons_append, List.nil_append, List.take, List.drop]
      rw [rd_ok (b := SOM) rfl]
      simp only [Res.ok_bind, ne_eq, not_true_eq_false, if_false]
      rw [rd_ok (b := a) rfl]
      simp only [Res.ok_bind]
      simp only [Pd.isCp, Pd.isPd, hold_flags, setMark_pdMode, hd]
      rw [rd_ok (b := lo) rfl, rd_ok (b := hi) rfl]
      simp only [Res.ok_bind, Bool.false_eq_true, if_false, hn]
      simp [← hlen]
  rw [hf]
  simp only [Res.ok_bind, Res.pure_eq, afterHeader]
  unfold collect
  simp only [setLen_packetLen, setLen_packetBufLen, hold_packetBufLen, h5]
  rw [show setLen (hold (setMark p m) (startBytes m ++ List.take (5 - (startBytes m).length)
      (a :: lo :: hi :: ctl :: tail ++ rest)) (List.drop (5 - (startBytes m).length)
      (a :: lo :: hi :: ctl :: tail ++ rest))) ((SOM :: a :: lo :: hi :: ctl :: tail).length + if m then 1 else 0) =
    hold (setLen (setMark p m) ((SOM :: a :: lo :: hi :: ctl :: tail).length + if m then 1 else 0))
      (startBytes m ++ List.take (5 - (startBytes m).length)
      (a :: lo :: hi :: ctl :: tail ++ rest)) (List.drop (5 - (startBytes m).length)
      (a :: lo :: hi :: ctl :: tail ++ rest)) from rfl]
  have hall : startBytes m ++ List.take (5 - (startBytes m).length) (a :: lo :: hi :: ctl :: tail ++ rest) ++
      List.take ((SOM :: a :: lo :: hi :: ctl :: tail).length + (if m then 1 else 0) - 5)
        (List.drop (5 - (startBytes m).length) (a :: lo :: hi :: ctl :: tail ++ rest)) =
      (if m then [MARK] else []) ++ (SOM :: a :: lo :: hi :: ctl :: tail) := by
    cases m <;> simp [startBytes]
  have hrest : List.drop ((SOM :: a :: lo :: hi :: ctl :: tail).length + (if m then 1 else 0) - 5)
        (List.drop (5 - (startBytes m).length) (a :: lo :: hi :: ctl :: tail ++ rest)) = rest := by
    cases m <;> simp [startBytes]
  have hlen' := congrArg List.length hall
  rw [List.length_append] at hlen'
  rw [popInto_hold _ _ _ _ (by
    rw [hlen', setLen_packetBuf, setMark_packetBuf, hbuf]
    cases m <;> simp at hmax ⊢ <;> omega)]
  rw [hall, hrest]
  simp only [Res.ok_bind, hold_packetBufLen, hold_packetLen, setLen_packetLen]
  have hfin : ((if m = true then [MARK] else []) ++ SOM :: a :: lo :: hi :: ctl :: tail).length =
      (SOM :: a :: lo :: hi :: ctl :: tail).length + if m = true then 1 else 0 := by
    cases m <;> simp
  simp only [hfin, ne_eq, not_true_eq_false, if_false]
  rfl

end Osdp.Phy
