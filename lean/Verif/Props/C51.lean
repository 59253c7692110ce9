import Verif.Lemmas.PdFile
import Verif.Lemmas.Sample
import Verif.Props.C15
import Verif.Spec.FileLog

/-!
# C51: the receiver of a file stays inside the announced size

Statement: the write operation is only called with a non-negative offset and data inside the announced size of the
file.

The PD does not check the offset of a fragment at all.  What is proved:
* `C51_open`: in every history writes go to an open file only, with the bytes of the fragment (at least one).
* `C51_partial`: the full statement, in every history whose fragments repeat the size announced when the file was
  opened and lie within it.
* `C51_status`: the count of bytes received never exceeds the announced size.
* `C51_outside`: a single fragment makes the PD write at offset −1 (and another one beyond the end).
-/

namespace Osdp.PdM

open Spec.FileLog

theorem openAfter_fileOuts (s : Option Int) (outs : List Out) : openAfter s outs = openAfter s (fileOuts outs) := by
  induction outs generalizing s with
  | nil => rfl
  | cons o outs ih =>
    unfold fileOuts
    rw [List.filter_cons]
    split
    · exact ih _
    · rename_i h
      refine (ih _).trans ?_
      cases o <;> first | rfl | exact absurd rfl h

theorem writes_fileOuts (P : Int → List Byte → Int → Prop) (s : Option Int) (outs : List Out) :
    Writes P s outs ↔ Writes P s (fileOuts outs) := by
  induction outs generalizing s with
  | nil => exact Iff.rfl
  | cons o outs ih =>
    unfold fileOuts
    rw [List.filter_cons]
    split
    · exact ⟨fun h => ⟨h.1, (ih _).mp h.2⟩, fun h => ⟨h.1, (ih _).mpr h.2⟩⟩
    · rename_i h
      constructor
      · intro hw
        have := (ih _).mp hw.2
        cases o <;> first | exact this | exact absurd rfl h
      · intro hw
        refine ⟨?_, (ih _).mpr ?_⟩
        · rintro d off rfl; exact absurd rfl h
        · cases o <;> first | exact hw | exact absurd rfl h

theorem le_ofLe4 (a b c d : Byte) : le32 (ofLe [a, b, c, d]) = [a, b, c, d] := by
  have h : ofLe [a, b, c, d] = a.toNat + 256 * (b.toNat + 256 * (c.toNat + 256 * (d.toNat + 0))) := by
    simp [ofLe]
  unfold le32 byteOf
  rw [h]
  have ha := a.isLt; have hb := b.isLt; have hc := c.isLt; have hd := d.isLt
  have e : ∀ (x : Byte) (n : Nat), n % 256 = x.toNat → BitVec.ofNat 8 n = x := by
    intro x n hn; apply BitVec.eq_of_toNat_eq; rw [BitVec.toNat_ofNat]; exact hn
  simp only [Nat.shiftRight_eq_div_pow]
  rw [e a _ (by omega), e b _ (by omega), e c _ (by omega), e d _ (by omega)]

theorem le_ofLe2 (a b : Byte) : le16 (ofLe [a, b]) = [a, b] := by
  have h : ofLe [a, b] = a.toNat + 256 * (b.toNat + 0) := by simp [ofLe]
  unfold le16 byteOf
  rw [h]
  have ha := a.isLt; have hb := b.isLt
  have e : ∀ (x : Byte) (n : Nat), n % 256 = x.toNat → BitVec.ofNat 8 n = x := by
    intro x n hn; apply BitVec.eq_of_toNat_eq; rw [BitVec.toNat_ofNat]; exact hn
  simp only [Nat.shiftRight_eq_div_pow]
  rw [e a _ (by omega), e b _ (by omega)]

/-- the model splits a fragment as the specification lays it out -/
theorem chunk_xfer {body : List Byte} {c : File.Chunk} (h : File.chunk body = some c) (hl : c.length = c.data.length) :
    body = xfer c.type c.size c.offset c.data ∧ c.data ≠ [] := by
  unfold File.chunk at h
  split at h
  · rename_i ty z0 z1 z2 z3 o0 o1 o2 o3 l0 l1 data
    split at h
    · cases h
    · rename_i hd
      injection h with h; subst h
      refine ⟨?_, hd⟩
      dsimp only at hl
      unfold xfer
      dsimp only
      rw [← hl, le_ofLe4, le_ofLe4, le_ofLe2]
      rfl
  · cases h

/-- the file transfer the PD believes in matches the file its application has open -/
def Agreed (file : Option FileSt) (s : Option Int) : Prop :=
  ∀ f, file = some f → f.state = .inprog → s = some (toI32 f.size)

/-- A fragment heard in this refresh satisfies `H` (of what is open, its size, offset and data). -/
def Hears (C : Cipher) (H : Option Int → Nat → Nat → List Byte → Prop) (p : Pd) (s : Option Int) (env : Env) : Prop :=
  ∀ id type size offset data, commandOf C p env = some (id, xfer type size offset data) → id.toNat = Id.FILETRANSFER →
    size < 2 ^ 32 → offset < 2 ^ 32 → data ≠ [] → H s size offset data

theorem ofLe4_lt (a b c d : Byte) : ofLe [a, b, c, d] < 2 ^ 32 := by
  have ha := a.isLt; have hb := b.isLt; have hc := c.isLt; have hd := d.isLt
  simp only [ofLe]; omega

theorem chunk_lt {body : List Byte} {c : File.Chunk} (h : File.chunk body = some c) : c.size < 2 ^ 32 ∧ c.offset < 2 ^ 32 := by
  unfold File.chunk at h
  split at h
  · split at h
    · cases h
    · injection h with h; subst h; exact ⟨ofLe4_lt .., ofLe4_lt ..⟩
  · cases h

/-- One refresh: if the fragments heard satisfy `H`, all writes satisfy `P`. -/
theorem refresh_writes {C : Cipher} {p q : Pd} {env : Env} {outs : List Out} {s : Option Int}
    {H : Option Int → Nat → Nat → List Byte → Prop} {P : Int → List Byte → Int → Prop}
    (hnew : ∀ s size offset data, H s size offset data → data ≠ [] → P (toI32 size) data (toI32 offset) ∨ s ≠ none)
    (hin : ∀ n size offset data, H (some n) size offset data → data ≠ [] → P n data (toI32 offset) ∧ P (toI32 size) data (toI32 offset))
    (hp : p.flags.pdMode = true) (hc : 0 ≤ env.fclose) (ha : Agreed p.file s) (hh : Hears C H p s env)
    (h : refresh C p env = .ok (q, outs)) : Agreed q.file (openAfter s outs) ∧ Writes P s outs := by
  obtain ⟨p1, o1, ret, o2, hg, -, hf, rfl⟩ := refresh_inv hp h
  rw [openAfter_append, writes_append]
  -- the command
  have first : Agreed p1.file (openAfter s o1) ∧ Writes P s o1 := by
    have same : fileOuts o1 = [] → openAfter s o1 = s ∧ Writes P s o1 := by
      intro h; rw [openAfter_fileOuts, writes_fileOuts, h]; exact ⟨rfl, trivial⟩
    cases got_file hg with
    | other h1 h2 _ => rw [h1, (same h2).1]; exact ⟨ha, (same h2).2⟩
    | abort id h1 h2 h3 h4 _ _ =>
      subst h4
      rw [h3]
      unfold File.abort
      split
      · exact ⟨fun f h => by simp_all, trivial⟩
      · split
        · exact ⟨fun f h hs => (by injection h with h; subst h; cases hs), ⟨by simp, trivial⟩⟩
        · rename_i f' hfile hn
          refine ⟨fun f h hs => ?_, trivial⟩
          injection h with h; subst h; exact absurd hs hn
    | chunk id body r h1 h2 h3 h4 h5 _ _ =>
      subst h5
      rw [h4]
      rcases File.txDecode_log h3 with ⟨e1, e2, -⟩ | ⟨f, c, e0, e1, e2, e3, -, e5⟩ | ⟨f, c, n, e0, e1, e2, e3, e4, e5, -⟩ | ⟨f, c, n, e0, e1, e2, e3, e4, e5, -⟩
      · rw [e1, (same e2).1]; exact ⟨ha, (same e2).2⟩
      · rw [e3, openAfter_fileOuts, writes_fileOuts, e5, e0]
        refine ⟨fun g hg hs => ?_, ⟨by simp, trivial⟩⟩
        injection hg with hg; subst hg
        rcases e2 with e2 | e2 <;> rw [e2] at hs <;> cases hs
      · rw [e4, openAfter_fileOuts, writes_fileOuts, e5]
        obtain ⟨ex, ed⟩ := chunk_xfer e1 e2
        rw [ex] at h1
        have hH := hh _ _ _ _ _ h1 h2 (chunk_lt e1).1 (chunk_lt e1).2 ed
        have hP : P (toI32 c.size) c.data (toI32 c.offset) := by
          cases hs : s with
          | none =>
            rw [hs] at hH
            rcases hnew _ _ _ _ hH ed with h | h
            · exact h
            · exact absurd rfl h
          | some n =>
            rw [hs] at hH
            exact (hin _ _ _ _ hH ed).2
        refine ⟨fun g hg hs => by injection hg with hg; subst hg; rfl, ⟨by simp, ?_, trivial⟩⟩
        intro d off he
        injection he with he1 he2; subst he1 he2
        exact ⟨_, rfl, hP⟩
      · rw [e4, openAfter_fileOuts, writes_fileOuts, e5]
        obtain ⟨ex, ed⟩ := chunk_xfer e1 e2
        rw [ex] at h1
        have hH := hh _ _ _ _ _ h1 h2 (chunk_lt e1).1 (chunk_lt e1).2 ed
        have hs := ha f e0 e3
        rw [hs] at hH
        refine ⟨fun g hg _ => by injection hg with hg; subst hg; exact hs, ⟨?_, trivial⟩⟩
        intro d off he
        injection he with he1 he2; subst he1 he2
        exact ⟨_, hs, (hin _ _ _ _ hH ed).1⟩
  -- the reply
  generalize openAfter s o1 = s1 at first ⊢
  obtain ⟨ha1, hw1⟩ := first
  rcases finished_file hf with ⟨e1, e2⟩ | ⟨-, -, room, r, o, e1, e2⟩
  · rw [e1, openAfter_fileOuts, writes_fileOuts _ s1, e2]
    exact ⟨ha1, hw1, trivial⟩
  · rw [openAfter_fileOuts, writes_fileOuts _ s1, e2]
    rcases File.statBuild_inv e1 with ⟨h1, h2, -, -⟩ | ⟨f, off, h1, h2, -, -, h5, ⟨h6, h7, h8⟩ | ⟨h6, h7, h8, -⟩⟩
    · rw [h1, h2]; exact ⟨ha1, hw1, trivial⟩
    · rcases h8 with ⟨h8, -⟩ | ⟨-, h8, -⟩
      · omega
      · rw [h8, h7]
        exact ⟨fun g hg hs => (by injection hg with hg; subst hg; cases hs), hw1, ⟨by simp, trivial⟩⟩
    · rw [h8, h7]
      exact ⟨fun g hg _ => by injection hg with hg; subst hg; exact ha1 f h1 h2, hw1, trivial⟩

/-- every call of close succeeds -/
def Closes (ops : List Op) : Prop := ∀ env, Op.refresh env ∈ ops → 0 ≤ env.fclose

/-- every fragment heard in the history satisfies `H` -/
def Fragments (C : Cipher) (H : Option Int → Nat → Nat → List Byte → Prop) (p : Pd) (ops : List Op) : Prop :=
  ∀ pre env post q o, ops = pre ++ Op.refresh env :: post → run C p pre = .ok (q, o) → Hears C H q (openAfter none o) env

theorem run_writes {C : Cipher} {info : Info} {sk : Bool} {n : Nat} {p0 : Pd} (h0 : setup info sk n = some p0)
    {H : Option Int → Nat → Nat → List Byte → Prop} {P : Int → List Byte → Int → Prop}
    (hnew : ∀ s size offset data, H s size offset data → data ≠ [] → P (toI32 size) data (toI32 offset) ∨ s ≠ none)
    (hin : ∀ n size offset data, H (some n) size offset data → data ≠ [] → P n data (toI32 offset) ∧ P (toI32 size) data (toI32 offset))
    {ops : List Op} {q : Pd} {o : List Out} (h : run C p0 ops = .ok (q, o)) (hc : Closes ops) (hh : Fragments C H p0 ops) :
    Agreed q.file (openAfter none o) ∧ Writes P none o := by
  refine run_ind (C := C) (p := p0) (fun ops q o => Closes ops → Fragments C H p0 ops →
    Agreed q.file (openAfter none o) ∧ Writes P none o) ?_ ?_ h hc hh
  · intro _ _
    refine ⟨fun f hf => ?_, trivial⟩
    unfold setup at h0
    split at h0
    · cases h0
    · injection h0 with h0; subst h0; cases hf
  · intro ops op p o q o' hr hI hs hc hh
    obtain ⟨ha, hw⟩ := hI (fun env h => hc env (List.mem_append_left _ h))
      (fun pre env post q o e hq => hh pre env (post ++ [op]) q o (by rw [e]; simp) hq)
    have hp : p.flags.pdMode = true := Reached.pdMode (C := C) (info := info) ⟨sk, n, p0, ops, o, h0, hr⟩
    rw [openAfter_append, writes_append]
    cases op with
    | refresh env =>
      have := refresh_writes hnew hin hp (hc env (by simp)) ha (hh ops env [] p o rfl hr) hs
      exact ⟨this.1, hw, this.2⟩
    | fileOps =>
      injection hs with hs; injection hs with e1 e2; subst e1 e2
      exact ⟨fun f hf hs => (by injection hf with hf; subst hf; cases hs), hw, trivial⟩
    | notify e =>
      injection hs with hs; injection hs with e1 e2; subst e1 e2
      refine ⟨?_, hw, trivial⟩
      have : (notifyEvent p e).1.file = p.file := by unfold notifyEvent; repeat' split <;> try rfl
      rw [this]; exact ha
    | flush =>
      injection hs with hs; injection hs with e1 e2; subst e1 e2
      exact ⟨ha, hw, trivial⟩
    | setCaps caps =>
      injection hs with hs; injection hs with e1 e2; subst e1 e2
      exact ⟨ha, hw, trivial⟩

/-- **C51, unconditional part.** In every history in which closing a file succeeds, the PD writes only to a file it has opened
(and not closed since), and never an empty fragment. -/
theorem C51_open {C : Cipher} {info : Info} {sk : Bool} {n : Nat} {p0 : Pd} (h0 : setup info sk n = some p0)
    {ops : List Op} {q : Pd} {o : List Out} (h : run C p0 ops = .ok (q, o)) (hc : Closes ops) :
    Writes (fun _ d _ => d ≠ []) none o :=
  (run_writes h0 (H := fun _ _ _ _ => True) (fun _ _ _ _ _ h => .inl h) (fun _ _ _ _ _ h => ⟨h, h⟩) h hc
    (fun _ _ _ _ _ _ _ _ _ _ _ _ _ _ _ _ _ => trivial)).2

theorem toI32_of {n : Nat} (h : n < 2 ^ 31) : toI32 n = n := by
  unfold toI32
  rw [BitVec.toInt_eq_toNat_cond, BitVec.toNat_ofNat]
  rw [Nat.mod_eq_of_lt (by omega)]
  rw [if_pos (by omega)]

/-- a fragment as an honest sender makes it: it lies within the file, whose size is the one announced when the file was opened -/
def Honest (s : Option Int) (size offset : Nat) (data : List Byte) : Prop :=
  size < 2 ^ 31 ∧ offset + data.length ≤ size ∧ ∀ n, s = some n → n = size

/-- **C51 (partial).** In every history in which closing a file succeeds and every fragment heard lies within the file announced,
all writes have a non-negative offset and lie within the announced size. -/
theorem C51_partial {C : Cipher} {info : Info} {sk : Bool} {n : Nat} {p0 : Pd} (h0 : setup info sk n = some p0)
    {ops : List Op} {q : Pd} {o : List Out} (h : run C p0 ops = .ok (q, o)) (hc : Closes ops) (hh : Fragments C Honest p0 ops) :
    Writes Inside none o := by
  refine (run_writes h0 (H := Honest) (P := Inside) ?_ ?_ h hc hh).2
  · rintro s size offset data ⟨h1, h2, h3⟩ -
    refine .inl ?_
    unfold Inside
    rw [toI32_of h1, toI32_of (by omega)]
    omega
  · rintro n size offset data ⟨h1, h2, h3⟩ -
    have := h3 n rfl
    unfold Inside
    rw [toI32_of h1, toI32_of (by omega), this]
    omega

/-- **C51, the count.** Whatever arrives, the number of bytes the PD reports as received does not exceed the size of the file. -/
theorem C51_status {C : Cipher} {info : Info} {q : Pd} (h : Reached C info q) {size offset : Nat}
    (hs : File.txStatus q.file = .ok (some (size, offset))) : offset ≤ size := by
  have key : ∀ f, q.file = some f → f.offset ≤ f.size := by
    refine h.ind (fun q => ∀ f, q.file = some f → f.offset ≤ f.size) ?_ ?_
    · intro sk n p h0 f hf
      unfold setup at h0
      split at h0
      · cases h0
      · injection h0 with h0; subst h0; cases hf
    · intro p op q outs hR hI hs f hf
      cases op with
      | refresh env =>
        obtain ⟨p1, o1, ret, o2, hg, -, hfin, rfl⟩ := refresh_inv hR.pdMode hs
        have h1 : ∀ f, p1.file = some f → f.offset ≤ f.size := by
          cases got_file hg with
          | other e _ _ => rw [e]; exact hI
          | abort _ _ _ e _ _ _ =>
            intro f hf
            rw [e] at hf
            unfold File.abort at hf
            split at hf
            · cases hf
            · rename_i g hg
              split at hf
              · injection hf with hf; subst hf; exact Nat.le_refl _
              · injection hf with hf; subst hf; exact hI _ hg
          | chunk _ _ r _ _ h3 e _ _ _ =>
            rw [e]
            rcases File.txDecode_log h3 with ⟨e1, -, -⟩ | ⟨f, c, -, -, -, e3, -, -⟩ | ⟨f, c, n, -, -, -, -, e4, -, -⟩ | ⟨f, c, n, e0, -, -, -, e4, -, -⟩
            · rw [e1]; exact hI
            · rw [e3]; exact hI
            · rw [e4]; intro g hg; injection hg with hg; subst hg; exact Nat.zero_le _
            · rw [e4]; intro g hg; injection hg with hg; subst hg; exact hI f e0
        rcases finished_file hfin with ⟨e1, -⟩ | ⟨-, -, room, r, o, e1, -⟩
        · rw [e1] at hf; exact h1 f hf
        · rcases File.statBuild_inv e1 with ⟨k1, -, -, -⟩ | ⟨g, off, k1, k2, -, -, k5, ⟨-, -, k8⟩ | ⟨-, -, k8, -⟩⟩
          · rw [k1] at hf; exact h1 f hf
          · rcases k8 with ⟨-, k8, -⟩ | ⟨-, k8, -⟩ <;> (rw [k8] at hf; injection hf with hf; subst hf; exact k5)
          · rw [k8] at hf; injection hf with hf; subst hf; exact k5
      | fileOps =>
        injection hs with hs; injection hs with e1 e2; subst e1 e2
        injection hf with hf; subst hf; exact Nat.le_refl _
      | notify e =>
        injection hs with hs; injection hs with e1 e2; subst e1 e2
        have : (notifyEvent p e).1.file = p.file := by unfold notifyEvent; repeat' split <;> try rfl
        rw [this] at hf; exact hI f hf
      | flush => injection hs with hs; injection hs with e1 e2; subst e1 e2; exact hI f hf
      | setCaps caps => injection hs with hs; injection hs with e1 e2; subst e1 e2; exact hI f hf
  unfold File.txStatus at hs
  split at hs
  · cases hs
  · rename_i f hf
    split at hs
    · cases hs
    · injection hs with hs; injection hs with hs; injection hs with e1 e2; subst e1 e2
      exact key f hf

/-! ### examples and witness -/

/-- the file operations of an application that accepts everything -/
def filer (e : Env) : Env := { e with fopen := fun _ n => (3, n), fwrite := fun d _ => d.length }

/-- a history: file operations are registered, then one packet after the other arrives with a FILETRANSFER command -/
def receives (frs : List (Nat × List Byte)) : List Op :=
  .fileOps :: frs.map fun x => .refresh (filer (Sample.env (Sample.cmd x.1 (b8 Id.FILETRANSFER :: x.2)) (20 * x.1)))

/-- the calls of the file operations in a history of the sample PD -/
def filed (ops : List Op) : Option (List Out) :=
  match run xorCipher Sample.pd ops with
  | .ok (_, o) => some (fileOuts o)
  | .error _ => none

/-- a file of five bytes in two fragments -/
def twoFragments : List Op := receives [(0, xfer 1 5 0 [65, 66, 67]), (1, xfer 1 5 3 [68, 69])]

example : filed twoFragments = some [.fopen 1 5, .fwrite [65, 66, 67] 0, .fwrite [68, 69] 3, .fclose] := by decide +kernel

/-- checks every fragment heard in a history -/
def allHonest (C : Cipher) : Pd → List Op → Option Int → Bool
  | _, [], _ => true
  | p, op :: ops, s =>
    (match op with
      | .refresh env =>
        match commandOf C p env with
        | some (id, body) => !(id.toNat == Id.FILETRANSFER) || (match File.chunk body with
          | some c => decide (c.size < 2 ^ 31) && decide (c.offset + c.data.length ≤ c.size) && (s == none || s == some (c.size : Int))
          | none => true)
        | none => true
      | _ => true) &&
    match step C p op with
    | .ok (q, o) => allHonest C q ops (openAfter s o)
    | .error _ => true

theorem ofLe_le32 {n : Nat} (h : n < 2 ^ 32) : ofLe (le32 n) = n := by
  unfold le32 byteOf
  simp only [ofLe, BitVec.toNat_ofNat, Nat.shiftRight_eq_div_pow]
  omega

theorem ofLe_le16 {n : Nat} (h : n < 2 ^ 16) : ofLe (le16 n) = n := by
  unfold le16 byteOf
  simp only [ofLe, BitVec.toNat_ofNat, Nat.shiftRight_eq_div_pow]
  omega

/-- the model reads a fragment laid out as specified -/
theorem chunk_of_xfer {type : Byte} {size offset : Nat} {data : List Byte} (hs : size < 2 ^ 32) (ho : offset < 2 ^ 32) (hd : data ≠ []) :
    File.chunk (xfer type size offset data) = some ⟨type, size, offset, ofLe (le16 data.length), data⟩ := by
  show (if data = [] then none else some (⟨type, ofLe (le32 size), ofLe (le32 offset), ofLe (le16 data.length), data⟩ : File.Chunk)) = _
  rw [if_neg hd, ofLe_le32 hs, ofLe_le32 ho]

theorem allHonest_fragments {C : Cipher} {p : Pd} {ops : List Op} (h : allHonest C p ops none = true) : Fragments C Honest p ops := by
  have key : ∀ (ops : List Op) (p : Pd) (s : Option Int), allHonest C p ops s = true →
      ∀ pre env post q o, ops = pre ++ Op.refresh env :: post → run C p pre = .ok (q, o) → Hears C Honest q (openAfter s o) env := by
    intro ops
    induction ops with
    | nil => intro p s _ pre env post q o he; simp at he
    | cons op ops ih =>
      intro p s ha pre env post q o he hr
      unfold allHonest at ha
      rw [Bool.and_eq_true] at ha
      obtain ⟨h1, h2⟩ := ha
      cases pre with
      | nil =>
        injection he with e1 e2; subst e1
        injection hr with hr; injection hr with e1 e2; subst e1 e2
        intro id type size offset data hc hid hs ho hd
        dsimp only at h1
        rw [hc] at h1
        dsimp only at h1
        rw [chunk_of_xfer hs ho hd, hid] at h1
        simp at h1
        refine ⟨h1.1.1, h1.1.2, fun n hn => ?_⟩
        rcases h1.2 with h | h
        · rw [show openAfter s [] = s from rfl, h] at hn; cases hn
        · rw [show openAfter s [] = s from rfl, h] at hn; injection hn with hn; exact hn.symm
      | cons a pre =>
        injection he with e1 e2; subst e1
        obtain ⟨⟨p1, o1⟩, k1, hr⟩ := Res.bind_eq_ok.mp hr
        obtain ⟨⟨p2, o2⟩, k2, hr⟩ := Res.bind_eq_ok.mp hr
        injection hr with hr; injection hr with e1 e3; subst e1 e3
        rw [k1] at h2
        rw [openAfter_append]
        exact ih p1 _ h2 pre env post p2 o2 e2 k2
  exact fun pre env post q o he hr => key ops p none h pre env post q o he hr

example : setup Sample.pdInfo false 16 = some Sample.pd ∧ Closes twoFragments ∧ Fragments xorCipher Honest Sample.pd twoFragments := by
  refine ⟨rfl, fun env h => ?_, allHonest_fragments (by decide +kernel)⟩
  simp [twoFragments, receives, filer, Sample.env] at h
  rcases h with rfl | rfl <;> decide

/-- **C51 fails.** One fragment with offset 0xFFFFFFFF makes the PD call write at offset −1; fragments beyond the announced size
of one byte are written as well. -/
theorem C51_outside :
    filed (receives [(0, xfer 1 5 0xFFFFFFFF [65])]) = some [.fopen 1 5, .fwrite [65] (-1)] ∧
    filed (receives [(0, xfer 1 5 4096 [65, 66])]) = some [.fopen 1 5, .fwrite [65, 66] 4096] ∧
    ¬ Writes Inside none [Out.fopen 1 5, .fwrite [65] (-1)] ∧ ¬ Writes Inside none [Out.fopen 1 5, .fwrite [65, 66] 4096] := by
  refine ⟨by decide +kernel, by decide +kernel, ?_, ?_⟩
  · rintro ⟨-, h, -⟩
    obtain ⟨n, -, h, -⟩ := h _ _ rfl
    exact absurd h (by decide)
  · rintro ⟨-, h, -⟩
    obtain ⟨n, hn, -, h⟩ := h _ _ rfl
    injection hn with hn; subst hn
    exact absurd h (by decide)

end Osdp.PdM
