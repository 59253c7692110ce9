import Verif.Lemmas.CpFile
import Verif.Spec.FileLog
import Verif.Spec.FileStore
import Verif.Props.C51

/-! # A file transfer, seen from both ends at once -/

namespace Osdp.File

open Spec.FileLog (xfer)
open Spec.FileStore

theorem stored_fileOuts (s : Option (List Byte)) (outs : List Out) : stored s outs = stored s (fileOuts outs) := by
  induction outs generalizing s with
  | nil => rfl
  | cons o outs ih =>
    unfold fileOuts
    rw [List.filter_cons]
    split
    · exact ih _
    · rename_i h
      refine (ih _).trans ?_
      cases o <;> first | rfl | exact absurd rfl h

/-- The receiver is not in the middle of a file. -/
def Rests (file : Option FileSt) : Prop := ∀ g, file = some g → g.state = .idle ∨ g.state = .done

/-- The receiver has exactly the first `o` bytes of the file and expects the rest (`o = 0`: it is not in the middle of a file). -/
def Ready (X : List Byte) (file : Option FileSt) (D : Option (List Byte)) (o : Nat) : Prop :=
  (o = 0 ∧ Rests file) ∨
  ∃ g, file = some g ∧ g.state = .inprog ∧ g.size = X.length ∧ g.offset = o ∧ 0 < o ∧ D = some (X.take o)

theorem take_more (X : List Byte) {o : Nat} {d : List Byte} (h : d = (X.drop o).take d.length) (ho : o + d.length ≤ X.length) :
    put (X.take o) o d = X.take (o + d.length) := by
  have hl : (X.take o).length = o := by rw [List.length_take]; omega
  have := put_end (X.take o) d
  rw [hl] at this
  rw [this]
  conv => lhs; rw [h]
  rw [List.take_add]

theorem toI32_small {n : Nat} (h : n < 2 ^ 31) : toI32 n = n := by
  unfold toI32
  rw [BitVec.toInt_eq_toNat_cond, BitVec.toNat_ofNat]
  have : n % 2 ^ 32 = n := Nat.mod_eq_of_lt (by omega)
  rw [this, if_pos (by omega)]

theorem u32_small {n : Nat} (h : n < 2 ^ 32) : u32 (n : Int) = n := by unfold u32; omega

/-- The receiver takes the next fragment and reports. -/
theorem fragment_taken {X data : List Byte} {file g : Option FileSt} {D : Option (List Byte)} {o : Nat} {ty : Byte} {env : Env} {r : Result}
    {room : Int} {o2 : List Out} {st : Option (List Byte)} (hX : X.length < 2 ^ 31) (hr : Ready X file D o) (hd0 : data ≠ [])
    (hd16 : data.length < 2 ^ 16) (hd : data = (X.drop o).take data.length) (ho : o + data.length ≤ X.length)
    (h1 : txDecode file env (xfer ty X.length o data) = .ok r) (hok : r.ok = true)
    (h2 : statBuild r.file env room = .ok (g, o2, st)) (hroom : 7 ≤ room) (hc : 0 ≤ env.fclose) :
    (o + data.length = X.length ∧ st = some (statBytes 1) ∧ Rests g ∧ stored D (r.outs ++ o2) = some X) ∨
    (o + data.length < X.length ∧ st = some (statBytes 0) ∧ Ready X g (stored D (r.outs ++ o2)) (o + data.length)) := by
  have hpos : 0 < data.length := List.length_pos_iff.mpr hd0
  have hch := PdM.chunk_of_xfer (type := ty) (size := X.length) (offset := o) (by omega) (by omega) hd0
  have ht : toI32 o = o := toI32_small (by omega)
  have hnn : ¬ ((o : Int) < 0) := by omega
  have base : ∀ f : FileSt, r.file = some f → f.state = .inprog → f.size = X.length → f.offset = o → f.length = data.length →
      stored D r.outs = some (X.take (o + data.length)) →
      (o + data.length = X.length ∧ st = some (statBytes 1) ∧ Rests g ∧ stored D (r.outs ++ o2) = some X) ∨
      (o + data.length < X.length ∧ st = some (statBytes 0) ∧ Ready X g (stored D (r.outs ++ o2)) (o + data.length)) := by
    intro f hf hs hz hfo hfl hD
    rw [hf] at h2
    rw [stored_append, hD]
    rcases statBuild_inv h2 with ⟨-, -, -, h⟩ | ⟨f', off, hf', hs', -, hoff, hle, hcase⟩
    · rcases h f rfl with h | h
      · exact absurd hs h
      · omega
    injection hf' with hf'; subst hf'
    have hoff : off = o + data.length := by
      rw [hoff, hfl, if_pos (by omega), hfo, u32_small (by omega)]
      omega
    rw [hz] at hcase
    rcases hcase with ⟨he, rfl, ⟨h, -⟩ | ⟨-, rfl, rfl⟩⟩ | ⟨hlt, rfl, rfl, rfl⟩
    · omega
    · left
      refine ⟨by omega, rfl, ?_, ?_⟩
      · intro g hg; injection hg with hg; subst hg; exact .inr rfl
      · show some _ = _
        rw [← hoff, he, List.take_length]
    · right
      refine ⟨by omega, ?_, .inr ⟨_, rfl, hs, rfl, hoff, by omega, rfl⟩⟩
      rw [hfl, if_pos (by omega)]
  rcases txDecode_log h1 with ⟨-, -, h⟩ | ⟨_, _, -, -, -, -, h, -⟩ | ⟨f, c, n, hf, hc', hl, hs, hfile, houts, hoki⟩ | ⟨f, c, n, hf, hc', hl, hs, hfile, houts, hoki⟩
  · rw [hok] at h; cases h
  · rw [hok] at h; cases h
  · subst hf
    rw [hch] at hc'; injection hc' with hc'; subst hc'
    have hw := hoki.mp hok
    dsimp only at hl hw houts hfile
    have ho0 : o = 0 := by
      rcases hr with h | ⟨f', hf', h, -⟩
      · exact h.1
      · injection hf' with hf'; subst hf'
        rw [h] at hs; rcases hs with h | h <;> cases h
    subst ho0
    refine base _ hfile rfl rfl rfl (by show env.fwrite _ _ = _; rw [hw, hl]) ?_
    rw [stored_fileOuts, houts, ht]
    have := take_more X hd ho
    unfold stored
    simp only [List.foldl, storeNext, Option.bind_some, if_neg hnn, Int.toNat_natCast]
    rw [← this]; rfl
  · subst hf
    rw [hch] at hc'; injection hc' with hc'; subst hc'
    have hw := hoki.mp hok
    dsimp only at hl hw houts hfile
    rcases hr with ⟨-, h⟩ | ⟨f', hf', -, k1, k2, -, k4⟩
    · have h := h f rfl
      rw [hs] at h; rcases h with h | h <;> cases h
    injection hf' with hf'; subst hf'
    refine base _ hfile hs k1 k2 (by show env.fwrite _ _ = _; rw [hw, hl]) ?_
    rw [stored_fileOuts, houts, ht, k4]
    have := take_more X hd ho
    unfold stored
    simp only [List.foldl, storeNext, Option.bind_some, if_neg hnn, Int.toNat_natCast]
    rw [this]

/-- The sender makes a fragment. -/
theorem fragment_made {X : List Byte} {f : FileSt} {g : Option FileSt} {env : Env} {room : Int} {outs : List Out} {r : Option (List Byte)}
    (hX : X.length < 2 ^ 31) (hst : f.state = .inprog) (hsz : f.size = X.length) (hoff : f.offset ≤ X.length) (hrd : Reads X env)
    (hroom : room ≤ 256) (h : txBuild (some f) env room = .ok (g, outs, r)) :
    (r = none ∧ g = some reset) ∨
    ∃ data, r = some (xfer (i8 f.fileId) X.length f.offset data) ∧ g = some { f with length := data.length } ∧ data ≠ [] ∧
      data.length < 2 ^ 16 ∧ data = (X.drop f.offset).take data.length ∧ f.offset + data.length ≤ X.length := by
  obtain ⟨f', hf', ⟨-, -, h1, -, h2⟩ | ⟨-, h1, -⟩ | ⟨-, -, -, h⟩⟩ := txBuild_inv h
  · exact .inl ⟨h2, h1⟩
  · injection hf' with hf'; subst hf'; rw [hst] at h1; cases h1
  injection hf' with hf'; subst hf'
  rcases h with ⟨-, h1, h2⟩ | ⟨n, bytes, hrd', hn, hn', hl, hg, hr⟩
  · exact .inl ⟨h2, h1⟩
  right
  rw [toI32_small (by omega)] at hrd'
  have hb := hrd _ _ _ _ (by omega) hrd' hn
  rw [Int.toNat_natCast] at hb
  have hnl : n.toNat = bytes.length := by omega
  rw [hnl] at hb
  have hle : f.offset + bytes.length ≤ X.length := by
    have := congrArg List.length hb
    rw [List.length_take, List.length_drop] at this
    omega
  refine ⟨bytes, ?_, by rw [hg, hl], (by rintro rfl; simp at hl; omega), by omega, hb, hle⟩
  rw [hr]
  unfold txHeader xfer
  dsimp only
  rw [← hl, u32_small (by omega), hsz]
  simp only [List.cons_append, List.append_assoc]

/-- The sender hears that the last fragment was taken. -/
theorem last_heard {f : FileSt} {env : Env} {r : Result} {k : Nat} (hst : f.state = .inprog) (hk : f.length = k) (hlt : f.size < 2 ^ 31)
    (he : f.offset + k = f.size) (h : statDecode (some f) env (statBytes 1) = .ok r) : ∃ g, r.file = some g ∧ g.state = .done := by
  have ho : (f.offset + u32 f.length) % 4294967296 = f.size := by rw [hk, u32_small (by omega)]; omega
  rcases statDecode_inv h with ⟨h1, h2, h3, -⟩ | ⟨f', control, d0, d1, s0, s1, x0, x1, g, hg, hf', -, hb, -, hgo, -, -, -, -, hcase⟩
  · exfalso
    unfold statDecode statBytes at h
    dsimp only at h
    rw [if_neg (by simp [hst]), ho, if_neg (by omega), if_neg (by simp)] at h
    have : int16 ((1 : BitVec 16).setWidth 8) (((1 : BitVec 16) >>> 8).setWidth 8) = 1 := by decide
    rw [this, if_neg (by decide), if_neg (by decide), if_pos rfl] at h
    injection h with h; subst h
    cases h3
  · injection hf' with hf'; subst hf'
    have hs : int16 s0 s1 = 1 := by
      unfold statBytes at hb
      injection hb with _ hb; injection hb with _ hb; injection hb with _ hb; injection hb with h0 hb; injection hb with h1 _
      rw [← h0, ← h1]; decide
    rw [hs] at hcase
    rcases hcase with ⟨h, -⟩ | ⟨-, -, ⟨h, -⟩ | ⟨h, -⟩ | ⟨-, h, -⟩ | ⟨h, -⟩⟩
    · omega
    · cases h
    · cases h
    · exact ⟨g, hg, h⟩
    · exact absurd rfl h

/-- The sender hears that a fragment before the last was taken. -/
theorem next_heard {f : FileSt} {env : Env} {r : Result} {k : Nat} (hst : f.state = .inprog) (hk : f.length = k) (hlt : f.size < 2 ^ 31)
    (he : f.offset + k < f.size) (h : statDecode (some f) env (statBytes 0) = .ok r) :
    ∃ g, r.file = some g ∧ g.state = .inprog ∧ g.size = f.size ∧ g.offset = f.offset + k := by
  have ho : (f.offset + u32 f.length) % 4294967296 = f.offset + k := by rw [hk, u32_small (by omega)]; omega
  rcases statDecode_inv h with ⟨h1, h2, h3, -⟩ | ⟨f', control, d0, d1, s0, s1, x0, x1, g, hg, hf', -, hb, -, hgo, hgz, -, -, -, hcase⟩
  · exfalso
    unfold statDecode statBytes at h
    dsimp only at h
    rw [if_neg (by simp [hst]), ho, if_neg (by omega), if_pos (by omega)] at h
    injection h with h; subst h
    cases h3
  · injection hf' with hf'; subst hf'
    refine ⟨g, hg, ?_, hgz, hgo.trans ho⟩
    rcases hcase with ⟨-, h, -⟩ | ⟨h, -⟩
    · exact h
    · omega

end Osdp.File
