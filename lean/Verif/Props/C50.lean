import Verif.Props.C49

/-!
# C50: file transfer survives a lost acknowledgement

It does not: the receiver counts the repeated fragment a second time (`osdp_file_cmd_stat_build` adds the number of bytes just written to
its offset, src/osdp_file.c:283-289, and nothing compares that offset with the one in the fragment).

* `C50_repeated` (every file, every place): what becomes of the receiver when a fragment other than the last one is repeated;
* `C50_last`: the acknowledgement of the last fragment is lost;
* `C50_aborts`, `C50_truncated`, `C50_restarted`: the CP and the PD of this library with one lost reply;
* `C50_content_partial`, `C50_single_partial`: what does hold.
-/

namespace Osdp
namespace File

open Spec.FileLog (xfer)
open Spec.FileStore

theorem put_same (X : List Byte) {o k : Nat} {d : List Byte} (h : d = (X.drop o).take k) (ho : o + k ≤ X.length) :
    put (X.take (o + k)) o d = X.take (o + k) := by
  have hl : d.length = k := by rw [h, List.length_take, List.length_drop]; omega
  have h1 : (X.take (o + k)).length = o + k := by rw [List.length_take]; omega
  unfold put
  rw [hl, h1, Nat.sub_eq_zero_of_le (by omega), List.take_take, Nat.min_eq_left (by omega), List.drop_of_length_le (by omega), h, List.take_add]
  simp

/-- **C50** fails.  The receiver has stored the fragment at `o` and expects the one at `o + k`; the sender, whose acknowledgement was lost,
repeats the fragment at `o`.  Then what is stored does not change, but the receiver

* breaks off with an assertion failure if the file has less than `k` bytes left;
* is done, with only the beginning of the file, if it has exactly `k` bytes left;
* believes to have `k` bytes more than it has, otherwise. -/
theorem C50_repeated {X data : List Byte} {file : Option FileSt} {D : Option (List Byte)} {o : Nat} {ty : Byte} {env : Env} {r : Result}
    {room : Int} (hX : X.length < 2 ^ 31) (hr : Ready X file D (o + data.length)) (hd0 : data ≠ [])
    (hd16 : data.length < 2 ^ 16) (hd : data = (X.drop o).take data.length) (ho : o + data.length < X.length)
    (h1 : txDecode file env (xfer ty X.length o data) = .ok r) (hok : r.ok = true) (hroom : 7 ≤ room) (hc : 0 ≤ env.fclose) :
    stored D r.outs = D ∧ D = some (X.take (o + data.length)) ∧ ∃ f, r.file = some f ∧
    (X.length < o + data.length + data.length → statBuild r.file env room = .error .assertFail) ∧
    (o + data.length + data.length = X.length →
      statBuild r.file env room = .ok (some { f with offset := X.length, length := 0, state := .done }, [.fclose], some (statBytes 1))) ∧
    (o + data.length + data.length < X.length →
      statBuild r.file env room = .ok (some { f with offset := o + data.length + data.length, length := 0 }, [], some (statBytes 0)) ∧
      f.state = .inprog) := by
  have hpos : 0 < data.length := List.length_pos_iff.mpr hd0
  have hch := PdM.chunk_of_xfer (type := ty) (size := X.length) (offset := o) (by omega) (by omega) hd0
  have ht : toI32 o = o := toI32_small (by omega)
  have hnn : ¬ ((o : Int) < 0) := by omega
  rcases hr with ⟨h, -⟩ | ⟨g, hg, hgs, hgz, hgo, -, hD⟩
  · omega
  rcases txDecode_log h1 with ⟨-, -, h⟩ | ⟨_, _, -, -, -, -, h, -⟩ | ⟨f, c, n, hf, hc', hl, hs, hfile, houts, hoki⟩ | ⟨f, c, n, hf, hc', hl, hs, hfile, houts, hoki⟩
  · rw [hok] at h; cases h
  · rw [hok] at h; cases h
  · rw [hg] at hf; injection hf with hf; subst hf
    rw [hgs] at hs; rcases hs with h | h <;> cases h
  rw [hg] at hf; injection hf with hf; subst hf
  rw [hch] at hc'; injection hc' with hc'; subst hc'
  have hw := hoki.mp hok
  dsimp only at hl hw houts hfile
  refine ⟨?_, hD, _, hfile, ?_⟩
  · rw [stored_fileOuts, houts, ht, hD]
    unfold stored
    simp only [List.foldl, storeNext, Option.bind_some, if_neg hnn, Int.toNat_natCast]
    rw [put_same X hd (by omega)]
  · have hlen : (env.fwrite data (toI32 o)) = (data.length : Int) := by rw [hw, hl]
    rw [hfile]
    unfold statBuild
    dsimp only
    have hk : (data.length : Int) > 0 := by omega
    rw [if_neg (by simp [hgs]), if_neg (by omega), hlen]
    simp only [hk, if_true]
    rw [u32_small (by omega), hgo, hgz, Nat.mod_eq_of_lt (by omega)]
    refine ⟨fun h => by rw [if_pos (by omega)], fun h => ?_, fun h => ?_⟩
    · rw [if_neg (by omega), if_pos h, if_neg (by omega), h]
    · rw [if_neg (by omega), if_neg (by omega)]
      exact ⟨rfl, hgs⟩

/-- **C50** (partial: the contents.)  A repeated fragment does not change what has been stored, unless it is the last one. -/
theorem C50_content_partial {X data : List Byte} {file : Option FileSt} {D : Option (List Byte)} {o : Nat} {ty : Byte} {env : Env} {r : Result}
    (hX : X.length < 2 ^ 31) (hr : Ready X file D (o + data.length)) (hd0 : data ≠ [])
    (hd16 : data.length < 2 ^ 16) (hd : data = (X.drop o).take data.length) (ho : o + data.length < X.length)
    (h1 : txDecode file env (xfer ty X.length o data) = .ok r) (hok : r.ok = true) (hc : 0 ≤ env.fclose) :
    stored D r.outs = some (X.take (o + data.length)) := by
  obtain ⟨h2, h3, -⟩ := C50_repeated (room := 7) hX hr hd0 hd16 hd ho h1 hok (by omega) hc
  rw [h2, h3]

/-- The acknowledgement of the last fragment is lost: the receiver opens the file again and has the last fragment only, with nothing before
it; and it is not done. -/
theorem C50_last {X data : List Byte} {file : Option FileSt} {D : Option (List Byte)} {o : Nat} {ty : Byte} {env : Env} {r : Result}
    {room : Int} (hX : X.length < 2 ^ 31) (hr : Rests file) (ho0 : 0 < o) (hd0 : data ≠ [])
    (hd16 : data.length < 2 ^ 16) (ho : o + data.length = X.length)
    (h1 : txDecode file env (xfer ty X.length o data) = .ok r) (hok : r.ok = true) (hroom : 7 ≤ room) :
    stored D r.outs = some (List.replicate o 0#8 ++ data) ∧
    ∃ g, statBuild r.file env room = .ok (some g, [], some (statBytes 0)) ∧ g.state = .inprog ∧ g.offset = data.length := by
  have hpos : 0 < data.length := List.length_pos_iff.mpr hd0
  have hch := PdM.chunk_of_xfer (type := ty) (size := X.length) (offset := o) (by omega) (by omega) hd0
  have ht : toI32 o = o := toI32_small (by omega)
  have hnn : ¬ ((o : Int) < 0) := by omega
  rcases txDecode_log h1 with ⟨-, -, h⟩ | ⟨_, _, -, -, -, -, h, -⟩ | ⟨f, c, n, hf, hc', hl, hs, hfile, houts, hoki⟩ | ⟨f, c, n, hf, hc', hl, hs, hfile, houts, hoki⟩
  · rw [hok] at h; cases h
  · rw [hok] at h; cases h
  · rw [hch] at hc'; injection hc' with hc'; subst hc'
    have hw := hoki.mp hok
    dsimp only at hl hw houts hfile
    constructor
    · rw [stored_fileOuts, houts, ht]
      unfold stored
      simp only [List.foldl, storeNext, Option.bind_some, if_neg hnn, Int.toNat_natCast]
      unfold put
      simp
    · have hlen : (env.fwrite data (toI32 o)) = (data.length : Int) := by rw [hw, hl]
      rw [hfile]
      unfold statBuild
      dsimp only
      have hk : (data.length : Int) > 0 := by omega
      rw [if_neg (by simp), if_neg (by omega), hlen]
      simp only [hk, if_true]
      have e : (reset.offset + u32 (data.length : Int)) % 4294967296 = data.length := by
        rw [u32_small (by omega)]
        show (0 + data.length) % 4294967296 = _
        omega
      rw [e, if_neg (by omega), if_neg (by omega)]
      exact ⟨_, rfl, rfl, rfl⟩
  · subst hf
    have h := hr f rfl
    rw [hs] at h; rcases h with h | h <;> cases h

/-- **C50** (partial: files of one fragment.)  If the whole file fits in one fragment the transfer survives the loss of its acknowledgement:
the receiver stores the file again, reports that it is done, and the sender is done when it hears that. -/
theorem C50_single_partial {X : List Byte} {file g : Option FileSt} {D : Option (List Byte)} {ty : Byte} {env : Env} {r : Result}
    {room : Int} {o2 : List Out} {st : Option (List Byte)} (hX0 : X ≠ []) (hX : X.length < 2 ^ 16) (hr : Rests file)
    (h1 : txDecode file env (xfer ty X.length 0 X) = .ok r) (hok : r.ok = true)
    (h2 : statBuild r.file env room = .ok (g, o2, st)) (hroom : 7 ≤ room) (hc : 0 ≤ env.fclose) :
    stored D (r.outs ++ o2) = some X ∧ Rests g ∧ st = some (statBytes 1) ∧
    ∀ (f : FileSt) (env' : Env) (s : Result), f.state = .inprog → f.offset = 0 → f.size = X.length → f.length = X.length →
      statDecode (some f) env' (statBytes 1) = .ok s → ∃ g, s.file = some g ∧ g.state = .done := by
  rcases fragment_taken (D := D) (by omega) (.inl ⟨rfl, hr⟩) hX0 hX (by simp) (by omega) h1 hok h2 hroom hc with ⟨-, h3, h4, h5⟩ | ⟨h, -⟩
  · exact ⟨h5, h4, h3, fun f env' s e1 e2 e3 e4 hs => last_heard e1 e4 (by omega) (by omega) hs⟩
  · omega

end File

namespace Link

open Spec.FileStore

/-! ### the library's own CP and PD, one lost reply -/

/-- a PD without a key -/
def openInfo : PdM.Info := { Sample.pdInfo with scbk := none }

/-- the CP and the PD, online without a secure channel -/
def openTalk : Sample.Talk :=
  Sample.Talk.turns xorCipher 20 24 { cp := (CpM.newPd openInfo 0 false 16).getD (PdM.blank 16), pd := (PdM.setup openInfo false 16).getD (PdM.blank 16) }

/-- `n` turns of a transfer of a file of `size` bytes, two bytes at a time, in which the reply of turn `lost` is lost -/
def lossy (size lost n : Nat) : Sample.Talk :=
  (openTalk.filing xorCipher (Sample.content size) 2).fturns xorCipher 100 (Sample.content size) 2 ((List.range n).map (· == lost))

/-- where the two ends are: state and offset of the sender, state and offset of the receiver, what is stored -/
def reachedBy (t : Sample.Talk) : Option (FileTxState × Nat) × Option (FileTxState × Nat) × Option (List Byte) :=
  (t.cp.file.map fun f => (f.state, f.offset), t.pd.file.map fun f => (f.state, f.offset), stored none t.pdOuts)

/-- no loss: the file arrives -/
theorem lossless : reachedBy (lossy 7 100 14) = (some (.done, 7), some (.done, 7), some (Sample.content 7)) := by decide +kernel

/-- **C50** fails: the reply to the first of four fragments is lost, and the receiver breaks off when the third arrives (the turn faults;
sender and receiver stay where they were). -/
theorem C50_aborts : (lossy 7 3 20).bad = false ∧ reachedBy (lossy 7 3 20) = (some (.inprog, 4), some (.inprog, 6), some ((Sample.content 7).take 4)) ∧
    (lossy 7 3 21).bad = true := by
  refine ⟨?_, ?_, ?_⟩ <;> decide +kernel

/-- **C50** fails: the reply to the first of three fragments is lost.  The receiver is done when it has two thirds of the file; the last
third is taken for the beginning of another one, and the sender goes offline. -/
theorem C50_truncated : reachedBy (lossy 6 3 18) = (some (.inprog, 2), some (.done, 6), some ((Sample.content 6).take 4)) ∧
    reachedBy (lossy 6 3 22) = (some (.inprog, 6), some (.inprog, 2), some ([0, 0, 0, 0] ++ (Sample.content 6).drop 4)) ∧
    (lossy 6 3 22).bad = false ∧ (lossy 6 3 22).cp.state = .offline := by
  refine ⟨?_, ?_, ?_, ?_⟩ <;> decide +kernel

/-- **C50** fails: the reply to the last fragment is lost.  The receiver, which had the whole file, opens it again. -/
theorem C50_restarted : reachedBy (lossy 4 6 7) = (some (.inprog, 2), some (.done, 4), some (Sample.content 4)) ∧
    reachedBy (lossy 4 6 19) = (some (.inprog, 4), some (.inprog, 2), some ([0, 0] ++ (Sample.content 4).drop 2)) ∧
    (lossy 4 6 19).bad = false ∧ (lossy 4 6 19).cp.state = .offline := by
  refine ⟨?_, ?_, ?_, ?_⟩ <;> decide +kernel

-- a file of one fragment survives
example : reachedBy (lossy 2 3 4) = (some (.inprog, 0), some (.done, 2), some (Sample.content 2)) ∧
    reachedBy (lossy 2 3 16) = (some (.done, 2), some (.done, 2), some (Sample.content 2)) := by
  refine ⟨?_, ?_⟩ <;> decide +kernel

end Link

namespace File

open Spec.FileLog (xfer)
open Spec.FileStore

/-- a receiver in the middle of the file -/
def midway (size o : Nat) : FileSt := { reset with fileId := 1, size := size, offset := o, state := .inprog }

-- a repeated fragment, in each of the three cases
example : ∀ n ∈ [5, 6, 7], ∃ r : Result,
    Ready (Sample.content n) (some (midway n 4)) (some ((Sample.content n).take 4)) (2 + ((Sample.content n).drop 2 |>.take 2).length) ∧
    txDecode (some (midway n 4)) (Sample.taker { now := 0 }) (xfer 1 (Sample.content n).length 2 ((Sample.content n).drop 2 |>.take 2)) = .ok r ∧
    r.ok = true := by
  intro n hn
  simp only [List.mem_cons, List.not_mem_nil, or_false] at hn
  rcases hn with rfl | rfl | rfl <;>
    exact ⟨_, .inr ⟨_, rfl, rfl, by decide, by decide, by decide, by decide⟩, rfl, rfl⟩

-- the last fragment again, and a single one
example : ∃ r : Result, Rests (some { midway 5 5 with state := .done }) ∧
    txDecode (some { midway 5 5 with state := .done }) (Sample.taker { now := 0 }) (xfer 1 5 4 ((Sample.content 5).drop 4)) = .ok r ∧ r.ok = true :=
  ⟨_, (fun g hg => by injection hg with hg; subst hg; exact .inr rfl), rfl, rfl⟩

example : ∃ r : Result, Rests (some { midway 5 5 with state := .done }) ∧
    txDecode (some { midway 5 5 with state := .done }) (Sample.taker { now := 0 }) (xfer 1 5 0 (Sample.content 5)) = .ok r ∧ r.ok = true ∧
    ∃ g o2 st, statBuild r.file (Sample.taker { now := 0 }) 100 = .ok (g, o2, st) :=
  ⟨_, (fun g hg => by injection hg with hg; subst hg; exact .inr rfl), rfl, rfl, _, _, _, rfl⟩

end File
end Osdp
