import Verif.Lemmas.CpFile
import Verif.Lemmas.SampleFile
import Verif.Props.C15

/-!
# C53: the PD's status and the CP's file transfer
-/

namespace Osdp

namespace Spec.FileLog

/-- the status in a file transfer status reply (after its id): control, delay, status, size of the update messages -/
def status : List Byte → Option Int
  | [_, _, _, lo, hi, _, _] =>
    let n := lo.toNat + 256 * hi.toNat
    some (if n < 32768 then (n : Int) else (n : Int) - 65536)
  | _ => none

end Spec.FileLog

namespace CpM

open Spec.FileLog (status)

theorem int16_status (c d0 d1 lo hi x0 x1 : Byte) : status [c, d0, d1, lo, hi, x0, x1] = some (File.int16 lo hi) := by
  unfold status File.int16
  have e : (hi ++ lo : BitVec 16).toNat = lo.toNat + 256 * hi.toNat := by
    rw [BitVec.toNat_append, Nat.shiftLeft_eq, Nat.mul_comm]
    have := lo.isLt
    rw [← Nat.two_pow_add_eq_or_of_lt this]
    omega
  show some (if lo.toNat + 256 * hi.toNat < 32768 then ((lo.toNat + 256 * hi.toNat : Nat) : Int) else _) = _
  rw [BitVec.toInt_eq_toNat_cond]
  have h1 := lo.isLt
  have h2 := hi.isLt
  congr 1
  show _ = if 2 * (hi ++ lo : BitVec 16).toNat < 65536 then ((hi ++ lo : BitVec 16).toNat : Int) else ((hi ++ lo : BitVec 16).toNat : Int) - 65536
  rw [e]
  split <;> split <;> omega

/-- the PD's file transfer status `n` arrives -/
def Reports (C : Cipher) (q : Pd) (op : Op) (n : Int) : Prop :=
  ∃ cb env id body, op = .update cb env ∧ replyOf C q env = some (id, body) ∧ id.toNat = Id.FTSTAT ∧ status body = some n

/-- what one call does to a transfer under way, as far as its progress goes -/
theorem file_moves {C : Cipher} {info : PdM.Info} {q s : Pd} {op : Op} {o : List Out} {f : FileSt} (hq : Reached C info q)
    (hs : step C q op = .ok (s, o)) (hf : q.file = some f) :
    (∃ g, s.file = some g ∧ g.state = f.state ∧ g.offset = f.offset ∧ g.size = f.size ∧ g.fileId = f.fileId) ∨
    s.file = some File.reset ∨
    (∃ env c n, op = .send env (.fileTx c) ∧ f.state ≠ .inprog ∧
      s.file = some { File.reset with flags := c.flags, fileId := c.id, size := n, state := .inprog }) ∨
    (∃ n g, Reports C q op n ∧ f.state = .inprog ∧ s.file = some g ∧ g.size = f.size ∧ g.fileId = f.fileId ∧
      ((g.state = .inprog ∧ g.offset ≤ g.size) ∨
       (g.offset = g.size ∧ ((n = 3 ∧ g.state = .keepAlive) ∨ ((n = 1 ∨ n = 2) ∧ g.state = .done))))) := by
  by_cases hop : ∀ cb env, op ≠ .update cb env
  · rcases api_file hop hs with ⟨h, -⟩ | ⟨-, h, -⟩ | ⟨env, c, ok, rfl, -, h⟩
    · exact .inl ⟨f, by rw [h, hf], rfl, rfl, rfl, rfl⟩
    · exact .inr (.inl h)
    · rw [hf] at h
      rcases txCommand_inv h with ⟨h, -⟩ | ⟨f', hf', -, -, -, h, -⟩ | ⟨f', n, hf', h1, -, -, h, -⟩
      · exact .inl ⟨f, h, rfl, rfl, rfl, rfl⟩
      · injection hf' with hf'; subst hf'
        exact .inl ⟨_, h, rfl, rfl, rfl, rfl⟩
      · injection hf' with hf'; subst hf'
        exact .inr (.inr (.inl ⟨env, c, n, rfl, h1, h⟩))
  · obtain ⟨cb, env, rfl⟩ : ∃ cb env, op = .update cb env := by
      refine Classical.byContradiction fun hn => hop fun cb env h => hn ⟨cb, env, h⟩
    obtain ⟨⟨s1, o1, y⟩, hu, h1⟩ := Res.bind_eq_ok.mp hs
    injection h1 with h1; injection h1 with e1 e2; subst e1 e2
    cases (stateUpdate_inv hq.inv.cp hu).file hq.inv with
    | same h _ _ => exact .inl ⟨f, by rw [h, hf], rfl, rfl, rfl, rfl⟩
    | built room o r _ _ _ _ h1 _ =>
      rw [hf] at h1
      obtain ⟨f', hf', h | h | h⟩ := File.txBuild_inv h1
      · exact .inr (.inl h.2.2.1)
      · injection hf' with hf'; subst hf'
        exact .inl ⟨f, h.2.2.1, rfl, rfl, rfl, rfl⟩
      · injection hf' with hf'; subst hf'
        rcases h.2.2.2 with ⟨-, h, -⟩ | ⟨n, bytes, -, -, -, -, h, -⟩
        · exact .inr (.inl h)
        · exact .inl ⟨_, h, rfl, rfl, rfl, rfl⟩
    | chosen o n _ _ _ h1 _ _ _ =>
      rw [hf] at h1
      unfold File.getCommand at h1
      dsimp only at h1
      split at h1
      · injection h1 with h1 _; exact .inl ⟨f, h1.symm, rfl, rfl, rfl, rfl⟩
      split at h1
      · unfold File.abort at h1
        dsimp only at h1
        split at h1
        · injection h1 with h1 _; exact .inr (.inl h1.symm)
        · injection h1 with h1 _; exact .inl ⟨f, h1.symm, rfl, rfl, rfl, rfl⟩
      split at h1
      · injection h1 with h1 _; exact .inl ⟨f, h1.symm, rfl, rfl, rfl, rfl⟩
      split at h1 <;> (injection h1 with h1 _; exact .inl ⟨f, h1.symm, rfl, rfl, rfl, rfl⟩)
    | heard id body r hr hid h1 h2 _ =>
      rw [hf] at h1
      rcases File.statDecode_inv h1 with ⟨h, -⟩ | ⟨f', control, d0, d1, s0, s1, x0, x1, g, hg, hf', hst, rfl, hle, ho, hsz, hfid, -, -, hcase⟩
      · exact .inl ⟨f, by rw [h2, h], rfl, rfl, rfl, rfl⟩
      · injection hf' with hf'; subst hf'
        refine .inr (.inr (.inr ⟨File.int16 s0 s1, g, ⟨cb, env, id, _, rfl, hr, hid, int16_status ..⟩, hst, by rw [h2, hg], hsz, hfid, ?_⟩))
        rcases hcase with ⟨h, hs, -⟩ | ⟨h, -, hs⟩
        · exact .inl ⟨hs, by omega⟩
        · rcases hs with ⟨k, hs, -⟩ | ⟨k, hs, -⟩ | ⟨k, hs, -⟩ | ⟨-, -, -, hs, -⟩
          · exact .inr ⟨by omega, .inl ⟨k, hs⟩⟩
          · exact .inr ⟨by omega, .inr ⟨.inr k, hs⟩⟩
          · exact .inr ⟨by omega, .inr ⟨.inl k, hs⟩⟩
          · exact .inl ⟨hs, by omega⟩

/-- **C53 (partial).**  The CP regards a transfer as finished only when the PD has reported status 1 or 2 (never an error) for the last
fragment, and moves on in the file only when the PD has reported some status.  Missing: an error status for a fragment other than the last
does not stop the transfer, and one for the last does not make the call for the status say so, see `C53_ignored`. -/
theorem C53_partial (C : Cipher) (info : PdM.Info) (q s : Pd) (op : Op) (o : List Out) (f g : FileSt) (hq : Reached C info q)
    (hs : step C q op = .ok (s, o)) (hf : q.file = some f) (hg : s.file = some g) :
    (g.state = .done → f.state ≠ .done → (Reports C q op 1 ∨ Reports C q op 2) ∧ f.state = .inprog ∧ g.offset = f.size ∧ g.size = f.size) ∧
    (f.state = .inprog → g.state = .inprog → g.offset ≠ f.offset → ∃ n, Reports C q op n) := by
  rcases file_moves hq hs hf with ⟨g', h1, h2, h3, -⟩ | h1 | ⟨env, c, n, -, h2, h1⟩ | ⟨n, g', h1, h2, h3, h4, -, h5⟩
  · rw [hg] at h1; injection h1 with h1; subst h1
    exact ⟨fun h h' => absurd (h2.symm.trans h) h', fun _ _ h => absurd h3 h⟩
  · rw [hg] at h1; injection h1 with h1; subst h1
    exact ⟨(fun h => by cases h), (fun _ h => by cases h)⟩
  · rw [hg] at h1; injection h1 with h1; subst h1
    exact ⟨(fun h => by cases h), fun h => absurd h h2⟩
  · rw [hg] at h3; injection h3 with h3; subst h3
    refine ⟨fun h _ => ?_, fun _ _ _ => ⟨n, h1⟩⟩
    rcases h5 with ⟨h', -⟩ | ⟨h6, ⟨-, h'⟩ | ⟨h', -⟩⟩
    · rw [h] at h'; cases h'
    · rw [h] at h'; cases h'
    · refine ⟨?_, h2, by omega, h4⟩
      rcases h' with rfl | rfl
      · exact .inl h1
      · exact .inr h1

open Sample in
/-- The sample CP sends a file of `n` bytes, up to `chunk` in a packet, and hears these statuses. -/
def fileHears (n chunk : Nat) (stats : List (List Byte)) : List Op :=
  meets [4, 0, 0] ++ [.fileOps, .send (sender (content n) chunk { now := 0 }) (.fileTx { id := 1, flags := 0#32 })] ++
  (stats.zipIdx.map fun (b, i) => [[], [], reply (b8 (([2, 3, 1] : List Nat)[i % 3]!)) (b8 Id.FTSTAT :: b)].map fun x =>
    Op.update true (sender (content n) chunk { now := 0, recv := blocks64 x, random := rndA })).flatten

/-- what `osdp_get_file_tx_status` says after a history of the sample CP, the state of the line, and the calls of the file operations -/
def fileSays (ops : List Op) : Option ((Option (Nat × Nat) × CpState) × List Out) :=
  match run xorCipher Sample.cp ops with
  | .ok (q, o) => match File.txStatus q.file with
    | .ok r => some ((r, q.state), fileOuts o)
    | .error _ => none
  | .error _ => none

/-- statuses "ok", "contents processed", "abort", "malformed" -/
def statOk : List Byte := [1, 0, 0, 0, 0, 0, 0]
def statDone : List Byte := [1, 0, 0, 1, 0, 0, 0]
def statAbort : List Byte := [1, 0, 0, 0xFF, 0xFF, 0, 0]
def statMalformed : List Byte := [1, 0, 0, 0xFD, 0xFF, 0, 0]

/-- the hypotheses are met: the transfer moves on and ends -/
example : fileSays (fileHears 10 4 [statOk]) = some ((some (10, 4), .online), [.fopen 1 0, .fread 223 0]) ∧
    (match run xorCipher Sample.cp (fileHears 10 4 [statOk, statOk, statDone]) with
      | .ok (q, o) => decide (q.file.map (fun f => (f.state, f.offset)) = some (.done, 10) ∧
          fileOuts o = [.fopen 1 0, .fread 223 0, .fread 223 4, .fread 223 8, .fclose])
      | .error _ => false) = true := by decide +kernel

/-- **C53 fails.** The PD answers the first fragment with "abort transfer": the CP reports four bytes sent and goes on to send the next.
It answers the last fragment (or every one) with "malformed": the CP reports all ten bytes sent. -/
theorem C53_ignored :
    status statAbort = some (-1) ∧ status statMalformed = some (-3) ∧
    fileSays (fileHears 10 4 [statAbort]) = some ((some (10, 4), .online), [.fopen 1 0, .fread 223 0]) ∧
    fileSays (fileHears 10 4 [statAbort, statAbort]) = some ((some (10, 8), .online), [.fopen 1 0, .fread 223 0, .fread 223 4]) ∧
    fileSays (fileHears 10 10 [statMalformed]) = some ((some (10, 10), .offline), [.fopen 1 0, .fread 223 0, .fclose]) := by
  refine ⟨by decide +kernel, by decide +kernel, by decide +kernel, by decide +kernel, by decide +kernel⟩

end CpM

end Osdp
