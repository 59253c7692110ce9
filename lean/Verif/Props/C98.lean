import Verif.Props.C51

/-!
# C98: a file is received only with the consent of the application

Before the PD opens a file for receiving, it asks the application: command callback with OSDP_CMD_FILE_TX, the id of the file, and the flags
("Reserved and set to zero", include/osdp.h:680-687).

Full statement: whenever the PD opens a file, the application has just been asked for this file, with flags 0, and has not refused; if it
refuses, no file is opened or written and the CP is told so with NAK; and what is written to a file that was opened with consent comes from
fragments of that file.
-/

namespace Osdp.PdM

open Spec.FileLog (xfer)

/-! ### spec -/

/-- the application was asked for file `i`, did not refuse, and the file was opened then: the effects begin like that -/
def Consented (env : Env) (i n : Int) (outs : List Out) : Prop :=
  ∃ cb rest, env.cb = some cb ∧ 0 ≤ (cb 0 (.fileTx { id := i, flags := 0 })).1 ∧
    outs = .cmd (.fileTx { id := i, flags := 0 }) :: .fopen i n :: rest

/-! ### lemmas -/

theorem statBuild_flags {file g : Option FileSt} {env : Env} {room : Int} {outs : List Out} {r : Option (List Byte)}
    (h : File.statBuild file env room = .ok (g, outs, r)) (h0 : ∀ f, file = some f → f.flags = 0) : ∀ f, g = some f → f.flags = 0 := by
  intro f hf
  rcases File.statBuild_inv h with ⟨k1, -, -, -⟩ | ⟨g, off, k1, k2, -, -, k5, ⟨-, -, k8⟩ | ⟨-, -, k8, -⟩⟩
  · rw [k1] at hf; exact h0 f hf
  · rcases k8 with ⟨-, k8, -⟩ | ⟨-, k8, -⟩ <;> (rw [k8] at hf; injection hf with hf; subst hf; exact h0 g k1)
  · rw [k8] at hf; injection hf with hf; subst hf; exact h0 g k1

/-- a PD never sets a flag of its file transfer -/
theorem file_flags {C : Cipher} {info : Info} {q : Pd} (h : Reached C info q) : ∀ f, q.file = some f → f.flags = 0 := by
  refine h.ind (fun q => ∀ f, q.file = some f → f.flags = 0) ?_ ?_
  · intro sk n p h0 f hf
    unfold setup at h0
    split at h0
    · cases h0
    · injection h0 with h0; subst h0; cases hf
  · intro p op q outs hR hI hs
    cases op with
    | refresh env =>
      obtain ⟨p1, o1, ret, o2, hg, -, hfin, rfl⟩ := refresh_inv hR.pdMode hs
      have h1 : ∀ f, p1.file = some f → f.flags = 0 := by
        cases got_file hg with
        | other e _ _ => rw [e]; exact hI
        | abort _ _ _ e _ _ _ =>
          intro f hf
          rw [e] at hf
          unfold File.abort at hf
          split at hf
          · cases hf
          · rename_i g hg
            split at hf
            · injection hf with hf; subst hf; rfl
            · injection hf with hf; subst hf; exact hI _ hg
        | chunk _ _ r _ _ h3 e _ _ _ =>
          rw [e]
          rcases File.txDecode_log h3 with ⟨e1, -, -⟩ | ⟨f, c, -, -, -, e3, -, -⟩ | ⟨f, c, n, -, -, -, -, e4, -, -⟩ | ⟨f, c, n, e0, -, -, -, e4, -, -⟩
          · rw [e1]; exact hI
          · rw [e3]; exact hI
          · rw [e4]; intro g hg; injection hg with hg; subst hg; rfl
          · rw [e4]; intro g hg; injection hg with hg; subst hg; exact hI f e0
      rcases finished_file hfin with ⟨e1, -⟩ | ⟨-, -, room, r, o, e1, -⟩
      · rw [e1]; exact h1
      · exact statBuild_flags e1 h1
    | fileOps =>
      injection hs with hs; injection hs with e1 e2; subst e1 e2
      intro f hf; injection hf with hf; subst hf; rfl
    | notify e =>
      injection hs with hs; injection hs with e1 e2; subst e1 e2
      have : (notifyEvent p e).1.file = p.file := by unfold notifyEvent; repeat' split <;> try rfl
      rw [this]; exact hI
    | flush => injection hs with hs; injection hs with e1 e2; subst e1 e2; exact hI
    | setCaps caps => injection hs with hs; injection hs with e1 e2; subst e1 e2; exact hI

/-- how the application is asked -/
theorem rxBegin_asked {f : FileSt} {env : Env} {c : File.Chunk} {r : Option FileSt} {outs : List Out} (h : File.rxBegin f env c = (r, outs)) :
    (env.cb = none ∧ outs = [.fopen c.type.toNat (toI32 c.size)]) ∨
    ∃ cb, env.cb = some cb ∧
      (((cb 0 (.fileTx { id := c.type.toNat, flags := f.flags })).1 < 0 ∧ r = none ∧ outs = [.cmd (.fileTx { id := c.type.toNat, flags := f.flags })]) ∨
       (0 ≤ (cb 0 (.fileTx { id := c.type.toNat, flags := f.flags })).1 ∧
        outs = [.cmd (.fileTx { id := c.type.toNat, flags := f.flags }), .fopen c.type.toNat (toI32 c.size)])) := by
  unfold File.rxBegin File.rxVeto at h
  cases hcb : env.cb with
  | none =>
    rw [hcb] at h
    dsimp only at h
    left
    refine ⟨rfl, ?_⟩
    split at h <;> (injection h with h1 h2; subst h2; rfl)
  | some cb =>
    rw [hcb] at h
    dsimp only at h
    right
    refine ⟨cb, rfl, ?_⟩
    by_cases hv : (cb 0 (.fileTx { id := c.type.toNat, flags := f.flags })).1 < 0
    · rw [decide_eq_true hv] at h
      injection h with h1 h2; subst h1 h2
      exact .inl ⟨hv, rfl, rfl⟩
    · rw [decide_eq_false hv] at h
      dsimp only at h
      refine .inr ⟨by omega, ?_⟩
      split at h <;> (injection h with h1 h2; subst h2; rfl)

theorem fopen_fileOuts {i n : Int} {l : List Out} (h : Out.fopen i n ∈ l) : Out.fopen i n ∈ fileOuts l := List.mem_filter.mpr ⟨h, rfl⟩

theorem finished_opens {C : Cipher} {p q : Pd} {env : Env} {ret : PdRet} {outs : List Out} {i n : Int} (h : Finished C p env ret q outs) :
    Out.fopen i n ∉ outs := by
  intro ho
  replace ho := fopen_fileOuts ho
  rcases finished_file h with ⟨-, e⟩ | ⟨-, -, room, r, o, e1, e⟩
  · rw [e] at ho; cases ho
  · rw [e] at ho
    rcases File.statBuild_inv e1 with ⟨-, k, -, -⟩ | ⟨g, off, -, -, -, -, -, ⟨-, k, -⟩ | ⟨-, k, -, -⟩⟩ <;> subst k
    · cases ho
    · revert ho; simp [fileOuts, isFileOp]
    · cases ho

/-- a fragment heard is handed to the file module -/
theorem heard_fragment {C : Cipher} {p q : Pd} {env : Env} {outs : List Out} {ret : PdRet} {body : List Byte}
    (h : Got C (expire p env.now) env q outs ret) (hc : commandOf C p env = some (0x7C#8, body)) :
    ∃ r, File.txDecode p.file env body = .ok r ∧ outs = r.outs ∧ q.file = r.file ∧ ret = if r.ok then .none else .wait := by
  rcases h.heard with ⟨hn, -, -⟩ | ⟨id, b, p2, h1, ht, hd, -⟩
  · rw [hc] at hn; cases hn
  · rw [hc] at h1; injection h1 with h1; injection h1 with e1 e2; subst e1 e2
    have hf : (noteCmd p2 0x7C#8).file = p.file := (transp_file ht : _).trans (expire_file p env.now)
    have hid : (noteCmd p2 0x7C#8).cmdId = 0x7C := rfl
    unfold dispatch at hd
    dsimp only at hd
    rw [hid] at hd
    iterate 16 (rw [if_neg (by decide)] at hd)
    rw [if_pos (show 0x7C = Id.FILETRANSFER from rfl)] at hd
    obtain ⟨r, k1, k2⟩ := Res.bind_eq_ok.mp hd
    rw [hf] at k1
    refine ⟨r, k1, ?_⟩
    cases hr : r.ok <;> rw [hr] at k2 <;> (injection k2 with k2; injection k2 with e1 k2; injection k2 with e2 e3; subst e1 e2 e3; exact ⟨rfl, rfl, rfl⟩)

theorem chunk_whole {type : Byte} {size offset : Nat} {data : List Byte} (hs : size < 2 ^ 32) (ho : offset < 2 ^ 32) (hd : data ≠ [])
    (hl : data.length < 2 ^ 16) : File.chunk (xfer type size offset data) = some ⟨type, size, offset, data.length, data⟩ := by
  rw [chunk_of_xfer hs ho hd, ofLe_le16 hl]

/-! ### the claims -/

/-- **C98 (partial).**  In every history, whenever a PD opens a file, its application has just been asked for that file and has not refused;
unless there is none to ask.  Missing: that case (`C98_unasked`). -/
theorem C98_partial (C : Cipher) (info : Info) (p q : Pd) (op : Op) (outs : List Out) (i n : Int) (hp : Reached C info p)
    (h : step C p op = .ok (q, outs)) (ho : Out.fopen i n ∈ outs) :
    ∃ env, op = .refresh env ∧ (Consented env i n outs ∨ env.cb = none) := by
  cases op with
  | refresh env =>
    refine ⟨env, rfl, ?_⟩
    obtain ⟨p1, o1, ret, o2, hg, -, hfin, rfl⟩ := refresh_inv hp.pdMode h
    have ho1 : Out.fopen i n ∈ o1 := by
      rcases List.mem_append.mp ho with h | h
      · exact h
      · exact absurd h (finished_opens hfin)
    cases got_file hg with
    | other _ e _ => have := fopen_fileOuts ho1; rw [e] at this; cases this
    | abort _ _ _ _ e _ _ =>
      rw [e] at ho1
      unfold File.abort at ho1
      split at ho1
      · cases ho1
      · split at ho1 <;> simp at ho1
    | chunk _ body r _ _ h3 _ e _ _ =>
      subst e
      rcases File.txDecode_inv h3 with ⟨rfl, -⟩ | ⟨f, c, hf, hc, hl, hb⟩
      · cases ho1
      have h0 := file_flags hp f hf
      have key : ∀ {g : Option FileSt} {o tail : List Out}, File.rxBegin f env c = (g, o) → r.outs = o ++ tail →
          (∀ a b, Out.fopen a b ∉ tail) → Consented env i n (r.outs ++ o2) ∨ env.cb = none := by
        intro g o tail hbg he ht
        have ho2 : Out.fopen i n ∈ o := by
          rw [he] at ho1
          rcases List.mem_append.mp ho1 with h | h
          · exact h
          · exact absurd h (ht _ _)
        rcases rxBegin_asked hbg with ⟨k, -⟩ | ⟨cb, k1, ⟨-, -, k3⟩ | ⟨k2, k3⟩⟩
        · exact .inr k
        · subst k3; simp at ho2
        · subst k3
          rw [h0] at k2 he ho2
          left
          simp at ho2
          obtain ⟨rfl, rfl⟩ := ho2
          exact ⟨cb, tail ++ o2, k1, k2, by rw [he]; rfl⟩
      rcases hb with ⟨-, o, hb, rfl⟩ | ⟨-, g, o, hb, rfl⟩ | ⟨-, rfl⟩
      · exact key (tail := []) hb (by simp) (by simp)
      · by_cases hi : g.state = .inprog
        · exact key hb (File.chunkWrite_log env c o hi).1 (by simp)
        · rw [File.chunkWrite_idle env c o hi] at *
          exact key (tail := []) hb (by simp) (by simp)
      · exfalso
        by_cases hi : f.state = .inprog
        · rw [(File.chunkWrite_log env c [] hi).1] at ho1; simp at ho1
        · rw [File.chunkWrite_idle env c [] hi] at ho1; cases ho1
  | fileOps => injection h with h; injection h with e1 e2; subst e2; cases ho
  | notify e => injection h with h; injection h with e1 e2; subst e2; cases ho
  | flush => injection h with h; injection h with e1 e2; subst e2; cases ho
  | setCaps caps => injection h with h; injection h with e1 e2; subst e2; cases ho

/-- **C98, a refusal.**  A PD that is not receiving a file hears a fragment, and its application refuses: nothing is opened, written or
noted.  But contrary to the property nothing is sent either: the CP is not told. -/
theorem C98_refused (C : Cipher) (info : Info) (p q : Pd) (env : Env) (outs : List Out) (type : Byte) (size offset : Nat) (data : List Byte) (f : FileSt)
    (cb : Nat → Cmd → Int × Cmd) (hp : Reached C info p) (hs : size < 2 ^ 32) (ho : offset < 2 ^ 32) (hd : data ≠ []) (hl : data.length < 2 ^ 16)
    (hc : commandOf C p env = some (0x7C#8, xfer type size offset data)) (hf : p.file = some f) (hst : f.state = .idle ∨ f.state = .done)
    (hcb : env.cb = some cb) (hno : (cb 0 (.fileTx { id := type.toNat, flags := 0 })).1 < 0) (h : refresh C p env = .ok (q, outs)) :
    outs = [.cmd (.fileTx { id := type.toNat, flags := 0 })] ∧ q.file = p.file := by
  obtain ⟨p1, o1, ret, o2, hg, -, hfin, rfl⟩ := refresh_inv hp.pdMode h
  obtain ⟨r, h3, rfl, e, hret⟩ := heard_fragment hg hc
  rcases File.txDecode_inv h3 with ⟨rfl, h | h⟩ | ⟨f', c, hf', hc', -, hb⟩
  · rw [hf] at h; cases h
  · rw [chunk_whole hs ho hd hl] at h; cases h
  rw [hf] at hf'; injection hf' with hf'; subst hf'
  rw [chunk_whole hs ho hd hl] at hc'; injection hc' with hc'; subst hc'
  have h0 := file_flags hp f hf
  rcases hb with ⟨-, o, hb, rfl⟩ | ⟨-, g, o, hb, rfl⟩ | ⟨h, -⟩
  · obtain ⟨k1, k2⟩ : o2 = [] ∧ q.file = p1.file := by
      cases hfin with
      | keep _ => exact ⟨rfl, rfl⟩
      | reset _ => exact ⟨rfl, rfl⟩
      | reply h _ _ => rw [hret] at h; rcases h with h | h <;> cases h
    rcases rxBegin_asked hb with ⟨k, -⟩ | ⟨cb', k3, ⟨-, -, k5⟩ | ⟨k4, -⟩⟩
    · rw [hcb] at k; cases k
    · subst k1 k5
      rw [h0]
      exact ⟨rfl, k2.trans (e.trans hf.symm)⟩
    · rw [hcb] at k3; injection k3 with k3; subst k3
      rw [h0] at k4
      exact absurd hno (by simpa using k4)
  · rcases rxBegin_asked hb with ⟨k, -⟩ | ⟨cb', k3, ⟨-, k5, -⟩ | ⟨k4, -⟩⟩
    · rw [hcb] at k; cases k
    · cases k5
    · rw [hcb] at k3; injection k3 with k3; subst k3
      rw [h0] at k4
      exact absurd hno (by simpa using k4)
  · exact absurd hst h

/-- **C98 fails.**  While a file is being received, a fragment of any other file is written to it, and nobody is asked. -/
theorem C98_mixed (C : Cipher) (info : Info) (p q : Pd) (env : Env) (outs : List Out) (type : Byte) (size offset : Nat) (data : List Byte) (f : FileSt)
    (hp : Reached C info p) (hs : size < 2 ^ 32) (ho : offset < 2 ^ 32) (hd : data ≠ []) (hl : data.length < 2 ^ 16)
    (hc : commandOf C p env = some (0x7C#8, xfer type size offset data)) (hf : p.file = some f) (hst : f.state = .inprog)
    (h : refresh C p env = .ok (q, outs)) :
    ∃ rest, outs = .fwrite data (toI32 offset) :: rest ∧ (∀ c, Out.cmd c ∉ rest) ∧ ∃ g, q.file = some g ∧ g.fileId = f.fileId ∧ g.size = f.size := by
  obtain ⟨p1, o1, ret, o2, hg, -, hfin, rfl⟩ := refresh_inv hp.pdMode h
  obtain ⟨r, h3, rfl, e, hret⟩ := heard_fragment hg hc
  rcases File.txDecode_inv h3 with ⟨rfl, h | h⟩ | ⟨f', c, hf', hc', -, hb⟩
  · rw [hf] at h; cases h
  · rw [chunk_whole hs ho hd hl] at h; cases h
  rw [hf] at hf'; injection hf' with hf'; subst hf'
  rw [chunk_whole hs ho hd hl] at hc'; injection hc' with hc'; subst hc'
  rcases hb with ⟨h, -⟩ | ⟨h, -⟩ | ⟨-, rfl⟩
  · rw [hst] at h; rcases h with h | h <;> cases h
  · rw [hst] at h; rcases h with h | h <;> cases h
  obtain ⟨k1, n, k2, -⟩ := File.chunkWrite_log env ⟨type, size, offset, data.length, data⟩ [] hst
  refine ⟨o2, by rw [k1]; rfl, fun c hc => ?_, ?_⟩
  · rcases finished_outs hfin _ hc with h | h | ⟨bs, h⟩ <;> cases h
  · rw [k2] at e
    rcases finished_file hfin with ⟨e1, -⟩ | ⟨-, -, room, r', o, e1, -⟩
    · exact ⟨_, e1.trans e, rfl, rfl⟩
    · rw [e] at e1
      rcases File.statBuild_inv e1 with ⟨k, -, -, -⟩ | ⟨g, off, k, -, -, -, -, ⟨-, -, k8⟩ | ⟨-, -, k8, -⟩⟩
      · exact ⟨_, k, rfl, rfl⟩
      · injection k with k; subst k
        rcases k8 with ⟨-, k8, -⟩ | ⟨-, k8, -⟩ <;> exact ⟨_, k8, rfl, rfl⟩
      · injection k with k; subst k
        exact ⟨_, k8, rfl, rfl⟩

/-! ### samples -/

/-- an application that takes files, and says `v` when asked -/
def says98 (v : Int) (e : Env) : Env := { filer e with cb := some fun _ c => (v, c) }

/-- the sample PD gets these fragments, and its application says `v` -/
def gets98 (v : Option Int) (frs : List (Nat × List Byte)) : Option (List Out) :=
  match run xorCipher Sample.pd (.fileOps :: frs.map fun x =>
      .refresh ((match v with | some v => says98 v | none => fun e => { filer e with cb := none })
        (Sample.env (Sample.cmd x.1 (b8 Id.FILETRANSFER :: x.2)) (20 * x.1)))) with
  | .ok (_, o) => some (o.filter fun a => match a with | .send _ => false | .flush => false | _ => true)
  | .error _ => none

/-- how many packets the PD sends -/
def replies98 (v : Int) (frs : List (Nat × List Byte)) : Option Nat :=
  match run xorCipher Sample.pd (.fileOps :: frs.map fun x =>
      .refresh (says98 v (Sample.env (Sample.cmd x.1 (b8 Id.FILETRANSFER :: x.2)) (20 * x.1)))) with
  | .ok (_, o) => some (Spec.Wire.sent o).length
  | .error _ => none

/-- **C98 fails.**  Asked, the application decides (0: yes, -1: no); without application the file is stored unasked. A refusal is not
reported, no reply is sent. -/
theorem C98_unasked :
    gets98 (some 0) [(0, xfer 1 5 0 [65, 66])] = some [.cmd (.fileTx { id := 1, flags := 0 }), .fopen 1 5, .fwrite [65, 66] 0] ∧
    gets98 (some (-1)) [(0, xfer 1 5 0 [65, 66])] = some [.cmd (.fileTx { id := 1, flags := 0 })] ∧
    gets98 none [(0, xfer 1 5 0 [65, 66])] = some [.fopen 1 5, .fwrite [65, 66] 0] ∧
    replies98 0 [(0, xfer 1 5 0 [65, 66])] = some 1 ∧ replies98 (-1) [(0, xfer 1 5 0 [65, 66])] = some 0 := by
  refine ⟨?_, ?_, ?_, ?_, ?_⟩ <;> decide +kernel

/-- **C98 fails.**  The application has agreed to file 1; the rest of it is taken from file 2, about which it is not asked. -/
theorem C98_other :
    gets98 (some 0) [(0, xfer 1 5 0 [65, 66]), (1, xfer 2 9 2 [67, 68, 69])] =
      some [.cmd (.fileTx { id := 1, flags := 0 }), .fopen 1 5, .fwrite [65, 66] 0, .fwrite [67, 68, 69] 2, .fclose] := by
  decide +kernel

/-- The hypotheses are met: the fragment is heard by a PD without a transfer, and by one with a transfer. -/
example : (match run xorCipher Sample.pd [.fileOps] with
    | .ok (p, _) => decide (commandOf xorCipher p (says98 (-1) (Sample.env (Sample.cmd 0 (b8 Id.FILETRANSFER :: xfer 1 5 0 [65, 66])) 0)) =
        some (0x7C#8, xfer 1 5 0 [65, 66]) ∧ p.file.map (fun (f : FileSt) => f.state) = some .idle)
    | .error _ => false) = true ∧
  (match run xorCipher Sample.pd [.fileOps, .refresh (says98 0 (Sample.env (Sample.cmd 0 (b8 Id.FILETRANSFER :: xfer 1 5 0 [65, 66])) 0))] with
    | .ok (p, _) => decide (commandOf xorCipher p (says98 0 (Sample.env (Sample.cmd 1 (b8 Id.FILETRANSFER :: xfer 2 9 2 [67, 68, 69])) 20)) =
        some (0x7C#8, xfer 2 9 2 [67, 68, 69]) ∧ p.file.map (fun (f : FileSt) => (f.state, f.fileId)) = some (.inprog, 1))
    | .error _ => false) = true := by
  refine ⟨?_, ?_⟩ <;> decide +kernel

end Osdp.PdM
