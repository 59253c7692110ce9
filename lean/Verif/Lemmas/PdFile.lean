import Verif.Lemmas.PdHear
import Verif.Lemmas.PdKey
import Verif.Lemmas.File

/-! # The file transfer of a PD, refresh by refresh -/

namespace Osdp

/-- the calls of the file operations -/
def isFileOp : Out → Bool
  | .fopen _ _ => true
  | .fread _ _ => true
  | .fwrite _ _ => true
  | .fclose => true
  | _ => false

/-- the calls of the file operations among the effects -/
def fileOuts (outs : List Out) : List Out := outs.filter isFileOp

@[simp] theorem fileOuts_nil : fileOuts [] = [] := rfl

theorem fileOuts_append (a b : List Out) : fileOuts (a ++ b) = fileOuts a ++ fileOuts b := List.filter_append ..

theorem fileOuts_none {outs : List Out} (h : ∀ o ∈ outs, isFileOp o = false) : fileOuts outs = [] := by
  unfold fileOuts; rw [List.filter_eq_nil_iff]; intro o ho; rw [h o ho]; simp

namespace File

/-- All outcomes of building a status reply. -/
theorem statBuild_inv {file g : Option FileSt} {env : Env} {room : Int} {outs : List Out} {r : Option (List Byte)}
    (h : statBuild file env room = .ok (g, outs, r)) :
    (g = file ∧ outs = [] ∧ r = none ∧ (∀ f, file = some f → f.state ≠ .inprog ∨ room < 7)) ∨
    ∃ f off, file = some f ∧ f.state = .inprog ∧ 7 ≤ room ∧
      off = (if f.length > 0 then (f.offset + u32 f.length) % 4294967296 else f.offset) ∧ off ≤ f.size ∧
      ((off = f.size ∧ outs = [.fclose] ∧
          ((env.fclose < 0 ∧ g = some { f with offset := off, length := 0 } ∧ r = none) ∨
           (0 ≤ env.fclose ∧ g = some { f with offset := off, length := 0, state := .done } ∧ r = some (statBytes 1)))) ∨
       (off < f.size ∧ outs = [] ∧ g = some { f with offset := off, length := 0 } ∧
          r = some (statBytes (if f.length > 0 then 0 else BitVec.ofInt 16 (-3))))) := by
  unfold statBuild at h
  split at h
  · injection h with h; injection h with h1 h2; injection h2 with h2 h3; subst h1 h2 h3
    exact .inl ⟨rfl, rfl, rfl, by simp⟩
  · rename_i f
    replace h := ite_inv h
    rcases h with ⟨hs, h⟩ | ⟨hs, h⟩
    · injection h with h; injection h with h1 h2; injection h2 with h2 h3; subst h1 h2 h3
      exact .inl ⟨rfl, rfl, rfl, fun f e => by injection e with e; subst e; exact .inl hs⟩
    replace h := ite_inv h
    rcases h with ⟨hr, h⟩ | ⟨hr, h⟩
    · injection h with h; injection h with h1 h2; injection h2 with h2 h3; subst h1 h2 h3
      exact .inl ⟨rfl, rfl, rfl, fun f e => .inr hr⟩
    · dsimp only at h
      replace h := ite_inv h
      rcases h with ⟨ha, h⟩ | ⟨ha, h⟩
      · cases h
      refine .inr ⟨f, _, rfl, Decidable.not_not.mp hs, by omega, rfl, by omega, ?_⟩
      replace h := ite_inv h
      rcases h with ⟨he, h⟩ | ⟨he, h⟩
      · replace h := ite_inv h
        rcases h with ⟨hc, h⟩ | ⟨hc, h⟩
        · injection h with h; injection h with h1 h2; injection h2 with h2 h3; subst h1 h2 h3
          exact .inl ⟨he, rfl, .inl ⟨hc, rfl, rfl⟩⟩
        · injection h with h; injection h with h1 h2; injection h2 with h2 h3; subst h1 h2 h3
          exact .inl ⟨he, rfl, .inr ⟨by omega, rfl, rfl⟩⟩
      · injection h with h; injection h with h1 h2; injection h2 with h2 h3; subst h1 h2 h3
        exact .inr ⟨by omega, rfl, rfl, rfl⟩

theorem rxBegin_log {f : FileSt} {env : Env} {c : Chunk} {r : Option FileSt} {outs : List Out}
    (h : rxBegin f env c = (r, outs)) :
    (r = none ∧ (fileOuts outs = [] ∨
      ((env.fopen c.type.toNat (toI32 c.size)).1 < 0 ∧ fileOuts outs = [.fopen c.type.toNat (toI32 c.size)]))) ∨
    (r = some { reset with fileId := c.type.toNat, size := c.size, state := .inprog } ∧
      fileOuts outs = [.fopen c.type.toNat (toI32 c.size)]) := by
  have hv : ∀ {b outs}, rxVeto f env c = (b, outs) → fileOuts outs = [] := by
    intro b outs h
    exact fileOuts_none fun o ho => by rw [rxVeto_outs h o ho]; rfl
  unfold rxBegin at h
  split at h
  · rename_i o ho
    injection h with h1 h2; subst h1 h2
    exact .inl ⟨rfl, .inl (hv ho)⟩
  · rename_i o ho
    split at h
    · rename_i hf
      injection h with h1 h2; subst h1 h2
      refine .inl ⟨rfl, .inr ⟨hf, ?_⟩⟩
      rw [fileOuts_append, hv ho]; rfl
    · injection h with h1 h2; subst h1 h2
      refine .inr ⟨rfl, ?_⟩
      rw [fileOuts_append, hv ho]; rfl

theorem chunkWrite_log {f : FileSt} (env : Env) (c : Chunk) (outs : List Out) (h : f.state = .inprog) :
    (chunkWrite f env c outs).outs = outs ++ [.fwrite c.data (toI32 c.offset)] ∧
    ∃ n, (chunkWrite f env c outs).file = some { f with length := env.fwrite c.data (toI32 c.offset), errors := n } ∧
    ((chunkWrite f env c outs).ok = true ↔ env.fwrite c.data (toI32 c.offset) = c.length) := by
  unfold chunkWrite
  rw [if_neg (by simp [h])]
  dsimp only
  split
  · rename_i hn
    exact ⟨rfl, _, rfl, by simpa using hn⟩
  · rename_i hn
    exact ⟨rfl, f.errors, rfl, by simpa using hn⟩

theorem chunkWrite_idle {f : FileSt} (env : Env) (c : Chunk) (outs : List Out) (h : f.state ≠ .inprog) :
    chunkWrite f env c outs = ⟨some f, outs, false, false⟩ := by
  unfold chunkWrite; rw [if_pos h]

/-- What a FILETRANSFER command does, in terms of the file operations. -/
theorem txDecode_log {file : Option FileSt} {env : Env} {body : List Byte} {r : Result} (h : txDecode file env body = .ok r) :
    (r.file = file ∧ fileOuts r.outs = [] ∧ r.ok = false) ∨
    (∃ f c, file = some f ∧ chunk body = some c ∧ (f.state = .idle ∨ f.state = .done) ∧ r.file = file ∧ r.ok = false ∧
      fileOuts r.outs = [.fopen c.type.toNat (toI32 c.size)]) ∨
    (∃ f c n, file = some f ∧ chunk body = some c ∧ c.length = c.data.length ∧ (f.state = .idle ∨ f.state = .done) ∧
      r.file = some { reset with fileId := c.type.toNat, size := c.size, state := .inprog, length := env.fwrite c.data (toI32 c.offset), errors := n } ∧
      fileOuts r.outs = [.fopen c.type.toNat (toI32 c.size), .fwrite c.data (toI32 c.offset)] ∧
      (r.ok = true ↔ env.fwrite c.data (toI32 c.offset) = c.length)) ∨
    (∃ f c n, file = some f ∧ chunk body = some c ∧ c.length = c.data.length ∧ f.state = .inprog ∧
      r.file = some { f with length := env.fwrite c.data (toI32 c.offset), errors := n } ∧
      fileOuts r.outs = [.fwrite c.data (toI32 c.offset)] ∧
      (r.ok = true ↔ env.fwrite c.data (toI32 c.offset) = c.length)) := by
  rcases txDecode_inv h with ⟨rfl, -⟩ | ⟨f, c, hf, hc, hl, h⟩
  · exact .inl ⟨rfl, rfl, rfl⟩
  rcases h with ⟨hs, o, hb, rfl⟩ | ⟨hs, g, o, hb, rfl⟩ | ⟨hs, rfl⟩
  · rcases rxBegin_log hb with ⟨-, h | ⟨-, h⟩⟩ | ⟨h, -⟩
    · exact .inl ⟨hf.symm, h, rfl⟩
    · exact .inr (.inl ⟨f, c, hf, hc, hs, hf.symm, rfl, h⟩)
    · cases h
  · rcases rxBegin_log hb with ⟨h, -⟩ | ⟨h, ho⟩
    · cases h
    · injection h with h
      subst h
      obtain ⟨h1, n, h2, h3⟩ := chunkWrite_log env c o
        (f := { reset with fileId := c.type.toNat, size := c.size, state := .inprog }) rfl
      refine .inr (.inr (.inl ⟨f, c, n, hf, hc, hl, hs, h2, ?_, h3⟩))
      rw [h1, fileOuts_append, ho]; rfl
  · by_cases hi : f.state = .inprog
    · obtain ⟨h1, n, h2, h3⟩ := chunkWrite_log env c [] hi
      refine .inr (.inr (.inr ⟨f, c, n, hf, hc, hl, hi, h2, ?_, h3⟩))
      rw [h1]; rfl
    · rw [chunkWrite_idle env c [] hi]
      exact .inl ⟨hf.symm, rfl, rfl⟩

end File

namespace PdM

open Phy (Transp)

theorem transp_file {p q : Pd} (h : Transp p q) : q.file = p.file := by unfold Transp at h; rw [h]; rfl

theorem expire_file (p : Pd) (now : Int) : (expire p now).file = p.file := by unfold expire; split <;> rfl

theorem touch_file (p : Pd) (ret : PdRet) (now : Int) : (touch p ret now).file = p.file := by unfold touch; split <;> rfl

/-- What taking in one command does to the file transfer. -/
inductive FileTaken (C : Cipher) (p : Pd) (env : Env) (q : Pd) (outs : List Out) (ret : PdRet) : Prop
  | other : q.file = p.file → fileOuts outs = [] →
      (∀ id body, commandOf C p env = some (id, body) → id.toNat = Id.ABORT ∨ id.toNat = Id.FILETRANSFER →
        outs = [] ∧ Refused q ret) → FileTaken C p env q outs ret
  | abort (id : Byte) : commandOf C p env = some (id, []) → id.toNat = Id.ABORT → q.file = (File.abort p.file).1 →
      outs = (File.abort p.file).2 → q.replyId = Id.ACK → ret = .none → FileTaken C p env q outs ret
  | chunk (id : Byte) (body : List Byte) (r : File.Result) : commandOf C p env = some (id, body) →
      id.toNat = Id.FILETRANSFER → File.txDecode p.file env body = .ok r → q.file = r.file → outs = r.outs →
      ret = (if r.ok then .none else .wait) → (r.ok = true → q.replyId = Id.FTSTAT) → FileTaken C p env q outs ret

theorem got_file {C : Cipher} {p q : Pd} {env : Env} {outs : List Out} {ret : PdRet}
    (h : Got C (expire p env.now) env q outs ret) : FileTaken C p env q outs ret := by
  rcases h.heard with ⟨hn, rfl, -⟩ | ⟨id, body, p2, hc, ht, -, ho⟩
  · refine .other ?_ rfl (fun id body h => by rw [hn] at h; cases h)
    rw [← expire_file p env.now]
    cases h with
    | nothing _ hc _ => exact transp_file hc.transp
    | skip _ hc => exact (transp_file hc.transp : _)
    | seq _ hc => exact transp_file hc.transp
    | refused _ hc _ hd _ => exact transp_file (hc.transp.trans hd.transp)
    | insecure _ hc _ hd _ _ _ => exact (transp_file (hc.transp.trans hd.transp) : _)
    | @command p1 p2 _ d id body _ _ h1 hc h2 hd hl hid _ hb hr hdis ho =>
      exfalso
      unfold commandOf at hn; rw [h1] at hn; dsimp only at hn; rw [h2] at hn; dsimp only at hn
      rw [if_neg (by omega), hid] at hn; dsimp only at hn
      rw [if_neg (by simp [hr])] at hn; cases hn
  · have hf : (noteCmd p2 id).file = p.file := (transp_file ht : _).trans (expire_file p env.now)
    have hid : (noteCmd p2 id).cmdId = id.toNat := rfl
    have oth : ∀ n, (noteCmd p2 id).cmdId = n → n ≠ Id.ABORT → n ≠ Id.FILETRANSFER → ∀ id' body', commandOf C p env = some (id', body') →
        id'.toNat = Id.ABORT ∨ id'.toNat = Id.FILETRANSFER → outs = [] ∧ Refused q ret := by
      intro n hn h1 h2 id' body' he hh
      rw [hc] at he; injection he with he; injection he with e1 e2; subst e1
      rw [← hid, hn] at hh
      rcases hh with h | h
      · exact absurd h h1
      · exact absurd h h2
    cases ho with
    | plain hpl hs =>
      have hq : q.file = (noteCmd p2 id).file := by obtain ⟨_, _, h⟩ := hpl.quiet; rw [h]; rfl
      refine .other (hq.trans hf) (fileOuts_none fun o ho => ?_) (fun id' body' he hh => hs ?_)
      · obtain ⟨c, rfl, -⟩ := hpl.outs o ho; rfl
      · rw [hc] at he; injection he with he; injection he with e1 e2; subst e1
        unfold Special; rw [hid]
        rcases hh with h | h <;> rw [h] <;> decide
    | poll h1 h2 =>
      refine .other ?_ rfl (oth _ h1 (by decide) (by decide))
      rw [← hf]; unfold pollEvent; split <;> rfl
    | rxsize _ _ _ h1 _ => exact .other hf rfl (oth _ h1 (by decide) (by decide))
    | keep _ _ _ h1 _ => exact .other hf rfl (oth _ h1 (by decide) (by decide))
    | chlng _ h1 _ _ => exact .other hf rfl (oth _ h1 (by decide) (by decide))
    | scrypt _ h1 _ _ _ => exact .other hf rfl (oth _ h1 (by decide) (by decide))
    | abort h1 h2 =>
      subst h2
      refine .abort id hc (hid.symm.trans h1) ?_ ?_ rfl rfl
      · show (File.abort (noteCmd p2 id).file).1 = _; rw [hf]
      · rw [hf]
    | @file r h1 h2 =>
      refine .chunk id body r hc (hid.symm.trans h1) (by rw [← hf]; exact h2) ?_ rfl rfl ?_
      · split <;> rfl
      · intro h; rw [if_pos h]; rfl

theorem sending_file {p q : Pd} (h : Phy.Sending p q) : q.file = p.file := by rw [h]

theorem afterSend_file {p q : Pd} {ok : Bool} (h : afterSend p ok = .ok q) : q.file = p.file := by
  rcases afterSend_inv h with ⟨rfl, -⟩ | ⟨-, -, -, k, -, rfl⟩ <;> rfl

/-- what the rest of the refresh does to the file transfer -/
theorem finished_file {C : Cipher} {p q : Pd} {env : Env} {ret : PdRet} {outs : List Out}
    (h : Finished C p env ret q outs) :
    (q.file = p.file ∧ fileOuts outs = []) ∨
    (p.replyId = Id.FTSTAT ∧ (ret = .none ∨ ret = .reply) ∧ ∃ room r o, File.statBuild p.file env room = .ok (q.file, o, r) ∧
      fileOuts outs = fileOuts o) := by
  cases h with
  | keep _ => exact .inl ⟨rfl, rfl⟩
  | reset _ => exact .inl ⟨rfl, rfl⟩
  | @reply q1 _ outs' ok hr hs ha =>
    obtain ⟨tu, t1, t2, t3, -, t5, t6⟩ := touch_fields p ret env.now
    have tf := touch_file p ret env.now
    generalize touch p ret env.now = P at hs t1 tf
    rw [← tf, afterSend_file ha]
    cases hs with
    | mute _ => exact .inl ⟨rfl, rfl⟩
    | built b _ o _ hb hbo hh hsend hc hl =>
      have ho : fileOuts o = [] := by
        rcases hc with ⟨h, -⟩ | ⟨w, q', -, -, -, h, -⟩
        · subst h; rfl
        · subst h
          unfold Phy.sendOuts; split <;> rfl
      rw [sending_file hsend, fileOuts_append, ho, List.append_nil]
      cases hbo with
      | same _ => exact .inl ⟨rfl, rfl⟩
      | com _ _ _ => exact .inl ⟨rfl, rfl⟩
      | ftstat f o' r room h1 h2 => exact .inr ⟨t1 ▸ h1, hr, room, r, o', h2, rfl⟩
      | ccrypt _ _ _ _ => exact .inl ⟨rfl, rfl⟩
      | rmac _ _ _ _ _ _ => exact .inl ⟨by dsimp only; split <;> rfl, rfl⟩

end PdM

end Osdp
