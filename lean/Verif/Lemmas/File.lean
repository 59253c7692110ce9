import Verif.Model.File
import Verif.Lemmas.Ite

/-! # The receiver of a file -/

namespace Osdp.File

theorem chunkWrite_outs (f : FileSt) (env : Env) (c : Chunk) (outs : List Out) :
    (chunkWrite f env c outs).outs = outs ∨
    (f.state = .inprog ∧ (chunkWrite f env c outs).outs = outs ++ [.fwrite c.data (toI32 c.offset)]) := by
  unfold chunkWrite
  split
  · exact .inl rfl
  · rename_i h
    have h : f.state = .inprog := by simpa using h
    dsimp only
    split <;> exact .inr ⟨h, rfl⟩

theorem rxVeto_outs {f : FileSt} {env : Env} {c : Chunk} {b : Bool} {outs : List Out} (h : rxVeto f env c = (b, outs)) :
    ∀ o ∈ outs, o = .cmd (.fileTx ⟨c.type.toNat, f.flags⟩) := by
  unfold rxVeto at h
  split at h
  · injection h with h1 h2; subst h2; simp
  · injection h with h1 h2; subst h2; simp

theorem rxBegin_inv {f : FileSt} {env : Env} {c : Chunk} {r : Option FileSt} {outs : List Out}
    (h : rxBegin f env c = (r, outs)) :
    (∀ o ∈ outs, o = .cmd (.fileTx ⟨c.type.toNat, f.flags⟩) ∨ o = .fopen c.type.toNat (toI32 c.size)) ∧
    (∀ g, r = some g → g = { reset with fileId := c.type.toNat, size := c.size, state := .inprog } ∧
      0 ≤ (env.fopen c.type.toNat (toI32 c.size)).1) := by
  unfold rxBegin at h
  split at h
  · rename_i o hv
    injection h with h1 h2; subst h1 h2
    exact ⟨fun x hx => .inl (rxVeto_outs hv x hx), by simp⟩
  · rename_i o hv
    split at h
    · injection h with h1 h2; subst h1 h2
      refine ⟨fun x hx => ?_, by simp⟩
      rw [List.mem_append] at hx
      exact hx.imp (rxVeto_outs hv x) (List.mem_singleton.mp ·)
    · rename_i hr
      injection h with h1 h2; subst h1 h2
      refine ⟨fun x hx => ?_, fun g hg => ?_⟩
      · rw [List.mem_append] at hx
        exact hx.imp (rxVeto_outs hv x) (List.mem_singleton.mp ·)
      · injection hg with hg; exact ⟨hg.symm, by omega⟩

/-- All outcomes of a FILETRANSFER command. -/
theorem txDecode_inv {file : Option FileSt} {env : Env} {body : List Byte} {r : Result}
    (h : txDecode file env body = .ok r) :
    (r = ⟨file, [], false, false⟩ ∧ (file = none ∨ chunk body = none)) ∨
    ∃ f c, file = some f ∧ chunk body = some c ∧ c.length = c.data.length ∧
      (((f.state = .idle ∨ f.state = .done) ∧ ∃ o, rxBegin f env c = (none, o) ∧ r = ⟨some f, o, false, false⟩) ∨
       ((f.state = .idle ∨ f.state = .done) ∧ ∃ g o, rxBegin f env c = (some g, o) ∧ r = chunkWrite g env c o) ∨
       (¬ (f.state = .idle ∨ f.state = .done) ∧ r = chunkWrite f env c [])) := by
  unfold txDecode at h
  split at h
  · injection h with h; exact .inl ⟨h.symm, .inl rfl⟩
  · rename_i f
    split at h
    · rename_i hc
      injection h with h; exact .inl ⟨h.symm, .inr hc⟩
    · rename_i c hc
      replace h := ite_inv h
      rcases h with ⟨-, h⟩ | ⟨hl, h⟩
      · cases h
      refine .inr ⟨f, c, rfl, hc, by simpa using hl, ?_⟩
      replace h := ite_inv h
      rcases h with ⟨hs, h⟩ | ⟨hs, h⟩
      · split at h
        · rename_i o ho
          injection h with h; exact .inl ⟨hs, o, ho, h.symm⟩
        · rename_i g o ho
          injection h with h; exact .inr (.inl ⟨hs, g, o, ho, h.symm⟩)
      · injection h with h; exact .inr (.inr ⟨hs, h.symm⟩)

theorem txDecode_outs {file : Option FileSt} {env : Env} {body : List Byte} {r : Result}
    (h : txDecode file env body = .ok r) :
    ∀ o ∈ r.outs, ∃ f c, file = some f ∧ chunk body = some c ∧
      (o = .cmd (.fileTx ⟨c.type.toNat, f.flags⟩) ∨ o = .fopen c.type.toNat (toI32 c.size) ∨
       o = .fwrite c.data (toI32 c.offset)) := by
  intro o ho
  rcases txDecode_inv h with ⟨rfl, -⟩ | ⟨f, c, hf, hc, -, h⟩
  · cases ho
  refine ⟨f, c, hf, hc, ?_⟩
  rcases h with ⟨-, o', hb, rfl⟩ | ⟨-, g, o', hb, rfl⟩ | ⟨-, rfl⟩
  · rcases (rxBegin_inv hb).1 o ho with h | h
    · exact .inl h
    · exact .inr (.inl h)
  · rcases chunkWrite_outs g env c o' with hw | ⟨-, hw⟩ <;> rw [hw] at ho
    · rcases (rxBegin_inv hb).1 o ho with h | h
      · exact .inl h
      · exact .inr (.inl h)
    · rw [List.mem_append] at ho
      rcases ho with ho | ho
      · rcases (rxBegin_inv hb).1 o ho with h | h
        · exact .inl h
        · exact .inr (.inl h)
      · exact .inr (.inr (List.mem_singleton.mp ho))
  · rcases chunkWrite_outs f env c [] with hw | ⟨-, hw⟩ <;> rw [hw] at ho
    · cases ho
    · exact .inr (.inr (List.mem_singleton.mp ho))

end Osdp.File
