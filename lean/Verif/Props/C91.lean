import Verif.Props.C51
import Verif.Props.C89
import Verif.Lemmas.CpResend
import Verif.Spec.Handles

/-!
# C91: an opened file is closed once, and not used afterwards
-/

namespace Osdp

open Spec.Handles

theorem calls_fileOuts (env : Env) (s : Option Bool) (outs : List Out) : calls env s outs = calls env s (fileOuts outs) := by
  induction outs generalizing s with
  | nil => rfl
  | cons o outs ih =>
    unfold fileOuts
    rw [List.filter_cons]
    split
    · exact ih _
    · rename_i h
      refine (ih _).trans ?_
      have : (s.bind fun b => call env b o) = s := by
        cases s <;> cases o <;> first | rfl | exact absurd rfl h
      rw [this]; rfl

theorem of_mem_fileOuts {o : Out} {l : List Out} (h : o ∈ fileOuts l) : o ∈ l := (List.mem_filter.mp h).1

/-- a file transfer is under way -/
def underWay (p : Pd) : Bool := p.file.any fun (f : FileSt) => decide (f.state = .inprog)

theorem underWay_some {p : Pd} {f : FileSt} (h : p.file = some f) : underWay p = decide (f.state = .inprog) := by
  unfold underWay; rw [h]; rfl

theorem underWay_none {p : Pd} (h : p.file = none) : underWay p = false := by
  unfold underWay; rw [h]; rfl

theorem underWay_eq {p q : Pd} (h : q.file = p.file) : underWay q = underWay p := by unfold underWay; rw [h]

namespace File

/-- What a FILETRANSFER command does to the open file. -/
theorem txDecode_open {file : Option FileSt} {env : Env} {body : List Byte} {r : Result} (h : txDecode file env body = .ok r) :
    (r.file = file ∧ fileOuts r.outs = []) ∨
    (∃ f i n, file = some f ∧ f.state ≠ .inprog ∧ (env.fopen i n).1 < 0 ∧ r.file = some f ∧ fileOuts r.outs = [.fopen i n]) ∨
    (∃ f i n d off g, file = some f ∧ f.state ≠ .inprog ∧ 0 ≤ (env.fopen i n).1 ∧ r.file = some g ∧ g.state = .inprog ∧
      fileOuts r.outs = [.fopen i n, .fwrite d off]) ∨
    (∃ f g d off, file = some f ∧ f.state = .inprog ∧ r.file = some g ∧ g.state = .inprog ∧ fileOuts r.outs = [.fwrite d off]) := by
  rcases txDecode_inv h with ⟨rfl, -⟩ | ⟨f, c, hf, hc, hl, h⟩
  · exact .inl ⟨rfl, rfl⟩
  have no : f.state = .idle ∨ f.state = .done → f.state ≠ .inprog := by rintro (h | h) <;> rw [h] <;> simp
  rcases h with ⟨hs, o, hb, rfl⟩ | ⟨hs, g, o, hb, rfl⟩ | ⟨hs, rfl⟩
  · rcases rxBegin_log hb with ⟨-, h | ⟨h0, h⟩⟩ | ⟨h, -⟩
    · exact .inl ⟨hf.symm, h⟩
    · exact .inr (.inl ⟨f, _, _, hf, no hs, h0, rfl, h⟩)
    · cases h
  · have hpos : 0 ≤ (env.fopen c.type.toNat (toI32 c.size)).1 := by
      unfold rxBegin at hb
      split at hb
      · cases hb
      · split at hb
        · cases hb
        · omega
    rcases rxBegin_log hb with ⟨h, -⟩ | ⟨h, ho⟩
    · cases h
    · injection h with h
      subst h
      obtain ⟨h1, n, h2, h3⟩ := chunkWrite_log env c o
        (f := { reset with fileId := c.type.toNat, size := c.size, state := .inprog }) rfl
      refine .inr (.inr (.inl ⟨f, _, _, c.data, toI32 c.offset, _, hf, no hs, hpos, h2, rfl, ?_⟩))
      rw [h1, fileOuts_append, ho]; rfl
  · by_cases hi : f.state = .inprog
    · obtain ⟨h1, n, h2, h3⟩ := chunkWrite_log env c [] hi
      refine .inr (.inr (.inr ⟨f, _, c.data, toI32 c.offset, hf, hi, h2, hi, ?_⟩))
      rw [h1]; rfl
    · rw [chunkWrite_idle env c [] hi]
      exact .inl ⟨hf.symm, rfl⟩

end File

namespace PdM

/-- the application's answers during a call -/
def envOf91 : Op → Env
  | .refresh env => env
  | _ => { now := 0 }

/-- closing succeeds, and the file operations are not replaced during a transfer -/
def fairly (p : Pd) : Op → Bool
  | .fileOps => !underWay p
  | op => decide (0 ≤ (envOf91 op).fclose)

/-- A history: the PD, whether its application has a file open (`none` after a call that must not be made), and whether every close
succeeded and the file operations were not replaced during a transfer. -/
def track (C : Cipher) : Pd → Option Bool → List Op → Res (Pd × Option Bool × Bool)
  | p, s, [] => .ok (p, s, true)
  | p, s, op :: ops => do
    let (q, o) ← step C p op
    let (r, s, fair) ← track C q (calls (envOf91 op) s o) ops
    .ok (r, s, fair && fairly p op)

theorem refresh_handles {C : Cipher} {p q : Pd} {env : Env} {outs : List Out} (hp : p.flags.pdMode = true) (hc : 0 ≤ env.fclose)
    (h : refresh C p env = .ok (q, outs)) : calls env (some (underWay p)) outs = some (underWay q) := by
  obtain ⟨p1, o1, ret, o2, hg, -, hf, rfl⟩ := refresh_inv hp h
  rw [calls_append]
  have hcl : decide (env.fclose < 0) = false := decide_eq_false (by omega)
  have first : calls env (some (underWay p)) o1 = some (underWay p1) := by
    cases got_file hg with
    | other h1 h2 _ => rw [calls_fileOuts, h2, underWay_eq h1]; rfl
    | abort id h1 h2 h3 h4 _ _ =>
      subst h4
      unfold File.abort at h3 ⊢
      cases hfile : p.file with
      | none => rw [hfile] at h3; rw [underWay_none h3, underWay_none hfile]; rfl
      | some f =>
        rw [hfile] at h3
        dsimp only at h3 ⊢
        by_cases hs : f.state = .inprog
        · rw [if_pos hs] at h3 ⊢
          rw [underWay_some hfile, underWay_some h3, decide_eq_true hs]
          show some (decide (env.fclose < 0)) = _
          rw [hcl]; rfl
        · rw [if_neg hs] at h3 ⊢
          rw [underWay_some hfile, underWay_some h3]; rfl
    | chunk id body r h1 h2 h3 h4 h5 _ _ =>
      subst h5
      rw [calls_fileOuts]
      rcases File.txDecode_open h3 with ⟨e1, e2⟩ | ⟨f, i, n, e0, e1, e2, e3, e4⟩ | ⟨f, i, n, d, off, g, e0, e1, e2, e3, e4, e5⟩ | ⟨f, g, d, off, e0, e1, e2, e3, e4⟩
      · rw [e2, underWay_eq (h4.trans e1)]; rfl
      · have : decide (0 ≤ (env.fopen i n).1) = false := decide_eq_false (by omega)
        rw [e4, underWay_some e0, underWay_some (h4.trans e3), decide_eq_false e1]
        show some (decide (0 ≤ (env.fopen i n).1)) = _
        rw [this]
      · rw [e5, underWay_some e0, underWay_some (h4.trans e3), decide_eq_false e1, decide_eq_true e4]
        show call env (decide (0 ≤ (env.fopen i n).1)) (.fwrite d off) = _
        rw [decide_eq_true e2]; rfl
      · rw [e4, underWay_some e0, underWay_some (h4.trans e2), decide_eq_true e1, decide_eq_true e3]; rfl
  rw [first, calls_fileOuts]
  rcases finished_file hf with ⟨e1, e2⟩ | ⟨-, -, room, r, o, e1, e2⟩
  · rw [e2, underWay_eq e1]; rfl
  · rw [e2]
    rcases File.statBuild_inv e1 with ⟨h1, h2, -, -⟩ | ⟨f, off, h1, h2, -, -, h5, ⟨h6, h7, h8⟩ | ⟨h6, h7, h8, -⟩⟩
    · rw [h2, underWay_eq h1]; rfl
    · rcases h8 with ⟨h8, -⟩ | ⟨-, h8, -⟩
      · omega
      · rw [h7, underWay_some h1, underWay_some h8, decide_eq_true h2]
        show some (decide (env.fclose < 0)) = _
        rw [hcl]; rfl
    · rw [h7, underWay_some h1, underWay_some h8]; rfl

/-- **C91, the receiver.**  In every history of a PD, as long as closing works and the file operations are not replaced during a transfer: a file is opened
only when none is open, written and closed only when it is open, and it is open exactly as long as the transfer is under way. -/
theorem C91_pd (C : Cipher) (info : Info) (p q : Pd) (ops : List Op) (s : Option Bool) (hp : Reached C info p) (h0 : underWay p = false)
    (h : track C p (some false) ops = .ok (q, s, true)) : s = some (underWay q) := by
  rw [← h0] at h
  clear h0
  induction ops generalizing p with
  | nil => injection h with h; injection h with e1 h; injection h with e2 _; subst e1 e2; rfl
  | cons op ops ih =>
    obtain ⟨⟨p1, o⟩, hs, h⟩ := Res.bind_eq_ok.mp h
    obtain ⟨⟨r, s', fair⟩, ht, k⟩ := Res.bind_eq_ok.mp h
    clear h
    dsimp only at k ht
    injection k with k; injection k with e1 k; injection k with e2 k; subst e1 e2
    rw [Bool.and_eq_true] at k
    obtain ⟨hfair, hop⟩ := k
    subst hfair
    have key : calls (envOf91 op) (some (underWay p)) o = some (underWay p1) := by
      cases op with
      | refresh env => exact refresh_handles hp.pdMode (of_decide_eq_true hop) hs
      | fileOps =>
        injection hs with hs; injection hs with e1 e2; subst e1 e2
        have : underWay p = false := by
          have hop : (!underWay p) = true := hop
          simpa using hop
        rw [this]; rfl
      | notify e =>
        injection hs with hs; injection hs with e1 e2; subst e1 e2
        have : (notifyEvent p e).1.file = p.file := by unfold notifyEvent; repeat' split <;> try rfl
        rw [underWay_eq this]; rfl
      | flush => injection hs with hs; injection hs with e1 e2; subst e1 e2; rfl
      | setCaps caps => injection hs with hs; injection hs with e1 e2; subst e1 e2; rfl
    rw [key] at ht
    exact ih p1 (hp.step hs) ht

end PdM

namespace CpM

open Spec.FileLog (status)

/-- the application's answers during a call -/
def envOf91 : Op → Env
  | .update _ env => env
  | .send env _ => env
  | _ => { now := 0 }

/-- an open that succeeds finds something in the file, a read succeeds, a close succeeds -/
def succeeds (env : Env) : Out → Bool
  | .fopen id n => decide (0 ≤ (env.fopen id n).1 → 0 < (env.fopen id n).2)
  | .fread n off => decide (0 < (env.fread n off).1)
  | .fclose => decide (0 ≤ env.fclose)
  | _ => true

/-- the status that arrives, if any -/
def statusHeard (C : Cipher) (q : Pd) : Op → Option Int
  | .update _ env => (replyOf C q env).bind fun r => if r.1 = 0x7A#8 then status r.2 else none
  | _ => none

/-- All goes well in this call: its file operations succeed and are not replaced during a transfer, and the status that comes after the last fragment is
one of those that end the transfer (1, 2, 3). -/
def fairly (C : Cipher) (q : Pd) (op : Op) (o : List Out) : Bool :=
  (match op with | .fileOps => !underWay q | _ => true) && o.all (succeeds (envOf91 op)) &&
    (!o.contains .fclose || (match statusHeard C q op with | none => true | some n => [1, 2, 3].contains n))

/-- A history: the CP, whether its application has a file open (`none` after a call that must not be made), and whether all went well. -/
def track (C : Cipher) : Pd → Option Bool → List Op → Res (Pd × Option Bool × Bool)
  | p, s, [] => .ok (p, s, true)
  | p, s, op :: ops => do
    let (q, o) ← step C p op
    let (r, s, fair) ← track C q (calls (envOf91 op) s o) ops
    .ok (r, s, fair && fairly C p op o)

/-- something of the file is still to come -/
def Remains (p : Pd) : Prop := ∀ f, p.file = some f → f.state = .inprog → f.offset < f.size

theorem step_handles {C : Cipher} {info : PdM.Info} {p q : Pd} {op : Op} {o : List Out} (hp : Reached C info p) (hR : Remains p)
    (hs : step C p op = .ok (q, o)) (hf : fairly C p op o = true) :
    calls (envOf91 op) (some (underWay p)) o = some (underWay q) ∧ Remains q := by
  unfold fairly at hf
  rw [Bool.and_eq_true, Bool.and_eq_true, List.all_eq_true] at hf
  obtain ⟨⟨hno, hall⟩, hst⟩ := hf
  replace hno : op = .fileOps → underWay p = false := by rintro rfl; simpa using hno
  by_cases hop : ∀ cb env, op ≠ .update cb env
  · rcases api_file hop hs with ⟨h, rfl⟩ | ⟨h, h2, rfl⟩ | ⟨env, c, ok, rfl, -, h⟩
    · exact ⟨by rw [underWay_eq h]; rfl, fun f hf => hR f (h ▸ hf)⟩
    · exact ⟨by rw [hno h, underWay_some h2]; rfl, fun f hf hs => by rw [h2] at hf; injection hf with hf; subst hf; cases hs⟩
    · unfold File.txCommand at h
      cases hfile : p.file with
      | none =>
        rw [hfile] at h
        injection h with h1 h; injection h with h2 h3; subst h2
        exact ⟨by rw [underWay_none hfile, underWay_none h1.symm]; rfl, fun f hf => by rw [← h1] at hf; cases hf⟩
      | some f =>
        rw [hfile] at h
        dsimp only at h
        have same : some f = q.file → [] = o → calls (envOf91 (.send env (.fileTx c))) (some (underWay p)) o = some (underWay q) ∧ Remains q := by
          rintro h1 rfl
          exact ⟨by rw [underWay_some hfile, underWay_some h1.symm]; rfl, fun g hg => hR g (by rw [hfile, h1, hg])⟩
        split at h
        · rename_i hin
          split at h
          · split at h
            · injection h with h1 h; injection h with h2 h3; subst h2
              refine ⟨by rw [underWay_some hfile, underWay_some h1.symm]; rfl, fun g hg _ => ?_⟩
              rw [← h1] at hg; injection hg with hg; subst hg
              exact hR f hfile hin
            · injection h with h1 h; injection h with h2 h3; exact same h1 h2
          · injection h with h1 h; injection h with h2 h3; exact same h1 h2
        · rename_i hin
          split at h
          · injection h with h1 h; injection h with h2 h3; exact same h1 h2
          · have opened : ∀ b : Bool, o = [.fopen c.id 0] → decide (0 ≤ (env.fopen c.id 0).1) = b → underWay q = b →
                calls (envOf91 (.send env (.fileTx c))) (some (underWay p)) o = some (underWay q) := by
              rintro b rfl hb hq
              rw [underWay_some hfile, decide_eq_false hin, hq, ← hb]
              rfl
            split at h
            · rename_i hneg
              replace hneg : (env.fopen c.id 0).1 < 0 := hneg
              injection h with h1 h; injection h with h2 h3
              refine ⟨opened false h2.symm (decide_eq_false (by omega)) ?_, fun g hg => hR g (by rw [hfile, h1, hg])⟩
              rw [underWay_some h1.symm, decide_eq_false hin]
            · rename_i hneg
              replace hneg : ¬ (env.fopen c.id 0).1 < 0 := hneg
              split at h
              · rename_i hz
                replace hz : (env.fopen c.id 0).2 ≤ 0 := hz
                injection h with h1 h; injection h with h2 h3
                exfalso
                have : succeeds env (.fopen c.id 0) = true := hall (.fopen c.id 0) (by rw [← h2]; simp)
                have : 0 < (env.fopen c.id 0).2 := of_decide_eq_true this (by omega : 0 ≤ (env.fopen c.id 0).1)
                omega
              · rename_i hz
                replace hz : ¬ (env.fopen c.id 0).2 ≤ 0 := hz
                injection h with h1 h; injection h with h2 h3
                refine ⟨opened true h2.symm (decide_eq_true (by omega)) ?_, fun g hg _ => ?_⟩
                · rw [underWay_some h1.symm]; rfl
                · rw [← h1] at hg; injection hg with hg; subst hg
                  show 0 < (env.fopen c.id 0).2.toNat
                  omega
  · obtain ⟨cb, env, rfl⟩ : ∃ cb env, op = .update cb env := by
      refine Classical.byContradiction fun hn => hop fun cb env h => hn ⟨cb, env, h⟩
    obtain ⟨⟨s1, o1, y⟩, hu, h1⟩ := Res.bind_eq_ok.mp hs
    injection h1 with h1; injection h1 with e1 e2; subst e1 e2
    have hcl : Out.fclose ∈ o1 → decide (env.fclose < 0) = false := fun hm =>
      decide_eq_false (by have : 0 ≤ env.fclose := of_decide_eq_true (hall _ hm : decide (0 ≤ env.fclose) = true); omega)
    rw [calls_fileOuts]
    show calls env _ _ = _ ∧ _
    cases (stateUpdate_inv hp.inv.cp hu).file hp.inv with
    | same h h2 _ => rw [h2]; exact ⟨by rw [underWay_eq h]; rfl, fun f hf => hR f (h ▸ hf)⟩
    | built room o r _ _ hsz hroom h1 ho =>
      rw [ho]
      obtain ⟨f, hfile, h | h | h⟩ := File.txBuild_inv h1
      · have := cmdTx_dataOff p
        omega
      · rw [h.2.2.2.1]
        exact ⟨by rw [underWay_some hfile, underWay_some h.2.2.1]; rfl, fun g hg => hR g (by rw [hfile, ← h.2.2.1, hg])⟩
      · obtain ⟨-, hi, h2, h3⟩ := h
        have hm : Out.fread (room - 27) (toI32 f.offset) ∈ o1 := of_mem_fileOuts (by rw [ho, h2]; simp)
        have hpos : 0 < (env.fread (room - 27) (toI32 f.offset)).1 := of_decide_eq_true (hall _ hm : decide (0 < (env.fread (room - 27) (toI32 f.offset)).1) = true)
        rcases h3 with ⟨h, -⟩ | ⟨n, bytes, -, -, -, -, h, -⟩
        · omega
        · rw [h2, underWay_some hfile, underWay_some h]
          refine ⟨?_, fun g hg _ => ?_⟩
          · show calls env (some (decide (f.state = .inprog))) _ = some (decide (f.state = .inprog))
            rw [decide_eq_true hi]; rfl
          · rw [h] at hg; injection hg with hg; subst hg
            exact hR f hfile hi
    | chosen o n _ _ _ h1 ho _ _ =>
      rw [ho]
      cases hfile : p.file with
      | none =>
        rw [hfile] at h1
        injection h1 with h1 h; injection h with h2 h3; subst h2
        exact ⟨by rw [underWay_none hfile, underWay_none h1.symm]; rfl, fun f hf => by rw [← h1] at hf; cases hf⟩
      | some f =>
        rw [hfile] at h1
        have same : some f = s1.file → [] = o → calls env (some (underWay p)) o = some (underWay s1) ∧ Remains s1 := by
          rintro h2 rfl
          exact ⟨by rw [underWay_some hfile, underWay_some h2.symm]; rfl, fun g hg => hR g (by rw [hfile, h2, hg])⟩
        unfold File.getCommand at h1
        dsimp only at h1
        split at h1
        · injection h1 with h1 h; injection h with h2 h3; exact same h1 h2
        split at h1
        · unfold File.abort at h1
          dsimp only at h1
          by_cases hi : f.state = .inprog
          · rw [if_pos hi] at h1
            injection h1 with h1 h; injection h with h2 h3
            refine ⟨?_, fun g hg hs => by rw [← h1] at hg; injection hg with hg; subst hg; cases hs⟩
            rw [← h2, underWay_some hfile, underWay_some h1.symm, decide_eq_true hi]
            show some (decide (env.fclose < 0)) = _
            rw [hcl (of_mem_fileOuts (by rw [ho, ← h2]; simp))]
            rfl
          · rw [if_neg hi] at h1
            injection h1 with h1 h; injection h with h2 h3; exact same h1 h2
        split at h1
        · injection h1 with h1 h; injection h with h2 h3; exact same h1 h2
        split at h1 <;> (injection h1 with h1 h; injection h with h2 h3; exact same h1 h2)
    | heard id body r h1 h2 h3 h4 h5 =>
      rw [h5]
      rcases File.statDecode_inv h3 with ⟨e1, e2, -, -⟩ | ⟨f, control, d0, d1, s0, s1', x0, x1, g, e1, e2, e3, e4, e5, e6, e7, -, -, -, e8⟩
      · rw [e2]
        exact ⟨by rw [underWay_eq (h4.trans e1)]; rfl, fun f hf => hR f (by rw [← e1, ← h4, hf])⟩
      · rw [e1] at h4
        have hlt := hR f e2 e3
        rcases e8 with ⟨k1, k2, -, k3, -, -⟩ | ⟨k1, k2, k3⟩
        · rw [k3]
          refine ⟨by rw [underWay_some e2, underWay_some h4, decide_eq_true e3, decide_eq_true k2]; rfl, fun x hx _ => ?_⟩
          rw [h4] at hx; injection hx with hx; subst hx
          omega
        · have hl : f.length ≠ 0 := by
            intro h
            rw [h] at e6
            have : u32 0 = 0 := rfl
            rw [this, Nat.add_zero] at e6
            have := Nat.mod_le f.offset 4294967296
            omega
          rw [if_pos hl] at k2
          have hm : Out.fclose ∈ o1 := of_mem_fileOuts (by rw [h5, k2]; simp)
          have hid : id = 0x7A#8 := BitVec.eq_of_toNat_eq h2
          have hh : statusHeard C p (.update cb env) = some (File.int16 s0 s1') := by
            unfold statusHeard
            dsimp only
            rw [h1]
            show (if id = 0x7A#8 then status body else none) = _
            rw [if_pos hid, e4, int16_status]
          rw [hh] at hst
          have hc : o1.contains .fclose = true := List.contains_iff_mem.mpr hm
          rw [hc] at hst
          have hne : g.state ≠ .inprog := by
            rcases k3 with ⟨-, k, -⟩ | ⟨-, k, -⟩ | ⟨-, k, -⟩ | ⟨n1, n2, n3, -⟩
            · rw [k]; simp
            · rw [k]; simp
            · rw [k]; simp
            · exfalso
              have : [1, 2, 3].contains (File.int16 s0 s1') = true := by simpa using hst
              simp [n1, n2, n3] at this
          rw [k2]
          refine ⟨?_, fun x hx hxs => ?_⟩
          · rw [underWay_some e2, underWay_some h4, decide_eq_true e3, decide_eq_false hne]
            show some (decide (env.fclose < 0)) = _
            rw [hcl hm]
          · rw [h4] at hx; injection hx with hx; subst hx
            exact absurd hxs hne

/-- **C91, the sender (partial).**  In every history of a CP in which all goes well (see `fairly`): a file is opened only when none is
open, read and closed only when it is open, and it is open exactly as long as the transfer is under way. -/
theorem C91_cp_partial (C : Cipher) (info : PdM.Info) (p q : Pd) (ops : List Op) (s : Option Bool) (hp : Reached C info p) (h0 : underWay p = false)
    (h : track C p (some false) ops = .ok (q, s, true)) : s = some (underWay q) := by
  have hR : Remains p := fun f hf hs => by rw [underWay_some hf, decide_eq_true hs] at h0; cases h0
  rw [← h0] at h
  clear h0
  induction ops generalizing p with
  | nil => injection h with h; injection h with e1 h; injection h with e2 _; subst e1 e2; rfl
  | cons op ops ih =>
    obtain ⟨⟨p1, o⟩, hs, h⟩ := Res.bind_eq_ok.mp h
    obtain ⟨⟨r, s', fair⟩, ht, k⟩ := Res.bind_eq_ok.mp h
    clear h
    dsimp only at k ht
    injection k with k; injection k with e1 k; injection k with e2 k; subst e1 e2
    rw [Bool.and_eq_true] at k
    obtain ⟨hfair, hop⟩ := k
    subst hfair
    obtain ⟨key, hR1⟩ := step_handles hp hR hs hop
    rw [key] at ht
    exact ih p1 (hp.step hs) ht hR1

/-! ### samples -/

open Sample

/-- the sample CP after a history: is a transfer under way, is a file open, has all gone well -/
def sees91 (ops : List Op) : Option (Bool × Option Bool × Bool) :=
  match track xorCipher cp (some false) ops with
  | .ok (q, s, fair) => some (underWay q, s, fair)
  | .error _ => none

/-- a file transfer status -/
def stat91 (lo hi : Byte) : List Byte := b8 Id.FTSTAT :: [1, 0, 0, lo, hi, 0, 0]

/-- the sample CP sends its file in three fragments, the answer to the last one being this status -/
def sends91 (lo hi : Byte) : List Op :=
  starts89 ++ answers89 (stat91 0 0) 2 ++ answers89 (stat91 0 0) 3 ++ answers89 (stat91 lo hi) 1

/-- The hypotheses are met: a file is sent and closed; another one is cancelled half way. -/
example : sees91 starts89 = some (true, some true, true) ∧ sees91 (sends91 1 0) = some (false, some false, true) ∧
    sees89 (sends91 1 0) = some ((.online, [.fopen 1 0, .fread 223 0, .fread 223 4, .fread 223 8, .fclose]),
      [some 0x61#8, some 0x62#8, some 0x7C#8, some 0x7C#8, some 0x7C#8], some (.done, 10)) ∧
    sees91 (starts89 ++ answers89 (stat91 0 0) 2 ++ [.send { now := 0 } (.fileTx { id := 1, flags := 0x80000000#32 }), filing89 []]) =
      some (false, some false, true) := by
  refine ⟨?_, ?_, ?_, ?_⟩ <;> decide +kernel

/-- **C91 fails at the sender.**  The PD reports an error (-1) for the last fragment: the file is closed, but after the next connection the
CP reads from it.  The application cannot read the file: the transfer is forgotten, the file stays open, and for the next transfer a
second one is opened.  The file turns out to be empty: it is opened, and never closed. -/
theorem C91_misuse :
    sees91 (sends91 0xFF 0xFF) = some (true, some false, false) ∧
    sees91 (sends91 0xFF 0xFF ++ [hears [] 1000000] ++ meetsAt 1000000 [4, 0, 0] 0 1 ++ [filing89 [] 1000000, filing89 [] 1000000]) =
      some (false, none, false) ∧
    sees91 (starts89 ++ [.update true { now := 0 }, .update true { now := 0 }]) = some (false, some true, false) ∧
    sees91 (starts89 ++ [.update true { now := 0 }, .update true { now := 0 },
      .send (sender (content 10) 4 { now := 0 }) (.fileTx { id := 1, flags := 0#32 })]) = some (true, none, false) ∧
    sees91 (meets [4, 0, 0] ++ [.fileOps, .send (sender [] 4 { now := 0 }) (.fileTx { id := 1, flags := 0#32 })]) =
      some (false, some true, false) := by
  refine ⟨?_, ?_, ?_, ?_, ?_⟩ <;> decide +kernel

end CpM

namespace PdM

/-- the sample PD after a history: is a transfer under way, is a file open, has all gone well -/
def sees91 (ops : List Op) : Option (Bool × Option Bool × Bool) :=
  match track xorCipher Sample.pd (some false) ops with
  | .ok (q, s, fair) => some (underWay q, s, fair)
  | .error _ => none

/-- The hypotheses of `C91_pd` are met: one fragment of a file, all of it, and an ABORT after the first fragment. -/
example : sees91 (twoFragments.take 2) = some (true, some true, true) ∧ sees91 twoFragments = some (false, some false, true) ∧
    sees91 (twoFragments.take 2 ++ [.refresh (Sample.env (Sample.cmd 1 [b8 Id.ABORT]) 20)]) = some (false, some false, true) := by
  refine ⟨?_, ?_, ?_⟩ <;> decide +kernel

end PdM

end Osdp
