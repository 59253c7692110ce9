import Verif.Lemmas.CpTurn
import Verif.Lemmas.PdFile

/-! # The file transfer of a CP, visit by visit -/

namespace Osdp

namespace File

/-- All outcomes of building a FILETRANSFER command. -/
theorem txBuild_inv {file g : Option FileSt} {env : Env} {room : Int} {outs : List Out} {r : Option (List Byte)}
    (h : txBuild file env room = .ok (g, outs, r)) :
    ∃ f, file = some f ∧
    ((room ≤ 11 ∧ (f.state = .inprog ∨ f.state = .keepAlive) ∧ g = some reset ∧ outs = [] ∧ r = none) ∨
     (11 < room ∧ f.state = .keepAlive ∧ g = some f ∧ outs = [] ∧ r = some (txHeader f)) ∨
     (11 < room ∧ f.state = .inprog ∧ outs = [.fread (room - 27) (toI32 f.offset)] ∧
      (((env.fread (room - 27) (toI32 f.offset)).1 ≤ 0 ∧ g = some reset ∧ r = none) ∨
       ∃ n bytes, env.fread (room - 27) (toI32 f.offset) = (n, bytes) ∧ 0 < n ∧ n ≤ room - 27 ∧ (bytes.length : Int) = n ∧
        g = some { f with length := n } ∧ r = some (txHeader { f with length := n } ++ bytes)))) := by
  unfold txBuild at h
  split at h
  · cases h
  rename_i f
  refine ⟨f, rfl, ?_⟩
  replace h := ite_inv h
  rcases h with ⟨-, h⟩ | ⟨hs, h⟩
  · cases h
  have hs : f.state = .inprog ∨ f.state = .keepAlive := by
    cases hf : f.state <;> simp [hf] at hs ⊢
  replace h := ite_inv h
  rcases h with ⟨hr, h⟩ | ⟨hr, h⟩
  · injection h with h; injection h with h1 h; injection h with h2 h3; subst h1 h2 h3
    exact .inl ⟨hr, hs, rfl, rfl, rfl⟩
  replace h := ite_inv h
  rcases h with ⟨hk, h⟩ | ⟨hk, h⟩
  · injection h with h; injection h with h1 h; injection h with h2 h3; subst h1 h2 h3
    exact .inr (.inl ⟨by omega, hk, rfl, rfl, rfl⟩)
  have hi : f.state = .inprog := hs.resolve_right hk
  dsimp only at h
  have e : room - 11 - 16 = room - 27 := by omega
  rw [e] at h
  refine .inr (.inr ⟨by omega, hi, ?_⟩)
  replace h := ite_inv h
  rcases h with ⟨hn, h⟩ | ⟨hn, h⟩
  · injection h with h; injection h with h1 h; injection h with h2 h3; subst h1 h2 h3
    exact ⟨rfl, .inl ⟨hn, rfl, rfl⟩⟩
  replace h := ite_inv h
  rcases h with ⟨-, h⟩ | ⟨hc, h⟩
  · cases h
  · injection h with h; injection h with h1 h; injection h with h2 h3; subst h1 h2 h3
    refine ⟨rfl, .inr ⟨_, _, rfl, by omega, ?_, ?_, rfl, rfl⟩⟩
    · exact Int.not_lt.mp fun h => hc (.inl h)
    · exact Decidable.not_not.mp fun h => hc (.inr h)

/-- a fragment is built -/
theorem txBuild_ok {f : FileSt} {env : Env} {room k : Int} {data : List Byte} (hst : f.state = .inprog) (hroom : 11 < room)
    (hk : env.fread (room - 27) (toI32 f.offset) = (k, data)) (h1 : 0 < k) (h2 : k ≤ room - 27) (h3 : (data.length : Int) = k) :
    txBuild (some f) env room = .ok (some { f with length := k }, [.fread (room - 27) (toI32 f.offset)],
      some (txHeader { f with length := k } ++ data)) := by
  have e : room - 11 - 16 = room - 27 := by omega
  simp only [txBuild, e, hk, hst]
  rw [if_neg (by simp), if_neg (by omega), if_neg (by simp), if_neg (by omega), if_neg (by omega)]

/-- All outcomes of a status reply. -/
theorem statDecode_inv {file : Option FileSt} {env : Env} {body : List Byte} {r : Result}
    (h : statDecode file env body = .ok r) :
    (r.file = file ∧ r.outs = [] ∧ r.ok = false ∧ r.offline = false) ∨
    ∃ f control d0 d1 s0 s1 x0 x1 g, r.file = some g ∧ file = some f ∧ f.state = .inprog ∧ body = [control, d0, d1, s0, s1, x0, x1] ∧
      (f.offset + u32 f.length) % 4294967296 ≤ f.size ∧
      g.offset = (f.offset + u32 f.length) % 4294967296 ∧ g.size = f.size ∧ g.fileId = f.fileId ∧ g.cancelReq = f.cancelReq ∧
      g.length = 0 ∧
      ((g.offset < f.size ∧ g.state = .inprog ∧ g.errors = 0 ∧ r.outs = [] ∧ r.ok = true ∧ r.offline = false) ∨
       (g.offset = f.size ∧ r.outs = (if f.length ≠ 0 then [.fclose] else []) ∧
        ((int16 s0 s1 = 3 ∧ g.state = .keepAlive ∧ r.ok = true ∧ r.offline = false) ∨
         (int16 s0 s1 = 2 ∧ g.state = .done ∧ r.ok = true ∧ r.offline = true) ∨
         (int16 s0 s1 = 1 ∧ g.state = .done ∧ r.ok = true ∧ r.offline = false) ∨
         (int16 s0 s1 ≠ 1 ∧ int16 s0 s1 ≠ 2 ∧ int16 s0 s1 ≠ 3 ∧ g.state = .inprog ∧ r.ok = false ∧ r.offline = false)))) := by
  unfold statDecode at h
  split at h
  · injection h with h; subst h; exact .inl ⟨rfl, rfl, rfl, rfl⟩
  rename_i f
  split at h
  · injection h with h; subst h; exact .inl ⟨rfl, rfl, rfl, rfl⟩
  rename_i hi
  have hi : f.state = .inprog := Decidable.not_not.mp hi
  split at h
  · rename_i control d0 d1 s0 s1 x0 x1
    dsimp only at h
    split at h
    · cases h
    rename_i hle
    have hle : (f.offset + u32 f.length) % 4294967296 ≤ f.size := by omega
    split at h
    · rename_i hne
      injection h with h; subst h
      exact .inr ⟨f, control, d0, d1, s0, s1, x0, x1, _, rfl, rfl, hi, rfl, hle, rfl, rfl, rfl, rfl, rfl,
        .inl ⟨Nat.lt_of_le_of_ne hle hne, hi, rfl, rfl, rfl, rfl⟩⟩
    · rename_i heq
      have heq : (f.offset + u32 f.length) % 4294967296 = f.size := Decidable.not_not.mp heq
      have ho : (if f.length ≠ 0 ∧ (f.offset + u32 f.length) % 4294967296 = f.size then [Out.fclose] else []) =
          (if f.length ≠ 0 then [Out.fclose] else []) := by
        by_cases h0 : f.length = 0
        · rw [if_neg (fun h => h.1 h0), if_neg (fun h => h h0)]
        · rw [if_pos ⟨h0, heq⟩, if_pos h0]
      split at h
      · rename_i hst
        injection h with h; subst h
        exact .inr ⟨f, control, d0, d1, s0, s1, x0, x1, _, rfl, rfl, hi, rfl, hle, rfl, rfl, rfl, rfl, rfl,
          .inr ⟨heq, ho, .inl ⟨hst, rfl, rfl, rfl⟩⟩⟩
      rename_i h3
      split at h
      · rename_i hst
        injection h with h; subst h
        exact .inr ⟨f, control, d0, d1, s0, s1, x0, x1, _, rfl, rfl, hi, rfl, hle, rfl, rfl, rfl, rfl, rfl,
          .inr ⟨heq, ho, .inr (.inl ⟨hst, rfl, rfl, rfl⟩)⟩⟩
      rename_i h2
      split at h
      · rename_i hst
        injection h with h; subst h
        exact .inr ⟨f, control, d0, d1, s0, s1, x0, x1, _, rfl, rfl, hi, rfl, hle, rfl, rfl, rfl, rfl, rfl,
          .inr ⟨heq, ho, .inr (.inr (.inl ⟨hst, rfl, rfl, rfl⟩))⟩⟩
      · rename_i h1
        injection h with h; subst h
        exact .inr ⟨f, control, d0, d1, s0, s1, x0, x1, _, rfl, rfl, hi, rfl, hle, rfl, rfl, rfl, rfl, rfl,
          .inr ⟨heq, ho, .inr (.inr (.inr ⟨h1, h2, h3, hi, rfl, rfl⟩))⟩⟩
  · split at h
    · injection h with h; subst h; exact .inl ⟨rfl, rfl, rfl, rfl⟩
    · cases h

end File

namespace CpM

open PdM (transp_file sending_file)

/-- What a visit does to the file transfer. -/
inductive FileVisit (C : Cipher) (p : Pd) (env : Env) (q : Pd) (outs : List Out) : Prop
  /-- nothing -/
  | same : q.file = p.file → fileOuts outs = [] → (p.phyState = .idle → q.phyState = .sendCmd → q.cmdId ≠ Id.FILETRANSFER ∧ q.cmdId ≠ Id.ABORT) →
      FileVisit C p env q outs
  /-- a fragment is built -/
  | built (room : Int) (o : List Out) (r : Option (List Byte)) : MaySend p env → p.cmdId = Id.FILETRANSFER →
      69 ≤ p.txBufSize → room = (p.txBufSize : Int) - (cmdTx p).dataOff → File.txBuild p.file env room = .ok (q.file, o, r) →
      fileOuts outs = o → FileVisit C p env q outs
  /-- the PD's status is heard -/
  | heard (id : Byte) (body : List Byte) (r : File.Result) : replyOf C p env = some (id, body) → id.toNat = Id.FTSTAT →
      File.statDecode p.file env body = .ok r → q.file = r.file → fileOuts outs = r.outs → FileVisit C p env q outs
  /-- the next command is chosen -/
  | chosen (o : List Out) (n : File.Next) : p.phyState = .idle → p.state = .online → p.cmdQueue = [] →
      File.getCommand p.file env.now = (q.file, o, n) → fileOuts outs = o →
      (∀ id, n = .send id → q.cmdId = id ∧ q.phyState = .sendCmd) → (q.phyState = .sendCmd → n = .send q.cmdId ∨ q.cmdId = Id.POLL) →
      FileVisit C p env q outs

theorem fileOuts_advance {cb : Bool} {p q : Pd} {env : Env} {cur : CpState} {ok : Bool} {outs : List Out}
    (h : advance cb p env cur ok = .ok (q, outs)) : fileOuts outs = [] :=
  fileOuts_none fun o ho => by rcases advance_outs h o ho with rfl | ⟨i, e, rfl⟩ <;> rfl

theorem fileOuts_fclose {outs : List Out} (h : ∀ o ∈ outs, o = Out.fclose) : fileOuts outs = outs :=
  List.filter_eq_self.mpr fun o ho => by rw [h o ho]; rfl

/-- the second half of a visit, when an exchange is over -/
theorem settle_file {cb : Bool} {p q : Pd} {env : Env} {outs : List Out} (hps : p.phyState = .done ∨ p.phyState = .err)
    (h : settle cb p env = .ok (q, outs)) : q.file = p.file ∧ fileOuts outs = [] := by
  cases settle_inv h with
  | command h0 _ _ => rcases hps with h | h <;> rw [h] at h0 <;> cases h0
  | nothing h0 _ _ => rcases hps with h | h <;> rw [h] at h0 <;> cases h0
  | @over p1 _ _ _ ok h1 h2 h3 =>
    constructor
    · rw [(advance_drift h3).2.2.2]
      show p1.file = _
      rcases (stateCheckReply_inv h2).2 with ⟨rfl, -⟩ | ⟨-, -, -, h⟩
      · rfl
      · obtain ⟨k, -, rfl, -⟩ := keysetComplete_inv h
        rfl
    · rw [fileOuts_append, fileOuts_append, fileOuts_advance h3, List.append_nil]
      rw [fileOuts_none (outs := notifyCommand _ _ _) fun o ho => by obtain ⟨i, e, rfl⟩ := notifyCommand_outs o ho; rfl, List.append_nil]
      obtain ⟨-, ⟨-, rfl, -⟩ | ⟨-, -, -, h⟩⟩ := stateCheckReply_inv h2
      · rfl
      · obtain ⟨k, -, -, rfl⟩ := keysetComplete_inv h
        exact fileOuts_none fun o ho => by rw [notify_outs o ho]; rfl

theorem translate_ne {p q : Pd} {c : Cmd} {id : Nat} (h : translate p c = .ok (q, id)) : id ≠ Id.FILETRANSFER ∧ id ≠ Id.ABORT := by
  unfold translate at h
  dsimp only at h
  cases c with
  | status s =>
    dsimp only at h
    cases hs : s.type <;> rw [hs] at h <;> injection h with h <;> injection h with h1 h2 <;> subst h1 h2 <;> decide
  | keyset k =>
    dsimp only at h
    split at h <;> injection h with h <;> injection h with h1 h2 <;> subst h1 h2 <;> decide
  | fileTx f => cases h
  | bad n => cases h
  | _ =>
    injection h with h; injection h with h1 h2; subst h1 h2
    decide

/-- choosing a command -/
theorem stateGetCmd_file {p q : Pd} {env : Env} {outs : List Out} {id : Nat} (h : stateGetCmd p env = .ok (q, outs, id)) :
    (q.file = p.file ∧ outs = [] ∧ id ≠ Id.FILETRANSFER ∧ id ≠ Id.ABORT) ∨
    ∃ n, p.state = .online ∧ p.cmdQueue = [] ∧ File.getCommand p.file env.now = (q.file, outs, n) ∧
      (∀ k, n = .send k → id = k ∧ 0 < k) ∧ (0 < id → n = .send id ∨ id = Id.POLL) := by
  have simple : ∀ n : Nat, Except.ok (p, ([] : List Out), n) = (Except.ok (q, outs, id) : Res _) → n ≠ Id.FILETRANSFER ∧ n ≠ Id.ABORT →
      (q.file = p.file ∧ outs = [] ∧ id ≠ Id.FILETRANSFER ∧ id ≠ Id.ABORT) := by
    intro n h hn
    injection h with h; injection h with h1 h; injection h with h2 h3; subst h1 h2 h3
    exact ⟨rfl, rfl, hn⟩
  unfold stateGetCmd at h
  cases hs : p.state with
  | init => rw [hs] at h; exact .inl (simple _ h (by decide))
  | capdet => rw [hs] at h; exact .inl (simple _ h (by decide))
  | scChlng => rw [hs] at h; exact .inl (simple _ h (by decide))
  | scScrypt => rw [hs] at h; exact .inl (simple _ h (by decide))
  | setScbk => rw [hs] at h; exact .inl (simple _ h (by decide))
  | probe => rw [hs] at h; exact .inl (simple _ h (by decide))
  | offline => rw [hs] at h; exact .inl (simple _ h (by decide))
  | online =>
    rw [hs] at h
    dsimp only at h
    unfold onlineCommand at h
    split at h
    · obtain ⟨⟨p1, n⟩, h1, h⟩ := Res.bind_eq_ok.mp h
      injection h with h; injection h with e1 h; injection h with e2 e3; subst e1 e2 e3
      have hn := translate_ne h1
      obtain ⟨rfl, -⟩ := translate_inv h1
      exact .inl ⟨rfl, rfl, hn⟩
    · rename_i hq
      cases hg : File.getCommand p.file env.now with
      | mk f x =>
      cases x with
      | mk o n =>
      rw [hg] at h
      obtain ⟨-, hn⟩ := getCommand_inv hg
      right
      cases n with
      | send k =>
        injection h with h; injection h with e1 h; injection h with e2 e3; subst e1 e2 e3
        refine ⟨_, rfl, hq, rfl, fun j hj => ?_, fun _ => .inl rfl⟩
        injection hj with hj; subst hj
        refine ⟨rfl, ?_⟩
        rcases hn k rfl with rfl | rfl | rfl <;> decide
      | hold =>
        injection h with h; injection h with e1 h; injection h with e2 e3; subst e1 e2 e3
        exact ⟨_, rfl, hq, rfl, (fun j hj => by cases hj), (fun h => by cases h)⟩
      | nothing =>
        dsimp only at h
        split at h <;> injection h with h <;> injection h with e1 h <;> injection h with e2 e3 <;> subst e1 e2 e3
        · exact ⟨_, rfl, hq, rfl, (fun j hj => by cases hj), fun _ => .inr rfl⟩
        · exact ⟨_, rfl, hq, rfl, (fun j hj => by cases hj), (fun h => by cases h)⟩

/-- sending a command -/
theorem SendOutcome.file {C : Cipher} {p q : Pd} {env : Env} {outs : List Out} {ok : Bool} (h : SendOutcome C p env q outs ok) :
    (q.file = p.file ∧ fileOuts outs = []) ∨
    (p.cmdId = Id.FILETRANSFER ∧ 69 ≤ p.txBufSize ∧ ∃ room o r, room = (p.txBufSize : Int) - (cmdTx p).dataOff ∧
      File.txBuild p.file env room = .ok (q.file, o, r) ∧ fileOuts outs = o) := by
  have reads : ∀ {o : List Out}, (∀ x ∈ o, ∃ n off, x = Out.fread n off) → fileOuts o = o :=
    fun h => List.filter_eq_self.mpr fun x hx => by obtain ⟨n, off, rfl⟩ := h x hx; rfl
  have body : ∀ {b : Built} {room : Int}, commandBody C (nextCmd p) env (cmdTx p) room = .ok b → CmdBody C (nextCmd p) env (cmdTx p) b →
      (b.p.file = p.file ∧ b.outs = []) ∨ (p.cmdId = Id.FILETRANSFER ∧ ∃ r, File.txBuild p.file env room = .ok (b.p.file, b.outs, r)) := by
    intro b room hb hc
    by_cases hid : p.cmdId = Id.FILETRANSFER
    · right
      refine ⟨hid, ?_⟩
      have hid' : (nextCmd p).cmdId = Id.FILETRANSFER := hid
      unfold commandBody at hb
      dsimp only at hb
      rw [hid'] at hb
      iterate 11 (rw [if_neg (by decide)] at hb)
      rw [if_pos rfl] at hb
      obtain ⟨⟨f, o, r⟩, h1, h2⟩ := Res.bind_eq_ok.mp hb
      refine ⟨r, h1.trans ?_⟩
      cases r <;> (injection h2 with h2; subst h2; rfl)
    · obtain ⟨h1, h2⟩ := hc.quiet hid
      exact .inl ⟨h2, h1⟩
  cases h with
  | mute _ => exact .inl ⟨rfl, rfl⟩
  | unbuilt b htx hb hc _ =>
    rcases body hb hc with ⟨h1, h2⟩ | ⟨h1, r, h2⟩
    · exact .inl ⟨h1, by rw [h2]; rfl⟩
    · exact .inr ⟨h1, htx, _, _, r, rfl, h2, reads hc.outs⟩
  | built b l _ o _ htx hb hc _ _ hs hw _ =>
    have ho : fileOuts o = [] := by
      rcases hw with ⟨rfl, -⟩ | ⟨wire, q', -, -, -, -, rfl, -⟩
      · rfl
      · unfold Phy.sendOuts; split <;> rfl
    rw [fileOuts_append, ho, List.append_nil, sending_file hs]
    rcases body hb hc with ⟨h1, h2⟩ | ⟨h1, r, h2⟩
    · exact .inl ⟨h1, by rw [h2]; rfl⟩
    · exact .inr ⟨h1, htx, _, _, r, rfl, h2, reads hc.outs⟩

/-- hearing a reply -/
theorem Waited.file {C : Cipher} {p q : Pd} {env : Env} {outs : List Out} {rc : CpErr} (hps : p.phyState = .replyWait)
    (h : Waited C p env q outs rc) :
    (q.file = p.file ∧ outs = []) ∨ ∃ id body r, replyOf C p env = some (id, body) ∧ id.toNat = Id.FTSTAT ∧
      File.statDecode p.file env body = .ok r ∧ q.file = r.file ∧ outs = r.outs := by
  have key : ∀ {q : Pd} {rc : CpErr}, Reply C p env q outs rc → (q.file = p.file ∧ outs = []) ∨ ∃ id body r,
      replyOf C p env = some (id, body) ∧ id.toNat = Id.FTSTAT ∧
      File.statDecode p.file env body = .ok r ∧ q.file = r.file ∧ outs = r.outs := by
    intro q rc h
    cases h with
    | nothing _ hc _ => exact .inl ⟨transp_file hc.transp, rfl⟩
    | bad _ hc _ => exact .inl ⟨transp_file hc.transp, rfl⟩
    | busy _ hc => exact .inl ⟨transp_file hc.transp, rfl⟩
    | seq _ hc => exact .inl ⟨transp_file hc.transp, rfl⟩
    | refused _ hc _ hd _ => exact .inl ⟨transp_file (hc.transp.trans hd.transp), rfl⟩
    | @reply p1 p2 _ d id body _ _ h1 hc h2 hd hl hid _ hb hr he =>
      have hf : p2.file = p.file := transp_file (hc.transp.trans hd.transp)
      cases he with
      | file r k1 k2 =>
        right
        refine ⟨id, body, r, ?_, k1, ?_, rfl, rfl⟩
        · unfold replyOf; rw [if_pos hps, hb]; exact Phy.heard_of h1 h2 hl hid
        · rw [← hf]; exact k2
      | pdcap _ _ => 
        left
        refine ⟨?_, rfl⟩
        rw [← hf]
        unfold CpM.pdcap
        rfl
      | event e _ => exact .inl ⟨hf, rfl⟩
      | _ => exact .inl ⟨hf, rfl⟩
  cases h with
  | answered h => have k := key h; exact k
  | ignored h _ _ => have k := key h; exact k
  | failed h _ => have k := key h; exact k
  | busy h => have k := key h; exact k
  | retry h _ _ => have k := key h; exact k
  | exhausted h _ _ => have k := key h; exact k
  | waiting h _ => have k := key h; exact k

theorem Update.file {C : Cipher} {cb : Bool} {p q : Pd} {env : Env} {outs : List Out} {y : Bool} (I : Inv p)
    (h : Update C cb p env q outs y) : FileVisit C p env q outs := by
  have may : MaySend p env → p.phyState ≠ .idle := by
    intro hm; rcases hm with h | ⟨h, -⟩ <;> simp [h]
  have wait : ∀ {p1 q : Pd} {o1 o2 : List Out} {rc : CpErr}, p.phyState = .replyWait → Waited C p env p1 o1 rc →
      q.file = p1.file → fileOuts o2 = [] → FileVisit C p env q (o1 ++ o2) := by
    intro p1 q o1 o2 rc hps hw hq ho
    rcases hw.file hps with ⟨h1, h2⟩ | ⟨id, body, r, h1, h2, h3, h4, h5⟩
    · refine .same (hq.trans h1) ?_ (fun h => by rw [hps] at h; cases h)
      rw [h2]; exact ho
    · refine .heard id body r h1 h2 h3 (hq.trans h4) ?_
      rw [fileOuts_append, ho, List.append_nil, h5, fileOuts_fclose (statDecode_outs h3)]
  cases h with
  | hold h _ => exact .same rfl rfl (fun h' => by rw [h] at h'; cases h')
  | @sent p1 _ hm h =>
    rcases h.file with ⟨h1, h2⟩ | ⟨h1, h2, room, o, r, h3, h4, h5⟩
    · exact .same h1 h2 (fun h' => absurd h' (may hm))
    · exact .built room o r hm h1 h2 h3 h4 h5
  | @unsent p1 _ o1 o2 hm h h' =>
    obtain ⟨k1, k2⟩ := settle_file (.inr rfl) h'
    rcases h.file with ⟨h1, h2⟩ | ⟨h1, h2, room, o, r, h3, h4, h5⟩
    · exact .same (k1.trans h1) (by rw [fileOuts_append, h2, k2]; rfl) (fun h' => absurd h' (may hm))
    · refine .built room o r hm h1 h2 h3 (by rw [k1]; exact h4) ?_
      rw [fileOuts_append, k2, List.append_nil, h5]
  | @replied p1 _ o1 o2 rc hps hw hrc h' =>
    have hd : p1.phyState = .done ∨ p1.phyState = .err := by
      cases hw with
      | answered _ => exact .inl rfl
      | ignored _ _ _ => exact .inl rfl
      | failed _ _ => exact .inr rfl
      | exhausted _ _ _ => exact .inr rfl
      | busy _ => simp at hrc
      | retry _ _ _ => simp at hrc
      | waiting _ _ => simp at hrc
    obtain ⟨k1, k2⟩ := settle_file hd h'
    exact wait hps hw k1 k2
  | again hps hw => have := wait (q := q) (o2 := []) hps hw rfl rfl; rwa [List.append_nil] at this
  | waiting hps hw => have := wait (q := q) (o2 := []) hps hw rfl rfl; rwa [List.append_nil] at this
  | idle hps h =>
    have hi : p.phyState = .idle := by
      rcases hps with h | h | h
      · exact h
      · rcases I.phy with h' | h' | h' | h' <;> rw [h] at h' <;> cases h'
      · rcases I.phy with h' | h' | h' | h' <;> rw [h] at h' <;> cases h'
    cases settle_inv h with
    | @command p1 _ id h1 h2 h3 =>
      rcases stateGetCmd_file h2 with ⟨a, b, c⟩ | ⟨n, a, b, c, d, e⟩
      · exact .same a (by rw [b]; rfl) (fun _ _ => c)
      · refine .chosen outs n hi a b c (fileOuts_fclose (stateGetCmd_inv h2).2.2.1) (fun k hk => ⟨(d k hk).1, rfl⟩) (fun _ => e h3)
    | @nothing p1 _ o1 o2 h1 h2 h3 =>
      have hf : q.file = p1.file := (advance_drift h3).2.2.2
      have hid : q.phyState = .idle := (advanced (p := { p1 with cmdId := 0 }) (nothing_pre I.mid h1 h2) h3).2
      rcases stateGetCmd_file h2 with ⟨a, b, c⟩ | ⟨n, a, b, c, d, e⟩
      · refine .same (hf.trans a) (by rw [b]; exact fileOuts_advance h3) (fun _ h => by rw [hid] at h; cases h)
      · refine .chosen o1 n hi a b (by rw [hf]; exact c) ?_ (fun k hk => ?_) (fun h => by rw [hid] at h; cases h)
        · rw [fileOuts_append, fileOuts_advance h3, List.append_nil, fileOuts_fclose (stateGetCmd_inv h2).2.2.1]
        · obtain ⟨x, y⟩ := d k hk; omega
    | over h1 _ _ => rcases h1 with h | h <;> rw [h] at hi <;> cases hi

/-- what the other calls do to the file transfer -/
theorem api_file {C : Cipher} {p q : Pd} {op : Op} {o : List Out} (hop : ∀ cb env, op ≠ .update cb env) (h : step C p op = .ok (q, o)) :
    (q.file = p.file ∧ o = []) ∨ (op = .fileOps ∧ q.file = some File.reset ∧ o = []) ∨
    ∃ env c ok, op = .send env (.fileTx c) ∧ p.state = .online ∧ File.txCommand p.file env c.id c.flags = (q.file, o, ok) := by
  cases op with
  | update cb env => exact absurd rfl (hop cb env)
  | send env c =>
    injection h with h; injection h with e1 e2; subst e1 e2
    by_cases hs : p.state = .online
    · unfold sendPd
      rw [if_neg (by simp [hs])]
      dsimp only
      have enq : ∀ c : Cmd, (if p.cmdQueue.length < p.poolCap then ({ p with cmdQueue := p.cmdQueue ++ [c] }, [], 0) else (p, [], -1) :
          Pd × List Out × Int).1.file = p.file ∧ (if p.cmdQueue.length < p.poolCap then ({ p with cmdQueue := p.cmdQueue ++ [c] }, [], 0) else (p, [], -1) :
          Pd × List Out × Int).2.1 = [] := by
        intro c; split <;> exact ⟨rfl, rfl⟩
      cases c with
      | fileTx f => exact .inr (.inr ⟨env, f, _, rfl, hs, rfl⟩)
      | keyset k =>
        dsimp only
        split
        · exact .inl ⟨rfl, rfl⟩
        · exact .inl (enq _)
      | _ => exact .inl (enq _)
    · unfold sendPd
      rw [if_pos hs]
      exact .inl ⟨rfl, rfl⟩
  | flush => injection h with h; injection h with e1 e2; subst e1 e2; exact .inl ⟨rfl, rfl⟩
  | flag f b =>
    injection h with h; injection h with e1 e2; subst e1 e2
    refine .inl ⟨?_, rfl⟩
    unfold modifyPd
    split <;> rfl
  | fileOps => injection h with h; injection h with e1 e2; subst e1 e2; exact .inr (.inl ⟨rfl, rfl, rfl⟩)
  | share => injection h with h; injection h with e1 e2; subst e1 e2; exact .inl ⟨rfl, rfl⟩

/-- all outcomes of a call for a file transfer -/
theorem txCommand_inv {file g : Option FileSt} {env : Env} {i : Int} {fl : BitVec 32} {o : List Out} {ok : Bool}
    (h : File.txCommand file env i fl = (g, o, ok)) :
    (g = file ∧ ok = false) ∨
    (∃ f, file = some f ∧ f.state = .inprog ∧ fl &&& File.FLAG_CANCEL ≠ 0 ∧ i = f.fileId ∧ g = some { f with cancelReq := true } ∧ o = [] ∧ ok = true) ∨
    (∃ f n, file = some f ∧ f.state ≠ .inprog ∧ fl &&& File.FLAG_CANCEL = 0 ∧ 0 < n ∧
      g = some { File.reset with flags := fl, fileId := i, size := n, state := .inprog } ∧ o = [.fopen i 0] ∧ ok = true) := by
  unfold File.txCommand at h
  split at h
  · injection h with h1 h; injection h with h2 h3; subst h1 h2 h3; exact .inl ⟨rfl, rfl⟩
  rename_i f
  split at h
  · rename_i hs
    split at h
    · rename_i hc
      split at h
      · rename_i hi
        injection h with h1 h; injection h with h2 h3; subst h1 h2 h3
        exact .inr (.inl ⟨f, rfl, hs, by simpa using hc, hi, rfl, rfl, rfl⟩)
      · injection h with h1 h; injection h with h2 h3; subst h1 h2 h3; exact .inl ⟨rfl, rfl⟩
    · injection h with h1 h; injection h with h2 h3; subst h1 h2 h3; exact .inl ⟨rfl, rfl⟩
  · rename_i hs
    split at h
    · injection h with h1 h; injection h with h2 h3; subst h1 h2 h3; exact .inl ⟨rfl, rfl⟩
    · rename_i hc
      dsimp only at h
      split at h
      · injection h with h1 h; injection h with h2 h3; subst h1 h2 h3; exact .inl ⟨rfl, rfl⟩
      split at h
      · injection h with h1 h; injection h with h2 h3; subst h1 h2 h3; exact .inl ⟨rfl, rfl⟩
      · rename_i hn
        injection h with h1 h; injection h with h2 h3; subst h1 h2 h3
        exact .inr (.inr ⟨f, _, rfl, hs, by simpa using hc, (by omega), rfl, rfl, rfl⟩)

end CpM

end Osdp
