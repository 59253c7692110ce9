import Verif.Lemmas.DecodeFault
import Verif.Lemmas.SendFault
import Verif.Lemmas.PdSafe
import Verif.Lemmas.CpEvent
import Verif.Lemmas.CpFile

/-! # What the CP needs in order not to fail -/

namespace Osdp.CpM

open PdM (assertLen copyOut assertLen_total copyOut_total)
open Phy (Tx packetInit checkPacket decodePacket heldFrame pend)
open Spec.Block (Overlong)

/-- The application fills in a command as the interface asks for. -/
def CmdOk : Cmd → Prop
  | .text c => c.length.toNat ≤ 32
  | .mfg c => c.length.toNat ≤ 64
  | .bad _ => False
  | _ => True

/-- the command being sent is stored, and the lengths in it are within its arrays -/
structure Loaded (p : Pd) : Prop where
  output : p.cmdId = Id.OUT → ∃ c, p.eph = .cmd (.output c)
  led : p.cmdId = Id.LED → ∃ c, p.eph = .cmd (.led c)
  buzzer : p.cmdId = Id.BUZ → ∃ c, p.eph = .cmd (.buzzer c)
  text : p.cmdId = Id.TEXT → ∃ c, p.eph = .cmd (.text c) ∧ c.length.toNat ≤ 32
  comset : p.cmdId = Id.COMSET → ∃ c, p.eph = .cmd (.comset c)
  mfg : p.cmdId = Id.MFG → ∃ c, p.eph = .cmd (.mfg c) ∧ c.length.toNat ≤ 64
  keyset : p.cmdId = Id.KEYSET → ∃ c, p.eph = .cmd (.keyset c)

/-- for commands without parameters -/
theorem Loaded.bare {p : Pd} (h : p.cmdId ∉ [Id.OUT, Id.LED, Id.BUZ, Id.TEXT, Id.COMSET, Id.MFG, Id.KEYSET]) : Loaded p := by
  refine ⟨?_, ?_, ?_, ?_, ?_, ?_, ?_⟩ <;> intro hc <;> exact absurd (by rw [hc]; decide) h

theorem bareId (p : Pd) (n : Nat) (h : n ∉ [Id.OUT, Id.LED, Id.BUZ, Id.TEXT, Id.COMSET, Id.MFG, Id.KEYSET]) :
    Loaded { p with cmdId := n } := .bare h

theorem Loaded.of_eq {p q : Pd} (h : Loaded p) (h1 : q.cmdId = p.cmdId) (h2 : ∀ c, p.eph = .cmd c → q.eph = .cmd c) : Loaded q :=
  ⟨fun x => (h.output (h1 ▸ x)).imp fun _ y => h2 _ y, fun x => (h.led (h1 ▸ x)).imp fun _ y => h2 _ y,
   fun x => (h.buzzer (h1 ▸ x)).imp fun _ y => h2 _ y, fun x => (h.text (h1 ▸ x)).imp fun _ y => ⟨h2 _ y.1, y.2⟩,
   fun x => (h.comset (h1 ▸ x)).imp fun _ y => h2 _ y, fun x => (h.mfg (h1 ▸ x)).imp fun _ y => ⟨h2 _ y.1, y.2⟩,
   fun x => (h.keyset (h1 ▸ x)).imp fun _ y => h2 _ y⟩

/-- the application's `read` stores no more than it is asked for, and says how much -/
def Reads1 (env : Env) : Prop := ∀ n off, 0 ≤ n → (env.fread n off).1 ≤ n ∧ (0 < (env.fread n off).1 → ((env.fread n off).2.length : Int) = (env.fread n off).1)

/-- a file is being sent -/
def Sending1 (file : Option FileSt) : Prop := ∃ f, file = some f ∧ (f.state = .inprog ∨ f.state = .keepAlive)

theorem txBuild_total {file : Option FileSt} {env : Env} {room : Int} (h27 : 27 ≤ room) (hr : Reads1 env) (hf : Sending1 file) :
    ∃ g o r, File.txBuild file env room = .ok (g, o, r) ∧ ∀ bs, r = some bs → (bs.length : Int) + 16 ≤ room ∨ bs.length = 11 := by
  obtain ⟨f, rfl, hst⟩ := hf
  unfold File.txBuild
  dsimp only
  rw [if_neg (by rcases hst with h | h <;> simp [h])]
  by_cases c1 : room ≤ 11
  · rw [if_pos c1]; exact ⟨_, _, _, rfl, fun _ h => by cases h⟩
  rw [if_neg c1]
  have hh : ∀ f : FileSt, (File.txHeader f).length = 11 := by intro f; simp [File.txHeader, le32, le16]
  by_cases c2 : f.state = .keepAlive
  · rw [if_pos c2]; exact ⟨_, _, _, rfl, fun bs h => by injection h with h; subst h; exact .inr (hh _)⟩
  rw [if_neg c2]
  obtain ⟨r1, r2⟩ := hr (room - 11 - 16) (toI32 f.offset) (by omega)
  by_cases c3 : (env.fread (room - 11 - 16) (toI32 f.offset)).1 ≤ 0
  · rw [if_pos c3]; exact ⟨_, _, _, rfl, fun _ h => by cases h⟩
  rw [if_neg c3]
  have r2 := r2 (by omega)
  rw [if_neg (fun h => h.elim (fun h => absurd h (Int.not_lt.mpr r1)) fun h => h r2)]
  refine ⟨_, _, _, rfl, fun bs h => .inl ?_⟩
  injection h with h; subst h
  rw [List.length_append, hh]
  exact (show ((11 + (env.fread (room - 11 - 16) (toI32 f.offset)).2.length : Nat) : Int) + 16 ≤ room by omega)

/-- Building a command succeeds or gives up; a body fits into the buffer even after encryption. -/
theorem commandBody_total {C : Cipher} {p : Pd} {env : Env} {t : Tx} {room : Int} (h60 : 60 ≤ room) (hc : ∃ s, CmdOf s p.cmdId)
    (hl : Loaded p) (hr : Reads1 env) (hf : p.cmdId = Id.FILETRANSFER → Sending1 p.file)
    (hm : ∀ c, p.cmdId = Id.MFG → p.eph = .cmd (.mfg c) → 4 + (c.length.toNat : Int) < room)
    (h3 : p.cmdId = Id.CHLNG ∨ p.cmdId = Id.SCRYPT → t.scb.length = 3) :
    ∃ b, commandBody C p env t room = .ok b ∧ ∀ l, b.body = some l → l.length ≤ 69 ∨ (l.length : Int) + 15 ≤ room := by
  have fin : ∀ {b : Built} {l : List Byte}, b.body = some l → l.length ≤ 69 → ∀ l', b.body = some l' → l'.length ≤ 69 ∨ (l'.length : Int) + 15 ≤ room := by
    intro b l h h' l' h2; rw [h] at h2; injection h2 with h2; subst h2; exact .inl h'
  have non : ∀ {b : Built}, b.body = none → ∀ l', b.body = some l' → l'.length ≤ 69 ∨ (l'.length : Int) + 15 ≤ room := by
    intro b h l' h2; rw [h] at h2; cases h2
  unfold commandBody
  dsimp only
  by_cases c1 : p.cmdId = Id.POLL ∨ p.cmdId = Id.LSTAT ∨ p.cmdId = Id.ISTAT ∨ p.cmdId = Id.OSTAT ∨ p.cmdId = Id.RSTAT
  · rw [if_pos c1, assertLen_total (by omega)]; exact ⟨_, rfl, fin rfl (by simp)⟩
  rw [if_neg c1]
  by_cases c2 : p.cmdId = Id.ID ∨ p.cmdId = Id.CAP
  · rw [if_pos c2, assertLen_total (by omega)]; exact ⟨_, rfl, fin rfl (by simp)⟩
  rw [if_neg c2]
  by_cases c3 : p.cmdId = Id.OUT
  · obtain ⟨c, he⟩ := hl.output c3
    rw [if_pos c3, assertLen_total (by omega), he]; exact ⟨_, rfl, fin rfl (by simp [outBody, le16])⟩
  rw [if_neg c3]
  by_cases c4 : p.cmdId = Id.LED
  · obtain ⟨c, he⟩ := hl.led c4
    rw [if_pos c4, assertLen_total (by omega), he]; exact ⟨_, rfl, fin rfl (by simp [ledBody, le16])⟩
  rw [if_neg c4]
  by_cases c5 : p.cmdId = Id.BUZ
  · obtain ⟨c, he⟩ := hl.buzzer c5
    rw [if_pos c5, assertLen_total (by omega), he]; exact ⟨_, rfl, fin rfl (by simp [buzBody])⟩
  rw [if_neg c5]
  by_cases c6 : p.cmdId = Id.TEXT
  · obtain ⟨c, he, h32⟩ := hl.text c6
    rw [if_pos c6, he]
    dsimp only
    rw [assertLen_total (by omega), copyOut_total (by omega) (by rw [c.data.2]; omega)]
    exact ⟨_, rfl, fin rfl (by simp [c.data.2]; omega)⟩
  rw [if_neg c6]
  by_cases c7 : p.cmdId = Id.COMSET
  · obtain ⟨c, he⟩ := hl.comset c7
    rw [if_pos c7, assertLen_total (by omega), he]; exact ⟨_, rfl, fin rfl (by simp [comsetBody, le32])⟩
  rw [if_neg c7]
  by_cases c8 : p.cmdId = Id.MFG
  · obtain ⟨c, he, h64⟩ := hl.mfg c8
    have := hm c c8 he
    rw [if_pos c8, he]
    dsimp only
    rw [assertLen_total this]
    show ∃ b, (if c.length.toNat > 64 then _ else _) = _ ∧ _
    rw [if_neg (by omega), copyOut_total (by omega) (by rw [c.data.2]; omega)]
    exact ⟨_, rfl, fin rfl (by simp [c.data.2]; omega)⟩
  rw [if_neg c8]
  by_cases c9 : p.cmdId = Id.ACURXSIZE
  · rw [if_pos c9]; exact ⟨_, rfl, fin rfl (by simp)⟩
  rw [if_neg c9]
  by_cases c10 : p.cmdId = Id.KEEPACTIVE
  · rw [if_pos c10]; exact ⟨_, rfl, fin rfl (by simp)⟩
  rw [if_neg c10]
  by_cases c11 : p.cmdId = Id.ABORT
  · rw [if_pos c11]; exact ⟨_, rfl, fin rfl (by simp)⟩
  rw [if_neg c11]
  by_cases c12 : p.cmdId = Id.FILETRANSFER
  · rw [if_pos c12]
    obtain ⟨g, o, r, h, hb⟩ := txBuild_total (room := room) (by omega) hr (hf c12)
    rw [h]
    cases r with
    | none => exact ⟨_, rfl, fin rfl (by simp)⟩
    | some bs =>
      refine ⟨_, rfl, fun l hl => ?_⟩
      injection hl with hl; subst hl
      rw [List.length_cons]
      rcases hb bs rfl with h | h
      · right; omega
      · left; omega
  rw [if_neg c12]
  by_cases c13 : p.cmdId = Id.KEYSET
  · obtain ⟨c, he⟩ := hl.keyset c13
    rw [if_pos c13]
    split
    · exact ⟨_, rfl, non rfl⟩
    rw [he]
    dsimp only
    rw [assertLen_total (by omega)]
    dsimp only [bind, Except.bind]
    split
    · exact ⟨_, rfl, non rfl⟩
    split
    · exact ⟨_, rfl, fin rfl (by simp; omega)⟩
    split
    · exact ⟨_, rfl, fin rfl (by simp [(Sc.computeScbk C _ _).2])⟩
    · exact ⟨_, rfl, non rfl⟩
  rw [if_neg c13]
  by_cases c14 : p.cmdId = Id.CHLNG
  · rw [if_pos c14, assertLen_total (by omega)]
    dsimp only [bind, Except.bind]
    split
    · exact ⟨_, rfl, non rfl⟩
    rw [if_neg (by rw [h3 (.inl c14)]; simp)]
    exact ⟨_, rfl, fin rfl (by simp [p.sc.cpRandom.2])⟩
  rw [if_neg c14]
  by_cases c15 : p.cmdId = Id.SCRYPT
  · rw [if_pos c15, assertLen_total (by omega)]
    dsimp only [bind, Except.bind]
    split
    · exact ⟨_, rfl, non rfl⟩
    rw [if_neg (by rw [h3 (.inr c15)]; simp)]
    exact ⟨_, rfl, fin rfl (by simp [(Sc.computeCpCryptogram C p.sc).cpCryptogram.2])⟩
  rw [if_neg c15]
  obtain ⟨s, hs⟩ := hc
  cases s <;> unfold CmdOf at hs <;> simp_all

theorem finalTx_scb {C : Cipher} {p : Pd} {env : Env} {b : Built} (h : CmdBody C (nextCmd p) env (cmdTx p) b) (n : Nat) :
    (finalTx b.t b.p n).scb.length = (cmdTx p).scb.length := by
  have same : ∀ q : Pd, (finalTx (cmdTx p) q n).scb.length = (cmdTx p).scb.length := by
    intro q
    unfold finalTx cmdTx
    dsimp only
    cases p.scActive <;> cases Phy.inHandshake false p.cmdId <;> cases q.scActive <;> simp
  cases h with
  | same body _ _ _ _ => exact same _
  | unbuilt _ => exact same _
  | file f o r room _ _ => exact same _
  | chlng _ h3 _ => rw [h3]; unfold finalTx; simp
  | scrypt sc _ h3 _ _ => rw [h3]; unfold finalTx; simp

/-- Sending a command does not fail. -/
theorem buildAndSend_total {C : Cipher} {p : Pd} {env : Env} (hp : p.flags.pdMode = false) (hb : p.packetBuf.length = 256)
    (hc : ∃ s, CmdOf s p.cmdId) (hl : Loaded p) (hr : Reads1 env) (hf : p.cmdId = Id.FILETRANSFER → Sending1 p.file)
    (hm : ∀ c, p.cmdId = Id.MFG → p.eph = .cmd (.mfg c) → 69 ≤ p.peerRx → 12 + c.length.toNat < p.peerRx)
    (h3 : p.cmdId = Id.CHLNG ∨ p.cmdId = Id.SCRYPT → p.scActive = false) :
    ∃ q o ok, buildAndSend C p env = .ok (q, o, ok) := by
  unfold buildAndSend
  dsimp only
  rw [packetInit_cp hp]
  by_cases hm69 : p.txBufSize < 69
  · rw [if_pos hm69]; exact ⟨_, _, _, rfl⟩
  rw [if_neg hm69]
  dsimp only
  have hdo := cmdTx_dataOff p
  have htx : p.txBufSize ≤ 256 := by unfold Pd.txBufSize; split <;> omega
  have hroom : ∀ c, p.cmdId = Id.MFG → p.eph = .cmd (.mfg c) → 4 + (c.length.toNat : Int) < (p.txBufSize : Int) - (cmdTx p).dataOff := by
    intro c h1 h2
    have h8 : (cmdTx p).dataOff ≤ 8 := by
      unfold Tx.dataOff cmdTx
      dsimp only
      rw [show Phy.inHandshake false p.cmdId = false by rw [h1]; rfl]
      split <;> split <;> simp
    obtain ⟨c', he, h64⟩ := hl.mfg h1
    rw [h2] at he; injection he with he; injection he with he; subst he
    have := hm c h1 h2
    unfold Pd.txBufSize at hm69 ⊢
    split at hm69
    · rw [if_pos (by assumption)]; omega
    · rw [if_neg (by assumption)]; omega
  have hscb : p.cmdId = Id.CHLNG ∨ p.cmdId = Id.SCRYPT → (cmdTx p).scb.length = 3 := by
    intro h
    unfold cmdTx
    dsimp only
    rw [h3 h, if_neg (by simp), if_pos (by rcases h with h | h <;> rw [h] <;> rfl)]
    rfl
  obtain ⟨b, hbb, hlen⟩ := commandBody_total (C := C) (p := nextCmd p) (env := env) (t := cmdTx p)
    (room := (p.txBufSize : Int) - (cmdTx p).dataOff) (by omega) hc (hl.of_eq rfl fun _ h => h) hr hf hroom hscb
  have hbody := commandBody_outcome hbb
  have h0 : ¬ ((p.txBufSize : Int) - ((cmdTx p).dataOff : Nat) ≤ 0) := by omega
  cases hbo : b.body with
  | none =>
    have hbc : buildCommand C (nextCmd p) env (cmdTx p) p.txBufSize = .ok b := by
      unfold buildCommand
      dsimp only
      rw [if_neg h0, hbb]
      dsimp only [bind, Except.bind]
      rw [hbo]
      rfl
    rw [hbc]
    dsimp only [bind, Except.bind]
    rw [hbo]
    exact ⟨_, _, _, rfl⟩
  | some l =>
    have hbc : buildCommand C (nextCmd p) env (cmdTx p) p.txBufSize = .ok { b with t := finalTx b.t b.p l.length } := by
      unfold buildCommand
      dsimp only
      rw [if_neg h0, hbb]
      dsimp only [bind, Except.bind]
      rw [hbo]
      rfl
    rw [hbc]
    dsimp only [bind, Except.bind]
    rw [hbo]
    dsimp only
    obtain ⟨q, o, ok, hs⟩ := Phy.sendPacket_total C b.p env (finalTx b.t b.p l.length) l htx
      (by rw [hbody.keeps]; exact hb) (by omega) (by
        intro henc
        have hmark : (finalTx b.t b.p l.length).mark = (cmdTx p).mark := (finalTx_fields _ _ _).1.trans hbody.header.1
        have hl1 : (l.drop 1).length + 1 ≤ l.length ∨ l = [] := by
          cases l with
          | nil => exact .inr rfl
          | cons a l => left; simp
        have hs3 := finalTx_scb hbody l.length
        have hd : (cmdTx p).dataOff = (if (cmdTx p).mark then 1 else 0) + 5 + (cmdTx p).scb.length := rfl
        rw [hmark, hs3]
        have := hlen l hbo
        unfold Sc.aesPadLen
        generalize (if (cmdTx p).mark = true then 1 else 0) = mk at *
        rcases hl1 with hl1 | hl1
        · omega
        · subst hl1; simp; omega)
    rw [hs]
    exact ⟨_, _, _, rfl⟩

/-! ### taking in a reply -/

theorem copyIn_total {n : Nat} {src : List Byte} (h : src.length ≤ n) : ∃ d, copyIn n src = .ok d := by
  unfold copyIn; rw [if_pos h]; exact ⟨_, rfl⟩

/-- the status reply to a fragment is of the right size, and the file does not end before what has been sent of it -/
def StatOk (file : Option FileSt) (body : List Byte) : Prop :=
  ∀ f, file = some f → f.state = .inprog → body.length ≤ 7 ∧ (f.offset + u32 f.length) % 4294967296 ≤ f.size

theorem statDecode_total {file : Option FileSt} {env : Env} {body : List Byte} (h : StatOk file body) :
    ∃ r, File.statDecode file env body = .ok r := by
  unfold File.statDecode
  split
  · exact ⟨_, rfl⟩
  rename_i f
  split
  · exact ⟨_, rfl⟩
  rename_i hst
  obtain ⟨h7, hle⟩ := h f rfl (Decidable.not_not.mp hst)
  split
  · dsimp only
    rw [if_neg (by omega)]
    split
    · exact ⟨_, rfl⟩
    split
    · exact ⟨_, rfl⟩
    split
    · exact ⟨_, rfl⟩
    split <;> exact ⟨_, rfl⟩
  · rename_i hne
    split
    · exact ⟨_, rfl⟩
    · exfalso
      have h7 : body.length = 7 := by omega
      match body, h7 with
      | [a, b, c, d, e, f, g], _ => exact hne a b c d e f g rfl

theorem response_total {C : Cipher} {p : Pd} {env : Env} {body : List Byte}
    (hk : ∀ r n d, p.replyId = Id.KEYPAD → body = r :: n :: d → d.length ≤ 64)
    (hc : ∀ r f l0 l1 d, p.replyId = Id.RAW → body = r :: f :: l0 :: l1 :: d → d.length ≤ 64)
    (hf : p.replyId = Id.FTSTAT → StatOk p.file body) : ∃ q o rc, response C p env body = .ok (q, o, rc) := by
  unfold response
  dsimp only
  by_cases c1 : p.replyId = Id.ACK
  · rw [if_pos c1]; split <;> exact ⟨_, _, _, rfl⟩
  rw [if_neg c1]
  by_cases c2 : p.replyId = Id.NAK
  · rw [if_pos c2]; split <;> exact ⟨_, _, _, rfl⟩
  rw [if_neg c2]
  by_cases c3 : p.replyId = Id.PDID
  · rw [if_pos c3]; split <;> exact ⟨_, _, _, rfl⟩
  rw [if_neg c3]
  by_cases c4 : p.replyId = Id.PDCAP
  · rw [if_pos c4]; split <;> exact ⟨_, _, _, rfl⟩
  rw [if_neg c4]
  by_cases c5 : p.replyId = Id.OSTATR
  · rw [if_pos c5]; split <;> exact ⟨_, _, _, rfl⟩
  rw [if_neg c5]
  by_cases c6 : p.replyId = Id.ISTATR
  · rw [if_pos c6]; split <;> exact ⟨_, _, _, rfl⟩
  rw [if_neg c6]
  by_cases c7 : p.replyId = Id.LSTATR
  · rw [if_pos c7]; split <;> exact ⟨_, _, _, rfl⟩
  rw [if_neg c7]
  by_cases c8 : p.replyId = Id.RSTATR
  · rw [if_pos c8]; split <;> exact ⟨_, _, _, rfl⟩
  rw [if_neg c8]
  by_cases c9 : p.replyId = Id.COM
  · rw [if_pos c9]; split <;> exact ⟨_, _, _, rfl⟩
  rw [if_neg c9]
  by_cases c10 : p.replyId = Id.KEYPAD
  · rw [if_pos c10]
    split
    · rename_i r n d
      split
      · exact ⟨_, _, _, rfl⟩
      · obtain ⟨x, hx⟩ := copyIn_total (n := 64) (src := d) (hk r n d c10 rfl)
        rw [hx]; exact ⟨_, _, _, rfl⟩
    · exact ⟨_, _, _, rfl⟩
  rw [if_neg c10]
  by_cases c11 : p.replyId = Id.RAW
  · rw [if_pos c11]
    split
    · rename_i r f l0 l1 d
      split
      · exact ⟨_, _, _, rfl⟩
      · obtain ⟨x, hx⟩ := copyIn_total (n := 64) (src := d) (hc r f l0 l1 d c11 rfl)
        rw [hx]; exact ⟨_, _, _, rfl⟩
    · exact ⟨_, _, _, rfl⟩
  rw [if_neg c11]
  by_cases c12 : p.replyId = 0x51
  · rw [if_pos c12]; exact ⟨_, _, _, rfl⟩
  rw [if_neg c12]
  by_cases c13 : p.replyId = Id.BUSY
  · rw [if_pos c13]; split <;> exact ⟨_, _, _, rfl⟩
  rw [if_neg c13]
  by_cases c14 : p.replyId = Id.MFGREP
  · rw [if_pos c14]
    split
    · split <;> exact ⟨_, _, _, rfl⟩
    · exact ⟨_, _, _, rfl⟩
  rw [if_neg c14]
  by_cases c15 : p.replyId = Id.FTSTAT
  · rw [if_pos c15]
    obtain ⟨r, hr⟩ := statDecode_total (env := env) (hf c15)
    rw [hr]; exact ⟨_, _, _, rfl⟩
  rw [if_neg c15]
  by_cases c16 : p.replyId = Id.CCRYPT
  · rw [if_pos c16]
    split
    · exact ⟨_, _, _, rfl⟩
    split <;> exact ⟨_, _, _, rfl⟩
  rw [if_neg c16]
  by_cases c17 : p.replyId = Id.RMAC_I
  · rw [if_pos c17]
    split
    · exact ⟨_, _, _, rfl⟩
    split <;> exact ⟨_, _, _, rfl⟩
  rw [if_neg c17]
  exact ⟨_, _, _, rfl⟩

/-- A reply is taken in without a fault. -/
theorem processReply_total {C : Cipher} {p : Pd} {env : Env} (hf : Phy.Framed p) (h64 : ∀ c ∈ env.recv, c.length ≤ 64)
    (hlong : ∀ a, ¬ [0x53#8, a, 0x00#8, 0x01#8] <:+: pend p ++ env.recv.flatten)
    (hblock : ∀ q, checkPacket p env = .ok (q, .none) → ¬ Overlong q.scActive (heldFrame q))
    (hk : ∀ r n d, Phy.heard C p env = some (0x53#8, r :: n :: d) → d.length ≤ 64)
    (hc : ∀ r f l0 l1 d, Phy.heard C p env = some (0x50#8, r :: f :: l0 :: l1 :: d) → d.length ≤ 64)
    (hs : ∀ body, Phy.heard C p env = some (0x7A#8, body) → StatOk p.file body) :
    ∃ q o rc, processReply C p env = .ok (q, o, rc) := by
  unfold processReply
  cases h1 : checkPacket p env with
  | error e =>
    exfalso
    rcases Phy.checkPacket_fault hf.sound h1 with ⟨-, c, hc, hlt⟩ | ⟨-, -, a, ha⟩
    · exact absurd (h64 c hc) (by omega)
    · exact hlong a ha
  | ok x =>
    obtain ⟨p1, r⟩ := x
    have hck := Phy.checkPacket_checked h1
    cases r with
    | none =>
      dsimp only [bind, Except.bind]
      obtain ⟨p2, d, h2, -, hlen⟩ := Phy.decodePacket_total (C := C) (Phy.checkPacket_held hf h1) (hblock p1 h1)
      have hd := Phy.decodePacket_to h2
      rw [h2]
      dsimp only
      by_cases hl : d.len ≤ 0
      · rw [if_pos hl]; exact ⟨_, _, _, rfl⟩
      rw [if_neg hl]
      have hlen := hlen (by omega)
      unfold decodeResponse
      obtain ⟨id, hid⟩ := Phy.rd_exists (l := d.data) (i := 0) (by omega)
      have hh := Phy.heard_of h1 h2 (by omega) (rd_some hid)
      have hfile : p2.file = p.file := by
        have t := hck.transp.trans hd.transp
        rw [t]; rfl
      rw [hid]
      dsimp only [bind, Except.bind]
      rw [if_neg (by omega)]
      have idn : ∀ n : Byte, id.toNat = n.toNat → id = n := fun n h => BitVec.eq_of_toNat_eq h
      obtain ⟨q, o, rc, hr⟩ := response_total (C := C) (p := { p2 with replyId := id.toNat }) (env := env)
        (body := (d.data.take d.len.toNat).drop 1)
        (fun r n d' h1 h2 => hk r n d' (by rw [hh, h2, idn 0x53#8 h1]))
        (fun r f l0 l1 d' h1 h2 => hc r f l0 l1 d' (by rw [hh, h2, idn 0x50#8 h1]))
        (fun h1 => by
          show StatOk p2.file _
          rw [hfile]; exact hs _ (by rw [hh, idn 0x7A#8 h1]))
      exact ⟨q, o, rc, hr⟩
    | nack => exact ⟨_, _, _, rfl⟩
    | busy => exact ⟨_, _, _, rfl⟩
    | skip => exact ⟨_, _, _, rfl⟩
    | noData => exact ⟨_, _, _, rfl⟩
    | wait => exact ⟨_, _, _, rfl⟩
    | fmt => exact ⟨_, _, _, rfl⟩
    | check => exact ⟨_, _, _, rfl⟩

theorem phyReply_total {C : Cipher} {p : Pd} {env : Env} (h : ∃ q o rc, processReply C p env = .ok (q, o, rc)) :
    ∃ q o rc, phyReply C p env = .ok (q, o, rc) := by
  obtain ⟨q, o, rc, h⟩ := h
  unfold phyReply
  rw [h]
  dsimp only [bind, Except.bind]
  split
  · exact ⟨_, _, _, rfl⟩
  split
  · exact ⟨_, _, _, rfl⟩
  split
  · exact ⟨_, _, _, rfl⟩
  split
  · exact ⟨_, _, _, rfl⟩
  split
  · split <;> exact ⟨_, _, _, rfl⟩
  · exact ⟨_, _, _, rfl⟩

theorem cmdName {s : CpState} {id : Nat} (h : CmdOf s id) : PdM.cmdNameOk id = true := by
  cases s <;> unfold CmdOf at h
  case online =>
    have : ∀ i ∈ [Id.POLL, Id.LSTAT, Id.ISTAT, Id.OSTAT, Id.RSTAT, Id.OUT, Id.LED, Id.BUZ, Id.TEXT, Id.COMSET,
      Id.KEYSET, Id.MFG, Id.FILETRANSFER, Id.ABORT], PdM.cmdNameOk i = true := by decide
    exact this id h
  case probe => exact h.elim
  case offline => exact h.elim
  all_goals (subst h; decide)

theorem phySend_total {C : Cipher} {p : Pd} {env : Env} (hc : ∃ s, CmdOf s p.cmdId) (hp : p.flags.pdMode = false)
    (h : ∃ q o ok, buildAndSend C p env = .ok (q, o, ok)) : ∃ q o rc, phySend C p env = .ok (q, o, rc) := by
  obtain ⟨q, o, ok, h⟩ := h
  have hk := (buildAndSend_outcome hp h).sent.keeps
  unfold phySend
  rw [h]
  dsimp only [bind, Except.bind]
  split
  · exact ⟨_, _, _, rfl⟩
  · obtain ⟨s, hs⟩ := hc
    rw [if_pos (by rw [hk.2.2.1]; exact cmdName hs)]
    exact ⟨_, _, _, rfl⟩

/-! ### choosing what to do next -/

/-- what may be in the queue of commands -/
def Queued (c : Cmd) : Prop := CmdOk c ∧ ∀ f, c ≠ .fileTx f

theorem translate_total {p : Pd} {c : Cmd} (h : Queued c) :
    ∃ id, translate p c = .ok ({ p with eph := .cmd c }, id) ∧ Loaded { p with eph := .cmd c, cmdId := id } := by
  unfold translate
  dsimp only
  cases c with
  | output c => exact ⟨_, rfl, ⟨fun _ => ⟨c, rfl⟩, nofun, nofun, nofun, nofun, nofun, nofun⟩⟩
  | led c => exact ⟨_, rfl, ⟨nofun, fun _ => ⟨c, rfl⟩, nofun, nofun, nofun, nofun, nofun⟩⟩
  | buzzer c => exact ⟨_, rfl, ⟨nofun, nofun, fun _ => ⟨c, rfl⟩, nofun, nofun, nofun, nofun⟩⟩
  | text c => exact ⟨_, rfl, ⟨nofun, nofun, nofun, fun _ => ⟨c, rfl, h.1⟩, nofun, nofun, nofun⟩⟩
  | comset c => exact ⟨_, rfl, ⟨nofun, nofun, nofun, nofun, fun _ => ⟨c, rfl⟩, nofun, nofun⟩⟩
  | mfg c => exact ⟨_, rfl, ⟨nofun, nofun, nofun, nofun, nofun, fun _ => ⟨c, rfl, h.1⟩, nofun⟩⟩
  | status s =>
    dsimp only
    cases s.type
    · exact ⟨Id.ISTAT, rfl, bareId { p with eph := .cmd (.status s) } Id.ISTAT (by decide)⟩
    · exact ⟨Id.OSTAT, rfl, bareId { p with eph := .cmd (.status s) } Id.OSTAT (by decide)⟩
    · exact ⟨Id.LSTAT, rfl, bareId { p with eph := .cmd (.status s) } Id.LSTAT (by decide)⟩
    · exact ⟨Id.RSTAT, rfl, bareId { p with eph := .cmd (.status s) } Id.RSTAT (by decide)⟩
    · exact ⟨0, rfl, bareId { p with eph := .cmd (.status s) } 0 (by decide)⟩
  | keyset k =>
    dsimp only
    split
    · exact ⟨0, rfl, bareId { p with eph := .cmd (.keyset k) } 0 (by decide)⟩
    · exact ⟨_, rfl, ⟨nofun, nofun, nofun, nofun, nofun, nofun, fun _ => ⟨k, rfl⟩⟩⟩
  | fileTx f => exact absurd rfl (h.2 f)
  | bad n => exact h.1.elim

theorem stateGetCmd_total {p : Pd} {env : Env} (hq : ∀ c ∈ p.cmdQueue, Queued c)
    (hk : p.state = .setScbk → ∃ k, p.eph = .cmd (.keyset k)) :
    ∃ q o id, stateGetCmd p env = .ok (q, o, id) ∧ Loaded { q with cmdId := id } ∧ ∀ c ∈ q.cmdQueue, c ∈ p.cmdQueue := by
  unfold stateGetCmd
  cases hs : p.state with
  | online =>
    dsimp only
    unfold onlineCommand
    cases hqu : p.cmdQueue with
    | cons c rest =>
      obtain ⟨id, h, hl⟩ := translate_total (p := { p with cmdQueue := rest }) (hq c (by rw [hqu]; exact .head _))
      dsimp only
      rw [h]
      exact ⟨_, _, _, rfl, hl, fun x hx => .tail _ hx⟩
    | nil =>
      dsimp only
      generalize hg : File.getCommand p.file env.now = x
      obtain ⟨f, outs, n⟩ := x
      obtain ⟨-, hn⟩ := getCommand_inv hg
      dsimp only
      cases n with
      | send k =>
        refine ⟨_, _, _, rfl, bareId _ _ ?_, fun x hx => (List.not_mem_nil hx).elim⟩
        rcases hn k rfl with rfl | rfl | rfl <;> decide
      | hold => exact ⟨_, _, _, rfl, bareId _ _ (by decide), fun x hx => (List.not_mem_nil hx).elim⟩
      | nothing =>
        dsimp only
        split
        · exact ⟨_, _, _, rfl, bareId _ _ (by decide), fun x hx => (List.not_mem_nil hx).elim⟩
        · exact ⟨_, _, _, rfl, bareId _ _ (by decide), fun x hx => (List.not_mem_nil hx).elim⟩
  | setScbk => exact ⟨_, _, _, rfl, ⟨nofun, nofun, nofun, nofun, nofun, nofun, fun _ => hk hs⟩, fun _ h => h⟩
  | _ => exact ⟨_, _, _, rfl, bareId _ _ (by decide), fun _ h => h⟩

theorem keysetComplete_total {cb : Bool} {p : Pd} (h : p.flags.useScbkd = true ∨ ∃ k, p.eph = .cmd (.keyset k)) :
    ∃ q o, keysetComplete cb p = .ok (q, o) := by
  unfold keysetComplete
  cases hu : p.flags.useScbkd with
  | true => rw [if_neg (by simp)]; exact ⟨_, _, rfl⟩
  | false =>
    rw [hu] at h
    obtain ⟨k, hk⟩ := h.resolve_left (by simp)
    rw [if_pos (by simp), hk]
    exact ⟨_, _, rfl⟩

theorem stateCheckReply_total {cb : Bool} {p : Pd} (hk : p.replyId = Id.ACK → p.cmdId = Id.KEYSET → ∃ k, p.eph = .cmd (.keyset k)) :
    ∃ q o ok, stateCheckReply cb p = .ok (q, o, ok) := by
  unfold stateCheckReply
  cases hs : p.state with
  | online =>
    dsimp only
    unfold checkOnline
    by_cases h1 : p.replyId = Id.ACK
    · rw [if_pos h1]
      by_cases h2 : p.cmdId = Id.KEYSET
      · rw [if_pos h2]
        obtain ⟨q, o, h⟩ := keysetComplete_total (cb := cb) (.inr (hk h1 h2))
        rw [h]
        exact ⟨_, _, _, rfl⟩
      · rw [if_neg h2]; exact ⟨_, _, _, rfl⟩
    · rw [if_neg h1]; split <;> exact ⟨_, _, _, rfl⟩
  | _ => exact ⟨_, _, _, rfl⟩

theorem next_total {cb : Bool} {p : Pd} {now : Int} {ok : Bool} (hp : p.state ≠ .probe)
    (hk : p.state = .setScbk → p.flags.useScbkd = true) :
    ∃ q o n, (if ok then nextOk cb p now else nextErr cb p now) = .ok (q, o, n) := by
  cases ok with
  | true =>
    show ∃ q o n, nextOk cb p now = .ok (q, o, n)
    unfold nextOk
    cases hs : p.state with
    | setScbk =>
      obtain ⟨q, o, h⟩ := keysetComplete_total (cb := cb) (.inl (hk hs))
      dsimp only
      rw [h]
      exact ⟨_, _, _, rfl⟩
    | probe => exact absurd hs hp
    | capdet => dsimp only; split <;> exact ⟨_, _, _, rfl⟩
    | scScrypt => dsimp only; split <;> exact ⟨_, _, _, rfl⟩
    | _ => exact ⟨_, _, _, rfl⟩
  | false =>
    show ∃ q o n, nextErr cb p now = .ok (q, o, n)
    unfold nextErr
    cases hs : p.state with
    | scChlng =>
      dsimp only
      split
      · exact ⟨_, _, _, rfl⟩
      split <;> exact ⟨_, _, _, rfl⟩
    | probe => exact absurd hs hp
    | _ => exact ⟨_, _, _, rfl⟩

theorem doEvent_total {cb : Bool} {p : Pd} (h : ∃ e, p.eph = .event e) : ∃ o, doEvent cb p = .ok o := by
  obtain ⟨e, he⟩ := h
  unfold doEvent
  cases cb with
  | true => rw [if_pos rfl, he]; exact ⟨_, rfl⟩
  | false => rw [if_neg (by simp)]; exact ⟨_, rfl⟩

theorem requests_total {cb : Bool} {p : Pd} {n : CpState}
    (h : p.state = .online ∨ n = .online → p.reqEventSend = true → ∃ e, p.eph = .event e) :
    ∃ q o m, requests cb p n = .ok (q, o, m) := by
  unfold requests
  split
  · rename_i hs
    have h := h hs
    cases hr : p.reqRestartSc <;> cases ho : p.reqOffline <;> cases he : p.reqEventSend <;>
      simp only [hr, ho, he, Phy.stateReset, Bool.false_eq_true, if_true, if_false]
    all_goals first
      | exact ⟨_, _, _, rfl⟩
      | (obtain ⟨e, hev⟩ := h he
         unfold doEvent
         simp only [hev]
         cases cb <;> exact ⟨_, _, _, rfl⟩)
  · exact ⟨_, _, _, rfl⟩

theorem advance_total {cb : Bool} {p : Pd} {env : Env} {cur : CpState} {ok : Bool} (hp : p.state ≠ .probe)
    (hk : p.state = .setScbk → p.flags.useScbkd = true) (he : p.reqEventSend = true → ∃ e, p.eph = .event e) :
    ∃ q o, advance cb p env cur ok = .ok (q, o) := by
  unfold advance
  suffices h : ∃ q o, ((if ok then nextOk cb p env.now else nextErr cb p env.now) >>= fun x => requests cb x.1 x.2.2 >>= fun y =>
      if cur ≠ y.2.2 then Except.ok ((stateChange cb y.1 env y.2.2).1, x.2.1 ++ y.2.1 ++ (stateChange cb y.1 env y.2.2).2)
      else Except.ok (y.1, x.2.1 ++ y.2.1)) = (Except.ok (q, o) : Res (Pd × List Out)) by
    cases ok <;> exact h
  obtain ⟨q, o, n, h⟩ := next_total (cb := cb) (now := env.now) (ok := ok) hp hk
  obtain ⟨h1, h2, -, -, h5, -⟩ := next_eph h
  rw [h]
  dsimp only [bind, Except.bind]
  obtain ⟨q2, o2, m, h'⟩ := requests_total (cb := cb) (p := q) (n := n) (by
    intro hs hr
    rcases h1 with h1 | ⟨-, h1, h1'⟩
    · rw [h1]; exact he (h2 ▸ hr)
    · rw [h5, h1] at hs
      rcases hs with hs | hs
      · exact absurd hs h1'
      · cases hs)
  rw [h']
  dsimp only
  split <;> exact ⟨_, _, rfl⟩

/-- what the end of an exchange needs -/
theorem settle_total {cb : Bool} {p : Pd} {env : Env} (hps : p.phyState = .idle ∨ p.phyState = .done ∨ p.phyState = .err)
    (hp : p.state ≠ .probe) (hk : p.state = .setScbk → p.flags.useScbkd = true)
    (hq : ∀ c ∈ p.cmdQueue, Queued c)
    (hkey : p.phyState = .idle → p.state = .setScbk → ∃ k, p.eph = .cmd (.keyset k))
    (hset : p.phyState ≠ .idle → p.replyId = Id.ACK → p.cmdId = Id.KEYSET → ∃ k, p.eph = .cmd (.keyset k))
    (he : p.reqEventSend = true → ∃ e, p.eph = .event e) (hon : p.phyState = .idle → p.state = .online → p.reqEventSend = false) :
    ∃ q o, settle cb p env = .ok (q, o) := by
  unfold settle
  have over : p.phyState ≠ .idle → ∀ b : Bool, ∃ q o, (stateCheckReply cb p >>= fun x =>
      advance cb (Phy.stateReset x.1 false).1 env (Phy.stateReset x.1 false).1.state (b && x.2.2) >>=
        fun y => Except.ok (y.1, x.2.1 ++ notifyCommand cb x.1 x.2.2 ++ y.2)) = (Except.ok (q, o) : Res (Pd × List Out)) := by
    intro hi b
    obtain ⟨q, o, ok, h⟩ := stateCheckReply_total (cb := cb) (hset hi)
    have hj : q.state = p.state ∧ (q.state = .setScbk → q.flags.useScbkd = p.flags.useScbkd) ∧ q.eph = p.eph ∧ q.reqEventSend = p.reqEventSend := by
      rcases (stateCheckReply_inv h).2 with ⟨rfl, -, -⟩ | ⟨h1, -, -, h2⟩
      · exact ⟨rfl, fun _ => rfl, rfl, rfl⟩
      · obtain ⟨k, -, rfl, -⟩ := keysetComplete_inv h2
        exact ⟨rfl, (fun hx => by rw [show p.state = .setScbk from hx] at h1; cases h1), rfl, rfl⟩
    obtain ⟨j1, j2, j3, j4⟩ := hj
    rw [h]
    obtain ⟨q2, o2, h2⟩ := advance_total (cb := cb) (p := (Phy.stateReset q false).1) (env := env)
      (cur := (Phy.stateReset q false).1.state) (ok := b && ok) (by show q.state ≠ _; rw [j1]; exact hp)
      (fun hx => (j2 hx).trans (hk (j1 ▸ hx)))
      (fun hx => by show ∃ e, q.eph = .event e; rw [j3]; exact he (j4 ▸ hx))
    show ∃ q' o', (advance cb (Phy.stateReset q false).1 env (Phy.stateReset q false).1.state (b && ok) >>= _) = _
    rw [h2]
    exact ⟨_, _, rfl⟩
  cases hs : p.phyState with
  | idle =>
    dsimp only
    obtain ⟨q, o, id, h, -, -⟩ := stateGetCmd_total (env := env) hq (hkey hs)
    rw [h]
    dsimp only [bind, Except.bind]
    split
    · exact ⟨_, _, rfl⟩
    · rename_i hid
      obtain ⟨hc, -, -, hn⟩ := stateGetCmd_inv h
      have hc' := hc
      unfold Chosen at hc'
      have e1 : q.state = p.state := by rw [hc']
      have e2 : q.flags = p.flags := by rw [hc']
      have e3 : q.reqEventSend = p.reqEventSend := by rw [hc']
      obtain ⟨q2, o2, h2⟩ := advance_total (cb := cb) (p := { q with cmdId := id }) (env := env) (cur := q.state) (ok := true)
        (by show q.state ≠ _; rw [e1]; exact hp) (fun hx => by show q.flags.useScbkd = true; rw [e2]; exact hk (e1 ▸ hx))
        (fun hx => by
          replace hx : q.reqEventSend = true := hx
          rw [e3] at hx
          have : p.state ≠ .online := fun hon' => by rw [hon hs hon'] at hx; cases hx
          show ∃ e, q.eph = .event e
          rw [(hn this).1]
          exact he hx)
      rw [h2]
      exact ⟨_, _, rfl⟩
  | done => exact over (by rw [hs]; simp) _
  | err => exact over (by rw [hs]; simp) _
  | _ => rw [hs] at hps; simp at hps

end Osdp.CpM
