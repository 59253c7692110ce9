import Verif.Lemmas.DecodeFault
import Verif.Lemmas.PdKind
import Verif.Lemmas.PdFits
import Verif.Lemmas.PdHear
import Verif.Lemmas.Transfer

/-!
# Where a PD can go wrong

Handling a command and building the reply, seen from the other side: the conditions under which every step
succeeds.
-/

namespace Osdp.PdM

open Phy (setNak)

/-- the lengths given in an event lie within its arrays -/
def EventOk : Event → Prop
  | .cardread c => 0 ≤ c.length ∧ c.length ≤ 512
  | .keypress k => 0 ≤ k.length ∧ k.length ≤ 64
  | .mfgrep m => m.length.toNat ≤ 128
  | _ => True

/-- the member of the union in `struct osdp_cmd` that is in use (0: one the PD does not read back) -/
def member : Cmd → Nat
  | .status _ => 1
  | .comset _ => 2
  | .keyset _ => 3
  | _ => 0

/-- the command callback edits the command it is given, it does not put another one in its place -/
def Keeps (env : Env) : Prop := ∀ cb, env.cb = some cb → ∀ i c, member (cb i c).2 = member c

/-- the number of bytes of the file accounted for after the status reply is at most its size -/
def Within (file : Option FileSt) : Prop :=
  ∀ f, file = some f → f.state = .inprog →
    (if f.length > 0 then (f.offset + u32 f.length) % 4294967296 else f.offset) ≤ f.size

/-- what the pending reply reads is there -/
inductive Primed (p : Pd) : Prop where
  | nak (c : Byte) (h : p.replyId = Id.NAK) (he : p.eph = .nak c)
  | ack (h : p.replyId = Id.ACK) (hk : p.cmdId = Id.KEYSET → ∃ k, p.eph = .key k)
  | own (h : p.replyId = Id.PDID ∨ p.replyId = Id.PDCAP)
  | status (s : StatusReport) (h : p.replyId = Id.ISTATR ∨ p.replyId = Id.OSTATR ∨ p.replyId = Id.LSTATR ∨ p.replyId = Id.RSTATR)
      (he : p.eph = .event (.status s))
  | keypad (k : EvKeypress) (h : p.replyId = Id.KEYPAD) (he : p.eph = .event (.keypress k)) (hv : EventOk (.keypress k))
  | raw (c : EvCardread) (h : p.replyId = Id.RAW) (he : p.eph = .event (.cardread c)) (hv : EventOk (.cardread c))
  | mfgrep (m : EvMfgrep) (h : p.replyId = Id.MFGREP) (he : p.eph = .event (.mfgrep m)) (hv : EventOk (.mfgrep m))
  | com (c : CmdComset) (h : p.replyId = Id.COM) (he : p.eph = .cmd (.comset c))
  | handshake (h : p.replyId = Id.CCRYPT ∨ p.replyId = Id.RMAC_I) (hs : p.scActive = false)
  | ftstat (h : p.replyId = Id.FTSTAT) (hf : Within p.file)

theorem primed_nak {p : Pd} (hp : p.flags.pdMode = true) (c : Byte) : Primed (setNak p c) :=
  .nak c rfl (by unfold setNak; simp [hp])

/-- a command is dealt with -/
def Fine (r : Res (Pd × List Out × PdRet)) : Prop := ∃ q o ret, r = .ok (q, o, ret) ∧ (ret ≠ .wait → Primed q)

theorem fine_badLen {p : Pd} (hp : p.flags.pdMode = true) (o : List Out) : Fine (badLen p o) :=
  ⟨_, _, _, rfl, fun _ => primed_nak hp _⟩

theorem fine_nak {p : Pd} (hp : p.flags.pdMode = true) (c : Byte) (o : List Out) : Fine (.ok (setNak p c, o, .reply)) :=
  ⟨_, _, _, rfl, fun _ => primed_nak hp _⟩

theorem fine_ack {p : Pd} {o : List Out} (h : p.cmdId ≠ Id.KEYSET) : Fine (reply p Id.ACK o) :=
  ⟨_, _, _, rfl, fun _ => .ack rfl fun hk => absurd hk h⟩

theorem fine_cap {p q : Pd} {c : Option Cmd} (hp : p.flags.pdMode = true) (h : capOk p c = (q, false)) (o : List Out) :
    Fine (.ok (q, o, .reply)) := by
  obtain ⟨-, -, -, h4⟩ := capOk_quiet h
  obtain ⟨code, rfl⟩ := h4 rfl
  exact fine_nak hp _ _

theorem cap_same {p q : Pd} {c : Option Cmd} (h : capOk p c = (q, true)) : q = p := (capOk_quiet h).2.2.1 rfl

/-- the callback is called -/
theorem callback_total {p : Pd} {env : Env} (hk : Keeps env) (hc : env.cb.isNone = false) (i : Nat) (c : Cmd) :
    ∃ o, callback p env i c = .ok (setNak p Nak.RECORD, o, none) ∨
      ∃ c', member c' = member c ∧ callback p env i c = .ok (p, o, some c') := by
  unfold callback
  cases hcb : env.cb with
  | none => rw [hcb] at hc; cases hc
  | some cb =>
    refine ⟨[.cmd c], ?_⟩
    dsimp only
    split
    · exact .inl rfl
    · exact .inr ⟨(cb i c).2, hk cb hcb i c, rfl⟩

theorem fine_status {p : Pd} {env : Env} (hp : p.flags.pdMode = true) (hk : Keeps env) (hc : env.cb.isNone = false)
    (ty : StatusType) {r : Nat} (hr : r = Id.ISTATR ∨ r = Id.OSTATR ∨ r = Id.LSTATR ∨ r = Id.RSTATR) :
    Fine (statusCmd p env ty r) := by
  unfold statusCmd
  obtain ⟨o, h | ⟨c', hm, h⟩⟩ := callback_total (p := p) hk hc 0 (.status ⟨ty, 0, 0⟩)
  · rw [h]; exact fine_badLen (p := setNak p Nak.RECORD) hp o
  · rw [h]
    cases c' with
    | status s => exact ⟨_, _, _, rfl, fun _ => .status s hr rfl⟩
    | _ => cases hm

/-- a record of the right length is read -/
def Reads (dec : List Byte → Option Cmd) (k : Nat) : Prop := ∀ l : List Byte, l.length = k → ∃ c, dec l = some c

theorem reads_output : Reads decOutput 4 := by
  intro l hl
  match l, hl with
  | [a, b, c, d], _ => exact ⟨_, rfl⟩
theorem reads_led : Reads decLed 14 := by
  intro l hl
  match l, hl with
  | [r, n, a, b, c, d, e, t0, t1, f, g, h, i, j], _ => exact ⟨_, rfl⟩
theorem reads_buzzer : Reads decBuzzer 5 := by
  intro l hl
  match l, hl with
  | [a, b, c, d, e], _ => exact ⟨_, rfl⟩

theorem records_total {dec : List Byte → Option Cmd} {k : Nat} {env : Env} (hd : Reads dec k) (hk : Keeps env)
    (hc : env.cb.isNone = false) : ∀ (n i : Nat) (p : Pd) (body : List Byte), k * n ≤ body.length →
    ∃ q o, records dec k env n i p body = .ok (q, o) ∧ q.cmdId = p.cmdId := by
  intro n
  induction n with
  | zero => intro i p body _; exact ⟨_, _, rfl, rfl⟩
  | succ n ih =>
    intro i p body hl
    rw [Nat.mul_succ] at hl
    obtain ⟨c, hcd⟩ := hd (body.take k) (by rw [List.length_take]; omega)
    unfold records
    rw [hcd]
    dsimp only
    cases hcap : capOk p (some c) with
    | mk p1 b =>
      cases b with
      | false =>
        obtain ⟨-, -, -, h4⟩ := capOk_quiet hcap
        obtain ⟨code, rfl⟩ := h4 rfl
        exact ⟨_, _, rfl, rfl⟩
      | true =>
        have := cap_same hcap; subst this
        dsimp only
        obtain ⟨o, h | ⟨c', -, h⟩⟩ := callback_total (p := p1) hk hc i c
        · rw [h]; exact ⟨_, _, rfl, rfl⟩
        · rw [h]
          obtain ⟨q, o2, h2, hq⟩ := ih (i + 1) p1 (body.drop k) (by rw [List.length_drop]; omega)
          show ∃ q o', (records dec k env n (i + 1) p1 (body.drop k) >>= _) = _ ∧ _
          rw [h2]
          exact ⟨_, _, rfl, hq⟩

theorem fine_records {p : Pd} {env : Env} {dec : List Byte → Option Cmd} {k : Nat} {body : List Byte} (hp : p.flags.pdMode = true)
    (hk : Keeps env) (hd : Reads dec k) (hid : p.cmdId ≠ Id.KEYSET) : Fine (recordsCmd p env dec k body) := by
  unfold recordsCmd
  split
  · exact fine_badLen hp _
  · rename_i hn
    have hc : env.cb.isNone = false := by
      cases hx : env.cb.isNone
      · rfl
      · exact absurd (.inr hx) hn
    obtain ⟨q, o, h, hq⟩ := records_total hd hk hc (body.length / k) 0 p body (Nat.mul_div_le _ _)
    rw [h]
    exact fine_ack (by rw [hq]; exact hid)

theorem fine_text {p : Pd} {env : Env} {body : List Byte} (hp : p.flags.pdMode = true) (hk : Keeps env)
    (hid : p.cmdId ≠ Id.KEYSET) : Fine (textCmd p env body) := by
  unfold textCmd
  split
  · exact fine_badLen hp _
  rename_i hc
  replace hc : env.cb.isNone = false := Bool.eq_false_iff.mpr hc
  split
  · rename_i a b c d e n text
    dsimp only
    split
    · exact fine_badLen hp _
    split
    · rename_i hcap
      exact fine_cap hp hcap _
    · rename_i q hcap
      have := cap_same hcap; subst this
      obtain ⟨o, h | ⟨c', -, h⟩⟩ := callback_total (p := q) hk hc 0 (Cmd.text ⟨a, b, c, d, e, n, .padTo 32 (text.take n.toNat)⟩)
      · rw [h]; exact fine_nak hp _ _
      · rw [h]; exact fine_ack hid
  · exact fine_badLen hp _

theorem fine_comset {p : Pd} {env : Env} {body : List Byte} (hp : p.flags.pdMode = true) (hk : Keeps env) :
    Fine (comsetCmd p env body) := by
  unfold comsetCmd
  split
  · exact fine_badLen hp _
  rename_i hc
  replace hc : env.cb.isNone = false := Bool.eq_false_iff.mpr hc
  split
  · rename_i a b0 b1 b2 b3
    dsimp only
    split
    · exact fine_badLen hp _
    obtain ⟨o, h | ⟨c', hm, h⟩⟩ := callback_total (p := p) hk hc 0 (.comset ⟨a, BitVec.ofNat 32 (ofLe [b0, b1, b2, b3])⟩)
    · rw [h]; exact fine_nak hp _ _
    · rw [h]
      cases c' with
      | comset s => exact ⟨_, _, _, rfl, fun _ => .com s rfl rfl⟩
      | _ => cases hm
  · exact fine_badLen hp _

theorem fine_mfg {p : Pd} {env : Env} {body : List Byte} (hp : p.flags.pdMode = true) (hk : Keeps env)
    (hid : p.cmdId ≠ Id.KEYSET) : Fine (mfgCmd p env body) := by
  unfold mfgCmd
  split
  · exact fine_badLen hp _
  rename_i hc
  replace hc : env.cb.isNone = false := Bool.eq_false_iff.mpr hc
  split
  · rename_i v0 v1 v2 c data
    dsimp only
    split
    · exact fine_badLen hp _
    obtain ⟨o, h | ⟨c', -, h⟩⟩ := callback_total (p := p) hk hc 0
      (Cmd.mfg ⟨BitVec.ofNat 32 (ofLe [v0, v1, v2]), c, b8 (data.length % 256), .padTo 64 (data.take (data.length % 256))⟩)
    · rw [h]; exact fine_nak hp _ _
    · rw [h]; exact fine_ack hid
  · exact fine_badLen hp _

theorem fine_keyset {p : Pd} {env : Env} {body : List Byte} (hp : p.flags.pdMode = true) (hk : Keeps env) :
    Fine (keysetCmd p env body) := by
  unfold keysetCmd
  split
  · exact fine_badLen hp _
  dsimp only
  split
  · exact fine_badLen hp _
  have hp1 : (setNak p Nak.SC_COND).flags.pdMode = true := hp
  have hn := primed_nak hp Nak.SC_COND
  generalize setNak p Nak.SC_COND = p1 at hp1 hn
  split
  · rename_i hcap; exact fine_cap hp1 hcap _
  · rename_i q hcap
    have := cap_same hcap; subst this
    split
    · exact ⟨_, _, _, rfl, fun _ => hn⟩
    split
    · exact ⟨_, _, _, rfl, fun _ => hn⟩
    rename_i hc
    replace hc : env.cb.isNone = false := Bool.eq_false_iff.mpr hc
    obtain ⟨o, h | ⟨c', hm, h⟩⟩ := callback_total (p := q) hk hc 0 (.keyset ⟨body[0], body[1], .padTo 32 (body.drop 2)⟩)
    · rw [h]; exact fine_nak hp1 _ _
    · rw [h]
      cases c' with
      | keyset s => exact ⟨_, _, _, rfl, fun _ => .ack rfl fun _ => ⟨_, rfl⟩⟩
      | _ => cases hm

theorem fine_chlng {p : Pd} {body : List Byte} (hp : p.flags.pdMode = true) : Fine (chlngCmd p body) := by
  unfold chlngCmd
  split
  · exact fine_badLen hp _
  split
  · rename_i hcap; exact fine_cap hp hcap _
  · exact ⟨_, _, _, rfl, fun _ => .handshake (.inl rfl) rfl⟩

theorem fine_scrypt {p : Pd} {body : List Byte} (hp : p.flags.pdMode = true) : Fine (scryptCmd p body) := by
  unfold scryptCmd
  split
  · exact fine_badLen hp _
  split
  · rename_i hcap; exact fine_cap hp hcap _
  · rename_i hcap
    have := cap_same hcap; subst this
    split
    · exact fine_nak hp _ _
    · rename_i hs
      exact ⟨_, _, _, rfl, fun _ => .handshake (.inr rfl) (by
        show Pd.scActive _ = false
        revert hs; unfold Pd.scActive; dsimp only; simp)⟩

theorem primed_event {p : Pd} {e : Event} {rest : List Event} (hq : p.eventQueue = e :: rest) (hv : EventOk e)
    (hid : p.cmdId ≠ Id.KEYSET) : Primed (pollEvent p) := by
  unfold pollEvent
  rw [hq]
  dsimp only
  have hack : ∀ q : Pd, q.replyId = Id.ACK → q.cmdId = p.cmdId → Primed q := fun q h1 h2 => .ack h1 fun hk => absurd (h2.symm.trans hk) hid
  cases e with
  | cardread c =>
    cases hf : c.format with
    | rawUnspecified =>
      have : eventReply (.cardread c) = Id.RAW := by unfold eventReply; simp [hf]
      rw [this, if_neg (by decide)]; exact .raw c rfl rfl hv
    | rawWiegand =>
      have : eventReply (.cardread c) = Id.RAW := by unfold eventReply; simp [hf]
      rw [this, if_neg (by decide)]; exact .raw c rfl rfl hv
    | ascii =>
      have : eventReply (.cardread c) = Id.ACK := by unfold eventReply; simp [hf]
      rw [this]; exact hack _ rfl rfl
    | other n =>
      have : eventReply (.cardread c) = Id.ACK := by unfold eventReply; simp [hf]
      rw [this]; exact hack _ rfl rfl
  | keypress k => exact .keypad k rfl rfl hv
  | mfgrep m => exact .mfgrep m rfl rfl hv
  | status s =>
    cases hf : s.type with
    | input =>
      have : eventReply (.status s) = Id.ISTATR := by unfold eventReply; simp [hf]
      rw [this, if_neg (by decide)]; exact .status s (.inl rfl) rfl
    | output =>
      have : eventReply (.status s) = Id.OSTATR := by unfold eventReply; simp [hf]
      rw [this, if_neg (by decide)]; exact .status s (.inr (.inl rfl)) rfl
    | localStat =>
      have : eventReply (.status s) = Id.LSTATR := by unfold eventReply; simp [hf]
      rw [this, if_neg (by decide)]; exact .status s (.inr (.inr (.inl rfl))) rfl
    | remote =>
      have : eventReply (.status s) = Id.RSTATR := by unfold eventReply; simp [hf]
      rw [this, if_neg (by decide)]; exact .status s (.inr (.inr (.inr rfl))) rfl
    | other =>
      have : eventReply (.status s) = Id.ACK := by unfold eventReply; simp [hf]
      rw [this]; exact hack _ rfl rfl
  | notification a b c => exact hack _ rfl rfl
  | bad n => exact hack _ rfl rfl

/-- The fragment in a FILETRANSFER command (its body: type, size of the file, offset, length, data) gives a length other
than that of its data, or it brings the bytes received so far over the size of the file. -/
def Overfull (f : FileSt) (body : List Byte) : Prop :=
  11 < body.length ∧ (ofLe ((body.drop 9).take 2) ≠ body.length - 11 ∨
    (if f.state = .inprog then f.size < (f.offset + (body.length - 11)) % 4294967296
     else ofLe ((body.drop 1).take 4) < body.length - 11))

theorem chunk_some {body : List Byte} {c : File.Chunk} (h : File.chunk body = some c) :
    11 < body.length ∧ c.size = ofLe ((body.drop 1).take 4) ∧ c.length = ofLe ((body.drop 9).take 2) ∧
    c.data.length = body.length - 11 ∧ c.data ≠ [] := by
  unfold File.chunk at h
  split at h
  · split at h
    · cases h
    · rename_i hn
      injection h with h; subst h
      have := List.length_pos_iff.mpr hn
      refine ⟨by simp; omega, rfl, rfl, by simp, hn⟩
  · cases h

theorem chunkWrite_within {f g : FileSt} {env : Env} {c : File.Chunk} {o : List Out}
    (hlen : c.length = c.data.length) (hl2 : c.data.length < 65536) (hs : f.state = .inprog → (f.offset + c.data.length) % 4294967296 ≤ f.size)
    (hne : c.data ≠ [])
    (hg : (File.chunkWrite f env c o).file = some g) (hok : (File.chunkWrite f env c o).ok = true) : Within (some g) := by
  unfold File.chunkWrite at hg hok
  dsimp only at hg hok
  split at hok
  · cases hok
  rename_i hst
  rw [if_neg hst] at hg
  split at hok
  · cases hok
  rename_i hrc
  rw [if_neg hrc] at hg
  injection hg with hg; subst hg
  intro f' hf' hs'
  injection hf' with hf'; subst hf'
  have hrc' : env.fwrite c.data (toI32 c.offset) = (c.length : Int) := by simpa using hrc
  have := List.length_pos_iff.mpr hne
  rw [if_pos (by show env.fwrite c.data (toI32 c.offset) > 0; rw [hrc']; omega)]
  show (f.offset + u32 (env.fwrite c.data (toI32 c.offset))) % 4294967296 ≤ f.size
  rw [hrc', hlen, File.u32_small (by omega)]
  exact hs (by simpa using hst)

theorem fine_file {p : Pd} {env : Env} {body : List Byte} (hb : body.length < 256)
    (hn : ∀ f, p.file = some f → ¬ Overfull f body) :
    Fine (do
      let r ← File.txDecode p.file env body
      let p := { p with file := r.file }
      if r.ok then reply p Id.FTSTAT r.outs else .ok (p, r.outs, .wait)) := by
  have key : ∃ r, File.txDecode p.file env body = .ok r ∧ (r.ok = true → Within r.file) := by
    unfold File.txDecode
    cases hf : p.file with
    | none => exact ⟨_, rfl, fun h => by cases h⟩
    | some f =>
      have hnf := hn f hf
      dsimp only
      cases hc : File.chunk body with
      | none => exact ⟨_, rfl, fun h => by cases h⟩
      | some c =>
        obtain ⟨c1, c2, c3, c4, c5⟩ := chunk_some hc
        dsimp only
        have hlen : c.length = c.data.length := by
          refine Classical.byContradiction fun hx => hnf ⟨c1, .inl ?_⟩
          rw [← c3, ← c4]; exact hx
        rw [if_neg (by simp [hlen])]
        split
        · rename_i hst
          have hni : f.state ≠ .inprog := by rcases hst with h | h <;> rw [h] <;> simp
          have hsz : c.data.length ≤ c.size := by
            refine Nat.le_of_not_lt fun hx => hnf ⟨c1, .inr ?_⟩
            rw [if_neg hni, ← c2, ← c4]; exact hx
          split
          · exact ⟨_, rfl, fun h => by cases h⟩
          · rename_i g o hb'
            refine ⟨_, rfl, fun hok => ?_⟩
            cases hg : (File.chunkWrite g env c o).file with
            | none => intro f' hf'; cases hf'
            | some g' =>
              refine chunkWrite_within hlen (by omega) (fun _ => ?_) c5 hg hok
              unfold File.rxBegin at hb'
              split at hb'
              · injection hb' with hb' _; cases hb'
              · split at hb'
                · injection hb' with hb' _; cases hb'
                · injection hb' with hb' _; injection hb' with hb'; subst hb'
                  show (0 + c.data.length) % 4294967296 ≤ c.size
                  omega
        · refine ⟨_, rfl, fun hok => ?_⟩
          cases hg : (File.chunkWrite f env c []).file with
          | none => intro f' hf'; cases hf'
          | some g' =>
            refine chunkWrite_within hlen (by omega) (fun hi => ?_) c5 hg hok
            refine Nat.le_of_not_lt fun hx => hnf ⟨c1, .inr ?_⟩
            rw [if_pos hi, ← c4]; exact hx
  obtain ⟨r, hr, hw⟩ := key
  rw [hr]
  show Fine (if r.ok then _ else _)
  split
  · rename_i hok
    exact ⟨_, _, _, rfl, fun _ => .ftstat rfl (hw hok)⟩
  · exact ⟨_, _, _, rfl, fun h => absurd rfl h⟩

/-- Dealing with a command succeeds, except for LSTAT without a callback and for bad fragments of a file. -/
theorem dispatch_fine {p : Pd} {env : Env} {body : List Byte} (hp : p.flags.pdMode = true) (hb : body.length < 256)
    (hk : Keeps env) (hev : ∀ e ∈ p.eventQueue, EventOk e)
    (hl : p.cmdId = Id.LSTAT → env.cb.isNone = false)
    (hf : p.cmdId = Id.FILETRANSFER → ∀ f, p.file = some f → ¬ Overfull f body) : Fine (dispatch p env body) := by
  unfold dispatch
  dsimp only
  by_cases c1 : p.cmdId = Id.POLL
  · rw [if_pos c1]
    split
    · exact fine_badLen hp _
    · have hid : p.cmdId ≠ Id.KEYSET := by rw [c1]; decide
      refine ⟨_, _, _, rfl, fun _ => ?_⟩
      cases hq : p.eventQueue with
      | nil =>
        refine .ack ?_ (fun hx => absurd ?_ hid)
        · show (pollEvent p).replyId = _
          unfold pollEvent; rw [hq]
        · have : (pollEvent p).cmdId = Id.KEYSET := hx
          unfold pollEvent at this; rw [hq] at this; exact this
      | cons e rest => exact primed_event hq (hev e (by rw [hq]; exact List.mem_cons_self)) hid
  rw [if_neg c1]
  by_cases c2 : p.cmdId = Id.LSTAT
  · rw [if_pos c2]
    split
    · exact fine_badLen hp _
    · exact fine_status hp hk (hl c2) _ (.inr (.inr (.inl rfl)))
  rw [if_neg c2]
  by_cases c3 : p.cmdId = Id.ISTAT
  · rw [if_pos c3]
    split
    · exact fine_badLen hp _
    · rename_i hn
      have hc : env.cb.isNone = false := by
        cases hx : env.cb.isNone
        · rfl
        · exact absurd (.inr hx) hn
      split
      · rename_i hcap; exact fine_cap hp hcap _
      · rename_i hcap
        have := cap_same hcap; subst this
        exact fine_status hp hk hc _ (.inl rfl)
  rw [if_neg c3]
  by_cases c4 : p.cmdId = Id.OSTAT
  · rw [if_pos c4]
    split
    · exact fine_badLen hp _
    · rename_i hn
      have hc : env.cb.isNone = false := by
        cases hx : env.cb.isNone
        · rfl
        · exact absurd (.inr hx) hn
      split
      · rename_i hcap; exact fine_cap hp hcap _
      · rename_i hcap
        have := cap_same hcap; subst this
        exact fine_status hp hk hc _ (.inr (.inl rfl))
  rw [if_neg c4]
  by_cases c5 : p.cmdId = Id.RSTAT
  · rw [if_pos c5]
    split
    · exact fine_badLen hp _
    · rename_i hn
      have hc : env.cb.isNone = false := by
        cases hx : env.cb.isNone
        · rfl
        · exact absurd (.inr hx) hn
      exact fine_status hp hk hc _ (.inr (.inr (.inr rfl)))
  rw [if_neg c5]
  by_cases c6 : p.cmdId = Id.ID
  · rw [if_pos c6]
    split
    · exact fine_badLen hp _
    · exact ⟨_, _, _, rfl, fun _ => .own (.inl rfl)⟩
  rw [if_neg c6]
  by_cases c7 : p.cmdId = Id.CAP
  · rw [if_pos c7]
    split
    · exact fine_badLen hp _
    · exact ⟨_, _, _, rfl, fun _ => .own (.inr rfl)⟩
  rw [if_neg c7]
  by_cases c8 : p.cmdId = Id.OUT
  · rw [if_pos c8]; exact fine_records hp hk reads_output (by rw [c8]; decide)
  rw [if_neg c8]
  by_cases c9 : p.cmdId = Id.LED
  · rw [if_pos c9]; exact fine_records hp hk reads_led (by rw [c9]; decide)
  rw [if_neg c9]
  by_cases c10 : p.cmdId = Id.BUZ
  · rw [if_pos c10]; exact fine_records hp hk reads_buzzer (by rw [c10]; decide)
  rw [if_neg c10]
  by_cases c11 : p.cmdId = Id.TEXT
  · rw [if_pos c11]; exact fine_text hp hk (by rw [c11]; decide)
  rw [if_neg c11]
  by_cases c12 : p.cmdId = Id.COMSET
  · rw [if_pos c12]; exact fine_comset hp hk
  rw [if_neg c12]
  by_cases c13 : p.cmdId = Id.MFG
  · rw [if_pos c13]; exact fine_mfg hp hk (by rw [c13]; decide)
  rw [if_neg c13]
  by_cases c14 : p.cmdId = Id.ACURXSIZE
  · rw [if_pos c14]
    split
    · exact fine_ack (by show p.cmdId ≠ _; rw [c14]; decide)
    · exact fine_badLen hp _
  rw [if_neg c14]
  by_cases c15 : p.cmdId = Id.KEEPACTIVE
  · rw [if_pos c15]
    split
    · exact fine_ack (by show p.cmdId ≠ _; rw [c15]; decide)
    · exact fine_badLen hp _
  rw [if_neg c15]
  by_cases c16 : p.cmdId = Id.ABORT
  · rw [if_pos c16]
    split
    · exact fine_badLen hp _
    · exact fine_ack (by show p.cmdId ≠ _; rw [c16]; decide)
  rw [if_neg c16]
  by_cases c17 : p.cmdId = Id.FILETRANSFER
  · rw [if_pos c17]
    exact fine_file hb (hf c17)
  rw [if_neg c17]
  by_cases c18 : p.cmdId = Id.KEYSET
  · rw [if_pos c18]; exact fine_keyset hp hk
  rw [if_neg c18]
  by_cases c19 : p.cmdId = Id.CHLNG
  · rw [if_pos c19]; exact fine_chlng hp
  rw [if_neg c19]
  by_cases c20 : p.cmdId = Id.SCRYPT
  · rw [if_pos c20]; exact fine_scrypt hp
  rw [if_neg c20]
  exact fine_nak hp _ _

end Osdp.PdM
