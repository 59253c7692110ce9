import Verif.Lemmas.Send
import Verif.Model.Cp

/-! # The CP sends a command -/

namespace Osdp.CpM

open Spec.Wire
open Phy (Tx packetInit Sending DataOf pktOf sendOuts)

/-- `osdp_phy_packet_init` in CP mode: the next sequence number -/
def nextCmd (p : Pd) : Pd :=
  { p with seq := Phy.nextSeq p.seq true, flags := { p.flags with hasMark := p.flags.hasMark || !p.flags.skipMark } }

/-- header of the CP's command -/
def cmdTx (p : Pd) : Tx :=
  { mark := !p.flags.skipMark, misaligned := p.flags.hasMark && p.flags.skipMark
    addr := i8 p.address &&& 0x7F#8
    ctl := if p.scActive ∨ Phy.inHandshake false p.cmdId then
        b8 (Phy.seqBits (Phy.nextSeq p.seq true)) ||| Phy.CTL_CRC ||| Phy.CTL_SCB
      else b8 (Phy.seqBits (Phy.nextSeq p.seq true)) ||| Phy.CTL_CRC
    scb := if p.scActive then [2#8, 0x15#8] else if Phy.inHandshake false p.cmdId then [3#8, 0x11#8, 0#8] else [] }

theorem packetInit_cp {p : Pd} (hp : p.flags.pdMode = false) (m : Nat) :
    packetInit p m = if m < 69 then none else some (nextCmd p, cmdTx p) := by
  unfold packetInit
  by_cases hm : m < 69
  · rw [if_pos hm, if_pos (show m < 5 + 64 from hm)]
  rw [if_neg hm, if_neg (show ¬ m < 5 + 64 from hm)]
  have h1 : p.isPd = false := hp
  have h2 : p.isCp = true := by simp [Pd.isCp, hp]
  dsimp only
  rw [h1, h2]
  unfold nextCmd cmdTx
  cases hmk : p.flags.hasMark <;> cases hsk : p.flags.skipMark <;> cases hsc : p.scActive <;>
    cases hh : Phy.inHandshake false p.cmdId <;> simp [hmk, hsk, hh]
  all_goals (clear hp h1 h2 hsc; cases h : p.flags; rw [h] at hmk hsk; cases hmk; cases hsk; rfl)

/-- What building a command can do to the state. -/
inductive CmdBody (C : Cipher) (p : Pd) (env : Env) (t : Tx) : Built → Prop
  | same (body : Option (List Byte)) : p.cmdId ≠ Id.FILETRANSFER → p.cmdId ≠ Id.CHLNG → p.cmdId ≠ Id.SCRYPT ∨ body = none →
      (∀ l, body = some l → l.head? = some (b8 p.cmdId)) → CmdBody C p env t ⟨p, t, [], body⟩
  | unbuilt : p.cmdId = Id.CHLNG ∨ p.cmdId = Id.SCRYPT → CmdBody C p env t ⟨p, t, [], none⟩
  | file (f : Option FileSt) (outs : List Out) (r : Option (List Byte)) (room : Int) : p.cmdId = Id.FILETRANSFER →
      File.txBuild p.file env room = .ok (f, outs, r) →
      CmdBody C p env t ⟨{ p with file := f }, t, outs,
        some (match r with | none => [b8 Id.ABORT] | some bs => b8 p.cmdId :: bs)⟩
  | chlng : p.cmdId = Id.CHLNG → t.scb.length = 3 → t.misaligned = false →
      CmdBody C p env t ⟨p, { t with scb := [3#8, 0x11#8, if p.flags.useScbkd then 0 else 1] }, [],
        some (b8 p.cmdId :: p.sc.cpRandom.1)⟩
  | scrypt (sc : Sc) : p.cmdId = Id.SCRYPT → t.scb.length = 3 → t.misaligned = false → sc = Sc.computeCpCryptogram C p.sc →
      CmdBody C p env t ⟨{ p with sc := sc }, { t with scb := [3#8, 0x13#8, if p.flags.useScbkd then 0 else 1] }, [],
        some (b8 p.cmdId :: sc.cpCryptogram.1)⟩

theorem commandBody_outcome {C : Cipher} {p : Pd} {env : Env} {t : Tx} {room : Int} {b : Built}
    (h : commandBody C p env t room = .ok b) : CmdBody C p env t b := by
  have same : ∀ (body : Option (List Byte)) {n : Nat}, p.cmdId = n → n ≠ Id.FILETRANSFER → n ≠ Id.CHLNG → n ≠ Id.SCRYPT →
      (∀ l, body = some l → l.head? = some (b8 p.cmdId)) → CmdBody C p env t ⟨p, t, [], body⟩ := by
    rintro body n rfl h1 h2 h3 h4; exact .same body h1 h2 (.inl h3) h4
  unfold commandBody at h
  dsimp only at h
  replace h := ite_inv h
  rcases h with ⟨hid, h⟩ | ⟨-, h⟩
  · obtain ⟨_, -, h⟩ := Res.bind_eq_ok.mp h
    injection h with h; subst h
    rcases hid with h | h | h | h | h <;> exact same _ h (by decide) (by decide) (by decide) (by rintro l ⟨⟩; rfl)
  replace h := ite_inv h
  rcases h with ⟨hid, h⟩ | ⟨-, h⟩
  · obtain ⟨_, -, h⟩ := Res.bind_eq_ok.mp h
    injection h with h; subst h
    rcases hid with h | h <;> exact same _ h (by decide) (by decide) (by decide) (by rintro l ⟨⟩; rfl)
  replace h := ite_inv h
  rcases h with ⟨hid, h⟩ | ⟨-, h⟩
  · obtain ⟨_, -, h⟩ := Res.bind_eq_ok.mp h
    split at h
    · injection h with h; subst h
      exact same _ hid (by decide) (by decide) (by decide) (by rintro l ⟨⟩; rw [hid]; rfl)
    · cases h
  replace h := ite_inv h
  rcases h with ⟨hid, h⟩ | ⟨-, h⟩
  · obtain ⟨_, -, h⟩ := Res.bind_eq_ok.mp h
    split at h
    · injection h with h; subst h
      exact same _ hid (by decide) (by decide) (by decide) (by rintro l ⟨⟩; rw [hid]; rfl)
    · cases h
  replace h := ite_inv h
  rcases h with ⟨hid, h⟩ | ⟨-, h⟩
  · obtain ⟨_, -, h⟩ := Res.bind_eq_ok.mp h
    split at h
    · injection h with h; subst h
      exact same _ hid (by decide) (by decide) (by decide) (by rintro l ⟨⟩; rw [hid]; rfl)
    · cases h
  replace h := ite_inv h
  rcases h with ⟨hid, h⟩ | ⟨-, h⟩
  · split at h
    · obtain ⟨_, -, h⟩ := Res.bind_eq_ok.mp h
      obtain ⟨_, -, h⟩ := Res.bind_eq_ok.mp h
      injection h with h; subst h
      exact same _ hid (by decide) (by decide) (by decide) (by rintro l ⟨⟩; rfl)
    · cases h
  replace h := ite_inv h
  rcases h with ⟨hid, h⟩ | ⟨-, h⟩
  · obtain ⟨_, -, h⟩ := Res.bind_eq_ok.mp h
    split at h
    · injection h with h; subst h
      exact same _ hid (by decide) (by decide) (by decide) (by rintro l ⟨⟩; rw [hid]; rfl)
    · cases h
  replace h := ite_inv h
  rcases h with ⟨hid, h⟩ | ⟨-, h⟩
  · split at h
    · obtain ⟨_, -, h⟩ := Res.bind_eq_ok.mp h
      split at h
      · injection h with h; subst h
        exact same _ hid (by decide) (by decide) (by decide) (by rintro l ⟨⟩)
      · obtain ⟨_, -, h⟩ := Res.bind_eq_ok.mp h
        injection h with h; subst h
        exact same _ hid (by decide) (by decide) (by decide) (by rintro l ⟨⟩; rfl)
    · cases h
  replace h := ite_inv h
  rcases h with ⟨hid, h⟩ | ⟨-, h⟩
  · injection h with h; subst h
    exact same _ hid (by decide) (by decide) (by decide) (by rintro l ⟨⟩; rfl)
  replace h := ite_inv h
  rcases h with ⟨hid, h⟩ | ⟨-, h⟩
  · injection h with h; subst h
    exact same _ hid (by decide) (by decide) (by decide) (by rintro l ⟨⟩; rfl)
  replace h := ite_inv h
  rcases h with ⟨hid, h⟩ | ⟨-, h⟩
  · injection h with h; subst h
    exact same _ hid (by decide) (by decide) (by decide) (by rintro l ⟨⟩; rfl)
  replace h := ite_inv h
  rcases h with ⟨hid, h⟩ | ⟨hft, h⟩
  · obtain ⟨⟨f, outs, r⟩, hs, h⟩ := Res.bind_eq_ok.mp h
    have hb := CmdBody.file (C := C) (p := p) (env := env) (t := t) f outs r room hid hs
    cases r with
    | none => injection h with h; subst h; exact hb
    | some bs => injection h with h; subst h; exact hb
  replace h := ite_inv h
  rcases h with ⟨hid, h⟩ | ⟨-, h⟩
  · split at h
    · injection h with h; subst h
      exact same _ hid (by decide) (by decide) (by decide) (by rintro l ⟨⟩)
    split at h
    · obtain ⟨_, -, h⟩ := Res.bind_eq_ok.mp h
      split at h
      · injection h with h; subst h
        exact same _ hid (by decide) (by decide) (by decide) (by rintro l ⟨⟩)
      split at h
      · injection h with h; subst h
        exact same _ hid (by decide) (by decide) (by decide) (by rintro l ⟨⟩; rfl)
      split at h
      · injection h with h; subst h
        exact same _ hid (by decide) (by decide) (by decide) (by rintro l ⟨⟩; rfl)
      · injection h with h; subst h
        exact same _ hid (by decide) (by decide) (by decide) (by rintro l ⟨⟩)
    · cases h
  replace h := ite_inv h
  rcases h with ⟨hid, h⟩ | ⟨hch, h⟩
  · obtain ⟨_, -, h⟩ := Res.bind_eq_ok.mp h
    split at h
    · injection h with h; subst h
      exact .unbuilt (.inl hid)
    · rename_i hn
      split at h
      · cases h
      · rename_i h3
        injection h with h; subst h
        exact .chlng hid (by omega) (by simpa using fun h => hn (.inr h))
  replace h := ite_inv h
  rcases h with ⟨hid, h⟩ | ⟨hsc, h⟩
  · obtain ⟨_, -, h⟩ := Res.bind_eq_ok.mp h
    split at h
    · injection h with h; subst h
      exact .unbuilt (.inr hid)
    · rename_i hn
      split at h
      · cases h
      · rename_i h3
        injection h with h; subst h
        exact .scrypt _ hid (by omega) (by simpa using fun h => hn (.inr h)) rfl
  replace h := ite_inv h
  rcases h with ⟨-, h⟩ | ⟨-, h⟩
  · injection h with h; subst h
    exact .same _ hft hch (.inl hsc) (by rintro l ⟨⟩)
  · cases h

/-- the header with its final security block -/
def finalTx (t : Tx) (p : Pd) (n : Nat) : Tx :=
  match t.scb[1]? with
  | some ty => if ty > 0x14#8 ∧ p.scActive then { t with scb := [2#8, if n > 1 then 0x17#8 else 0x15#8] } else t
  | none => t

theorem finalTx_fields (t : Tx) (p : Pd) (n : Nat) :
    (finalTx t p n).mark = t.mark ∧ (finalTx t p n).misaligned = t.misaligned ∧
    (finalTx t p n).addr = t.addr ∧ (finalTx t p n).ctl = t.ctl := by
  unfold finalTx
  split
  · split <;> exact ⟨rfl, rfl, rfl, rfl⟩
  · exact ⟨rfl, rfl, rfl, rfl⟩

theorem cmdTx_dataOff (p : Pd) : (cmdTx p).dataOff ≤ 9 := by
  unfold Tx.dataOff cmdTx
  dsimp only
  split <;> split <;> (try split) <;> simp

theorem CmdBody.keeps {C : Cipher} {p : Pd} {env : Env} {t : Tx} {b : Built} (h : CmdBody C p env t b) :
    b.p = { p with file := b.p.file, sc := { p.sc with cpCryptogram := b.p.sc.cpCryptogram } } := by
  cases h with
  | scrypt sc _ _ _ hsc => subst hsc; rfl
  | _ => rfl

theorem CmdBody.header {C : Cipher} {p : Pd} {env : Env} {t : Tx} {b : Built} (h : CmdBody C p env t b) :
    b.t.mark = t.mark ∧ b.t.misaligned = t.misaligned ∧ b.t.addr = t.addr ∧ b.t.ctl = t.ctl := by
  cases h <;> exact ⟨rfl, rfl, rfl, rfl⟩

theorem CmdBody.head {C : Cipher} {p : Pd} {env : Env} {t : Tx} {b : Built} {l : List Byte} (h : CmdBody C p env t b)
    (hl : b.body = some l) :
    l.head? = some (b8 p.cmdId) ∨ p.cmdId = Id.FILETRANSFER ∧ l = [b8 Id.ABORT] := by
  cases h with
  | same body _ _ _ hh => exact .inl (hh l hl)
  | unbuilt _ => cases hl
  | file f o r room hid _ =>
    cases r with
    | none => injection hl with hl; exact .inr ⟨hid, hl.symm⟩
    | some bs => injection hl with hl; subst hl; exact .inl rfl
  | chlng _ _ _ => injection hl with hl; subst hl; exact .inl rfl
  | scrypt _ _ _ _ _ => injection hl with hl; subst hl; exact .inl rfl

theorem txBuild_outs {file f : Option FileSt} {env : Env} {room : Int} {outs : List Out} {r : Option (List Byte)}
    (h : File.txBuild file env room = .ok (f, outs, r)) : ∀ o ∈ outs, ∃ n off, o = Out.fread n off := by
  unfold File.txBuild at h
  split at h
  · cases h
  replace h := ite_inv h
  rcases h with ⟨-, h⟩ | ⟨-, h⟩
  · cases h
  replace h := ite_inv h
  rcases h with ⟨-, h⟩ | ⟨-, h⟩
  · injection h with h; injection h with _ h; injection h with h _; subst h; simp
  replace h := ite_inv h
  rcases h with ⟨-, h⟩ | ⟨-, h⟩
  · injection h with h; injection h with _ h; injection h with h _; subst h; simp
  dsimp only at h
  replace h := ite_inv h
  rcases h with ⟨-, h⟩ | ⟨-, h⟩
  · injection h with h; injection h with _ h; injection h with h _; subst h
    intro o ho; rw [List.mem_singleton] at ho; exact ⟨_, _, ho⟩
  replace h := ite_inv h
  rcases h with ⟨-, h⟩ | ⟨-, h⟩
  · cases h
  · injection h with h; injection h with _ h; injection h with h _; subst h
    intro o ho; rw [List.mem_singleton] at ho; exact ⟨_, _, ho⟩

theorem CmdBody.outs {C : Cipher} {p : Pd} {env : Env} {t : Tx} {b : Built} (h : CmdBody C p env t b) :
    ∀ o ∈ b.outs, ∃ n off, o = Out.fread n off := by
  cases h with
  | file f o r room _ hb => exact txBuild_outs hb
  | _ => intro o ho; cases ho

theorem CmdBody.quiet {C : Cipher} {p : Pd} {env : Env} {t : Tx} {b : Built} (h : CmdBody C p env t b)
    (hid : p.cmdId ≠ Id.FILETRANSFER) : b.outs = [] ∧ b.p.file = p.file := by
  cases h with
  | file f o r room h _ => exact absurd h hid
  | _ => exact ⟨rfl, rfl⟩

/-- the packet with the data `wire` -/
def cmdPkt (b : Built) (n : Nat) (wire : List Byte) : Packet := pktOf (finalTx b.t b.p n) wire

/-- An attempt to send a command.  Either nothing can be sent (the peer's buffer is too small), or the command cannot be
built, or it is built; then it is sent unless it does not fit. -/
inductive SendOutcome (C : Cipher) (p : Pd) (env : Env) : Pd → List Out → Bool → Prop
  | mute : p.txBufSize < 69 → SendOutcome C p env p [] false
  | unbuilt (b : Built) : 69 ≤ p.txBufSize →
      commandBody C (nextCmd p) env (cmdTx p) (p.txBufSize - (cmdTx p).dataOff) = .ok b →
      CmdBody C (nextCmd p) env (cmdTx p) b → b.body = none → SendOutcome C p env b.p b.outs false
  | built (b : Built) (l : List Byte) (q : Pd) (outs : List Out) (ok : Bool) : 69 ≤ p.txBufSize →
      commandBody C (nextCmd p) env (cmdTx p) (p.txBufSize - (cmdTx p).dataOff) = .ok b →
      CmdBody C (nextCmd p) env (cmdTx p) b → b.body = some l → l ≠ [] →
      Sending b.p q →
      ((outs = [] ∧ ok = false ∧ ((cmdTx p).misaligned = true ∨
        p.txBufSize < 28 + (finalTx b.t b.p l.length).scb.length + l.length)) ∨
       ∃ wire q', (cmdTx p).misaligned = false ∧ DataOf C b.p (finalTx b.t b.p l.length) l wire q' ∧
        q.sc = q'.sc ∧
        (cmdPkt b l.length wire).bytes.length ≤ p.txBufSize ∧
        outs = sendOuts p env (cmdPkt b l.length wire).bytes ∧
        ok = decide ((cmdPkt b l.length wire).bytes.length ≤ env.sendCap)) →
      q.packetBuf.length = p.packetBuf.length →
      SendOutcome C p env q (b.outs ++ outs) ok

theorem buildAndSend_outcome {C : Cipher} {p q : Pd} {env : Env} {outs : List Out} {ok : Bool}
    (hp : p.flags.pdMode = false) (h : buildAndSend C p env = .ok (q, outs, ok)) : SendOutcome C p env q outs ok := by
  unfold buildAndSend at h
  dsimp only at h
  rw [packetInit_cp hp] at h
  by_cases hm : p.txBufSize < 69
  · rw [if_pos hm] at h
    injection h with h; injection h with h1 h2; injection h2 with h2 h3; subst h1 h2 h3
    exact .mute hm
  rw [if_neg hm] at h
  obtain ⟨b', hb', h⟩ := Res.bind_eq_ok.mp h
  unfold buildCommand at hb'
  have hoff := cmdTx_dataOff p
  have h0 : ¬ ((p.txBufSize : Int) - ((cmdTx p).dataOff : Nat) ≤ 0) := by omega
  dsimp only at hb'
  rw [if_neg h0] at hb'
  obtain ⟨b, hb, hb'⟩ := Res.bind_eq_ok.mp hb'
  have ho := commandBody_outcome hb
  cases hbd : b.body with
  | none =>
    rw [hbd] at hb'
    injection hb' with hb'; subst hb'
    rw [hbd] at h
    injection h with h; injection h with h1 h2; injection h2 with h2 h3; subst h1 h2 h3
    exact .unbuilt b (by omega) hb ho hbd
  | some l =>
    rw [hbd] at hb'
    have e : b' = ⟨b.p, finalTx b.t b.p l.length, b.outs, some l⟩ := by
      injection hb' with hb'
      rw [← hb', ← hbd]
      rfl
    subst e
    obtain ⟨⟨p2, o2, ok2⟩, h2, h⟩ := Res.bind_eq_ok.mp h
    injection h with h; injection h with h3 h4; injection h4 with h4 h5; subst h3 h4 h5
    have hne : l ≠ [] := by
      rintro rfl
      rcases ho.head hbd with h | ⟨-, h⟩ <;> simp at h
    obtain ⟨hs, hc⟩ := Phy.sendPacket_inv hne h2
    obtain ⟨g1, g2, g3, g4⟩ := finalTx_fields b.t b.p l.length
    obtain ⟨k1, k2, k3, k4⟩ := ho.header
    have hk := ho.keeps
    refine .built b l p2 o2 ok2 (by omega) hb ho hbd hne hs ?_ ?_
    · rcases hc with ⟨rfl, rfl, hc⟩ | ⟨wire, q', hmis, hd, hsc, hl, houts, hok⟩
      · refine .inl ⟨rfl, rfl, ?_⟩
        dsimp only at hc
        rw [g2, k2] at hc
        exact hc
      · refine .inr ⟨wire, q', ?_, hd, hsc, hl, ?_, hok⟩
        · dsimp only at hmis; rw [g2, k2] at hmis; exact hmis
        · rw [houts]
          unfold sendOuts cmdPkt
          rw [show b.p.hasFlush = p.hasFlush by rw [hk]; rfl]
    · rw [Phy.sendPacket_buf h2]
      dsimp only
      rw [hk]
      rfl

/-- what an attempt to send leaves alone -/
def Sent (p q : Pd) : Prop :=
  q = { p with seq := q.seq, flags := { p.flags with hasMark := q.flags.hasMark }, file := q.file, packetBuf := q.packetBuf
               sc := { p.sc with cMac := q.sc.cMac, rMac := q.sc.rMac, cpCryptogram := q.sc.cpCryptogram } }

theorem SendOutcome.sent {C : Cipher} {p q : Pd} {env : Env} {outs : List Out} {ok : Bool}
    (h : SendOutcome C p env q outs ok) : Sent p q := by
  cases h with
  | mute _ => rfl
  | unbuilt b _ _ ho _ => unfold Sent; rw [ho.keeps]; rfl
  | built b l q o ok _ _ ho _ _ hs _ _ =>
    unfold Phy.Sending at hs
    unfold Sent
    rw [hs, ho.keeps]; rfl

end Osdp.CpM
