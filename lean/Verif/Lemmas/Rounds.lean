import Verif.Lemmas.Lockstep

/-! # A command and its reply, one after the other, on a link that loses nothing -/

namespace Osdp
namespace CpM

/-- the exchange is over and the PD stays online: nothing but the requests is touched -/
theorem advance_online {cb : Bool} {p q : Pd} {env : Env} {cur : CpState} {ok : Bool} {outs : List Out}
    (hc : cur = p.state) (hp : p.state = .online) (h : advance cb p env cur ok = .ok (q, outs)) (hq : q.state = .online) :
    q = { p with reqRestartSc := false, reqOffline := false, reqEventSend := false } ∧ ok = true := by
  subst hc
  cases advance_inv h with
  | mk h1 h2 =>
  rename_i p1 p2 o1 o2 n1 n2
  have hn2 : n2 = .online := by
    by_cases hn : p.state ≠ n2
    · simp only [if_pos hn] at hq
      exact hq
    · rw [← Decidable.not_not.mp hn]; exact hp
  have hn : ¬ p.state ≠ n2 := by rw [hp, hn2]; simp
  simp only [if_neg hn]
  have hp1 : p1 = p := by
    cases ok with
    | true =>
      unfold nextOk at h1; rw [hp] at h1
      injection h1 with h1; injection h1 with e1 _; exact e1.symm
    | false =>
      unfold nextErr at h1; rw [hp] at h1
      injection h1 with h1; injection h1 with e1 _; exact e1.symm
  subst hp1
  rcases requests_inv h2 with ⟨hno, -⟩ | ⟨-, hq2, hm, -⟩
  · exact absurd (.inl hp) hno
  · rw [hn2] at hm
    split at hm
    · cases hm
    split at hm
    · cases hm
    rename_i hr
    refine ⟨?_, ?_⟩
    · rw [hq2]; unfold afterRequests; rw [if_neg hr]
    · cases ok with
      | true => rfl
      | false =>
        unfold nextErr at h1; rw [hp] at h1
        injection h1 with h1; injection h1 with _ h1; injection h1 with _ h1
        rw [← h1] at hm; cases hm

/-- a new key is sent only within a session -/
theorem keyset_active {p q : Pd} {env : Env} {outs : List Out} {id : Nat} (hp : p.state = .online) (h : stateGetCmd p env = .ok (q, outs, id))
    (hid : id = Id.KEYSET) : p.scActive = true := by
  subst hid
  unfold stateGetCmd at h
  rw [hp] at h
  dsimp only at h
  unfold onlineCommand at h
  split at h
  · obtain ⟨⟨p1, n⟩, h1, h⟩ := Res.bind_eq_ok.mp h
    injection h with h; injection h with _ h; injection h with _ e3; subst e3
    unfold translate at h1
    dsimp only at h1
    split at h1 <;> (try (injection h1 with h1; injection h1 with _ h1; exact absurd h1 (by decide))) <;> (try (cases h1; done))
    · split at h1 <;> (injection h1 with h1; injection h1 with _ h1; exact absurd h1 (by decide))
    · split at h1
      · injection h1 with h1; injection h1 with _ h1; exact absurd h1 (by decide)
      · rename_i hn
        exact Classical.byContradiction fun hc => hn (.inr hc)
  · cases hg : File.getCommand p.file env.now with
    | mk f x =>
    cases x with
    | mk o n =>
    rw [hg] at h
    obtain ⟨-, hn⟩ := getCommand_inv hg
    cases n with
    | send k =>
      injection h with h; injection h with _ h; injection h with _ e3; subst e3
      rcases hn _ rfl with h | h | h <;> exact absurd h (by decide)
    | hold =>
      injection h with h; injection h with _ h; injection h with _ e3; exact absurd e3 (by decide)
    | nothing =>
      dsimp only at h
      split at h <;> (injection h with h; injection h with _ h; injection h with _ e3; exact absurd e3 (by decide))

/-- An exchange has come to its end and the PD is still online and in its session. -/
structure Stays (p q : Pd) : Prop where
  flags : q.flags = p.flags
  sc : q.sc = p.sc
  seq : q.seq = p.seq
  address : q.address = p.address
  rx : q.rx = p.rx
  buf : q.packetBuf = p.packetBuf
  bufLen : q.packetBufLen = 0
  len : q.packetLen = 0
  phy : q.phyState = .idle
  done : p.phyState = .done
  noKey : ¬ (p.replyId = Id.ACK ∧ p.cmdId = Id.KEYSET)
  cmdId : q.cmdId = p.cmdId

theorem settle_stays {cb : Bool} {p q : Pd} {env : Env} {outs : List Out} (hps : p.phyState = .done ∨ p.phyState = .err)
    (hon : p.state = .online) (h : settle cb p env = .ok (q, outs)) (hq : q.state = .online) (ha : q.scActive = true ∨ p.cmdId ≠ Id.KEYSET) : Stays p q := by
  have hs := settle_inv h
  clear h
  cases hs with
  | command hi _ _ => rw [hi] at hps; rcases hps with h | h <;> cases h
  | nothing hi _ _ => rw [hi] at hps; rcases hps with h | h <;> cases h
  | over hd hck had =>
    rename_i p1 o1 o2 ok
    obtain ⟨-, ⟨rfl, -, hnk⟩ | ⟨-, -, hkey, hkc⟩⟩ := stateCheckReply_inv hck
    · obtain ⟨e, hok⟩ := advance_online (p := (Phy.stateReset p1 false).1) (cur := p1.state) rfl hon had hq
      subst e
      have hd' : p1.phyState = .done := by
        rcases hps with h | h
        · exact h
        · rw [h] at hok; cases hok
      exact ⟨rfl, rfl, rfl, rfl, rfl, rfl, rfl, rfl, rfl, hd', fun hh => hnk ⟨hon, hh⟩, rfl⟩
    · obtain ⟨k, -, hp1, -⟩ := keysetComplete_inv hkc
      have hon1 : p1.state = .online := by rw [hp1]; exact hon
      obtain ⟨e, -⟩ := advance_online (p := (Phy.stateReset p1 false).1) (cur := p1.state) rfl hon1 had hq
      subst e
      rcases ha with ha | ha
      · have : p1.scActive = true := ha
        rw [hp1] at this
        cases this
      · exact absurd hkey ha

theorem update_waits {C : Cipher} {cb : Bool} {p q : Pd} {env : Env} {o : List Out} {y : Bool} (hps : p.phyState = .replyWait)
    (h : stateUpdate C cb p env = .ok (q, o, y)) :
    ∃ p1 o1 rc, phyReply C p env = .ok (p1, o1, rc) ∧ (rc = .inprog ∧ q = p1 ∨ rc = .canYield ∧ q = p1 ∨ ∃ o2, settle cb p1 env = .ok (q, o2)) := by
  unfold stateUpdate at h
  have hrun : phyRunning p = true := by unfold phyRunning; rw [hps]; rfl
  have hphy : phyUpdate C p env = phyReply C p env := by unfold phyUpdate; rw [hps]
  rw [if_pos hrun, hphy] at h
  replace h : (phyReply C p env >>= fun x => if x.2.2 = CpErr.inprog then Except.ok (x.1, x.2.1, false)
      else if x.2.2 = CpErr.canYield then Except.ok (x.1, x.2.1, true)
      else settle cb x.1 env >>= fun y => Except.ok (y.1, x.2.1 ++ y.2, true)) = Except.ok (q, o, y) := h
  obtain ⟨⟨p1, o1, rc⟩, h1, h⟩ := Res.bind_eq_ok.mp h
  refine ⟨p1, o1, rc, h1, ?_⟩
  replace h := ite_inv h
  rcases h with ⟨hi, h⟩ | ⟨-, h⟩
  · injection h with h; injection h with e1 _; exact .inl ⟨hi, e1.symm⟩
  replace h := ite_inv h
  rcases h with ⟨hi, h⟩ | ⟨-, h⟩
  · injection h with h; injection h with e1 _; exact .inr (.inl ⟨hi, e1.symm⟩)
  obtain ⟨⟨p3, o3⟩, h3, h⟩ := Res.bind_eq_ok.mp h
  injection h with h; injection h with e1 _; subst e1
  exact .inr (.inr ⟨o3, h3⟩)

/-- The visit in which a reply is read, when it leaves the PD online and in its session. -/
theorem update_reads {C : Cipher} {cb : Bool} {p q q' : Pd} {env : Env} {o o' : List Out} {rc : CpErr} {y : Bool}
    (hps : p.phyState = .replyWait) (hon : p.state = .online) (hr : processReply C p env = .ok (q', o', rc))
    (hst : q'.state = .online) (hrc : rc = .none ∨ rc = .generic ∨ rc = .unknown)
    (h : stateUpdate C cb p env = .ok (q, o, y)) (hq : q.state = .online) (ha : q.scActive = true ∨ q'.cmdId ≠ Id.KEYSET) :
    q.flags = q'.flags ∧ q.sc = q'.sc ∧ q.seq = q'.seq ∧ q.address = q'.address ∧ q.rx = q'.rx ∧ q.packetBuf = q'.packetBuf ∧
      q.packetBufLen = 0 ∧ q.packetLen = 0 ∧ q.phyState = .idle ∧ ¬ (q'.replyId = Id.ACK ∧ q'.cmdId = Id.KEYSET) ∧
      (rc = .none ∨ rc = .unknown ∧ q'.cmdId = Id.POLL) ∧ q.cmdId = q'.cmdId := by
  obtain ⟨p1, o1, r, hph, hcase⟩ := update_waits hps h
  unfold phyReply at hph
  rw [hr] at hph
  simp only [Res.ok_bind] at hph
  have fin : ∀ {p2 : Pd} {r2 : CpErr}, Except.ok (p2, o', r2) = (Except.ok (p1, o1, r) : Res _) → (r2 = .none ∨ r2 = .generic) →
      (p2.phyState = .done ∨ p2.phyState = .err) → p2.state = .online → p2.cmdId = q'.cmdId → Stays p2 q := by
    intro p2 r2 h h3 h1 h2 h4
    injection h with h; injection h with e1 h; injection h with _ e3; subst e1 e3
    rcases hcase with ⟨hi, -⟩ | ⟨hi, -⟩ | ⟨o2, hset⟩
    · rcases h3 with h | h <;> rw [h] at hi <;> cases hi
    · rcases h3 with h | h <;> rw [h] at hi <;> cases hi
    · exact settle_stays h1 h2 hset hq (by rw [h4]; exact ha)
  by_cases h1 : rc = .none
  · rw [if_pos h1] at hph
    have hS := fin hph (.inl rfl) (.inl rfl) hst rfl
    exact ⟨hS.flags, hS.sc, hS.seq, hS.address, hS.rx, hS.buf, hS.bufLen, hS.len, hS.phy, hS.noKey, .inl h1, hS.cmdId⟩
  rw [if_neg h1] at hph
  by_cases h2 : rc = .unknown ∧ q'.cmdId = Id.POLL ∧ q'.flags.ignUnsolicited = true
  · rw [if_pos h2] at hph
    have hS := fin hph (.inl rfl) (.inl rfl) hst rfl
    exact ⟨hS.flags, hS.sc, hS.seq, hS.address, hS.rx, hS.buf, hS.bufLen, hS.len, hS.phy, hS.noKey, .inr ⟨h2.1, h2.2.1⟩, hS.cmdId⟩
  rw [if_neg h2] at hph
  have h3 : rc = .generic ∨ rc = .unknown := hrc.elim (absurd · h1) id
  rw [if_pos h3] at hph
  have hS := fin hph (.inr rfl) (.inr rfl) hst rfl
  have := hS.done
  cases this

end CpM

namespace Phy

/-- nothing on the line, nothing collected: nothing happens -/
theorem checkPacket_silent {p : Pd} {env : Env} (hi : Idle p) (hr : env.recv = []) : checkPacket p env = .ok (p, .noData) := by
  have h1 : intake p env = .ok p := by
    unfold intake channelReceive
    rw [hr]
    simp
  unfold checkPacket
  rw [h1]
  simp only [Res.ok_bind]
  have hp : p = { p with rx := [] } := by rw [← hi.rx]
  unfold assemble checkHeader headerStart
  rw [if_pos hi.len, if_pos hi.bufLen, hi.rx]
  simp only [scan, Res.ok_bind]
  rw [← hp]
  rfl

end Phy

namespace Link

open Spec.Wire
open Phy (Idle Arrives pktAddr pdAccept reload Held pktOf sendOuts anyData anySc Tx setSc SameSession)
open CpM (nextCmd cmdTx sentState commandBody)
open PdM (pdTx Holding ForUs commanded unbc replyTx replyBody bodyOr bodyLen touch expire)

/-- nothing that matters to the session and the line has changed -/
structure Kin (p q : Pd) : Prop where
  pdMode : q.flags.pdMode = p.flags.pdMode
  active : q.scActive = p.scActive
  capable : q.scCapable = p.scCapable
  broadcast : q.flags.broadcast = p.flags.broadcast
  sc : q.sc = p.sc
  seq : q.seq = p.seq
  address : q.address = p.address
  rx : q.rx = p.rx
  buf : q.packetBuf = p.packetBuf
  bufLen : q.packetBufLen = p.packetBufLen
  len : q.packetLen = p.packetLen

theorem Kin.refl (p : Pd) : Kin p p := ⟨rfl, rfl, rfl, rfl, rfl, rfl, rfl, rfl, rfl, rfl, rfl⟩

theorem Kin.idle {p q : Pd} (k : Kin p q) (h : Idle p) : Idle q :=
  ⟨k.bufLen.trans h.bufLen, k.len.trans h.len, by rw [k.buf]; exact h.buf, k.rx.trans h.rx⟩

theorem Kin.ends {cp cp' pd pd' : Pd} (k : Kin cp cp') (k' : Kin pd pd') (h : Ends cp pd) : Ends cp' pd' :=
  ⟨k.pdMode.trans h.cpMode, k'.pdMode.trans h.pdMode, by rw [k.address, k'.address]; exact h.address, by rw [k'.address]; exact h.range,
   by rw [k'.active, k.active]; exact h.act, by rw [k.active, k.sc, k'.sc]; exact h.same, by rw [k'.active, k'.capable]; exact h.capable⟩

/-- Both ends are in step and no packet is under way: in the same session (`s`), or both in the clear. -/
structure InStep (s : Bool) (cp pd : Pd) : Prop where
  inv : CpM.Inv cp
  online : cp.state = .online
  phy : cp.phyState = .idle ∨ cp.phyState = .sendCmd
  active : cp.scActive = s
  pdMode : pd.flags.pdMode = true
  pdActive : pd.scActive = s
  capable : s = true → pd.scCapable = true
  same : s = true → Phy.Meets cp.sc pd.sc
  address : cp.address = pd.address
  seq : cp.seq = pd.seq
  seqOk : 0 ≤ cp.seq
  bc : pd.flags.broadcast = false
  cpIdle : Idle cp
  pdIdle : Idle pd
  clear : s = false → cp.cmdId ≠ Id.KEYSET ∧ pd.flags.enforceSecure = false

/-- Both ends are in the same session and no packet is under way. -/
abbrev Sync (cp pd : Pd) : Prop := InStep true cp pd

theorem InStep.ends {s : Bool} {cp pd : Pd} (S : InStep s cp pd) (hr : 0 ≤ pd.address ∧ pd.address ≤ 126) : Ends cp pd :=
  ⟨S.inv.cp, S.pdMode, S.address, hr, S.pdActive.trans S.active.symm, fun h => S.same (S.active.symm.trans h), fun h => S.capable (S.pdActive.symm.trans h)⟩

/-- The command `body` is under way as `bs`. -/
structure Asked (s : Bool) (C : Cipher) (cp pd : Pd) (bs body : List Byte) : Prop where
  inv : CpM.Inv cp
  online : cp.state = .online
  phy : cp.phyState = .replyWait
  active : cp.scActive = s
  clear : s = false → cp.cmdId ≠ Id.KEYSET ∧ pd.flags.enforceSecure = false
  bc : pd.flags.broadcast = false
  cpIdle : Idle cp
  pdIdle : Idle pd
  cmd : body.head? = some (b8 cp.cmdId) ∨ cp.cmdId = Id.FILETRANSFER ∧ body = [b8 Id.ABORT]
  sender : ∃ c0 : Pd, Ends c0 pd ∧ bs = (cpPkt C c0 body).bytes ∧ bs.length ≤ 256 ∧ c0.scActive = s ∧ 0 ≤ c0.seq ∧ c0.seq ≤ 3 ∧
    c0.seq = pd.seq ∧ cp.seq = Phy.nextSeq c0.seq true ∧ cp.address = c0.address ∧ cp.sc = anySc C c0 (cpTx c0 body.length) body

/-- The reply `rb` is under way as `bs`. -/
structure Told (s : Bool) (C : Cipher) (cp pd : Pd) (bs rb : List Byte) : Prop where
  inv : CpM.Inv cp
  online : cp.state = .online
  phy : cp.phyState = .replyWait
  active : cp.scActive = s
  clear : s = false → cp.cmdId ≠ Id.KEYSET ∧ pd.flags.enforceSecure = false
  cpIdle : Idle cp
  pdIdle : Idle pd
  ne : rb ≠ []
  busy : rb.head? ≠ some (b8 Id.BUSY)
  sender : ∃ (q : Pd) (n : Nat), Ends cp q ∧ (s = true → cp.sc.cMac = q.sc.cMac) ∧ bs = (pdPktN C q n rb).bytes ∧ bs.length ≤ 256 ∧ q.flags.broadcast = false ∧
    Phy.seqBits q.seq = Phy.seqBits cp.seq ∧
    (cp.cmdId = Id.KEYSET ∧ rb.head? = some (b8 Id.ACK) ∨
     pd.flags.pdMode = true ∧ pd.scActive = s ∧ (s = true → pd.scCapable = true) ∧ pd.flags.broadcast = false ∧ pd.seq = cp.seq ∧ Idle pd ∧
      pd.sc = anySc C q (pdTx q n) rb ∧
      (pd.address = cp.address ∧ rb.head? ≠ some (b8 Id.COM) ∨ ∃ (x : Byte) (y : List Byte), rb = b8 Id.COM :: x :: y ∧ pd.address = x.toNat))

theorem InStep.stay {s : Bool} {cp pd cp1 : Pd} (S : InStep s cp pd) (h : cp1.scActive = s) : cp1.scActive = true ∨ cp.cmdId ≠ Id.KEYSET := by
  cases s with
  | true => exact .inl h
  | false => exact .inr (S.clear rfl).1

theorem Asked.stay {s : Bool} {C : Cipher} {cp pd cp1 : Pd} {bs body : List Byte} (S : Asked s C cp pd bs body) (h : cp1.scActive = s) :
    cp1.scActive = true ∨ cp.cmdId ≠ Id.KEYSET := by
  cases s with
  | true => exact .inl h
  | false => exact .inr (S.clear rfl).1

theorem Told.stay {s : Bool} {C : Cipher} {cp pd cp1 : Pd} {bs body : List Byte} (S : Told s C cp pd bs body) (h : cp1.scActive = s) :
    cp1.scActive = true ∨ cp.cmdId ≠ Id.KEYSET := by
  cases s with
  | true => exact .inl h
  | false => exact .inr (S.clear rfl).1

theorem online_ids {id : Nat} (h : CpM.CmdOf .online id) : id < 256 ∧ id ≠ Id.CHLNG ∧ id ≠ Id.SCRYPT := by
  unfold CpM.CmdOf at h
  have : ∀ i ∈ [Id.POLL, Id.LSTAT, Id.ISTAT, Id.OSTAT, Id.RSTAT, Id.OUT, Id.LED, Id.BUZ, Id.TEXT, Id.COMSET,
      Id.KEYSET, Id.MFG, Id.FILETRANSFER, Id.ABORT], i < 256 ∧ i ≠ Id.CHLNG ∧ i ≠ Id.SCRYPT := by decide
  exact this id h

/-- The CP sends a command. -/
theorem InStep.asks {s : Bool} {C : Cipher} {cp cp1 pd : Pd} {cb : Bool} {env : Env} {o : List Out} {bs : List Byte} (S : InStep s cp pd)
    (hr : 0 ≤ pd.address ∧ pd.address ≤ 126) (h : CpM.step C cp (.update cb env) = .ok (cp1, o)) (hcap : 256 ≤ env.sendCap)
    (hps : cp.phyState = .sendCmd) (hs : sent o = [bs]) :
    ∃ body, commandBuilt C cp env = some body ∧ Asked s C cp1 pd bs body := by
  have hcmd := S.inv.cmd (by rw [hps]; decide)
  rw [S.online] at hcmd
  have hids := online_ids hcmd
  obtain ⟨f, buf, body, hb, hne, hbs, hfit, hcp1, hbuf⟩ := command_sent S.inv hps hids.2 h hcap hs
  have hI := S.inv.step h
  refine ⟨body, hb, hI, by rw [hcp1]; exact S.online, by rw [hcp1]; rfl, by rw [hcp1]; exact S.active, fun h => by rw [hcp1]; exact S.clear h, S.bc,
    ⟨by rw [hcp1]; rfl, by rw [hcp1]; rfl, by rw [hcp1]; exact hbuf.trans S.cpIdle.buf, by rw [hcp1]; exact S.cpIdle.rx⟩, S.pdIdle, ?_,
    cp, S.ends hr, hbs, hfit, S.active, S.seqOk, S.inv.hi, S.seq, by rw [hcp1]; rfl, by rw [hcp1]; rfl, by rw [hcp1]; rfl⟩
  unfold commandBuilt at hb
  split at hb
  · rename_i b hbody
    have := (CpM.commandBody_outcome hbody).head hb
    rw [hcp1]
    exact this
  · cases hb

theorem b8_toNat {n : Nat} (h : n < 256) : (b8 n).toNat = n := by
  unfold b8; simp; omega

theorem replyBody_ack {C : Cipher} {p : Pd} {env : Env} {t : Tx} {room : Int} {b : PdM.Built} (hid : p.replyId = Id.ACK)
    (h : replyBody C p env t room = .ok b) : bodyOr b.body = [b8 Id.ACK] := by
  unfold replyBody at h
  dsimp only at h
  rw [if_pos hid] at h
  obtain ⟨_, -, h⟩ := Res.bind_eq_ok.mp h
  injection h with h; subst h
  rw [hid]; rfl

/-- The command is heard as it was composed. -/
theorem Asked.heard {s : Bool} {C : Cipher} {cp pd : Pd} {bs body : List Byte} {env : Env} (A : Asked s C cp pd bs body) (ha : Arrives env bs) :
    ∃ d0 rest, body = d0 :: rest ∧ Phy.heard C pd env = some (d0, rest) := by
  obtain ⟨c0, E, hbs, hfit, hact, hs0, hs3, hse, -⟩ := A.sender
  cases hb : body with
  | nil => rcases A.cmd with h | ⟨_, h⟩ <;> rw [hb] at h <;> cases h
  | cons d0 rest =>
    rw [hbs] at hfit ha
    obtain ⟨h, sc, -, hh, -⟩ := command_read C c0 pd env body d0 rest hb E A.pdIdle hfit (by omega) (by omega) (.inl hse) (by omega) ha
    exact ⟨d0, rest, rfl, hh⟩

/-- in a session no command is refused for want of one; in the clear neither, unless the PD insists on a session -/
theorem not_refused {s : Bool} {P : Pd} {d0 : Byte} (h : P.scActive = s) (hs : s = false → P.flags.enforceSecure = false) :
    PdM.plainRefused (PdM.noteCmd P d0) = false := by
  unfold PdM.plainRefused
  cases s with
  | true =>
    have : (PdM.noteCmd P d0).scActive = true := h
    rw [this]; simp
  | false =>
    have : (PdM.noteCmd P d0).flags.enforceSecure = false := hs rfl
    rw [this]; rfl

/-- The PD answers. -/
theorem Asked.answers {s : Bool} {C : Cipher} {cp pd pd1 : Pd} {bs body bs' : List Byte} {env : Env} {o : List Out} (A : Asked s C cp pd bs body)
    (ha : Arrives env bs) (hexp : expire pd env.now = pd) (h : PdM.refresh C pd env = .ok (pd1, o)) (hcap : 256 ≤ env.sendCap)
    (hs : sent o = [bs']) : ∃ rb, replyBuilt C pd env = some rb ∧ Told s C cp pd1 bs' rb := by
  obtain ⟨c0, E, hbs, hfit, hact, hs0, hs3, hse, hcs, haddr, hsc⟩ := A.sender
  have hcmd := A.inv.cmd (by rw [A.phy]; decide)
  rw [A.online] at hcmd
  have hids := online_ids hcmd
  cases hb : body with
  | nil => rcases A.cmd with h | ⟨_, h⟩ <;> rw [hb] at h <;> cases h
  | cons d0 rest =>
    rw [hbs] at hfit ha
    obtain ⟨hh, sc, hH, -, hrec, hpa, hss, hsc'⟩ := command_read C c0 pd env body d0 rest hb E A.pdIdle hfit (by omega) (by omega) (.inl hse) (by omega) ha
    have hd0 : d0.toNat ≠ Id.CHLNG ∧ d0.toNat ≠ Id.SCRYPT ∧ (d0.toNat = Id.KEYSET → cp.cmdId = Id.KEYSET) := by
      rcases A.cmd with h | ⟨_, h⟩
      · rw [hb] at h
        injection h with h
        rw [h, b8_toNat hids.1]
        exact ⟨hids.2.1, hids.2.2, id⟩
      · rw [hb] at h
        injection h with h _
        rw [h]
        exact ⟨by decide, by decide, fun h => absurd h (by decide)⟩
    have hactP : (reload (setSc (pdAccept pd (Phy.seqBits (Phy.nextSeq c0.seq true)) false) sc) hh).scActive = s := hpa.trans hact
    have hnr : PdM.plainRefused (PdM.noteCmd (reload (setSc (pdAccept pd (Phy.seqBits (Phy.nextSeq c0.seq true)) false) sc) hh) d0) = false := by
      exact not_refused hactP fun hs => (A.clear hs).2
    obtain ⟨q, n, rb, q2, hS, hrid, hR, hrb, hbs', hpd1⟩ := pd_answers (P := reload (setSc (pdAccept pd (Phy.seqBits (Phy.nextSeq c0.seq true)) false) sc) hh)
      E.pdMode hexp hrec hnr hd0.1 hd0.2.1 h hcap hs
    have hqa : q.scActive = s := by show q.flags.scActive = s; rw [hS.flags]; exact hactP
    have hqaddr : q.address = pd.address := hS.address
    have hqsc : q.sc = sc := hS.sc
    have hqbc : q.flags.broadcast = false := by
      rw [hS.flags]
      show (pd.flags.broadcast || false) = false
      rw [A.bc]; rfl
    have hqcap : s = true → q.scCapable = true := by
      intro hs1
      unfold Pd.scCapable
      rw [hS.flags]
      exact E.capable (E.act.trans (hact.trans hs1))
    have hqmode : q.flags.pdMode = true := by rw [hS.flags]; exact E.pdMode
    have hqseq : q.seq = cp.seq := by
      rw [hS.seq, hcs]
      show ((Phy.seqBits (Phy.nextSeq c0.seq true) : Nat) : Int) = _
      unfold Phy.seqBits Phy.nextSeq
      rw [if_pos rfl]
      split <;> omega
    have hqE : Ends cp q := by
      refine ⟨A.inv.cp, hqmode, by rw [haddr, hqaddr]; exact E.address, by rw [hqaddr]; exact E.range, hqa.trans A.active.symm, fun ht => ?_, fun ht => hqcap (hqa.symm.trans ht)⟩
      rw [hsc, hqsc]; exact (hss (hact.trans (A.active.symm.trans ht))).meets
    have hbusy : rb.head? ≠ some (b8 Id.BUSY) := by
      rcases hR.id with h | h
      · rw [h]
        intro he
        injection he with he
        have hlt : q.replyId < 256 ∧ q.replyId ≠ Id.BUSY := by
          rcases hrid with h | h
          · rw [h]; decide
          · have := replies_lt _ _ h
            exact ⟨this.1, this.2.2.2⟩
        have := congrArg BitVec.toNat he
        rw [b8_toNat hlt.1] at this
        exact hlt.2 this
      · rw [h]; decide
    have hpe : pd1.flags.enforceSecure = pd.flags.enforceSecure := congrArg PdM.Config.enforceSecure (PdM.config_refresh E.pdMode h)
    have hpi : Idle pd1 := by
      obtain ⟨f, a, baud, buf, hq2, hbl, -⟩ := hR.state
      have hb1 : q2.packetBuf.length = 256 := by rw [hq2]; exact hbl.trans (by rw [hS.buf]; exact hH.buf)
      have hb2 : q2.rx = [] := by rw [hq2]; show q.rx = []; rw [hS.rx]; exact hH.rx
      rcases hpd1 with rfl | ⟨-, -, -, i1, i2, i3, i4⟩
      · exact ⟨rfl, rfl, hb1, hb2⟩
      · exact ⟨i1, i2, by rw [i3]; exact hb1, i4.trans hb2⟩
    refine ⟨rb, hrb, A.inv, A.online, A.phy, A.active, fun hs0 => ⟨(A.clear hs0).1, hpe.trans (A.clear hs0).2⟩, A.cpIdle, hpi, hR.ne, hbusy, q, n, hqE,
      fun hs1 => by rw [hsc, hqsc]; exact (hss (hact.trans hs1)).cMac, hbs', by rw [hbs']; exact hR.fits, hqbc, by rw [hqseq], ?_⟩
    rcases hpd1 with hpd1 | ⟨hk, hack, -⟩
    · right
      obtain ⟨f, a, baud, buf, hq2, hbl, haddr'⟩ := hR.state
      subst hpd1
      rw [hq2]
      refine ⟨hqmode, hqa, hqcap, rfl, hqseq, ⟨rfl, rfl, hbl.trans ?_, ?_⟩, rfl, ?_⟩
      · rw [hS.buf]; exact hH.buf
      · show q.rx = []
        rw [hS.rx]; exact hH.rx
      · rcases haddr' with ⟨h1, h2⟩ | h
        · left
          refine ⟨?_, h2⟩
          show a = cp.address
          rw [h1, hqaddr, haddr]
          exact E.address.symm
        · exact .inr h
    · left
      refine ⟨hd0.2.2 hk, ?_⟩
      obtain ⟨b, hbb, hrbb⟩ := hR.built
      rw [hrbb, replyBody_ack (p := unbc q) hack hbb]
      rfl

/-- The reply is read as it was composed. -/
theorem Told.heard {s : Bool} {C : Cipher} {cp pd : Pd} {bs rb : List Byte} {env : Env} (T : Told s C cp pd bs rb) (ha : Arrives env bs) :
    ∃ r0 rest, rb = r0 :: rest ∧ CpM.replyOf C cp env = some (r0, rest) := by
  obtain ⟨q, n, E, hcm, hbs, hfit, hbc, hse, -⟩ := T.sender
  have hbusy := T.busy
  have hne := T.ne
  cases hb : rb with
  | nil => exact absurd hb hne
  | cons r0 rest =>
    rw [hb] at hbusy
    rw [hbs] at hfit ha
    obtain ⟨hh, -⟩ := reply_read C q cp env n rb r0 rest hb E (fun h => hcm (T.active.symm.trans h)) T.cpIdle hbc hfit hse (fun h => hbusy (by rw [h]; rfl)) ha
    exact ⟨r0, rest, rfl, by unfold CpM.replyOf; rw [if_pos T.phy]; exact hh⟩

theorem effect_keeps {C : Cipher} {p q : Pd} {env : Env} {body : List Byte} {outs : List Out} {rc : CpM.CpErr}
    (h : CpM.Effect C p env body q outs rc) (ha : p.scActive = true ∨ p.cmdId ≠ Id.CHLNG ∧ p.cmdId ≠ Id.SCRYPT) :
    q.sc = p.sc ∧ q.rx = p.rx ∧ q.packetBuf = p.packetBuf ∧ q.replyId = p.replyId ∧ (q.address = p.address ∨ p.replyId = Id.COM) := by
  cases h with
  | ccrypt _ _ _ _ _ h hc =>
    rcases ha with ha | ha
    · exact absurd (ha.symm.trans h) (by decide)
    · exact absurd hc ha.1
  | rmac _ _ h hc =>
    rcases ha with ha | ha
    · exact absurd (ha.symm.trans h) (by decide)
    · exact absurd hc ha.2
  | com _ _ _ _ _ h => exact ⟨rfl, rfl, rfl, rfl, .inr h⟩
  | _ => exact ⟨rfl, rfl, rfl, rfl, .inl rfl⟩

theorem response_com {C : Cipher} {p q : Pd} {env : Env} {x : Byte} {y : List Byte} {outs : List Out} {rc : CpM.CpErr}
    (hid : p.replyId = Id.COM) (h : CpM.response C p env (x :: y) = .ok (q, outs, rc)) :
    rc = .none ∧ q.address = x.toNat ∨ rc = .generic := by
  unfold CpM.response at h
  dsimp only at h
  rw [hid] at h
  iterate 8 (rw [if_neg (by decide)] at h)
  rw [if_pos rfl] at h
  split at h
  · rename_i e
    injection h with h; injection h with e1 h; injection h with _ e3
    injection e with e _
    subst e1 e3 e
    exact .inl ⟨rfl, rfl⟩
  · injection h with h; injection h with _ h; injection h with _ e3
    exact .inr e3.symm

/-- The CP reads the reply and, if the PD stays online in its session, both ends are in step again. -/
theorem Told.reads_idle {s : Bool} {C : Cipher} {cp cp1 pd : Pd} {bs rb : List Byte} {cb : Bool} {env : Env} {o : List Out} (T : Told s C cp pd bs rb)
    (ha : Arrives env bs) (h : CpM.step C cp (.update cb env) = .ok (cp1, o)) (hon : cp1.state = .online) (hact : cp1.scActive = s) :
    InStep s cp1 pd ∧ cp1.phyState = .idle := by
  have hI := T.inv.step h
  obtain ⟨q, n, E, hcm, hbs, hfit, hbc, hse, hpd⟩ := T.sender
  have hbusy := T.busy
  have hne := T.ne
  obtain ⟨⟨s1, o1, y⟩, hu, h1⟩ := Res.bind_eq_ok.mp h
  injection h1 with h1; injection h1 with e1 e2; subst e1 e2
  cases hb : rb with
  | nil => exact absurd hb hne
  | cons r0 rest =>
    rw [hb] at hbusy
    rw [hbs] at hfit ha
    obtain ⟨-, hh, sc, hH, hpr, hss, hscf⟩ := reply_read C q cp env n rb r0 rest hb E (fun h => hcm (T.active.symm.trans h)) T.cpIdle hbc hfit hse (fun h => hbusy (by rw [h]; rfl)) ha
    obtain ⟨p1, o2, rc1, hph, -⟩ := CpM.update_waits T.phy hu
    unfold CpM.phyReply at hph
    obtain ⟨⟨q', o', rc⟩, hpr', -⟩ := Res.bind_eq_ok.mp hph
    rw [hpr] at hpr'
    have heff := CpM.response_effect hpr'
    have hcmd := T.inv.cmd (by rw [T.phy]; decide)
    rw [T.online] at hcmd
    have hids := online_ids hcmd
    obtain ⟨k1, k2, k3, k4, k5⟩ := effect_keeps heff (.inr hids.2)
    obtain ⟨k6, k7⟩ := CpM.effect_seq heff
    have hH' := CpM.heard_effect heff
    obtain ⟨j1, j2, j3, -⟩ := hH'.keeps
    have hrc : rc = .none ∨ rc = .generic ∨ rc = .unknown := by
      rcases (CpM.processReply_inv (hpr.trans hpr')).rc with h | h | h | h | h
      · exact .inl h
      · exact .inr (.inl h)
      · exact .inr (.inr h)
      · exfalso
        revert heff
        rw [h]
        intro heff
        have hno : ∀ {p q : Pd} {bd : List Byte} {outs : List Out} {rc : CpM.CpErr}, CpM.Effect C p env bd q outs rc → rc = .retryCmd → p.replyId = Id.BUSY := by
          intro p q bd outs rc he hrc
          cases he with
          | busy h => exact h
          | file r => split at hrc <;> cases hrc
          | ccrypt => split at hrc <;> cases hrc
          | _ => cases hrc
        have hbz : r0.toNat = Id.BUSY := hno heff rfl
        refine hbusy ?_
        show some r0 = some (b8 Id.BUSY)
        rw [← hbz]
        unfold b8; simp
      · exfalso
        revert heff
        rw [h]
        intro heff
        have hno : ∀ {p q : Pd} {bd : List Byte} {outs : List Out} {rc : CpM.CpErr}, CpM.Effect C p env bd q outs rc → rc ≠ .noData := by
          intro p q bd outs rc he hrc
          cases he with
          | file r => split at hrc <;> cases hrc
          | ccrypt => split at hrc <;> cases hrc
          | _ => cases hrc
        exact hno heff rfl
    obtain ⟨f1, f2, f3, f4, f5, f6, f7, f8, f9, f10, f11, f12⟩ := CpM.update_reads T.phy T.online (hpr.trans hpr') (j1.trans T.online) hrc hu hon (by
      cases s with
      | true => exact .inl hact
      | false => exact .inr (by rw [j3]; exact (T.clear rfl).1))
    have hrid : q'.replyId = r0.toNat := k4
    rcases hpd with ⟨hk, hack⟩ | ⟨m1, m2, m3, m4, m5, m6, m7, m8⟩
    · exfalso
      rw [hb] at hack
      injection hack with hack
      exact f10 ⟨by rw [hrid, hack]; decide, by rw [j3]; exact hk⟩
    · refine ⟨⟨hI, hon, .inl f9, hact, m1, m2, m3, fun hs1 => ?_, ?_, ?_, ?_, m4, ⟨f7, f8, ?_, ?_⟩, m6, fun hs0 => ⟨?_, (T.clear hs0).2⟩⟩, f9⟩
      · rw [f2, k1, m7]; exact (hss (T.active.trans hs1)).meets
      · rw [f4]
        rcases m8 with ⟨m8, hnc⟩ | ⟨x, y', hrb, m8⟩
        · rcases k5 with h | h
          · rw [h, m8]; rfl
          · exfalso
            rw [hb] at hnc
            refine hnc ?_
            show some r0 = some (b8 Id.COM)
            have hbz : r0.toNat = Id.COM := h
            rw [← hbz]; unfold b8; simp
        · rw [hb] at hrb
          injection hrb with hr0 hrest
          subst hrest
          rcases response_com (p := { reload (setSc cp sc) hh with replyId := r0.toNat }) (show r0.toNat = Id.COM by rw [hr0]; decide) hpr' with ⟨-, h⟩ | h
          · rw [h, m8]
          · rw [h] at f11
            rcases f11 with h | ⟨h, -⟩ <;> cases h
      · rw [f3, k6, m5]; rfl
      · rw [f3, k6]; exact T.inv.asked T.phy
      · rw [f6, k3]; exact hH.buf
      · rw [f5, k2]; exact hH.rx
      · rw [f12, j3]; exact (T.clear hs0).1

theorem Told.reads {s : Bool} {C : Cipher} {cp cp1 pd : Pd} {bs rb : List Byte} {cb : Bool} {env : Env} {o : List Out} (T : Told s C cp pd bs rb)
    (ha : Arrives env bs) (h : CpM.step C cp (.update cb env) = .ok (cp1, o)) (hon : cp1.state = .online) (hact : cp1.scActive = s) :
    InStep s cp1 pd := (T.reads_idle ha h hon hact).1

/-- A step of the CP with nothing on the line and nothing sent, in which the PD stays online in its session. -/
theorem cp_quiet {C : Cipher} {cp cp1 : Pd} {op : CpM.Op} {o : List Out} (I : CpM.Inv cp) (hon : cp.state = .online) (hi : Idle cp)
    (hphy : cp.phyState = .replyWait ∨ cp.phyState = .idle ∨ cp.phyState = .sendCmd)
    (h : CpM.step C cp op = .ok (cp1, o)) (hq : ∀ cb env, op = .update cb env → env.recv = [])
    (hp1 : cp1.phyState = .replyWait ↔ cp.phyState = .replyWait) (hon1 : cp1.state = .online)
    (hact1 : cp1.scActive = true ∨ cp.cmdId ≠ Id.KEYSET) :
    Kin cp cp1 ∧ (cp.scActive = false → cp.cmdId ≠ Id.KEYSET → cp1.cmdId ≠ Id.KEYSET) ∧ (cp.phyState = .replyWait → cp1.cmdId = cp.cmdId) ∧
      (cp.phyState ≠ .replyWait → cp1.phyState = .idle ∨ cp1.phyState = .sendCmd) := by
  by_cases hop : ∀ cb env, op ≠ .update cb env
  · have hA := CpM.step_apiOnly h hop
    unfold CpM.Api at hA
    refine ⟨?_, fun _ hk => by rw [hA]; exact hk, fun _ => by rw [hA], fun hn => ?_⟩
    · rw [hA]; exact ⟨rfl, rfl, rfl, rfl, rfl, rfl, rfl, rfl, rfl, rfl, rfl⟩
    · rw [hA]; exact hphy.elim (absurd · hn) id
  · have : ∃ cb env, op = .update cb env := by
      refine Classical.byContradiction fun hn => hop fun cb env he => hn ⟨cb, env, he⟩
    obtain ⟨cb, env, rfl⟩ := this
    have hr := hq cb env rfl
    obtain ⟨⟨s1, o1, y⟩, hu, h1⟩ := Res.bind_eq_ok.mp h
    injection h1 with h1; injection h1 with e1 e2; subst e1 e2
    by_cases hw : cp.phyState = .replyWait
    · have hpr : CpM.processReply C cp env = .ok (cp, [], .noData) := by
        unfold CpM.processReply
        rw [Phy.checkPacket_silent hi hr]
        rfl
      obtain ⟨p1, o2, rc, hph, hcase⟩ := CpM.update_waits hw hu
      unfold CpM.phyReply at hph
      rw [hpr] at hph
      simp only [Res.ok_bind] at hph
      rw [if_neg (by decide), if_neg (by rintro ⟨h, -⟩; cases h), if_neg (by rintro (h | h) <;> cases h), if_neg (by decide)] at hph
      split at hph
      · split at hph
        · injection hph with hph; injection hph with e1 hph; injection hph with _ e3
          subst e1 e3
          rcases hcase with ⟨h, -⟩ | ⟨-, h⟩ | ⟨o3, hset⟩
          · cases h
          · have := hp1.mpr hw
            rw [h] at this; cases this
          · have hs := CpM.settle_inv hset
            clear hset
            cases hs with
            | command hx => cases hx
            | nothing hx => cases hx
            | over hx => rcases hx with h | h <;> cases h
        · injection hph with hph; injection hph with e1 hph; injection hph with _ e3
          subst e1 e3
          rcases hcase with ⟨h, -⟩ | ⟨h, -⟩ | ⟨o3, hset⟩
          · cases h
          · cases h
          · have := (CpM.settle_stays (p := { cp with phyState := .err }) (.inr rfl) hon hset hon1 hact1).done
            cases this
      · injection hph with hph; injection hph with e1 hph; injection hph with _ e3
        subst e1 e3
        rcases hcase with ⟨-, h⟩ | ⟨h, -⟩ | ⟨o3, hset⟩
        · rw [h]; exact ⟨Kin.refl _, fun _ hk => hk, fun _ => rfl, fun hn => absurd hw hn⟩
        · cases h
        · have hs := CpM.settle_inv hset
          clear hset
          cases hs with
          | command hx => rw [hw] at hx; cases hx
          | nothing hx => rw [hw] at hx; cases hx
          | over hx => rw [hw] at hx; rcases hx with h | h <;> cases h
    · have hup := CpM.stateUpdate_inv I.cp hu
      have hsend : ∀ p1 : Pd, s1 = sentState p1 env.now → False := fun p1 he => hw (hp1.mp (by rw [he]; rfl))
      clear hu h
      cases hup with
      | hold hx _ => rcases hphy with h | h | h <;> rw [hx] at h <;> cases h
      | sent _ _ => exact (hsend _ rfl).elim
      | @unsent p1 _ _ _ hm ho hset =>
        have hk := ho.sent
        have hst : p1.state = .online := (hk.keeps).1.trans hon
        have := (CpM.settle_stays (p := { p1 with phyState := .err }) (.inr rfl) hst hset hon1 (hact1.imp id fun h => by
          show p1.cmdId ≠ _; rw [(hk.keeps).2.2.1]; exact h)).done
        cases this
      | replied hx => exact absurd hx hw
      | again hx => exact absurd hx hw
      | waiting hx => exact absurd hx hw
      | idle hx hset =>
        have hidle : cp.phyState = .idle := by
          rcases hphy with h | h | h
          · exact absurd h hw
          · exact h
          · rw [h] at hx; rcases hx with h | h | h <;> cases h
        have hs := CpM.settle_inv hset
        clear hset
        cases hs with
        | @command p1 _ id _ hg _ =>
          have hch := (CpM.stateGetCmd_inv hg).1
          unfold CpM.Chosen at hch
          refine ⟨?_, fun hc _ hid => ?_, fun h => absurd h hw, fun _ => .inr rfl⟩
          rotate_left
          · have := CpM.keyset_active hon hg hid
            rw [hc] at this; cases this
          rw [hch]
          exact ⟨rfl, rfl, rfl, rfl, rfl, rfl, rfl, rfl, rfl, rfl, rfl⟩
        | @nothing p1 _ _ _ _ hg had =>
          have hch := (CpM.stateGetCmd_inv hg).1
          unfold CpM.Chosen at hch
          have hst : p1.state = .online := by rw [hch]; exact hon
          obtain ⟨e, -⟩ := CpM.advance_online (p := { p1 with cmdId := 0 }) (cur := p1.state) rfl hst had hon1
          subst e
          refine ⟨?_, fun _ _ h => absurd (show (0 : Nat) = Id.KEYSET from h) (by decide), fun h => absurd h hw, fun _ => .inl ?_⟩
          · rw [hch]
            exact ⟨rfl, rfl, rfl, rfl, rfl, rfl, rfl, rfl, rfl, rfl, rfl⟩
          · rw [hch]; exact hidle
        | over hd => rw [hidle] at hd; rcases hd with h | h <;> cases h

/-- A step of the PD with nothing on the line. -/
theorem pd_quiet {C : Cipher} {pd pd1 : Pd} {op : PdM.Op} {o : List Out} (hi : Idle pd) (h : PdM.step C pd op = .ok (pd1, o))
    (hq : ∀ env, op = .refresh env → env.recv = [] ∧ expire pd env.now = pd) :
    Kin pd pd1 ∧ pd1.flags.enforceSecure = pd.flags.enforceSecure := by
  cases op with
  | refresh env =>
    obtain ⟨hr, hexp⟩ := hq env rfl
    replace h : PdM.refresh C pd env = .ok (pd1, o) := h
    unfold PdM.refresh PdM.receiveAndProcess at h
    rw [hexp, Phy.checkPacket_silent hi hr] at h
    simp only [Res.ok_bind] at h
    unfold PdM.finish at h
    rw [if_pos (.inr rfl)] at h
    simp only [Res.ok_bind] at h
    injection h with h; injection h with e _; subst e
    exact ⟨Kin.refl _, rfl⟩
  | notify e =>
    injection h with h; injection h with h _; subst h
    unfold PdM.notifyEvent
    split <;> exact ⟨⟨rfl, rfl, rfl, rfl, rfl, rfl, rfl, rfl, rfl, rfl, rfl⟩, rfl⟩
  | flush => injection h with h; injection h with h _; subst h; exact ⟨⟨rfl, rfl, rfl, rfl, rfl, rfl, rfl, rfl, rfl, rfl, rfl⟩, rfl⟩
  | setCaps c => injection h with h; injection h with h _; subst h; exact ⟨⟨rfl, rfl, rfl, rfl, rfl, rfl, rfl, rfl, rfl, rfl, rfl⟩, rfl⟩
  | fileOps => injection h with h; injection h with h _; subst h; exact ⟨⟨rfl, rfl, rfl, rfl, rfl, rfl, rfl, rfl, rfl, rfl, rfl⟩, rfl⟩

theorem InStep.kin {s : Bool} {cp cp1 pd pd1 : Pd} (S : InStep s cp pd) (I : CpM.Inv cp1) (hon : cp1.state = .online)
    (hphy : cp1.phyState = .idle ∨ cp1.phyState = .sendCmd) (k : Kin cp cp1) (k' : Kin pd pd1)
    (ke : pd1.flags.enforceSecure = pd.flags.enforceSecure) (hk : s = false → cp1.cmdId ≠ Id.KEYSET) : InStep s cp1 pd1 :=
  ⟨I, hon, hphy, k.active.trans S.active, k'.pdMode.trans S.pdMode, k'.active.trans S.pdActive, fun h => k'.capable.trans (S.capable h),
   by rw [k.sc, k'.sc]; exact S.same, by rw [k.address, k'.address]; exact S.address, by rw [k.seq, k'.seq]; exact S.seq,
   by rw [k.seq]; exact S.seqOk, k'.broadcast.trans S.bc, k.idle S.cpIdle, k'.idle S.pdIdle,
   fun h => ⟨hk h, ke.trans (S.clear h).2⟩⟩

theorem Asked.kin {s : Bool} {C : Cipher} {cp cp1 pd pd1 : Pd} {bs body : List Byte} (A : Asked s C cp pd bs body) (I : CpM.Inv cp1)
    (hon : cp1.state = .online) (hphy : cp1.phyState = .replyWait) (hcmd : cp1.cmdId = cp.cmdId) (k : Kin cp cp1) (k' : Kin pd pd1)
    (ke : pd1.flags.enforceSecure = pd.flags.enforceSecure) : Asked s C cp1 pd1 bs body := by
  obtain ⟨c0, E, h1, h2, h3, h4, h5, h6, h7, h8, h9⟩ := A.sender
  exact ⟨I, hon, hphy, k.active.trans A.active, fun h => ⟨by rw [hcmd]; exact (A.clear h).1, ke.trans (A.clear h).2⟩, k'.broadcast.trans A.bc, k.idle A.cpIdle, k'.idle A.pdIdle, by rw [hcmd]; exact A.cmd,
    c0, (Kin.refl c0).ends k' E, h1, h2, h3, h4, h5, by rw [k'.seq]; exact h6, by rw [k.seq]; exact h7, by rw [k.address]; exact h8,
    by rw [k.sc]; exact h9⟩

theorem Told.kin {s : Bool} {C : Cipher} {cp cp1 pd pd1 : Pd} {bs rb : List Byte} (T : Told s C cp pd bs rb) (I : CpM.Inv cp1)
    (hon : cp1.state = .online) (hphy : cp1.phyState = .replyWait) (hcmd : cp1.cmdId = cp.cmdId) (k : Kin cp cp1)
    (k' : Kin pd pd1) (ke : pd1.flags.enforceSecure = pd.flags.enforceSecure) : Told s C cp1 pd1 bs rb := by
  obtain ⟨q, n, E, hcm, h1, h2, h3, h4, h5⟩ := T.sender
  refine ⟨I, hon, hphy, k.active.trans T.active, fun h => ⟨by rw [hcmd]; exact (T.clear h).1, ke.trans (T.clear h).2⟩, k.idle T.cpIdle, k'.idle T.pdIdle, T.ne, T.busy, q, n, k.ends (Kin.refl q) E, by rw [k.sc]; exact hcm, h1, h2, h3,
    by rw [k.seq]; exact h4, ?_⟩
  rcases h5 with ⟨h5, h6⟩ | ⟨m1, m2, m3, m4, m5, m6, m7, m8⟩
  · exact .inl ⟨hcmd.trans h5, h6⟩
  · refine .inr ⟨k'.pdMode.trans m1, k'.active.trans m2, fun h => k'.capable.trans (m3 h), k'.broadcast.trans m4, by rw [k'.seq, k.seq]; exact m5,
      k'.idle m6, by rw [k'.sc]; exact m7, ?_⟩
    rw [k'.address, k.address]; exact m8

end Link
end Osdp
