import Verif.Model.Pd

/-!
# Control panel, one PD object: src/osdp_cp.c:184-1319

`cb` says whether an event callback is registered.  API calls made by the application from inside
the event callback are not modelled (they happen between refreshes).  `pd->cmd_id == -1` ("no
command") is `cmdId = 0`.
-/

namespace Osdp.CpM

open Phy (setNak)
open PdM (assertLen copyOut)

/-- `enum osdp_cp_error_e` (src/osdp_cp.c:47-55) -/
inductive CpErr where
  | none | generic | noData | retryCmd | canYield | inprog | unknown
  deriving DecidableEq, Repr

/-- `OSDP_PD_SC_RETRY_MS` -/
abbrev SC_RETRY : Int := 600000
/-- `OSDP_PD_POLL_TIMEOUT_MS` -/
abbrev POLL_TIMEOUT : Int := 50
/-- `OSDP_CMD_RETRY_WAIT_MS` -/
abbrev CMD_RETRY_WAIT : Nat := 800
/-- `OSDP_CMD_MAX_RETRIES` -/
abbrev CMD_MAX_RETRIES : Nat := 8
/-- `OSDP_ONLINE_RETRY_WAIT_MAX_MS` -/
abbrev ONLINE_RETRY_WAIT : Nat := 300000

/-! ### building commands -/

/-- What building a command yields; `body = none` for a negative return value. -/
structure Built where
  p : Pd
  t : Phy.Tx
  outs : List Out := []
  body : Option (List Byte)

/-- src/osdp_cp.c:228-236 OUT -/
def outBody (c : CmdOutput) : List Byte :=
  [b8 Id.OUT, c.outputNo, c.controlCode] ++ le16 c.timerCount.toNat

/-- src/osdp_cp.c:237-257 LED -/
def ledBody (c : CmdLed) : List Byte :=
  [b8 Id.LED, c.reader, c.ledNumber,
   c.temporary.controlCode, c.temporary.onCount, c.temporary.offCount, c.temporary.onColor,
   c.temporary.offColor] ++ le16 c.temporary.timerCount.toNat ++
  [c.permanent.controlCode, c.permanent.onCount, c.permanent.offCount, c.permanent.onColor,
   c.permanent.offColor]

/-- src/osdp_cp.c:258-267 BUZ -/
def buzBody (c : CmdBuzzer) : List Byte :=
  [b8 Id.BUZ, c.reader, c.controlCode, c.onCount, c.offCount, c.repCount]

/-- src/osdp_cp.c:281-290 COMSET -/
def comsetBody (c : CmdComset) : List Byte := [b8 Id.COMSET, c.address] ++ le32 c.baudRate.toNat

/-- src/osdp_cp.c:197-384: the switch over the command id; `have_` is the remaining room.
A security block of another size than the three bytes that `osdp_phy_packet_init` provides for a
handshake command while the channel is inactive would overlap the data. -/
def commandBody (C : Cipher) (p : Pd) (env : Env) (t : Phy.Tx) (have_ : Int) : Res Built :=
  let id := p.cmdId
  if id = Id.POLL ∨ id = Id.LSTAT ∨ id = Id.ISTAT ∨ id = Id.OSTAT ∨ id = Id.RSTAT then do
    assertLen 1 have_
    .ok { p, t, body := some [b8 id] }
  else if id = Id.ID ∨ id = Id.CAP then do
    assertLen 2 have_
    .ok { p, t, body := some [b8 id, 0#8] }
  else if id = Id.OUT then do
    assertLen 5 have_
    match p.eph with
    | .cmd (.output c) => .ok { p, t, body := some (outBody c) }
    | _ => .error .typePun
  else if id = Id.LED then do
    assertLen 15 have_
    match p.eph with
    | .cmd (.led c) => .ok { p, t, body := some (ledBody c) }
    | _ => .error .typePun
  else if id = Id.BUZ then do
    assertLen 6 have_
    match p.eph with
    | .cmd (.buzzer c) => .ok { p, t, body := some (buzBody c) }
    | _ => .error .typePun
  else if id = Id.TEXT then
    match p.eph with
    | .cmd (.text c) => do
      assertLen (7 + c.length.toNat) have_
      let d ← copyOut c.data.1 c.length.toNat
      .ok { p, t, body := some ([b8 id, c.reader, c.controlCode, c.tempTime, c.offsetRow, c.offsetCol,
              c.length] ++ d) }
    | _ => .error .typePun
  else if id = Id.COMSET then do
    assertLen 6 have_
    match p.eph with
    | .cmd (.comset c) => .ok { p, t, body := some (comsetBody c) }
    | _ => .error .typePun
  else if id = Id.MFG then
    match p.eph with
    | .cmd (.mfg c) => do
      assertLen (4 + c.length.toNat) have_
      if c.length.toNat > 64 then .ok { p, t, body := none }
      else do
        let d ← copyOut c.data.1 c.length.toNat
        .ok { p, t, body := some ([b8 id, byteOf 0 c.vendor.toNat, byteOf 1 c.vendor.toNat,
                byteOf 2 c.vendor.toNat, c.command] ++ d) }
    | _ => .error .typePun
  else if id = Id.ACURXSIZE then .ok { p, t, body := some [b8 id, 0#8, 1#8] }
  else if id = Id.KEEPACTIVE then .ok { p, t, body := some [b8 id, 0#8, 0#8] }
  else if id = Id.ABORT then .ok { p, t, body := some [b8 id] }
  else if id = Id.FILETRANSFER then do
    let (f, outs, r) ← File.txBuild p.file env have_
    let p := { p with file := f }
    match r with
    | none => .ok { p, t, outs, body := some [b8 Id.ABORT] }
    | some bs => .ok { p, t, outs, body := some (b8 id :: bs) }
  else if id = Id.KEYSET then
    if ¬ p.scActive then .ok { p, t, body := none }
    else match p.eph with
    | .cmd (.keyset c) => do
      assertLen 19 have_
      if c.length ≠ 16#8 then .ok { p, t, body := none }
      else if c.type = 1#8 then
        .ok { p, t, body := some ([b8 id, 1#8, 16#8] ++ c.data.1.take 16) }
      else if c.type = 0#8 then
        .ok { p, t, body := some ([b8 id, 1#8, 16#8] ++
          (Sc.computeScbk C p.sc.pdClientUid ⟨c.data.1.take 16, by simp [c.data.2]⟩).1) }
      else .ok { p, t, body := none }
    | _ => .error .typePun
  else if id = Id.CHLNG then do
    assertLen 9 have_
    if t.scb = [] ∨ t.misaligned then .ok { p, t, body := none }
    else if t.scb.length ≠ 3 then .error .typePun
    else
      .ok { p, t := { t with scb := [3#8, 0x11#8, if p.flags.useScbkd then 0 else 1] },
            body := some (b8 id :: p.sc.cpRandom.1) }
  else if id = Id.SCRYPT then do
    assertLen 17 have_
    if t.scb = [] ∨ t.misaligned then .ok { p, t, body := none }
    else if t.scb.length ≠ 3 then .error .typePun
    else
      let sc := Sc.computeCpCryptogram C p.sc
      .ok { p := { p with sc := sc },
            t := { t with scb := [3#8, 0x13#8, if p.flags.useScbkd then 0 else 1] },
            body := some (b8 id :: sc.cpCryptogram.1) }
  else if PdM.cmdNameOk id then .ok { p, t, body := none }
  else .error .nullDeref

/-- src/osdp_cp.c:184-397 `cp_build_command` -/
def buildCommand (C : Cipher) (p : Pd) (env : Env) (t : Phy.Tx) (maxLen : Nat) : Res Built := do
  let have_ : Int := maxLen - t.dataOff
  if have_ ≤ 0 then return { p, t, body := none }
  let b ← commandBody C p env t have_
  match b.body with
  | none => return b
  | some l =>
    let t := match b.t.scb[1]? with
      | some ty => if ty > 0x14#8 ∧ b.p.scActive then
          { b.t with scb := [2#8, if l.length > 1 then 0x17#8 else 0x15#8] } else b.t
      | none => b.t
    return { b with t := t }

/-- src/osdp_cp.c:692-717 `cp_build_and_send_packet`; the Boolean is `OSDP_CP_ERR_NONE` -/
def buildAndSend (C : Cipher) (p : Pd) (env : Env) : Res (Pd × List Out × Bool) := do
  let size := p.txBufSize
  match Phy.packetInit p size with
  | none => return (p, [], false)
  | some (p, t) =>
    let b ← buildCommand C p env t size
    match b.body with
    | none => return (b.p, b.outs, false)
    | some l =>
      let (p, outs, ok) ← Phy.sendPacket C b.p env b.t l size
      return (p, b.outs ++ outs, ok)

/-! ### decoding replies -/

/-- `pd->cap[t1] = …` -/
def setCap (cap : Fin 17 → Cap) (i : Fin 17) (c : Cap) : Fin 17 → Cap := fun j => if j = i then c else cap j

/-- src/osdp_cp.c:449-461: the entries of a PDCAP reply -/
def capLoop (cap : Fin 17 → Cap) : List Byte → Fin 17 → Cap
  | c :: l :: n :: rest =>
    if h : c.toNat < 17 then capLoop (setCap cap ⟨c.toNat, h⟩ ⟨c, l, n⟩) rest else cap
  | _ => cap

/-- src/osdp_cp.c:444-478 PDCAP -/
def pdcap (p : Pd) (body : List Byte) : Pd :=
  let cap := capLoop p.cap body
  { p with
    cap := cap
    peerRx := if (cap 10).code = 10#8 then (cap 10).compliance.toNat + 256 * (cap 10).numItems.toNat
      else p.peerRx
    flags := { p.flags with scCapable := (cap 9).compliance.getLsbD 0 } }

/-- src/osdp_cp.c:423-443 PDID -/
def pdid : List Byte → Option PdId
  | [v0, v1, v2, m, v, s0, s1, s2, s3, f2, f1, f0] =>
    some { version := v.toNat, model := m.toNat, vendor := ofLe [v0, v1, v2],
           serial := ofLe [s0, s1, s2, s3], firmware := ofLe [f0, f1, f2] }
  | _ => none

/-- bits `!!body[i] << i` -/
def maskOf : List Byte → Nat
  | [] => 0
  | b :: bs => (if b = 0#8 then 0 else 1) + 2 * maskOf bs

/-- `memcpy(pd->ephemeral_data, &event, sizeof(event)); make_request(pd, CP_REQ_EVENT_SEND)` -/
def event (p : Pd) (e : Event) : Pd := { p with eph := .event e, reqEventSend := true }

/-- the card format of a wire byte -/
def cardFormat (b : Byte) : CardFormat :=
  if b = 0#8 then .rawUnspecified else if b = 1#8 then .rawWiegand else if b = 2#8 then .ascii
  else .other b.toNat

/-- `memcpy(dst, src, src.length)` into an array of `n` bytes -/
def copyIn (n : Nat) (src : List Byte) : Res (Bytes n) :=
  if src.length ≤ n then .ok (.padTo n src) else .error .oobWrite

/-- src/osdp_cp.c:408-665: the switch over the reply id; `body` are the bytes after the id -/
def response (C : Cipher) (p : Pd) (env : Env) (body : List Byte) : Res (Pd × List Out × CpErr) :=
  let id := p.replyId
  let fail : Res (Pd × List Out × CpErr) := .ok (p, [], .generic)
  if id = Id.ACK then if body ≠ [] then fail else .ok (p, [], .none)
  else if id = Id.NAK then if body.length ≠ 1 then fail else .ok (p, [], .none)
  else if id = Id.PDID then
    match pdid body with
    | none => fail
    | some i => .ok ({ p with id := i }, [], .none)
  else if id = Id.PDCAP then
    if body.length % 3 ≠ 0 then fail else .ok (pdcap p body, [], .none)
  else if id = Id.OSTATR then
    if body.length ≠ (p.cap 2).numItems.toNat ∨ body.length > 32 then fail
    else .ok (event p (.status ⟨.output, body.length, BitVec.ofNat 32 (maskOf body)⟩), [], .none)
  else if id = Id.ISTATR then
    if body.length ≠ (p.cap 1).numItems.toNat ∨ body.length > 32 then fail
    else .ok (event p (.status ⟨.input, body.length, BitVec.ofNat 32 (maskOf body)⟩), [], .none)
  else if id = Id.LSTATR then
    if body.length ≠ 2 then fail
    else .ok (event p (.status ⟨.localStat, 2, BitVec.ofNat 32 (maskOf body)⟩), [], .none)
  else if id = Id.RSTATR then
    if body.length ≠ 1 then fail
    else .ok (event p (.status ⟨.remote, 1, BitVec.ofNat 32 (maskOf body)⟩), [], .none)
  else if id = Id.COM then
    match body with
    | [a, b0, b1, b2, b3] =>
      .ok ({ p with address := a.toNat, baudRate := ofLe32i [b0, b1, b2, b3] }, [], .none)
    | _ => fail
  else if id = Id.KEYPAD then
    match body with
    | r :: n :: data =>
      if data.length ≠ n.toNat then fail
      else do
        let d ← copyIn 64 data
        .ok (event p (.keypress ⟨r.toNat, n.toNat, d⟩), [], .none)
    | _ => fail
  else if id = Id.RAW then
    match body with
    | r :: f :: l0 :: l1 :: data =>
      let n := ofLe [l0, l1]
      if (n + 7) / 8 ≠ data.length then fail
      else do
        let d ← copyIn 64 data
        .ok (event p (.cardread ⟨r.toNat, cardFormat f, 0, n, d⟩), [], .none)
    | _ => fail
  else if id = 0x51 then .ok (p, [], .none)
  else if id = Id.BUSY then if body ≠ [] then fail else .ok (p, [], .retryCmd)
  else if id = Id.MFGREP then
    match body with
    | v0 :: v1 :: v2 :: c :: data =>
      let n := data.length % 256
      if n > 128 then fail
      else .ok (event p (.mfgrep ⟨BitVec.ofNat 32 (ofLe [v0, v1, v2]), c, b8 n, .padTo 128 (data.take n)⟩),
        [], .none)
    | _ => fail
  else if id = Id.FTSTAT then do
    let r ← File.statDecode p.file env body
    .ok ({ p with file := r.file, reqOffline := p.reqOffline || r.offline }, r.outs,
      if r.ok then .none else .generic)
  else if id = Id.CCRYPT then
    if p.scActive ∨ p.cmdId ≠ Id.CHLNG then fail
    else if h : body.length ≠ 32 then fail
    else
      let sc := { p.sc with
        pdClientUid := ⟨body.take 8, by simp; omega⟩
        pdRandom := ⟨(body.drop 8).take 8, by simp; omega⟩
        pdCryptogram := ⟨body.drop 16, by simp; omega⟩ }
      let sc := Sc.sessionKeys C p.flags.useScbkd sc
      .ok ({ p with sc := sc }, [], if Sc.verifyPdCryptogram C sc then .none else .generic)
  else if id = Id.RMAC_I then
    if p.scActive ∨ p.cmdId ≠ Id.SCRYPT then fail
    else if h : body.length ≠ 16 then fail
    else .ok ({ p with sc := { p.sc with rMac := ⟨body, by omega⟩ } }, [], .none)
  else .ok (p, [], .unknown)

/-- src/osdp_cp.c:399-680 `cp_decode_response`: `data` starts at the id byte, `len > 0` -/
def decodeResponse (C : Cipher) (p : Pd) (env : Env) (data : List Byte) (len : Nat) :
    Res (Pd × List Out × CpErr) := do
  let id ← rd data 0
  if data.length < len then throw .oobRead
  response C { p with replyId := id.toNat } env ((data.take len).drop 1)

/-- src/osdp_cp.c:719-753 `cp_process_reply` -/
def processReply (C : Cipher) (p : Pd) (env : Env) : Res (Pd × List Out × CpErr) := do
  match ← Phy.checkPacket p env with
  | (p, .none) =>
    let (p, d) ← Phy.decodePacket C p
    if d.len ≤ 0 then return (p, [], .generic)
    decodeResponse C p env d.data d.len.toNat
  | (p, .wait) => return (p, [], .noData)
  | (p, .noData) => return (p, [], .noData)
  | (p, .busy) => return (p, [], .retryCmd)
  | (p, _) => return (p, [], .generic)

/-! ### the state machines -/

/-- src/osdp_cp.c:755-759 `cp_sc_should_retry` -/
def scShouldRetry (p : Pd) (now : Int) : Bool :=
  p.scCapable && !p.scActive && decide (now - p.scTstamp > SC_RETRY)

/-- src/osdp_cp.c:761-799 `cp_translate_cmd`: the command id, 0 for -1 -/
def translate (p : Pd) (c : Cmd) : Res (Pd × Nat) :=
  let p := { p with eph := .cmd c }
  match c with
  | .output _ => .ok (p, Id.OUT)
  | .led _ => .ok (p, Id.LED)
  | .buzzer _ => .ok (p, Id.BUZ)
  | .text _ => .ok (p, Id.TEXT)
  | .comset _ => .ok (p, Id.COMSET)
  | .mfg _ => .ok (p, Id.MFG)
  | .status s => match s.type with
    | .input => .ok (p, Id.ISTAT)
    | .output => .ok (p, Id.OSTAT)
    | .localStat => .ok (p, Id.LSTAT)
    | .remote => .ok (p, Id.RSTAT)
    | .other => .ok (p, 0)
  | .keyset k => if k.type ≠ 1#8 ∨ ¬ p.scActive then .ok (p, 0) else .ok (p, Id.KEYSET)
  | .fileTx _ => .error .bug
  | .bad _ => .error .bug

/-- src/osdp_cp.c:801-809 `fill_local_keyset_cmd` (the unused second half of the key buffer keeps
older bytes, zero here) -/
def fillLocalKeyset (p : Pd) : Pd := { p with eph := .cmd (.keyset ⟨1#8, 16#8, .padTo 32 p.sc.scbk.1⟩) }

/-- src/osdp_cp.c:811-816 `cp_phy_running` -/
def phyRunning (p : Pd) : Bool := p.phyState == .sendCmd || p.phyState == .replyWait || p.phyState == .wait

/-- src/osdp_cp.c:845-857: state `SEND_CMD` of `cp_phy_state_update` -/
def phySend (C : Cipher) (p : Pd) (env : Env) : Res (Pd × List Out × CpErr) := do
  let (p, outs, ok) ← buildAndSend C p env
  if ok then
    let (p, _) := Phy.stateReset p false
    return ({ p with replyId := 0, phyState := .replyWait, phyTstamp := env.now }, outs, .inprog)
  else if PdM.cmdNameOk p.cmdId then return ({ p with phyState := .err }, outs, .generic)
  else throw .nullDeref

/-- src/osdp_cp.c:858-900: state `REPLY_WAIT` of `cp_phy_state_update` -/
def phyReply (C : Cipher) (p : Pd) (env : Env) : Res (Pd × List Out × CpErr) := do
  let (p, outs, rc) ← processReply C p env
  if rc = .none then
    let p := { p with tstamp := env.now, scTstamp := if p.scActive then env.now else p.scTstamp,
                      phyState := .done }
    return (p, outs, .none)
  if rc = .unknown ∧ p.cmdId = Id.POLL ∧ p.flags.ignUnsolicited then
    return ({ p with scTstamp := if p.scActive then env.now else p.scTstamp, phyState := .done }, outs, .none)
  if rc = .generic ∨ rc = .unknown then return ({ p with phyState := .err }, outs, .generic)
  if rc = .retryCmd then
    return ({ p with phyTstamp := env.now, waitMs := CMD_RETRY_WAIT, phyState := .wait }, outs, .canYield)
  if env.now - p.phyTstamp > PdM.RESP_TOUT then
    if p.retryCount < CMD_MAX_RETRIES then
      return ({ p with waitMs := CMD_RETRY_WAIT, phyState := .wait, retryCount := p.retryCount + 1,
                       phyTstamp := env.now }, outs, .canYield)
    return ({ p with phyState := .err }, outs, .generic)
  return (p, outs, .inprog)

/-- src/osdp_cp.c:827-907 `cp_phy_state_update` -/
def phyUpdate (C : Cipher) (p : Pd) (env : Env) : Res (Pd × List Out × CpErr) :=
  match p.phyState with
  | .done | .idle => .ok (p, [], .none)
  | .err => .ok (p, [], .generic)
  | .wait => if env.now - p.phyTstamp < p.waitMs then .ok (p, [], .canYield) else phySend C p env
  | .sendCmd => phySend C p env
  | .replyWait => phyReply C p env

/-- src/osdp_cp.c:924-946 `cp_get_online_command`; 0 for -1 -/
def onlineCommand (p : Pd) (env : Env) : Res (Pd × List Out × Nat) :=
  match p.cmdQueue with
  | c :: rest => do
    let (p, id) ← translate { p with cmdQueue := rest } c
    .ok (p, [], id)
  | [] =>
    let (f, outs, n) := File.getCommand p.file env.now
    let p := { p with file := f }
    match n with
    | .send id => .ok (p, outs, id)
    | .hold => .ok (p, outs, 0)
    | .nothing =>
      if env.now - p.tstamp > POLL_TIMEOUT then .ok ({ p with tstamp := env.now }, outs, Id.POLL)
      else .ok (p, outs, 0)

/-- an event handed to the callback if one is registered and notifications are enabled
(src/osdp_cp.c:953-961, 969-978, 1230-1260) -/
def notify (cb : Bool) (p : Pd) (t : NotifType) (a b : Int) : List Out :=
  if cb && p.flags.enableNotif then [.event p.idx (.notification t a b)] else []

/-- src/osdp_cp.c:948-962 `notify_pd_status` (`arg1` is left uninitialised, zero here) -/
def notifyPdStatus (cb : Bool) (p : Pd) (online : Bool) : List Out :=
  notify cb p .pdStatus (if online then 1 else 0) 0

/-- src/osdp_cp.c:964-979 `notify_sc_status` -/
def notifyScStatus (cb : Bool) (p : Pd) : List Out :=
  notify cb p .scStatus (if p.scActive then 1 else 0) (if p.flags.useScbkd then 1 else 0)

/-- src/osdp_cp.c:981-997 `cp_keyset_complete` -/
def keysetComplete (cb : Bool) (p : Pd) : Res (Pd × List Out) := do
  let p ← if ¬ p.flags.useScbkd then
      match p.eph with
      | .cmd (.keyset k) =>
        (.ok { p with sc := { p.sc with scbk := ⟨k.data.1.take 16, by simp [k.data.2]⟩ } } : Res Pd)
      | _ => .error .typePun
    else .ok { p with flags := { p.flags with useScbkd := false } }
  let p := p.scDeactivate
  return (if p.state = .online then { p with reqRestartSc := true } else p, notifyScStatus cb p)

/-- src/osdp_cp.c:1020-1048: replies other than ACK, NAK and none, to a command in the online state -/
def expectedReply (p : Pd) : Bool :=
  if p.cmdId = Id.POLL then
    [Id.LSTATR, Id.ISTATR, Id.OSTATR, Id.RSTATR, Id.MFGREP, Id.RAW, Id.KEYPAD].contains p.replyId ||
      p.flags.ignUnsolicited
  else if p.cmdId = Id.FILETRANSFER then p.replyId == Id.FTSTAT
  else if p.cmdId = Id.COMSET then p.replyId == Id.COM
  else if p.cmdId = Id.MFG then p.replyId == Id.MFGREP
  else if p.cmdId = Id.LSTAT then p.replyId == Id.LSTATR
  else if p.cmdId = Id.ISTAT then p.replyId == Id.ISTATR
  else if p.cmdId = Id.OSTAT then p.replyId == Id.OSTATR
  else if p.cmdId = Id.RSTAT then p.replyId == Id.RSTATR
  else false

/-- src/osdp_cp.c:999-1049 `cp_check_online_response` -/
def checkOnline (cb : Bool) (p : Pd) : Res (Pd × List Out × Bool) :=
  if p.replyId = Id.ACK then
    if p.cmdId = Id.KEYSET then do
      let (p, outs) ← keysetComplete cb p
      .ok (p, outs, true)
    else .ok (p, [], true)
  else if p.replyId = Id.NAK ∨ p.replyId = 0 then .ok (p, [], false)
  else .ok (p, [], expectedReply p)

/-- src/osdp_cp.c:1051-1064 `state_get_cmd` -/
def stateGetCmd (p : Pd) (env : Env) : Res (Pd × List Out × Nat) :=
  match p.state with
  | .init => .ok (p, [], Id.ID)
  | .capdet => .ok (p, [], Id.CAP)
  | .scChlng => .ok (p, [], Id.CHLNG)
  | .scScrypt => .ok (p, [], Id.SCRYPT)
  | .setScbk => .ok (p, [], Id.KEYSET)
  | .online => onlineCommand p env
  | _ => .ok (p, [], 0)

/-- src/osdp_cp.c:1066-1079 `state_check_reply` -/
def stateCheckReply (cb : Bool) (p : Pd) : Res (Pd × List Out × Bool) :=
  match p.state with
  | .init => .ok (p, [], p.replyId == Id.PDID)
  | .capdet => .ok (p, [], p.replyId == Id.PDCAP)
  | .scChlng => .ok (p, [], p.replyId == Id.CCRYPT)
  | .scScrypt => .ok (p, [], p.replyId == Id.RMAC_I)
  | .setScbk => .ok (p, [], p.replyId == Id.ACK)
  | .online => checkOnline cb p
  | _ => .ok (p, [], false)

/-- `SET_FLAG`/`CLEAR_FLAG` of `PD_FLAG_SC_USE_SCBKD` -/
def setUseScbkd (p : Pd) (v : Bool) : Pd := { p with flags := { p.flags with useScbkd := v } }

/-- src/osdp_cp.c:1081-1127 `get_next_ok_state` -/
def nextOk (cb : Bool) (p : Pd) (now : Int) : Res (Pd × List Out × CpState) :=
  match p.state with
  | .init => .ok (p, [], .capdet)
  | .capdet =>
    if p.scCapable then .ok (setUseScbkd p false, [], .scChlng)
    else .ok (p, [], if p.flags.enforceSecure then .offline else .online)
  | .scChlng => .ok (p, [], .scScrypt)
  | .scScrypt =>
    let p := p.scActivate
    let outs := notifyScStatus cb p
    if p.flags.useScbkd then .ok (fillLocalKeyset p, outs, .setScbk) else .ok (p, outs, .online)
  | .setScbk => do
    let (p, outs) ← keysetComplete cb p
    .ok (p, outs, .scChlng)
  | .online => .ok (p, [], if scShouldRetry p now then .scChlng else .online)
  | .offline => .ok (p, [], if now - p.tstamp > p.waitMs then .init else .offline)
  | .probe => .error .bug

/-- src/osdp_cp.c:1129-1179 `get_next_err_state` -/
def nextErr (cb : Bool) (p : Pd) (now : Int) : Res (Pd × List Out × CpState) :=
  match p.state with
  | .init | .capdet | .online | .offline => .ok (p, [], .offline)
  | .scChlng =>
    if p.flags.enforceSecure then .ok (p, [], .offline)
    else if ¬ p.flags.useScbkd then .ok (setUseScbkd p true, [], .scChlng)
    else .ok ({ setUseScbkd p false with scTstamp := now }, [], .online)
  | .scScrypt => .ok (p, [], if p.flags.enforceSecure then .offline else .online)
  | .setScbk =>
    let p := p.scDeactivate
    .ok (p, notifyScStatus cb p, if p.flags.enforceSecure || p.flags.useScbkd then .offline else .online)
  | .probe => .error .bug

/-- src/osdp_cp.c:1186-1222 `cp_state_change` -/
def stateChange (cb : Bool) (p : Pd) (env : Env) (next : CpState) : Pd × List Out :=
  let (p, outs) : Pd × List Out := match next with
    | .init => Phy.stateReset p true
    | .online => (p, notifyPdStatus cb p true)
    | .offline =>
      let p := Pd.scDeactivate { p with tstamp := env.now, waitMs := ONLINE_RETRY_WAIT }
      (p, notifyScStatus cb p ++ notifyPdStatus cb p true)
    | .scChlng => ({ p with sc := Sc.setup p.flags.hasScbk env.random p.sc }, [])
    | _ => (p, [])
  ({ p with state := next }, outs)

/-- the application command behind a command id (src/osdp_cp.c:1235-1253) -/
def appCmd (p : Pd) : Option Int :=
  if p.cmdId = Id.OUT then some 1
  else if p.cmdId = Id.LED then some 2
  else if p.cmdId = Id.BUZ then some 3
  else if p.cmdId = Id.TEXT then some 4
  else if p.cmdId = Id.COMSET then some 6
  else if p.cmdId = Id.ISTAT ∨ p.cmdId = Id.OSTAT ∨ p.cmdId = Id.LSTAT ∨ p.cmdId = Id.RSTAT then some 9
  else if p.cmdId = Id.KEYSET then some 5
  else if p.cmdId = Id.MFG ∧ p.replyId = Id.ACK then some 7
  else none

/-- src/osdp_cp.c:1224-1261 `notify_command_status` -/
def notifyCommand (cb : Bool) (p : Pd) (status : Bool) : List Out :=
  match appCmd p with
  | none => []
  | some a => notify cb p .command a (if status then 1 else 0)

/-- src/osdp_cp.c:682-690 `do_event_callback` -/
def doEvent (cb : Bool) (p : Pd) : Res (List Out) :=
  if cb then
    match p.eph with
    | .event e => .ok [.event p.idx e]
    | _ => .error .typePun
  else .ok []

/-- src/osdp_cp.c:1301-1313: pending requests, looked at while going or being online -/
def requests (cb : Bool) (p : Pd) (next : CpState) : Res (Pd × List Out × CpState) :=
  if p.state = .online ∨ next = .online then do
    let (p, outs, next) : Pd × List Out × CpState :=
      if p.reqRestartSc then
        let (p, outs) := Phy.stateReset { p with reqRestartSc := false } true
        (p, outs, .scChlng)
      else (p, [], next)
    let (p, next) : Pd × CpState :=
      if p.reqOffline then ({ p with reqOffline := false }, .offline) else (p, next)
    if p.reqEventSend then
      let outs' ← doEvent cb p
      .ok ({ p with reqEventSend := false }, outs ++ outs', next)
    else .ok (p, outs, next)
  else .ok (p, [], next)

/-- src/osdp_cp.c:1299-1318: second half of `state_update`, from the choice of the next state on.
`cur` is the state at entry. -/
def advance (cb : Bool) (p : Pd) (env : Env) (cur : CpState) (ok : Bool) : Res (Pd × List Out) := do
  let (p, o1, next) ← if ok then nextOk cb p env.now else nextErr cb p env.now
  let (p, o2, next) ← requests cb p next
  if cur ≠ next then
    let (p, o3) := stateChange cb p env next
    return (p, o1 ++ o2 ++ o3)
  return (p, o1 ++ o2)

/-- src/osdp_cp.c:1276-1318: `state_update` once the phy state machine has stopped -/
def settle (cb : Bool) (p : Pd) (env : Env) : Res (Pd × List Out) :=
  match p.phyState with
  | .idle => do
    let (p, outs, id) ← stateGetCmd p env
    let p := { p with cmdId := id }
    if id > 0 then return ({ p with phyState := .sendCmd }, outs)
    let (p, outs') ← advance cb p env p.state true
    return (p, outs ++ outs')
  | .err | .done => do
    let phyOk := p.phyState == .done
    let (p, o1, status) ← stateCheckReply cb p
    let o2 := notifyCommand cb p status
    let (p, _) := Phy.stateReset p false
    let (p, o3) ← advance cb p env p.state (phyOk && status)
    return (p, o1 ++ o2 ++ o3)
  | _ => .error .bug

/-- src/osdp_cp.c:1263-1319 `state_update`; the Boolean says "may yield" (as opposed to
`OSDP_CP_ERR_INPROG`) -/
def stateUpdate (C : Cipher) (cb : Bool) (p : Pd) (env : Env) : Res (Pd × List Out × Bool) := do
  let (p, o1, err) ← if phyRunning p then phyUpdate C p env else .ok (p, [], .none)
  if err = .inprog then return (p, o1, false)
  if err = .canYield then return (p, o1, true)
  let (p, o2) ← settle cb p env
  return (p, o1 ++ o2, true)

end Osdp.CpM
