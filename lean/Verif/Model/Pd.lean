import Verif.Model.Phy
import Verif.Model.File

/-!
# Peripheral device: src/osdp_pd.c
-/

namespace Osdp.PdM

open Phy (setNak)

/-- `enum osdp_pd_error_e` -/
inductive PdRet where
  | none | wait | generic | reply | ignore | noData
  deriving DecidableEq, Repr

/-- src/osdp_common.c:45-87 `osdp_cmd_name`: `false` where it dereferences a NULL table entry -/
def cmdNameOk (id : Nat) : Bool :=
  decide (id < 0x60) || decide (id > 0xA7) ||
  [0x60, 0x61, 0x62, 0x64, 0x65, 0x66, 0x67, 0x68, 0x69, 0x6A, 0x6B, 0x6C, 0x6D, 0x6E, 0x73, 0x74,
   0x75, 0x76, 0x77, 0x7B, 0x7C, 0x80, 0xA1, 0xA2, 0xA3, 0xA4, 0xA5, 0xA7].contains id

/-- src/osdp_pd.c:140-195 `pd_translate_event`: the reply id (`REPLY_ACK` drops the event) -/
def eventReply (e : Event) : Nat :=
  match e with
  | .cardread c => match c.format with
    | .rawUnspecified | .rawWiegand => Id.RAW
    | _ => Id.ACK
  | .keypress _ => Id.KEYPAD
  | .status s => match s.type with
    | .input => Id.ISTATR
    | .output => Id.OSTATR
    | .localStat => Id.LSTATR
    | .remote => Id.RSTATR
    | .other => Id.ACK
  | .mfgrep _ => Id.MFGREP
  | _ => Id.ACK

/-- src/osdp_pd.c:140-195 `pd_translate_event` with its effect on `ephemeral_data`, and
lines 304-310 of the POLL case -/
def pollEvent (p : Pd) : Pd :=
  match p.eventQueue with
  | [] => { p with replyId := Id.ACK }
  | e :: rest =>
    let r := eventReply e
    { p with eventQueue := rest, replyId := r, eph := if r = Id.ACK then p.eph else .event e }

/-- src/osdp_pd.c:197-208 `do_command_callback` for call number `i` of this refresh: the state, the
effect, whether the callback returned 0, and the command as left by the callback -/
def callback (p : Pd) (env : Env) (i : Nat) (c : Cmd) : Res (Pd × List Out × Option Cmd) :=
  match env.cb with
  | none => .error .nullDeref
  | some cb =>
    let (r, c') := cb i c
    if r ≠ 0 then .ok (setNak p Nak.RECORD, [.cmd c], none) else .ok (p, [.cmd c], some c')

/-- src/osdp_pd.c:215-264: does the capability table allow command `cmdId` (`c`: the decoded command
where one is passed) -/
def capAllows (cap : Fin 17 → Cap) (cmdId : Nat) (c : Option Cmd) : Bool :=
  let has (k : Fin 17) : Bool := (cap k).numItems != 0#8 && (cap k).compliance != 0#8
  if cmdId = Id.ISTAT then has 1
  else if cmdId = Id.OSTAT then has 2
  else if cmdId = Id.OUT then
    match c with
    | some (.output o) => (cap 2).compliance != 0#8 && decide (o.outputNo.toNat + 1 ≤ (cap 2).numItems.toNat)
    | _ => false
  else if cmdId = Id.LED then
    match c with
    | some (.led l) => (cap 4).compliance != 0#8 && decide (l.ledNumber.toNat + 1 ≤ (cap 4).numItems.toNat)
    | _ => false
  else if cmdId = Id.BUZ then has 5
  else if cmdId = Id.TEXT then has 6
  else if cmdId = Id.CHLNG ∨ cmdId = Id.SCRYPT ∨ cmdId = Id.KEYSET then (cap 9).compliance != 0#8
  else false

/-- src/osdp_pd.c:210-270 `pd_cmd_cap_ok` with its effect on the pending reply -/
def capOk (p : Pd) (c : Option Cmd) : Pd × Bool :=
  if capAllows p.cap p.cmdId c then (p, true)
  else if p.cmdId = Id.CHLNG ∨ p.cmdId = Id.SCRYPT ∨ p.cmdId = Id.KEYSET then
    (setNak p Nak.SC_UNSUP, false)
  else (setNak p Nak.CMD_UNKNOWN, false)

/-! Decoding of the fixed-size records (src/osdp_pd.c:404-407, 425-440, 458-462). -/

/-- one OUT record -/
def decOutput : List Byte → Option Cmd
  | [a, b, c, d] => some (.output ⟨a, b, d ++ c⟩)
  | _ => none

/-- one LED record; the permanent timer count is not transmitted -/
def decLed : List Byte → Option Cmd
  | [r, n, a, b, c, d, e, t0, t1, f, g, h, i, j] =>
    some (.led ⟨r, n, ⟨a, b, c, d, e, t1 ++ t0⟩, ⟨f, g, h, i, j, 0⟩⟩)
  | _ => none

/-- one BUZ record -/
def decBuzzer : List Byte → Option Cmd
  | [a, b, c, d, e] => some (.buzzer ⟨a, b, c, d, e⟩)
  | _ => none

/-- src/osdp_pd.c:402-414, 423-447, 456-469: handle `n` records of `k` bytes; stops at the first one
that is not allowed or refused. -/
def records (dec : List Byte → Option Cmd) (k : Nat) (env : Env) :
    Nat → Nat → Pd → List Byte → Res (Pd × List Out)
  | 0, _, p, _ => .ok (p, [])
  | n + 1, i, p, body =>
    match dec (body.take k) with
    | none => .error .oobRead
    | some c =>
      match capOk p (some c) with
      | (p, false) => .ok (p, [])
      | (p, true) => do
        match ← callback p env i c with
        | (p, outs, none) => .ok (p, outs)
        | (p, outs, some _) =>
          let (p, outs') ← records dec k env n (i + 1) p (body.drop k)
          .ok (p, outs ++ outs')

/-- `pd->reply_id = r; ret = OSDP_PD_ERR_NONE` -/
def reply (p : Pd) (r : Nat) (outs : List Out := []) : Res (Pd × List Out × PdRet) :=
  .ok ({ p with replyId := r }, outs, .none)

/-- `break` with `ret == OSDP_PD_ERR_GENERIC` and lines 667-673 -/
def badLen (p : Pd) (outs : List Out := []) : Res (Pd × List Out × PdRet) :=
  .ok (setNak p Nak.CMD_LEN, outs, .reply)

/-- src/osdp_pd.c:313-380: the four status commands.  The callback sees a status request of the given
type (the other members are uninitialised in C, zero here) and edits it in place. -/
def statusCmd (p : Pd) (env : Env) (ty : StatusType) (r : Nat) : Res (Pd × List Out × PdRet) := do
  match ← callback p env 0 (.status ⟨ty, 0, 0⟩) with
  | (p, outs, none) => badLen p outs
  | (p, outs, some (.status s)) => reply { p with eph := .event (.status s) } r outs
  | (_, _, some _) => .error .contract

/-- src/osdp_pd.c:397-472: OUT, LED, BUZ -/
def recordsCmd (p : Pd) (env : Env) (dec : List Byte → Option Cmd) (k : Nat) (body : List Byte) :
    Res (Pd × List Out × PdRet) :=
  if body.length % k ≠ 0 ∨ env.cb.isNone then badLen p
  else do
    let (p, outs) ← records dec k env (body.length / k) 0 p body
    reply p Id.ACK outs

/-- src/osdp_pd.c:473-499: TEXT -/
def textCmd (p : Pd) (env : Env) (body : List Byte) : Res (Pd × List Out × PdRet) :=
  if env.cb.isNone then badLen p
  else match body with
  | a :: b :: c :: d :: e :: n :: text =>
    if n.toNat > 32 ∨ text.length < n.toNat then badLen p
    else
      let cmd := Cmd.text ⟨a, b, c, d, e, n, .padTo 32 (text.take n.toNat)⟩
      match capOk p (some cmd) with
      | (p, false) => .ok (p, [], .reply)
      | (p, true) => do
        match ← callback p env 0 cmd with
        | (p, outs, none) => .ok (p, outs, .reply)
        | (p, outs, some _) => reply p Id.ACK outs
  | _ => badLen p

/-- the baud rates of src/osdp_pd.c:511-516 -/
def validBaud (n : Nat) : Bool := [9600, 19200, 38400, 57600, 115200, 230400].contains n

/-- src/osdp_pd.c:500-529: COMSET -/
def comsetCmd (p : Pd) (env : Env) (body : List Byte) : Res (Pd × List Out × PdRet) :=
  if env.cb.isNone then badLen p
  else match body with
  | [a, b0, b1, b2, b3] =>
    let baud := ofLe [b0, b1, b2, b3]
    if a.toNat ≥ 0x7F ∨ ¬ validBaud baud then badLen p
    else do
      match ← callback p env 0 (.comset ⟨a, BitVec.ofNat 32 baud⟩) with
      | (p, outs, none) => .ok (p, outs, .reply)
      | (p, outs, some (.comset c)) => reply { p with eph := .cmd (.comset c) } Id.COM outs
      | (_, _, some _) => .error .contract
  | _ => badLen p

/-- src/osdp_pd.c:530-559: MFG (the branch `ret > 0` can never be taken) -/
def mfgCmd (p : Pd) (env : Env) (body : List Byte) : Res (Pd × List Out × PdRet) :=
  if env.cb.isNone then badLen p
  else match body with
  | v0 :: v1 :: v2 :: c :: data =>
    let n := data.length % 256
    if n > 64 then badLen p
    else do
      let cmd := Cmd.mfg ⟨BitVec.ofNat 32 (ofLe [v0, v1, v2]), c, b8 n, .padTo 64 (data.take n)⟩
      match ← callback p env 0 cmd with
      | (p, outs, none) => .ok (p, outs, .reply)
      | (p, outs, some _) => reply p Id.ACK outs
  | _ => badLen p

/-- src/osdp_pd.c:592-628: KEYSET -/
def keysetCmd (p : Pd) (env : Env) (body : List Byte) : Res (Pd × List Out × PdRet) :=
  if h : body.length ≠ 18 then badLen p
  else
    let ty := body[0]'(by omega)
    let n := body[1]'(by omega)
    if ty ≠ 1#8 ∨ n ≠ 16#8 then badLen p
    else
      let p := setNak p Nak.SC_COND
      match capOk p none with
      | (p, false) => .ok (p, [], .reply)
      | (p, true) =>
        if ¬ p.scActive then .ok (p, [], .reply)
        else if env.cb.isNone then .ok (p, [], .reply)
        else do
          match ← callback p env 0 (.keyset ⟨ty, n, .padTo 32 (body.drop 2)⟩) with
          | (p, outs, none) => .ok (p, outs, .reply)
          | (p, outs, some (.keyset k)) =>
            reply { p with eph := .key ⟨k.data.1.take 16, by simp [k.data.2]⟩ } Id.ACK outs
          | (_, _, some _) => .error .contract

/-- src/osdp_pd.c:629-641: CHLNG -/
def chlngCmd (p : Pd) (body : List Byte) : Res (Pd × List Out × PdRet) :=
  if h : body.length ≠ 8 then badLen p
  else match capOk p none with
    | (p, false) => .ok (p, [], .reply)
    | (p, true) =>
      reply { p.scDeactivate with sc := { p.sc with cpRandom := ⟨body, by omega⟩ } } Id.CCRYPT

/-- src/osdp_pd.c:642-659: SCRYPT -/
def scryptCmd (p : Pd) (body : List Byte) : Res (Pd × List Out × PdRet) :=
  if h : body.length ≠ 16 then badLen p
  else match capOk p none with
    | (p, false) => .ok (p, [], .reply)
    | (p, true) =>
      if p.scActive then .ok (setNak p Nak.SC_COND, [], .reply)
      else reply { p with sc := { p.sc with cpCryptogram := ⟨body, by omega⟩ } } Id.RMAC_I

/-- src/osdp_pd.c:298-665: the switch over the command id -/
def dispatch (p : Pd) (env : Env) (body : List Byte) : Res (Pd × List Out × PdRet) :=
  let id := p.cmdId
  if id = Id.POLL then
    if body ≠ [] then badLen p else let q := pollEvent p; reply q q.replyId
  else if id = Id.LSTAT then
    if body ≠ [] then badLen p else statusCmd p env .localStat Id.LSTATR
  else if id = Id.ISTAT then
    if body ≠ [] ∨ env.cb.isNone then badLen p
    else match capOk p none with
      | (p, false) => .ok (p, [], .reply)
      | (p, true) => statusCmd p env .input Id.ISTATR
  else if id = Id.OSTAT then
    if body ≠ [] ∨ env.cb.isNone then badLen p
    else match capOk p none with
      | (p, false) => .ok (p, [], .reply)
      | (p, true) => statusCmd p env .output Id.OSTATR
  else if id = Id.RSTAT then
    if body ≠ [] ∨ env.cb.isNone then badLen p else statusCmd p env .remote Id.RSTATR
  else if id = Id.ID then
    if body.length ≠ 1 then badLen p else reply p Id.PDID
  else if id = Id.CAP then
    if body.length ≠ 1 then badLen p else reply p Id.PDCAP
  else if id = Id.OUT then recordsCmd p env decOutput 4 body
  else if id = Id.LED then recordsCmd p env decLed 14 body
  else if id = Id.BUZ then recordsCmd p env decBuzzer 5 body
  else if id = Id.TEXT then textCmd p env body
  else if id = Id.COMSET then comsetCmd p env body
  else if id = Id.MFG then mfgCmd p env body
  else if id = Id.ACURXSIZE then
    match body with
    | b0 :: b1 :: _ => reply { p with peerRx := ofLe [b0, b1] } Id.ACK
    | _ => badLen p
  else if id = Id.KEEPACTIVE then
    match body with
    | b0 :: b1 :: _ => reply { p with scTstamp := p.scTstamp + ofLe [b0, b1] } Id.ACK
    | _ => badLen p
  else if id = Id.ABORT then
    if body ≠ [] then badLen p
    else let (f, outs) := File.abort p.file; reply { p with file := f } Id.ACK outs
  else if id = Id.FILETRANSFER then do
    let r ← File.txDecode p.file env body
    let p := { p with file := r.file }
    -- `osdp_file_cmd_tx_decode` returns -1, which is the value of `OSDP_PD_ERR_WAIT`
    if r.ok then reply p Id.FTSTAT r.outs else .ok (p, r.outs, .wait)
  else if id = Id.KEYSET then keysetCmd p env body
  else if id = Id.CHLNG then chlngCmd p body
  else if id = Id.SCRYPT then scryptCmd p body
  else .ok (setNak p Nak.CMD_UNKNOWN, [], .reply)

/-- src/osdp_pd.c:278-279: note the command, no reply yet -/
def noteCmd (p : Pd) (id : Byte) : Pd := { p with replyId := 0, cmdId := id.toNat }

/-- src/osdp_pd.c:282-296: in plain text an ENFORCE_SECURE PD answers only these commands -/
def plainRefused (p : Pd) : Bool :=
  p.flags.enforceSecure && !p.scActive && p.cmdId != Id.ID && p.cmdId != Id.CAP &&
    p.cmdId != Id.CHLNG && p.cmdId != Id.SCRYPT

/-- src/osdp_pd.c:272-682 `pd_decode_command`: `data` starts at the id byte, `len > 0` -/
def decodeCommand (p : Pd) (env : Env) (data : List Byte) (len : Nat) :
    Res (Pd × List Out × PdRet) := do
  let id ← rd data 0
  if plainRefused (noteCmd p id) then
    if cmdNameOk id.toNat then .ok (setNak (noteCmd p id) Nak.SC_COND, [], .reply) else .error .nullDeref
  else if data.length < len then .error .oobRead
  else dispatch (noteCmd p id) env ((data.take len).drop 1)

/-! ### replies -/

/-- src/osdp_pd.c:684-688 `assert_buf_len` -/
def assertLen (need have_ : Int) : Res Unit := if need < have_ then .ok () else .error .assertFail

/-- What building a reply yields: the new state, the packet header (security block), effects, and
either the body or "failed" with the number of bytes written before the failure. -/
structure Built where
  p : Pd
  t : Phy.Tx
  outs : List Out := []
  body : Except Nat (List Byte)

/-- src/osdp_pd.c:752-779: ISTATR/OSTATR -/
def statusReply (p : Pd) (t : Phy.Tx) (cap : Cap) (have_ : Int) : Res Built :=
  match p.eph with
  | .event (.status s) =>
    let n := cap.numItems.toNat
    if s.nrEntries ≠ n then .ok { p, t, body := .error 0 }
    else do
      assertLen (n + 1) have_
      if n > 31 then .error .badShift
      else .ok { p, t, body := .ok (b8 p.replyId ::
        (List.range n).map fun i => if s.mask.getLsbD i then 1#8 else 0#8) }
  | _ => .error .typePun

/-- `memcpy(buf + len, src, n)` from an array member of `src.length` bytes -/
def copyOut (src : List Byte) (n : Int) : Res (List Byte) :=
  if 0 ≤ n ∧ n ≤ src.length then .ok (src.take n.toNat) else .error .oobRead

/-- `uint8_t` value of a card format -/
def formatByte : CardFormat → Byte
  | .rawUnspecified => 0#8
  | .rawWiegand => 1#8
  | .ascii => 2#8
  | .other n => b8 n

/-- src/osdp_pd.c:734-751: the capability entries of PDCAP.  `room` is `max_len`. -/
def capEntries (cap : Fin 17 → Cap) : List (Fin 17) → Int → List Byte
  | [], _ => []
  | i :: is, room =>
    if (cap i).code.toNat ≠ i.val then capEntries cap is room
    else if room < 3 then []
    else b8 i.val :: (cap i).compliance :: (cap i).numItems :: capEntries cap is (room - 3)

/-- the indices 1..16 -/
def capIdx : List (Fin 17) := [1, 2, 3, 4, 5, 6, 7, 8, 9, 10, 11, 12, 13, 14, 15, 16]

/-- src/osdp_pd.c:713-733: PDID -/
def pdidBody (id : PdId) : List Byte :=
  [b8 Id.PDID, byteOf 0 id.vendor, byteOf 1 id.vendor, byteOf 2 id.vendor, i8 id.model, i8 id.version,
   byteOf 0 id.serial, byteOf 1 id.serial, byteOf 2 id.serial, byteOf 3 id.serial,
   byteOf 2 id.firmware, byteOf 1 id.firmware, byteOf 0 id.firmware]

/-- src/osdp_pd.c:707-915: the switch over the reply id.  A handshake reply needs the three-byte
security block that `osdp_phy_packet_init` provides while the channel is inactive; with an active
channel (unreachable) the block would overlap the data. -/
def replyBody (C : Cipher) (p : Pd) (env : Env) (t : Phy.Tx) (have_ : Int) : Res Built :=
  let id := p.replyId
  if id = Id.ACK then do
    assertLen 1 have_
    .ok { p, t, body := .ok [b8 id] }
  else if id = Id.PDID then do
    assertLen 13 have_
    .ok { p, t, body := .ok (pdidBody p.id) }
  else if id = Id.PDCAP then do
    assertLen 1 have_
    .ok { p, t, body := .ok (b8 id :: capEntries p.cap capIdx have_) }
  else if id = Id.OSTATR then statusReply p t (p.cap 2) have_
  else if id = Id.ISTATR then statusReply p t (p.cap 1) have_
  else if id = Id.LSTATR then do
    assertLen 3 have_
    match p.eph with
    | .event (.status s) =>
      .ok { p, t, body := .ok [b8 id, if s.mask.getLsbD 0 then 1 else 0, if s.mask.getLsbD 1 then 1 else 0] }
    | _ => .error .typePun
  else if id = Id.RSTATR then do
    assertLen 2 have_
    match p.eph with
    | .event (.status s) => .ok { p, t, body := .ok [b8 id, if s.mask.getLsbD 0 then 1 else 0] }
    | _ => .error .typePun
  else if id = Id.KEYPAD then
    match p.eph with
    | .event (.keypress k) => do
      assertLen (2 + k.length) have_
      let d ← copyOut k.data.1 k.length
      .ok { p, t, body := .ok ([b8 id, i8 k.readerNo, i8 k.length] ++ d) }
    | _ => .error .typePun
  else if id = Id.RAW then
    match p.eph with
    | .event (.cardread c) => do
      let n := Int.tdiv (c.length + 7) 8
      assertLen (4 + n) have_
      let d ← copyOut c.data.1 n
      .ok { p, t, body := .ok ([b8 id, i8 c.readerNo, formatByte c.format] ++ le16 (u32 c.length) ++ d) }
    | _ => .error .typePun
  else if id = Id.COM then do
    assertLen 6 have_
    match p.eph with
    | .cmd (.comset c) =>
      .ok { p := { p with address := c.address.toNat, baudRate := c.baudRate.toInt }, t,
            body := .ok (b8 id :: c.address :: le32 c.baudRate.toNat) }
    | _ => .error .typePun
  else if id = Id.NAK then do
    assertLen 2 have_
    match p.eph with
    | .nak c => .ok { p, t, body := .ok [b8 id, c] }
    | _ => .error .typePun
  else if id = Id.MFGREP then
    match p.eph with
    -- read as `struct osdp_cmd`, whose `mfg` member has the layout of `struct osdp_event_mfgrep`
    | .event (.mfgrep m) => do
      assertLen (4 + m.length.toNat) have_
      let d ← copyOut m.data.1 m.length.toNat
      .ok { p, t, body := .ok ([b8 id, byteOf 0 m.vendor.toNat, byteOf 1 m.vendor.toNat,
              byteOf 2 m.vendor.toNat, m.command] ++ d) }
    | _ => .error .typePun
  else if id = Id.FTSTAT then do
    let (f, outs, r) ← File.statBuild p.file env have_
    let p := { p with file := f }
    match r with
    | none => .ok { p, t, outs, body := .error 1 }
    | some bs => .ok { p, t, outs, body := .ok (b8 id :: bs) }
  else if id = Id.CCRYPT then
    if t.scb = [] then .ok { p, t, body := .error 0 }
    else if t.scb.length ≠ 3 then .error .typePun
    else do
      assertLen 33 have_
      let sc := { p.sc with pdRandom := env.random }
      let sc := Sc.sessionKeys C p.flags.useScbkd sc
      let sc := Sc.computePdCryptogram C sc
      .ok { p := { p with sc := sc }, t := { t with scb := [3#8, 0x12#8, if p.flags.useScbkd then 0 else 1] },
            body := .ok (b8 id :: (sc.pdClientUid.1 ++ sc.pdRandom.1 ++ sc.pdCryptogram.1)) }
  else if id = Id.RMAC_I then
    if t.scb = [] then .ok { p, t, body := .error 0 }
    else if t.scb.length ≠ 3 then .error .typePun
    else do
      assertLen 17 have_
      let sc := Sc.computeRmacI C p.sc
      let ok := Sc.verifyCpCryptogram C sc
      let p := { p with sc := sc }
      let p := if ok then { p.scActivate with scTstamp := env.now } else p
      .ok { p, t := { t with scb := [3#8, 0x14#8, if ok then 1 else 0] },
            body := .ok (b8 id :: sc.rMac.1) }
  else .ok { p, t, body := .error 0 }

/-- src/osdp_pd.c:695-933 `pd_build_reply`: state, header, effects, body.  With an active secure
channel the block type becomes SCS_18 (data) or SCS_16 (no data); any failure is reported as
NAK(record). -/
def buildReply (C : Cipher) (p : Pd) (env : Env) (t : Phy.Tx) (maxLen : Nat) :
    Res (Pd × Phy.Tx × List Out × List Byte) := do
  let have_ : Int := maxLen - t.dataOff
  let b ← replyBody C p env t have_
  let n := match b.body with | .ok l => l.length | .error k => k
  let t := match b.t.scb[1]? with
    | some ty => if ty > 0x14#8 ∧ b.p.scActive then
        { b.t with scb := [2#8, if n > 1 then 0x18#8 else 0x16#8] } else b.t
    | none => b.t
  match b.body with
  | .ok l => .ok (b.p, t, b.outs, l)
  | .error _ => do
    assertLen 2 have_
    .ok (b.p, t, b.outs, [b8 Id.NAK, Nak.RECORD])

/-- src/osdp_pd.c:935-960 `pd_send_reply`; the Boolean is `OSDP_PD_ERR_NONE` -/
def sendReply (C : Cipher) (p : Pd) (env : Env) : Res (Pd × List Out × Bool) := do
  let size := p.txBufSize
  match Phy.packetInit p size with
  | none => .ok (p, [], false)
  | some (p, t) =>
    let (p, t, outs, body) ← buildReply C p env t size
    let (p, outs', ok) ← Phy.sendPacket C p env t body size
    .ok (p, outs ++ outs', ok)

/-- src/osdp_pd.c:988-996: decode and execute the packet in the buffer -/
def process (C : Cipher) (p : Pd) (env : Env) : Res (Pd × List Out × PdRet) := do
  let (p, d) ← Phy.decodePacket C p
  if d.len ≤ 0 then .ok (p, [], if d.len = Phy.PKT_NACK then .reply else .generic)
  else decodeCommand p env d.data d.len.toNat

/-- src/osdp_pd.c:962-997 `pd_receive_and_process_command` -/
def receiveAndProcess (C : Cipher) (p : Pd) (env : Env) : Res (Pd × List Out × PdRet) := do
  let (p, r) ← Phy.checkPacket p env
  match r with
  | .none => process C p env
  | .nack => .ok (p, [], .reply)
  | .noData => .ok (p, [], .noData)
  | .wait => .ok (p, [], .wait)
  | .skip => .ok ((Phy.stateReset p false).1, [], .ignore)
  | .fmt => .ok (p, [], .generic)
  -- returned as they are: `OSDP_ERR_PKT_CHECK` and `OSDP_ERR_PKT_BUSY` have the values of
  -- `OSDP_PD_ERR_IGNORE` and `OSDP_PD_ERR_NO_DATA` (never produced in PD mode)
  | .check => .ok (p, [], .ignore)
  | .busy => .ok (p, [], .noData)

/-- src/osdp_pd.c:999-1003 `pd_error_reset` -/
def errorReset (p : Pd) : Pd := (Phy.stateReset p.scDeactivate false).1

/-- `OSDP_PD_SC_TIMEOUT_MS` -/
abbrev PD_SC_TIMEOUT : Int := 8000
/-- `OSDP_RESP_TOUT_MS` -/
abbrev RESP_TOUT : Int := 200

/-- src/osdp_pd.c:1041-1047: a KEYSET that was acknowledged takes effect -/
def commitKeyset (p : Pd) : Res Pd :=
  if p.cmdId = Id.KEYSET ∧ p.replyId = Id.ACK then
    match p.eph with
    | .key k =>
      let q : Pd := { p with
        sc := { p.sc with scbk := k }
        flags := { p.flags with useScbkd := false, installMode := false } }
      .ok q.scDeactivate
    | _ => .error .typePun
  else .ok p

/-- src/osdp_pd.c:1010-1018: drop a secure channel that was not used for too long -/
def expire (p : Pd) (now : Int) : Pd :=
  if p.scActive ∧ now - p.scTstamp > PD_SC_TIMEOUT then p.scDeactivate else p

/-- src/osdp_pd.c:1033-1035: a command processed in the secure channel keeps it alive -/
def touch (p : Pd) (ret : PdRet) (now : Int) : Pd :=
  if ret = .none ∧ p.scActive then { p with scTstamp := now } else p

/-- src/osdp_pd.c:1038-1052, once `pd_send_reply` returned -/
def afterSend (p : Pd) (ok : Bool) : Res Pd := do
  let p ← if ok then commitKeyset p else .ok p
  .ok (Phy.stateReset p false).1

/-- src/osdp_pd.c:1020-1057: what follows the processing of a packet -/
def finish (C : Cipher) (p : Pd) (env : Env) (ret : PdRet) : Res (Pd × List Out) :=
  if ret = .ignore ∨ ret = .noData then .ok (p, [])
  else if ret = .wait ∧ env.now - p.tstamp < RESP_TOUT then .ok (p, [])
  else if ret ≠ .none ∧ ret ≠ .reply then .ok (errorReset p, [])
  else do
    let (q, outs, ok) ← sendReply C (touch p ret env.now) env
    let q ← afterSend q ok
    .ok (q, outs)

/-- src/osdp_pd.c:1005-1058 `osdp_pd_update` = lines 1185-1191 `osdp_pd_refresh` -/
def refresh (C : Cipher) (p : Pd) (env : Env) : Res (Pd × List Out) := do
  let (p, outs, ret) ← receiveAndProcess C (expire p env.now) env
  let (p, outs') ← finish C p env ret
  .ok (p, outs ++ outs')

/-! ### setup and API -/

/-- `osdp_pd_info_t` as far as it matters here -/
structure Info where
  address : Int
  baudRate : Int
  /-- `OSDP_FLAG_*` of `info->flags`; the internal bits must be clear -/
  enforceSecure : Bool := false
  installMode : Bool := false
  allowEmpty : Bool := false
  ignUnsolicited : Bool := false
  enableNotif : Bool := false
  cap : List Cap := []
  id : PdId
  scbk : Option Block := none
  hasFlush : Bool := false
  chanId : Int := 0

/-- src/osdp_pd.c:1060-1078 `osdp_pd_set_attributes` on a capability list -/
def setCaps (cap : Fin 17 → Cap) : List Cap → Fin 17 → Cap
  | [] => cap
  | c :: cs =>
    if h : 0 < c.code.toNat ∧ c.code.toNat < 17 then
      setCaps (fun i => if i = ⟨c.code.toNat, h.2⟩ then c else cap i) cs
    else cap

/-- src/osdp_pd.c:59-81 implicit capabilities -/
def implicitCaps : List Cap := [⟨8, 1, 0⟩, ⟨9, 1, 0⟩, ⟨10, 0, 1⟩, ⟨16, 2, 0⟩]

/-- the zeroed object from `calloc` -/
def blank (poolCap : Nat) : Pd :=
  { flags := {}, idx := 0, baudRate := 0, address := 0, seq := 0, id := ⟨0, 0, 0, 0, 0⟩,
    cap := fun _ => ⟨0, 0, 0⟩, state := .init, phyState := .idle, retryCount := 0, waitMs := 0,
    tstamp := 0, scTstamp := 0, phyTstamp := 0, reqRestartSc := false, reqEventSend := false,
    reqOffline := false, peerRx := 0, rx := [], packetBuf := List.replicate 256 0#8, packetLen := 0,
    packetBufLen := 0, cmdId := 0, replyId := 0, eph := .none, cmdQueue := [], eventQueue := [],
    poolCap := poolCap, chanId := 0, hasFlush := false, sc := Sc.zero, file := none }

/-- src/osdp_pd.c:1082-1167 `osdp_pd_setup`; `none` for NULL.  `skipMark`:
`CONFIG_OSDP_SKIP_MARK_BYTE`; `poolCap`: number of events the pool holds. -/
def setup (info : Info) (skipMark : Bool) (poolCap : Nat) : Option Pd :=
  if info.scbk.isNone ∧ info.enforceSecure then none
  else some
    { blank poolCap with
      baudRate := info.baudRate, address := info.address, seq := -1, hasFlush := info.hasFlush,
      flags := { enforceSecure := info.enforceSecure, allowEmpty := info.allowEmpty,
                 ignUnsolicited := info.ignUnsolicited, enableNotif := info.enableNotif,
                 installMode := info.installMode || info.scbk.isNone, scCapable := true,
                 skipMark := skipMark, pdMode := true },
      id := info.id,
      cap := setCaps (setCaps (fun _ => ⟨0, 0, 0⟩) info.cap) implicitCaps,
      sc := { Sc.zero with scbk := info.scbk.getD (.zero 16) } }

/-- src/osdp_pd.c:1193-1199 `osdp_pd_set_capabilities` -/
def setCapabilities (p : Pd) (caps : List Cap) : Pd := { p with cap := setCaps p.cap caps }

/-- src/osdp_pd.c:1211-1225 `osdp_pd_notify_event`: state and return value -/
def notifyEvent (p : Pd) (e : Event) : Pd × Int :=
  if p.eventQueue.length < p.poolCap then ({ p with eventQueue := p.eventQueue ++ [e] }, 0)
  else (p, -1)

/-- src/osdp_pd.c:1227-1240 `osdp_pd_flush_events` -/
def flushEvents (p : Pd) : Pd × Int := ({ p with eventQueue := [] }, p.eventQueue.length)

/-- src/osdp_file.c:420-437 `osdp_file_register_ops` -/
def registerFileOps (p : Pd) : Pd := { p with file := some File.reset }

end Osdp.PdM
