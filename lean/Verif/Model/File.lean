import Verif.Model.Types

/-!
# File transfer: src/osdp_file.c
-/

namespace Osdp.File

/-- src/osdp_file.c:26-38 `file_state_reset`, also the state after `osdp_file_register_ops`
(lines 420-437) -/
def reset : FileSt :=
  { flags := 0, fileId := 0, state := .idle, length := 0, size := 0, offset := 0, errors := 0,
    cancelReq := false, tstamp := 0, waitTimeMs := 0 }

/-- src/osdp_file.c:22-24 flag bits -/
def FLAG_EXCLUSIVE : BitVec 32 := 0x01000000#32
def FLAG_PLAIN_TEXT : BitVec 32 := 0x02000000#32
def FLAG_POLL_RESP : BitVec 32 := 0x04000000#32
/-- include/osdp.h `OSDP_CMD_FILE_TX_FLAG_CANCEL` -/
def FLAG_CANCEL : BitVec 32 := 0x80000000#32

/-- `SET_FLAG_V` -/
def setFlagV (f m : BitVec 32) (v : Bool) : BitVec 32 := if v then f ||| m else f &&& ~~~m

/-- `ISSET_FLAG` -/
def isSet (f m : BitVec 32) : Bool := f &&& m == m

/-- src/osdp_file.c:47-56 `write_file_tx_header` -/
def txHeader (f : FileSt) : List Byte :=
  i8 f.fileId :: (le32 f.size ++ le32 f.offset ++ le16 (u32 f.length))

/-- src/osdp_file.c:58-118 `osdp_file_cmd_tx_build`; `none` for a negative return value, else the
bytes put in the buffer.  A `read` that claims to have stored more than it was asked to breaks its
contract. -/
def txBuild (file : Option FileSt) (env : Env) (maxLen : Int) :
    Res (Option FileSt × List Out × Option (List Byte)) :=
  match file with
  | none => .error .bug
  | some f =>
    if f.state ≠ .inprog ∧ f.state ≠ .keepAlive then .error .bug
    else if maxLen ≤ 11 then .ok (some reset, [], none)
    else if f.state = .keepAlive then .ok (some f, [], some (txHeader f))
    else
      let avail := maxLen - 11 - 16
      let (rc, bytes) := env.fread avail (toI32 f.offset)
      let out := [Out.fread avail (toI32 f.offset)]
      if rc ≤ 0 then .ok (some reset, out, none)
      else if rc > avail ∨ (bytes.length : Int) ≠ rc then .error .contract
      else
        let f := { f with length := rc }
        .ok (some f, out, some (txHeader f ++ bytes))

/-- the outcome of a file reply/command handler -/
structure Result where
  file : Option FileSt
  outs : List Out
  /-- return value 0 -/
  ok : Bool
  /-- `make_request(pd, CP_REQ_OFFLINE)` -/
  offline : Bool := false

/-- signed 16-bit value of two bytes -/
def int16 (lo hi : Byte) : Int := (hi ++ lo).toInt

/-- src/osdp_file.c:120-192 `osdp_file_cmd_stat_decode` on the bytes after the reply id -/
def statDecode (file : Option FileSt) (env : Env) (body : List Byte) : Res Result :=
  match file with
  | none => .ok ⟨none, [], false, false⟩
  | some f =>
    if f.state ≠ .inprog then .ok ⟨some f, [], false, false⟩
    else match body with
    | [control, d0, d1, s0, s1, _, _] =>
      let off := (f.offset + u32 f.length) % 4294967296
      if off > f.size then .error .assertFail
      else
        let fl := setFlagV f.flags FLAG_EXCLUSIVE (control &&& 1#8 == 0#8)
        let fl := setFlagV fl FLAG_PLAIN_TEXT (control &&& 2#8 != 0#8)
        let fl := setFlagV fl FLAG_POLL_RESP (control &&& 4#8 != 0#8)
        let doClose := f.length ≠ 0 ∧ off = f.size
        let g := { f with flags := fl, offset := off, waitTimeMs := ofLe [d0, d1],
                          tstamp := env.now, length := 0, errors := 0 }
        if off ≠ f.size then .ok ⟨some g, [], true, false⟩
        else
          let out := if doClose then [Out.fclose] else []
          let status := int16 s0 s1
          if status = 3 then .ok ⟨some { g with state := .keepAlive }, out, true, false⟩
          else if status = 2 then .ok ⟨some { g with state := .done }, out, true, true⟩
          else if status = 1 then .ok ⟨some { g with state := .done }, out, true, false⟩
          else .ok ⟨some { g with errors := 1 }, out, false, false⟩
    | _ => if body.length < 7 then .ok ⟨some f, [], false, false⟩ else .error .assertFail

/-- a FILETRANSFER command (src/osdp_file.c:210-221: the header, then at least one byte of data) -/
structure Chunk where
  type : Byte
  size : Nat
  offset : Nat
  length : Nat
  data : List Byte
  deriving DecidableEq, Repr

/-- src/osdp_file.c:210-219: split a command body -/
def chunk : List Byte → Option Chunk
  | ty :: z0 :: z1 :: z2 :: z3 :: o0 :: o1 :: o2 :: o3 :: l0 :: l1 :: data =>
    if data = [] then none
    else some ⟨ty, ofLe [z0, z1, z2, z3], ofLe [o0, o1, o2, o3], ofLe [l0, l1], data⟩
  | _ => none

/-- src/osdp_file.c:251-264: write a chunk -/
def chunkWrite (f : FileSt) (env : Env) (c : Chunk) (outs : List Out) : Result :=
  if f.state ≠ .inprog then ⟨some f, outs, false, false⟩
  else
    let rc := env.fwrite c.data (toI32 c.offset)
    if rc ≠ c.length then
      ⟨some { f with length := rc, errors := f.errors + 1 }, outs ++ [.fwrite c.data (toI32 c.offset)], false, false⟩
    else ⟨some { f with length := rc }, outs ++ [.fwrite c.data (toI32 c.offset)], true, false⟩

/-- src/osdp_file.c:224-235: the application is asked whether it wants the file; `true` for no -/
def rxVeto (f : FileSt) (env : Env) (c : Chunk) : Bool × List Out :=
  match env.cb with
  | none => (false, [])
  | some cb =>
    let cmd := Cmd.fileTx { id := c.type.toNat, flags := f.flags }
    (decide ((cb 0 cmd).1 < 0), [.cmd cmd])

/-- src/osdp_file.c:223-249: begin receiving a file -/
def rxBegin (f : FileSt) (env : Env) (c : Chunk) : Option FileSt × List Out :=
  match rxVeto f env c with
  | (true, outs) => (none, outs)
  | (false, outs) =>
    if (env.fopen c.type.toNat (toI32 c.size)).1 < 0 then
      (none, outs ++ [.fopen c.type.toNat (toI32 c.size)])
    else
      (some { reset with fileId := c.type.toNat, size := c.size, state := .inprog },
        outs ++ [.fopen c.type.toNat (toI32 c.size)])

/-- src/osdp_file.c:196-265 `osdp_file_cmd_tx_decode` on the bytes after the command id -/
def txDecode (file : Option FileSt) (env : Env) (body : List Byte) : Res Result :=
  match file with
  | none => .ok ⟨none, [], false, false⟩
  | some f =>
    match chunk body with
    | none => .ok ⟨some f, [], false, false⟩
    | some c =>
      if c.length ≠ c.data.length then .error .assertFail
      else if f.state = .idle ∨ f.state = .done then
        match rxBegin f env c with
        | (none, outs) => .ok ⟨some f, outs, false, false⟩
        | (some f, outs) => .ok (chunkWrite f env c outs)
      else .ok (chunkWrite f env c [])

/-- `struct osdp_cmd_file_stat` with status `s` as sent by `osdp_file_cmd_stat_build` -/
def statBytes (s : BitVec 16) : List Byte :=
  [0x01#8, 0#8, 0#8, s.setWidth 8, (s >>> 8).setWidth 8, 0#8, 0#8]

/-- src/osdp_file.c:267-319 `osdp_file_cmd_stat_build`; `none` for a negative return value -/
def statBuild (file : Option FileSt) (env : Env) (maxLen : Int) :
    Res (Option FileSt × List Out × Option (List Byte)) :=
  match file with
  | none => .ok (none, [], none)
  | some f =>
    if f.state ≠ .inprog then .ok (some f, [], none)
    else if maxLen < 7 then .ok (some f, [], none)
    else
      let off := if f.length > 0 then (f.offset + u32 f.length) % 4294967296 else f.offset
      let status : BitVec 16 := if f.length > 0 then 0 else BitVec.ofInt 16 (-3)
      let f := { f with offset := off, length := 0 }
      if off > f.size then .error .assertFail
      else if off = f.size then
        if env.fclose < 0 then .ok (some f, [.fclose], none)
        else .ok (some { f with state := .done }, [.fclose], some (statBytes 1))
      else .ok (some f, [], some (statBytes status))

/-- src/osdp_file.c:323-331 `osdp_file_tx_abort` -/
def abort (file : Option FileSt) : Option FileSt × List Out :=
  match file with
  | none => (none, [])
  | some f => if f.state = .inprog then (some reset, [.fclose]) else (some f, [])

/-- what `osdp_file_tx_get_command` tells the CP to do next -/
inductive Next where
  /-- 0: nothing to send -/
  | nothing
  /-- -1: send nothing at all -/
  | hold
  /-- send this command -/
  | send (id : Nat)
  deriving DecidableEq, Repr

/-- src/osdp_file.c:341-365 `osdp_file_tx_get_command` -/
def getCommand (file : Option FileSt) (now : Int) : Option FileSt × List Out × Next :=
  match file with
  | none => (none, [], .nothing)
  | some f =>
    if f.state = .idle ∨ f.state = .done then (some f, [], .nothing)
    else if f.errors > 10 ∨ f.cancelReq then
      let (g, outs) := abort (some f)
      (g, outs, .send Id.ABORT)
    else if f.waitTimeMs ≠ 0 ∧ now - f.tstamp < f.waitTimeMs then
      (some f, [], if isSet f.flags FLAG_EXCLUSIVE then .hold else .nothing)
    else if isSet f.flags FLAG_POLL_RESP then (some f, [], .send Id.POLL)
    else (some f, [], .send Id.FILETRANSFER)

/-- src/osdp_file.c:370-416 `osdp_file_tx_command`; the Boolean is "returned 0" -/
def txCommand (file : Option FileSt) (env : Env) (fileId : Int) (flags : BitVec 32) :
    Option FileSt × List Out × Bool :=
  match file with
  | none => (none, [], false)
  | some f =>
    if f.state = .inprog then
      if flags &&& FLAG_CANCEL != 0 then
        if fileId = f.fileId then (some { f with cancelReq := true }, [], true)
        else (some f, [], false)
      else (some f, [], false)
    else if flags &&& FLAG_CANCEL != 0 then (some f, [], false)
    else
      let (rc, size) := env.fopen fileId 0
      let out := [Out.fopen fileId 0]
      if rc < 0 then (some f, out, false)
      else if size ≤ 0 then (some f, out, false)
      else (some { reset with flags := flags, fileId := fileId, size := size.toNat, state := .inprog },
        out, true)

/-- src/osdp_file.c:439-453 `osdp_get_file_tx_status`: `none` for -1, else size and offset -/
def txStatus (file : Option FileSt) : Res (Option (Nat × Nat)) :=
  match file with
  | none => .error .nullDeref
  | some f => if f.state ≠ .inprog ∧ f.state ≠ .done then .ok none else .ok (some (f.size, f.offset))

end Osdp.File
