import Verif.Model.Cp

/-!
# Control panel context: src/osdp_cp.c:116-150, 1321-1643 and src/osdp_common.c:235-283
-/

namespace Osdp.CpM

/-- `struct osdp` in CP mode.  `lock` is `channel_lock` (`none` = NULL), `cur` the array index of
`_current_pd`. -/
structure Ctx where
  pds : List Pd
  lock : Option (List Int)
  numChannels : Nat
  cur : Nat
  cb : Bool

/-- src/osdp_cp.c:116-137 `cp_channel_acquire` for the PD object `p`: the new lock table, or `none`
for -1 -/
def acquire (lock : Option (List Int)) (p : Pd) : Res (Option (List Int)) :=
  match lock with
  | none => .error .nullDeref
  | some l =>
    match l[p.idx]? with
    | none => .error .oobRead
    | some v =>
      if v = p.chanId then .ok (some l)
      else if v ≠ 0 then .error .assertFail
      else if l.contains p.chanId then .ok none
      else .ok (some (l.set p.idx p.chanId))

/-- src/osdp_cp.c:139-150 `cp_channel_release` -/
def release (lock : Option (List Int)) (p : Pd) : Res (Option (List Int)) :=
  match lock with
  | none => .error .nullDeref
  | some l =>
    match l[p.idx]? with
    | none => .error .oobRead
    | some v => if v ≠ p.chanId then .ok (some l) else .ok (some (l.set p.idx 0))

/-- src/osdp_cp.c:1321-1347 `cp_refresh` on the PD at array index `i`; the Boolean is "returned 0" -/
def refreshPd (C : Cipher) (c : Ctx) (i : Nat) (env : Env) : Res (Ctx × List Out × Bool) :=
  match c.pds[i]? with
  | none => .error .oobRead
  | some p =>
    if p.flags.chnShared then do
      match ← acquire c.lock p with
      | none => .ok (c, [], true)
      | some l =>
        let (p', outs, yield) ← stateUpdate C c.cb p env
        let c := { c with pds := c.pds.set i p', lock := some l }
        if yield then do
          let lock ← release c.lock p'
          .ok ({ c with lock := lock }, outs, true)
        else .ok (c, outs, c.numChannels ≠ 1)
    else do
      let (p', outs, _) ← stateUpdate C c.cb p env
      .ok ({ c with pds := c.pds.set i p' }, outs, true)

/-- src/osdp_cp.c:1543-1547: the index of the next PD -/
def nextIdx (c : Ctx) (i : Nat) : Nat :=
  match c.pds[i]? with
  | none => 0
  | some p => if p.idx + 1 ≥ c.pds.length then 0 else p.idx + 1

/-- src/osdp_cp.c:1537-1549: the loop of `osdp_cp_refresh`, `n` rounds left; `envs k` is what visit
`k` of this refresh observes -/
def refreshLoop (C : Cipher) : Nat → Nat → Ctx → (Nat → Env) → Res (Ctx × List Out)
  | 0, _, c, _ => .ok (c, [])
  | n + 1, k, c, envs => do
    let (c, outs, more) ← refreshPd C c c.cur (envs k)
    if !more then return (c, outs)
    let c := { c with cur := nextIdx c c.cur }
    let (c, outs') ← refreshLoop C n (k + 1) c envs
    return (c, outs ++ outs')

/-- src/osdp_cp.c:1531-1550 `osdp_cp_refresh` -/
def refresh (C : Cipher) (c : Ctx) (envs : Nat → Env) : Res (Ctx × List Out) :=
  refreshLoop C c.pds.length 0 c envs

/-! ### setup -/

/-- src/osdp_cp.c:1410-1439: one new PD object; `none` when the setup refuses it -/
def newPd (info : PdM.Info) (i : Nat) (skipMark : Bool) (poolCap : Nat) : Option Pd :=
  if info.scbk.isNone ∧ info.enforceSecure then none
  else some
    { PdM.blank poolCap with
      idx := i, baudRate := info.baudRate, address := info.address, seq := -1,
      hasFlush := info.hasFlush, chanId := info.chanId,
      flags := { enforceSecure := info.enforceSecure, installMode := info.installMode,
                 allowEmpty := info.allowEmpty, ignUnsolicited := info.ignUnsolicited,
                 enableNotif := info.enableNotif, skipMark := skipMark,
                 scDisabled := info.scbk.isNone, hasScbk := info.scbk.isSome },
      sc := { Sc.zero with scbk := info.scbk.getD (.zero 16) } }

/-- src/osdp_cp.c:1409-1448: the loop over the information list -/
def newPds (skipMark : Bool) (poolCap : Nat) : Nat → List PdM.Info → Option (List Pd)
  | _, [] => some []
  | i, x :: xs => do
    let p ← newPd x i skipMark poolCap
    let ps ← newPds skipMark poolCap (i + 1) xs
    some (p :: ps)

/-- src/osdp_cp.c:1360-1370: a PD is marked as sharing its channel if another one has the same
channel id -/
def markShared (pds : List Pd) : List Pd :=
  pds.map fun p =>
    if (pds.filter fun q => q.chanId = p.chanId).length > 1 then
      { p with flags := { p.flags with chnShared := true } } else p

/-- src/osdp_cp.c:1349-1385 `cp_detect_connection_topology`.  The disjoint-set helper (absent utils
submodule) joins equal ids, so the number of roots is the number of distinct ids. -/
def topology (c : Ctx) : Res Ctx :=
  if c.pds.length > 126 then .error .oobWrite
  else
    let n := (c.pds.map (·.chanId)).eraseDups.length
    .ok { c with
      pds := markShared c.pds
      numChannels := n
      lock := if n ≠ c.pds.length then some (List.replicate c.pds.length 0) else none }

/-- src/osdp_cp.c:1387-1466 `cp_add_pd`; `none` for -1 (the old objects are kept).
`i` numbers the new objects from 0, also when there are old ones. -/
def addPd (c : Ctx) (infos : List PdM.Info) (skipMark : Bool) (poolCap : Nat) : Res (Option Ctx) :=
  match newPds skipMark poolCap 0 infos with
  | none => .ok none
  | some ps => do
    let c ← topology { c with pds := c.pds ++ ps }
    .ok (some { c with cur := 0 })

/-- src/osdp_cp.c:1470-1493 `osdp_cp_setup`; `none` for NULL -/
def setup (infos : List PdM.Info) (skipMark : Bool) (poolCap : Nat) : Res (Option Ctx) :=
  let c : Ctx := { pds := [], lock := none, numChannels := 0, cur := 0, cb := false }
  if infos = [] then .ok (some c) else addPd c infos skipMark poolCap

/-- src/osdp_cp.c:1552-1558 `osdp_cp_set_event_callback` -/
def setCallback (c : Ctx) (registered : Bool) : Ctx := { c with cb := registered }

/-! ### API.  An index outside the context makes `input_check` return -1 (src/osdp_common.h). -/

/-- src/osdp_cp.c:1566-1585: `osdp_cp_send_command` on one PD -/
def sendPd (p : Pd) (env : Env) (cmd : Cmd) : Pd × List Out × Int :=
  if p.state ≠ .online then (p, [], -1)
  else
    let enqueue : Pd × List Out × Int :=
      if p.cmdQueue.length < p.poolCap then ({ p with cmdQueue := p.cmdQueue ++ [cmd] }, [], 0)
      else (p, [], -1)
    match cmd with
    | .fileTx f =>
      let (file, outs, ok) := File.txCommand p.file env f.id f.flags
      ({ p with file := file }, outs, if ok then 0 else -1)
    | .keyset k => if k.type ≠ 1#8 ∨ ¬ p.scActive then (p, [], -1) else enqueue
    | _ => enqueue

/-- src/osdp_cp.c:1560-1586 `osdp_cp_send_command` -/
def sendCommand (c : Ctx) (i : Int) (env : Env) (cmd : Cmd) : Ctx × List Out × Int :=
  if 0 ≤ i then
    match c.pds[i.toNat]? with
    | none => (c, [], -1)
    | some p =>
      let (p, outs, r) := sendPd p env cmd
      ({ c with pds := c.pds.set i.toNat p }, outs, r)
  else (c, [], -1)

/-- src/osdp_cp.c:1588-1600 `osdp_cp_flush_commands` -/
def flushCommands (c : Ctx) (i : Int) : Ctx × Int :=
  if 0 ≤ i then
    match c.pds[i.toNat]? with
    | none => (c, -1)
    | some p => ({ c with pds := c.pds.set i.toNat { p with cmdQueue := [] } }, p.cmdQueue.length)
  else (c, -1)

/-- src/osdp_cp.c:1602-1609 `osdp_cp_get_pd_id`; `none` for -1 -/
def getPdId (c : Ctx) (i : Int) : Option PdId :=
  if 0 ≤ i then (c.pds[i.toNat]?).map (·.id) else none

/-- src/osdp_cp.c:1611-1625 `osdp_cp_get_capability`; `none` for -1, else compliance level and number
of items -/
def getCapability (c : Ctx) (i : Int) (fc : Byte) : Option (Byte × Byte) :=
  if 0 ≤ i then
    match c.pds[i.toNat]? with
    | none => none
    | some p =>
      if h : 0 < fc.toNat ∧ fc.toNat < 17 then
        some ((p.cap ⟨fc.toNat, h.2⟩).compliance, (p.cap ⟨fc.toNat, h.2⟩).numItems)
      else none
  else none

/-- include/osdp.h: the public flag bits -/
def F_ENFORCE : BitVec 32 := 0x00010000#32
def F_INSTALL : BitVec 32 := 0x00020000#32
def F_IGN_UNSOL : BitVec 32 := 0x00040000#32

/-- src/osdp_cp.c:1630-1642: `osdp_cp_modify_flag` on one PD -/
def modifyPd (p : Pd) (flags : BitVec 32) (doSet : Bool) : Pd × Int :=
  if flags &&& ~~~(F_ENFORCE ||| F_INSTALL ||| F_IGN_UNSOL) ≠ 0 then (p, -1)
  else
    let upd (m : BitVec 32) (v : Bool) : Bool := if flags &&& m ≠ 0 then doSet else v
    ({ p with flags := { p.flags with
        enforceSecure := upd F_ENFORCE p.flags.enforceSecure
        installMode := upd F_INSTALL p.flags.installMode
        ignUnsolicited := upd F_IGN_UNSOL p.flags.ignUnsolicited } }, 0)

/-- src/osdp_cp.c:1627-1643 `osdp_cp_modify_flag` -/
def modifyFlag (c : Ctx) (i : Int) (flags : BitVec 32) (doSet : Bool) : Ctx × Int :=
  if 0 ≤ i then
    match c.pds[i.toNat]? with
    | none => (c, -1)
    | some p =>
      let (p, r) := modifyPd p flags doSet
      ({ c with pds := c.pds.set i.toNat p }, r)
  else (c, -1)

/-- src/osdp_file.c:419-437 `osdp_file_register_ops`: the context and the return value -/
def fileRegisterOps (c : Ctx) (i : Int) : Ctx × Int :=
  if 0 ≤ i then
    match c.pds[i.toNat]? with
    | none => (c, -1)
    | some p => ({ c with pds := c.pds.set i.toNat (PdM.registerFileOps p) }, 0)
  else (c, -1)

/-- src/osdp_file.c:439-459 `osdp_get_file_tx_status`; `none` for -1, else size and offset -/
def fileTxStatus (c : Ctx) (i : Int) : Res (Option (Nat × Nat)) :=
  if 0 ≤ i then
    match c.pds[i.toNat]? with
    | none => .ok none
    | some p => File.txStatus p.file
  else .ok none

/-- the loop shared by src/osdp_common.c:243-255 and 271-282: bit `i & 7` of the current byte for PD
`i`, a new byte whenever `i` is a positive multiple of 8.  `acc` holds the finished bytes in reverse
order with the current one first. -/
def maskLoop (f : Pd → Bool) : Nat → List Byte → List Pd → List Byte
  | _, acc, [] => acc.reverse
  | i, acc, p :: ps =>
    let acc := if i ≠ 0 ∧ i % 8 = 0 then 0#8 :: acc else acc
    let acc := match acc with
      | b :: rest => (if f p then b ||| (1#8 <<< (i % 8)) else b) :: rest
      | [] => []
    maskLoop f (i + 1) acc ps

/-- src/osdp_common.c:236-256 `osdp_get_sc_status_mask`: the bytes written -/
def scStatusMask (pds : List Pd) : List Byte :=
  maskLoop (fun p => p.flags.scActive && !p.flags.useScbkd) 0 [0#8] pds

/-- `OSDP_PD_ONLINE_TOUT_MS` -/
abbrev PD_ONLINE_TOUT : Int := 8000

/-- src/osdp_common.c:259-283 `osdp_get_status_mask`: the bytes written -/
def statusMask (pds : List Pd) (now : Int) : Res (List Byte) :=
  match pds with
  | [] => .error .nullDeref
  | p :: _ =>
    if p.flags.pdMode then .ok [if now - p.tstamp < PD_ONLINE_TOUT then 1#8 else 0#8]
    else .ok (maskLoop (fun p => decide (p.state = .online)) 0 [0#8] pds)

end Osdp.CpM
