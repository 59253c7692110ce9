import Verif.Model.Base

/-!
# What the library allocates and gives back: src/osdp_cp.c:1350-1529, src/osdp_pd.c:1082-1185,
src/osdp_diag.c:26-55, src/osdp_file.c:420-437

The functions that set a context up, add PDs to it, give a PD file operations and tear the context
down again, reduced to the resources they take: the context, the array of PD objects, the channel
locks, a `struct osdp_file` per PD, a packet capture per PD and the application's files that the file
transfers open.  Each function returns, besides its value, the list of what it did to resources.

Simplifications.  Attempts to take a resource are numbered; a resource is named by the number of the
attempt that gave it, and the environment decides which attempts succeed.  The build without
`CONFIG_OSDP_STATIC_PD` and with packet (or data) trace.  `slab_init` and the loggers take nothing
and do not fail.  The utils submodule is absent from the repository: `pcap_start` gives one resource
or NULL, `pcap_stop` releases it, `disjoint_set_make` accepts or refuses a number of nodes.  A file
transfer is only seen where it opens a file (src/osdp_file.c:239, 398) and where it closes it
(lines 170, 301, 328).
-/

namespace Osdp.Life

/-- what is done to a resource -/
inductive Ev where
  | got (b : Nat)
  | uses (b : Nat)
  | gave (b : Nat)
deriving DecidableEq, Repr

/-- what the library cannot decide for itself -/
structure Env where
  /-- whether an attempt to allocate succeeds (`calloc`) -/
  ok : Nat → Bool
  /-- whether a capture file can be written (`pcap_start`) -/
  writable : Nat → Bool
  /-- whether `disjoint_set_make` takes a number of nodes -/
  sets : Nat → Bool

/-- the parts of `osdp_pd_info_t` that matter here: OSDP_FLAG_CAPTURE_PACKETS,
OSDP_FLAG_ENFORCE_SECURE, whether a key is given, and the channel -/
structure Info where
  capture : Bool := false
  enforce : Bool := false
  scbk : Bool := false
  channel : Nat := 0
deriving DecidableEq, Repr

/-- the parts of `struct osdp_pd` that matter here (src/osdp_common.h:385-439) -/
structure PdObj where
  capture : Bool
  channel : Nat
  /-- `packet_capture_ctx` -/
  cap : Option Nat := none
  /-- `file` -/
  file : Option Nat := none
  /-- a file of the application that a transfer has open -/
  opened : Option Nat := none
deriving DecidableEq, Repr

/-- `struct osdp` (src/osdp_common.h:441-452) -/
structure Ctx where
  blk : Nat
  arr : Option Nat := none
  pds : List PdObj := []
  lock : Option Nat := none
deriving DecidableEq, Repr

/-- an attempt to allocate -/
def calloc (E : Env) (t : Nat) : Option Nat := if E.ok t then some t else none

/-- src/osdp_diag.c:26-43 -/
def captureInit (E : Env) (t : Nat) : Option Nat := if E.writable t then some t else none

/-- src/osdp_diag.c:45-57: `assert(cap)` -/
def captureFinish (p : PdObj) : Res (List Ev) :=
  match p.cap with
  | none => .error .assertFail
  | some k => .ok [.gave k]

/-- the capture of a PD is ended, if it was to be captured (src/osdp_cp.c:1520-1522,
src/osdp_pd.c:1174-1176) -/
def endCapture (p : PdObj) : Res (List Ev) := if p.capture then captureFinish p else .ok []

/-- `safe_free` -/
def safeFree (b : Option Nat) : List Ev := b.toList.map .gave

/-- taking hold of something, if the attempt succeeded -/
def took (b : Option Nat) : List Ev := b.toList.map .got

def touch (b : Option Nat) : List Ev := b.toList.map .uses

/-- src/osdp_cp.c:1410-1448, the loop: a PD that must be secure and has no key ends it (lines
1430-1434); captures begun before stay as they are. -/
def makePds (E : Env) (t : Nat) : List Info → Option (List PdObj) × Nat × List Ev
  | [] => (some [], t, [])
  | i :: is =>
    if !i.scbk && i.enforce then (none, t, [])
    else
      let cap := if i.capture then captureInit E t else none
      let (ps, t', ev) := makePds E (t + 1) is
      (ps.map fun ps => { capture := i.capture, channel := i.channel, cap := cap } :: ps, t', took cap ++ ev)

/-- whether some channel is used twice (src/osdp_cp.c:1358-1374, `num_channels != NUM_PD`) -/
def shared (ps : List PdObj) : Bool := !decide ((ps.map (·.channel)).Nodup)

/-- `OSDP_PD_MAX`, platformio/osdp_config.h:37 -/
def pdMax : Nat := 126

/-- src/osdp_cp.c:1350-1385: `none` when it returns −1, else the new channel locks.  `channels` has
OSDP_PD_MAX entries. -/
def topology (E : Env) (t : Nat) (ps : List PdObj) (lock : Option Nat) :
    Res (Option (Option Nat) × Nat × List Ev) :=
  if !E.sets ps.length then .ok (none, t, [])
  else if pdMax < ps.length then .error .oobWrite
  else if shared ps then
    match calloc E t with
    | none => .ok (none, t + 1, [])
    | some b => .ok (some (some b), t + 1, .got b :: safeFree lock)
  else .ok (some none, t, safeFree lock)

/-- src/osdp_cp.c:1387-1466 -/
def addPds (E : Env) (t : Nat) (c : Ctx) (is : List Info) : Res (Bool × Ctx × Nat × List Ev) :=
  if is = [] then .error .assertFail
  else match calloc E t with
  | none => .ok (false, c, t + 1, [])
  | some a =>
    let old := if c.pds = [] then none else c.arr
    let ev := Ev.got a :: touch old
    match makePds E (t + 1) is with
    | (none, t, ev') => .ok (false, c, t, ev ++ ev' ++ [.gave a])
    | (some ps, t, ev') => do
      let (lock, t, ev'') ← topology E t (c.pds ++ ps) c.lock
      match lock with
      | none => .ok (false, c, t, ev ++ ev' ++ ev'' ++ [.gave a])
      | some lock =>
        .ok (true, { c with arr := some a, pds := c.pds ++ ps, lock := lock }, t,
          ev ++ ev' ++ ev'' ++ safeFree old)

/-- src/osdp_cp.c:1518-1524 -/
def closePds (arr : Option Nat) : List PdObj → Res (List Ev)
  | [] => .ok []
  | p :: ps => do
    let ev ← endCapture p
    let ev' ← closePds arr ps
    .ok (touch arr ++ ev ++ safeFree p.file ++ ev')

/-- `osdp_cp_teardown`, src/osdp_cp.c:1512-1529 -/
def cpTeardown (c : Ctx) : Res (List Ev) := do
  let ev ← closePds c.arr c.pds
  .ok (.uses c.blk :: ev ++ safeFree c.arr ++ safeFree c.lock ++ [.gave c.blk])

/-- `osdp_cp_setup`, src/osdp_cp.c:1470-1493 -/
def cpSetup (E : Env) (t : Nat) (is : List Info) : Res (Option Ctx × Nat × List Ev) :=
  match calloc E t with
  | none => .ok (none, t + 1, [])
  | some b =>
    let c : Ctx := { blk := b }
    if is = [] then .ok (some c, t + 1, [.got b])
    else do
      let (ok, c, t, ev) ← addPds E (t + 1) c is
      if ok then .ok (some c, t, .got b :: ev)
      else do
        let ev' ← cpTeardown c
        .ok (none, t, .got b :: ev ++ ev')

/-- `osdp_pd_teardown`, src/osdp_pd.c:1169-1185: the flags of the PD are looked at first -/
def pdTeardown (c : Ctx) : Res (List Ev) :=
  match c.arr, c.pds with
  | some a, p :: _ => do
    let ev ← endCapture p
    .ok (.uses a :: ev ++ safeFree p.file ++ [.gave a, .gave c.blk])
  | _, _ => .error .nullDeref

/-- `osdp_pd_setup`, src/osdp_pd.c:1082-1167: the capture is begun last (line 1156) -/
def pdSetup (E : Env) (t : Nat) (i : Info) : Res (Option Ctx × Nat × List Ev) :=
  match calloc E t with
  | none => .ok (none, t + 1, [])
  | some b =>
    match calloc E (t + 1) with
    | none => do
      let ev ← pdTeardown { blk := b }
      .ok (none, t + 2, .got b :: ev)
    | some a =>
      let p : PdObj := { capture := i.capture, channel := i.channel }
      if !i.scbk && i.enforce then do
        let ev ← pdTeardown { blk := b, arr := some a, pds := [p] }
        .ok (none, t + 2, .got b :: .got a :: ev)
      else
        let cap := if i.capture then captureInit E (t + 2) else none
        .ok (some { blk := b, arr := some a, pds := [{ p with cap := cap }] }, t + 3,
          .got b :: .got a :: took cap)

/-- what the application does with a context; the last three happen inside refresh -/
inductive Call where
  /-- `osdp_cp_add_pd` -/
  | add (is : List Info)
  /-- `osdp_file_register_ops` -/
  | register (i : Nat)
  /-- a packet of a PD is sent or received -/
  | traffic (i : Nat)
  /-- a file transfer of a PD opens a file -/
  | opens (i : Nat)
  /-- a file transfer of a PD closes its file -/
  | closes (i : Nat)
deriving DecidableEq, Repr

def put (c : Ctx) (i : Nat) (p : PdObj) : Ctx := { c with pds := c.pds.set i p }

/-- src/osdp_cp.c:1495-1510; src/osdp_file.c:420-437 (`file_state_reset`, lines 26-38, forgets an
open file); src/osdp_diag.c:58-66, called when capturing (src/osdp_phy.c:245, 319, 536, 704). -/
def call (E : Env) (t : Nat) (c : Ctx) : Call → Res (Bool × Ctx × Nat × List Ev)
  | .add is => addPds E t c is
  | .register i =>
    match c.pds[i]? with
    | none => .ok (false, c, t, [.uses c.blk])
    | some p =>
      match p.file with
      | some f => .ok (true, put c i { p with opened := none }, t, .uses c.blk :: touch c.arr ++ [.uses f])
      | none =>
        match calloc E t with
        | none => .ok (false, c, t + 1, .uses c.blk :: touch c.arr)
        | some f => .ok (true, put c i { p with file := some f, opened := none }, t + 1,
            .uses c.blk :: touch c.arr ++ [.got f])
  | .traffic i =>
    match c.pds[i]? with
    | none => .ok (false, c, t, [])
    | some p =>
      if p.capture then
        match p.cap with
        | none => .error .assertFail
        | some k => .ok (true, c, t, touch c.arr ++ [.uses k])
      else .ok (true, c, t, touch c.arr)
  | .opens i =>
    match c.pds[i]? with
    | none => .ok (false, c, t, [])
    | some p =>
      match p.file, p.opened with
      | some f, none => .ok (true, put c i { p with opened := some t }, t + 1, touch c.arr ++ [.uses f, .got t])
      | _, _ => .ok (false, c, t, [])
  | .closes i =>
    match c.pds[i]? with
    | none => .ok (false, c, t, [])
    | some p =>
      match p.opened with
      | some o => .ok (true, put c i { p with opened := none }, t, touch c.arr ++ touch p.file ++ [.gave o])
      | none => .ok (false, c, t, [])

/-- the calls one after the other, with what each returned -/
def calls (E : Env) (t : Nat) (c : Ctx) : List Call → Res (List Bool × Ctx × Nat × List Ev)
  | [] => .ok ([], c, t, [])
  | k :: ks => do
    let (r, c, t, ev) ← call E t c k
    let (rs, c, t, ev') ← calls E t c ks
    .ok (r :: rs, c, t, ev ++ ev')

/-- a context's whole life: setup, the calls, teardown; what setup and each call returned, the number
of attempts, and what was done to resources.  Nothing follows a setup that failed. -/
def life (E : Env) (t : Nat) (setup : Res (Option Ctx × Nat × List Ev)) (teardown : Ctx → Res (List Ev))
    (ks : List Call) : Res (Bool × List Bool × Nat × List Ev) := do
  let (c, t, ev) ← setup
  match c with
  | none => .ok (false, [], t, ev)
  | some c => do
    let (rs, c, t, ev') ← calls E t c ks
    let ev'' ← teardown c
    .ok (true, rs, t, ev ++ ev' ++ ev'')

def cpLife (E : Env) (t : Nat) (is : List Info) (ks : List Call) :=
  life E t (cpSetup E t is) cpTeardown ks

def pdLife (E : Env) (t : Nat) (i : Info) (ks : List Call) :=
  life E t (pdSetup E t i) pdTeardown ks

end Osdp.Life
