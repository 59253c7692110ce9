import Verif.Model.CpCtx

/-!
# Histories of a CP

What happens to one PD object of a CP after `osdp_cp_setup`/`osdp_cp_add_pd`, in any order: the visits by
`osdp_cp_refresh` and the API calls of src/osdp_cp.c:1560-1643 and src/osdp_file.c:419-437.
-/

namespace Osdp.CpM

/-- one visit by `osdp_cp_refresh` or one API call -/
inductive Op where
  /-- `cp_refresh` looks after the PD; `cb`: an event callback is registered -/
  | update (cb : Bool) (env : Env)
  /-- `osdp_cp_send_command` -/
  | send (env : Env) (c : Cmd)
  /-- `osdp_cp_flush_commands` -/
  | flush
  /-- `osdp_cp_modify_flag` -/
  | flag (flags : BitVec 32) (doSet : Bool)
  /-- `osdp_file_register_ops` -/
  | fileOps
  /-- `osdp_cp_add_pd` found that the channel is shared -/
  | share

/-- one visit or API call: src/osdp_cp.c:1263-1319, 1560-1600, 1627-1643, src/osdp_file.c:419-437 -/
def step (C : Cipher) (p : Pd) : Op → Res (Pd × List Out)
  | .update cb env => do
    let (p, o, _) ← stateUpdate C cb p env
    .ok (p, o)
  | .send env c => .ok ((sendPd p env c).1, (sendPd p env c).2.1)
  | .flush => .ok ({ p with cmdQueue := [] }, [])
  | .flag flags doSet => .ok ((modifyPd p flags doSet).1, [])
  | .fileOps => .ok (PdM.registerFileOps p, [])
  | .share => .ok ({ p with flags := { p.flags with chnShared := true } }, [])

/-- a history -/
def run (C : Cipher) (p : Pd) : List Op → Res (Pd × List Out)
  | [] => .ok (p, [])
  | op :: ops => do
    let (p, o) ← step C p op
    let (p, o') ← run C p ops
    .ok (p, o ++ o')

/-! ### the whole CP -/

/-- one API call -/
inductive CtxOp where
  | refresh (envs : Nat → Env)
  | send (i : Int) (env : Env) (c : Cmd)
  | flush (i : Int)
  | flag (i : Int) (flags : BitVec 32) (doSet : Bool)
  | fileOps (i : Int)
  | callback (registered : Bool)
  | add (infos : List PdM.Info) (skipMark : Bool) (poolCap : Nat)

/-- one API call: src/osdp_cp.c:1495-1643.  `osdp_cp_add_pd` asserts that there is something to add. -/
def ctxStep (C : Cipher) (c : Ctx) : CtxOp → Res (Ctx × List Out)
  | .refresh envs => refresh C c envs
  | .send i env cmd => .ok ((sendCommand c i env cmd).1, (sendCommand c i env cmd).2.1)
  | .flush i => .ok ((flushCommands c i).1, [])
  | .flag i f b => .ok ((modifyFlag c i f b).1, [])
  | .fileOps i => .ok ((fileRegisterOps c i).1, [])
  | .callback b => .ok (setCallback c b, [])
  | .add [] _ _ => .error .assertFail
  | .add infos sm n => do
    match ← addPd c infos sm n with
    | none => .ok (c, [])
    | some c' => .ok (c', [])

/-- a history of API calls -/
def ctxRun (C : Cipher) (c : Ctx) : List CtxOp → Res (Ctx × List Out)
  | [] => .ok (c, [])
  | op :: ops => do
    let (c, o) ← ctxStep C c op
    let (c, o') ← ctxRun C c ops
    .ok (c, o ++ o')

end Osdp.CpM
