import Verif.Model.Pd

/-!
# Histories of a PD

What an application can do with a PD object after `osdp_pd_setup`, in any order: the API calls of
src/osdp_pd.c:1185-1240 and src/osdp_file.c:420-437.
-/

namespace Osdp.PdM

/-- one API call -/
inductive Op where
  /-- `osdp_pd_refresh`; the environment carries the bytes that arrived -/
  | refresh (env : Env)
  /-- `osdp_pd_notify_event` -/
  | notify (e : Event)
  /-- `osdp_pd_flush_events` -/
  | flush
  /-- `osdp_pd_set_capabilities` -/
  | setCaps (caps : List Cap)
  /-- `osdp_file_register_ops` -/
  | fileOps

/-- one API call: src/osdp_pd.c:1185-1240, src/osdp_file.c:420-437 -/
def step (C : Cipher) (p : Pd) : Op → Res (Pd × List Out)
  | .refresh env => refresh C p env
  | .notify e => .ok ((notifyEvent p e).1, [])
  | .flush => .ok ((flushEvents p).1, [])
  | .setCaps caps => .ok (setCapabilities p caps, [])
  | .fileOps => .ok (registerFileOps p, [])

/-- a history of API calls -/
def run (C : Cipher) (p : Pd) : List Op → Res (Pd × List Out)
  | [] => .ok (p, [])
  | op :: ops => do
    let (p, o) ← step C p op
    let (p, o') ← run C p ops
    .ok (p, o ++ o')

end Osdp.PdM
