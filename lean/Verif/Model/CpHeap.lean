import Verif.Model.CpRun

/-!
# Where the queued commands of a CP lie: src/osdp_cp.c:57-114, 1387-1466

The nodes of a PD's command queue are taken from a slab inside the PD object itself
(`pd->app_data.slab_blob`, src/osdp_common.h:374-380, 421).  `slab_init` is told the address of that
array once, when the PD object is made; `cp_add_pd` makes a new array of PD objects, copies the old
objects byte by byte and frees the old array, so the addresses kept in the copies are those of the
freed array.

Simplifications: allocations are numbered in the order they are made and only the one that holds the
PD objects is tracked.  The utils submodule (slab, queue) is absent from the repository; assumed is
what its use requires: `slab_alloc` gives a node inside the array given to `slab_init`,
`queue_enqueue`/`queue_dequeue` write to or read from the node put in or taken out, and a call that
fails touches no node.
-/

namespace Osdp.CpM

/-- a CP and the memory its queue nodes lie in -/
structure Heap where
  ctx : Ctx
  /-- the allocation `ctx->pd` points to; all earlier ones have been freed -/
  live : Nat
  /-- for each PD the allocation `slab_init` was given an address in -/
  pool : List Nat

/-- the commands queued for the PD at an index -/
def queued (c : Ctx) (i : Nat) : Option (List Cmd) := (c.pds[i]?).map (·.cmdQueue)

/-- lines 76-114: a call after which something else is queued for a PD has put a node in or taken one
out; here of a PD whose nodes are in freed memory -/
def dangles (h : Heap) (c : Ctx) : Bool :=
  (List.range h.pool.length).any fun i => decide (h.pool[i]? ≠ some h.live ∧ queued c i ≠ queued h.ctx i)

/-- one API call: as `ctxStep`, but the memory of queue nodes has to be there.  Lines 1399-1408 and
1453-1457: when PDs are added, the array is replaced (at first there is none to be freed); new PDs
have their pools in the new one (lines 64-67, 1434). -/
def heapStep (C : Cipher) (h : Heap) (op : CtxOp) : Res (Heap × List Out) := do
  let (c, o) ← ctxStep C h.ctx op
  if dangles h c then .error .oobWrite
  else if c.pds.length = h.ctx.pds.length then .ok ({ h with ctx := c }, o)
  else .ok ({ ctx := c, live := h.live + 1,
              pool := h.pool ++ List.replicate (c.pds.length - h.ctx.pds.length) (h.live + 1) }, o)

/-- a history of API calls -/
def heapRun (C : Cipher) (h : Heap) : List CtxOp → Res (Heap × List Out)
  | [] => .ok (h, [])
  | op :: ops => do
    let (h, o) ← heapStep C h op
    let (h, o') ← heapRun C h ops
    .ok (h, o ++ o')

/-- lines 1470-1493: a CP that was just set up (its PDs, if any, are in the first allocation) -/
def heapOf (c : Ctx) : Heap := { ctx := c, live := 1, pool := c.pds.map fun _ => 1 }

end Osdp.CpM
