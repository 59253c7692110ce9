import Verif.Model.Base

/-!
# Receive ring buffer: src/osdp_common.c:129-185, src/osdp_common.h (struct osdp_rb)
-/

namespace Osdp.RingBuf

/-- `OSDP_RX_RB_SIZE` (include/osdp_config.h.in), the size of `buffer`. -/
def size : Nat := 512

/-- src/osdp_common.h `struct osdp_rb { size_t head; size_t tail; uint8_t buffer[512]; }`.
The array is a list; its length is part of the well-formedness invariant. -/
structure Rb where
  head : Nat
  tail : Nat
  buffer : List Byte

/-- The index after `i`, wrapping (src/osdp_common.c:133-135 and 165-167). -/
def next (i : Nat) : Nat := if i + 1 ≥ size then 0 else i + 1

/-- src/osdp_common.c:129-143 `osdp_rb_push`: `false` stands for the return value -1.
A write outside `buffer` is a fault. -/
def push (p : Rb) (data : Byte) : Res (Rb × Bool) :=
  if next p.head = p.tail then .ok (p, false)
  else if p.head < p.buffer.length then
    .ok ({ p with buffer := p.buffer.set p.head data, head := next p.head }, true)
  else .error .oobWrite

/-- src/osdp_common.c:145-156 `osdp_rb_push_buf`: returns the number of bytes stored. -/
def pushBuf (p : Rb) : List Byte → Res (Rb × Nat)
  | [] => .ok (p, 0)
  | b :: bs => do
    let (p', ok) ← push p b
    if ok then
      let (p'', n) ← pushBuf p' bs
      .ok (p'', n + 1)
    else .ok (p', 0)

/-- src/osdp_common.c:158-172 `osdp_rb_pop`: `none` stands for the return value -1. -/
def pop (p : Rb) : Res (Rb × Option Byte) :=
  if p.head = p.tail then .ok (p, none)
  else do
    let b ← rd p.buffer p.tail
    .ok ({ p with tail := next p.tail }, some b)

/-- src/osdp_common.c:174-185 `osdp_rb_pop_buf`: bytes obtained (at most `max`). -/
def popBuf (p : Rb) : Nat → Res (Rb × List Byte)
  | 0 => .ok (p, [])
  | n + 1 => do
    let (p', o) ← pop p
    match o with
    | none => .ok (p', [])
    | some b =>
      let (p'', bs) ← popBuf p' n
      .ok (p'', b :: bs)

/-- src/osdp_phy.c:52-80 `osdp_channel_receive` on the ring buffer itself: what `recv` returns, call after call, is pushed. -/
def receive : List (List Byte) → Rb → Res (Rb × Int)
  | [], p => .ok (p, 0)
  | c :: cs, p =>
    if c = [] then .ok (p, 0)
    else if c.length > 64 then .error .contract
    else do
      let (p, n) ← pushBuf p c
      if n ≠ c.length then .ok (p, -1)
      else if c.length = 64 then
        let (p, t) ← receive cs p
        .ok (p, if t < 0 then t else t + 64)
      else .ok (p, c.length)

/-- src/osdp_phy.c:340-361 the search for the start of a packet on the ring buffer itself, for at most `n` bytes; `none` when
it ran empty. -/
def scan : Nat → Byte → Rb → Res (Rb × Option Bool)
  | 0, _, p => .ok (p, none)
  | n + 1, prev, p => do
    let (p, o) ← pop p
    match o with
    | none => .ok (p, none)
    | some b => if b = 0x53#8 then .ok (p, some (decide (prev = 0xFF#8))) else scan n b p

/-- Freshly `calloc`ed buffer (all zero). -/
def empty : Rb := { head := 0, tail := 0, buffer := List.replicate size 0#8 }

end Osdp.RingBuf
