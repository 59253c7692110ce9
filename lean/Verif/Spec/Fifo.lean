import Verif.Model.Base

/-!
# Specification: a bounded first-in first-out byte queue

Independent of the ring-buffer code: a list with a capacity.
-/

namespace Osdp.Spec.Fifo

/-- Operations a client can perform. -/
inductive Op where
  | push (b : Byte)
  | pop
  | pushBuf (bs : List Byte)
  | popBuf (max : Nat)
  deriving DecidableEq, Repr

/-- What the client observes. -/
inductive Obs where
  | accepted (ok : Bool)
  | byte (b : Option Byte)
  | count (n : Nat)
  | bytes (bs : List Byte)
  deriving DecidableEq, Repr

/-- Reference behaviour on a queue of capacity `cap`. -/
def step (cap : Nat) (q : List Byte) : Op → List Byte × Obs
  | .push b => if q.length < cap then (q ++ [b], .accepted true) else (q, .accepted false)
  | .pop => (q.tail, .byte q.head?)
  | .pushBuf bs => (q ++ bs.take (cap - q.length), .count (min bs.length (cap - q.length)))
  | .popBuf n => (q.drop n, .bytes (q.take n))

/-- Reference behaviour for a whole history. -/
def run (cap : Nat) : List Byte → List Op → List Byte × List Obs
  | q, [] => (q, [])
  | q, o :: os =>
    let r := step cap q o
    let r' := run cap r.1 os
    (r'.1, r.2 :: r'.2)

end Osdp.Spec.Fifo
