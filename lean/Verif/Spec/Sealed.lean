import Verif.Spec.Session
import Verif.Spec.Wire

/-!
# Specification: what leaves an end of a secure session

`key`, `k1`, `k2` are the session keys, `m` the MAC of the message before (from the other end).
-/

namespace Osdp.Spec.Sealed

open Spec.Session (mac Opens)
open Spec.Wire (SecuredFrame)

/-- The frame `f` carries the message `id :: data` under the keys of the session, `msg` being what its MAC covers: without data it
has a security block of type `bare`, with data one of type `full`, the data being padded to the next multiple of 16 and
enciphered. -/
structure Sealed (C : Cipher) (key k1 k2 m : Block) (bare full : Byte) (f msg : List Byte) (id : Byte) (data : List Byte) : Prop where
  frame : ∃ tag ctl pl, SecuredFrame f msg tag ctl (if data = [] then bare else full) id pl ∧
    tag = (mac C k1 k2 m msg).1.take 4 ∧
    if data = [] then pl = [] else Opens C key m pl data ∧ pl.length = (data.length / 16 + 1) * 16

/-- The packet on the wire: `f`, possibly behind a mark byte; of it as much as the channel took. -/
def OnWire (bs f : List Byte) (cap : Nat) : Prop := bs = f.take cap ∨ bs = (0xFF#8 :: f).take cap

end Osdp.Spec.Sealed
