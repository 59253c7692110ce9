import Verif.Spec.Crc
import Verif.Model.Types

/-!
# Specification: the packets OSDP puts on the wire

SOM, address, length, control, optional security block, data (the id of the command or reply
first; in a secured packet the MAC last), CRC.  An optional mark byte precedes the packet.
-/

namespace Osdp.Spec.Wire

structure Packet where
  mark : Bool
  addr : Byte
  ctl : Byte
  scb : List Byte
  data : List Byte
  deriving DecidableEq, Repr

/-- number of bytes from SOM to the CRC inclusive: the value of the length field -/
def Packet.len (k : Packet) : Nat := 5 + k.scb.length + k.data.length + 2

/-- everything the CRC covers -/
def Packet.core (k : Packet) : List Byte :=
  [0x53#8, k.addr, BitVec.ofNat 8 k.len, BitVec.ofNat 8 (k.len / 256), k.ctl] ++ k.scb ++ k.data

/-- the packet from SOM to the CRC -/
def Packet.frame (k : Packet) : List Byte := Crc.frame k.core (Crc.crc k.core)

/-- the bytes on the wire -/
def Packet.bytes (k : Packet) : List Byte := (if k.mark then [0xFF#8] else []) ++ k.frame

/-- the two bits of the control byte that hold the sequence number -/
def Packet.seq (k : Packet) : Nat := k.ctl.toNat % 4

/-- the id of the command or reply -/
def Packet.id (k : Packet) : Option Byte := k.data.head?

/-- the device address in a packet -/
def Packet.dev (k : Packet) : Nat := k.addr.toNat % 128

/-- `r` is a reply in the clear, carrying `body`, to command `k`, by the device at address `a`: same
sequence number, from the device's address or from the broadcast address if `k` was sent there -/
structure Answers (a : Nat) (k r : Packet) (body : List Byte) : Prop where
  data : r.data = body
  plain : r.scb = []
  seq : r.seq = k.seq
  addr : r.addr.toNat = 128 + if k.dev = 127 then 127 else a

/-- `f` is one packet from SOM to its check value: start byte, a length field that counts the bytes,
and a CRC (or, when the control byte says so, a checksum) that matches the rest -/
structure Intact (f : List Byte) : Prop where
  som : f[0]? = some 0x53#8
  len : ∃ lo hi, f[2]? = some lo ∧ f[3]? = some hi ∧ lo.toNat + 256 * hi.toNat = f.length
  min : 6 ≤ f.length
  check : ∃ ctl, f[4]? = some ctl ∧
    if ctl.getLsbD 2 then Crc.ValidFrame f else (f.map BitVec.toNat).sum % 256 = 0

/-- `f` is a command for the device with address `a` (or for all devices) -/
def CommandFor (a : Int) (f : List Byte) : Prop :=
  ∃ b : Byte, f[1]? = some b ∧ b.toNat < 128 ∧ ((b.toNat : Int) = a ∨ b.toNat = 127)

/-- `f` is a packet with a security block of type `ty`, command or reply id `id` and (possibly encrypted) data `pl`; `msg`
is everything before the four bytes `tag` of the MAC. -/
structure SecuredFrame (f msg tag : List Byte) (ctl ty id : Byte) (pl : List Byte) : Prop where
  shape : ∃ a lo hi sb x chk, msg = 0x53#8 :: a :: lo :: hi :: ctl :: sb :: ty :: x ++ id :: pl ∧ f = msg ++ (tag ++ chk) ∧
    sb.toNat = 2 + x.length ∧ chk.length = (if ctl.getLsbD 2 then 2 else 1)
  scb : ctl.getLsbD 3 = true
  tag4 : tag.length = 4
  fits : f.length ≤ 256

/-- the packets handed to the channel (all bytes accepted) -/
def sent (outs : List Out) : List (List Byte) := outs.filterMap fun | .send bs => some bs | _ => none

end Osdp.Spec.Wire
