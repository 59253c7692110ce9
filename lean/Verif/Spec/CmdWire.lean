import Verif.Model.Types

/-!
# Specification: how commands travel (OSDP v2.2, 6.4 – 6.12, 6.19 and 6.23)

Byte layout of the commands an application of the CP can give, written down from the protocol, not from the code.
-/

namespace Osdp.Spec.Command

/-- the code of a status request -/
def statusCode : StatusType → Byte
  | .localStat => 0x64#8
  | .input => 0x65#8
  | .output => 0x66#8
  | _ => 0x67#8

/-- a number in two and in four bytes, least significant one first -/
def two (n : Nat) : List Byte := [BitVec.ofNat 8 n, BitVec.ofNat 8 (n / 256)]
def four (n : Nat) : List Byte :=
  [BitVec.ofNat 8 n, BitVec.ofNat 8 (n / 256), BitVec.ofNat 8 (n / 65536), BitVec.ofNat 8 (n / 16777216)]

/-- code and payload of a command -/
def encode : Cmd → List Byte
  | .output o => [0x68#8, o.outputNo, o.controlCode] ++ two o.timerCount.toNat
  | .led l => [0x69#8, l.reader, l.ledNumber, l.temporary.controlCode, l.temporary.onCount, l.temporary.offCount,
      l.temporary.onColor, l.temporary.offColor] ++ two l.temporary.timerCount.toNat ++
      [l.permanent.controlCode, l.permanent.onCount, l.permanent.offCount, l.permanent.onColor, l.permanent.offColor]
  | .buzzer b => [0x6A#8, b.reader, b.controlCode, b.onCount, b.offCount, b.repCount]
  | .text t => [0x6B#8, t.reader, t.controlCode, t.tempTime, t.offsetRow, t.offsetCol, t.length] ++
      t.data.1.take t.length.toNat
  | .comset c => [0x6E#8, c.address] ++ four c.baudRate.toNat
  | .mfg m => [0x80#8, BitVec.ofNat 8 m.vendor.toNat, BitVec.ofNat 8 (m.vendor.toNat / 256),
      BitVec.ofNat 8 (m.vendor.toNat / 65536), m.command] ++ m.data.1.take m.length.toNat
  | .keyset k => [0x75#8, k.type, k.length] ++ k.data.1.take k.length.toNat
  | .status s => [statusCode s.type]
  | _ => []

/-- the commands an application may give; `secure`: a secure channel is up -/
def Valid (secure : Bool) : Cmd → Prop
  | .output _ => True
  | .led _ => True
  | .buzzer _ => True
  | .text t => t.length.toNat ≤ 32
  | .comset c => c.address.toNat < 127 ∧ c.baudRate.toNat ∈ [9600, 19200, 38400, 57600, 115200, 230400]
  | .mfg m => m.length.toNat ≤ 64
  | .keyset k => secure = true ∧ k.type = 1#8 ∧ k.length = 16#8
  | .status s => s.type ≠ .other
  | _ => False

/-- the first `k` bytes, then zeros -/
def cut {n : Nat} (k : Nat) (d : Bytes n) : Bytes n := .padTo n (d.1.take k)

/-- the part of a command that the wire format carries: a permanent LED setting has no timer, a vendor code has three
bytes, texts, keys and manufacturer data end after their length, and a status request is nothing but its kind -/
def carried : Cmd → Cmd
  | .led l => .led { l with permanent := { l.permanent with timerCount := 0 } }
  | .text t => .text { t with data := cut t.length.toNat t.data }
  | .mfg m => .mfg { m with vendor := BitVec.ofNat 32 (m.vendor.toNat % 2 ^ 24), data := cut m.length.toNat m.data }
  | .keyset k => .keyset { k with data := cut k.length.toNat k.data }
  | .status s => .status ⟨s.type, 0, 0⟩
  | c => c

/-- the commands handed to the application of a PD -/
def asked (outs : List Out) : List Cmd := outs.filterMap fun | .cmd c => some c | _ => none

end Osdp.Spec.Command
