import Verif.Model.Types

/-!
# Specification: how events travel in replies (OSDP v2.2, 7.4 – 7.12, 7.21)

Byte layout of the replies that carry events, written down from the protocol, not from the code.
-/

namespace Osdp.Spec.Event

/-- one byte per entry of a status report -/
def flags (n : Nat) (m : BitVec 32) : List Byte := (List.range n).map fun i => if m.getLsbD i then 1#8 else 0#8

/-- number of entries of a local status report (tamper, power) and of a remote one (tamper) -/
def entries : StatusReport → Nat
  | ⟨.localStat, _, _⟩ => 2
  | ⟨.remote, _, _⟩ => 1
  | s => s.nrEntries.toNat

/-- code and payload of the reply for an event -/
def encode : Osdp.Event → List Byte
  | .cardread c =>
    let n := c.length.toNat
    [0x50#8, BitVec.ofInt 8 c.readerNo, (match c.format with | .rawWiegand => 1#8 | _ => 0#8),
      BitVec.ofNat 8 n, BitVec.ofNat 8 (n / 256)] ++ c.data.1.take ((n + 7) / 8)
  | .keypress k => [0x53#8, BitVec.ofInt 8 k.readerNo, BitVec.ofInt 8 k.length] ++ k.data.1.take k.length.toNat
  | .mfgrep m => [0x90#8, BitVec.ofNat 8 m.vendor.toNat, BitVec.ofNat 8 (m.vendor.toNat / 256),
      BitVec.ofNat 8 (m.vendor.toNat / 65536), m.command] ++ m.data.1.take m.length.toNat
  | .status s => (match s.type with | .input => 0x49#8 | .output => 0x4A#8 | .localStat => 0x48#8 | _ => 0x4B#8) ::
      flags (entries s) s.mask
  | _ => []

/-- the values an application may put into an event: `inputs` and `outputs` are the numbers of contacts the PD
announced in its capabilities -/
def Valid (inputs outputs : Nat) : Osdp.Event → Prop
  | .cardread c => (c.format = .rawUnspecified ∨ c.format = .rawWiegand) ∧ 0 ≤ c.readerNo ∧ c.readerNo < 256 ∧
      0 ≤ c.length ∧ c.length ≤ 512
  | .keypress k => 0 ≤ k.readerNo ∧ k.readerNo < 256 ∧ 0 ≤ k.length ∧ k.length ≤ 64
  | .mfgrep m => m.vendor.toNat < 2 ^ 24 ∧ m.length.toNat ≤ 128
  | .status s => match s.type with
    | .input => s.nrEntries = inputs ∧ inputs < 32
    | .output => s.nrEntries = outputs ∧ outputs < 32
    | .localStat => True
    | .remote => True
    | .other => False
  | _ => False

/-- `p` then zeros -/
def cut {n : Nat} (k : Nat) (d : Bytes n) : Bytes n := .padTo n (d.1.take k)

/-- the part of an event that the reply carries -/
def carried : Osdp.Event → Osdp.Event
  | .cardread c => .cardread { c with direction := 0, data := cut ((c.length.toNat + 7) / 8) c.data }
  | .keypress k => .keypress { k with data := cut k.length.toNat k.data }
  | .mfgrep m => .mfgrep { m with data := cut m.length.toNat m.data }
  | .status s => .status { s with nrEntries := entries s, mask := s.mask &&& BitVec.ofNat 32 (2 ^ entries s - 1) }
  | e => e

end Osdp.Spec.Event
