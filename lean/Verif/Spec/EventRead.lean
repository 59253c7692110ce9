import Verif.Model.Types

/-!
# Specification: what a reply tells (OSDP v2.2, 7.4 – 7.12, 7.21)

The reading of the replies that carry events, written down from the protocol, not from the code.
-/

namespace Osdp.Spec.Event

/-- the format code of a raw card read -/
def formatOf (b : Byte) : CardFormat :=
  match b.toNat with
  | 0 => .rawUnspecified
  | 1 => .rawWiegand
  | 2 => .ascii
  | n => .other n

/-- bit `i` of the mask says whether entry `i` of the report is set -/
def MaskOf (body : List Byte) (m : BitVec 32) : Prop :=
  ∀ i < 32, m.getLsbD i = match body[i]? with | some b => b != 0#8 | none => false

/-- The reply with this code and this payload reports this event; unused bytes of an event are zero. -/
inductive Reads : Nat → List Byte → Osdp.Event → Prop
  /-- reader, format, number of bits, the bits -/
  | card (r f l0 l1 : Byte) (data : List Byte) (c : EvCardread) : c.readerNo = r.toNat → c.format = formatOf f →
      c.direction = 0 → c.length = (l0.toNat + 256 * l1.toNat : Nat) → data.length = (l0.toNat + 256 * l1.toNat + 7) / 8 →
      c.data.1 = data ++ List.replicate (64 - data.length) 0#8 → Reads 0x50 (r :: f :: l0 :: l1 :: data) (.cardread c)
  /-- reader, number of keys, the keys -/
  | keys (r n : Byte) (data : List Byte) (k : EvKeypress) : k.readerNo = r.toNat → k.length = n.toNat → data.length = n.toNat →
      k.data.1 = data ++ List.replicate (64 - data.length) 0#8 → Reads 0x53 (r :: n :: data) (.keypress k)
  /-- vendor code, command, data -/
  | mfg (v0 v1 v2 c : Byte) (data : List Byte) (m : EvMfgrep) : m.vendor.toNat = v0.toNat + 256 * v1.toNat + 65536 * v2.toNat →
      m.command = c → m.length.toNat = data.length → m.data.1 = data ++ List.replicate (128 - data.length) 0#8 →
      Reads 0x90 (v0 :: v1 :: v2 :: c :: data) (.mfgrep m)
  | inputs (body : List Byte) (m : BitVec 32) : MaskOf body m → body.length ≤ 32 →
      Reads 0x49 body (.status ⟨.input, body.length, m⟩)
  | outputs (body : List Byte) (m : BitVec 32) : MaskOf body m → body.length ≤ 32 →
      Reads 0x4A body (.status ⟨.output, body.length, m⟩)
  /-- tamper and power -/
  | device (a b : Byte) (m : BitVec 32) : MaskOf [a, b] m → Reads 0x48 [a, b] (.status ⟨.localStat, 2, m⟩)
  /-- tamper -/
  | reader (a : Byte) (m : BitVec 32) : MaskOf [a] m → Reads 0x4B [a] (.status ⟨.remote, 1, m⟩)

end Osdp.Spec.Event
