import Verif.Lemmas.RxSafe
import Verif.Props.C36

/-!
# C06: receiving never writes outside the packet buffer

A packet may occupy 256 bytes, and so may a packet that follows a mark byte, which needs 257.  For all
other streams the property holds.
-/

namespace Osdp

open Phy (checkPacket Sound Framed pend)

/-- **C06, partial.**  A PD with any history receives any bytes in any pieces (`recv` keeping to the size it
was given).  Unless the bytes it holds and receives contain a packet start with the length field 256
(`53 a 00 01`), no write (and no read) of the receiver falls outside its buffers. -/
theorem C06_pd_receive_in_bounds_partial (C : Cipher) (info : PdM.Info) (skipMark : Bool) (n : Nat) (p q : Pd)
    (ops : List PdM.Op) (outs : List Out) (env : Env) (hs : PdM.setup info skipMark n = some p)
    (h : PdM.run C p ops = .ok (q, outs)) (h64 : ∀ c ∈ env.recv, c.length ≤ 64)
    (hno : ∀ a, ¬ [0x53#8, a, 0x00#8, 0x01#8] <:+: pend q ++ env.recv.flatten) :
    ∃ r, checkPacket q env = .ok r := by
  have hf := PdM.run_framed (PdM.setup_pdMode hs) (PdM.setup_framed hs).1 h
  cases hc : checkPacket q env with
  | ok r => exact ⟨r, rfl⟩
  | error e =>
    rcases Phy.checkPacket_fault hf.sound hc with ⟨-, c, hc, hlt⟩ | ⟨-, -, a, ha⟩
    · exact absurd (h64 c hc) (by omega)
    · exact absurd ha (hno a)

/-- **C06, partial.**  The excess is one byte: with a packet buffer of 257 bytes or more, no stream at all makes
the receiver of a PD or CP write (or read) outside its buffers. -/
theorem C06_one_more_byte_suffices_partial (p : Pd) (env : Env) (hs : Sound p) (hb : 257 ≤ p.packetBuf.length)
    (h64 : ∀ c ∈ env.recv, c.length ≤ 64) : ∃ r, checkPacket p env = .ok r := by
  cases hc : checkPacket p env with
  | ok r => exact ⟨r, rfl⟩
  | error e =>
    rcases Phy.checkPacket_fault hs hc with ⟨-, c, hc, hlt⟩ | ⟨-, h, -⟩
    · exact absurd (h64 c hc) (by omega)
    · omega

/-- Non-vacuity: the sample PD and a POLL; the same with a larger buffer and a packet of 256 bytes. -/
example : (∀ c ∈ (Sample.env Sample.poll).recv, c.length ≤ 64) ∧
    Sound { Sample.pd with packetBuf := List.replicate 257 0#8 } := by
  refine ⟨by decide, ⟨by decide +kernel, fun _ => by decide +kernel, fun h => absurd rfl h⟩⟩

/-- a mark byte and a packet of 256 bytes, as the line delivers it -/
def longPacket : List (List Byte) :=
  [0xFF#8 :: 0x53#8 :: 101#8 :: 0x00#8 :: 0x01#8 :: List.replicate 59 0#8, List.replicate 64 0#8,
    List.replicate 64 0#8, List.replicate 64 0#8, [0#8]]

/-- **C06 is violated**: 257 bytes from the line make a PD write past its packet buffer. -/
theorem C06_receive_overflow :
    PdM.setup Sample.pdInfo false 16 = some Sample.pd ∧ (∀ c ∈ longPacket, c.length ≤ 64) ∧
    (PdM.refresh Aes.aes Sample.pd { now := 0, recv := longPacket, cb := none } matches .error .oobWrite) = true ∧
    (checkPacket Sample.cp { now := 0, recv := longPacket.map fun c => c.map fun b => if b = 101#8 then 0xE5#8 else b, cb := none }
      matches .error .oobWrite) = true := by
  refine ⟨rfl, by decide, ?_, ?_⟩ <;> decide +kernel

end Osdp
