import Verif.Model.CpCtx
import Verif.Props.C14
import Verif.Spec.Wire

/-! # Sample objects for the non-vacuity examples -/

namespace Osdp.Sample

/-- an identity -/
def ident : PdId := ⟨1, 2, 0x030201, 0x07060504, 0x0C0B0A⟩

/-- capabilities of a reader with two LEDs, an output and a text display -/
def caps : List Cap := [⟨1, 1, 2⟩, ⟨2, 1, 2⟩, ⟨4, 1, 2⟩, ⟨5, 1, 1⟩, ⟨6, 1, 1⟩]

/-- a key -/
def key : Block := ⟨[1, 2, 3, 4, 5, 6, 7, 8, 9, 10, 11, 12, 13, 14, 15, 16], rfl⟩

/-- a PD at address 101 with its own key -/
def pdInfo : PdM.Info := { address := 101, baudRate := 9600, id := ident, cap := caps, scbk := some key }

/-- a PD at address 101 as set up -/
def pd : Pd := (PdM.setup pdInfo false 16).getD (PdM.blank 16)

/-- the CP's object for that PD -/
def cp : Pd := (CpM.newPd pdInfo 0 false 16).getD (PdM.blank 16)

/-- a POLL command with sequence number 0 for address 101, with a mark byte -/
def poll : List Byte := [0xFF#8, 0x53#8, 101#8, 8#8, 0#8, 4#8, 0x60#8, 0x60#8, 0x90#8]

/-- a plain command for address 101 with a mark byte -/
def cmd (seq : Byte) (data : List Byte) : List Byte :=
  Spec.Wire.Packet.bytes ⟨true, 101#8, seq ||| 4#8, [], data⟩

/-- some bytes arrive; the application accepts every command -/
def env (bytes : List Byte) (now : Int := 0) : Env :=
  { now := now, recv := [bytes], cb := some fun _ c => (0, c) }

/-- some bytes arrive; the application rejects every command -/
def envRej (bytes : List Byte) (now : Int := 0) : Env :=
  { now := now, recv := [bytes], cb := some fun _ c => (-1, c) }

/-- the commands handed to the application -/
def asked (outs : List Out) : List Cmd := outs.filterMap fun | .cmd c => some c | _ => none

end Osdp.Sample
