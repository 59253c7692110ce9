import Verif.Lemmas.Sample
import Verif.Model.PdRun

/-! # A sample secure channel session with the sample PD (for the examples) -/

namespace Osdp.Sample

/-- the CP's random number -/
def rndA : Half := ⟨[0xA0, 0xA1, 0xA2, 0xA3, 0xA4, 0xA5, 0xA6, 0xA7], rfl⟩

/-- the CP's view of the session with base key `k` when the PD's random number is `b` -/
def session (C : Cipher) (k : Block) (b : Half := .zero 8) : Sc :=
  Sc.computeRmacI C (Sc.computeCpCryptogram C (Sc.sessionKeys C false { Sc.zero with scbk := k, cpRandom := rndA, pdRandom := b }))

/-- a command with a security block -/
def scbCmd (seq : Byte) (scb data : List Byte) : List Byte :=
  Spec.Wire.Packet.bytes ⟨true, 101#8, seq ||| 0x0C#8, scb, data⟩

/-- first and second command of the handshake -/
def chlng (seq : Byte) : List Byte := scbCmd seq [3#8, 0x11#8, 1#8] (0x76#8 :: rndA.1)
def scrypt (seq : Byte) (sc : Sc) : List Byte := scbCmd seq [3#8, 0x13#8, 1#8] (0x77#8 :: sc.cpCryptogram.1)

/-- a secured command (encrypted if it has a body), and the session after it -/
def secCmd (C : Cipher) (sc : Sc) (seq id : Byte) (body : List Byte) : List Byte × Sc :=
  let data := if body = [] then [id] else id :: Sc.encryptData C true sc body
  let scb := [2#8, if body = [] then 0x15#8 else 0x17#8]
  let pkt : List Byte → Spec.Wire.Packet := fun mac => ⟨true, 101#8, seq ||| 0x0C#8, scb, data ++ mac⟩
  let msg := (pkt [0, 0, 0, 0]).core
  match Sc.computeMac C true sc (msg.take (msg.length - 4)) with
  | .ok sc' => ((pkt (sc'.cMac.1.take 4)).bytes, sc')
  | .error _ => ([], sc)

/-- run a history of received packets, one per refresh -/
def feed (C : Cipher) (p : Pd) (l : List (List Byte)) : Res (Pd × List Out) := PdM.run C p (l.map fun bs => .refresh (env bs))

/-- the bytes in blocks of at most 64 -/
def feed64 (bs : List Byte) : Env := { env [] with recv := [bs.take 64, bs.drop 64] }

end Osdp.Sample
