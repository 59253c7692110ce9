import Verif.Spec.CmdWire

/-!
# Specification: commands that carry several settings (OSDP v2.2, 6.8 – 6.10)

A command for outputs, LEDs or buzzers may carry several settings, one after the other.  They are carried out in the order of the packet.
-/

namespace Osdp.Spec.Command

/-- the commands that may carry several settings -/
inductive Setting
  | output | led | buzzer
  deriving DecidableEq

/-- their codes -/
def Setting.code : Setting → Byte
  | .output => 0x68#8
  | .led => 0x69#8
  | .buzzer => 0x6A#8

/-- a setting of the given kind -/
def IsSetting : Setting → Cmd → Prop
  | .output, .output _ => True
  | .led, .led _ => True
  | .buzzer, .buzzer _ => True
  | _, _ => False

/-- code and payload of a command with the settings `cs`: the code, then the payload each of them would have as a command of its own -/
def several (k : Setting) (cs : List Cmd) : List Byte := k.code :: cs.flatMap fun c => (encode c).drop 1

/-- `CarriedOut may ok i cs done`: of the settings `cs`, of which the first is number `i`, exactly `done` are handed to the application,
in this order.  `may`: the device can do this; `ok i c`: the application does not refuse setting number `i`. -/
inductive CarriedOut (may : Cmd → Prop) (ok : Nat → Cmd → Prop) : Nat → List Cmd → List Cmd → Prop
  | all {i : Nat} : CarriedOut may ok i [] []
  | incapable {i : Nat} {c : Cmd} {cs : List Cmd} : ¬ may c → CarriedOut may ok i (c :: cs) []
  | refused {i : Nat} {c : Cmd} {cs : List Cmd} : may c → ¬ ok i c → CarriedOut may ok i (c :: cs) [c]
  | next {i : Nat} {c : Cmd} {cs done : List Cmd} : may c → ok i c → CarriedOut may ok (i + 1) cs done →
      CarriedOut may ok i (c :: cs) (c :: done)

end Osdp.Spec.Command
