import Verif.Lemmas.SampleCp
import Verif.Lemmas.PdFile

/-! # The sample CP sends a file to the sample PD, for the examples -/

namespace Osdp.Sample

/-- the sender's application has this file, of which it gives at most `chunk` bytes at a time -/
def sender (file : List Byte) (chunk : Nat) (e : Env) : Env :=
  { e with fopen := fun _ _ => (1, file.length)
           fread := fun n off => let l := (file.drop off.toNat).take (min chunk n.toNat); (l.length, l) }

/-- the receiver's application takes everything -/
def taker (e : Env) : Env := { e with fopen := fun _ n => (3, n), fwrite := fun d _ => d.length }

/-- one visit of each end; the reply of the PD is lost if `lost` -/
def Talk.fturn (C : Cipher) (dt : Int) (file : List Byte) (chunk : Nat) (lost : Bool) (t : Talk) : Talk :=
  let now := t.now + dt
  let before := t.cpOuts.length
  let t := t.cpDoes C (.update true (sender file chunk { now := now, recv := blocks64 t.toCp, random := rndA }))
  let toPd := (Spec.Wire.sent (t.cpOuts.drop before)).flatten
  let before := t.pdOuts.length
  let t := t.pdDoes C (.refresh (taker { now := now, recv := blocks64 toPd, random := .fill 8 0xB0#8, cb := some fun _ c => (0, c) }))
  { t with now := now, toCp := if lost then [] else (Spec.Wire.sent (t.pdOuts.drop before)).flatten }

/-- turns in which replies are lost or not -/
def Talk.fturns (C : Cipher) (dt : Int) (file : List Byte) (chunk : Nat) (t : Talk) (lost : List Bool) : Talk :=
  lost.foldl (fun t l => t.fturn C dt file chunk l) t

/-- the application asks the CP to send the file -/
def Talk.filing (C : Cipher) (file : List Byte) (chunk : Nat) (t : Talk) : Talk :=
  ((t.cpDoes C .fileOps).pdDoes C .fileOps).cpDoes C (.send (sender file chunk { now := t.now }) (.fileTx { id := 1, flags := 0#32 }))

/-- the sample CP and a PD that announces a receive buffer of `n` bytes (the library's own PD always announces 256) -/
def talkRx (n : Byte) : Talk := { cp := cp, pd := { pd with cap := fun i => if i = 10 then ⟨10, n, 0⟩ else pd.cap i } }

/-- a file of `n` bytes -/
def content (n : Nat) : List Byte := (List.range n).map fun i => b8 (i + 7)

end Osdp.Sample
