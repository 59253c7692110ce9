import Verif.Model.Types

/-!
# What an application sees of a file transfer

Independent of the code: the FILETRANSFER command and its status reply as OSDP lays them out, and the file the
receiving application has open, read off the calls of its file operations.
-/

namespace Osdp.Spec.FileLog

/-- a FILETRANSFER command after its id: type, size of the file, offset and length of the fragment, fragment -/
def xfer (type : Byte) (size offset : Nat) (data : List Byte) : List Byte :=
  type :: (le32 size ++ (le32 offset ++ (le16 data.length ++ data)))

/-- the size announced for the file that is open after one more effect -/
def openNext (s : Option Int) : Out → Option Int
  | .fopen _ n => some n
  | .fclose => none
  | _ => s

/-- the size announced for the file that is open after these effects -/
def openAfter : Option Int → List Out → Option Int
  | s, [] => s
  | s, o :: outs => openAfter (openNext s o) outs

/-- every write goes to an open file, and `P` holds of the announced size, the bytes and the offset -/
def Writes (P : Int → List Byte → Int → Prop) : Option Int → List Out → Prop
  | _, [] => True
  | s, o :: outs => (∀ d off, o = .fwrite d off → ∃ n, s = some n ∧ P n d off) ∧ Writes P (openNext s o) outs

/-- the write lies inside a file of size `n` -/
def Inside (n : Int) (d : List Byte) (off : Int) : Prop := 0 ≤ off ∧ off + d.length ≤ n

theorem openAfter_append (s : Option Int) (a b : List Out) : openAfter s (a ++ b) = openAfter (openAfter s a) b := by
  induction a generalizing s with
  | nil => rfl
  | cons o a ih => exact ih _

theorem writes_append (P : Int → List Byte → Int → Prop) (s : Option Int) (a b : List Out) :
    Writes P s (a ++ b) ↔ Writes P s a ∧ Writes P (openAfter s a) b := by
  induction a generalizing s with
  | nil => exact ⟨fun h => ⟨trivial, h⟩, fun h => h.2⟩
  | cons o a ih =>
    constructor
    · intro h; have := (ih _).mp h.2; exact ⟨⟨h.1, this.1⟩, this.2⟩
    · intro h; exact ⟨h.1.1, (ih _).mpr ⟨h.1.2, h.2⟩⟩

end Osdp.Spec.FileLog
