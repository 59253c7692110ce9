import Verif.Model.Types

/-!
# What a receiving application has stored

Independent of the code: a file as the bytes the application was told to write, at the offsets it was told, since it was last told to open one.
-/

namespace Osdp.Spec.FileStore

/-- a file after `d` has been written at `off` (a gap is filled with zeros) -/
def put (file : List Byte) (off : Nat) (d : List Byte) : List Byte :=
  file.take off ++ (List.replicate (off - file.length) 0#8 ++ (d ++ file.drop (off + d.length)))

/-- the file stored after one more effect; nothing can be stored before an open, or at a negative offset -/
def storeNext (s : Option (List Byte)) : Out → Option (List Byte)
  | .fopen _ _ => some []
  | .fwrite d off => s.bind fun file => if off < 0 then none else some (put file off.toNat d)
  | _ => s

/-- the file stored after these effects -/
def stored (s : Option (List Byte)) (outs : List Out) : Option (List Byte) := outs.foldl storeNext s

theorem stored_append (s : Option (List Byte)) (a b : List Out) : stored s (a ++ b) = stored (stored s a) b := List.foldl_append ..

/-- writing at the end -/
theorem put_end (file d : List Byte) : put file file.length d = file ++ d := by
  unfold put
  rw [List.take_length, Nat.sub_self, List.drop_of_length_le (by omega)]
  simp

/-- The sender's application has this file: what it reads is what the file has at that place, however much it chooses to read. -/
def Reads (file : List Byte) (env : Env) : Prop :=
  ∀ n off k bytes, 0 ≤ off → env.fread n off = (k, bytes) → 0 < k → bytes = (file.drop off.toNat).take k.toNat

/-- The sender's application opens this file. -/
def Opens (file : List Byte) (env : Env) : Prop :=
  ∀ id n, 0 ≤ (env.fopen id n).1 → (env.fopen id n).2 = file.length

end Osdp.Spec.FileStore
