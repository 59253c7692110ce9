import Verif.Model.Types

/-!
# What an application may expect of the calls of its file operations

Independent of the code: one file is open at a time; only an open file is read, written or closed.
-/

namespace Osdp.Spec.Handles

/-- Is a file open after this call, given whether one was before?  `none`: the call must not be made.  An open that fails opens nothing,
a close that fails leaves the file open. -/
def call (env : Env) (opened : Bool) : Out → Option Bool
  | .fopen id n => if opened then none else some (decide (0 ≤ (env.fopen id n).1))
  | .fread _ _ => if opened then some true else none
  | .fwrite _ _ => if opened then some true else none
  | .fclose => if opened then some (decide (env.fclose < 0)) else none
  | _ => some opened

/-- Is a file open after these effects?  `none`: there was a call that must not be made. -/
def calls (env : Env) : Option Bool → List Out → Option Bool
  | s, [] => s
  | s, o :: os => calls env (s.bind fun b => call env b o) os

theorem calls_append (env : Env) (s : Option Bool) (a b : List Out) : calls env s (a ++ b) = calls env (calls env s a) b := by
  induction a generalizing s with
  | nil => rfl
  | cons o a ih => exact ih _

end Osdp.Spec.Handles
