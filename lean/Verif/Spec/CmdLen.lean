import Verif.Model.Types

/-!
# Specification: body lengths of the OSDP commands

`body` is what follows the command id.
-/

namespace Osdp.Spec.CmdLen

/-- Is this a body the command allows (by its length and the length field inside it)? -/
def allowed (id : Nat) (body : List Byte) : Bool :=
  let n := body.length
  if id = Id.POLL ∨ id = Id.LSTAT ∨ id = Id.ISTAT ∨ id = Id.OSTAT ∨ id = Id.RSTAT ∨ id = Id.ABORT then n == 0
  else if id = Id.ID ∨ id = Id.CAP then n == 1
  else if id = Id.OUT then n % 4 == 0 && n != 0
  else if id = Id.LED then n % 14 == 0 && n != 0
  else if id = Id.BUZ then n % 5 == 0 && n != 0
  else if id = Id.TEXT then
    match body[5]? with
    | some l => n == 6 + l.toNat && decide (l.toNat ≤ 32)
    | none => false
  else if id = Id.COMSET then n == 5
  else if id = Id.MFG then decide (4 ≤ n) && decide (n ≤ 68)
  else if id = Id.ACURXSIZE ∨ id = Id.KEEPACTIVE then n == 2
  else if id = Id.KEYSET then n == 18
  else if id = Id.CHLNG then n == 8
  else if id = Id.SCRYPT then n == 16
  else if id = Id.FILETRANSFER then decide (11 ≤ n)
  else true

/-- The bodies that are not allowed, except: no record at all (OUT, LED, BUZ), surplus bytes at the end
(TEXT, ACURXSIZE, KEEPACTIVE), and file transfer fragments. -/
def grossly (id : Nat) (body : List Byte) : Bool :=
  !allowed id body &&
  !((id == Id.OUT || id == Id.LED || id == Id.BUZ) && body.length == 0) &&
  !((id == Id.ACURXSIZE || id == Id.KEEPACTIVE) && decide (2 < body.length)) &&
  !(id == Id.TEXT && (match body[5]? with | some l => decide (6 + l.toNat < body.length) && decide (l.toNat ≤ 32) | none => false)) &&
  !(id == Id.FILETRANSFER)

end Osdp.Spec.CmdLen
