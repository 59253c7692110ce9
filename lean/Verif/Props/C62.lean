import Verif.Model.CpCtx
import Verif.Lemmas.Sample

/-!
# C62: invalid application commands are refused

The full statement, `∀ p env c, (sendPd p env c).2.2 = 0 → Usable c`, is false (`C62_bad_accepted`
and the theorems after it, which also show what the accepted command does later).  Proved is the
part that the code implements.
-/

namespace Osdp.C62

open CpM

/-- A command the library can put on the wire: known id and contents within the documented limits
(include/osdp.h). -/
def Usable : Cmd → Prop
  | .text c => c.length.toNat ≤ 32
  | .keyset c => c.type = 1#8 ∧ c.length = 16#8
  | .mfg c => c.length.toNat ≤ 64
  | .status c => c.type ≠ .other
  | .bad _ => False
  | _ => True

/-- the sample CP object, online -/
def online : Pd := { Sample.cp with state := .online, flags := { Sample.cp.flags with scActive := true } }

/-- Violation: a command with an id outside the enumeration is accepted, … -/
theorem C62_bad_accepted (p : Pd) (env : Env) (n : Int) (h1 : p.state = .online)
    (h2 : p.cmdQueue.length < p.poolCap) :
    ∃ q, sendPd p env (.bad n) = (q, [], 0) ∧ q.cmdQueue = p.cmdQueue ++ [.bad n] := by
  refine ⟨_, by rw [sendPd, if_neg (by simp [h1])]; simp only [if_pos h2]; rfl, rfl⟩

/-- … and terminates the process (`BUG()`) as soon as it is taken from the queue. -/
theorem C62_bad_kills (C : Cipher) (cb : Bool) (p : Pd) (env : Env) (n : Int) (rest : List Cmd)
    (h1 : p.state = .online) (h2 : p.phyState = .idle) (h3 : p.cmdQueue = .bad n :: rest) :
    stateUpdate C cb p env = .error .bug := by
  have hr : phyRunning p = false := by simp [phyRunning, h2]
  rw [stateUpdate, hr]
  simp [settle, h2, stateGetCmd, h1, onlineCommand, h3, translate]

/-- Violation: a text command that claims more than the 32 bytes its array holds is accepted, … -/
theorem C62_long_text_accepted :
    (sendPd online { now := 0 } (.text ⟨0, 1, 0, 0, 0, 200#8, .zero 32⟩)).2.2 = 0 := by decide

/-- … and building the packet reads beyond that array. -/
theorem C62_long_text_overreads (C : Cipher) (p : Pd) (env : Env) (t : Phy.Tx) (c : CmdText) (room : Int)
    (h1 : p.cmdId = Id.TEXT) (h2 : p.eph = .cmd (.text c)) (h3 : 32 < c.length.toNat)
    (h4 : (7 + c.length.toNat : Int) < room) :
    (commandBody C p env t room).toOption.isNone ∧
    ∀ b, commandBody C p env t room ≠ .ok b := by
  have : commandBody C p env t room = .error .oobRead := by
    unfold commandBody
    simp only [h1, Id.TEXT, Id.POLL, Id.LSTAT, Id.ISTAT, Id.OSTAT, Id.RSTAT, Id.ID, Id.CAP, Id.OUT, Id.LED,
      Id.BUZ]
    simp only [Nat.reduceEqDiff, or_self, if_false, if_true, h2, PdM.assertLen, if_pos h4, Res.ok_bind]
    unfold PdM.copyOut
    rw [if_neg]
    · rfl
    · have := c.data.2
      omega
  rw [this]
  simp [Except.toOption]

/-- Violation: a key of another length than 16 is accepted (it fails when the packet is built). -/
theorem C62_bad_key_accepted :
    (sendPd online { now := 0 } (.keyset ⟨1#8, 0#8, .zero 32⟩)).2.2 = 0 := by decide

/-- **C62, partial.**  `osdp_cp_send_command` refuses every command while the PD is not online, every
KEYSET of another type than 1 or without an active secure channel, any queued command when the pool is
exhausted, and a file transfer without registered file operations; a refused queued command has
no effect at all.  Missing: unknown ids, an unknown status type, the lengths of text, key and
manufacturer data. -/
theorem C62_refusals_partial (p : Pd) (env : Env) (c : Cmd) :
    (p.state ≠ .online → sendPd p env c = (p, [], -1)) ∧
    (∀ k, c = .keyset k → k.type ≠ 1#8 ∨ p.scActive = false → sendPd p env c = (p, [], -1)) ∧
    ((∀ f, c ≠ .fileTx f) → p.poolCap ≤ p.cmdQueue.length → sendPd p env c = (p, [], -1)) ∧
    (∀ f, c = .fileTx f → p.file = none → sendPd p env c = (p, [], -1)) ∧
    ((∀ f, c ≠ .fileTx f) → (sendPd p env c).2.2 ≠ 0 → sendPd p env c = (p, [], -1)) := by
  have hq : ∀ c, (∀ f, c ≠ .fileTx f) →
      sendPd p env c = (p, [], -1) ∨
        sendPd p env c = ({ p with cmdQueue := p.cmdQueue ++ [c] }, [], 0) ∧
        p.cmdQueue.length < p.poolCap := by
    intro c hc
    unfold sendPd
    by_cases hs : p.state ≠ .online
    · left; rw [if_pos hs]
    · rw [if_neg hs]
      by_cases hl : p.cmdQueue.length < p.poolCap
      · cases c <;> simp only [if_pos hl] <;> (try split) <;> simp_all
      · left
        cases c <;> simp only [if_neg hl] <;> (try split) <;> simp_all
  refine ⟨fun h => by rw [sendPd, if_pos h], ?_, ?_, ?_, ?_⟩
  · rintro k rfl h
    unfold sendPd
    by_cases hs : p.state ≠ .online
    · rw [if_pos hs]
    · rw [if_neg hs]
      dsimp only
      rw [if_pos]
      simpa using h
  · intro hc hl
    rcases hq c hc with h | ⟨_, h⟩
    · exact h
    · omega
  · rintro f rfl hf
    unfold sendPd
    by_cases hs : p.state ≠ .online
    · rw [if_pos hs]
    · rw [if_neg hs]
      simp only [hf, File.txCommand]
      congr 1
      rw [← hf]
  · intro hc h
    rcases hq c hc with h' | ⟨h', _⟩
    · exact h'
    · rw [h'] at h; simp at h

/-- the sample object meets the hypotheses of the violation theorems -/
example : online.state = .online ∧ online.cmdQueue.length < online.poolCap := by decide

end Osdp.C62
