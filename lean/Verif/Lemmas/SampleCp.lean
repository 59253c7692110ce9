import Verif.Lemmas.SampleSc
import Verif.Lemmas.CpInv

/-! # The sample CP and the sample PD talking to each other, for the examples

`turns C n t` lets both visit the line in turn, `n` times, and collects the two histories. -/

namespace Osdp.Sample

/-- both ends of a line and what happened so far -/
structure Talk where
  cp : Pd
  pd : Pd
  /-- bytes on their way to the CP -/
  toCp : List Byte := []
  now : Int := 0
  cpOps : List CpM.Op := []
  pdOps : List PdM.Op := []
  cpOuts : List Out := []
  pdOuts : List Out := []
  /-- a fault happened (nothing continues) -/
  bad : Bool := false

/-- a stretch of bytes as `channel.recv` returns it, at most 64 bytes a call -/
def blocks64 (bs : List Byte) : List (List Byte) := [bs.take 64, (bs.drop 64).take 64, (bs.drop 128).take 64, bs.drop 192]

/-- the CP does something -/
def Talk.cpDoes (C : Cipher) (t : Talk) (op : CpM.Op) : Talk :=
  match CpM.step C t.cp op with
  | .ok (p, o) => { t with cp := p, cpOps := t.cpOps ++ [op], cpOuts := t.cpOuts ++ o }
  | .error _ => { t with bad := true }

/-- the PD does something -/
def Talk.pdDoes (C : Cipher) (t : Talk) (op : PdM.Op) : Talk :=
  match PdM.step C t.pd op with
  | .ok (p, o) => { t with pd := p, pdOps := t.pdOps ++ [op], pdOuts := t.pdOuts ++ o }
  | .error _ => { t with bad := true }

/-- one visit of each end, `dt` ms after the previous one -/
def Talk.turn (C : Cipher) (dt : Int) (t : Talk) : Talk :=
  let now := t.now + dt
  let before := t.cpOuts.length
  let t := t.cpDoes C (.update true { now := now, recv := blocks64 t.toCp, random := rndA })
  let toPd := (Spec.Wire.sent (t.cpOuts.drop before)).flatten
  let before := t.pdOuts.length
  let t := t.pdDoes C (.refresh { now := now, recv := blocks64 toPd, random := .fill 8 0xB0#8, cb := some fun _ c => (0, c) })
  { t with now := now, toCp := (Spec.Wire.sent (t.pdOuts.drop before)).flatten }

/-- `n` turns -/
def Talk.turns (C : Cipher) (dt : Int) : Nat → Talk → Talk
  | 0, t => t
  | n + 1, t => Talk.turns C dt n (t.turn C dt)

/-- the sample CP and PD after set up -/
def talk : Talk := { cp := cp, pd := pd }

/-- nobody answers: `n` visits, 500 ms apart -/
def silence (n : Nat) : List CpM.Op := (List.range n).map fun (i : Nat) => .update true { now := 500 * (i : Int) }

/-- a plain reply of the sample PD -/
def reply (seq : Byte) (data : List Byte) : List Byte := Spec.Wire.Packet.bytes ⟨true, 101#8 ||| 0x80#8, seq ||| 4#8, [], data⟩

/-- a visit of the CP during which bytes arrive -/
def hears (bs : List Byte) (now : Int := 0) : CpM.Op := .update true { now := now, recv := blocks64 bs, random := rndA }

/-- the CP asks something and hears an answer: three visits -/
def asks (bs : List Byte) (now : Int := 0) : List CpM.Op := [hears [] now, hears [] now, hears bs now]

/-- the sample PD's identity, on the wire -/
def pdidReply : List Byte := [b8 Id.PDID, 1, 2, 3, 2, 1, 4, 5, 6, 7, 0xC, 0xB, 0xA]

/-- the CP gets to know the PD, which has the capabilities of `cap` (as on the wire) -/
def meets (cap : List Byte) : List CpM.Op := asks (reply 0 pdidReply) ++ asks (reply 1 (b8 Id.PDCAP :: cap))

/-- the same at another time, with other sequence numbers -/
def meetsAt (now : Int) (cap : List Byte) (s0 s1 : Byte) : List CpM.Op :=
  asks (reply s0 pdidReply) now ++ asks (reply s1 (b8 Id.PDCAP :: cap)) now

/-- a history of the sample CP has been run, with the result as computed -/
theorem ran {C : Cipher} {p : Pd} {ops : List CpM.Op} (P : Pd → List Out → Bool)
    (h : (match CpM.run C p ops with | .ok (q, o) => P q o | .error _ => false) = true) :
    ∃ q o, CpM.run C p ops = .ok (q, o) ∧ P q o = true := by
  split at h
  · rename_i q o e; exact ⟨q, o, e, h⟩
  · cases h

/-- a history in two parts -/
theorem run_split {C : Cipher} {p q : Pd} {a b : List CpM.Op} {o : List Out} (h : CpM.run C p (a ++ b) = .ok (q, o)) :
    ∃ s o1 o2, CpM.run C p a = .ok (s, o1) ∧ CpM.run C s b = .ok (q, o2) ∧ o = o1 ++ o2 := by
  induction a generalizing p o with
  | nil => exact ⟨p, [], o, rfl, h, rfl⟩
  | cons op ops ih =>
    obtain ⟨⟨p1, o1⟩, h1, h⟩ := Res.bind_eq_ok.mp h
    obtain ⟨⟨p2, o2⟩, h2, h⟩ := Res.bind_eq_ok.mp h
    injection h with h; injection h with e1 e2; subst e1 e2
    obtain ⟨s, a1, a2, h3, h4, rfl⟩ := ih h2
    refine ⟨s, o1 ++ a1, a2, Res.bind_eq_ok.mpr ⟨_, h1, Res.bind_eq_ok.mpr ⟨_, h3, rfl⟩⟩, h4, ?_⟩
    rw [List.append_assoc]

/-- a history and one more step, with the results as computed -/
theorem ran_step {C : Cipher} {p : Pd} {ops : List CpM.Op} {op : CpM.Op} (P : Pd → Bool) (Q : Pd → List Out → Bool)
    (h1 : (match CpM.run C p ops with | .ok (q, _) => P q | .error _ => false) = true)
    (h2 : (match CpM.run C p ops >>= fun x => CpM.step C x.1 op with | .ok (q, o) => Q q o | .error _ => false) = true) :
    ∃ q o s o', CpM.run C p ops = .ok (q, o) ∧ CpM.step C q op = .ok (s, o') ∧ P q = true ∧ Q s o' = true := by
  split at h1
  · rename_i q o e
    rw [e] at h2
    replace h2 : (match CpM.step C q op with | .ok (q, o) => Q q o | .error _ => false) = true := h2
    split at h2
    · rename_i s o' e'; exact ⟨q, o, s, o', e, e', h1, h2⟩
    · cases h2
  · cases h1

theorem cp_reached {C : Cipher} {ops : List CpM.Op} {q : Pd} {o : List Out} (h : CpM.run C cp ops = .ok (q, o)) :
    CpM.Reached C pdInfo q := ⟨0, false, 16, cp, ops, o, rfl, h⟩

end Osdp.Sample
