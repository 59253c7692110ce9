import Verif.Lemmas.CpEvent
import Verif.Lemmas.SampleCp
import Verif.Props.C15

/-!
# C42: online/offline notifications are truthful

The full statement — a PD-status notification carries 1 when the PD has just come online and 0 when it has just gone offline —
fails: a PD going offline is reported with 1 as well (`C42_offline`, for all histories; `C42_offline_example`). The part about
coming online holds, and there are no other notifications of that kind (`C42_partial`).
-/

namespace Osdp.CpM

/-- the PD has just got into this state -/
def JustBecame (p q : Pd) (s : CpState) : Prop := q.state = s ∧ p.state ≠ s

theorem C42_status {C : Cipher} {info : PdM.Info} {p q : Pd} {cb : Bool} {env : Env} {outs : List Out} (hr : Reached C info p)
    (h : step C p (.update cb env) = .ok (q, outs)) :
    notes .pdStatus outs = (if q.state ≠ p.state ∧ (q.state = .online ∨ q.state = .offline) ∧ told cb p then [(1, 0)] else []) := by
  obtain ⟨⟨s1, o1, y⟩, hu, h⟩ := Res.bind_eq_ok.mp h
  injection h with h; injection h with e1 e2; subst e1 e2
  exact (stateUpdate_inv hr.inv.cp hu).status hr.inv hr.buffered hr.tidy.proper

/-- **C42**, as far as it holds: with notifications enabled and a callback registered, a visit in which the PD comes online makes
exactly one PD-status notification, with 1; a visit that makes a PD-status notification is one in which the PD comes online or
goes offline. -/
theorem C42_partial (C : Cipher) (info : PdM.Info) (p q : Pd) (cb : Bool) (env : Env) (outs : List Out) (hr : Reached C info p)
    (h : step C p (.update cb env) = .ok (q, outs)) :
    (JustBecame p q .online → cb = true → p.flags.enableNotif = true → notes .pdStatus outs = [(1, 0)]) ∧
    (notes .pdStatus outs ≠ [] → cb = true ∧ p.flags.enableNotif = true ∧ (JustBecame p q .online ∨ JustBecame p q .offline)) := by
  rw [C42_status hr h]
  constructor
  · rintro ⟨h1, h2⟩ h3 h4
    rw [if_pos ⟨by rw [h1]; exact Ne.symm h2, .inl h1, by unfold told; rw [h3, h4]; rfl⟩]
  · intro hn
    split at hn
    · rename_i hc
      obtain ⟨h1, h2, h3⟩ := hc
      unfold told at h3
      rw [Bool.and_eq_true] at h3
      refine ⟨h3.1, h3.2, ?_⟩
      rcases h2 with h2 | h2
      · exact .inl ⟨h2, h2 ▸ Ne.symm h1⟩
      · exact .inr ⟨h2, h2 ▸ Ne.symm h1⟩
    · exact absurd rfl hn

/-- **C42 fails**, in every history: a PD that has just gone offline is reported with 1. -/
theorem C42_offline (C : Cipher) (info : PdM.Info) (p q : Pd) (env : Env) (outs : List Out) (hr : Reached C info p)
    (h : step C p (.update true env) = .ok (q, outs)) (hb : JustBecame p q .offline) (hn : p.flags.enableNotif = true) :
    notes .pdStatus outs = [(1, 0)] := by
  rw [C42_status hr h, if_pos ⟨by rw [hb.1]; exact Ne.symm hb.2, .inr hb.1, by unfold told; rw [hn]; rfl⟩]

/-- the sample PD, with notifications -/
def chatty : PdM.Info := { Sample.pdInfo with enableNotif := true }

/-- the CP's object for it -/
def chattyCp : Pd := (newPd chatty 0 false 16).getD (PdM.blank 16)

theorem chatty_reached {C : Cipher} {ops : List Op} {q : Pd} {o : List Out} (h : run C chattyCp ops = .ok (q, o)) :
    Reached C chatty q := ⟨0, false, 16, chattyCp, ops, o, rfl, h⟩

/-- a PD comes online -/
example : ∃ p q o env outs, run xorCipher chattyCp (Sample.asks (Sample.reply 0 Sample.pdidReply) ++ [Sample.hears [], Sample.hears []]) =
    .ok (p, o) ∧ Reached xorCipher chatty p ∧ step xorCipher p (.update true env) = .ok (q, outs) ∧ JustBecame p q .online ∧
    p.flags.enableNotif = true ∧ notes .pdStatus outs = [(1, 0)] := by
  obtain ⟨p, o, q, outs, h1, h2, h3, h4⟩ := Sample.ran_step (C := xorCipher) (p := chattyCp)
    (ops := Sample.asks (Sample.reply 0 Sample.pdidReply) ++ [Sample.hears [], Sample.hears []])
    (op := Sample.hears (Sample.reply 1 [b8 Id.PDCAP, 4, 0, 0]))
    (fun p => p.state != .online && p.flags.enableNotif) (fun q outs => q.state == .online && notes .pdStatus outs == [(1, 0)])
    (by decide +kernel) (by decide +kernel)
  simp only [Bool.and_eq_true, bne_iff_ne, ne_eq, beq_iff_eq] at h3 h4
  exact ⟨p, q, o, _, outs, h1, chatty_reached h1, h2, ⟨h4.1, h3.1⟩, h3.2, h4.2⟩

/-- **C42 fails**: nobody answers, the PD is taken offline, and the notification carries 1. -/
theorem C42_offline_example : ∃ p q o env outs, run xorCipher chattyCp (Sample.silence 26) = .ok (p, o) ∧
    Reached xorCipher chatty p ∧ step xorCipher p (.update true env) = .ok (q, outs) ∧ JustBecame p q .offline ∧
    p.flags.enableNotif = true ∧ notes .pdStatus outs = [(1, 0)] := by
  obtain ⟨p, o, q, outs, h1, h2, h3, h4⟩ := Sample.ran_step (C := xorCipher) (p := chattyCp)
    (ops := Sample.silence 26) (op := .update true { now := 13000 })
    (fun p => p.state != .offline && p.flags.enableNotif) (fun q outs => q.state == .offline && notes .pdStatus outs == [(1, 0)])
    (by decide +kernel) (by decide +kernel)
  simp only [Bool.and_eq_true, bne_iff_ne, ne_eq, beq_iff_eq] at h3 h4
  exact ⟨p, q, o, _, outs, h1, chatty_reached h1, h2, ⟨h4.1, h3.1⟩, h3.2, h4.2⟩

end Osdp.CpM
