import Verif.Lemmas.CpSess
import Verif.Lemmas.SampleCp
import Verif.Props.C15

/-!
# C21: handshake soundness at the CP

`Hail` records, beside the run, the random number the CP drew for its last challenge and the body of the CCRYPT reply it took in
since. Whenever the secure channel is active, that reply carries the cryptogram which an owner of the base key computes from the
CP's random number and its own (`Proven`); `Spec.Session` defines the cryptogram and the session keys independently of the model.

The base key is the one the CP holds for the PD, except while the CP is about to install that key in a PD that so far knows only
the default key (state `setScbk`): then it may be the default key.
-/

namespace Osdp.CpM

open Spec.Session

/-- the bookkeeping of one step -/
def Hail.after (C : Cipher) (g : Hail) (p : Pd) (op : Op) (q : Pd) : Hail := match op with
  | .update _ env => (g.hear C p env).renew p env q
  | _ => g

/-- the bookkeeping of a history -/
def Hail.over (C : Cipher) (g : Hail) (p : Pd) : List Op → Hail
  | [] => g
  | op :: ops => match CpM.step C p op with
    | .ok (q, _) => (g.after C p op q).over C q ops
    | .error _ => g

theorem sess_step {C : Cipher} {p q : Pd} {op : Op} {o : List Out} {g : Hail} (I : Inv p) (S : Sess C p g)
    (h : step C p op = .ok (q, o)) : Sess C q (g.after C p op q) := by
  by_cases hu : ∀ cb env, op ≠ .update cb env
  · have ha := step_apiOnly h hu
    have ht : g.after C p op q = g := by
      cases op with
      | update cb env => exact absurd rfl (hu cb env)
      | _ => rfl
    unfold Api at ha
    rw [ht, ha]
    exact S.same ⟨rfl, rfl, rfl, rfl, rfl, id, id⟩ rfl
  obtain ⟨cb, env, rfl⟩ : ∃ cb env, op = .update cb env :=
    Classical.byContradiction fun hn => hu fun cb env he => hn ⟨cb, env, he⟩
  obtain ⟨⟨s1, o2, y⟩, hu', h1⟩ := Res.bind_eq_ok.mp h
  clear h
  injection h1 with h1; injection h1 with e1 e2; subst e1 e2
  exact (stateUpdate_inv I.cp hu').sess I S

theorem sess_run {C : Cipher} {ops : List Op} {p q : Pd} {o : List Out} {g : Hail} (I : Inv p) (S : Sess C p g)
    (h : run C p ops = .ok (q, o)) : Inv q ∧ Sess C q (g.over C p ops) := by
  induction ops generalizing p o g with
  | nil =>
    injection h with h; injection h with e1 e2; subst e1
    exact ⟨I, S⟩
  | cons op ops ih =>
    obtain ⟨⟨p1, o1⟩, h1, h⟩ := Res.bind_eq_ok.mp h
    obtain ⟨⟨p2, o2⟩, h2, h⟩ := Res.bind_eq_ok.mp h
    injection h with h; injection h with e1 e2; subst e1 e2
    unfold Hail.over
    rw [h1]
    exact ih (I.step h1) (sess_step I S h1) h2

/-- no challenge yet -/
def Hail.none : Hail := ⟨.fill 8 0#8, Option.none⟩

/-- a CP just set up -/
theorem newPd_sess {C : Cipher} {info : PdM.Info} {i n : Nat} {sk : Bool} {p0 : Pd} {g : Hail} (h : newPd info i sk n = some p0) :
    Sess C p0 g := by
  obtain ⟨I, -, -, hs⟩ := newPd_inv h
  have na : ¬ p0.flags.scActive = true := fun h => by rcases I.secure h with h | h <;> rw [hs] at h <;> cases h
  exact ⟨fun h => absurd h (by rw [hs]; simp [na]), fun h => (by rw [hs] at h; cases h), fun h => absurd h na⟩

/-- **C21.**  In every history from set up on, whatever bytes arrive: while the CP considers the secure channel active, it has
received, in answer to its last challenge, the cryptogram computed from the base key and its own random number, and the session
keys are derived from the two. The base key is the one the CP holds; only while it is being installed it may be the
default key. -/
theorem C21 (C : Cipher) (info : PdM.Info) (i n : Nat) (sk : Bool) (p0 q : Pd) (ops : List Op) (o : List Out)
    (h0 : newPd info i sk n = some p0) (h : run C p0 ops = .ok (q, o)) (ha : q.flags.scActive = true) :
    ∃ k, (k = q.sc.scbk ∨ q.state = .setScbk ∧ k = defaultKey) ∧ Proven C k q.sc (Hail.none.over C p0 ops) :=
  ((sess_run (newPd_inv h0).1 (newPd_sess h0) h).2).active ha

/-- once the PD is regarded as online, it is the key the CP holds -/
theorem C21_online (C : Cipher) (info : PdM.Info) (i n : Nat) (sk : Bool) (p0 q : Pd) (ops : List Op) (o : List Out)
    (h0 : newPd info i sk n = some p0) (h : run C p0 ops = .ok (q, o)) (ha : q.flags.scActive = true) (ho : q.state = .online) :
    Proven C q.sc.scbk q.sc (Hail.none.over C p0 ops) := by
  obtain ⟨k, hk, hp⟩ := C21 C info i n sk p0 q ops o h0 h ha
  rcases hk with rfl | ⟨hk, -⟩
  · exact hp
  · rw [ho] at hk; cases hk

/-- the random number of the record is the one drawn in the update that began the challenge -/
theorem C21_fresh (C : Cipher) (g : Hail) (p q : Pd) (cb : Bool) (env : Env) (h : q.state = .scChlng) (h' : p.state ≠ .scChlng) :
    g.after C p (.update cb env) q = ⟨env.random, Option.none⟩ := if_pos ⟨h, h'⟩

/-- such a history: the sample CP and PD talk; the channel becomes active -/
example : ∃ q o, run xorCipher Sample.cp (Sample.talk.turns xorCipher 20 20).cpOps = .ok (q, o) ∧
    decide (q.state = .online ∧ q.flags.scActive = true) = true :=
  Sample.ran (fun q _ => decide (q.state = .online ∧ q.flags.scActive = true)) (by decide +kernel)

/-- a PD that has no key yet: the CP opens a session with the default key, to install its own (the second alternative of `C21`
does occur), and then one with that -/
def newcomer : Sample.Talk := { cp := Sample.cp, pd := (PdM.setup { Sample.pdInfo with scbk := none } false 16).getD (PdM.blank 16) }

theorem C21_install :
    (let c := (newcomer.turns xorCipher 20 15).cp
     c.state = .setScbk ∧ c.flags.scActive = true ∧ c.sc.sEnc = encKey xorCipher defaultKey Sample.rndA ∧ c.sc.scbk = Sample.key) ∧
    (let c := (newcomer.turns xorCipher 20 24).cp
     c.state = .online ∧ c.flags.scActive = true ∧ c.sc.sEnc = encKey xorCipher Sample.key Sample.rndA) := by decide +kernel

end Osdp.CpM
