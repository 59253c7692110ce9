import Verif.Lemmas.CpTurn
import Verif.Lemmas.SampleCp
import Verif.Props.C15

/-!
# C56: connection establishment order
-/

namespace Osdp.CpM

/-- The visit `op`, made after the history `before`, takes in a reply with the id `id`. -/
def Took (C : Cipher) (p0 : Pd) (before : List Op) (op : Op) (id : Nat) : Prop :=
  ∃ s o cb env body, run C p0 before = .ok (s, o) ∧ op = .update cb env ∧ replyOf C s env = some (b8 id, body)

/-- In the history `ops`, communication was not restarted after the first `n` steps: the PD was neither offline nor back at
the start. -/
def Unbroken (C : Cipher) (p0 : Pd) (n : Nat) (ops : List Op) : Prop :=
  ∀ m, m <+: ops → n < m.length → ∀ s o, run C p0 m = .ok (s, o) → s.state ≠ .offline ∧ s.state ≠ .init

/-- A PDID reply was taken in, and there was no restart since. -/
def Identified (C : Cipher) (p0 : Pd) (ops : List Op) : Prop :=
  ∃ a op1 b, ops = a ++ op1 :: b ∧ Took C p0 a op1 Id.PDID ∧ Unbroken C p0 a.length ops

/-- A PDID reply and, later, a PDCAP reply were taken in, and there was no restart since the former. -/
def Introduced (C : Cipher) (p0 : Pd) (ops : List Op) : Prop :=
  ∃ a op1 b op2 c, ops = a ++ op1 :: (b ++ op2 :: c) ∧ Took C p0 a op1 Id.PDID ∧ Took C p0 (a ++ op1 :: b) op2 Id.PDCAP ∧
    Unbroken C p0 a.length ops

theorem Unbroken.snoc {C : Cipher} {p0 s : Pd} {n : Nat} {ops : List Op} {op : Op} {o : List Out} (h : Unbroken C p0 n ops)
    (hr : run C p0 (ops ++ [op]) = .ok (s, o)) (hs : s.state ≠ .offline ∧ s.state ≠ .init) : Unbroken C p0 n (ops ++ [op]) := by
  intro m hm hn s' o' hr'
  rcases List.prefix_concat_iff.mp hm with rfl | hm
  · rw [hr] at hr'
    injection hr' with hr'; injection hr' with e1 e2; subst e1
    exact hs
  · exact h m hm hn s' o' hr'

theorem Identified.snoc {C : Cipher} {p0 s : Pd} {ops : List Op} {op : Op} {o : List Out} (h : Identified C p0 ops)
    (hr : run C p0 (ops ++ [op]) = .ok (s, o)) (hs : s.state ≠ .offline ∧ s.state ≠ .init) : Identified C p0 (ops ++ [op]) := by
  obtain ⟨a, op1, b, rfl, h1, h2⟩ := h
  exact ⟨a, op1, b ++ [op], by simp, h1, h2.snoc hr hs⟩

theorem Introduced.snoc {C : Cipher} {p0 s : Pd} {ops : List Op} {op : Op} {o : List Out} (h : Introduced C p0 ops)
    (hr : run C p0 (ops ++ [op]) = .ok (s, o)) (hs : s.state ≠ .offline ∧ s.state ≠ .init) : Introduced C p0 (ops ++ [op]) := by
  obtain ⟨a, op1, b, op2, c, rfl, h1, h2, h3⟩ := h
  exact ⟨a, op1, b, op2, c ++ [op], by simp, h1, h2, h3.snoc hr hs⟩

/-- what each state of the connection says about the history -/
def History (C : Cipher) (p0 : Pd) (ops : List Op) (q : Pd) : Prop :=
  match q.state with
  | .capdet => Identified C p0 ops
  | .scChlng | .scScrypt | .setScbk | .online => Introduced C p0 ops
  | _ => True

theorem byte_eq {b : Byte} {n : Nat} (h : (b.toNat == n) = true) : b = b8 n := by
  have := beq_iff_eq.mp h
  subst this
  simp [b8]

theorem history_step {C : Cipher} {p0 q s : Pd} {ops : List Op} {op : Op} {o o' : List Out} (I : Inv q)
    (hr : run C p0 ops = .ok (q, o)) (H : History C p0 ops q) (hs : step C q op = .ok (s, o')) :
    History C p0 (ops ++ [op]) s := by
  have hr' := run_snoc hr hs
  have same : s.state = q.state → History C p0 (ops ++ [op]) s := by
    intro he
    unfold History at H ⊢
    cases hc : s.state <;> rw [← he, hc] at H <;> dsimp only at H ⊢
    case capdet => exact H.snoc hr' (by simp [hc])
    case scChlng => exact H.snoc hr' (by simp [hc])
    case scScrypt => exact H.snoc hr' (by simp [hc])
    case setScbk => exact H.snoc hr' (by simp [hc])
    case online => exact H.snoc hr' (by simp [hc])
  by_cases hop : ¬ ∃ cb e, op = .update cb e
  · exact same (step_api hs fun cb e he => hop ⟨cb, e, he⟩).2.1
  replace hop := Classical.not_not.mp hop
  obtain ⟨cb, env, rfl⟩ := hop
  obtain ⟨⟨s1, o1, y⟩, hu, hs⟩ := Res.bind_eq_ok.mp hs
  injection hs with hs; injection hs with e1 e2; subst e1 e2
  rcases ((stateUpdate_inv I.cp hu).visit I).moves with he | ⟨p2, ok, h1, h2, h3⟩
  · exact same he
  unfold finalState nextState at h2
  rw [h1] at h2
  unfold History at H
  cases hst : q.state <;> rw [hst] at h2 H
  case init =>
    cases ok with
    | false => simp at h2; unfold History; rw [h2]; trivial
    | true =>
      simp at h2
      obtain ⟨id, body, h4, h5⟩ : ∃ id body, replyOf C q env = some (id, body) ∧ verdict { q with replyId := id.toNat } = true := by
        rcases h3 rfl with h | h | h | h
        · rw [hst] at h; cases h
        · rw [hst] at h; cases h
        · rw [hst] at h; cases h
        · exact h
      unfold verdict at h5
      dsimp only at h5
      rw [hst] at h5
      unfold History; rw [h2]
      refine ⟨ops, .update cb env, [], by simp, ⟨q, o, cb, env, body, hr, rfl, byte_eq h5 ▸ h4⟩, ?_⟩
      intro m hm hn s' o'' hr''
      rcases List.prefix_concat_iff.mp hm with rfl | hm
      · rw [hr'] at hr''
        injection hr'' with hr''; injection hr'' with e1 e2; subst e1
        simp [h2]
      · have := hm.length_le; omega
  case capdet =>
    cases ok with
    | false => simp at h2; unfold History; rw [h2]; trivial
    | true =>
      obtain ⟨id, body, h4, h5⟩ : ∃ id body, replyOf C q env = some (id, body) ∧ verdict { q with replyId := id.toNat } = true := by
        rcases h3 rfl with h | h | h | h
        · rw [hst] at h; cases h
        · rw [hst] at h; cases h
        · rw [hst] at h; cases h
        · exact h
      unfold verdict at h5
      dsimp only at h5
      rw [hst] at h5
      have key : s1.state = .offline ∨ s1.state = .scChlng ∨ s1.state = .online := by
        rw [h2]; dsimp only
        repeat' split
        all_goals simp_all
      obtain ⟨a, op1, b, rfl, h6, h7⟩ := H
      have fin : s1.state ≠ .offline ∧ s1.state ≠ .init → Introduced C p0 (a ++ op1 :: b ++ [.update cb env]) := fun hn =>
        ⟨a, op1, b, .update cb env, [], by simp, h6, ⟨q, o, cb, env, body, hr, rfl, byte_eq h5 ▸ h4⟩, h7.snoc hr' hn⟩
      unfold History
      rcases key with h | h | h
      · rw [h]; trivial
      · rw [h] at fin ⊢; exact fin (by simp)
      · rw [h] at fin ⊢; exact fin (by simp)
  case offline =>
    have key : s1.state = .offline ∨ s1.state = .init := by
      rw [h2]; cases ok <;> dsimp only
      all_goals
        repeat' split
        all_goals simp_all
    unfold History
    rcases key with h | h <;> (rw [h]; trivial)
  case probe => exact absurd hst I.probe
  all_goals
    have key : s1.state = .offline ∨ s1.state = .scChlng ∨ s1.state = .scScrypt ∨ s1.state = .setScbk ∨ s1.state = .online := by
      rw [h2]; cases ok <;> dsimp only
      all_goals
        repeat' split
        all_goals simp_all
    dsimp only at H
    unfold History
    rcases key with h | h | h | h | h <;> rw [h] <;> first | trivial | exact H.snoc hr' (by simp [h])

/-- **C56.**  Whatever replies arrive and whatever the application does: if the CP regards the PD as online, it took in a PDID
reply and, later, a PDCAP reply, and since the former communication was not restarted (the PD was neither offline nor back in
the initial state). -/
theorem C56 (C : Cipher) (info : PdM.Info) (i n : Nat) (sk : Bool) (p0 q : Pd) (ops : List Op) (o : List Out)
    (h0 : newPd info i sk n = some p0) (h : run C p0 ops = .ok (q, o)) (hq : q.state = .online) : Introduced C p0 ops := by
  obtain ⟨I0, -, -, hs⟩ := newPd_inv h0
  have H := run_ind (C := C) (p := p0) (fun ops q _ => Inv q ∧ History C p0 ops q) ⟨I0, by unfold History; rw [hs]; trivial⟩
    (fun ops op q o s o' hr ih hs => ⟨ih.1.step hs, history_step ih.1 hr ih.2 hs⟩) h
  have := H.2
  unfold History at this
  rw [hq] at this
  exact this

/-- the same for a PD being asked for a secure channel -/
theorem C56_secure (C : Cipher) (info : PdM.Info) (i n : Nat) (sk : Bool) (p0 q : Pd) (ops : List Op) (o : List Out)
    (h0 : newPd info i sk n = some p0) (h : run C p0 ops = .ok (q, o)) (hq : q.flags.scActive = true) : Introduced C p0 ops := by
  obtain ⟨I0, -, -, hs⟩ := newPd_inv h0
  have H := run_ind (C := C) (p := p0) (fun ops q _ => Inv q ∧ History C p0 ops q) ⟨I0, by unfold History; rw [hs]; trivial⟩
    (fun ops op q o s o' hr ih hs => ⟨ih.1.step hs, history_step ih.1 hr ih.2 hs⟩) h
  have := H.2
  unfold History at this
  rcases H.1.secure hq with h | h <;> (rw [h] at this; exact this)

/-- the CP does get online: without and with a secure channel -/
example : (∃ q o, run xorCipher Sample.cp (Sample.meets [4, 0, 0]) = .ok (q, o) ∧ decide (q.state = .online) = true) ∧
    (Sample.talk.turns xorCipher 20 20).cp.state = .online ∧ (Sample.talk.turns xorCipher 20 20).bad = false := by
  refine ⟨Sample.ran (fun q _ => decide (q.state = .online)) (by decide +kernel), by decide +kernel, by decide +kernel⟩

/-- while a PDCAP reply to the first command does not help -/
example : ∃ q o, run xorCipher Sample.cp (Sample.asks (Sample.reply 0 (b8 Id.PDCAP :: [4, 0, 0]))) = .ok (q, o) ∧
    decide (q.state = .offline) = true :=
  Sample.ran (fun q _ => decide (q.state = .offline)) (by decide +kernel)

end Osdp.CpM
