import Verif.Lemmas.Rounds
import Verif.Lemmas.SampleCp
import Verif.Props.C15

/-!
# C16: the two ends of a secure channel understand each other

`Line` is the wire between a CP and one PD: nothing under way, or one whole packet under way together
with the body its sender composed.  `Linked C cp₀ pd₀ cp pd l` says that the two ends got from
`(cp₀, pd₀)` to `(cp, pd)` with `l` on the wire, by any number of visits and API calls on both sides, in
any interleaving, while the line delivered every packet complete and exactly once and neither end
gave up its session (no reply time out, no session time out, no KEYSET that ends it).

`C16`: from two ends with the same session keys and reply MAC (the state a handshake leaves, `C20`), at any time, for any such history, a
command under way verifies and decrypts at the PD to the body the CP composed, and a reply under way
verifies and decrypts at the CP to the body the PD composed.
-/

namespace Osdp
namespace Link

open Spec.Wire
open Phy (Idle Arrives SameSession)
open PdM (expire)

/-- what is on the wire: nothing, or the bytes of a packet and the body its sender composed -/
inductive Line where
  | idle
  | toPd (bytes body : List Byte)
  | toCp (bytes body : List Byte)
  deriving DecidableEq

/-- Histories of a link that loses nothing, all within one session (`s`) or all in the clear (`s = false`). -/
inductive Linked (s : Bool) (C : Cipher) (cp₀ pd₀ : Pd) : Pd → Pd → Line → Prop
  | start : Linked s C cp₀ pd₀ cp₀ pd₀ .idle
  /-- an API call of the CP application, or a visit in which nothing arrives and no command is sent -/
  | cpQuiet {cp cp' pd : Pd} {l : Line} {op : CpM.Op} {o : List Out} : Linked s C cp₀ pd₀ cp pd l →
      CpM.step C cp op = .ok (cp', o) → (∀ cb env, op = .update cb env → env.recv = []) →
      (cp'.phyState = .replyWait ↔ cp.phyState = .replyWait) → cp'.state = .online → cp'.scActive = s →
      Linked s C cp₀ pd₀ cp' pd l
  /-- an API call of the PD application, or a refresh in which nothing arrives -/
  | pdQuiet {cp pd pd' : Pd} {l : Line} {op : PdM.Op} {o : List Out} : Linked s C cp₀ pd₀ cp pd l →
      PdM.step C pd op = .ok (pd', o) → (∀ env, op = .refresh env → env.recv = [] ∧ expire pd env.now = pd) →
      Linked s C cp₀ pd₀ cp pd' l
  /-- the CP sends a command -/
  | command {cp cp' pd : Pd} {cb : Bool} {env : Env} {o : List Out} {bs body : List Byte} : Linked s C cp₀ pd₀ cp pd .idle →
      cp.phyState = .sendCmd → 0 ≤ pd.address ∧ pd.address ≤ 126 → 256 ≤ env.sendCap →
      CpM.step C cp (.update cb env) = .ok (cp', o) → sent o = [bs] → commandBuilt C cp env = some body →
      Linked s C cp₀ pd₀ cp' pd (.toPd bs body)
  /-- the command arrives and the PD replies -/
  | reply {cp pd pd' : Pd} {env : Env} {o : List Out} {bs body bs' body' : List Byte} : Linked s C cp₀ pd₀ cp pd (.toPd bs body) →
      Arrives env bs → expire pd env.now = pd → 256 ≤ env.sendCap → PdM.step C pd (.refresh env) = .ok (pd', o) → sent o = [bs'] →
      replyBuilt C pd env = some body' → Linked s C cp₀ pd₀ cp pd' (.toCp bs' body')
  /-- the reply arrives -/
  | done {cp cp' pd : Pd} {cb : Bool} {env : Env} {o : List Out} {bs body : List Byte} : Linked s C cp₀ pd₀ cp pd (.toCp bs body) →
      Arrives env bs → CpM.step C cp (.update cb env) = .ok (cp', o) → cp'.state = .online → cp'.scActive = s →
      Linked s C cp₀ pd₀ cp' pd .idle

/-- what holds throughout -/
def Holds (s : Bool) (C : Cipher) (cp pd : Pd) : Line → Prop
  | .idle => InStep s cp pd
  | .toPd bs body => Asked s C cp pd bs body
  | .toCp bs body => Told s C cp pd bs body

theorem linked_holds {s : Bool} {C : Cipher} {cp₀ pd₀ cp pd : Pd} {l : Line} (S : InStep s cp₀ pd₀) (h : Linked s C cp₀ pd₀ cp pd l) :
    Holds s C cp pd l := by
  induction h with
  | start => exact S
  | @cpQuiet cp cp' pd l op o _ hstep hq hphy hon hact ih =>
    cases l with
    | idle =>
      have ih : InStep s cp pd := ih
      have hw : cp.phyState ≠ .replyWait := by rcases ih.phy with h | h <;> rw [h] <;> decide
      obtain ⟨k, hnk, -, hp⟩ := cp_quiet ih.inv ih.online ih.cpIdle (.inr ih.phy) hstep hq hphy hon (ih.stay hact)
      exact ih.kin (ih.inv.step hstep) hon (hp hw) k (Kin.refl pd) rfl (fun h => hnk (ih.active.trans h) (ih.clear h).1)
    | toPd bs body =>
      have ih : Asked s C cp pd bs body := ih
      obtain ⟨k, -, hc, -⟩ := cp_quiet ih.inv ih.online ih.cpIdle (.inl ih.phy) hstep hq hphy hon (ih.stay hact)
      exact ih.kin (ih.inv.step hstep) hon (hphy.mpr ih.phy) (hc ih.phy) k (Kin.refl pd) rfl
    | toCp bs body =>
      have ih : Told s C cp pd bs body := ih
      obtain ⟨k, -, hc, -⟩ := cp_quiet ih.inv ih.online ih.cpIdle (.inl ih.phy) hstep hq hphy hon (ih.stay hact)
      exact ih.kin (ih.inv.step hstep) hon (hphy.mpr ih.phy) (hc ih.phy) k (Kin.refl pd) rfl
  | @pdQuiet cp pd pd' l op o _ hstep hq ih =>
    cases l with
    | idle =>
      have ih : InStep s cp pd := ih
      exact ih.kin ih.inv ih.online ih.phy (Kin.refl cp) (pd_quiet ih.pdIdle hstep hq).1 (pd_quiet ih.pdIdle hstep hq).2 (fun h => (ih.clear h).1)
    | toPd bs body =>
      have ih : Asked s C cp pd bs body := ih
      exact ih.kin ih.inv ih.online ih.phy rfl (Kin.refl cp) (pd_quiet ih.pdIdle hstep hq).1 (pd_quiet ih.pdIdle hstep hq).2
    | toCp bs body =>
      have ih : Told s C cp pd bs body := ih
      exact ih.kin ih.inv ih.online ih.phy rfl (Kin.refl cp) (pd_quiet ih.pdIdle hstep hq).1 (pd_quiet ih.pdIdle hstep hq).2
  | command _ hps hr hcap hstep hs hb ih =>
    have ih : InStep s _ _ := ih
    obtain ⟨body', hb', hA⟩ := ih.asks hr hstep hcap hps hs
    rw [hb] at hb'
    injection hb' with hb'; subst hb'
    exact hA
  | reply _ ha hexp hcap hstep hs hb ih =>
    have ih : Asked s C _ _ _ _ := ih
    obtain ⟨rb, hrb, hT⟩ := ih.answers ha hexp hstep hcap hs
    rw [hb] at hrb
    injection hrb with hrb; subst hrb
    exact hT
  | done _ ha hstep hon hact ih =>
    have ih : Told s C _ _ _ _ := ih
    exact ih.reads ha hstep hon hact

/-- **C16.** -/
theorem C16 {s : Bool} {C : Cipher} {cp₀ pd₀ cp pd : Pd} {l : Line} (S : InStep s cp₀ pd₀) (h : Linked s C cp₀ pd₀ cp pd l) :
    (∀ bs body env, l = .toPd bs body → Arrives env bs →
      ∃ id data, body = id :: data ∧ Phy.heard C pd env = some (id, data)) ∧
    (∀ bs body env, l = .toCp bs body → Arrives env bs →
      ∃ id data, body = id :: data ∧ CpM.replyOf C cp env = some (id, data)) ∧
    (l = .idle → s = true → Phy.Meets cp.sc pd.sc) := by
  have hh := linked_holds S h
  refine ⟨?_, ?_, ?_⟩
  · rintro bs body env rfl ha
    exact Asked.heard hh ha
  · rintro bs body env rfl ha
    exact Told.heard hh ha
  · rintro rfl
    exact (show InStep s cp pd from hh).same

/-! ### a session -/

theorem turns_inv {C : Cipher} {dt : Int} : ∀ (n : Nat) (t : Sample.Talk), CpM.Inv t.cp → CpM.Inv (t.turns C dt n).cp
  | 0, _, h => h
  | n + 1, t, h => by
    refine turns_inv n _ ?_
    have cpd : ∀ (t : Sample.Talk) (op : PdM.Op), (t.pdDoes C op).cp = t.cp := by
      intro t op; unfold Sample.Talk.pdDoes; split <;> rfl
    have cpc : ∀ (t : Sample.Talk) (op : CpM.Op), CpM.Inv t.cp → CpM.Inv (t.cpDoes C op).cp := by
      intro t op h
      unfold Sample.Talk.cpDoes
      split
      · rename_i hs; exact h.step hs
      · exact h
    show CpM.Inv (Sample.Talk.pdDoes C _ _).cp
    rw [cpd]
    exact cpc _ _ h

/-- the sample CP and PD after their handshake -/
def settled : Sample.Talk := Sample.talk.turns xorCipher 20 20

theorem settled_sync : Sync settled.cp settled.pd := by
  refine ⟨turns_inv _ _ ?_, by decide +kernel, .inr (by decide +kernel), by decide +kernel, by decide +kernel, by decide +kernel,
    fun _ => by decide +kernel, fun _ => ⟨by decide +kernel, by decide +kernel, by decide +kernel, by decide +kernel⟩, by decide +kernel,
    by decide +kernel, by decide +kernel, by decide +kernel, ⟨by decide +kernel, by decide +kernel, by decide +kernel, by decide +kernel⟩,
    ⟨by decide +kernel, by decide +kernel, by decide +kernel, by decide +kernel⟩, fun h => by cases h⟩
  exact (Sample.cp_reached (C := xorCipher) (ops := []) rfl).inv

/-- what arrives, as `channel.recv` returns it -/
def arriving (now : Int) (bs : List Byte) : Env := { now := now, recv := Sample.blocks64 bs }

theorem step_ok {α : Type} {r : Res (α × List Out)} (P : α → List Out → Bool)
    (h : (match r with | .ok (q, o) => P q o | .error _ => false) = true) : ∃ q o, r = .ok (q, o) ∧ P q o = true := by
  split at h
  · rename_i q o; exact ⟨q, o, rfl, h⟩
  · cases h

-- a POLL is under way: it is heard as composed
example : ∃ cp bs, Linked true xorCipher settled.cp settled.pd cp settled.pd (.toPd bs [b8 Id.POLL]) ∧ bs.length = 15 ∧ Arrives (arriving 460 bs) bs ∧
    Phy.heard xorCipher settled.pd (arriving 460 bs) = some (b8 Id.POLL, []) := by
  obtain ⟨cp, o, hs, hP⟩ := step_ok (r := CpM.step xorCipher settled.cp (.update true (arriving 460 [])))
    (fun _ o => decide ((sent o).length = 1 ∧ ((sent o).map List.length) = [15])) (by decide +kernel)
  rw [decide_eq_true_iff] at hP
  obtain ⟨bs, hbs⟩ := List.length_eq_one_iff.mp hP.1
  have hl : bs.length = 15 := by rw [hbs] at hP; simpa using hP.2
  have hL := Linked.command (s := true) (pd := settled.pd) .start (by decide +kernel) (by decide +kernel) (by decide +kernel) hs hbs
    (show commandBuilt xorCipher settled.cp _ = some [b8 Id.POLL] by decide +kernel)
  have hA : Arrives (arriving 460 bs) bs := by
    refine ⟨?_, ?_⟩
    · intro c hc
      simp only [arriving, Sample.blocks64, List.mem_cons, List.not_mem_nil, or_false] at hc
      rcases hc with rfl | rfl | rfl | rfl <;> simp <;> omega
    · show Phy.taken [bs.take 64, _, _, _] = bs
      rw [List.take_of_length_le (by omega)]
      unfold Phy.taken
      rw [if_neg (by omega)]
  obtain ⟨id, data, h1, h2⟩ := (C16 settled_sync hL).1 bs _ _ rfl hA
  injection h1 with h1 h3
  subst h1 h3
  exact ⟨cp, bs, hL, hl, hA, h2⟩

end Link
end Osdp
