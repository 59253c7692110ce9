import Verif.Lemmas.TransferLink
import Verif.Lemmas.SampleFile
import Verif.Props.C30

/-!
# C49: file transfer integrity

`Watched s C X cp₀ pd₀ cp pd l log`: a history of a link that loses nothing (as in `C16`), within one session (`s`) or in the clear, in which the sender's application has the file
`X` (it may read as little of it at a time as it likes, or fail), and `log` is what the receiver's library did to its application.

`C49`: whenever in such a history the sender believes the transfer to be done, the receiver's application has stored exactly `X`.
-/

namespace Osdp
namespace Link

open Spec.Wire
open Spec.FileLog (xfer)
open Spec.FileStore
open Phy (Idle Arrives)
open PdM (expire)
open File (Ready Rests stored_fileOuts)

/-- the sender's application has the file `X` -/
structure CpApp (X : List Byte) (op : CpM.Op) : Prop where
  reads : ∀ cb env, op = .update cb env → Reads X env
  opens : ∀ env c, op = .send env c → Opens X env
  registered : op ≠ .fileOps

/-- the receiver's application can close its file -/
structure PdApp (op : PdM.Op) : Prop where
  closes : ∀ env, op = .refresh env → 0 ≤ env.fclose
  registered : op ≠ .fileOps

/-- Histories of a link that loses nothing, as `Linked`, with the file operations. -/
inductive Watched (s : Bool) (C : Cipher) (X : List Byte) (cp₀ pd₀ : Pd) : Pd → Pd → Line → List Out → Prop
  | start : Watched s C X cp₀ pd₀ cp₀ pd₀ .idle []
  | cpQuiet {cp cp' pd : Pd} {l : Line} {op : CpM.Op} {o log : List Out} : Watched s C X cp₀ pd₀ cp pd l log → CpApp X op →
      CpM.step C cp op = .ok (cp', o) → (∀ cb env, op = .update cb env → env.recv = []) →
      (cp'.phyState = .replyWait ↔ cp.phyState = .replyWait) → cp'.state = .online → cp'.scActive = s →
      Watched s C X cp₀ pd₀ cp' pd l log
  | pdQuiet {cp pd pd' : Pd} {l : Line} {op : PdM.Op} {o log : List Out} : Watched s C X cp₀ pd₀ cp pd l log → PdApp op →
      PdM.step C pd op = .ok (pd', o) → (∀ env, op = .refresh env → env.recv = [] ∧ expire pd env.now = pd) →
      Watched s C X cp₀ pd₀ cp pd' l (log ++ o)
  | command {cp cp' pd : Pd} {cb : Bool} {env : Env} {o log : List Out} {bs body : List Byte} : Watched s C X cp₀ pd₀ cp pd .idle log →
      CpApp X (.update cb env) →
      cp.phyState = .sendCmd → 0 ≤ pd.address ∧ pd.address ≤ 126 → 256 ≤ env.sendCap →
      CpM.step C cp (.update cb env) = .ok (cp', o) → sent o = [bs] → commandBuilt C cp env = some body →
      Watched s C X cp₀ pd₀ cp' pd (.toPd bs body) log
  | reply {cp pd pd' : Pd} {env : Env} {o log : List Out} {bs body bs' body' : List Byte} : Watched s C X cp₀ pd₀ cp pd (.toPd bs body) log →
      PdApp (.refresh env) →
      Arrives env bs → expire pd env.now = pd → 256 ≤ env.sendCap → PdM.step C pd (.refresh env) = .ok (pd', o) → sent o = [bs'] →
      replyBuilt C pd env = some body' → Watched s C X cp₀ pd₀ cp pd' (.toCp bs' body') (log ++ o)
  | done {cp cp' pd : Pd} {cb : Bool} {env : Env} {o log : List Out} {bs body : List Byte} : Watched s C X cp₀ pd₀ cp pd (.toCp bs body) log →
      CpApp X (.update cb env) →
      Arrives env bs → CpM.step C cp (.update cb env) = .ok (cp', o) → cp'.state = .online → cp'.scActive = s →
      Watched s C X cp₀ pd₀ cp' pd .idle log

theorem Watched.linked {s : Bool} {C : Cipher} {X : List Byte} {cp₀ pd₀ cp pd : Pd} {l : Line} {log : List Out}
    (h : Watched s C X cp₀ pd₀ cp pd l log) : Linked s C cp₀ pd₀ cp pd l := by
  induction h with
  | start => exact .start
  | cpQuiet _ _ h1 h2 h3 h4 h5 ih => exact .cpQuiet ih h1 h2 h3 h4 h5
  | pdQuiet _ _ h1 h2 ih => exact .pdQuiet ih h1 h2
  | command _ _ h1 h2 h3 h4 h5 h6 ih => exact .command ih h1 h2 h3 h4 h5 h6
  | reply _ _ h1 h2 h3 h4 h5 h6 ih => exact .reply ih h1 h2 h3 h4 h5 h6
  | done _ _ h1 h2 h3 h4 ih => exact .done ih h1 h2 h3 h4

/-- the two ends agree on how much of the file has been transferred -/
def Core (X : List Byte) (cf pf : Option FileSt) (D : Option (List Byte)) : Prop :=
  ∀ f, cf = some f →
    (f.state = .idle ∧ Rests pf) ∨ (f.state = .done ∧ Rests pf ∧ D = some X) ∨
    (f.state = .inprog ∧ f.size = X.length ∧ f.offset < X.length ∧ Ready X pf D f.offset)

/-- the sender has given up, the receiver is about to be told -/
def Halting (X : List Byte) (cf pf : Option FileSt) : Prop :=
  ∀ f, cf = some f → (f.state = .idle ∨ (f.state = .inprog ∧ f.size = X.length ∧ f.offset = 0)) ∧
    ∀ g, pf = some g → g.state ≠ .keepAlive

/-- how far the transfer is, in terms of what is on the wire -/
def Xfers (X : List Byte) (cp pd : Pd) (D : Option (List Byte)) : Line → Prop
  | .idle => (cp.phyState = .sendCmd ∧ cp.cmdId = Id.ABORT → Halting X cp.file pd.file) ∧
      (¬ (cp.phyState = .sendCmd ∧ cp.cmdId = Id.ABORT) → Core X cp.file pd.file D)
  | .toPd _ body => (body = [b8 Id.ABORT] ∧ Halting X cp.file pd.file) ∨
      (body.head? ≠ some (b8 Id.ABORT) ∧ body.head? ≠ some (b8 Id.FILETRANSFER) ∧ Core X cp.file pd.file D) ∨
      ∃ ty data f, body = b8 Id.FILETRANSFER :: xfer ty X.length f.offset data ∧ cp.file = some f ∧ f.state = .inprog ∧ f.size = X.length ∧
        f.length = data.length ∧ data ≠ [] ∧ data.length < 2 ^ 16 ∧ data = (X.drop f.offset).take data.length ∧
        f.offset + data.length ≤ X.length ∧ Ready X pd.file D f.offset
  | .toCp _ rb => (rb.head? ≠ some (b8 Id.FTSTAT) ∧ Core X cp.file pd.file D) ∨
      ∃ f k, cp.file = some f ∧ f.state = .inprog ∧ f.size = X.length ∧ f.length = (k : Nat) ∧ 0 < k ∧
        ((f.offset + k = X.length ∧ rb = b8 Id.FTSTAT :: File.statBytes 1 ∧ Rests pd.file ∧ D = some X) ∨
         (f.offset + k < X.length ∧ rb = b8 Id.FTSTAT :: File.statBytes 0 ∧ Ready X pd.file D (f.offset + k)))

/-- What an API call of the sender's application does to its transfer: nothing, a request to stop it, or the beginning of a new one. -/
theorem api_files {C : Cipher} {X : List Byte} {p q : Pd} {op : CpM.Op} {o : List Out} (ha : CpApp X op)
    (hop : ∀ cb env, op ≠ .update cb env) (h : CpM.step C p op = .ok (q, o)) :
    q.file = p.file ∨ (∃ f, p.file = some f ∧ q.file = some { f with cancelReq := true }) ∨
    (∃ f g, p.file = some f ∧ f.state ≠ .inprog ∧ q.file = some g ∧ g.state = .inprog ∧ g.size = X.length ∧ g.offset = 0 ∧ 0 < X.length) := by
  rcases CpM.api_file hop h with ⟨h, -⟩ | ⟨h, -, -⟩ | ⟨env, c, ok, rfl, -, h⟩
  · exact .inl h
  · exact absurd h ha.registered
  · have hO := ha.opens env _ rfl
    unfold File.txCommand at h
    split at h
    · injection h with h1 _; exact .inl (h1.symm.trans (by assumption : p.file = none).symm)
    rename_i f hf
    split at h
    · split at h
      · split at h
        · injection h with h1 _; exact .inr (.inl ⟨f, hf, h1.symm⟩)
        · injection h with h1 _; exact .inl (h1.symm.trans hf.symm)
      · injection h with h1 _; exact .inl (h1.symm.trans hf.symm)
    · rename_i hni
      split at h
      · injection h with h1 _; exact .inl (h1.symm.trans hf.symm)
      · dsimp only at h
        split at h
        · injection h with h1 _; exact .inl (h1.symm.trans hf.symm)
        · rename_i hrc
          split at h
          · injection h with h1 _; exact .inl (h1.symm.trans hf.symm)
          · rename_i hsz
            injection h with h1 _
            have hz : (env.fopen c.id 0).2 = _ := hO c.id 0 (Int.not_lt.mp hrc)
            refine .inr (.inr ⟨f, _, hf, hni, h1.symm, rfl, ?_, rfl, ?_⟩)
            · show ((env.fopen c.id 0).2).toNat = _
              rw [hz]; simp
            · have hlt : (0 : Int) < (env.fopen c.id 0).2 := Int.not_le.mp hsz
              omega

theorem Core.api {X : List Byte} {cf cf' pf : Option FileSt} {D : Option (List Byte)} (hc : Core X cf pf D)
    (h : cf' = cf ∨ (∃ f, cf = some f ∧ cf' = some { f with cancelReq := true }) ∨
      (∃ f g, cf = some f ∧ f.state ≠ .inprog ∧ cf' = some g ∧ g.state = .inprog ∧ g.size = X.length ∧ g.offset = 0 ∧ 0 < X.length)) :
    Core X cf' pf D := by
  rcases h with rfl | ⟨f, rfl, rfl⟩ | ⟨f, g, rfl, hni, rfl, h1, h2, h3, h4⟩
  · exact hc
  · intro f' hf'
    injection hf' with hf'; subst hf'
    exact hc f rfl
  · intro f' hf'
    injection hf' with hf'; subst hf'
    refine .inr (.inr ⟨h1, h2, by omega, .inl ⟨h3, ?_⟩⟩)
    rcases hc f rfl with ⟨-, h⟩ | ⟨-, h, -⟩ | ⟨h, -⟩
    · exact h
    · exact h
    · exact absurd h hni

theorem Halting.api {X : List Byte} {cf cf' pf : Option FileSt} (hc : Halting X cf pf)
    (h : cf' = cf ∨ (∃ f, cf = some f ∧ cf' = some { f with cancelReq := true }) ∨
      (∃ f g, cf = some f ∧ f.state ≠ .inprog ∧ cf' = some g ∧ g.state = .inprog ∧ g.size = X.length ∧ g.offset = 0 ∧ 0 < X.length)) :
    Halting X cf' pf := by
  rcases h with rfl | ⟨f, rfl, rfl⟩ | ⟨f, g, rfl, hni, rfl, h1, h2, h3, h4⟩
  · exact hc
  · intro f' hf'
    injection hf' with hf'; subst hf'
    exact hc f rfl
  · intro f' hf'
    injection hf' with hf'; subst hf'
    exact ⟨.inr ⟨h1, h2, h3⟩, (hc f rfl).2⟩

theorem ready_alive {X : List Byte} {pf : Option FileSt} {D : Option (List Byte)} {o : Nat} (h : Ready X pf D o) :
    ∀ g, pf = some g → g.state ≠ .keepAlive := by
  intro g hg hk
  rcases h with ⟨-, h⟩ | ⟨g', hg', h, -⟩
  · rcases h g hg with h | h <;> rw [hk] at h <;> cases h
  · rw [hg] at hg'; injection hg' with hg'; subst hg'
    rw [hk] at h; cases h

/-- the PD has been told -/
theorem Halting.told {X : List Byte} {cf pf : Option FileSt} (h : Halting X cf pf) (hX : 0 < X.length) (D : Option (List Byte)) :
    Core X cf (File.abort pf).1 D := by
  intro f hf
  obtain ⟨h1, h2⟩ := h f hf
  have hr : Rests (File.abort pf).1 := by
    intro g hg
    unfold File.abort at hg
    split at hg
    · cases hg
    · rename_i g'
      have hka := h2 g' rfl
      split at hg
      · injection hg with hg; subst hg; exact .inl rfl
      · injection hg with hg; subst hg
        rename_i hni
        cases hst : g'.state
        · exact .inl rfl
        · exact absurd hst hni
        · exact .inr rfl
        · exact absurd hst hka
  rcases h1 with h | ⟨h, h', h''⟩
  · exact .inl ⟨h, hr⟩
  · exact .inr (.inr ⟨h, h', by omega, .inl ⟨h'', hr⟩⟩)

/-- choosing the next command -/
theorem Core.chosen {X : List Byte} {cf cf' pf : Option FileSt} {D : Option (List Byte)} {now : Int} {o : List Out} {n : File.Next}
    (hc : Core X cf pf D) (h : File.getCommand cf now = (cf', o, n)) :
    (n ≠ .send Id.ABORT ∧ Core X cf' pf D) ∨ (n = .send Id.ABORT ∧ Halting X cf' pf) := by
  unfold File.getCommand at h
  split at h
  · injection h with h1 h; injection h with _ h3; subst h1 h3
    exact .inl ⟨by simp, hc⟩
  rename_i f
  split at h
  · injection h with h1 h; injection h with _ h3; subst h1 h3
    exact .inl ⟨by simp, hc⟩
  rename_i hni
  have hin : f.state = .inprog ∧ Ready X pf D f.offset := by
    rcases hc f rfl with ⟨h, -⟩ | ⟨h, -⟩ | ⟨h, -, -, h'⟩
    · exact absurd (.inl h) hni
    · exact absurd (.inr h) hni
    · exact ⟨h, h'⟩
  split at h
  · unfold File.abort at h
    dsimp only at h
    rw [if_pos hin.1] at h
    injection h with h1 h; injection h with _ h3; subst h1 h3
    refine .inr ⟨rfl, fun f' hf' => ?_⟩
    injection hf' with hf'; subst hf'
    exact ⟨.inl rfl, ready_alive hin.2⟩
  split at h
  · injection h with h1 h; injection h with _ h3; subst h1 h3
    refine .inl ⟨?_, hc⟩
    split <;> simp
  split at h
  · injection h with h1 h; injection h with _ h3; subst h1 h3
    exact .inl ⟨by simp [Id.POLL, Id.ABORT], hc⟩
  · injection h with h1 h; injection h with _ h3; subst h1 h3
    exact .inl ⟨by simp [Id.FILETRANSFER, Id.ABORT], hc⟩

/-- nothing is heard: the transfer is where it was -/
theorem waiting_file {C : Cipher} {cp cp1 : Pd} {cb : Bool} {env : Env} {o : List Out} (I : CpM.Inv cp) (hi : Idle cp)
    (hps : cp.phyState = .replyWait) (h : CpM.step C cp (.update cb env) = .ok (cp1, o)) (hr : env.recv = []) : cp1.file = cp.file := by
  obtain ⟨⟨s1, o1, y⟩, hu, h1⟩ := Res.bind_eq_ok.mp h
  injection h1 with h1; injection h1 with e1 e2; subst e1 e2
  have hu := CpM.stateUpdate_inv I.cp hu
  cases hu.file I with
  | same h => exact h
  | built _ _ _ hm => rcases hm with h | ⟨h, -⟩ <;> rw [hps] at h <;> cases h
  | heard id body r h1 =>
    unfold CpM.replyOf Phy.heard at h1
    rw [if_pos hps, Phy.checkPacket_silent hi hr] at h1
    cases h1
  | chosen _ _ h => rw [hps] at h; cases h

/-- between two exchanges the CP does nothing, or chooses the next command -/
theorem idle_file {C : Cipher} {X : List Byte} {cp cp1 : Pd} {pf : Option FileSt} {D : Option (List Byte)} {cb : Bool} {env : Env} {o : List Out}
    (I : CpM.Inv cp) (hps : cp.phyState = .idle) (h : CpM.step C cp (.update cb env) = .ok (cp1, o)) (hc : Core X cp.file pf D) :
    (cp1.phyState = .sendCmd ∧ cp1.cmdId = Id.ABORT → Halting X cp1.file pf) ∧
      (¬ (cp1.phyState = .sendCmd ∧ cp1.cmdId = Id.ABORT) → Core X cp1.file pf D) := by
  obtain ⟨⟨s1, o1, y⟩, hu, h1⟩ := Res.bind_eq_ok.mp h
  injection h1 with h1; injection h1 with e1 e2; subst e1 e2
  have hu := CpM.stateUpdate_inv I.cp hu
  cases hu.file I with
  | same h1 _ h2 => exact ⟨fun ⟨h3, h4⟩ => absurd h4 (h2 hps h3).2, fun _ => by rw [h1]; exact hc⟩
  | built _ _ _ hm => rcases hm with h | ⟨h, -⟩ <;> rw [hps] at h <;> cases h
  | heard id body r h1 =>
    unfold CpM.replyOf at h1
    rw [if_neg (by rw [hps]; decide)] at h1
    cases h1
  | chosen o' n _ _ _ hg _ h2 h3 =>
    rcases hc.chosen hg with ⟨hn, hC⟩ | ⟨hn, hH⟩
    · refine ⟨fun ⟨h4, h5⟩ => ?_, fun _ => hC⟩
      rcases h3 h4 with h6 | h6
      · rw [h5] at h6; exact absurd h6 hn
      · rw [h5] at h6; cases h6
    · exact ⟨fun _ => hH, fun hx => absurd ((h2 _ hn).symm) hx⟩

/-- a command that is due is sent, or the PD goes offline -/
theorem sending_loud {C : Cipher} {cp cp1 : Pd} {cb : Bool} {env : Env} {o : List Out} (I : CpM.Inv cp) (hon : cp.state = .online)
    (hps : cp.phyState = .sendCmd) (h : CpM.step C cp (.update cb env) = .ok (cp1, o))
    (hp1 : cp1.phyState = .replyWait ↔ cp.phyState = .replyWait) (hon1 : cp1.state = .online) (hact1 : cp1.scActive = true ∨ cp.cmdId ≠ Id.KEYSET) : False := by
  obtain ⟨⟨s1, o1, y⟩, hu, h1⟩ := Res.bind_eq_ok.mp h
  injection h1 with h1; injection h1 with e1 e2; subst e1 e2
  have hup := CpM.stateUpdate_inv I.cp hu
  have hw : cp.phyState ≠ .replyWait := by rw [hps]; decide
  clear hu h
  cases hup with
  | hold hx _ => rw [hps] at hx; cases hx
  | sent _ _ => exact hw (hp1.mp rfl)
  | @unsent p1 _ _ _ hm ho hset =>
    have hst : p1.state = .online := (ho.sent.keeps).1.trans hon
    have := (CpM.settle_stays (p := { p1 with phyState := .err }) (.inr rfl) hst hset hon1 (hact1.imp id fun h => by
      show p1.cmdId ≠ _; rw [(ho.sent.keeps).2.2.1]; exact h)).done
    cases this
  | replied hx => exact absurd hx hw
  | again hx => exact absurd hx hw
  | waiting hx => exact absurd hx hw
  | idle hx hset => rw [hps] at hx; rcases hx with h | h | h <;> cases h

/-- what the PD does to its application with nothing on the line does not concern files -/
theorem quiet_file {C : Cipher} {pd pd1 : Pd} {op : PdM.Op} {o : List Out} {D : Option (List Byte)} (hi : Idle pd) (ha : op ≠ .fileOps)
    (h : PdM.step C pd op = .ok (pd1, o)) (hq : ∀ env, op = .refresh env → env.recv = [] ∧ expire pd env.now = pd) :
    pd1.file = pd.file ∧ stored D o = D := by
  cases op with
  | refresh env =>
    obtain ⟨hr, hexp⟩ := hq env rfl
    replace h : PdM.refresh C pd env = .ok (pd1, o) := h
    unfold PdM.refresh PdM.receiveAndProcess at h
    rw [hexp, Phy.checkPacket_silent hi hr] at h
    simp only [Res.ok_bind] at h
    unfold PdM.finish at h
    rw [if_pos (.inr rfl)] at h
    simp only [Res.ok_bind] at h
    injection h with h; injection h with e e'; subst e e'
    exact ⟨rfl, rfl⟩
  | notify e =>
    injection h with h; injection h with h h'; subst h h'
    unfold PdM.notifyEvent
    split <;> exact ⟨rfl, rfl⟩
  | flush => injection h with h; injection h with h h'; subst h h'; exact ⟨rfl, rfl⟩
  | setCaps c => injection h with h; injection h with h h'; subst h h'; exact ⟨rfl, rfl⟩
  | fileOps => exact absurd rfl ha

theorem core_start {X : List Byte} {cf pf : Option FileSt} (hX : 0 < X.length) (hr : Rests pf)
    (hc : ∀ f, cf = some f → f.state = .idle ∨ f.state = .inprog ∧ f.size = X.length ∧ f.offset = 0) (D : Option (List Byte)) :
    Core X cf pf D := by
  intro f hf
  rcases hc f hf with h | ⟨h1, h2, h3⟩
  · exact .inl ⟨h, hr⟩
  · exact .inr (.inr ⟨h1, h2, by omega, .inl ⟨h3, hr⟩⟩)

/-- the history with the file operations -/
theorem watched_core {s : Bool} {C : Cipher} {X : List Byte} {cp₀ pd₀ cp pd : Pd} {l : Line} {log : List Out} {D : Option (List Byte)} (S : InStep s cp₀ pd₀)
    (hX : 0 < X.length) (hX' : X.length < 2 ^ 31) (hab : ¬ (cp₀.phyState = .sendCmd ∧ cp₀.cmdId = Id.ABORT)) (hcore : Core X cp₀.file pd₀.file D)
    (h : Watched s C X cp₀ pd₀ cp pd l log) : Xfers X cp pd (stored D log) l := by
  induction h with
  | start => exact ⟨fun h => absurd h hab, fun _ => hcore⟩
  | @cpQuiet cp cp' pd l op o log hW ha hstep hq hphy hon hact ih =>
    have hH := linked_holds S hW.linked
    by_cases hop : ∀ cb env, op ≠ .update cb env
    · have hf := api_files ha hop hstep
      have hA := CpM.step_apiOnly hstep hop
      have hps : cp'.phyState = cp.phyState ∧ cp'.cmdId = cp.cmdId := by unfold CpM.Api at hA; rw [hA]; exact ⟨rfl, rfl⟩
      cases l with
      | idle =>
        unfold Xfers at ih ⊢
        rw [hps.1, hps.2]
        exact ⟨fun h => (ih.1 h).api hf, fun h => (ih.2 h).api hf⟩
      | toPd bs body =>
        rcases ih with ⟨h1, h2⟩ | ⟨h1, h2, h3⟩ | ⟨ty, data, f, h1, h2, h3, hrest⟩
        · exact .inl ⟨h1, h2.api hf⟩
        · exact .inr (.inl ⟨h1, h2, h3.api hf⟩)
        · rcases hf with hf | ⟨f', hf', hf⟩ | ⟨f', g, hf', hni, -⟩
          · exact .inr (.inr ⟨ty, data, f, h1, hf.trans h2, h3, hrest⟩)
          · rw [h2] at hf'; injection hf' with hf'; subst hf'
            exact .inr (.inr ⟨ty, data, { f with cancelReq := true }, h1, hf, h3, hrest⟩)
          · rw [h2] at hf'; injection hf' with hf'; subst hf'
            exact absurd h3 hni
      | toCp bs rb =>
        rcases ih with ⟨h1, h2⟩ | ⟨f, k, h2, h3, hrest⟩
        · exact .inl ⟨h1, h2.api hf⟩
        · rcases hf with hf | ⟨f', hf', hf⟩ | ⟨f', g, hf', hni, -⟩
          · exact .inr ⟨f, k, hf.trans h2, h3, hrest⟩
          · rw [h2] at hf'; injection hf' with hf'; subst hf'
            exact .inr ⟨{ f with cancelReq := true }, k, hf, h3, hrest⟩
          · rw [h2] at hf'; injection hf' with hf'; subst hf'
            exact absurd h3 hni
    · have : ∃ cb env, op = .update cb env :=
        Classical.byContradiction fun hn => hop fun cb env he => hn ⟨cb, env, he⟩
      obtain ⟨cb, env, rfl⟩ := this
      have hr := hq cb env rfl
      cases l with
      | idle =>
        have hH : InStep s cp pd := hH
        rcases hH.phy with hidle | hsend
        · exact idle_file hH.inv hidle hstep (ih.2 (by rw [hidle]; rintro ⟨h, -⟩; cases h))
        · exact (sending_loud hH.inv hH.online hsend hstep hphy hon (hH.stay hact)).elim
      | toPd bs body =>
        have hH : Asked s C cp pd bs body := hH
        have hf := waiting_file hH.inv hH.cpIdle hH.phy hstep hr
        unfold Xfers at ih ⊢
        rw [hf]; exact ih
      | toCp bs rb =>
        have hH : Told s C cp pd bs rb := hH
        have hf := waiting_file hH.inv hH.cpIdle hH.phy hstep hr
        unfold Xfers at ih ⊢
        rw [hf]; exact ih
  | @pdQuiet cp pd pd' l op o log hW ha hstep hq ih =>
    have hH := linked_holds S hW.linked
    have hk : Idle pd → pd'.file = pd.file ∧ stored D (log ++ o) = stored D log := fun hi => by
      rw [stored_append]; exact quiet_file hi ha.registered hstep hq
    cases l with
    | idle =>
      obtain ⟨h1, h2⟩ := hk (show InStep s cp pd from hH).pdIdle
      unfold Xfers at ih ⊢
      rw [h1, h2]; exact ih
    | toPd bs body =>
      obtain ⟨h1, h2⟩ := hk (show Asked s C cp pd bs body from hH).pdIdle
      unfold Xfers at ih ⊢
      rw [h1, h2]; exact ih
    | toCp bs body =>
      obtain ⟨h1, h2⟩ := hk (show Told s C cp pd bs body from hH).pdIdle
      unfold Xfers at ih ⊢
      rw [h1, h2]; exact ih
  | @command cp cp' pd cb env o log bs body hW ha hps hr hcap hstep hs hb ih =>
    have hH : InStep s cp pd := linked_holds S hW.linked
    have hcmd := hH.inv.cmd (by rw [hps]; decide)
    rw [hH.online] at hcmd
    have hids := online_ids hcmd
    obtain ⟨c1, c2, c3⟩ := command_files hH.inv hps hstep hcap hs hids.2 hb
    have hA : Asked s C cp' pd bs body := linked_holds S (hW.command ha hps hr hcap hstep hs hb).linked
    by_cases hab : cp.cmdId = Id.ABORT
    · left
      refine ⟨c2 hab, ?_⟩
      rw [c1 (by rw [hab]; decide)]
      exact ih.1 ⟨hps, hab⟩
    · have hcore' := ih.2 (fun h => hab h.2)
      by_cases hft : cp.cmdId = Id.FILETRANSFER
      · obtain ⟨room, o', r, hroom, hbuild, hbody⟩ := c3 hft
        cases hf : cp.file with
        | none => rw [hf] at hbuild; cases hbuild
        | some f =>
          rw [hf] at hbuild
          have hin : f.state = .inprog ∧ f.size = X.length ∧ f.offset < X.length ∧ Ready X pd.file (stored D log) f.offset := by
            obtain ⟨f', hf', hx⟩ := File.txBuild_inv hbuild
            injection hf' with hf'; subst hf'
            rcases hcore' f hf with ⟨h, -⟩ | ⟨h, -⟩ | h
            · rcases hx with ⟨-, hx | hx, -⟩ | ⟨-, hx, -⟩ | ⟨-, hx, -⟩ <;> rw [h] at hx <;> cases hx
            · rcases hx with ⟨-, hx | hx, -⟩ | ⟨-, hx, -⟩ | ⟨-, hx, -⟩ <;> rw [h] at hx <;> cases hx
            · exact h
          rcases File.fragment_made hX' hin.1 hin.2.1 (by omega) (ha.reads cb env rfl) hroom hbuild with ⟨hr, hg⟩ | ⟨data, hr, hg, d1, d2, d3, d4⟩
          · left
            rw [hr] at hbody
            refine ⟨hbody, fun f' hf' => ?_⟩
            rw [hg] at hf'; injection hf' with hf'; subst hf'
            exact ⟨.inl rfl, ready_alive hin.2.2.2⟩
          · right; right
            rw [hr] at hbody
            exact ⟨_, data, { f with length := data.length }, hbody, hg, hin.1, hin.2.1, rfl, d1, d2, d3, d4, hin.2.2.2⟩
      · right; left
        obtain ⟨f', buf, body', -, -, -, -, hcp1, -⟩ := command_sent hH.inv hps hids.2 hstep hcap hs
        have hcid : cp'.cmdId = cp.cmdId := by rw [hcp1]; rfl
        have hhead : body.head? = some (b8 cp.cmdId) := by
          rcases hA.cmd with h | ⟨h, -⟩
          · rw [hcid] at h; exact h
          · exact absurd (hcid.symm.trans h) hft
        have hn : ∀ n : Nat, n < 256 → cp.cmdId ≠ n → body.head? ≠ some (b8 n) := by
          intro n hn hne he
          rw [hhead] at he
          injection he with he
          have := congrArg BitVec.toNat he
          rw [b8_toNat hids.1, b8_toNat hn] at this
          exact hne this
        refine ⟨hn _ (by decide) hab, hn _ (by decide) hft, ?_⟩
        rw [c1 hft]
        exact hcore'
  | @reply cp pd pd' env o log bs body bs' body' hW ha harr hexp hcap hstep hs hb ih =>
    have hH : Asked s C cp pd bs body := linked_holds S hW.linked
    obtain ⟨d0, rest, hbd, f1, f2, f3⟩ := hH.files harr hexp hstep hs hb
    have hlog : stored D (log ++ o) = stored (stored D log) (fileOuts o) := by rw [stored_append, stored_fileOuts]
    rcases ih with ⟨h1, h2⟩ | ⟨h1, h2, h3⟩ | ⟨ty, data, f, h1, h2, h3, h4, h5, h6, h7, h8, h9, h10⟩
    · rw [h1] at hbd
      injection hbd with e1 e2
      obtain ⟨g1, g2⟩ := f2 (by rw [← e1]; decide) e2.symm
      refine .inl ⟨g2, ?_⟩
      rw [g1]; exact h2.told hX _
    · rw [hbd] at h1 h2
      have hn : ∀ n : Nat, n < 256 → some d0 ≠ some (b8 n) → d0.toNat ≠ n := by
        intro n hn h he
        exact h (by rw [← he]; unfold b8; simp)
      obtain ⟨g1, g2, g3⟩ := f1 (hn _ (by decide) h1) (hn _ (by decide) h2)
      refine .inl ⟨g3, ?_⟩
      rw [hlog, g1, g2]; exact h3
    · rw [h1] at hbd
      injection hbd with e1 e2
      obtain ⟨r, room, o2, st, t1, t2, t3, t4, t5, t6⟩ := f3 (by rw [← e1]; decide)
      rw [← e2] at t1
      right
      refine ⟨f, data.length, h2, h3, h4, h5, List.length_pos_iff.mpr h6, ?_⟩
      rw [hlog, t5, ← stored_fileOuts]
      rcases File.fragment_taken hX' h10 h6 h7 h8 h9 t1 t2 t4 t3 (ha.closes env rfl) with ⟨k1, k2, k3, k4⟩ | ⟨k1, k2, k3⟩
      · rw [k2] at t6; exact .inl ⟨k1, t6, k3, k4⟩
      · rw [k2] at t6; exact .inr ⟨k1, t6, k3⟩
  | @done cp cp' pd cb env o log bs body hW ha harr hstep hon hact ih =>
    have hH : Told s C cp pd bs body := linked_holds S hW.linked
    obtain ⟨r0, rest, hbd, hrep⟩ := hH.heard harr
    obtain ⟨f1, f2⟩ := reply_files hH.inv hrep hstep
    obtain ⟨-, hidle⟩ := hH.reads_idle harr hstep hon hact
    refine ⟨fun h => absurd (hidle.symm.trans h.1) (by decide), fun _ => ?_⟩
    rcases ih with ⟨h1, h2⟩ | ⟨f, k, h1, h2, h3, h4, h5, h6⟩
    · rw [hbd] at h1
      rw [f1 (fun he => h1 (by rw [← he]; unfold b8; simp))]
      exact h2
    · rcases h6 with ⟨k1, k2, k3, k4⟩ | ⟨k1, k2, k3⟩
      · rw [hbd] at k2
        injection k2 with e1 e2
        obtain ⟨r, t1, t2⟩ := f2 (by rw [e1]; decide)
        rw [h1, e2] at t1
        obtain ⟨g, hg, hd⟩ := File.last_heard h2 h4 (by omega) (by omega) t1
        intro f' hf'
        rw [t2, hg] at hf'; injection hf' with hf'; subst hf'
        exact .inr (.inl ⟨hd, k3, k4⟩)
      · rw [hbd] at k2
        injection k2 with e1 e2
        obtain ⟨r, t1, t2⟩ := f2 (by rw [e1]; decide)
        rw [h1, e2] at t1
        obtain ⟨g, hg, hi, hz, ho⟩ := File.next_heard h2 h4 (by omega) (by omega) t1
        intro f' hf'
        rw [t2, hg] at hf'; injection hf' with hf'; subst hf'
        exact .inr (.inr ⟨hi, by omega, by omega, by rw [ho]; exact k3⟩)

/-- what that means for the sender -/
theorem Xfers.sender {X : List Byte} {cp pd : Pd} {D : Option (List Byte)} {l : Line} {f : FileSt} (hx : Xfers X cp pd D l) (hf : cp.file = some f) :
    (f.state = .done → D = some X) ∧
    (f.state = .inprog → l = .idle → 0 < f.offset → f.offset < X.length ∧ D = some (X.take f.offset)) := by
  have core : Core X cp.file pd.file (D) → f.state = .done → D = some X := by
    intro hc hd
    rcases hc f hf with ⟨h, -⟩ | ⟨-, -, h⟩ | ⟨h, -⟩
    · rw [hd] at h; cases h
    · exact h
    · rw [hd] at h; cases h
  have halt : Halting X cp.file pd.file → f.state = .done → D = some X := by
    intro hc hd
    rcases (hc f hf).1 with h | ⟨h, -⟩ <;> rw [hd] at h <;> cases h
  refine ⟨fun hd => ?_, fun hi hl h0 => ?_⟩
  · cases l with
    | idle =>
      by_cases hp : cp.phyState = .sendCmd ∧ cp.cmdId = Id.ABORT
      · exact halt (hx.1 hp) hd
      · exact core (hx.2 hp) hd
    | toPd bs body =>
      rcases hx with ⟨-, h⟩ | ⟨-, -, h⟩ | ⟨ty, data, f', -, hf', h, -⟩
      · exact halt h hd
      · exact core h hd
      · rw [hf] at hf'; injection hf' with hf'; subst hf'
        rw [hd] at h; cases h
    | toCp bs rb =>
      rcases hx with ⟨-, h⟩ | ⟨f', k, hf', h, -⟩
      · exact core h hd
      · rw [hf] at hf'; injection hf' with hf'; subst hf'
        rw [hd] at h; cases h
  · subst hl
    by_cases hp : cp.phyState = .sendCmd ∧ cp.cmdId = Id.ABORT
    · rcases (hx.1 hp f hf).1 with h | ⟨-, -, h⟩
      · rw [hi] at h; cases h
      · omega
    · rcases hx.2 hp f hf with ⟨h, -⟩ | ⟨h, -⟩ | ⟨-, -, hlt, hr⟩
      · rw [hi] at h; cases h
      · rw [hi] at h; cases h
      · refine ⟨hlt, ?_⟩
        rcases hr with ⟨h, -⟩ | ⟨g, -, -, -, -, -, h⟩
        · omega
        · exact h

/-- **C49** (partial: the link stays in one session, or in the clear with a PD that does not insist on a session.)  Whenever the sender believes the transfer to be done, the receiver's application has stored
exactly the file; while it is going on, what has been stored is the beginning of the file, up to where the sender believes it to be. -/
theorem C49_partial {s : Bool} {C : Cipher} {X : List Byte} {cp₀ pd₀ cp pd : Pd} {l : Line} {log : List Out} {f : FileSt} (S : InStep s cp₀ pd₀)
    (hX : 0 < X.length) (hX' : X.length < 2 ^ 31) (hpd : Rests pd₀.file) (hab : ¬ (cp₀.phyState = .sendCmd ∧ cp₀.cmdId = Id.ABORT))
    (hcp : ∀ f, cp₀.file = some f → f.state = .idle ∨ f.state = .inprog ∧ f.size = X.length ∧ f.offset = 0)
    (h : Watched s C X cp₀ pd₀ cp pd l log) (hf : cp.file = some f) :
    (f.state = .done → stored none log = some X) ∧
    (f.state = .inprog → l = .idle → 0 < f.offset → f.offset < X.length ∧ stored none log = some (X.take f.offset)) := by
  exact (watched_core S hX hX' hab (core_start hX hpd hcp _) h).sender hf

/-! ### a transfer -/

/-- two ends and what is between them -/
structure Wired where
  cp : Pd
  pd : Pd
  line : Line := .idle
  log : List Out := []

/-- who does something next -/
inductive Move
  /-- the CP is refreshed -/
  | cp
  /-- the PD is refreshed -/
  | pd
  /-- the application of the CP asks for the transfer -/
  | file

/-- one step of the two ends over a link that loses nothing; `none` where it would lead out of `Watched` -/
def play (s : Bool) (C : Cipher) (X : List Byte) (chunk : Nat) (now : Int) (w : Wired) : Move → Option Wired
  | .file =>
    match CpM.step C w.cp (.send (Sample.sender X chunk { now := now }) (.fileTx { id := 1, flags := 0#32 })) with
    | .ok (cp, _) =>
      if (cp.phyState = .replyWait ↔ w.cp.phyState = .replyWait) ∧ cp.state = .online ∧ cp.scActive = s then some { w with cp := cp } else none
    | .error _ => none
  | .cp =>
    match w.line with
    | .toCp bs _ =>
      match CpM.step C w.cp (.update true (Sample.sender X chunk (arriving now bs))) with
      | .ok (cp, _) => if bs.length ≤ 256 ∧ cp.state = .online ∧ cp.scActive = s then some { w with cp := cp, line := .idle } else none
      | .error _ => none
    | .toPd _ _ => none
    | .idle =>
      if w.cp.phyState = .sendCmd then
        match CpM.step C w.cp (.update true (Sample.sender X chunk { now := now })), commandBuilt C w.cp (Sample.sender X chunk { now := now }) with
        | .ok (cp, o), some body =>
          match sent o with
          | [bs] => if 0 ≤ w.pd.address ∧ w.pd.address ≤ 126 then some { w with cp := cp, line := .toPd bs body } else none
          | _ => none
        | _, _ => none
      else
        match CpM.step C w.cp (.update true (Sample.sender X chunk { now := now })) with
        | .ok (cp, _) =>
          if (cp.phyState = .replyWait ↔ w.cp.phyState = .replyWait) ∧ cp.state = .online ∧ cp.scActive = s then some { w with cp := cp } else none
        | .error _ => none
  | .pd =>
    match w.line with
    | .toPd bs _ =>
      match PdM.step C w.pd (.refresh (Sample.taker (arriving now bs))), replyBuilt C w.pd (Sample.taker (arriving now bs)) with
      | .ok (pd, o), some rb =>
        match sent o with
        | [bs'] => if bs.length ≤ 256 ∧ now - w.pd.scTstamp ≤ PdM.PD_SC_TIMEOUT then some { w with pd := pd, line := .toCp bs' rb, log := w.log ++ o } else none
        | _ => none
      | _, _ => none
    | _ => none

theorem sender_app (X : List Byte) (chunk : Nat) (e : Env) (cb : Bool) : CpApp X (.update cb (Sample.sender X chunk e)) := by
  refine ⟨fun cb' env he => ?_, (fun _ _ h => by cases h), (fun h => by cases h)⟩
  injection he with _ he; subst he
  intro n off k bytes h0 h hk
  injection h with h1 h2
  subst h1 h2
  rw [Int.toNat_natCast]
  rw [List.length_take, List.take_eq_take_min]

theorem capacity (X : List Byte) (chunk : Nat) (now : Int) : 256 ≤ (Sample.sender X chunk { now := now }).sendCap := by
  exact Nat.le_of_ble_eq_true rfl

theorem capacity' (now : Int) (bs : List Byte) : 256 ≤ (Sample.taker (arriving now bs)).sendCap := by
  exact Nat.le_of_ble_eq_true rfl

theorem play_watched {s : Bool} {C : Cipher} {X : List Byte} {chunk : Nat} {now : Int} {cp₀ pd₀ : Pd} {w w' : Wired} {m : Move}
    (hw : Watched s C X cp₀ pd₀ w.cp w.pd w.line w.log) (h : play s C X chunk now w m = some w') :
    Watched s C X cp₀ pd₀ w'.cp w'.pd w'.line w'.log := by
  cases m with
  | file =>
    unfold play at h
    dsimp only at h
    split at h
    · rename_i cp o hs
      split at h
      · rename_i hc
        injection h with h; subst h
        refine hw.cpQuiet ⟨(fun _ _ h => by cases h), fun env c he => ?_, (fun h => by cases h)⟩ hs (fun _ _ h => by cases h) hc.1 hc.2.1 hc.2.2
        injection he with he _; subst he
        intro id n _; rfl
      · cases h
    · cases h
  | cp =>
    unfold play at h
    dsimp only at h
    split at h
    · rename_i bs rb hl
      split at h
      · rename_i cp o hs
        split at h
        · rename_i hc
          injection h with h; subst h
          rw [hl] at hw
          exact hw.done (env := Sample.sender X chunk (arriving now bs)) (sender_app X chunk _ true) (arriving_arrives now bs hc.1) hs hc.2.1 hc.2.2
        · cases h
      · cases h
    · cases h
    · rename_i hl
      split at h
      · rename_i hps
        split at h
        · rename_i cp o body hs hb
          split at h
          · rename_i bs hsent
            split at h
            · rename_i hc
              injection h with h; subst h
              rw [hl] at hw
              exact hw.command (sender_app X chunk _ true) hps hc (capacity X chunk now) hs hsent hb
            · cases h
          · cases h
        · cases h
      · split at h
        · rename_i cp o hs
          split at h
          · rename_i hc
            injection h with h; subst h
            refine hw.cpQuiet (sender_app X chunk _ true) hs (fun _ _ he => ?_) hc.1 hc.2.1 hc.2.2
            injection he with _ he; subst he; rfl
          · cases h
        · cases h
  | pd =>
    unfold play at h
    dsimp only at h
    split at h
    · rename_i bs body hl
      split at h
      · rename_i pd o rb hs hb
        split at h
        · rename_i bs' hsent
          split at h
          · rename_i hc
            injection h with h; subst h
            rw [hl] at hw
            refine hw.reply (env := Sample.taker (arriving now bs)) ⟨fun env he => ?_, (fun h => by cases h)⟩ (arriving_arrives now bs hc.1) (expire_recent hc.2) (capacity' now bs) hs hsent hb
            injection he with he; subst he; exact Int.le_refl 0
          · cases h
        · cases h
      · cases h
    · cases h

/-- several steps, 20 ms apart -/
def plays (s : Bool) (C : Cipher) (X : List Byte) (chunk : Nat) : List Move → Int → Wired → Option Wired
  | [], _, w => some w
  | m :: l, now, w => (play s C X chunk now w m).bind (plays s C X chunk l (now + 20))

theorem plays_watched {s : Bool} {C : Cipher} {X : List Byte} {chunk : Nat} {cp₀ pd₀ : Pd} : ∀ (l : List Move) {now : Int} {w w' : Wired},
    Watched s C X cp₀ pd₀ w.cp w.pd w.line w.log → plays s C X chunk l now w = some w' → Watched s C X cp₀ pd₀ w'.cp w'.pd w'.line w'.log
  | [], _, _, _, hw, h => by injection h with h; subst h; exact hw
  | m :: l, _, w, _, hw, h => by
    obtain ⟨w1, h1, h2⟩ := Option.bind_eq_some_iff.mp h
    exact plays_watched l (play_watched hw h1) h2

/-- the sample CP and PD in their session, each with an application that handles files -/
def shelved : Wired := { cp := { settled.cp with file := some File.reset }, pd := { settled.pd with file := some File.reset } }

/-- a file of 5 bytes, of which the application reads at most two at a time -/
def filing5 : Option Wired :=
  plays true xorCipher (Sample.content 5) 2 [.file, .cp, .pd, .cp, .cp, .cp, .pd, .cp, .cp, .cp, .pd, .cp, .cp, .cp, .pd, .cp] 460 shelved

theorem sync_fileOps {s : Bool} {C : Cipher} {cp pd : Pd} (S : InStep s cp pd) : InStep s { cp with file := some File.reset } { pd with file := some File.reset } :=
  S.kin (S.inv.step (C := C) (op := .fileOps) rfl) S.online S.phy
    ⟨rfl, rfl, rfl, rfl, rfl, rfl, rfl, rfl, rfl, rfl, rfl⟩ ⟨rfl, rfl, rfl, rfl, rfl, rfl, rfl, rfl, rfl, rfl, rfl⟩ rfl (fun h => (S.clear h).1)

theorem shelved_sync : Sync shelved.cp shelved.pd := by
  unfold shelved
  exact sync_fileOps (C := xorCipher) settled_sync

theorem reset_file {p : Pd} {f : FileSt} (h : ({ p with file := some File.reset } : Pd).file = some f) : f.state = .idle := by
  injection h with h; subst h; rfl

-- the transfer takes place in three fragments, and the file arrives
example : ∃ (w : Wired) (f : FileSt), Watched true xorCipher (Sample.content 5) shelved.cp shelved.pd w.cp w.pd w.line w.log ∧ w.cp.file = some f ∧
    f.state = .done ∧ (w.log.filter fun o => match o with | .fwrite _ _ => true | _ => false).length = 3 ∧
    stored none w.log = some (Sample.content 5) := by
  have hsome : filing5.isSome = true := by decide +kernel
  obtain ⟨w, hw⟩ := Option.isSome_iff_exists.mp hsome
  have hf : (filing5.bind fun w => w.cp.file.map fun f => f.state) = some .done := by decide +kernel
  have hl : (filing5.map fun w => (w.log.filter fun o => match o with | .fwrite _ _ => true | _ => false).length) = some 3 := by decide +kernel
  rw [hw] at hf hl
  have hW : Watched true xorCipher (Sample.content 5) shelved.cp shelved.pd w.cp w.pd w.line w.log := plays_watched _ .start hw
  cases hfile : w.cp.file with
  | none => rw [Option.bind_some, hfile] at hf; cases hf
  | some f =>
    rw [Option.bind_some, hfile] at hf
    injection hf with hf
    injection hl with hl
    refine ⟨w, f, hW, hfile, hf, hl, (C49_partial shelved_sync (by decide) (by decide) ?_ ?_ ?_ hW hfile).1 hf⟩
    · intro g hg; unfold shelved at hg; exact .inl (reset_file hg)
    · have : shelved.cp.cmdId ≠ Id.ABORT := by decide +kernel
      exact fun h => this h.2
    · intro g hg; unfold shelved at hg; exact .inl (reset_file hg)

/-- the sample CP and PD without a key: they talk in the clear -/
def plainInfo : PdM.Info := { Sample.pdInfo with scbk := none }

def plainTalk : Sample.Talk :=
  Sample.Talk.turns xorCipher 20 19 { cp := (CpM.newPd plainInfo 0 false 16).getD (PdM.blank 16), pd := (PdM.setup plainInfo false 16).getD (PdM.blank 16) }

theorem plainTalk_inStep : InStep false plainTalk.cp plainTalk.pd := by
  refine ⟨turns_inv _ _ ?_, by decide +kernel, .inr (by decide +kernel), by decide +kernel, by decide +kernel, by decide +kernel,
    (fun h => by cases h), (fun h => by cases h), by decide +kernel, by decide +kernel, by decide +kernel, by decide +kernel,
    ⟨by decide +kernel, by decide +kernel, by decide +kernel, by decide +kernel⟩,
    ⟨by decide +kernel, by decide +kernel, by decide +kernel, by decide +kernel⟩, fun _ => ⟨by decide +kernel, by decide +kernel⟩⟩
  have h : CpM.newPd plainInfo 0 false 16 = some ((CpM.newPd plainInfo 0 false 16).getD (PdM.blank 16)) := by
    have : (CpM.newPd plainInfo 0 false 16).isSome = true := by decide +kernel
    obtain ⟨q, hq⟩ := Option.isSome_iff_exists.mp this
    rw [hq]; rfl
  exact (CpM.newPd_inv h).1

def plainShelved : Wired := { cp := { plainTalk.cp with file := some File.reset }, pd := { plainTalk.pd with file := some File.reset } }

theorem plainShelved_inStep : InStep false plainShelved.cp plainShelved.pd := by
  unfold plainShelved
  exact sync_fileOps (C := xorCipher) plainTalk_inStep

/-- the same file, in the clear -/
def plainFiling : Option Wired :=
  plays false xorCipher (Sample.content 5) 2 [.file, .cp, .pd, .cp, .cp, .cp, .pd, .cp, .cp, .cp, .pd, .cp, .cp, .cp, .pd, .cp] 460 plainShelved

-- the transfer in the clear
example : ∃ (w : Wired) (f : FileSt), Watched false xorCipher (Sample.content 5) plainShelved.cp plainShelved.pd w.cp w.pd w.line w.log ∧
    w.cp.file = some f ∧ f.state = .done ∧ stored none w.log = some (Sample.content 5) := by
  have hsome : plainFiling.isSome = true := by decide +kernel
  obtain ⟨w, hw⟩ := Option.isSome_iff_exists.mp hsome
  have hf : (plainFiling.bind fun w => w.cp.file.map fun f => f.state) = some .done := by decide +kernel
  rw [hw] at hf
  have hW : Watched false xorCipher (Sample.content 5) plainShelved.cp plainShelved.pd w.cp w.pd w.line w.log := plays_watched _ .start hw
  cases hfile : w.cp.file with
  | none => rw [Option.bind_some, hfile] at hf; cases hf
  | some f =>
    rw [Option.bind_some, hfile] at hf
    injection hf with hf
    refine ⟨w, f, hW, hfile, hf, (C49_partial plainShelved_inStep (by decide) (by decide) ?_ ?_ ?_ hW hfile).1 hf⟩
    · intro g hg; unfold plainShelved at hg; exact .inl (reset_file hg)
    · have : plainShelved.cp.cmdId ≠ Id.ABORT := by decide +kernel
      exact fun h => this h.2
    · intro g hg; unfold plainShelved at hg; exact .inl (reset_file hg)

end Link
end Osdp
