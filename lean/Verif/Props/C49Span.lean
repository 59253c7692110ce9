import Verif.Props.C49
import Verif.Lemmas.PdReach
import Verif.Lemmas.DecodeFault

/-!
# C49: transfers during which sessions end and begin

`Spanned C X cp₀ pd₀ b cp pd log`: histories put together of stretches in which the two ends are in step (`Watched`, in a session or in the clear) and stretches in which
they are apart: the CP is not online (or still waits for the answer to a command that was lost or refused), so that it identifies the PD again, sets up a session, and so on, while
neither end hears anything about files from the other.  `b` says whether the two are in step.  They may come apart when a reply is heard, between two exchanges, or by
the loss of any command but ABORT; the reply to a file fragment is not lost.

`C49_span_partial`, `C49_apart_partial`: the transfer survives this.
`C49_stale`: it does not survive the refusal of an ABORT.
-/

namespace Osdp
namespace Link

open Spec.Wire
open Spec.FileStore
open Spec.Block (Overlong)
open Phy (Idle Arrives heldFrame)
open PdM (expire commandOf)
open File (Ready Rests stored_fileOuts)

/-- the PD hears nothing about files, nor a packet whose security block is longer than the packet -/
def NoFiles (C : Cipher) (pd : Pd) (env : Env) : Prop :=
  (∀ id body, commandOf C pd env = some (id, body) → id.toNat ≠ Id.ABORT ∧ id.toNat ≠ Id.FILETRANSFER) ∧
  ∀ p1, Phy.checkPacket (expire pd env.now) env = .ok (p1, .none) → ¬ Overlong p1.scActive (heldFrame p1)

/-- Histories in which the two ends are now and then not in step. -/
inductive Spanned (C : Cipher) (X : List Byte) (cp₀ pd₀ : Pd) : Bool → Pd → Pd → List Out → Prop
  | start : Spanned C X cp₀ pd₀ true cp₀ pd₀ []
  /-- the CP hears a reply, and may leave the online state -/
  | heard {s cb : Bool} {cp pd cp1 pd1 cp2 : Pd} {bs body : List Byte} {log log1 o : List Out} {env : Env} : Spanned C X cp₀ pd₀ true cp pd log →
      InStep s cp pd → Watched s C X cp pd cp1 pd1 (.toCp bs body) log1 → CpApp X (.update cb env) → Arrives env bs →
      CpM.step C cp1 (.update cb env) = .ok (cp2, o) → Spanned C X cp₀ pd₀ false cp2 pd1 (log ++ log1)
  /-- the CP leaves the online state between two exchanges -/
  | between {s cb : Bool} {cp pd cp1 pd1 cp2 : Pd} {log log1 o : List Out} {env : Env} : Spanned C X cp₀ pd₀ true cp pd log →
      InStep s cp pd → Watched s C X cp pd cp1 pd1 .idle log1 → CpApp X (.update cb env) → cp1.phyState = .idle →
      CpM.step C cp1 (.update cb env) = .ok (cp2, o) → cp2.state ≠ .online → Spanned C X cp₀ pd₀ false cp2 pd1 (log ++ log1)
  /-- a command is lost, or will be refused -/
  | lost {s : Bool} {cp pd cp1 pd1 : Pd} {bs body : List Byte} {log log1 : List Out} : Spanned C X cp₀ pd₀ true cp pd log →
      InStep s cp pd → Watched s C X cp pd cp1 pd1 (.toPd bs body) log1 → body.head? ≠ some (b8 Id.ABORT) →
      Spanned C X cp₀ pd₀ false cp1 pd1 (log ++ log1)
  | cpApart {cp cp' pd : Pd} {op : CpM.Op} {o log : List Out} : Spanned C X cp₀ pd₀ false cp pd log → CpApp X op →
      CpM.step C cp op = .ok (cp', o) →
      (∀ cb env, op = .update cb env → (cp.state ≠ .online ∨ cp.phyState = .replyWait) ∧ ∀ id body, CpM.replyOf C cp env = some (id, body) → id.toNat ≠ Id.FTSTAT) →
      Spanned C X cp₀ pd₀ false cp' pd log
  | pdApart {cp pd pd' : Pd} {op : PdM.Op} {o log : List Out} : Spanned C X cp₀ pd₀ false cp pd log → PdApp op →
      PdM.step C pd op = .ok (pd', o) → (∀ env, op = .refresh env → NoFiles C pd env) → Spanned C X cp₀ pd₀ false cp pd' (log ++ o)
  /-- in step again -/
  | back {s : Bool} {cp pd : Pd} {log : List Out} : Spanned C X cp₀ pd₀ false cp pd log → InStep s cp pd →
      ¬ (cp.phyState = .sendCmd ∧ cp.cmdId = Id.ABORT) → Spanned C X cp₀ pd₀ true cp pd log

/-- a CP that is not online, or waits, does nothing to its file unless it hears about it -/
theorem apart_cp {C : Cipher} {cp cp1 : Pd} {cb : Bool} {env : Env} {o : List Out} (I : CpM.Inv cp)
    (h : CpM.step C cp (.update cb env) = .ok (cp1, o)) (hs : cp.state ≠ .online ∨ cp.phyState = .replyWait)
    (hr : ∀ id body, CpM.replyOf C cp env = some (id, body) → id.toNat ≠ Id.FTSTAT) : cp1.file = cp.file := by
  obtain ⟨⟨s1, o1, y⟩, hu, h1⟩ := Res.bind_eq_ok.mp h
  injection h1 with h1; injection h1 with e1 e2; subst e1 e2
  have hu := CpM.stateUpdate_inv I.cp hu
  cases hu.file I with
  | same h => exact h
  | built _ _ _ hm hid =>
    rcases hs with hs | hs
    · have hni : cp.phyState ≠ .idle := by
        rcases hm with h | ⟨h, -⟩ <;> rw [h] <;> decide
      have hc := I.cmd hni
      rw [hid] at hc
      cases hst : cp.state <;> rw [hst] at hc <;> first | exact absurd hst hs | (cases hc)
    · rcases hm with h | ⟨h, -⟩ <;> rw [hs] at h <;> cases h
  | heard id body r h1 h2 => exact absurd h2 (hr id body h1)
  | chosen _ _ h h' =>
    rcases hs with hs | hs
    · exact absurd h' hs
    · rw [hs] at h; cases h

theorem ftstat_reply {c : Nat} (h : Id.FTSTAT ∈ Spec.Answer.replies c) : c = Id.FILETRANSFER := by
  revert h
  unfold Spec.Answer.replies
  split <;> simp [Id.FTSTAT, Id.FILETRANSFER]

/-- a PD that hears nothing about files does nothing to its file -/
theorem apart_pd {C : Cipher} {info : PdM.Info} {pd pd1 : Pd} {env : Env} {o : List Out} (R : PdM.Reached C info pd)
    (h : PdM.refresh C pd env = .ok (pd1, o)) (hn : NoFiles C pd env) : pd1.file = pd.file ∧ fileOuts o = [] := by
  obtain ⟨p1, o1, ret, o2, hg, -, hfin, rfl⟩ := PdM.refresh_inv R.pdMode h
  have hgot : p1.file = pd.file ∧ fileOuts o1 = [] := by
    cases PdM.got_file hg with
    | other h1 h2 => exact ⟨h1, h2⟩
    | abort id h1 h2 => exact absurd h2 (hn.1 _ _ h1).1
    | chunk id body r h1 h2 => exact absurd h2 (hn.1 _ _ h1).2
  have hno : ¬ (p1.replyId = Id.FTSTAT ∧ (ret = .none ∨ ret = .reply)) := by
    rintro ⟨hr, hret⟩
    have hnak : p1.replyId ≠ Id.NAK := by rw [hr]; decide
    cases hg with
    | nothing _ _ hx =>
      rcases hx with ⟨-, rfl⟩ | ⟨-, rfl⟩ | ⟨-, rfl⟩ | ⟨-, rfl⟩ <;> rcases hret with h | h <;> cases h
    | skip _ _ => rcases hret with h | h <;> cases h
    | seq _ hc => exact hnak (hc.nack rfl).1
    | @refused p0 _ d h1 hc h2 hd hl =>
      by_cases hk : d.len = Phy.PKT_NACK
      · have hfe : Phy.Framed (expire pd env.now) :=
          PdM.Kept.framed (p := pd) (by unfold expire; split <;> exact ⟨rfl, rfl, rfl, rfl, rfl, rfl⟩) R.framed
        obtain ⟨q, d', g1, g2, -⟩ := Phy.decodePacket_total (C := C) (Phy.checkPacket_held hfe h1) (hn.2 _ h1)
        rw [h2] at g1
        injection g1 with g1; injection g1 with e1 e2; subst e1 e2
        exact hnak (g2 hk).1
      · rw [if_neg hk] at hret
        rcases hret with h | h <;> cases h
    | insecure _ _ _ _ _ _ _ => exact hnak rfl
    | @command p1' p2 _ d id body _ _ h1 _ h2 _ hl hid _ hb hpr hdis ho =>
      have hc' : commandOf C pd env = some (id, body) := by
        unfold commandOf; rw [h1]; dsimp only; rw [h2]; dsimp only; rw [if_neg (by omega), hid]; dsimp only
        rw [if_neg (by simp [hpr]), hb]
      rcases PdM.dispatch_kind hdis with ⟨h, -⟩ | ⟨h, -⟩ | ⟨h, -⟩
      · exact hnak h
      · rw [hr] at h
        exact (hn.1 _ _ hc').2 (ftstat_reply h)
      · exact (hn.1 _ _ hc').2 h
  rcases PdM.finished_file hfin with ⟨h1, h2⟩ | ⟨h1, h2, -⟩
  · exact ⟨h1.trans hgot.1, by rw [fileOuts_append, hgot.2, h2]; rfl⟩
  · exact absurd ⟨h1, h2⟩ hno

theorem Watched.reached {s : Bool} {C : Cipher} {X : List Byte} {cp₀ pd₀ cp pd : Pd} {l : Line} {log : List Out} {info : PdM.Info}
    (h : Watched s C X cp₀ pd₀ cp pd l log) (R : PdM.Reached C info pd₀) : PdM.Reached C info pd := by
  induction h with
  | start => exact R
  | cpQuiet _ _ _ _ _ _ _ ih => exact ih
  | pdQuiet _ _ h1 _ ih => exact ih.step h1
  | command _ _ _ _ _ _ _ _ ih => exact ih
  | reply _ _ _ _ _ h4 _ _ ih => exact ih.step h4
  | done _ _ _ _ _ _ ih => exact ih

theorem Watched.inv {s : Bool} {C : Cipher} {X : List Byte} {cp₀ pd₀ cp pd : Pd} {l : Line} {log : List Out}
    (h : Watched s C X cp₀ pd₀ cp pd l log) (I : CpM.Inv cp₀) : CpM.Inv cp := by
  induction h with
  | start => exact I
  | cpQuiet _ _ h1 _ _ _ _ ih => exact ih.step h1
  | pdQuiet _ _ _ _ ih => exact ih
  | command _ _ _ _ _ h1 _ _ ih => exact ih.step h1
  | reply _ _ _ _ _ _ _ _ ih => exact ih
  | done _ _ _ h1 _ _ ih => exact ih.step h1

/-- the reply is heard, whatever the CP makes of it -/
theorem Xfers.told {s : Bool} {C : Cipher} {X : List Byte} {cp cp' pd : Pd} {D : Option (List Byte)} {bs body : List Byte} {cb : Bool} {env : Env} {o : List Out}
    (hX' : X.length < 2 ^ 31) (hH : Told s C cp pd bs body) (harr : Arrives env bs) (hstep : CpM.step C cp (.update cb env) = .ok (cp', o))
    (ih : Xfers X cp pd D (.toCp bs body)) : Core X cp'.file pd.file D := by
  obtain ⟨r0, rest, hbd, hrep⟩ := hH.heard harr
  obtain ⟨f1, f2⟩ := reply_files hH.inv hrep hstep
  rcases ih with ⟨h1, h2⟩ | ⟨f, k, h1, h2, h3, h4, h5, h6⟩
  · rw [hbd] at h1
    rw [f1 (fun he => h1 (by rw [← he]; unfold b8; simp))]
    exact h2
  · rcases h6 with ⟨k1, k2, k3, k4⟩ | ⟨k1, k2, k3⟩
    · rw [hbd] at k2
      injection k2 with e1 e2
      obtain ⟨r, t1, t2⟩ := f2 (by rw [e1]; decide)
      rw [h1, e2] at t1
      obtain ⟨g, hg, hd⟩ := File.last_heard h2 h4 (by omega) (by omega) t1
      intro f' hf'
      rw [t2, hg] at hf'; injection hf' with hf'; subst hf'
      exact .inr (.inl ⟨hd, k3, k4⟩)
    · rw [hbd] at k2
      injection k2 with e1 e2
      obtain ⟨r, t1, t2⟩ := f2 (by rw [e1]; decide)
      rw [h1, e2] at t1
      obtain ⟨g, hg, hi, hz, ho⟩ := File.next_heard h2 h4 (by omega) (by omega) t1
      intro f' hf'
      rw [t2, hg] at hf'; injection hf' with hf'; subst hf'
      exact .inr (.inr ⟨hi, by omega, by omega, by rw [ho]; exact k3⟩)

/-- throughout such a history the two ends agree on the transfer -/
theorem spanned_core {C : Cipher} {info : PdM.Info} {X : List Byte} {cp₀ pd₀ cp pd : Pd} {b : Bool} {log : List Out}
    (I : CpM.Inv cp₀) (R : PdM.Reached C info pd₀) (hX : 0 < X.length) (hX' : X.length < 2 ^ 31)
    (hab : ¬ (cp₀.phyState = .sendCmd ∧ cp₀.cmdId = Id.ABORT)) (hcore : Core X cp₀.file pd₀.file none)
    (h : Spanned C X cp₀ pd₀ b cp pd log) :
    CpM.Inv cp ∧ PdM.Reached C info pd ∧ Core X cp.file pd.file (stored none log) ∧
      (b = true → ¬ (cp.phyState = .sendCmd ∧ cp.cmdId = Id.ABORT)) := by
  induction h with
  | start => exact ⟨I, R, hcore, fun _ => hab⟩
  | heard hS S hW ha harr hstep ih =>
    obtain ⟨i1, i2, i3, i4⟩ := ih
    have hx := watched_core S hX hX' (i4 rfl) i3 hW
    refine ⟨(hW.inv i1).step hstep, hW.reached i2, ?_, fun h => by cases h⟩
    rw [stored_append]
    exact hx.told hX' (linked_holds S hW.linked) harr hstep
  | between hS S hW ha hps hstep hon ih =>
    obtain ⟨i1, i2, i3, i4⟩ := ih
    have hx := watched_core S hX hX' (i4 rfl) i3 hW
    have I2 := (hW.inv i1).step hstep
    refine ⟨I2, hW.reached i2, ?_, fun h => by cases h⟩
    rw [stored_append]
    refine (idle_file (hW.inv i1) hps hstep (hx.2 (by rw [hps]; rintro ⟨h, -⟩; cases h))).2 ?_
    rintro ⟨h1, h2⟩
    have hc := I2.cmd (by rw [h1]; decide)
    rw [h2] at hc
    rename_i cp2 _ _ _ _
    cases hst : cp2.state <;> rw [hst] at hc <;> first | exact absurd hst hon | (cases hc)
  | lost hS S hW hb ih =>
    obtain ⟨i1, i2, i3, i4⟩ := ih
    have hx := watched_core S hX hX' (i4 rfl) i3 hW
    refine ⟨hW.inv i1, hW.reached i2, ?_, fun h => by cases h⟩
    rw [stored_append]
    rcases hx with ⟨h1, -⟩ | ⟨-, -, h⟩ | ⟨ty, data, f, -, h2, h3, h4, -, h6, -, -, h9, h10⟩
    · rw [h1] at hb; exact absurd rfl hb
    · exact h
    · intro f' hf'
      rw [h2] at hf'; injection hf' with hf'; subst hf'
      have := List.length_pos_iff.mpr h6
      exact .inr (.inr ⟨h3, h4, by omega, h10⟩)
  | @cpApart cp cp' pd op o log hS ha hstep hq ih =>
    obtain ⟨i1, i2, i3, -⟩ := ih
    refine ⟨i1.step hstep, i2, ?_, fun h => by cases h⟩
    by_cases hop : ∀ cb env, op ≠ .update cb env
    · exact i3.api (api_files ha hop hstep)
    · have : ∃ cb env, op = .update cb env :=
        Classical.byContradiction fun hn => hop fun cb env he => hn ⟨cb, env, he⟩
      obtain ⟨cb, env, rfl⟩ := this
      obtain ⟨h1, h2⟩ := hq cb env rfl
      rw [apart_cp i1 hstep h1 h2]; exact i3
  | @pdApart cp pd pd' op o log hS ha hstep hq ih =>
    obtain ⟨i1, i2, i3, -⟩ := ih
    refine ⟨i1, i2.step hstep, ?_, fun h => by cases h⟩
    have hk : pd'.file = pd.file ∧ stored (stored none log) o = stored none log := by
      cases op with
      | refresh env =>
        obtain ⟨h1, h2⟩ := apart_pd i2 hstep (hq env rfl)
        exact ⟨h1, by rw [stored_fileOuts, h2]; rfl⟩
      | notify e =>
        injection hstep with h; injection h with h h'; subst h h'
        unfold PdM.notifyEvent
        split <;> exact ⟨rfl, rfl⟩
      | flush => injection hstep with h; injection h with h h'; subst h h'; exact ⟨rfl, rfl⟩
      | setCaps c => injection hstep with h; injection h with h h'; subst h h'; exact ⟨rfl, rfl⟩
      | fileOps => exact absurd rfl ha.registered
    rw [stored_append, hk.1, hk.2]
    exact i3
  | back _ _ hn ih => exact ⟨ih.1, ih.2.1, ih.2.2.1, fun _ => hn⟩

/-- **C49, across sessions** (partial: no reply to a fragment and no ABORT is lost).  As `C49_partial`, in a history with sessions that end and begin. -/
theorem C49_span_partial {s : Bool} {C : Cipher} {info : PdM.Info} {X : List Byte} {cp₀ pd₀ cp pd cp' pd' : Pd} {l : Line} {log log' : List Out} {f : FileSt}
    (I : CpM.Inv cp₀) (R : PdM.Reached C info pd₀) (hX : 0 < X.length) (hX' : X.length < 2 ^ 31) (hpd : Rests pd₀.file)
    (hab : ¬ (cp₀.phyState = .sendCmd ∧ cp₀.cmdId = Id.ABORT))
    (hcp : ∀ f, cp₀.file = some f → f.state = .idle ∨ f.state = .inprog ∧ f.size = X.length ∧ f.offset = 0)
    (h : Spanned C X cp₀ pd₀ true cp pd log) (S : InStep s cp pd) (hW : Watched s C X cp pd cp' pd' l log') (hf : cp'.file = some f) :
    (f.state = .done → stored none (log ++ log') = some X) ∧
    (f.state = .inprog → l = .idle → 0 < f.offset → f.offset < X.length ∧ stored none (log ++ log') = some (X.take f.offset)) := by
  obtain ⟨-, -, hc, hn⟩ := spanned_core I R hX hX' hab (core_start hX hpd hcp _) h
  rw [stored_append]
  exact (watched_core S hX hX' (hn rfl) hc hW).sender hf

/-- **C49, while the two ends are apart.** -/
theorem C49_apart_partial {C : Cipher} {info : PdM.Info} {X : List Byte} {cp₀ pd₀ cp pd : Pd} {log : List Out} {f : FileSt} {b : Bool}
    (I : CpM.Inv cp₀) (R : PdM.Reached C info pd₀) (hX : 0 < X.length) (hX' : X.length < 2 ^ 31) (hpd : Rests pd₀.file)
    (hab : ¬ (cp₀.phyState = .sendCmd ∧ cp₀.cmdId = Id.ABORT))
    (hcp : ∀ f, cp₀.file = some f → f.state = .idle ∨ f.state = .inprog ∧ f.size = X.length ∧ f.offset = 0)
    (h : Spanned C X cp₀ pd₀ b cp pd log) (hf : cp.file = some f) :
    (f.state = .done → stored none log = some X) ∧
    (f.state = .inprog → 0 < f.offset → f.offset < X.length ∧ stored none log = some (X.take f.offset)) := by
  obtain ⟨-, -, hc, -⟩ := spanned_core I R hX hX' hab (core_start hX hpd hcp _) h
  refine ⟨fun hd => ?_, fun hi h0 => ?_⟩
  · rcases hc f hf with ⟨h, -⟩ | ⟨-, -, h⟩ | ⟨h, -⟩
    · rw [hd] at h; cases h
    · exact h
    · rw [hd] at h; cases h
  · rcases hc f hf with ⟨h, -⟩ | ⟨h, -⟩ | ⟨-, -, hlt, hr⟩
    · rw [hi] at h; cases h
    · rw [hi] at h; cases h
    · refine ⟨hlt, ?_⟩
      rcases hr with ⟨h, -⟩ | ⟨g, -, -, -, -, -, h⟩
      · omega
      · exact h

/-! ### a session ends during a transfer -/

/-- the security block leaves room for what follows it -/
def blockFits (active : Bool) (k : List Byte) : Bool :=
  match k[4]?, k[5]?, k[6]? with
  | some ctl, some sb, some ty =>
    !ctl.getLsbD 3 || (decide (5 + sb.toNat + 1 + Spec.Block.checkLen ctl ≤ k.length) &&
      (!active || decide (ty.toNat < 0x15) || decide (5 + sb.toNat + 1 + 4 + Spec.Block.checkLen ctl ≤ k.length)))
  | _, _, _ => false

theorem blockFits_not {active : Bool} {k : List Byte} (h : blockFits active k = true) : ¬ Overlong active k := by
  rintro ⟨ctl, sb, h4, hb, h5, hx⟩
  unfold blockFits at h
  rw [h4, h5] at h
  split at h
  · rename_i ctl' sb' ty e4 e5 h6
    injection e4 with e4; injection e5 with e5; subst e4 e5
    rw [hb] at h
    simp only [Bool.not_true, Bool.false_or, Bool.and_eq_true, Bool.or_eq_true, decide_eq_true_eq, Bool.not_eq_true'] at h
    rcases hx with hx | ⟨ha, ⟨ty', h6', hty⟩, hx⟩
    · omega
    · rw [h6] at h6'; injection h6' with h6'; subst h6'
      rcases h.2 with (h | h) | h
      · rw [ha] at h; cases h
      · omega
      · omega
  · cases h

/-- `NoFiles`, to be computed -/
def noFiles (C : Cipher) (pd : Pd) (env : Env) : Bool :=
  (match commandOf C pd env with | some (id, _) => decide (id.toNat ≠ Id.ABORT ∧ id.toNat ≠ Id.FILETRANSFER) | none => true) &&
  (match Phy.checkPacket (expire pd env.now) env with | .ok (p1, .none) => blockFits p1.scActive (heldFrame p1) | _ => true)

theorem noFiles_spec {C : Cipher} {pd : Pd} {env : Env} (h : noFiles C pd env = true) : NoFiles C pd env := by
  unfold noFiles at h
  rw [Bool.and_eq_true] at h
  refine ⟨fun id body hc => ?_, fun p1 hp => ?_⟩
  · rw [hc] at h
    exact of_decide_eq_true h.1
  · rw [hp] at h
    exact blockFits_not h.2

/-- two ends that are not in step, and the bytes under way -/
structure Apart where
  cp : Pd
  pd : Pd
  toPd : List Byte := []
  toCp : List Byte := []
  log : List Out := []

/-- the CP hears no status of a transfer -/
def noStat (C : Cipher) (cp : Pd) (env : Env) : Bool :=
  match CpM.replyOf C cp env with | some (id, _) => decide (id.toNat ≠ Id.FTSTAT) | none => true

/-- one refresh of the CP or the PD; `none` where it would lead out of `Spanned` -/
def drift (C : Cipher) (X : List Byte) (chunk : Nat) (w : Apart) : Bool × Int → Option Apart
  | (true, now) =>
    let env := Sample.sender X chunk { arriving now w.toCp with random := Sample.rndA }
    match CpM.step C w.cp (.update true env) with
    | .ok (cp, o) =>
      if (w.cp.state ≠ .online ∨ w.cp.phyState = .replyWait) ∧
          noStat C w.cp env = true
      then some { w with cp := cp, toCp := [], toPd := (sent o).flatten } else none
    | .error _ => none
  | (false, now) =>
    let env := Sample.taker { arriving now w.toPd with random := .fill 8 0xB0#8 }
    match PdM.step C w.pd (.refresh env) with
    | .ok (pd, o) => if noFiles C w.pd env = true then some { w with pd := pd, toPd := [], toCp := (sent o).flatten, log := w.log ++ o } else none
    | .error _ => none

theorem drift_spanned {C : Cipher} {X : List Byte} {chunk : Nat} {cp₀ pd₀ : Pd} {w w' : Apart} {m : Bool × Int}
    (hw : Spanned C X cp₀ pd₀ false w.cp w.pd w.log) (h : drift C X chunk w m = some w') : Spanned C X cp₀ pd₀ false w'.cp w'.pd w'.log := by
  obtain ⟨b, now⟩ := m
  cases b with
  | true =>
    unfold drift at h
    dsimp only at h
    split at h
    · rename_i cp o hs
      split at h
      · rename_i hc
        injection h with h; subst h
        refine hw.cpApart (sender_app X chunk _ true) hs fun cb env he => ?_
        injection he with _ he; subst he
        refine ⟨hc.1, fun id body hr => ?_⟩
        have := hc.2
        unfold noStat at this
        rw [hr] at this
        exact of_decide_eq_true this
      · cases h
    · cases h
  | false =>
    unfold drift at h
    dsimp only at h
    split at h
    · rename_i pd o hs
      split at h
      · rename_i hc
        injection h with h; subst h
        refine hw.pdApart ⟨fun env he => ?_, (fun h => by cases h)⟩ hs fun env he => ?_
        · injection he with he; subst he; exact Int.le_refl 0
        · injection he with he; subst he
          exact noFiles_spec hc
      · cases h
    · cases h

/-- several refreshes -/
def drifts (C : Cipher) (X : List Byte) (chunk : Nat) : List (Bool × Int) → Apart → Option Apart
  | [], w => some w
  | m :: l, w => (drift C X chunk w m).bind (drifts C X chunk l)

theorem drifts_spanned {C : Cipher} {X : List Byte} {chunk : Nat} {cp₀ pd₀ : Pd} : ∀ (l : List (Bool × Int)) {w w' : Apart},
    Spanned C X cp₀ pd₀ false w.cp w.pd w.log → drifts C X chunk l w = some w' → Spanned C X cp₀ pd₀ false w'.cp w'.pd w'.log
  | [], _, _, hw, h => by injection h with h; subst h; exact hw
  | m :: l, w, _, hw, h => by
    obtain ⟨w1, h1, h2⟩ := Option.bind_eq_some_iff.mp h
    exact drifts_spanned l (drift_spanned hw h1) h2

/-- the first two of five bytes have been stored, the next fragment has been sent -/
def halfway : Option Wired := plays true xorCipher (Sample.content 5) 2 [.file, .cp, .pd, .cp, .cp, .cp, .pd, .cp, .cp, .cp] 460 shelved

/-- turns of both ends -/
def turnTimes (now : Int) (n : Nat) : List (Bool × Int) := (List.range n).flatMap fun (i : Nat) => [(true, now + 20 * i), (false, now + 20 * i)]

theorem pdTurns_reached {C : Cipher} {info : PdM.Info} {dt : Int} : ∀ (n : Nat) (t : Sample.Talk), PdM.Reached C info t.pd → PdM.Reached C info (t.turns C dt n).pd
  | 0, _, h => h
  | n + 1, t, h => by
    refine pdTurns_reached n _ ?_
    have pdc : ∀ (t : Sample.Talk) (op : CpM.Op), (t.cpDoes C op).pd = t.pd := by
      intro t op; unfold Sample.Talk.cpDoes; split <;> rfl
    have pdd : ∀ (t : Sample.Talk) (op : PdM.Op), PdM.Reached C info t.pd → PdM.Reached C info (t.pdDoes C op).pd := by
      intro t op h
      unfold Sample.Talk.pdDoes
      split
      · rename_i hs; exact h.step hs
      · exact h
    show PdM.Reached C info (Sample.Talk.pdDoes C _ _).pd
    refine pdd _ _ ?_
    rw [pdc]; exact h

theorem shelved_reached : PdM.Reached xorCipher Sample.pdInfo shelved.pd := by
  unfold shelved
  exact (pdTurns_reached (C := xorCipher) (dt := 20) 20 Sample.talk (PdM.sample_reached _)).step (op := .fileOps) rfl

/-- the fragment arrives when the PD has given up the session: it is refused, and the CP goes offline; five minutes later it identifies the PD again and sets up a new session -/
def regained : Option Apart :=
  halfway.bind fun w => match w.line with
    | .toPd bs _ => drifts xorCipher (Sample.content 5) 2 ((false, 9700) :: turnTimes 9720 2 ++ turnTimes 320000 13)
        { cp := w.cp, pd := w.pd, toPd := bs, log := w.log }
    | _ => none

theorem regained_some : regained.isSome = true := by decide +kernel

def rejoin : Apart := regained.get regained_some

theorem rejoin_spanned : Spanned xorCipher (Sample.content 5) shelved.cp shelved.pd false rejoin.cp rejoin.pd rejoin.log := by
  have h : regained = some rejoin := (Option.some_get _).symm
  generalize rejoin = w1 at h
  unfold regained at h
  obtain ⟨w, hw, h⟩ := Option.bind_eq_some_iff.mp h
  have hW : Watched true xorCipher (Sample.content 5) shelved.cp shelved.pd w.cp w.pd w.line w.log := plays_watched _ .start hw
  have hb : (halfway.bind fun w => match w.line with | .toPd _ body => body.head? | _ => none) = some (b8 Id.FILETRANSFER) := by decide +kernel
  rw [hw] at hb
  cases hl : w.line with
  | toPd bs body =>
    rw [hl] at h hW
    refine drifts_spanned _ (w := { cp := w.cp, pd := w.pd, toPd := bs, log := w.log }) ?_ h
    rw [Option.bind_some, hl] at hb
    refine Spanned.lost .start shelved_sync hW ?_
    intro he
    dsimp only at hb
    rw [he] at hb
    exact absurd hb (by decide)
  | idle => rw [hl] at h; cases h
  | toCp _ _ => rw [hl] at h; cases h

theorem shelved_rests : Rests shelved.pd.file := by
  intro g hg; unfold shelved at hg; exact .inl (reset_file hg)

theorem shelved_quiet : ¬ (shelved.cp.phyState = .sendCmd ∧ shelved.cp.cmdId = Id.ABORT) := by
  have : shelved.cp.cmdId ≠ Id.ABORT := by decide +kernel
  exact fun h => this h.2

theorem shelved_idle : ∀ f, shelved.cp.file = some f → f.state = .idle ∨ f.state = .inprog ∧ f.size = (Sample.content 5).length ∧ f.offset = 0 := by
  intro g hg; unfold shelved at hg; exact .inl (reset_file hg)

theorem rejoin_sync : Sync rejoin.cp rejoin.pd := by
  have I := (spanned_core shelved_sync.inv shelved_reached (by decide) (by decide) shelved_quiet (core_start (by decide) shelved_rests shelved_idle _) rejoin_spanned).1
  refine ⟨I, by decide +kernel, .inl (by decide +kernel), by decide +kernel, by decide +kernel, by decide +kernel,
    fun _ => by decide +kernel, fun _ => ⟨by decide +kernel, by decide +kernel, by decide +kernel, by decide +kernel⟩, by decide +kernel,
    by decide +kernel, by decide +kernel, by decide +kernel, ⟨by decide +kernel, by decide +kernel, by decide +kernel, by decide +kernel⟩,
    ⟨by decide +kernel, by decide +kernel, by decide +kernel, by decide +kernel⟩, fun h => by cases h⟩

theorem plays_from {s : Bool} {C : Cipher} {X : List Byte} {chunk : Nat} {l : List Move} {now : Int} {cp pd : Pd} {w : Wired}
    (h : plays s C X chunk l now { cp := cp, pd := pd } = some w) : Watched s C X cp pd w.cp w.pd w.line w.log := plays_watched l .start h

/-- the transfer goes on -/
def resumed : Option Wired :=
  plays true xorCipher (Sample.content 5) 2 [.cp, .cp, .pd, .cp, .cp, .cp, .pd, .cp] 320260 { cp := rejoin.cp, pd := rejoin.pd }

-- the session ends between the first and the second fragment, and the file arrives in the next session
example : ∃ (w : Wired) (f : FileSt), Spanned xorCipher (Sample.content 5) shelved.cp shelved.pd true rejoin.cp rejoin.pd rejoin.log ∧ Sync rejoin.cp rejoin.pd ∧
    Watched true xorCipher (Sample.content 5) rejoin.cp rejoin.pd w.cp w.pd w.line w.log ∧ stored none rejoin.log = some ((Sample.content 5).take 2) ∧
    w.cp.file = some f ∧ f.state = .done ∧ stored none (rejoin.log ++ w.log) = some (Sample.content 5) := by
  have hsome : resumed.isSome = true := by decide +kernel
  obtain ⟨w, hw⟩ := Option.isSome_iff_exists.mp hsome
  have hf : (resumed.bind fun w => w.cp.file.map fun f => f.state) = some .done := by decide +kernel
  rw [hw] at hf
  have hW : Watched true xorCipher (Sample.content 5) rejoin.cp rejoin.pd w.cp w.pd w.line w.log := by
    unfold resumed at hw
    exact plays_from hw
  have hphy : rejoin.cp.phyState = .idle := by decide +kernel
  have hback : Spanned xorCipher (Sample.content 5) shelved.cp shelved.pd true rejoin.cp rejoin.pd rejoin.log :=
    rejoin_spanned.back rejoin_sync (by rw [hphy]; rintro ⟨h, -⟩; cases h)
  cases hfile : w.cp.file with
  | none => rw [Option.bind_some, hfile] at hf; cases hf
  | some f =>
    rw [Option.bind_some, hfile] at hf
    injection hf with hf
    exact ⟨w, f, hback, rejoin_sync, hW, by decide +kernel, hfile, hf, (C49_span_partial shelved_sync.inv shelved_reached (by decide) (by decide) shelved_rests shelved_quiet
      shelved_idle hback rejoin_sync hW hfile).1 hf⟩

/-! ### an ABORT that is refused -/

open Sample (content sender)

/-- The CP sends a file of 10 bytes, six at a time; after the first fragment its application cancels the transfer. By the time the ABORT is sent the PD has given up the session, and
refuses it; the CP goes offline, and after five minutes the two set up a new session. -/
def cancelled : Sample.Talk :=
  let t := ((Sample.talk.turns xorCipher 20 40).filing xorCipher (content 10) 6).fturns xorCipher 20 (content 10) 6 (List.replicate 5 false)
  let t := t.cpDoes xorCipher (.send (sender (content 10) 6 { now := t.now }) (.fileTx { id := 1, flags := File.FLAG_CANCEL }))
  let t := (t.fturns xorCipher 9000 (content 10) 6 [false]).fturns xorCipher 20 (content 10) 6 (List.replicate 4 false)
  (t.fturns xorCipher 310000 (content 10) 6 [false]).fturns xorCipher 20 (content 10) 6 (List.replicate 18 false)

/-- another file, of 4 bytes -/
def other4 : List Byte := [1#8, 2#8, 3#8, 4#8]

/-- The CP sends the other file. -/
def staled : Sample.Talk :=
  (cancelled.cpDoes xorCipher (.send (sender other4 6 { now := cancelled.now }) (.fileTx { id := 2, flags := 0#32 }))).fturns xorCipher 20 other4 6 (List.replicate 5 false)

/-- **C49 is violated** when an ABORT is refused: the PD goes on expecting the rest of the first file, and puts the second one into it. The sender takes the second file for delivered, but the
receiver's application was asked to open a file only once (the first one), and holds something else. -/
theorem C49_stale : cancelled.bad = false ∧ staled.bad = false ∧
    cancelled.cp.state = .online ∧ cancelled.cp.scActive = true ∧ cancelled.pd.scActive = true ∧
    cancelled.cp.file.map (fun (f : FileSt) => f.state) = some .idle ∧ cancelled.pd.file.map (fun (f : FileSt) => (f.state, f.offset, f.size)) = some (.inprog, 6, 10) ∧
    staled.cp.file.map (fun (f : FileSt) => (f.state, f.size)) = some (.done, 4) ∧
    (staled.pdOuts.filterMap fun o => match o with | .fopen id n => some (id, n) | _ => none) = [(1, 10)] ∧
    stored none staled.pdOuts = some (other4 ++ [11#8, 12#8]) := by
  refine ⟨?_, ?_, ?_, ?_, ?_, ?_, ?_, ?_, ?_, ?_⟩ <;> decide +kernel

end Link
end Osdp
