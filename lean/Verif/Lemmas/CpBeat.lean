import Verif.Lemmas.CpFile
import Verif.Lemmas.Pause
import Verif.Lemmas.CpFault
import Verif.Lemmas.CpSafe

/-! # The timers of a CP, and how far it is from sending something -/

namespace Osdp.CpM

open Spec.Wire
open Phy (sendOuts)

/-- the timer of a file transfer was set no later than `t`, to no more than 65535 ms -/
def FileTimed (t : Int) (f : Option FileSt) : Prop := ∀ g, f = some g → g.tstamp ≤ t ∧ g.waitTimeMs ≤ 65535

/-- all timers were set no later than `t`, to no more than five minutes -/
structure Timers (t : Int) (p : Pd) : Prop where
  pos : 0 ≤ t
  tstamp : p.tstamp ≤ t
  phy : p.phyTstamp ≤ t
  wait : p.waitMs ≤ 300000
  file : FileTimed t p.file

theorem Timers.mono {t u : Int} {p : Pd} (h : Timers t p) (hu : t ≤ u) : Timers u p :=
  ⟨Int.le_trans h.pos hu, Int.le_trans h.tstamp hu, Int.le_trans h.phy hu, h.wait,
    fun g hg => ⟨Int.le_trans (h.file g hg).1 hu, (h.file g hg).2⟩⟩

theorem reset_timed {t : Int} (ht : 0 ≤ t) : FileTimed t (some File.reset) := by
  rintro g ⟨⟩; exact ⟨ht, by decide⟩

theorem statDecode_timed {f : Option FileSt} {env : Env} {body : List Byte} {r : File.Result} {t : Int}
    (hn : env.now ≤ t) (hf : FileTimed t f) (h : File.statDecode f env body = .ok r) : FileTimed t r.file := by
  have two : ∀ a b : Byte, ofLe [a, b] ≤ 65535 := by
    intro a b
    have := a.isLt
    have := b.isLt
    simp only [ofLe]; omega
  unfold File.statDecode at h
  split at h
  · injection h with h; subst h; exact hf
  split at h
  · injection h with h; subst h; exact hf
  split at h
  · dsimp only at h
    replace h := ite_inv h
    rcases h with ⟨-, h⟩ | ⟨-, h⟩
    · cases h
    replace h := ite_inv h
    rcases h with ⟨-, h⟩ | ⟨-, h⟩
    · injection h with h; subst h; rintro g ⟨⟩; exact ⟨hn, two _ _⟩
    replace h := ite_inv h
    rcases h with ⟨-, h⟩ | ⟨-, h⟩
    · injection h with h; subst h; rintro g ⟨⟩; exact ⟨hn, two _ _⟩
    replace h := ite_inv h
    rcases h with ⟨-, h⟩ | ⟨-, h⟩
    · injection h with h; subst h; rintro g ⟨⟩; exact ⟨hn, two _ _⟩
    replace h := ite_inv h
    rcases h with ⟨-, h⟩ | ⟨-, h⟩
    · injection h with h; subst h; rintro g ⟨⟩; exact ⟨hn, two _ _⟩
    · injection h with h; subst h; rintro g ⟨⟩; exact ⟨hn, two _ _⟩
  · replace h := ite_inv h
    rcases h with ⟨-, h⟩ | ⟨-, h⟩
    · injection h with h; subst h; exact hf
    · cases h

theorem txBuild_timed {f g : Option FileSt} {env : Env} {n : Int} {o : List Out} {r : Option (List Byte)} {t : Int}
    (ht : 0 ≤ t) (hf : FileTimed t f) (h : File.txBuild f env n = .ok (g, o, r)) : FileTimed t g := by
  unfold File.txBuild at h
  split at h
  · cases h
  rename_i f
  replace h := ite_inv h
  rcases h with ⟨-, h⟩ | ⟨-, h⟩
  · cases h
  replace h := ite_inv h
  rcases h with ⟨-, h⟩ | ⟨-, h⟩
  · injection h with h; injection h with h _; subst h; exact reset_timed ht
  replace h := ite_inv h
  rcases h with ⟨-, h⟩ | ⟨-, h⟩
  · injection h with h; injection h with h _; subst h; exact hf
  dsimp only at h
  replace h := ite_inv h
  rcases h with ⟨-, h⟩ | ⟨-, h⟩
  · injection h with h; injection h with h _; subst h; exact reset_timed ht
  replace h := ite_inv h
  rcases h with ⟨-, h⟩ | ⟨-, h⟩
  · cases h
  · injection h with h; injection h with h _; subst h
    rintro g ⟨⟩; exact hf f rfl

theorem getCommand_timed {f g : Option FileSt} {now : Int} {o : List Out} {n : File.Next} {t : Int}
    (ht : 0 ≤ t) (hf : FileTimed t f) (h : File.getCommand f now = (g, o, n)) : FileTimed t g := by
  unfold File.getCommand at h
  split at h
  · injection h with h _; subst h; exact hf
  split at h
  · injection h with h _; subst h; exact hf
  split at h
  · unfold File.abort at h
    dsimp only at h
    split at h
    · injection h with h _; subst h; exact reset_timed ht
    · injection h with h _; subst h; exact hf
  split at h
  · injection h with h _; subst h; exact hf
  split at h
  · injection h with h _; subst h; exact hf
  · injection h with h _; subst h; exact hf

theorem getCommand_waits {f g : Option FileSt} {now : Int} {o : List Out} {n : File.Next}
    (h : File.getCommand f now = (g, o, n)) (hn : n = .nothing ∨ n = .hold) :
    g = f ∧ (n = .hold → ∃ x, f = some x ∧ now - x.tstamp < x.waitTimeMs) := by
  unfold File.getCommand at h
  split at h
  · injection h with h1 h; injection h with h2 h3; subst h1 h3; exact ⟨rfl, fun h => by cases h⟩
  split at h
  · injection h with h1 h; injection h with h2 h3; subst h1 h3; exact ⟨rfl, fun h => by cases h⟩
  split at h
  · injection h with h1 h; injection h with h2 h3; subst h3; simp at hn
  split at h
  · rename_i hw
    injection h with h1 h; injection h with h2 h3; subst h1 h3; exact ⟨rfl, fun _ => ⟨_, rfl, hw.2⟩⟩
  split at h
  · injection h with h1 h; injection h with h2 h3; subst h3; simp at hn
  · injection h with h1 h; injection h with h2 h3; subst h3; simp at hn

theorem txCommand_timed {f : Option FileSt} {env : Env} {i : Int} {fl : BitVec 32} {t : Int}
    (ht : 0 ≤ t) (hf : FileTimed t f) : FileTimed t (File.txCommand f env i fl).1 := by
  unfold File.txCommand
  split
  · exact hf
  rename_i f
  split
  · split
    · split
      · rintro g ⟨⟩; exact hf f rfl
      · exact hf
    · exact hf
  split
  · exact hf
  dsimp only
  split
  · exact hf
  split
  · exact hf
  · rintro g ⟨⟩; exact ⟨ht, Nat.zero_le _⟩

/-! ### receiving -/

theorem checkPacket_tstamp {p q : Pd} {r : Phy.PktRet} {env : Env} (h : Phy.checkPacket p env = .ok (q, r)) :
    q.tstamp = p.tstamp ∨ q.tstamp = env.now := by
  unfold Phy.checkPacket at h
  obtain ⟨p1, h1, h2⟩ := Res.bind_eq_ok.mp h
  clear h
  unfold Phy.intake at h1
  obtain ⟨⟨rx, n⟩, h3, h1⟩ := Res.bind_eq_ok.mp h1
  injection h1 with h1
  rw [Phy.assemble_tstamp h2]
  subst h1
  split
  · exact .inr rfl
  · exact .inl rfl

theorem Reply.tstamp {C : Cipher} {p q : Pd} {env : Env} {o : List Out} {rc : CpErr} (h : Reply C p env q o rc) :
    q.tstamp = p.tstamp ∨ q.tstamp = env.now := by
  cases h with
  | nothing h _ _ => exact checkPacket_tstamp h
  | bad h _ _ => exact checkPacket_tstamp h
  | busy h _ => exact checkPacket_tstamp h
  | seq h _ => exact checkPacket_tstamp h
  | refused h _ _ hd _ => rw [hd.tstamp]; exact checkPacket_tstamp h
  | @reply p1 p2 _ d id _ _ _ h _ _ hd _ _ _ _ _ he =>
    have e : q.tstamp = p2.tstamp := by cases he <;> rfl
    rw [e, hd.tstamp]; exact checkPacket_tstamp h

theorem Waited.timers {C : Cipher} {p q : Pd} {env : Env} {o : List Out} {rc : CpErr} (hps : p.phyState = .replyWait)
    {t : Int} (hn : env.now ≤ t) (ht : Timers t p) (h : Waited C p env q o rc) : Timers t q := by
  have hfile : FileTimed t q.file := by
    rcases h.file hps with ⟨h, -⟩ | ⟨_, _, r, -, -, h1, h2, -⟩
    · rw [h]; exact ht.file
    · rw [h2]; exact statDecode_timed hn ht.file h1
  have key : ∀ {q : Pd} {rc : CpErr}, Reply C p env q o rc → q.tstamp ≤ t ∧ q.phyTstamp ≤ t ∧ q.waitMs ≤ 300000 := by
    intro q rc h
    obtain ⟨-, -, -, -, -, a, b, -⟩ := h.heard.keeps
    rw [a, b]
    refine ⟨?_, ht.phy, ht.wait⟩
    rcases h.tstamp with h | h
    · rw [h]; exact ht.tstamp
    · rw [h]; exact hn
  cases h with
  | answered h => exact ⟨ht.pos, hn, (key h).2.1, (key h).2.2, hfile⟩
  | ignored h _ _ => exact ⟨ht.pos, (key h).1, (key h).2.1, (key h).2.2, hfile⟩
  | failed h _ => exact ⟨ht.pos, (key h).1, (key h).2.1, (key h).2.2, hfile⟩
  | busy h => exact ⟨ht.pos, (key h).1, hn, by show CMD_RETRY_WAIT ≤ 300000; decide, hfile⟩
  | retry h _ _ => exact ⟨ht.pos, (key h).1, hn, by show CMD_RETRY_WAIT ≤ 300000; decide, hfile⟩
  | exhausted h _ _ => exact ⟨ht.pos, (key h).1, (key h).2.1, (key h).2.2, hfile⟩
  | waiting h _ => exact ⟨ht.pos, (key h).1, (key h).2.1, (key h).2.2, hfile⟩

/-! ### choosing a command and the next state -/

/-- the timers a change of state sets -/
theorem advance_timers {cb : Bool} {p q : Pd} {env : Env} {ok : Bool} {outs : List Out}
    (h : advance cb p env p.state ok = .ok (q, outs)) : q.phyTstamp = p.phyTstamp ∧
      (q.tstamp = p.tstamp ∧ q.waitMs = p.waitMs ∨ q.tstamp = env.now ∧ q.waitMs = 300000 ∧ q.state = .offline ∧ p.state ≠ .offline) := by
  have hd := (advance_drift h).1
  refine ⟨by unfold Drift at hd; rw [hd], ?_⟩
  cases advance_inv h with
  | mk h1 h2 =>
  rename_i p1 p2 o1 o2 n1 n2
  have d1 : p1.tstamp = p.tstamp ∧ p1.waitMs = p.waitMs := by
    cases ok with
    | true => obtain ⟨-, -, -, -, -, -, -, -, -, -, a, b, -⟩ := nextOk_drift h1; exact ⟨a, b⟩
    | false => obtain ⟨-, -, -, -, -, -, -, -, -, -, a, b, -⟩ := nextErr_drift h1; exact ⟨a, b⟩
  obtain ⟨-, -, -, -, -, -, -, -, -, a2, b2, -⟩ := requests_drift h2
  rw [← d1.1, ← d1.2, ← a2, ← b2]
  split
  · rename_i hc
    cases n2 with
    | offline => exact .inr ⟨rfl, rfl, rfl, hc⟩
    | _ => exact .inl ⟨rfl, rfl⟩
  · exact .inl ⟨rfl, rfl⟩

theorem stateGetCmd_timers {p q : Pd} {env : Env} {outs : List Out} {id : Nat} {t : Int} (hn : env.now ≤ t) (ht : Timers t p)
    (h : stateGetCmd p env = .ok (q, outs, id)) : Timers t q := by
  by_cases hs : p.state = .online
  · unfold stateGetCmd at h
    rw [hs] at h
    dsimp only at h
    unfold onlineCommand at h
    split at h
    · obtain ⟨⟨p1, n⟩, h1, h⟩ := Res.bind_eq_ok.mp h
      injection h with h; injection h with e1 h; injection h with e2 e3; subst e1 e2 e3
      obtain ⟨rfl, -⟩ := translate_inv h1
      exact ⟨ht.pos, ht.tstamp, ht.phy, ht.wait, ht.file⟩
    · cases hg : File.getCommand p.file env.now with
      | mk f x =>
      cases x with
      | mk o n =>
      rw [hg] at h
      have hf := getCommand_timed ht.pos ht.file hg
      cases n with
      | send k =>
        injection h with h; injection h with e1 h; injection h with e2 e3; subst e1 e2 e3
        exact ⟨ht.pos, ht.tstamp, ht.phy, ht.wait, hf⟩
      | hold =>
        injection h with h; injection h with e1 h; injection h with e2 e3; subst e1 e2 e3
        exact ⟨ht.pos, ht.tstamp, ht.phy, ht.wait, hf⟩
      | nothing =>
        dsimp only at h
        split at h <;> injection h with h <;> injection h with e1 h <;> injection h with e2 e3 <;> subst e1 e2 e3
        · exact ⟨ht.pos, hn, ht.phy, ht.wait, hf⟩
        · exact ⟨ht.pos, ht.tstamp, ht.phy, ht.wait, hf⟩
  · obtain ⟨rfl, -⟩ := (stateGetCmd_inv h).2.2.2 hs
    exact ht

/-- judging a reply: what the timers depend on stays -/
theorem stateCheckReply_keeps {cb : Bool} {p q : Pd} {outs : List Out} {ok : Bool} (h : stateCheckReply cb p = .ok (q, outs, ok)) :
    q.tstamp = p.tstamp ∧ q.phyTstamp = p.phyTstamp ∧ q.waitMs = p.waitMs ∧ q.file = p.file ∧ q.cmdQueue = p.cmdQueue ∧
    q.state = p.state := by
  obtain ⟨-, ⟨rfl, -, -⟩ | ⟨-, -, -, h⟩⟩ := stateCheckReply_inv h
  · exact ⟨rfl, rfl, rfl, rfl, rfl, rfl⟩
  · obtain ⟨k, -, rfl, -⟩ := keysetComplete_inv h
    exact ⟨rfl, rfl, rfl, rfl, rfl, rfl⟩

theorem settle_timers {cb : Bool} {p q : Pd} {env : Env} {outs : List Out} {t : Int} (hn : env.now ≤ t) (ht : Timers t p)
    (h : settle cb p env = .ok (q, outs)) : Timers t q := by
  have adv : ∀ {p1 q : Pd} {ok : Bool} {o : List Out}, Timers t p1 → advance cb p1 env p1.state ok = .ok (q, o) →
      Timers t q := by
    intro p1 q ok o ht h
    obtain ⟨a, b⟩ := advance_timers h
    have hf := (advance_drift h).2.2.2
    refine ⟨ht.pos, ?_, by rw [a]; exact ht.phy, ?_, by rw [hf]; exact ht.file⟩
    · rcases b with ⟨h, -⟩ | ⟨h, -⟩
      · rw [h]; exact ht.tstamp
      · rw [h]; exact hn
    · rcases b with ⟨-, h⟩ | ⟨-, h, -⟩
      · rw [h]; exact ht.wait
      · rw [h]; decide
  cases settle_inv h with
  | command hps h1 hid =>
    have := stateGetCmd_timers hn ht h1
    exact ⟨this.pos, this.tstamp, this.phy, this.wait, this.file⟩
  | @nothing p1 q o1 o2 hps h1 h2 =>
    have := stateGetCmd_timers hn ht h1
    exact adv (p1 := { p1 with cmdId := 0 }) ⟨this.pos, this.tstamp, this.phy, this.wait, this.file⟩ h2
  | @over p1 q o1 o2 ok hps h1 h2 =>
    obtain ⟨a, b, c, d, -⟩ := stateCheckReply_keeps h1
    refine adv (p1 := (Phy.stateReset p1 false).1) ⟨ht.pos, ?_, ?_, ?_, ?_⟩ h2
    · show p1.tstamp ≤ _; rw [a]; exact ht.tstamp
    · show p1.phyTstamp ≤ _; rw [b]; exact ht.phy
    · show p1.waitMs ≤ _; rw [c]; exact ht.wait
    · show FileTimed _ p1.file; rw [d]; exact ht.file

theorem SendOutcome.timers {C : Cipher} {p q : Pd} {env : Env} {outs : List Out} {ok : Bool} {t : Int} (ht : Timers t p)
    (h : SendOutcome C p env q outs ok) : Timers t q := by
  have hs := h.sent
  unfold Sent at hs
  refine ⟨ht.pos, by rw [hs]; exact ht.tstamp, by rw [hs]; exact ht.phy, by rw [hs]; exact ht.wait, ?_⟩
  rcases h.file with ⟨h, -⟩ | ⟨-, -, _, _, _, -, h, -⟩
  · rw [h]; exact ht.file
  · exact txBuild_timed ht.pos ht.file h

theorem Update.timers {C : Cipher} {cb : Bool} {p q : Pd} {env : Env} {outs : List Out} {y : Bool} {t : Int} (ht : Timers t p)
    (hn : env.now ≤ t) (h : Update C cb p env q outs y) : Timers t q := by
  cases h with
  | hold _ _ => exact ht
  | sent _ h =>
    have := h.timers ht
    exact ⟨this.pos, this.tstamp, hn, this.wait, this.file⟩
  | @unsent p1 _ _ _ _ h1 h2 =>
    have := h1.timers ht
    exact settle_timers (p := { p1 with phyState := .err }) hn ⟨this.pos, this.tstamp, this.phy, this.wait, this.file⟩ h2
  | replied hps h _ h2 => exact settle_timers hn (h.timers hps hn ht) h2
  | again hps h => exact h.timers hps hn ht
  | waiting hps h => exact h.timers hps hn ht
  | idle _ h => exact settle_timers hn ht h

theorem step_timers {C : Cipher} {p q : Pd} {op : Op} {outs : List Out} {t : Int} (hp : p.flags.pdMode = false) (ht : Timers t p)
    (hn : ∀ cb env, op = .update cb env → env.now ≤ t) (h : step C p op = .ok (q, outs)) : Timers t q := by
  cases op with
  | update cb env =>
    obtain ⟨⟨p1, o1, y⟩, hu, h1⟩ := Res.bind_eq_ok.mp h
    injection h1 with h1; injection h1 with e1 e2; subst e1 e2
    exact (stateUpdate_inv hp hu).timers ht (hn cb env rfl)
  | send env c =>
    injection h with h; injection h with e1 e2; subst e1 e2
    have hk := sendPd_keeps p env c
    refine ⟨ht.pos, by rw [hk]; exact ht.tstamp, by rw [hk]; exact ht.phy, by rw [hk]; exact ht.wait, ?_⟩
    unfold sendPd
    split
    · exact ht.file
    dsimp only
    split
    · exact txCommand_timed ht.pos ht.file
    · split
      · exact ht.file
      · split <;> exact ht.file
    · split <;> exact ht.file
  | flag f b =>
    injection h with h; injection h with e1 e2; subst e1 e2
    rw [modifyPd_flags]
    exact ⟨ht.pos, ht.tstamp, ht.phy, ht.wait, ht.file⟩
  | flush => injection h with h; injection h with e1 e2; subst e1 e2; exact ⟨ht.pos, ht.tstamp, ht.phy, ht.wait, ht.file⟩
  | fileOps =>
    injection h with h; injection h with e1 e2; subst e1 e2
    exact ⟨ht.pos, ht.tstamp, ht.phy, ht.wait, reset_timed ht.pos⟩
  | share => injection h with h; injection h with e1 e2; subst e1 e2; exact ⟨ht.pos, ht.tstamp, ht.phy, ht.wait, ht.file⟩

/-! ### the distance from sending something -/

/-- how many turns of events can come at most before something is sent -/
def rank (p : Pd) : Nat :=
  match p.phyState with
  | .replyWait => 6 + p.cmdQueue.length
  | .sendCmd | .wait => if p.state = .online ∨ p.state = .setScbk then 4 else 1
  | _ => match p.state with
    | .online => 5 + p.cmdQueue.length
    | .setScbk => 5
    | .offline => 3
    | _ => 2

/-- the timer that the CP is waiting for was set no later than `t` -/
def Rel (t : Int) (p : Pd) : Prop :=
  match p.phyState with
  | .replyWait | .wait => p.phyTstamp ≤ t
  | .sendCmd => True
  | _ => match p.state with
    | .online => p.tstamp ≤ t ∧ FileTimed t p.file
    | .offline => p.tstamp ≤ t
    | _ => True

theorem Timers.rel {t : Int} {p : Pd} (h : Timers t p) : Rel t p := by
  unfold Rel
  split
  · exact h.phy
  · exact h.phy
  · trivial
  · split
    · exact ⟨h.tstamp, h.file⟩
    · exact h.tstamp
    · trivial

theorem rank_pos (p : Pd) : 1 ≤ rank p ∧ rank p ≤ 6 + p.cmdQueue.length := by
  unfold rank
  split
  · omega
  · split <;> omega
  · split <;> omega
  · split <;> omega

theorem rank_idle {p : Pd} (h : p.phyState = .idle) : rank p = match p.state with
    | .online => 5 + p.cmdQueue.length
    | .setScbk => 5
    | .offline => 3
    | _ => 2 := by
  unfold rank; rw [h]

theorem rank_send {p : Pd} (h : p.phyState = .sendCmd ∨ p.phyState = .wait) :
    rank p = if p.state = .online ∨ p.state = .setScbk then 4 else 1 := by
  unfold rank; rcases h with h | h <;> rw [h]

/-- the commands with which a connection is established are short and can always be built -/
theorem opening_body {C : Cipher} {p : Pd} {env : Env} {t : Phy.Tx} {n : Int} {b : Built}
    (hid : p.cmdId = Id.ID ∨ p.cmdId = Id.CAP ∨ ((p.cmdId = Id.CHLNG ∨ p.cmdId = Id.SCRYPT) ∧ t.scb ≠ [] ∧ t.misaligned = false))
    (h : commandBody C p env t n = .ok b) : ∃ l, b.body = some l ∧ l.length ≤ 17 := by
  unfold commandBody at h
  dsimp only at h
  rcases hid with hid | hid | ⟨hid | hid, h1, h2⟩
  · rw [hid, if_neg (by decide), if_pos (by decide)] at h
    obtain ⟨_, -, h⟩ := Res.bind_eq_ok.mp h
    injection h with h; subst h
    exact ⟨_, rfl, by simp⟩
  · rw [hid, if_neg (by decide), if_pos (by decide)] at h
    obtain ⟨_, -, h⟩ := Res.bind_eq_ok.mp h
    injection h with h; subst h
    exact ⟨_, rfl, by simp⟩
  · rw [hid] at h
    iterate 13 (rw [if_neg (by decide)] at h)
    rw [if_pos (by decide)] at h
    obtain ⟨_, -, h⟩ := Res.bind_eq_ok.mp h
    rw [if_neg (by simp [h1, h2])] at h
    split at h
    · cases h
    injection h with h; subst h
    exact ⟨_, rfl, by simp [p.sc.cpRandom.2]⟩
  · rw [hid] at h
    iterate 14 (rw [if_neg (by decide)] at h)
    rw [if_pos rfl] at h
    obtain ⟨_, -, h⟩ := Res.bind_eq_ok.mp h
    rw [if_neg (by simp [h1, h2])] at h
    split at h
    · cases h
    injection h with h; subst h
    refine ⟨_, rfl, ?_⟩
    rw [List.length_cons, (Sc.computeCpCryptogram C p.sc).cpCryptogram.2]
    exact Nat.le_refl _

/-- and are sent -/
theorem opening_sent {C : Cipher} {p q : Pd} {env : Env} {outs : List Out} {ok : Bool} (I : Inv p) (hps : p.phyState ≠ .idle)
    (h1 : p.state ≠ .online) (h2 : p.state ≠ .setScbk) (h69 : 69 ≤ p.txBufSize)
    (hm : (p.flags.hasMark && p.flags.skipMark) = false) (h : SendOutcome C p env q outs ok) : sent outs ≠ [] := by
  have ha : p.flags.scActive = false := by
    cases ha : p.flags.scActive with
    | false => rfl
    | true => rcases I.secure ha with h | h
              · exact absurd h h1
              · exact absurd h h2
  have hc := I.cmd hps
  have hid : (nextCmd p).cmdId = Id.ID ∨ (nextCmd p).cmdId = Id.CAP ∨
      (((nextCmd p).cmdId = Id.CHLNG ∨ (nextCmd p).cmdId = Id.SCRYPT) ∧ (cmdTx p).scb ≠ [] ∧ (cmdTx p).misaligned = false) := by
    have hscb : p.cmdId = Id.CHLNG ∨ p.cmdId = Id.SCRYPT → (cmdTx p).scb ≠ [] := by
      intro hid
      unfold cmdTx
      dsimp only
      rw [show p.scActive = false from ha, if_neg (by simp)]
      rcases hid with hid | hid <;> rw [hid, if_pos (by decide)] <;> simp
    cases hs : p.state <;> rw [hs] at hc h1 h2
    · exact .inl hc
    · exact .inr (.inl hc)
    · exact .inr (.inr ⟨.inl hc, hscb (.inl hc), hm⟩)
    · exact .inr (.inr ⟨.inr hc, hscb (.inr hc), hm⟩)
    all_goals first | exact absurd rfl h1 | exact absurd rfl h2 | exact hc.elim
  cases h with
  | mute h => omega
  | unbuilt b _ hb _ hn =>
    obtain ⟨l, hl, -⟩ := opening_body hid hb
    rw [hn] at hl; cases hl
  | built b l q o ok _ hb hcb hl _ _ hw _ =>
    rcases hw with ⟨-, -, hmis | hsm⟩ | ⟨wire, q', -, -, -, -, rfl, -⟩
    · rw [show (cmdTx p).misaligned = _ from hm] at hmis; cases hmis
    · obtain ⟨l', hl', hlen⟩ := opening_body hid hb
      rw [hl] at hl'; injection hl' with hl'; subst hl'
      rw [finalTx_scb hcb] at hsm
      have : (cmdTx p).scb.length ≤ 3 := by
        unfold cmdTx
        dsimp only
        split
        · simp
        · split <;> simp
      omega
    · rw [sent_append, sendOuts_sent]; simp

theorem Waited.ended {C : Cipher} {p q : Pd} {env : Env} {outs : List Out} {rc : CpErr} (h : Waited C p env q outs rc)
    (hrc : rc = .none ∨ rc = .generic) : q.phyState = .done ∨ q.phyState = .err := by
  cases h with
  | answered _ => exact .inl rfl
  | ignored _ _ _ => exact .inl rfl
  | failed _ _ => exact .inr rfl
  | exhausted _ _ _ => exact .inr rfl
  | _ => simp at hrc

/-- an exchange that is over leaves the CP with nothing going on -/
theorem over_idle {cb : Bool} {p q : Pd} {env : Env} {outs : List Out} (M : Mid p) (hps : p.phyState = .done ∨ p.phyState = .err)
    (h : settle cb p env = .ok (q, outs)) : q.phyState = .idle ∧ q.cmdQueue = p.cmdQueue ∧
      (p.phyState = .err → p.state = .online ∨ p.state = .setScbk → q.state = .offline ∨ q.state = .scChlng) := by
  cases settle_inv h with
  | command hi _ _ => rw [hi] at hps; simp at hps
  | nothing hi _ _ => rw [hi] at hps; simp at hps
  | @over p1 _ o1 o2 ok _ h1 h2 =>
    have h2' : advance cb (Phy.stateReset p1 false).1 env (Phy.stateReset p1 false).1.state (p.phyState == .done && ok) = .ok (q, o2) := h2
    obtain ⟨-, -, -, -, hcq, hst⟩ := stateCheckReply_keeps h1
    refine ⟨(advanced (over_pre M h1) h2').2, (advance_drift h2').2.1.trans hcq, fun he hs => ?_⟩
    have hf := advance_state h2'
    rw [he] at hf
    replace hf : q.state = finalState (Phy.stateReset p1 false).1 env.now false := hf
    have hst' : (Phy.stateReset p1 false).1.state = p.state := hst
    unfold finalState nextState at hf
    dsimp only at hf
    rcases hs with hs | hs
    · rw [hst', hs, if_pos (.inl rfl)] at hf
      dsimp only at hf
      split at hf
      · exact .inl hf
      · split at hf
        · exact .inr hf
        · exact .inl hf
    · have hu : (Phy.stateReset p1 false).1.flags.useScbkd = true := by
        have : p1 = p := by
          rcases (stateCheckReply_inv h1).2 with ⟨h, -⟩ | ⟨h, -⟩
          · exact h
          · rw [hs] at h; cases h
        subst this
        exact M.install hs
      rw [hst', hs] at hf
      dsimp only at hf
      rw [hu, Bool.or_true, if_pos rfl, if_neg (by simp)] at hf
      exact .inl hf

/-- a visit that sends nothing brings the CP nearer to sending something, or less than five minutes have gone by since the timer
that it is waiting for was set -/
theorem update_beat {C : Cipher} {cb : Bool} {p q : Pd} {env : Env} {outs : List Out} {y : Bool} {t0 : Int} (I : Inv p)
    (ht : Timers t0 p) (hok : p.phyState ≠ .replyWait → 69 ≤ p.txBufSize ∧ (p.flags.hasMark && p.flags.skipMark) = false)
    (hq : sent outs = []) (h : Update C cb p env q outs y) :
    rank q < rank p ∨ rank q = rank p ∧ ∀ t, Rel t p → env.now - t ≤ 300000 ∧ Rel t q := by
  cases h with
  | hold hps hw =>
    refine .inr ⟨rfl, fun t hr => ⟨?_, hr⟩⟩
    unfold Rel at hr; rw [hps] at hr
    have := ht.wait
    dsimp only at hr
    omega
  | sent _ h =>
    exfalso
    cases h with
    | built b l q o ok _ hb hcb hl _ _ hw _ =>
      rcases hw with ⟨-, h, -⟩ | ⟨wire, q', -, -, -, -, rfl, -⟩
      · cases h
      · rw [sent_append, sendOuts_sent] at hq; simp at hq
  | @unsent p1 _ o1 o2 hms h1 h2 =>
    rw [sent_append, List.append_eq_nil_iff] at hq
    have hps : p.phyState = .sendCmd ∨ p.phyState = .wait := hms.imp id (·.1)
    by_cases hs : p.state = .online ∨ p.state = .setScbk
    · left
      rw [rank_send hps, if_pos hs]
      obtain ⟨a, -, b⟩ := over_idle (unsent_mid I h1) (.inr rfl) h2
      have hst : p1.state = p.state := by have := h1.sent; unfold Sent at this; rw [this]
      rw [rank_idle a]
      rcases b rfl (by dsimp only; rw [hst]; exact hs) with h | h <;> rw [h] <;> dsimp only <;> omega
    · obtain ⟨h69, hm⟩ := hok (by rcases hps with h | h <;> simp [h])
      refine absurd hq.1 (opening_sent I ?_ (fun h => hs (.inl h)) (fun h => hs (.inr h)) h69 hm h1)
      rcases hps with h | h <;> simp [h]
  | @replied p1 _ o1 o2 rc hps hw hrc h2 =>
    left
    obtain ⟨a, b, -⟩ := over_idle (waited_mid I hps hw) (hw.ended hrc) h2
    rw [hw.same.2.2] at b
    rw [rank_idle a, b, show rank p = 6 + p.cmdQueue.length by unfold rank; rw [hps]]
    split <;> omega
  | again hps h =>
    left
    rw [show rank p = 6 + p.cmdQueue.length by unfold rank; rw [hps]]
    cases h with
    | busy h => rw [rank_send (.inr rfl)]; split <;> omega
    | retry h _ _ => rw [rank_send (.inr rfl)]; split <;> omega
  | waiting hps h =>
    right
    cases h with
    | waiting h hn =>
      obtain ⟨k1, k2, -, k4, -, k6, -⟩ := h.heard.keeps
      refine ⟨?_, fun t hr => ?_⟩
      · unfold rank; rw [k2, hps, k4]
      · unfold Rel at hr ⊢
        rw [k2, hps] at *
        dsimp only at hr ⊢
        rw [k6] at hn ⊢
        have : PdM.RESP_TOUT = 200 := rfl
        exact ⟨by omega, hr⟩
  | idle hps h =>
    have hi : p.phyState = .idle := by
      rcases I.phy with h | h | h | h <;> rw [h] at hps <;> simp at hps ⊢
      exact h
    cases settle_inv h with
    | @command p1 _ id _ h1 hid =>
      left
      obtain ⟨hc, hcmd, -, -⟩ := stateGetCmd_inv h1
      have hst : p1.state = p.state := by unfold Chosen at hc; rw [hc]
      rw [rank_send (.inl rfl), rank_idle hi]
      have hk := hcmd hid
      dsimp only
      rw [hst]
      cases hs : p.state <;> rw [hs] at hk <;> dsimp only
      all_goals first | exact hk.elim | (simp; done) | (simp; omega)
    | @nothing p1 _ o1 o2 _ h1 h2 =>
      have h2' : advance cb { p1 with cmdId := 0 } env ({ p1 with cmdId := 0 } : Pd).state true = .ok (q, o2) := h2
      have hqi := (advanced (nothing_pre I.mid hi h1) h2').2
      have hqq : q.cmdQueue = p1.cmdQueue := (advance_drift h2').2.1
      have hqf : q.file = p1.file := (advance_drift h2').2.2.2
      have hqs := advance_state h2'
      have hqt := (advance_timers h2').2
      unfold finalState nextState at hqs
      dsimp only at hqs hqt
      rw [rank_idle hqi, rank_idle hi]
      cases hs : p.state with
      | online =>
        have hc := (stateGetCmd_inv h1).1
        have hst : p1.state = .online := by unfold Chosen at hc; rw [hc]; exact hs
        rw [hst] at hqs hqt
        dsimp only at hqs
        rw [if_pos (.inl rfl)] at hqs
        have hout : q.state = .offline ∨ q.state = .scChlng ∨ q.state = .online := by
          split at hqs
          · exact .inl hqs
          · split at hqs
            · exact .inr (.inl hqs)
            · split at hqs
              · exact .inr (.inl hqs)
              · exact .inr (.inr hqs)
        rcases hout with ho | ho | ho
        · left; rw [ho]; dsimp only; omega
        · left; rw [ho]; dsimp only; omega
        · have hts : q.tstamp = p1.tstamp := by
            rcases hqt with h | ⟨-, -, h, -⟩
            · exact h.1
            · rw [ho] at h; cases h
          rw [ho]
          dsimp only
          unfold stateGetCmd at h1
          rw [hs] at h1
          dsimp only at h1
          unfold onlineCommand at h1
          split at h1
          · rename_i c rest hcq
            obtain ⟨⟨p2, n⟩, h3, h1⟩ := Res.bind_eq_ok.mp h1
            injection h1 with h1; injection h1 with e1 h1; injection h1 with e2 e3; subst e1 e2 e3
            obtain ⟨rfl, -⟩ := translate_inv h3
            left
            rw [hqq, hcq]
            dsimp only
            rw [List.length_cons]; omega
          · rename_i hcq
            right
            have hrel : ∀ {u : Int}, Rel u p → p.tstamp ≤ u ∧ FileTimed u p.file := by
              intro u hr
              unfold Rel at hr
              rw [hi, hs] at hr
              exact hr
            have hrq : ∀ {u : Int}, q.tstamp ≤ u → FileTimed u q.file → Rel u q := by
              intro u k1 k2
              unfold Rel
              rw [hqi, ho]
              exact ⟨k1, k2⟩
            cases hg : File.getCommand p.file env.now with
            | mk f x =>
            cases x with
            | mk o n =>
            rw [hg] at h1
            cases n with
            | send k =>
              injection h1 with h1; injection h1 with e1 h1; injection h1 with e2 e3
              rcases (getCommand_inv hg).2 k rfl with rfl | rfl | rfl <;> cases e3
            | hold =>
              injection h1 with h1; injection h1 with e1 h1; injection h1 with e2 e3; subst e1
              obtain ⟨rfl, hx⟩ := getCommand_waits hg (.inr rfl)
              obtain ⟨x, hx1, hx2⟩ := hx rfl
              refine ⟨by rw [hqq], fun u hr => ?_⟩
              obtain ⟨r1, r2⟩ := hrel hr
              have := r2 x hx1
              exact ⟨by omega, hrq (by rw [hts]; exact r1) (by rw [hqf]; exact r2)⟩
            | nothing =>
              obtain ⟨rfl, -⟩ := getCommand_waits hg (.inl rfl)
              dsimp only at h1
              split at h1
              · injection h1 with h1; injection h1 with e1 h1; injection h1 with e2 e3; cases e3
              · rename_i hp
                injection h1 with h1; injection h1 with e1 h1; injection h1 with e2 e3; subst e1
                refine ⟨by rw [hqq], fun u hr => ?_⟩
                obtain ⟨r1, r2⟩ := hrel hr
                have : POLL_TIMEOUT = 50 := rfl
                exact ⟨by omega, hrq (by rw [hts]; exact r1) (by rw [hqf]; exact r2)⟩
      | offline =>
        obtain ⟨rfl, -⟩ := (stateGetCmd_inv h1).2.2.2 (by rw [hs]; simp)
        rw [hs] at hqs hqt
        dsimp only at hqs
        by_cases hw : env.now - p1.tstamp > p1.waitMs
        · rw [if_pos hw, if_neg (by simp)] at hqs
          left; rw [hqs]; dsimp only; omega
        · rw [if_neg hw, if_neg (by simp)] at hqs
          right
          rw [hqs]
          refine ⟨rfl, fun u hr => ?_⟩
          unfold Rel at hr ⊢
          rw [hi, hs] at hr
          rw [hqi, hqs]
          dsimp only at hr ⊢
          have := ht.wait
          rcases hqt with ⟨h, -⟩ | ⟨-, -, -, h⟩
          · rw [h]; exact ⟨by omega, hr⟩
          · exact absurd rfl h
      | probe => exact absurd hs I.probe
      | _ =>
        unfold stateGetCmd at h1
        rw [hs] at h1
        injection h1 with h1; injection h1 with e1 h1; injection h1 with e2 e3
        cases e3
    | over hd _ _ => rw [hi] at hd; simp at hd

end Osdp.CpM
