import Verif.Model.Pd
import Verif.Lemmas.Phy

/-! # What the steps of a PD refresh can change -/

namespace Osdp.PdM

open Phy (setNak)

/-- replace the pending reply and its data -/
def setReply (p : Pd) (r : Nat) (e : Eph) : Pd := { p with replyId := r, eph := e }

/-- only the pending reply and its data differ -/
def Quiet (p q : Pd) : Prop := ∃ r e, q = setReply p r e

theorem Quiet.refl (p : Pd) : Quiet p p := ⟨p.replyId, p.eph, rfl⟩

theorem Quiet.trans {p q s : Pd} (h : Quiet p q) (h' : Quiet q s) : Quiet p s := by
  obtain ⟨r, e, rfl⟩ := h
  obtain ⟨r', e', rfl⟩ := h'
  exact ⟨r', e', rfl⟩

theorem setNak_quiet (p : Pd) (c : Byte) : Quiet p (setNak p c) := ⟨_, _, rfl⟩

theorem Quiet.cap {p q : Pd} (h : Quiet p q) : q.cap = p.cap := by obtain ⟨_, _, rfl⟩ := h; rfl
theorem Quiet.cmdId {p q : Pd} (h : Quiet p q) : q.cmdId = p.cmdId := by obtain ⟨_, _, rfl⟩ := h; rfl
theorem Quiet.flags {p q : Pd} (h : Quiet p q) : q.flags = p.flags := by obtain ⟨_, _, rfl⟩ := h; rfl

theorem callback_quiet {p q : Pd} {env : Env} {i : Nat} {c : Cmd} {outs : List Out} {x : Option Cmd}
    (h : callback p env i c = .ok (q, outs, x)) :
    Quiet p q ∧ outs = [.cmd c] ∧ ∃ cb, env.cb = some cb ∧
      ((x = none ∧ (cb i c).1 ≠ 0 ∧ q = setNak p Nak.RECORD) ∨
       (x = some (cb i c).2 ∧ (cb i c).1 = 0 ∧ q = p)) := by
  unfold callback at h
  cases hcb : env.cb with
  | none => rw [hcb] at h; simp at h
  | some cb =>
    rw [hcb] at h
    dsimp only at h
    by_cases hr : (cb i c).1 ≠ 0
    · rw [if_pos hr] at h
      injection h with h; injection h with h1 h2; injection h2 with h2 h3
      subst h1 h2 h3
      exact ⟨setNak_quiet _ _, rfl, cb, rfl, .inl ⟨rfl, hr, rfl⟩⟩
    · rw [if_neg hr] at h
      injection h with h; injection h with h1 h2; injection h2 with h2 h3
      subst h1 h2 h3
      exact ⟨Quiet.refl _, rfl, cb, rfl, .inr ⟨rfl, by simpa using hr, rfl⟩⟩

theorem capOk_quiet {p q : Pd} {c : Option Cmd} {b : Bool} (h : capOk p c = (q, b)) :
    Quiet p q ∧ b = capAllows p.cap p.cmdId c ∧ (b = true → q = p) ∧
    (b = false → ∃ code, q = setNak p code) := by
  unfold capOk at h
  split at h
  · rename_i hc
    injection h with h1 h2; subst h1 h2
    exact ⟨Quiet.refl _, by simp [hc], fun _ => rfl, fun h => by cases h⟩
  · rename_i hc
    split at h <;>
    · injection h with h1 h2; subst h1 h2
      exact ⟨setNak_quiet _ _, by simp [hc], (fun h => by cases h), (fun _ => ⟨_, rfl⟩)⟩

theorem reply_inv {p q : Pd} {r : Nat} {o outs : List Out} {ret : PdRet}
    (h : reply p r o = .ok (q, outs, ret)) : q = setReply p r p.eph ∧ outs = o ∧ ret = .none := by
  unfold reply at h
  injection h with h; injection h with h1 h2; injection h2 with h2 h3
  subst h1 h2 h3
  exact ⟨rfl, rfl, rfl⟩

theorem badLen_inv {p q : Pd} {o outs : List Out} {ret : PdRet}
    (h : badLen p o = .ok (q, outs, ret)) : q = setNak p Nak.CMD_LEN ∧ outs = o ∧ ret = .reply := by
  unfold badLen at h
  injection h with h; injection h with h1 h2; injection h2 with h2 h3
  subst h1 h2 h3
  exact ⟨rfl, rfl, rfl⟩

theorem reply_quiet {p q : Pd} {r : Nat} {o outs : List Out} {ret : PdRet}
    (h : reply p r o = .ok (q, outs, ret)) : Quiet p q := (reply_inv h).1 ▸ ⟨_, _, rfl⟩

theorem badLen_quiet {p q : Pd} {o outs : List Out} {ret : PdRet}
    (h : badLen p o = .ok (q, outs, ret)) : Quiet p q := (badLen_inv h).1 ▸ setNak_quiet _ _

/-- a refused command: NAK, no success -/
def Refused (q : Pd) (ret : PdRet) : Prop := ret = .reply ∧ q.replyId = Id.NAK ∧ ∃ c, q.eph = .nak c

/-- What the command functions guarantee that only prepare a reply: nothing but the pending reply
changes, the effects are callback calls allowed by the capability table, and a failure is a NAK. -/
structure Plain (p : Pd) (allowed : Cmd → Prop) (q : Pd) (outs : List Out) (ret : PdRet) : Prop where
  quiet : Quiet p q
  outs : ∀ o ∈ outs, ∃ c, o = .cmd c ∧ allowed c
  ret : ret = .none ∨ Refused q ret

theorem setNak_eph {p : Pd} (hp : p.flags.pdMode = true) (c : Byte) : (setNak p c).eph = .nak c := by
  unfold setNak; simp [hp]

theorem setNak_refused {p : Pd} (hp : p.flags.pdMode = true) (c : Byte) : Refused (setNak p c) .reply :=
  ⟨rfl, rfl, c, setNak_eph hp c⟩

theorem plain_badLen {p q : Pd} {al : Cmd → Prop} {o outs : List Out} {ret : PdRet} (hp : p.flags.pdMode = true)
    (ho : ∀ x ∈ o, ∃ c, x = .cmd c ∧ al c)
    (h : badLen p o = .ok (q, outs, ret)) : Plain p al q outs ret := by
  obtain ⟨rfl, rfl, rfl⟩ := badLen_inv h
  exact ⟨setNak_quiet _ _, ho, .inr (setNak_refused hp _)⟩

theorem statusCmd_plain {p q : Pd} {env : Env} {ty : StatusType} {r : Nat} {outs : List Out} {ret : PdRet}
    (hp : p.flags.pdMode = true)
    (h : statusCmd p env ty r = .ok (q, outs, ret)) : Plain p (fun c => c = .status ⟨ty, 0, 0⟩) q outs ret := by
  unfold statusCmd at h
  obtain ⟨⟨p1, o1, x⟩, h1, h2⟩ := Res.bind_eq_ok.mp h
  clear h
  obtain ⟨hq, rfl, cb, hcb, hx⟩ := callback_quiet h1
  cases x with
  | none =>
    have hp1 : p1.flags.pdMode = true := by rw [hq.flags]; exact hp
    have := plain_badLen (al := fun c => c = .status ⟨ty, 0, 0⟩) hp1 (by simp) h2
    exact ⟨hq.trans this.quiet, this.outs, this.ret⟩
  | some y =>
    cases y <;> first | (simp at h2; done) | skip
    obtain ⟨rfl, rfl, rfl⟩ := reply_inv h2
    exact ⟨hq.trans ⟨_, _, rfl⟩, by simp, .inl rfl⟩

theorem records_spec {dec : List Byte → Option Cmd} {k : Nat} {env : Env} :
    ∀ (n i : Nat) (p : Pd) (body : List Byte) (q : Pd) (outs : List Out),
    records dec k env n i p body = .ok (q, outs) →
    Quiet p q ∧ ∀ o ∈ outs, ∃ c bs, o = .cmd c ∧ dec bs = some c ∧ capAllows p.cap p.cmdId (some c) = true
  | 0, i, p, body, q, outs, h => by
    injection h with h; injection h with h1 h2; subst h1 h2
    exact ⟨Quiet.refl _, by simp⟩
  | n + 1, i, p, body, q, outs, h => by
    unfold records at h
    split at h
    · cases h
    · rename_i c hc
      split at h
      · rename_i p1 hcap
        injection h with h; injection h with h1 h2; subst h1 h2
        exact ⟨(capOk_quiet hcap).1, by simp⟩
      · rename_i p1 hcap
        obtain ⟨-, hal, he, -⟩ := capOk_quiet hcap
        have he := he rfl; subst he
        obtain ⟨⟨p2, o2, x⟩, h2, h⟩ := Res.bind_eq_ok.mp h
        obtain ⟨hq2, rfl, -, -, -⟩ := callback_quiet h2
        dsimp only at h
        split at h
        · rename_i heq
          injection heq with e1 e2; injection e2 with e2 e3; subst e1 e2 e3
          injection h with h; injection h with h1 h2; subst h1 h2
          refine ⟨hq2, fun o ho => ?_⟩
          simp only [List.mem_singleton] at ho
          subst ho
          exact ⟨c, _, rfl, hc, hal.symm⟩
        · rename_i heq
          injection heq with e1 e2; injection e2 with e2 e3; subst e1 e2 e3
          obtain ⟨⟨p3, o3⟩, h3, h⟩ := Res.bind_eq_ok.mp h
          injection h with h; injection h with h1 h2; subst h1 h2
          obtain ⟨i1, i2⟩ := records_spec n (i + 1) _ _ _ _ h3
          refine ⟨hq2.trans i1, fun o ho => ?_⟩
          rcases List.mem_append.mp ho with ho | ho
          · simp only [List.mem_singleton] at ho
            subst ho
            exact ⟨c, _, rfl, hc, hal.symm⟩
          · obtain ⟨c', bs, a1, a2, a3⟩ := i2 o ho
            refine ⟨c', bs, a1, a2, ?_⟩
            rw [← hq2.cap, ← hq2.cmdId]; exact a3

theorem recordsCmd_plain {p q : Pd} {env : Env} {dec : List Byte → Option Cmd} {k : Nat} {body : List Byte}
    {outs : List Out} {ret : PdRet} (hp : p.flags.pdMode = true)
    (h : recordsCmd p env dec k body = .ok (q, outs, ret)) :
    Plain p (fun c => (∃ bs, dec bs = some c) ∧ capAllows p.cap p.cmdId (some c) = true) q outs ret := by
  unfold recordsCmd at h
  split at h
  · exact plain_badLen hp (by simp) h
  · obtain ⟨⟨p1, o1⟩, h1, h⟩ := Res.bind_eq_ok.mp h
    obtain ⟨hq, ho⟩ := records_spec _ _ _ _ _ _ h1
    obtain ⟨rfl, rfl, rfl⟩ := reply_inv h
    refine ⟨hq.trans ⟨_, _, rfl⟩, fun o hm => ?_, .inl rfl⟩
    obtain ⟨c, bs, a1, a2, a3⟩ := ho o hm
    exact ⟨c, a1, ⟨bs, a2⟩, a3⟩

/-- close the branch in which the capability check refused -/
theorem plain_capOk {p q : Pd} {c : Option Cmd} {al : Cmd → Prop} (hp : p.flags.pdMode = true)
    (h : capOk p c = (q, false)) : Plain p al q [] .reply := by
  obtain ⟨hq, -, -, hf⟩ := capOk_quiet h
  obtain ⟨code, rfl⟩ := hf rfl
  exact ⟨hq, by simp, .inr (setNak_refused hp _)⟩

/-- close the branch in which the callback refused -/
theorem plain_callback {p q : Pd} {env : Env} {i : Nat} {c : Cmd} {al : Cmd → Prop} {o : List Out}
    (hp : p.flags.pdMode = true) (hal : al c)
    (h : callback p env i c = .ok (q, o, none)) : Plain p al q o .reply := by
  obtain ⟨hq, rfl, cb, hcb, hx⟩ := callback_quiet h
  rcases hx with ⟨-, hne, rfl⟩ | ⟨hx, -⟩
  · exact ⟨hq, by simpa using hal, .inr (setNak_refused hp _)⟩
  · cases hx

theorem textCmd_plain {p q : Pd} {env : Env} {body : List Byte} {outs : List Out} {ret : PdRet}
    (hp : p.flags.pdMode = true) (h : textCmd p env body = .ok (q, outs, ret)) :
    Plain p (fun c => (∃ t, c = .text t) ∧ capAllows p.cap p.cmdId (some c) = true) q outs ret := by
  unfold textCmd at h
  split at h
  · exact plain_badLen hp (by simp) h
  · split at h
    · split at h
      · exact plain_badLen hp (by simp) h
      · dsimp only at h
        split at h
        · rename_i hcap
          injection h with h; injection h with h1 h2; injection h2 with h2 h3; subst h1 h2 h3
          exact plain_capOk hp hcap
        · rename_i hcap
          obtain ⟨-, hal, he, -⟩ := capOk_quiet hcap
          have he := he rfl; subst he
          obtain ⟨⟨p2, o2, x⟩, h2, h⟩ := Res.bind_eq_ok.mp h
          cases x with
          | none =>
            injection h with h; injection h with h1 h3; injection h3 with h3 h4; subst h1 h3 h4
            exact plain_callback hp ⟨⟨_, rfl⟩, hal.symm⟩ h2
          | some y =>
            obtain ⟨hq2, rfl, -⟩ := callback_quiet h2
            obtain ⟨rfl, rfl, rfl⟩ := reply_inv h
            exact ⟨hq2.trans ⟨_, _, rfl⟩, by simpa using hal.symm, .inl rfl⟩
    · exact plain_badLen hp (by simp) h

theorem comsetCmd_plain {p q : Pd} {env : Env} {body : List Byte} {outs : List Out} {ret : PdRet}
    (hp : p.flags.pdMode = true) (h : comsetCmd p env body = .ok (q, outs, ret)) :
    Plain p (fun c => ∃ t : CmdComset, c = .comset t ∧ t.address.toNat < 0x7F ∧ validBaud t.baudRate.toNat = true)
      q outs ret := by
  unfold comsetCmd at h
  split at h
  · exact plain_badLen hp (by simp) h
  · split at h
    · rename_i a b0 b1 b2 b3
      dsimp only at h
      split at h
      · exact plain_badLen hp (by simp) h
      · rename_i hc
        have hal : ∃ t : CmdComset, Cmd.comset ⟨a, BitVec.ofNat 32 (ofLe [b0, b1, b2, b3])⟩ = .comset t ∧
            t.address.toNat < 0x7F ∧ validBaud t.baudRate.toNat = true := by
          refine ⟨_, rfl, ?_⟩
          simp only [not_or, Nat.not_le, Decidable.not_not] at hc
          refine ⟨hc.1, ?_⟩
          have hb := hc.2
          have : ofLe [b0, b1, b2, b3] < 2 ^ 32 := by
            have h0 := b0.isLt; have h1 := b1.isLt; have h2 := b2.isLt; have h3 := b3.isLt
            simp only [ofLe]; omega
          rw [BitVec.toNat_ofNat, Nat.mod_eq_of_lt this]
          exact hb
        obtain ⟨⟨p2, o2, x⟩, h2, h⟩ := Res.bind_eq_ok.mp h
        cases x with
        | none =>
          injection h with h; injection h with h1 h3; injection h3 with h3 h4; subst h1 h3 h4
          exact plain_callback hp hal h2
        | some y =>
          obtain ⟨hq2, rfl, -⟩ := callback_quiet h2
          cases y <;> first | (simp at h; done) | skip
          obtain ⟨rfl, rfl, rfl⟩ := reply_inv h
          exact ⟨hq2.trans ⟨_, _, rfl⟩, by simpa using hal, .inl rfl⟩
    · exact plain_badLen hp (by simp) h

theorem mfgCmd_plain {p q : Pd} {env : Env} {body : List Byte} {outs : List Out} {ret : PdRet}
    (hp : p.flags.pdMode = true) (h : mfgCmd p env body = .ok (q, outs, ret)) :
    Plain p (fun c => ∃ t, c = .mfg t) q outs ret := by
  unfold mfgCmd at h
  split at h
  · exact plain_badLen hp (by simp) h
  · split at h
    · dsimp only at h
      split at h
      · exact plain_badLen hp (by simp) h
      · obtain ⟨⟨p2, o2, x⟩, h2, h⟩ := Res.bind_eq_ok.mp h
        cases x with
        | none =>
          injection h with h; injection h with h1 h3; injection h3 with h3 h4; subst h1 h3 h4
          exact plain_callback hp ⟨_, rfl⟩ h2
        | some y =>
          obtain ⟨hq2, rfl, -⟩ := callback_quiet h2
          obtain ⟨rfl, rfl, rfl⟩ := reply_inv h
          exact ⟨hq2.trans ⟨_, _, rfl⟩, by simp, .inl rfl⟩
    · exact plain_badLen hp (by simp) h

theorem keysetCmd_plain {p q : Pd} {env : Env} {body : List Byte} {outs : List Out} {ret : PdRet}
    (hp : p.flags.pdMode = true) (h : keysetCmd p env body = .ok (q, outs, ret)) :
    Plain p (fun c => (∃ k, c = .keyset k) ∧ capAllows p.cap p.cmdId none = true ∧ p.scActive = true) q outs ret := by
  unfold keysetCmd at h
  split at h
  · exact plain_badLen hp (by simp) h
  · dsimp only at h
    split at h
    · exact plain_badLen hp (by simp) h
    · split at h
      · rename_i hcap
        injection h with h; injection h with h1 h2; injection h2 with h2 h3; subst h1 h2 h3
        have := plain_capOk (al := fun _ => False) (by exact hp) hcap
        exact ⟨(setNak_quiet _ _).trans this.quiet, by simp, this.ret⟩
      · rename_i hcap
        obtain ⟨-, hal, he, -⟩ := capOk_quiet hcap
        have he := he rfl; subst he
        have hal : capAllows p.cap p.cmdId none = true := hal.symm
        split at h
        · injection h with h; injection h with h1 h2; injection h2 with h2 h3; subst h1 h2 h3
          exact ⟨setNak_quiet _ _, by simp, .inr (setNak_refused hp _)⟩
        · rename_i hsc
          have hsc : p.scActive = true := by
            simpa [Phy.setNak] using hsc
          split at h
          · injection h with h; injection h with h1 h2; injection h2 with h2 h3; subst h1 h2 h3
            exact ⟨setNak_quiet _ _, by simp, .inr (setNak_refused hp _)⟩
          · obtain ⟨⟨p2, o2, x⟩, h2, h⟩ := Res.bind_eq_ok.mp h
            cases x with
            | none =>
              injection h with h; injection h with h1 h3; injection h3 with h3 h4; subst h1 h3 h4
              have := plain_callback (al := fun c => (∃ k, c = .keyset k) ∧ capAllows p.cap p.cmdId none = true ∧
                p.scActive = true) (by exact hp) ⟨⟨_, rfl⟩, hal, hsc⟩ h2
              exact ⟨(setNak_quiet _ _).trans this.quiet, this.outs, this.ret⟩
            | some y =>
              obtain ⟨hq2, rfl, -⟩ := callback_quiet h2
              cases y <;> first | (simp at h; done) | skip
              obtain ⟨rfl, rfl, rfl⟩ := reply_inv h
              refine ⟨((setNak_quiet _ _).trans hq2).trans ⟨_, _, rfl⟩, ?_, .inl rfl⟩
              simpa using ⟨hal, hsc⟩

end Osdp.PdM
