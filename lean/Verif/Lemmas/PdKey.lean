import Verif.Lemmas.PdEffect
import Verif.Lemmas.Sc
import Verif.Props.C33
import Verif.Spec.Session

/-! # Histories, KEYSET and session keys of a PD -/

namespace Osdp.PdM

open Phy (setNak)

theorem run_snoc {C : Cipher} {p q s : Pd} {ops : List Op} {op : Op} {o o' : List Out} (h : run C p ops = .ok (q, o))
    (hs : step C q op = .ok (s, o')) : run C p (ops ++ [op]) = .ok (s, o ++ o') := by
  induction ops generalizing p o with
  | nil =>
    injection h with h; injection h with e1 e2; subst e1 e2
    show run C p [op] = _
    unfold run
    rw [hs]
    simp only [Res.ok_bind, run]
    show Except.ok (s, o' ++ []) = _
    rw [List.append_nil, List.nil_append]
  | cons a l ih =>
    obtain ⟨⟨p1, o1⟩, h2, h⟩ := Res.bind_eq_ok.mp h
    obtain ⟨⟨p2, o2⟩, h3, h⟩ := Res.bind_eq_ok.mp h
    injection h with h; injection h with e1 e2; subst e1 e2
    rw [List.cons_append]
    unfold run
    rw [h2]
    simp only [Res.ok_bind]
    rw [ih h3]
    show Except.ok _ = Except.ok _
    rw [List.append_assoc]

/-- Induction over a history, the last call first. -/
theorem run_ind {C : Cipher} {p : Pd} (I : List Op → Pd → List Out → Prop) (h0 : I [] p [])
    (hstep : ∀ ops op q o s o', run C p ops = .ok (q, o) → I ops q o → step C q op = .ok (s, o') → I (ops ++ [op]) s (o ++ o'))
    {ops : List Op} {q : Pd} {o : List Out} (h : run C p ops = .ok (q, o)) : I ops q o := by
  have key : ∀ (l pre : List Op) (r : Pd) (o1 : List Out), run C p pre = .ok (r, o1) → I pre r o1 →
      ∀ q o2, run C r l = .ok (q, o2) → I (pre ++ l) q (o1 ++ o2) := by
    intro l
    induction l with
    | nil =>
      intro pre r o1 hr hI q o2 h
      injection h with h; injection h with e1 e2; subst e1 e2
      rw [List.append_nil, List.append_nil]; exact hI
    | cons a l ih =>
      intro pre r o1 hr hI q o2 h
      obtain ⟨⟨p1, x1⟩, h2, h⟩ := Res.bind_eq_ok.mp h
      obtain ⟨⟨p2, x2⟩, h3, h⟩ := Res.bind_eq_ok.mp h
      injection h with h; injection h with e1 e2; subst e1 e2
      have hr' := run_snoc hr h2
      have := ih (pre ++ [a]) p1 (o1 ++ x1) hr' (hstep pre a r o1 p1 x1 hr hI h2) p2 x2 h3
      rw [List.append_assoc, List.append_assoc] at this
      exact this
  exact key ops [] p [] rfl h0 q o h

theorem setNak_fields (p : Pd) (c : Byte) : (setNak p c).replyId = Id.NAK ∧ (setNak p c).cmdId = p.cmdId ∧
    (setNak p c).scActive = p.scActive := ⟨rfl, rfl, rfl⟩

theorem callback_inv {p q : Pd} {env : Env} {i : Nat} {c : Cmd} {outs : List Out} {r : Option Cmd}
    (h : callback p env i c = .ok (q, outs, r)) :
    ∃ cb, env.cb = some cb ∧ outs = [.cmd c] ∧
      ((r = none ∧ q = setNak p Nak.RECORD ∧ (cb i c).1 ≠ 0) ∨ (∃ c', r = some c' ∧ cb i c = (0, c') ∧ q = p)) := by
  unfold callback at h
  cases hcb : env.cb with
  | none => rw [hcb] at h; cases h
  | some cb =>
    rw [hcb] at h
    dsimp only at h
    refine ⟨cb, rfl, ?_⟩
    split at h
    · injection h with h; injection h with h1 h; injection h with h2 h3; subst h1 h2 h3
      rename_i hn
      exact ⟨rfl, .inl ⟨rfl, rfl, hn⟩⟩
    · rename_i hn
      injection h with h; injection h with h1 h; injection h with h2 h3; subst h1 h2 h3
      refine ⟨rfl, .inr ⟨(cb i c).2, rfl, ?_, rfl⟩⟩
      have : (cb i c).1 = 0 := by simpa using hn
      rw [← this]

/-- Everything that can come of a KEYSET. -/
theorem keyset_inv {p q : Pd} {env : Env} {body : List Byte} {outs : List Out} {ret : PdRet} (hp : p.flags.pdMode = true)
    (hid : p.cmdId = Id.KEYSET) (h : dispatch p env body = .ok (q, outs, ret)) :
    (q.replyId = Id.NAK ∧ ret = .reply ∧ (outs = [] ∨ ∃ cb c, env.cb = some cb ∧ outs = [.cmd c] ∧ (cb 0 c).1 ≠ 0)) ∨
    ∃ cb k, env.cb = some cb ∧ p.scActive = true ∧ body.length = 18 ∧ body.take 2 = [1#8, 16#8] ∧
      outs = [.cmd (.keyset ⟨1#8, 16#8, .padTo 32 (body.drop 2)⟩)] ∧
      cb 0 (.keyset ⟨1#8, 16#8, .padTo 32 (body.drop 2)⟩) = (0, .keyset k) ∧ ret = .none ∧
      q.replyId = Id.ACK ∧ q.eph = .key ⟨k.data.1.take 16, by simp [k.data.2]⟩ := by
  have hd : dispatch p env body = keysetCmd p env body := by
    unfold dispatch
    rw [hid]
    rfl
  rw [hd] at h
  unfold keysetCmd at h
  split at h
  · obtain ⟨rfl, rfl, rfl⟩ := badLen_inv h; exact .inl ⟨rfl, rfl, .inl rfl⟩
  rename_i hlen
  have hlen : body.length = 18 := by omega
  dsimp only at h
  split at h
  · obtain ⟨rfl, rfl, rfl⟩ := badLen_inv h; exact .inl ⟨rfl, rfl, .inl rfl⟩
  rename_i ht
  have ht1 : body[0]'(by omega) = 1#8 := by simpa using fun hn => ht (.inl hn)
  have ht2 : body[1]'(by omega) = 16#8 := by simpa using fun hn => ht (.inr hn)
  have htake : body.take 2 = [1#8, 16#8] := by
    rw [← ht1, ← ht2]
    apply List.ext_getElem
    · simp; omega
    · intro i h1 h2
      simp at h2
      rcases i with _ | _ | i
      · simp
      · simp
      · omega
  rw [ht1, ht2] at h
  cases hc : capOk (setNak p Nak.SC_COND) none with
  | mk p1 b =>
    rw [hc] at h
    cases b with
    | false =>
      injection h with h; injection h with h1 h; injection h with h2 h3; subst h1 h2 h3
      refine .inl ⟨?_, rfl, .inl rfl⟩
      unfold capOk at hc
      split at hc
      · injection hc with _ hc; cases hc
      · split at hc <;> (injection hc with hc; subst hc; rfl)
    | true =>
      have e1 : p1 = setNak p Nak.SC_COND := by
        unfold capOk at hc
        split at hc
        · injection hc with hc; exact hc.symm
        · split at hc <;> (injection hc with _ hc; cases hc)
      subst e1
      dsimp only at h
      split at h
      · injection h with h; injection h with h1 h; injection h with h2 h3; subst h1 h2 h3
        exact .inl ⟨rfl, rfl, .inl rfl⟩
      rename_i hact
      split at h
      · injection h with h; injection h with h1 h; injection h with h2 h3; subst h1 h2 h3
        exact .inl ⟨rfl, rfl, .inl rfl⟩
      obtain ⟨⟨p2, o2, r2⟩, h1, h⟩ := Res.bind_eq_ok.mp h
      obtain ⟨cb, hcb, ho, hr⟩ := callback_inv h1
      rcases hr with ⟨rfl, rfl, hne⟩ | ⟨c', rfl, hcall, rfl⟩
      · injection h with h; injection h with h1 h; injection h with h2 h3; subst h1 h2 h3
        exact .inl ⟨rfl, rfl, .inr ⟨cb, _, hcb, ho, hne⟩⟩
      · cases c' with
        | keyset k =>
          obtain ⟨rfl, rfl, rfl⟩ := reply_inv h
          exact .inr ⟨cb, k, hcb, (show (setNak p Nak.SC_COND).scActive = true by simpa using hact), hlen, htake, ho, hcall, rfl, rfl, rfl⟩
        | _ => cases h

/-- a command handed to the application by the command switch is allowed, or a file transfer -/
theorem outcome_cmd {p q : Pd} {env : Env} {bd : List Byte} {o : List Out} {r : PdRet} {c : Cmd} (h : Outcome p env bd q o r)
    (hc : Out.cmd c ∈ o) : Legit p c ∨ (p.cmdId = Id.FILETRANSFER ∧ ∃ x, c = .fileTx x) := by
  cases h with
  | plain hpl _ =>
    obtain ⟨c', hcc, hl⟩ := hpl.outs _ hc
    injection hcc with hcc; subst hcc
    exact .inl hl
  | abort _ _ =>
    unfold File.abort at hc
    split at hc <;> (try split at hc) <;> simp at hc
  | file hid hf => exact .inr ⟨hid, txDecode_cmd hf hc⟩
  | _ => simp at hc

/-- a refresh that hands a command to the application received that command in this refresh -/
theorem refresh_cmd {C : Cipher} {p s : Pd} {env : Env} {outs : List Out} {c : Cmd} (hp : p.flags.pdMode = true)
    (h : refresh C p env = .ok (s, outs)) (hc : Out.cmd c ∈ outs) :
    ∃ p1 p2 q d id body o1 o2 ret, outs = o1 ++ o2 ∧ Out.cmd c ∈ o1 ∧
      Phy.checkPacket (expire p env.now) env = .ok (p1, .none) ∧ Phy.Checked (expire p env.now) p1 .none ∧
      Phy.decodePacket C p1 = .ok (p2, d) ∧ Phy.DecodedTo p1 p2 d ∧ 0 < d.len ∧ d.data[0]? = some id ∧
      plainRefused (noteCmd p2 id) = false ∧ dispatch (noteCmd p2 id) env body = .ok (q, o1, ret) ∧
      Outcome (noteCmd p2 id) env body q o1 ret ∧ Finished C q env ret s o2 ∧
      body = (d.data.take d.len.toNat).drop 1 ∧ p2.flags.pdMode = true := by
  obtain ⟨q, o1, ret, o2, hg, hp1, hf, rfl⟩ := refresh_inv hp h
  rw [List.mem_append] at hc
  rcases hc with hc | hc
  · cases hg with
    | command h1 h2 h3 h4 h5 h6 h7 h8 h9 h10 h11 =>
      refine ⟨_, _, q, _, _, _, o1, o2, ret, rfl, hc, h1, h2, h3, h4, h5, h6, h9, h10, h11, hf, h8, ?_⟩
      rw [h4.transp.pdMode, h2.transp.pdMode]
      exact (congrArg Config.pdMode (config_expire p env.now)).trans hp
    | _ => simp at hc
  · rcases finished_outs hf _ hc with h | h | ⟨bs, h⟩ <;> cases h

end Osdp.PdM
