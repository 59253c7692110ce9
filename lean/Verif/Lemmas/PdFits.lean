import Verif.Lemmas.PdStream

/-! # Replies are short, so they are sent -/

namespace Osdp.PdM

open Spec.Wire

theorem capEntries_length (cap : Fin 17 → Cap) (l : List (Fin 17)) (room : Int) :
    (capEntries cap l room).length ≤ 3 * l.length := by
  induction l generalizing room with
  | nil => simp [capEntries]
  | cons i l ih =>
    unfold capEntries
    split
    · have := ih room; simp; omega
    split
    · simp
    · have := ih (room - 3); simp; omega

theorem copyOut_length {src d : List Byte} {n : Int} (h : copyOut src n = .ok d) : d.length ≤ src.length := by
  unfold copyOut at h
  split at h
  · injection h with h; subst h; simp; omega
  · cases h

/-- no reply carries more than 133 bytes -/
theorem replyBody_length {C : Cipher} {p : Pd} {env : Env} {t : Phy.Tx} {room : Int} {b : Built}
    (h : replyBody C p env t room = .ok b) : (bodyOr b.body).length ≤ 133 := by
  unfold replyBody at h
  dsimp only at h
  replace h := ite_inv h
  rcases h with ⟨hid, h⟩ | ⟨-, h⟩
  · obtain ⟨_, -, h⟩ := Res.bind_eq_ok.mp h
    injection h with h; subst h
    simp [bodyOr]
  replace h := ite_inv h
  rcases h with ⟨hid, h⟩ | ⟨-, h⟩
  · obtain ⟨_, -, h⟩ := Res.bind_eq_ok.mp h
    injection h with h; subst h
    simp [bodyOr, pdidBody]
  replace h := ite_inv h
  rcases h with ⟨hid, h⟩ | ⟨-, h⟩
  · obtain ⟨_, -, h⟩ := Res.bind_eq_ok.mp h
    injection h with h; subst h
    have := capEntries_length p.cap capIdx room
    have : capIdx.length = 16 := rfl
    simp [bodyOr]; omega
  have hst : ∀ cap, statusReply p t cap room = .ok b → (bodyOr b.body).length ≤ 133 := by
    intro cap h
    unfold statusReply at h
    split at h
    · dsimp only at h
      split at h
      · injection h with h; subst h
        simp [bodyOr]
      · obtain ⟨_, -, h⟩ := Res.bind_eq_ok.mp h
        split at h
        · cases h
        · injection h with h; subst h
          simp [bodyOr]; omega
    · cases h
  replace h := ite_inv h
  rcases h with ⟨hid, h⟩ | ⟨-, h⟩
  · exact hst _ h
  replace h := ite_inv h
  rcases h with ⟨hid, h⟩ | ⟨-, h⟩
  · exact hst _ h
  replace h := ite_inv h
  rcases h with ⟨hid, h⟩ | ⟨-, h⟩
  · obtain ⟨_, -, h⟩ := Res.bind_eq_ok.mp h
    split at h
    · injection h with h; subst h
      simp [bodyOr]
    · cases h
  replace h := ite_inv h
  rcases h with ⟨hid, h⟩ | ⟨-, h⟩
  · obtain ⟨_, -, h⟩ := Res.bind_eq_ok.mp h
    split at h
    · injection h with h; subst h
      simp [bodyOr]
    · cases h
  replace h := ite_inv h
  rcases h with ⟨hid, h⟩ | ⟨-, h⟩
  · split at h
    · rename_i k _
      obtain ⟨_, -, h⟩ := Res.bind_eq_ok.mp h
      obtain ⟨d, hd, h⟩ := Res.bind_eq_ok.mp h
      injection h with h; subst h
      have := copyOut_length hd
      rw [k.data.2] at this
      simp [bodyOr]; omega
    · cases h
  replace h := ite_inv h
  rcases h with ⟨hid, h⟩ | ⟨-, h⟩
  · split at h
    · rename_i c _
      obtain ⟨_, -, h⟩ := Res.bind_eq_ok.mp h
      obtain ⟨d, hd, h⟩ := Res.bind_eq_ok.mp h
      injection h with h; subst h
      have := copyOut_length hd
      rw [c.data.2] at this
      simp [bodyOr, le16]; omega
    · cases h
  replace h := ite_inv h
  rcases h with ⟨hid, h⟩ | ⟨-, h⟩
  · obtain ⟨_, -, h⟩ := Res.bind_eq_ok.mp h
    split at h
    · injection h with h; subst h
      simp [bodyOr, le32]
    · cases h
  replace h := ite_inv h
  rcases h with ⟨hid, h⟩ | ⟨-, h⟩
  · obtain ⟨_, -, h⟩ := Res.bind_eq_ok.mp h
    split at h
    · injection h with h; subst h
      simp [bodyOr]
    · cases h
  replace h := ite_inv h
  rcases h with ⟨hid, h⟩ | ⟨-, h⟩
  · split at h
    · rename_i m _
      obtain ⟨_, -, h⟩ := Res.bind_eq_ok.mp h
      obtain ⟨d, hd, h⟩ := Res.bind_eq_ok.mp h
      injection h with h; subst h
      have := copyOut_length hd
      rw [m.data.2] at this
      simp [bodyOr]; omega
    · cases h
  replace h := ite_inv h
  rcases h with ⟨hid, h⟩ | ⟨-, h⟩
  · obtain ⟨⟨f, outs, r⟩, hs, h⟩ := Res.bind_eq_ok.mp h
    cases r with
    | none =>
      injection h with h; subst h
      simp [bodyOr]
    | some bs =>
      injection h with h; subst h
      have : bs.length = 7 := by
        unfold File.statBuild at hs
        split at hs
        · injection hs with hs; injection hs with _ hs; injection hs with _ hs; cases hs
        · split at hs
          · injection hs with hs; injection hs with _ hs; injection hs with _ hs; cases hs
          split at hs
          · injection hs with hs; injection hs with _ hs; injection hs with _ hs; cases hs
          dsimp only at hs
          replace hs := ite_inv hs
          rcases hs with ⟨-, hs⟩ | ⟨-, hs⟩
          · cases hs
          replace hs := ite_inv hs
          rcases hs with ⟨-, hs⟩ | ⟨-, hs⟩
          · split at hs
            · injection hs with hs; injection hs with _ hs; injection hs with _ hs; cases hs
            · injection hs with hs; injection hs with _ hs; injection hs with _ hs; injection hs with hs; subst hs; rfl
          · injection hs with hs; injection hs with _ hs; injection hs with _ hs; injection hs with hs; subst hs; rfl
      simp [bodyOr]; omega
  replace h := ite_inv h
  rcases h with ⟨hid, h⟩ | ⟨-, h⟩
  · split at h
    · injection h with h; subst h
      simp [bodyOr]
    · split at h
      · cases h
      · obtain ⟨_, -, h⟩ := Res.bind_eq_ok.mp h
        injection h with h; subst h
        simp only [bodyOr, List.length_cons, List.length_append]
        rw [(Sc.computePdCryptogram C (Sc.sessionKeys C p.flags.useScbkd { p.sc with pdRandom := env.random })).pdClientUid.2,
          (Sc.computePdCryptogram C (Sc.sessionKeys C p.flags.useScbkd { p.sc with pdRandom := env.random })).pdRandom.2,
          (Sc.computePdCryptogram C (Sc.sessionKeys C p.flags.useScbkd { p.sc with pdRandom := env.random })).pdCryptogram.2]
        omega
  replace h := ite_inv h
  rcases h with ⟨hid, h⟩ | ⟨-, h⟩
  · split at h
    · injection h with h; subst h
      simp [bodyOr]
    · split at h
      · cases h
      · obtain ⟨_, -, h⟩ := Res.bind_eq_ok.mp h
        injection h with h; subst h
        simp only [bodyOr, List.length_cons]
        rw [(Sc.computeRmacI C p.sc).rMac.2]
        omega
  · injection h with h; subst h
    simp [bodyOr]

theorem BodyOutcome.header {C : Cipher} {p : Pd} {env : Env} {t : Phy.Tx} {b : Built} (h : BodyOutcome C p env t b) :
    b.t.mark = t.mark ∧ b.t.misaligned = t.misaligned ∧ b.t.addr = t.addr ∧ b.t.ctl = t.ctl ∧
    (t.scb.length ≤ 3 → b.t.scb.length ≤ 3) := by
  cases h <;> simp

theorem statBuild_nosend {file f : Option FileSt} {env : Env} {room : Int} {outs : List Out} {r : Option (List Byte)}
    (hst : File.statBuild file env room = .ok (f, outs, r)) : sent outs = [] := by
  unfold File.statBuild at hst
  split at hst
  · injection hst with hst; injection hst with _ hst; injection hst with hst _; subst hst; rfl
  · split at hst
    · injection hst with hst; injection hst with _ hst; injection hst with hst _; subst hst; rfl
    split at hst
    · injection hst with hst; injection hst with _ hst; injection hst with hst _; subst hst; rfl
    dsimp only at hst
    replace hst := ite_inv hst
    rcases hst with ⟨-, hst⟩ | ⟨-, hst⟩
    · cases hst
    replace hst := ite_inv hst
    rcases hst with ⟨-, hst⟩ | ⟨-, hst⟩
    · split at hst <;>
      · injection hst with hst; injection hst with _ hst; injection hst with hst _; subst hst
        rfl
    · injection hst with hst; injection hst with _ hst; injection hst with hst _; subst hst; rfl

theorem BodyOutcome.nosend {C : Cipher} {p : Pd} {env : Env} {t : Phy.Tx} {b : Built} (h : BodyOutcome C p env t b) :
    sent b.outs = [] := by
  cases h with
  | ftstat f outs r room hid hst => exact statBuild_nosend hst
  | _ => rfl

/-- With room for 164 bytes the reply goes out, from the address and with the sequence number the PD
holds. -/
theorem sends {C : Cipher} {p q : Pd} {env : Env} {outs : List Out} {ok : Bool}
    (h : SendOutcome C p env q outs ok) (hm : 164 ≤ p.txBufSize) :
    ∃ r : Packet, sent outs = [r.bytes.take env.sendCap] ∧ r.bytes.length ≤ p.txBufSize ∧
      r.addr = (replyTx p).addr ∧ r.ctl = (replyTx p).ctl ∧ r.mark = p.flags.hasMark := by
  cases h with
  | mute h => omega
  | built b q outs ok hb ho hh hs hc hl =>
    obtain ⟨e1, e2, e3, e4, e5⟩ := ho.header
    obtain ⟨f1, f2, f3, f4⟩ := finalTx_fields b.t b.p (bodyLen b.body)
    rw [show sent (b.outs ++ outs) = sent b.outs ++ sent outs from List.filterMap_append, ho.nosend, List.nil_append]
    rcases hc with ⟨-, -, hmis | hlt⟩ | ⟨w, q', -, -, hle, rfl, -⟩
    · rw [f2, e2] at hmis
      simp [replyTx] at hmis
    · have h1 := replyBody_length hb
      have h2 : (finalTx b.t b.p (bodyLen b.body)).scb.length ≤ 3 := by
        have : (replyTx p).scb.length ≤ 3 := by by_cases h1 : p.scActive = true <;> by_cases h2 : Phy.inHandshake true p.replyId = true <;> simp [replyTx, h1, h2]
        have := e5 this
        unfold finalTx
        split
        · split
          · simp
          · exact this
        · exact this
      omega
    · refine ⟨_, ?_, hle, f3.trans e3, f4.trans e4, f1.trans e1⟩
      unfold Phy.sendOuts sent
      split <;> simp

end Osdp.PdM
