import Verif.Lemmas.PdFault
import Verif.Lemmas.SendFault
import Verif.Lemmas.PdSeq

/-! # Building and sending a reply succeeds -/

namespace Osdp.PdM

open Phy (setNak)

theorem assertLen_total {a b : Int} (h : a < b) : assertLen a b = .ok () := by unfold assertLen; rw [if_pos h]

theorem copyOut_total {src : List Byte} {n : Int} (h0 : 0 ≤ n) (h : n ≤ src.length) : copyOut src n = .ok (src.take n.toNat) := by
  unfold copyOut; rw [if_pos ⟨h0, h⟩]

/-- a reply that carries an event's data -/
def Lengthy (p : Pd) : Prop := p.replyId = Id.KEYPAD ∨ p.replyId = Id.RAW ∨ p.replyId = Id.MFGREP

theorem statusReply_total {p : Pd} {t : Phy.Tx} {cap : Cap} {room : Int} {s : StatusReport} (h60 : 60 ≤ room)
    (he : p.eph = .event (.status s)) (hcap : cap.numItems.toNat ≤ 31) : ∃ b, statusReply p t cap room = .ok b := by
  unfold statusReply
  rw [he]
  dsimp only
  split
  · exact ⟨_, rfl⟩
  · rw [assertLen_total (by omega)]
    show ∃ b, (if cap.numItems.toNat > 31 then _ else _) = _
    rw [if_neg (by omega)]
    exact ⟨_, rfl⟩

theorem statBuild_total {file : Option FileSt} {env : Env} {room : Int} (hf : Within file) :
    ∃ r, File.statBuild file env room = .ok r := by
  unfold File.statBuild
  cases file with
  | none => exact ⟨_, rfl⟩
  | some f =>
    dsimp only
    split
    · exact ⟨_, rfl⟩
    split
    · exact ⟨_, rfl⟩
    rename_i hst _
    have := hf f rfl (by simpa using hst)
    generalize (if f.length > 0 then (f.offset + u32 f.length) % 4294967296 else f.offset) = off at *
    rw [if_neg (Nat.not_lt.mpr this)]
    split
    · split
      · exact ⟨_, rfl⟩
      · exact ⟨_, rfl⟩
    · exact ⟨_, rfl⟩

theorem replyBody_total {C : Cipher} {p : Pd} {env : Env} {t : Phy.Tx} {room : Int} (hr : Primed p) (h60 : 60 ≤ room)
    (hlong : Lengthy p → 133 ≤ room) (hcap : (p.cap 1).numItems.toNat ≤ 31 ∧ (p.cap 2).numItems.toNat ≤ 31)
    (ht : p.replyId = Id.CCRYPT ∨ p.replyId = Id.RMAC_I → t.scb.length = 3) : ∃ b, replyBody C p env t room = .ok b := by
  unfold replyBody
  dsimp only
  cases hr with
  | ack h hk =>
    rw [if_pos h, assertLen_total (by omega)]; exact ⟨_, rfl⟩
  | nak c h he =>
    simp only [h, he]
    iterate 10 rw [if_neg (by decide)]
    rw [if_pos trivial, assertLen_total (by omega)]; exact ⟨_, rfl⟩
  | own h =>
    rcases h with h | h
    · simp only [h]
      rw [if_neg (by decide), if_pos trivial, assertLen_total (by omega)]; exact ⟨_, rfl⟩
    · simp only [h]
      rw [if_neg (by decide), if_neg (by decide), if_pos trivial, assertLen_total (by omega)]; exact ⟨_, rfl⟩
  | status s h he =>
    rcases h with h | h | h | h
    · simp only [h]
      iterate 4 rw [if_neg (by decide)]
      rw [if_pos trivial]; exact statusReply_total h60 he hcap.1
    · simp only [h]
      iterate 3 rw [if_neg (by decide)]
      rw [if_pos trivial]; exact statusReply_total h60 he hcap.2
    · simp only [h, he]
      iterate 5 rw [if_neg (by decide)]
      rw [if_pos trivial, assertLen_total (by omega)]; exact ⟨_, rfl⟩
    · simp only [h, he]
      iterate 6 rw [if_neg (by decide)]
      rw [if_pos trivial, assertLen_total (by omega)]; exact ⟨_, rfl⟩
  | keypad k h he hv =>
    have := hlong (.inl h)
    obtain ⟨v1, v2⟩ := hv
    simp only [h, he]
    iterate 7 rw [if_neg (by decide)]
    rw [if_pos trivial, assertLen_total (by omega), copyOut_total v1 (by rw [k.data.2]; omega)]; exact ⟨_, rfl⟩
  | raw c h he hv =>
    have := hlong (.inr (.inl h))
    obtain ⟨v1, v2⟩ := hv
    have e : Int.tdiv (c.length + 7) 8 = (c.length + 7) / 8 := Int.tdiv_eq_ediv_of_nonneg (by omega)
    simp only [h, he, e]
    iterate 8 rw [if_neg (by decide)]
    rw [if_pos trivial, assertLen_total (by omega), copyOut_total (by omega) (by rw [c.data.2]; omega)]; exact ⟨_, rfl⟩
  | mfgrep m h he hv =>
    have := hlong (.inr (.inr h))
    have hv : m.length.toNat ≤ 128 := hv
    simp only [h, he]
    iterate 11 rw [if_neg (by decide)]
    rw [if_pos trivial, assertLen_total (by omega), copyOut_total (by omega) (by rw [m.data.2]; omega)]; exact ⟨_, rfl⟩
  | com c h he =>
    simp only [h, he]
    iterate 9 rw [if_neg (by decide)]
    rw [if_pos trivial, assertLen_total (by omega)]; exact ⟨_, rfl⟩
  | ftstat h hf =>
    simp only [h]
    iterate 12 rw [if_neg (by decide)]
    rw [if_pos trivial]
    obtain ⟨⟨f, o, r⟩, hst⟩ := statBuild_total (env := env) (room := room) hf
    rw [hst]
    cases r <;> exact ⟨_, rfl⟩
  | handshake h hs =>
    have h3 := ht h
    have hne : t.scb ≠ [] := by intro hx; rw [hx] at h3; cases h3
    rcases h with h | h
    · simp only [h]
      iterate 13 rw [if_neg (by decide)]
      rw [if_pos trivial, if_neg hne, if_neg (by simp [h3]), assertLen_total (by omega)]; exact ⟨_, rfl⟩
    · simp only [h]
      iterate 14 rw [if_neg (by decide)]
      rw [if_pos trivial, if_neg hne, if_neg (by simp [h3]), assertLen_total (by omega)]; exact ⟨_, rfl⟩

theorem Primed.unbc {p : Pd} (h : Primed p) : Primed (unbc p) := by
  cases h with
  | nak c h he => exact .nak c h he
  | ack h hk => exact .ack h hk
  | own h => exact .own h
  | status s h he => exact .status s h he
  | keypad k h he hv => exact .keypad k h he hv
  | raw k h he hv => exact .raw k h he hv
  | mfgrep k h he hv => exact .mfgrep k h he hv
  | com c h he => exact .com c h he
  | handshake h hs => exact .handshake h hs
  | ftstat h hf => exact .ftstat h hf

theorem Primed.touch {p : Pd} (h : Primed p) (ret : PdRet) (now : Int) : Primed (touch p ret now) := by
  unfold PdM.touch
  split
  · cases h with
    | nak c h he => exact .nak c h he
    | ack h hk => exact .ack h hk
    | own h => exact .own h
    | status s h he => exact .status s h he
    | keypad k h he hv => exact .keypad k h he hv
    | raw k h he hv => exact .raw k h he hv
    | mfgrep k h he hv => exact .mfgrep k h he hv
    | com c h he => exact .com c h he
    | handshake h hs => exact .handshake h hs
    | ftstat h hf => exact .ftstat h hf
  · exact h

theorem replyTx_scb (p : Pd) : (replyTx p).scb.length ≤ 3 := by
  by_cases h1 : p.scActive = true <;> by_cases h2 : Phy.inHandshake true p.replyId = true <;> simp [replyTx, h1, h2]

theorem finalTx_scb {t : Phy.Tx} {p : Pd} {n : Nat} (h : t.scb.length ≤ 3) : (finalTx t p n).scb.length ≤ 3 := by
  unfold finalTx
  split
  · split
    · simp
    · exact h
  · exact h

theorem aesPadLen_le (n : Nat) : Sc.aesPadLen n ≤ n + 15 := by unfold Sc.aesPadLen; omega

/-- A pending reply that is `Primed` is sent (or given up, the announced buffer being below 69 bytes). -/
theorem sendReply_total {C : Cipher} {p : Pd} {env : Env} (hp : p.flags.pdMode = true) (hb : p.packetBuf.length = 256)
    (hr : Primed p) (hlong : Lengthy p → p.txBufSize < 69 ∨ 142 ≤ p.txBufSize)
    (hcap : (p.cap 1).numItems.toNat ≤ 31 ∧ (p.cap 2).numItems.toNat ≤ 31) :
    ∃ q o ok, sendReply C p env = .ok (q, o, ok) := by
  unfold sendReply
  dsimp only
  rw [packetInit_pd hp]
  by_cases hm : p.txBufSize < 69
  · rw [if_pos hm]; exact ⟨_, _, _, rfl⟩
  rw [if_neg hm]
  dsimp only
  have hs3 := replyTx_scb p
  have hoff : (replyTx p).dataOff ≤ 9 := by unfold Phy.Tx.dataOff; split <;> omega
  have htx : p.txBufSize ≤ 256 := by unfold Pd.txBufSize; split <;> omega
  obtain ⟨b, hbd⟩ := replyBody_total (C := C) (env := env) (t := replyTx p) (room := (p.txBufSize : Int) - (replyTx p).dataOff)
    hr.unbc (by omega) (fun hl => by rcases hlong hl with h | h <;> omega) hcap (fun hx => by
      have hx : p.replyId = Id.CCRYPT ∨ p.replyId = Id.RMAC_I := hx
      have h2 : Phy.inHandshake true p.replyId = true := by rcases hx with h | h <;> rw [h] <;> decide
      have h1 : p.scActive = false := by
        cases hr with
        | handshake _ hs => exact hs
        | nak c h he => rw [h] at hx; exact absurd hx (by decide)
        | ack h hk => rw [h] at hx; exact absurd hx (by decide)
        | own h => rcases h with h | h <;> rw [h] at hx <;> exact absurd hx (by decide)
        | status s h he => rcases h with h | h | h | h <;> rw [h] at hx <;> exact absurd hx (by decide)
        | keypad k h he hv => rw [h] at hx; exact absurd hx (by decide)
        | raw k h he hv => rw [h] at hx; exact absurd hx (by decide)
        | mfgrep k h he hv => rw [h] at hx; exact absurd hx (by decide)
        | com c h he => rw [h] at hx; exact absurd hx (by decide)
        | ftstat h hf => rw [h] at hx; exact absurd hx (by decide)
      simp [replyTx, h1, h2])
  have hbr : ∃ t l, buildReply C (PdM.unbc p) env (replyTx p) p.txBufSize = .ok (b.p, t, b.outs, l) := by
    unfold buildReply
    dsimp only
    rw [hbd]
    dsimp only [bind, Except.bind]
    cases hbb : b.body with
    | ok l => exact ⟨_, _, rfl⟩
    | error k =>
      dsimp only
      rw [assertLen_total (by omega)]
      exact ⟨_, _, rfl⟩
  obtain ⟨t, l, hbr⟩ := hbr
  rw [hbr]
  obtain ⟨b', hb1, -, -, hl, ht⟩ := buildReply_inv hbr
  rw [hbd] at hb1; injection hb1 with hb1; subst hb1
  obtain ⟨ho, -⟩ := replyBody_outcome hbd
  have hlen := replyBody_length hbd
  rw [← hl] at hlen
  have hbp : b.p.packetBuf.length = 256 := by
    cases ho with
    | rmac sc ok _ _ _ _ => cases ok <;> exact hb
    | _ => exact hb
  have hscb : t.scb.length ≤ 3 := by rw [ht]; exact finalTx_scb (ho.header.2.2.2.2 hs3)
  obtain ⟨q, o, ok, hsend⟩ := Phy.sendPacket_total C b.p env t l htx hbp (by omega) (fun _ => by
    have := aesPadLen_le ((l.drop 1).length + 1)
    have : (if t.mark then 1 else 0) ≤ 1 := by split <;> omega
    simp only [List.length_drop] at *
    omega)
  show ∃ q o ok, (Phy.sendPacket C b.p env t l p.txBufSize >>= _) = _
  rw [hsend]
  exact ⟨_, _, _, rfl⟩

theorem sent_tail {C : Cipher} {p q : Pd} {env : Env} {outs : List Out} {ok : Bool} (h : SendOutcome C p env q outs ok) :
    Tail p q := by
  cases h with
  | mute _ => exact ⟨rfl, rfl, rfl, rfl, rfl, rfl, rfl, rfl⟩
  | built b _ o ok hb hbo hh hsend hc hl =>
    have h4 : Tail p b.p := by
      cases hbo with
      | rmac sc ok _ _ _ _ => cases ok <;> exact ⟨rfl, rfl, rfl, rfl, rfl, rfl, rfl, rfl⟩
      | _ => exact ⟨rfl, rfl, rfl, rfl, rfl, rfl, rfl, rfl⟩
    refine h4.trans ?_
    unfold Phy.Sending at hsend
    rw [hsend]
    exact ⟨rfl, rfl, rfl, rfl, rfl, rfl, rfl, rfl⟩

/-- what follows the processing of a packet succeeds -/
theorem finish_total {C : Cipher} {p : Pd} {env : Env} {ret : PdRet} (hp : p.flags.pdMode = true) (hb : p.packetBuf.length = 256)
    (hr : ret = .none ∨ ret = .reply → Primed p ∧ (Lengthy p → p.txBufSize < 69 ∨ 142 ≤ p.txBufSize))
    (hcap : (p.cap 1).numItems.toNat ≤ 31 ∧ (p.cap 2).numItems.toNat ≤ 31) :
    ∃ q o, finish C p env ret = .ok (q, o) := by
  unfold finish
  split
  · exact ⟨_, _, rfl⟩
  split
  · exact ⟨_, _, rfl⟩
  split
  · exact ⟨_, _, rfl⟩
  rename_i hn
  have hret : ret = .none ∨ ret = .reply := by
    by_cases h1 : ret = .none
    · exact .inl h1
    · by_cases h2 : ret = .reply
      · exact .inr h2
      · exact absurd ⟨h1, h2⟩ hn
  obtain ⟨hpr, hlong⟩ := hr hret
  have ht : touch p ret env.now = p ∨ ∃ x, touch p ret env.now = { p with scTstamp := x } := by
    unfold touch; split
    · exact .inr ⟨_, rfl⟩
    · exact .inl rfl
  have hpt := hpr.touch ret env.now
  have hP : ∃ P, P = touch p ret env.now := ⟨_, rfl⟩
  obtain ⟨P, hP⟩ := hP
  have e1 : P.flags = p.flags ∧ P.packetBuf = p.packetBuf ∧ P.txBufSize = p.txBufSize ∧ P.cap = p.cap ∧ P.replyId = p.replyId := by
    rw [hP]
    rcases ht with h | ⟨x, h⟩ <;> rw [h] <;> exact ⟨rfl, rfl, rfl, rfl, rfl⟩
  rw [← hP] at hpt ⊢
  obtain ⟨a1, a2, a3, a4, a5⟩ := e1
  have hpP : P.flags.pdMode = true := by rw [a1]; exact hp
  obtain ⟨q, o, ok, hs⟩ := sendReply_total (C := C) (env := env) hpP (by rw [a2]; exact hb) hpt
    (fun hl => by rw [a3]; exact hlong (by unfold Lengthy at hl ⊢; rw [a5] at hl; exact hl)) (by rw [a4]; exact hcap)
  rw [hs]
  show ∃ q' o', (afterSend q ok >>= _) = _
  have htl := sent_tail (sendReply_outcome hpP hs)
  have hac : ∃ r, afterSend q ok = .ok r := by
    unfold afterSend
    cases ok with
    | false => exact ⟨_, rfl⟩
    | true =>
      show ∃ r, (commitKeyset q >>= _) = _
      unfold commitKeyset
      split
      · rename_i hck
        rw [htl.cmdId, htl.replyId] at hck
        have : ∃ k, q.eph = .key k := by
          rw [htl.eph]
          cases hpt with
          | ack h hk => exact hk hck.1
          | nak c h he => rw [h] at hck; exact absurd hck.2 (by decide)
          | own h => rcases h with h | h <;> rw [h] at hck <;> exact absurd hck.2 (by decide)
          | status s h he => rcases h with h | h | h | h <;> rw [h] at hck <;> exact absurd hck.2 (by decide)
          | keypad k h he hv => rw [h] at hck; exact absurd hck.2 (by decide)
          | raw k h he hv => rw [h] at hck; exact absurd hck.2 (by decide)
          | mfgrep k h he hv => rw [h] at hck; exact absurd hck.2 (by decide)
          | com c h he => rw [h] at hck; exact absurd hck.2 (by decide)
          | handshake h hs => rcases h with h | h <;> rw [h] at hck <;> exact absurd hck.2 (by decide)
          | ftstat h hf => rw [h] at hck; exact absurd hck.2 (by decide)
        obtain ⟨k, hk⟩ := this
        rw [hk]
        exact ⟨_, rfl⟩
      · exact ⟨_, rfl⟩
  obtain ⟨r, hr⟩ := hac
  rw [hr]
  exact ⟨_, _, rfl⟩

end Osdp.PdM
