import Verif.Lemmas.Rounds

/-!
# One command and its answer, between a CP and its PD, in plain text or within a secure channel
-/

namespace Osdp.Link

open Phy PdM CpM
open Spec.Wire (Packet sent)

/-- A command is about to be sent by a CP whose PD is ready for it. -/
structure Asks (cp pd : Pd) : Prop where
  inv : CpM.Inv cp
  send : cp.phyState = .sendCmd
  ends : Ends cp pd
  cpIdle : Idle cp
  pdIdle : Idle pd
  bc : pd.flags.broadcast = false
  pdSeq : -1 ≤ pd.seq ∧ pd.seq ≤ 3
  seq : cp.seq = pd.seq ∨ cp.seq = -1
  seqSc : cp.scActive = true → cp.seq ≠ -1

/-- what the CP knows after it sent the command is what it knew before -/
structure CpSame (cp cp1 : Pd) : Prop where
  id : cp1.id = cp.id
  cap : cp1.cap = cp.cap
  phyState : cp1.phyState = .replyWait
  flags : cp1.flags.scActive = cp.flags.scActive

/-- Whatever is sent and arrives, the PD handles the very command and the CP hears the very reply. -/
theorem Asks.heard {C : Cipher} {cp cp1 pd pd1 : Pd} {cb : Bool} {e1 e2 e3 : Env} {o1 o2 : List Out} {bs bs2 : List Byte} {d0 : Byte} {rest : List Byte}
    (S : Asks cp pd) (h1' : d0.toNat ≠ Id.CHLNG) (h2' : d0.toNat ≠ Id.SCRYPT) (hcmd : cp.cmdId = d0.toNat)
    (hbuilt : ∀ body, commandBuilt C cp e1 = some body → body = d0 :: rest)
    (hc1 : 256 ≤ e1.sendCap) (hc2 : 256 ≤ e2.sendCap) (hexp : expire pd e2.now = pd)
    (henf : pd.flags.enforceSecure = true → pd.scActive = true ∨ d0.toNat = Id.ID ∨ d0.toNat = Id.CAP)
    (h1 : CpM.step C cp (.update cb e1) = .ok (cp1, o1)) (hs1 : sent o1 = [bs]) (ha1 : Arrives e2 bs)
    (h2 : PdM.step C pd (.refresh e2) = .ok (pd1, o2)) (hs2 : sent o2 = [bs2]) (ha2 : Arrives e3 bs2) :
    ∃ s sc hh rb, PdM.receiveAndProcess C pd e2 = commanded (reload (setSc (pdAccept pd s false) sc) hh) e2 d0 rest ∧
      PdM.plainRefused (PdM.noteCmd (reload (setSc (pdAccept pd s false) sc) hh) d0) = false ∧
      replyBuilt C pd e2 = some rb ∧ CpSame cp cp1 ∧ (∀ r0 body, rb = r0 :: body → r0 ≠ b8 Id.BUSY → replyOf C cp1 e3 = some (r0, body)) := by
  have I := S.inv
  have E := S.ends
  obtain ⟨f, buf, body, hb, -, hbs, hfit, hcp1, hbl⟩ := command_sent I S.send (by rw [hcmd]; exact ⟨h1', h2'⟩) h1 hc1 hs1
  have hbody := hbuilt body hb
  rw [hbs] at hfit ha1
  obtain ⟨hh, sc, hH, -, hrec, hpa, hss, hsc'⟩ := command_read C cp pd e2 body d0 rest hbody E S.pdIdle hfit ⟨I.lo, I.hi⟩ S.pdSeq S.seq S.seqSc ha1
  generalize hP : reload (setSc (pdAccept pd (Phy.seqBits (Phy.nextSeq cp.seq true)) false) sc) hh = P at hrec
  have hPa : P.scActive = cp.scActive := by rw [← hP]; exact hpa
  have hnr : PdM.plainRefused (PdM.noteCmd P d0) = false := by
    unfold PdM.plainRefused
    show (P.flags.enforceSecure && !P.scActive && (d0.toNat != Id.ID) && (d0.toNat != Id.CAP) && _ && _) = false
    have : P.flags.enforceSecure = pd.flags.enforceSecure := by rw [← hP]; rfl
    cases he : pd.flags.enforceSecure with
    | false => rw [this, he]; rfl
    | true =>
      rcases henf he with h | h | h
      · rw [hPa, ← E.act, h]; simp
      · rw [h]; simp
      · rw [h]; simp
  obtain ⟨q, n, rb, q2, hS, hrid, hR, hrb, hbs', hpd1⟩ := pd_answers (P := P) (by rw [← hP]; exact E.pdMode) hexp hrec hnr h1' h2' h2 hc2 hs2
  have hqa : q.scActive = cp.scActive := by show q.flags.scActive = _; rw [hS.flags]; exact hPa
  have hcs : cp1.scActive = cp.scActive := by rw [hcp1]; rfl
  have hqE : Ends cp1 q := by
    refine ⟨by rw [hcp1]; exact E.cpMode, ?_, ?_, ?_, by rw [hqa, hcs], ?_, ?_⟩
    · rw [hS.flags, ← hP]; exact E.pdMode
    · rw [hcp1, hS.address, ← hP]; exact E.address
    · rw [hS.address, ← hP]; exact E.range
    · intro ha
      rw [hS.sc, hcp1, ← hP]
      exact (hss (by rw [← hcs]; exact ha)).meets
    · intro ha
      unfold Pd.scCapable
      rw [hS.flags, ← hP]
      exact E.capable (by rw [E.act, ← hqa]; exact ha)
  have hidle : Idle cp1 := ⟨by rw [hcp1]; rfl, by rw [hcp1]; rfl, by rw [hcp1]; exact hbl.trans S.cpIdle.buf, by rw [hcp1]; exact S.cpIdle.rx⟩
  have hqbc : q.flags.broadcast = false := by
    rw [hS.flags, ← hP]
    show (pd.flags.broadcast || false) = false
    rw [S.bc]; rfl
  have hqs : Phy.seqBits q.seq = Phy.seqBits cp1.seq := by
    rw [hS.seq, hcp1, ← hP]
    show Phy.seqBits ((Phy.seqBits (Phy.nextSeq cp.seq true) : Nat) : Int) = Phy.seqBits (Phy.nextSeq cp.seq true)
    unfold Phy.seqBits; omega
  rw [hbs'] at ha2
  subst hP
  refine ⟨_, sc, hh, rb, hrec, hnr, hrb, ⟨by rw [hcp1]; rfl, by rw [hcp1]; rfl, by rw [hcp1]; rfl, by rw [hcp1]; rfl⟩, ?_⟩
  intro r0 bd he hbusy
  unfold replyOf
  rw [if_pos (by rw [hcp1]; rfl)]
  exact (reply_read C q cp1 e3 n rb r0 bd he hqE (fun ha => by
      rw [hS.sc, hcp1]
      exact (hss (by rw [← hcs]; exact ha)).cMac) hidle hqbc hR.fits hqs hbusy ha2).1

/-- What the CP makes of a reply. -/
theorem reply_taken {C : Cipher} {cp cp1 : Pd} {cb : Bool} {env : Env} {o : List Out} {r0 : Byte} {body : List Byte} (hm : cp.flags.pdMode = false)
    (hr : replyOf C cp env = some (r0, body)) (h : CpM.step C cp (.update cb env) = .ok (cp1, o)) :
    ∃ p2 p3 o rc, Phy.Transp cp p2 ∧ CpM.response C { p2 with replyId := r0.toNat } env body = .ok (p3, o, rc) ∧ SameInfo p3 cp1 := by
  obtain ⟨⟨s1, o1, y⟩, hu, h1⟩ := Res.bind_eq_ok.mp h
  injection h1 with h1; injection h1 with e1 e2; subst e1 e2
  rcases (stateUpdate_inv hm hu).learned with ⟨-, hn⟩ | ⟨id, bd, p2, p3, o, rc, hr', -, ht, hrs, -, hi⟩
  · rw [hr] at hn; cases hn
  · rw [hr] at hr'; injection hr' with hr'; injection hr' with ea eb; subst ea eb
    exact ⟨p2, p3, o, rc, ht, hrs, hi⟩

end Osdp.Link
