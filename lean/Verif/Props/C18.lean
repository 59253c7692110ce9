import Verif.Lemmas.Body
import Verif.Lemmas.PdStream
import Verif.Lemmas.Secure
import Verif.Props.C24
import Verif.Props.C57

/-!
# C18: while its secure channel is active the CP accepts only authenticated replies

Proved: a reply that the CP takes in while the secure channel is active is an intact packet that has been received, and it either
carries a MAC that verifies under the keys and the chaining value of the session, or it is a plain NAK, or a plain ACK of a
KEYSET, or it has a security block of one of the handshake types 0x11 to 0x14 (`C18_partial`).  Events are delivered only from
replies of the first or the last kind (`C18_events_partial`).  The last kind is a violation of the property (`C18_forged`).
-/

namespace Osdp.CpM

open Spec.Wire Spec.Session
open Phy (heldFrame pend Framed)

/-- the MAC of the session, under the chaining value of the last command -/
def Verified (C : Cipher) (p : Pd) (f : List Byte) : Prop := Authentic C p.sc.sMac1 p.sc.sMac2 p.sc.cMac f

/-- **C18 (partial: not for security block types 0x11 to 0x14, see `C18_forged`).**  Full statement: with an active secure channel,
the only unauthenticated replies tolerated are NAK, BUSY and the ACK of a KEYSET.

Whatever the CP receives in any state it can get into with an active secure channel: a reply that it takes in (other than BUSY, see
C12) is a packet `f` among the bytes received up to then, intact and from this PD, and `f` is a plain NAK, or a plain ACK in answer
to a KEYSET, or has a security block of a type from 0x11 to 0x14, or carries the MAC of the session. -/
theorem C18_partial (C : Cipher) (info : PdM.Info) (p : Pd) (env : Env) (id : Byte) (body : List Byte) (hr : Reached C info p)
    (hact : p.flags.scActive = true) (h : replyOf C p env = some (id, body)) :
    ∃ f ctl a, Intact f ∧ f.Sublist (pend p ++ env.recv.flatten) ∧ f[4]? = some ctl ∧
      f[1]? = some a ∧ (((a &&& 0x7F#8).toNat : Int) = p.address ∨ (a &&& 0x7F#8).toNat = 0x7F) ∧
      ((ctl &&& 0x08#8 = 0#8 ∧ f[5]? = some id ∧ (id.toNat = Id.NAK ∨ (id.toNat = Id.ACK ∧ p.cmdId = Id.KEYSET))) ∨
       (ctl &&& 0x08#8 ≠ 0#8 ∧ ∃ ty, f[6]? = some ty ∧ 0x11 ≤ ty.toNat ∧ ty.toNat ≤ 0x14) ∨
       (ctl &&& 0x08#8 ≠ 0#8 ∧ Verified C p f)) := by
  have hps : p.phyState = .replyWait := by
    refine Classical.byContradiction fun hn => ?_
    unfold replyOf at h
    rw [if_neg hn] at h; cases h
  unfold replyOf at h
  rw [if_pos hps] at h
  unfold Phy.heard at h
  split at h
  case h_2 => cases h
  rename_i p1 h1
  split at h
  case h_2 => cases h
  rename_i p2 d h2
  replace h := ite_inv h
  rcases h with ⟨-, h⟩ | ⟨hd, h⟩
  · cases h
  have hd : 0 < d.len := by omega
  obtain ⟨id', hid, h⟩ := Option.map_eq_some_iff.mp h
  injection h with e1 e2; subst e1 e2
  have hf := hr.buffered.framed hps
  have hcp := hr.inv.cp
  have hst := Phy.checkPacket_stored hf h1
  obtain ⟨w1, w2, w3, -⟩ := hst.whole (.inl rfl)
  obtain ⟨p0, hcol, hb⟩ := Phy.checkPacket_body hf h1 (.inl rfl)
  obtain ⟨m, a, -, ha, hadr⟩ := Phy.bodyFrame_accept hb (.inl rfl)
  have hck := Phy.checkPacket_checked h1
  have hsub : (heldFrame p1).Sublist (pend p ++ env.recv.flatten) :=
    ((List.sublist_append_left _ _).trans (PdM.heldFrame_pend w2)).trans hst.pend
  have hact1 : p1.scActive = true := (hck.cpActive hcp).trans hact
  obtain ⟨ctl, hctl, hdec⟩ := Phy.decode_active hst.buf (hst.fits (.inl rfl)) w2 w3.min hact1 h2 hd
  have hm1 : p1.isPd = false := hck.transp.pdMode.trans hcp
  have hm2 : p1.isCp = true := by unfold Pd.isCp; unfold Pd.isPd at hm1; rw [hm1]; rfl
  have hcmd : p1.cmdId = p.cmdId := by
    have := hck.transp
    unfold Phy.Transp Phy.upd Phy.chgOf at this
    rw [this]
  refine ⟨heldFrame p1, ctl, a, w3, hsub, hctl, ha, ?_, ?_⟩
  · rw [hcol.transp.address] at hadr; exact hadr
  have hscb : Phy.hasBit ctl Phy.CTL_SCB = true → ctl &&& 0x08#8 ≠ 0#8 := by
    intro h
    simpa [Phy.hasBit, Phy.CTL_SCB] using h
  rcases hdec with ⟨hs, d0, h5, href, h0⟩ | ⟨hs, ty, hty, ⟨t1, t2⟩ | ⟨t1, t2, hau⟩⟩
  · left
    rw [hid] at h0; injection h0 with h0; subst h0
    refine ⟨by simpa [Phy.hasBit, Phy.CTL_SCB] using hs, h5, ?_⟩
    unfold Phy.plainRefused at href
    rw [if_pos hm2, hact1, hcmd] at href
    simp only [Bool.true_and, Bool.and_eq_false_iff, Bool.not_eq_false', Bool.and_eq_true, beq_iff_eq] at href
    rcases href with ⟨h3, h4⟩ | h3
    · exact .inr ⟨by rw [h4]; rfl, h3⟩
    · exact .inl (by rw [h3]; rfl)
  · exact .inr (.inl ⟨hscb hs, ty, hty, t1, t2⟩)
  · rw [hm1] at hau
    refine .inr (.inr ⟨hscb hs, ?_⟩)
    unfold Verified
    rw [← hck.sc]; exact hau

/-- while a new key is being installed, nothing is delivered -/
theorem Update.installing {C : Cipher} {cb : Bool} {p q : Pd} {env : Env} {outs : List Out} {y : Bool} (I : Inv p) (B : Buffered p)
    (P : Proper p) (hs : p.state = .setScbk) (h : Update C cb p env q outs y) : pdEvents outs = [] := by
  have adv : ∀ {p2 q : Pd} {o3 : List Out} {ok : Bool} {s : CpState}, p2.state = s → s = p.state → Pre p2 →
      Pending C p env p2.reqEventSend p2.eph → advance cb p2 env s ok = .ok (q, o3) → pdEvents o3 = [] := by
    intro p2 q o3 ok s hs' hsp hpre hpd ha
    subst hs'
    obtain ⟨a1, -⟩ := advance_events (hpd.proper P) ha
    have h2 : p2.state = .setScbk := hsp.trans hs
    have hat : attends p2 env.now ok = false := by
      unfold attends nextState
      rw [h2, hpre.install h2, Bool.or_true]
      cases ok <;> rfl
    rw [a1, hat]; rfl
  cases h.visit I with
  | on h1 _ _ _ _ no h7 h8 => exact no.pdEvents
  | @command p1 _ id h1 h2 h3 => exact (noEvent_fclose (stateGetCmd_inv h2).2.2.1).pdEvents
  | @nothing p1 _ o1 o2 h1 h2 h3 =>
    obtain ⟨c1, -, c3, -⟩ := stateGetCmd_inv h2
    unfold Chosen at c1
    rw [pdEvents_append, (noEvent_fclose c3).pdEvents, adv (p2 := { p1 with cmdId := 0 }) rfl (by rw [c1]) (nothing_pre I.mid h1 h2)
      (.inl ⟨by show p1.reqEventSend = _; rw [c1], fun e he => stateGetCmd_eph h2 e he⟩) h3]
    rfl
  | @over p1 p2 _ o1 o2 o3 ok h1 h2 h3 h4 h5 h6 =>
    obtain ⟨k1, -, -, k4, k5, -⟩ := stateCheckReply_state h5
    rw [pdEvents_append, pdEvents_append, pdEvents_append, h2.keeps.2.2.2.pdEvents, (stateCheckReply_only h5).pdEvents,
      notifyCommand_only.pdEvents, adv (p2 := (Phy.stateReset p2 false).1) rfl (k1.trans h2.keeps.1) (over_pre h3 h5)
        (by show Pending C p env p2.reqEventSend p2.eph; rw [k4, k5]; exact h2.pending I.cp B) h6]
    rfl

/-- **C18 for events (partial: not for security block types 0x11 to 0x14, see `C18_forged`).**  Full statement: with an active
secure channel, the CP delivers a card read/keypad/status event only from a reply whose MAC verified.

If a visit that begins with an active secure channel delivers an event, then it is the one carried by a packet received up to then,
which carries the MAC of the session or has a security block of a type from 0x11 to 0x14. -/
theorem C18_events_partial (C : Cipher) (info : PdM.Info) (p q : Pd) (cb : Bool) (env : Env) (outs : List Out) (e : Event)
    (hr : Reached C info p) (hact : p.flags.scActive = true) (h : step C p (.update cb env) = .ok (q, outs)) (he : e ∈ pdEvents outs) :
    ∃ f ctl id body, Intact f ∧ f.Sublist (pend p ++ env.recv.flatten) ∧ f[4]? = some ctl ∧ ctl &&& 0x08#8 ≠ 0#8 ∧
      replyOf C p env = some (id, body) ∧ Spec.Event.Reads id.toNat body e ∧
      ((∃ ty, f[6]? = some ty ∧ 0x11 ≤ ty.toNat ∧ ty.toNat ≤ 0x14) ∨ Verified C p f) := by
  have hon : p.state = .online := by
    rcases hr.inv.secure hact with h' | h'
    · exact h'
    · obtain ⟨⟨s1, o1, y⟩, hu, h⟩ := Res.bind_eq_ok.mp h
      injection h with h; injection h with e1 e2; subst e1 e2
      rw [(stateUpdate_inv hr.inv.cp hu).installing hr.inv hr.buffered hr.tidy.proper h'] at he; cases he
  rcases C57_partial C info p q cb env outs hr hon h with h0 | ⟨id, body, e', h1, h2, h3⟩
  · rw [h0] at he; cases he
  rw [h3, List.mem_singleton] at he; subst he
  obtain ⟨f, ctl, a, g1, g2, g3, -, -, g4⟩ := C18_partial C info p env id body hr hact h1
  rcases g4 with ⟨-, -, hid⟩ | ⟨g4, g5⟩ | ⟨g4, g5⟩
  · exfalso
    have : id.toNat = Id.NAK ∨ id.toNat = Id.ACK := hid.imp_right (·.1)
    generalize id.toNat = n at h2 this
    cases h2 <;> rcases this with h | h <;> exact absurd h (by decide)
  · exact ⟨f, ctl, id, body, g1, g2, g3, g4, h1, h2, .inl g5⟩
  · exact ⟨f, ctl, id, body, g1, g2, g3, g4, h1, h2, .inr g5⟩

/-! ### examples and witness -/

/-- the CP is in a secure session and has sent a POLL -/
def securely : Sample.Talk := (Sample.talk.turns xorCipher 20 20).turns xorCipher 60 1

/-- what the CP delivers when it hears `bs` instead of the answer of the PD -/
def delivers (bs : List Byte) : Option (List Event × Bool) :=
  (step xorCipher securely.cp (Sample.hears bs 460)).toOption.map fun r => (pdEvents r.2, r.1.flags.scActive)

/-- what the PD of the session would answer, with a card read in the queue -/
def cardRead : List Byte :=
  ((Sample.talk.turns xorCipher 20 20).pdDoes xorCipher (.notify (.cardread ⟨0, .rawWiegand, 0, 26, .padTo 64 [0x11, 0x22, 0x33, 0x40]⟩))).turn xorCipher 60
    |>.toCp

/-- the hypotheses are met: the session is active, a reply is awaited, and an authenticated card read is delivered; neither a
plain one nor one with a wrong MAC is -/
example : (securely.bad = false ∧ securely.cp.flags.scActive = true ∧ securely.cp.phyState = .replyWait ∧
      securely.cp.cmdId = Id.POLL) ∧
    (delivers cardRead).map (fun x => (x.1.length, x.2)) = some (1, true) ∧
    (delivers (Sample.reply (b8 securely.cp.seq.toNat) rawCard)).map (fun x => x.1) = some [] ∧
    (delivers (Packet.bytes ⟨true, 101#8 ||| 0x80#8, b8 securely.cp.seq.toNat ||| 0x0C#8, [2#8, 0x18#8], (cardRead.drop 8).take 17 ++ [0, 0, 0, 0]⟩)).map
      (fun x => x.1) = some [] := by decide +kernel

/-- a packet with a security block of a handshake type, and no MAC -/
def forgery : List Byte :=
  Packet.bytes ⟨true, 101#8 ||| 0x80#8, b8 securely.cp.seq.toNat ||| 0x0C#8, [2#8, 0x14#8], rawCard⟩

/-- **C18 violated.**  A card read with a security block of a handshake type and no MAC at all is delivered while the secure channel
is active: `osdp_phy_decode_packet` verifies MACs only for types 0x15 to 0x18 (src/osdp_phy.c:625-684). -/
theorem C18_forged : delivers forgery = some ([.cardread ⟨0, .rawWiegand, 0, 26, .padTo 64 [0x11, 0x22, 0x33, 0x40]⟩], true) := by decide +kernel

end Osdp.CpM
