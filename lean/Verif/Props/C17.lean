import Verif.Lemmas.Secure
import Verif.Props.C23

/-!
# C17: while its secure channel is active a PD acts only on authenticated commands

Proved: every packet the PD acts on is intact, addressed to it, and either carries a MAC that verifies under the keys and
the chaining value of the session, or has sequence number 0 (which ends the session before the packet is looked at), or
has a security block of one of the handshake types 0x11 to 0x14.  The last case is a violation of the property
(`C17_forged`), so the theorem is only partial.
-/

namespace Osdp.PdM

open Spec.Wire Spec.Session
open Phy (heldFrame pend Framed)

/-- The PD acted on something: the application's callback or one of its file operations was called, or a queued event
was taken. -/
def Acted (q s : Pd) (outs : List Out) : Prop :=
  (∃ o ∈ outs, o ≠ .fclose ∧ o ≠ .flush ∧ ∀ bs, o ≠ .send bs) ∨ s.eventQueue ≠ q.eventQueue

/-- A refresh in which the PD acts on something has decoded a command in it. -/
theorem refresh_acted {C : Cipher} {p s : Pd} {env : Env} {outs : List Out} (hp : p.flags.pdMode = true)
    (h : refresh C p env = .ok (s, outs)) (hc : Acted p s outs) :
    ∃ p1 p2 d, Phy.checkPacket (expire p env.now) env = .ok (p1, .none) ∧ Phy.Checked (expire p env.now) p1 .none ∧
      Phy.decodePacket C p1 = .ok (p2, d) ∧ 0 < d.len := by
  obtain ⟨q, o1, ret, o2, hg, hp1, hf, rfl⟩ := refresh_inv hp h
  have hev : (expire p env.now).eventQueue = p.eventQueue := (expire_fields p env.now).1.events
  have tl := (finished_tail hf).events
  have key : o1 = [] → q.eventQueue = p.eventQueue → False := by
    rintro rfl h2
    rcases hc with ⟨o, ho, n1, n2, n3⟩ | hc
    · rcases finished_outs hf o (by simpa using ho) with h | h | ⟨bs, h⟩
      · exact n1 h
      · exact n2 h
      · exact n3 bs h
    · exact hc (tl.trans h2)
  cases hg with
  | nothing _ hk _ => exact (key rfl ((transp_untouched hk.transp).events.trans hev)).elim
  | skip _ hk => exact (key rfl ((transp_untouched hk.transp).events.trans hev)).elim
  | seq _ hk => exact (key rfl ((transp_untouched hk.transp).events.trans hev)).elim
  | refused _ hk _ hd _ => exact (key rfl (((transp_untouched hd.transp).events.trans (transp_untouched hk.transp).events).trans hev)).elim
  | insecure _ hk _ hd _ _ _ => exact (key rfl (((transp_untouched hd.transp).events.trans (transp_untouched hk.transp).events).trans hev)).elim
  | command h1 h2 h3 h4 h5 h6 h7 h8 h9 h10 h11 => exact ⟨_, _, _, h1, h2, h3, h5⟩

/-- **C17 (partial: not for security block types 0x11 to 0x14, see `C17_forged`).**  For every PD in any state it can get
into with an active secure channel that has not timed out, and whatever it receives: if it acts on something in a
refresh, then there is a packet `f` among the bytes received up to then, intact and addressed to the PD, such that
* its sequence number is 0 (such a packet ends the session before it is processed), or
* its security block has one of the types 0x11 to 0x14, or
* it carries the MAC of the session. -/
theorem C17_authenticated_partial (C : Cipher) (info : Info) (q s : Pd) (env : Env) (outs : List Out)
    (hq : Reached C info q) (hact : q.scActive = true) (hto : env.now - q.scTstamp ≤ 8000)
    (h : refresh C q env = .ok (s, outs)) (ha : Acted q s outs) :
    ∃ f ctl, Intact f ∧ CommandFor q.address f ∧ f.Sublist (pend q ++ env.recv.flatten) ∧ f[4]? = some ctl ∧
      (ctl.toNat % 4 = 0 ∨
       (ctl &&& 0x08#8 ≠ 0#8 ∧ ∃ ty, f[6]? = some ty ∧ 0x11 ≤ ty.toNat ∧ ty.toNat ≤ 0x14) ∨
       (ctl &&& 0x08#8 ≠ 0#8 ∧ Authentic C q.sc.sMac1 q.sc.sMac2 q.sc.rMac f)) := by
  have hp := hq.pdMode
  have hexp : expire q env.now = q := by
    unfold expire
    rw [if_neg]
    rintro ⟨-, h⟩
    have : (8000 : Int) < env.now - q.scTstamp := h
    omega
  obtain ⟨p1, p2, d, h1, hck, h2, hd⟩ := refresh_acted hp h ha
  rw [hexp] at h1 hck
  have hst := Phy.checkPacket_stored hq.framed h1
  obtain ⟨w1, w2, w3, w4⟩ := hst.whole (.inl rfl)
  obtain ⟨p0, hcol, hb⟩ := Phy.checkPacket_body hq.framed h1 (.inl rfl)
  obtain ⟨a, ctl, -, hctl, hv⟩ := bodyFrame_pd (hcol.transp.pdMode.trans hp) hb (.inl rfl)
  have hsub : (heldFrame p1).Sublist (pend q ++ env.recv.flatten) :=
    ((List.sublist_append_left _ _).trans (heldFrame_pend w2)).trans hst.pend
  refine ⟨heldFrame p1, ctl, w3, w4 hp, hsub, hctl, ?_⟩
  rcases Nat.decEq (ctl.toNat % 4) 0 with hz | hz
  case isTrue => exact .inl hz
  refine .inr ?_
  have hact1 : p1.scActive = true := by
    have e : p1 = (Phy.seqVerdict (Phy.pdSeqAdvance (Phy.pdSeqPrep p0 (ctl.toNat % 4) ((a &&& 0x7F#8).toNat == 0x7F))) (ctl.toNat % 4)).1 :=
      congrArg Prod.fst hv
    have e0 : p0.flags.scActive = true := hcol.scActive.trans hact
    rw [e]
    unfold Phy.seqVerdict Phy.pdSeqAdvance Phy.pdSeqPrep
    dsimp only
    rw [if_neg hz]
    repeat' split
    all_goals exact e0
  have hlen : 6 ≤ (heldFrame p1).length := w3.min
  obtain ⟨ctl', hctl', hdec⟩ := Phy.decode_active hst.buf (hst.fits (.inl rfl)) w2 hlen hact1 h2 hd
  rw [hctl] at hctl'; injection hctl' with e; subst e
  have hscb : Phy.hasBit ctl Phy.CTL_SCB = true → ctl &&& 0x08#8 ≠ 0#8 := by
    intro h
    simpa [Phy.hasBit, Phy.CTL_SCB] using h
  have hpd1 : p1.isPd = true := hck.transp.pdMode.trans hp
  rcases hdec with ⟨-, d0, -, hr, -⟩ | ⟨hs, ty, hty, ⟨t1, t2⟩ | ⟨t1, t2, hau⟩⟩
  · exfalso
    unfold Phy.plainRefused at hr
    rw [if_neg (by unfold Pd.isCp; unfold Pd.isPd at hpd1; rw [hpd1]; decide)] at hr
    rw [hact1] at hr; cases hr
  · exact .inl ⟨hscb hs, ty, hty, t1, t2⟩
  · refine .inr ⟨hscb hs, ?_⟩
    rw [if_pos hpd1, hck.sc] at hau
    exact hau

/-- a PD with an active secure channel and a queued event, and the number of the next command -/
def inSession : Res (Pd × List Out) :=
  run Aes.aes Sample.pd [.notify (.keypress ⟨0, 1, .padTo 64 [5#8]⟩), .refresh (Sample.env (Sample.chlng 0#8)),
    .refresh (Sample.env (Sample.scrypt 1#8 (Sample.session Aes.aes Sample.key)))]

/-- what the PD does with `bs` received in this session: commands handed to the application, events left, secure channel
still active -/
def thenGets (bs : List Byte) : Option (Nat × Nat × Bool) :=
  (inSession.toOption.bind fun r => (refresh Aes.aes r.1 (Sample.env bs)).toOption).map fun r =>
    ((Sample.asked r.2).length, r.1.eventQueue.length, r.1.scActive)

/-- Non-vacuity: the session is active and in time; an authenticated BUZ is executed, and an authenticated POLL takes the
event.  A BUZ or POLL in plain text is not executed, nor a BUZ with a wrong MAC. -/
example : (inSession.toOption.map fun r => (r.1.scActive, decide ((Sample.env []).now - r.1.scTstamp ≤ 8000), r.1.eventQueue.length)) =
      some (true, true, 1) ∧
    thenGets (Sample.secCmd Aes.aes (Sample.session Aes.aes Sample.key) 2#8 0x6A#8 [0, 2, 3, 4, 5]).1 = some (1, 1, true) ∧
    thenGets (Sample.secCmd Aes.aes (Sample.session Aes.aes Sample.key) 2#8 0x60#8 []).1 = some (0, 0, true) ∧
    thenGets (Sample.cmd 2#8 [0x6A#8, 0, 2, 3, 4, 5]) = some (0, 1, true) ∧
    thenGets (Sample.cmd 2#8 [0x60#8]) = some (0, 1, true) ∧
    thenGets (Sample.scbCmd 2#8 [2#8, 0x15#8] [0x6A#8, 0, 2, 3, 4, 5, 1, 1, 1, 1]) = some (0, 1, false) := by decide +kernel

/-- **C17 violated.**  A command with a security block of a handshake type (here 0x11) and no MAC at all is executed
while the secure channel is active: `osdp_phy_decode_packet` verifies MACs only for types 0x15 to 0x18
(src/osdp_phy.c:625-684).  Here a BUZ and a POLL. -/
theorem C17_forged :
    thenGets (Sample.scbCmd 2#8 [3#8, 0x11#8, 1#8] [0x6A#8, 0, 2, 3, 4, 5]) = some (1, 1, true) ∧
    thenGets (Sample.scbCmd 2#8 [3#8, 0x11#8, 1#8] [0x60#8]) = some (0, 0, true) := by decide +kernel

/-- Even a new key is accepted this way, without knowledge of the current one. -/
theorem C17_forged_keyset :
    ((inSession.toOption.bind fun r => (refresh Aes.aes r.1 (Sample.env (Sample.scbCmd 2#8 [3#8, 0x11#8, 1#8]
      (0x75#8 :: 1#8 :: 16#8 :: List.replicate 16 0xEE#8)))).toOption).map fun r => r.1.sc.scbk.1) =
    some (List.replicate 16 0xEE#8) := by decide +kernel

end Osdp.PdM
