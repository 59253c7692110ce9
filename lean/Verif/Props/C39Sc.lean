import Verif.Props.C31
import Verif.Props.C36Sc
import Verif.Props.C39
import Verif.Props.C64

/-!
# C39 in a secure session: the event on the wire
-/

namespace Osdp.PdM

open Spec.Wire Spec.Sealed Spec.Session
open Phy (Arrives pktAddr pdAccept reload decodeFrame)

/-- **C39, the event on the wire of a secure session.**  A POLL of the session arrives at a PD whose session is active and not timed out and which has
events queued, the oldest of which is valid: exactly one packet is sent, it is sealed under the session and carries that event, the event leaves the queue
and the session stays. -/
theorem C39_poll_delivers_secure (C : Cipher) (p q : Pd) (k : Packet) (env : Env) (msg : List Byte) (e : Event) (rest : List Event)
    (outs : List Out) (hp : p.flags.pdMode = true) (hi : Phy.Idle p) (hact : p.scActive = true)
    (hfresh : env.now - p.scTstamp ≤ 8000) (hcp : p.scCapable = true) (hk : ForUs p k) (hne : k.seq ≠ 0)
    (ha : Arrives env k.bytes) (h8 : 2 ≤ k.scb.length)
    (hf : Sealed C p.sc.sEnc p.sc.sMac1 p.sc.sMac2 p.sc.rMac 0x15#8 0x17#8 k.frame msg 0x60#8 [])
    (he : p.eventQueue = e :: rest) (hv : Spec.Event.Valid (ins p) (outsN p) e)
    (htx : 164 ≤ p.txBufSize) (h : refresh C p env = .ok (q, outs)) :
    ∃ bs f msg' id data, sent outs = [bs] ∧ OnWire bs f env.sendCap ∧ Spec.Event.encode e = id :: data ∧
      Sealed C p.sc.sEnc p.sc.sMac1 p.sc.sMac2 (mac C p.sc.sMac1 p.sc.sMac2 p.sc.rMac msg) 0x16#8 0x18#8 f msg' id data ∧
      (∀ c, Out.cmd c ∉ outs) ∧ q.eventQueue = rest ∧ q.scActive = true := by
  have hexp : expire p env.now = p := Link.expire_recent hfresh
  obtain ⟨A, hA⟩ : ∃ A, A = pdAccept p k.seq (pktAddr k == 127) := ⟨_, rfl⟩
  have a1 : A.scActive = true := by
    rw [hA]
    show (p.flags.scActive && k.seq != 0) = true
    rw [show p.flags.scActive = true from hact]
    simpa using hne
  have a2 : A.isPd = true := by rw [hA]; exact hp
  have asc : A.sc = p.sc := by rw [hA]; rfl
  obtain ⟨tag, ctl, pl, hfr, htag, hpl⟩ := hf.frame
  rw [if_pos rfl] at hfr hpl
  subst hpl
  have hdec := Phy.decodeFrame_secured C A hfr (by decide) a1 (fun _ => by rw [hA]; exact hcp)
  rw [a2, asc, if_pos (show tag = (Phy.macOf C true p.sc msg).1.take 4 from htag), if_neg (by decide)] at hdec
  rw [hA] at hdec
  obtain ⟨hh, -, hrec⟩ := receive_delivers C p _ k env 0x60#8 [] hp hi hk ha hdec (fun _ => h8)
  rw [← hA] at hrec
  obtain ⟨P, hP⟩ : ∃ P, P = reload (Phy.setSc A (Phy.chained C true p.sc msg)) hh := ⟨_, rfl⟩
  rw [← hP] at hrec
  have p1 : P.scActive = true := by rw [hP]; exact a1
  have p2 : P.flags.pdMode = true := by rw [hP]; exact a2
  have p3 : P.eventQueue = e :: rest := by rw [hP, hA]; exact he
  have p4 : P.cap = p.cap := by rw [hP, hA]; rfl
  have p5 : P.txBufSize = p.txBufSize := by rw [hP, hA]; rfl
  have p6 : P.sc = Phy.chained C true p.sc msg := by rw [hP]; rfl
  clear hP
  unfold refresh at h
  rw [hexp, hrec] at h
  unfold commanded at h
  rw [if_neg (by unfold plainRefused; rw [show (noteCmd P 0x60#8).scActive = true from p1]; simp)] at h
  have hpe : pollEvent (noteCmd P 0x60#8) = { noteCmd P 0x60#8 with eventQueue := rest, eph := .event e, replyId := eventReply e } := by
    unfold pollEvent
    have : (noteCmd P 0x60#8).eventQueue = e :: rest := p3
    rw [this]
    dsimp only
    rw [if_neg (Link.eventReply_ne hv)]
  have hd : dispatch (noteCmd P 0x60#8) env [] =
      .ok ({ noteCmd P 0x60#8 with eventQueue := rest, eph := .event e, replyId := eventReply e }, [], .none) := by
    have hd : dispatch (noteCmd P 0x60#8) env [] = reply (pollEvent (noteCmd P 0x60#8)) (pollEvent (noteCmd P 0x60#8)).replyId := rfl
    rw [hd, hpe]; rfl
  rw [hd] at h
  simp only [Res.ok_bind] at h
  obtain ⟨⟨q', o2⟩, h2, h⟩ := Res.bind_eq_ok.mp h
  injection h with h; injection h with e1 e2; subst e1 e2
  have hfin := finish_inv (p := { noteCmd P 0x60#8 with eventQueue := rest, eph := .event e, replyId := eventReply e }) p2 h2
  have tl := finished_tail hfin
  clear h2
  cases hfin with
  | keep hr => simp at hr
  | reset hr => simp at hr
  | @reply s _ outs' ok _ hsend haft =>
    obtain ⟨X, hX⟩ : ∃ X, X = touch { noteCmd P 0x60#8 with eventQueue := rest, eph := .event e, replyId := eventReply e } PdRet.none env.now := ⟨_, rfl⟩
    rw [← hX] at hsend
    have hXf : X.cap = P.cap ∧ X.eph = .event e ∧ X.replyId = eventReply e ∧ X.txBufSize = P.txBufSize ∧ X.sc = P.sc ∧ X.scActive = true ∧
        X.flags.pdMode = true ∧ X.cmdId = 0x60 := by
      rw [hX]; unfold touch; split <;> exact ⟨rfl, rfl, rfl, rfl, rfl, p1, p2, rfl⟩
    obtain ⟨x1, x2, x3, x4, x5, x6, x7, x8⟩ := hXf
    obtain ⟨r, hsent, hlen, -⟩ := sends hsend (by omega)
    obtain ⟨f, msg', id, data, b, hwire, hb, hbody, hsealed, -⟩ := Link.reply_sealed x7 x6 hsend (bs := r.bytes.take env.sendCap) (by rw [hsent]; simp)
    have hel := encode_length _ _ _ hv
    have := Link.replyTx_dataOff X
    rw [event_built C (unbc X) env (replyTx X) _ e (by
      unfold ins outsN at *
      show Spec.Event.Valid ((X.cap 1).numItems.toNat) ((X.cap 2).numItems.toNat) e
      rw [x1, p4]; exact hv) x3 x2 (by omega)] at hb
    injection hb with hb; subst hb
    have hbody' : Spec.Event.encode e = id :: data := hbody
    have hq' : (∀ c, Out.cmd c ∉ o2) ∧ s.scActive = true ∧ s.cmdId = 0x60 := by
      cases hsend with
      | mute hm => omega
      | built b _ outs _ hb' ho hh hs hc hl =>
        rw [event_built C (unbc X) env (replyTx X) _ e (by
          unfold ins outsN at *
          show Spec.Event.Valid ((X.cap 1).numItems.toNat) ((X.cap 2).numItems.toNat) e
          rw [x1, p4]; exact hv) x3 x2 (by omega)] at hb'
        injection hb' with hb'; subst hb'
        refine ⟨fun c hc' => ?_, ?_, ?_⟩
        · rcases hc with ⟨rfl, -⟩ | ⟨wire, q', -, -, -, rfl, -⟩
          · simp at hc'
          · simp [Phy.sendOuts] at hc'
        · rw [hs.buf]; exact x6
        · rw [hs.buf]; exact x8
    refine ⟨_, f, msg', id, data, hsent, hwire, hbody', ?_, hq'.1, tl.events, ?_⟩
    · rcases hsealed with hs | ⟨rfl, rfl, -⟩
      · rw [x5, p6] at hs; exact hs
      · exfalso
        revert hbody'
        cases e with
        | notification => exact hv.elim
        | bad => exact hv.elim
        | status s => intro hbody'; injection hbody' with h1 _; revert h1; split <;> decide
        | _ => intro hbody'; injection hbody' with h1 _; exact absurd h1 (by decide)
    · rcases afterSend_inv haft with ⟨rfl, -⟩ | ⟨-, hx, -⟩
      · exact hq'.2.1
      · rw [hq'.2.2] at hx; exact absurd hx (by decide)

theorem talkingPoll_sealed : Sealed Aes.aes (sessionPd 2).sc.sEnc (sessionPd 2).sc.sMac1 (sessionPd 2).sc.sMac2 (sessionPd 2).sc.rMac 0x15#8 0x17#8
    (talkingPoll 227#8).frame [0x53#8, 101#8, 14#8, 0#8, 14#8, 2#8, 0x15#8, 0x60#8] 0x60#8 [] :=
  ⟨⟨_, _, _, talkingPoll_frame _ (.inl rfl), by decide +kernel, rfl⟩⟩

/-- Non-vacuity: the POLL of the session meets a PD with one event queued. -/
example : (sessionPd 2).flags.pdMode = true ∧
    ((sessionPd 2).packetBufLen, (sessionPd 2).packetLen, (sessionPd 2).packetBuf.length, (sessionPd 2).rx) = (0, 0, 256, []) ∧
    (sessionPd 2).scActive = true ∧ (sessionPd 2).scTstamp = 0 ∧ (sessionPd 2).scCapable = true ∧ (talkingPoll 227#8).seq ≠ 0 ∧
    (sessionPd 2).eventQueue = [.status ⟨.input, 2, 5⟩] ∧ 164 ≤ (sessionPd 2).txBufSize ∧ ins (sessionPd 2) = 2 ∧
    ((refresh Aes.aes (sessionPd 2) (Sample.env (talkingPoll 227#8).bytes)).toOption.map fun r =>
      ((sent r.2).map List.length, decide (r.1.eventQueue = []), r.1.scActive)) = some ([31], true, true) := by decide +kernel

example : ForUs (sessionPd 2) (talkingPoll 227#8) := by
  apply ForUs.mk <;> decide +kernel

end Osdp.PdM
