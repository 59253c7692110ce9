import Verif.Props.C39Sc
import Verif.Props.C68
import Verif.Props.C80

/-!
# C80 in a secure session
-/

namespace Osdp.PdM

open Spec.Wire Spec.Sealed Spec.Session
open Spec.Command (Valid encode carried asked)
open Phy (Arrives pktAddr pdAccept reload decodeFrame setNak)

theorem ack_built (C : Cipher) (p : Pd) (env : Env) (t : Phy.Tx) (m : Int) (hid : p.replyId = Id.ACK) (hm : 1 < m) :
    replyBody C p env t m = .ok ⟨p, t, [], .ok [b8 Id.ACK]⟩ := by
  unfold replyBody
  rw [hid]
  have ha : assertLen 1 m = .ok () := by unfold assertLen; exact if_pos hm
  simp [ha]

theorem nak_built (C : Cipher) (p : Pd) (env : Env) (t : Phy.Tx) (m : Int) (code : Byte) (hid : p.replyId = Id.NAK) (he : p.eph = .nak code)
    (hm : 2 < m) : replyBody C p env t m = .ok ⟨p, t, [], .ok [b8 Id.NAK, code]⟩ := by
  unfold replyBody
  rw [hid, he]
  have ha : assertLen 2 m = .ok () := by unfold assertLen; exact if_pos hm
  simp only [Id.NAK, Id.ACK, Id.PDID, Id.PDCAP, Id.OSTATR, Id.ISTATR, Id.LSTATR, Id.RSTATR, Id.KEYPAD, Id.RAW, Id.COM]
  simp [ha]

/-- a PD in a session whose reply can be built sends it sealed and stays in the session -/
theorem sealed_answer {C : Cipher} {P q : Pd} {env : Env} {o : List Out} {ret : PdRet} {d0 : Byte} {body : List Byte} (p1 : P.scActive = true)
    (p2 : P.flags.pdMode = true) (hret : ret = .none ∨ ret = .reply) (htx : 164 ≤ P.txBufSize) (hk : P.cmdId ≠ Id.KEYSET)
    (hb : ∀ X : Pd, X.replyId = P.replyId → X.eph = P.eph → ∀ t (m : Int), 2 < m → replyBody C X env t m = .ok ⟨X, t, [], .ok (d0 :: body)⟩)
    (h : finish C P env ret = .ok (q, o)) :
    ∃ bs f msg', sent o = [bs] ∧ OnWire bs f env.sendCap ∧
      Sealed C P.sc.sEnc P.sc.sMac1 P.sc.sMac2 P.sc.cMac 0x16#8 0x18#8 f msg' d0 body ∧ (∀ c, Out.cmd c ∉ o) ∧ q.scActive = true := by
  have hfin := finish_inv p2 h
  cases hfin with
  | keep hr => rcases hret with rfl | rfl <;> simp at hr
  | reset hr => rcases hret with rfl | rfl <;> simp at hr
  | @reply s _ outs' ok _ hsend haft =>
    obtain ⟨X, hX⟩ : ∃ X, X = touch P ret env.now := ⟨_, rfl⟩
    rw [← hX] at hsend
    have hXf : X.eph = P.eph ∧ X.replyId = P.replyId ∧ X.txBufSize = P.txBufSize ∧ X.sc = P.sc ∧ X.scActive = true ∧
        X.flags.pdMode = true ∧ X.cmdId = P.cmdId := by
      rw [hX]; unfold touch; split <;> exact ⟨rfl, rfl, rfl, rfl, p1, p2, rfl⟩
    obtain ⟨x2, x3, x4, x5, x6, x7, x8⟩ := hXf
    obtain ⟨r, hsent, hlen, -⟩ := sends hsend (by omega)
    obtain ⟨f, msg', id, data, b, hwire, hb', hbody, hsealed, -⟩ := Link.reply_sealed x7 x6 hsend (bs := r.bytes.take env.sendCap) (by rw [hsent]; simp)
    have hd := Link.replyTx_dataOff X
    rw [hb (unbc X) x3 x2 _ _ (by omega)] at hb'
    injection hb' with hb'; subst hb'
    injection (show d0 :: body = id :: data from hbody) with e1 e2
    subst e1 e2
    have hq' : (∀ c, Out.cmd c ∉ o) ∧ s.scActive = true ∧ s.cmdId = P.cmdId := by
      cases hsend with
      | mute hm => omega
      | built b _ outs _ hb' ho hh hs hc hl =>
        rw [hb (unbc X) x3 x2 _ _ (by omega)] at hb'
        injection hb' with hb'; subst hb'
        refine ⟨fun c hc' => ?_, ?_, ?_⟩
        · rcases hc with ⟨rfl, -⟩ | ⟨wire, q', -, -, -, rfl, -⟩
          · simp at hc'
          · simp [Phy.sendOuts] at hc'
        · rw [hs.buf]; exact x6
        · rw [hs.buf]; exact x8
    refine ⟨_, f, msg', hsent, hwire, ?_, hq'.1, ?_⟩
    · rcases hsealed with hs | ⟨-, -, ⟨n, hn⟩, -⟩
      · rw [x5] at hs; exact hs
      · cases hn
    · rcases afterSend_inv haft with ⟨rfl, -⟩ | ⟨-, hx, -⟩
      · exact hq'.2.1
      · rw [hq'.2.2] at hx; exact absurd hx hk

/-- a command of a session with data, sealed by the CP, gets to the code that carries it out -/
theorem sealed_heard {C : Cipher} {p : Pd} {k : Packet} {env : Env} {msg : List Byte} {id : Byte} {data : List Byte}
    (hp : p.flags.pdMode = true) (hi : Phy.Idle p) (hact : p.scActive = true) (hcp : p.scCapable = true) (hk : ForUs p k) (hne : k.seq ≠ 0)
    (ha : Arrives env k.bytes) (h8 : 2 ≤ k.scb.length)
    (hf : Sealed C p.sc.sEnc p.sc.sMac1 p.sc.sMac2 p.sc.rMac 0x15#8 0x17#8 k.frame msg id data) :
    ∃ hh, receiveAndProcess C p env =
      commanded (reload (Phy.setSc (pdAccept p k.seq (pktAddr k == 127)) (Phy.chained C true p.sc msg)) hh) env id data := by
  obtain ⟨A, hA⟩ : ∃ A, A = pdAccept p k.seq (pktAddr k == 127) := ⟨_, rfl⟩
  have a1 : A.scActive = true := by
    rw [hA]
    show (p.flags.scActive && k.seq != 0) = true
    rw [show p.flags.scActive = true from hact]
    simpa using hne
  have a2 : A.isPd = true := by rw [hA]; exact hp
  have asc : A.sc = p.sc := by rw [hA]; rfl
  obtain ⟨tag, ctl, pl, hfr, htag, hpl⟩ := hf.frame
  have hdec := Phy.decodeFrame_secured C A hfr (by split <;> decide) a1 (fun _ => by rw [hA]; exact hcp)
  rw [a2, asc, if_pos (show tag = (Phy.macOf C true p.sc msg).1.take 4 from htag)] at hdec
  have hdec' : decodeFrame C A k.frame = .ok (Phy.setSc A (Phy.chained C true p.sc msg), ((id :: data).length : Int), id :: data) := by
    rw [hdec]
    by_cases hd : data = []
    · rw [if_pos hd] at hpl
      rw [if_neg (by rw [if_pos hd]; decide), hpl, hd]; rfl
    · rw [if_neg hd] at hpl
      rw [if_pos (by rw [if_neg hd]; exact .inl rfl), decryptData_opens (sc := Phy.chained C true p.sc msg) (isCmd := true) _ hpl.1]
      rfl
  rw [hA] at hdec'
  obtain ⟨hh, -, hrec⟩ := receive_delivers C p _ k env id data hp hi hk ha hdec' (fun _ => h8)
  exact ⟨hh, hrec⟩

/-- the whole exchange in a session, for every value the callback may return -/
theorem verdict_sealed (C : Cipher) (p q : Pd) (k : Packet) (env : Env) (c : Cmd) (f : Nat → Cmd → Int × Cmd) (msg : List Byte) (d0 : Byte)
    (rest : List Byte) (outs : List Out)
    (hp : p.flags.pdMode = true) (hi : Phy.Idle p) (hact : p.scActive = true) (hfresh : env.now - p.scTstamp ≤ 8000)
    (hcp : p.scCapable = true) (hk : ForUs p k) (hne : k.seq ≠ 0) (ha : Arrives env k.bytes) (h8 : 2 ≤ k.scb.length)
    (he : encode c = d0 :: rest) (hf : Sealed C p.sc.sEnc p.sc.sMac1 p.sc.sMac2 p.sc.rMac 0x15#8 0x17#8 k.frame msg d0 rest)
    (htx : 164 ≤ p.txBufSize) (hac : Acked c) (hv : Valid true c) (hmay : MayAsk p.cap c) (hcb : env.cb = some f)
    (h : refresh C p env = .ok (q, outs)) :
    ∃ bs g msg' id data, asked outs = [carried c] ∧ sent outs = [bs] ∧ OnWire bs g env.sendCap ∧
      (if (decided p c (f 0 (carried c)).1).2 = .none then [b8 Id.ACK] else [b8 Id.NAK, Nak.RECORD]) = id :: data ∧
      Sealed C p.sc.sEnc p.sc.sMac1 p.sc.sMac2 (mac C p.sc.sMac1 p.sc.sMac2 p.sc.rMac msg) 0x16#8 0x18#8 g msg' id data ∧
      q.scActive = true := by
  have hexp : expire p env.now = p := Link.expire_recent hfresh
  obtain ⟨hc1, hc2⟩ := acked_code hac
  have hd0 : d0 = b8 (codeOf c) := by
    cases c <;> first | exact hac.elim | (injection he with e _; exact e.symm)
  obtain ⟨hh, hrec⟩ := sealed_heard hp hi hact hcp hk hne ha h8 hf
  obtain ⟨P, hP⟩ : ∃ P, P = noteCmd (reload (Phy.setSc (pdAccept p k.seq (pktAddr k == 127)) (Phy.chained C true p.sc msg)) hh) d0 := ⟨_, rfl⟩
  have p1 : P.scActive = true := by
    rw [hP]
    show (p.flags.scActive && k.seq != 0) = true
    rw [show p.flags.scActive = true from hact]
    simpa using hne
  have p2 : P.flags.pdMode = true := by rw [hP]; exact hp
  have p4 : P.cap = p.cap := by rw [hP]; rfl
  have p5 : P.txBufSize = p.txBufSize := by rw [hP]; rfl
  have p6 : P.sc = Phy.chained C true p.sc msg := by rw [hP]; rfl
  have p7 : P.cmdId = codeOf c := by
    rw [hP, hd0]
    show (b8 (codeOf c)).toNat = _
    simp [b8]; omega
  unfold commanded at hrec
  rw [← hP, if_neg (by unfold plainRefused; rw [p1]; simp)] at hrec
  clear hP
  rw [dispatch_decided (p := P) hac hv (by rw [p4]; exact hmay) p7 hcb (by rw [he, hd0])] at hrec
  unfold refresh at h
  rw [hexp, hrec] at h
  simp only [Res.ok_bind] at h
  obtain ⟨⟨q', o2⟩, h2, h⟩ := Res.bind_eq_ok.mp h
  injection h with h; injection h with e1 e2; subst e1 e2
  have ends : ∀ {Q : Pd} {ret : PdRet} {id : Byte} {data : List Byte}, finish C Q env ret = .ok (q', o2) → Q.scActive = true → Q.flags.pdMode = true →
      Q.txBufSize = p.txBufSize → Q.sc = P.sc → Q.cmdId = codeOf c → (ret = .none ∨ ret = .reply) →
      (∀ X : Pd, X.replyId = Q.replyId → X.eph = Q.eph → ∀ t (m : Int), 2 < m → replyBody C X env t m = .ok ⟨X, t, [], .ok (id :: data)⟩) →
      ∃ bs g msg' id' data', asked ([.cmd (carried c)] ++ o2) = [carried c] ∧ sent ([.cmd (carried c)] ++ o2) = [bs] ∧ OnWire bs g env.sendCap ∧
      id :: data = id' :: data' ∧
      Sealed C p.sc.sEnc p.sc.sMac1 p.sc.sMac2 (mac C p.sc.sMac1 p.sc.sMac2 p.sc.rMac msg) 0x16#8 0x18#8 g msg' id' data' ∧
      q'.scActive = true := by
    intro Q ret id data hf q1 q2 q3 q4 q5 hr hb
    obtain ⟨bs, g, msg', r1, r2, r3, r4, r5⟩ := sealed_answer q1 q2 hr (by omega) (by rw [q5]; exact hc2) hb hf
    refine ⟨bs, g, msg', id, data, ?_, r1, r2, rfl, ?_, r5⟩
    · rw [verdict_asked_append, asked_none r4]; rfl
    · rw [q4, p6] at r3; exact r3
  have setNak_flags : (setNak P Nak.RECORD).scActive = true ∧ (setNak P Nak.RECORD).flags.pdMode = true := ⟨p1, p2⟩
  by_cases hz : (f 0 (carried c)).1 = 0
  · have hde : ∀ P : Pd, decided P c (f 0 (carried c)).1 = ({ P with replyId := Id.ACK }, .none) := fun P => by
      unfold decided; rw [if_pos hz]
    rw [hde] at h2
    rw [hde, if_pos rfl]
    exact ends h2 p1 p2 p5 rfl p7 (.inl rfl) fun X h1 _ t m hm => ack_built C X env t m h1 (by omega)
  · by_cases hlone : ∀ P : Pd, decided P c (f 0 (carried c)).1 = (setNak P Nak.RECORD, .reply)
    · rw [hlone] at h2
      rw [hlone, if_neg (by simp)]
      exact ends h2 p1 p2 p5 rfl p7 (.inr rfl) fun X h1 h2 t m hm => nak_built C X env t m _ h1 (h2.trans (setNak_eph p2 _)) hm
    · have hde : ∀ P : Pd, decided P c (f 0 (carried c)).1 = ({ setNak P Nak.RECORD with replyId := Id.ACK }, .none) := fun P => by
        unfold decided at hlone ⊢
        rw [if_neg hz]
        simp only [if_neg hz] at hlone
        cases c <;> first | rfl | exact absurd (fun _ => rfl) hlone
      rw [hde] at h2
      rw [hde, if_pos rfl]
      exact ends h2 p1 p2 p5 rfl p7 (.inl rfl) fun X h1 _ t m hm => ack_built C X env t m h1 (by omega)

/-- **C80 in a secure session (partial: values up to 0, negative ones for TEXT and MFG only).**  A command of the session that is answered
with ACK when carried out arrives at a PD whose session is active and not timed out.  The callback gets that command, once; the PD sends
one packet, sealed under the session, with the reply promised for the value returned; the session stays. -/
theorem C80_secure_partial (C : Cipher) (p q : Pd) (k : Packet) (env : Env) (c : Cmd) (f : Nat → Cmd → Int × Cmd) (m msg : List Byte) (d0 : Byte)
    (rest : List Byte) (outs : List Out)
    (hp : p.flags.pdMode = true) (hi : Phy.Idle p) (hact : p.scActive = true) (hfresh : env.now - p.scTstamp ≤ 8000)
    (hcp : p.scCapable = true) (hk : ForUs p k) (hne : k.seq ≠ 0) (ha : Arrives env k.bytes) (h8 : 2 ≤ k.scb.length)
    (he : encode c = d0 :: rest) (hf : Sealed C p.sc.sEnc p.sc.sMac1 p.sc.sMac2 p.sc.rMac 0x15#8 0x17#8 k.frame msg d0 rest)
    (htx : 164 ≤ p.txBufSize) (hac : Acked c) (hv : Valid true c) (hmay : MayAsk p.cap c) (hcb : env.cb = some f)
    (hle : (f 0 (carried c)).1 ≤ 0) (hneg : (f 0 (carried c)).1 < 0 → (∃ t, c = .text t) ∨ ∃ t, c = .mfg t)
    (h : refresh C p env = .ok (q, outs)) :
    ∃ bs g msg' id data, asked outs = [carried c] ∧ sent outs = [bs] ∧ OnWire bs g env.sendCap ∧
      promised (f 0 (carried c)).1 m = id :: data ∧
      Sealed C p.sc.sEnc p.sc.sMac1 p.sc.sMac2 (mac C p.sc.sMac1 p.sc.sMac2 p.sc.rMac msg) 0x16#8 0x18#8 g msg' id data ∧
      q.scActive = true := by
  have e : (if (decided p c (f 0 (carried c)).1).2 = .none then [b8 Id.ACK] else [b8 Id.NAK, Nak.RECORD]) =
      promised (f 0 (carried c)).1 m := by
    unfold promised decided
    by_cases hz : (f 0 (carried c)).1 = 0
    · rw [if_pos hz, if_pos hz]; rfl
    · have hlt : (f 0 (carried c)).1 < 0 := by omega
      rw [if_neg hz, if_neg hz, if_pos hlt]
      rcases hneg hlt with ⟨t, rfl⟩ | ⟨t, rfl⟩ <;> rfl
  rw [← e]
  exact verdict_sealed C p q k env c f msg d0 rest outs hp hi hact hfresh hcp hk hne ha h8 he hf htx hac hv hmay hcb h

/-- **C80 fails for every positive value in a session too**: the manufacturer command is answered with a sealed NAK. -/
theorem C80_secure_no_mfgrep (C : Cipher) (p q : Pd) (k : Packet) (env : Env) (x : CmdMfg) (f : Nat → Cmd → Int × Cmd) (msg : List Byte) (d0 : Byte)
    (rest : List Byte) (outs : List Out)
    (hp : p.flags.pdMode = true) (hi : Phy.Idle p) (hact : p.scActive = true) (hfresh : env.now - p.scTstamp ≤ 8000)
    (hcp : p.scCapable = true) (hk : ForUs p k) (hne : k.seq ≠ 0) (ha : Arrives env k.bytes) (h8 : 2 ≤ k.scb.length)
    (he : encode (.mfg x) = d0 :: rest) (hf : Sealed C p.sc.sEnc p.sc.sMac1 p.sc.sMac2 p.sc.rMac 0x15#8 0x17#8 k.frame msg d0 rest)
    (htx : 164 ≤ p.txBufSize) (hv : x.length.toNat ≤ 64) (hcb : env.cb = some f) (hpos : 0 < (f 0 (carried (.mfg x))).1)
    (h : refresh C p env = .ok (q, outs)) :
    ∃ bs g msg', asked outs = [carried (.mfg x)] ∧ sent outs = [bs] ∧ OnWire bs g env.sendCap ∧
      Sealed C p.sc.sEnc p.sc.sMac1 p.sc.sMac2 (mac C p.sc.sMac1 p.sc.sMac2 p.sc.rMac msg) 0x16#8 0x18#8 g msg' 0x41#8 [0x09#8] ∧
      q.scActive = true := by
  have hz : (f 0 (carried (.mfg x))).1 ≠ 0 := by omega
  obtain ⟨bs, g, msg', id, data, h1, h2, h3, h4, h5, h6⟩ := verdict_sealed C p q k env (.mfg x) f msg d0 rest outs hp hi hact hfresh hcp hk hne ha h8
    he hf htx trivial hv trivial hcb h
  have e : (decided p (.mfg x) (f 0 (carried (.mfg x))).1).2 = .reply := by unfold decided; rw [if_neg hz]
  rw [e, if_neg (by simp)] at h4
  injection h4 with e1 e2
  subst e1 e2
  exact ⟨bs, g, msg', h1, h2, h3, h5, h6⟩

/-- a manufacturer command -/
def vendorCmd : CmdMfg := ⟨0x030201#32, 4, 1, .padTo 64 [5]⟩

/-- its encipherment in the session of the examples -/
def vendorData : List Byte :=
  [0x27#8, 0x5b#8, 0x7b#8, 0xc3#8, 0xd9#8, 0x50#8, 0xc8#8, 0xd2#8, 0x4d#8, 0x27#8, 0xb1#8, 0x50#8, 0x8a#8, 0xc2#8, 0xe9#8, 0x48#8]

/-- its packet -/
def vendorPkt : Packet := ⟨true, 101#8, 14#8, [2#8, 0x17#8], 0x80#8 :: vendorData ++ [0x23#8, 0x18#8, 0xf3#8, 0x07#8]⟩

example : encode (.mfg vendorCmd) = 0x80#8 :: [1, 2, 3, 4, 5] ∧ Valid true (.mfg vendorCmd) := by
  refine ⟨by decide +kernel, ?_⟩
  show vendorCmd.length.toNat ≤ 64
  decide +kernel

/-- Non-vacuity: the packet is sealed under the session of the PD of the examples, -/
example : Sealed Aes.aes talkingPd.sc.sEnc talkingPd.sc.sMac1 talkingPd.sc.sMac2 talkingPd.sc.rMac 0x15#8 0x17#8
    vendorPkt.frame ([0x53#8, 101#8, 30#8, 0#8, 14#8, 2#8, 0x17#8, 0x80#8] ++ vendorData) 0x80#8 [1, 2, 3, 4, 5] := by
  refine ⟨⟨[0x23#8, 0x18#8, 0xf3#8, 0x07#8], 14#8, vendorData, ?_, by decide +kernel, ?_⟩⟩
  · refine ⟨⟨101#8, 30#8, 0#8, 2#8, [], vendorPkt.frame.drop 28, rfl, by decide +kernel, rfl, by decide +kernel⟩, by decide, rfl, by decide +kernel⟩
  · rw [if_neg (by decide)]
    exact ⟨⟨by decide, 10, by decide +kernel⟩, by decide⟩

example : ForUs talkingPd vendorPkt ∧ Arrives (Sample.envGives 0 vendorPkt.bytes) vendorPkt.bytes := by
  refine ⟨?_, ?_⟩
  · apply ForUs.mk <;> decide +kernel
  · unfold Arrives; decide +kernel

/-- which meets the other hypotheses (`talkingPd` in C36Sc), and sends an ACK (15 bytes) or a sealed NAK (31 bytes). -/
example : ([0, -1, 1].map fun v => (refresh Aes.aes talkingPd (Sample.envGives v vendorPkt.bytes)).toOption.map fun r =>
      (asked r.2, (sent r.2).map List.length, r.1.scActive)) =
    [some ([.mfg vendorCmd], [15], true), some ([.mfg vendorCmd], [31], true), some ([.mfg vendorCmd], [31], true)] := by
  decide +kernel

end Osdp.PdM
