import Verif.Props.C36
import Verif.Lemmas.Secured
import Verif.Lemmas.DecodeFault
import Verif.Lemmas.PdSeq
import Verif.Lemmas.SampleSc

/-!
# C36 in a secure session: exactly one reply
-/

namespace Osdp.PdM

open Spec.Wire
open Phy (Arrives pktAddr pdAccept reload decodeFrame)

/-- whatever a PD is about to answer, one packet leaves -/
theorem answer_leaves {C : Cipher} {p q : Pd} {env : Env} {o : List Out} {ret : PdRet} {s : Nat} (hp : p.flags.pdMode = true)
    (hm : 164 ≤ p.txBufSize) (hret : ret = .none ∨ ret = .reply) (hcap : 256 ≤ env.sendCap) (hs : s < 4) (hseq : p.seq = (s : Int))
    (hadr : 0 ≤ p.address ∧ p.address ≤ 127) (h : finish C p env ret = .ok (q, o)) :
    ∃ r, sent o = [Packet.bytes r] ∧ r.seq = s ∧ r.addr.toNat = 128 + if p.flags.broadcast = true then 127 else p.address.toNat := by
  cases finish_inv hp h with
  | keep hr => rcases hret with rfl | rfl <;> simp at hr
  | reset hr => rcases hret with rfl | rfl <;> simp at hr
  | reply _ hsend _ =>
    have ht : (touch p ret env.now).txBufSize = p.txBufSize ∧ (touch p ret env.now).seq = p.seq ∧
        (touch p ret env.now).address = p.address ∧ (touch p ret env.now).flags.broadcast = p.flags.broadcast := by
      unfold touch; split <;> exact ⟨rfl, rfl, rfl, rfl⟩
    obtain ⟨t1, t2, t3, t4⟩ := ht
    rw [← t1] at hm
    rw [← t3] at hadr
    rw [← t3, ← t4]
    rw [← t2] at hseq
    generalize touch p ret env.now = P at *
    obtain ⟨r, e, hlen, ea, ec, -⟩ := sends hsend hm
    have hb : P.txBufSize ≤ 256 := by unfold Pd.txBufSize; split <;> omega
    rw [List.take_of_length_le (by omega)] at e
    refine ⟨r, e, ?_, ?_⟩
    · unfold Packet.seq
      rw [ec]
      have e : Phy.seqBits P.seq = s := by rw [hseq]; unfold Phy.seqBits; omega
      unfold replyTx
      dsimp only
      rw [e]
      split
      · exact (show ∀ n < 4, (b8 n ||| Phy.CTL_CRC ||| Phy.CTL_SCB : Byte).toNat % 4 = n by decide) _ hs
      · exact (show ∀ n < 4, (b8 n ||| Phy.CTL_CRC : Byte).toNat % 4 = n by decide) _ hs
    · rw [ea]
      unfold replyTx
      dsimp only
      by_cases h7 : P.flags.broadcast = true
      · rw [if_pos h7, if_pos h7]; rfl
      · rw [if_neg h7, if_neg h7, or80, Phy.i8_addr _ hadr]

/-- a command taken in by a PD, other than a file fragment, is going to be answered -/
theorem commanded_answers {p q : Pd} {env : Env} {d0 : Byte} {body : List Byte} {o : List Out} {ret : PdRet} (hp : p.flags.pdMode = true)
    (hft : d0.toNat ≠ Id.FILETRANSFER) (h : commanded p env d0 body = .ok (q, o, ret)) :
    q.flags.pdMode = true ∧ q.seq = p.seq ∧ q.address = p.address ∧ q.flags.broadcast = p.flags.broadcast ∧ sent o = [] ∧
      (ret = .none ∨ ret = .reply) := by
  unfold commanded at h
  split at h
  · split at h
    · injection h with h; injection h with e1 h; injection h with e2 e3; subst e1 e2 e3
      exact ⟨hp, rfl, rfl, rfl, rfl, .inr rfl⟩
    · cases h
  · have ho := dispatch_outcome (p := noteCmd p d0) hp h
    have st := steady_outcome ho
    refine ⟨?_, st.seq, st.addr, st.bc, outs_nosend ho, ?_⟩
    · cases ho with
      | plain hpl _ => rw [hpl.quiet.flags]; exact hp
      | poll _ _ => unfold pollEvent; split <;> exact hp
      | file _ _ => split <;> exact hp
      | _ => exact hp
    · cases ho with
      | plain hpl _ => exact hpl.ret.imp_right fun h => h.1
      | file hid _ => exact absurd hid hft
      | _ => exact .inl rfl

/-- a packet which is refused on decoding -/
theorem receive_nacked_packet (C : Cipher) (p q : Pd) (k : Packet) (env : Env) (hp : p.flags.pdMode = true) (hi : Phy.Idle p) (hk : ForUs p k)
    (ha : Arrives env k.bytes) (hd : decodeFrame C (pdAccept p k.seq (pktAddr k == 127)) k.frame = .ok (q, Phy.PKT_NACK, []))
    (h8 : Phy.hasBit k.ctl Phy.CTL_SCB = true → 2 ≤ k.scb.length) :
    ∃ h, receiveAndProcess C p env = .ok (reload q h, [], .reply) := by
  obtain ⟨t, ht⟩ := Phy.checkPacket_packet p k env hi hk.len
    (by unfold Phy.dirOk; rw [hk.command]; show (false == !p.flags.pdMode) = true; rw [hp]; rfl) ha
  rw [Phy.bodyFrame_packet p k hk.crc hk.addr,
    Phy.checkSeq_accept p _ _ _ _ hp (by unfold Packet.seq; omega) hk.seqRange hk.seq] at ht
  obtain ⟨buf, data, hdec, htake, hbl⟩ := Phy.decodePacket_packet C p _ q k t _ _ h8 hd
  refine ⟨{ Phy.heldPkt p k t with buf := buf }, ?_⟩
  unfold receiveAndProcess
  rw [ht]
  show process C _ env = _
  unfold process
  rw [hdec]
  rfl

/-- **C36 in a secure session, partial: exactly one reply.**  A PD whose session is active and not timed out receives a packet of the session for it,
with the right sequence number.  Whether its MAC is right or not, and whether its data can be deciphered or not, the PD transmits exactly one packet
in return: with that sequence number, from the address the packet was sent to.  Not covered: file transfer fragments, and PDs whose CP announces (or has
announced before) a receive buffer below 164 bytes. -/
theorem C36_one_reply_secure_partial (C : Cipher) (p q : Pd) (k : Packet) (env : Env) (msg tag : List Byte) (ctl ty id : Byte) (pl : List Byte)
    (outs : List Out) (hp : p.flags.pdMode = true) (hi : Phy.Idle p) (hadr : 0 ≤ p.address ∧ p.address ≤ 127) (hact : p.scActive = true)
    (hfresh : env.now - p.scTstamp ≤ 8000) (hcp : p.scCapable = true) (hbc : p.flags.broadcast = false) (hk : ForUs p k) (hne : k.seq ≠ 0)
    (ha : Arrives env k.bytes) (h8 : 2 ≤ k.scb.length)
    (hf : SecuredFrame k.frame msg tag ctl ty id pl) (hty : 0x15#8 ≤ ty ∧ ty ≤ 0x18#8) (hft : id.toNat ≠ Id.FILETRANSFER)
    (hm : 164 ≤ q.txBufSize) (hcap : 256 ≤ env.sendCap) (h : refresh C p env = .ok (q, outs)) :
    ∃ r, sent outs = [Packet.bytes r] ∧ RepliesTo p.address.toNat k r := by
  have hexp : expire p env.now = p := by
    unfold expire; rw [if_neg]; rintro ⟨-, h⟩
    have : PD_SC_TIMEOUT = 8000 := rfl
    omega
  have hks : k.seq < 4 := by unfold Packet.seq; omega
  unfold refresh at h
  rw [hexp] at h
  obtain ⟨⟨p1, o1, ret⟩, h1, h⟩ := Res.bind_eq_ok.mp h
  obtain ⟨⟨q', o2⟩, h2, h⟩ := Res.bind_eq_ok.mp h
  injection h with h; injection h with e1 e2; subst e1 e2
  obtain ⟨A, hA⟩ : ∃ A, A = pdAccept p k.seq (pktAddr k == 127) := ⟨_, rfl⟩
  have a1 : A.scActive = true := by
    rw [hA]
    show (p.flags.scActive && k.seq != 0) = true
    rw [show p.flags.scActive = true from hact]
    simpa using hne
  have a2 : A.isPd = true := by rw [hA]; exact hp
  have a3 : A.seq = (k.seq : Int) ∧ A.address = p.address ∧ A.flags.broadcast = (pktAddr k == 127) := by
    rw [hA]; refine ⟨rfl, rfl, ?_⟩
    show (p.flags.broadcast || _) = _
    rw [hbc]; rfl
  have hdec := Phy.decodeFrame_secured C A hf hty a1 (fun _ => by rw [hA]; exact hcp)
  rw [a2] at hdec
  -- refused
  have nacked : decodeFrame C A k.frame = .ok (Phy.setNak (Phy.setSc A (Phy.chained C true A.sc msg)).scDeactivate Nak.SC_COND, Phy.PKT_NACK, []) →
      p1.flags.pdMode = true ∧ p1.seq = (k.seq : Int) ∧ p1.address = p.address ∧ p1.flags.broadcast = (pktAddr k == 127) ∧ sent o1 = [] ∧
      (ret = .none ∨ ret = .reply) := by
    intro hd
    rw [hA] at hd
    obtain ⟨hh, hrec⟩ := receive_nacked_packet C p _ k env hp hi hk ha hd (fun _ => h8)
    rw [hrec] at h1
    injection h1 with h1; injection h1 with e1 h1; injection h1 with e2 e3; subst e1 e2 e3
    rw [← hA]
    exact ⟨a2, a3.1, a3.2.1, a3.2.2, rfl, .inr rfl⟩
  -- taken
  have taken : ∀ body, decodeFrame C A k.frame = .ok (Phy.setSc A (Phy.chained C true A.sc msg), ((id :: body).length : Int), id :: body) →
      p1.flags.pdMode = true ∧ p1.seq = (k.seq : Int) ∧ p1.address = p.address ∧ p1.flags.broadcast = (pktAddr k == 127) ∧ sent o1 = [] ∧
      (ret = .none ∨ ret = .reply) := by
    intro body hd
    rw [hA] at hd
    obtain ⟨hh, -, hrec⟩ := receive_delivers C p _ k env id body hp hi hk ha hd (fun _ => h8)
    rw [hrec, ← hA] at h1
    obtain ⟨c1, c2, c3, c4, c5⟩ := commanded_answers (p := reload (Phy.setSc A (Phy.chained C true A.sc msg)) hh) a2 hft h1
    exact ⟨c1, c2.trans a3.1, c3.trans a3.2.1, c4.trans a3.2.2, c5⟩
  have key : p1.flags.pdMode = true ∧ p1.seq = (k.seq : Int) ∧ p1.address = p.address ∧ p1.flags.broadcast = (pktAddr k == 127) ∧ sent o1 = [] ∧
      (ret = .none ∨ ret = .reply) := by
    by_cases htag : tag = (Phy.macOf C true A.sc msg).1.take 4
    · rw [if_pos htag] at hdec
      by_cases h17 : ty = 0x17#8 ∨ ty = 0x18#8
      · rw [if_pos h17] at hdec
        obtain ⟨x, hx⟩ := Phy.decryptData_total (C := C) (ae := A.flags.allowEmpty) (ic := true) (sc := Phy.chained C true A.sc msg)
          (data := pl ++ k.frame.drop msg.length) (n := pl.length) (by omega)
        rw [hx] at hdec
        cases x with
        | none => exact nacked hdec
        | some d => exact taken d hdec
      · rw [if_neg h17] at hdec
        exact taken pl hdec
    · rw [if_neg htag] at hdec
      exact nacked hdec
  obtain ⟨k1, k2, k3, k4, k5, k6⟩ := key
  have tl := finished_tail (finish_inv k1 h2)
  have hm1 : 164 ≤ p1.txBufSize := by
    have : q'.txBufSize = p1.txBufSize := by unfold Pd.txBufSize; rw [tl.peerRx]
    omega
  obtain ⟨r, r1, r2, r3⟩ := answer_leaves k1 hm1 k6 hcap hks k2 (by rw [k3]; exact hadr) h2
  refine ⟨r, ?_, r2, ?_⟩
  · rw [show sent (o1 ++ o2) = sent o1 ++ sent o2 from List.filterMap_append, k5, List.nil_append]
    exact r1
  · rw [r3, k4, k3, ← pktAddr_dev]
    by_cases h7 : pktAddr k = 127 <;> simp [h7]

/-- the PD of the examples in a secure session -/
def talkingPd : Pd :=
  ((run Aes.aes Sample.pd [.refresh (Sample.env (Sample.chlng 0#8)),
    .refresh (Sample.env (Sample.scrypt 1#8 (Sample.session Aes.aes Sample.key)))]).toOption.map (·.1)).getD Sample.pd

/-- a POLL of the session: the MAC is right with the first argument, wrong with others -/
def talkingPoll (m : Byte) : Packet := ⟨true, 101#8, 14#8, [2#8, 0x15#8], [0x60#8, m, 218#8, 236#8, 244#8]⟩

/-- what the PD of the examples makes of it -/
def talkingSends (m : Byte) : Option (Bool × List Nat) :=
  (refresh Aes.aes talkingPd (Sample.env (talkingPoll m).bytes)).toOption.map fun r => (decide (164 ≤ r.1.txBufSize), (sent r.2).map List.length)

theorem talkingPoll_frame (m : Byte) (hm : m = 227#8 ∨ m = 0#8) :
    SecuredFrame (talkingPoll m).frame [0x53#8, 101#8, 14#8, 0#8, 14#8, 2#8, 0x15#8, 0x60#8] [m, 218#8, 236#8, 244#8] 14#8 0x15#8 0x60#8 [] := by
  refine ⟨⟨101#8, 14#8, 0#8, 2#8, [], (talkingPoll m).frame.drop 12, rfl, ?_, rfl, ?_⟩, by decide, rfl, ?_⟩ <;>
    rcases hm with h | h <;> subst h <;> decide +kernel

theorem talkingPoll_forUs (m : Byte) (hm : m = 227#8 ∨ m = 0#8) : ForUs talkingPd (talkingPoll m) := by
  apply ForUs.mk
  all_goals rcases hm with h | h <;> subst h <;> decide +kernel

/-- Non-vacuity: in the session a POLL is answered once, with a packet of the session or (wrong MAC) with a NAK in the clear. -/
example : talkingPd.flags.pdMode = true ∧ (talkingPd.packetBufLen, talkingPd.packetLen, talkingPd.packetBuf.length, talkingPd.rx) = (0, 0, 256, []) ∧
    (0 ≤ talkingPd.address ∧ talkingPd.address ≤ 127) ∧ talkingPd.scActive = true ∧ talkingPd.scCapable = true ∧
    talkingPd.flags.broadcast = false ∧ (talkingPoll 227#8).seq ≠ 0 ∧
    talkingSends 227#8 = some (true, [15]) ∧ talkingSends 0#8 = some (true, [10]) := by decide +kernel

example (m : Byte) (hm : m = 227#8 ∨ m = 0#8) : Arrives (Sample.env (talkingPoll m).bytes) (talkingPoll m).bytes := by
  unfold Arrives
  rcases hm with h | h <;> subst h <;> decide +kernel

end Osdp.PdM
