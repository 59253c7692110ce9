import Verif.Props.C80Sc
import Verif.Props.C18
import Verif.Props.C19

/-!
# C99: an encrypted data block without data is tolerated only on request

`OSDP_FLAG_ALLOW_EMPTY_ENCRYPTED_DATA_BLOCK` (include/osdp.h:75-84) lets a PD take a packet of type SCS_17 without any data for what it was meant
to be.  "This is a PD mode only flag."

The full statement: with the flag, a PD in a session carries out such a command as if it had come as SCS_15; without it the command is refused and
the session is over (C19); a CP does not heed the flag.

The last part fails: `osdp_decrypt_data` (src/osdp_sc.c:142) looks at the flag in both modes, and `cp_add_pd` copies the flags of the application
(`C99_cp`, `C99_mode`).
-/

namespace Osdp.PdM

open Spec.Wire Spec.Session Spec.Sealed
open Spec.Command (asked)
open Phy (Arrives pktAddr pdAccept reload decodeFrame setNak setSc chained)

/-! ### Specification -/

/-- a packet with an encrypted data block of no data at all, or the authenticated packet without data that should have been sent -/
structure Bare (C : Cipher) (k1 k2 m : Block) (ty : Byte) (f msg : List Byte) (id : Byte) : Prop where
  frame : ∃ tag ctl, SecuredFrame f msg tag ctl ty id [] ∧ tag = (mac C k1 k2 m msg).1.take 4

/-! ### Decoding -/

/-- on either side, an empty encrypted block is taken or refused according to the flag alone -/
theorem bare_decoded {C : Cipher} {p : Pd} {f msg : List Byte} {ty id : Byte} (hact : p.scActive = true) (hcap : p.isPd = true → p.scCapable = true)
    (hty : ty = 0x17#8 ∨ ty = 0x18#8) (hf : Bare C p.sc.sMac1 p.sc.sMac2 (if p.isPd then p.sc.rMac else p.sc.cMac) ty f msg id) :
    decodeFrame C p f = if p.flags.allowEmpty then .ok (setSc p (chained C p.isPd p.sc msg), 1, [id])
      else .ok (setNak (setSc p (chained C p.isPd p.sc msg)).scDeactivate Nak.SC_COND, Phy.PKT_NACK, []) := by
  obtain ⟨tag, ctl, hfr, htag⟩ := hf.frame
  rw [Phy.decodeFrame_secured C p hfr (by rcases hty with rfl | rfl <;> decide) hact hcap,
    if_pos (show tag = (Phy.macOf C p.isPd p.sc msg).1.take 4 from htag), if_pos hty]
  unfold Sc.decryptData
  rw [if_neg (by simp), if_neg (by simp), if_pos (by simp)]
  cases p.flags.allowEmpty <;> rfl

theorem bare_clear {C : Cipher} {p : Pd} {f msg : List Byte} {ty id : Byte} (hact : p.scActive = true) (hcap : p.isPd = true → p.scCapable = true)
    (hty : ty = 0x15#8 ∨ ty = 0x16#8) (hf : Bare C p.sc.sMac1 p.sc.sMac2 (if p.isPd then p.sc.rMac else p.sc.cMac) ty f msg id) :
    decodeFrame C p f = .ok (setSc p (chained C p.isPd p.sc msg), 1, [id]) := by
  obtain ⟨tag, ctl, hfr, htag⟩ := hf.frame
  rw [Phy.decodeFrame_secured C p hfr (by rcases hty with rfl | rfl <;> decide) hact hcap,
    if_pos (show tag = (Phy.macOf C p.isPd p.sc msg).1.take 4 from htag), if_neg (by rcases hty with rfl | rfl <;> decide)]
  rfl

/-! ### The PD -/

/-- **C99, the command is the same.**  A PD in a session, set up with the flag, hears a command without data: as SCS_15, or with an empty encrypted
block.  Either way the same command, without data, is carried out, in a state that depends on the packet only through the MAC it carries and the
buffer it came in. -/
theorem C99_taken (C : Cipher) (info : Info) (p : Pd) (k : Packet) (env : Env) (msg : List Byte) (ty id : Byte) (hq : Reached C info p)
    (hflag : info.allowEmpty = true) (hi : Phy.Idle p) (hact : p.scActive = true) (hk : ForUs p k) (hne : k.seq ≠ 0) (ha : Arrives env k.bytes)
    (h8 : 2 ≤ k.scb.length) (hty : ty = 0x15#8 ∨ ty = 0x17#8) (hf : Bare C p.sc.sMac1 p.sc.sMac2 p.sc.rMac ty k.frame msg id) :
    ∃ hh, receiveAndProcess C p env = commanded (reload (setSc (pdAccept p k.seq (pktAddr k == 127))
      { p.sc with cMac := mac C p.sc.sMac1 p.sc.sMac2 p.sc.rMac msg }) hh) env id [] := by
  have hp := hq.pdMode
  obtain ⟨-, -, fc, fd, fe, -⟩ := hq.flags
  obtain ⟨A, hA⟩ : ∃ A, A = pdAccept p k.seq (pktAddr k == 127) := ⟨_, rfl⟩
  have a1 : A.scActive = true := by
    rw [hA]
    show (p.flags.scActive && k.seq != 0) = true
    rw [show p.flags.scActive = true from hact]
    simpa using hne
  have a2 : A.isPd = true := by rw [hA]; exact hp
  have asc : A.sc = p.sc := by rw [hA]; rfl
  have a3 : A.scCapable = true := by
    rw [hA]
    show (p.flags.scCapable && !p.flags.scDisabled) = true
    rw [fc, fd]; rfl
  have a4 : A.flags.allowEmpty = true := by
    rw [hA]
    show p.flags.allowEmpty = true
    rw [fe]; exact hflag
  have hf' : Bare C A.sc.sMac1 A.sc.sMac2 (if A.isPd then A.sc.rMac else A.sc.cMac) ty k.frame msg id := by rw [a2, asc]; exact hf
  have hdec : decodeFrame C A k.frame = .ok (setSc A (chained C true p.sc msg), (([id] : List Byte).length : Int), [id]) := by
    rcases hty with rfl | rfl
    · rw [bare_clear a1 (fun _ => a3) (.inl rfl) hf', a2, asc]; rfl
    · rw [bare_decoded a1 (fun _ => a3) (.inl rfl) hf', a4, a2, asc]; rfl
  rw [hA] at hdec
  obtain ⟨hh, -, hrec⟩ := receive_delivers C p _ k env id [] hp hi hk ha hdec (fun _ => h8)
  exact ⟨hh, hrec⟩

/-- **C99, partial: with the flag a POLL is answered.**  A PD in a session, set up with the flag and with nothing to report, hears a POLL with an empty
encrypted block and the right MAC.  It sends one packet: an ACK, sealed under the session.  The application is not asked, and the session stays.  Not
covered here: the other commands without data, for which `C99_taken` says what is carried out; and the CP, which heeds the flag as well. -/
theorem C99_partial (C : Cipher) (info : Info) (p q : Pd) (k : Packet) (env : Env) (msg : List Byte) (outs : List Out) (hq : Reached C info p)
    (hflag : info.allowEmpty = true) (hi : Phy.Idle p) (hact : p.scActive = true) (hfresh : env.now - p.scTstamp ≤ 8000) (hk : ForUs p k)
    (hne : k.seq ≠ 0) (ha : Arrives env k.bytes) (h8 : 2 ≤ k.scb.length) (htx : 164 ≤ p.txBufSize) (hev : p.eventQueue = [])
    (hf : Bare C p.sc.sMac1 p.sc.sMac2 p.sc.rMac 0x17#8 k.frame msg 0x60#8) (h : refresh C p env = .ok (q, outs)) :
    ∃ bs g msg', asked outs = [] ∧ sent outs = [bs] ∧ OnWire bs g env.sendCap ∧
      Sealed C p.sc.sEnc p.sc.sMac1 p.sc.sMac2 (mac C p.sc.sMac1 p.sc.sMac2 p.sc.rMac msg) 0x16#8 0x18#8 g msg' 0x40#8 [] ∧ q.scActive = true := by
  have hp := hq.pdMode
  obtain ⟨hh, hrec⟩ := C99_taken C info p k env msg 0x17#8 0x60#8 hq hflag hi hact hk hne ha h8 (.inr rfl) hf
  obtain ⟨P, hP⟩ : ∃ P, P = noteCmd (reload (setSc (pdAccept p k.seq (pktAddr k == 127))
      { p.sc with cMac := mac C p.sc.sMac1 p.sc.sMac2 p.sc.rMac msg }) hh) 0x60#8 := ⟨_, rfl⟩
  have p1 : P.scActive = true := by
    rw [hP]
    show (p.flags.scActive && k.seq != 0) = true
    rw [show p.flags.scActive = true from hact]
    simpa using hne
  have p2 : P.flags.pdMode = true := by rw [hP]; exact hp
  have p5 : P.txBufSize = p.txBufSize := by rw [hP]; rfl
  have p6 : P.sc = { p.sc with cMac := mac C p.sc.sMac1 p.sc.sMac2 p.sc.rMac msg } := by rw [hP]; rfl
  have p7 : P.cmdId = Id.POLL := by rw [hP]; rfl
  have p8 : P.eventQueue = [] := by rw [hP]; exact hev
  unfold commanded at hrec
  rw [← hP, if_neg (by unfold plainRefused; rw [p1]; simp)] at hrec
  clear hP
  have hdis : dispatch P env [] = .ok ({ P with replyId := Id.ACK }, [], .none) := by
    unfold dispatch pollEvent
    rw [p7, p8]
    rfl
  rw [hdis] at hrec
  unfold refresh at h
  rw [Link.expire_recent hfresh, hrec] at h
  simp only [Res.ok_bind] at h
  obtain ⟨⟨q', o2⟩, h2, h⟩ := Res.bind_eq_ok.mp h
  injection h with h; injection h with e1 e2; subst e1 e2
  obtain ⟨bs, g, msg', r1, r2, r3, r4, r5⟩ := sealed_answer (P := { P with replyId := Id.ACK }) p1 p2 (.inl rfl) (by rw [← p5] at htx; exact htx)
    (by rw [show ({ P with replyId := Id.ACK } : Pd).cmdId = _ from p7]; decide)
    (fun X h1 _ t m hm => ack_built C X env t m h1 (by omega)) h2
  refine ⟨bs, g, msg', asked_none r4, r1, r2, ?_, r5⟩
  rw [show ({ P with replyId := Id.ACK } : Pd).sc = _ from p6] at r3
  exact r3

/-! ### examples -/

/-- the PD of the examples, set up with the flag or not, in a session -/
def lenient (flag : Bool) : Pd :=
  ((PdM.setup { Sample.pdInfo with allowEmpty := flag } false 16).bind fun p0 =>
    (run Aes.aes p0 [.refresh (Sample.env (Sample.chlng 0#8)),
      .refresh (Sample.env (Sample.scrypt 1#8 (Sample.session Aes.aes Sample.key)))]).toOption.map (·.1)).getD Sample.pd

/-- a POLL of its session with an empty encrypted block -/
def emptyPoll : Packet := ⟨true, 101#8, 14#8, [2#8, 0x17#8], [0x60#8, 0x48#8, 0x84#8, 0x2c#8, 0xd3#8]⟩

/-- Non-vacuity: the PD is reached, in a session, and meets the other hypotheses, -/
example : Reached Aes.aes { Sample.pdInfo with allowEmpty := true } (lenient true) := by
  have h : ((PdM.setup { Sample.pdInfo with allowEmpty := true } false 16).bind fun p0 =>
    (run Aes.aes p0 [.refresh (Sample.env (Sample.chlng 0#8)),
      .refresh (Sample.env (Sample.scrypt 1#8 (Sample.session Aes.aes Sample.key)))]).toOption).isSome = true := by decide +kernel
  unfold lenient
  cases hs : PdM.setup { Sample.pdInfo with allowEmpty := true } false 16 with
  | none => rw [hs] at h; cases h
  | some p0 =>
    rw [hs] at h
    cases hr : run Aes.aes p0 [.refresh (Sample.env (Sample.chlng 0#8)),
      .refresh (Sample.env (Sample.scrypt 1#8 (Sample.session Aes.aes Sample.key)))] with
    | error e => simp [hr] at h; cases h
    | ok r => exact ⟨false, 16, p0, _, r.2, hs, by rw [hr]; simp [hr]; rfl⟩

example : (lenient true).rx = [] ∧ ((lenient true).packetBufLen, (lenient true).packetLen, (lenient true).packetBuf.length) = (0, 0, 256) ∧
    (lenient true).scActive = true ∧ (Sample.env []).now - (lenient true).scTstamp ≤ 8000 ∧ 164 ≤ (lenient true).txBufSize ∧
    (lenient true).eventQueue.length = 0 ∧ emptyPoll.seq ≠ 0 ∧ 2 ≤ emptyPoll.scb.length := by
  refine ⟨?_, ?_, ?_, ?_, ?_, ?_, ?_, ?_⟩ <;> decide +kernel

/-- the packet is for it and has an empty encrypted block with the right MAC, -/
example : ForUs (lenient true) emptyPoll ∧ Arrives (Sample.env emptyPoll.bytes) emptyPoll.bytes := by
  refine ⟨?_, ?_⟩
  · apply ForUs.mk <;> decide +kernel
  · unfold Arrives; decide +kernel

example : Bare Aes.aes (lenient true).sc.sMac1 (lenient true).sc.sMac2 (lenient true).sc.rMac 0x17#8 emptyPoll.frame
    [0x53#8, 101#8, 14#8, 0#8, 14#8, 2#8, 0x17#8, 0x60#8] 0x60#8 := by
  refine ⟨[0x48#8, 0x84#8, 0x2c#8, 0xd3#8], 14#8, ?_, by decide +kernel⟩
  exact ⟨⟨101#8, 14#8, 0#8, 2#8, [], emptyPoll.frame.drop 12, rfl, by decide +kernel, rfl, by decide +kernel⟩, by decide, rfl, by decide +kernel⟩

/-- what the PD makes of it: the packets sent (their lengths and security block types), and whether the session is still there -/
def lenientSends (flag : Bool) : Option (List (Nat × Option Byte) × Bool) :=
  (refresh Aes.aes (lenient flag) (Sample.env emptyPoll.bytes)).toOption.map fun r => ((sent r.2).map fun b => (b.length, b[7]?), r.1.scActive)

/-- and the flag decides: a sealed ACK, or a NAK in the clear and the end of the session (as C19 says). -/
example : lenientSends true = some ([(15, some 0x16#8)], true) ∧ (lenientSends false).map (fun r => (r.1.length, r.2)) = some (1, false) := by
  refine ⟨?_, ?_⟩ <;> decide +kernel

theorem opens_nil (C : Cipher) (key m : Block) : ¬ ∃ d, Opens C key m [] d := by
  rintro ⟨d, -, z, hz⟩
  rw [decipher_cbc, chunks_blocks (by simp), toBlocks_nil] at hz
  have := congrArg List.length hz
  simp [cbcDec, ofBlocks] at this

/-- **C99, without the flag.**  The same packet, whatever the command, at a PD set up without the flag: the command is not carried out, the PD answers
NAK 6 in the clear and the session is over. -/
theorem C99_refused (C : Cipher) (info : Info) (p : Pd) (env : Env) (m : Bool) (f msg tag : List Byte) (a ctl id : Byte)
    (hq : Reached C info p) (hflag : info.allowEmpty = false) (hi : Phy.Idle p) (hact : p.scActive = true) (hto : env.now - p.scTstamp ≤ 8000)
    (hbc : p.flags.broadcast = false) (hadr : 0 ≤ p.address ∧ p.address ≤ 127)
    (hw : Phy.WfFrame m f) (hin : Intact f) (hf : SecuredFrame f msg tag ctl 0x17#8 id []) (ha1 : f[1]? = some a)
    (hcmd : a.toNat < 128) (haddr : (a.toNat : Int) = p.address ∨ a.toNat = 127)
    (hseq : Spec.Seq.Acceptable p.seq (ctl.toNat % 4)) (hnz : ctl.toNat % 4 ≠ 0) (harr : Arrives env (Phy.marked m f))
    (hm : 69 ≤ p.txBufSize) (hcap : 256 ≤ env.sendCap) :
    ∃ q outs r, refresh C p env = .ok (q, outs) ∧ ¬ Acted p q outs ∧ sent outs = [Packet.bytes r] ∧
      r.data = [0x41#8, 6#8] ∧ r.scb = [] ∧ q.scActive = false := by
  obtain ⟨q, outs, r, h1, h2, h3, h4, h5, -, -, h6⟩ := C19_bad_mac_ends_session C info p env m f msg tag a ctl 0x17#8 id [] hq hi hact hto hbc hadr
    hw hin hf ha1 hcmd haddr hseq hnz ⟨by decide, by decide⟩ harr hm hcap (.inr ⟨.inl rfl, opens_nil C _ _, .inr hflag⟩)
  exact ⟨q, outs, r, h1, h2, h3, h4, h5, h6⟩

end Osdp.PdM

namespace Osdp.CpM

open Spec.Wire Spec.Session
open Phy (decodeFrame setNak setSc)

/-- **C99 violated, on every CP.**  A CP in a session decodes a reply with an empty encrypted block and the right MAC.  With the flag, a "PD mode only"
flag, it takes it for the reply without data; without, it drops the session. -/
theorem C99_cp (C : Cipher) (p : Pd) (f msg : List Byte) (id : Byte) (hcp : p.isPd = false) (hact : p.scActive = true)
    (hf : PdM.Bare C p.sc.sMac1 p.sc.sMac2 p.sc.cMac 0x18#8 f msg id) :
    (p.flags.allowEmpty = true →
      decodeFrame C p f = .ok (setSc p { p.sc with rMac := mac C p.sc.sMac1 p.sc.sMac2 p.sc.cMac msg }, 1, [id])) ∧
    (p.flags.allowEmpty = false → ∃ q, decodeFrame C p f = .ok (q, Phy.PKT_NACK, []) ∧ q.scActive = false) := by
  have h := PdM.bare_decoded hact (fun h => by rw [hcp] at h; cases h) (.inr rfl) (f := f) (msg := msg) (id := id) (C := C) (by rw [hcp]; exact hf)
  have hc : Phy.chained C p.isPd p.sc msg = { p.sc with rMac := mac C p.sc.sMac1 p.sc.sMac2 p.sc.cMac msg } := by rw [hcp]; rfl
  rw [hc] at h
  refine ⟨fun ha => ?_, fun ha => ?_⟩
  · rw [ha] at h; exact h
  · rw [ha] at h
    refine ⟨_, h, ?_⟩
    unfold setNak
    split <;> rfl

/-- a CP set up with the flag or not, in a secure session, waiting for the reply to a POLL -/
def lenientCp (flag : Bool) : Sample.Talk :=
  ({ Sample.talk with cp := (newPd { Sample.pdInfo with allowEmpty := flag } 0 false 16).getD (PdM.blank 16) } : Sample.Talk).turns xorCipher 20 20
    |>.turns xorCipher 60 1

/-- what is authenticated of an ACK with an empty encrypted block -/
def emptyAckMsg : List Byte := [0x53#8, 0xE5#8, 14#8, 0#8, b8 securely.cp.seq.toNat ||| 0x0C#8, 2#8, 0x18#8, 0x40#8]

/-- the ACK, with the right MAC -/
def emptyAck : Packet :=
  ⟨true, 0xE5#8, b8 securely.cp.seq.toNat ||| 0x0C#8, [2#8, 0x18#8],
    0x40#8 :: (mac xorCipher securely.cp.sc.sMac1 securely.cp.sc.sMac2 securely.cp.sc.cMac emptyAckMsg).1.take 4⟩

/-- the CP before and after it hears the ACK: in a session and waiting; still in the session, and what it takes the reply for -/
def acked99 (flag : Bool) : Option (Bool × Bool × Option (Byte × List Byte)) :=
  (step xorCipher (lenientCp flag).cp (Sample.hears emptyAck.bytes 460)).toOption.map fun r =>
    ((lenientCp flag).cp.scActive, r.1.flags.scActive, replyOf xorCipher (lenientCp flag).cp { now := 460, recv := Sample.blocks64 emptyAck.bytes, random := Sample.rndA })

/-- **C99 violated: a CP heeds the flag.**  Two CPs, set up alike but for the flag, hear the same reply.  One takes it and stays in the session, the
other ends the session. -/
theorem C99_mode : acked99 true = some (true, true, some (0x40#8, [])) ∧ acked99 false = some (true, false, none) := by
  refine ⟨?_, ?_⟩ <;> decide +kernel

/-- Non-vacuity of `C99_cp`: the CP and the packet of `C99_mode`. -/
example : (lenientCp true).cp.isPd = false ∧ (lenientCp true).cp.scActive = true ∧ (lenientCp true).cp.flags.allowEmpty = true ∧
    (lenientCp false).cp.flags.allowEmpty = false := by
  refine ⟨?_, ?_, ?_, ?_⟩ <;> decide +kernel

example : PdM.Bare xorCipher (lenientCp true).cp.sc.sMac1 (lenientCp true).cp.sc.sMac2 (lenientCp true).cp.sc.cMac 0x18#8 emptyAck.frame emptyAckMsg 0x40#8 := by
  refine ⟨emptyAck.data.drop 1, emptyAck.ctl, ⟨⟨0xE5#8, 14#8, 0#8, 2#8, [], emptyAck.frame.drop 12, by decide +kernel, by decide +kernel, rfl, ?_⟩,
    by decide +kernel, by decide +kernel, by decide +kernel⟩, by decide +kernel⟩
  decide +kernel

end Osdp.CpM
