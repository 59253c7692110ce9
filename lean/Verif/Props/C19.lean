import Verif.Lemmas.Secured
import Verif.Props.C17

/-!
# C19: a bad MAC or bad padding ends the session
-/

namespace Osdp.PdM

open Spec.Wire Spec.Session
open Phy (Idle Arrives WfFrame marked decodeFrame reload Held setNak setSc chained macOf)

/-- **C19.**  A PD with an active secure channel (not timed out, no packet in progress) receives a packet that is intact,
addressed to it, carries an acceptable sequence number other than 0 and a security block of one of the types 0x15 to 0x18,
but whose MAC is wrong, or whose encrypted data do not decrypt to a padded text (empty data count as wrong unless the
application tolerates them).  Then the command is not executed (nothing is handed to the application, and no event is
taken), the PD answers with a plain NAK(6), and the secure channel is over. -/
theorem C19_bad_mac_ends_session (C : Cipher) (info : Info) (p : Pd) (env : Env) (m : Bool) (f msg tag : List Byte)
    (a ctl ty id : Byte) (pl : List Byte)
    (hq : Reached C info p) (hi : Idle p) (hact : p.scActive = true) (hto : env.now - p.scTstamp ≤ 8000)
    (hbc : p.flags.broadcast = false) (hadr : 0 ≤ p.address ∧ p.address ≤ 127)
    (hw : WfFrame m f) (hin : Intact f) (hf : SecuredFrame f msg tag ctl ty id pl) (ha1 : f[1]? = some a)
    (hcmd : a.toNat < 128) (haddr : (a.toNat : Int) = p.address ∨ a.toNat = 127)
    (hseq : Spec.Seq.Acceptable p.seq (ctl.toNat % 4)) (hnz : ctl.toNat % 4 ≠ 0)
    (hty : 0x15 ≤ ty.toNat ∧ ty.toNat ≤ 0x18) (harr : Arrives env (marked m f))
    (hm : 69 ≤ p.txBufSize) (hcap : 256 ≤ env.sendCap)
    (hbad : tag ≠ (mac C p.sc.sMac1 p.sc.sMac2 p.sc.rMac msg).1.take 4 ∨
      (ty = 0x17#8 ∨ ty = 0x18#8) ∧ (¬ ∃ d, Opens C p.sc.sEnc p.sc.rMac pl d) ∧ (pl ≠ [] ∨ info.allowEmpty = false)) :
    ∃ q outs r, refresh C p env = .ok (q, outs) ∧ ¬ Acted p q outs ∧ sent outs = [Packet.bytes r] ∧
      r.data = [0x41#8, 6#8] ∧ r.scb = [] ∧ r.seq = ctl.toNat % 4 ∧
      r.addr.toNat = 128 + (if a.toNat = 127 then 127 else p.address.toNat) ∧ q.scActive = false := by
  have hp := hq.pdMode
  obtain ⟨-, -, fc, fd, fe, -⟩ := hq.flags
  have hctl : f[4]? = some ctl := by
    obtain ⟨_, _, _, _, _, _, hmsg, hfm, -⟩ := hf.shape
    rw [hfm, hmsg]; rfl
  have hk : FrameFor p m f a ctl := ⟨hw, hin, ha1, hctl, hcmd, haddr, hq.seqRange, hseq⟩
  have h8 : 8 ≤ f.length := by
    obtain ⟨_, _, _, _, _, _, hmsg, hfm, -⟩ := hf.shape
    rw [hfm, hmsg]; simp; omega
  let P := frameAccepted p a ctl
  have hPact : P.scActive = true := by
    show (p.flags.scActive && _) = true
    rw [show p.flags.scActive = true from hact]
    simp [hnz]
  have hPpd : P.isPd = true := hp
  have hPcap : P.scCapable = true := by
    show (p.flags.scCapable && !p.flags.scDisabled) = true
    rw [fc, fd]; rfl
  have hdec : decodeFrame C P f = .ok (setNak (setSc P (chained C P.isPd P.sc msg)).scDeactivate Nak.SC_COND, Phy.PKT_NACK, []) := by
    rw [Phy.decodeFrame_secured C P hf ⟨by rw [BitVec.le_def]; exact hty.1, by rw [BitVec.le_def]; exact hty.2⟩ hPact (fun _ => hPcap)]
    have emac : macOf C P.isPd P.sc msg = mac C p.sc.sMac1 p.sc.sMac2 p.sc.rMac msg := by
      unfold macOf; rw [if_pos hPpd]; rfl
    rw [emac]
    by_cases htag : tag = (mac C p.sc.sMac1 p.sc.sMac2 p.sc.rMac msg).1.take 4
    · rcases hbad with h | ⟨h17, hno, hemp⟩
      · exact absurd htag h
      · rw [if_pos htag, if_pos h17]
        have := decryptData_refused (C := C) (ae := P.flags.allowEmpty) (isCmd := P.isPd) (sc := chained C P.isPd P.sc msg)
          (ct := pl) (f.drop msg.length) (by
            unfold chained; rw [if_pos hPpd, if_pos hPpd]; exact hno)
          (hemp.imp (fun h => h) (fun h => by rw [show P.flags.allowEmpty = p.flags.allowEmpty from rfl, fe]; exact h))
        rw [this]
        rfl
    · rw [if_neg htag]
  obtain ⟨h, hb, hrx, hmk, hrec⟩ := receive_nacked C hp hi hk harr (fun _ => h8) hdec
  let Q := reload (setNak (setSc P (chained C P.isPd P.sc msg)).scDeactivate Nak.SC_COND) h
  obtain ⟨q, hfin, hrdy⟩ := finish_nak C Q env Nak.SC_COND .reply (.inr rfl) hp rfl hm hb hcap rfl
    (setNak_eph (p := (setSc P (chained C P.isPd P.sc msg)).scDeactivate) hp _)
  have hexp : expire p env.now = p := by
    unfold expire
    rw [if_neg]
    rintro ⟨-, h⟩
    have : (8000 : Int) < env.now - p.scTstamp := h
    omega
  have hlen := plainReply_length Q [b8 Id.NAK, Nak.SC_COND]
  simp only [List.length_cons, List.length_nil] at hlen
  obtain ⟨hs, -⟩ := sendOuts_sent Q env (plainReply Q [b8 Id.NAK, Nak.SC_COND]).bytes (by omega)
  have href : refresh C p env = .ok (q, Phy.sendOuts Q env (plainReply Q [b8 Id.NAK, Nak.SC_COND]).bytes) := by
    unfold refresh
    rw [hexp, hrec]
    dsimp only [Res.ok_bind]
    rw [hfin]
    rfl
  have hbcQ : Q.flags.broadcast = (a.toNat == 127) := by
    show (p.flags.broadcast || _) = _
    rw [hbc]; rfl
  refine ⟨q, _, _, href, ?_, hs, rfl, rfl, ?_, ?_, ?_⟩
  · rintro (⟨o, ho, -, n2, n3⟩ | hne)
    · unfold Phy.sendOuts at ho
      split at ho
      · simp at ho
        exact ho.elim n2 (n3 _)
      · simp at ho
        exact n3 _ ho
    · obtain ⟨q1, o1, ret, o2, hg, -, hf2, -⟩ := refresh_inv hp href
      refine hne ?_
      have := hfin
      have hf3 := finish_inv (p := Q) hp hfin
      exact (finished_tail hf3).events
  · show ((b8 (Phy.seqBits ((ctl.toNat % 4 : Nat) : Int)) ||| 0x04#8).toNat % 4) = _
    have e : Phy.seqBits ((ctl.toNat % 4 : Nat) : Int) = ctl.toNat % 4 := by unfold Phy.seqBits; omega
    rw [e]
    exact (Phy.ctl_bits _ (by omega) _ (by simp)).1
  · show ((if Q.flags.broadcast then 0x7F#8 else i8 p.address &&& 0x7F#8) ||| 0x80#8).toNat = _
    rw [hbcQ]
    by_cases h7 : a.toNat = 127
    · rw [h7, if_pos (by decide), if_pos rfl]; rfl
    · rw [if_neg h7, if_neg (by simp [h7]), or80, Phy.i8_addr _ hadr]
  · show q.flags.scActive = false
    rw [hrdy.flags]
    rfl

/-- a command with a correct MAC over arbitrary data -/
def macOnly (sc : Sc) (seq ty : Byte) (data : List Byte) : List Byte :=
  let pkt : List Byte → Packet := fun t => ⟨true, 101#8, seq ||| 0x0C#8, [2#8, ty], data ++ t⟩
  let msg := (pkt [0, 0, 0, 0]).core
  (pkt ((mac Aes.aes sc.sMac1 sc.sMac2 sc.rMac (msg.take (msg.length - 4))).1.take 4)).bytes

/-- the packets sent and the state of the secure channel when `bs` arrives in the sample session -/
def answerTo (bs : List Byte) : Option (List (List Byte) × Bool) :=
  (inSession.toOption.bind fun r => (refresh Aes.aes r.1 (Sample.env bs)).toOption).map fun r => (sent r.2, r.1.scActive)

/-- Non-vacuity: the sample session meets the hypotheses on the PD, -/
example : (inSession.toOption.map fun r => decide (r.1.rx = [] ∧ r.1.packetBufLen = 0 ∧ r.1.packetLen = 0 ∧ r.1.packetBuf.length = 256 ∧
      r.1.scActive = true ∧ (Sample.env []).now - r.1.scTstamp ≤ 8000 ∧ r.1.flags.broadcast = false ∧ r.1.address = 101 ∧ r.1.seq = 1 ∧
      69 ≤ r.1.txBufSize)) = some true := by decide +kernel

/-- the reply expected -/
def nak6 : List Byte := (⟨true, 0xE5#8, 0x06#8, [], [0x41#8, 6#8]⟩ : Packet).bytes

/-- a wrong MAC ends the session, -/
example : answerTo (Sample.scbCmd 2#8 [2#8, 0x15#8] [0x60#8, 1, 2, 3, 4]) = some ([nak6], false) := by decide +kernel

/-- so do a data block that is not a whole number of blocks or decrypts to something without padding, -/
example : answerTo (macOnly (Sample.session Aes.aes Sample.key) 2#8 0x17#8 [0x6A#8, 0, 0, 0]) = some ([nak6], false) ∧
    answerTo (macOnly (Sample.session Aes.aes Sample.key) 2#8 0x17#8 (0x6A#8 :: List.replicate 16 0#8)) = some ([nak6], false) ∧
    answerTo (macOnly (Sample.session Aes.aes Sample.key) 2#8 0x17#8 [0x6A#8]) = some ([nak6], false) := by decide +kernel

/-- and a correct packet does not. -/
example : (answerTo (macOnly (Sample.session Aes.aes Sample.key) 2#8 0x15#8 [0x60#8])).map (·.2) = some true := by decide +kernel

/-- Non-vacuity of the form required of the packet: its parts, for the packet with the wrong MAC. -/
example : ∃ f msg tag, Sample.scbCmd 2#8 [2#8, 0x15#8] [0x60#8, 1, 2, 3, 4] = marked true f ∧
    SecuredFrame f msg tag 0x0E#8 0x15#8 0x60#8 [] ∧ Intact f := by
  refine ⟨(Sample.scbCmd 2#8 [2#8, 0x15#8] [0x60#8, 1, 2, 3, 4]).tail, ((Sample.scbCmd 2#8 [2#8, 0x15#8] [0x60#8, 1, 2, 3, 4]).tail).take 8,
    [1, 2, 3, 4], by decide +kernel, ⟨⟨101#8, 14#8, 0#8, 2#8, [], _, by decide +kernel, rfl, rfl, by decide +kernel⟩, by decide, rfl, by decide +kernel⟩,
    ⟨by decide +kernel, ⟨14#8, 0#8, by decide +kernel, by decide +kernel, by decide +kernel⟩, by decide +kernel,
     0x0E#8, by decide +kernel, ?_⟩⟩
  rw [if_pos (by decide)]
  exact ⟨((Sample.scbCmd 2#8 [2#8, 0x15#8] [0x60#8, 1, 2, 3, 4]).tail).take 12, by decide +kernel⟩

end Osdp.PdM
