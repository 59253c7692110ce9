import Verif.Lemmas.CmdWire
import Verif.Props.C34

/-!
# C80: the return value of the command callback decides the reply

include/osdp.h:897-912: the callback returns 0 for an ACK, a negative value for a NAK, a positive value (after editing the command in
place) for a specific reply, MFGREP.  The code turns every value other than 0 into a NAK (and, for OUT, LED and BUZ, into an ACK).
-/

namespace Osdp.PdM

open Spec.Wire
open Spec.Command (Valid encode carried asked)
open Phy (setNak Arrives sendOuts reload)

/-- Spec: the commands that are answered with ACK when carried out (apart from KEYSET, see C64) -/
def Acked : Cmd → Prop
  | .output _ | .led _ | .buzzer _ | .text _ | .mfg _ => True
  | _ => False

/-- Spec: the reply that include/osdp.h promises for the value returned by the callback; `m`: what the callback left in the command -/
def promised (v : Int) (m : List Byte) : List Byte :=
  if v = 0 then [0x40#8] else if v < 0 then [0x41#8, 0x09#8] else 0x90#8 :: m

/-! ## Helpers -/

/-- the state and return value with which the command is left -/
def decided (p : Pd) (c : Cmd) (v : Int) : Pd × PdRet :=
  if v = 0 then ({ p with replyId := Id.ACK }, .none)
  else match c with
    | .text _ | .mfg _ => (setNak p Nak.RECORD, .reply)
    | _ => ({ setNak p Nak.RECORD with replyId := Id.ACK }, .none)

theorem recordsCmd_lone {p : Pd} {env : Env} {dec : List Byte → Option Cmd} {k : Nat} {body : List Byte} {c : Cmd}
    {f : Nat → Cmd → Int × Cmd} (hk : 0 < k) (hl : body.length = k) (hd : dec body = some c) (hcap : capOk p (some c) = (p, true))
    (hcb : env.cb = some f) : recordsCmd p env dec k body =
      .ok (if (f 0 c).1 = 0 then { p with replyId := Id.ACK } else { setNak p Nak.RECORD with replyId := Id.ACK }, [.cmd c], .none) := by
  unfold recordsCmd
  rw [if_neg (by rw [hl, hcb]; simp), hl, Nat.div_self hk]
  unfold records
  rw [List.take_of_length_le (by omega), hd]
  dsimp only
  rw [hcap]
  dsimp only
  unfold callback
  rw [hcb]
  dsimp only
  by_cases hv : (f 0 c).1 = 0
  · rw [if_neg (by simp [hv]), if_pos hv]; rfl
  · rw [if_pos hv, if_neg hv]; rfl

theorem decided_record {p : Pd} {c : Cmd} {v : Int} {o : List Out} (h1 : ∀ t, c ≠ .text t) (h2 : ∀ t, c ≠ .mfg t) :
    (Except.ok (if v = 0 then { p with replyId := Id.ACK } else { setNak p Nak.RECORD with replyId := Id.ACK }, o, PdRet.none) :
      Res (Pd × List Out × PdRet)) = .ok ((decided p c v).1, o, (decided p c v).2) := by
  unfold decided
  by_cases hv : v = 0
  · rw [if_pos hv, if_pos hv]
  · rw [if_neg hv, if_neg hv]
    cases c <;> first | rfl | exact absurd rfl (h1 _) | exact absurd rfl (h2 _)

theorem dispatch_decided {p : Pd} {env : Env} {c : Cmd} {rest : List Byte} {f : Nat → Cmd → Int × Cmd} {s : Bool} (ha : Acked c)
    (hv : Valid s c) (hm : MayAsk p.cap c) (hid : p.cmdId = codeOf c) (hcb : env.cb = some f)
    (he : encode c = b8 (codeOf c) :: rest) :
    dispatch p env rest = .ok ((decided p c (f 0 (carried c)).1).1, [.cmd (carried c)], (decided p c (f 0 (carried c)).1).2) := by
  have hcn : env.cb.isNone = false := by rw [hcb]; rfl
  unfold dispatch
  rw [hid]
  dsimp only
  cases c with
  | output x =>
    simp only [codeOf]
    repeat rw [if_neg (by decide)]
    rw [if_pos trivial]
    simp only [encode, Spec.Command.two, List.cons_append, List.nil_append] at he
    injection he with _ he; subst he
    rw [recordsCmd_lone (k := 4) (c := .output x) (by decide) rfl (by
      show some (Cmd.output ⟨_, _, _⟩) = _
      rw [ofNat_append_two]) (mayAsk_allows hv hm hid (by simp) (by simp) (by simp)) hcb]
    exact decided_record (c := .output x) (by intro t; simp) (by intro t; simp)
  | led x =>
    simp only [codeOf]
    repeat rw [if_neg (by decide)]
    rw [if_pos trivial]
    simp only [encode, Spec.Command.two, List.cons_append, List.nil_append] at he
    injection he with _ he; subst he
    rw [recordsCmd_lone (k := 14) (c := carried (.led x)) (by decide) rfl (by
      show some (Cmd.led ⟨_, _, ⟨_, _, _, _, _, _⟩, ⟨_, _, _, _, _, _⟩⟩) = _
      rw [ofNat_append_two]; rfl)
      (mayAsk_allows (s := s) (c := carried (.led x)) hv hm hid (by simp [carried]) (by simp [carried]) (by simp [carried])) hcb]
    exact decided_record (c := .led x) (by intro t; simp) (by intro t; simp)
  | buzzer x =>
    simp only [codeOf]
    repeat rw [if_neg (by decide)]
    rw [if_pos trivial]
    simp only [encode, List.cons_append, List.nil_append] at he
    injection he with _ he; subst he
    rw [recordsCmd_lone (k := 5) (c := .buzzer x) (by decide) rfl rfl (mayAsk_allows hv hm hid (by simp) (by simp) (by simp)) hcb]
    exact decided_record (c := .buzzer x) (by intro t; simp) (by intro t; simp)
  | text x =>
    have hx : x.length.toNat ≤ 32 := hv
    simp only [codeOf]
    repeat rw [if_neg (by decide)]
    rw [if_pos trivial]
    simp only [encode, List.cons_append, List.nil_append] at he
    injection he with _ he; subst he
    unfold textCmd
    rw [if_neg (by rw [hcn]; decide)]
    dsimp only [List.cons_append, List.nil_append]
    rw [if_neg (by simp [x.data.2]; omega), List.take_take, Nat.min_self]
    have hc := mayAsk_allows (s := s) (c := carried (.text x)) hv hm hid (by simp [carried]) (by simp [carried]) (by simp [carried])
    rw [show capArg (carried (.text x)) = some (.text ⟨x.reader, x.controlCode, x.tempTime, x.offsetRow, x.offsetCol, x.length, .padTo 32 (x.data.1.take x.length.toNat)⟩) from rfl] at hc
    rw [hc]
    dsimp only
    rw [show Cmd.text ⟨x.reader, x.controlCode, x.tempTime, x.offsetRow, x.offsetCol, x.length, .padTo 32 (x.data.1.take x.length.toNat)⟩ =
      carried (.text x) from rfl]
    unfold callback decided
    rw [hcb]
    dsimp only
    by_cases hv : (f 0 (carried (.text x))).1 = 0
    · rw [if_neg (by simp [hv]), if_pos hv]; rfl
    · rw [if_pos hv, if_neg hv]; rfl
  | mfg x =>
    have hx : x.length.toNat ≤ 64 := hv
    simp only [codeOf]
    repeat rw [if_neg (by decide)]
    rw [if_pos trivial]
    simp only [encode, List.cons_append, List.nil_append] at he
    injection he with _ he; subst he
    unfold mfgCmd
    rw [if_neg (by rw [hcn]; decide)]
    dsimp only [List.cons_append, List.nil_append]
    have hlen : (x.data.1.take x.length.toNat).length % 256 = x.length.toNat := by
      simp [x.data.2]; omega
    have hb : ofLe [BitVec.ofNat 8 x.vendor.toNat, BitVec.ofNat 8 (x.vendor.toNat / 256), BitVec.ofNat 8 (x.vendor.toNat / 65536)] = x.vendor.toNat % 2 ^ 24 := by
      simp [ofLe]; omega
    rw [hlen, if_neg (by omega), List.take_take, Nat.min_self, hb, show b8 x.length.toNat = x.length from by unfold b8; simp]
    rw [show Cmd.mfg ⟨BitVec.ofNat 32 (x.vendor.toNat % 2 ^ 24), x.command, x.length, .padTo 64 (x.data.1.take x.length.toNat)⟩ =
      carried (.mfg x) from rfl]
    unfold callback decided
    rw [hcb]
    dsimp only
    by_cases hv : (f 0 (carried (.mfg x))).1 = 0
    · rw [if_neg (by simp [hv]), if_pos hv]; rfl
    · rw [if_pos hv, if_neg hv]; rfl
  | _ => exact ha.elim

theorem finish_ack (C : Cipher) (p : Pd) (env : Env) (ret : PdRet)
    (hr : ret = .none ∨ ret = .reply) (hp : p.flags.pdMode = true) (hsc : p.scActive = false)
    (hm : 69 ≤ p.txBufSize) (hbuf : p.packetBuf.length = 256) (hcap : 256 ≤ env.sendCap)
    (hid : p.replyId = Id.ACK) (hk : p.cmdId ≠ Id.KEYSET) :
    ∃ q, finish C p env ret = .ok (q, sendOuts p env (plainReply p [b8 Id.ACK]).bytes) := by
  have htch : touch p ret env.now = p := by unfold touch; rw [hsc]; simp
  have hl := plainReply_length p [b8 Id.ACK]
  have hdo : (replyTx p).dataOff ≤ 6 := by
    unfold Phy.Tx.dataOff replyTx
    rw [hsc, hid]
    simp [Phy.inHandshake, Id.ACK, Id.CCRYPT, Id.RMAC_I]
    split <;> omega
  have hb : replyBody C (unbc p) env (replyTx p) (p.txBufSize - (replyTx p).dataOff) =
      .ok ⟨unbc p, replyTx p, [], .ok [b8 Id.ACK]⟩ := by
    unfold replyBody
    have h1 : (unbc p).replyId = Id.ACK := hid
    rw [h1]
    have ha : assertLen 1 ((p.txBufSize : Int) - ((replyTx p).dataOff : Int)) = .ok () := by
      unfold assertLen; rw [if_pos (by omega)]
    simp [ha]
  obtain ⟨q, hq, hs⟩ := sendReply_plain C p env _ [b8 Id.ACK] hp hsc (by rw [hid]; rfl) hm hbuf hb rfl hsc rfl rfl rfl
    (by simp) (by simp at hl; omega)
  have hok : decide ((plainReply p [b8 Id.ACK]).bytes.length ≤ env.sendCap) = true := by
    simp at hl; exact decide_eq_true (by omega)
  rw [hok] at hq
  have hqc : q.cmdId = p.cmdId := by rw [hs.buf]; rfl
  have haft : afterSend q true = .ok (Phy.stateReset q false).1 := by
    unfold afterSend commitKeyset
    rw [if_pos rfl, if_neg (by rw [hqc]; simp [hk])]
    rfl
  refine ⟨(Phy.stateReset q false).1, ?_⟩
  unfold finish
  rw [if_neg (by rcases hr with rfl | rfl <;> decide), if_neg (by rcases hr with rfl | rfl <;> simp),
    if_neg (by rcases hr with rfl | rfl <;> decide), htch, hq]
  simp only [Res.ok_bind, List.nil_append]
  rw [haft]
  rfl

theorem acked_code {c : Cmd} (h : Acked c) : codeOf c < 256 ∧ codeOf c ≠ Id.KEYSET := by
  cases c <;> first | exact h.elim | (constructor <;> simp [codeOf, Id.OUT, Id.LED, Id.BUZ, Id.TEXT, Id.MFG, Id.KEYSET])

theorem verdict_asked_append (a b : List Out) : asked (a ++ b) = asked a ++ asked b := by
  unfold asked; rw [List.filterMap_append]

theorem asked_none {o : List Out} (h : ∀ c, Out.cmd c ∉ o) : asked o = [] := by
  unfold asked
  rw [List.filterMap_eq_nil_iff]
  intro x hx
  cases x <;> first | rfl | exact absurd hx (h _)

/-- the whole exchange in the clear, for every value the callback may return -/
theorem verdict_answered (C : Cipher) (p : Pd) (k : Packet) (env : Env) (c : Cmd) (f : Nat → Cmd → Int × Cmd)
    (hl : Listening p) (hk : ForUs p k) (ha : Arrives env k.bytes)
    (hs : Phy.hasBit k.ctl Phy.CTL_SCB = false) (hscb : k.scb = []) (hd : k.data = encode c)
    (henf : p.flags.enforceSecure = false) (hm : 69 ≤ p.txBufSize) (hcap : 256 ≤ env.sendCap)
    (hac : Acked c) (hv : Valid false c) (hmay : MayAsk p.cap c) (hcb : env.cb = some f) :
    ∃ q outs r, refresh C p env = .ok (q, outs) ∧ asked outs = [carried c] ∧ sent outs = [Packet.bytes r] ∧
      Answers p.address.toNat k r (if (decided p c (f 0 (carried c)).1).2 = .none then [b8 Id.ACK] else [b8 Id.NAK, Nak.RECORD]) := by
  obtain ⟨rest, he⟩ : ∃ rest, encode c = b8 (codeOf c) :: rest := by
    cases c <;> first | exact hac.elim | exact ⟨_, rfl⟩
  obtain ⟨hc1, hc2⟩ := acked_code hac
  obtain ⟨h, hh, hrec⟩ := receive_listening C p k env _ rest hl hk ha hs hscb (hd.trans he)
  obtain ⟨f1, f2, f3⟩ := accepted_fields k h hl
  have hnote : (noteCmd (accepted p k h) (b8 (codeOf c))).cmdId = codeOf c := by
    show (b8 (codeOf c)).toNat = _
    simp [b8]; omega
  have hdis := dispatch_decided (p := noteCmd (accepted p k h) (b8 (codeOf c))) hac hv hmay hnote hcb he
  have hpr : plainRefused (noteCmd (accepted p k h) (b8 (codeOf c))) = false := by
    unfold plainRefused
    rw [show (noteCmd (accepted p k h) (b8 (codeOf c))).flags.enforceSecure = false from henf]; rfl
  unfold commanded at hrec
  rw [hpr, if_neg (by simp), hdis] at hrec
  have hexp : expire p env.now = p := by unfold expire; rw [hl.sc]; simp
  have ends : ∀ {P : Pd} {ret : PdRet} {rb : List Byte}, receiveAndProcess C p env = .ok (P, [.cmd (carried c)], ret) →
      (∃ q, finish C P env ret = .ok (q, sendOuts P env (plainReply P rb).bytes)) → rb.length ≤ 2 →
      Answers p.address.toNat k (plainReply P rb) rb →
      ∃ q outs r, refresh C p env = .ok (q, outs) ∧ asked outs = [carried c] ∧ sent outs = [Packet.bytes r] ∧
        Answers p.address.toNat k r rb := by
    intro P ret rb hrec ⟨q, hf⟩ hn hans
    have hlen := plainReply_length P rb
    obtain ⟨hs, hno⟩ := sendOuts_sent P env (plainReply P rb).bytes (by omega)
    refine ⟨q, [.cmd (carried c)] ++ sendOuts P env (plainReply P rb).bytes, _, ?_, ?_, ?_, hans⟩
    · unfold refresh
      rw [hexp, hrec]
      simp only [Res.ok_bind]
      rw [hf]
      rfl
    · rw [verdict_asked_append, asked_none hno]; rfl
    · show sent (Out.cmd _ :: _) = _
      rw [← hs]; rfl
  by_cases hz : (f 0 (carried c)).1 = 0
  · have hde : ∀ P : Pd, decided P c (f 0 (carried c)).1 = ({ P with replyId := Id.ACK }, .none) := fun P => by
      unfold decided; rw [if_pos hz]
    rw [hde] at hrec
    rw [hde, if_pos rfl]
    exact ends hrec (finish_ack C _ env .none (.inl rfl) f1 f2 hm hh.buf hcap rfl (fun h' => hc2 (hnote.symm.trans h')))
      (by simp) (plainReply_answers _ rfl rfl f3 hl.addr)
  · by_cases hlone : ∀ P : Pd, decided P c (f 0 (carried c)).1 = (setNak P Nak.RECORD, .reply)
    · rw [hlone] at hrec
      rw [hlone, if_neg (by simp)]
      obtain ⟨q, hq, -⟩ := finish_nak C (setNak (noteCmd (accepted p k h) (b8 (codeOf c))) Nak.RECORD) env Nak.RECORD .reply (.inr rfl) f1 f2
        hm hh.buf hcap rfl (setNak_eph (p := noteCmd (accepted p k h) (b8 (codeOf c))) f1 _)
      exact ends hrec ⟨q, hq⟩ (by simp) (plainReply_answers _ rfl rfl f3 hl.addr)
    · have hde : ∀ P : Pd, decided P c (f 0 (carried c)).1 = ({ setNak P Nak.RECORD with replyId := Id.ACK }, .none) := fun P => by
        unfold decided at hlone ⊢
        rw [if_neg hz]
        simp only [if_neg hz] at hlone
        cases c <;> first | rfl | exact absurd (fun _ => rfl) hlone
      rw [hde] at hrec
      rw [hde, if_pos rfl]
      exact ends hrec (finish_ack C _ env .none (.inl rfl) f1 f2 hm hh.buf hcap rfl (fun h' => hc2 (hnote.symm.trans h')))
        (by simp) (plainReply_answers _ rfl rfl f3 hl.addr)

/-! ## The property -/

/-- **C80 (partial: values up to 0, negative ones for TEXT and MFG only; in the clear).**  The packet of a command that is answered
with ACK when carried out arrives.  The callback gets that command, once.  If it returns 0 the PD sends one packet, the ACK; if it
returns a negative value (TEXT, MFG), one packet, a NAK. -/
theorem C80_partial (C : Cipher) (p : Pd) (k : Packet) (env : Env) (c : Cmd) (f : Nat → Cmd → Int × Cmd) (m : List Byte)
    (hl : Listening p) (hk : ForUs p k) (ha : Arrives env k.bytes)
    (hs : Phy.hasBit k.ctl Phy.CTL_SCB = false) (hscb : k.scb = []) (hd : k.data = encode c)
    (henf : p.flags.enforceSecure = false) (hm : 69 ≤ p.txBufSize) (hcap : 256 ≤ env.sendCap)
    (hac : Acked c) (hv : Valid false c) (hmay : MayAsk p.cap c) (hcb : env.cb = some f)
    (hle : (f 0 (carried c)).1 ≤ 0) (hneg : (f 0 (carried c)).1 < 0 → (∃ t, c = .text t) ∨ ∃ t, c = .mfg t) :
    ∃ q outs r, refresh C p env = .ok (q, outs) ∧ asked outs = [carried c] ∧ sent outs = [Packet.bytes r] ∧
      Answers p.address.toNat k r (promised (f 0 (carried c)).1 m) := by
  have h := verdict_answered C p k env c f hl hk ha hs hscb hd henf hm hcap hac hv hmay hcb
  have e : (if (decided p c (f 0 (carried c)).1).2 = .none then [b8 Id.ACK] else [b8 Id.NAK, Nak.RECORD]) =
      promised (f 0 (carried c)).1 m := by
    unfold promised decided
    by_cases hz : (f 0 (carried c)).1 = 0
    · rw [if_pos hz, if_pos hz]; rfl
    · have hlt : (f 0 (carried c)).1 < 0 := by omega
      rw [if_neg hz, if_neg hz, if_pos hlt]
      rcases hneg hlt with ⟨t, rfl⟩ | ⟨t, rfl⟩ <;> rfl
  rw [e] at h
  exact h

/-- **C80 fails for every positive value**: whatever the callback leaves in the command, a manufacturer command for which it returns
a positive value is answered with NAK, never with MFGREP. -/
theorem C80_no_mfgrep (C : Cipher) (p : Pd) (k : Packet) (env : Env) (x : CmdMfg) (f : Nat → Cmd → Int × Cmd)
    (hl : Listening p) (hk : ForUs p k) (ha : Arrives env k.bytes)
    (hs : Phy.hasBit k.ctl Phy.CTL_SCB = false) (hscb : k.scb = []) (hd : k.data = encode (.mfg x))
    (henf : p.flags.enforceSecure = false) (hm : 69 ≤ p.txBufSize) (hcap : 256 ≤ env.sendCap)
    (hv : x.length.toNat ≤ 64) (hcb : env.cb = some f) (hpos : 0 < (f 0 (carried (.mfg x))).1) :
    ∃ q outs r, refresh C p env = .ok (q, outs) ∧ asked outs = [carried (.mfg x)] ∧ sent outs = [Packet.bytes r] ∧
      Answers p.address.toNat k r [0x41#8, 0x09#8] ∧ ∀ m, ¬ Answers p.address.toNat k r (promised (f 0 (carried (.mfg x))).1 m) := by
  obtain ⟨q, outs, r, h1, h2, h3, h4⟩ := verdict_answered C p k env (.mfg x) f hl hk ha hs hscb hd henf hm hcap trivial hv trivial hcb
  have hz : (f 0 (carried (.mfg x))).1 ≠ 0 := by omega
  have e : (decided p (.mfg x) (f 0 (carried (.mfg x))).1).2 = .reply := by
    unfold decided; rw [if_neg hz]
  rw [e, if_neg (by simp)] at h4
  refine ⟨q, outs, r, h1, h2, h3, h4, fun m h5 => ?_⟩
  have := h4.data.symm.trans h5.data
  unfold promised at this
  rw [if_neg hz, if_neg (by omega)] at this
  injection this with h _
  exact absurd h (by decide)

/-! ## Non-vacuity -/

/-- an application that returns `v` and leaves another manufacturer command behind -/
def Sample.envGives (v : Int) (bs : List Byte) : Env :=
  { Sample.env bs with cb := some fun _ _ => (v, .mfg ⟨1, 2, 3, .padTo 64 [7, 8, 9]⟩) }

example : outcomeOf (refresh Aes.aes Sample.pd (Sample.envGives 0 (Sample.cmd 0 [b8 Id.MFG, 1, 2, 3, 4, 5]))) =
    some ([.mfg ⟨0x030201#32, 4, 1, .padTo 64 [5]⟩], [Packet.bytes ⟨true, 0xE5#8, 4#8, [], [b8 Id.ACK]⟩]) := by
  decide +kernel

example : outcomeOf (refresh Aes.aes Sample.pd (Sample.envGives (-1) (Sample.cmd 0 [b8 Id.MFG, 1, 2, 3, 4, 5]))) =
    some ([.mfg ⟨0x030201#32, 4, 1, .padTo 64 [5]⟩], [Packet.bytes ⟨true, 0xE5#8, 4#8, [], [b8 Id.NAK, Nak.RECORD]⟩]) := by
  decide +kernel

/-- the reply it wants to give is not sent -/
example : outcomeOf (refresh Aes.aes Sample.pd (Sample.envGives 1 (Sample.cmd 0 [b8 Id.MFG, 1, 2, 3, 4, 5]))) =
    some ([.mfg ⟨0x030201#32, 4, 1, .padTo 64 [5]⟩], [Packet.bytes ⟨true, 0xE5#8, 4#8, [], [b8 Id.NAK, Nak.RECORD]⟩]) := by
  decide +kernel

end Osdp.PdM
