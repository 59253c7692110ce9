import Verif.Lemmas.PdSafe
import Verif.Props.C23
import Verif.Props.C39
import Verif.Props.C06
import Verif.Lemmas.SampleSc

/-!
# C37: what makes a PD crash

The property fails.  Here is the complete list of the ways in which a PD can be brought to abort or to access memory
it must not access (`Trigger`): whatever its history, and whatever it receives, it gets through a refresh unless one of
them is present.  The application is supposed to keep to the interface: `recv` stores at most as many bytes as asked
for, the command callback leaves a command a command of the same kind, the lengths in events lie within their arrays.
-/

namespace Osdp.PdM

open Phy (checkPacket decodePacket Decoded heldFrame pend)
open Spec.Block (Overlong)

/-- The ways to crash a PD in state `p` with what it finds in `env`. -/
inductive Trigger (C : Cipher) (p : Pd) (env : Env) : Prop where
  /-- a packet of 256 bytes is announced (with the mark byte it needs 257) -/
  | long (a : Byte) (h : [0x53#8, a, 0x00#8, 0x01#8] <:+: pend p ++ env.recv.flatten)
  /-- a packet with a security block that is longer than the packet -/
  | block (q : Pd) (h : checkPacket (expire p env.now) env = .ok (q, .none)) (ho : Overlong q.scActive (heldFrame q))
  /-- an unassigned command id, sent in clear to a PD that enforces security -/
  | unnamed (q r : Pd) (d : Decoded) (id : Byte) (h : checkPacket (expire p env.now) env = .ok (q, .none))
      (hd : decodePacket C q = .ok (r, d)) (hid : d.data[0]? = some id) (hu : Unassigned id.toNat)
      (he : p.flags.enforceSecure = true) (hs : r.scActive = false)
  /-- LSTAT, and the application registered no command callback -/
  | lstat (body : List Byte) (h : commandOf C p env = some (0x64#8, body)) (hc : env.cb = none)
  /-- a fragment of a file with a wrong length, or exceeding the file -/
  | fragment (f : FileSt) (body : List Byte) (h : commandOf C p env = some (0x7C#8, body)) (hf : p.file = some f)
      (ho : Overfull f body)
  /-- POLL, with an event queued, and the CP announced a buffer of 69 to 141 bytes -/
  | tight (h : commandOf C p env = some (0x60#8, [])) (he : p.eventQueue ≠ []) (h1 : 69 ≤ p.peerRx) (h2 : p.peerRx ≤ 141)
  /-- more than 31 inputs or outputs -/
  | items (h : 31 < (p.cap 1).numItems.toNat ∨ 31 < (p.cap 2).numItems.toNat)

theorem lengthy_poll {c r : Nat} (h : r ∈ Spec.Answer.replies c) (hl : r = Id.KEYPAD ∨ r = Id.RAW ∨ r = Id.MFGREP) :
    c = Id.POLL := by
  unfold Spec.Answer.replies at h
  split at h <;> first
    | rfl
    | (rcases hl with rfl | rfl | rfl <;> exact absurd h (by decide))

/-- **C37, partial.**  A PD in any state it can reach, any bytes in any pieces: unless one of the causes listed in
`Trigger` is present, the refresh returns; no assertion fails and no memory is accessed that must not be. -/
theorem C37_partial (C : Cipher) (info : Info) (p : Pd) (env : Env) (hq : Reached C info p)
    (h64 : ∀ c ∈ env.recv, c.length ≤ 64) (hk : Keeps env) (hev : ∀ e ∈ p.eventQueue, EventOk e)
    (hn : ¬ Trigger C p env) : ∃ q outs, refresh C p env = .ok (q, outs) := by
  have hp := hq.pdMode
  have hcap : (p.cap 1).numItems.toNat ≤ 31 ∧ (p.cap 2).numItems.toNat ≤ 31 :=
    ⟨Nat.le_of_not_lt fun h => hn (.items (.inl h)), Nat.le_of_not_lt fun h => hn (.items (.inr h))⟩
  have hfe : Phy.Framed (expire p env.now) := Kept.framed (p := p) (by unfold expire; split <;> exact ⟨rfl, rfl, rfl, rfl, rfl, rfl⟩) hq.framed
  have hpe : (expire p env.now).flags.pdMode = true := (congrArg Config.pdMode (config_expire p env.now)).trans hp
  have hpend : pend (expire p env.now) = pend p := by unfold expire; split <;> rfl
  have hex := (expire_fields p env.now).1
  have hexf : (expire p env.now).file = p.file := by unfold expire; split <;> rfl
  -- what is received
  suffices hrec : ∃ q o ret, receiveAndProcess C (expire p env.now) env = .ok (q, o, ret) ∧ q.flags.pdMode = true ∧
      q.packetBuf.length = 256 ∧ q.cap = p.cap ∧
      (ret = .none ∨ ret = .reply → Primed q ∧ (Lengthy q → q.txBufSize < 69 ∨ 142 ≤ q.txBufSize)) by
    obtain ⟨q, o, ret, h1, h2, h3, h4, h5⟩ := hrec
    obtain ⟨s, o2, h6⟩ := finish_total (C := C) (env := env) h2 h3 h5 (by rw [h4]; exact hcap)
    unfold refresh
    rw [h1]
    show ∃ q' outs, (finish C q env ret >>= _) = _
    rw [h6]
    exact ⟨_, _, rfl⟩
  unfold receiveAndProcess
  cases hc : checkPacket (expire p env.now) env with
  | error e =>
    exfalso
    rcases Phy.checkPacket_fault hfe.sound hc with ⟨-, c, hc, hlt⟩ | ⟨-, -, a, ha⟩
    · exact absurd (h64 c hc) (by omega)
    · rw [hpend] at ha; exact hn (.long a ha)
  | ok x =>
    obtain ⟨p1, r⟩ := x
    have hck := Phy.checkPacket_checked hc
    have hst := Phy.checkPacket_stored hfe hc
    have hp1 : p1.flags.pdMode = true := by rw [hck.transp.pdMode]; exact hpe
    have hc1 : p1.cap = p.cap := by
      have := congrArg Config.cap ((config_transp hck.transp).trans (config_expire p env.now)); exact this
    have hno : ∀ ret : PdRet, ret ≠ .none → ret ≠ .reply → (ret = .none ∨ ret = .reply → Primed p1 ∧ (Lengthy p1 → p1.txBufSize < 69 ∨ 142 ≤ p1.txBufSize)) :=
      fun ret a b h => absurd h (by simp [a, b])
    dsimp only [bind, Except.bind]
    cases r with
    | nack =>
      refine ⟨_, _, _, rfl, hp1, hst.buf, hc1, fun _ => ?_⟩
      obtain ⟨a, b⟩ := hck.nack rfl
      exact ⟨.nak _ a (b hpe), fun hl => by unfold Lengthy at hl; rw [a] at hl; exact absurd hl (by decide)⟩
    | noData => exact ⟨_, _, _, rfl, hp1, hst.buf, hc1, hno _ (by decide) (by decide)⟩
    | wait => exact ⟨_, _, _, rfl, hp1, hst.buf, hc1, hno _ (by decide) (by decide)⟩
    | skip => exact ⟨_, _, _, rfl, hp1, hst.buf, hc1, fun h => absurd h (by decide)⟩
    | fmt => exact ⟨_, _, _, rfl, hp1, hst.buf, hc1, hno _ (by decide) (by decide)⟩
    | check => exact ⟨_, _, _, rfl, hp1, hst.buf, hc1, hno _ (by decide) (by decide)⟩
    | busy => exact ⟨_, _, _, rfl, hp1, hst.buf, hc1, hno _ (by decide) (by decide)⟩
    | none =>
      dsimp only
      have hheld := Phy.checkPacket_held hfe hc
      obtain ⟨p2, d, hd, hneg, hdl⟩ := Phy.decodePacket_total (C := C) hheld (fun ho => hn (.block p1 hc ho))
      have hdt := Phy.decodePacket_to hd
      have hp2 : p2.flags.pdMode = true := by rw [hdt.transp.pdMode]; exact hp1
      have hc2 : p2.cap = p.cap := by
        have : p2.cap = p1.cap := congrArg Config.cap (config_transp hdt.transp)
        rw [this, hc1]
      have hb2 : p2.packetBuf.length = 256 := by rw [hdt.bufLen]; exact hst.buf
      unfold process
      rw [hd]
      dsimp only [bind, Except.bind]
      by_cases hle : d.len ≤ 0
      · rw [if_pos hle]
        refine ⟨_, _, _, rfl, hp2, hb2, hc2, fun hret => ?_⟩
        have hnack : d.len = Phy.PKT_NACK := by
          refine Classical.byContradiction fun hx => ?_
          rw [if_neg hx] at hret
          exact absurd hret (by decide)
        obtain ⟨hnk, hep⟩ := hneg hnack
        obtain ⟨c, hep⟩ := hep hp2
        exact ⟨.nak c hnk hep, fun hl => by unfold Lengthy at hl; rw [hnk] at hl; exact absurd hl (by decide)⟩
      rw [if_neg hle]
      have hlen := hdl (by omega)
      have hdata : 0 < d.data.length := by omega
      obtain ⟨id, hid⟩ : ∃ id, d.data[0]? = some id := ⟨_, List.getElem?_eq_getElem hdata⟩
      unfold decodeCommand
      rw [Phy.rd_ok hid]
      dsimp only [bind, Except.bind]
      have hev2 : (noteCmd p2 id).eventQueue = p.eventQueue :=
        hdt.transp.eventQueue.trans (hck.transp.eventQueue.trans hex.events)
      have hf2 : (noteCmd p2 id).file = p.file := hdt.transp.file.trans (hck.transp.file.trans hexf)
      have hrx2 : (noteCmd p2 id).peerRx = p.peerRx := hdt.transp.peerRx.trans (hck.transp.peerRx.trans hex.peerRx)
      have hen2 : (noteCmd p2 id).flags.enforceSecure = p.flags.enforceSecure :=
        hdt.transp.enforceSecure.trans (hck.transp.enforceSecure.trans (congrArg Config.enforceSecure (config_expire p env.now)))
      by_cases hpr : plainRefused (noteCmd p2 id) = true
      · rw [if_pos hpr]
        by_cases hu : cmdNameOk id.toNat = true
        · rw [if_pos hu]
          refine ⟨_, _, _, rfl, hp2, hb2, hc2, fun _ => ⟨primed_nak (p := noteCmd p2 id) hp2 _, fun hl => ?_⟩⟩
          exact absurd hl (by unfold Lengthy Phy.setNak; dsimp only; decide)
        · exfalso
          have hun : Unassigned id.toNat := by
            refine Classical.byContradiction fun hx => hu ((named_iff id).mpr hx)
          unfold plainRefused at hpr
          simp only [Bool.and_eq_true, Bool.not_eq_true'] at hpr
          exact hn (.unnamed p1 p2 d id hc hd hid hun (hen2.symm.trans hpr.1.1.1.1.1) hpr.1.1.1.1.2)
      rw [if_neg hpr, if_neg (by omega)]
      have hcmd : commandOf C p env = some (id, (d.data.take d.len.toNat).drop 1) := by
        unfold commandOf
        rw [hc]; dsimp only
        rw [hd]; dsimp only
        rw [if_neg hle, hid]; dsimp only
        rw [if_neg hpr]
      have hbl : ((d.data.take d.len.toNat).drop 1).length < 256 := by
        have := Phy.decodePacket_dataLen hd
        have := hst.buf
        simp only [List.length_drop, List.length_take]; omega
      generalize (d.data.take d.len.toNat).drop 1 = body at hcmd hbl
      have hcid : ∀ n : Byte, (noteCmd p2 id).cmdId = n.toNat → id = n := fun n h => BitVec.eq_of_toNat_eq h
      obtain ⟨q, o, ret, hdis, hprim⟩ := dispatch_fine (p := noteCmd p2 id) (env := env) (body := body) hp2 hbl hk
        (by rw [hev2]; exact hev)
        (fun hl => by
          have := hcid 0x64#8 hl; subst this
          cases hcb : env.cb with
          | none => exact absurd (.lstat body hcmd hcb) hn
          | some _ => rfl)
        (fun hl f hf ho => by
          have := hcid 0x7C#8 hl; subst this
          exact hn (.fragment f body hcmd (hf2.symm.trans hf) ho))
      have hout := dispatch_outcome (p := noteCmd p2 id) hp2 hdis
      have hkp := kept_outcome hout
      refine ⟨q, o, ret, hdis, hkp.pdMode.trans hp2, by rw [hkp.buf]; exact hb2, ?_, fun hret => ?_⟩
      · have : q.cap = (noteCmd p2 id).cap := congrArg Config.cap (config_outcome hout)
        rw [this]; exact hc2
      · refine ⟨hprim (by rcases hret with h | h <;> rw [h] <;> decide), fun hl => ?_⟩
        rcases dispatch_kind hdis with ⟨h1, -⟩ | ⟨h1, -⟩ | ⟨-, -, h1⟩
        · unfold Lengthy at hl; rw [h1] at hl; exact absurd hl (by decide)
        · have hpoll := lengthy_poll h1 hl
          have := hcid 0x60#8 hpoll; subst this
          unfold dispatch at hdis
          dsimp only at hdis
          rw [if_pos hpoll] at hdis
          split at hdis
          · obtain ⟨rfl, -, -⟩ := badLen_inv hdis
            exact absurd hl (by unfold Lengthy Phy.setNak; dsimp only; decide)
          rename_i hbn
          have hbn : body = [] := by simpa using hbn
          subst hbn
          obtain ⟨rfl, -, -⟩ := reply_inv hdis
          have hne : p.eventQueue ≠ [] := by
            intro hx
            have e : (pollEvent (noteCmd p2 0x60#8)).replyId = Id.ACK := by unfold pollEvent; rw [hev2, hx]
            have hl : (pollEvent (noteCmd p2 0x60#8)).replyId = Id.KEYPAD ∨ (pollEvent (noteCmd p2 0x60#8)).replyId = Id.RAW ∨
              (pollEvent (noteCmd p2 0x60#8)).replyId = Id.MFGREP := hl
            rw [e] at hl; exact absurd hl (by decide)
          have erx : (pollEvent (noteCmd p2 0x60#8)).peerRx = p.peerRx := by
            rw [← hrx2]; unfold pollEvent; split <;> rfl
          have hs : Pd.txBufSize (setReply (pollEvent (noteCmd p2 0x60#8)) (pollEvent (noteCmd p2 0x60#8)).replyId (pollEvent (noteCmd p2 0x60#8)).eph) =
              if p.peerRx ≠ 0 ∧ p.peerRx < 256 then p.peerRx else 256 := by
            unfold Pd.txBufSize setReply; dsimp only; rw [erx]
          rw [hs]
          refine Classical.byContradiction fun hx => hn (.tight hcmd hne ?_ ?_)
          · split at hx <;> omega
          · split at hx <;> omega
        · rw [h1] at hret; exact absurd hret (by decide)

/-- what the application puts in follows the interface -/
def Proper : Op → Prop
  | .refresh env => (∀ c ∈ env.recv, c.length ≤ 64) ∧ Keeps env
  | .notify e => EventOk e
  | _ => True

theorem events_ok {C : Cipher} {info : Info} {p q : Pd} {op : Op} {outs : List Out} (hq : Reached C info p)
    (hev : ∀ e ∈ p.eventQueue, EventOk e) (ho : Proper op) (h : step C p op = .ok (q, outs)) :
    ∀ e ∈ q.eventQueue, EventOk e := by
  cases op with
  | refresh env =>
    rcases C39_one_per_poll C info p q env outs hq h with h | ⟨e, h, -⟩
    · rw [h]; exact hev
    · intro x hx; exact hev x (by rw [h]; exact .tail _ hx)
  | notify e =>
    cases h
    intro x hx
    unfold notifyEvent at hx
    split at hx
    · rcases List.mem_append.mp hx with hx | hx
      · exact hev x hx
      · rw [List.mem_singleton.mp hx]; exact ho
    · exact hev x hx
  | flush => cases h; intro x hx; cases hx
  | setCaps caps => cases h; exact hev
  | fileOps => cases h; exact hev

theorem crash_found {C : Cipher} {info : Info} {f : Fault} : ∀ (ops : List Op) (p : Pd), Reached C info p →
    (∀ e ∈ p.eventQueue, EventOk e) → (∀ op ∈ ops, Proper op) → run C p ops = .error f →
    ∃ before env after q outs, ops = before ++ .refresh env :: after ∧ run C p before = .ok (q, outs) ∧ Trigger C q env
  | [], _, _, _, _, h => nomatch h
  | op :: ops, p, hq, hev, ho, h => by
    cases hs : step C p op with
    | ok x =>
      obtain ⟨q, o⟩ := x
      have hr : run C q ops = .error f := by
        unfold run at h
        rw [hs] at h
        cases hr : run C q ops with
        | ok y => rw [show (do let (p, o) ← (Except.ok (q, o) : Res (Pd × List Out)); let (p, o') ← run C p ops
                               Except.ok (p, o ++ o')) = (run C q ops >>= fun y => .ok (y.1, o ++ y.2)) from rfl, hr] at h
                  cases h
        | error e => rw [show (do let (p, o) ← (Except.ok (q, o) : Res (Pd × List Out)); let (p, o') ← run C p ops
                                  Except.ok (p, o ++ o')) = (run C q ops >>= fun y => .ok (y.1, o ++ y.2)) from rfl, hr] at h
                     cases h; rfl
      obtain ⟨before, env, after, s, outs, h1, h2, h3⟩ := crash_found ops q (hq.step hs)
        (events_ok hq hev (ho op (.head _)) hs) (fun x hx => ho x (.tail _ hx)) hr
      refine ⟨op :: before, env, after, s, o ++ outs, by rw [h1]; rfl, ?_, h3⟩
      unfold run
      rw [hs]
      show (run C q before >>= _) = _
      rw [h2]
      rfl
    | error e =>
      cases op with
      | refresh env =>
        refine ⟨[], env, ops, p, [], rfl, rfl, Classical.byContradiction fun hn => ?_⟩
        obtain ⟨a, b⟩ := ho (.refresh env) (.head _)
        obtain ⟨q, outs, hok⟩ := C37_partial C info p env hq a b hev hn
        rw [show step C p (.refresh env) = refresh C p env from rfl, hok] at hs
        cases hs
      | notify e => cases hs
      | flush => cases hs
      | setCaps caps => cases hs
      | fileOps => cases hs

/-- **C37 over histories, partial.**  A PD is set up and used in any way, in accordance with the interface, and receives
anything: if the history ends in a crash, then at some refresh one of the causes in `Trigger` was present. -/
theorem C37_history_partial (C : Cipher) (info : Info) (sk : Bool) (n : Nat) (p : Pd) (ops : List Op) (f : Fault)
    (hs : setup info sk n = some p) (ho : ∀ op ∈ ops, Proper op) (h : run C p ops = .error f) :
    ∃ before env after q outs, ops = before ++ .refresh env :: after ∧ run C p before = .ok (q, outs) ∧ Trigger C q env := by
  have hq : Reached C info p := ⟨sk, n, p, [], [], hs, rfl⟩
  refine crash_found ops p hq ?_ ho h
  intro e he
  unfold setup at hs
  split at hs
  · cases hs
  · injection hs with hs; subst hs; cases he

/-! ## The hypotheses can be met -/

/-- a POLL has none of the causes, so the theorem says that the refresh returns -/
example : ∃ q outs, refresh Aes.aes Sample.pd (Sample.env Sample.poll) = .ok (q, outs) := by
  have hc : commandOf Aes.aes Sample.pd (Sample.env Sample.poll) = some (0x60#8, []) := by decide +kernel
  have hn : ∀ q, checkPacket (expire Sample.pd 0) (Sample.env Sample.poll) = .ok (q, .none) →
      heldFrame q = Sample.poll.drop 1 := by
    intro q h
    have : (match checkPacket (expire Sample.pd 0) (Sample.env Sample.poll) with
        | .ok (q, .none) => some (heldFrame q) | _ => none) = some (Sample.poll.drop 1) := by decide +kernel
    rw [h] at this
    exact Option.some.inj this
  refine C37_partial Aes.aes Sample.pdInfo Sample.pd _ (sample_reached _) (by decide) ?_ (by intro e he; cases he) ?_
  · intro cb h i c; cases h; rfl
  · intro h
    cases h with
    | long a h => exact absurd h (by revert a; decide +kernel)
    | block q h ho => rw [hn q h] at ho; obtain ⟨ctl, sb, h4, h3, -⟩ := ho; cases h4; exact absurd h3 (by decide)
    | unnamed q r d id h hd hid hu he => exact absurd he (by decide +kernel)
    | lstat body h => rw [hc] at h; exact absurd h (by simp)
    | fragment f body h => rw [hc] at h; exact absurd h (by simp)
    | tight h he => exact absurd rfl he
    | items h => exact absurd h (by decide +kernel)

/-! ## Each of the causes is one -/

/-- how a history ends -/
def ending (p : Pd) (ops : List Op) : Option Fault := match run Aes.aes p ops with | .ok _ => none | .error f => some f

/-- **C37 violated, by three bytes of a header** (`Trigger.long`): 257 bytes on the line and the PD writes past its
packet buffer. -/
theorem C37_long : ending Sample.pd [.refresh { Sample.env [] with recv := longPacket }] = some .oobWrite := by decide +kernel

/-- a PD at address 83, and commands for it with a security block -/
def pd83 : Pd := (setup { Sample.pdInfo with address := 83 } false 16).getD (blank 16)
def at83 (seq : Byte) (scb data : List Byte) : List Byte :=
  Spec.Wire.Packet.bytes ⟨true, 83#8, seq ||| 0x0C#8, scb, data⟩

/-- a handshake with that PD -/
def shake83 : List Op :=
  [.refresh (Sample.env (at83 0#8 [3#8, 0x11#8, 1#8] (0x76#8 :: Sample.rndA.1))),
   .refresh (Sample.env (at83 1#8 [3#8, 0x13#8, 1#8] (0x77#8 :: (Sample.session Aes.aes Sample.key).cpCryptogram.1)))]

/-- **C37 violated, by one who knows no key** (`Trigger.block`): in a secure channel, a POLL without a MAC (accepted, see
C17) followed by a packet of six bytes, whose CRC doubles as the control byte.  The MAC of no bytes at all is computed
and the sixteen bytes in front of the buffer are read (src/osdp_sc.c:232-257). -/
theorem C37_block : ending pd83 (shake83 ++ [.refresh (Sample.env (at83 2#8 [2#8, 0x11#8] [0x60#8]))]) = none ∧
    ending pd83 (shake83 ++ [.refresh (Sample.env (at83 2#8 [2#8, 0x11#8] [0x60#8])),
      .refresh (Sample.env [0xFF#8, 0x53#8, 83#8, 6#8, 0#8, 0xCF#8, 0x4D#8])]) = some .oobRead := by decide +kernel

/-- **C37 violated, by an unassigned command id** (`Trigger.unnamed`). -/
theorem C37_unnamed : ending ((setup { Sample.pdInfo with enforceSecure := true } false 16).getD (blank 16))
    [.refresh (Sample.env (Sample.cmd 0#8 [0x63#8]))] = some .nullDeref := by decide +kernel

/-- **C37 violated, by LSTAT** (`Trigger.lstat`): without a command callback the NULL pointer is called; ISTAT is refused. -/
theorem C37_lstat : ending Sample.pd [.refresh { Sample.env (Sample.cmd 0#8 [0x64#8]) with cb := none }] = some .nullDeref ∧
    ending Sample.pd [.refresh { Sample.env (Sample.cmd 0#8 [0x65#8]) with cb := none }] = none := by decide +kernel

/-- **C37 violated, by a fragment of a file** (`Trigger.fragment`): four bytes announced, three sent. -/
theorem C37_fragment : ending Sample.pd [.fileOps,
    .refresh (Sample.env (Sample.cmd 0#8 [0x7C#8, 1, 8, 0, 0, 0, 0, 0, 0, 0, 4, 0, 9, 9, 9]))] = some .assertFail := by decide +kernel

/-- **C37 violated, by a CP that announces a small buffer** (`Trigger.tight`): 70 bytes, and 64 keys are to be
reported. -/
theorem C37_tight : ending Sample.pd [.notify (.keypress ⟨0, 64, .padTo 64 [5#8]⟩),
    .refresh (Sample.env (Sample.cmd 0#8 [0x7B#8, 70, 0])), .refresh (Sample.env (Sample.cmd 1#8 [0x60#8]))] = some .assertFail ∧
    ending Sample.pd [.notify (.keypress ⟨0, 64, .padTo 64 [5#8]⟩),
    .refresh (Sample.env (Sample.cmd 0#8 [0x7B#8, 200, 0])), .refresh (Sample.env (Sample.cmd 1#8 [0x60#8]))] = none := by decide +kernel

/-- the application reports on `n` inputs -/
def reports (n : Int) (bytes : List Byte) : Env :=
  { Sample.env bytes with cb := some fun _ c => (0, match c with | .status s => .status { s with nrEntries := n } | c => c) }

/-- **C37 violated, by 40 inputs** (`Trigger.items`): `1 << i` overflows when ISTAT is answered. -/
theorem C37_items : ending Sample.pd [.setCaps [⟨1, 1, 40⟩], .refresh (reports 40 (Sample.cmd 0#8 [0x65#8]))] = some .badShift ∧
    ending Sample.pd [.setCaps [⟨1, 1, 31⟩], .refresh (reports 31 (Sample.cmd 0#8 [0x65#8]))] = none := by decide +kernel

end Osdp.PdM
