import Verif.Lemmas.PdKey
import Verif.Lemmas.SampleSc
import Verif.Props.C11

/-!
# C23: an ENFORCE_SECURE PD refuses plaintext operation
-/

namespace Osdp.PdM

open Spec.Wire

theorem outcome_events {p q : Pd} {env : Env} {bd : List Byte} {o : List Out} {r : PdRet} (h : Outcome p env bd q o r)
    (hn : p.cmdId ≠ Id.POLL) : q.eventQueue = p.eventQueue := by
  cases h with
  | plain hpl _ => obtain ⟨_, _, h⟩ := hpl.quiet; subst h; rfl
  | poll h _ => exact absurd h hn
  | file _ _ => split <;> rfl
  | _ => rfl

/-- **C23.**  A PD set up with ENFORCE_SECURE, in any state it can get into in which no secure channel is active,
and whatever it receives: no command reaches the application's callback and no queued event leaves the queue. -/
theorem C23_no_plaintext_operation (C : Cipher) (info : Info) (q s : Pd) (env : Env) (outs : List Out)
    (he : info.enforceSecure = true) (hq : Reached C info q) (hoff : q.scActive = false)
    (h : refresh C q env = .ok (s, outs)) :
    (∀ c, Out.cmd c ∉ outs) ∧ s.eventQueue = q.eventQueue := by
  have hp := hq.pdMode
  obtain ⟨p1, o1, ret, o2, hg, hp1, hfin, rfl⟩ := refresh_inv hp h
  have hen : (expire q env.now).flags.enforceSecure = true :=
    (congrArg Config.enforceSecure (config_expire q env.now)).trans (hq.flags.1.trans he)
  have hev : (expire q env.now).eventQueue = q.eventQueue := (expire_fields q env.now).1.events
  have hfo : ∀ c, Out.cmd c ∉ o2 := by
    intro c hc
    rcases finished_outs hfin _ hc with h | h | ⟨bs, h⟩ <;> cases h
  have tl := (finished_tail hfin).events
  suffices hh : (∀ c, Out.cmd c ∉ o1) ∧ p1.eventQueue = q.eventQueue by
    refine ⟨fun c hc => ?_, tl.trans hh.2⟩
    rw [List.mem_append] at hc
    exact hc.elim (hh.1 c) (hfo c)
  have hact : (expire q env.now).scActive = false := by
    cases hx : (expire q env.now).scActive with
    | false => rfl
    | true => rw [(expire_lasting q env.now).active hx] at hoff; cases hoff
  cases hg with
  | nothing _ hc _ => exact ⟨by simp, (transp_untouched hc.transp).events.trans hev⟩
  | skip _ hc => exact ⟨by simp, (transp_untouched hc.transp).events.trans hev⟩
  | seq _ hc => exact ⟨by simp, (transp_untouched hc.transp).events.trans hev⟩
  | refused _ hc _ hd _ => exact ⟨by simp, ((transp_untouched hd.transp).events.trans (transp_untouched hc.transp).events).trans hev⟩
  | insecure _ hc _ hd _ _ _ => exact ⟨by simp, ((transp_untouched hd.transp).events.trans (transp_untouched hc.transp).events).trans hev⟩
  | @command p2 p3 _ d id body _ _ _ hc _ hd _ _ _ _ hpl _ ho =>
    have e3 : p3.eventQueue = q.eventQueue := ((transp_untouched hd.transp).events.trans (transp_untouched hc.transp).events).trans hev
    have en3 : p3.flags.enforceSecure = true :=
      (congrArg Config.enforceSecure ((config_transp hd.transp).trans (config_transp hc.transp))).trans hen
    have ac3 : p3.scActive = false := by
      cases hx : p3.scActive with
      | false => rfl
      | true => rw [show (expire q env.now).scActive = true from hc.scActive (hd.scActive hx)] at hact; cases hact
    have hids : id.toNat = Id.ID ∨ id.toNat = Id.CAP ∨ id.toNat = Id.CHLNG ∨ id.toNat = Id.SCRYPT := by
      unfold plainRefused at hpl
      rw [show (noteCmd p3 id).flags.enforceSecure = true from en3, show (noteCmd p3 id).scActive = false from ac3] at hpl
      simp [noteCmd] at hpl
      rcases Nat.decEq id.toNat Id.ID with h1 | h1
      · rcases Nat.decEq id.toNat Id.CAP with h2 | h2
        · rcases Nat.decEq id.toNat Id.CHLNG with h3 | h3
          · exact .inr (.inr (.inr (hpl h1 h2 h3)))
          · exact .inr (.inr (.inl h3))
        · exact .inr (.inl h2)
      · exact .inl h1
    have hne : ∀ n, n ≠ Id.ID → n ≠ Id.CAP → n ≠ Id.CHLNG → n ≠ Id.SCRYPT → (noteCmd p3 id).cmdId ≠ n := by
      intro n a b c d h
      replace h : id.toNat = n := h
      rw [h] at hids
      rcases hids with h | h | h | h <;> contradiction
    refine ⟨fun c hcm => ?_, (outcome_events ho (hne _ (by decide) (by decide) (by decide) (by decide))).trans e3⟩
    rcases outcome_cmd ho hcm with hl | ⟨hl, -⟩
    · cases c with
      | output _ => exact hne _ (by decide) (by decide) (by decide) (by decide) hl.1
      | led _ => exact hne _ (by decide) (by decide) (by decide) (by decide) hl.1
      | buzzer _ => exact hne _ (by decide) (by decide) (by decide) (by decide) hl.1
      | text _ => exact hne _ (by decide) (by decide) (by decide) (by decide) hl.1
      | comset _ => exact hne _ (by decide) (by decide) (by decide) (by decide) hl.1
      | mfg _ => exact hne Id.MFG (by decide) (by decide) (by decide) (by decide) hl
      | keyset _ => exact hne _ (by decide) (by decide) (by decide) (by decide) hl.1
      | status _ =>
        obtain ⟨-, -, h | h | h | h⟩ := hl <;> exact hne _ (by decide) (by decide) (by decide) (by decide) h.1
      | fileTx _ => exact hl
      | bad _ => exact hl
    · exact hne _ (by decide) (by decide) (by decide) (by decide) hl

/-- Command ids between 0x60 and 0xA7 that the standard leaves unassigned. -/
def Unassigned (id : Nat) : Prop :=
  id = 0x63 ∨ (0x6F ≤ id ∧ id ≤ 0x72) ∨ (0x78 ≤ id ∧ id ≤ 0x7A) ∨ (0x7D ≤ id ∧ id ≤ 0x7F) ∨ (0x81 ≤ id ∧ id ≤ 0xA0) ∨ id = 0xA6

instance (id : Nat) : Decidable (Unassigned id) := by unfold Unassigned; infer_instance

theorem named_iff : ∀ d : Byte, cmdNameOk d.toNat = true ↔ ¬ Unassigned d.toNat := by decide +kernel

/-- **C23, the answer (partial: not for unassigned command ids, see `C23_crash`).**  A command in plain text other than
ID, CAP, CHLNG and SCRYPT, sent to an ENFORCE_SECURE PD with no packet in progress: it is answered with NAK(6) and has
no effect on the application. -/
theorem C23_refused_answered_partial (C : Cipher) (info : Info) (p : Pd) (k : Packet) (env : Env) (d0 : Byte) (body : List Byte)
    (he : info.enforceSecure = true) (hq : Reached C info p)
    (hl : Listening p) (hk : ForUs p k) (ha : Phy.Arrives env k.bytes)
    (hs : Phy.hasBit k.ctl Phy.CTL_SCB = false) (hscb : k.scb = []) (hd : k.data = d0 :: body)
    (hm : 69 ≤ p.txBufSize) (hcap : 256 ≤ env.sendCap)
    (hid : d0 ≠ 0x61#8 ∧ d0 ≠ 0x62#8 ∧ d0 ≠ 0x76#8 ∧ d0 ≠ 0x77#8) (hn : ¬ Unassigned d0.toNat) :
    ∃ q outs r, refresh C p env = .ok (q, outs) ∧ (∀ c, Out.cmd c ∉ outs) ∧ sent outs = [Packet.bytes r] ∧
      Answers p.address.toNat k r [0x41#8, 6#8] := by
  obtain ⟨h, hh, hrec⟩ := receive_listening C p k env d0 body hl hk ha hs hscb hd
  have hpr : plainRefused (noteCmd (accepted p k h) d0) = true := by
    have f2 := (accepted_fields k h hl).2.1
    have ne : ∀ n, d0 ≠ BitVec.ofNat 8 n → d0.toNat ≠ n := by
      intro n h1 h2; apply h1; rw [← h2]; simp
    unfold plainRefused
    rw [show (noteCmd (accepted p k h) d0).flags.enforceSecure = true from hq.flags.1.trans he,
      show (noteCmd (accepted p k h) d0).scActive = false from f2]
    simp [noteCmd, ne Id.ID hid.1, ne Id.CAP hid.2.1, ne Id.CHLNG hid.2.2.1, ne Id.SCRYPT hid.2.2.2]
  refine refresh_refused C p _ k env h Nak.SC_COND hl hh hm hcap ?_ ⟨d0, rfl⟩
  rw [hrec]
  unfold commanded
  rw [if_pos hpr, if_pos ((named_iff d0).mpr hn)]

/-- an ENFORCE_SECURE PD -/
def securePd : Option Pd := setup { Sample.pdInfo with enforceSecure := true } false 4

/-- what becomes of the packets `l` sent to it one by one: `none` for a crash -/
def secureFed (l : List (List Byte)) : Option (Option (List (List Byte))) :=
  securePd.map fun p => match Sample.feed Aes.aes p l with
    | .ok (_, outs) => some (sent outs)
    | .error _ => none

/-- Non-vacuity: the ENFORCE_SECURE PD with a queued event is listening, has no secure channel, and a POLL with sequence
number 0 (which would release the event) is a packet for it. -/
example : (securePd.map fun p => match run Aes.aes p [.notify (.keypress ⟨0, 1, .padTo 64 [5#8]⟩)] with
    | .ok (q, _) => (q.eventQueue.length, q.scActive, q.flags.enforceSecure, q.seq, decide (q.rx = [] ∧ q.packetBufLen = 0 ∧ 69 ≤ q.txBufSize))
    | .error _ => (0, true, false, 0, false)) = some (1, false, true, -1, true) ∧
    (⟨true, 101#8, 4#8, [], [0x60#8]⟩ : Packet).bytes = Sample.poll ∧ ¬ Unassigned 0x60 := by decide +kernel

/-- **C23 violated.**  A plain packet with an unassigned command id makes the ENFORCE_SECURE PD dereference a NULL
pointer (src/osdp_common.c:86, called for the log message at src/osdp_pd.c:293): there is no NAK.  A BUZ, in contrast, is
refused as it should be. -/
theorem C23_crash :
    secureFed [Sample.cmd 0#8 [0x63#8]] = some none ∧
    secureFed [Sample.cmd 0#8 [0x6A#8, 0, 2, 3, 4, 5]] =
      some (some [(⟨true, 0xE5#8, 0x04#8, [], [0x41#8, 6#8]⟩ : Packet).bytes]) := by decide +kernel

end Osdp.PdM
