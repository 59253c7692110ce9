import Verif.Spec.Records
import Verif.Spec.Sealed
import Verif.Lemmas.Secured
import Verif.Props.C30
import Verif.Props.C36Sc

/-!
# C68: a command with several settings

`several k cs` is the code and payload of an OUT, LED or BUZ command that carries the settings `cs`; `CarriedOut` says which of them the
application is to see.
-/

namespace Osdp.PdM

open Spec.Wire Spec.Command
open Phy (Arrives)

/-- how a kind of setting is read -/
def readerOf : Setting → (List Byte → Option Cmd) × Nat
  | .output => (decOutput, 4)
  | .led => (decLed, 14)
  | .buzzer => (decBuzzer, 5)

theorem payload_read {k : Setting} {c : Cmd} (h : IsSetting k c) :
    ((encode c).drop 1).length = (readerOf k).2 ∧ (readerOf k).1 ((encode c).drop 1) = some (carried c) := by
  cases k <;> cases c <;> first | exact h.elim | skip
  · refine ⟨rfl, ?_⟩
    show some (Cmd.output ⟨_, _, _⟩) = _
    rw [ofNat_append_two]; rfl
  · refine ⟨rfl, ?_⟩
    show some (Cmd.led ⟨_, _, ⟨_, _, _, _, _, _⟩, ⟨_, _, _, _, _, _⟩⟩) = _
    rw [ofNat_append_two]; rfl
  · exact ⟨rfl, rfl⟩

theorem kind_carried {k : Setting} {c : Cmd} (h : IsSetting k c) : IsSetting k (carried c) := by
  cases k <;> cases c <;> first | exact h.elim | trivial

theorem kind_may {k : Setting} {p : Pd} {c : Cmd} (h : IsSetting k c) (hid : p.cmdId = k.code.toNat) :
    capAllows p.cap p.cmdId (some c) = true ↔ MayAsk p.cap c := by
  rw [hid]
  cases k <;> cases c <;> first | exact h.elim | skip
  · rename_i o
    simp [capAllows, Setting.code, Id.ISTAT, Id.OSTAT, Id.OUT, MayAsk]; omega
  · rename_i o
    simp [capAllows, Setting.code, Id.ISTAT, Id.OSTAT, Id.OUT, Id.LED, MayAsk]; omega
  · rename_i o
    simp [capAllows, Setting.code, Id.ISTAT, Id.OSTAT, Id.OUT, Id.LED, Id.BUZ, MayAsk]
    exact ⟨fun h => ⟨h.2, h.1⟩, fun h => ⟨h.2, h.1⟩⟩

theorem asked_append (a b : List Out) : asked (a ++ b) = asked a ++ asked b := List.filterMap_append

/-- the records are gone through one by one -/
theorem records_carried {k : Setting} {env : Env} {cb : Nat → Cmd → Int × Cmd} (hcb : env.cb = some cb) :
    ∀ (cs : List Cmd) (i : Nat) (p q : Pd) (o : List Out), (∀ c ∈ cs, IsSetting k c) → p.cmdId = k.code.toNat →
      records (readerOf k).1 (readerOf k).2 env cs.length i p (cs.flatMap fun c => (encode c).drop 1) = .ok (q, o) →
      CarriedOut (MayAsk p.cap) (fun i c => (cb i c).1 = 0) i (cs.map carried) (asked o)
  | [], i, p, q, o, _, _, h => by
    injection h with h; injection h with _ h; subst h
    exact .all
  | c :: cs, i, p, q, o, hk, hid, h => by
    have hc := hk c (.head _)
    obtain ⟨hl, hr⟩ := payload_read hc
    rw [List.length_cons, List.flatMap_cons] at h
    unfold records at h
    rw [List.take_append_of_le_length (by omega), List.take_of_length_le (by omega), hr] at h
    dsimp only at h
    have hm := kind_may (p := p) (kind_carried hc) hid
    unfold capOk at h
    by_cases ha : capAllows p.cap p.cmdId (some (carried c)) = true
    · rw [if_pos ha] at h
      dsimp only at h
      unfold callback at h
      rw [hcb] at h
      dsimp only at h
      by_cases hrc : (cb i (carried c)).1 = 0
      · rw [if_neg (by simp [hrc])] at h
        simp only [Res.ok_bind] at h
        obtain ⟨⟨q', o'⟩, h1, h⟩ := Res.bind_eq_ok.mp h
        injection h with h; injection h with _ h; subst h
        rw [List.drop_append_of_le_length (by omega), List.drop_of_length_le (by omega), List.nil_append] at h1
        have ih := records_carried hcb cs (i + 1) p q' o' (fun c h => hk c (.tail _ h)) hid h1
        exact .next (hm.mp ha) hrc ih
      · rw [if_pos hrc] at h
        injection h with h; injection h with _ h; subst h
        exact .refused (hm.mp ha) hrc
    · rw [if_neg ha] at h
      split at h
      · rename_i he
        split at he <;> cases he
        all_goals
          injection h with h; injection h with _ h; subst h
          exact .incapable fun hx => ha (hm.mpr hx)
      · rename_i he
        split at he <;> cases he

theorem flat_length {k : Setting} : ∀ {cs : List Cmd}, (∀ c ∈ cs, IsSetting k c) →
    (cs.flatMap fun c => (encode c).drop 1).length = cs.length * (readerOf k).2
  | [], _ => by simp
  | c :: cs, h => by
    rw [List.flatMap_cons, List.length_append, (payload_read (h c (.head _))).1, flat_length fun c hc => h c (.tail _ hc), List.length_cons,
      Nat.succ_mul, Nat.add_comm]

theorem dispatch_several {k : Setting} {p q : Pd} {env : Env} {cb : Nat → Cmd → Int × Cmd} {cs : List Cmd} {o : List Out} {r : PdRet}
    (hcb : env.cb = some cb) (hk : ∀ c ∈ cs, IsSetting k c) (hid : p.cmdId = k.code.toNat)
    (h : dispatch p env (cs.flatMap fun c => (encode c).drop 1) = .ok (q, o, r)) :
    CarriedOut (MayAsk p.cap) (fun i c => (cb i c).1 = 0) 0 (cs.map carried) (asked o) := by
  have key : recordsCmd p env (readerOf k).1 (readerOf k).2 (cs.flatMap fun c => (encode c).drop 1) = .ok (q, o, r) := by
    unfold dispatch at h
    dsimp only at h
    rw [hid] at h
    cases k
    · repeat rw [if_neg (by decide)] at h
      rw [if_pos (by decide)] at h; exact h
    · repeat rw [if_neg (by decide)] at h
      rw [if_pos (by decide)] at h; exact h
    · repeat rw [if_neg (by decide)] at h
      rw [if_pos (by decide)] at h; exact h
  have hl := flat_length hk
  have hpos : 0 < (readerOf k).2 := by cases k <;> decide
  unfold recordsCmd at key
  rw [if_neg (by rw [hl, hcb, Nat.mul_mod_left]; simp), hl, Nat.mul_div_cancel _ hpos] at key
  obtain ⟨⟨q1, o1⟩, h1, h2⟩ := Res.bind_eq_ok.mp key
  injection h2 with h2; injection h2 with _ h2; injection h2 with h2 _; subst h2
  exact records_carried hcb cs 0 p q1 _ hk hid h1

theorem commanded_several {C : Cipher} {k : Setting} {p P q : Pd} {env : Env} {cb : Nat → Cmd → Int × Cmd} {cs : List Cmd} {o : List Out}
    (hcb : env.cb = some cb) (hk : ∀ c ∈ cs, IsSetting k c) (hexp : expire p env.now = p) (hp : P.flags.pdMode = true)
    (hnr : plainRefused (noteCmd P k.code) = false) (hcap : P.cap = p.cap)
    (hrec : receiveAndProcess C p env = commanded P env k.code (cs.flatMap fun c => (encode c).drop 1))
    (h : refresh C p env = .ok (q, o)) :
    CarriedOut (MayAsk p.cap) (fun i c => (cb i c).1 = 0) 0 (cs.map carried) (asked o) := by
  unfold refresh at h
  rw [hexp, hrec] at h
  unfold commanded at h
  rw [hnr, if_neg (by simp)] at h
  obtain ⟨⟨p1, o1, ret⟩, hdis, h⟩ := Res.bind_eq_ok.mp h
  obtain ⟨⟨p2, o2⟩, hfin, h⟩ := Res.bind_eq_ok.mp h
  injection h with h; injection h with e1 e2; subst e1 e2
  have hd := dispatch_several (p := noteCmd P k.code) hcb hk rfl hdis
  have hp1 : p1.flags.pdMode = true := (congrArg Config.pdMode (config_outcome (dispatch_outcome (p := noteCmd P k.code) hp hdis))).trans hp
  have ho2 : asked o2 = [] := by
    refine List.filterMap_eq_nil_iff.mpr fun x hx => ?_
    rcases finished_outs (finish_inv hp1 hfin) _ hx with h | h | ⟨_, h⟩ <;> rw [h]
  rw [asked_append, ho2, List.append_nil]
  have : (noteCmd P k.code).cap = p.cap := hcap
  rw [this] at hd
  exact hd

/-- **C68, in the clear.**  A PD that does not insist on a secure channel receives a command for it with any number of settings.  Its application
is asked to carry out the settings in the order of the packet, each exactly as it is in the packet, up to the first one that is beyond the
capabilities of the PD or that the application refuses; and nothing else. -/
theorem C68_clear (C : Cipher) (p q : Pd) (k : Packet) (env : Env) (kd : Setting) (cs : List Cmd) (cb : Nat → Cmd → Int × Cmd) (outs : List Out)
    (hl : Listening p) (hk : ForUs p k) (ha : Arrives env k.bytes)
    (hs : Phy.hasBit k.ctl Phy.CTL_SCB = false) (hscb : k.scb = []) (hd : k.data = several kd cs) (hcs : ∀ c ∈ cs, IsSetting kd c)
    (henf : p.flags.enforceSecure = false) (hcb : env.cb = some cb) (h : refresh C p env = .ok (q, outs)) :
    CarriedOut (MayAsk p.cap) (fun i c => (cb i c).1 = 0) 0 (cs.map carried) (asked outs) := by
  obtain ⟨hh, -, hrec⟩ := receive_listening C p k env _ _ hl hk ha hs hscb hd
  refine commanded_several (P := accepted p k hh) hcb hcs ?_ (accepted_fields k hh hl).1 ?_ rfl hrec h
  · unfold expire
    rw [if_neg (by rw [show p.scActive = false from hl.sc]; simp)]
  · unfold plainRefused
    have : (noteCmd (accepted p k hh) kd.code).flags.enforceSecure = false := henf
    rw [this]; rfl

/-- **C68, in a secure session.**  The same for a PD whose session is active and not timed out, when the command arrives as a packet of the session,
with at least one setting. -/
theorem C68_secure (C : Cipher) (p q : Pd) (k : Packet) (env : Env) (msg : List Byte) (kd : Setting) (cs : List Cmd)
    (cb : Nat → Cmd → Int × Cmd) (outs : List Out) (hp : p.flags.pdMode = true) (hi : Phy.Idle p) (hact : p.scActive = true)
    (hfresh : env.now - p.scTstamp ≤ 8000) (hcp : p.scCapable = true) (hk : ForUs p k) (hne : k.seq ≠ 0)
    (ha : Arrives env k.bytes) (h8 : 2 ≤ k.scb.length) (hc0 : cs ≠ [])
    (hf : Spec.Sealed.Sealed C p.sc.sEnc p.sc.sMac1 p.sc.sMac2 p.sc.rMac 0x15#8 0x17#8 k.frame msg kd.code ((several kd cs).drop 1))
    (hcs : ∀ c ∈ cs, IsSetting kd c) (hcb : env.cb = some cb) (h : refresh C p env = .ok (q, outs)) :
    CarriedOut (MayAsk p.cap) (fun i c => (cb i c).1 = 0) 0 (cs.map carried) (asked outs) := by
  have hexp : expire p env.now = p := Link.expire_recent hfresh
  obtain ⟨A, hA⟩ : ∃ A, A = Phy.pdAccept p k.seq (Phy.pktAddr k == 127) := ⟨_, rfl⟩
  have a1 : A.scActive = true := by
    rw [hA]
    show (p.flags.scActive && k.seq != 0) = true
    rw [show p.flags.scActive = true from hact]
    simpa using hne
  have a2 : A.isPd = true := by rw [hA]; exact hp
  have asc : A.sc = p.sc := by rw [hA]; rfl
  obtain ⟨tag, ctl, pl, hfr, htag, hpl⟩ := hf.frame
  have hd0 : (several kd cs).drop 1 ≠ [] := by
    intro e
    have hl := flat_length hcs
    rw [show (cs.flatMap fun c => (encode c).drop 1) = [] from e] at hl
    have h1 : 0 < cs.length := List.length_pos_iff.mpr hc0
    have h2 : 0 < (readerOf kd).2 := by cases kd <;> decide
    have := Nat.mul_pos h1 h2
    simp only [List.length_nil] at hl
    omega
  rw [if_neg hd0] at hfr hpl
  have hdec := Phy.decodeFrame_secured C A hfr (by decide) a1 (fun _ => by rw [hA]; exact hcp)
  rw [a2, asc, if_pos (show tag = (Phy.macOf C true p.sc msg).1.take 4 from htag), if_pos (.inl rfl),
    decryptData_opens (sc := Phy.chained C true p.sc msg) (isCmd := true) _ hpl.1] at hdec
  rw [hA] at hdec
  obtain ⟨hh, -, hrec⟩ := receive_delivers C p _ k env kd.code _ hp hi hk ha hdec (fun _ => h8)
  rw [← hA] at hrec
  refine commanded_several (P := _) hcb hcs hexp ?_ ?_ ?_ hrec h
  · exact a2
  · unfold plainRefused
    have : (noteCmd (Phy.reload (Phy.setSc A (Phy.chained C true p.sc msg)) hh) kd.code).scActive = true := a1
    rw [this]; simp
  · rw [hA]; rfl

/-- If the PD is capable of all settings and the application refuses none, the application is asked for all of them. -/
theorem _root_.Osdp.Spec.Command.CarriedOut.complete {may : Cmd → Prop} {ok : Nat → Cmd → Prop} {i : Nat} {cs done : List Cmd} (h : CarriedOut may ok i cs done)
    (hm : ∀ c ∈ cs, may c) (hok : ∀ j, ∀ c ∈ cs, ok j c) : done = cs := by
  induction h with
  | all => rfl
  | incapable h => exact absurd (hm _ (.head _)) h
  | refused _ h => exact absurd (hok _ _ (.head _)) h
  | next _ _ _ ih => rw [ih (fun c h => hm c (.tail _ h)) (fun j c h => hok j c (.tail _ h))]

/-- **C68, complete.**  With settings within the capabilities of the PD and an application which refuses nothing, all settings are carried out. -/
theorem C68_complete (C : Cipher) (p q : Pd) (k : Packet) (env : Env) (kd : Setting) (cs : List Cmd) (cb : Nat → Cmd → Int × Cmd) (outs : List Out)
    (hl : Listening p) (hk : ForUs p k) (ha : Arrives env k.bytes)
    (hs : Phy.hasBit k.ctl Phy.CTL_SCB = false) (hscb : k.scb = []) (hd : k.data = several kd cs) (hcs : ∀ c ∈ cs, IsSetting kd c)
    (henf : p.flags.enforceSecure = false) (hcb : env.cb = some cb) (hmay : ∀ c ∈ cs.map carried, MayAsk p.cap c) (hno : ∀ i c, (cb i c).1 = 0)
    (h : refresh C p env = .ok (q, outs)) : asked outs = cs.map carried :=
  (C68_clear C p q k env kd cs cb outs hl hk ha hs hscb hd hcs henf hcb h).complete hmay fun j c _ => hno j c

/-- settings for some outputs -/
def switch (n : Byte) : Cmd := .output ⟨n, 5#8, 0x0102#16⟩

/-- a command with four of them -/
def switches : Packet := ⟨true, 101#8, 4#8, [], several .output [switch 1, switch 0, switch 7, switch 0]⟩

/-- Non-vacuity: of four settings for outputs the first two are carried out; the PD has no third output. -/
example : Listening Sample.pd ∧ ForUs Sample.pd switches ∧ Arrives (Sample.env switches.bytes) switches.bytes ∧
    (∀ c ∈ [switch 1, switch 0, switch 7, switch 0], IsSetting .output c) ∧
    (refresh xorCipher Sample.pd (Sample.env switches.bytes)).toOption.map (fun r => asked r.2) = some [switch 1, switch 0] := by
  refine ⟨⟨rfl, ⟨rfl, rfl, by decide +kernel, rfl⟩, rfl, rfl, by decide⟩, ⟨by decide +kernel, by decide, by decide, by decide, by decide, by decide⟩,
    ?_, ?_, by decide +kernel⟩
  · unfold Arrives; decide +kernel
  · intro c hc
    simp only [List.mem_cons, List.not_mem_nil, or_false] at hc
    rcases hc with h | h | h | h <;> subst h <;> trivial

/-- three settings for a buzzer -/
def tunes : List Cmd := [.buzzer ⟨0, 1, 2, 3, 4⟩, .buzzer ⟨0, 2, 9, 8, 7⟩, .buzzer ⟨0, 1, 1, 1, 1⟩]

/-- their encipherment in the session of the examples -/
def tunesData : List Byte :=
  [0x55#8, 0x1b#8, 0x1d#8, 0x0d#8, 0xa6#8, 0xff#8, 0x45#8, 0xa4#8, 0x3e#8, 0x2d#8, 0xc6#8, 0x60#8, 0x07#8, 0xc1#8, 0x63#8, 0x7b#8]

/-- their packet -/
def tunesPkt : Packet := ⟨true, 101#8, 14#8, [2#8, 0x17#8], 0x6A#8 :: tunesData ++ [0xe7#8, 0xcc#8, 0x95#8, 0x69#8]⟩

theorem tunes_sealed : Spec.Sealed.Sealed Aes.aes talkingPd.sc.sEnc talkingPd.sc.sMac1 talkingPd.sc.sMac2 talkingPd.sc.rMac 0x15#8 0x17#8
    tunesPkt.frame ([0x53#8, 101#8, 30#8, 0#8, 14#8, 2#8, 0x17#8, 0x6A#8] ++ tunesData) Setting.buzzer.code ((several .buzzer tunes).drop 1) := by
  refine ⟨⟨[0xe7#8, 0xcc#8, 0x95#8, 0x69#8], 14#8, tunesData, ?_, by decide +kernel, ?_⟩⟩
  · refine ⟨⟨101#8, 30#8, 0#8, 2#8, [], tunesPkt.frame.drop 28, rfl, by decide +kernel, rfl, by decide +kernel⟩, by decide, rfl, by decide +kernel⟩
  · rw [if_neg (by decide)]
    exact ⟨⟨by decide, 0, by decide +kernel⟩, by decide⟩

/-- Non-vacuity: three settings for a buzzer in a session under AES, all carried out; and the second refused by the application. -/
example : talkingPd.flags.pdMode = true ∧ (talkingPd.packetBufLen, talkingPd.packetLen, talkingPd.packetBuf.length, talkingPd.rx) = (0, 0, 256, []) ∧
    talkingPd.scActive = true ∧ talkingPd.scTstamp = 0 ∧ talkingPd.scCapable = true ∧ tunesPkt.seq ≠ 0 ∧ tunes ≠ [] ∧
    ((refresh Aes.aes talkingPd (Sample.env tunesPkt.bytes)).toOption.map fun r => asked r.2) = some tunes ∧
    ((refresh Aes.aes talkingPd { Sample.env tunesPkt.bytes with cb := some fun i c => (if i = 1 then -1 else 0, c) }).toOption.map
      fun r => asked r.2) = some (tunes.take 2) := by decide +kernel

example : ForUs talkingPd tunesPkt ∧ Arrives (Sample.env tunesPkt.bytes) tunesPkt.bytes ∧ ∀ c ∈ tunes, IsSetting .buzzer c := by
  refine ⟨?_, ?_, ?_⟩
  · apply ForUs.mk <;> decide +kernel
  · unfold Arrives; decide +kernel
  · intro c hc
    simp only [tunes, List.mem_cons, List.not_mem_nil, or_false] at hc
    rcases hc with h | h | h <;> subst h <;> trivial

end Osdp.PdM
