import Verif.Props.C24
import Verif.Props.C25
import Verif.Props.C76

/-!
# C77: with ENFORCE_SECURE the default key is not used

`include/osdp.h` says of `OSDP_FLAG_ENFORCE_SECURE` that it does not allow the use of SCBK-D. On a CP that holds if the PD's object is not in install mode;
with `OSDP_FLAG_INSTALL_MODE` a device that knows only the default key makes the CP use it, and is given the CP's own key (`C77_tricked`). A PD
with both flags uses the default key if asked to (`C77_pd`).
-/

namespace Osdp.CpM

open Spec.Wire (sent)
open Spec.Session (encKey mac1Key mac2Key cryptogram defaultKey)
open Spec.Sealed (Sealed OnWire)

/-- the default key must not be, and is not, selected -/
structure Own (p : Pd) : Prop where
  enforce : p.flags.enforceSecure = true
  install : p.flags.installMode = false
  scbkd : p.flags.useScbkd = false

theorem Own.of {p q : Pd} (O : Own p) (h1 : q.flags.enforceSecure = p.flags.enforceSecure) (h2 : q.flags.installMode = p.flags.installMode)
    (h3 : q.flags.useScbkd = p.flags.useScbkd) : Own q := ⟨h1.trans O.enforce, h2.trans O.install, h3.trans O.scbkd⟩

theorem Reply.own {C : Cipher} {p q : Pd} {env : Env} {outs : List Out} {rc : CpErr} (O : Own p) (h : Reply C p env q outs rc) : Own q := by
  have hh := h.heard
  have e1 : q.flags.enforceSecure = p.flags.enforceSecure := by unfold Heard at hh; rw [hh]
  have e2 : q.flags.installMode = p.flags.installMode := by unfold Heard at hh; rw [hh]
  clear hh
  have dec : ∀ {p1 p2 : Pd} {r : Phy.PktRet} {d : Phy.Decoded}, Phy.Checked p p1 r → Phy.DecodedTo p1 p2 d → p2.flags.useScbkd = false := by
    intro p1 p2 r d hc hd
    cases hu : p2.flags.useScbkd with
    | false => rfl
    | true =>
      have hi : p1.flags.installMode = p.flags.installMode := by
        have := hc.transp
        unfold Phy.Transp Phy.upd Phy.chgOf at this
        rw [this]
      rcases hd.useScbkd hu with h | h
      · rw [hc.useScbkd, O.scbkd] at h; cases h
      · rw [hi, O.install] at h; cases h
  refine ⟨e1.trans O.enforce, e2.trans O.install, ?_⟩
  cases h with
  | nothing _ hc _ => exact hc.useScbkd.trans O.scbkd
  | bad _ hc _ => exact hc.useScbkd.trans O.scbkd
  | busy _ hc => exact hc.useScbkd.trans O.scbkd
  | seq _ hc => exact hc.useScbkd.trans O.scbkd
  | refused _ hc _ hd _ => exact dec hc hd
  | reply _ hc _ hd _ _ _ _ _ he =>
    have := dec hc hd
    cases he <;> exact this

theorem Waited.own {C : Cipher} {p q : Pd} {env : Env} {outs : List Out} {rc : CpErr} (O : Own p) (h : Waited C p env q outs rc) : Own q := by
  cases h with
  | answered h => have k := h.own O; exact ⟨k.enforce, k.install, k.scbkd⟩
  | ignored h _ _ => have k := h.own O; exact ⟨k.enforce, k.install, k.scbkd⟩
  | failed h _ => have k := h.own O; exact ⟨k.enforce, k.install, k.scbkd⟩
  | busy h => have k := h.own O; exact ⟨k.enforce, k.install, k.scbkd⟩
  | retry h _ _ => have k := h.own O; exact ⟨k.enforce, k.install, k.scbkd⟩
  | exhausted h _ _ => have k := h.own O; exact ⟨k.enforce, k.install, k.scbkd⟩
  | waiting h _ => exact h.own O

/-- going on to the next state selects the default key only without ENFORCE_SECURE -/
theorem advance_own {cb : Bool} {p q : Pd} {env : Env} {s : CpState} {ok : Bool} {outs : List Out} (O : Own p)
    (h : advance cb p env s ok = .ok (q, outs)) : Own q := by
  have hd := (advance_drift h).1.flags
  refine ⟨by rw [hd]; exact O.enforce, by rw [hd]; exact O.install, ?_⟩
  cases advance_inv h with
  | mk h1 h2 =>
  rename_i p1 p2 o1 o2 n1 n2
  obtain ⟨-, hst, -, -, -, -, hsc, hfl, -⟩ := requests_drift h2
  have key : p1.flags.useScbkd = false := by
    cases ok with
    | true =>
      replace h1 : nextOk cb p env.now = .ok (p1, o1, n1) := h1
      unfold nextOk at h1
      cases hs : p.state <;> rw [hs] at h1 <;> dsimp only at h1
      case probe => cases h1
      case setScbk =>
        obtain ⟨⟨p3, o3⟩, h3, h1⟩ := Res.bind_eq_ok.mp h1
        injection h1 with h1; injection h1 with e1 h1; injection h1 with e2 e3; subst e1 e2 e3
        obtain ⟨k, -, rfl, -⟩ := keysetComplete_inv h3
        first | rfl | exact O.scbkd
      case scScrypt =>
        split at h1 <;> (injection h1 with h1; injection h1 with e1 h1; injection h1 with e2 e3; subst e1 e2 e3; exact O.scbkd)
      case capdet =>
        split at h1 <;> (injection h1 with h1; injection h1 with e1 h1; injection h1 with e2 e3; subst e1 e2 e3)
        · rfl
        · exact O.scbkd
      all_goals
        injection h1 with h1; injection h1 with e1 h1; injection h1 with e2 e3; subst e1 e2 e3
        exact O.scbkd
    | false =>
      replace h1 : nextErr cb p env.now = .ok (p1, o1, n1) := h1
      unfold nextErr at h1
      cases hs : p.state <;> rw [hs] at h1 <;> dsimp only at h1
      case probe => cases h1
      case scChlng =>
        rw [if_pos O.enforce] at h1
        injection h1 with h1; injection h1 with e1 h1; injection h1 with e2 e3; subst e1 e2 e3
        exact O.scbkd
      all_goals
        injection h1 with h1; injection h1 with e1 h1; injection h1 with e2 e3; subst e1 e2 e3
        exact O.scbkd
  have k2 : p2.flags.useScbkd = false := by rw [hfl]; exact key
  split
  · unfold stateChange
    cases n2 <;> exact k2
  · exact k2

theorem settle_own {cb : Bool} {p q : Pd} {env : Env} {outs : List Out} (O : Own p) (h : settle cb p env = .ok (q, outs)) : Own q := by
  cases settle_inv h with
  | command hps h1 hid =>
    have hc := (stateGetCmd_inv h1).1
    unfold Chosen at hc
    rw [hc]
    exact ⟨O.enforce, O.install, O.scbkd⟩
  | nothing hps h1 h2 =>
    have hc := (stateGetCmd_inv h1).1
    refine advance_own ?_ h2
    unfold Chosen at hc
    rw [hc]
    exact ⟨O.enforce, O.install, O.scbkd⟩
  | over hps h1 h2 =>
    refine advance_own ?_ h2
    obtain ⟨hv, hj⟩ := stateCheckReply_inv h1
    rcases hj with ⟨rfl, -⟩ | ⟨hon, -, -, hk⟩
    · exact ⟨O.enforce, O.install, O.scbkd⟩
    · obtain ⟨k, -, rfl, -⟩ := keysetComplete_inv hk
      exact ⟨O.enforce, O.install, rfl⟩

theorem Sent.own {p q : Pd} (O : Own p) (h : Sent p q) : Own q := by
  unfold Sent at h
  rw [h]
  exact ⟨O.enforce, O.install, O.scbkd⟩

theorem Update.own {C : Cipher} {cb : Bool} {p q : Pd} {env : Env} {outs : List Out} {y : Bool} (O : Own p)
    (h : Update C cb p env q outs y) : Own q := by
  cases h with
  | hold _ _ => exact O
  | sent _ h => have k := h.sent.own O; exact ⟨k.enforce, k.install, k.scbkd⟩
  | unsent _ h1 h2 =>
    refine settle_own ?_ h2
    have k := h1.sent.own O
    exact ⟨k.enforce, k.install, k.scbkd⟩
  | replied _ h1 _ h2 => exact settle_own (h1.own O) h2
  | again _ h1 => exact h1.own O
  | waiting _ h1 => exact h1.own O
  | idle _ h1 => exact settle_own O h1

/-- calls of `osdp_cp_modify_flag` that leave ENFORCE_SECURE set and INSTALL_MODE clear -/
def Leaves : Op → Prop
  | .flag f true => f &&& F_INSTALL = 0
  | .flag f false => f &&& F_ENFORCE = 0
  | _ => True

theorem step_own {C : Cipher} {p q : Pd} {op : Op} {outs : List Out} (I : Inv p) (O : Own p) (hl : Leaves op)
    (h : step C p op = .ok (q, outs)) : Own q := by
  cases op with
  | update cb env =>
    obtain ⟨⟨s1, o3, y⟩, hu', h3⟩ := Res.bind_eq_ok.mp h
    injection h3 with h3; injection h3 with e1 e2; subst e1 e2
    exact (stateUpdate_inv I.cp hu').own O
  | flag f b =>
    injection h with h; injection h with e1 e2; subst e1 e2
    unfold modifyPd
    dsimp only
    split
    · exact O
    refine ⟨?_, ?_, O.scbkd⟩ <;> dsimp only
    · cases b with
      | true => split; rfl; exact O.enforce
      | false => rw [if_neg (fun h => h hl)]; exact O.enforce
    · cases b with
      | true => rw [if_neg (fun h => h hl)]; exact O.install
      | false => split; rfl; exact O.install
  | send env c =>
    injection h with h; injection h with e1 e2; subst e1 e2
    rw [sendPd_keeps]
    exact ⟨O.enforce, O.install, O.scbkd⟩
  | fileOps =>
    injection h with h; injection h with e1 e2; subst e1 e2
    exact ⟨O.enforce, O.install, O.scbkd⟩
  | _ => injection h with h; injection h with e1 e2; subst e1 e2; exact ⟨O.enforce, O.install, O.scbkd⟩

theorem run_own {C : Cipher} {p q : Pd} {ops : List Op} {outs : List Out} (I : Inv p) (O : Own p) (hl : ∀ op ∈ ops, Leaves op)
    (h : run C p ops = .ok (q, outs)) : Own q := by
  induction ops generalizing p outs with
  | nil => injection h with h; injection h with e1 e2; subst e1; exact O
  | cons op ops ih =>
    obtain ⟨⟨p1, o1⟩, h1, h⟩ := Res.bind_eq_ok.mp h
    obtain ⟨⟨p2, o2⟩, h2, h⟩ := Res.bind_eq_ok.mp h
    injection h with h; injection h with e1 e2; subst e1 e2
    exact ih (I.step h1) (step_own I O (hl _ (by simp)) h1) (fun op hm => hl op (List.mem_cons_of_mem _ hm)) h2

/-- a challenge, or the proof in answer to the PD's, names the key it speaks of -/
theorem SendOutcome.names {C : Cipher} {p q : Pd} {env : Env} {outs : List Out} {ok : Bool} (hlo : -1 ≤ p.seq) (hhi : p.seq ≤ 3) (hu : p.flags.useScbkd = false)
    (h : SendOutcome C p env q outs ok) : ∀ bs ∈ Spec.Wire.sent outs, ∃ k : Spec.Wire.Packet, bs = k.bytes.take env.sendCap ∧
      (k.id = some (b8 p.cmdId) ∨ p.cmdId = Id.FILETRANSFER ∧ k.id = some (b8 Id.ABORT)) ∧
      (p.cmdId = Id.CHLNG ∨ p.cmdId = Id.SCRYPT → k.scb.drop 2 = [1#8]) := by
  intro bs hbs
  cases h with
  | mute _ => cases hbs
  | unbuilt b _ _ ho _ => rw [Link.sent_fread ho.outs] at hbs; cases hbs
  | built b l q outs ok _ _ ho hl hne hs hw _ =>
    rw [sent_append, Link.sent_fread ho.outs, List.nil_append] at hbs
    rcases hw with ⟨rfl, rfl, -⟩ | ⟨wire, q', hm, hd, -, hsz, rfl, rfl⟩
    · cases hbs
    rw [sendOuts_sent] at hbs
    refine ⟨cmdPkt b l.length wire, List.mem_singleton.mp hbs, ?_, fun hid => ?_⟩
    · have e : (cmdPkt b l.length wire).id = l.head? := hd.id
      rw [e]
      rcases ho.head hl with h | ⟨h1, h2⟩
      · exact .inl h
      · subst h2; exact .inr ⟨h1, rfl⟩
    · have hu' : (nextCmd p).flags.useScbkd = false := hu
      show (finalTx b.t b.p l.length).scb.drop 2 = _
      cases ho with
      | same body h1 h2 h3 _ =>
        rcases hid with h | h
        · exact absurd h h2
        · rcases h3 with h3 | h3
          · exact absurd h h3
          · rw [h3] at hl; cases hl
      | unbuilt _ => cases hl
      | file f outs r room h1 _ =>
        have h1 : p.cmdId = _ := h1
        rw [h1] at hid; exact absurd hid (by decide)
      | chlng _ _ _ =>
        rw [hu']
        rfl
      | scrypt _ _ _ _ _ =>
        rw [hu']
        rfl

theorem code_of_byte' {p : Pd} {env : Env} (I : Inv p) (hm : MaySend p env) : p.cmdId < 256 := by
  have hc := I.cmd (by rcases hm with h | ⟨h, -⟩ <;> simp [h])
  revert hc
  cases p.state <;> unfold CmdOf <;> intro hc
  case online =>
    have : ∀ n ∈ [Id.POLL, Id.LSTAT, Id.ISTAT, Id.OSTAT, Id.RSTAT, Id.OUT, Id.LED, Id.BUZ, Id.TEXT, Id.COMSET,
      Id.KEYSET, Id.MFG, Id.FILETRANSFER, Id.ABORT], n < 256 := by decide
    exact this _ hc
  case probe => exact hc.elim
  case offline => exact hc.elim
  all_goals (rw [hc]; decide)

/-- **C77, for a CP whose object for the PD is not in install mode.**  With ENFORCE_SECURE set up and not cleared and INSTALL_MODE not set, in any
history and whatever was received:
* a session was opened by a proof of the key the CP holds for the PD, and its keys stem from that key;
* CHLNG and SCRYPT name that key, not the default key;
* every packet sent in a session is sealed with the keys of that session; a KEYSET is sent in a session only. -/
theorem C77_partial (C : Cipher) (info : PdM.Info) (i n : Nat) (sk : Bool) (p0 p : Pd) (ops : List Op) (o : List Out) (he : info.enforceSecure = true)
    (hi : info.installMode = false) (h0 : newPd info i sk n = some p0) (hl : ∀ op ∈ ops, Leaves op) (h : run C p0 ops = .ok (p, o)) :
    (p.scActive = true → Proven C p.sc.scbk p.sc (Hail.none.over C p0 ops)) ∧
    ∀ (cb : Bool) (env : Env) (q : Pd) (outs : List Out), step C p (.update cb env) = .ok (q, outs) → ∀ bs ∈ sent outs,
      (∃ k : Spec.Wire.Packet, bs = k.bytes.take env.sendCap ∧ (k.id = some 0x76#8 ∨ k.id = some 0x77#8 → k.scb.drop 2 = [1#8]) ∧
        (p.scActive = false → k.id ≠ some 0x75#8)) ∧
      (p.scActive = true → ∃ f msg id data, OnWire bs f env.sendCap ∧
        Sealed C p.sc.sEnc p.sc.sMac1 p.sc.sMac2 p.sc.rMac 0x15#8 0x17#8 f msg id data) := by
  have hr : Reached C info p := ⟨i, sk, n, p0, ops, o, h0, h⟩
  have I := hr.inv
  have O0 : Own p0 := by
    unfold newPd at h0
    split at h0
    · cases h0
    · injection h0 with h0; subst h0
      exact ⟨he, hi, rfl⟩
  have O := run_own (newPd_inv h0).1 O0 hl h
  obtain ⟨-, S⟩ := sess_run (newPd_inv h0).1 (newPd_sess h0) h
  refine ⟨fun hact => ?_, fun cb env q outs hu bs hs => ⟨?_, fun hact => ?_⟩⟩
  · obtain ⟨k, hk, hp⟩ := S.active hact
    rcases hk with rfl | ⟨hk, -⟩
    · exact hp
    · have := I.install hk
      rw [O.scbkd] at this; cases this
  · obtain ⟨⟨s1, o3, y⟩, hu', h3⟩ := Res.bind_eq_ok.mp hu
    injection h3 with h3; injection h3 with e1 e2; subst e1 e2
    have U := stateUpdate_inv I.cp hu'
    have hm : MaySend p env := by
      rcases U.packet I with h | ⟨hm, -⟩
      · rw [h] at hs; cases hs
      · exact hm
    have hlt := code_of_byte' I hm
    clear hu
    obtain ⟨k, e1, e2, e3, e4⟩ : ∃ k : Spec.Wire.Packet, bs = k.bytes.take env.sendCap ∧
        (k.id = some (b8 p.cmdId) ∨ p.cmdId = Id.FILETRANSFER ∧ k.id = some (b8 Id.ABORT)) ∧
        (p.cmdId = Id.CHLNG ∨ p.cmdId = Id.SCRYPT → k.scb.drop 2 = [1#8]) ∧ (p.cmdId = Id.KEYSET → p.scActive = true) := by
      have key : ∀ {q : Pd} {outs : List Out} {ok : Bool}, SendOutcome C p env q outs ok → bs ∈ Spec.Wire.sent outs → ∃ k : Spec.Wire.Packet,
          bs = k.bytes.take env.sendCap ∧ (k.id = some (b8 p.cmdId) ∨ p.cmdId = Id.FILETRANSFER ∧ k.id = some (b8 Id.ABORT)) ∧
          (p.cmdId = Id.CHLNG ∨ p.cmdId = Id.SCRYPT → k.scb.drop 2 = [1#8]) ∧ (p.cmdId = Id.KEYSET → p.scActive = true) := by
        intro q outs ok ho hb
        obtain ⟨k, e1, e2, e3⟩ := ho.names I.lo I.hi O.scbkd bs hb
        exact ⟨k, e1, e2, e3, fun hid => ho.keyless hid (List.ne_nil_of_mem hb)⟩
      cases U with
      | hold _ _ => cases hs
      | sent _ ho => exact key ho hs
      | unsent _ ho hset =>
        rw [sent_append, settle_sent hset, List.append_nil] at hs
        exact key ho hs
      | replied _ hw _ hset => rw [sent_append, settle_sent hset, fclose_sent hw.outs] at hs; cases hs
      | again _ hw => rw [fclose_sent hw.outs] at hs; cases hs
      | waiting _ hw => rw [fclose_sent hw.outs] at hs; cases hs
      | idle _ hset => rw [settle_sent hset] at hs; cases hs
    have code : ∀ {c : Nat} {x : Byte}, x = b8 c → c < 256 → x ≠ b8 Id.ABORT → k.id = some x → p.cmdId = c := by
      intro c x hx hc hn hk
      rcases e2 with e2 | ⟨-, e2⟩
      · rw [hk] at e2; injection e2 with e2
        have := congrArg BitVec.toNat (hx.symm.trans e2)
        unfold b8 at this
        rw [BitVec.toNat_ofNat, BitVec.toNat_ofNat, Nat.mod_eq_of_lt hc, Nat.mod_eq_of_lt hlt] at this
        exact this.symm
      · rw [hk] at e2; injection e2 with e2; exact absurd e2 hn
    refine ⟨k, e1, fun hk => e3 ?_, fun hact hk => ?_⟩
    · exact hk.imp (code (c := Id.CHLNG) rfl (by decide) (by decide)) (code (c := Id.SCRYPT) rfl (by decide) (by decide))
    · have := e4 (code (c := Id.KEYSET) rfl (by decide) (by decide) hk)
      rw [hact] at this; cases this
  · obtain ⟨f, msg, id, data, w1, -, w3, -⟩ := C64_cp hr hact hu hs
    exact ⟨f, msg, id, data, w1, w3⟩

/-- `C77_partial` speaks of the CP of C24, which opens a session with the sample PD -/
example :
    (let t := ({ cp := strictCp, pd := Sample.pd } : Sample.Talk).turns xorCipher 20 20
     newPd { Sample.pdInfo with enforceSecure := true } 0 false 16 = some strictCp ∧ strictCp.flags.installMode = false ∧
      t.cp.scActive = true ∧ 5 ≤ (sent t.cpOuts).length) := by
  refine ⟨rfl, ?_⟩
  decide +kernel

/-! ### a device that knows nothing but the default key -/

/-- its replies that have a security block -/
def posedReply (seq : Byte) (scb data : List Byte) : List Byte := Spec.Wire.Packet.bytes ⟨true, 101#8 ||| 0x80#8, seq ||| 0x0C#8, scb, data⟩

/-- its random number -/
def posedRnd : Half := .fill 8 0xD0#8

/-- its answer to the challenge `ra`: the cryptogram for the default key, in a block of the type that belongs to CHLNG and names the default key -/
def posedCcrypt (C : Cipher) (ra : Half) : List Byte :=
  posedReply 2#8 [3#8, 0x11#8, 0#8] (0x76#8 :: (List.replicate 8 0#8 ++ posedRnd.1 ++ (cryptogram C (encKey C defaultKey ra) ra posedRnd).1))

/-- its answer to the cryptogram of the CP -/
def posedRmac (C : Cipher) (ra : Half) : List Byte :=
  posedReply 3#8 [3#8, 0x14#8, 1#8] (0x78#8 :: (C.enc (mac2Key C defaultKey ra) (C.enc (mac1Key C defaultKey ra)
    (cryptogram C (encKey C defaultKey ra) posedRnd ra))).1)

/-- a CP with ENFORCE_SECURE, and INSTALL_MODE -/
def installingCp : Pd := (newPd { Sample.pdInfo with enforceSecure := true, installMode := true } 0 false 16).getD (PdM.blank 16)

/-- the device introduces itself and answers CHLNG and SCRYPT; the CP sends one more command -/
def posed (C : Cipher) : List Op :=
  Sample.meets [9, 1, 1] ++ Sample.asks (posedCcrypt C Sample.rndA) ++ Sample.asks (posedRmac C Sample.rndA) ++ [Sample.hears [], Sample.hears []]

/-- **C77 fails** for a CP with INSTALL_MODE: it challenges the device for its own key, but takes an answer that proves knowledge of the default key, opens a
session with it, and sends it its own key, which the device reads (with AES). -/
theorem C77_tricked : ∃ q o, newPd { Sample.pdInfo with enforceSecure := true, installMode := true } 0 false 16 = some installingCp ∧
    run Aes.aes installingCp (posed Aes.aes) = .ok (q, o) ∧
    q.flags.enforceSecure = true ∧ q.scActive = true ∧ q.sc.sEnc = encKey Aes.aes defaultKey Sample.rndA ∧
    Link.keyRead Aes.aes Sample.rndA posedRnd ((sent o).getLast?.getD []) = Sample.key.1 ∧ Sample.key ≠ defaultKey := by
  obtain ⟨q, o, h, hd⟩ := Sample.ran (C := Aes.aes) (p := installingCp) (ops := posed Aes.aes)
    (fun q o => decide (q.flags.enforceSecure = true ∧ q.scActive = true ∧ q.sc.sEnc = encKey Aes.aes defaultKey Sample.rndA ∧
      Link.keyRead Aes.aes Sample.rndA posedRnd ((sent o).getLast?.getD []) = Sample.key.1 ∧ Sample.key ≠ defaultKey)) (by decide +kernel)
  exact ⟨q, o, rfl, h, of_decide_eq_true hd⟩

/-- without INSTALL_MODE the CP of C24 does not fall for it -/
example : ∃ q o, run Aes.aes strictCp (posed Aes.aes) = .ok (q, o) ∧ q.scActive = false ∧ q.state = .offline := by
  obtain ⟨q, o, h, hd⟩ := Sample.ran (C := Aes.aes) (p := strictCp) (ops := posed Aes.aes)
    (fun q o => decide (q.scActive = false ∧ q.state = .offline)) (by decide +kernel)
  exact ⟨q, o, h, of_decide_eq_true hd⟩

end Osdp.CpM

namespace Osdp.PdM

open Spec.Session (encKey defaultKey)

/-- a PD with its own key, ENFORCE_SECURE, and INSTALL_MODE -/
def installingPd : Pd := (setup { Sample.pdInfo with enforceSecure := true, installMode := true } false 4).getD (blank 4)

/-- **C77 fails** for a PD with INSTALL_MODE: it opens a session with a peer that knows only the default key. -/
theorem C77_pd : setup { Sample.pdInfo with enforceSecure := true, installMode := true } false 4 = some installingPd ∧
    installingPd.flags.enforceSecure = true ∧ installingPd.sc.scbk ≠ defaultKey ∧
    ((Sample.feed Aes.aes installingPd [Sample.scbCmd 0#8 [3#8, 0x11#8, 0#8] (0x76#8 :: Sample.rndA.1),
        Sample.scrypt 1#8 (Sample.session Aes.aes defaultKey)]).toOption.map fun r => (r.1.scActive, r.1.sc.sEnc)) =
      some (true, encKey Aes.aes defaultKey Sample.rndA) := by
  refine ⟨rfl, rfl, ?_, ?_⟩ <;> decide +kernel

end Osdp.PdM
