import Verif.Lemmas.CmdWire
import Verif.Lemmas.Rounds
import Verif.Props.C16

/-!
# C30: Commands arrive at the PD application exactly as the CP application issued them
-/

namespace Osdp.Link

open Phy PdM CpM Spec.Command
open Spec.Wire (Packet sent)

/-- A CP and its PD between two exchanges, in plain text or within a secure channel, and `c` next in the CP's queue. -/
structure Issues (cp pd : Pd) (c : Cmd) : Prop where
  inv : CpM.Inv cp
  online : cp.state = .online
  idle : cp.phyState = .idle
  queue : cp.cmdQueue.head? = some c
  ends : Ends cp pd
  pdIdle : Idle pd
  pdSeq : -1 ≤ pd.seq ∧ pd.seq ≤ 3
  seq : cp.seq = pd.seq ∨ cp.seq = -1
  seqSc : cp.scActive = true → cp.seq ≠ -1

/-- The CP takes the command from its queue. -/
theorem Issues.takes {cp pd : Pd} {c : Cmd} (S : Issues cp pd c) (hv : Valid cp.scActive c) (C : Cipher) (cb : Bool) (e0 : Env) :
    ∃ rest, CpM.step C cp (.update cb e0) =
      .ok ({ cp with cmdQueue := rest, eph := .cmd c, cmdId := codeOf c, phyState := .sendCmd }, []) := by
  obtain ⟨rest, hq⟩ : ∃ rest, cp.cmdQueue = c :: rest := by
    have := S.queue
    cases hc : cp.cmdQueue with
    | nil => rw [hc] at this; cases this
    | cons a l => rw [hc] at this; injection this with this; subst this; exact ⟨l, rfl⟩
  refine ⟨rest, ?_⟩
  have h1 : stateGetCmd cp e0 = .ok ({ cp with cmdQueue := rest, eph := .cmd c }, [], codeOf c) := by
    have ho : stateGetCmd cp e0 = onlineCommand cp e0 := by unfold stateGetCmd; rw [S.online]
    rw [ho]
    unfold onlineCommand
    rw [hq]
    dsimp only
    rw [translate_valid (p := { cp with cmdQueue := rest }) hv]
    simp only [Res.ok_bind]
  show (CpM.stateUpdate C cb cp e0 >>= _) = _
  rw [update_idle C cb cp e0 S.idle, settle_command S.idle h1 (codeOf_ok hv).1]
  rfl

theorem outcome_pdMode {p q : Pd} {env : Env} {body : List Byte} {o : List Out} {r : PdRet} (h : Outcome p env body q o r)
    (hp : p.flags.pdMode = true) : q.flags.pdMode = true := by
  cases h with
  | plain hpl _ => rw [hpl.quiet.flags]; exact hp
  | poll _ _ => unfold pollEvent; split <;> exact hp
  | file _ _ => split <;> exact hp
  | _ => exact hp

/-- What the PD does with the packet of a command. -/
theorem asked_of {C : Cipher} {cp pd q : Pd} {c : Cmd} {env : Env} {o : List Out} (E : Ends cp pd) (hi : Idle pd) (hv : Valid cp.scActive c)
    (hfit : (cpPkt C cp (encode c)).bytes.length ≤ 256) (hs1 : -1 ≤ cp.seq ∧ cp.seq ≤ 3) (hs2 : -1 ≤ pd.seq ∧ pd.seq ≤ 3)
    (hs : cp.seq = pd.seq ∨ cp.seq = -1) (hs0 : cp.scActive = true → cp.seq ≠ -1) (ha : Arrives env (cpPkt C cp (encode c)).bytes)
    (hexp : expire pd env.now = pd) (hcb : env.cb.isSome = true) (henf : pd.flags.enforceSecure = true → pd.scActive = true)
    (hm : MayAsk pd.cap c) (h : PdM.step C pd (.refresh env) = .ok (q, o)) : asked o = [carried c] := by
  obtain ⟨rest, hc⟩ := encode_cons hv
  obtain ⟨hh, sc, -, -, hrec, hact, -, hsc⟩ := command_read C cp pd env (encode c) (b8 (codeOf c)) rest hc E hi hfit hs1 hs2 hs hs0 ha
  have h : PdM.refresh C pd env = .ok (q, o) := h
  unfold PdM.refresh at h
  rw [hexp, hrec] at h
  obtain ⟨⟨p1, o1, r1⟩, h1, h⟩ := Res.bind_eq_ok.mp h
  obtain ⟨⟨p2, o2⟩, h2, h⟩ := Res.bind_eq_ok.mp h
  injection h with h; injection h with _ h; subst h
  unfold commanded at h1
  generalize hp : (reload (setSc (pdAccept pd (Phy.seqBits (Phy.nextSeq cp.seq true)) false) sc) hh) = p at h1
  have hpa : p.scActive = cp.scActive := by rw [← hp]; exact hact
  have hpm : p.flags.pdMode = true := by rw [← hp]; exact E.pdMode
  have hpe : p.flags.enforceSecure = pd.flags.enforceSecure := by rw [← hp]; rfl
  have hpc : p.cap = pd.cap := by rw [← hp]; rfl
  rw [if_neg ?_] at h1
  · have h3 := dispatch_valid (p := noteCmd p (b8 (codeOf c))) (c := c) (rest := rest) (by show Valid p.scActive c; rw [hpa]; exact hv)
      (by show MayAsk p.cap c; rw [hpc]; exact hm) (b8_toNat (codeOf_ok hv).2.1) (by cases he : env.cb with | none => rw [he] at hcb; cases hcb | some _ => rfl) hc h1
    have hpm1 : p1.flags.pdMode = true := outcome_pdMode (dispatch_outcome (p := noteCmd p _) hpm h1) hpm
    have h4 := finished_outs (finish_inv hpm1 h2)
    show asked (o1 ++ o2) = _
    unfold asked at h3 ⊢
    rw [List.filterMap_append, h3, List.filterMap_eq_nil_iff.mpr ?_]
    · rfl
    · intro x hx
      rcases h4 x hx with rfl | rfl | ⟨bs, rfl⟩ <;> rfl
  · have : PdM.plainRefused (noteCmd p (b8 (codeOf c))) = false := by
      unfold PdM.plainRefused
      show (p.flags.enforceSecure && !p.scActive && _ && _ && _ && _) = false
      cases he : pd.flags.enforceSecure with
      | false => rw [hpe, he]; rfl
      | true => rw [hpa, ← E.act, henf he]; simp
    rw [this]; decide

/-- **C30** -/
theorem C30 (C : Cipher) (cb : Bool) (cp pd : Pd) (c : Cmd) (e0 : Env) (S : Issues cp pd c) (hv : Valid cp.scActive c) :
    ∃ cp1, CpM.step C cp (.update cb e0) = .ok (cp1, []) ∧
    ∀ e1 cp2 o bs, 256 ≤ e1.sendCap → CpM.step C cp1 (.update cb e1) = .ok (cp2, o) → sent o = [bs] →
    (cp.scActive = false → ∃ k : Packet, bs = k.bytes ∧ k.data = encode c) ∧
    ∀ e2 q o', Arrives e2 bs → expire pd e2.now = pd → e2.cb.isSome = true → (pd.flags.enforceSecure = true → pd.scActive = true) →
      MayAsk pd.cap c → PdM.step C pd (.refresh e2) = .ok (q, o') → asked o' = [carried c] := by
  obtain ⟨rest, h0⟩ := S.takes hv C cb e0
  refine ⟨_, h0, ?_⟩
  intro e1 cp2 o bs hcap h1 hs
  have I := S.inv.step h0
  generalize hcp1 : ({ cp with cmdQueue := rest, eph := .cmd c, cmdId := codeOf c, phyState := .sendCmd } : Pd) = cp1 at h1 I
  have hh := (codeOf_ok hv).2.2
  obtain ⟨f, buf, body, hb, -, hbs, hfit, -⟩ := command_sent I (by rw [← hcp1]) (by
    rw [← hcp1]
    show codeOf c ≠ _ ∧ codeOf c ≠ _
    constructor <;> (intro e; rw [e] at hh; revert hh; decide)) h1 hcap hs
  have hbody : body = encode c := by
    unfold commandBuilt at hb
    split at hb
    · rename_i b hbb
      have := commandBody_built (c := c) (by rw [← hcp1]; exact hv) (by rw [← hcp1]; rfl) (by rw [← hcp1]; rfl) hbb
      rw [this] at hb
      injection hb with hb; exact hb.symm
    · cases hb
  subst hbody
  have hpk : cpPkt C cp1 (encode c) = cpPkt C cp (encode c) := by rw [← hcp1]; rfl
  rw [hpk] at hbs
  subst hbs
  refine ⟨fun hsc => ⟨_, rfl, ?_⟩, ?_⟩
  · show anyData C cp _ _ = _
    unfold anyData
    rw [hsc]; rfl
  · intro e2 q o' ha hexp hcb henf hm h2
    exact asked_of S.ends S.pdIdle hv hfit ⟨S.inv.lo, S.inv.hi⟩ S.pdSeq S.seq S.seqSc ha hexp hcb henf hm h2

theorem arriving_arrives (now : Int) (bs : List Byte) (h : bs.length ≤ 256) : Arrives (arriving now bs) bs := by
  constructor
  · intro c hc
    simp only [arriving, Sample.blocks64, List.mem_cons, List.not_mem_nil, or_false] at hc
    rcases hc with rfl | rfl | rfl | rfl <;> simp <;> omega
  · show taken (Sample.blocks64 bs) = bs
    unfold Sample.blocks64 taken taken taken taken taken
    simp only [List.length_take, List.length_drop, List.append_nil, ite_self]
    have e1 : bs.take 64 ++ bs.drop 64 = bs := List.take_append_drop 64 bs
    have e2 : (bs.drop 64).take 64 ++ bs.drop 128 = bs.drop 64 := by
      have := List.take_append_drop 64 (bs.drop 64)
      rwa [List.drop_drop] at this
    have e3 : (bs.drop 128).take 64 ++ bs.drop 192 = bs.drop 128 := by
      have := List.take_append_drop 64 (bs.drop 128)
      rwa [List.drop_drop] at this
    by_cases h1 : bs.length < 64
    · rw [if_neg (by omega), List.take_of_length_le (by omega)]
    rw [if_pos (by omega)]
    by_cases h2 : bs.length < 128
    · rw [if_neg (by omega), List.take_of_length_le (l := bs.drop 64) (by simp; omega), e1]
    rw [if_pos (by omega)]
    by_cases h3 : bs.length < 192
    · rw [if_neg (by omega), List.take_of_length_le (l := bs.drop 128) (by simp; omega), e2, e1]
    rw [if_pos (by omega), e3, e2, e1]

theorem cpPkt_length (C : Cipher) (cp : Pd) (body : List Byte) (hne : body ≠ []) (h : body.length ≤ 69) : (cpPkt C cp body).bytes.length ≤ 95 := by
  unfold cpPkt
  rw [Phy.bytes_length]
  show (if (!cp.flags.skipMark) = true then 1 else 0) + (5 + (cpTx cp body.length).scb.length + (anyData C cp (cpTx cp body.length) body).length + 2) ≤ 95
  have h1 : (if (!cp.flags.skipMark) = true then 1 else 0) ≤ 1 := by split <;> omega
  cases hsc : cp.scActive with
  | false =>
    have ha : anyData C cp (cpTx cp body.length) body = body := by unfold anyData; rw [hsc]; rfl
    rw [ha]
    have : (cpTx cp body.length).scb = [] := by unfold cpTx; rw [hsc]; rfl
    rw [this]
    simp only [List.length_nil]
    omega
  | true =>
    have ha : anyData C cp (cpTx cp body.length) body = securedData C cp (cpTx cp body.length) body := by unfold anyData; rw [hsc]; rfl
    rw [ha, Phy.securedData_length C cp _ body hne]
    have : (cpTx cp body.length).scb.length = 2 := by unfold cpTx; rw [hsc]; rfl
    rw [this]
    have h2 : Sc.aesPadLen body.length ≤ 80 := by unfold Sc.aesPadLen; omega
    have h3 : (if (cpTx cp body.length).encrypted = true then 1 + Sc.aesPadLen body.length else body.length) ≤ 81 := by split <;> omega
    omega

theorem command_goes (C : Cipher) (cb : Bool) (cp pd : Pd) (c : Cmd) (e1 : Env) (E : Ends cp pd) (hi : Idle pd) (hv : Valid cp.scActive c)
    (hps : cp.phyState = .sendCmd) (he : cp.eph = .cmd c) (hid : cp.cmdId = codeOf c)
    (hm : 95 ≤ cp.txBufSize) (hbuf : cp.packetBuf.length = 256) (hmis : (cp.flags.hasMark && cp.flags.skipMark) = false)
    (hs1 : -1 ≤ cp.seq ∧ cp.seq ≤ 3) (hs2 : -1 ≤ pd.seq ∧ pd.seq ≤ 3)
    (hs : cp.seq = pd.seq ∨ cp.seq = -1) (hs0 : cp.scActive = true → cp.seq ≠ -1)
    (hcap : 256 ≤ e1.sendCap) :
    ∃ cp2 o bs, CpM.step C cp (.update cb e1) = .ok (cp2, o) ∧ sent o = [bs] := by
  have hle : cp.txBufSize ≤ 256 := by unfold Pd.txBufSize; split <;> omega
  obtain ⟨t, hc⟩ := encode_cons hv
  have hlen := cpPkt_length C cp (encode c) (by rw [hc]; simp) (encode_length hv)
  have hb := commandBody_valid (C := C) (p := nextCmd cp) (env := e1) (t := cmdTx cp)
    (room := (cp.txBufSize : Int) - ((cmdTx cp).dataOff : Nat)) (c := c) hv he hid (by have := cmdTx_dataOff cp; omega)
  obtain ⟨buf, h, sc, h1, -⟩ := command_arrives C cp pd cb e1 (arriving 0 _) cp.file [] (encode c) (b8 (codeOf c)) t hc E hmis hps hbuf hi (by omega)
    (by rw [hid]; exact (codeOf_ok hv).2.2) hb (by omega) hcap hs1 hs2 hs hs0 (arriving_arrives 0 _ (by omega))
  refine ⟨_, _, (cpPkt C cp (encode c)).bytes, h1, ?_⟩
  rw [List.nil_append]
  exact (PdM.sendOuts_sent _ _ _ (by omega)).1

/-- Every command goes out if the PD did not announce a receive buffer of less than 95 bytes. -/
theorem C30_sent (C : Cipher) (cb : Bool) (cp pd : Pd) (c : Cmd) (e0 e1 : Env) (S : Issues cp pd c) (hv : Valid cp.scActive c)
    (hm : 95 ≤ cp.txBufSize) (hbuf : cp.packetBuf.length = 256) (hmis : (cp.flags.hasMark && cp.flags.skipMark) = false)
    (hcap : 256 ≤ e1.sendCap) :
    ∃ cp1 cp2 o bs, CpM.step C cp (.update cb e0) = .ok (cp1, []) ∧ CpM.step C cp1 (.update cb e1) = .ok (cp2, o) ∧ sent o = [bs] := by
  obtain ⟨rest, h0⟩ := S.takes hv C cb e0
  have E := S.ends
  obtain ⟨cp2, o, bs, h1, h2⟩ := command_goes C cb { cp with cmdQueue := rest, eph := .cmd c, cmdId := codeOf c, phyState := .sendCmd } pd c e1
    ⟨E.cpMode, E.pdMode, E.address, E.range, E.act, E.same, E.capable⟩ S.pdIdle hv rfl rfl rfl hm hbuf hmis ⟨S.inv.lo, S.inv.hi⟩ S.pdSeq S.seq S.seqSc hcap
  exact ⟨_, cp2, o, bs, h0, h1, h2⟩

theorem expire_recent {p : Pd} {now : Int} (h : now - p.scTstamp ≤ PD_SC_TIMEOUT) : expire p now = p := by
  unfold expire
  rw [if_neg (by omega)]

/-- the application of the sample CP gives a command within a secure channel; the POLL under way is answered -/
def ordering (c : Cmd) : Sample.Talk := (settled.cpDoes xorCipher (.send { now := 400 } c)).turns xorCipher 20 2

/-- a LED command: a temporary and a permanent setting -/
def blink : Cmd := .led ⟨0, 1, ⟨1, 2, 3, 4, 5, 300⟩, ⟨1, 2, 3, 4, 5, 77⟩⟩

theorem cpDoes_inv {C : Cipher} {t : Sample.Talk} (h : CpM.Inv t.cp) (op : CpM.Op) : CpM.Inv (t.cpDoes C op).cp := by
  unfold Sample.Talk.cpDoes
  split
  · rename_i hs; exact h.step hs
  · exact h

theorem blink_issues : Issues (ordering blink).cp (ordering blink).pd blink := by
  refine ⟨turns_inv _ _ ?_, by decide +kernel, by decide +kernel, by decide +kernel,
    ⟨by decide +kernel, by decide +kernel, by decide +kernel, ⟨by decide +kernel, by decide +kernel⟩, by decide +kernel,
      fun _ => ⟨by decide +kernel, by decide +kernel, by decide +kernel, by decide +kernel⟩, by decide +kernel⟩,
    ⟨by decide +kernel, by decide +kernel, by decide +kernel, by decide +kernel⟩, ⟨by decide +kernel, by decide +kernel⟩,
    .inl (by decide +kernel), by decide +kernel⟩
  exact cpDoes_inv settled_sync.inv _

-- it is handed out but for the timer of the permanent setting, which has none
example : (∀ s, Valid s blink) ∧ (ordering blink).cp.scActive = true ∧
    95 ≤ (ordering blink).cp.txBufSize ∧ (ordering blink).cp.packetBuf.length = 256 ∧
    ((ordering blink).cp.flags.hasMark && (ordering blink).cp.flags.skipMark) = false ∧ expire (ordering blink).pd 480 = (ordering blink).pd ∧
    MayAsk (ordering blink).pd.cap blink ∧
    asked (((ordering blink).turns xorCipher 20 2).pdOuts) = [.led ⟨0, 1, ⟨1, 2, 3, 4, 5, 300⟩, ⟨1, 2, 3, 4, 5, 0⟩⟩] := by
  refine ⟨fun _ => trivial, by decide +kernel, by decide +kernel, by decide +kernel, by decide +kernel, ?_, by unfold blink MayAsk; decide +kernel, by decide +kernel⟩
  exact expire_recent (by decide +kernel)

/-- a new key for the PD: 16 bytes of the 32 of the structure -/
def newKey : Cmd := .keyset ⟨1, 16, .fill 32 0xA5#8⟩

-- a key, a text, a manufacturer command and a status request
example : asked (((ordering newKey).turns xorCipher 20 2).pdOuts) = [.keyset ⟨1, 16, .padTo 32 (List.replicate 16 0xA5#8)⟩] ∧
    asked (((ordering (.text ⟨0, 1, 2, 3, 4, 2, .fill 32 0x41#8⟩)).turns xorCipher 20 2).pdOuts) = [.text ⟨0, 1, 2, 3, 4, 2, .padTo 32 [0x41#8, 0x41#8]⟩] ∧
    asked (((ordering (.mfg ⟨0x12345678, 9, 64, .fill 64 0x42#8⟩)).turns xorCipher 20 2).pdOuts) = [.mfg ⟨0x345678, 9, 64, .fill 64 0x42#8⟩] ∧
    asked (((ordering (.status ⟨.input, 3, 5⟩)).turns xorCipher 20 2).pdOuts) = [.status ⟨.input, 0, 0⟩] ∧
    Valid true newKey ∧ Valid true (.text ⟨0, 1, 2, 3, 4, 2, .fill 32 0x41#8⟩) ∧ Valid true (.mfg ⟨0x12345678, 9, 64, .fill 64 0x42#8⟩) ∧
    Valid true (.status ⟨.input, 3, 5⟩) :=
  ⟨by decide +kernel, by decide +kernel, by decide +kernel, by decide +kernel, ⟨rfl, rfl, rfl⟩, by unfold Valid; decide, by unfold Valid; decide, by unfold Valid; decide⟩

end Osdp.Link
