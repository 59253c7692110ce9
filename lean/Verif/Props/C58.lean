import Verif.Lemmas.CpHear
import Verif.Lemmas.PdHear
import Verif.Lemmas.PdEvent
import Verif.Lemmas.SampleCp
import Verif.Props.C39
import Verif.Props.C05

/-!
# C58: a peer's announced buffer size cannot disable communication
-/

namespace Osdp

open Spec.Wire
open Phy (sendOuts)

namespace CpM

theorem mute_update {C : Cipher} {cb : Bool} {p q : Pd} {env : Env} {outs : List Out} {y : Bool} (I : Inv p)
    (hm : p.txBufSize < 69) (hw : p.phyState ≠ .replyWait) (h : Update C cb p env q outs y) :
    sent outs = [] ∧ q.txBufSize < 69 ∧ q.phyState ≠ .replyWait := by
  have hinfo : q.peerRx = p.peerRx := by
    rcases h.learned with ⟨hi, -⟩ | ⟨_, _, _, _, _, _, _, h, _⟩
    · exact hi.peerRx
    · exact absurd h hw
  have hq : q.txBufSize < 69 := by unfold Pd.txBufSize at hm ⊢; rw [hinfo]; exact hm
  have settled' : ∀ {p1 : Pd} {o : List Out}, Mid p1 → settle cb p1 env = .ok (q, o) → q.phyState ≠ .replyWait := by
    intro p1 o M h
    rcases (settled M h).2 with h | h <;> simp [h]
  cases h with
  | hold h _ => exact ⟨rfl, hm, hw⟩
  | sent _ h =>
    cases h with
    | built b l q o ok h69 => omega
  | unsent _ h1 h2 =>
    refine ⟨?_, hq, settled' (unsent_mid I h1) h2⟩
    cases h1 with
    | mute _ => rw [List.nil_append]; exact settle_sent h2
    | unbuilt b h69 => omega
    | built b l q o ok h69 => omega
  | replied h => exact absurd h hw
  | again h => exact absurd h hw
  | waiting h => exact absurd h hw
  | idle _ h => exact ⟨settle_sent h, hq, settled' I.mid h⟩

/-- **C58 fails for the CP.**  Once a PD has announced a receive buffer of 1 to 68 bytes the CP never sends anything to that PD
again, whatever happens (so that it never hears of another size either). -/
theorem C58_cp_mute_forever (C : Cipher) (info : PdM.Info) (q s : Pd) (ops : List Op) (o : List Out) (hq : Reached C info q)
    (hn : 1 ≤ q.peerRx ∧ q.peerRx ≤ 68) (hi : q.phyState = .idle) (h : run C q ops = .ok (s, o)) : sent o = [] := by
  have hm : q.txBufSize < 69 := by unfold Pd.txBufSize; rw [if_pos (by omega)]; omega
  have hw : q.phyState ≠ .replyWait := by simp [hi]
  have I := hq.inv
  clear hn hi hq
  induction ops generalizing q o with
  | nil => injection h with h; injection h with e1 e2; subst e2; rfl
  | cons op ops ih =>
    obtain ⟨⟨p1, o1⟩, h1, h⟩ := Res.bind_eq_ok.mp h
    obtain ⟨⟨p2, o2⟩, h2, h⟩ := Res.bind_eq_ok.mp h
    injection h with h; injection h with e1 e2; subst e1 e2
    have key : sent o1 = [] ∧ p1.txBufSize < 69 ∧ p1.phyState ≠ .replyWait := by
      cases op with
      | update cb env =>
        obtain ⟨⟨p3, o3, y⟩, hu, hs⟩ := Res.bind_eq_ok.mp h1
        injection hs with hs; injection hs with e1 e2; subst e1 e2
        exact mute_update I hm hw (stateUpdate_inv I.cp hu)
      | _ =>
        obtain ⟨a, -, b, -, -, -, -, -, -, -, c, -⟩ := step_api h1 (fun cb env h => by cases h)
        refine ⟨a, ?_, by rw [b]; exact hw⟩
        unfold Pd.txBufSize at hm ⊢; rw [c]; exact hm
    rw [sent_append, key.1, ih _ _ h2 key.2.1 key.2.2 (I.step h1)]; rfl

/-- a PD that answers CAP with a receive buffer size of 20 gets there -/
example : ∃ q, Reached xorCipher Sample.pdInfo q ∧ (1 ≤ q.peerRx ∧ q.peerRx ≤ 68) ∧ q.phyState = .idle := by
  obtain ⟨q, o, h, hq⟩ := Sample.ran (C := xorCipher) (p := Sample.cp) (ops := Sample.meets [10, 20, 0])
    (fun q _ => decide ((1 ≤ q.peerRx ∧ q.peerRx ≤ 68) ∧ q.phyState = .idle)) (by decide +kernel)
  obtain ⟨h1, h2⟩ := of_decide_eq_true hq
  exact ⟨q, Sample.cp_reached h, h1, h2⟩

/-- **C58, CP, `_partial`.**  With any other announced size, 0 or at least 69, the CP can send the ID command (10 bytes) with which
communication is established.  The full statement has no condition on `q.peerRx`. -/
theorem C58_cp_partial (C : Cipher) (info : PdM.Info) (q : Pd) (cb : Bool) (env : Env) (hq : Reached C info q)
    (hn : q.peerRx = 0 ∨ 69 ≤ q.peerRx) (hst : q.state = .init) (hph : q.phyState = .sendCmd)
    (hcap : 10 ≤ env.sendCap) (hm : ¬ (q.flags.hasMark = true ∧ q.flags.skipMark = true)) :
    ∃ s o, step C q (.update cb env) = .ok (s, o) ∧ s.phyState = .replyWait ∧
      sent o = [(Packet.mk (!q.flags.skipMark) (i8 q.address &&& 0x7F#8) (b8 (Phy.seqBits (Phy.nextSeq q.seq true)) ||| 4#8) []
        [b8 Id.ID, 0#8]).bytes] := by
  have hroom : 69 ≤ q.txBufSize := by unfold Pd.txBufSize; split <;> omega
  have I := hq.inv
  have hcmd : q.cmdId = Id.ID := by
    have := I.cmd (by simp [hph])
    rw [hst] at this; exact this
  have ha : q.flags.scActive = false := by
    cases ha : q.flags.scActive with
    | false => rfl
    | true => rcases I.secure ha with h | h <;> rw [hst] at h <;> cases h
  have hn' : (nextCmd q).cmdId = Id.ID := hcmd
  have hlen : (plainCmd q [b8 Id.ID, 0#8]).bytes.length ≤ 10 := by
    rw [Phy.bytes_length]
    unfold plainCmd
    cases q.flags.skipMark <;> simp [Packet.len]
  have hbody : commandBody C (nextCmd q) env (cmdTx q) (q.txBufSize - (cmdTx q).dataOff) =
      .ok { p := nextCmd q, t := cmdTx q, body := some [b8 Id.ID, 0#8] } := by
    have hd := cmdTx_dataOff q
    unfold commandBody
    dsimp only
    rw [hn', if_neg (by decide), if_pos (by decide)]
    unfold PdM.assertLen
    rw [if_pos (by omega)]
    rfl
  obtain ⟨s, hs, -⟩ := buildAndSend_plain C q env _ [b8 Id.ID, 0#8] I.cp ha
    (by rw [hcmd]; rfl) hroom (by simpa using hm) hq.buffered.buf hbody rfl ha rfl rfl rfl (by simp) (by omega)
  rw [decide_eq_true (by omega)] at hs
  refine ⟨_, _, step_update (update_send C cb q env hph hs), rfl, ?_⟩
  show sent ([] ++ sendOuts q env _) = _
  rw [List.nil_append, sendOuts_sent, List.take_of_length_le (by omega)]
  rfl

example : ∃ q, Reached xorCipher Sample.pdInfo q ∧ (q.peerRx = 0 ∨ 69 ≤ q.peerRx) ∧ q.state = .init ∧ q.phyState = .sendCmd ∧
    ¬ (q.flags.hasMark = true ∧ q.flags.skipMark = true) := by
  obtain ⟨q, o, h, hq⟩ := Sample.ran (C := xorCipher) (p := Sample.cp) (ops := [Sample.hears []])
    (fun q _ => decide ((q.peerRx = 0 ∨ 69 ≤ q.peerRx) ∧ q.state = .init ∧ q.phyState = .sendCmd ∧
    ¬ (q.flags.hasMark = true ∧ q.flags.skipMark = true))) (by decide +kernel)
  exact ⟨q, Sample.cp_reached h, of_decide_eq_true hq⟩

end CpM

namespace PdM

open Phy (Arrives)

theorem finish_mute {C : Cipher} {p q : Pd} {env : Env} {ret : PdRet} {o : List Out} (hm : p.txBufSize < 69)
    (h : finish C p env ret = .ok (q, o)) : o = [] := by
  unfold finish at h
  replace h := ite_inv h
  rcases h with ⟨-, h⟩ | ⟨-, h⟩
  · injection h with h; injection h with e1 e2; exact e2.symm
  replace h := ite_inv h
  rcases h with ⟨-, h⟩ | ⟨-, h⟩
  · injection h with h; injection h with e1 e2; exact e2.symm
  replace h := ite_inv h
  rcases h with ⟨-, h⟩ | ⟨-, h⟩
  · injection h with h; injection h with e1 e2; exact e2.symm
  have hs : sendReply C (touch p ret env.now) env = .ok (touch p ret env.now, [], false) := by
    have e : (touch p ret env.now).txBufSize = p.txBufSize := by unfold touch; split <;> rfl
    unfold sendReply Phy.packetInit
    dsimp only
    rw [if_pos (by rw [e]; omega)]
  rw [hs] at h
  replace h : (afterSend (touch p ret env.now) false >>= fun q => Except.ok (q, [])) = (Except.ok (q, o) : Res _) := h
  obtain ⟨q', -, h⟩ := Res.bind_eq_ok.mp h
  injection h with h; injection h with e1 e2; exact e2.symm

/-- **C58 fails for the PD.**  Once a PD has been told that the CP's receive buffer has 1 to 68 bytes it answers nothing, until it
is told otherwise. -/
theorem C58_pd_mute (C : Cipher) (info : Info) (q s : Pd) (env : Env) (o : List Out) (hq : Reached C info q)
    (hn : 1 ≤ q.peerRx ∧ q.peerRx ≤ 68) (hc : ∀ body, commandOf C q env ≠ some (b8 Id.ACURXSIZE, body))
    (h : refresh C q env = .ok (s, o)) : sent o = [] ∧ s.peerRx = q.peerRx := by
  have he : (expire q env.now).flags.pdMode = true := by
    have := hq.pdMode
    unfold expire; split <;> exact this
  unfold refresh at h
  obtain ⟨⟨p1, o1, ret⟩, h1, h⟩ := Res.bind_eq_ok.mp h
  obtain ⟨⟨q', o2⟩, h2, h⟩ := Res.bind_eq_ok.mp h
  injection h with h; injection h with e1 e2; subst e1 e2
  have hg := receive_got he h1
  have hmode : p1.flags.pdMode = true := by
    have := congrArg Config.pdMode (config_got hg)
    exact this.trans he
  have key : sent o1 = [] ∧ p1.peerRx = q.peerRx ∧ p1.flags.pdMode = true := by
    rcases hg.heard with ⟨-, rfl, e, -⟩ | ⟨id, body, p2, hcmd, ht, hd, ho⟩
    · exact ⟨rfl, e, hmode⟩
    · refine ⟨outs_nosend ho, ?_, hmode⟩
      rw [outcome_told hd ho, if_neg]
      · exact ht.peerRx.trans (expire_fields q env.now).1.peerRx
      · intro h
        refine hc body ?_
        rw [hcmd]; congr 2; exact BitVec.eq_of_toNat_eq h
  have hm : p1.txBufSize < 69 := by unfold Pd.txBufSize; rw [key.2.1, if_pos (by omega)]; omega
  refine ⟨?_, ?_⟩
  · rw [finish_mute hm h2, List.append_nil]; exact key.1
  · rw [(finished_tail (finish_inv key.2.2 h2)).peerRx]; exact key.2.1

/-- the sample PD gets there, and does not answer a POLL -/
example : ∃ q, Reached xorCipher Sample.pdInfo q ∧ (1 ≤ q.peerRx ∧ q.peerRx ≤ 68) ∧
    commandOf xorCipher q (Sample.env (Sample.cmd 1 [b8 Id.POLL])) = some (b8 Id.POLL, []) := by
  have : (match run xorCipher Sample.pd [.refresh (Sample.env (Sample.cmd 0 [b8 Id.ACURXSIZE, 20, 0]))] with
    | .ok (q, _) => decide ((1 ≤ q.peerRx ∧ q.peerRx ≤ 68) ∧
        commandOf xorCipher q (Sample.env (Sample.cmd 1 [b8 Id.POLL])) = some (b8 Id.POLL, []))
    | .error _ => false) = true := by decide +kernel
  split at this
  · rename_i q o e
    exact ⟨q, ⟨false, 16, Sample.pd, _, o, rfl, e⟩, of_decide_eq_true this⟩
  · cases this

/-- **C58, PD, `_partial`.**  With any other announced size, 0 or at least 69, a PD answers a POLL when nothing is pending, with an
ACK.  The full statement has no condition on `p.peerRx`. -/
theorem C58_pd_partial (C : Cipher) (p : Pd) (k : Packet) (env : Env)
    (hl : Listening p) (hk : ForUs p k) (ha : Arrives env k.bytes)
    (hs : Phy.hasBit k.ctl Phy.CTL_SCB = false) (hscb : k.scb = []) (hd : k.data = [0x60#8])
    (he : p.eventQueue = []) (hsec : p.flags.enforceSecure = false) (hn : p.peerRx = 0 ∨ 69 ≤ p.peerRx) (hcap : 256 ≤ env.sendCap) :
    ∃ q outs r, refresh C p env = .ok (q, outs) ∧ sent outs = [Packet.bytes r] ∧ Answers p.address.toNat k r [b8 Id.ACK] := by
  have htx : 69 ≤ p.txBufSize := by unfold Pd.txBufSize; split <;> omega
  obtain ⟨h, q0, o, b, rb, q, hh, P, ⟨rfl, rfl, rfl, rfl⟩, hS, hI, hrun, ⟨r, hr, hr'⟩, hn⟩ :=
    exchange (fun h q o b rb => q = { noteCmd (accepted p k h) 0x60#8 with replyId := Id.ACK } ∧
        o = [] ∧ b = ⟨unbc q, replyTx q, [], .ok rb⟩ ∧ rb = [b8 Id.ACK])
      C p k env 0x60#8 [] hl hk ha hs hscb hd hcap (by
        intro h hh
        obtain ⟨f1, f2, f3⟩ := accepted_fields k h hl
        refine ⟨?_, _, _, _, _, ?_, rfl, rfl, rfl, rfl⟩
        · unfold plainRefused
          show (p.flags.enforceSecure && _ && _ && _ && _ && _) = false
          rw [hsec]; rfl
        · have htx' : 69 ≤ ({ noteCmd (accepted p k h) 0x60#8 with replyId := Id.ACK } : Pd).txBufSize := htx
          refine ⟨.inl ?_, rfl, rfl, rfl, rfl, rfl, htx', rfl, ?_, ?_, rfl, rfl, rfl, rfl, rfl, rfl, rfl, rfl, ?_, ?_⟩
          · have hd : dispatch (noteCmd (accepted p k h) 0x60#8) env [] =
                reply (pollEvent (noteCmd (accepted p k h) 0x60#8)) (pollEvent (noteCmd (accepted p k h) 0x60#8)).replyId := rfl
            rw [hd]
            have hpe : pollEvent (noteCmd (accepted p k h) 0x60#8) = { noteCmd (accepted p k h) 0x60#8 with replyId := Id.ACK } := by
              unfold pollEvent
              have : (noteCmd (accepted p k h) 0x60#8).eventQueue = [] := he
              split
              · rfl
              · rename_i e; rw [this] at e; cases e
            rw [hpe]
            rfl
          · rintro ⟨h, -⟩; exact absurd (show Id.POLL = Id.KEYSET from h) (by decide)
          · intro n hn hn'
            show (assertLen 1 n >>= fun _ => (.ok _ : Res Built)) = _
            unfold assertLen; rw [if_pos (by omega)]; rfl
          · simp
          · have := plainReply_length ({ noteCmd (accepted p k h) 0x60#8 with replyId := Id.ACK } : Pd) [b8 Id.ACK]
            exact Nat.le_trans this (Nat.le_trans (by decide) htx'))
  exact ⟨_, _, r, hrun, by simpa using hr', hr⟩

/-- the hypotheses are met -/
example : Listening Sample.pd ∧ ForUs Sample.pd ⟨true, 101#8, 4#8, [], [0x60#8]⟩ ∧ Arrives (Sample.env Sample.poll)
    (Packet.mk true 101#8 4#8 [] [0x60#8]).bytes ∧ Sample.pd.eventQueue = [] ∧ Sample.pd.flags.enforceSecure = false ∧
    Sample.pd.peerRx = 0 := by
  refine ⟨⟨rfl, ⟨rfl, rfl, by decide +kernel, rfl⟩, rfl, rfl, by decide⟩,
    ⟨by decide +kernel, by decide, by decide, by decide, by decide, by decide⟩, ?_, by decide, by decide, by decide⟩
  unfold Arrives; decide +kernel

end PdM
end Osdp
