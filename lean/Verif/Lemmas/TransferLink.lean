import Verif.Lemmas.Transfer
import Verif.Lemmas.Rounds
import Verif.Props.C16
import Verif.Props.C58

/-! # The file transfer over a link, step by step -/

namespace Osdp
namespace Link

open Spec.Wire
open Phy (Idle Arrives reload)
open PdM (expire commanded touch unbc replyTx bodyOr)
open CpM (nextCmd cmdTx)

theorem fileOuts_send {outs : List Out} (h : ∀ o ∈ outs, o = .flush ∨ ∃ bs, o = .send bs) : fileOuts outs = [] :=
  fileOuts_none fun o ho => by rcases h o ho with rfl | ⟨bs, rfl⟩ <;> rfl

theorem sendOuts_file (p : Pd) (env : Env) (bs : List Byte) : fileOuts (Phy.sendOuts p env bs) = [] := by
  unfold Phy.sendOuts; split <;> rfl

/-- the reply of a PD, as far as the file transfer goes -/
theorem sent_file {C : Cipher} {p q : Pd} {env : Env} {o : List Out} {ok : Bool} (htx : 69 ≤ p.txBufSize) (ho : PdM.SendOutcome C p env q o ok) :
    ∃ b, PdM.replyBody C (unbc p) env (replyTx p) (p.txBufSize - (replyTx p).dataOff) = .ok b ∧
      (p.replyId ≠ Id.FTSTAT → q.file = p.file ∧ fileOuts o = []) ∧
      (p.replyId = Id.FTSTAT → ∃ room o2 st, 7 ≤ room ∧ File.statBuild p.file env room = .ok (q.file, o2, st) ∧ fileOuts o = fileOuts o2 ∧
        bodyOr b.body = (match st with | some s => b8 Id.FTSTAT :: s | none => [b8 Id.NAK, Nak.RECORD])) := by
  cases ho with
  | mute h => omega
  | built b _ outs _ hb hbo hhd hsend hw hbuf =>
    have ho : fileOuts outs = [] := by
      rcases hw with ⟨rfl, -⟩ | ⟨wire, q', -, -, -, rfl, -⟩
      · rfl
      · exact sendOuts_file ..
    rw [fileOuts_append, ho, List.append_nil, PdM.sending_file hsend]
    refine ⟨b, hb, fun hn => ?_, fun hid => ?_⟩
    · cases hbo with
      | ftstat _ _ _ _ h _ => exact absurd h hn
      | same _ => exact ⟨rfl, rfl⟩
      | com _ _ _ => exact ⟨rfl, rfl⟩
      | ccrypt _ _ _ _ => exact ⟨rfl, rfl⟩
      | rmac _ _ _ _ _ => refine ⟨?_, rfl⟩; dsimp only; split <;> rfl
    · have hid' : (unbc p).replyId = Id.FTSTAT := hid
      have hd : (replyTx p).dataOff ≤ 9 := by
        unfold Phy.Tx.dataOff replyTx
        dsimp only
        split <;> split <;> (try split) <;> simp
      unfold PdM.replyBody at hb
      dsimp only at hb
      rw [hid'] at hb
      iterate 11 (rw [if_neg (by decide)] at hb)
      rw [if_pos rfl] at hb
      obtain ⟨⟨f, o2, st⟩, h1, h2⟩ := Res.bind_eq_ok.mp hb
      refine ⟨(p.txBufSize : Int) - (replyTx p).dataOff, o2, st, ?_, ?_, ?_, ?_⟩
      · omega
      · refine h1.trans ?_
        cases st <;> (injection h2 with h2; subst h2; rfl)
      · cases st <;> (injection h2 with h2; subst h2; rfl)
      · cases st <;> (injection h2 with h2; subst h2; rfl)

/-- What answering a command does to the file transfer of the PD. -/
theorem pd_files {C : Cipher} {pd pd1 P : Pd} {env : Env} {d0 : Byte} {rest bs rb : List Byte} {o : List Out}
    (hP : P.flags.pdMode = true) (hfile : P.file = pd.file) (hexp : expire pd env.now = pd)
    (hrec : PdM.receiveAndProcess C pd env = commanded P env d0 rest) (hnr : PdM.plainRefused (PdM.noteCmd P d0) = false)
    (h : PdM.refresh C pd env = .ok (pd1, o)) (hs : sent o = [bs]) (hrb : replyBuilt C pd env = some rb) :
    (d0.toNat ≠ Id.ABORT → d0.toNat ≠ Id.FILETRANSFER → pd1.file = pd.file ∧ fileOuts o = [] ∧ rb.head? ≠ some (b8 Id.FTSTAT)) ∧
    (d0.toNat = Id.ABORT → rest = [] → pd1.file = (File.abort pd.file).1 ∧ rb.head? ≠ some (b8 Id.FTSTAT)) ∧
    (d0.toNat = Id.FILETRANSFER → ∃ r room o2 st, File.txDecode pd.file env rest = .ok r ∧ r.ok = true ∧ 7 ≤ room ∧
      File.statBuild r.file env room = .ok (pd1.file, o2, st) ∧ fileOuts o = fileOuts (r.outs ++ o2) ∧
      rb = (match st with | some s => b8 Id.FTSTAT :: s | none => [b8 Id.NAK, Nak.RECORD])) := by
  unfold PdM.refresh at h
  rw [hexp, hrec] at h
  have hr0 := hrec
  unfold commanded at h hr0
  rw [hnr, if_neg (by simp)] at h hr0
  obtain ⟨⟨p1, o1, ret⟩, hdis, h⟩ := Res.bind_eq_ok.mp h
  obtain ⟨⟨p2, o2⟩, hfin, h⟩ := Res.bind_eq_ok.mp h
  injection h with h; injection h with e1 e2; subst e1 e2
  rw [hdis] at hr0
  have hout := PdM.dispatch_outcome (p := PdM.noteCmd P d0) hP hdis
  have hkind := PdM.dispatch_kind hdis
  have hno : sent o1 = [] := by
    refine CpM.sent_nil fun o ho bs hb => ?_
    subst hb
    exact (PdM.outcome_same hout).2.2 bs ho
  rw [CpM.sent_append, hno, List.nil_append] at hs
  have hne : o2 ≠ [] := by rintro rfl; cases hs
  have htx : 69 ≤ p1.txBufSize := by
    refine Nat.le_of_not_lt fun hlt => hne (PdM.finish_mute hlt hfin)
  have hp1 : p1.flags.pdMode = true := (congrArg PdM.Config.pdMode (PdM.config_outcome hout)).trans hP
  have hfin' := PdM.finish_inv hp1 hfin
  have hfP : (PdM.noteCmd P d0).file = pd.file := hfile
  clear h hfin
  cases hfin' with
  | keep _ => exact absurd rfl hne
  | reset _ => exact absurd rfl hne
  | @reply q2 _ _ ok hr hsend haft =>
    have ht : (touch p1 ret env.now).replyId = p1.replyId ∧ (touch p1 ret env.now).txBufSize = p1.txBufSize ∧
        (touch p1 ret env.now).file = p1.file := by
      unfold touch; split <;> exact ⟨rfl, rfl, rfl⟩
    obtain ⟨b, hb, hother, hft⟩ := sent_file (by rw [ht.2.1]; exact htx) hsend
    rw [ht.1, ht.2.2] at hother hft
    have hrb' : rb = bodyOr b.body := by
      unfold replyBuilt at hrb
      rw [hexp, hr0] at hrb
      dsimp only at hrb
      rw [hb] at hrb
      injection hrb with hrb; exact hrb.symm
    have hhead : rb.head? = some (b8 p1.replyId) ∨ rb = [b8 Id.NAK, Nak.RECORD] := by
      rw [hrb']
      have hhd := (PdM.replyBody_outcome hb).2
      cases hbd : b.body with
      | ok l => exact .inl (by have := hhd l hbd; rw [← ht.1]; exact this)
      | error k => exact .inr rfl
    have nohead : p1.replyId < 256 → p1.replyId ≠ Id.FTSTAT → rb.head? ≠ some (b8 Id.FTSTAT) := by
      intro h1 h2 h3
      rcases hhead with h | h
      · rw [h] at h3
        injection h3 with h3
        have := congrArg BitVec.toNat h3
        rw [b8_toNat h1] at this
        exact h2 this
      · rw [h] at h3; exact absurd h3 (by decide)
    have haf := PdM.afterSend_file haft
    refine ⟨fun ha hf => ?_, fun ha hrest => ?_, fun hf => ?_⟩
    · have hk : p1.replyId < 256 ∧ p1.replyId ≠ Id.FTSTAT := by
        rcases hkind with h | h | h
        · rw [h.1]; decide
        · have h := h.1
          refine ⟨(replies_lt _ _ h).1, fun hx => ?_⟩
          rw [hx] at h
          have : ∀ c, Id.FTSTAT ∈ Spec.Answer.replies c → c = Id.FILETRANSFER := by
            intro c
            unfold Spec.Answer.replies
            split <;> simp [Id.FTSTAT, Id.FILETRANSFER]
          exact hf (this _ h)
        · rcases hr with hr | hr <;> rw [hr] at h <;> cases h.2.2
      obtain ⟨g1, g2⟩ := hother hk.2
      have hp1f : p1.file = pd.file ∧ fileOuts o1 = [] := by
        rw [← hfP]
        cases hout with
        | plain hpl hsp =>
          refine ⟨by obtain ⟨_, _, h⟩ := hpl.quiet; rw [h]; rfl, fileOuts_none fun o ho => ?_⟩
          obtain ⟨c, rfl, -⟩ := hpl.outs o ho; rfl
        | poll h1 h2 => refine ⟨?_, rfl⟩; unfold PdM.pollEvent; split <;> rfl
        | abort h1 _ => exact absurd h1 ha
        | file h1 _ => exact absurd h1 hf
        | _ => exact ⟨rfl, rfl⟩
      exact ⟨haf.trans (g1.trans hp1f.1), by rw [fileOuts_append, hp1f.2, g2]; rfl, nohead hk.1 hk.2⟩
    · have hid : (PdM.noteCmd P d0).cmdId = Id.ABORT := ha
      have hp : p1.file = (File.abort pd.file).1 ∧ p1.replyId = Id.ACK := by
        unfold PdM.dispatch at hdis
        dsimp only at hdis
        rw [hid] at hdis
        iterate 15 (rw [if_neg (by decide)] at hdis)
        rw [if_pos rfl, if_neg (by simp [hrest])] at hdis
        obtain ⟨rfl, -, -⟩ := PdM.reply_inv hdis
        exact ⟨by rw [← hfP]; rfl, rfl⟩
      obtain ⟨g1, g2⟩ := hother (by rw [hp.2]; decide)
      exact ⟨haf.trans (g1.trans hp.1), nohead (by rw [hp.2]; decide) (by rw [hp.2]; decide)⟩
    · have hid : (PdM.noteCmd P d0).cmdId = Id.FILETRANSFER := hf
      unfold PdM.dispatch at hdis
      dsimp only at hdis
      rw [hid] at hdis
      iterate 16 (rw [if_neg (by decide)] at hdis)
      rw [if_pos rfl] at hdis
      obtain ⟨r, hdec, hdis⟩ := Res.bind_eq_ok.mp hdis
      rw [hfP] at hdec
      replace hdis := ite_inv hdis
      rcases hdis with ⟨hok, hdis⟩ | ⟨-, hdis⟩
      · obtain ⟨e1, e2, e3⟩ := PdM.reply_inv hdis
        have hp1f : p1.file = r.file := by rw [e1]; rfl
        have hp1r : p1.replyId = Id.FTSTAT := by rw [e1]; rfl
        obtain ⟨room, o3, st, k1, k2, k3, k4⟩ := hft hp1r
        rw [hp1f, ← haf] at k2
        exact ⟨r, room, o3, st, hdec, hok, k1, k2, by rw [fileOuts_append, fileOuts_append, k3, e2], hrb'.trans k4⟩
      · injection hdis with hdis; injection hdis with _ hdis; injection hdis with _ e3
        rcases hr with hr | hr <;> rw [hr] at e3 <;> cases e3

/-- The command is answered. -/
theorem Asked.files {s : Bool} {C : Cipher} {cp pd pd1 : Pd} {bs body bs' rb : List Byte} {env : Env} {o : List Out} (A : Asked s C cp pd bs body)
    (ha : Arrives env bs) (hexp : expire pd env.now = pd) (h : PdM.refresh C pd env = .ok (pd1, o)) (hs : sent o = [bs'])
    (hrb : replyBuilt C pd env = some rb) :
    ∃ d0 rest, body = d0 :: rest ∧
    (d0.toNat ≠ Id.ABORT → d0.toNat ≠ Id.FILETRANSFER → pd1.file = pd.file ∧ fileOuts o = [] ∧ rb.head? ≠ some (b8 Id.FTSTAT)) ∧
    (d0.toNat = Id.ABORT → rest = [] → pd1.file = (File.abort pd.file).1 ∧ rb.head? ≠ some (b8 Id.FTSTAT)) ∧
    (d0.toNat = Id.FILETRANSFER → ∃ r room o2 st, File.txDecode pd.file env rest = .ok r ∧ r.ok = true ∧ 7 ≤ room ∧
      File.statBuild r.file env room = .ok (pd1.file, o2, st) ∧ fileOuts o = fileOuts (r.outs ++ o2) ∧
      rb = (match st with | some s => b8 Id.FTSTAT :: s | none => [b8 Id.NAK, Nak.RECORD])) := by
  obtain ⟨c0, E, hbs, hfit, hact, hs0, hs3, hse, hcs, haddr, hsc⟩ := A.sender
  cases hb : body with
  | nil => rcases A.cmd with h | ⟨_, h⟩ <;> rw [hb] at h <;> cases h
  | cons d0 rest =>
    rw [hbs] at hfit ha
    obtain ⟨hh, sc, hH, -, hrec, hpa, hss, hsc'⟩ := command_read C c0 pd env body d0 rest hb E A.pdIdle hfit (by omega) (by omega) (.inl hse) (by omega) ha
    have hactP : (reload (Phy.setSc (Phy.pdAccept pd (Phy.seqBits (Phy.nextSeq c0.seq true)) false) sc) hh).scActive = s := hpa.trans hact
    have hnr : PdM.plainRefused (PdM.noteCmd (reload (Phy.setSc (Phy.pdAccept pd (Phy.seqBits (Phy.nextSeq c0.seq true)) false) sc) hh) d0) = false := by
      exact not_refused hactP fun hs => (A.clear hs).2
    exact ⟨d0, rest, rfl, pd_files (P := reload (Phy.setSc (Phy.pdAccept pd (Phy.seqBits (Phy.nextSeq c0.seq true)) false) sc) hh)
      E.pdMode rfl hexp hrec hnr h hs hrb⟩

/-- composing a command, as far as the file transfer goes -/
theorem built_file {C : Cipher} {p : Pd} {env : Env} {room : Int} {b : CpM.Built}
    (hb : CpM.commandBody C (nextCmd p) env (cmdTx p) room = .ok b) :
    (p.cmdId ≠ Id.FILETRANSFER → b.p.file = p.file) ∧ (p.cmdId = Id.ABORT → b.body = some [b8 Id.ABORT]) ∧
    (p.cmdId = Id.FILETRANSFER → ∃ r, File.txBuild p.file env room = .ok (b.p.file, b.outs, r) ∧
      b.body = some (match r with | some l => b8 Id.FILETRANSFER :: l | none => [b8 Id.ABORT])) := by
  refine ⟨fun hn => ((CpM.commandBody_outcome hb).quiet hn).2, fun hid => ?_, fun hid => ?_⟩
  · have hid' : (nextCmd p).cmdId = Id.ABORT := hid
    unfold CpM.commandBody at hb
    dsimp only at hb
    rw [hid'] at hb
    iterate 10 (rw [if_neg (by decide)] at hb)
    rw [if_pos rfl] at hb
    injection hb with hb; subst hb; rfl
  · have hid' : (nextCmd p).cmdId = Id.FILETRANSFER := hid
    unfold CpM.commandBody at hb
    dsimp only at hb
    rw [hid'] at hb
    iterate 11 (rw [if_neg (by decide)] at hb)
    rw [if_pos rfl] at hb
    obtain ⟨⟨f, o, r⟩, h1, h2⟩ := Res.bind_eq_ok.mp hb
    refine ⟨r, h1.trans ?_, ?_⟩ <;> cases r <;> (injection h2 with h2; subst h2; rfl)

/-- A command is sent. -/
theorem command_files {C : Cipher} {cp cp1 : Pd} {cb : Bool} {env : Env} {o : List Out} {bs body : List Byte} (I : CpM.Inv cp)
    (hps : cp.phyState = .sendCmd) (h : CpM.step C cp (.update cb env) = .ok (cp1, o)) (hcap : 256 ≤ env.sendCap) (hs : sent o = [bs])
    (hh : cp.cmdId ≠ Id.CHLNG ∧ cp.cmdId ≠ Id.SCRYPT) (hbody : commandBuilt C cp env = some body) :
    (cp.cmdId ≠ Id.FILETRANSFER → cp1.file = cp.file) ∧ (cp.cmdId = Id.ABORT → body = [b8 Id.ABORT]) ∧
    (cp.cmdId = Id.FILETRANSFER → ∃ room o r, room ≤ 256 ∧ File.txBuild cp.file env room = .ok (cp1.file, o, r) ∧
      body = (match r with | some l => b8 Id.FILETRANSFER :: l | none => [b8 Id.ABORT])) := by
  obtain ⟨⟨s1, o1, y⟩, hu, h1⟩ := Res.bind_eq_ok.mp h
  injection h1 with h1; injection h1 with e1 e2; subst e1 e2
  have hne : sent o1 ≠ [] := by rw [hs]; simp
  have hu := CpM.stateUpdate_inv I.cp hu
  have hle : cp.txBufSize ≤ 256 := by unfold Pd.txBufSize; split <;> omega
  clear h
  cases hu with
  | hold h _ => rw [hps] at h; cases h
  | @sent p1 _ hm ho =>
    cases ho with
    | built b l _ outs _ hm' hb hc hl hln hsend hw hbuf =>
      have hf : (CpM.sentState p1 env.now).file = b.p.file := (show (CpM.sentState p1 env.now).file = p1.file from rfl).trans (PdM.sending_file hsend)
      obtain ⟨g1, g2, g3⟩ := built_file hb
      have hbl : b.body = some body := by
        unfold commandBuilt at hbody
        rw [hb] at hbody
        exact hbody
      rw [hbl] at g2 g3
      rw [hf]
      refine ⟨g1, fun h => by have := g2 h; injection this, fun h => ?_⟩
      obtain ⟨r, k1, k2⟩ := g3 h
      injection k2 with k2
      exact ⟨_, _, r, by omega, k1, k2⟩
  | unsent _ ho hset =>
    rw [CpM.sent_append, CpM.settle_sent hset, List.append_nil] at hne
    have := (outcome_sent hh ho hcap hne).1
    cases this
  | replied h _ _ _ => rw [hps] at h; cases h
  | again h _ => rw [hps] at h; cases h
  | waiting h _ => rw [hps] at h; cases h
  | idle h _ => rcases h with h | h | h <;> (rw [hps] at h; cases h)

theorem waited_file {C : Cipher} {p q : Pd} {env : Env} {outs : List Out} {rc : CpM.CpErr} (h : CpM.Waited C p env q outs rc) :
    (∃ q' rc', CpM.Reply C p env q' outs rc' ∧ q.file = q'.file) ∧ (rc = .none ∨ rc = .generic → q.phyState = .done ∨ q.phyState = .err) := by
  cases h with
  | answered h => exact ⟨⟨_, _, h, rfl⟩, fun _ => .inl rfl⟩
  | ignored h _ _ => exact ⟨⟨_, _, h, rfl⟩, fun _ => .inl rfl⟩
  | failed h _ => exact ⟨⟨_, _, h, rfl⟩, fun _ => .inr rfl⟩
  | busy h => exact ⟨⟨_, _, h, rfl⟩, fun h => by rcases h with h | h <;> cases h⟩
  | retry h _ _ => exact ⟨⟨_, _, h, rfl⟩, fun h => by rcases h with h | h <;> cases h⟩
  | exhausted h _ _ => exact ⟨⟨_, _, h, rfl⟩, fun _ => .inr rfl⟩
  | waiting h _ => exact ⟨⟨_, _, h, rfl⟩, fun h => by rcases h with h | h <;> cases h⟩

/-- A reply is heard. -/
theorem reply_files {C : Cipher} {cp cp1 : Pd} {cb : Bool} {env : Env} {o : List Out} {r0 : Byte} {body : List Byte} (I : CpM.Inv cp)
    (hr : CpM.replyOf C cp env = some (r0, body)) (h : CpM.step C cp (.update cb env) = .ok (cp1, o)) :
    (r0.toNat ≠ Id.FTSTAT → cp1.file = cp.file) ∧
    (r0.toNat = Id.FTSTAT → ∃ r, File.statDecode cp.file env body = .ok r ∧ cp1.file = r.file) := by
  obtain ⟨⟨s1, o1, y⟩, hu, h1⟩ := Res.bind_eq_ok.mp h
  injection h1 with h1; injection h1 with e1 e2; subst e1 e2
  have hps : cp.phyState = .replyWait := by
    unfold CpM.replyOf at hr
    split at hr
    · assumption
    · cases hr
  have hu := CpM.stateUpdate_inv I.cp hu
  constructor
  · intro hn
    cases hu.file I with
    | same h _ _ => exact h
    | built room o r hm _ _ _ _ _ => rcases hm with h | ⟨h, -⟩ <;> (rw [hps] at h; cases h)
    | heard id body r h hid _ _ _ =>
      rw [hr] at h; injection h with h; injection h with h _; subst h
      exact absurd hid hn
    | chosen o n h _ _ _ _ _ _ => rw [hps] at h; cases h
  · intro hid
    have wait : ∀ {q : Pd} {o : List Out} {rc : CpM.CpErr}, CpM.Waited C cp env q o rc →
        ∃ r, File.statDecode cp.file env body = .ok r ∧ q.file = r.file := by
      intro q o rc hw
      obtain ⟨⟨q', rc', hR, hf⟩, -⟩ := waited_file hw
      unfold CpM.replyOf at hr
      rw [if_pos hps] at hr
      rcases hR.learned with ⟨-, -, h⟩ | ⟨id, bd, p2, h, ht, hresp, -⟩
      · rw [hr] at h; cases h
      · rw [hr] at h; injection h with h; injection h with e1 e2; subst e1 e2
        unfold CpM.response at hresp
        dsimp only at hresp
        rw [hid] at hresp
        iterate 13 (first | rw [if_pos rfl] at hresp | rw [if_neg (by decide)] at hresp)
        obtain ⟨r, h1, h2⟩ := Res.bind_eq_ok.mp hresp
        have : p2.file = cp.file := PdM.transp_file ht
        refine ⟨r, by rw [← this]; exact h1, ?_⟩
        rw [hf]
        injection h2 with h2; injection h2 with e1 _
        rw [← e1]
    cases hu with
    | replied _ hw hrc hset =>
      obtain ⟨r, h1, h2⟩ := wait hw
      exact ⟨r, h1, (CpM.settle_file ((waited_file hw).2 hrc) hset).1.trans h2⟩
    | again _ hw => exact wait hw
    | waiting _ hw => exact wait hw
    | hold hx _ => rw [hps] at hx; cases hx
    | sent hm _ => rcases hm with h | ⟨h, -⟩ <;> (rw [hps] at h; cases h)
    | unsent hm _ _ => rcases hm with h | ⟨h, -⟩ <;> (rw [hps] at h; cases h)
    | idle hx _ => rcases hx with h | h | h <;> (rw [hps] at h; cases h)

end Link
end Osdp
