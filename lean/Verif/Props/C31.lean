import Verif.Props.C30
import Verif.Props.C39
import Verif.Props.C57
import Verif.Lemmas.CpResend

/-!
# C31: Events arrive at the CP application exactly as the PD application reported them
-/

namespace Osdp.Link

open Phy PdM CpM
open Spec.Wire (Packet sent)
open Spec.Event (Reads MaskOf)

/-- A POLL is about to be sent by a CP that is online, in plain text or within a secure channel, to a PD in whose queue the event
`e` is next; the CP knows how many inputs and outputs the PD has (C32). -/
structure Polls (C : Cipher) (info : PdM.Info) (cp pd : Pd) (e : Event) : Prop where
  reached : CpM.Reached C info cp
  online : cp.state = .online
  send : cp.phyState = .sendCmd
  cmd : cp.cmdId = Id.POLL
  ends : Ends cp pd
  cpIdle : Idle cp
  pdIdle : Idle pd
  bc : pd.flags.broadcast = false
  pdSeq : -1 ≤ pd.seq ∧ pd.seq ≤ 3
  seq : cp.seq = pd.seq ∨ cp.seq = -1
  seqSc : cp.scActive = true → cp.seq ≠ -1
  queue : pd.eventQueue.head? = some e
  inputs : (cp.cap 1).numItems = (pd.cap 1).numItems
  outputs : (cp.cap 2).numItems = (pd.cap 2).numItems

/-! ### encoding and reading -/

theorem mask_flags (n : Nat) (m : BitVec 32) (hn : n ≤ 32) : MaskOf (Spec.Event.flags n m) (m &&& BitVec.ofNat 32 (2 ^ n - 1)) := by
  intro i hi
  have h1 : (BitVec.ofNat 32 (2 ^ n - 1)).getLsbD i = decide (i < n) := by
    rw [BitVec.getLsbD_ofNat, decide_eq_true hi, Bool.true_and, Nat.testBit_two_pow_sub_one]
  rw [BitVec.getLsbD_and, h1]
  unfold Spec.Event.flags
  by_cases h : i < n
  · rw [List.getElem?_map, List.getElem?_range h]
    show _ = ((if m.getLsbD i = true then 1#8 else 0#8) != 0#8)
    rw [decide_eq_true h]
    cases m.getLsbD i <;> rfl
  · rw [List.getElem?_map, List.getElem?_eq_none (by simp; omega)]
    show _ = false
    rw [decide_eq_false h]; simp

theorem cut_take {n k : Nat} (d : Bytes n) (hk : k ≤ n) : (Spec.Event.cut k d).1 = d.1.take k ++ List.replicate (n - (d.1.take k).length) 0#8 := by
  have := d.2
  show (d.1.take k).take n ++ _ = _
  rw [List.take_take, Nat.min_eq_right hk]

theorem encode_reads {i o : Nat} {e : Event} (hv : Spec.Event.Valid i o e) :
    ∃ id rest, Spec.Event.encode e = id :: rest ∧ Reads id.toNat rest (Spec.Event.carried e) ∧
      (id.toNat = Id.ISTATR → rest.length = i) ∧ (id.toNat = Id.OSTATR → rest.length = o) ∧ id ≠ b8 Id.BUSY := by
  cases e with
  | cardread c =>
    obtain ⟨hf, hr1, hr2, h1, h2⟩ := hv
    have hd := c.data.2
    refine ⟨_, _, rfl, ?_, fun h => absurd h (by decide), fun h => absurd h (by decide), by decide⟩
    refine Reads.card _ _ _ _ _ _ ?_ ?_ rfl ?_ ?_ ?_
    · show c.readerNo = _
      rw [BitVec.toNat_ofInt]; omega
    · show c.format = _
      rcases hf with h | h <;> rw [h] <;> rfl
    · show c.length = _
      simp only [BitVec.toNat_ofNat]; omega
    · show (c.data.1.take ((c.length.toNat + 7) / 8)).length = _
      simp only [BitVec.toNat_ofNat, List.length_take, hd]; omega
    · exact cut_take c.data (by omega)
  | keypress k =>
    obtain ⟨hr1, hr2, h1, h2⟩ := hv
    have hd := k.data.2
    refine ⟨_, _, rfl, ?_, fun h => absurd h (by decide), fun h => absurd h (by decide), by decide⟩
    refine Reads.keys _ _ _ _ ?_ ?_ ?_ ?_
    · show k.readerNo = _
      rw [BitVec.toNat_ofInt]; omega
    · show k.length = _
      rw [BitVec.toNat_ofInt]; omega
    · show (k.data.1.take k.length.toNat).length = _
      rw [BitVec.toNat_ofInt, List.length_take, hd]; omega
    · exact cut_take k.data (by omega)
  | mfgrep m =>
    obtain ⟨hvn, h2⟩ := hv
    have hd := m.data.2
    refine ⟨_, _, rfl, ?_, fun h => absurd h (by decide), fun h => absurd h (by decide), by decide⟩
    refine Reads.mfg _ _ _ _ _ _ ?_ rfl ?_ ?_
    · show m.vendor.toNat = _
      simp only [BitVec.toNat_ofNat]; omega
    · show m.length.toNat = (m.data.1.take m.length.toNat).length
      rw [List.length_take, hd]; omega
    · exact cut_take m.data (by omega)
  | status s =>
    obtain ⟨ty, n, m⟩ := s
    cases ty with
    | other => exact hv.elim
    | input =>
      obtain ⟨h1, h2⟩ := hv
      dsimp only at h1
      subst h1
      refine ⟨0x49#8, _, rfl, ?_, fun _ => by simp [Spec.Event.flags, Spec.Event.entries], fun h => absurd h (by decide), by decide⟩
      have hl : (Spec.Event.flags (Spec.Event.entries ⟨.input, (i : Int), m⟩) m).length = Spec.Event.entries ⟨.input, (i : Int), m⟩ := by
        simp [Spec.Event.flags]
      have := Reads.inputs _ _ (mask_flags (Spec.Event.entries ⟨.input, (i : Int), m⟩) m (by simp [Spec.Event.entries]; omega)) (by rw [hl]; simp [Spec.Event.entries]; omega)
      rw [hl] at this
      exact this
    | output =>
      obtain ⟨h1, h2⟩ := hv
      dsimp only at h1
      subst h1
      refine ⟨0x4A#8, _, rfl, ?_, fun h => absurd h (by decide), fun _ => by simp [Spec.Event.flags, Spec.Event.entries], by decide⟩
      have hl : (Spec.Event.flags (Spec.Event.entries ⟨.output, (o : Int), m⟩) m).length = Spec.Event.entries ⟨.output, (o : Int), m⟩ := by
        simp [Spec.Event.flags]
      have := Reads.outputs _ _ (mask_flags (Spec.Event.entries ⟨.output, (o : Int), m⟩) m (by simp [Spec.Event.entries]; omega)) (by rw [hl]; simp [Spec.Event.entries]; omega)
      rw [hl] at this
      exact this
    | localStat => exact ⟨0x48#8, _, rfl, Reads.device _ _ _ (mask_flags 2 m (by decide)), fun h => absurd h (by decide), fun h => absurd h (by decide), by decide⟩
    | remote => exact ⟨0x4B#8, _, rfl, Reads.reader _ _ (mask_flags 1 m (by decide)), fun h => absurd h (by decide), fun h => absurd h (by decide), by decide⟩
  | notification _ _ _ => exact hv.elim
  | bad _ => exact hv.elim

/-! ### the exchange -/

theorem eventReply_ne {i o : Nat} {e : Event} (hv : Spec.Event.Valid i o e) : eventReply e ≠ Id.ACK := by
  cases e with
  | cardread c => rcases hv.1 with h | h <;> (unfold eventReply; dsimp only; rw [h]; decide)
  | keypress => show Id.KEYPAD ≠ _; decide
  | mfgrep => show Id.MFGREP ≠ _; decide
  | status s =>
    obtain ⟨ty, m, n⟩ := s
    cases ty with
    | other => exact hv.elim
    | _ => first | (show Id.ISTATR ≠ _; decide) | (show Id.OSTATR ≠ _; decide) | (show Id.LSTATR ≠ _; decide) | (show Id.RSTATR ≠ _; decide)
  | notification => exact hv.elim
  | bad => exact hv.elim

theorem replyTx_dataOff (p : Pd) : (replyTx p).dataOff ≤ 9 := by
  unfold Tx.dataOff replyTx
  dsimp only
  split <;> split <;> (try split) <;> simp

/-- The body of the answer to a POLL, with an event in the queue. -/
theorem event_answer {C : Cipher} {P pd : Pd} {env : Env} {e : Event} {rest : List Event} {rb : List Byte}
    (hexp : expire pd env.now = pd) (hrec : PdM.receiveAndProcess C pd env = commanded P env 0x60#8 [])
    (hnr : PdM.plainRefused (PdM.noteCmd P 0x60#8) = false) (hq : P.eventQueue = e :: rest)
    (hv : Spec.Event.Valid (ins P) (outsN P) e) (htx : 143 ≤ P.txBufSize) (hrb : replyBuilt C pd env = some rb) :
    rb = Spec.Event.encode e := by
  unfold replyBuilt at hrb
  rw [hexp, hrec] at hrb
  unfold commanded at hrb
  rw [hnr, if_neg (by simp)] at hrb
  have hpe : pollEvent (noteCmd P 0x60#8) = { noteCmd P 0x60#8 with eventQueue := rest, eph := .event e, replyId := eventReply e } := by
    unfold pollEvent
    have : (noteCmd P 0x60#8).eventQueue = e :: rest := hq
    rw [this]
    dsimp only
    rw [if_neg (eventReply_ne hv)]
  have hd : dispatch (noteCmd P 0x60#8) env [] =
      .ok ({ noteCmd P 0x60#8 with eventQueue := rest, eph := .event e, replyId := eventReply e }, [], .none) := by
    have hd : dispatch (noteCmd P 0x60#8) env [] = reply (pollEvent (noteCmd P 0x60#8)) (pollEvent (noteCmd P 0x60#8)).replyId := rfl
    rw [hd, hpe]; rfl
  rw [hd] at hrb
  dsimp only at hrb
  generalize hX : touch { noteCmd P 0x60#8 with eventQueue := rest, eph := .event e, replyId := eventReply e } PdRet.none env.now = X at hrb
  have hXf : X.cap = P.cap ∧ X.eph = .event e ∧ X.replyId = eventReply e ∧ X.txBufSize = P.txBufSize := by
    rw [← hX]; unfold touch; split <;> exact ⟨rfl, rfl, rfl, rfl⟩
  have hlen := PdM.encode_length _ _ _ hv
  have := replyTx_dataOff X
  rw [event_built C (unbc X) env (replyTx X) _ e (by unfold ins outsN at *; show Spec.Event.Valid ((X.cap 1).numItems.toNat) ((X.cap 2).numItems.toNat) e; rw [hXf.1]; exact hv)
    hXf.2.2.1 hXf.2.1 (by rw [hXf.2.2.2]; omega)] at hrb
  injection hrb with hrb
  exact hrb.symm

/-- **C31**, for raw card reads, key presses, status reports and manufacturer replies, if the CP did not announce a receive buffer
of less than 143 bytes.  Whatever is sent and arrives, the CP's application gets exactly one event, and it is the one the PD's
application gave, in every field that the reply carries.  Missing: card reads in ASCII format, which the PD never sends
(`C31_ascii`). -/
theorem C31_partial (C : Cipher) (info : PdM.Info) (cp cp1 cp2 pd pd1 : Pd) (e : Event) (cb : Bool) (e1 e2 e3 : Env) (o1 o2 o3 : List Out)
    (bs bs2 : List Byte) (S : Polls C info cp pd e) (hv : Spec.Event.Valid (ins pd) (outsN pd) e) (htx : 143 ≤ pd.txBufSize)
    (hc1 : 256 ≤ e1.sendCap) (hc2 : 256 ≤ e2.sendCap) (hexp : expire pd e2.now = pd)
    (henf : pd.flags.enforceSecure = true → pd.scActive = true)
    (h1 : CpM.step C cp (.update cb e1) = .ok (cp1, o1)) (hs1 : sent o1 = [bs]) (ha1 : Arrives e2 bs)
    (h2 : PdM.step C pd (.refresh e2) = .ok (pd1, o2)) (hs2 : sent o2 = [bs2]) (ha2 : Arrives e3 bs2)
    (h3 : CpM.step C cp1 (.update true e3) = .ok (cp2, o3)) : pdEvents o3 = [Spec.Event.carried e] := by
  have I := S.reached.inv
  have E := S.ends
  obtain ⟨rest, hq⟩ : ∃ rest, pd.eventQueue = e :: rest := by
    have := S.queue
    cases hc : pd.eventQueue with
    | nil => rw [hc] at this; cases this
    | cons a l => rw [hc] at this; injection this with this; subst this; exact ⟨l, rfl⟩
  obtain ⟨f, buf, body, hb, -, hbs, hfit, hcp1, hbl⟩ := command_sent I S.send (by rw [S.cmd]; decide) h1 hc1 hs1
  have hbody : body = [0x60#8] := by
    unfold commandBuilt at hb
    split at hb
    · rename_i b hbb
      unfold commandBody at hbb
      dsimp only at hbb
      rw [if_pos (.inl S.cmd)] at hbb
      obtain ⟨_, -, hbb⟩ := Res.bind_eq_ok.mp hbb
      injection hbb with hbb; subst hbb
      injection hb with hb; rw [← hb]
      show [b8 cp.cmdId] = _
      rw [S.cmd]; rfl
    · cases hb
  subst hbody
  rw [hbs] at hfit ha1
  obtain ⟨hh, sc, hH, -, hrec, hpa, hss, hsc'⟩ := command_read C cp pd e2 [0x60#8] 0x60#8 [] rfl E S.pdIdle hfit ⟨I.lo, I.hi⟩ S.pdSeq S.seq S.seqSc ha1
  generalize hP : reload (setSc (pdAccept pd (Phy.seqBits (Phy.nextSeq cp.seq true)) false) sc) hh = P at hrec
  have hPa : P.scActive = cp.scActive := by rw [← hP]; exact hpa
  have hnr : PdM.plainRefused (PdM.noteCmd P 0x60#8) = false := by
    unfold PdM.plainRefused
    show (P.flags.enforceSecure && !P.scActive && _ && _ && _ && _) = false
    have : P.flags.enforceSecure = pd.flags.enforceSecure := by rw [← hP]; rfl
    cases he : pd.flags.enforceSecure with
    | false => rw [this, he]; rfl
    | true => rw [hPa, ← E.act, henf he]; simp
  obtain ⟨q, n, rb, q2, hS, hrid, hR, hrb, hbs', hpd1⟩ := pd_answers (P := P) (by rw [← hP]; exact E.pdMode) hexp hrec hnr (by decide) (by decide) h2 hc2 hs2
  have hrbe : rb = Spec.Event.encode e :=
    event_answer (e := e) (rest := rest) hexp hrec hnr (by rw [← hP]; exact hq) (by rw [← hP]; exact hv) (by rw [← hP]; exact htx) hrb
  subst hrbe
  obtain ⟨id, body, he, hread, hin, hout, hbusy⟩ := encode_reads hv
  have hqa : q.scActive = cp.scActive := by show q.flags.scActive = _; rw [hS.flags]; exact hPa
  have hcs : cp1.scActive = cp.scActive := by rw [hcp1]; rfl
  have hqE : Ends cp1 q := by
    refine ⟨by rw [hcp1]; exact E.cpMode, ?_, ?_, ?_, by rw [hqa, hcs], ?_, ?_⟩
    · rw [hS.flags, ← hP]; exact E.pdMode
    · rw [hcp1, hS.address, ← hP]; exact E.address
    · rw [hS.address, ← hP]; exact E.range
    · intro ha
      rw [hS.sc, hcp1, ← hP]
      exact (hss (by rw [← hcs]; exact ha)).meets
    · intro ha
      unfold Pd.scCapable
      rw [hS.flags, ← hP]
      exact E.capable (by rw [E.act, ← hqa]; exact ha)
  have hidle : Idle cp1 := ⟨by rw [hcp1]; rfl, by rw [hcp1]; rfl, by rw [hcp1]; exact hbl.trans S.cpIdle.buf, by rw [hcp1]; exact S.cpIdle.rx⟩
  have hqbc : q.flags.broadcast = false := by
    rw [hS.flags, ← hP]
    show (pd.flags.broadcast || false) = false
    rw [S.bc]; rfl
  have hqs : Phy.seqBits q.seq = Phy.seqBits cp1.seq := by
    rw [hS.seq, hcp1, ← hP]
    show Phy.seqBits ((Phy.seqBits (Phy.nextSeq cp.seq true) : Nat) : Int) = Phy.seqBits (Phy.nextSeq cp.seq true)
    unfold Phy.seqBits; omega
  rw [hbs'] at ha2
  obtain ⟨hheard, -⟩ := reply_read C q cp1 e3 n (Spec.Event.encode e) id body he hqE (fun ha => by
      rw [hS.sc, hcp1, ← hP]
      exact (hss (by rw [← hcs]; exact ha)).cMac) hidle hqbc hR.fits hqs hbusy ha2
  refine C57_delivered C info cp1 cp2 e3 o3 id body _ (S.reached.step h1) (by rw [hcp1]; exact S.online) ?_ hread ?_ h3
  · unfold replyOf
    rw [if_pos (by rw [hcp1]; rfl)]
    exact hheard
  · have hcap : cp1.cap = cp.cap := by rw [hcp1]; rfl
    constructor
    · intro h
      show body.length = (cp1.cap 1).numItems.toNat
      rw [hcap, S.inputs]
      exact hin h
    · intro h
      show body.length = (cp1.cap 2).numItems.toNat
      rw [hcap, S.outputs]
      exact hout h

/-! ### examples and witness -/

theorem cpDoes_reached {C : Cipher} {info : PdM.Info} {t : Sample.Talk} (h : CpM.Reached C info t.cp) (op : CpM.Op) : CpM.Reached C info (t.cpDoes C op).cp := by
  unfold Sample.Talk.cpDoes
  split
  · rename_i hs; exact h.step hs
  · exact h

theorem pdDoes_cp (C : Cipher) (t : Sample.Talk) (op : PdM.Op) : (t.pdDoes C op).cp = t.cp := by
  unfold Sample.Talk.pdDoes; split <;> rfl

theorem turns_reached {C : Cipher} {info : PdM.Info} {dt : Int} : ∀ (n : Nat) (t : Sample.Talk), CpM.Reached C info t.cp → CpM.Reached C info (t.turns C dt n).cp
  | 0, _, h => h
  | n + 1, t, h => by
    refine turns_reached n _ ?_
    show CpM.Reached C info (Sample.Talk.pdDoes C _ _).cp
    rw [pdDoes_cp]
    exact cpDoes_reached h _

/-- the application of the sample PD reports an event within a secure channel; a POLL is about to be sent -/
def reporting (e : Event) : Sample.Talk := settled.pdDoes xorCipher (.notify e)

theorem reporting_reached (e : Event) : CpM.Reached xorCipher Sample.pdInfo (reporting e).cp := by
  unfold reporting
  rw [pdDoes_cp]
  exact turns_reached _ _ (Sample.cp_reached (C := xorCipher) (ops := []) rfl)

/-- a card read of 26 bits; the unused bytes hold something -/
def badge : Event := .cardread ⟨1, .rawWiegand, 1, 26, .fill 64 0x5A#8⟩

theorem badge_polls : Polls xorCipher Sample.pdInfo (reporting badge).cp (reporting badge).pd badge :=
  ⟨reporting_reached _, by decide +kernel, by decide +kernel, by decide +kernel,
    ⟨by decide +kernel, by decide +kernel, by decide +kernel, ⟨by decide +kernel, by decide +kernel⟩, by decide +kernel,
      fun _ => ⟨by decide +kernel, by decide +kernel, by decide +kernel, by decide +kernel⟩, by decide +kernel⟩,
    ⟨by decide +kernel, by decide +kernel, by decide +kernel, by decide +kernel⟩,
    ⟨by decide +kernel, by decide +kernel, by decide +kernel, by decide +kernel⟩, by decide +kernel, ⟨by decide +kernel, by decide +kernel⟩,
    .inl (by decide +kernel), by decide +kernel, by decide +kernel, by decide +kernel, by decide +kernel⟩

-- the badge reaches the application of the CP: 4 bytes of data, no direction
example : (reporting badge).cp.scActive = true ∧ 143 ≤ (reporting badge).pd.txBufSize ∧
    Spec.Event.Valid (ins (reporting badge).pd) (outsN (reporting badge).pd) badge ∧
    pdEvents ((reporting badge).turns xorCipher 20 3).cpOuts = [.cardread ⟨1, .rawWiegand, 0, 26, .padTo 64 [0x5A, 0x5A, 0x5A, 0x5A]⟩] :=
  ⟨by decide +kernel, by decide +kernel, ⟨.inr rfl, by decide, by decide, by decide, by decide⟩, by decide +kernel⟩

-- key presses, a status report and a manufacturer reply of 128 bytes
example : pdEvents ((reporting (.keypress ⟨0, 3, .fill 64 0x31#8⟩)).turns xorCipher 20 3).cpOuts = [.keypress ⟨0, 3, .padTo 64 [0x31, 0x31, 0x31]⟩] ∧
    pdEvents ((reporting (.status ⟨.input, 2, 0xFFFF⟩)).turns xorCipher 20 3).cpOuts = [.status ⟨.input, 2, 3⟩] ∧
    pdEvents ((reporting (.mfgrep ⟨0x123456, 7, 128, .fill 128 0x42#8⟩)).turns xorCipher 20 3).cpOuts = [.mfgrep ⟨0x123456, 7, 128, .fill 128 0x42#8⟩] := by
  refine ⟨by decide +kernel, by decide +kernel, by decide +kernel⟩

/-- **C31 fails** for card reads in ASCII format: the PD takes the event (result 0), and forgets it; ten turns later the CP's
application has seen nothing and the queue of the PD is empty. -/
theorem C31_ascii : (notifyEvent settled.pd (.cardread ⟨0, .ascii, 0, 3, .padTo 64 [0x41, 0x42, 0x43]⟩)).2 = 0 ∧
    pdEvents ((reporting (.cardread ⟨0, .ascii, 0, 3, .padTo 64 [0x41, 0x42, 0x43]⟩)).turns xorCipher 20 10).cpOuts = [] ∧
    ((reporting (.cardread ⟨0, .ascii, 0, 3, .padTo 64 [0x41, 0x42, 0x43]⟩)).turns xorCipher 20 10).pd.eventQueue = [] ∧
    ((reporting (.cardread ⟨0, .ascii, 0, 3, .padTo 64 [0x41, 0x42, 0x43]⟩)).turns xorCipher 20 10).cp.state = .online := by
  refine ⟨by decide +kernel, by decide +kernel, by decide +kernel, by decide +kernel⟩

end Osdp.Link
