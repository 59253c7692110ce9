import Verif.Lemmas.CpFile
import Verif.Lemmas.CpSendSc
import Verif.Lemmas.SampleFile
import Verif.Spec.FileLog
import Verif.Props.C05

/-!
# C52: the sender of a file asks for what it can send

The reads a CP makes of the file it sends: how many bytes are asked for, where, and whether the packet made of them can be sent.
-/

namespace Osdp.CpM

open Spec.FileLog (xfer)
open Spec.Announce (Fits)

theorem mem_fileOuts {o : Out} {outs : List Out} (hm : o ∈ outs) (h : isFileOp o = true) : o ∈ fileOuts outs :=
  List.mem_filter.mpr ⟨hm, h⟩

/-- **C52, reads.**  Whatever the history of a CP, a read it makes in the next call asks for at least 33 bytes, and at the offset which
`osdp_get_file_tx_status` reports. -/
theorem C52_reads (C : Cipher) (info : PdM.Info) (q s : Pd) (op : Op) (o : List Out) (n off : Int) (hq : Reached C info q)
    (hs : step C q op = .ok (s, o)) (hr : Out.fread n off ∈ o) :
    33 ≤ n ∧ ∃ size cur, File.txStatus q.file = .ok (some (size, cur)) ∧ off = toI32 cur := by
  by_cases hop : ∀ cb env, op ≠ .update cb env
  · exfalso
    cases op with
    | update cb env => exact hop cb env rfl
    | send env c =>
      injection hs with hs; injection hs with e1 e2; subst e1 e2
      obtain ⟨a, b, h⟩ := sendPd_outs _ hr
      cases h
    | _ => injection hs with hs; injection hs with e1 e2; subst e2; cases hr
  · obtain ⟨cb, env, rfl⟩ : ∃ cb env, op = .update cb env := by
      refine Classical.byContradiction fun hn => hop fun cb env h => hn ⟨cb, env, h⟩
    obtain ⟨⟨s1, o1, y⟩, hu, h1⟩ := Res.bind_eq_ok.mp hs
    injection h1 with h1; injection h1 with e1 e2; subst e1 e2
    have hf := mem_fileOuts hr rfl
    cases (stateUpdate_inv hq.inv.cp hu).file hq.inv with
    | same _ h _ => rw [h] at hf; cases hf
    | heard id body r _ _ h1 _ h2 => rw [h2] at hf; cases statDecode_outs h1 _ hf
    | chosen o n _ _ _ h1 h2 _ _ => rw [h2] at hf; cases (getCommand_inv h1).1 _ hf
    | built room o r hm _ htx hroom h1 h2 =>
      rw [h2] at hf
      have hd := cmdTx_dataOff q
      obtain ⟨f, hfile, h | h | h⟩ := File.txBuild_inv h1
      · omega
      · rw [h.2.2.2.1] at hf; cases hf
      · obtain ⟨-, hst, ho, -⟩ := h
        rw [ho] at hf
        have hf : Out.fread n off = Out.fread (room - 27) (toI32 f.offset) := by simpa using hf
        injection hf with e1 e2
        refine ⟨by omega, f.size, f.offset, ?_, e2⟩
        rw [hfile]
        unfold File.txStatus
        dsimp only
        rw [if_neg (by simp [hst])]

/-- Does every fragment fit a buffer of `n` bytes (with or without mark byte) in a secure session?  The CP leaves 16 bytes for the 14
bytes of overhead and up to 16 bytes of padding. -/
def Roomy (n : Nat) (mark : Bool) : Prop := let x := n - (if mark then 1 else 0); x % 16 ≤ 6 ∨ 14 ≤ x % 16

instance (n : Nat) (mark : Bool) : Decidable (Roomy n mark) := by unfold Roomy; infer_instance

/-- the room for the data of a command -/
def fragmentRoom (q : Pd) : Nat := q.txBufSize - (if q.flags.skipMark then 0 else 1) - 5 - (if q.flags.scActive then 2 else 0)

/-- how a fragment is built -/
theorem fragment_built (C : Cipher) (q : Pd) (env : Env) (f : FileSt) (hid : q.cmdId = Id.FILETRANSFER)
    (hf : q.file = some f) (hst : f.state = .inprog) (htx : 69 ≤ q.txBufSize)
    (hread : ∀ n, 0 < n → n ≤ 256 → 0 < (env.fread n (toI32 f.offset)).1 ∧ (env.fread n (toI32 f.offset)).1 ≤ n ∧
      (env.fread n (toI32 f.offset)).2.length = (env.fread n (toI32 f.offset)).1) :
    ∃ data n g, n = (fragmentRoom q : Int) - 27 ∧ 0 < n ∧ data = (env.fread n (toI32 f.offset)).2 ∧ (data.length : Int) ≤ n ∧
      (b8 Id.FILETRANSFER :: xfer (i8 f.fileId) f.size f.offset data).length = 12 + data.length ∧
      commandBody C (nextCmd q) env (cmdTx q) (q.txBufSize - (cmdTx q).dataOff) =
      .ok ⟨{ nextCmd q with file := g }, cmdTx q, [.fread n (toI32 f.offset)],
        some (b8 Id.FILETRANSFER :: xfer (i8 f.fileId) f.size f.offset data)⟩ := by
  have hle : q.txBufSize ≤ 256 := by unfold Pd.txBufSize; split <;> omega
  have hd := cmdTx_dataOff q
  have hdo : (cmdTx q).dataOff = (if q.flags.skipMark then 0 else 1) + 5 + (if q.flags.scActive then 2 else 0) := by
    unfold Phy.Tx.dataOff cmdTx Pd.scActive
    rw [hid]
    cases q.flags.skipMark <;> cases q.flags.scActive <;> rfl
  obtain ⟨room, hroom⟩ : ∃ room : Int, room = (q.txBufSize : Int) - (cmdTx q).dataOff := ⟨_, rfl⟩
  have hfr : (fragmentRoom q : Int) = room := by unfold fragmentRoom; omega
  obtain ⟨r1, r2, r3⟩ := hread (room - 27) (by omega) (by omega)
  cases hk : env.fread (room - 27) (toI32 f.offset) with
  | mk k data =>
  rw [hk] at r1 r2 r3
  dsimp only at r1 r2 r3
  have hhdr : ∀ d, (d.length : Int) = k → File.txHeader { f with length := k } ++ d = xfer (i8 f.fileId) f.size f.offset d := by
    intro d hd
    unfold File.txHeader xfer
    have : u32 k = d.length := by rw [← hd]; unfold u32; omega
    dsimp only
    rw [this]
    simp only [List.cons_append, List.append_assoc]
  refine ⟨data, room - 27, some { f with length := k }, by omega, by omega, by rw [hk], by omega, ?_, ?_⟩
  · unfold xfer; simp [le32, le16]; omega
  · have hid' : (nextCmd q).cmdId = Id.FILETRANSFER := hid
    have hf' : (nextCmd q).file = some f := hf
    unfold commandBody
    dsimp only
    rw [hid']
    iterate 11 (rw [if_neg (by decide)])
    rw [if_pos rfl, hf', ← hroom]
    rw [File.txBuild_ok hst (by omega) hk r1 r2 r3]
    simp only [Res.ok_bind]
    rw [hhdr data r3]

/-- **C52, the packet fits.**  A CP whose next command is a fragment of the file, to a PD whose receive buffer is large enough for any
command (69 bytes): it reads, and when the read callback keeps its contract (it stores between 1 and the number of bytes asked for), the
fragment is sent in a packet that fits the PD's buffer. In the clear that packet is a FILETRANSFER command with the bytes read, the
size of the file and the current offset. Proved outside the secure channel, and in it for the buffer sizes of `Roomy`, among them 256.
Missing: the other sizes, for which `C52_never_fits` shows that the property fails. -/
theorem C52_partial (C : Cipher) (info : PdM.Info) (cb : Bool) (q : Pd) (env : Env) (f : FileSt) (hq : Reached C info q)
    (hps : q.phyState = .sendCmd) (hid : q.cmdId = Id.FILETRANSFER) (hf : q.file = some f) (hst : f.state = .inprog)
    (hrx : q.peerRx = 0 ∨ 69 ≤ q.peerRx) (hmark : (q.flags.hasMark && q.flags.skipMark) = false) (hcap : 256 ≤ env.sendCap)
    (hread : ∀ n, 0 < n → n ≤ 256 → 0 < (env.fread n (toI32 f.offset)).1 ∧ (env.fread n (toI32 f.offset)).1 ≤ n ∧
      (env.fread n (toI32 f.offset)).2.length = (env.fread n (toI32 f.offset)).1)
    (hsc : q.flags.scActive = false ∨ q.peerRx = 0 ∨ 256 ≤ q.peerRx ∨ Roomy q.peerRx (!q.flags.skipMark)) :
    ∃ s o n data bs, step C q (.update cb env) = .ok (s, o) ∧ fileOuts o = [Out.fread n (toI32 f.offset)] ∧
      data = (env.fread n (toI32 f.offset)).2 ∧ Spec.Wire.sent o = [bs] ∧ Fits bs.length q.peerRx ∧
      (q.flags.scActive = false → bs = (plainCmd q (b8 Id.FILETRANSFER :: xfer (i8 f.fileId) f.size f.offset data)).bytes) := by
  have hle : q.txBufSize ≤ 256 := by unfold Pd.txBufSize; split <;> omega
  have htx : 69 ≤ q.txBufSize := by unfold Pd.txBufSize; split <;> omega
  have I := hq.inv
  have hbuf := hq.buffered.buf
  obtain ⟨data, n, g, hn, hn0, hdata, hdl, hbl, hbody⟩ := fragment_built C q env f hid hf hst htx hread
  obtain ⟨body, hbd⟩ : ∃ body, body = b8 Id.FILETRANSFER :: xfer (i8 f.fileId) f.size f.offset data := ⟨_, rfl⟩
  have hne : body ≠ [] := by rw [hbd]; simp
  rw [← hbd] at hbody hbl
  have done : ∀ {p1 : Pd} {bs : List Byte}, buildAndSend C q env = .ok (p1, [.fread n (toI32 f.offset)] ++ Phy.sendOuts q env bs,
      decide (bs.length ≤ env.sendCap)) → bs.length ≤ q.txBufSize →
      (q.flags.scActive = false → bs = (plainCmd q body).bytes) →
      ∃ s o n data bs, step C q (.update cb env) = .ok (s, o) ∧ fileOuts o = [Out.fread n (toI32 f.offset)] ∧
      data = (env.fread n (toI32 f.offset)).2 ∧ Spec.Wire.sent o = [bs] ∧ Fits bs.length q.peerRx ∧
      (q.flags.scActive = false → bs = (plainCmd q (b8 Id.FILETRANSFER :: xfer (i8 f.fileId) f.size f.offset data)).bytes) := by
    intro p1 bs h hlen hpl
    rw [decide_eq_true (show bs.length ≤ env.sendCap by omega)] at h
    have hstep : step C q (.update cb env) = .ok (sentState p1 env.now, [.fread n (toI32 f.offset)] ++ Phy.sendOuts q env bs) := by
      show (stateUpdate C cb q env >>= fun x => Except.ok (x.1, x.2.1)) = _
      rw [update_send C cb q env hps h]
      rfl
    refine ⟨_, _, n, data, bs, hstep, ?_, hdata, ?_, txBufSize_fits hlen, ?_⟩
    · rw [fileOuts_append]
      unfold Phy.sendOuts
      split <;> rfl
    · rw [sent_append, sendOuts_sent, List.take_of_length_le (by omega)]
      rfl
    · rw [← hbd]; exact hpl
  unfold fragmentRoom at hn
  cases hact : q.flags.scActive with
  | false =>
    have hpl : (plainCmd q body).bytes.length ≤ q.txBufSize := by
      rw [Phy.bytes_length]
      show (if (!q.flags.skipMark) = true then 1 else 0) + (5 + 0 + body.length + 2) ≤ _
      rw [hact] at hn
      rw [hbl]
      revert hn
      cases q.flags.skipMark <;> intro hn <;> simp at hn ⊢ <;> omega
    obtain ⟨p1, h1, -⟩ := buildAndSend_plain C q env _ body I.cp hact (by rw [hid]; decide) htx hmark hbuf hbody rfl hact rfl rfl rfl hne hpl
    rw [hact] at done
    exact done h1 hpl fun _ => rfl
  | true =>
    have hpl : (secPkt C q body).bytes.length ≤ q.txBufSize := by
      rw [secPkt_length C q body hne, if_pos (show 1 < body.length by omega)]
      have hroomy : Roomy q.txBufSize (!q.flags.skipMark) := by
        have h256 : ∀ m, Roomy 256 m := by decide
        unfold Pd.txBufSize
        split
        · rcases hsc with h | h | h | h
          · rw [hact] at h; cases h
          · omega
          · omega
          · exact h
        · exact h256 _
      unfold Roomy at hroomy
      unfold Sc.aesPadLen
      rw [hact] at hn
      revert hn hroomy
      cases q.flags.skipMark <;> intro hn hroomy <;> simp at hn hroomy ⊢ <;> omega
    obtain ⟨buf, h1, -⟩ := buildAndSend_secured C q env _ _ body I.cp hact htx hmark hbuf hbody hne hpl
    rw [hact] at done
    exact done h1 hpl fun h => by cases h

/-- **C52 fails** in a secure session for every buffer size that is not `Roomy` (7 of 16 sizes): a fragment for which the read callback
supplies what it was asked for is never sent. -/
theorem C52_never_fits (C : Cipher) (info : PdM.Info) (cb : Bool) (q s : Pd) (env : Env) (f : FileSt) (o : List Out)
    (hq : Reached C info q) (hps : q.phyState = .sendCmd) (hid : q.cmdId = Id.FILETRANSFER) (hf : q.file = some f)
    (hst : f.state = .inprog) (hrx : 69 ≤ q.peerRx ∧ q.peerRx < 256) (hact : q.flags.scActive = true)
    (hno : ¬ Roomy q.peerRx (!q.flags.skipMark))
    (hread : ∀ n, 0 < n → n ≤ 256 → (env.fread n (toI32 f.offset)).1 = n ∧ ((env.fread n (toI32 f.offset)).2.length : Int) = n)
    (h : step C q (.update cb env) = .ok (s, o)) : Spec.Wire.sent o = [] := by
  have htb : q.txBufSize = q.peerRx := by unfold Pd.txBufSize; rw [if_pos (by omega)]
  obtain ⟨data, n, g, hn, hn0, hdata, hdl, hbl, hbody⟩ := fragment_built C q env f hid hf hst (by omega) fun n h h' => by
    obtain ⟨h1, h2⟩ := hread n h h'; omega
  have hfull : (data.length : Int) = n := by rw [hdata]; exact (hread n hn0 (by unfold fragmentRoom at hn; omega)).2
  have key : ∀ {p1 : Pd} {o1 : List Out} {ok : Bool}, SendOutcome C q env p1 o1 ok → Spec.Wire.sent o1 = [] := by
    intro p1 o1 ok hs
    cases hs with
    | mute h => omega
    | unbuilt b _ hb _ hn =>
      rw [hbody] at hb; injection hb with hb; subst hb; cases hn
    | built b l q1 outs ok _ hb _ hl _ _ hw _ =>
      rw [hbody] at hb; injection hb with hb; subst hb
      injection hl with hl
      rw [sent_append]
      rcases hw with ⟨h1, -⟩ | ⟨wire, q', -, hd, -, hlen, -⟩
      · rw [h1]; rfl
      exfalso
      have hft : finalTx (cmdTx q) ({ nextCmd q with file := g } : Pd) l.length = secTx q l.length := by
        unfold finalTx cmdTx secTx Pd.scActive
        rw [hact]
        have : (nextCmd q).flags.scActive = true := hact
        simp [this]
      have hsec : Phy.Secured ({ nextCmd q with file := g } : Pd) (secTx q l.length) := secTx_secured hact
      unfold cmdPkt at hlen
      dsimp only at hlen hd
      rw [hft] at hlen hd
      obtain ⟨body, sc, hb1, hb2, -⟩ := hd.secured hsec
      have hl1 : 1 < l.length := by rw [← hl, hbl]; omega
      rw [if_pos (.inl (by unfold Phy.Tx.scbType secTx; simp [hl1]))] at hb1
      have hbl2 : body.length = 1 + Sc.aesPadLen l.length := by
        rw [hb1, List.length_append, Sc.encryptData_length, List.length_take, List.length_drop, show l.length - 1 + 1 = l.length by omega]
        omega
      have hwl : wire.length = body.length + 4 := by
        rw [hb2, List.length_append, List.length_take]
        have : ∀ b : Block, min 4 b.1.length = 4 := fun b => by rw [b.2]; rfl
        rw [this]
      rw [Phy.bytes_length, show (Phy.pktOf (secTx q l.length) wire).len = 5 + 2 + wire.length + 2 from rfl,
        show (Phy.pktOf (secTx q l.length) wire).mark = !q.flags.skipMark from rfl, hwl, hbl2, ← hl, hbl, htb] at hlen
      unfold Roomy at hno
      unfold Sc.aesPadLen at hlen
      unfold fragmentRoom at hn
      rw [htb, hact] at hn
      revert hn hno hlen
      cases q.flags.skipMark <;> intro hn hno hlen <;> simp at hn hno hlen <;> omega
  obtain ⟨⟨s1, o1, y⟩, hu, h1⟩ := Res.bind_eq_ok.mp h
  injection h1 with h1; injection h1 with e1 e2; subst e1 e2
  clear h
  cases stateUpdate_inv hq.inv.cp hu with
  | hold h0 => rw [hps] at h0; cases h0
  | sent _ hs => exact key hs
  | unsent _ hs h2 => rw [sent_append, key hs, settle_sent h2]; rfl
  | replied h0 => rw [hps] at h0; cases h0
  | again h0 => rw [hps] at h0; cases h0
  | waiting h0 => rw [hps] at h0; cases h0
  | idle h0 => rw [hps] at h0; rcases h0 with h | h | h <;> cases h

open Sample in
/-- the sample CP sends a file of 300 bytes to a PD that announced `n` bytes, in a secure session -/
def filesTo (n : Byte) (turns : Nat) : Talk :=
  (((talkRx n).turns xorCipher 20 20).filing xorCipher (content 300) 300).fturns xorCipher 60 (content 300) 300 (List.replicate turns false)

/-- the hypotheses are met in a secure session with a PD with a buffer of 255 bytes or more, which gets the whole file in two fragments -/
example : (let t := filesTo 0 3
    t.bad = false ∧ t.cp.phyState = .sendCmd ∧ t.cp.cmdId = Id.FILETRANSFER ∧ t.cp.file.map (·.state) = some .inprog ∧ t.cp.peerRx = 0 ∧
    t.cp.flags.scActive = true) ∧
    (let t := filesTo 0 10
     t.bad = false ∧ fileOuts t.cpOuts = [.fopen 1 0, .fread 221 0, .fread 221 221, .fclose] ∧
     fileOuts t.pdOuts = [.fopen 1 300, .fwrite ((Sample.content 300).take 221) 0, .fwrite ((Sample.content 300).drop 221) 221, .fclose]) := by
  decide +kernel

/-- the hypotheses of `C52_never_fits` are met with a PD that announced 254 bytes -/
example : (let t := filesTo 254 3
    t.bad = false ∧ t.cp.phyState = .sendCmd ∧ t.cp.cmdId = Id.FILETRANSFER ∧ t.cp.file.map (fun f => (f.state, f.offset)) = some (.inprog, 0) ∧
    t.cp.peerRx = 254 ∧ t.cp.flags.scActive = true ∧ ¬ Roomy 254 (!t.cp.flags.skipMark)) ∧
    (∀ n < 256, ((Sample.sender (Sample.content 300) 300 { now := 0 }).fread (n + 1 : Nat) (toI32 0)).1 = (n + 1 : Nat) ∧
      ((Sample.sender (Sample.content 300) 300 { now := 0 }).fread (n + 1 : Nat) (toI32 0)).2.length = n + 1) := by
  decide +kernel

/-- **C52 fails**: in a secure session with a PD that announced a buffer of 254 bytes, the CP reads 219 bytes of the file, which it can then
not encrypt and send in 254 bytes. It sends nothing, goes offline, and the transfer stays where it is. -/
theorem C52_toolarge :
    (let t := filesTo 254 3
     t.bad = false ∧ t.cp.state = .online ∧ t.cp.flags.scActive = true ∧ t.cp.phyState = .sendCmd ∧ t.cp.cmdId = Id.FILETRANSFER) ∧
    (let t := filesTo 254 4
     t.bad = false ∧ fileOuts t.cpOuts = [.fopen 1 0, .fread 219 0] ∧
     Spec.Wire.sent t.cpOuts = Spec.Wire.sent (filesTo 254 3).cpOuts ∧ t.cp.state = .offline) ∧
    (let t := filesTo 254 40
     t.bad = false ∧ t.cp.file.map (fun f => (f.state, f.offset)) = some (.inprog, 0) ∧ t.cp.state = .offline ∧ fileOuts t.pdOuts = []) := by
  decide +kernel

end Osdp.CpM
