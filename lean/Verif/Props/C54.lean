import Verif.Props.C53
import Verif.Lemmas.CpSendSc

/-!
# C54: cancelling a file transfer
-/

namespace Osdp

namespace CpM

/-- **C54, the request.**  `osdp_cp_send_command` with a file transfer command that has the cancel flag (bit 31) set is accepted exactly
when the PD is online and the file with that id is being transferred. It calls nothing; refused, it changes nothing; accepted, it only
marks the transfer as to be cancelled. -/
theorem C54_request (p : Pd) (env : Env) (c : CmdFileTx) (hc : c.flags.getLsbD 31 = true) :
    (sendPd p env (.fileTx c)).2.1 = [] ∧
    ((∃ f, p.state = .online ∧ p.file = some f ∧ f.state = .inprog ∧ f.fileId = c.id ∧
      (sendPd p env (.fileTx c)).2.2 = 0 ∧ (sendPd p env (.fileTx c)).1 = { p with file := some { f with cancelReq := true } }) ∨
     ((¬ ∃ f, p.state = .online ∧ p.file = some f ∧ f.state = .inprog ∧ f.fileId = c.id) ∧
      (sendPd p env (.fileTx c)).2.2 = -1 ∧ (sendPd p env (.fileTx c)).1 = p)) := by
  have hne : (c.flags &&& File.FLAG_CANCEL != 0) = true := by
    have : c.flags &&& File.FLAG_CANCEL ≠ 0 := by
      intro h
      have := congrArg (fun x : BitVec 32 => x.getLsbD 31) h
      rw [BitVec.getLsbD_and, hc] at this
      exact absurd this (by decide)
    simpa using this
  by_cases hs : p.state = .online
  · unfold sendPd
    rw [if_neg (by simp [hs])]
    dsimp only
    unfold File.txCommand
    cases hf : p.file with
    | none =>
      refine ⟨rfl, .inr ⟨(by rintro ⟨f, -, h, -⟩; cases h), rfl, ?_⟩⟩
      show ({ p with file := none } : Pd) = p
      rw [← hf]
    | some f =>
      dsimp only
      by_cases hi : f.state = .inprog
      · simp only [if_pos hi, if_pos hne]
        by_cases hd : c.id = f.fileId
        · simp only [if_pos hd]
          exact ⟨trivial, .inl ⟨f, hs, rfl, hi, hd.symm, rfl, rfl⟩⟩
        · simp only [if_neg hd]
          refine ⟨trivial, .inr ⟨?_, rfl, ?_⟩⟩
          · rintro ⟨g, -, h, -, h'⟩; injection h with h; subst h; exact hd h'.symm
          · show ({ p with file := some f } : Pd) = p
            rw [← hf]
      · simp only [if_neg hi, if_pos hne]
        refine ⟨trivial, .inr ⟨?_, rfl, ?_⟩⟩
        · rintro ⟨g, -, h, h', -⟩; injection h with h; subst h; exact hi h'
        · show ({ p with file := some f } : Pd) = p
          rw [← hf]
  · unfold sendPd
    rw [if_pos hs]
    exact ⟨rfl, .inr ⟨(by rintro ⟨f, h, -⟩; exact hs h), rfl, rfl⟩⟩

/-- the transfer is to be cancelled -/
def Cancelled (p : Pd) (f : FileSt) : Prop := p.file = some f ∧ f.cancelReq = true ∧ (f.state = .inprog ∨ f.state = .keepAlive)

/-- a new command is begun -/
def Begins (q s : Pd) (id : Nat) : Prop := q.phyState = .idle ∧ s.phyState = .sendCmd ∧ s.cmdId = id

theorem replyOf_wait {C : Cipher} {p : Pd} {env : Env} {x : Byte × List Byte} (h : replyOf C p env = some x) : p.phyState = .replyWait := by
  unfold replyOf at h
  split at h
  · assumption
  · cases h

/-- **C54, CP (partial).**  As long as a transfer is to be cancelled, no call begins another FILETRANSFER command. The transfer stays to be
cancelled until the CP begins an ABORT command and closes the file - unless meanwhile the PD reports the end of the transfer, or the read
callback has nothing for the fragment that was already under way, or the application registers its file operations anew, or (the PD
having asked to keep the transfer alive) starts another. Missing: in that last situation nothing ends the transfer, see `C54_stuck`. -/
theorem C54_cp_partial (C : Cipher) (info : PdM.Info) (q s : Pd) (op : Op) (o : List Out) (f : FileSt) (hq : Reached C info q)
    (hs : step C q op = .ok (s, o)) (hf : Cancelled q f) :
    ¬ Begins q s Id.FILETRANSFER ∧
    ((∃ g, Cancelled s g ∧ g.fileId = f.fileId ∧ (f.state = .inprog → g.state = .keepAlive → Reports C q op 3) ∧
        (Begins q s Id.ABORT → f.state = .keepAlive)) ∨
     (Begins q s Id.ABORT ∧ f.state = .inprog ∧ fileOuts o = [.fclose] ∧ s.file = some File.reset) ∨
     (Reports C q op 1 ∨ Reports C q op 2) ∨
     (q.cmdId = Id.FILETRANSFER ∧ ∃ cb env n off, op = .update cb env ∧ fileOuts o = [.fread n off] ∧ (env.fread n off).1 ≤ 0 ∧ s.file = some File.reset) ∨
     (op = .fileOps ∧ s.file = some File.reset) ∨
     (f.state = .keepAlive ∧ ∃ env c, op = .send env (.fileTx c) ∧ o = [.fopen c.id 0])) := by
  obtain ⟨hf, hcr, hst⟩ := hf
  have I := hq.inv
  by_cases hop : ∀ cb env, op ≠ .update cb env
  · have hph : s.phyState = q.phyState := (step_api hs hop).2.2.1
    have hnb : ∀ i, ¬ Begins q s i := by
      rintro i ⟨h1, h2, -⟩; rw [hph, h1] at h2; cases h2
    refine ⟨hnb _, ?_⟩
    rcases api_file hop hs with ⟨h, -⟩ | ⟨h1, h, -⟩ | ⟨env, c, ok, rfl, -, h⟩
    · exact .inl ⟨f, ⟨by rw [h, hf], hcr, hst⟩, rfl, (fun h h' => by rw [h] at h'; cases h'), fun h => absurd h (hnb _)⟩
    · exact .inr (.inr (.inr (.inr (.inl ⟨h1, h⟩))))
    · rw [hf] at h
      rcases txCommand_inv h with ⟨h, -⟩ | ⟨f', hf', hi, -, -, h, -⟩ | ⟨f', n, hf', h1, h2, -, h, h3, -⟩
      · exact .inl ⟨f, ⟨h, hcr, hst⟩, rfl, (fun h h' => by rw [h] at h'; cases h'), fun h => absurd h (hnb _)⟩
      · injection hf' with hf'; subst hf'
        exact .inl ⟨_, ⟨h, rfl, .inl hi⟩, rfl, (fun _ h' => by have := hi.symm.trans h'; cases this), fun h => absurd h (hnb _)⟩
      · injection hf' with hf'; subst hf'
        exact .inr (.inr (.inr (.inr (.inr ⟨hst.resolve_left h1, env, c, rfl, h3⟩))))
  · obtain ⟨cb, env, rfl⟩ : ∃ cb env, op = .update cb env := by
      refine Classical.byContradiction fun hn => hop fun cb env h => hn ⟨cb, env, h⟩
    obtain ⟨⟨s1, o1, y⟩, hu, h1⟩ := Res.bind_eq_ok.mp hs
    injection h1 with h1; injection h1 with e1 e2; subst e1 e2
    have keep : s1.file = some f → (Begins q s1 Id.ABORT → f.state = .keepAlive) →
        (∃ g, Cancelled s1 g ∧ g.fileId = f.fileId ∧ (f.state = .inprog → g.state = .keepAlive → Reports C q (.update cb env) 3) ∧
          (Begins q s1 Id.ABORT → f.state = .keepAlive)) :=
      fun h hb => ⟨f, ⟨h, hcr, hst⟩, rfl, (fun h h' => by rw [h] at h'; cases h'), hb⟩
    cases (stateUpdate_inv I.cp hu).file I with
    | same h ho hn =>
      refine ⟨fun hb => absurd hb.2.2 (hn hb.1 hb.2.1).1, .inl (keep (by rw [h, hf]) fun hb => absurd hb.2.2 (hn hb.1 hb.2.1).2)⟩
    | built room o r hm hid hsz hroom h1 ho =>
      have hni : ∀ i, ¬ Begins q s1 i := by
        rintro i ⟨h, -⟩; rcases hm with h' | ⟨h', -⟩ <;> rw [h] at h' <;> cases h'
      refine ⟨hni _, ?_⟩
      rw [hf] at h1
      obtain ⟨f', hf', h | h | h⟩ := File.txBuild_inv h1
      · have := cmdTx_dataOff q; omega
      · injection hf' with hf'; subst hf'
        exact .inl (keep h.2.2.1 fun h => absurd h (hni _))
      · injection hf' with hf'; subst hf'
        rcases h.2.2.2 with ⟨h2, h3, -⟩ | ⟨n, bytes, -, -, -, -, h2, -⟩
        · exact .inr (.inr (.inr (.inl ⟨hid, cb, env, _, _, rfl, ho.trans h.2.2.1, h2, h3⟩)))
        · exact .inl ⟨_, ⟨h2, hcr, hst⟩, rfl, (fun h h' => by have := h.symm.trans h'; cases this), fun h => absurd h (hni _)⟩
    | chosen o n hi _ _ h1 ho h2 h3 =>
      rw [hf] at h1
      unfold File.getCommand at h1
      dsimp only at h1
      rw [if_neg (by rcases hst with h | h <;> simp [h]), if_pos (.inr hcr)] at h1
      unfold File.abort at h1
      dsimp only at h1
      split at h1
      · rename_i hip
        injection h1 with h1 h4; injection h4 with h4 h5; subst h4 h5
        have := h2 _ rfl
        refine ⟨(fun h => by rw [h.2.2] at this; exact absurd this.1 (by decide)), .inr (.inl ⟨⟨hi, this.2, this.1⟩, hip, ho, h1.symm⟩)⟩
      · rename_i hip
        injection h1 with h1 h4; injection h4 with h4 h5; subst h4 h5
        have := h2 _ rfl
        exact ⟨(fun h => by rw [h.2.2] at this; exact absurd this.1 (by decide)), .inl (keep h1.symm fun _ => hst.resolve_left hip)⟩
    | heard id body r hr hid h1 h2 _ =>
      have hni : ∀ i, ¬ Begins q s1 i := by
        rintro i ⟨h, -⟩; rw [replyOf_wait hr] at h; cases h
      refine ⟨hni _, ?_⟩
      rw [hf] at h1
      rcases File.statDecode_inv h1 with ⟨h, -⟩ | ⟨f', control, d0, d1, b0, b1, x0, x1, g, hg, hf', hst', rfl, hle, ho, hsz, hfid, hcr', -, hcase⟩
      · exact .inl (keep (by rw [h2, h]) fun h => absurd h (hni _))
      · injection hf' with hf'; subst hf'
        have hrep : Reports C q (.update cb env) (File.int16 b0 b1) := ⟨cb, env, id, _, rfl, hr, hid, int16_status ..⟩
        rcases hcase with ⟨h, hs, -⟩ | ⟨h, -, hs⟩
        · exact .inl ⟨g, ⟨by rw [h2, hg], by rw [hcr', hcr], .inl hs⟩, hfid, (fun _ h' => by rw [hs] at h'; cases h'), fun h => absurd h (hni _)⟩
        · rcases hs with ⟨k, hs, -⟩ | ⟨k, hs, -⟩ | ⟨k, hs, -⟩ | ⟨-, -, -, hs, -⟩
          · exact .inl ⟨g, ⟨by rw [h2, hg], by rw [hcr', hcr], .inr hs⟩, hfid, (fun _ _ => k ▸ hrep), fun h => absurd h (hni _)⟩
          · exact .inr (.inr (.inl (.inr (k ▸ hrep))))
          · exact .inr (.inr (.inl (.inl (k ▸ hrep))))
          · exact .inl ⟨g, ⟨by rw [h2, hg], by rw [hcr', hcr], .inl hs⟩, hfid, (fun _ h' => by rw [hs] at h'; cases h'), fun h => absurd h (hni _)⟩

/-- **C54, the ABORT.**  When no command is under way and none is queued, the next call of the CP for that PD closes the file, forgets
the transfer and begins an ABORT command; the call after it sends the packet. -/
theorem C54_aborts (C : Cipher) (q : Pd) (f : FileSt) (cb : Bool) (env : Env) (hf : Cancelled q f) (hip : f.state = .inprog)
    (hon : q.state = .online) (hi : q.phyState = .idle) (hq : q.cmdQueue = []) :
    step C q (.update cb env) = .ok ({ q with file := some File.reset, cmdId := Id.ABORT, phyState := .sendCmd }, [.fclose]) := by
  have hg : stateGetCmd q env = .ok ({ q with file := some File.reset }, [.fclose], Id.ABORT) := by
    have : stateGetCmd q env = onlineCommand q env := by unfold stateGetCmd; rw [hon]
    rw [this]
    unfold onlineCommand
    split
    · rename_i h; rw [hq] at h; cases h
    have : File.getCommand q.file env.now = (some File.reset, [.fclose], .send Id.ABORT) := by
      rw [hf.1]
      unfold File.getCommand
      dsimp only
      rw [if_neg (by simp [hip]), if_pos (.inr hf.2.1)]
      unfold File.abort
      dsimp only
      rw [if_pos hip]
    rw [this]
  show (stateUpdate C cb q env >>= _) = _
  rw [update_idle C cb q env hi, settle_command hi hg (by decide)]
  rfl

/-- the packet goes out, in clear or under the session keys -/
theorem C54_sent (C : Cipher) (info : PdM.Info) (q : Pd) (cb : Bool) (env : Env) (hr : Reached C info q) (hid : q.cmdId = Id.ABORT)
    (hs : q.phyState = .sendCmd) (hm : 69 ≤ q.txBufSize) (hmis : (q.flags.hasMark && q.flags.skipMark) = false)
    (hcap : 256 ≤ env.sendCap) :
    ∃ s o, ∃ k : Spec.Wire.Packet, step C q (.update cb env) = .ok (s, o) ∧ s.phyState = .replyWait ∧ s.file = q.file ∧ Spec.Wire.sent o = [k.bytes] ∧ k.id = some 0xA2#8 := by
  have I := hr.inv
  have hbuf := hr.buffered.buf
  have hb : commandBody C (nextCmd q) env (cmdTx q) (q.txBufSize - (cmdTx q).dataOff) =
      .ok ⟨{ nextCmd q with file := q.file }, cmdTx q, [], some [b8 Id.ABORT]⟩ := by
    rw [show ({ nextCmd q with file := q.file } : Pd) = nextCmd q from rfl]
    unfold commandBody
    have : (nextCmd q).cmdId = Id.ABORT := hid
    simp only [this]
    iterate 10 (rw [if_neg (by decide)])
    rw [if_pos trivial]
  have hle : q.txBufSize ≤ 256 := by unfold Pd.txBufSize; split <;> omega
  have done : ∀ {p1 : Pd} {k : Spec.Wire.Packet}, buildAndSend C q env = .ok (p1, [] ++ Phy.sendOuts q env k.bytes,
      decide (k.bytes.length ≤ env.sendCap)) → k.bytes.length ≤ q.txBufSize → k.id = some 0xA2#8 → p1.file = q.file →
      ∃ s o, ∃ k : Spec.Wire.Packet, step C q (.update cb env) = .ok (s, o) ∧ s.phyState = .replyWait ∧ s.file = q.file ∧
        Spec.Wire.sent o = [k.bytes] ∧ k.id = some 0xA2#8 := by
    intro p1 k h hlen hk hf
    rw [decide_eq_true (show k.bytes.length ≤ env.sendCap by omega)] at h
    have hstep : step C q (.update cb env) = .ok (sentState p1 env.now, [] ++ Phy.sendOuts q env k.bytes) := by
      show (stateUpdate C cb q env >>= fun x => Except.ok (x.1, x.2.1)) = _
      rw [update_send C cb q env hs h]
      rfl
    refine ⟨_, _, k, hstep, rfl, hf, ?_, hk⟩
    rw [sent_append, sendOuts_sent, List.take_of_length_le (by omega)]
    rfl
  cases hsc : q.flags.scActive with
  | true =>
    have hl : (secPkt C q [b8 Id.ABORT]).bytes.length ≤ q.txBufSize := by
      rw [secPkt_length C q _ (by simp)]
      simp
      split <;> omega
    obtain ⟨buf, h, -⟩ := buildAndSend_secured C q env [] q.file [b8 Id.ABORT] I.cp hsc hm hmis hbuf hb (by simp) hl
    exact done h hl rfl rfl
  | false =>
    have hl : (plainCmd q [b8 Id.ABORT]).bytes.length ≤ q.txBufSize := by
      rw [Phy.bytes_length]
      show (if (!q.flags.skipMark) = true then 1 else 0) + (5 + 0 + 1 + 2) ≤ _
      split <;> omega
    obtain ⟨p1, h, hs⟩ := buildAndSend_plain C q env _ [b8 Id.ABORT] I.cp hsc (by rw [hid]; decide) hm hmis hbuf hb rfl hsc rfl rfl rfl (by simp) hl
    refine done h hl rfl ?_
    unfold Phy.Sending at hs
    rw [hs]

end CpM

namespace PdM

/-- **C54, PD.**  A PD that hears ABORT (with nothing after the id, as the CP sends it) while it receives a file closes the file and
forgets the transfer. -/
theorem C54_pd (C : Cipher) (info : Info) (p q : Pd) (env : Env) (outs : List Out) (f : FileSt) (id : Byte) (hr : Reached C info p)
    (h : refresh C p env = .ok (q, outs)) (hc : commandOf C p env = some (id, [])) (hid : id = 0xA2#8) (hf : p.file = some f)
    (hip : f.state = .inprog) : q.file = some File.reset ∧ fileOuts outs = [.fclose] := by
  obtain ⟨p1, o1, ret, o2, hg, -, hfin, rfl⟩ := refresh_inv hr.pdMode h
  rcases hg.heard with ⟨hn, -⟩ | ⟨id', body, p2, hc', ht, hd, -⟩
  · rw [hc] at hn; cases hn
  rw [hc] at hc'; injection hc' with hc'; injection hc' with e1 e2; subst e1 e2 hid
  have hf2 : (noteCmd p2 0xA2#8).file = some f := (transp_file ht : _).trans ((expire_file p env.now).trans hf)
  have hab : File.abort (some f) = (some File.reset, [.fclose]) := by
    unfold File.abort
    dsimp only
    rw [if_pos hip]
  have : dispatch (noteCmd p2 0xA2#8) env [] = reply { noteCmd p2 0xA2#8 with file := some File.reset } Id.ACK [.fclose] := by
    unfold dispatch
    have : (noteCmd p2 0xA2#8).cmdId = Id.ABORT := rfl
    simp only [this, hf2, hab]
    rfl
  rw [this] at hd
  injection hd with hd; injection hd with e1 hd; injection hd with e2 e3; subst e1 e2 e3
  rcases finished_file hfin with ⟨h1, h2⟩ | ⟨h1, -⟩
  · exact ⟨h1, by rw [fileOuts_append, h2]; rfl⟩
  · exact absurd h1 (by show Id.ACK ≠ Id.FTSTAT; decide)

end PdM

namespace CpM

open Sample

/-- The sample CP, in a secure session with the sample PD, sends a file of 300 bytes in fragments of 100; after `turns` turns its
application asks to cancel the transfer; then there are `more` turns. -/
def cancels (turns more : Nat) : Talk :=
  let t := ((talk.turns xorCipher 20 20).filing xorCipher (content 300) 100).fturns xorCipher 60 (content 300) 100 (List.replicate turns false)
  let t := t.cpDoes xorCipher (.send { now := t.now } (.fileTx { id := 1, flags := 0x80000000#32 }))
  t.fturns xorCipher 60 (content 300) 100 (List.replicate more false)

/-- The hypotheses are met. The first fragment has been sent and answered when the request comes. The next turn closes the file and begins
ABORT, which the turn after it sends; the PD closes its file. -/
example : (let t := cancels 5 0;
    t.bad = false ∧ t.cp.state = .online ∧ t.cp.phyState = .idle ∧ t.cp.cmdQueue.isEmpty = true ∧
    t.cp.file.map (fun (f : FileSt) => (f.state, f.cancelReq, f.offset)) = some (.inprog, true, 100) ∧
    t.pd.file.map (fun (f : FileSt) => (f.state, f.offset)) = some (.inprog, 100)) ∧
  (let t := cancels 5 1;
    t.bad = false ∧ t.cp.phyState = .sendCmd ∧ t.cp.cmdId = Id.ABORT ∧ t.cp.file.map (fun (f : FileSt) => (f.state, f.cancelReq)) = some (.idle, false) ∧
    (fileOuts t.cpOuts).getLast? = some .fclose) ∧
  (let t := cancels 5 2;
    t.bad = false ∧ t.cp.phyState = .replyWait ∧ t.pd.file.map (fun (f : FileSt) => (f.state, f.offset)) = some (.idle, 0) ∧
    (fileOuts t.pdOuts).getLast? = some .fclose) := by
  refine ⟨?_, ?_, ?_⟩ <;> decide +kernel

/-- **C54 fails.**  A CP whose transfer is to be cancelled although the PD asked to keep it alive begins an ABORT command whenever it could
begin a command of its own, and nothing changes. -/
theorem C54_stuck (C : Cipher) (q : Pd) (f : FileSt) (cb : Bool) (env : Env) (hf : Cancelled q f) (hip : f.state = .keepAlive)
    (hon : q.state = .online) (hi : q.phyState = .idle) (hq : q.cmdQueue = []) :
    step C q (.update cb env) = .ok ({ q with cmdId := Id.ABORT, phyState := .sendCmd }, []) := by
  have hg : stateGetCmd q env = .ok (q, [], Id.ABORT) := by
    have : stateGetCmd q env = onlineCommand q env := by unfold stateGetCmd; rw [hon]
    rw [this]
    unfold onlineCommand
    split
    · rename_i h; rw [hq] at h; cases h
    have : File.getCommand q.file env.now = (q.file, [], .send Id.ABORT) := by
      rw [hf.1]
      unfold File.getCommand
      dsimp only
      rw [if_neg (by simp [hip]), if_pos (.inr hf.2.1)]
      unfold File.abort
      dsimp only
      rw [if_neg (by rw [hip]; decide)]
    rw [this]
  show (stateUpdate C cb q env >>= _) = _
  rw [update_idle C cb q env hi, settle_command hi hg (by decide)]
  rfl

/-- The last fragment of a file is under way when the sample CP is asked to cancel; the PD answers it with "keep the transfer alive"; then
it acknowledges everything. -/
def cancelsLate (n : Nat) : List Op :=
  meets [4, 0, 0] ++ [.fileOps, .send (sender (content 10) 10 { now := 0 }) (.fileTx { id := 1, flags := 0#32 })] ++
  ([[], []].map fun x => Op.update true (sender (content 10) 10 { now := 0, recv := blocks64 x, random := rndA })) ++
  [.send { now := 0 } (.fileTx { id := 1, flags := 0x80000000#32 }), hears (reply 2 [b8 Id.FTSTAT, 1, 0, 0, 3, 0, 0, 0]) 0] ++
  ((List.range n).map fun i => [hears [] 100, hears [] 100, hears (reply (b8 (([3, 1, 2] : List Nat)[i % 3]!)) [b8 Id.ACK]) 100]).flatten

/-- It is met, and five times in a row the command is ABORT, and never POLL. -/
example : (match run xorCipher cp (cancelsLate 0) with
    | .ok (q, _) => decide (q.state = .online ∧ q.phyState = .idle ∧ q.cmdQueue = [] ∧
        q.file.map (fun (f : FileSt) => (f.state, f.cancelReq)) = some (.keepAlive, true))
    | .error _ => false) = true ∧
  (match run xorCipher cp (cancelsLate 5) with
    | .ok (q, o) => decide (q.state = .online ∧ q.phyState = .idle ∧ q.cmdId = Id.ABORT ∧
        (Spec.Wire.sent o).reverse.map (fun l => l[6]?) =
          List.replicate 5 (some (b8 Id.ABORT)) ++ [some (b8 Id.FILETRANSFER), some (b8 Id.CAP), some (b8 Id.ID)] ∧
        q.file.map (fun (f : FileSt) => (f.state, f.cancelReq)) = some (.keepAlive, true))
    | .error _ => false) = true := by
  refine ⟨?_, ?_⟩ <;> decide +kernel

/-- While the transfer is kept alive, a request to cancel it is refused. -/
example : (match run xorCipher cp ((cancelsLate 0).filter fun o => match o with | .send _ (.fileTx c) => !c.flags.getLsbD 31 | _ => true) with
    | .ok (q, _) => decide (q.file.map (fun (f : FileSt) => (f.state, f.cancelReq, f.fileId)) = some (.keepAlive, false, 1) ∧
        (sendPd q { now := 0 } (.fileTx { id := 1, flags := 0x80000000#32 })).2.2 = -1)
    | .error _ => false) = true := by decide +kernel

end CpM

end Osdp
