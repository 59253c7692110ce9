import Verif.Props.C54

/-!
# C89: a file transfer that keeps failing

src/osdp_file.c:349 gives a transfer up (closes the file, sends ABORT) when more than `OSDP_FILE_ERROR_RETRY_MAX` = 10 errors have
been counted.  The count never exceeds 1, so this happens only when the application asks for it.
-/

namespace Osdp.CpM

/-! ### spec -/

/-- the application asks for a file transfer to be cancelled -/
def Cancels (op : Op) : Prop := ∃ env c, op = .send env (.fileTx c) ∧ c.flags.getLsbD 31 = true

/-! ### lemmas -/

theorem statDecode_errors {f : FileSt} {env : Env} {body : List Byte} {r : File.Result} (h : File.statDecode (some f) env body = .ok r) :
    ∃ g, r.file = some g ∧ (g = f ∨ g.errors ≤ 1) ∧ g.cancelReq = f.cancelReq := by
  unfold File.statDecode at h
  dsimp only at h
  split at h
  · injection h with h; subst h; exact ⟨f, rfl, .inl rfl, rfl⟩
  split at h
  · split at h
    · cases h
    split at h
    · injection h with h; subst h; exact ⟨_, rfl, .inr (Nat.zero_le _), rfl⟩
    split at h
    · injection h with h; subst h; exact ⟨_, rfl, .inr (Nat.zero_le _), rfl⟩
    split at h
    · injection h with h; subst h; exact ⟨_, rfl, .inr (Nat.zero_le _), rfl⟩
    split at h
    · injection h with h; subst h; exact ⟨_, rfl, .inr (Nat.zero_le _), rfl⟩
    · injection h with h; subst h; exact ⟨_, rfl, .inr (Nat.le_refl _), rfl⟩
  · split at h
    · injection h with h; subst h; exact ⟨f, rfl, .inl rfl, rfl⟩
    · cases h

theorem cancel_bit {fl : BitVec 32} (h : fl &&& File.FLAG_CANCEL ≠ 0) : fl.getLsbD 31 = true := by
  cases hb : fl.getLsbD 31 with
  | true => rfl
  | false =>
    refine absurd ?_ h
    refine BitVec.eq_of_getLsbD_eq fun i hi => ?_
    rw [BitVec.getLsbD_and]
    by_cases h31 : i = 31
    · subst h31; rw [hb]; rfl
    · have : ∀ j : Fin 32, j.val ≠ 31 → File.FLAG_CANCEL.getLsbD j.val = false := by decide
      rw [this ⟨i, hi⟩ h31]
      simp

/-- what one call does to the count of errors and to the wish to cancel -/
theorem count_step {C : Cipher} {q s : Pd} {op : Op} {o : List Out} {g : FileSt} (I : Inv q) (hs : step C q op = .ok (s, o))
    (hg : s.file = some g) : g = File.reset ∨ ∃ f, q.file = some f ∧ (g.errors ≤ 1 ∨ g.errors = f.errors) ∧
      (g.cancelReq = true → f.cancelReq = true ∨ Cancels op) := by
  have same : s.file = q.file → g = File.reset ∨ ∃ f, q.file = some f ∧ (g.errors ≤ 1 ∨ g.errors = f.errors) ∧
      (g.cancelReq = true → f.cancelReq = true ∨ Cancels op) := fun h =>
    .inr ⟨g, h ▸ hg, .inr rfl, .inl⟩
  by_cases hop : ∀ cb env, op ≠ .update cb env
  · rcases api_file hop hs with ⟨h, -⟩ | ⟨-, h, -⟩ | ⟨env, c, ok, rfl, -, h⟩
    · exact same h
    · rw [hg] at h; injection h with h; exact .inl h
    · rcases txCommand_inv h with ⟨h, -⟩ | ⟨f, hf, -, hc, -, h, -⟩ | ⟨f, n, hf, -, -, -, h, -⟩
      · exact same h
      · rw [hg] at h; injection h with h; subst h
        exact .inr ⟨f, hf, .inr rfl, fun _ => .inr ⟨env, c, rfl, cancel_bit hc⟩⟩
      · rw [hg] at h; injection h with h; subst h
        exact .inr ⟨f, hf, .inl (Nat.zero_le _), (fun h => by cases h)⟩
  · obtain ⟨cb, env, rfl⟩ : ∃ cb env, op = .update cb env := by
      refine Classical.byContradiction fun hn => hop fun cb env h => hn ⟨cb, env, h⟩
    obtain ⟨⟨s1, o1, y⟩, hu, h1⟩ := Res.bind_eq_ok.mp hs
    injection h1 with h1; injection h1 with e1 e2; subst e1 e2
    cases (stateUpdate_inv I.cp hu).file I with
    | same h _ _ => exact same h
    | built room o r _ _ _ _ h1 _ =>
      obtain ⟨f, hf, h | h | h⟩ := File.txBuild_inv h1
      · have h := h.2.2.1; rw [hg] at h; injection h with h; exact .inl h
      · exact same (h.2.2.1.trans hf.symm)
      · rcases h.2.2.2 with ⟨-, h, -⟩ | ⟨n, bytes, -, -, -, -, h, -⟩
        · rw [hg] at h; injection h with h; exact .inl h
        · rw [hg] at h; injection h with h; subst h
          exact .inr ⟨f, hf, .inr rfl, .inl⟩
    | chosen o n _ _ _ h1 _ _ _ =>
      unfold File.getCommand at h1
      split at h1
      · rename_i hn
        injection h1 with h1 _; exact same (h1.symm.trans hn.symm)
      rename_i f hf
      have same' : some f = s1.file → _ := fun h => same (h.symm.trans hf.symm)
      split at h1
      · injection h1 with h1 _; exact same' h1
      split at h1
      · unfold File.abort at h1
        dsimp only at h1
        split at h1
        · injection h1 with h1 _; rw [hg] at h1; injection h1 with h1; exact .inl h1.symm
        · injection h1 with h1 _; exact same' h1
      split at h1
      · injection h1 with h1 _; exact same' h1
      split at h1 <;> (injection h1 with h1 _; exact same' h1)
    | heard id body r _ _ h1 h2 _ =>
      cases hf : q.file with
      | none =>
        rw [hf] at h1
        injection h1 with h1; subst h1
        rw [hg] at h2; cases h2
      | some f =>
        rw [hf] at h1
        obtain ⟨g', hg', he, hc⟩ := statDecode_errors h1
        rw [hg, hg'] at h2; injection h2 with h2; subst h2
        refine .inr ⟨f, rfl, ?_, fun h => .inl (hc ▸ h)⟩
        rcases he with rfl | he
        · exact .inr rfl
        · exact .inl he

/-- what the file transfer of a CP never becomes -/
structure Uncounted (ops : List Op) (q : Pd) : Prop where
  errors : ∀ f, q.file = some f → f.errors ≤ 1
  cancel : ∀ f, q.file = some f → f.cancelReq = true → ∃ op ∈ ops, Cancels op

theorem uncounted {C : Cipher} {info : PdM.Info} {i : Nat} {sk : Bool} {n : Nat} {p q : Pd} {ops : List Op} {o : List Out}
    (hn : newPd info i sk n = some p) (hr : run C p ops = .ok (q, o)) : Uncounted ops q := by
  refine run_ind (C := C) (p := p) (fun ops q _ => Uncounted ops q) ?_ (fun ops op q _ s _ hr U h => ?_) hr
  · have : p.file = none := by
      unfold newPd at hn
      split at hn
      · cases hn
      · injection hn with hn; subst hn; rfl
    exact ⟨(fun f h => by rw [this] at h; cases h), (fun f h => by rw [this] at h; cases h)⟩
  · have I := Reached.inv (C := C) ⟨i, sk, n, p, _, _, hn, hr⟩
    refine ⟨fun g hg => ?_, fun g hg hc => ?_⟩
    · rcases count_step I h hg with rfl | ⟨f, hf, he, -⟩
      · exact Nat.zero_le _
      · rcases he with he | he
        · exact he
        · rw [he]; exact U.errors f hf
    · rcases count_step I h hg with rfl | ⟨f, hf, -, hc'⟩
      · cases hc
      · rcases hc' hc with hc | hc
        · obtain ⟨op', h1, h2⟩ := U.cancel f hf hc
          exact ⟨op', List.mem_append_left _ h1, h2⟩
        · exact ⟨op, by simp, hc⟩

/-! ### the claims -/

/-- **C89 fails.**  However often a transfer has failed, the CP has never counted more than one error. -/
theorem C89_count (C : Cipher) (info : PdM.Info) (q : Pd) (f : FileSt) (hq : Reached C info q) (hf : q.file = some f) : f.errors ≤ 1 := by
  obtain ⟨i, sk, n, p, ops, o, hn, hr⟩ := hq
  exact (uncounted hn hr).errors f hf

/-- **C89 fails.**  In no history in which the application has not asked for it does the CP decide to abort a transfer. -/
theorem C89_never (C : Cipher) (info : PdM.Info) (i : Nat) (sk : Bool) (n : Nat) (p q s : Pd) (ops : List Op) (op : Op) (o o' : List Out)
    (hn : newPd info i sk n = some p) (hr : run C p ops = .ok (q, o)) (hc : ∀ x ∈ ops, ¬ Cancels x) (hs : step C q op = .ok (s, o')) :
    ¬ Begins q s Id.ABORT := by
  have U := uncounted hn hr
  have hq : Reached C info q := ⟨i, sk, n, p, ops, o, hn, hr⟩
  rintro ⟨hi, hp, hid⟩
  by_cases hop : ∀ cb env, op ≠ .update cb env
  · have hph : s.phyState = q.phyState := (step_api hs hop).2.2.1
    rw [hph, hi] at hp; cases hp
  · obtain ⟨cb, env, rfl⟩ : ∃ cb env, op = .update cb env := by
      refine Classical.byContradiction fun hn => hop fun cb env h => hn ⟨cb, env, h⟩
    obtain ⟨⟨s1, o1, y⟩, hu, h1⟩ := Res.bind_eq_ok.mp hs
    injection h1 with h1; injection h1 with e1 e2; subst e1 e2
    cases (stateUpdate_inv hq.inv.cp hu).file hq.inv with
    | same h _ hne => exact (hne hi hp).2 hid
    | built room o r hm _ _ _ _ _ => rcases hm with h | ⟨h, -⟩ <;> rw [hi] at h <;> cases h
    | heard id body r h0 _ _ _ _ => rw [replyOf_wait h0] at hi; cases hi
    | chosen o n _ _ _ h1 _ _ h3 =>
      have h3 := h3 hp
      rw [hid] at h3
      rcases h3 with rfl | h3
      · unfold File.getCommand at h1
        split at h1
        · injection h1 with _ h1; injection h1 with _ h1; cases h1
        rename_i f hf
        have he := U.errors f hf
        have hcr : f.cancelReq = false := by
          cases hcr : f.cancelReq with
          | false => rfl
          | true => obtain ⟨x, hx, hx'⟩ := U.cancel f hf hcr; exact absurd hx' (hc x hx)
        split at h1
        · injection h1 with _ h1; injection h1 with _ h1; cases h1
        rw [if_neg (by rw [hcr]; rintro (h | h); · omega
                       · cases h)] at h1
        split at h1
        · injection h1 with _ h1; injection h1 with _ h1; split at h1 <;> cases h1
        split at h1
        · injection h1 with _ h1; injection h1 with _ h1; injection h1 with h1; exact absurd h1 (by decide)
        · injection h1 with _ h1; injection h1 with _ h1; injection h1 with h1; exact absurd h1 (by decide)
      · exact absurd h3 (by decide)

/-- **C89 (partial).**  What does end a transfer at once is a file that cannot be read: then the CP sends ABORT in place of the fragment,
and forgets the transfer.  Missing: failures at the PD's end, or on the way. -/
theorem C89_partial (C : Cipher) (info : PdM.Info) (q : Pd) (cb : Bool) (env : Env) (f : FileSt) (hr : Reached C info q) (hid : q.cmdId = Id.FILETRANSFER)
    (hs : q.phyState = .sendCmd) (hf : q.file = some f) (hip : f.state = .inprog) (hm : 69 ≤ q.txBufSize)
    (hmis : (q.flags.hasMark && q.flags.skipMark) = false) (hcap : 256 ≤ env.sendCap) (hread : ∀ n off, (env.fread n off).1 ≤ 0) :
    ∃ s o n off, ∃ k : Spec.Wire.Packet, step C q (.update cb env) = .ok (s, o) ∧ s.phyState = .replyWait ∧ s.file = some File.reset ∧
      fileOuts o = [.fread n off] ∧ Spec.Wire.sent o = [k.bytes] ∧ k.id = some 0xA2#8 := by
  have I := hr.inv
  have hbuf := hr.buffered.buf
  have hoff := cmdTx_dataOff q
  obtain ⟨room, hroom⟩ : ∃ room : Int, room = (q.txBufSize : Int) - (cmdTx q).dataOff := ⟨_, rfl⟩
  have hgt : 11 < room := by omega
  have ht : File.txBuild (some f) env room = .ok (some File.reset, [.fread (room - 27) (toI32 f.offset)], none) := by
    have e : room - 11 - 16 = room - 27 := by omega
    simp only [File.txBuild, e, hip]
    rw [if_neg (by simp), if_neg (by omega), if_neg (by simp), if_pos (hread _ _)]
  have hb : commandBody C (nextCmd q) env (cmdTx q) (q.txBufSize - (cmdTx q).dataOff) =
      .ok ⟨{ nextCmd q with file := some File.reset }, cmdTx q, [.fread (room - 27) (toI32 f.offset)], some [b8 Id.ABORT]⟩ := by
    rw [← hroom]
    unfold commandBody
    have : (nextCmd q).cmdId = Id.FILETRANSFER := hid
    have hf' : (nextCmd q).file = some f := hf
    simp only [this, hf']
    iterate 11 (rw [if_neg (by decide)])
    rw [if_pos trivial, ht]
    rfl
  have hle : q.txBufSize ≤ 256 := by unfold Pd.txBufSize; split <;> omega
  have done : ∀ {p1 : Pd} {k : Spec.Wire.Packet}, buildAndSend C q env = .ok (p1, [.fread (room - 27) (toI32 f.offset)] ++ Phy.sendOuts q env k.bytes,
      decide (k.bytes.length ≤ env.sendCap)) → k.bytes.length ≤ q.txBufSize → k.id = some 0xA2#8 → p1.file = some File.reset →
      ∃ s o n off, ∃ k : Spec.Wire.Packet, step C q (.update cb env) = .ok (s, o) ∧ s.phyState = .replyWait ∧ s.file = some File.reset ∧
        fileOuts o = [.fread n off] ∧ Spec.Wire.sent o = [k.bytes] ∧ k.id = some 0xA2#8 := by
    intro p1 k h hlen hk hf
    rw [decide_eq_true (show k.bytes.length ≤ env.sendCap by omega)] at h
    have hstep : step C q (.update cb env) = .ok (sentState p1 env.now, [.fread (room - 27) (toI32 f.offset)] ++ Phy.sendOuts q env k.bytes) := by
      show (stateUpdate C cb q env >>= fun x => Except.ok (x.1, x.2.1)) = _
      rw [update_send C cb q env hs h]
      rfl
    refine ⟨_, _, room - 27, toI32 f.offset, k, hstep, rfl, hf, ?_, ?_, hk⟩
    · rw [fileOuts_append]
      have : fileOuts (Phy.sendOuts q env k.bytes) = [] := by unfold Phy.sendOuts; split <;> rfl
      rw [this]; rfl
    · rw [sent_append, sendOuts_sent, List.take_of_length_le (by omega)]
      rfl
  cases hsc : q.flags.scActive with
  | true =>
    have hl : (secPkt C q [b8 Id.ABORT]).bytes.length ≤ q.txBufSize := by
      rw [secPkt_length C q _ (by simp)]
      simp
      split <;> omega
    obtain ⟨buf, h, -⟩ := buildAndSend_secured C q env _ _ [b8 Id.ABORT] I.cp hsc hm hmis hbuf hb (by simp) hl
    exact done h hl rfl rfl
  | false =>
    have hl : (plainCmd q [b8 Id.ABORT]).bytes.length ≤ q.txBufSize := by
      rw [Phy.bytes_length]
      show (if (!q.flags.skipMark) = true then 1 else 0) + (5 + 0 + 1 + 2) ≤ _
      split <;> omega
    obtain ⟨p1, h, hs⟩ := buildAndSend_plain C q env _ [b8 Id.ABORT] I.cp hsc (by rw [hid]; decide) hm hmis hbuf hb rfl hsc rfl rfl rfl (by simp) hl
    refine done h hl rfl ?_
    unfold Phy.Sending at hs
    rw [hs]

/-! ### samples -/

open Sample

/-- The sample CP is sending a file of ten bytes, four at a time, and bytes arrive. -/
def filing89 (x : List Byte) (now : Int := 0) : Op := .update true (sender (content 10) 4 { now := now, recv := blocks64 x, random := rndA })

/-- it has met the sample PD, and is told to send the file -/
def starts89 : List Op :=
  meets [4, 0, 0] ++ [.fileOps, .send (sender (content 10) 4 { now := 0 }) (.fileTx { id := 1, flags := 0#32 })]

/-- a fragment, and the answer to it -/
def answers89 (r : List Byte) (k : Nat) (now : Int := 0) : List Op := [filing89 [] now, filing89 [] now, filing89 (reply (b8 k) r) now]

/-- a history of the sample CP: the connection, the reads, the ids of the packets sent, and whether there is still a transfer -/
def sees89 (ops : List Op) : Option ((CpState × List Out) × List (Option Byte) × Option (FileTxState × Nat)) :=
  match run xorCipher cp ops with
  | .ok (q, o) => some ((q.state, fileOuts o), (Spec.Wire.sent o).map (fun l => l[6]?), q.file.map fun (f : FileSt) => (f.state, f.offset))
  | .error _ => none

/-- **C89 fails.**  A PD refuses the first fragment with NAK, at every new connection: thirteen times the CP sends it again, after the
tenth as before. Another PD just acknowledges it: the CP sends it fourteen times in a row. -/
theorem C89_forever :
    sees89 (starts89 ++ answers89 [b8 Id.NAK, 3] 2 ++ (List.range 12).flatMap fun (i : Nat) =>
      let t : Int := 1000000 * (i + 1)
      [hears [] t] ++ meetsAt t [4, 0, 0] 0 1 ++ answers89 [b8 Id.NAK, 3] 2 t) =
      some ((.offline, .fopen 1 0 :: List.replicate 13 (.fread 223 0)),
        (List.replicate 13 [some 0x61#8, some 0x62#8, some 0x7C#8]).flatten, some (.inprog, 0)) ∧
    sees89 (starts89 ++ [2, 3, 1, 2, 3, 1, 2, 3, 1, 2, 3, 1, 2, 3].flatMap fun k => answers89 [b8 Id.ACK] k) =
      some ((.online, .fopen 1 0 :: List.replicate 14 (.fread 223 0)),
        [some 0x61#8, some 0x62#8] ++ List.replicate 14 (some 0x7C#8), some (.inprog, 0)) := by
  refine ⟨?_, ?_⟩ <;> decide +kernel

/-- the hypotheses of `C89_never` are met: nothing in these histories asks to cancel -/
example : ∀ x ∈ starts89 ++ answers89 [b8 Id.NAK, 3] 2, ¬ Cancels x := by
  intro x hx hc
  obtain ⟨env, c, rfl, h⟩ := hc
  simp [starts89, meets, asks, hears, answers89, filing89] at hx
  obtain ⟨-, rfl⟩ := hx
  exact absurd h (by decide)

/-- and those of `C89_partial` -/
example : (match run xorCipher cp (starts89 ++ [filing89 []]) with
    | .ok (q, _) => decide (q.cmdId = Id.FILETRANSFER ∧ q.phyState = .sendCmd ∧ q.file.map (fun (f : FileSt) => f.state) = some .inprog ∧
        69 ≤ q.txBufSize ∧ (q.flags.hasMark && q.flags.skipMark) = false)
    | .error _ => false) = true := by decide +kernel

end Osdp.CpM
