import Verif.Props.C40
import Verif.Props.C90

/-!
# C100: a PD can keep other commands off while it receives a file

Bit 0 of the control byte in a file transfer status says whether other commands may be sent between the fragments ("interleaving",
src/osdp_file.c:271, 152).  A PD that clears it asks for the exclusive attention of the CP.

The full statement: from such a status on, until the next status or the end of the transfer, the CP begins no command but those the transfer
needs: the next fragment, the POLL for the next status where the PD asked for one, and ABORT where the application cancels.

It holds as far as the CP's own commands go (`C100_partial`).  Commands of the application are taken from the queue first
(src/osdp_cp.c:929-938), without a look at the flag: each of them is sent between the fragments (`C100_interrupted`, `C100_led`).
-/

namespace Osdp.CpM

open Spec.FileLog (delay control)

/-! ### what the PD has asked for stays with the transfer -/

/-- the transfer is over, or knows what the PD has asked for -/
def Minds (x y : Bool) (f : FileSt) : Prop :=
  f.state = .idle ∨ f.state = .done ∨ (File.isSet f.flags File.FLAG_EXCLUSIVE = x ∧ File.isSet f.flags File.FLAG_POLL_RESP = y)

theorem minds_next {now : Int} {x y : Bool} {f : FileSt} {g : Option FileSt} {o : List Out} {n : File.Next} (hf : Minds x y f)
    (h : File.getCommand (some f) now = (g, o, n)) : ∃ f', g = some f' ∧ Minds x y f' := by
  unfold File.getCommand at h
  dsimp only at h
  split at h
  · injection h with h1 h; subst h1; exact ⟨f, rfl, hf⟩
  split at h
  · unfold File.abort at h
    dsimp only at h
    split at h <;> (injection h with h5 h; subst h5)
    · exact ⟨_, rfl, .inl rfl⟩
    · exact ⟨f, rfl, hf⟩
  split at h
  · injection h with h5 h; subst h5; exact ⟨f, rfl, hf⟩
  split at h <;> (injection h with h5 h; subst h5; exact ⟨f, rfl, hf⟩)

theorem minds_build {env : Env} {room : Int} {x y : Bool} {f : FileSt} {g : Option FileSt} {o : List Out} {r : Option (List Byte)} (hf : Minds x y f)
    (h : File.txBuild (some f) env room = .ok (g, o, r)) : ∃ f', g = some f' ∧ Minds x y f' := by
  obtain ⟨f0, e, h⟩ := File.txBuild_inv h
  injection e with e; subst e
  rcases h with ⟨-, -, rfl, -⟩ | ⟨-, -, rfl, -⟩ | ⟨-, -, -, ⟨-, rfl, -⟩ | ⟨n, bytes, -, -, -, -, rfl, -⟩⟩
  · exact ⟨_, rfl, .inl rfl⟩
  · exact ⟨_, rfl, hf⟩
  · exact ⟨_, rfl, .inl rfl⟩
  · exact ⟨_, rfl, hf⟩

theorem minds_step {C : Cipher} {info : PdM.Info} {q s : Pd} {op : Op} {o : List Out} {x y : Bool} (hq : Reached C info q)
    (P : ∃ f, q.file = some f ∧ Minds x y f) (hs : CpM.step C q op = .ok (s, o))
    (hu : ∀ cb env, op = .update cb env → ∀ id body, replyOf C q env = some (id, body) → id ≠ 0x7A#8)
    (hn : ∀ env c, op = .send env (.fileTx c) → c.flags.getLsbD 31 = true) : ∃ f, s.file = some f ∧ Minds x y f := by
  have I := hq.inv
  obtain ⟨f, hf, ht⟩ := P
  by_cases hop : ∀ cb env, op ≠ .update cb env
  · rcases api_file hop hs with ⟨h, rfl⟩ | ⟨-, h, rfl⟩ | ⟨env, c, ok, rfl, -, h⟩
    · exact ⟨f, h.trans hf, ht⟩
    · exact ⟨_, h, .inl rfl⟩
    · rcases txCommand_inv h with ⟨h, -⟩ | ⟨f', hf', hip, -, -, h, -⟩ | ⟨f', n, -, -, hnc, -⟩
      · exact ⟨f, h.trans hf, ht⟩
      · rw [hf] at hf'; injection hf' with hf'; subst hf'
        exact ⟨_, h, ht⟩
      · have hb := hn env c rfl
        have := congrArg (fun x : BitVec 32 => x.getLsbD 31) hnc
        rw [BitVec.getLsbD_and, hb] at this
        exact absurd this (by decide)
  · obtain ⟨cb, env, rfl⟩ : ∃ cb env, op = .update cb env := by
      refine Classical.byContradiction fun hn => hop fun cb env h => hn ⟨cb, env, h⟩
    obtain ⟨⟨s1, o1, y1⟩, hup, h1⟩ := Res.bind_eq_ok.mp hs
    injection h1 with h1; injection h1 with e1 e2; subst e1 e2
    cases (stateUpdate_inv I.cp hup).file I with
    | same h _ _ => exact ⟨f, h.trans hf, ht⟩
    | built room o r _ _ _ _ hb _ => rw [hf] at hb; exact minds_build ht hb
    | heard id body r hr hid _ _ _ => exact absurd (BitVec.eq_of_toNat_eq (y := 0x7A#8) hid) (hu cb env rfl id body hr)
    | chosen o n _ _ _ h1 _ _ _ => rw [hf] at h1; exact minds_next ht h1

theorem minds_meanwhile {C : Cipher} {info : PdM.Info} {s r : Pd} {o : List Out} {x y : Bool} {W : Int → Prop}
    (hs : Reached C info s) (P : ∃ f, s.file = some f ∧ Minds x y f) (h : Meanwhile C W s r o) :
    Reached C info r ∧ ∃ f, r.file = some f ∧ Minds x y f := by
  induction h with
  | start => exact ⟨hs, P⟩
  | next _ h1 h2 h3 ih => exact ⟨ih.1.step h1, minds_step ih.1 ih.2 h1 (fun cb env h => (h2 cb env h).2) h3⟩

/-- the flags of the transfer while it goes on -/
theorem minded {C : Cipher} {info : PdM.Info} {q s r : Pd} {op : Op} {o o' : List Out} {t : Int} {body : List Byte} {c : Byte} {f : FileSt}
    (hq : Reached C info q) (hs : step C q op = .ok (s, o)) (hst : StatusAt C q op t body) (hc : control body = some c)
    (h : Meanwhile C (fun _ => True) s r o') (hf : r.file = some f) (hip : f.state = .inprog) :
    Reached C info r ∧ File.isSet f.flags File.FLAG_EXCLUSIVE = !c.getLsbD 0 ∧ File.isSet f.flags File.FLAG_POLL_RESP = c.getLsbD 2 := by
  obtain ⟨d, hd⟩ : ∃ d, delay body = some d := by
    unfold Spec.FileLog.control at hc
    split at hc
    · exact ⟨_, rfl⟩
    · cases hc
  obtain ⟨g, hg, ht⟩ := (status_paced hq hs hst hd hc).1.file
  obtain ⟨k1, f', hf', k2⟩ := minds_meanwhile (x := !c.getLsbD 0) (y := c.getLsbD 2) (hq.step hs)
    ⟨g, hg, ht.imp_right fun h => h.imp_right fun h => ⟨h.2.2.1, h.2.2.2⟩⟩ h
  rw [hf] at hf'; injection hf' with hf'; subst hf'
  rcases k2 with h | h | h
  · rw [hip] at h; cases h
  · rw [hip] at h; cases h
  · exact ⟨k1, h⟩

/-! ### the claims -/

/-- **C100, partial: the CP's own commands.**  A PD's file transfer status with bit 0 of its control byte clear is heard; then follows any history
without a further status.  While the transfer goes on, a CP with no command of the application to send begins the next fragment, the POLL the PD
asked for with bit 2, or, if the application has cancelled the transfer, ABORT; and nothing else, in particular none of its regular POLLs.  Missing:
commands of the application, which are not held back. -/
theorem C100_partial (C : Cipher) (info : PdM.Info) (q s r x : Pd) (op : Op) (o o' o'' : List Out) (t : Int) (body : List Byte) (c : Byte)
    (cb : Bool) (env : Env) (f : FileSt) (hq : Reached C info q) (hs : step C q op = .ok (s, o)) (hst : StatusAt C q op t body)
    (hc : control body = some c) (hb : c.getLsbD 0 = false) (h : Meanwhile C (fun _ => True) s r o') (hf : r.file = some f)
    (hip : f.state = .inprog) (hi : r.phyState = .idle) (hon : r.state = .online) (hqe : r.cmdQueue = [])
    (hx : step C r (.update cb env) = .ok (x, o'')) (hsd : x.phyState = .sendCmd) :
    (x.cmdId = 0x7C ∧ c.getLsbD 2 = false) ∨ (x.cmdId = 0x60 ∧ c.getLsbD 2 = true) ∨ (x.cmdId = 0xA2 ∧ f.cancelReq = true) := by
  obtain ⟨hr, h1, h2⟩ := minded hq hs hst hc h hf hip
  have h5 := C89_count C info r f hr hf
  rw [hb] at h1
  have begins : ∀ {g : FileSt} {o3 : List Out} {id : Nat}, File.getCommand (some f) env.now = (some g, o3, .send id) → 0 < id → x.cmdId = id := by
    intro g o3 id hg hid
    have hget : stateGetCmd r env = .ok ({ r with file := some g }, o3, id) := by
      rw [show stateGetCmd r env = onlineCommand r env by unfold stateGetCmd; rw [hon]]
      unfold onlineCommand
      split
      · rename_i h; rw [hqe] at h; cases h
      · rw [hf, hg]
    have hx' : (stateUpdate C cb r env >>= fun y => Except.ok (y.1, y.2.1)) = .ok (x, o'') := hx
    rw [update_idle C cb r env hi, settle_command hi hget hid] at hx'
    injection hx' with hx'; injection hx' with e1 _; subst e1; rfl
  by_cases hcr : f.cancelReq = true
  · refine .inr (.inr ⟨begins (g := File.reset) (o3 := [.fclose]) (id := Id.ABORT) ?_ (by decide), hcr⟩)
    unfold File.getCommand File.abort
    dsimp only
    rw [if_neg (by simp [hip]), if_pos (.inr hcr), if_pos hip]
  · have hno : ¬ (f.errors > 10 ∨ f.cancelReq = true) := by rintro (h | h); · omega
                                                            · exact hcr h
    by_cases hw : f.waitTimeMs ≠ 0 ∧ env.now - f.tstamp < f.waitTimeMs
    · exfalso
      have hg : File.getCommand (some f) env.now = (some f, [], .hold) := by
        unfold File.getCommand
        dsimp only
        rw [if_neg (by simp [hip]), if_neg hno, if_pos hw, h1]
        rfl
      have hget : stateGetCmd r env = .ok (r, [], 0) := by
        unfold stateGetCmd
        rw [hon]
        dsimp only
        unfold onlineCommand
        split
        · rename_i h; rw [hqe] at h; cases h
        rw [hf, hg]
        show Except.ok (({ r with file := some f } : Pd), ([] : List Out), 0) = _
        rw [← hf]
      obtain ⟨⟨s1, o1, y1⟩, hup, k⟩ := Res.bind_eq_ok.mp hx
      injection k with k; injection k with e1 e2; subst e1 e2
      rw [update_idle C cb r env hi, settle_nothing hi hget] at hup
      obtain ⟨⟨a, b⟩, k1, k2⟩ := Res.bind_eq_ok.mp hup
      obtain ⟨⟨a', b'⟩, k3, k4⟩ := Res.bind_eq_ok.mp k1
      injection k4 with k4; injection k4 with e1 e2; subst e1 e2
      injection k2 with k2; injection k2 with e1 k2; subst e1
      rw [(advanced (p := { r with cmdId := 0 }) (nothing_pre hr.inv.mid hi hget) k3).2] at hsd
      cases hsd
    · have hg : File.getCommand (some f) env.now = (some f, [], .send (if c.getLsbD 2 then Id.POLL else Id.FILETRANSFER)) := by
        unfold File.getCommand
        dsimp only
        rw [if_neg (by simp [hip]), if_neg hno, if_neg hw, h2]
        cases c.getLsbD 2 <;> rfl
      cases h2 : c.getLsbD 2 with
      | true => rw [h2] at hg; exact .inr (.inl ⟨begins hg (by decide), rfl⟩)
      | false => rw [h2] at hg; exact .inl ⟨begins hg (by decide), rfl⟩

/-- **C100 fails for every command of the application.**  In the same situation, but with a command of the application in the queue (any but a KEYSET or an
unknown status query, which may be dropped): the next visit begins that command, not a fragment. -/
theorem C100_interrupted (C : Cipher) (info : PdM.Info) (q s r x : Pd) (op : Op) (o o' o'' : List Out) (t : Int) (body : List Byte) (c : Byte)
    (cb : Bool) (env : Env) (f : FileSt) (k : Cmd) (rest : List Cmd) (hq : Reached C info q) (hs : step C q op = .ok (s, o))
    (hst : StatusAt C q op t body) (hc : control body = some c) (hb : c.getLsbD 0 = false) (h : Meanwhile C (fun _ => True) s r o')
    (hf : r.file = some f) (hip : f.state = .inprog) (hi : r.phyState = .idle) (hon : r.state = .online) (hqe : r.cmdQueue = k :: rest)
    (hk : (∀ y, k ≠ .keyset y) ∧ ∀ y, k = .status y → y.type ≠ .other) (hx : step C r (.update cb env) = .ok (x, o'')) :
    File.isSet f.flags File.FLAG_EXCLUSIVE = true ∧ x.phyState = .sendCmd ∧ wireId k = some x.cmdId ∧ x.cmdId ≠ 0x7C := by
  obtain ⟨hr, h1, -⟩ := minded hq hs hst hc h hf hip
  rw [hb] at h1
  have hd : droppable k = false := by
    unfold droppable
    cases k with
    | keyset y => exact absurd rfl (hk.1 y)
    | status y => have := hk.2 y rfl; simpa using this
    | _ => rfl
  obtain ⟨-, ⟨-, k2, k3⟩ | k1⟩ := C40_first hr hon hi hqe hx
  · refine ⟨h1, k3, k2, fun h7 => ?_⟩
    rw [h7] at k2
    cases k with
    | status y => cases ht : y.type <;> simp [wireId, ht] at k2
    | _ => simp [wireId] at k2
  · rw [hd] at k1; cases k1

/-! ### samples -/

open Sample

/-- no delay, nothing else to be sent -/
def statAlone : List Byte := [0, 0, 0, 0, 0, 0, 0]

/-- what the application wants meanwhile -/
def glow : Cmd := .led ⟨0, 1, ⟨1, 2, 3, 4, 5, 300⟩, ⟨1, 2, 3, 4, 5, 77⟩⟩

/-- The hypotheses are met: the status arrives while the file is sent and asks for exclusive attention; afterwards the CP is idle and online, its transfer
in progress, with no command queued or one. -/
example : (control statAlone).map (·.getLsbD 0) = some false ∧ (match run xorCipher cp (starts89 ++ [filing89 [], filing89 []]) with
    | .ok (q, _) => decide (replyOf xorCipher q (sender (content 10) 4 { now := 0, recv := blocks64 (reply (b8 2) (b8 Id.FTSTAT :: statAlone)), random := rndA }) =
        some (0x7A#8, statAlone) ∧ q.file.map (fun (f : FileSt) => f.state) = some .inprog)
    | .error _ => false) = true ∧
  ([first90 statAlone, first90 statAlone ++ [.send { now := 0 } glow]].map fun ops => match run xorCipher cp ops with
    | .ok (q, _) => some (q.state, q.phyState, q.file.map (fun (f : FileSt) => f.state), q.cmdQueue.length)
    | .error _ => none) = [some (.online, .idle, some .inprog, 0), some (.online, .idle, some .inprog, 1)] := by
  refine ⟨?_, ?_, ?_⟩ <;> decide +kernel

/-- **C100 violated.**  The PD has asked for exclusive attention and for nothing for 500 ms; the LED command of the application goes out 10 ms later
(0x69), between two fragments (0x7C).  Without it the second fragment follows the first. -/
theorem C100_led :
    sees89 (first90 stat500 ++ [.send { now := 0 } glow, filing89 [] 10, filing89 [] 10]) =
      some ((.online, [.fopen 1 0, .fread 223 0]), [some 0x61#8, some 0x62#8, some 0x7C#8, some 0x69#8], some (.inprog, 4)) ∧
    sees89 (first90 statAlone ++ [.send { now := 0 } glow, filing89 [] 10, filing89 [] 10, filing89 (reply 3 [b8 Id.ACK]) 10, filing89 [] 10, filing89 [] 10]) =
      some ((.online, [.fopen 1 0, .fread 223 0, .fread 223 4]), [some 0x61#8, some 0x62#8, some 0x7C#8, some 0x69#8, some 0x7C#8], some (.inprog, 4)) ∧
    sees89 (first90 statAlone ++ [filing89 [] 10, filing89 [] 10]) =
      some ((.online, [.fopen 1 0, .fread 223 0, .fread 223 4]), [some 0x61#8, some 0x62#8, some 0x7C#8, some 0x7C#8], some (.inprog, 4)) := by
  refine ⟨?_, ?_, ?_⟩ <;> decide +kernel

end Osdp.CpM
