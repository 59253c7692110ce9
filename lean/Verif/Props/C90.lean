import Verif.Props.C89
import Verif.Lemmas.CpResend

/-!
# C90: the PD sets the pace of a file transfer

A file transfer status carries a delay and control bits: bit 0 clear asks the CP to send nothing else meanwhile, bit 2 set asks it to
poll for the next status instead of sending the next fragment.
-/

namespace Osdp

namespace Spec.FileLog

/-- the delay in a file transfer status reply, in milliseconds -/
def delay : List Byte → Option Nat
  | [_, lo, hi, _, _, _, _] => some (lo.toNat + 256 * hi.toNat)
  | _ => none

/-- the control byte of a file transfer status reply -/
def control : List Byte → Option Byte
  | [c, _, _, _, _, _, _] => some c
  | _ => none

end Spec.FileLog

namespace CpM

open Spec.FileLog (delay control)

/-! ### spec -/

/-- The PD's file transfer status `body` arrives, at the time `t`, while a file is being sent. -/
def StatusAt (C : Cipher) (q : Pd) (op : Op) (t : Int) (body : List Byte) : Prop :=
  ∃ cb env f, op = .update cb env ∧ env.now = t ∧ replyOf C q env = some (0x7A#8, body) ∧ q.file = some f ∧ f.state = .inprog

/-- The history from `s` on, while visits take place at times that satisfy `W`, no further status arrives and no other file is to be sent
(cancelling, and everything else, is allowed): the state reached, and what was done. -/
inductive Meanwhile (C : Cipher) (W : Int → Prop) (s : Pd) : Pd → List Out → Prop
  | start : Meanwhile C W s s []
  | next {q r : Pd} {op : Op} {o o' : List Out} : Meanwhile C W s q o → step C q op = .ok (r, o') →
      (∀ cb env, op = .update cb env → W env.now ∧ ∀ id body, replyOf C q env = some (id, body) → id ≠ 0x7A#8) →
      (∀ env c, op = .send env (.fileTx c) → c.flags.getLsbD 31 = true) → Meanwhile C W s r (o ++ o')

/-- no fragment is read or sent -/
def NoFragment (o : List Out) : Prop :=
  (∀ n off, Out.fread n off ∉ o) ∧ ∀ bs ∈ Spec.Wire.sent o, ∃ k : Spec.Wire.Packet, ∃ n, bs = k.bytes.take n ∧ k.id ≠ some 0x7C#8

/-! ### lemmas -/

theorem response_stat {C : Cipher} {p : Pd} {env : Env} {body : List Byte} (h : p.replyId = Id.FTSTAT) :
    response C p env body = File.statDecode p.file env body >>= fun r =>
      .ok ({ p with file := r.file, reqOffline := p.reqOffline || r.offline }, r.outs, if r.ok then .none else .generic) := by
  unfold response
  dsimp only
  rw [h]
  iterate 14 (rw [if_neg (by decide)])
  rw [if_pos rfl]

/-- a status heard takes effect, and ends the exchange -/
theorem status_heard {C : Cipher} {cb : Bool} {p q : Pd} {env : Env} {outs : List Out} {y : Bool} {body : List Byte} (I : Inv p)
    (h : Update C cb p env q outs y) (hr : replyOf C p env = some (0x7A#8, body)) :
    ∃ r, File.statDecode p.file env body = .ok r ∧ q.file = r.file ∧ q.phyState = .idle := by
  have hps := replyOf_wait hr
  have hh : Phy.heard C p env = some (0x7A#8, body) := by unfold replyOf at hr; rwa [if_pos hps] at hr
  have key : ∀ {q : Pd} {o : List Out} {rc : CpErr}, Reply C p env q o rc → (rc = .none ∨ rc = .generic) ∧
      ∃ r, File.statDecode p.file env body = .ok r ∧ q.file = r.file := by
    intro q o rc hy
    have no : ∀ {q : Pd} {r : Phy.PktRet}, r ≠ .none → Phy.checkPacket p env = .ok (q, r) → False := by
      intro q r hn h1
      unfold Phy.heard at hh
      rw [h1] at hh
      cases r <;> first | exact hn rfl | cases hh
    cases hy with
    | nothing h1 _ h2 => exact (no (by rcases h2 with rfl | rfl <;> simp) h1).elim
    | bad h1 _ h2 => exact (no (by rcases h2 with rfl | rfl | rfl <;> simp) h1).elim
    | busy h1 _ => exact (no (by simp) h1).elim
    | seq h1 _ => exact (no (by simp) h1).elim
    | refused h1 _ h2 _ h3 =>
      unfold Phy.heard at hh
      rw [h1] at hh; dsimp only at hh; rw [h2] at hh; dsimp only at hh
      rw [if_pos (by omega)] at hh; cases hh
    | @reply p1 p2 _ d id b _ _ h1 hc h2 hd hl hid _ hb hrs _ =>
      have := Phy.heard_of h1 h2 hl hid
      rw [hh, ← hb] at this
      injection this with this; injection this with e1 e2; subst e1 e2
      rw [response_stat (show _ = 0x7A by rfl)] at hrs
      obtain ⟨r, k1, k2⟩ := Res.bind_eq_ok.mp hrs
      injection k2 with k2; injection k2 with e1 k2; injection k2 with e2 e3; subst e1 e2 e3
      refine ⟨by split <;> simp, r, ?_, rfl⟩
      rw [← k1]
      show _ = File.statDecode p2.file env body
      rw [PdM.transp_file (hc.transp.trans hd.transp)]
  cases h with
  | hold h _ => rw [hps] at h; cases h
  | sent hm _ => rcases hm with h | ⟨h, -⟩ <;> rw [hps] at h <;> cases h
  | unsent hm _ _ => rcases hm with h | ⟨h, -⟩ <;> rw [hps] at h <;> cases h
  | idle h _ => rcases h with h | h | h <;> rw [hps] at h <;> cases h
  | waiting _ hw => cases hw with | waiting h _ => have := (key h).1; simp at this
  | again _ hw =>
    cases hw with
    | busy h => have := (key h).1; simp at this
    | retry h _ _ => have := (key h).1; simp at this
  | @replied p1 _ o1 o2 rc _ hw hrc h' =>
    have M := waited_mid I hps hw
    have hd : (p1.phyState = .done ∨ p1.phyState = .err) ∧ ∃ r, File.statDecode p.file env body = .ok r ∧ p1.file = r.file := by
      cases hw with
      | answered h => exact ⟨.inl rfl, (key h).2⟩
      | ignored h _ _ => exact ⟨.inl rfl, (key h).2⟩
      | failed h _ => exact ⟨.inr rfl, (key h).2⟩
      | exhausted h _ _ => exact ⟨.inr rfl, (key h).2⟩
      | busy _ => simp at hrc
      | retry _ _ _ => simp at hrc
      | waiting _ _ => simp at hrc
    obtain ⟨hd, r, k1, k2⟩ := hd
    refine ⟨r, k1, (settle_file hd h').1.trans k2, ?_⟩
    cases settle_inv h' with
    | command h0 _ _ => rcases hd with h | h <;> rw [h] at h0 <;> cases h0
    | nothing h0 _ _ => rcases hd with h | h <;> rw [h] at h0 <;> cases h0
    | over _ h2 h3 => exact (advanced (over_pre M h2) h3).2

theorem isSet_bit (fl m : BitVec 32) (v : Bool) (hm : m ≠ 0) : File.isSet (File.setFlagV fl m v) m = v := by
  unfold File.isSet File.setFlagV
  cases v with
  | true =>
    rw [if_pos rfl]
    have : (fl ||| m) &&& m = m := by
      refine BitVec.eq_of_getLsbD_eq fun i hi => ?_
      rw [BitVec.getLsbD_and, BitVec.getLsbD_or]
      cases fl.getLsbD i <;> cases m.getLsbD i <;> rfl
    rw [this]; simp
  | false =>
    rw [if_neg (by simp)]
    have : (fl &&& ~~~m) &&& m = 0 := by
      refine BitVec.eq_of_getLsbD_eq fun i hi => ?_
      rw [BitVec.getLsbD_and, BitVec.getLsbD_and, BitVec.getLsbD_not]
      cases fl.getLsbD i <;> cases m.getLsbD i <;> simp
    rw [this]
    simpa using fun h => hm h.symm

theorem isSet_other (fl m k : BitVec 32) (v : Bool) (hk : k &&& m = 0) : File.isSet (File.setFlagV fl m v) k = File.isSet fl k := by
  unfold File.isSet File.setFlagV
  have hb : ∀ i, k.getLsbD i = true → m.getLsbD i = false := by
    intro i hi
    have := congrArg (fun x : BitVec 32 => x.getLsbD i) hk
    simpa [hi] using this
  have : (if v then fl ||| m else fl &&& ~~~m) &&& k = fl &&& k := by
    refine BitVec.eq_of_getLsbD_eq fun i hi => ?_
    rw [BitVec.getLsbD_and, BitVec.getLsbD_and]
    cases hki : k.getLsbD i with
    | false => simp
    | true =>
      cases v
      · rw [if_neg (by simp), BitVec.getLsbD_and, BitVec.getLsbD_not, hb i hki]; simp [hi]
      · rw [if_pos rfl, BitVec.getLsbD_or, hb i hki]; simp
  rw [this]

/-- what a status leaves in the record of the transfer -/
theorem statDecode_pace {f : FileSt} {env : Env} {body : List Byte} {r : File.Result} {d : Nat} {c : Byte} (hf : f.state = .inprog)
    (h : File.statDecode (some f) env body = .ok r) (hd : delay body = some d) (hc : control body = some c) :
    ∃ g, r.file = some g ∧ g.tstamp = env.now ∧ g.waitTimeMs = d ∧ File.isSet g.flags File.FLAG_EXCLUSIVE = !c.getLsbD 0 ∧
      File.isSet g.flags File.FLAG_POLL_RESP = c.getLsbD 2 := by
  unfold delay at hd
  split at hd
  · rename_i c' d0 d1 s0 s1 x0 x1
    injection hd with hd; injection hc with hc; subst hd hc
    have e1 : (c' &&& 1#8 == 0#8) = !c'.getLsbD 0 := (by decide : ∀ c : Byte, (c &&& 1#8 == 0#8) = !c.getLsbD 0) c'
    have e2 : (c' &&& 4#8 != 0#8) = c'.getLsbD 2 := (by decide : ∀ c : Byte, (c &&& 4#8 != 0#8) = c.getLsbD 2) c'
    have hx : ∀ a b e, File.isSet (File.setFlagV (File.setFlagV (File.setFlagV f.flags File.FLAG_EXCLUSIVE a) File.FLAG_PLAIN_TEXT b)
        File.FLAG_POLL_RESP e) File.FLAG_EXCLUSIVE = a := by
      intro a b e
      rw [isSet_other _ _ _ _ (by decide), isSet_other _ _ _ _ (by decide), isSet_bit _ _ _ (by decide)]
    have hp : ∀ fl e, File.isSet (File.setFlagV fl File.FLAG_POLL_RESP e) File.FLAG_POLL_RESP = e :=
      fun fl e => isSet_bit _ _ _ (by decide)
    have hw : ofLe [d0, d1] = d0.toNat + 256 * d1.toNat := by unfold ofLe ofLe ofLe; omega
    have hfl := hx (c' &&& 1#8 == 0#8) (c' &&& 2#8 != 0#8) (c' &&& 4#8 != 0#8)
    rw [e1] at hfl
    unfold File.statDecode at h
    dsimp only at h
    rw [if_neg (by simp [hf])] at h
    have fin : ∀ g : FileSt, g.tstamp = env.now → g.waitTimeMs = ofLe [d0, d1] →
        g.flags = File.setFlagV (File.setFlagV (File.setFlagV f.flags File.FLAG_EXCLUSIVE (c' &&& 1#8 == 0#8)) File.FLAG_PLAIN_TEXT
          (c' &&& 2#8 != 0#8)) File.FLAG_POLL_RESP (c' &&& 4#8 != 0#8) → r.file = some g →
        ∃ g, r.file = some g ∧ g.tstamp = env.now ∧ g.waitTimeMs = d0.toNat + 256 * d1.toNat ∧
          File.isSet g.flags File.FLAG_EXCLUSIVE = !c'.getLsbD 0 ∧ File.isSet g.flags File.FLAG_POLL_RESP = c'.getLsbD 2 := by
      intro g h1 h2 h3 h4
      refine ⟨g, h4, h1, h2.trans hw, ?_, ?_⟩
      · rw [h3, e1]; exact hfl
      · rw [h3, hp, e2]
    split at h
    · cases h
    split at h
    · injection h with h; subst h; exact fin _ rfl rfl rfl rfl
    split at h
    · injection h with h; subst h; exact fin _ rfl rfl rfl rfl
    split at h
    · injection h with h; subst h; exact fin _ rfl rfl rfl rfl
    split at h
    · injection h with h; subst h; exact fin _ rfl rfl rfl rfl
    · injection h with h; subst h; exact fin _ rfl rfl rfl rfl
  · cases hd

/-- the transfer is over, or has been told90 to wait -/
def Tells (t : Int) (d : Nat) (x y : Bool) (f : FileSt) : Prop :=
  f.state = .idle ∨ f.state = .done ∨ (f.tstamp = t ∧ f.waitTimeMs = d ∧ File.isSet f.flags File.FLAG_EXCLUSIVE = x ∧
    File.isSet f.flags File.FLAG_POLL_RESP = y)

structure PacedFile (t : Int) (d : Nat) (x y : Bool) (q : Pd) : Prop where
  file : ∃ f, q.file = some f ∧ Tells t d x y f
  cmd : q.phyState ≠ .idle → q.cmdId ≠ Id.FILETRANSFER

theorem tells_reset {t : Int} {d : Nat} {x y : Bool} : Tells t d x y File.reset := .inl rfl

/-- a status does its work -/
theorem status_paced {C : Cipher} {info : PdM.Info} {q s : Pd} {op : Op} {o : List Out} {t : Int} {body : List Byte} {d : Nat} {c : Byte}
    (hq : Reached C info q) (hs : step C q op = .ok (s, o)) (hst : StatusAt C q op t body) (hd : delay body = some d)
    (hc : control body = some c) : PacedFile t d (!c.getLsbD 0) (c.getLsbD 2) s ∧ s.phyState = .idle := by
  obtain ⟨cb, env, f, rfl, rfl, hr, hf, hip⟩ := hst
  obtain ⟨⟨s1, o1, y⟩, hu, h1⟩ := Res.bind_eq_ok.mp hs
  injection h1 with h1; injection h1 with e1 e2; subst e1 e2
  obtain ⟨r, h1, h2, h3⟩ := status_heard hq.inv (stateUpdate_inv hq.inv.cp hu) hr
  rw [hf] at h1
  obtain ⟨g, k1, k2, k3, k4, k5⟩ := statDecode_pace hip h1 hd hc
  exact ⟨⟨⟨g, h2.trans k1, .inr (.inr ⟨k2, k3, k4, k5⟩)⟩, fun h => absurd h3 h⟩, h3⟩

/-- told90 to wait, or to poll, the transfer does not ask for a fragment -/
theorem tells_next {t now : Int} {d : Nat} {x y : Bool} {f : FileSt} {g : Option FileSt} {o : List Out} {n : File.Next} (hf : Tells t d x y f)
    (hw : t ≤ now ∧ now - t < d ∨ y = true) (h : File.getCommand (some f) now = (g, o, n)) :
    n ≠ .send Id.FILETRANSFER ∧ ∃ f', g = some f' ∧ Tells t d x y f' := by
  unfold File.getCommand at h
  dsimp only at h
  split at h
  · injection h with h1 h; injection h with h2 h3; subst h1 h2 h3
    exact ⟨by simp, f, rfl, hf⟩
  rename_i hst
  have hf' : f.tstamp = t ∧ f.waitTimeMs = d ∧ File.isSet f.flags File.FLAG_EXCLUSIVE = x ∧ File.isSet f.flags File.FLAG_POLL_RESP = y := by
    rcases hf with h | h | h
    · exact absurd (.inl h) hst
    · exact absurd (.inr h) hst
    · exact h
  obtain ⟨h1, h2, h3, h4⟩ := hf'
  split at h
  · unfold File.abort at h
    dsimp only at h
    split at h <;> (injection h with h5 h; injection h with h6 h7; subst h5 h6 h7)
    · exact ⟨by simp [Id.ABORT, Id.FILETRANSFER], _, rfl, tells_reset⟩
    · exact ⟨by simp [Id.ABORT, Id.FILETRANSFER], f, rfl, hf⟩
  split at h
  · injection h with h5 h; injection h with h6 h7; subst h5 h6 h7
    exact ⟨by split <;> simp, f, rfl, hf⟩
  rename_i hnw
  rcases hw with hw | hw
  · exact absurd ⟨by omega, by omega⟩ hnw
  · rw [h4, hw, if_pos rfl] at h
    injection h with h5 h; injection h with h6 h7; subst h5 h6 h7
    exact ⟨by simp [Id.POLL, Id.FILETRANSFER], f, rfl, hf⟩

theorem noFragment_nil : NoFragment [] := ⟨(fun _ _ h => by cases h), (fun _ h => by cases h)⟩

theorem NoFragment.append {a b : List Out} (h : NoFragment a) (h' : NoFragment b) : NoFragment (a ++ b) := by
  refine ⟨fun n off hm => ?_, fun bs hb => ?_⟩
  · rcases List.mem_append.mp hm with hm | hm
    · exact h.1 n off hm
    · exact h'.1 n off hm
  · rw [sent_append] at hb
    rcases List.mem_append.mp hb with hb | hb
    · exact h.2 bs hb
    · exact h'.2 bs hb

theorem fread_fileOuts {o : List Out} {n off : Int} (h : Out.fread n off ∈ o) : Out.fread n off ∈ fileOuts o :=
  List.mem_filter.mpr ⟨h, rfl⟩

/-- one call keeps the pace -/
theorem PacedFile.step {C : Cipher} {info : PdM.Info} {q s : Pd} {op : Op} {o : List Out} {t : Int} {d : Nat} {x y : Bool} (hq : Reached C info q)
    (P : PacedFile t d x y q) (hs : CpM.step C q op = .ok (s, o))
    (hu : ∀ cb env, op = .update cb env → (t ≤ env.now ∧ env.now - t < d ∨ y = true) ∧
      ∀ id body, replyOf C q env = some (id, body) → id ≠ 0x7A#8)
    (hn : ∀ env c, op = .send env (.fileTx c) → c.flags.getLsbD 31 = true) : PacedFile t d x y s ∧ NoFragment o := by
  have I := hq.inv
  obtain ⟨f, hf, ht⟩ := P.file
  by_cases hop : ∀ cb env, op ≠ .update cb env
  · obtain ⟨h1, -, h2, -, -, -, -, -, h3, -⟩ := step_api hs hop
    have hc : s.phyState ≠ .idle → s.cmdId ≠ Id.FILETRANSFER := by rw [h2, h3]; exact P.cmd
    have hno : ∀ {o : List Out}, Spec.Wire.sent o = [] → (∀ n off, Out.fread n off ∉ o) → NoFragment o :=
      fun h h' => ⟨h', fun bs hb => by rw [h] at hb; cases hb⟩
    rcases api_file hop hs with ⟨h, rfl⟩ | ⟨-, h, rfl⟩ | ⟨env, c, ok, rfl, -, h⟩
    · exact ⟨⟨⟨f, h.trans hf, ht⟩, hc⟩, noFragment_nil⟩
    · exact ⟨⟨⟨_, h, tells_reset⟩, hc⟩, noFragment_nil⟩
    · have hnf : NoFragment o := hno h1 fun n off hm => by
        have e : o = (File.txCommand q.file env c.id c.flags).2.1 := by rw [h]
        rw [e] at hm
        obtain ⟨a, b, h⟩ := txCommand_outs _ hm
        cases h
      rcases txCommand_inv h with ⟨h, -⟩ | ⟨f', hf', hip, -, -, h, -⟩ | ⟨f', n, -, -, hnc, -⟩
      · exact ⟨⟨⟨f, h.trans hf, ht⟩, hc⟩, hnf⟩
      · rw [hf] at hf'; injection hf' with hf'; subst hf'
        exact ⟨⟨⟨_, h, ht⟩, hc⟩, hnf⟩
      · have hb := hn env c rfl
        have := congrArg (fun x : BitVec 32 => x.getLsbD 31) hnc
        rw [BitVec.getLsbD_and, hb] at this
        exact absurd this (by decide)
  · obtain ⟨cb, env, rfl⟩ : ∃ cb env, op = .update cb env := by
      refine Classical.byContradiction fun hn => hop fun cb env h => hn ⟨cb, env, h⟩
    obtain ⟨hw, hno⟩ := hu cb env rfl
    obtain ⟨⟨s1, o1, y1⟩, hup, h1⟩ := Res.bind_eq_ok.mp hs
    injection h1 with h1; injection h1 with e1 e2; subst e1 e2
    have hU := stateUpdate_inv I.cp hup
    have hcmd : s1.phyState ≠ .idle → s1.cmdId ≠ Id.FILETRANSFER := by
      intro hne
      cases hU.visit I with
      | on _ h2 _ _ h3 _ _ _ => rw [h2]; exact P.cmd h3
      | @command p1 _ id h1 h2 h3 =>
        show id ≠ _
        rcases stateGetCmd_file h2 with ⟨-, -, h, -⟩ | ⟨n, -, -, h4, h5, h6⟩
        · exact h
        · rintro rfl
          rw [hf] at h4
          rcases h6 h3 with h | h
          · exact (tells_next ht hw h4).1 h
          · exact absurd h (by decide)
      | @nothing p1 _ o1 o2 h1 h2 h3 => exact absurd (advanced (p := { p1 with cmdId := 0 }) (nothing_pre I.mid h1 h2) h3).2 hne
      | over _ _ M _ h2 h3 => exact absurd (advanced (over_pre M h2) h3).2 hne
    have hsent : ∀ bs ∈ Spec.Wire.sent o1, ∃ k : Spec.Wire.Packet, ∃ n, bs = k.bytes.take n ∧ k.id ≠ some 0x7C#8 := by
      intro bs hb
      rcases hU.packet I with h | ⟨hm, k, hk, h, -⟩
      · rw [h] at hb; cases hb
      · rw [h] at hb
        rw [List.mem_singleton] at hb
        refine ⟨k, _, hb, fun hid => ?_⟩
        have hni : q.phyState ≠ .idle := by rcases hm with h | ⟨h, -⟩ <;> simp [h]
        rcases hk.id with h' | ⟨h', -⟩
        · rw [hid] at h'
          injection h' with h'
          refine P.cmd hni ?_
          have hc := I.cmd hni
          have hlt : q.cmdId < 256 := by
            revert hc
            cases q.state <;> unfold CmdOf <;> intro hc
            case online =>
              have : ∀ n ∈ [Id.POLL, Id.LSTAT, Id.ISTAT, Id.OSTAT, Id.RSTAT, Id.OUT, Id.LED, Id.BUZ, Id.TEXT, Id.COMSET,
                Id.KEYSET, Id.MFG, Id.FILETRANSFER, Id.ABORT], n < 256 := by decide
              exact this _ hc
            case probe => exact hc.elim
            case offline => exact hc.elim
            all_goals (rw [hc]; decide)
          have h'' := congrArg BitVec.toNat h'
          unfold b8 at h''
          rw [BitVec.toNat_ofNat (x := q.cmdId), Nat.mod_eq_of_lt hlt] at h''
          exact h''.symm
        · exact P.cmd hni h'
    cases hU.file I with
    | same h ho _ =>
      refine ⟨⟨⟨f, h.trans hf, ht⟩, hcmd⟩, fun n off hm => ?_, hsent⟩
      have := fread_fileOuts hm
      rw [ho] at this; cases this
    | built room o r hm hid _ _ _ _ =>
      exact absurd hid (P.cmd (by rcases hm with h | ⟨h, -⟩ <;> simp [h]))
    | heard id body r hr hid _ _ _ =>
      exact absurd (BitVec.eq_of_toNat_eq (y := 0x7A#8) hid) (hno id body hr)
    | chosen o n _ _ _ h1 ho _ _ =>
      rw [hf] at h1
      obtain ⟨-, f', hf', ht'⟩ := tells_next ht hw h1
      refine ⟨⟨⟨f', hf', ht'⟩, hcmd⟩, fun n' off hm => ?_, hsent⟩
      have := fread_fileOuts hm
      rw [ho] at this
      unfold File.getCommand at h1
      dsimp only at h1
      split at h1
      · injection h1 with _ h1; injection h1 with h1 _; subst h1; cases this
      split at h1
      · unfold File.abort at h1
        dsimp only at h1
        split at h1 <;> (injection h1 with _ h1; injection h1 with h1 _; subst h1; simp at this)
      split at h1
      · injection h1 with _ h1; injection h1 with h1 _; subst h1; cases this
      split at h1 <;> (injection h1 with _ h1; injection h1 with h1 _; subst h1; cases this)

theorem paced_meanwhile {C : Cipher} {info : PdM.Info} {s r : Pd} {o : List Out} {t : Int} {d : Nat} {x y : Bool} {W : Int → Prop}
    (hs : Reached C info s) (P : PacedFile t d x y s) (hW : ∀ now, W now → t ≤ now ∧ now - t < d ∨ y = true)
    (h : Meanwhile C W s r o) : Reached C info r ∧ PacedFile t d x y r ∧ NoFragment o := by
  induction h with
  | start => exact ⟨hs, P, noFragment_nil⟩
  | next _ h1 h2 h3 ih =>
    obtain ⟨k1, k2, k3⟩ := ih
    obtain ⟨k4, k5⟩ := k2.step k1 h1 (fun cb env h => ⟨hW _ (h2 cb env h).1, (h2 cb env h).2⟩) h3
    exact ⟨k1.step h1, k4, k3.append k5⟩

/-! ### the claims -/

/-- **C90, the delay.**  For as long as the PD has asked, the CP neither reads nor sends a fragment of the file. -/
theorem C90_delay (C : Cipher) (info : PdM.Info) (q s r : Pd) (op : Op) (o o' : List Out) (t : Int) (body : List Byte) (d : Nat)
    (hq : Reached C info q) (hs : step C q op = .ok (s, o)) (hst : StatusAt C q op t body) (hd : delay body = some d)
    (h : Meanwhile C (fun now => t ≤ now ∧ now < t + d) s r o') : NoFragment o' := by
  obtain ⟨c, hc⟩ : ∃ c, control body = some c := by
    unfold Spec.FileLog.delay at hd
    split at hd
    · exact ⟨_, rfl⟩
    · cases hd
  exact (paced_meanwhile (hq.step hs) (status_paced hq hs hst hd hc).1 (fun now h => .inl (by omega)) h).2.2

/-- **C90, on request.**  Asked to poll for the next status, the CP sends no further fragment before that status has come, however long
that takes. -/
theorem C90_poll (C : Cipher) (info : PdM.Info) (q s r : Pd) (op : Op) (o o' : List Out) (t : Int) (body : List Byte) (c : Byte)
    (hq : Reached C info q) (hs : step C q op = .ok (s, o)) (hst : StatusAt C q op t body) (hc : control body = some c)
    (hb : c.getLsbD 2 = true) (h : Meanwhile C (fun _ => True) s r o') : NoFragment o' := by
  obtain ⟨d, hd⟩ : ∃ d, delay body = some d := by
    unfold Spec.FileLog.control at hc
    split at hc
    · exact ⟨_, rfl⟩
    · cases hc
  exact (paced_meanwhile (hq.step hs) (status_paced hq hs hst hd hc).1 (fun now _ => .inr hb) h).2.2

/-- what is known after some time -/
theorem told90 {C : Cipher} {info : PdM.Info} {q s r : Pd} {op : Op} {o o' : List Out} {t : Int} {body : List Byte} {d : Nat} {c : Byte}
    {W : Int → Prop} {f : FileSt}
    (hq : Reached C info q) (hs : step C q op = .ok (s, o)) (hst : StatusAt C q op t body) (hd : delay body = some d)
    (hc : control body = some c) (hW : ∀ now, W now → t ≤ now ∧ now < t + d ∨ c.getLsbD 2 = true) (h : Meanwhile C W s r o')
    (hf : r.file = some f) (hip : f.state = .inprog) :
    Inv r ∧ f.tstamp = t ∧ f.waitTimeMs = d ∧ File.isSet f.flags File.FLAG_EXCLUSIVE = !c.getLsbD 0 ∧
      File.isSet f.flags File.FLAG_POLL_RESP = c.getLsbD 2 ∧ f.errors ≤ 1 := by
  obtain ⟨k1, k2, -⟩ := paced_meanwhile (hq.step hs) (status_paced hq hs hst hd hc).1
    (fun now hw => by rcases hW now hw with h | h; · exact .inl (by omega)
                      · exact .inr h) h
  obtain ⟨f', hf', ht⟩ := k2.file
  rw [hf] at hf'; injection hf' with hf'; subst hf'
  refine ⟨k1.inv, ?_⟩
  rcases ht with h | h | ⟨a, b, e, g⟩
  · rw [hip] at h; cases h
  · rw [hip] at h; cases h
  · exact ⟨a, b, e, g, C89_count C info r f k1 hf⟩

theorem online_next {p : Pd} {env : Env} {f : FileSt} {o : List Out} {id : Nat} (hon : p.state = .online) (hqe : p.cmdQueue = [])
    (hf : p.file = some f) (hg : File.getCommand (some f) env.now = (some f, o, .send id)) : stateGetCmd p env = .ok (p, o, id) := by
  unfold stateGetCmd
  rw [hon]
  dsimp only
  unfold onlineCommand
  split
  · rename_i h; rw [hqe] at h; cases h
  rw [hf, hg]
  show Except.ok (({ p with file := some f } : Pd), o, id) = _
  rw [← hf]

/-- **C90, silence on request.**  If the PD has asked for nothing else to be sent, then during the delay the CP begins no command, unless
its application gives it one. -/
theorem C90_exclusive (C : Cipher) (info : PdM.Info) (q s r x : Pd) (op : Op) (o o' o'' : List Out) (t : Int) (body : List Byte) (d : Nat) (c : Byte)
    (cb : Bool) (env : Env) (f : FileSt)
    (hq : Reached C info q) (hs : step C q op = .ok (s, o)) (hst : StatusAt C q op t body) (hd : delay body = some d)
    (hc : control body = some c) (hb : c.getLsbD 0 = false) (h : Meanwhile C (fun now => t ≤ now ∧ now < t + d) s r o')
    (hf : r.file = some f) (hip : f.state = .inprog) (hcr : f.cancelReq = false)
    (hi : r.phyState = .idle) (hon : r.state = .online) (hqe : r.cmdQueue = []) (hnow : t ≤ env.now ∧ env.now < t + d)
    (hx : CpM.step C r (.update cb env) = .ok (x, o'')) : x.phyState = .idle ∧ Spec.Wire.sent o'' = [] := by
  obtain ⟨I, h1, h2, h3, h4, h5⟩ := told90 hq hs hst hd hc (fun _ hw => .inl hw) h hf hip
  have hg : File.getCommand (some f) env.now = (some f, [], .hold) := by
    unfold File.getCommand
    dsimp only
    rw [if_neg (by simp [hip]), if_neg (by rw [hcr]; rintro (h | h); · omega
                                           · cases h), if_pos ⟨by omega, by omega⟩, h3, hb]
    rfl
  have hget : stateGetCmd r env = .ok (r, [], 0) := by
    unfold stateGetCmd
    rw [hon]
    dsimp only
    unfold onlineCommand
    split
    · rename_i h; rw [hqe] at h; cases h
    rw [hf, hg]
    show Except.ok (({ r with file := some f } : Pd), ([] : List Out), 0) = _
    rw [← hf]
  obtain ⟨⟨s1, o1, y1⟩, hup, k⟩ := Res.bind_eq_ok.mp hx
  injection k with k; injection k with e1 e2; subst e1 e2
  rw [update_idle C cb r env hi, settle_nothing hi hget] at hup
  obtain ⟨⟨a, b⟩, k1, k2⟩ := Res.bind_eq_ok.mp hup
  obtain ⟨⟨a', b'⟩, k3, k4⟩ := Res.bind_eq_ok.mp k1
  injection k4 with k4; injection k4 with e1 e2; subst e1 e2
  injection k2 with k2; injection k2 with e1 k2; injection k2 with e2 e3; subst e1 e2 e3
  refine ⟨(advanced (p := { r with cmdId := 0 }) (nothing_pre I.mid hi hget) k3).2, ?_⟩
  refine sent_nil fun z hz bs hb => ?_
  rcases advance_outs k3 z hz with rfl | ⟨i, e, rfl⟩ <;> cases hb

/-- **C90, afterwards.**  When the delay is over, the next command is a fragment, or a POLL if the PD has asked to be polled. -/
theorem C90_after (C : Cipher) (info : PdM.Info) (q s r : Pd) (op : Op) (o o' : List Out) (t : Int) (body : List Byte) (d : Nat) (c : Byte)
    (cb : Bool) (env : Env) (f : FileSt)
    (hq : Reached C info q) (hs : step C q op = .ok (s, o)) (hst : StatusAt C q op t body) (hd : delay body = some d)
    (hc : control body = some c) (h : Meanwhile C (fun now => t ≤ now ∧ now < t + d ∨ c.getLsbD 2 = true) s r o')
    (hf : r.file = some f) (hip : f.state = .inprog) (hcr : f.cancelReq = false)
    (hi : r.phyState = .idle) (hon : r.state = .online) (hqe : r.cmdQueue = []) (hnow : t + d ≤ env.now) :
    CpM.step C r (.update cb env) = .ok ({ r with cmdId := if c.getLsbD 2 then 0x60 else 0x7C, phyState := .sendCmd }, []) := by
  obtain ⟨I, h1, h2, h3, h4, h5⟩ := told90 hq hs hst hd hc (fun _ hw => hw) h hf hip
  have hg : File.getCommand (some f) env.now = (some f, [], .send (if c.getLsbD 2 then Id.POLL else Id.FILETRANSFER)) := by
    unfold File.getCommand
    dsimp only
    rw [if_neg (by simp [hip]), if_neg (by rw [hcr]; rintro (h | h); · omega
                                           · cases h), if_neg (by omega), h4]
    cases c.getLsbD 2 <;> rfl
  show (stateUpdate C cb r env >>= _) = _
  rw [update_idle C cb r env hi, settle_command hi (online_next hon hqe hf hg) (by cases c.getLsbD 2 <;> decide)]
  rfl

/-! ### samples -/

open Sample

/-- delay 500 ms, nothing else meanwhile -/
def stat500 : List Byte := [0, 0xF4, 1, 0, 0, 0, 0]

/-- no delay, poll for the next status -/
def statPoll : List Byte := [5, 0, 0, 0, 0, 0, 0]

/-- the first fragment has been sent, and this is the status -/
def first90 (b : List Byte) : List Op := starts89 ++ answers89 (b8 Id.FTSTAT :: b) 2

/-- The hypotheses are met: during the delay nothing is sent for 400 ms, and then the next fragment. -/
example : delay stat500 = some 500 ∧ (match run xorCipher cp (starts89 ++ [filing89 [], filing89 []]) with
    | .ok (q, _) => decide (replyOf xorCipher q (sender (content 10) 4 { now := 0, recv := blocks64 (reply (b8 2) (b8 Id.FTSTAT :: stat500)), random := rndA }) =
        some (0x7A#8, stat500) ∧ q.file.map (fun (f : FileSt) => f.state) = some .inprog)
    | .error _ => false) = true ∧
  sees89 (first90 stat500 ++ [filing89 [] 100, filing89 [] 200, filing89 [] 300, filing89 [] 400]) =
    some ((.online, [.fopen 1 0, .fread 223 0]), [some 0x61#8, some 0x62#8, some 0x7C#8], some (.inprog, 4)) ∧
  sees89 (first90 stat500 ++ [filing89 [] 100, filing89 [] 200, filing89 [] 300, filing89 [] 400, filing89 [] 500, filing89 [] 500]) =
    some ((.online, [.fopen 1 0, .fread 223 0, .fread 223 4]), [some 0x61#8, some 0x62#8, some 0x7C#8, some 0x7C#8], some (.inprog, 4)) := by
  refine ⟨?_, ?_, ?_, ?_⟩ <;> decide +kernel

/-- Without that request the CP polls meanwhile. -/
example : sees89 (first90 (1 :: stat500.drop 1) ++ [filing89 [] 100, filing89 [] 100]) =
    some ((.online, [.fopen 1 0, .fread 223 0]), [some 0x61#8, some 0x62#8, some 0x7C#8, some 0x60#8], some (.inprog, 4)) := by
  decide +kernel

/-- **C90 fails** for a PD that asks to be polled: the CP polls, but when the PD answers the POLL with the status it had promised, saying
that the next fragment may come, the CP regards that as an error and goes offline. -/
theorem C90_polled :
    control statPoll = some 5#8 ∧
    sees89 (first90 statPoll ++ [filing89 [] 10, filing89 [] 10]) =
      some ((.online, [.fopen 1 0, .fread 223 0]), [some 0x61#8, some 0x62#8, some 0x7C#8, some 0x60#8], some (.inprog, 4)) ∧
    sees89 (first90 statPoll ++ [filing89 [] 10, filing89 [] 10, filing89 (reply (b8 3) (b8 Id.FTSTAT :: statOk)) 10]) =
      some ((.offline, [.fopen 1 0, .fread 223 0]), [some 0x61#8, some 0x62#8, some 0x7C#8, some 0x60#8], some (.inprog, 4)) := by
  refine ⟨?_, ?_, ?_⟩ <;> decide +kernel

end CpM

end Osdp
