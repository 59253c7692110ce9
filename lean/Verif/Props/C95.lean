import Verif.Props.C90
import Verif.Props.C52

/-!
# C95: a PD may take its time to process a file

When the PD has got the whole file but is not yet done with it, it answers the last fragment with the status 3.  The CP is then to send
FILETRANSFER without data until the status changes (src/osdp_file.h:44-51).

Full statement: after the status 3 the CP asks again and again with empty fragments, without reading from the file; the first other status
ends the transfer: done for 1 and 2, failed for the others; the connection stays.
-/

namespace Osdp

namespace Spec.FileLog

/-- a fragment without data at the end of a file of `size` bytes: what follows the command code -/
def emptyFragment (fileId : Byte) (size : Nat) : List Byte :=
  let le (n : Nat) : List Byte := (List.range 4).map fun i => BitVec.ofNat 8 (n / 256 ^ i)
  fileId :: (le size ++ le size ++ [0, 0])

/-- the status code in a file transfer status reply -/
def statusCode : List Byte → Option Int
  | [_, _, _, lo, hi, _, _] =>
    let n : Int := lo.toNat + 256 * hi.toNat
    some (if n < 32768 then n else n - 65536)
  | _ => none

end Spec.FileLog

namespace CpM

open Spec.FileLog (delay control emptyFragment statusCode)

/-! ### spec -/

/-- The CP has sent all of the file, and the PD has said that it is not yet done with it. -/
def Finishing (q : Pd) : Prop := ∃ f, q.file = some f ∧ f.state = .keepAlive

/-- Any history from `s` on in which the application does not begin another transfer (it may ask to cancel). -/
inductive Onward (C : Cipher) (s : Pd) : Pd → List Out → Prop
  | start : Onward C s s []
  | next {q r : Pd} {op : Op} {o o' : List Out} : Onward C s q o → step C q op = .ok (r, o') →
      (∀ env c, op = .send env (.fileTx c) → c.flags.getLsbD 31 = true) → Onward C s r (o ++ o')

/-! ### lemmas -/

/-- the transfer stays as it is, or is forgotten -/
def Unended (q : Pd) : Prop := ∃ f, q.file = some f ∧ (f.state = .keepAlive ∨ f.state = .idle)

theorem Unended.step {C : Cipher} {info : PdM.Info} {q s : Pd} {op : Op} {o : List Out} (hq : Reached C info q) (P : Unended q)
    (hs : CpM.step C q op = .ok (s, o)) (hn : ∀ env c, op = .send env (.fileTx c) → c.flags.getLsbD 31 = true) :
    Unended s ∧ ∀ n off, Out.fread n off ∉ o := by
  have I := hq.inv
  obtain ⟨f, hf, ht⟩ := P
  have hni : f.state ≠ .inprog := by rcases ht with h | h <;> rw [h] <;> decide
  by_cases hop : ∀ cb env, op ≠ .update cb env
  · rcases api_file hop hs with ⟨h, rfl⟩ | ⟨-, h, rfl⟩ | ⟨env, c, ok, rfl, -, h⟩
    · exact ⟨⟨f, h.trans hf, ht⟩, fun _ _ h => by cases h⟩
    · exact ⟨⟨_, h, .inr rfl⟩, fun _ _ h => by cases h⟩
    · have hnf : ∀ n off, Out.fread n off ∉ o := fun n off hm => by
        have e : o = (File.txCommand q.file env c.id c.flags).2.1 := by rw [h]
        rw [e] at hm
        obtain ⟨a, b, h⟩ := txCommand_outs _ hm
        cases h
      rcases txCommand_inv h with ⟨h, -⟩ | ⟨f', hf', hip, -, -, h, -⟩ | ⟨f', n, -, -, hnc, -⟩
      · exact ⟨⟨f, h.trans hf, ht⟩, hnf⟩
      · rw [hf] at hf'; injection hf' with hf'; subst hf'
        exact absurd hip hni
      · have hb := hn env c rfl
        have := congrArg (fun x : BitVec 32 => x.getLsbD 31) hnc
        rw [BitVec.getLsbD_and, hb] at this
        exact absurd this (by decide)
  · obtain ⟨cb, env, rfl⟩ : ∃ cb env, op = .update cb env := by
      refine Classical.byContradiction fun hn => hop fun cb env h => hn ⟨cb, env, h⟩
    obtain ⟨⟨s1, o1, y1⟩, hup, h1⟩ := Res.bind_eq_ok.mp hs
    injection h1 with h1; injection h1 with e1 e2; subst e1 e2
    have hU := stateUpdate_inv I.cp hup
    have nofr : fileOuts o1 = [] → ∀ n off, Out.fread n off ∉ o1 := fun h n off hm => by
      have := fread_fileOuts hm
      rw [h] at this; cases this
    cases hU.file I with
    | same h ho _ => exact ⟨⟨f, h.trans hf, ht⟩, nofr ho⟩
    | built room o r hm hid _ _ hb ho =>
      rw [hf] at hb
      unfold File.txBuild at hb
      dsimp only at hb
      split at hb
      · cases hb
      · rename_i hst
        have hk : f.state = .keepAlive := by
          rcases ht with h | h
          · exact h
          · exact absurd ⟨hni, by rw [h]; decide⟩ hst
        split at hb
        · injection hb with hb; injection hb with e1 hb; injection hb with e2 e3
          exact ⟨⟨_, e1.symm, .inr rfl⟩, nofr (ho.trans e2.symm)⟩
        · injection hb with hb; injection hb with e1 hb; injection hb with e2 e3
          exact ⟨⟨f, e1.symm, ht⟩, nofr (ho.trans e2.symm)⟩
    | heard id body r hr hid hd hfile ho =>
      rw [hf] at hd
      unfold File.statDecode at hd
      dsimp only at hd
      rw [if_pos hni] at hd
      injection hd with hd; subst hd
      exact ⟨⟨f, hfile, ht⟩, nofr ho⟩
    | chosen o n _ _ _ h1 ho _ _ =>
      rw [hf] at h1
      unfold File.getCommand at h1
      dsimp only at h1
      split at h1
      · injection h1 with e1 h1; injection h1 with e2 _
        exact ⟨⟨f, e1.symm, ht⟩, nofr (ho.trans e2.symm)⟩
      split at h1
      · unfold File.abort at h1
        dsimp only at h1
        rw [if_neg hni] at h1
        injection h1 with e1 h1; injection h1 with e2 _
        exact ⟨⟨f, e1.symm, ht⟩, nofr (ho.trans e2.symm)⟩
      split at h1
      · injection h1 with e1 h1; injection h1 with e2 _
        exact ⟨⟨f, e1.symm, ht⟩, nofr (ho.trans e2.symm)⟩
      split at h1 <;>
      · injection h1 with e1 h1; injection h1 with e2 _
        exact ⟨⟨f, e1.symm, ht⟩, nofr (ho.trans e2.symm)⟩

/-- a status that the CP cannot use ends the session -/
theorem status_refused {C : Cipher} {cb : Bool} {p q : Pd} {env : Env} {outs : List Out} {y : Bool} {body : List Byte} {r : File.Result}
    (I : Inv p) (hon : p.state = .online) (h : Update C cb p env q outs y) (hr : replyOf C p env = some (0x7A#8, body))
    (hd : File.statDecode p.file env body = .ok r) (hok : r.ok = false) : q.state = .offline := by
  have hps := replyOf_wait hr
  have hh : Phy.heard C p env = some (0x7A#8, body) := by unfold replyOf at hr; rwa [if_pos hps] at hr
  have key : ∀ {q : Pd} {o : List Out} {rc : CpErr}, Reply C p env q o rc → rc = .generic ∧ q.state = .online ∧ q.replyId = 0x7A := by
    intro q o rc hy
    have no : ∀ {q : Pd} {r : Phy.PktRet}, r ≠ .none → Phy.checkPacket p env = .ok (q, r) → False := by
      intro q r hn h1
      unfold Phy.heard at hh
      rw [h1] at hh
      cases r <;> first | exact hn rfl | cases hh
    cases hy with
    | nothing h1 _ h2 => exact (no (by rcases h2 with rfl | rfl <;> simp) h1).elim
    | bad h1 _ h2 => exact (no (by rcases h2 with rfl | rfl | rfl <;> simp) h1).elim
    | busy h1 _ => exact (no (by simp) h1).elim
    | seq h1 _ => exact (no (by simp) h1).elim
    | refused h1 _ h2 _ h3 =>
      unfold Phy.heard at hh
      rw [h1] at hh; dsimp only at hh; rw [h2] at hh; dsimp only at hh
      rw [if_pos (by omega)] at hh; cases hh
    | @reply p1 p2 _ d id b _ _ h1 hc h2 hd' hl hid _ hb hrs _ =>
      have := Phy.heard_of h1 h2 hl hid
      rw [hh, ← hb] at this
      injection this with this; injection this with e1 e2; subst e1 e2
      rw [response_stat (show _ = 0x7A by rfl)] at hrs
      obtain ⟨r', k1, k2⟩ := Res.bind_eq_ok.mp hrs
      injection k2 with k2; injection k2 with e1 k2; injection k2 with e2 e3; subst e1 e2 e3
      have k1' : File.statDecode p.file env body = .ok r' := by
        rw [← k1]
        show _ = File.statDecode p2.file env body
        rw [PdM.transp_file (hc.transp.trans hd'.transp)]
      rw [hd] at k1'
      injection k1' with k1'; subst k1'
      refine ⟨by rw [hok]; rfl, ?_, rfl⟩
      have T := hc.transp.trans hd'.transp
      show p2.state = _
      rw [← hon]
      unfold Phy.Transp at T; rw [T]; rfl
  cases h with
  | hold h _ => rw [hps] at h; cases h
  | sent hm _ => rcases hm with h | ⟨h, -⟩ <;> rw [hps] at h <;> cases h
  | unsent hm _ _ => rcases hm with h | ⟨h, -⟩ <;> rw [hps] at h <;> cases h
  | idle h _ => rcases h with h | h | h <;> rw [hps] at h <;> cases h
  | waiting _ hw => cases hw with | waiting h _ => have := (key h).1; simp at this
  | again _ hw =>
    cases hw with
    | busy h => have := (key h).1; simp at this
    | retry h _ _ => have := (key h).1; simp at this
  | @replied p1 _ o1 o2 rc _ hw hrc h' =>
    have M := waited_mid I hps hw
    have hd : p1.phyState = .err ∧ p1.state = .online ∧ p1.replyId = 0x7A := by
      cases hw with
      | answered h => have := (key h).1; simp at this
      | ignored h _ _ => have := (key h).1; simp at this
      | failed h _ => exact ⟨rfl, (key h).2⟩
      | exhausted h _ _ => have := (key h).1; simp at this
      | busy _ => simp at hrc
      | retry _ _ _ => simp at hrc
      | waiting _ _ => simp at hrc
    obtain ⟨h1, h2, h3⟩ := hd
    cases settle_inv h' with
    | command h0 _ _ => rw [h1] at h0; cases h0
    | nothing h0 _ _ => rw [h1] at h0; cases h0
    | @over p2 _ o3 o4 ok _ hc ha =>
      have e2 : p2 = p1 := by
        unfold stateCheckReply at hc
        rw [h2] at hc
        dsimp only at hc
        unfold checkOnline at hc
        rw [h3, if_neg (by decide), if_neg (by decide)] at hc
        injection hc with hc; injection hc with hc _
        exact hc.symm
      subst e2
      have hne : (p2.phyState == PhyState.done && ok) = false := by rw [h1]; rfl
      rw [hne, h2] at ha
      unfold advance at ha
      obtain ⟨⟨p3, o5, n⟩, k1, ha⟩ := Res.bind_eq_ok.mp ha
      have k0 : nextErr cb (Phy.stateReset p2 false).1 env.now = .ok ((Phy.stateReset p2 false).1, [], .offline) := by
        unfold nextErr
        rw [show (Phy.stateReset p2 false).1.state = .online from h2]
      rw [k0] at k1
      injection k1 with k1; injection k1 with e1 k1; injection k1 with e2 e3; subst e1 e2 e3
      obtain ⟨⟨p4, o6, m⟩, k2, ha⟩ := Res.bind_eq_ok.mp ha
      have hm : m = .offline := by
        rcases requests_inv k2 with ⟨-, -, -, h⟩ | ⟨-, -, h, -⟩
        · exact h
        · rw [h, show (Phy.stateReset p2 false).1.reqRestartSc = false from M.restart]
          split <;> rfl
      subst hm
      dsimp only at ha
      rw [if_pos (by decide)] at ha
      injection ha with ha; injection ha with e1 _
      rw [← e1]
      rfl

/-- while the PD is not yet done with it, all of the file has been sent -/
def AllSent (q : Pd) : Prop := ∀ f, q.file = some f → f.state = .keepAlive → f.offset = f.size ∧ f.length = 0

theorem statDecode_sent {f g : FileSt} {env : Env} {body : List Byte} {r : File.Result} (h : File.statDecode (some f) env body = .ok r)
    (hg : r.file = some g) (hk : g.state = .keepAlive) : g = f ∨ g.offset = g.size ∧ g.length = 0 := by
  unfold File.statDecode at h
  dsimp only at h
  split at h
  · injection h with h; subst h; injection hg with hg; exact .inl hg.symm
  rename_i hip
  have hip : f.state = .inprog := Classical.byContradiction hip
  split at h
  · split at h
    · cases h
    split at h
    · injection h with h; subst h; injection hg with hg; subst hg
      rw [show _ = FileTxState.inprog from hip] at hk; cases hk
    rename_i hoff
    have hoff := Classical.byContradiction hoff
    split at h
    · injection h with h; subst h; injection hg with hg; subst hg
      exact .inr ⟨hoff, rfl⟩
    split at h
    · injection h with h; subst h; injection hg with hg; subst hg
      exact .inr ⟨hoff, rfl⟩
    split at h
    · injection h with h; subst h; injection hg with hg; subst hg
      exact .inr ⟨hoff, rfl⟩
    · injection h with h; subst h; injection hg with hg; subst hg
      exact .inr ⟨hoff, rfl⟩
  · split at h
    · injection h with h; subst h; injection hg with hg; exact .inl hg.symm
    · cases h

theorem AllSent.step {C : Cipher} {q s : Pd} {op : Op} {o : List Out} (I : Inv q) (A : AllSent q) (hs : CpM.step C q op = .ok (s, o)) :
    AllSent s := by
  intro g hg hk
  have same : s.file = q.file → g.offset = g.size ∧ g.length = 0 := fun h => A g (h ▸ hg) hk
  by_cases hop : ∀ cb env, op ≠ .update cb env
  · rcases api_file hop hs with ⟨h, -⟩ | ⟨-, h, -⟩ | ⟨env, c, ok, rfl, -, h⟩
    · exact same h
    · rw [hg] at h; injection h with h; subst h; cases hk
    · rcases txCommand_inv h with ⟨h, -⟩ | ⟨f, hf, hip, hc, -, h, -⟩ | ⟨f, n, hf, -, -, -, h, -⟩
      · exact same h
      · rw [hg] at h; injection h with h; subst h
        rw [show _ = FileTxState.inprog from hip] at hk; cases hk
      · rw [hg] at h; injection h with h; subst h; cases hk
  · obtain ⟨cb, env, rfl⟩ : ∃ cb env, op = .update cb env := by
      refine Classical.byContradiction fun hn => hop fun cb env h => hn ⟨cb, env, h⟩
    obtain ⟨⟨s1, o1, y⟩, hu, h1⟩ := Res.bind_eq_ok.mp hs
    injection h1 with h1; injection h1 with e1 e2; subst e1 e2
    cases (stateUpdate_inv I.cp hu).file I with
    | same h _ _ => exact same h
    | built room o r _ _ _ _ h1 _ =>
      obtain ⟨f, hf, h | h | h⟩ := File.txBuild_inv h1
      · have h := h.2.2.1; rw [hg] at h; injection h with h; subst h; cases hk
      · exact same (h.2.2.1.trans hf.symm)
      · have hip := h.2.1
        rcases h.2.2.2 with ⟨-, h, -⟩ | ⟨n, bytes, -, -, -, -, h, -⟩
        · rw [hg] at h; injection h with h; subst h; cases hk
        · rw [hg] at h; injection h with h; subst h
          rw [show _ = FileTxState.inprog from hip] at hk; cases hk
    | chosen o n _ _ _ h1 _ _ _ =>
      unfold File.getCommand at h1
      split at h1
      · rename_i hn
        injection h1 with h1 _; exact same (h1.symm.trans hn.symm)
      rename_i f hf
      have same' : some f = s1.file → _ := fun h => same (h.symm.trans hf.symm)
      split at h1
      · injection h1 with h1 _; exact same' h1
      split at h1
      · unfold File.abort at h1
        dsimp only at h1
        split at h1
        · injection h1 with h1 _; rw [hg] at h1; injection h1 with h1; subst h1; cases hk
        · injection h1 with h1 _; exact same' h1
      split at h1
      · injection h1 with h1 _; exact same' h1
      split at h1 <;> (injection h1 with h1 _; exact same' h1)
    | heard id body r _ _ h1 h2 _ =>
      cases hf : q.file with
      | none =>
        rw [hf] at h1
        injection h1 with h1; subst h1
        rw [hg] at h2; cases h2
      | some f =>
        rw [hf] at h1
        rcases statDecode_sent h1 (h2.symm.trans hg) hk with rfl | h
        · exact A _ hf hk
        · exact h

theorem allSent {C : Cipher} {info : PdM.Info} {q : Pd} (hq : Reached C info q) : AllSent q := by
  obtain ⟨i, sk, n, p, ops, o, hn, hr⟩ := hq
  refine run_ind (C := C) (p := p) (fun ops q _ => AllSent q) ?_ (fun ops op q _ s _ hr U h => ?_) hr
  · have : p.file = none := by
      unfold newPd at hn
      split at hn
      · cases hn
      · injection hn with hn; subst hn; rfl
    exact fun f h => by rw [this] at h; cases h
  · exact U.step (Reached.inv (C := C) ⟨i, sk, n, p, _, _, hn, hr⟩) h

theorem header_empty {f : FileSt} (h : f.offset = f.size) (h' : f.length = 0) :
    File.txHeader f = emptyFragment (i8 f.fileId) f.size := by
  unfold File.txHeader emptyFragment
  rw [h, h']
  simp [le32, le16, u32, List.range_succ, byteOf, Nat.shiftRight_eq_div_pow]

/-! ### the claims -/

/-- **C95 (partial), the beginning.**  The status 3 in answer to the last fragment is understood: the CP knows that the PD is not done. -/
theorem C95_begins (C : Cipher) (info : PdM.Info) (q s : Pd) (cb : Bool) (env : Env) (o : List Out) (f : FileSt) (body : List Byte)
    (hq : Reached C info q) (hf : q.file = some f) (hip : f.state = .inprog) (hlast : (f.offset : Int) + f.length = f.size)
    (hsz : f.size < 4294967296) (hr : replyOf C q env = some (0x7A#8, body)) (hb : statusCode body = some 3)
    (hs : step C q (.update cb env) = .ok (s, o)) : Finishing s := by
  have I := hq.inv
  obtain ⟨⟨s1, o1, y1⟩, hup, h1⟩ := Res.bind_eq_ok.mp hs
  injection h1 with h1; injection h1 with e1 e2; subst e1 e2
  obtain ⟨r, h1, h2, -⟩ := status_heard I (stateUpdate_inv I.cp hup) hr
  unfold statusCode at hb
  split at hb
  · rename_i c d0 d1 lo hi r0 r1
    have hi16 : File.int16 lo hi = 3 := by
      replace hb := Option.some.inj hb
      have e1 := hi.isLt
      have e2 := lo.isLt
      have : hi = 0#8 := by
        refine BitVec.eq_of_toNat_eq ?_
        show hi.toNat = 0
        split at hb <;> omega
      subst this
      have : lo = 3#8 := by
        refine BitVec.eq_of_toNat_eq ?_
        show lo.toNat = 3
        simp at hb
        split at hb <;> omega
      subst this
      decide
    have hu : (f.offset + u32 f.length) % 4294967296 = f.size := by unfold u32; omega
    rw [hf] at h1
    unfold File.statDecode at h1
    dsimp only at h1
    rw [if_neg (by simp [hip]), hu, if_neg (by omega), if_neg (by simp), hi16, if_pos rfl] at h1
    injection h1 with h1; subst h1
    exact ⟨_, h2, rfl⟩
  · cases hb

/-- **C95 (partial), asking again.**  As long as the PD is not done, the CP when idle turns to it with a fragment (or a POLL if the PD has
asked for that), except for a delay the PD has asked for. -/
theorem C95_asks (C : Cipher) (info : PdM.Info) (r : Pd) (cb : Bool) (env : Env) (f : FileSt) (hr : Reached C info r)
    (hf : r.file = some f) (hk : f.state = .keepAlive) (hcr : f.cancelReq = false) (hd : f.waitTimeMs ≤ env.now - f.tstamp)
    (hi : r.phyState = .idle) (hon : r.state = .online) (hqe : r.cmdQueue = []) :
    CpM.step C r (.update cb env) =
      .ok ({ r with cmdId := if File.isSet f.flags File.FLAG_POLL_RESP then 0x60 else 0x7C, phyState := .sendCmd }, []) := by
  have h5 := C89_count C info r f hr hf
  have hg : File.getCommand (some f) env.now = (some f, [], .send (if File.isSet f.flags File.FLAG_POLL_RESP then Id.POLL else Id.FILETRANSFER)) := by
    unfold File.getCommand
    dsimp only
    rw [if_neg (by simp [hk]), if_neg (by rw [hcr]; rintro (h | h); · omega
                                          · cases h), if_neg (by omega)]
    cases File.isSet f.flags File.FLAG_POLL_RESP <;> rfl
  show (stateUpdate C cb r env >>= _) = _
  rw [update_idle C cb r env hi, settle_command hi (online_next hon hqe hf hg) (by cases File.isSet f.flags File.FLAG_POLL_RESP <;> decide)]
  rfl

/-- **C95 (partial), what is asked.**  That fragment has no data, and its offset is the end of the file; the file is not read.  Outside the
secure channel that packet is sent; inside it a packet that the other theorems on the secure channel describe. -/
theorem C95_partial (C : Cipher) (info : PdM.Info) (q : Pd) (cb : Bool) (env : Env) (f : FileSt) (hr : Reached C info q)
    (hid : q.cmdId = Id.FILETRANSFER) (hs : q.phyState = .sendCmd) (hf : q.file = some f) (hk : f.state = .keepAlive) (hm : 69 ≤ q.txBufSize)
    (hmis : (q.flags.hasMark && q.flags.skipMark) = false) (hcap : 256 ≤ env.sendCap) :
    ∃ s o bs, step C q (.update cb env) = .ok (s, o) ∧ s.phyState = .replyWait ∧ Finishing s ∧ fileOuts o = [] ∧
      Spec.Wire.sent o = [bs] ∧
      (q.flags.scActive = false → bs = (plainCmd q (0x7C#8 :: emptyFragment (i8 f.fileId) f.size)).bytes) := by
  have I := hr.inv
  have hbuf := hr.buffered.buf
  have hoff := cmdTx_dataOff q
  obtain ⟨a1, a2⟩ := allSent hr f hf hk
  obtain ⟨room, hroom⟩ : ∃ room : Int, room = (q.txBufSize : Int) - (cmdTx q).dataOff := ⟨_, rfl⟩
  have ht : File.txBuild (some f) env room = .ok (some f, [], some (emptyFragment (i8 f.fileId) f.size)) := by
    simp only [File.txBuild, hk]
    rw [if_neg (by simp), if_neg (by omega), if_pos trivial, header_empty a1 a2]
  obtain ⟨body, hbd⟩ : ∃ body, body = 0x7C#8 :: emptyFragment (i8 f.fileId) f.size := ⟨_, rfl⟩
  have hbl : body.length = 12 := by rw [hbd]; rfl
  have hne : body ≠ [] := by rw [hbd]; simp
  have hb : commandBody C (nextCmd q) env (cmdTx q) (q.txBufSize - (cmdTx q).dataOff) =
      .ok ⟨{ nextCmd q with file := some f }, cmdTx q, [], some body⟩ := by
    rw [← hroom]
    unfold commandBody
    have : (nextCmd q).cmdId = Id.FILETRANSFER := hid
    have hf' : (nextCmd q).file = some f := hf
    simp only [this, hf']
    iterate 11 (rw [if_neg (by decide)])
    rw [if_pos trivial, ht, hbd]
    rfl
  have hle : q.txBufSize ≤ 256 := by unfold Pd.txBufSize; split <;> omega
  have done : ∀ {p1 : Pd} {bs : List Byte}, buildAndSend C q env = .ok (p1, [] ++ Phy.sendOuts q env bs,
      decide (bs.length ≤ env.sendCap)) → bs.length ≤ q.txBufSize →
      (q.flags.scActive = false → bs = (plainCmd q body).bytes) → p1.file = some f →
      ∃ s o bs, step C q (.update cb env) = .ok (s, o) ∧ s.phyState = .replyWait ∧ Finishing s ∧ fileOuts o = [] ∧
      Spec.Wire.sent o = [bs] ∧
      (q.flags.scActive = false → bs = (plainCmd q (0x7C#8 :: emptyFragment (i8 f.fileId) f.size)).bytes) := by
    intro p1 bs h hlen hpl hf
    rw [decide_eq_true (show bs.length ≤ env.sendCap by omega)] at h
    have hstep : step C q (.update cb env) = .ok (sentState p1 env.now, [] ++ Phy.sendOuts q env bs) := by
      show (stateUpdate C cb q env >>= fun x => Except.ok (x.1, x.2.1)) = _
      rw [update_send C cb q env hs h]
      rfl
    refine ⟨_, _, bs, hstep, rfl, ⟨f, hf, hk⟩, ?_, ?_, ?_⟩
    · unfold Phy.sendOuts
      split <;> rfl
    · rw [sent_append, sendOuts_sent, List.take_of_length_le (by omega)]
      rfl
    · rw [← hbd]; exact hpl
  cases hsc : q.flags.scActive with
  | true =>
    have hl : (secPkt C q body).bytes.length ≤ q.txBufSize := by
      rw [secPkt_length C q _ hne, hbl]
      simp [Sc.aesPadLen]
      split <;> omega
    obtain ⟨buf, h, -⟩ := buildAndSend_secured C q env _ _ body I.cp hsc hm hmis hbuf hb hne hl
    rw [hsc] at done
    exact done h hl (fun h => by cases h) rfl
  | false =>
    have hl : (plainCmd q body).bytes.length ≤ q.txBufSize := by
      rw [Phy.bytes_length]
      show (if (!q.flags.skipMark) = true then 1 else 0) + (5 + 0 + body.length + 2) ≤ _
      rw [hbl]
      split <;> omega
    obtain ⟨p1, h, h1⟩ := buildAndSend_plain C q env _ body I.cp hsc (by rw [hid]; decide) hm hmis hbuf hb rfl hsc rfl rfl rfl hne hl
    rw [hsc] at done
    refine done h hl (fun _ => rfl) ?_
    unfold Phy.Sending at h1
    rw [h1]

/-- **C95 fails for every PD that asks for time.**  Whatever the PD and the application do afterwards, `osdp_get_file_tx_status` never
reports the file as transferred, however often the PD says so, and never anything else but an error; the file is not read any more. -/
theorem C95_never (C : Cipher) (info : PdM.Info) (s r : Pd) (o : List Out) (hs : Reached C info s) (hf : Finishing s)
    (h : Onward C s r o) : File.txStatus r.file = .ok none ∧ ∀ n off, Out.fread n off ∉ o := by
  have key : Reached C info r ∧ Unended r ∧ ∀ n off, Out.fread n off ∉ o := by
    induction h with
    | start =>
      obtain ⟨f, hf, hk⟩ := hf
      exact ⟨hs, ⟨f, hf, .inl hk⟩, fun _ _ h => by cases h⟩
    | next _ h1 h2 ih =>
      obtain ⟨k1, k2, k3⟩ := ih
      obtain ⟨k4, k5⟩ := k2.step k1 h1 h2
      refine ⟨k1.step h1, k4, fun n off hm => ?_⟩
      rcases List.mem_append.mp hm with hm | hm
      · exact k3 n off hm
      · exact k5 n off hm
  obtain ⟨-, ⟨f, hf, ht⟩, hn⟩ := key
  refine ⟨?_, hn⟩
  unfold File.txStatus
  rw [hf]
  dsimp only
  rw [if_pos (by rcases ht with h | h <;> rw [h] <;> decide)]

/-- **C95, the connection is lost.**  Every status that comes in answer to an empty fragment, whatever it says, makes the CP drop the
connection, and it leaves the transfer as it is. -/
theorem C95_dropped (C : Cipher) (info : PdM.Info) (q s : Pd) (cb : Bool) (env : Env) (o : List Out) (body : List Byte)
    (hq : Reached C info q) (hf : Finishing q) (hon : q.state = .online) (hr : replyOf C q env = some (0x7A#8, body))
    (hs : step C q (.update cb env) = .ok (s, o)) : s.state = .offline ∧ Finishing s := by
  have I := hq.inv
  obtain ⟨f, hf, hk⟩ := hf
  obtain ⟨⟨s1, o1, y1⟩, hup, h1⟩ := Res.bind_eq_ok.mp hs
  injection h1 with h1; injection h1 with e1 e2; subst e1 e2
  have hU := stateUpdate_inv I.cp hup
  have hsd : File.statDecode q.file env body = .ok ⟨some f, [], false, false⟩ := by
    rw [hf]
    unfold File.statDecode
    dsimp only
    rw [if_pos (by rw [hk]; decide)]
  refine ⟨?_, ?_⟩
  · exact status_refused I hon hU hr hsd rfl
  · obtain ⟨r, h1, h2, -⟩ := status_heard I hU hr
    rw [hsd] at h1
    injection h1 with h1; subst h1
    exact ⟨f, h2, hk⟩

/-! ### samples -/

open Sample

/-- the PD is not yet done -/
def statWait : List Byte := [1, 0, 0, 3, 0, 0, 0]

/-- the ten bytes of the file are sent in three fragments, and the PD is not yet done -/
def finishing95 : List Op :=
  starts89 ++ answers89 (b8 Id.FTSTAT :: statOk) 2 ++ answers89 (b8 Id.FTSTAT :: statOk) 3 ++ answers89 (b8 Id.FTSTAT :: statWait) 1

/-- The hypotheses are met: the three fragments are sent, then an empty one. -/
example : sees89 (finishing95 ++ [filing89 [], filing89 []]) =
    some ((.online, [.fopen 1 0, .fread 223 0, .fread 223 4, .fread 223 8, .fclose]),
      [some 0x61#8, some 0x62#8, some 0x7C#8, some 0x7C#8, some 0x7C#8, some 0x7C#8], some (.keepAlive, 10)) := by decide +kernel

/-- those of `C95_begins`, `C95_asks`, `C95_partial` and `C95_dropped` -/
example : statusCode statWait = some 3 ∧
  (match run xorCipher cp (starts89 ++ answers89 (b8 Id.FTSTAT :: statOk) 2 ++ answers89 (b8 Id.FTSTAT :: statOk) 3 ++ [filing89 [], filing89 []]) with
    | .ok (q, _) => decide (replyOf xorCipher q (sender (content 10) 4 { now := 0, recv := blocks64 (reply (b8 1) (b8 Id.FTSTAT :: statWait)), random := rndA }) =
        some (0x7A#8, statWait) ∧ q.file.map (fun (f : FileSt) => (f.state, f.offset, f.length, f.size)) = some (.inprog, 8, 2, 10))
    | .error _ => false) = true ∧
  (match run xorCipher cp finishing95 with
    | .ok (q, _) => decide (q.file.map (fun (f : FileSt) => ((f.state, f.cancelReq), f.waitTimeMs, f.tstamp)) = some ((.keepAlive, false), 0, 0) ∧
        q.phyState = .idle ∧ q.state = .online ∧ q.cmdQueue.length = 0)
    | .error _ => false) = true ∧
  (match run xorCipher cp (finishing95 ++ [filing89 []]) with
    | .ok (q, _) => decide (q.cmdId = Id.FILETRANSFER ∧ q.phyState = .sendCmd ∧ 69 ≤ q.txBufSize ∧ (q.flags.hasMark && q.flags.skipMark) = false ∧
        q.flags.scActive = false)
    | .error _ => false) = true ∧
  (match run xorCipher cp (finishing95 ++ [filing89 [], filing89 []]) with
    | .ok (q, _) => decide (replyOf xorCipher q (sender (content 10) 4 { now := 0, recv := blocks64 (reply (b8 2) (b8 Id.FTSTAT :: statDone)), random := rndA }) =
        some (0x7A#8, statDone) ∧ q.state = .online)
    | .error _ => false) = true := by
  refine ⟨?_, ?_, ?_, ?_, ?_⟩ <;> decide +kernel

/-- **C95 fails.**  The PD has the file and is done by the next time it is asked: the CP drops the connection.  At every new connection it
asks again, and drops the connection at the same answer.  Had the PD said so at once, all would have been well. -/
theorem C95_loop :
    sees89 (finishing95 ++ answers89 (b8 Id.FTSTAT :: statDone) 2) =
      some ((.offline, [.fopen 1 0, .fread 223 0, .fread 223 4, .fread 223 8, .fclose]),
        [some 0x61#8, some 0x62#8] ++ List.replicate 4 (some 0x7C#8), some (.keepAlive, 10)) ∧
    sees89 (finishing95 ++ answers89 (b8 Id.FTSTAT :: statDone) 2 ++ (List.range 5).flatMap fun (i : Nat) =>
      let t : Int := 1000000 * (i + 1)
      [hears [] t] ++ meetsAt t [4, 0, 0] 0 1 ++ answers89 (b8 Id.FTSTAT :: statDone) 2 t) =
      some ((.offline, [.fopen 1 0, .fread 223 0, .fread 223 4, .fread 223 8, .fclose]),
        [some 0x61#8, some 0x62#8] ++ List.replicate 4 (some 0x7C#8) ++
          (List.replicate 5 [some 0x61#8, some 0x62#8, some 0x7C#8]).flatten, some (.keepAlive, 10)) ∧
    sees89 (starts89 ++ answers89 (b8 Id.FTSTAT :: statOk) 2 ++ answers89 (b8 Id.FTSTAT :: statOk) 3 ++ answers89 (b8 Id.FTSTAT :: statDone) 1) =
      some ((.online, [.fopen 1 0, .fread 223 0, .fread 223 4, .fread 223 8, .fclose]),
        [some 0x61#8, some 0x62#8] ++ List.replicate 3 (some 0x7C#8), some (.done, 10)) := by
  refine ⟨?_, ?_, ?_⟩ <;> decide +kernel

end CpM

end Osdp
