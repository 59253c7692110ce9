import Verif.Props.C90
import Verif.Props.C52

/-!
# C97: a PD may ask for smaller file messages

The last two bytes of a file transfer status are an "alternate maximum message size for CMD_FILETRANSFER. If set to 0 then no change requested,
otherwise use this value" (src/osdp_file.h:58-59).

Full statement: after a status that names the size `k > 0`, no packet with a fragment of this file is longer than `k` bytes (until another
status); after a status that names 0 the limit is what it was.
-/

namespace Osdp

namespace Spec.FileLog

/-- the message size in a file transfer status reply -/
def wishes : List Byte → Option Nat
  | [_, _, _, _, _, lo, hi] => some (lo.toNat + 256 * hi.toNat)
  | _ => none

/-- a packet of `n` bytes heeds the wish for `k` bytes -/
def Heeds (n k : Nat) : Prop := k = 0 ∨ n ≤ k

end Spec.FileLog

namespace CpM

open Spec.FileLog (wishes Heeds xfer)
open Spec.Announce (Fits)

/-! ### the claims -/

/-- **C97 (partial).**  The wish is heeded if it is none (0), or not below what the CP sends anyway: 256 bytes, or what the PD announced
among its capabilities.  Missing: all other wishes, see `C97_ignored`. -/
theorem C97_partial (C : Cipher) (info : PdM.Info) (i : Nat) (sk : Bool) (n : Nat) (p q s r x : Pd) (ops ops' : List Op) (op op' : Op)
    (o o1 o2 o3 : List Out) (t : Int) (body bs : List Byte) (k : Nat)
    (hp : newPd info i sk n = some p) (h : run C p ops = .ok (q, o)) (hs : step C q op = .ok (s, o1)) (_ : StatusAt C q op t body)
    (_ : wishes body = some k) (hr : run C s ops' = .ok (r, o2)) (hx : step C r op' = .ok (x, o3)) (hb : bs ∈ Spec.Wire.sent o3)
    (hk : k = 0 ∨ 256 ≤ k ∨ 0 < announced C p (ops ++ [op] ++ ops') 0 ∧ announced C p (ops ++ [op] ++ ops') 0 ≤ k) : Heeds bs.length k := by
  have hrun : ∀ {l : List Op} {a b c : Pd} {u v : List Out} {m : List Op}, run C a l = .ok (b, u) → run C b m = .ok (c, v) →
      ∃ w, run C a (l ++ m) = .ok (c, w) := by
    intro l
    induction l with
    | nil => intro a b c u v m h1 h2; injection h1 with h1; injection h1 with e1 e2; subst e1; exact ⟨v, h2⟩
    | cons e l ih =>
      intro a b c u v m h1 h2
      obtain ⟨⟨a1, u1⟩, k1, k2⟩ := Res.bind_eq_ok.mp h1
      obtain ⟨⟨a2, u2⟩, k3, k4⟩ := Res.bind_eq_ok.mp k2
      injection k4 with k4; injection k4 with e1 e2; subst e1
      obtain ⟨w, hw⟩ := ih k3 h2
      refine ⟨u1 ++ w, ?_⟩
      show (step C a e >>= fun z => run C z.1 (l ++ m) >>= fun y => Except.ok (y.1, z.2 ++ y.2)) = _
      rw [k1]
      simp only [Res.ok_bind, hw]
  obtain ⟨w, hw⟩ := hrun (run_snoc h hs) hr
  obtain ⟨f1, f2⟩ := C05_cp_partial C info i sk n p r x _ op' w o3 bs hp hw hx hb
  unfold Heeds
  rcases hk with h | h | ⟨h1, h2⟩
  · exact .inl h
  · right; omega
  · right; have := f2 (by omega); omega

/-- **C97 fails.**  Two statuses that differ in nothing but the size have the same effect on the transfer. -/
theorem C97_same (C : Cipher) (info : PdM.Info) (q s s' : Pd) (op op' : Op) (o o' : List Out) (t : Int) (b body body' : List Byte)
    (w w' : List Byte) (hq : Reached C info q) (hs : step C q op = .ok (s, o)) (hs' : step C q op' = .ok (s', o'))
    (hst : StatusAt C q op t body) (hst' : StatusAt C q op' t body') (h5 : b.length = 5) (h2 : w.length = 2) (h2' : w'.length = 2)
    (hb : body = b ++ w) (hb' : body' = b ++ w') : s.file = s'.file ∧ s.phyState = s'.phyState := by
  obtain ⟨cb, env, f, rfl, hnow, hr, hf, hip⟩ := hst
  obtain ⟨cb', env', f', rfl, hnow', hr', hf', hip'⟩ := hst'
  obtain ⟨⟨q1, o1, y⟩, hu, he⟩ := Res.bind_eq_ok.mp hs
  injection he with he; injection he with e1 e2; subst e1
  obtain ⟨⟨q1', o1', y'⟩, hu', he'⟩ := Res.bind_eq_ok.mp hs'
  injection he' with he'; injection he' with e1 e2; subst e1
  obtain ⟨r, k1, k2, k3⟩ := status_heard hq.inv (stateUpdate_inv hq.inv.cp hu) hr
  obtain ⟨r', k1', k2', k3'⟩ := status_heard hq.inv (stateUpdate_inv hq.inv.cp hu') hr'
  refine ⟨?_, k3.trans k3'.symm⟩
  rw [k2, k2']
  have : File.statDecode q.file env body = File.statDecode q.file env' body' := by
    match b, h5, w, h2, w', h2' with
    | [b0, b1, b2, b3, b4], _, [x, y], _, [x', y'], _ =>
      subst hb hb'
      unfold File.statDecode
      rw [hnow, hnow']
      rfl
  rw [k1, k1'] at this
  injection this with this
  rw [this]

/-- **C97 fails.**  After a status that wishes for messages of `k` bytes, whatever happens then: when a fragment of the file is due, in the
clear, and the file has that much left, the packet is 13 bytes shorter than the buffer of the CP or, if it is smaller, the one that the
PD announced among its capabilities; that is 243 bytes if the PD announced none. A wish for fewer bytes is not heeded. -/
theorem C97_ignored (C : Cipher) (info : PdM.Info) (q s r : Pd) (op : Op) (ops : List Op) (o o1 : List Out) (t : Int) (body : List Byte) (k : Nat)
    (cb : Bool) (env : Env) (f : FileSt)
    (hq : Reached C info q) (_ : StatusAt C q op t body) (_ : wishes body = some k) (hs : step C q op = .ok (s, o))
    (hrun : run C s ops = .ok (r, o1))
    (hps : r.phyState = .sendCmd) (hid : r.cmdId = Id.FILETRANSFER) (hf : r.file = some f) (hst : f.state = .inprog)
    (hrx : r.peerRx = 0 ∨ 69 ≤ r.peerRx) (hact : r.flags.scActive = false) (hmark : (r.flags.hasMark && r.flags.skipMark) = false)
    (hcap : 256 ≤ env.sendCap)
    (hread : ∀ n, 0 < n → n ≤ 256 → (env.fread n (toI32 f.offset)).1 = n ∧ ((env.fread n (toI32 f.offset)).2.length : Int) = n) :
    ∃ x o' bs, step C r (.update cb env) = .ok (x, o') ∧ Spec.Wire.sent o' = [bs] ∧
      bs.length + 13 = (if r.peerRx = 0 then 256 else min r.peerRx 256) ∧ (0 < k → k < bs.length → ¬ Heeds bs.length k) := by
  have R : Reached C info r := by
    have := run_ind (C := C) (p := s) (fun _ r _ => Reached C info r) (hq.step hs) (fun _ _ _ _ _ _ _ I h => I.step h) hrun
    exact this
  have hle : r.txBufSize ≤ 256 := by unfold Pd.txBufSize; split <;> omega
  have htx : 69 ≤ r.txBufSize := by unfold Pd.txBufSize; split <;> omega
  have htb : r.txBufSize = (if r.peerRx = 0 then 256 else min r.peerRx 256) := by
    unfold Pd.txBufSize; split <;> split <;> omega
  obtain ⟨data, n, g, hn, hn0, hdata, hdl, hbl, hbody⟩ := fragment_built C r env f hid hf hst htx fun n h h' => by
    obtain ⟨h1, h2⟩ := hread n h h'; omega
  have hfull : (data.length : Int) = n := by rw [hdata]; exact (hread n hn0 (by unfold fragmentRoom at hn; omega)).2
  obtain ⟨l, hbd⟩ : ∃ l, l = b8 Id.FILETRANSFER :: xfer (i8 f.fileId) f.size f.offset data := ⟨_, rfl⟩
  have hne : l ≠ [] := by rw [hbd]; simp
  rw [← hbd] at hbody hbl
  unfold fragmentRoom at hn
  rw [hact] at hn
  have hlen : (plainCmd r l).bytes.length + 13 = r.txBufSize := by
    rw [Phy.bytes_length]
    show (if (!r.flags.skipMark) = true then 1 else 0) + (5 + 0 + l.length + 2) + 13 = _
    rw [hbl]
    revert hn
    cases r.flags.skipMark <;> intro hn <;> simp at hn ⊢ <;> omega
  obtain ⟨p1, h1, -⟩ := buildAndSend_plain C r env _ l R.inv.cp hact (by rw [hid]; decide) htx hmark R.buffered.buf hbody rfl hact rfl rfl rfl
    hne (by omega)
  rw [decide_eq_true (show (plainCmd r l).bytes.length ≤ env.sendCap by omega)] at h1
  have hstep : step C r (.update cb env) = .ok (sentState p1 env.now, [.fread n (toI32 f.offset)] ++ Phy.sendOuts r env (plainCmd r l).bytes) := by
    show (stateUpdate C cb r env >>= fun x => Except.ok (x.1, x.2.1)) = _
    rw [update_send C cb r env hps h1]
    rfl
  refine ⟨_, _, _, hstep, ?_, hlen.trans htb, ?_⟩
  · rw [sent_append, sendOuts_sent, List.take_of_length_le (by omega)]
    rfl
  · unfold Heeds; omega

/-- A PD of this library has no such wish. -/
theorem C97_own (file g : Option FileSt) (env : Env) (room : Int) (outs : List Out) (b : List Byte)
    (h : File.statBuild file env room = .ok (g, outs, some b)) : wishes b = some 0 := by
  rcases File.statBuild_inv h with ⟨-, -, h, -⟩ | ⟨f, off, -, -, -, -, -, ⟨-, -, ⟨-, -, h⟩ | ⟨-, -, h⟩⟩ | ⟨-, -, -, h⟩⟩
  · cases h
  · cases h
  · injection h with h; subst h; rfl
  · injection h with h; subst h; rfl

/-! ### samples -/

open Sample

/-- wishes for messages of 64 bytes, and of 243 -/
def stat64 : List Byte := [1, 0, 0, 0, 0, 64, 0]
def stat243 : List Byte := [1, 0, 0, 0, 0, 243, 0]

/-- a CP that sends a file of 1000 bytes -/
def filing97 (x : List Byte) : Op := .update true (sender (content 1000) 300 { now := 0, recv := blocks64 x, random := rndA })

/-- it has met the sample PD, has sent the first fragment, and gets this status; then comes the next fragment -/
def gets97 (body : List Byte) : List Op :=
  meets [4, 0, 0] ++ [.fileOps, .send (sender (content 1000) 300 { now := 0 }) (.fileTx { id := 1, flags := 0#32 }),
    filing97 [], filing97 [], filing97 (reply 2#8 (b8 Id.FTSTAT :: body))]

/-- the reads, and the lengths of the packets -/
def sees97 (ops : List Op) : Option (List Out × List Nat) :=
  match run xorCipher cp ops with
  | .ok (_, o) => some (fileOuts o, (Spec.Wire.sent o).map (·.length))
  | .error _ => none

/-- **C97 fails.**  The PD wishes for messages of 64 bytes; the next fragment comes in a packet of 243, like the one before. -/
theorem C97_64 : wishes stat64 = some 64 ∧
    sees97 (gets97 stat64 ++ [filing97 [], filing97 []]) = some ([.fopen 1 0, .fread 223 0, .fread 223 223], [10, 10, 243, 243]) ∧
    sees97 (gets97 stat243 ++ [filing97 [], filing97 []]) = some ([.fopen 1 0, .fread 223 0, .fread 223 223], [10, 10, 243, 243]) := by
  refine ⟨?_, ?_, ?_⟩ <;> decide +kernel

/-- The hypotheses are met: the status arrives while the file is being sent, and after it the CP is about to send a fragment, in the clear,
to a PD that has announced nothing. -/
example : (match run xorCipher cp ((gets97 stat64).dropLast) with
    | .ok (q, _) => decide (replyOf xorCipher q (sender (content 1000) 300 { now := 0, recv := blocks64 (reply 2#8 (b8 Id.FTSTAT :: stat64)), random := rndA }) =
        some (0x7A#8, stat64) ∧ replyOf xorCipher q (sender (content 1000) 300 { now := 0, recv := blocks64 (reply 2#8 (b8 Id.FTSTAT :: stat243)), random := rndA }) =
        some (0x7A#8, stat243) ∧ q.file.map (fun (f : FileSt) => f.state) = some .inprog)
    | .error _ => false) = true ∧
  (match run xorCipher cp (gets97 stat64 ++ [filing97 []]) with
    | .ok (r, _) => decide (r.phyState = .sendCmd ∧ r.cmdId = Id.FILETRANSFER ∧ r.file.map (fun (f : FileSt) => (f.state, f.offset)) = some (.inprog, 223) ∧
        r.peerRx = 0 ∧ r.flags.scActive = false ∧ (r.flags.hasMark && r.flags.skipMark) = false)
    | .error _ => false) = true := by
  refine ⟨?_, ?_⟩ <;> decide +kernel

/-- The last case of `C97_partial`: the PD has announced 128 bytes, and wishes for 200; it gets packets of 115. -/
example : sees97 (meets [4, 0, 0, 10, 128, 0] ++ (gets97 [1, 0, 0, 0, 0, 200, 0]).drop (meets [4, 0, 0]).length ++ [filing97 [], filing97 []]) =
      some ([.fopen 1 0, .fread 95 0, .fread 95 95], [10, 10, 115, 115]) ∧
    announced xorCipher cp (meets [4, 0, 0, 10, 128, 0]) 0 = 128 := by
  refine ⟨?_, ?_⟩ <;> decide +kernel

end CpM

end Osdp
