import Verif.Model.PhyMem
import Verif.Lemmas.ScMem
import Verif.Lemmas.SendSc

/-!
# Finishing a packet on memory
-/

namespace Osdp.PhyMem
open Osdp.AesMem
open Osdp.Aes (aes)
open Osdp.Phy (Tx header hasBit SOM MARK CTL_CRC CTL_SCB)
open Osdp.ScMem (wr_end wr_oob fill_run)

theorem front_left (m post : List Byte) : front (m ++ post) m.length = .ok m := by
  unfold front
  rw [if_pos (by simp), List.take_left]

theorem setCrc_run (m : List Byte) (a b : Byte) (post : List Byte) (crc : BitVec 16) :
    run (setCrc m.length crc) (m ++ a :: b :: post) = .ok ((), m ++ (le16 crc.toNat ++ post)) := by
  have h1 : run (st (m.length + 0) (byteOf 0 crc.toNat)) (m ++ a :: b :: post) = .ok ((), (m ++ [byteOf 0 crc.toNat]) ++ b :: post) := by
    show (wr _ _ _ >>= _) = _
    rw [Nat.add_zero, wr_end]
    simp [run]
  unfold setCrc
  rw [run_seq h1]
  show (wr _ _ _ >>= _) = _
  have := wr_end (m ++ [byteOf 0 crc.toNat]) b (byteOf 1 crc.toNat) post
  rw [List.length_append, List.length_singleton] at this
  rw [this]
  simp [run, le16]

/-- the packet with its check value, or a refusal -/
theorem addCrc_run (body post : List Byte) (maxLen : Nat) (mac : Option (List Byte)) (h : maxLen ≤ body.length + post.length) :
    addCrc (body ++ post) body.length maxLen mac =
      .ok (if body.length + 2 > maxLen then ⟨none, body ++ post, mac⟩
        else ⟨some (body.length + 2), body ++ (le16 (Crc.computeCrc16 body).toNat ++ post.drop 2), mac⟩) := by
  unfold addCrc
  split
  · rfl
  · match post, h with
    | [], h => simp at h; omega
    | [_], h => simp at h; omega
    | a :: b :: post, _ =>
      rw [front_left]
      simp only [Res.ok_bind]
      rw [setCrc_run]
      rfl

theorem setMac_run (m : List Byte) (olds post : List Byte) (mac : Block) (h : olds.length = 4) :
    run (setMac m.length mac.1) (m ++ (olds ++ post)) = .ok ((), m ++ (mac.1.take 4 ++ post)) := by
  have h4 : (mac.1.take 4).length = 4 := by rw [List.length_take, mac.2]; rfl
  have hf := fill_run (fun i => do st i (← other (get mac.1 (i - m.length)))) (mac.1.take 4) m olds post (by omega) (fun i hi => by
    rw [show m.length + i - m.length = i by omega, get_eq mac.1 i (by rw [mac.2]; omega), List.getElem_take]
    rfl)
  rw [h4] at hf
  unfold setMac
  have := loop_offset (fun i => do st i (← other (get mac.1 (i - m.length)))) m.length 0 4
  rw [Nat.add_zero] at this
  rw [this] at hf
  rw [← hf]
  congr 1
  refine loop_congr _ _ fun i _ _ => ?_
  rw [show m.length + i - m.length = i by omega]

/-- a packet under construction, from its start byte, with whatever stands in the length field -/
def raw (t : Tx) (lo hi : Byte) (data : List Byte) : List Byte := SOM :: t.addr :: lo :: hi :: t.ctl :: (t.scb ++ data)

theorem raw_length (t : Tx) (lo hi : Byte) (data : List Byte) : (raw t lo hi data).length = 5 + t.scb.length + data.length := by
  simp [raw]; omega

theorem setLen_run (t : Tx) (lo hi : Byte) (data post : List Byte) (n : Nat) :
    run (setLen n) (raw t lo hi data ++ post) = .ok ((), (header t n ++ t.scb ++ data) ++ post) := by
  show Except.ok ((), SOM :: t.addr :: byteOf 0 n :: byteOf 1 n :: t.ctl :: (t.scb ++ data ++ post)) = _
  simp [header]

theorem raw_header (t : Tx) (n : Nat) (data : List Byte) : header t n ++ t.scb ++ data = raw t (byteOf 0 n) (byteOf 1 n) data := by
  simp [header, raw]

/-- what the MAC is computed over -/
abbrev msgOf (t : Tx) (body : List Byte) : List Byte := Phy.macMsg t body

/-- the MAC stored -/
def macOf (isCp : Bool) (sc : Sc) (msg : List Byte) : Block :=
  Spec.Session.mac aes sc.sMac1 sc.sMac2 (if isCp then sc.rMac else sc.cMac) msg

theorem computeMac_spec (stack : Ctx) (hs : stack.roundKey.length = 176) (isCp : Bool) (sc : Sc) (msg : List Byte) (hne : msg ≠ [])
    (hl : msg.length ≤ 256) : ScMem.computeMac stack isCp sc msg = .ok (macOf isCp sc msg).1 := by
  rw [ScMem.computeMac_run stack hs]
  cases isCp with
  | true => rw [computeMac_cmd hne hl]; rfl
  | false => rw [computeMac_reply hne hl]; rfl

theorem addMac_run (stack : Ctx) (hs : stack.roundKey.length = 176) (isCp : Bool) (sc : Sc) (t : Tx) (lo hi : Byte) (body post : List Byte)
    (maxLen : Nat) (h : maxLen ≤ 5 + t.scb.length + body.length + post.length) (hm : maxLen ≤ 256) :
    addMac stack isCp sc (raw t lo hi body ++ post) (5 + t.scb.length + body.length) maxLen =
      .ok (if 5 + t.scb.length + body.length + 4 > maxLen then ⟨none, raw t lo hi body ++ post, none⟩
        else if 5 + t.scb.length + body.length + 6 > maxLen then
          ⟨none, (msgOf t body ++ (macOf isCp sc (msgOf t body)).1.take 4) ++ post.drop 4, some (macOf isCp sc (msgOf t body)).1⟩
        else ⟨some (5 + t.scb.length + body.length + 6), (msgOf t body ++ (macOf isCp sc (msgOf t body)).1.take 4) ++
          (le16 (Crc.computeCrc16 (msgOf t body ++ (macOf isCp sc (msgOf t body)).1.take 4)).toNat ++ post.drop 6),
          some (macOf isCp sc (msgOf t body)).1⟩) := by
  unfold addMac
  split
  · rfl
  · rename_i hf
    have hml : (msgOf t body).length = 5 + t.scb.length + body.length := by
      show (header t _ ++ t.scb ++ body).length = _
      simp [header]; omega
    rw [setLen_run]
    simp only [Res.ok_bind]
    have hmsg : header t (5 + t.scb.length + body.length + 2 + 4) ++ t.scb ++ body = msgOf t body := rfl
    rw [hmsg, ← hml, front_left]
    simp only [Res.ok_bind]
    rw [computeMac_spec stack hs isCp sc _ (List.length_pos_iff.mp (by omega)) (by omega)]
    simp only [Res.ok_bind]
    generalize macOf isCp sc (msgOf t body) = mac
    generalize msgOf t body = msg at *
    have h4 : (mac.1.take 4).length = 4 := by rw [List.length_take, mac.2]; rfl
    have hr := setMac_run msg (post.take 4) (post.drop 4) mac (by rw [List.length_take]; omega)
    rw [List.take_append_drop] at hr
    rw [hr]
    simp only [Res.ok_bind]
    have hc := addCrc_run (msg ++ mac.1.take 4) (post.drop 4) maxLen (some mac.1)
      (by rw [List.length_append, h4, List.length_drop]; omega)
    rw [List.append_assoc, List.length_append, h4] at hc
    rw [hc]
    simp [Nat.add_assoc]

/-- storing zeros past the end of the array -/
theorem zeros_oob (post : List Byte) (s n : Nat) (h1 : s ≤ post.length) (h2 : post.length < s + n) :
    run (loop (fun i => st i 0#8) s n) post = .error .oobWrite := by
  induction n generalizing s post with
  | zero => omega
  | succ n ih =>
    rw [loop, run_bind]
    by_cases h : s = post.length
    · have : run (st s 0#8) post = .error .oobWrite := by
        show (wr _ _ _ >>= _) = _
        rw [wr_oob _ _ _ (by omega)]
        rfl
      rw [this]
      rfl
    · have hsp : post = post.take s ++ post[s] :: post.drop (s + 1) := by
        rw [List.getElem_cons_drop, List.take_append_drop]
      have hl : (post.take s).length = s := by rw [List.length_take]; omega
      have hw : wr post s 0#8 = .ok (post.take s ++ 0#8 :: post.drop (s + 1)) := by
        have := wr_end (post.take s) post[s] 0#8 (post.drop (s + 1))
        rw [hl, ← hsp] at this
        exact this
      have : run (st s 0#8) post = .ok ((), post.take s ++ 0#8 :: post.drop (s + 1)) := by
        show (wr _ _ _ >>= _) = _
        rw [hw]
        rfl
      rw [this]
      simp only [Res.ok_bind]
      have hlen : (post.take s ++ 0#8 :: post.drop (s + 1)).length = post.length := by
        simp only [List.length_append, List.length_cons, List.length_drop, hl]; omega
      exact ih _ _ (by omega) (by omega)

/-- the padding of data that is too near the end of the buffer -/
theorem encryptData_oob (stack : Ctx) (isCmd : Bool) (sc : Sc) (pre d post : List Byte)
    (h : d.length + post.length < Sc.aesPadLen (d.length + 1)) :
    ScMem.encryptData stack isCmd sc (pre ++ (d ++ post)) pre.length d.length = .error .oobWrite := by
  have hp : run (ScMem.pad d.length) (d ++ post) = .error .oobWrite := by
    unfold ScMem.pad
    rw [run_bind]
    cases post with
    | nil =>
      have : run (st d.length 0x80#8) (d ++ []) = .error .oobWrite := by
        show (wr _ _ _ >>= _) = _
        rw [wr_oob _ _ _ (by simp)]
        rfl
      rw [this]
      rfl
    | cons b post =>
      have : run (st d.length 0x80#8) (d ++ b :: post) = .ok ((), d ++ 0x80#8 :: post) := by
        show (wr _ _ _ >>= _) = _
        rw [wr_end]
        rfl
      rw [this]
      simp only [Res.ok_bind]
      refine zeros_oob _ _ _ (by simp) ?_
      simp at h ⊢
      omega
  unfold ScMem.encryptData
  rw [run_at, hp]
  rfl

/-- a packet has a security block exactly if its control byte says so, and the block begins with its length -/
def Well (t : Tx) : Prop :=
  (t.scb = [] ∧ hasBit t.ctl CTL_SCB = false) ∨
    (hasBit t.ctl CTL_SCB = true ∧ ∃ sb ty x, t.scb = sb :: ty :: x ∧ sb.toNat = t.scb.length)

/-- the MAC an end keeps of what it sent -/
def own (p : Pd) : Block := if p.isCp then p.sc.cMac else p.sc.rMac

/-- The outcome on memory `m` is the outcome `f` of the model with lists; `mk` is the mark byte, if any, that precedes
the part of the buffer considered, `K` the index from which nothing is changed. -/
def Agrees (mk : List Byte) (p : Pd) (buf : List Byte) (K : Nat) (f : Res (Pd × Option (List Byte))) (m : Res Done) : Prop :=
  match f, m with
  | .error e, .error e' => e = e'
  | .ok (q, r), .ok d => d.buf.length = buf.length ∧ d.buf.drop K = buf.drop K ∧ d.mac.getD (own p).1 = (own q).1 ∧
    match r with
    | none => d.len = none
    | some bs => ∃ core, bs = mk ++ core ∧ d.len = some core.length ∧ d.buf = core ++ buf.drop core.length
  | _, _ => False

/-- the mark byte of a packet -/
abbrev markOf (t : Tx) : List Byte := if t.mark then [MARK] else []

theorem drop_past (a b : List Byte) {n : Nat} (h : a.length ≤ n) : (a ++ b).drop n = b.drop (n - a.length) := by
  rw [List.drop_append, List.drop_of_length_le h, List.nil_append]

/-- adding MAC and check value -/
theorem addMac_agrees (stack : Ctx) (hs : stack.roundKey.length = 176) (p : Pd) (t : Tx) (lo hi lo' hi' : Byte) (body data post post' : List Byte)
    (maxLen K : Nat) (hl : 5 + t.scb.length + body.length + post.length = 5 + t.scb.length + data.length + post'.length)
    (h : maxLen ≤ 5 + t.scb.length + body.length + post.length) (hm : maxLen ≤ 256) (hK : maxLen ≤ K)
    (hK1 : 5 + t.scb.length + body.length ≤ K) (hK2 : 5 + t.scb.length + data.length ≤ K)
    (hpost : ∀ k, 5 + t.scb.length + body.length ≤ k → 5 + t.scb.length + data.length ≤ k →
      post.drop (k - (5 + t.scb.length + body.length)) = post'.drop (k - (5 + t.scb.length + data.length)))
    (hle : data.length ≤ body.length) :
    Agrees (markOf t) p (raw t lo' hi' data ++ post') K (Phy.finalizeMac aes p t body maxLen)
      (addMac stack p.isCp p.sc (raw t lo hi body ++ post) (5 + t.scb.length + body.length) maxLen) := by
  have htail : ∀ (x : List Byte) (n : Nat), x.length = 5 + t.scb.length + body.length + n →
      (raw t lo' hi' data ++ post').drop x.length = post.drop n := by
    intro x n hx
    rw [List.drop_append, List.drop_of_length_le (by rw [raw_length]; omega), List.nil_append, raw_length, hx]
    have := hpost (5 + t.scb.length + body.length + n) (by omega) (by omega)
    rw [show 5 + t.scb.length + body.length + n - (5 + t.scb.length + body.length) = n by omega] at this
    exact this.symm
  have hbeyond : ∀ (x : List Byte) (n : Nat), x.length = 5 + t.scb.length + body.length + n → n ≤ post.length → x.length ≤ K →
      (x ++ post.drop n).drop K = (raw t lo' hi' data ++ post').drop K := by
    intro x n hx hn hxK
    rw [drop_past _ _ hxK, drop_past _ _ (by rw [raw_length]; omega), raw_length, List.drop_drop, ← hpost K hK1 hK2]
    congr 1
    omega
  rw [addMac_run stack hs p.isCp p.sc t lo hi body post maxLen h hm]
  unfold Phy.finalizeMac
  dsimp only
  by_cases c1 : 5 + t.scb.length + body.length + 4 > maxLen
  · rw [if_pos c1, if_pos c1]
    refine ⟨?_, ?_, rfl, rfl⟩
    · simp only [List.length_append, raw_length]; omega
    · have := hbeyond (raw t lo hi body) 0 (raw_length ..) (by omega) (by rw [raw_length]; omega)
      simpa using this
  · rw [if_neg c1, if_neg c1]
    have hmsg : header t (5 + t.scb.length + body.length + 6) ++ t.scb ++ body = msgOf t body := rfl
    have hml : (msgOf t body).length = 5 + t.scb.length + body.length := by
      rw [← hmsg]; simp [header]; omega
    have hcm : ∃ s, Sc.computeMac aes p.isCp p.sc (msgOf t body) = .ok s ∧
        (if p.isCp then s.cMac else s.rMac) = macOf p.isCp p.sc (msgOf t body) := by
      have hne : msgOf t body ≠ [] := List.length_pos_iff.mp (by omega)
      unfold macOf
      cases p.isCp with
      | true => exact ⟨_, computeMac_cmd hne (by omega), rfl⟩
      | false => exact ⟨_, computeMac_reply hne (by omega), rfl⟩
    obtain ⟨s, hsc, hsm⟩ := hcm
    rw [hmsg, hsc]
    simp only [Res.ok_bind]
    rw [hsm]
    generalize macOf p.isCp p.sc (msgOf t body) = mac at *
    generalize msgOf t body = msg at *
    have h4 : (mac.1.take 4).length = 4 := by rw [List.length_take, mac.2]; rfl
    have hown : own (Phy.setSc p s) = mac := by rw [← hsm]; rfl
    have hl6 : (msg ++ mac.1.take 4).length = 5 + t.scb.length + body.length + 4 := by rw [List.length_append, h4, hml]
    unfold Phy.wrap
    rw [hl6]
    by_cases c2 : 5 + t.scb.length + body.length + 6 > maxLen
    · rw [if_pos c2, if_pos (by omega)]
      refine ⟨?_, ?_, ?_, rfl⟩
      · simp only [List.length_append, raw_length, List.length_drop, h4, hml]; omega
      · exact hbeyond (msg ++ mac.1.take 4) 4 hl6 (by omega) (by omega)
      · rw [hown]; rfl
    · rw [if_neg c2, if_neg (show ¬ 5 + t.scb.length + body.length + 4 + 2 > maxLen by omega)]
      generalize hcrc : le16 (Crc.computeCrc16 (msg ++ mac.1.take 4)).toNat = crc
      have hc2 : crc.length = 2 := by rw [← hcrc]; rfl
      have hall : ((msg ++ mac.1.take 4) ++ crc).length = 5 + t.scb.length + body.length + 6 := by
        rw [List.length_append, hl6, hc2]
      refine ⟨?_, ?_, ?_, (msg ++ mac.1.take 4) ++ crc, rfl, ?_, ?_⟩
      · simp only [List.length_append, raw_length, List.length_drop, h4, hml, hc2]; omega
      · rw [← List.append_assoc]
        exact hbeyond _ 6 hall (by omega) (by omega)
      · rw [hown]; rfl
      · rw [hall]
      · rw [htail _ 6 hall, List.append_assoc (msg ++ _)]

/-- the packet without security -/
theorem addCrc_agrees (p : Pd) (t : Tx) (lo' hi' : Byte) (data post : List Byte) (maxLen K : Nat)
    (h : maxLen ≤ 5 + t.scb.length + data.length + post.length) (hK : maxLen ≤ K) (hK1 : 5 + t.scb.length + data.length ≤ K) :
    Agrees (markOf t) p (raw t lo' hi' data ++ post) K
      (.ok (p, Phy.wrap t (header t (5 + t.scb.length + data.length + 2) ++ t.scb ++ data) maxLen))
      (addCrc ((header t (5 + t.scb.length + data.length + 2) ++ t.scb ++ data) ++ post) (5 + t.scb.length + data.length) maxLen none) := by
  have hml : (header t (5 + t.scb.length + data.length + 2) ++ t.scb ++ data).length = 5 + t.scb.length + data.length := by
    simp [header]; omega
  generalize header t (5 + t.scb.length + data.length + 2) ++ t.scb ++ data = msg at *
  rw [← hml, addCrc_run msg post maxLen none (by omega)]
  unfold Phy.wrap
  have hd : ∀ n, 5 + t.scb.length + data.length ≤ n →
      (raw t lo' hi' data ++ post).drop n = post.drop (n - (5 + t.scb.length + data.length)) := fun n hn => by
    rw [List.drop_append, List.drop_of_length_le (by rw [raw_length]; omega), List.nil_append, raw_length]
  by_cases c : msg.length + 2 > maxLen
  · rw [if_pos c, if_pos c]
    refine ⟨?_, ?_, rfl, rfl⟩
    · simp only [List.length_append, raw_length]; omega
    · rw [hd K hK1, List.drop_append, List.drop_of_length_le (by omega), List.nil_append, hml]
  · rw [if_neg c, if_neg c]
    generalize hcrc : le16 (Crc.computeCrc16 msg).toNat = crc
    have hc2 : crc.length = 2 := by rw [← hcrc]; rfl
    have hall : (msg ++ crc).length = 5 + t.scb.length + data.length + 2 := by rw [List.length_append, hc2, hml]
    refine ⟨?_, ?_, rfl, msg ++ crc, rfl, ?_, ?_⟩
    · simp only [List.length_append, raw_length, List.length_drop, hc2]; omega
    · rw [hd K hK1, ← List.append_assoc, List.drop_append, List.drop_of_length_le (by omega), List.nil_append, List.drop_drop, hall]
      congr 1; omega
    · rw [hall, hml]
    · rw [hd _ (by omega), hall, ← List.append_assoc,
        show 5 + t.scb.length + data.length + 2 - (5 + t.scb.length + data.length) = 2 by omega]

/-- encryption of the data, then MAC and check value -/
theorem encrypt_agrees (stack : Ctx) (hs : stack.roundKey.length = 176) (p : Pd) (t : Tx) (lo hi lo' hi' id : Byte) (d post : List Byte)
    (maxLen K : Nat) (h : maxLen ≤ 5 + t.scb.length + (d.length + 1) + post.length) (hm : maxLen ≤ 256) (hK : maxLen ≤ K)
    (hK1 : 5 + t.scb.length + 1 + Sc.aesPadLen (d.length + 1) ≤ K)
    (hbuf : (if t.mark then 1 else 0) + (5 + t.scb.length + (d.length + 1) + post.length) = 256) (henc : t.encrypted = true) :
    Agrees (markOf t) p (raw t lo' hi' (id :: d) ++ post) K (Phy.finalizeSecured aes p t (id :: d) maxLen)
      (encrypt stack p.isCp p.sc (raw t lo hi (id :: d) ++ post) (5 + t.scb.length + 1) (5 + t.scb.length + (d.length + 1)) maxLen) := by
  have hple := Sc.le_aesPadLen (d.length + 1)
  have hd : ∀ n, 5 + t.scb.length + (d.length + 1) ≤ n →
      (raw t lo' hi' (id :: d) ++ post).drop n = post.drop (n - (5 + t.scb.length + (d.length + 1))) := fun n hn => by
    rw [List.drop_append, List.drop_of_length_le (by rw [raw_length]; simpa using hn), List.nil_append, raw_length]; rfl
  unfold Phy.finalizeSecured encrypt
  rw [if_pos henc, if_neg (show ¬ 5 + t.scb.length + (d.length + 1) < 5 + t.scb.length + 1 by omega),
    show 5 + t.scb.length + (d.length + 1) - (5 + t.scb.length + 1) = d.length by omega]
  dsimp only
  rw [show (List.drop 1 (id :: d)).length = d.length from rfl, show List.drop 1 (id :: d) = d from rfl,
    show List.take 1 (id :: d) = [id] from rfl]
  by_cases c1 : Sc.aesPadLen (d.length + 1) > maxLen
  · rw [if_pos c1, if_pos c1]
    refine ⟨?_, ?_, rfl, rfl⟩
    · simp only [List.length_append, raw_length]
    · rw [hd K (by omega), List.drop_append, List.drop_of_length_le (by rw [raw_length]; simp; omega), List.nil_append, raw_length]
      rfl
  rw [if_neg c1, if_neg c1]
  have hpre : (raw t lo hi [id]).length = 5 + t.scb.length + 1 := raw_length ..
  have hraw : raw t lo hi (id :: d) ++ post = raw t lo hi [id] ++ (d ++ post) := by simp [raw]
  rw [hraw, ← hpre]
  by_cases c2 : d.length + post.length < Sc.aesPadLen (d.length + 1)
  · rw [encryptData_oob stack p.isCp p.sc _ d post c2, if_pos (by show _ > 256; omega)]
    exact rfl
  · rw [if_neg (by show ¬ _ > 256; omega)]
    have hrun := ScMem.encryptData_run stack hs p.isCp p.sc (raw t lo hi [id]) d (post.take (Sc.aesPadLen (d.length + 1) - d.length))
      (post.drop (Sc.aesPadLen (d.length + 1) - d.length)) (by rw [List.length_take]; omega)
    rw [List.take_append_drop] at hrun
    rw [hrun]
    simp only [Res.ok_bind]
    have helen := Sc.encryptData_length aes p.isCp p.sc d
    generalize Sc.encryptData aes p.isCp p.sc d = ct at *
    have hraw2 : raw t lo hi [id] ++ (ct ++ post.drop (Sc.aesPadLen (d.length + 1) - d.length)) =
      raw t lo hi (id :: ct) ++ post.drop (Sc.aesPadLen (d.length + 1) - d.length) := by simp [raw]
    rw [hraw2, hpre, show 5 + t.scb.length + 1 + Sc.aesPadLen (d.length + 1) = 5 + t.scb.length + (id :: ct).length by
      simp [helen]; omega]
    have hpl : (post.drop (Sc.aesPadLen (d.length + 1) - d.length)).length = post.length - (Sc.aesPadLen (d.length + 1) - d.length) :=
      List.length_drop
    refine addMac_agrees stack hs p t lo hi lo' hi' (id :: ct) (id :: d) _ post maxLen K ?_ ?_ hm hK ?_ ?_ ?_ ?_
    · simp only [List.length_cons, helen]; omega
    · simp only [List.length_cons, helen]; omega
    · simp only [List.length_cons, helen]; omega
    · simp only [List.length_cons]; omega
    · intro k h1 h2
      simp only [List.length_cons, helen] at h1 h2 ⊢
      rw [List.drop_drop]
      congr 1
      omega
    · simp only [List.length_cons, helen]; omega

theorem get_raw5 (t : Tx) (lo hi sb ty : Byte) (x : List Byte) (hscb : t.scb = sb :: ty :: x) (data post : List Byte) :
    get (raw t lo hi data ++ post) 5 = .ok sb ∧ get (raw t lo hi data ++ post) 6 = .ok ty := by
  unfold raw
  rw [hscb]
  exact ⟨rfl, rfl⟩

/-- the packet without its mark byte -/
theorem packet_agrees (stack : Ctx) (hs : stack.roundKey.length = 176) (p : Pd) (t : Tx) (hw : Well t) (lo hi id : Byte) (d post : List Byte)
    (maxLen K : Nat) (h : maxLen ≤ 5 + t.scb.length + (d.length + 1) + post.length) (hm : maxLen ≤ 256) (hK : maxLen ≤ K)
    (hK0 : 5 + t.scb.length + (d.length + 1) ≤ K) (hK1 : t.secured p = true → t.encrypted = true → 5 + t.scb.length + 1 + Sc.aesPadLen (d.length + 1) ≤ K)
    (hbuf : (if t.mark then 1 else 0) + (5 + t.scb.length + (d.length + 1) + post.length) = 256) :
    Agrees (markOf t) p (raw t lo hi (id :: d) ++ post) K
      (if t.secured p then Phy.finalizeSecured aes p t (id :: d) maxLen
        else .ok (p, Phy.wrap t (header t (5 + t.scb.length + (id :: d).length + 2) ++ t.scb ++ (id :: d)) maxLen))
      (packet stack p.isCp p.scActive p.sc (raw t lo hi (id :: d) ++ post) (5 + t.scb.length + (d.length + 1)) maxLen) := by
  unfold packet
  rw [show get (raw t lo hi (id :: d) ++ post) 0 = .ok SOM from rfl]
  simp only [Res.ok_bind]
  rw [if_neg (show ¬ SOM ≠ SOM by simp), setLen_run]
  simp only [Res.ok_bind]
  have hg4 : get ((header t (5 + t.scb.length + (d.length + 1) + 2) ++ t.scb ++ id :: d) ++ post) 4 = .ok t.ctl := by
    rw [raw_header]; rfl
  have hplain := addCrc_agrees p t lo hi (id :: d) post maxLen K h hK hK0
  unfold rest isSecured
  cases hact : p.scActive with
  | false =>
    have hsec : t.secured p = false := by
      unfold Tx.secured
      cases t.scbType <;> simp [hact]
    rw [hsec]
    simpa using hplain
  | true =>
    simp only [Bool.not_true, Bool.false_eq_true, if_false, hg4, Res.ok_bind]
    rcases hw with ⟨hn, hb⟩ | ⟨hb, sb, ty, x, hscb, hsb⟩
    · have hsec : t.secured p = false := by
        unfold Tx.secured Tx.scbType
        rw [hn]; rfl
      rw [hsec, hb]
      simpa using hplain
    · have hty : t.scbType = some ty := by unfold Tx.scbType; rw [hscb]; rfl
      have hsec : t.secured p = decide (0x15#8 ≤ ty) := by
        unfold Tx.secured
        rw [hty]
        simp [hact, hb]
      obtain ⟨g5, g6⟩ := get_raw5 t (byteOf 0 (5 + t.scb.length + (d.length + 1) + 2)) (byteOf 1 (5 + t.scb.length + (d.length + 1) + 2)) sb ty x hscb
        (id :: d) post
      rw [← raw_header] at g5 g6
      rw [hsec, hb]
      simp only [Bool.not_true, Bool.false_eq_true, if_false, g6, Res.ok_bind]
      cases hge : decide (0x15#8 ≤ ty) with
      | false => simpa using hplain
      | true =>
        simp only [if_true]
        unfold secure
        simp only [g6, Res.ok_bind]
        have henc : t.encrypted = decide (ty = 0x17#8 ∨ ty = 0x18#8) := by
          unfold Tx.encrypted
          rw [hty]
          simp
        by_cases ce : ty = 0x17#8 ∨ ty = 0x18#8
        · rw [if_pos ce]
          simp only [g5, Res.ok_bind]
          rw [decide_eq_true ce] at henc
          rw [hsb, raw_header]
          exact encrypt_agrees stack hs p t _ _ lo hi id d post maxLen K h hm hK (hK1 (by rw [hsec, hge]) henc) hbuf henc
        · rw [if_neg ce]
          rw [decide_eq_false ce] at henc
          unfold Phy.finalizeSecured
          rw [if_neg (by simp [henc]), raw_header]
          exact addMac_agrees stack hs p t _ _ lo hi (id :: d) (id :: d) post post maxLen K rfl h hm hK hK0 hK0 (fun _ _ _ => rfl) (Nat.le_refl _)

/-- `osdp_phy_packet_finalize` on the packet buffer -/
theorem finalize_agrees (stack : Ctx) (hs : stack.roundKey.length = 176) (p : Pd) (t : Tx) (hw : Well t) (hmis : t.misaligned = false)
    (lo hi : Byte) (data post : List Byte) (hne : data ≠ []) (maxLen K : Nat) (hm : maxLen ≤ 256) (hK : maxLen ≤ K)
    (hK0 : (markOf t ++ raw t lo hi data).length ≤ K)
    (hK1 : t.secured p = true → t.encrypted = true → (markOf t).length + 5 + t.scb.length + 1 + Sc.aesPadLen data.length ≤ K)
    (hbuf : (markOf t ++ (raw t lo hi data ++ post)).length = 256) :
    Agrees [] p (markOf t ++ (raw t lo hi data ++ post)) K (Phy.finalize aes p t data maxLen)
      (finalize stack p.isCp p.scActive t.mark p.sc (markOf t ++ (raw t lo hi data ++ post)) (markOf t ++ raw t lo hi data).length maxLen) := by
  obtain ⟨id, d, rfl⟩ := List.exists_cons_of_ne_nil hne
  have hl := raw_length t lo hi (id :: d)
  have hmk : (markOf t).length = if t.mark then 1 else 0 := by unfold markOf; cases t.mark <;> rfl
  rw [List.length_append, hl] at hK0
  rw [List.length_append, List.length_append, hl, hmk] at hbuf
  rw [List.length_cons] at *
  have hpk := packet_agrees stack hs p t hw lo hi id d post (maxLen - if t.mark then 1 else 0) (K - if t.mark then 1 else 0) (by omega)
    (by omega) (by omega) (by omega) (fun h1 h2 => by have := hK1 h1 h2; omega) hbuf
  unfold finalize Phy.finalize
  dsimp only
  rw [List.length_append, hl, List.length_cons, hmk,
    if_neg (show ¬ (if t.mark = true then 1 else 0) + (5 + t.scb.length + (d.length + 1)) ≤ 5 by omega),
    if_neg (show ¬ t.misaligned = true by simp [hmis]),
    if_neg (show ¬ (if t.mark = true then 1 else 0) + 5 + t.scb.length + (d.length + 1) ≤ 5 by omega)]
  cases hmark : t.mark with
  | false =>
    simp only [hmark, Bool.false_eq_true, if_false, markOf, Nat.sub_zero, List.nil_append, Nat.zero_add] at hpk ⊢
    exact hpk
  | true =>
    simp only [hmark, if_true, markOf] at hpk ⊢
    unfold marked
    rw [show get ([MARK] ++ (raw t lo hi (id :: d) ++ post)) 0 = .ok MARK from rfl]
    simp only [Res.ok_bind]
    rw [if_neg (show ¬ MARK ≠ MARK by simp), show List.drop 1 ([MARK] ++ (raw t lo hi (id :: d) ++ post)) = raw t lo hi (id :: d) ++ post from rfl,
      show 1 + (5 + t.scb.length + (d.length + 1)) - 1 = 5 + t.scb.length + (d.length + 1) by omega]
    generalize (if t.secured p = true then Phy.finalizeSecured aes p t (id :: d) (maxLen - 1)
      else Except.ok (p, Phy.wrap t (header t (5 + t.scb.length + (d.length + 1) + 2) ++ t.scb ++ id :: d) (maxLen - 1))) = f at hpk ⊢
    generalize packet stack p.isCp p.scActive p.sc (raw t lo hi (id :: d) ++ post) (5 + t.scb.length + (d.length + 1)) (maxLen - 1) = m at hpk ⊢
    cases f with
    | error e =>
      cases m with
      | error e' => exact hpk
      | ok d => exact hpk
    | ok qr =>
      obtain ⟨q, r⟩ := qr
      cases m with
      | error e' => exact hpk
      | ok dn =>
        obtain ⟨h1, h2, h3, h4⟩ := hpk
        have hd1 : ∀ (n : Nat) (l : List Byte), 1 ≤ n → (MARK :: l).drop n = l.drop (n - 1) := by
          intro n l hn
          cases n with
          | zero => omega
          | succ n => rfl
        refine ⟨?_, ?_, h3, ?_⟩
        · show (MARK :: dn.buf).length = (MARK :: (raw t lo hi (id :: d) ++ post)).length
          rw [List.length_cons, List.length_cons, h1]
        · show (MARK :: dn.buf).drop K = (MARK :: (raw t lo hi (id :: d) ++ post)).drop K
          rw [hd1 K _ (by omega), hd1 K _ (by omega), h2]
        · cases r with
          | none =>
            show dn.len.map (· + 1) = none
            rw [h4]; rfl
          | some bs =>
            obtain ⟨core, he, h5, h6⟩ := h4
            refine ⟨bs, rfl, ?_, ?_⟩
            · show dn.len.map (· + 1) = _
              rw [h5, he]
              simp
            · show MARK :: dn.buf = bs ++ (MARK :: (raw t lo hi (id :: d) ++ post)).drop bs.length
              rw [he, h6]
              rfl

end Osdp.PhyMem
