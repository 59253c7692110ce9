import Verif.Lemmas.CpHear
import Verif.Lemmas.PdOut
import Verif.Lemmas.PdHear
import Verif.Lemmas.PdReach
import Verif.Lemmas.PdKey
import Verif.Props.C36
import Verif.Lemmas.SampleCp
import Verif.Spec.Announce
import Verif.Props.C15

/-!
# C05: no packet exceeds what the peer said it can receive
-/

namespace Osdp

open Spec.Wire Spec.Announce

theorem txBufSize_fits {p : Pd} {n : Nat} (h : n ≤ p.txBufSize) : Fits n p.peerRx := by
  unfold Pd.txBufSize at h
  split at h
  · exact ⟨by omega, fun _ => h⟩
  · exact ⟨h, by omega⟩

namespace CpM

theorem capLoop_at (cap : Fin 17 → Cap) (body : List Byte) :
    capLoop cap body 10 = ((known (entries body)).filter fun e => e.1 = 10#8).getLast?.elim (cap 10)
      fun e => ⟨e.1, e.2.1, e.2.2⟩ := by
  induction body using entries.induct generalizing cap with
  | case1 c l n rest ih =>
    unfold capLoop entries known
    by_cases h : c.toNat < 17
    · rw [dif_pos h, List.takeWhile_cons_of_pos (by simpa using h), ih]
      by_cases hc : c = 10#8
      · subst hc
        rw [List.filter_cons_of_pos (by simp)]
        cases hf : ((known (entries rest)).filter fun e => e.1 = 10#8) with
        | nil => unfold known at hf; rw [hf]; rfl
        | cons e es =>
          unfold known at hf; rw [hf, List.getLast?_cons_cons]
          cases hl : (e :: es).getLast? with
          | none => simp at hl
          | some x => rfl
      · rw [List.filter_cons_of_neg (by simpa using hc)]
        unfold known
        have : setCap cap ⟨c.toNat, h⟩ ⟨c, l, n⟩ 10 = cap 10 := by
          unfold setCap
          rw [if_neg]
          intro he
          apply hc
          have : c.toNat = 10 := (congrArg Fin.val he).symm
          exact BitVec.eq_of_toNat_eq this
        rw [this]
    · rw [dif_neg h, List.takeWhile_cons_of_neg (by simpa using h)]; rfl
  | case2 b hb =>
    match b, hb with
    | [], _ => rfl
    | [_], _ => rfl
    | [_, _], _ => rfl
    | c :: l :: n :: r, hb => exact absurd rfl (hb c l n r)

/-- The size the CP has been toldSize by the PD, after a visit or API call: the last one in a PDCAP reply. -/
def toldSize (C : Cipher) (p : Pd) (n : Nat) : Op → Nat
  | .update _ env =>
    match replyOf C p env with
    | some (id, body) => if id = b8 Id.PDCAP ∧ body.length % 3 = 0 then (rxSize (known (entries body))).getD n else n
    | none => n
  | _ => n

/-- the size announced last in a history (`n` before) -/
def announced (C : Cipher) : Pd → List Op → Nat → Nat
  | _, [], n => n
  | p, op :: ops, n =>
    match step C p op with
    | .ok (q, _) => announced C q ops (toldSize C p n op)
    | .error _ => n

/-- the size noted agrees with the capability noted -/
def Noted (p : Pd) : Prop := (p.cap 10).code = 10#8 → p.peerRx = (p.cap 10).compliance.toNat + 256 * (p.cap 10).numItems.toNat

theorem pdcap_told {p : Pd} (N : Noted p) (body : List Byte) :
    Noted (pdcap p body) ∧ (pdcap p body).peerRx = (rxSize (known (entries body))).getD p.peerRx := by
  refine ⟨fun h => if_pos h, ?_⟩
  show (if (capLoop p.cap body 10).code = 10#8 then _ else p.peerRx) = _
  rw [capLoop_at]
  unfold rxSize
  cases hl : ((known (entries body)).filter fun e => e.1 = 10#8).getLast? with
  | none =>
    show (if (p.cap 10).code = 10#8 then (p.cap 10).compliance.toNat + 256 * (p.cap 10).numItems.toNat else p.peerRx) = p.peerRx
    split
    · rename_i h; exact (N h).symm
    · rfl
  | some e =>
    have hm := List.mem_of_getLast? hl
    have : e.1 = 10#8 := by simpa using (List.mem_filter.mp hm).2
    show (if e.1 = 10#8 then e.2.1.toNat + 256 * e.2.2.toNat else p.peerRx) = _
    rw [if_pos this]; rfl

theorem Noted.of {p q : Pd} (N : Noted p) (h : SameInfo p q) : Noted q := by
  unfold Noted; rw [h.cap, h.peerRx]; exact N

theorem told_step {C : Cipher} {p q : Pd} {op : Op} {o : List Out} (hp : p.flags.pdMode = false) (N : Noted p) (h : step C p op = .ok (q, o)) :
    Noted q ∧ q.peerRx = toldSize C p p.peerRx op := by
  cases op with
  | update cb env =>
    obtain ⟨⟨p1, o1, y⟩, hu, hs⟩ := Res.bind_eq_ok.mp h
    injection hs with hs; injection hs with e1 e2; subst e1 e2
    have hU := stateUpdate_inv hp hu
    unfold toldSize; dsimp only
    rcases hU.learned with ⟨hi, hr⟩ | ⟨id, body, p2, p3, o, rc, hr, -, ht, hres, he, hi⟩
    · rw [hr]; exact ⟨N.of hi, hi.peerRx⟩
    · rw [hr]; dsimp only
      have h2 : SameInfo p { p2 with replyId := id.toNat } := (transp_info ht).trans ⟨rfl, rfl, rfl, rfl, rfl, rfl⟩
      have N2 := N.of h2
      by_cases hc : id = b8 Id.PDCAP ∧ body.length % 3 = 0
      · rw [if_pos hc]
        have e3 : p3 = pdcap { p2 with replyId := id.toNat } body := by
          obtain ⟨rfl, hb⟩ := hc
          unfold response at hres
          dsimp only at hres
          rw [if_neg (by decide), if_neg (by decide), if_neg (by decide), if_pos (by decide), if_neg (by omega)] at hres
          injection hres with hres; injection hres with e1 _
          exact e1.symm
        obtain ⟨n1, n2⟩ := pdcap_told N2 body
        rw [← e3] at n1 n2
        exact ⟨n1.of hi, by rw [hi.peerRx, n2, h2.peerRx]⟩
      · rw [if_neg hc]
        have same : p3.cap = p2.cap ∧ p3.peerRx = p2.peerRx := by
          cases he with
          | pdcap h1 h2 =>
            refine absurd ⟨?_, h2⟩ hc
            exact BitVec.eq_of_toNat_eq h1
          | _ => exact ⟨rfl, rfl⟩
        have N3 : Noted p3 := by unfold Noted; rw [same.1, same.2]; exact N2
        exact ⟨N3.of hi, by rw [hi.peerRx, same.2, ← h2.peerRx]⟩
  | _ =>
    have hi := (step_apiOnly h (fun cb env h => by cases h)).info
    exact ⟨N.of hi, hi.peerRx⟩

theorem told_run {C : Cipher} {p q : Pd} {ops : List Op} {o : List Out} (I : Inv p) (N : Noted p) (h : run C p ops = .ok (q, o)) :
    announced C p ops p.peerRx = q.peerRx := by
  induction ops generalizing p o with
  | nil => injection h with h; injection h with e1 e2; subst e1; rfl
  | cons op ops ih =>
    obtain ⟨⟨p1, o1⟩, h1, h⟩ := Res.bind_eq_ok.mp h
    obtain ⟨⟨p2, o2⟩, h2, h⟩ := Res.bind_eq_ok.mp h
    injection h with h; injection h with e1 e2; subst e1
    obtain ⟨N1, e⟩ := told_step I.cp N h1
    have := ih (I.step h1) N1 h2
    unfold announced
    rw [h1]; dsimp only
    rw [← e]; exact this

/-- **C05, CP.**  Whatever the history of a CP's PD object, the packets of its next visit fit: none is longer than 256 bytes, and
none is longer than the receive buffer size the PD announced last, if it announced one other than 0.

`_partial`: entries of a PDCAP reply after one with a function code above 16 are not read (`C05_cp_overlooked` below); the full
statement has `entries body` in place of `known (entries body)` in `toldSize`. -/
theorem C05_cp_partial (C : Cipher) (info : PdM.Info) (i : Nat) (sk : Bool) (n : Nat) (p q s : Pd) (ops : List Op) (op : Op)
    (o o' : List Out) (bs : List Byte) (hp : newPd info i sk n = some p) (h : run C p ops = .ok (q, o))
    (hs : step C q op = .ok (s, o')) (hb : bs ∈ sent o') : Fits bs.length (announced C p ops 0) := by
  have I : Inv p := (newPd_inv hp).1
  have h0 : p.peerRx = 0 ∧ (p.cap 10).code = 0#8 := by
    unfold newPd at hp
    split at hp
    · cases hp
    · injection hp with hp; subst hp; exact ⟨rfl, rfl⟩
  have N : Noted p := fun h => by rw [h0.2] at h; cases h
  have ht := told_run I N h
  rw [h0.1] at ht
  rw [ht]
  have Iq : Inv q := Reached.inv ⟨i, sk, n, p, ops, o, hp, h⟩
  cases op with
  | update cb env =>
    obtain ⟨⟨p1, o1, y⟩, hu, hs⟩ := Res.bind_eq_ok.mp hs
    injection hs with hs; injection hs with e1 e2; subst e1 e2
    rcases (stateUpdate_inv Iq.cp hu).packet Iq with he | ⟨-, k, hk, he, -⟩
    · rw [he] at hb; cases hb
    · rw [he] at hb
      obtain rfl := List.mem_singleton.mp hb
      refine txBufSize_fits (Nat.le_trans ?_ hk.size)
      rw [List.length_take]; omega
  | _ =>
    have := (step_api hs (fun cb env h => by cases h)).1
    rw [this] at hb; cases hb

/-- a long command -/
def long : Cmd := .mfg ⟨0x010203, 0x42, 64, .fill 64 0x77#8⟩

/-- The hypotheses are met, and the bound is not idle: a PD announces 70 bytes; a command that does not fit is not sent
(`assert_buf_len` stops the CP), a shorter one is. -/
example : (announced xorCipher Sample.cp (Sample.meets [10, 70, 0]) 0 = 70) ∧
    (match run xorCipher Sample.cp (Sample.meets [10, 70, 0] ++ [.send { now := 0 } long, Sample.hears [], Sample.hears []]) with
      | .ok _ => false
      | .error e => decide (e = .assertFail)) = true ∧
    (match run xorCipher Sample.cp (Sample.meets [10, 70, 0] ++ [Sample.hears [] 500, Sample.hears [] 500]) with
      | .ok (_, o) => decide ((sent o).length = 3)
      | .error _ => false) = true := by decide +kernel

/-- **C05 fails** for a PD that announces a buffer of 70 bytes after an entry with a function code the library does not know:
it is sent a packet of 77 bytes. -/
theorem C05_cp_overlooked : ∃ ops q o bs, run xorCipher Sample.cp ops = .ok (q, o) ∧ bs ∈ sent o ∧
    ops = Sample.meets [17, 1, 1, 10, 70, 0] ++ [.send { now := 0 } long, Sample.hears [], Sample.hears []] ∧
    rxSize (entries [17, 1, 1, 10, 70, 0]) = some 70 ∧ bs.length = 77 := by
  obtain ⟨q, o, h, hq⟩ := Sample.ran (C := xorCipher) (p := Sample.cp)
    (ops := Sample.meets [17, 1, 1, 10, 70, 0] ++ [.send { now := 0 } long, Sample.hears [], Sample.hears []])
    (fun _ o => (sent o)[2]?.map (·.length) == some 77) (by decide +kernel)
  have hq : (sent o)[2]?.map (·.length) = some 77 := by simpa using hq
  cases hb : (sent o)[2]? with
  | none => rw [hb] at hq; cases hq
  | some bs =>
    rw [hb] at hq; injection hq with hq
    exact ⟨_, q, o, bs, h, List.mem_of_getElem? hb, rfl, by decide +kernel, hq⟩

end CpM

namespace PdM

/-- the size in an ACURXSIZE command -/
def sizeIn : List Byte → Option Nat
  | b0 :: b1 :: _ => some (b0.toNat + 256 * b1.toNat)
  | _ => none

/-- the size the PD has been toldSize by the CP, after a refresh or API call -/
def toldSize (C : Cipher) (p : Pd) (n : Nat) : Op → Nat
  | .refresh env =>
    match commandOf C p env with
    | some (id, body) => if id = b8 Id.ACURXSIZE then (sizeIn body).getD n else n
    | none => n
  | _ => n

/-- the size announced last in a history (`n` before) -/
def announced (C : Cipher) : Pd → List Op → Nat → Nat
  | _, [], n => n
  | p, op :: ops, n =>
    match step C p op with
    | .ok (q, _) => announced C q ops (toldSize C p n op)
    | .error _ => n

/-- the size noted by the command switch -/
theorem outcome_told {p q : Pd} {env : Env} {body : List Byte} {outs : List Out} {ret : PdRet} (h : dispatch p env body = .ok (q, outs, ret))
    (ho : Outcome p env body q outs ret) : q.peerRx = if p.cmdId = Id.ACURXSIZE then (sizeIn body).getD p.peerRx else p.peerRx := by
  have plain : q.peerRx = p.peerRx → p.cmdId ≠ Id.ACURXSIZE → q.peerRx = if p.cmdId = Id.ACURXSIZE then (sizeIn body).getD p.peerRx else p.peerRx := by
    intro h hn; rw [if_neg hn]; exact h
  cases ho with
  | plain hpl hsp =>
    obtain ⟨r, e, rfl⟩ := hpl.quiet
    by_cases hid : p.cmdId = Id.ACURXSIZE
    · rw [if_pos hid]
      match body with
      | b0 :: b1 :: rest =>
        exfalso
        have := (hsp (by rw [hid]; decide)).2.1
        unfold dispatch at h
        dsimp only at h
        simp only [hid, reduceIte, Id.ACURXSIZE, Id.POLL, Id.LSTAT, Id.ISTAT, Id.OSTAT, Id.RSTAT, Id.ID, Id.CAP, Id.OUT, Id.LED,
          Id.BUZ, Id.TEXT, Id.COMSET, Id.MFG, Nat.reduceEqDiff] at h
        obtain ⟨-, -, h⟩ := reply_inv h
        rw [h] at this; cases this
      | [] => rfl
      | [_] => rfl
    · exact plain rfl hid
  | rxsize b0 b1 rest hid hb =>
    rw [if_pos hid, hb]
    show ofLe [b0, b1] = b0.toNat + 256 * b1.toNat
    simp [ofLe]
  | poll hid hb =>
    refine plain ?_ (by rw [hid]; decide)
    unfold pollEvent; split <;> rfl
  | keep b0 b1 rest hid hb => exact plain rfl (by rw [hid]; decide)
  | abort hid hb => exact plain rfl (by rw [hid]; decide)
  | file hid hb => refine plain ?_ (by rw [hid]; decide); split <;> rfl
  | chlng rnd hid hb _ => exact plain rfl (by rw [hid]; decide)
  | scrypt cg hid hb _ _ => exact plain rfl (by rw [hid]; decide)

theorem told_step {C : Cipher} {p q : Pd} {op : Op} {o : List Out} (hp : p.flags.pdMode = true) (h : step C p op = .ok (q, o)) :
    q.peerRx = toldSize C p p.peerRx op := by
  cases op with
  | refresh env =>
    obtain ⟨p1, o1, ret, o2, hg, -, hf, -⟩ := refresh_inv hp h
    have tl := (finished_tail hf).peerRx
    unfold toldSize; dsimp only
    rcases hg.heard with ⟨hn, -, e, -⟩ | ⟨id, body, p2, hc, ht, hd, ho⟩
    · rw [hn, tl]; exact e
    · rw [hc, tl, outcome_told hd ho]; dsimp only
      have e2 : (noteCmd p2 id).peerRx = p.peerRx := ht.peerRx.trans (expire_fields p env.now).1.peerRx
      have e3 : (noteCmd p2 id).cmdId = Id.ACURXSIZE ↔ id = b8 Id.ACURXSIZE :=
        ⟨fun h => BitVec.eq_of_toNat_eq h, fun h => by rw [h]; rfl⟩
      rw [e2]
      by_cases h : id = b8 Id.ACURXSIZE
      · rw [if_pos h, if_pos (e3.mpr h)]
      · rw [if_neg h, if_neg (mt e3.mp h)]
  | notify e =>
    injection h with h; injection h with e1 e2; subst e1
    show (notifyEvent p e).1.peerRx = p.peerRx
    unfold notifyEvent; split <;> rfl
  | _ => injection h with h; injection h with e1 e2; subst e1; rfl

theorem told_run {C : Cipher} {info : Info} {p q : Pd} {ops : List Op} {o : List Out} (hp : Reached C info p) (h : run C p ops = .ok (q, o)) :
    announced C p ops p.peerRx = q.peerRx := by
  induction ops generalizing p o with
  | nil => injection h with h; injection h with e1 e2; subst e1; rfl
  | cons op ops ih =>
    obtain ⟨⟨p1, o1⟩, h1, h⟩ := Res.bind_eq_ok.mp h
    obtain ⟨⟨p2, o2⟩, h2, h⟩ := Res.bind_eq_ok.mp h
    injection h with h; injection h with e1 e2; subst e1
    have := ih (hp.step h1) h2
    unfold announced
    rw [h1]; dsimp only
    rw [← told_step hp.pdMode h1]; exact this

/-- **C05, PD.**  Whatever the history of a PD, the reply of its next refresh fits: it is not longer than 256 bytes, and not longer
than the receive buffer size of the last ACURXSIZE command it took before, or in this refresh, if that is not 0. -/
theorem C05_pd (C : Cipher) (info : Info) (sk : Bool) (n : Nat) (p q s : Pd) (ops : List Op) (op : Op)
    (o o' : List Out) (bs : List Byte) (hp : setup info sk n = some p) (h : run C p ops = .ok (q, o))
    (hs : step C q op = .ok (s, o')) (hb : Out.send bs ∈ o') : Fits bs.length (announced C p (ops ++ [op]) 0) := by
  have R0 : Reached C info p := ⟨sk, n, p, [], [], hp, rfl⟩
  have R : Reached C info q := ⟨sk, n, p, ops, o, hp, h⟩
  have h0 : p.peerRx = 0 := by
    unfold setup at hp
    split at hp
    · cases hp
    · injection hp with hp; subst hp; rfl
  have ht := told_run R0 (run_snoc h hs)
  rw [h0] at ht
  rw [ht]
  cases op with
  | refresh env =>
    obtain ⟨p1, o1, ret, o2, hg, hm, hf, rfl⟩ := refresh_inv R.pdMode hs
    have tl := (finished_tail hf).peerRx
    rcases List.mem_append.mp hb with hb | hb
    · rcases hg.heard with ⟨-, rfl, -⟩ | ⟨id, body, p2, -, -, -, ho⟩
      · cases hb
      · have h1 := outs_nosend ho
        have : bs ∈ sent o1 := List.mem_filterMap.mpr ⟨_, hb, rfl⟩
        rw [h1] at this; cases this
    · obtain ⟨r, rfl, hr⟩ := finished_packet hf hb
      rw [tl]
      refine txBufSize_fits (Nat.le_trans ?_ hr.size)
      rw [List.length_take]; omega
  | _ => injection hs with hs; injection hs with e1 e2; subst e2; cases hb

/-- the hypotheses are met: the sample PD is toldSize 75 and asked for its capabilities, then toldSize 0 -/
example : (announced xorCipher Sample.pd [.refresh (Sample.env (Sample.cmd 0 [b8 Id.ACURXSIZE, 75, 0]))] 0 = 75) ∧
    (match run xorCipher Sample.pd [.refresh (Sample.env (Sample.cmd 0 [b8 Id.ACURXSIZE, 75, 0])),
        .refresh (Sample.env (Sample.cmd 1 [b8 Id.CAP, 0]))] with
      | .ok (_, o) => decide ((sent o).length = 2 ∧ ∀ bs ∈ sent o, bs.length ≤ 75)
      | .error _ => false) = true ∧
    (announced xorCipher Sample.pd [.refresh (Sample.env (Sample.cmd 0 [b8 Id.ACURXSIZE, 75, 0])),
      .refresh (Sample.env (Sample.cmd 1 [b8 Id.ACURXSIZE, 0, 0]))] 0 = 0) := by decide +kernel

end PdM
end Osdp
