import Verif.Lemmas.CtxSetup
import Verif.Lemmas.SampleCp

/-!
# C47: status bitmaps
-/

namespace Osdp.C47

open CpM

/-- bit `m` of a byte string, least significant bit of the first byte first -/
def bit (l : List Byte) (m : Nat) : Bool := (l[m / 8]?.getD 0#8).getLsbD (m % 8)

/-- set the bits of `acc` as one round of the loop does -/
def step (f : Pd → Bool) (i : Nat) (acc : List Byte) (p : Pd) : List Byte :=
  let acc := if i ≠ 0 ∧ i % 8 = 0 then 0#8 :: acc else acc
  match acc with
  | b :: rest => (if f p then b ||| (1#8 <<< (i % 8)) else b) :: rest
  | [] => []

theorem maskLoop_cons (f : Pd → Bool) (i : Nat) (acc : List Byte) (p : Pd) (ps : List Pd) :
    maskLoop f i acc (p :: ps) = maskLoop f (i + 1) (step f i acc p) ps := rfl

/-- number of bytes in use when PD `i` comes next -/
def used (i : Nat) : Nat := if i = 0 then 1 else (i + 7) / 8

theorem bit_last (b : Byte) (rest : List Byte) (m : Nat) :
    bit (rest.reverse ++ [b]) m =
      if m / 8 = rest.length then b.getLsbD (m % 8) else bit rest.reverse m := by
  unfold bit
  by_cases h : m / 8 = rest.length
  · rw [if_pos h, h, List.getElem?_append_right (by simp)]
    simp
  · rw [if_neg h]
    by_cases h2 : m / 8 < rest.length
    · rw [List.getElem?_append_left (by simpa using h2)]
    · rw [List.getElem?_eq_none (by simp; omega), List.getElem?_eq_none (by simp; omega)]

theorem getLsbD_or_shift (b : Byte) (k j : Nat) (hk : k < 8) :
    (b ||| (1#8 <<< k)).getLsbD j = (b.getLsbD j || decide (j = k)) := by
  rw [BitVec.getLsbD_or, BitVec.getLsbD_shiftLeft]
  by_cases h : j = k
  · subst h; simp [hk]
  · simp only [h, decide_false, Bool.or_false]
    by_cases hj : j < k
    · simp [hj]
    · have : (1#8).getLsbD (j - k) = false := by
        rw [show (1#8 : BitVec 8) = 1#(8) from rfl, BitVec.getLsbD_one]
        simp; omega
      simp [this]

theorem step_spec (f : Pd → Bool) (i : Nat) (acc : List Byte) (p : Pd) (hl : acc.length = used i)
    (hb : ∀ m, i ≤ m → bit acc.reverse m = false) :
    (step f i acc p).length = used (i + 1) ∧
    (∀ m, m < i → bit (step f i acc p).reverse m = bit acc.reverse m) ∧
    bit (step f i acc p).reverse i = f p ∧
    (∀ m, i < m → bit (step f i acc p).reverse m = false) := by
  -- the accumulator after the optional new byte
  obtain ⟨b, rest, hacc, hlen, hbits⟩ : ∃ b rest,
      (if i ≠ 0 ∧ i % 8 = 0 then 0#8 :: acc else acc) = b :: rest ∧ rest.length = i / 8 ∧
      ∀ m, bit (b :: rest).reverse m = bit acc.reverse m := by
    unfold used at hl
    by_cases hi : i ≠ 0 ∧ i % 8 = 0
    · refine ⟨0#8, acc, by rw [if_pos hi], by rw [hl, if_neg hi.1]; omega, fun m => ?_⟩
      rw [List.reverse_cons, bit_last]
      split
      · rename_i h
        unfold bit
        rw [List.getElem?_eq_none (by simp; omega)]
        simp
      · rfl
    · rw [if_neg hi]
      cases acc with
      | nil => simp at hl; split at hl <;> omega
      | cons b rest =>
        refine ⟨b, rest, rfl, ?_, fun m => rfl⟩
        simp at hl
        split at hl <;> omega
  have hs : step f i acc p = (if f p then b ||| (1#8 <<< (i % 8)) else b) :: rest := by
    unfold step; rw [hacc]
  have hbit : ∀ m, bit (step f i acc p).reverse m =
      (bit acc.reverse m || (f p && decide (m = i))) := by
    intro m
    rw [hs, ← hbits m, List.reverse_cons, List.reverse_cons, bit_last, bit_last, hlen]
    by_cases hm : m / 8 = i / 8
    · rw [if_pos hm, if_pos hm]
      have hmi : (m = i) ↔ (m % 8 = i % 8) := by omega
      cases f p
      · simp
      · simp only [if_true, Bool.true_and]
        rw [getLsbD_or_shift _ _ _ (by omega)]
        congr 1
        simp [hmi]
    · rw [if_neg hm, if_neg hm]
      have : m ≠ i := fun h => hm (by rw [h])
      simp [this]
  refine ⟨?_, fun m hm => ?_, ?_, fun m hm => ?_⟩
  · rw [hs]; simp [hlen, used]; omega
  · rw [hbit]; simp; omega
  · rw [hbit, hb i (by omega)]; simp
  · rw [hbit, hb m (by omega)]; simp; omega

theorem maskLoop_spec (f : Pd → Bool) : ∀ (ps : List Pd) (i : Nat) (acc : List Byte),
    acc.length = used i → (∀ m, i ≤ m → bit acc.reverse m = false) →
    (maskLoop f i acc ps).length = used (i + ps.length) ∧
    ∀ m, bit (maskLoop f i acc ps) m =
      if m < i then bit acc.reverse m else (ps[m - i]?.map f).getD false
  | [], i, acc, hl, hb => by
    refine ⟨by simp [maskLoop, hl], fun m => ?_⟩
    simp only [maskLoop, List.getElem?_nil, Option.map_none, Option.getD_none]
    split
    · rfl
    · exact hb m (by omega)
  | p :: ps, i, acc, hl, hb => by
    obtain ⟨h1, h2, h3, h4⟩ := step_spec f i acc p hl hb
    obtain ⟨i1, i2⟩ := maskLoop_spec f ps (i + 1) (step f i acc p) h1 (fun m hm => h4 m (by omega))
    rw [maskLoop_cons]
    refine ⟨by rw [i1]; congr 1; simp; omega, fun m => ?_⟩
    rw [i2]
    by_cases hm : m < i
    · rw [if_pos hm, if_pos (by omega), h2 m hm]
    · rw [if_neg hm]
      by_cases he : m = i
      · subst he
        rw [if_pos (by omega), h3]; simp
      · rw [if_neg (by omega)]
        have : m - i = (m - (i + 1)) + 1 := by omega
        rw [this, List.getElem?_cons_succ]

theorem mask_all (f : Pd → Bool) (ps : List Pd) (hn : ps ≠ []) :
    (maskLoop f 0 [0#8] ps).length = (ps.length + 7) / 8 ∧
    ∀ m, bit (maskLoop f 0 [0#8] ps) m = (ps[m]?.map f).getD false := by
  have h0 : ∀ m, 0 ≤ m → bit [0#8].reverse m = false := by
    intro m _
    unfold bit
    by_cases h : m / 8 = 0
    · simp [h]
    · rw [List.getElem?_eq_none (by simp; omega)]; simp
  obtain ⟨h1, h2⟩ := maskLoop_spec f ps 0 [0#8] (by simp [used]) h0
  have hl : ps.length ≠ 0 := by simpa using hn
  refine ⟨by rw [h1]; simp [used, hl], fun m => ?_⟩
  rw [h2]; simp

/-- **C47 (online bitmap).**  For a CP context with at least one PD, `osdp_get_status_mask` writes
exactly ⌈n/8⌉ bytes, in which bit `m` is set iff there is a PD number `m` and it is online. -/
theorem C47_status_mask (pds : List Pd) (now : Int) (hn : pds ≠ [])
    (hcp : ∀ p ∈ pds, p.flags.pdMode = false) :
    ∃ bytes, statusMask pds now = .ok bytes ∧ bytes.length = (pds.length + 7) / 8 ∧
      ∀ m, bit bytes m = true ↔ ∃ p, pds[m]? = some p ∧ p.state = .online := by
  cases pds with
  | nil => exact absurd rfl hn
  | cons p ps =>
    refine ⟨maskLoop (fun p => decide (p.state = .online)) 0 [0#8] (p :: ps), ?_, ?_, fun m => ?_⟩
    · simp [statusMask, hcp p (by simp)]
    · exact (mask_all _ _ hn).1
    · rw [(mask_all _ _ hn).2 m]
      cases h : (p :: ps)[m]? <;> simp

/-- **C47 (secure channel bitmap).**  Likewise `osdp_get_sc_status_mask`: bit `m` is set iff PD number
`m` exists, its secure channel is active and not keyed by the default key. -/
theorem C47_sc_status_mask (pds : List Pd) (hn : pds ≠ []) :
    (scStatusMask pds).length = (pds.length + 7) / 8 ∧
    ∀ m, bit (scStatusMask pds) m = true ↔
      ∃ p, pds[m]? = some p ∧ p.flags.scActive = true ∧ p.flags.useScbkd = false := by
  refine ⟨(mask_all _ _ hn).1, fun m => ?_⟩
  unfold scStatusMask
  rw [(mask_all _ _ hn).2 m]
  cases h : pds[m]? <;> simp

/-- PD mode: the single bit says whether the last byte arrived less than 8 s ago. -/
theorem C47_status_mask_pd (p : Pd) (now : Int) (hp : p.flags.pdMode = true) :
    ∃ b, statusMask [p] now = .ok [b] ∧ (bit [b] 0 = true ↔ now - p.tstamp < 8000) ∧
      ∀ m, 0 < m → bit [b] m = false := by
  simp only [statusMask, hp, if_true]
  refine ⟨_, rfl, ?_, fun m hm => ?_⟩
  · simp only [bit, Nat.zero_div, List.getElem?_cons_zero, Option.getD_some, Nat.zero_mod]
    split <;> simp_all [PD_ONLINE_TOUT]
  · unfold bit
    by_cases h : m / 8 = 0
    · rw [h]
      have hm8 : m % 8 < 8 := by omega
      have hm0 : m % 8 ≠ 0 := by omega
      simp only [List.getElem?_cons_zero, Option.getD_some]
      generalize m % 8 = j at hm8 hm0
      revert j
      split <;> decide
    · rw [List.getElem?_eq_none (by simp; omega)]; simp

/-- Violation: on a context that has no PD yet (`osdp_cp_setup` accepts an empty list) the status
bitmap function dereferences a NULL pointer. -/
theorem C47_no_pd_crashes (now : Int) : statusMask [] now = .error .nullDeref := rfl

/-! ### over histories -/

/-- every PD object is in a state the CP can get it into -/
def Sound (c : Ctx) : Prop := ∀ p ∈ c.pds, Inv p

theorem Sound.put {c : Ctx} {i : Nat} {q : Pd} (S : Sound c) (hq : Inv q) : ∀ p ∈ c.pds.set i q, Inv p := by
  intro p hp
  rcases List.mem_or_eq_of_mem_set hp with h | rfl
  · exact S p h
  · exact hq

theorem refreshPd_sound {C : Cipher} {c c' : Ctx} {i : Nat} {env : Env} {outs : List Out} {more : Bool} (S : Sound c)
    (h : refreshPd C c i env = .ok (c', outs, more)) : Sound c' := by
  unfold refreshPd at h
  split at h
  · cases h
  rename_i p hp
  have hI : Inv p := S p (List.mem_of_getElem? hp)
  split at h
  · obtain ⟨l, -, h⟩ := Res.bind_eq_ok.mp h
    cases l with
    | none => injection h with h; injection h with e1 h; subst e1; exact S
    | some l =>
      obtain ⟨⟨p', o, y⟩, hu, h⟩ := Res.bind_eq_ok.mp h
      have hq : Inv p' := hI.update (stateUpdate_inv hI.cp hu)
      dsimp only at h
      split at h
      · obtain ⟨lk, -, h⟩ := Res.bind_eq_ok.mp h
        injection h with h; injection h with e1 h; subst e1; exact S.put hq
      · injection h with h; injection h with e1 h; subst e1; exact S.put hq
  · obtain ⟨⟨p', o, y⟩, hu, h⟩ := Res.bind_eq_ok.mp h
    injection h with h; injection h with e1 h; subst e1
    exact S.put (hI.update (stateUpdate_inv hI.cp hu))

theorem refreshLoop_sound {C : Cipher} : ∀ {n k : Nat} {c c' : Ctx} {envs : Nat → Env} {outs : List Out}, Sound c →
    refreshLoop C n k c envs = .ok (c', outs) → Sound c'
  | 0, _, c, c', _, outs, S, h => by injection h with h; injection h with e1 _; subst e1; exact S
  | n + 1, k, c, c', envs, outs, S, h => by
    obtain ⟨⟨c1, o1, more⟩, h1, h⟩ := Res.bind_eq_ok.mp h
    have S1 := refreshPd_sound S h1
    dsimp only at h
    split at h
    · injection h with h; injection h with e1 _; subst e1; exact S1
    · obtain ⟨⟨c2, o2⟩, h2, h⟩ := Res.bind_eq_ok.mp h
      injection h with h; injection h with e1 _; subst e1
      exact refreshLoop_sound (c := { c1 with cur := nextIdx c1 c1.cur }) S1 h2

theorem newPds_sound {sk : Bool} {n : Nat} : ∀ {infos : List PdM.Info} {k : Nat} {ps : List Pd}, newPds sk n k infos = some ps → ∀ p ∈ ps, Inv p
  | [], k, ps, h => by injection h with h; subst h; intro p hp; cases hp
  | x :: xs, k, ps, h => by
    unfold newPds at h
    obtain ⟨p1, h1, h⟩ := Option.bind_eq_some_iff.mp h
    obtain ⟨ps1, h2, h⟩ := Option.bind_eq_some_iff.mp h
    injection h with h; subst h
    intro p hp
    rcases List.mem_cons.mp hp with rfl | hp
    · exact (newPd_inv h1).1
    · exact newPds_sound h2 p hp

theorem addPd_sound {c c' : Ctx} {infos : List PdM.Info} {sk : Bool} {n : Nat} (S : Sound c)
    (h : addPd c infos sk n = .ok (some c')) : Sound c' := by
  unfold addPd at h
  split at h
  · cases h
  rename_i ps hps
  obtain ⟨c1, h1, h⟩ := Res.bind_eq_ok.mp h
  injection h with h; injection h with h; subst h
  unfold topology at h1
  split at h1
  · cases h1
  injection h1 with h1; subst h1
  intro p hp
  unfold markShared at hp
  obtain ⟨q, hq, rfl⟩ := List.mem_map.mp hp
  have hq : Inv q := by
    rcases List.mem_append.mp hq with h | h
    · exact S q h
    · exact newPds_sound hps q h
  split
  · exact ⟨hq.cp, hq.phy, hq.restart, hq.lo, hq.hi, hq.asked, hq.probe, hq.secure, hq.cmd, hq.install⟩
  · exact hq

theorem ctxStep_sound {C : Cipher} {c c' : Ctx} {op : CtxOp} {o : List Out} (S : Sound c) (h : ctxStep C c op = .ok (c', o)) : Sound c' := by
  cases op with
  | refresh envs => exact refreshLoop_sound S h
  | send i env cmd =>
    injection h with h; injection h with e1 _; subst e1
    unfold sendCommand
    split
    · split
      · exact S
      · rename_i p hp
        exact S.put ((S p (List.mem_of_getElem? hp)).step (C := C) (op := .send env cmd) rfl)
    · exact S
  | flush i =>
    injection h with h; injection h with e1 _; subst e1
    unfold flushCommands
    split
    · split
      · exact S
      · rename_i p hp
        exact S.put ((S p (List.mem_of_getElem? hp)).step (C := C) (op := .flush) rfl)
    · exact S
  | flag i f b =>
    injection h with h; injection h with e1 _; subst e1
    unfold modifyFlag
    split
    · split
      · exact S
      · rename_i p hp
        exact S.put ((S p (List.mem_of_getElem? hp)).step (C := C) (op := .flag f b) rfl)
    · exact S
  | fileOps i =>
    injection h with h; injection h with e1 _; subst e1
    unfold fileRegisterOps
    split
    · split
      · exact S
      · rename_i p hp
        exact S.put ((S p (List.mem_of_getElem? hp)).step (C := C) (op := .fileOps) rfl)
    · exact S
  | callback b => injection h with h; injection h with e1 _; subst e1; exact S
  | add infos sk n =>
    cases infos with
    | nil => cases h
    | cons x xs =>
      obtain ⟨r, hr, h⟩ := Res.bind_eq_ok.mp h
      cases r with
      | none => injection h with h; injection h with e1 _; subst e1; exact S
      | some c1 => injection h with h; injection h with e1 _; subst e1; exact addPd_sound S hr

theorem ctxRun_sound {C : Cipher} : ∀ {ops : List CtxOp} {c c' : Ctx} {o : List Out}, Sound c → ctxRun C c ops = .ok (c', o) → Sound c'
  | [], c, c', o, S, h => by injection h with h; injection h with e1 _; subst e1; exact S
  | op :: ops, c, c', o, S, h => by
    obtain ⟨⟨c1, o1⟩, h1, h⟩ := Res.bind_eq_ok.mp h
    obtain ⟨⟨c2, o2⟩, h2, h⟩ := Res.bind_eq_ok.mp h
    injection h with h; injection h with e1 _; subst e1
    exact ctxRun_sound (ctxStep_sound S h1) h2

theorem setup_sound {infos : List PdM.Info} {sk : Bool} {n : Nat} {c : Ctx} (h : setup infos sk n = .ok (some c)) : Sound c := by
  unfold setup at h
  dsimp only at h
  split at h
  · injection h with h; injection h with h; subst h; intro p hp; cases hp
  · exact addPd_sound (fun p hp => by cases hp) h

/-- **C47 (over histories).**  A CP set up with any PDs, after any API calls (PDs may have been added), asked for both bitmaps at any
time: as long as it has a PD the calls give ⌈n/8⌉ bytes each for `n` PDs, bit `m` of the first is set iff PD `m` is online, bit `m` of
the second iff PD `m` has an active channel with a non-default key, and every PD in the second bitmap is in the first one. -/
theorem C47_history (C : Cipher) (infos : List PdM.Info) (sk : Bool) (n : Nat) (c c' : Ctx) (ops : List CtxOp) (o : List Out) (now : Int)
    (hs : setup infos sk n = .ok (some c)) (hr : ctxRun C c ops = .ok (c', o)) (hn : c'.pds ≠ []) :
    ∃ online, statusMask c'.pds now = .ok online ∧ online.length = (c'.pds.length + 7) / 8 ∧
      (scStatusMask c'.pds).length = (c'.pds.length + 7) / 8 ∧
      (∀ m, bit online m = true ↔ ∃ p, c'.pds[m]? = some p ∧ p.state = .online) ∧
      (∀ m, bit (scStatusMask c'.pds) m = true ↔
        ∃ p, c'.pds[m]? = some p ∧ p.flags.scActive = true ∧ p.flags.useScbkd = false) ∧
      ∀ m, bit (scStatusMask c'.pds) m = true → bit online m = true := by
  have S := ctxRun_sound (setup_sound hs) hr
  obtain ⟨b, h1, h2, h3⟩ := C47_status_mask c'.pds now hn (fun p hp => (S p hp).cp)
  obtain ⟨h4, h5⟩ := C47_sc_status_mask c'.pds hn
  refine ⟨b, h1, h2, h4, h3, h5, fun m hm => ?_⟩
  obtain ⟨p, hp, ha, hk⟩ := (h5 m).mp hm
  have I := S p (List.mem_of_getElem? hp)
  rcases I.secure ha with h | h
  · exact (h3 m).mpr ⟨p, hp, h⟩
  · rw [I.install h] at hk; cases hk

/-- nine PDs, the first and the last online -/
example : ∃ bytes, statusMask
    ({ Sample.cp with state := .online } :: List.replicate 7 Sample.cp ++ [{ Sample.cp with state := .online }]) 0
      = .ok bytes ∧ bytes = [1#8, 1#8] := ⟨_, rfl, by decide⟩

/-- a PD with which the CP has opened a secure channel (ten ms per turn) is in both bitmaps -/
example : (statusMask [(Sample.talk.turns Aes.aes 10 13).cp, Sample.cp] 0).toOption = some [1#8] ∧
    scStatusMask [(Sample.talk.turns Aes.aes 10 13).cp, Sample.cp] = [1#8] := by decide +kernel

/-- the hypotheses of `C47_history`: nine PDs set up, one more added, one refresh -/
example : ∃ c c' o, setup (List.replicate 9 { Sample.pdInfo with chanId := 5 }) false 4 = .ok (some c) ∧
    ctxRun Aes.aes c [.add [Sample.pdInfo] false 4, .refresh fun _ => { now := 1 }] = .ok (c', o) ∧ c'.pds.length = 10 := by
  refine ⟨_, _, _, rfl, rfl, by decide +kernel⟩

end Osdp.C47
