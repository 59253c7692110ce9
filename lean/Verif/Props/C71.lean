import Verif.Props.C21
import Verif.Props.C70

/-!
# C71: every challenge carries a number drawn for it

The number the CP challenges a PD with is what makes the session keys new. Here the numbers the CP sends are compared with those it drew
(`Env.random` of its visits).
-/

namespace Osdp.CpM

open Spec.Wire (Packet sent)

/-- In the history `ops` the number `r` was drawn in a visit since which the CP has been challenging the PD, without a break: no session, no
other attempt came in between. -/
def Drawn (C : Cipher) (p0 : Pd) (ops : List Op) (r : Half) : Prop :=
  ∃ a cb env b, ops = a ++ .update cb env :: b ∧ env.random = r ∧
    ∀ c, c <+: b → ∀ s o, run C p0 (a ++ .update cb env :: c) = .ok (s, o) → s.state = .scChlng

theorem over_snoc {C : Cipher} {p q s : Pd} {ops : List Op} {op : Op} {o o' : List Out} {g : Hail} (h : run C p ops = .ok (q, o))
    (hs : step C q op = .ok (s, o')) : g.over C p (ops ++ [op]) = (g.over C p ops).after C q op s := by
  induction ops generalizing p o g with
  | nil =>
    injection h with h; injection h with e1 e2; subst e1
    show Hail.over C g p [op] = _
    unfold Hail.over
    rw [hs]
    rfl
  | cons x xs ih =>
    obtain ⟨⟨p1, o1⟩, h1, h⟩ := Res.bind_eq_ok.mp h
    obtain ⟨⟨p2, o2⟩, h2, h⟩ := Res.bind_eq_ok.mp h
    injection h with h; injection h with e1 e2; subst e1 e2
    show Hail.over C g p (x :: (xs ++ [op])) = _
    rw [Hail.over, Hail.over, h1]
    exact ih h2

theorem Drawn.snoc {C : Cipher} {p0 q s : Pd} {ops : List Op} {op : Op} {o o' : List Out} {r : Half} (D : Drawn C p0 ops r)
    (h : run C p0 ops = .ok (q, o)) (hs : step C q op = .ok (s, o')) (hst : s.state = .scChlng) : Drawn C p0 (ops ++ [op]) r := by
  obtain ⟨a, cb, env, b, rfl, he, hb⟩ := D
  refine ⟨a, cb, env, b ++ [op], by simp, he, ?_⟩
  intro c hc t ot ht
  rcases List.prefix_concat_iff.mp hc with rfl | hc
  · have := run_snoc h hs
    rw [show (a ++ Op.update cb env :: b) ++ [op] = a ++ Op.update cb env :: (b ++ [op]) by simp, ht] at this
    injection this with this; injection this with e1 e2
    rw [e1]; exact hst
  · exact hb c hc t ot ht

/-- a CP that challenges does so with a number drawn for it -/
theorem challenging_drawn {C : Cipher} {info : PdM.Info} {i n : Nat} {sk : Bool} {p0 q : Pd} {ops : List Op} {o : List Out}
    (h0 : newPd info i sk n = some p0) (h : run C p0 ops = .ok (q, o)) : q.state = .scChlng → Drawn C p0 ops q.sc.cpRandom := by
  have key := run_ind (C := C) (p := p0) (fun ops q _ => q.state = .scChlng → Drawn C p0 ops (Hail.none.over C p0 ops).rnd)
    (fun hs => by
      obtain ⟨-, -, -, h⟩ := newPd_inv h0
      rw [h] at hs; cases hs)
    (fun ops op q o s o' hr ih hs hst => by
      have hov := over_snoc (g := Hail.none) hr hs
      rw [hov]
      cases op with
      | update cb env =>
        by_cases hq : q.state = .scChlng
        · have : ((Hail.none.over C p0 ops).after C q (.update cb env) s).rnd = (Hail.none.over C p0 ops).rnd := by
            unfold Hail.after Hail.renew
            dsimp only
            rw [if_neg (fun h => h.2 hq)]
            unfold Hail.hear
            rw [if_pos hq]
            split
            · split <;> rfl
            · rfl
          rw [this]
          exact (ih hq).snoc hr hs hst
        · have : (Hail.none.over C p0 ops).after C q (.update cb env) s = ⟨env.random, Option.none⟩ := if_pos ⟨hst, hq⟩
          rw [this]
          refine ⟨ops, cb, env, [], by simp, rfl, ?_⟩
          intro c hc t ot ht
          rw [List.prefix_nil.mp hc] at ht
          have := run_snoc hr hs
          rw [ht] at this
          injection this with this; injection this with e1 e2
          rw [e1]; exact hst
      | _ =>
        have ha := step_apiOnly hs (fun cb env h => by cases h)
        unfold Api at ha
        have hq : q.state = .scChlng := by rw [ha] at hst; exact hst
        exact (ih hq).snoc hr hs hst) h
  intro hst
  rw [((sess_run (newPd_inv h0).1 (newPd_sess h0) h).2).rnd (.inl hst)]
  exact key hst

/-- what a packet of the CP can be: a challenge only when the CP is challenging, and then with its number -/
theorem outcome_challenge {C : Cipher} {p p1 : Pd} {env : Env} {o : List Out} {ok : Bool} {bs : List Byte} (hcmd : CmdOf p.state p.cmdId)
    (hact : p.flags.scActive = true → p.state = .online ∨ p.state = .setScbk)
    (ho : SendOutcome C p env p1 o ok) (hs : bs ∈ sent o) :
    ∃ k : Packet, bs = k.bytes.take env.sendCap ∧
      (k.id = some 0x76#8 → p.state = .scChlng ∧ k.data = 0x76#8 :: p.sc.cpRandom.1 ∧ k.scb = [3#8, 0x11#8, if p.flags.useScbkd then 0 else 1]) := by
  have none76 : ∀ {w : List Byte} {x : Byte}, w.head? = some x → x ≠ 0x76#8 → ¬ w.head? = some 0x76#8 := by
    intro w x h1 h2 h3
    rw [h1] at h3
    injection h3 with h3
    exact h2 h3
  have hother : p.cmdId ≠ Id.CHLNG → b8 p.cmdId ≠ 0x76#8 := by
    intro hn
    revert hcmd hn
    generalize p.cmdId = x
    cases p.state <;> unfold CmdOf <;> dsimp only
    case scChlng => exact fun h hn => absurd h hn
    case online =>
      intro h _
      have : ∀ x ∈ [Id.POLL, Id.LSTAT, Id.ISTAT, Id.OSTAT, Id.RSTAT, Id.OUT, Id.LED, Id.BUZ, Id.TEXT, Id.COMSET, Id.KEYSET, Id.MFG, Id.FILETRANSFER, Id.ABORT],
        b8 x ≠ 0x76#8 := by decide
      exact this x h
    all_goals first | (rintro rfl _; decide) | exact fun h => h.elim
  cases ho with
  | mute _ => cases hs
  | unbuilt b _ _ ho _ => rw [Link.sent_fread ho.outs] at hs; cases hs
  | built b l _ outs _ hm hb ho hl hne hsend hw hbuf =>
    rw [sent_append, Link.sent_fread ho.outs, List.nil_append] at hs
    rcases hw with ⟨rfl, -⟩ | ⟨wire, q', hmis, hd, hsc, hfit, rfl, hok⟩
    · cases hs
    rw [sendOuts_sent, List.mem_singleton] at hs
    refine ⟨_, hs, fun hid => ?_⟩
    have hl0 : l.head? = some 0x76#8 := hd.id.symm.trans hid
    clear hid
    cases ho with
    | same body h1 h2 h3 h4 =>
      exact absurd hl0 (none76 (h4 l hl) (hother h2))
    | unbuilt h => cases hl
    | file f outs' r room h1 h2 =>
      injection hl with hl
      subst hl
      cases r with
      | none => exact absurd hl0 (none76 rfl (by decide))
      | some bs => exact absurd hl0 (none76 rfl (by rw [show (nextCmd p).cmdId = _ from h1]; decide))
    | chlng h1 h2 h3 =>
      injection hl with hl
      subst hl
      have hst : p.state = .scChlng := by
        revert hcmd
        rw [show p.cmdId = Id.CHLNG from h1]
        cases p.state <;> unfold CmdOf <;> decide
      have hin : p.scActive = false := by
        cases h : p.scActive with
        | false => rfl
        | true => rcases hact h with h | h <;> rw [hst] at h <;> cases h
      have hns : ¬ Phy.Secured (nextCmd p) (finalTx { cmdTx p with scb := [3#8, 0x11#8, if (nextCmd p).flags.useScbkd then 0 else 1] } (nextCmd p) (b8 (nextCmd p).cmdId :: (nextCmd p).sc.cpRandom.1).length) := by
        rintro ⟨h, -⟩
        have : (nextCmd p).scActive = false := hin
        rw [this] at h; cases h
      have hw := (hd.plain hns).1
      refine ⟨hst, ?_, ?_⟩
      · show wire = _
        rw [hw, show (nextCmd p).cmdId = Id.CHLNG from h1]
        rfl
      · rfl
    | scrypt sc h1 =>
      injection hl with hl
      subst hl
      exact absurd hl0 (none76 rfl (by rw [show (nextCmd p).cmdId = _ from h1]; decide))

/-- **C71.** Whatever the CP sends, if it is a challenge it carries a number drawn by the CP in a visit since which it has done nothing but
challenge the PD. What is missing from the full statement: the challenge need not be the only one with that number (see `C71_reused`). -/
theorem C71_partial (C : Cipher) (info : PdM.Info) (i n : Nat) (sk : Bool) (p0 q s : Pd) (ops : List Op) (cb : Bool) (env : Env) (o o' : List Out) (bs : List Byte)
    (h0 : newPd info i sk n = some p0) (h : run C p0 ops = .ok (q, o)) (hs : step C q (.update cb env) = .ok (s, o')) (hb : bs ∈ sent o') :
    ∃ k : Packet, bs = k.bytes.take env.sendCap ∧ (k.id = some 0x76#8 → ∃ r : Half, k.data = 0x76#8 :: r.1 ∧ Drawn C p0 ops r) := by
  have I : Inv q := (sess_run (g := Hail.none) (newPd_inv h0).1 (newPd_sess h0) h).1
  have hD := challenging_drawn h0 h
  have done : ∀ {p1 : Pd} {o1 : List Out} {ok : Bool}, MaySend q env → SendOutcome C q env p1 o1 ok → bs ∈ sent o1 →
      ∃ k : Packet, bs = k.bytes.take env.sendCap ∧ (k.id = some 0x76#8 → ∃ r : Half, k.data = 0x76#8 :: r.1 ∧ Drawn C p0 ops r) := by
    intro p1 o1 ok hm ho hb
    obtain ⟨k, hk, hc⟩ := outcome_challenge (I.cmd (by rcases hm with h | ⟨h, -⟩ <;> rw [h] <;> simp)) I.secure ho hb
    exact ⟨k, hk, fun hid => ⟨_, (hc hid).2.1, hD (hc hid).1⟩⟩
  obtain ⟨⟨s1, o1, y⟩, hu, h1⟩ := Res.bind_eq_ok.mp hs
  injection h1 with h1; injection h1 with e1 e2; subst e1 e2
  have hu := stateUpdate_inv I.cp hu
  clear hs
  cases hu with
  | hold _ _ => cases hb
  | sent hm ho => exact done hm ho hb
  | unsent hm ho hset =>
    rw [sent_append, settle_sent hset, List.append_nil] at hb
    exact done hm ho hb
  | replied _ hw _ hset => rw [sent_append, settle_sent hset, fclose_sent hw.outs] at hb; cases hb
  | again _ hw => rw [fclose_sent hw.outs] at hb; cases hb
  | waiting _ hw => rw [fclose_sent hw.outs] at hb; cases hb
  | idle _ hset => rw [settle_sent hset] at hb; cases hb

-- a history whose next visit sends a challenge
example : newPd Sample.pdInfo 0 false 16 = some Sample.cp ∧ ∃ q o s o', run xorCipher Sample.cp (Link.newcomers 7).cpOps = .ok (q, o) ∧
    step xorCipher q (.update true { now := 160 }) = .ok (s, o') ∧ decide (q.state = .scChlng) = true ∧
    decide (sent o' = [Packet.bytes ⟨true, 101#8, 0x0E#8, [3#8, 0x11#8, 1#8], 0x76#8 :: Sample.rndA.1⟩]) = true :=
  ⟨rfl, Sample.ran_step (fun q => decide (q.state = .scChlng))
    (fun _ o => decide (sent o = [Packet.bytes ⟨true, 101#8, 0x0E#8, [3#8, 0x11#8, 1#8], 0x76#8 :: Sample.rndA.1⟩])) (by decide +kernel) (by decide +kernel)⟩

/-! ### the number of one challenge serves for another -/

/-- the same history with another number drawn in every visit -/
def numbered (ops : List Op) : List Op := ops.zipIdx.map fun (op, i) => match op with
  | .update cb env => .update cb { env with random := .fill 8 (BitVec.ofNat 8 i) }
  | op => op

/-- The sample CP meets a PD without a key. The answer to its challenge does not fit its own key; it challenges the PD again, with the default
key and the number of the first challenge, although a different number was there to be drawn in every visit. -/
theorem C71_reused : ∃ q o k1 k2, run xorCipher Sample.cp (numbered (Link.newcomers 11).cpOps) = .ok (q, o) ∧ k1 ∈ sent o ∧ k2 ∈ sent o ∧
    k1 = Packet.bytes ⟨true, 101#8, 0x0E#8, [3#8, 0x11#8, 1#8], 0x76#8 :: List.replicate 8 5#8⟩ ∧
    k2 = Packet.bytes ⟨true, 101#8, 0x0F#8, [3#8, 0x11#8, 0#8], 0x76#8 :: List.replicate 8 5#8⟩ := by
  obtain ⟨q, o, h1, h2⟩ := Sample.ran (C := xorCipher) (p := Sample.cp) (ops := numbered (Link.newcomers 11).cpOps)
    (fun _ o => decide (Packet.bytes ⟨true, 101#8, 0x0E#8, [3#8, 0x11#8, 1#8], 0x76#8 :: List.replicate 8 5#8⟩ ∈ sent o ∧
      Packet.bytes ⟨true, 101#8, 0x0F#8, [3#8, 0x11#8, 0#8], 0x76#8 :: List.replicate 8 5#8⟩ ∈ sent o)) (by decide +kernel)
  have h2 := of_decide_eq_true h2
  exact ⟨q, o, _, _, h1, h2.1, h2.2, rfl, rfl⟩

end Osdp.CpM
