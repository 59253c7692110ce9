import Verif.Lemmas.Frame
import Verif.Lemmas.Stream

/-!
# Two PDs that differ only in stale bytes of the packet buffer

Two runs side by side: the packet buffers agree on the bytes collected so far, not on what lies behind them.
-/

namespace Osdp

/-- two results of the same kind with related values -/
def Two {α : Type} (R : α → α → Prop) : Res α → Res α → Prop
  | .error e, .error e' => e = e'
  | .ok a, .ok b => R a b
  | _, _ => False

theorem Two.bind {α β : Type} {R : α → α → Prop} {S : β → β → Prop} {x y : Res α} {f g : α → Res β} (h : Two R x y)
    (hf : ∀ a b, x = .ok a → y = .ok b → R a b → Two S (f a) (g b)) : Two S (x >>= f) (y >>= g) := by
  cases x <;> cases y
  · exact h
  · exact h.elim
  · exact h.elim
  · exact hf _ _ rfl rfl h

theorem Two.same {α β : Type} {S : β → β → Prop} {x : Res α} {f g : α → Res β}
    (hf : ∀ a, x = .ok a → Two S (f a) (g a)) : Two S (x >>= f) (x >>= g) := by
  cases x
  · exact rfl
  · exact hf _ rfl

theorem Two.ite {α : Type} {R : α → α → Prop} {c : Prop} [Decidable c] {a b a' b' : Res α} (h1 : c → Two R a a') (h2 : ¬ c → Two R b b') :
    Two R (if c then a else b) (if c then a' else b') := by
  by_cases h : c
  · rw [if_pos h, if_pos h]; exact h1 h
  · rw [if_neg h, if_neg h]; exact h2 h

theorem Two.mono {α : Type} {R S : α → α → Prop} {x y : Res α} (h : Two R x y) (hm : ∀ a b, x = .ok a → y = .ok b → R a b → S a b) :
    Two S x y := by
  cases x <;> cases y
  · exact h
  · exact h.elim
  · exact h.elim
  · exact hm _ _ rfl rfl h

theorem Two.refl {α : Type} {R : α → α → Prop} {x : Res α} (h : ∀ a, x = .ok a → R a a) : Two R x x := by
  cases x
  · exact rfl
  · exact h _ rfl

/-- equally long, and equal in the first `n` bytes -/
structure SameTo (n : Nat) (a b : List Byte) : Prop where
  len : b.length = a.length
  eq : ∀ j, j < n → b[j]? = a[j]?

theorem SameTo.refl (n : Nat) (a : List Byte) : SameTo n a a := ⟨rfl, fun _ _ => rfl⟩

theorem SameTo.mono {n m : Nat} {a b : List Byte} (h : SameTo n a b) (hm : m ≤ n) : SameTo m a b :=
  ⟨h.len, fun j hj => h.eq j (by omega)⟩

theorem SameTo.rd {n : Nat} {a b : List Byte} (h : SameTo n a b) {k i : Nat} (hi : k + i < n) :
    rd (b.drop k) i = rd (a.drop k) i := by
  unfold Osdp.rd
  rw [List.getElem?_drop, List.getElem?_drop, h.eq _ hi]

theorem SameTo.take {n : Nat} {a b : List Byte} (h : SameTo n a b) {k m : Nat} (hm : k + m ≤ n) :
    (b.drop k).take m = (a.drop k).take m := by
  apply List.ext_getElem?
  intro j
  rw [List.getElem?_take, List.getElem?_take]
  split
  · rw [List.getElem?_drop, List.getElem?_drop, h.eq _ (by omega)]
  · rfl

/-- writing the same bytes -/
theorem SameTo.write {n i : Nat} {a b bs : List Byte} (h : SameTo n a b) (hi : i ≤ n) :
    Two (fun a' b' => SameTo (max n (i + bs.length)) a' b' ∧ a'.length = a.length) (Phy.writeAt a i bs) (Phy.writeAt b i bs) := by
  unfold Phy.writeAt
  rw [h.len]
  apply Two.ite
  · intro hl
    refine ⟨⟨?_, fun j hj => ?_⟩, ?_⟩
    · simp [h.len]
    · have e : (b.take i).length = (a.take i).length := by simp [h.len]
      by_cases h1 : j < (a.take i).length
      · rw [List.append_assoc, List.append_assoc, List.getElem?_append_left (by omega), List.getElem?_append_left h1,
          List.getElem?_take, List.getElem?_take]
        split
        · exact h.eq j (by omega)
        · rfl
      · by_cases h2 : j < (a.take i ++ bs).length
        · rw [List.getElem?_append_left (by simpa [e] using h2), List.getElem?_append_left h2,
            List.getElem?_append_right (by omega), List.getElem?_append_right (by omega), e]
        · have e2 : (b.take i ++ bs).length = (a.take i ++ bs).length := by simp [h.len]
          rw [List.getElem?_append_right (by omega), List.getElem?_append_right (by omega), e2,
            List.getElem?_drop, List.getElem?_drop]
          simp only [List.length_append, List.length_take] at h2 ⊢
          exact h.eq _ (by omega)
    · simp; omega
  · intro _; exact rfl

/-- replace the bytes in the packet buffer -/
def wb (p : Pd) (b : List Byte) : Pd := { p with packetBuf := b }

theorem wb_wb (p : Pd) (a b) : wb (wb p a) b = wb p b := rfl
theorem wb_self (p : Pd) : wb p p.packetBuf = p := rfl

/-- the same but for the bytes behind the first `n` of the packet buffer -/
def Upto (n : Nat) (p q : Pd) : Prop := ∃ b, q = wb p b ∧ SameTo n p.packetBuf b

theorem Upto.refl (n : Nat) (p : Pd) : Upto n p p := ⟨p.packetBuf, rfl, .refl _ _⟩

theorem Upto.mono {n m : Nat} {p q : Pd} (h : Upto n p q) (hm : m ≤ n) : Upto m p q := by
  obtain ⟨b, e, hb⟩ := h; exact ⟨b, e, hb.mono hm⟩

/-- the same but for stale bytes; with nothing collected yet, also the note whether the last packet had a mark and,
with nothing to read, the time of the last arrival may differ -/
structure Sim (p q : Pd) : Prop where
  ex : ∃ b m t, q = { p with packetBuf := b, tstamp := t, flags := { p.flags with hasMark := m } } ∧
    SameTo p.packetBufLen p.packetBuf b ∧ (p.packetBufLen ≠ 0 → m = p.flags.hasMark) ∧
    (p.packetBufLen ≠ 0 ∨ p.rx ≠ [] → t = p.tstamp)

theorem Upto.sim {p q : Pd} (h : Upto p.packetBufLen p q) : Sim p q := by
  obtain ⟨b, rfl, hb⟩ := h
  exact ⟨b, p.flags.hasMark, p.tstamp, rfl, hb, fun _ => rfl, fun _ => rfl⟩

theorem Sim.refl (p : Pd) : Sim p p := (Upto.refl _ p).sim

theorem Sim.upto {p q : Pd} (h : Sim p q) (hn : p.packetBufLen ≠ 0) : Upto p.packetBufLen p q := by
  obtain ⟨b, m, t, rfl, hb, hm, ht⟩ := h.ex
  obtain rfl := hm hn
  obtain rfl := ht (.inl hn)
  exact ⟨b, rfl, hb⟩

namespace Phy

theorem popInto_two {p q : Pd} {k : Nat} (h : Upto p.packetBufLen p q) :
    Two (fun p' q' => Upto p'.packetBufLen p' q' ∧ p'.packetBuf.length = p.packetBuf.length ∧ p'.flags = p.flags ∧
      p'.packetLen = p.packetLen) (popInto p k) (popInto q k) := by
  obtain ⟨b, rfl, hb⟩ := h
  unfold popInto
  refine Two.bind (hb.write (bs := p.rx.take k) (Nat.le_refl _)) ?_
  intro a' b' ha hb' ⟨hs, hl⟩
  exact ⟨⟨b', rfl, hs.mono (Nat.le_max_right _ _)⟩, hl, rfl, rfl⟩

theorem markLen_le (p : Pd) : markLen p ≤ 1 := by unfold markLen; split <;> omega

theorem headerFields_two {p q : Pd} (h : Upto p.packetBufLen p q) (h5 : 5 ≤ p.packetBufLen) :
    headerFields q = headerFields p := by
  obtain ⟨b, rfl, hb⟩ := h
  have hm := markLen_le p
  unfold headerFields
  show ((do
    let pkt := b.drop (markLen p)
    if (← rd pkt 0) ≠ SOM then return HdrRet.err .fmt
    let msb := hasBit (← rd pkt 1) 0x80#8
    if (p.isCp && !msb) || (p.isPd && msb) then return .err .skip
    let n := (← rd pkt 2).toNat + 256 * (← rd pkt 3).toNat
    if n > BUF_SIZE ∨ n < 6 then return .err .fmt
    return .len (n + markLen p)) : Res HdrRet) = _
  dsimp only
  rw [hb.rd (k := markLen p) (i := 0) (by omega), hb.rd (k := markLen p) (i := 1) (by omega),
    hb.rd (k := markLen p) (i := 2) (by omega), hb.rd (k := markLen p) (i := 3) (by omega)]

theorem checkPacketBody_two {p q : Pd} (h : Upto p.packetBufLen p q) (hl : p.packetLen = p.packetBufLen)
    (h6 : 6 + markLen p ≤ p.packetBufLen) (hle : p.packetBufLen ≤ p.packetBuf.length) :
    Two (fun x y => x.2 = y.2 ∧ Upto x.1.packetBufLen x.1 y.1) (checkPacketBody p) (checkPacketBody q) := by
  obtain ⟨b, rfl, hb⟩ := h
  have e1 : p.packetBuf.drop (markLen p) = (p.packetBuf.drop (markLen p)).take (p.packetLen - markLen p) ++
    (p.packetBuf.drop (markLen p)).drop (p.packetLen - markLen p) := (List.take_append_drop _ _).symm
  have e2 : b.drop (markLen p) = (p.packetBuf.drop (markLen p)).take (p.packetLen - markLen p) ++
    (b.drop (markLen p)).drop (p.packetLen - markLen p) := by
    rw [← hb.take (by omega), List.take_append_drop]
  have hfl : ((p.packetBuf.drop (markLen p)).take (p.packetLen - markLen p)).length = p.packetLen - markLen p := by
    rw [List.length_take, List.length_drop]; omega
  rw [body_frame p _ _ e1 (by rw [hfl]; omega) (by rw [hfl]; omega),
    body_frame (wb p b) _ _ e2 (by rw [hfl]; show p.packetLen = markLen p + _; omega) (by rw [hfl]; omega)]
  generalize (p.packetBuf.drop (markLen p)).take (p.packetLen - markLen p) = f
  rw [show wb p b = reload p { held p with buf := b } from rfl, bodyFrame_reload]
  cases hx : bodyFrame p f with
  | error e => exact rfl
  | ok v =>
    obtain ⟨v, r⟩ := v
    have hk := bodyFrame_keeps hx
    refine ⟨rfl, b, ?_, ?_⟩
    · show reload v { held p with buf := b } = wb v b
      rw [← hk]; rfl
    · have a1 : v.packetBuf = p.packetBuf := congrArg Held.buf hk
      have a2 : v.packetBufLen = p.packetBufLen := congrArg Held.bufLen hk
      show SameTo v.packetBufLen v.packetBuf b
      rw [a1, a2]; exact hb

theorem collect_two {p q : Pd} (h : Upto p.packetBufLen p q) (h6 : 6 + markLen p ≤ p.packetLen) :
    Two (fun x y => x.2 = y.2 ∧ Upto x.1.packetBufLen x.1 y.1) (collect p) (collect q) := by
  have hq : q.packetLen = p.packetLen ∧ q.packetBufLen = p.packetBufLen := by obtain ⟨b, rfl, -⟩ := h; exact ⟨rfl, rfl⟩
  unfold collect
  rw [hq.1, hq.2]
  refine Two.bind (popInto_two h) ?_
  intro p' q' hp' hq' ⟨hu, hlen, hf, hl⟩
  have hm : markLen p' = markLen p := by unfold markLen; rw [hf]
  have hq2 : q'.packetLen = p'.packetLen ∧ q'.packetBufLen = p'.packetBufLen := by obtain ⟨b, rfl, -⟩ := hu; exact ⟨rfl, rfl⟩
  rw [hq2.1, hq2.2]
  apply Two.ite
  · intro _; exact ⟨rfl, hu⟩
  · intro h
    have h : p'.packetBufLen = p'.packetLen := Classical.not_not.mp h
    exact checkPacketBody_two hu h.symm (by rw [hm, h, hl]; omega) (popInto_le hp')

theorem headerStart_two {p q : Pd} (h : Sim p q) :
    Two (fun x y => x.2 = y.2 ∧ Sim x.1 y.1 ∧ (x.2 = true → Upto x.1.packetBufLen x.1 y.1) ∧ x.1.packetLen = p.packetLen)
      (headerStart p) (headerStart q) := by
  by_cases h0 : p.packetBufLen = 0
  · obtain ⟨b, m, t, rfl, hb, hm, ht⟩ := h.ex
    unfold headerStart
    rw [if_pos h0, if_pos (show Pd.packetBufLen _ = 0 from h0)]
    dsimp only
    cases hsc : scan 0#8 p.rx with
    | none =>
      refine ⟨rfl, ⟨b, m, t, rfl, hb, hm, ?_⟩, fun h => absurd h (by simp), rfl⟩
      intro h
      rcases h with h | h
      · exact absurd h0 h
      · exact absurd rfl h
    | some v =>
      obtain ⟨mk, rest⟩ := v
      have hne : p.rx ≠ [] := fun e => by rw [e] at hsc; cases hsc
      obtain rfl := ht (.inr hne)
      cases mk
      · refine Two.bind (hb.write (bs := [SOM]) (Nat.zero_le _)) ?_
        intro a' b' _ _ ⟨hs, _⟩
        have hu : Upto 1 ({ p with rx := rest, packetBuf := a', packetBufLen := 1, flags := { p.flags with hasMark := false } })
            ({ p with rx := rest, packetBuf := b', packetBufLen := 1, flags := { p.flags with hasMark := false } }) :=
          ⟨b', rfl, hs.mono (Nat.le_max_right _ _)⟩
        exact ⟨rfl, hu.sim, fun _ => hu, rfl⟩
      · refine Two.bind (hb.write (bs := [MARK, SOM]) (Nat.zero_le _)) ?_
        intro a' b' _ _ ⟨hs, _⟩
        have hu : Upto 2 ({ p with rx := rest, packetBuf := a', packetBufLen := 2, flags := { p.flags with hasMark := true } })
            ({ p with rx := rest, packetBuf := b', packetBufLen := 2, flags := { p.flags with hasMark := true } }) :=
          ⟨b', rfl, hs.mono (Nat.le_max_right _ _)⟩
        exact ⟨rfl, hu.sim, fun _ => hu, rfl⟩
  · have hu := h.upto h0
    have hq : q.packetBufLen = p.packetBufLen := by obtain ⟨b, rfl, -⟩ := hu; rfl
    unfold headerStart
    rw [hq, if_neg h0, if_neg h0]
    exact ⟨rfl, h, fun _ => hu, rfl⟩

theorem headerRest_two {p q : Pd} (h : Upto p.packetBufLen p q) :
    Two (fun x y => x.2 = y.2 ∧ x.2 ≠ .err .noData ∧ Upto x.1.packetBufLen x.1 y.1 ∧
      ∀ k, x.2 = .len k → 6 + markLen x.1 ≤ k) (headerRest p) (headerRest q) := by
  have hq : q.packetBufLen = p.packetBufLen := by obtain ⟨b, rfl, -⟩ := h; rfl
  unfold headerRest
  rw [hq]
  refine Two.bind (popInto_two h) ?_
  intro p' q' hp' hq' ⟨hu, _, _, _⟩
  have hq2 : q'.packetBufLen = p'.packetBufLen := by obtain ⟨b, rfl, -⟩ := hu; rfl
  rw [hq2]
  apply Two.ite
  · intro _
    exact ⟨rfl, (by simp), hu, fun k hk => by cases hk⟩
  · intro h5
    rw [headerFields_two hu (by omega)]
    apply Two.same
    intro r hr
    refine ⟨rfl, ?_, hu, ?_⟩
    · intro e
      obtain rfl : r = .err .noData := e
      unfold headerFields at hr
      dsimp only at hr
      obtain ⟨s, -, hr⟩ := Res.bind_eq_ok.mp hr
      split at hr
      · cases hr
      · obtain ⟨a, -, hr⟩ := Res.bind_eq_ok.mp hr
        split at hr
        · cases hr
        · obtain ⟨lo, -, hr⟩ := Res.bind_eq_ok.mp hr
          obtain ⟨hi, -, hr⟩ := Res.bind_eq_ok.mp hr
          split at hr <;> cases hr
    · intro k hk
      obtain rfl : r = .len k := hk
      obtain ⟨_, lo, hi, -, -, -, -, -, -, hn, hn6, -⟩ := headerFields_len hr
      show 6 + markLen p' ≤ k
      omega

theorem assemble_two {p q : Pd} (h : Sim p q) (hf : Framed p) :
    Two (fun x y => x.2 = y.2 ∧ Sim x.1 y.1 ∧ (x.2 ≠ .noData → Upto x.1.packetBufLen x.1 y.1)) (assemble p) (assemble q) := by
  have hq : q.packetLen = p.packetLen := by obtain ⟨b, m, t, rfl, -⟩ := h.ex; rfl
  unfold assemble
  rw [hq]
  apply Two.ite
  · intro _
    have hh : Two (fun x y => x.2 = y.2 ∧ Sim x.1 y.1 ∧ (x.2 ≠ .err .noData → Upto x.1.packetBufLen x.1 y.1) ∧
        ∀ k, x.2 = .len k → 6 + markLen x.1 ≤ k) (checkHeader p) (checkHeader q) := by
      unfold checkHeader
      refine Two.bind (headerStart_two h) ?_
      intro ⟨p1, f1⟩ ⟨q1, f2⟩ _ _ ⟨e, hs, hu, _⟩
      obtain rfl : f1 = f2 := e
      cases f1
      · exact ⟨rfl, hs, fun h => absurd rfl h, fun k hk => by cases hk⟩
      · exact (headerRest_two (hu rfl)).mono fun a b _ _ ⟨e, _, hu, hk⟩ => ⟨e, hu.sim, fun _ => hu, hk⟩
    refine Two.bind hh ?_
    intro ⟨p1, r1⟩ ⟨q1, r2⟩ _ _ ⟨e, hs, hu, hk⟩
    obtain rfl : r1 = r2 := e
    cases r1 with
    | err r => exact ⟨rfl, hs, fun h => hu fun e => h (by injection e)⟩
    | len k =>
      have hu := hu (by simp)
      have hu' : Upto p1.packetBufLen { p1 with packetLen := k } { q1 with packetLen := k } := by
        obtain ⟨b, e, hb⟩ := hu
        have e : q1 = wb p1 b := e
        subst e
        exact ⟨b, rfl, hb⟩
      exact (collect_two (p := { p1 with packetLen := k }) hu' (hk k rfl)).mono fun a b _ _ ⟨e, hu⟩ => ⟨e, hu.sim, fun _ => hu⟩
  · intro hl
    have hr := hf.rest hl
    have hu := h.upto (by omega)
    obtain ⟨_, lo, hi, -, -, -, -, -, -, hn, hn6, -⟩ := headerFields_len hr.2.2
    exact (collect_two hu (by omega)).mono fun a b _ _ ⟨e, hu⟩ => ⟨e, hu.sim, fun _ => hu⟩

theorem channelReceive_counts {cs : List (List Byte)} {rx rx' : List Byte} {n : Int}
    (h : channelReceive cs rx = .ok (rx', n)) (hfit : rx.length + cs.flatten.length ≤ RB_CAP) : n = rx'.length - rx.length := by
  induction cs generalizing rx rx' n with
  | nil => injection h with h; injection h with h1 h2; subst h1 h2; omega
  | cons c cs ih =>
    unfold channelReceive at h
    rw [List.flatten_cons, List.length_append] at hfit
    split at h
    · injection h with h; injection h with h1 h2; subst h1 h2; omega
    · split at h
      · cases h
      · rw [if_neg (by omega)] at h
        split at h
        · rename_i h64
          obtain ⟨⟨r1, n1⟩, h1, h⟩ := Res.bind_eq_ok.mp h
          injection h with h; injection h with h2 h3
          subst h2
          have := ih h1 (by rw [List.length_append]; omega)
          rw [List.length_append] at this
          obtain ⟨x, hx, -⟩ := channelReceive_sublist h1
          have hl : r1.length = rx.length + c.length + x.length := by rw [hx]; simp only [List.length_append]
          rw [if_neg (by omega)] at h3
          omega
        · injection h with h; injection h with h1 h2; subst h1 h2
          rw [List.length_append]; omega

theorem intake_two {p q : Pd} {env : Env} (h : Sim p q) (hp : p.isPd = true) (hfit : p.rx.length + env.recv.flatten.length ≤ RB_CAP) :
    Two Sim (intake p env) (intake q env) := by
  obtain ⟨b, m, t, rfl, hb, hm, ht⟩ := h.ex
  unfold intake
  dsimp only
  apply Two.same
  intro ⟨rx, n⟩ hn
  dsimp only
  by_cases hc : p.isPd = true ∧ p.packetBufLen = 0 ∧ n > 0
  · have e1 : ∀ a b : Pd, (if p.isPd = true ∧ p.packetBufLen = 0 ∧ n > 0 then a else b) = a := fun a b => if_pos hc
    refine (show Two Sim (.ok (if p.isPd = true ∧ p.packetBufLen = 0 ∧ n > 0 then { p with rx := rx, tstamp := env.now } else _))
      (.ok (if p.isPd = true ∧ p.packetBufLen = 0 ∧ n > 0 then
        { p with rx := rx, tstamp := env.now, packetBuf := b, flags := { p.flags with hasMark := m } } else _)) from ?_)
    rw [e1, e1]
    exact ⟨b, m, env.now, rfl, hb, hm, fun _ => rfl⟩
  · have e1 : ∀ a b : Pd, (if p.isPd = true ∧ p.packetBufLen = 0 ∧ n > 0 then a else b) = b := fun a b => if_neg hc
    refine (show Two Sim (.ok (if p.isPd = true ∧ p.packetBufLen = 0 ∧ n > 0 then _ else { p with rx := rx }))
      (.ok (if p.isPd = true ∧ p.packetBufLen = 0 ∧ n > 0 then _ else
        { p with rx := rx, tstamp := t, packetBuf := b, flags := { p.flags with hasMark := m } })) from ?_)
    rw [e1, e1]
    refine ⟨b, m, t, rfl, hb, hm, fun h => ht ?_⟩
    have hcnt := channelReceive_counts hn hfit
    by_cases h0 : p.packetBufLen = 0
    · refine .inr fun e => ?_
      rcases h with h | h
      · exact h h0
      · have : 0 < rx.length := List.length_pos_iff.mpr h
        rw [e] at hcnt
        exact hc ⟨hp, h0, by simp at hcnt; omega⟩
    · exact .inl h0

theorem checkPacket_two {p q : Pd} {env : Env} (h : Sim p q) (hf : Framed p) (hp : p.isPd = true)
    (hfit : p.rx.length + env.recv.flatten.length ≤ RB_CAP) :
    Two (fun x y => x.2 = y.2 ∧ Sim x.1 y.1 ∧ (x.2 ≠ .noData → Upto x.1.packetBufLen x.1 y.1))
      (checkPacket p env) (checkPacket q env) := by
  unfold checkPacket
  refine Two.bind (intake_two h hp hfit) ?_
  intro a b ha _ hs
  obtain ⟨x, ts, hx, rfl⟩ := intake_inv ha
  exact assemble_two hs ⟨hf.buf, hf.start, hf.rest⟩

/-! ### decoding -/

/-- the same decoded packet -/
def SameDec (n : Nat) (x y : Pd × Decoded) : Prop :=
  Upto n x.1 y.1 ∧ x.2.len = y.2.len ∧ y.2.data.length = x.2.data.length ∧
    y.2.data.take x.2.len.toNat = x.2.data.take x.2.len.toNat

theorem SameTo.dec {n k : Nat} {a b : List Byte} {l : Int} (h : SameTo n a b) (hl : (k : Int) + l ≤ n) :
    (b.drop k).length = (a.drop k).length ∧ (b.drop k).take l.toNat = (a.drop k).take l.toNat := by
  refine ⟨by simp [h.len], ?_⟩
  by_cases h0 : l ≤ 0
  · rw [show l.toNat = 0 by omega]; simp
  · exact h.take (by omega)

theorem nack_two {n : Nat} {p : Pd} {b : List Byte} (c : Byte) (h : SameTo n p.packetBuf b) :
    SameDec n (nackWith p c) (nackWith (wb p b) c) :=
  ⟨⟨b, rfl, h⟩, rfl, rfl, rfl⟩

theorem cipher_two (C : Cipher) {n : Nat} {p : Pd} {b : List Byte} (h : SameTo n p.packetBuf b) (sb : Nat) (len : Int)
    (hl : ((markLen p + 5 + sb : Nat) : Int) + len ≤ n) :
    Two (SameDec n) (decodeCipher C p sb len) (decodeCipher C (wb p b) sb len) := by
  unfold decodeCipher
  dsimp only
  have e := (SameTo.dec (k := markLen p + 5 + sb + 1) (l := len - 1) h (by omega)).2
  rw [show (wb p b).packetBuf = b from rfl, show markLen (wb p b) = markLen p from rfl,
    decryptData_take C _ _ _ _ _ (len - 1) e]
  apply Two.same
  intro pl hpl
  cases pl with
  | none => exact nack_two (p := p.scDeactivate) _ h
  | some plain =>
    obtain ⟨h1, h2⟩ := decryptData_some hpl
    refine Two.bind (h.write (i := markLen p + 5 + sb + 1) (by omega)) ?_
    intro a' b' _ _ ⟨hs, hl'⟩
    have hs' := hs.mono (Nat.le_max_left _ _)
    refine ⟨⟨b', rfl, hs'⟩, rfl, ?_⟩
    exact SameTo.dec (k := markLen p + 5 + sb + 1 - 1) (l := (plain.length : Int) + 1) hs' (by omega)

theorem secured_two (C : Cipher) {n : Nat} {p : Pd} {b : List Byte} (h : SameTo n p.packetBuf b) (ty : Byte) (sb : Nat) (len0 : Int)
    (hl : (markLen p : Int) + len0 ≤ n) :
    Two (SameDec n) (decodeSecured C p ty sb len0) (decodeSecured C (wb p b) ty sb len0) := by
  unfold decodeSecured
  dsimp only
  apply Two.ite
  · intro _; exact rfl
  · intro hmo
    rw [show (wb p b).packetBuf = b from rfl, show markLen (wb p b) = markLen p from rfl,
      h.take (show markLen p + (len0 - 4).toNat ≤ n by omega)]
    simp only [List.drop_drop]
    rw [h.take (show markLen p + (len0 - 4).toNat + 4 ≤ n by omega)]
    refine Two.same (x := Sc.computeMac C p.isPd p.sc _) ?_
    intro sc _
    apply Two.ite
    · intro _; exact nack_two (p := (setSc p sc).scDeactivate) _ h
    · intro _
      apply Two.ite
      · intro _
        exact cipher_two C (p := setSc p sc) h _ _ (by show ((markLen p + 5 + sb : Nat) : Int) + _ ≤ _; omega)
      · intro _
        exact ⟨⟨b, rfl, h⟩, rfl, SameTo.dec h (by dsimp only; omega)⟩

theorem noteScbkd_wb (p : Pd) (b x y) : noteScbkd (wb p b) x y = wb (noteScbkd p x y) b := by
  have := noteScbkd_reload p x y { held p with buf := b }
  have hk : held (noteScbkd p x y) = held p := by unfold noteScbkd; split <;> rfl
  exact this.trans (by rw [← hk]; rfl)

theorem scb_two (C : Cipher) {n : Nat} {p : Pd} {b : List Byte} (h : SameTo n p.packetBuf b) (len0 : Int)
    (hl : (markLen p : Int) + len0 ≤ n) (h8 : markLen p + 8 ≤ n) :
    Two (SameDec n) (decodeScb C p len0) (decodeScb C (wb p b) len0) := by
  unfold decodeScb
  dsimp only
  rw [show (wb p b).packetBuf = b from rfl, show markLen (wb p b) = markLen p from rfl,
    h.rd (k := markLen p) (i := 5) (by omega), h.rd (k := markLen p) (i := 6) (by omega), h.rd (k := markLen p) (i := 7) (by omega)]
  apply Two.ite
  · intro _; exact nack_two _ h
  · intro _
    apply Two.same; intro ty _
    apply Two.ite
    · intro _; exact nack_two _ h
    · intro _
      apply Two.ite
      · intro _; exact nack_two _ h
      · intro _
        apply Two.same; intro d2 _
        apply Two.same; intro sb _
        rw [noteScbkd_wb]
        have h' : SameTo n (noteScbkd p ty d2).packetBuf b := by rw [noteScbkd_packetBuf]; exact h
        apply Two.ite
        · intro _
          exact secured_two C h' _ _ _ (by rw [noteScbkd_markLen]; exact hl)
        · intro _
          rw [List.drop_drop, List.drop_drop]
          exact ⟨⟨b, rfl, h'⟩, rfl, SameTo.dec h (by dsimp only; omega)⟩

theorem plain_two {n : Nat} {p : Pd} {b : List Byte} (h : SameTo n p.packetBuf b) (len0 : Int)
    (hl : (markLen p : Int) + len0 ≤ n) (h6 : markLen p + 6 ≤ n) :
    Two (SameDec n) (decodePlain p len0) (decodePlain (wb p b) len0) := by
  unfold decodePlain
  dsimp only
  rw [show (wb p b).packetBuf = b from rfl, show markLen (wb p b) = markLen p from rfl,
    h.rd (k := markLen p) (i := 5) (by omega)]
  apply Two.same; intro d0 _
  apply Two.ite
  · intro _; exact nack_two _ h
  · intro _
    rw [List.drop_drop, List.drop_drop]
    exact ⟨⟨b, rfl, h⟩, rfl, SameTo.dec h (by dsimp only; omega)⟩

/-- the packet in the buffer announces a security block but is too short to contain one -/
def Curtailed (p : Pd) : Prop :=
  p.packetBufLen < markLen p + 8 ∧ ∃ c, p.packetBuf[markLen p + 4]? = some c ∧ hasBit c CTL_SCB = true

theorem decode_two (C : Cipher) {p q : Pd} (h : Upto p.packetBufLen p q) (h6 : markLen p + 6 ≤ p.packetBufLen) (h8 : ¬ Curtailed p) :
    Two (SameDec p.packetBufLen) (decodePacket C p) (decodePacket C q) := by
  obtain ⟨b, rfl, h⟩ := h
  unfold decodePacket
  dsimp only
  rw [show (wb p b).packetBuf = b from rfl, show markLen (wb p b) = markLen p from rfl,
    show (wb p b).packetBufLen = p.packetBufLen from rfl, h.rd (k := markLen p) (i := 4) (by omega)]
  apply Two.same; intro ctl hctl
  have hc : (if hasBit ctl CTL_CRC = true then (2 : Int) else 1) ≥ 0 := by split <;> simp
  apply Two.ite
  · intro hs
    refine scb_two C h _ (by omega) (Classical.byContradiction fun hn => h8 ⟨by omega, ctl, ?_, hs⟩)
    have := rd_some hctl
    rwa [List.getElem?_drop] at this
  · intro _
    exact plain_two h _ (by omega) h6

end Phy
end Osdp
