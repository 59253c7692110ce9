import Verif.Lemmas.PdFits
import Verif.Lemmas.PdRun
import Verif.Lemmas.File
import Verif.Lemmas.PdDeliver
import Verif.Lemmas.Sample

/-!
# C36: the PD speaks only when spoken to
-/

namespace Osdp.PdM

open Spec.Wire
open Phy (pend Framed Arrives pktAddr)

/-! ## At most one reply per packet -/

/-- everything that could be read from the line during a history -/
def lineOf : List Op → List Byte
  | [] => []
  | .refresh env :: ops => env.recv.flatten ++ lineOf ops
  | _ :: ops => lineOf ops

/-- the PD had address `a` at some moment of the history -/
def HadAddress (C : Cipher) (p : Pd) (ops : List Op) (a : Int) : Prop :=
  ∃ pre post q outs, ops = pre ++ post ∧ run C p pre = .ok (q, outs) ∧ q.address = a

/-- Book-keeping: `n` packets were sent, `ks` commands found in the line so far. -/
structure Tally (p : Pd) (line : List Byte) (ks : List (Int × List Byte)) (n : Nat) : Prop where
  framed : Framed p
  good : ∀ k ∈ ks, Intact k.2 ∧ CommandFor k.1 k.2
  books : (n ≤ ks.length ∧ ((ks.map (·.2)).flatten ++ pend p).Sublist line) ∨
    (n + 1 ≤ ks.length ∧ p.packetLen ≠ 0 ∧ p.packetBufLen = p.packetLen ∧
      ((ks.map (·.2)).flatten ++ p.rx).Sublist line)

theorem Tally.rxSub {p : Pd} {line : List Byte} {ks : List (Int × List Byte)} {n : Nat} (h : Tally p line ks n) :
    n ≤ ks.length ∧ ((ks.map (·.2)).flatten ++ p.rx).Sublist line := by
  rcases h.books with ⟨h1, h2⟩ | ⟨h1, -, -, h2⟩
  · exact ⟨h1, (List.Sublist.append (List.Sublist.refl _) (rx_pend p)).trans h2⟩
  · exact ⟨by omega, h2⟩

theorem tally_refresh {C : Cipher} {p q : Pd} {env : Env} {outs : List Out} {line : List Byte}
    {ks : List (Int × List Byte)} {n : Nat} (hp : p.flags.pdMode = true) (ht : Tally p line ks n)
    (h : refresh C p env = .ok (q, outs)) :
    ∃ new, Tally q (line ++ env.recv.flatten) (ks ++ new) (n + (sent outs).length) ∧ ∀ k ∈ new, k.1 = p.address := by
  obtain ⟨p1, o1, ret, o2, hg, hp1, hfin, rfl⟩ := refresh_inv hp h
  obtain ⟨hk, hadr⟩ := expire_kept p env.now
  have hr := got_rest (hk.pdMode.trans hp) (hk.framed ht.framed) hg
  have hpe : pend (expire p env.now) = pend p := by unfold Phy.pend Phy.got; rw [hk.buf, hk.bufLen, hk.rx]
  have ho1 : sent o1 = [] := by
    have hno : ∀ bs, Out.send bs ∉ o1 := by
      intro bs hb
      cases hg with
      | command hc hck hd hdt hl hid hlen hbd hpr hdis hout =>
        cases hout with
        | plain hpl _ => obtain ⟨c, hc, -⟩ := hpl.outs _ hb; cases hc
        | abort _ _ =>
          unfold File.abort at hb
          split at hb
          · cases hb
          · split at hb
            · rw [List.mem_singleton] at hb; cases hb
            · cases hb
        | file _ hdec => 
          obtain ⟨f, c, -, -, h⟩ := File.txDecode_outs hdec _ hb
          rcases h with h | h | h <;> cases h
        | _ => cases hb
      | _ => cases hb
    unfold sent
    rw [List.filterMap_eq_nil_iff]
    intro o ho
    cases o <;> first | rfl | exact absurd ho (hno _)
  rw [show sent (o1 ++ o2) = sent o1 ++ sent o2 from List.filterMap_append, ho1, List.nil_append]
  obtain ⟨hs1, hs2⟩ := finished_sent hfin
  have app : ∀ {a b c : List Byte}, (a ++ b).Sublist line → c.Sublist (b ++ env.recv.flatten) →
      (a ++ c).Sublist (line ++ env.recv.flatten) := by
    intro a b c h1 h2
    refine (List.Sublist.append (List.Sublist.refl a) h2).trans ?_
    rw [← List.append_assoc]
    exact List.Sublist.append h1 (List.Sublist.refl _)
  rcases finished_cleared hfin with ⟨rfl, rfl, hret⟩ | hcl
  · -- nothing was sent, the state stays
    show ∃ new, Tally q _ _ (n + 0) ∧ _
    cases hr with
    | more hf hsub _ hn =>
      refine ⟨[], ⟨hf, by simpa using ht.good, .inl ?_⟩, by simp⟩
      rw [List.append_nil]
      rcases ht.books with ⟨b1, b2⟩ | ⟨b1, b2, b3, -⟩
      · exact ⟨by omega, app b2 (by rw [← hpe]; exact hsub)⟩
      · exact absurd ⟨by rw [hk.len]; exact b2, by rw [hk.len, hk.bufLen]; exact b3⟩ hn
    | drop hbuf hsub hsub2 hr =>
      rcases hr with ⟨-, e1, e2⟩ | rfl
      · refine ⟨[], ⟨⟨hbuf, fun _ => by omega, fun h => absurd e2 h⟩, by simpa using ht.good, .inl ?_⟩, by simp⟩
        rw [List.append_nil]
        have hpq : pend q = q.rx := by unfold Phy.pend Phy.got; rw [e1]; rfl
        rw [hpq]
        rcases ht.books with ⟨b1, b2⟩ | ⟨b1, b2, b3, b4⟩
        · exact ⟨by omega, app b2 (by rw [← hpe]; exact hsub)⟩
        · exact ⟨by omega, app b4 (by rw [← hk.rx]; exact hsub2 (by rw [hk.len]; exact b2) (by rw [hk.len, hk.bufLen]; exact b3))⟩
      · simp at hret
    | whole f hf hl he hin hfor hsub hsub2 n1 n2 =>
      rcases ht.books with ⟨b1, b2⟩ | ⟨b1, b2, b3, b4⟩
      · refine ⟨[(p.address, f)], ⟨hf, ?_, .inr ⟨by simp; omega, hl, he, ?_⟩⟩, by simp⟩
        · intro k hk'
          rw [List.mem_append, List.mem_singleton] at hk'
          rcases hk' with hk' | rfl
          · exact ht.good k hk'
          · exact ⟨hin, by rw [← hadr]; exact hfor⟩
        · rw [List.map_append, List.flatten_append, List.append_assoc]
          refine app b2 ?_
          rw [← hpe]
          simpa using hsub
      · refine ⟨[], ⟨hf, by simpa using ht.good, .inr ⟨by simp; omega, hl, he, ?_⟩⟩, by simp⟩
        rw [List.append_nil]
        exact app b4 (by rw [← hk.rx]; exact hsub2 (by rw [hk.len]; exact b2) (by rw [hk.len, hk.bufLen]; exact b3))
  · -- the packet is gone
    have hb1 : p1.packetBuf.length = 256 := by
      cases hr with
      | more hf _ _ _ => exact hf.buf
      | drop hb _ _ _ => exact hb
      | whole f hf _ _ _ _ _ _ _ _ => exact hf.buf
    have hfq := hcl.framed hb1
    rw [show n + (sent o2).length = n + (sent o2).length from rfl]
    cases hr with
    | more hf hsub hret hn =>
      have h0 : sent o2 = [] := by
        refine Classical.byContradiction fun hne => ?_
        have := (hs2 hne).1
        rcases hret with rfl | rfl <;> simp at this
      rw [h0]
      refine ⟨[], ⟨hfq, by simpa using ht.good, .inl ?_⟩, by simp⟩
      rw [List.append_nil, hcl.pend]
      rcases ht.books with ⟨b1, b2⟩ | ⟨b1, b2, b3, -⟩
      · exact ⟨by simpa using b1, app b2 (by rw [← hpe]; exact (rx_pend p1).trans hsub)⟩
      · exact absurd ⟨by rw [hk.len]; exact b2, by rw [hk.len, hk.bufLen]; exact b3⟩ hn
    | drop hbuf hsub hsub2 hr =>
      have h0 : sent o2 = [] := by
        refine Classical.byContradiction fun hne => ?_
        have := (hs2 hne).1
        rcases hr with ⟨rfl, -⟩ | rfl <;> simp at this
      rw [h0]
      refine ⟨[], ⟨hfq, by simpa using ht.good, .inl ?_⟩, by simp⟩
      rw [List.append_nil, hcl.pend]
      rcases ht.books with ⟨b1, b2⟩ | ⟨b1, b2, b3, b4⟩
      · exact ⟨by simpa using b1, app b2 (by rw [← hpe]; exact hsub)⟩
      · exact ⟨by simp; omega, app b4 (by rw [← hk.rx]; exact hsub2 (by rw [hk.len]; exact b2) (by rw [hk.len, hk.bufLen]; exact b3))⟩
    | whole f hf hl he hin hfor hsub hsub2 n1 n2 =>
      rcases ht.books with ⟨b1, b2⟩ | ⟨b1, b2, b3, b4⟩
      · refine ⟨[(p.address, f)], ⟨hfq, ?_, .inl ⟨by simp; omega, ?_⟩⟩, by simp⟩
        · intro k hk'
          rw [List.mem_append, List.mem_singleton] at hk'
          rcases hk' with hk' | rfl
          · exact ht.good k hk'
          · exact ⟨hin, by rw [← hadr]; exact hfor⟩
        · rw [List.map_append, List.flatten_append, List.append_assoc, hcl.pend]
          refine app b2 ?_
          rw [← hpe]
          simpa using hsub
      · refine ⟨[], ⟨hfq, by simpa using ht.good, .inl ⟨by simp; omega, ?_⟩⟩, by simp⟩
        rw [List.append_nil, hcl.pend]
        exact app b4 (by rw [← hk.rx]; exact hsub2 (by rw [hk.len]; exact b2) (by rw [hk.len, hk.bufLen]; exact b3))

theorem run_append {C : Cipher} {p q r : Pd} {a b : List Op} {o1 o2 : List Out} (h1 : run C p a = .ok (q, o1))
    (h2 : run C q b = .ok (r, o2)) : run C p (a ++ b) = .ok (r, o1 ++ o2) := by
  induction a generalizing p o1 with
  | nil => injection h1 with h1; injection h1 with e1 e2; subst e1 e2; exact h2
  | cons op ops ih =>
    obtain ⟨⟨p1, o3⟩, h3, h1⟩ := Res.bind_eq_ok.mp h1
    obtain ⟨⟨p2, o4⟩, h4, h1⟩ := Res.bind_eq_ok.mp h1
    injection h1 with h1; injection h1 with e1 e2; subst e1 e2
    show (step C p op >>= _) = _
    rw [h3]
    show (run C p1 (ops ++ b) >>= _) = _
    rw [ih h4]
    show Except.ok _ = _
    rw [List.append_assoc]

theorem tally_step {C : Cipher} {p q : Pd} {op : Op} {outs : List Out} {line : List Byte}
    {ks : List (Int × List Byte)} {n : Nat} (hp : p.flags.pdMode = true) (ht : Tally p line ks n)
    (h : step C p op = .ok (q, outs)) :
    ∃ new, Tally q (line ++ lineOf [op]) (ks ++ new) (n + (sent outs).length) ∧ ∀ k ∈ new, k.1 = p.address := by
  have other : Kept p q → ∃ new, Tally q (line ++ []) (ks ++ new) (n + 0) ∧ ∀ k ∈ new, k.1 = p.address := by
    intro hk
    have hpe : pend q = pend p := by unfold Phy.pend Phy.got; rw [hk.buf, hk.bufLen, hk.rx]
    refine ⟨[], ?_, by simp⟩
    rw [List.append_nil, List.append_nil]
    refine ⟨hk.framed ht.framed, ht.good, ?_⟩
    rw [hpe, hk.len, hk.bufLen, hk.rx]
    exact ht.books
  cases op with
  | refresh env => simpa [lineOf] using tally_refresh hp ht h
  | notify e =>
    injection h with h; injection h with e1 e2; subst e1 e2
    refine other ?_
    unfold notifyEvent
    split <;> exact ⟨rfl, rfl, rfl, rfl, rfl, rfl⟩
  | flush =>
    injection h with h; injection h with e1 e2; subst e1 e2
    exact other ⟨rfl, rfl, rfl, rfl, rfl, rfl⟩
  | setCaps l =>
    injection h with h; injection h with e1 e2; subst e1 e2
    exact other ⟨rfl, rfl, rfl, rfl, rfl, rfl⟩
  | fileOps =>
    injection h with h; injection h with e1 e2; subst e1 e2
    exact other ⟨rfl, rfl, rfl, rfl, rfl, rfl⟩

theorem lineOf_cons (op : Op) (ops : List Op) : lineOf (op :: ops) = lineOf [op] ++ lineOf ops := by
  cases op <;> simp [lineOf]

theorem tally_run {C : Cipher} {p0 p q : Pd} {pre ops : List Op} {o0 outs : List Out} {line : List Byte}
    {ks : List (Int × List Byte)} {n : Nat} (hp : p.flags.pdMode = true) (h0 : run C p0 pre = .ok (p, o0))
    (ht : Tally p line ks n) (hk : ∀ k ∈ ks, HadAddress C p0 (pre ++ ops) k.1)
    (h : run C p ops = .ok (q, outs)) :
    ∃ ks', Tally q (line ++ lineOf ops) ks' (n + (sent outs).length) ∧ ∀ k ∈ ks', HadAddress C p0 (pre ++ ops) k.1 := by
  induction ops generalizing p pre o0 outs line ks n with
  | nil =>
    injection h with h; injection h with e1 e2; subst e1 e2
    exact ⟨ks, by simpa [lineOf, sent] using ht, hk⟩
  | cons op ops ih =>
    obtain ⟨⟨p1, o1⟩, h1, h⟩ := Res.bind_eq_ok.mp h
    obtain ⟨⟨p2, o2⟩, h2, h⟩ := Res.bind_eq_ok.mp h
    injection h with h; injection h with e1 e2; subst e1 e2
    obtain ⟨new, ht1, hn⟩ := tally_step hp ht h1
    have hs : run C p [op] = .ok (p1, o1 ++ []) := by
      show (step C p op >>= _) = _
      rw [h1]; rfl
    have := ih (pre := pre ++ [op]) (step_pdMode hp h1) (run_append h0 hs) ht1 ?_ h2
    · obtain ⟨ks', ht', hk'⟩ := this
      rw [List.append_assoc] at hk'
      refine ⟨ks', ?_, hk'⟩
      rw [lineOf_cons, ← List.append_assoc, show sent (o1 ++ o2) = sent o1 ++ sent o2 from List.filterMap_append,
        List.length_append, ← Nat.add_assoc]
      exact ht'
    · intro k hk'
      rw [List.append_assoc]
      rcases List.mem_append.mp hk' with h | h
      · exact hk k h
      · exact ⟨pre, op :: ops, p, o0, rfl, h0, (hn k h).symm⟩

/-- the receiver stays well formed -/
theorem run_framed {C : Cipher} {p q : Pd} {ops : List Op} {outs : List Out} (hp : p.flags.pdMode = true)
    (hf : Framed p) (h : run C p ops = .ok (q, outs)) : Framed q := by
  obtain ⟨ks, ht, -⟩ := tally_run (pre := []) (o0 := []) (line := pend p) (ks := []) (n := 0) hp rfl
    ⟨hf, by simp, .inl ⟨Nat.le_refl _, List.Sublist.refl _⟩⟩ (by simp) h
  exact ht.framed

theorem setup_framed {info : Info} {sk : Bool} {n : Nat} {p : Pd} (hs : setup info sk n = some p) :
    Framed p ∧ pend p = [] := by
  unfold setup at hs
  split at hs
  · cases hs
  · injection hs with hs; subst hs
    exact ⟨⟨List.length_replicate, fun _ => Nat.zero_le _, fun h => absurd rfl h⟩, rfl⟩

/-- **C36, at most one reply per packet.**  Over any history of a PD, from its setup on and whatever the line
carries: the packets it transmitted are at most as many as the commands for it that arrived.  More
precisely the received bytes contain, one after the other and without overlap, intact command packets
each addressed to an address the PD had at some moment (or to all devices), at least as many as the PD
sent packets. -/
theorem C36_at_most_one_reply (C : Cipher) (info : Info) (skipMark : Bool) (n : Nat) (p q : Pd) (ops : List Op)
    (outs : List Out) (hs : setup info skipMark n = some p) (h : run C p ops = .ok (q, outs)) :
    ∃ ks : List (Int × List Byte), (sent outs).length ≤ ks.length ∧ (ks.map (·.2)).flatten.Sublist (lineOf ops) ∧
      ∀ k ∈ ks, Intact k.2 ∧ CommandFor k.1 k.2 ∧ HadAddress C p ops k.1 := by
  have hp := setup_pdMode hs
  have hf := setup_framed hs
  obtain ⟨ks, ht, hk⟩ := tally_run (pre := []) (o0 := []) (line := []) (ks := []) (n := 0) hp rfl
    ⟨hf.1, by simp, .inl ⟨Nat.le_refl _, by rw [hf.2]; exact List.Sublist.refl _⟩⟩ (by simp) h
  obtain ⟨h1, h2⟩ := ht.rxSub
  rw [Nat.zero_add] at h1
  exact ⟨ks, h1, (List.sublist_append_left _ _).trans h2, fun k hm => ⟨(ht.good k hm).1, (ht.good k hm).2, hk k hm⟩⟩

/-- Silence: as long as no intact command for the PD can be found in what it received, it transmits nothing. -/
theorem C36_silent (C : Cipher) (info : Info) (skipMark : Bool) (n : Nat) (p q : Pd) (ops : List Op)
    (outs : List Out) (hs : setup info skipMark n = some p) (h : run C p ops = .ok (q, outs))
    (hno : ∀ f a, f.Sublist (lineOf ops) → Intact f → CommandFor a f → ¬ HadAddress C p ops a) :
    sent outs = [] := by
  obtain ⟨ks, h1, h2, h3⟩ := C36_at_most_one_reply C info skipMark n p q ops outs hs h
  cases ks with
  | nil => exact List.eq_nil_of_length_eq_zero (Nat.le_zero.mp h1)
  | cons k ks =>
    obtain ⟨a, b, c⟩ := h3 k (by simp)
    exact absurd c (hno k.2 k.1 ((by simp : k.2.Sublist _).trans h2) a b)

/-! ## Exactly one reply per command -/

/-- `r` is a reply to command `k` by the device at address `a`: same sequence number, from the device's
address or from the broadcast address if `k` was sent there -/
def RepliesTo (a : Nat) (k r : Packet) : Prop :=
  r.seq = k.seq ∧ r.addr.toNat = 128 + if k.dev = 127 then 127 else a

/-- what the command switch leaves alone -/
structure Steady (p q : Pd) : Prop where
  sc : p.scActive = false → q.scActive = false
  seq : q.seq = p.seq
  addr : q.address = p.address
  bc : q.flags.broadcast = p.flags.broadcast

theorem steady_outcome {p q : Pd} {env : Env} {body : List Byte} {outs : List Out} {ret : PdRet}
    (h : Outcome p env body q outs ret) : Steady p q := by
  cases h with
  | plain hpl _ => obtain ⟨r, e, h⟩ := hpl.quiet; subst h; exact ⟨id, rfl, rfl, rfl⟩
  | poll _ _ => unfold pollEvent; split <;> exact ⟨id, rfl, rfl, rfl⟩
  | file _ _ => split <;> exact ⟨id, rfl, rfl, rfl⟩
  | chlng _ _ _ _ => exact ⟨fun _ => rfl, rfl, rfl, rfl⟩
  | _ => exact ⟨id, rfl, rfl, rfl⟩

theorem room_outcome {p q : Pd} {env : Env} {body : List Byte} {outs : List Out} {ret : PdRet}
    (h : Outcome p env body q outs ret) (hm : 164 ≤ p.txBufSize)
    (hrx : ∀ b0 b1 rest, p.cmdId = Id.ACURXSIZE → body = b0 :: b1 :: rest → 164 ≤ ofLe [b0, b1]) :
    164 ≤ q.txBufSize := by
  cases h with
  | plain hpl _ => obtain ⟨r, e, h⟩ := hpl.quiet; subst h; exact hm
  | poll _ _ => unfold pollEvent; split <;> exact hm
  | file _ _ => split <;> exact hm
  | rxsize b0 b1 rest hid hb =>
    have := hrx b0 b1 rest hid hb
    show 164 ≤ (if ofLe [b0, b1] ≠ 0 ∧ 256 > ofLe [b0, b1] then ofLe [b0, b1] else 256)
    split <;> omega
  | _ => exact hm

theorem outs_nosend {p q : Pd} {env : Env} {body : List Byte} {outs : List Out} {ret : PdRet}
    (h : Outcome p env body q outs ret) : sent outs = [] := by
  have hno : ∀ bs, Out.send bs ∉ outs := by
    intro bs hb
    cases h with
    | plain hpl _ => obtain ⟨c, hc, -⟩ := hpl.outs _ hb; cases hc
    | abort _ _ =>
      unfold File.abort at hb
      split at hb
      · cases hb
      · split at hb
        · rw [List.mem_singleton] at hb; cases hb
        · cases hb
    | file _ hdec =>
      obtain ⟨f, c, -, -, h⟩ := File.txDecode_outs hdec _ hb
      rcases h with h | h | h <;> cases h
    | _ => cases hb
  unfold sent
  rw [List.filterMap_eq_nil_iff]
  intro o ho
  cases o <;> first | rfl | exact absurd ho (hno _)

/-- A command in the clear arrives at an idle PD without secure channel -- or with one, which a sequence number of 0 ends:
exactly one packet is sent, with the sequence number of the command, from the address it was sent to (or, if the flag of an
earlier broadcast is still set, from the broadcast address). -/
theorem one_reply (C : Cipher) (p q : Pd) (k : Packet) (env : Env) (d0 : Byte) (body : List Byte)
    (outs : List Out) (hp : p.flags.pdMode = true) (hi : Phy.Idle p) (hadr : 0 ≤ p.address ∧ p.address ≤ 127)
    (hsc : p.scActive = false ∨ k.seq = 0) (hk : ForUs p k) (ha : Arrives env k.bytes)
    (hs : Phy.hasBit k.ctl Phy.CTL_SCB = false) (hscb : k.scb = []) (hd : k.data = d0 :: body)
    (hft : d0.toNat ≠ Id.FILETRANSFER) (hm : 164 ≤ p.txBufSize)
    (hrx : ∀ b0 b1 rest, d0.toNat = Id.ACURXSIZE → body = b0 :: b1 :: rest → 164 ≤ ofLe [b0, b1])
    (hcap : 256 ≤ env.sendCap) (h : refresh C p env = .ok (q, outs)) :
    ∃ r, sent outs = [Packet.bytes r] ∧ r.seq = k.seq ∧
      r.addr.toNat = 128 + if p.flags.broadcast = true ∨ k.dev = 127 then 127 else p.address.toNat := by
  -- the state after the expiry check
  obtain ⟨p', hexp⟩ : ∃ p', p' = expire p env.now := ⟨_, rfl⟩
  have hx : p'.flags.pdMode = p.flags.pdMode ∧ p'.flags.broadcast = p.flags.broadcast ∧ p'.address = p.address ∧
      p'.seq = p.seq ∧ p'.txBufSize = p.txBufSize ∧ (p.scActive = false → p'.scActive = false) := by
    subst hexp; unfold expire; split <;> exact ⟨rfl, rfl, rfl, rfl, rfl, fun h => by first | exact h | rfl⟩
  obtain ⟨x1, x2, x3, x4, x5, x6⟩ := hx
  have hi' : Phy.Idle p' := by
    subst hexp
    obtain ⟨hk', -⟩ := expire_kept p env.now
    exact ⟨hk'.bufLen.trans hi.bufLen, hk'.len.trans hi.len, by rw [hk'.buf]; exact hi.buf, hk'.rx.trans hi.rx⟩
  have hk' : ForUs p' k := ⟨hk.len, hk.command, hk.crc, by rw [x3]; exact hk.addr, by rw [x4]; exact hk.seqRange,
    by rw [x4]; exact hk.seq⟩
  rw [← x2, ← x3]
  rw [← x3] at hadr
  rw [← x5] at hm
  replace hsc := hsc.imp_left x6
  replace hp := x1.trans hp
  obtain ⟨g, hh, hrec⟩ := receive_plain C p' k env d0 body hp hi' hk' ha hs hscb hd hsc
  have f1 : (accepted p' k g).flags.pdMode = true := hp
  have f2 : (accepted p' k g).scActive = false := by
    show (p'.flags.scActive && k.seq != 0) = false
    rcases hsc with h | h
    · rw [show p'.flags.scActive = false from h]; rfl
    · rw [h]; simp
  have f3 : (accepted p' k g).flags.broadcast = (p'.flags.broadcast || pktAddr k == 127) := rfl
  unfold refresh at h
  rw [← hexp, hrec] at h
  obtain ⟨⟨p1, o1, ret⟩, h1, h⟩ := Res.bind_eq_ok.mp h
  obtain ⟨⟨q', o2⟩, h2, h⟩ := Res.bind_eq_ok.mp h
  injection h with h; injection h with e1 e2; subst e1 e2
  have key : Steady (accepted p' k g) p1 ∧ 164 ≤ p1.txBufSize ∧ sent o1 = [] ∧ (ret = .none ∨ ret = .reply) := by
    unfold commanded at h1
    split at h1
    · split at h1
      · injection h1 with h1; injection h1 with e1 h1; injection h1 with e2 e3; subst e1 e2 e3
        exact ⟨⟨id, rfl, rfl, rfl⟩, hm, rfl, .inr rfl⟩
      · cases h1
    · have ho := dispatch_outcome (p := noteCmd (accepted p' k g) d0) f1 h1
      have st := steady_outcome ho
      refine ⟨⟨st.sc, st.seq, st.addr, st.bc⟩, room_outcome ho hm hrx, outs_nosend ho, ?_⟩
      cases ho with
      | plain hpl _ => exact hpl.ret.imp_right fun h => h.1
      | file hid _ => exact absurd hid hft
      | _ => exact .inl rfl
  obtain ⟨st, hm1, hs1, hret⟩ := key
  have hp1 : p1.flags.pdMode = true := by
    unfold commanded at h1
    split at h1
    · split at h1
      · injection h1 with h1; injection h1 with e1 h1; injection h1 with e2 e3; subst e1 e2 e3
        exact f1
      · cases h1
    · cases dispatch_outcome (p := noteCmd (accepted p' k g) d0) f1 h1 with
      | plain hpl _ => rw [hpl.quiet.flags]; exact f1
      | poll _ _ => unfold pollEvent; split <;> exact f1
      | file _ _ => split <;> exact f1
      | _ => exact f1
  have hsc1 := st.sc f2
  have hto : touch p1 ret env.now = p1 := by unfold touch; rw [hsc1]; simp
  rw [show sent (o1 ++ o2) = sent o1 ++ sent o2 from List.filterMap_append, hs1, List.nil_append]
  cases finish_inv hp1 h2 with
  | keep hr => rcases hret with rfl | rfl <;> simp at hr
  | reset hr => rcases hret with rfl | rfl <;> simp at hr
  | reply _ hsend _ =>
    rw [hto] at hsend
    obtain ⟨r, e, hlen, ea, ec, -⟩ := sends hsend hm1
    have hb : p1.txBufSize ≤ 256 := by unfold Pd.txBufSize; split <;> omega
    rw [List.take_of_length_le (by omega)] at e
    refine ⟨r, e, ?_, ?_⟩
    · unfold Packet.seq
      rw [ec]
      have hks : k.seq < 4 := by unfold Packet.seq; omega
      have e : Phy.seqBits p1.seq = k.seq := by
        rw [st.seq]
        show Phy.seqBits (k.seq : Int) = _
        unfold Phy.seqBits; omega
      unfold replyTx
      dsimp only
      rw [e]
      split
      · exact (show ∀ n < 4, (b8 n ||| Phy.CTL_CRC ||| Phy.CTL_SCB : Byte).toNat % 4 = n by decide) _ hks
      · exact (show ∀ n < 4, (b8 n ||| Phy.CTL_CRC : Byte).toNat % 4 = n by decide) _ hks
    · rw [ea]
      unfold replyTx
      dsimp only
      rw [st.addr, st.bc, f3, ← pktAddr_dev]
      by_cases h7 : p'.flags.broadcast = true ∨ pktAddr k = 127
      · rw [if_pos h7, if_pos (by simpa using h7)]; rfl
      · rw [if_neg h7, if_neg (by simpa using h7), or80]
        show 128 + (i8 p'.address &&& 0x7F#8).toNat = _
        rw [Phy.i8_addr _ hadr]

/-- **C36, partial: exactly one reply.**  A PD without secure channel receives a command packet addressed to
it, with the right sequence number.  It transmits exactly one packet: a reply with that sequence number,
from the address the command was sent to.  Not covered: file transfer fragments, of which some are not
answered (see below), PDs whose CP announced a receive buffer below 164 bytes (below 69 they never
answer, see below), and the secure channel. -/
theorem C36_exactly_one_reply_partial (C : Cipher) (p q : Pd) (k : Packet) (env : Env) (d0 : Byte) (body : List Byte)
    (outs : List Out) (hl : Listening p) (hk : ForUs p k) (ha : Arrives env k.bytes)
    (hs : Phy.hasBit k.ctl Phy.CTL_SCB = false) (hscb : k.scb = []) (hd : k.data = d0 :: body)
    (hft : d0.toNat ≠ Id.FILETRANSFER) (hm : 164 ≤ p.txBufSize)
    (hrx : ∀ b0 b1 rest, d0.toNat = Id.ACURXSIZE → body = b0 :: b1 :: rest → 164 ≤ ofLe [b0, b1])
    (hcap : 256 ≤ env.sendCap) (h : refresh C p env = .ok (q, outs)) :
    ∃ r, sent outs = [Packet.bytes r] ∧ RepliesTo p.address.toNat k r := by
  obtain ⟨r, h1, h2, h3⟩ := one_reply C p q k env d0 body outs hl.pd hl.idle hl.addr (.inl hl.sc) hk ha hs hscb hd hft hm hrx hcap h
  refine ⟨r, h1, h2, ?_⟩
  rw [h3, hl.bc]; simp

/-- Non-vacuity: a POLL to the sample PD. -/
example : Listening Sample.pd ∧ ForUs Sample.pd ⟨true, 101#8, 4#8, [], [b8 Id.POLL]⟩ ∧ 164 ≤ Sample.pd.txBufSize ∧
    Arrives (Sample.env Sample.poll) (Packet.bytes ⟨true, 101#8, 4#8, [], [b8 Id.POLL]⟩) ∧
    ((refresh Aes.aes Sample.pd (Sample.env Sample.poll)).toOption.map fun r => (sent r.2).length) = some 1 := by
  refine ⟨⟨rfl, ⟨rfl, rfl, by decide +kernel, rfl⟩, rfl, rfl, by decide⟩,
    ⟨by decide +kernel, by decide, by decide, by decide, by decide, by decide⟩, by decide, ?_, by decide +kernel⟩
  unfold Arrives; decide +kernel

/-! ## Commands without a reply -/

/-- The packets sent over a history. -/
def sentIn (r : Res (Pd × List Out)) : Option (List (List Byte)) :=
  match r with
  | .ok (_, outs) => some (sent outs)
  | .error _ => none

/-- a first fragment of a file: type 1, size 4, offset 0, 4 bytes -/
def fragment : List Byte := [b8 Id.FILETRANSFER, 1, 4, 0, 0, 0, 0, 0, 0, 0, 4, 0, 65, 66, 67, 68]

/-- **C36 is violated** for valid commands.  A well formed file transfer command that the application rejects is
not answered; and after the CP announced a receive buffer of 10 bytes, the PD does not answer the next
POLL (nor anything else). -/
theorem C36_valid_command_unanswered :
    sentIn (refresh Aes.aes (registerFileOps Sample.pd) (Sample.envRej (Sample.cmd 0 fragment))) = some [] ∧
    sentIn (run Aes.aes Sample.pd [.refresh (Sample.env (Sample.cmd 0 [b8 Id.ACURXSIZE, 10, 0])),
      .refresh (Sample.env (Sample.cmd 1 [b8 Id.POLL]))]) = some [] := by
  constructor <;> decide +kernel

end Osdp.PdM
