import Verif.Lemmas.PdKey
import Verif.Lemmas.SampleSc

/-!
# C27: the PD's base key changes only through an authorised KEYSET
-/

namespace Osdp.PdM

/-- In the history `ops` (starting from `p`) there is a refresh with an active secure channel in which the
application was handed a KEYSET of type 1 and length 16 and accepted it, leaving `k` as the key. -/
def Authorised (C : Cipher) (p : Pd) (ops : List Op) (k : Block) : Prop :=
  ∃ before env after q o s o' cb c c', ops = before ++ Op.refresh env :: after ∧ run C p before = .ok (q, o) ∧
    q.scActive = true ∧ refresh C q env = .ok (s, o') ∧ Out.cmd (.keyset c) ∈ o' ∧ c.type = 1#8 ∧ c.length = 16#8 ∧
    env.cb = some cb ∧ cb 0 (.keyset c) = (0, .keyset c') ∧ k.1 = c'.data.1.take 16

theorem Authorised.more {C : Cipher} {p : Pd} {ops : List Op} {k : Block} (h : Authorised C p ops k) (op : Op) :
    Authorised C p (ops ++ [op]) k := by
  obtain ⟨b, env, a, q, o, s, o', cb, c, c', rfl, r⟩ := h
  exact ⟨b, env, a ++ [op], q, o, s, o', cb, c, c', by simp, r⟩

/-- a KEYSET waiting for its acknowledgement -/
def Awaiting (q : Pd) (k : Block) : Prop := q.cmdId = Id.KEYSET ∧ q.replyId = Id.ACK ∧ q.eph = .key k

/-- What is pending after the packet was processed. -/
theorem got_awaiting {C : Cipher} {p q : Pd} {env : Env} {outs : List Out} {ret : PdRet} {k : Block}
    (hp : p.flags.pdMode = true) (h : Got C p env q outs ret) (hk : Awaiting q k) :
    Awaiting p k ∨ (p.scActive = true ∧ ∃ cb c c', Out.cmd (.keyset c) ∈ outs ∧ c.type = 1#8 ∧ c.length = 16#8 ∧
      env.cb = some cb ∧ cb 0 (.keyset c) = (0, .keyset c') ∧ k.1 = c'.data.1.take 16) := by
  obtain ⟨k1, k2, k3⟩ := hk
  have nak : q.replyId ≠ Id.NAK := by rw [k2]; decide
  cases h with
  | nothing _ hc _ => exact .inl ⟨by rw [← hc.transp.cmdId]; exact k1, by rw [← hc.replyId]; exact k2, by rw [← hc.eph]; exact k3⟩
  | skip _ hc => exact .inl ⟨by rw [← hc.transp.cmdId]; exact k1, by rw [← hc.replyId]; exact k2, by rw [← hc.eph]; exact k3⟩
  | seq _ hc => exact absurd (hc.nack rfl).1 nak
  | refused _ hc _ hd _ =>
    rcases hd.outcome with ⟨-, h, -⟩ | ⟨h1, h2, -⟩
    · exact absurd h nak
    · obtain ⟨g1, g2⟩ := hc.pending (by simp)
      exact .inl ⟨by rw [← hc.transp.cmdId, ← hd.transp.cmdId]; exact k1, by rw [← g1, ← h1]; exact k2, by rw [← g2, ← h2]; exact k3⟩
  | insecure _ _ _ _ _ _ _ => exact absurd rfl nak
  | @command p1 p2 _ d id body _ _ _ hc _ hd _ _ _ _ _ hdis ho =>
    have hcid : (noteCmd p2 id).cmdId = Id.KEYSET := by rw [← (outcome_lasting ho).2.1]; exact k1
    have hp2 : (noteCmd p2 id).flags.pdMode = true := by
      show p2.flags.pdMode = true
      rw [hd.transp.pdMode, hc.transp.pdMode]; exact hp
    rcases keyset_inv hp2 hcid hdis with ⟨h, -, -⟩ | ⟨cb, c', h1, h2, h3, h4, h5, h6, -, h8, h9⟩
    · exact absurd h nak
    · refine .inr ⟨hc.scActive (hd.scActive h2), cb, _, c', by rw [h5]; exact List.mem_singleton.mpr rfl, rfl, rfl, h1, h6, ?_⟩
      rw [k3] at h9
      injection h9 with h9
      rw [h9]

/-- The invariant: a KEYSET awaiting its acknowledgement was authorised. -/
theorem awaiting_authorised {C : Cipher} {info : Info} {p : Pd} {sk : Bool} {n : Nat} (hs : setup info sk n = some p)
    {ops : List Op} {q : Pd} {o : List Out} (h : run C p ops = .ok (q, o)) (k : Block) (hk : Awaiting q k) :
    Authorised C p ops k := by
  revert hk k
  refine run_ind (C := C) (p := p) (fun ops q _ => ∀ k, Awaiting q k → Authorised C p ops k) ?_ ?_ h
  · rintro k ⟨hc, -⟩
    unfold setup at hs
    split at hs
    · cases hs
    · injection hs with hs; subst hs
      exact absurd (show (0 : Nat) = Id.KEYSET from hc) (by decide)
  · intro ops op q o s o' hr ih hst k hk
    have hR : Reached C info q := ⟨sk, n, p, ops, o, hs, hr⟩
    cases op with
    | refresh env =>
      obtain ⟨p1, o1, ret, o2, hg, hp1, hfin, rfl⟩ := refresh_inv hR.pdMode hst
      have tl := finished_tail hfin
      have hk1 : Awaiting p1 k := ⟨by rw [← tl.cmdId]; exact hk.1, by rw [← tl.replyId]; exact hk.2.1, by rw [← tl.eph]; exact hk.2.2⟩
      obtain ⟨x1, x2, x3, x4, -⟩ := expire_fields q env.now
      rcases got_awaiting ((congrArg Config.pdMode (config_expire q env.now)).trans hR.pdMode) hg hk1 with h | ⟨ha, cb, c, c', g1, g2, g3, g4, g5, g6⟩
      · exact (ih k ⟨by rw [← x3]; exact h.1, by rw [← x2]; exact h.2.1, by rw [← x4]; exact h.2.2⟩).more _
      · exact ⟨ops, env, [], q, o, s, _, cb, c, c', rfl, hr, (expire_lasting q env.now).active ha, hst,
          List.mem_append_left _ g1, g2, g3, g4, g5, g6⟩
    | notify e =>
      injection hst with hst; injection hst with e1 e2; subst e1
      refine (ih k ?_).more _
      unfold notifyEvent at hk; split at hk <;> exact hk
    | flush => injection hst with hst; injection hst with e1 e2; subst e1; exact (ih k hk).more _
    | setCaps l => injection hst with hst; injection hst with e1 e2; subst e1; exact (ih k hk).more _
    | fileOps => injection hst with hst; injection hst with e1 e2; subst e1; exact (ih k hk).more _

/-- **C27.**  For every configuration and every history of API calls and received bytes: if a further call changes
the base key of the PD, then that call is a refresh that sends a packet, and the new key is one that a KEYSET of
type 1 and length 16, received while the secure channel was active, left after the application accepted it. -/
theorem C27_key_change_authorised (C : Cipher) (info : Info) (skipMark : Bool) (n : Nat) (p q s : Pd) (ops : List Op)
    (op : Op) (o o' : List Out) (hs : setup info skipMark n = some p) (h : run C p ops = .ok (q, o))
    (h' : step C q op = .ok (s, o')) (hch : s.sc.scbk ≠ q.sc.scbk) :
    (∃ bs, Out.send bs ∈ o') ∧ Authorised C p (ops ++ [op]) s.sc.scbk := by
  have hR : Reached C info q := ⟨skipMark, n, p, ops, o, hs, h⟩
  cases op with
  | refresh env =>
    have hsn := run_snoc h h'
    obtain ⟨p1, o1, ret, o2, hg, hp1, hfin, rfl⟩ := refresh_inv hR.pdMode h'
    have hl := (expire_lasting q env.now).trans (got_lasting hg).1
    have tl := finished_tail hfin
    cases finished_replied hfin with
    | same a _ _ => exact absurd (a.scbk.trans hl.scbk) hch
    | com c _ _ a _ _ => exact absurd (a.scbk.trans hl.scbk) hch
    | ccrypt _ a _ _ => exact absurd (a.scbk.trans hl.scbk) hch
    | rmac _ _ a _ _ => exact absurd (a.scbk.trans hl.scbk) hch
    | keyset k bs h1 h2 h3 h4 a _ _ =>
      refine ⟨⟨bs, List.mem_append_right _ h4⟩, ?_⟩
      have e : s.sc.scbk = k := a.scbk
      rw [e]
      exact awaiting_authorised hs hsn k ⟨tl.cmdId.trans h1, tl.replyId.trans h2, tl.eph.trans h3⟩
  | notify e =>
    injection h' with h'; injection h' with e1 e2; subst e1
    refine absurd ?_ hch
    unfold notifyEvent; split <;> rfl
  | flush => injection h' with h'; injection h' with e1 e2; subst e1; exact absurd rfl hch
  | setCaps l => injection h' with h'; injection h' with e1 e2; subst e1; exact absurd rfl hch
  | fileOps => injection h' with h'; injection h' with e1 e2; subst e1; exact absurd rfl hch

end Osdp.PdM

namespace Osdp.PdM

/-- a new key -/
def newKey : List Byte := [0x51, 0x52, 0x53, 0x54, 0x55, 0x56, 0x57, 0x58, 0x59, 0x5A, 0x5B, 0x5C, 0x5D, 0x5E, 0x5F, 0x60]

/-- Non-vacuity: handshake, then KEYSET in the secure channel; the key changes. -/
example : ((Sample.feed Aes.aes Sample.pd
    [Sample.chlng 0#8, Sample.scrypt 1#8 (Sample.session Aes.aes Sample.key),
     (Sample.secCmd Aes.aes (Sample.session Aes.aes Sample.key) 2#8 0x75#8 (1#8 :: 16#8 :: newKey)).1]).toOption.map
      fun r => (r.1.sc.scbk.1, (Sample.asked r.2).length)) = some (newKey, 1) ∧
    Sample.pd.sc.scbk = Sample.key := by decide +kernel

/-- Non-vacuity: without the secure channel the key stays. -/
example : ((Sample.feed Aes.aes Sample.pd [Sample.cmd 0#8 (0x75#8 :: 1#8 :: 16#8 :: newKey)]).toOption.map
      fun r => (r.1.sc.scbk.1, (Sample.asked r.2).length)) = some (Sample.key.1, 0) := by decide +kernel

end Osdp.PdM
