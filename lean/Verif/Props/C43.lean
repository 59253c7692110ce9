import Verif.Lemmas.PdKey
import Verif.Lemmas.PdReply
import Verif.Lemmas.PdKind
import Verif.Lemmas.PdOut
import Verif.Props.C08
import Verif.Lemmas.SampleSc

/-!
# C43: a PD changes its address and speed only on an accepted COMSET
-/

namespace Osdp.PdM

open Spec.Wire
open Phy (setNak Idle Arrives pktAddr pdAccept reload Held pktOf sendOuts)

/-- the speeds a PD accepts -/
def speeds : List Nat := [9600, 19200, 38400, 57600, 115200, 230400]

/-- Everything that can come of a COMSET. -/
theorem comset_inv {p q : Pd} {env : Env} {body : List Byte} {outs : List Out} {ret : PdRet}
    (hid : p.cmdId = Id.COMSET) (h : dispatch p env body = .ok (q, outs, ret)) :
    (q.replyId = Id.NAK ∧ ret = .reply) ∨
    ∃ cb a b0 b1 b2 b3 c', env.cb = some cb ∧ body = [a, b0, b1, b2, b3] ∧ a.toNat < 0x7F ∧
      ofLe [b0, b1, b2, b3] ∈ speeds ∧ outs = [.cmd (.comset ⟨a, BitVec.ofNat 32 (ofLe [b0, b1, b2, b3])⟩)] ∧
      cb 0 (.comset ⟨a, BitVec.ofNat 32 (ofLe [b0, b1, b2, b3])⟩) = (0, .comset c') ∧
      q = { p with eph := .cmd (.comset c'), replyId := Id.COM } ∧ ret = .none := by
  have hd : dispatch p env body = comsetCmd p env body := by
    unfold dispatch
    rw [hid]
    rfl
  rw [hd] at h
  unfold comsetCmd at h
  split at h
  · obtain ⟨rfl, rfl, rfl⟩ := badLen_inv h; exact .inl ⟨rfl, rfl⟩
  split at h
  · rename_i a b0 b1 b2 b3
    dsimp only at h
    split at h
    · obtain ⟨rfl, rfl, rfl⟩ := badLen_inv h; exact .inl ⟨rfl, rfl⟩
    rename_i hv
    have hv1 : a.toNat < 0x7F := by
      refine Classical.byContradiction fun hn => hv (.inl (by omega))
    have hv2 : validBaud (ofLe [b0, b1, b2, b3]) = true := by
      refine Classical.byContradiction fun hn => hv (.inr hn)
    obtain ⟨⟨p2, o2, r2⟩, h1, h⟩ := Res.bind_eq_ok.mp h
    obtain ⟨cb, hcb, ho, hr⟩ := callback_inv h1
    rcases hr with ⟨rfl, rfl, -⟩ | ⟨c', rfl, hcall, rfl⟩
    · injection h with h; injection h with h1 h; injection h with h2 h3; subst h1 h2 h3
      exact .inl ⟨rfl, rfl⟩
    · cases c' with
      | comset c =>
        obtain ⟨rfl, rfl, rfl⟩ := reply_inv h
        refine .inr ⟨cb, a, b0, b1, b2, b3, c, hcb, rfl, hv1, ?_, ho, hcall, rfl, rfl⟩
        unfold validBaud at hv2
        exact List.contains_iff_mem.mp hv2
      | _ => cases h
  · obtain ⟨rfl, rfl, rfl⟩ := badLen_inv h; exact .inl ⟨rfl, rfl⟩

/-- In the history `ops` there is a refresh in which a COMSET with an address below 0x7F and a supported speed
was handed to the application, which accepted it and left `c'` as the parameters. -/
def Granted (C : Cipher) (p : Pd) (ops : List Op) (c' : CmdComset) : Prop :=
  ∃ before env after q o s o' cb c, ops = before ++ Op.refresh env :: after ∧ run C p before = .ok (q, o) ∧
    refresh C q env = .ok (s, o') ∧ Out.cmd (.comset c) ∈ o' ∧ c.address.toNat < 0x7F ∧ c.baudRate.toNat ∈ speeds ∧
    env.cb = some cb ∧ cb 0 (.comset c) = (0, .comset c')

theorem Granted.more {C : Cipher} {p : Pd} {ops : List Op} {c : CmdComset} (h : Granted C p ops c) (op : Op) :
    Granted C p (ops ++ [op]) c := by
  obtain ⟨b, env, a, q, o, s, o', cb, c1, rfl, r⟩ := h
  exact ⟨b, env, a ++ [op], q, o, s, o', cb, c1, by simp, r⟩

/-- new parameters waiting for the reply that announces them -/
def Announcing (q : Pd) (c : CmdComset) : Prop := q.replyId = Id.COM ∧ q.eph = .cmd (.comset c)

theorem com_comset (n : Nat) (h : Id.COM ∈ Spec.Answer.replies n) : n = Id.COMSET := by
  unfold Spec.Answer.replies at h
  split at h <;> first | rfl | exact absurd h (by decide)

theorem got_announcing {C : Cipher} {p q : Pd} {env : Env} {outs : List Out} {ret : PdRet} {c' : CmdComset}
    (h : Got C p env q outs ret) (hk : Announcing q c') :
    Announcing p c' ∨ (∃ cb c, Out.cmd (.comset c) ∈ outs ∧ c.address.toNat < 0x7F ∧ c.baudRate.toNat ∈ speeds ∧
      env.cb = some cb ∧ cb 0 (.comset c) = (0, .comset c')) := by
  obtain ⟨k2, k3⟩ := hk
  have nak : q.replyId ≠ Id.NAK := by rw [k2]; decide
  cases h with
  | nothing _ hc _ => exact .inl ⟨by rw [← hc.replyId]; exact k2, by rw [← hc.eph]; exact k3⟩
  | skip _ hc => exact .inl ⟨by rw [← hc.replyId]; exact k2, by rw [← hc.eph]; exact k3⟩
  | seq _ hc => exact absurd (hc.nack rfl).1 nak
  | refused _ hc _ hd _ =>
    rcases hd.outcome with ⟨-, h, -⟩ | ⟨h1, h2, -⟩
    · exact absurd h nak
    · obtain ⟨g1, g2⟩ := hc.pending (by simp)
      exact .inl ⟨by rw [← g1, ← h1]; exact k2, by rw [← g2, ← h2]; exact k3⟩
  | insecure _ _ _ _ _ _ _ => exact absurd rfl nak
  | @command p1 p2 _ d id body _ _ hc _ hd _ _ _ _ _ _ hdis ho =>
    rcases dispatch_kind hdis with ⟨h, -⟩ | ⟨h, -⟩ | ⟨-, h, -⟩
    · exact absurd h nak
    · rw [k2] at h
      rcases comset_inv (com_comset _ h) hdis with ⟨h, -⟩ | ⟨cb, a, b0, b1, b2, b3, c, h1, -, h3, h4, h5, h6, h7, -⟩
      · exact absurd h nak
      · subst h7
        injection k3 with k3; injection k3 with k3; subst k3
        refine .inr ⟨cb, _, by rw [h5]; exact List.mem_singleton.mpr rfl, h3, ?_, h1, h6⟩
        have hlt : ofLe [b0, b1, b2, b3] < 2 ^ 32 := by
          revert h4
          generalize ofLe [b0, b1, b2, b3] = n
          intro h4
          simp [speeds] at h4
          omega
        show (BitVec.ofNat 32 _).toNat ∈ _
        rw [BitVec.toNat_ofNat, Nat.mod_eq_of_lt hlt]
        exact h4
    · rw [k2] at h
      exact absurd (show Id.COM = 0 from h) (by decide)

/-- The invariant: parameters waiting to be announced were granted. -/
theorem announcing_granted {C : Cipher} {info : Info} {p : Pd} {sk : Bool} {n : Nat} (hs : setup info sk n = some p)
    {ops : List Op} {q : Pd} {o : List Out} (h : run C p ops = .ok (q, o)) (c : CmdComset) (hk : Announcing q c) :
    Granted C p ops c := by
  revert hk c
  refine run_ind (C := C) (p := p) (fun ops q _ => ∀ k, Announcing q k → Granted C p ops k) ?_ ?_ h
  · rintro k ⟨hc, -⟩
    unfold setup at hs
    split at hs
    · cases hs
    · injection hs with hs; subst hs
      exact absurd (show (0 : Nat) = Id.COM from hc) (by decide)
  · intro ops op q o s o' hr ih hst k hk
    have hR : Reached C info q := ⟨sk, n, p, ops, o, hs, hr⟩
    cases op with
    | refresh env =>
      obtain ⟨p1, o1, ret, o2, hg, hp1, hfin, rfl⟩ := refresh_inv hR.pdMode hst
      have tl := finished_tail hfin
      have hk1 : Announcing p1 k := ⟨by rw [← tl.replyId]; exact hk.1, by rw [← tl.eph]; exact hk.2⟩
      obtain ⟨x1, x2, x3, x4, -⟩ := expire_fields q env.now
      rcases got_announcing hg hk1 with h | ⟨cb, c, g1, g2, g3, g4, g5⟩
      · exact (ih k ⟨by rw [← x2]; exact h.1, by rw [← x4]; exact h.2⟩).more _
      · exact ⟨ops, env, [], q, o, s, _, cb, c, rfl, hr, hst, List.mem_append_left _ g1, g2, g3, g4, g5⟩
    | notify e =>
      injection hst with hst; injection hst with e1 e2; subst e1
      refine (ih k ?_).more _
      unfold notifyEvent at hk; split at hk <;> exact hk
    | flush => injection hst with hst; injection hst with e1 e2; subst e1; exact (ih k hk).more _
    | setCaps l => injection hst with hst; injection hst with e1 e2; subst e1; exact (ih k hk).more _
    | fileOps => injection hst with hst; injection hst with e1 e2; subst e1; exact (ih k hk).more _

/-- **C43, when the parameters change.**  For every configuration and every history of API calls and received
bytes: if a further call changes the PD's address or speed, then the history contains a COMSET with an address
below 0x7F and a supported speed that the application accepted, and the new parameters are those the application
left in that command. -/
theorem C43_change_granted (C : Cipher) (info : Info) (skipMark : Bool) (n : Nat) (p q s : Pd) (ops : List Op)
    (op : Op) (o o' : List Out) (hs : setup info skipMark n = some p) (h : run C p ops = .ok (q, o))
    (h' : step C q op = .ok (s, o')) (hch : s.address ≠ q.address ∨ s.baudRate ≠ q.baudRate) :
    ∃ c, Granted C p (ops ++ [op]) c ∧ s.address = c.address.toNat ∧ s.baudRate = c.baudRate.toInt := by
  have hR : Reached C info q := ⟨skipMark, n, p, ops, o, hs, h⟩
  have no : s.address = q.address → s.baudRate = q.baudRate → False := fun a b => hch.elim (· a) (· b)
  cases op with
  | refresh env =>
    have hsn := run_snoc h h'
    obtain ⟨p1, o1, ret, o2, hg, hp1, hfin, rfl⟩ := refresh_inv hR.pdMode h'
    have hl := (expire_lasting q env.now).trans (got_lasting hg).1
    have tl := finished_tail hfin
    cases finished_replied hfin with
    | same a _ _ => exact (no (a.address.trans hl.address) (a.baudRate.trans hl.baudRate)).elim
    | com c h1 h2 a _ _ =>
      exact ⟨c, announcing_granted hs hsn c ⟨tl.replyId.trans h1, tl.eph.trans h2⟩, a.address, a.baudRate⟩
    | ccrypt _ a _ _ => exact (no (a.address.trans hl.address) (a.baudRate.trans hl.baudRate)).elim
    | rmac _ _ a _ _ => exact (no (a.address.trans hl.address) (a.baudRate.trans hl.baudRate)).elim
    | keyset k bs h1 h2 h3 h4 a _ _ => exact (no (a.address.trans hl.address) (a.baudRate.trans hl.baudRate)).elim
  | notify e =>
    injection h' with h'; injection h' with e1 e2; subst e1
    refine (no ?_ ?_).elim <;> (unfold notifyEvent; split <;> rfl)
  | flush => injection h' with h'; injection h' with e1 e2; subst e1; exact (no rfl rfl).elim
  | setCaps l => injection h' with h'; injection h' with e1 e2; subst e1; exact (no rfl rfl).elim
  | fileOps => injection h' with h'; injection h' with e1 e2; subst e1; exact (no rfl rfl).elim

/-- **C43, the reply leaves from the old address.**  Whatever is sent by a refresh, with or without a secure channel,
and whether or not it changes the PD's address: every packet carries the address the PD had before the refresh, or
the broadcast address. -/
theorem C43_reply_from_old_address (C : Cipher) (p s : Pd) (env : Env) (outs : List Out) (bs : List Byte)
    (hp : p.flags.pdMode = true) (hr : 0 ≤ p.address ∧ p.address < 128) (h : refresh C p env = .ok (s, outs))
    (hb : Out.send bs ∈ outs) :
    ∃ r : Packet, bs = r.bytes.take env.sendCap ∧ (r.addr.toNat = 128 + p.address.toNat ∨ r.addr.toNat = 128 + 127) := by
  obtain ⟨q, o1, ret, o2, hg, hp1, hfin, rfl⟩ := refresh_inv hp h
  have hb2 : Out.send bs ∈ o2 := by
    rcases List.mem_append.mp hb with hb | hb
    · cases hg with
      | command _ _ _ _ _ _ _ _ _ _ ho =>
        have : bs ∈ sent o1 := List.mem_filterMap.mpr ⟨_, hb, rfl⟩
        rw [outs_nosend ho] at this; simp at this
      | _ => simp at hb
    · exact hb
  obtain ⟨r, h1, h2⟩ := finished_packet hfin hb2
  have hl := (expire_lasting p env.now).trans (got_lasting hg).1
  refine ⟨r, h1, ?_⟩
  rw [h2.addr, hl.address]
  split
  · exact .inr rfl
  · left
    rw [or80, Phy.i8_addr _ (by omega)]

/-- **C43, the reply and the new address.**  A COMSET in the clear, for a valid address and speed, arrives at an idle
PD and its application accepts it: the application is asked exactly once, exactly one packet is sent, from the old
address (or the broadcast address) and carrying the parameters the application left, and only then does the PD use
them. -/
theorem C43_exchange (C : Cipher) (p : Pd) (k : Packet) (env : Env) (cb : Nat → Cmd → Int × Cmd) (a b0 b1 b2 b3 : Byte)
    (c : CmdComset) (hl : Listening p) (hk : ForUs p k) (ha : Arrives env k.bytes)
    (hs : Phy.hasBit k.ctl Phy.CTL_SCB = false) (hscb : k.scb = []) (hd : k.data = [0x6E#8, a, b0, b1, b2, b3])
    (hav : a.toNat < 0x7F) (hbv : ofLe [b0, b1, b2, b3] ∈ speeds) (hcb : env.cb = some cb)
    (hacc : cb 0 (.comset ⟨a, BitVec.ofNat 32 (ofLe [b0, b1, b2, b3])⟩) = (0, .comset c))
    (hsec : p.flags.enforceSecure = false) (htx : 69 ≤ p.txBufSize) (hcap : 256 ≤ env.sendCap) :
    ∃ q outs r, refresh C p env = .ok (q, Out.cmd (.comset ⟨a, BitVec.ofNat 32 (ofLe [b0, b1, b2, b3])⟩) :: outs) ∧
      (∀ x, Out.cmd x ∉ outs) ∧ sent outs = [Packet.bytes r] ∧
      Answers p.address.toNat k r (0x54#8 :: c.address :: le32 c.baudRate.toNat) ∧
      q.address = c.address.toNat ∧ q.baudRate = c.baudRate.toInt ∧ Idle q ∧ q.flags.pdMode = true ∧
      q.scActive = false ∧ q.flags.broadcast = false ∧ q.seq = k.seq := by
  obtain ⟨h, q0, o, b, rb, q, hh, P, ⟨rfl, rfl, rfl, rfl⟩, hS, hI, hrun, ⟨r, hr, hr'⟩, hn⟩ :=
    exchange (fun h q o b rb => q = { noteCmd (accepted p k h) 0x6E#8 with eph := .cmd (.comset c), replyId := Id.COM } ∧
        o = [Out.cmd (.comset ⟨a, BitVec.ofNat 32 (ofLe [b0, b1, b2, b3])⟩)] ∧
        b = ⟨{ unbc q with address := c.address.toNat, baudRate := c.baudRate.toInt }, replyTx q, [], .ok rb⟩ ∧
        rb = 0x54#8 :: c.address :: le32 c.baudRate.toNat)
      C p k env 0x6E#8 [a, b0, b1, b2, b3] hl hk ha hs hscb hd hcap (by
        intro h hh
        obtain ⟨f1, f2, f3⟩ := accepted_fields k h hl
        refine ⟨?_, _, _, _, _, ?_, rfl, rfl, rfl, rfl⟩
        · unfold plainRefused
          show (p.flags.enforceSecure && _ && _ && _ && _ && _) = false
          rw [hsec]; rfl
        · refine ⟨.inl ?_, rfl, rfl, rfl, rfl, rfl, htx, rfl, ?_, ?_, rfl, rfl, rfl, rfl, rfl, rfl, rfl, rfl, by simp, ?_⟩
          · have hd : dispatch (noteCmd (accepted p k h) 0x6E#8) env [a, b0, b1, b2, b3] =
                comsetCmd (noteCmd (accepted p k h) 0x6E#8) env [a, b0, b1, b2, b3] := rfl
            rw [hd]
            unfold comsetCmd
            have hv : ¬ (a.toNat ≥ 0x7F ∨ ¬ validBaud (ofLe [b0, b1, b2, b3]) = true) := by
              rintro (h | h)
              · omega
              · exact h (List.contains_iff_mem.mpr hbv)
            rw [hcb, if_neg (by simp)]
            dsimp only
            rw [if_neg hv]
            unfold callback
            rw [hcb]
            dsimp only
            rw [hacc]
            rfl
          · rintro ⟨-, h⟩; exact absurd (show Id.COM = Id.ACK from h) (by decide)
          · intro n hn _
            unfold replyBody
            have ha : assertLen 6 n = .ok () := by unfold assertLen; rw [if_pos (by omega)]
            have h1 : ∀ (e : Eph) (P : Pd), (unbc { P with eph := e, replyId := Id.COM }).replyId = Id.COM := fun _ _ => rfl
            rw [h1]
            simp only [Id.ACK, Id.PDID, Id.PDCAP, Id.OSTATR, Id.ISTATR, Id.LSTATR, Id.RSTATR, Id.KEYPAD, Id.RAW, Id.COM]
            simp only [ha]
            rfl
          · have := plainReply_length ({ noteCmd (accepted p k h) 0x6E#8 with eph := .cmd (.comset c), replyId := Id.COM })
              (0x54#8 :: c.address :: le32 c.baudRate.toNat)
            have e : (0x54#8 :: c.address :: le32 c.baudRate.toNat).length = 6 := rfl
            rw [e] at this
            exact Nat.le_trans this (by
              show 14 ≤ p.txBufSize
              omega))
  refine ⟨_, _, r, hrun, ?_, ?_, hr, ?_, ?_, hI, ?_, ?_, ?_, ?_⟩
  · intro x hx
    exact hn x hx
  · exact hr'
  · show q.address = _
    rw [hS.buf]
  · show q.baudRate = _
    rw [hS.buf]
  · show q.flags.pdMode = _
    rw [hS.buf]; exact hl.pd
  · show q.flags.scActive = _
    rw [hS.buf]
    exact (accepted_fields k h hl).2.1
  · show q.flags.broadcast = _
    rw [hS.buf]; rfl
  · show q.seq = _
    rw [hS.buf]; rfl

/-- **C43, afterwards.**  After the exchange above, an undamaged command for any other address, in particular the old
one, has no effect and is not answered. -/
theorem C43_others_ignored (C : Cipher) (q : Pd) (c : CmdComset) (m : Bool) (f : List Byte) (adr : Byte) (env : Env)
    (hq : q.address = c.address.toNat) (hi : Idle q) (hp : q.flags.pdMode = true) (hw : Phy.WfFrame m f) (hin : Intact f)
    (h1 : f[1]? = some adr) (hdir : adr.toNat < 128) (hfor : adr ≠ c.address ∧ adr.toNat ≠ 127)
    (ha : Arrives env (Phy.marked m f)) :
    ∃ s, refresh C q env = .ok (s, []) ∧ Idle s ∧ s.address = c.address.toNat := by
  obtain ⟨s, e1, e2, -, -, e5, -⟩ := C08_foreign_command_ignored_partial C q m f adr env hp hi hw hin h1 hdir
    ⟨by rw [hq]; intro h; exact hfor.1 (BitVec.eq_of_toNat_eq (by omega)), hfor.2⟩ ha
  exact ⟨s, e1, e2, e5.trans hq⟩

/-- COMSET to address 5, 38400 baud, from the application's point of view -/
def comset5 : List Byte := Sample.cmd 0#8 [0x6E#8, 5#8, 0x00#8, 0x96#8, 0x00#8, 0x00#8]

/-- Non-vacuity, end to end: after COMSET the PD answers at its new address only. -/
example : ((Sample.feed Aes.aes Sample.pd [comset5]).toOption.map fun r =>
      decide (r.1.address = 5 ∧ r.1.baudRate = 38400 ∧ (Sample.asked r.2).length = 1 ∧ (sent r.2).length = 1)) = some true ∧
    ((Sample.feed Aes.aes Sample.pd [comset5, Sample.poll]).toOption.map fun r => (sent r.2).length) = some 1 ∧
    ((Sample.feed Aes.aes Sample.pd [comset5, Packet.bytes ⟨true, 5#8, 0x05#8, [], [0x60#8]⟩]).toOption.map
      fun r => (sent r.2).length) = some 2 := by
  decide +kernel

/-- Non-vacuity of the change theorem's last clause, and a disagreement with the property as stated: the parameters
are validated before the application sees them, not after.  An application that accepts the command but rewrites
its parameters moves the PD to the broadcast address. -/
theorem C43_unvalidated_parameters :
    ((refresh Aes.aes Sample.pd { Sample.env comset5 0 with cb := some fun _ _ => (0, .comset ⟨0x7F#8, 1#32⟩) }).toOption.map
      fun r => decide (r.1.address = 127 ∧ r.1.baudRate = 1)) = some true := by
  decide +kernel

end Osdp.PdM
