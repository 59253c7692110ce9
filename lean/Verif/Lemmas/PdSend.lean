import Verif.Lemmas.Send
import Verif.Lemmas.PdDispatch

/-! # The PD sends its reply -/

namespace Osdp.PdM

open Spec.Wire
open Phy (Tx packetInit Sending DataOf pktOf sendOuts)

/-- `osdp_phy_packet_init` clears the broadcast flag -/
def unbc (p : Pd) : Pd := { p with flags := { p.flags with broadcast := false } }

/-- header of the PD's reply -/
def replyTx (p : Pd) : Tx :=
  { mark := p.flags.hasMark, misaligned := false
    addr := (if p.flags.broadcast then 0x7F#8 else i8 p.address &&& 0x7F#8) ||| 0x80#8
    ctl := if p.scActive ∨ Phy.inHandshake true p.replyId then
        b8 (Phy.seqBits p.seq) ||| Phy.CTL_CRC ||| Phy.CTL_SCB else b8 (Phy.seqBits p.seq) ||| Phy.CTL_CRC
    scb := if p.scActive then [2#8, 0x15#8] else if Phy.inHandshake true p.replyId then [3#8, 0x11#8, 0#8] else [] }

theorem packetInit_pd {p : Pd} (hp : p.flags.pdMode = true) (m : Nat) :
    packetInit p m = if m < 69 then none else some (unbc p, replyTx p) := by
  unfold packetInit
  by_cases hm : m < 69
  · rw [if_pos hm, if_pos (show m < 5 + 64 from hm)]
  rw [if_neg hm, if_neg (show ¬ m < 5 + 64 from hm)]
  have h1 : p.isPd = true := hp
  have h2 : p.isCp = false := by simp [Pd.isCp, hp]
  dsimp only
  rw [h1, h2]
  unfold unbc replyTx
  cases hmk : p.flags.hasMark <;> cases hsc : p.scActive <;> cases hh : Phy.inHandshake true p.replyId <;>
    simp [hmk, hh, Phy.nextSeq]

/-- What building a reply can do to the state. -/
inductive BodyOutcome (C : Cipher) (p : Pd) (env : Env) (t : Tx) : Built → Prop
  | same (body : Except Nat (List Byte)) : BodyOutcome C p env t ⟨p, t, [], body⟩
  | com (c : CmdComset) : p.replyId = Id.COM → p.eph = .cmd (.comset c) →
      BodyOutcome C p env t ⟨{ p with address := c.address.toNat, baudRate := c.baudRate.toInt }, t, [],
        .ok (b8 p.replyId :: c.address :: le32 c.baudRate.toNat)⟩
  | ftstat (f : Option FileSt) (outs : List Out) (r : Option (List Byte)) (room : Int) : p.replyId = Id.FTSTAT →
      File.statBuild p.file env room = .ok (f, outs, r) →
      BodyOutcome C p env t ⟨{ p with file := f }, t, outs,
        match r with | none => .error 1 | some bs => .ok (b8 p.replyId :: bs)⟩
  | ccrypt (sc : Sc) : p.replyId = Id.CCRYPT → t.scb.length = 3 →
      sc = Sc.computePdCryptogram C (Sc.sessionKeys C p.flags.useScbkd { p.sc with pdRandom := env.random }) →
      BodyOutcome C p env t ⟨{ p with sc := sc }, { t with scb := [3#8, 0x12#8, if p.flags.useScbkd then 0 else 1] }, [],
        .ok (b8 p.replyId :: (sc.pdClientUid.1 ++ sc.pdRandom.1 ++ sc.pdCryptogram.1))⟩
  | rmac (sc : Sc) (ok : Bool) : p.replyId = Id.RMAC_I → t.scb.length = 3 → sc = Sc.computeRmacI C p.sc →
      ok = Sc.verifyCpCryptogram C sc →
      BodyOutcome C p env t ⟨if ok then { ({ p with sc := sc } : Pd).scActivate with scTstamp := env.now } else { p with sc := sc },
        { t with scb := [3#8, 0x14#8, if ok then 1 else 0] }, [], .ok (b8 p.replyId :: sc.rMac.1)⟩

theorem assertLen_ok {a b : Int} {u : Unit} (h : assertLen a b = .ok u) : a < b := by
  unfold assertLen at h
  split at h
  · assumption
  · cases h

theorem replyBody_outcome {C : Cipher} {p : Pd} {env : Env} {t : Tx} {room : Int} {b : Built}
    (h : replyBody C p env t room = .ok b) :
    BodyOutcome C p env t b ∧ (∀ l, b.body = .ok l → l.head? = some (b8 p.replyId)) := by
  unfold replyBody at h
  dsimp only at h
  replace h := ite_inv h
  rcases h with ⟨hid, h⟩ | ⟨-, h⟩
  · obtain ⟨_, -, h⟩ := Res.bind_eq_ok.mp h
    injection h with h; subst h
    exact ⟨.same _, by rintro l ⟨⟩; rfl⟩
  replace h := ite_inv h
  rcases h with ⟨hid, h⟩ | ⟨-, h⟩
  · obtain ⟨_, -, h⟩ := Res.bind_eq_ok.mp h
    injection h with h; subst h
    exact ⟨.same _, by rintro l ⟨⟩; rw [hid]; rfl⟩
  replace h := ite_inv h
  rcases h with ⟨hid, h⟩ | ⟨-, h⟩
  · obtain ⟨_, -, h⟩ := Res.bind_eq_ok.mp h
    injection h with h; subst h
    exact ⟨.same _, by rintro l ⟨⟩; rfl⟩
  have hst : ∀ cap, statusReply p t cap room = .ok b →
      BodyOutcome C p env t b ∧ (∀ l, b.body = .ok l → l.head? = some (b8 p.replyId)) := by
    intro cap h
    unfold statusReply at h
    split at h
    · dsimp only at h
      split at h
      · injection h with h; subst h
        exact ⟨.same _, by rintro l ⟨⟩⟩
      · obtain ⟨_, -, h⟩ := Res.bind_eq_ok.mp h
        split at h
        · cases h
        · injection h with h; subst h
          exact ⟨.same _, by rintro l ⟨⟩; rfl⟩
    · cases h
  replace h := ite_inv h
  rcases h with ⟨hid, h⟩ | ⟨-, h⟩
  · exact hst _ h
  replace h := ite_inv h
  rcases h with ⟨hid, h⟩ | ⟨-, h⟩
  · exact hst _ h
  replace h := ite_inv h
  rcases h with ⟨hid, h⟩ | ⟨-, h⟩
  · obtain ⟨_, -, h⟩ := Res.bind_eq_ok.mp h
    split at h
    · injection h with h; subst h
      exact ⟨.same _, by rintro l ⟨⟩; rfl⟩
    · cases h
  replace h := ite_inv h
  rcases h with ⟨hid, h⟩ | ⟨-, h⟩
  · obtain ⟨_, -, h⟩ := Res.bind_eq_ok.mp h
    split at h
    · injection h with h; subst h
      exact ⟨.same _, by rintro l ⟨⟩; rfl⟩
    · cases h
  replace h := ite_inv h
  rcases h with ⟨hid, h⟩ | ⟨-, h⟩
  · split at h
    · obtain ⟨_, -, h⟩ := Res.bind_eq_ok.mp h
      obtain ⟨_, -, h⟩ := Res.bind_eq_ok.mp h
      injection h with h; subst h
      exact ⟨.same _, by rintro l ⟨⟩; rfl⟩
    · cases h
  replace h := ite_inv h
  rcases h with ⟨hid, h⟩ | ⟨-, h⟩
  · split at h
    · obtain ⟨_, -, h⟩ := Res.bind_eq_ok.mp h
      obtain ⟨_, -, h⟩ := Res.bind_eq_ok.mp h
      injection h with h; subst h
      exact ⟨.same _, by rintro l ⟨⟩; rfl⟩
    · cases h
  replace h := ite_inv h
  rcases h with ⟨hid, h⟩ | ⟨-, h⟩
  · obtain ⟨_, -, h⟩ := Res.bind_eq_ok.mp h
    split at h
    · rename_i c hc
      injection h with h; subst h
      exact ⟨.com c hid hc, by rintro l ⟨⟩; rfl⟩
    · cases h
  replace h := ite_inv h
  rcases h with ⟨hid, h⟩ | ⟨-, h⟩
  · obtain ⟨_, -, h⟩ := Res.bind_eq_ok.mp h
    split at h
    · injection h with h; subst h
      exact ⟨.same _, by rintro l ⟨⟩; rfl⟩
    · cases h
  replace h := ite_inv h
  rcases h with ⟨hid, h⟩ | ⟨-, h⟩
  · split at h
    · obtain ⟨_, -, h⟩ := Res.bind_eq_ok.mp h
      obtain ⟨_, -, h⟩ := Res.bind_eq_ok.mp h
      injection h with h; subst h
      exact ⟨.same _, by rintro l ⟨⟩; rfl⟩
    · cases h
  replace h := ite_inv h
  rcases h with ⟨hid, h⟩ | ⟨-, h⟩
  · obtain ⟨⟨f, outs, r⟩, hs, h⟩ := Res.bind_eq_ok.mp h
    have hb := BodyOutcome.ftstat (C := C) (p := p) (env := env) (t := t) f outs r room hid hs
    cases r with
    | none =>
      injection h with h; subst h
      exact ⟨hb, by rintro l ⟨⟩⟩
    | some bs =>
      injection h with h; subst h
      exact ⟨hb, by rintro l ⟨⟩; rfl⟩
  replace h := ite_inv h
  rcases h with ⟨hid, h⟩ | ⟨-, h⟩
  · split at h
    · injection h with h; subst h
      exact ⟨.same _, by rintro l ⟨⟩⟩
    · split at h
      · cases h
      · rename_i h3
        obtain ⟨_, -, h⟩ := Res.bind_eq_ok.mp h
        injection h with h; subst h
        exact ⟨.ccrypt _ hid (by omega) rfl, by rintro l ⟨⟩; rfl⟩
  replace h := ite_inv h
  rcases h with ⟨hid, h⟩ | ⟨-, h⟩
  · split at h
    · injection h with h; subst h
      exact ⟨.same _, by rintro l ⟨⟩⟩
    · split at h
      · cases h
      · rename_i h3
        obtain ⟨_, -, h⟩ := Res.bind_eq_ok.mp h
        injection h with h; subst h
        exact ⟨.rmac _ _ hid (by omega) rfl rfl, by rintro l ⟨⟩; rfl⟩
  · injection h with h; subst h
    exact ⟨.same _, by rintro l ⟨⟩⟩

/-- the header with its final security block -/
def finalTx (t : Tx) (p : Pd) (n : Nat) : Tx :=
  match t.scb[1]? with
  | some ty => if ty > 0x14#8 ∧ p.scActive then { t with scb := [2#8, if n > 1 then 0x18#8 else 0x16#8] } else t
  | none => t

theorem finalTx_fields (t : Tx) (p : Pd) (n : Nat) :
    (finalTx t p n).mark = t.mark ∧ (finalTx t p n).misaligned = t.misaligned ∧
    (finalTx t p n).addr = t.addr ∧ (finalTx t p n).ctl = t.ctl := by
  unfold finalTx
  split
  · split <;> exact ⟨rfl, rfl, rfl, rfl⟩
  · exact ⟨rfl, rfl, rfl, rfl⟩

/-- what goes into the reply: the body built, or NAK(record) -/
def bodyOr (b : Except Nat (List Byte)) : List Byte :=
  match b with | .ok l => l | .error _ => [b8 Id.NAK, Nak.RECORD]

def bodyLen (b : Except Nat (List Byte)) : Nat := match b with | .ok l => l.length | .error k => k

theorem buildReply_inv {C : Cipher} {p q : Pd} {env : Env} {t t' : Tx} {m : Nat} {outs : List Out} {l : List Byte}
    (h : buildReply C p env t m = .ok (q, t', outs, l)) :
    ∃ b, replyBody C p env t (m - t.dataOff) = .ok b ∧ q = b.p ∧ outs = b.outs ∧ l = bodyOr b.body ∧
      t' = finalTx b.t b.p (bodyLen b.body) := by
  unfold buildReply at h
  dsimp only at h
  obtain ⟨b, hb, h⟩ := Res.bind_eq_ok.mp h
  refine ⟨b, hb, ?_⟩
  cases hbd : b.body with
  | ok x =>
    rw [hbd] at h
    injection h with h; injection h with h1 h2; injection h2 with h2 h3; injection h3 with h3 h4
    exact ⟨h1.symm, h3.symm, h4.symm, h2.symm⟩
  | error k =>
    rw [hbd] at h
    obtain ⟨_, -, h⟩ := Res.bind_eq_ok.mp h
    injection h with h; injection h with h1 h2; injection h2 with h2 h3; injection h3 with h3 h4
    exact ⟨h1.symm, h3.symm, h4.symm, h2.symm⟩

theorem bodyOr_ne (p : Pd) (b : Except Nat (List Byte)) (h : ∀ l, b = .ok l → l.head? = some (b8 p.replyId)) :
    bodyOr b ≠ [] := by
  unfold bodyOr
  cases b with
  | error => simp
  | ok l => intro hn; have := h l rfl; simp_all

/-- The PD's reply.  Either nothing can be sent (the peer's buffer is too small), or the reply is
built; then it is sent unless it does not fit. -/
inductive SendOutcome (C : Cipher) (p : Pd) (env : Env) : Pd → List Out → Bool → Prop
  | mute : p.txBufSize < 69 → SendOutcome C p env p [] false
  | built (b : Built) (q : Pd) (outs : List Out) (ok : Bool) :
      replyBody C (unbc p) env (replyTx p) (p.txBufSize - (replyTx p).dataOff) = .ok b →
      BodyOutcome C (unbc p) env (replyTx p) b →
      (∀ l, b.body = .ok l → l.head? = some (b8 p.replyId)) →
      Sending b.p q →
      ((outs = [] ∧ ok = false ∧ ((finalTx b.t b.p (bodyLen b.body)).misaligned = true ∨
        p.txBufSize < 28 + (finalTx b.t b.p (bodyLen b.body)).scb.length + (bodyOr b.body).length)) ∨ ∃ wire q', DataOf C b.p (finalTx b.t b.p (bodyLen b.body)) (bodyOr b.body) wire q' ∧
        q.sc = q'.sc ∧
        (pktOf (finalTx b.t b.p (bodyLen b.body)) wire).bytes.length ≤ p.txBufSize ∧
        outs = sendOuts p env (pktOf (finalTx b.t b.p (bodyLen b.body)) wire).bytes ∧
        ok = decide ((pktOf (finalTx b.t b.p (bodyLen b.body)) wire).bytes.length ≤ env.sendCap)) →
      q.packetBuf.length = b.p.packetBuf.length →
      SendOutcome C p env q (b.outs ++ outs) ok

theorem BodyOutcome.hasFlush {C : Cipher} {p : Pd} {env : Env} {t : Tx} {b : Built} (h : BodyOutcome C p env t b) :
    b.p.hasFlush = p.hasFlush := by
  cases h <;> try rfl
  split <;> rfl

theorem sendReply_outcome {C : Cipher} {p q : Pd} {env : Env} {outs : List Out} {ok : Bool}
    (hp : p.flags.pdMode = true) (h : sendReply C p env = .ok (q, outs, ok)) : SendOutcome C p env q outs ok := by
  unfold sendReply at h
  dsimp only at h
  rw [packetInit_pd hp] at h
  by_cases hm : p.txBufSize < 69
  · rw [if_pos hm] at h
    injection h with h; injection h with h1 h2; injection h2 with h2 h3; subst h1 h2 h3
    exact .mute hm
  · rw [if_neg hm] at h
    obtain ⟨⟨p1, t1, o1, l⟩, h1, h⟩ := Res.bind_eq_ok.mp h
    obtain ⟨⟨p2, o2, ok2⟩, h2, h⟩ := Res.bind_eq_ok.mp h
    injection h with h; injection h with h3 h4; injection h4 with h4 h5; subst h3 h4 h5
    obtain ⟨b, hb, rfl, rfl, rfl, rfl⟩ := buildReply_inv h1
    obtain ⟨ho, hh⟩ := replyBody_outcome hb
    obtain ⟨hs, hc⟩ := Phy.sendPacket_inv (bodyOr_ne _ _ hh) h2
    refine .built b p2 o2 ok2 hb ho hh hs ?_ (Phy.sendPacket_buf h2)
    rcases hc with hc | ⟨wire, q', hmis, hd, hsc, hl, houts, hok⟩
    · exact .inl hc
    · refine .inr ⟨wire, q', hd, hsc, hl, ?_, hok⟩
      rw [houts]
      unfold sendOuts
      rw [ho.hasFlush]; rfl

end Osdp.PdM
