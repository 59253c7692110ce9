import Verif.Props.C21
import Verif.Props.C64
import Verif.Props.C70

/-!
# C76: a key on its way to a PD cannot be read off the line

A CP sends a key only in a session, enciphered; the base key of that session is the key it holds, or the default key while a PD is
commissioned. In the latter case, as everybody knows the default key, everybody who listens can read the new key.
-/

namespace Osdp.CpM

open Spec.Wire (sent)
open Spec.Session (encKey mac1Key mac2Key cryptogram decipher chunks defaultKey)
open Spec.Sealed (Sealed OnWire)

/-- what KEYSET carries: the kind of key, its length, the key -/
theorem keyset_body {C : Cipher} {p : Pd} {env : Env} {t : Phy.Tx} {room : Int} {b : Built} {id : Byte} {data : List Byte} (hid : p.cmdId = Id.KEYSET)
    (h : commandBody C p env t room = .ok b) (hb : b.body = some (id :: data)) :
    p.scActive = true ∧ id = b8 Id.KEYSET ∧ ∃ k, k.length = 16 ∧ data = 1#8 :: 16#8 :: k ∧ ∀ x, p.eph = .cmd (Link.installCmd x) → k = x.1 := by
  unfold commandBody at h
  dsimp only at h
  repeat rw [if_neg (by rw [hid]; decide)] at h
  rw [if_pos hid] at h
  split at h
  · injection h with h; subst h; cases hb
  · rename_i hact
    refine ⟨Decidable.not_not.mp hact, ?_⟩
    split at h
    · rename_i c he
      obtain ⟨_, -, h⟩ := Res.bind_eq_ok.mp h
      split at h
      · injection h with h; subst h; cases hb
      split at h
      · injection h with h; subst h
        injection hb with hb
        rw [hid] at hb
        injection hb with h1 h2
        refine ⟨h1.symm, _, by simp [c.data.2], h2.symm, fun x hx => ?_⟩
        rw [he] at hx
        injection hx with hx; injection hx with hx; subst hx
        exact Link.padTo_take x
      split at h
      · injection h with h; subst h
        injection hb with hb
        rw [hid] at hb
        injection hb with h1 h2
        refine ⟨h1.symm, _, (Sc.computeScbk C p.sc.pdClientUid _).2, h2.symm, fun x hx => ?_⟩
        rename_i hn _
        rw [he] at hx
        injection hx with hx; injection hx with hx; subst hx
        exact absurd rfl hn
      · injection h with h; subst h; cases hb
    · cases h

/-- the codes a CP sends are told apart by their byte -/
theorem code_of_byte {p : Pd} {env : Env} (I : Inv p) (hm : MaySend p env) (h : b8 p.cmdId = b8 Id.KEYSET) : p.cmdId = Id.KEYSET := by
  have hc := I.cmd (by rcases hm with h | ⟨h, -⟩ <;> simp [h])
  have : p.cmdId < 256 := by
    revert hc
    cases p.state <;> unfold CmdOf <;> intro hc
    case online =>
      have : ∀ n ∈ [Id.POLL, Id.LSTAT, Id.ISTAT, Id.OSTAT, Id.RSTAT, Id.OUT, Id.LED, Id.BUZ, Id.TEXT, Id.COMSET,
        Id.KEYSET, Id.MFG, Id.FILETRANSFER, Id.ABORT], n < 256 := by decide
      exact this _ hc
    case probe => exact hc.elim
    case offline => exact hc.elim
    all_goals (rw [hc]; decide)
  have h' := congrArg BitVec.toNat h
  unfold b8 at h'
  rw [BitVec.toNat_ofNat, Nat.mod_eq_of_lt this] at h'
  exact h'

/-- a CP without a session does not get a KEYSET out -/
theorem SendOutcome.keyless {C : Cipher} {p q : Pd} {env : Env} {outs : List Out} {ok : Bool} (h : SendOutcome C p env q outs ok)
    (hid : p.cmdId = Id.KEYSET) (hs : Spec.Wire.sent outs ≠ []) : p.scActive = true := by
  cases h with
  | mute _ => exact absurd rfl hs
  | unbuilt b _ _ ho _ => rw [Link.sent_fread ho.outs] at hs; exact absurd rfl hs
  | built b l _ outs _ hm hb ho hl hne hsend hw hbuf =>
    cases l with
    | nil => exact absurd rfl hne
    | cons id data => exact (keyset_body (p := nextCmd p) hid hb hl).1

theorem built_keyset {C : Cipher} {p : Pd} {env : Env} {data : List Byte} (I : Inv p) (hm : MaySend p env)
    (h : Link.commandBuilt C p env = some (b8 Id.KEYSET :: data)) : ∃ k, k.length = 16 ∧ data = 1#8 :: 16#8 :: k ∧
      ∀ x, p.eph = .cmd (Link.installCmd x) → k = x.1 := by
  unfold Link.commandBuilt at h
  cases hb : commandBody C (nextCmd p) env (cmdTx p) (p.txBufSize - (cmdTx p).dataOff) with
  | error e => rw [hb] at h; cases h
  | ok b =>
    rw [hb] at h
    have ho := commandBody_outcome hb
    have hid : p.cmdId = Id.KEYSET := by
      refine code_of_byte I hm ?_
      cases ho with
      | same body _ _ _ hl =>
        have := hl _ h
        injection this with this
        exact this.symm
      | unbuilt _ => cases h
      | file f outs r room _ _ =>
        injection h with h
        cases r with
        | none => injection h with h _; exact absurd h (by decide)
        | some bs => injection h
      | chlng _ _ _ => injection h with h; injection h
      | scrypt _ _ _ _ _ => injection h with h; injection h
    exact (keyset_body (p := nextCmd p) hid hb h).2.2

/-- **C76** (partial: the session may be one of the default key, see `C76_overheard`.)  Whatever a CP sends, in any history: outside a session it is no
KEYSET; in a session it is sealed, its data enciphered with a key of the session, which was opened by a proof of the key the CP holds or, while a PD
is commissioned, of the default key. -/
theorem C76_partial (C : Cipher) (info : PdM.Info) (i n : Nat) (sk : Bool) (p0 p q : Pd) (ops : List Op) (o : List Out)
    (h0 : newPd info i sk n = some p0) (h : run C p0 ops = .ok (p, o)) (cb : Bool) (env : Env) (outs : List Out) (bs : List Byte)
    (hu : step C p (.update cb env) = .ok (q, outs)) (hs : bs ∈ sent outs) :
    (p.scActive = false ∧ ∃ k : Spec.Wire.Packet, bs = k.bytes.take env.sendCap ∧ k.id ≠ some 0x75#8) ∨
    (p.scActive = true ∧ ∃ f msg id data base, OnWire bs f env.sendCap ∧
      Sealed C p.sc.sEnc p.sc.sMac1 p.sc.sMac2 p.sc.rMac 0x15#8 0x17#8 f msg id data ∧
      (id = 0x75#8 → ∃ key, key.length = 16 ∧ data = 1#8 :: 16#8 :: key) ∧
      (base = p.sc.scbk ∨ p.state = .setScbk ∧ base = defaultKey) ∧ Proven C base p.sc (Hail.none.over C p0 ops)) := by
  have hr : Reached C info p := ⟨i, sk, n, p0, ops, o, h0, h⟩
  have I := hr.inv
  obtain ⟨-, S⟩ := sess_run (newPd_inv h0).1 (newPd_sess h0) h
  obtain ⟨⟨s1, o3, y⟩, hu', h3⟩ := Res.bind_eq_ok.mp hu
  injection h3 with h3; injection h3 with e1 e2; subst e1 e2
  have U := stateUpdate_inv I.cp hu'
  have hm : MaySend p env := by
    rcases U.packet I with h | ⟨hm, -⟩
    · rw [h] at hs; cases hs
    · exact hm
  cases hact : p.scActive with
  | true =>
    right
    obtain ⟨f, msg, id, data, w1, w2, w3, -⟩ := C64_cp hr hact hu hs
    obtain ⟨k, hk, hp⟩ := S.active hact
    refine ⟨rfl, f, msg, id, data, k, w1, w3, fun hid => ?_, hk.imp (fun h => h) fun h => ⟨h.1, h.2.trans Link.default_spec⟩, hp⟩
    rw [hid] at w2
    obtain ⟨key, h1, h2, -⟩ := built_keyset I hm w2
    exact ⟨key, h1, h2⟩
  | false =>
    left
    clear hu
    have hne : p.cmdId ≠ Id.KEYSET := by
      intro hid
      have : p.scActive = true := by
        cases U with
        | hold _ _ => cases hs
        | sent _ ho => exact ho.keyless hid (List.ne_nil_of_mem hs)
        | unsent _ ho hset =>
          rw [sent_append, settle_sent hset, List.append_nil] at hs
          exact ho.keyless hid (List.ne_nil_of_mem hs)
        | replied _ hw _ hset => rw [sent_append, settle_sent hset, fclose_sent hw.outs] at hs; cases hs
        | again _ hw => rw [fclose_sent hw.outs] at hs; cases hs
        | waiting _ hw => rw [fclose_sent hw.outs] at hs; cases hs
        | idle _ hset => rw [settle_sent hset] at hs; cases hs
      rw [hact] at this; cases this
    rcases U.packet I with h | ⟨-, k, hk, hse, -⟩
    · rw [h] at hs; cases hs
    · rw [hse] at hs
      refine ⟨rfl, k, List.mem_singleton.mp hs, fun he => ?_⟩
      rcases hk.id with h | ⟨-, h⟩
      · rw [h] at he; injection he with he
        exact hne (code_of_byte I hm he)
      · rw [h] at he; injection he with he; revert he; decide

end Osdp.CpM

namespace Osdp.Link

open Spec.Wire (sent)
open Spec.Session (encKey mac1Key mac2Key cryptogram decipher chunks defaultKey)
open Spec.Sealed (Sealed OnWire)
open Phy (Idle Arrives sendOuts)

/-! ### a listener -/

/-- What a listener makes of a packet, knowing nothing but the default key and the two random numbers `ra` and `rb`, which CHLNG and CCRYPT carry in the
clear: 16 bytes, from the third on, of what is behind the command code, deciphered as in a session of the default key in which nothing was said yet. -/
def keyRead (C : Cipher) (ra rb : Half) (bs : List Byte) : List Byte :=
  let enc := encKey C defaultKey ra
  let m := C.enc (mac2Key C defaultKey ra) (C.enc (mac1Key C defaultKey ra) (cryptogram C enc rb ra))
  let f := if bs.head? = some 0xFF#8 then bs.tail else bs
  let sb := ((f.drop 5).headD 0#8).toNat
  ((decipher C enc m.compl (chunks ((f.drop (6 + sb)).take 32))).drop 2).take 16

theorem keyRead_sealed {C : Cipher} {ra rb : Half} {key k1 k2 m : Block} {bare full id : Byte} {bs f msg k : List Byte} {cap : Nat} (hk : key = encKey C defaultKey ra)
    (hm : m = C.enc (mac2Key C defaultKey ra) (C.enc (mac1Key C defaultKey ra) (cryptogram C (encKey C defaultKey ra) rb ra)))
    (h : Sealed C key k1 k2 m bare full f msg id (1#8 :: 16#8 :: k)) (hl : k.length = 16) (hw : OnWire bs f cap) (hc : 257 ≤ cap) :
    keyRead C ra rb bs = k := by
  obtain ⟨tag, ctl, pl, S, -, hp⟩ := h.frame
  rw [if_neg (by simp)] at hp
  obtain ⟨⟨-, z, ho⟩, hpl⟩ := hp
  have hpl : pl.length = 32 := by rw [hpl]; simp [hl]
  obtain ⟨a, lo, hi, sb, x, chk, e1, e2, e3, -⟩ := S.shape
  generalize (if 1#8 :: 16#8 :: k = [] then bare else full) = ty at e1
  have hf : (if bs.head? = some 0xFF#8 then bs.tail else bs) = f := by
    have := S.fits
    rcases hw with hw | hw
    · rw [List.take_of_length_le (by omega)] at hw
      rw [hw, if_neg (by rw [e2, e1]; simp)]
    · rw [List.take_of_length_le (by simp; omega)] at hw
      rw [hw]; rfl
  unfold keyRead
  dsimp only
  rw [hf, ← hm, ← hk]
  have hsb : (f.drop 5).headD 0#8 = sb := by rw [e2, e1]; rfl
  have hd : f.drop (6 + sb.toNat) = pl ++ (tag ++ chk) := by
    rw [e2, e1, show (0x53#8 :: a :: lo :: hi :: ctl :: sb :: ty :: x ++ id :: pl) ++ (tag ++ chk) =
      ([0x53#8, a, lo, hi, ctl, sb, ty] ++ x ++ [id]) ++ (pl ++ (tag ++ chk)) by simp]
    rw [List.drop_left' (by simp; omega)]
  rw [hsb, hd, List.take_left' hpl, ho]
  show (k ++ _).take 16 = k
  exact List.take_left' hl

/-- **C76**, what is missing: for every cipher, whenever a PD is commissioned with the default key, whoever listens to the packets of the two ends reads the
CP's own key from them. -/
theorem C76_overheard (C : Cipher) (cb : Bool) (cp pd : Pd) (R : Challenging cp pd) (hd : cp.flags.useScbkd = true) :
    Handshakes C cb cp pd fun cp1 _ rb => Quiet C cb cp1 fun cp2 =>
      ∀ e : Env, 257 ≤ e.sendCap → ∃ cp3 o bs, CpM.step C cp2 (.update cb e) = .ok (cp3, o) ∧ sent o = [bs] ∧
        keyRead C cp.sc.cpRandom rb bs = cp.sc.scbk.1 := by
  have P := R.pair
  refine (handshake_ends C cb cp pd R).mono ?_
  rintro cp1 pd1 rb ⟨AG, -, -, O⟩
  rw [show cpBase cp = defaultKey by unfold cpBase; rw [hd]; rfl] at AG
  have st1 : cp1.state = .setScbk := by rw [O.state]; unfold afterScrypt; rw [hd]; rfl
  intro e4
  have hc := cp_chooses C cb cp1 e4 Id.KEYSET O.phy (by unfold CpM.stateGetCmd; rw [st1]) (by decide)
  refine ⟨_, hc, ?_⟩
  have I2 := O.inv.step hc
  generalize hx : ({ cp1 with cmdId := Id.KEYSET, phyState := .sendCmd } : Pd) = cp2 at hc I2
  have f : cp2.flags = cp1.flags ∧ cp2.sc = cp1.sc ∧ cp2.state = .setScbk ∧ cp2.phyState = .sendCmd ∧ cp2.cmdId = Id.KEYSET ∧ cp2.eph = cp1.eph ∧
      cp2.address = cp1.address ∧ cp2.seq = cp1.seq ∧ cp2.peerRx = cp1.peerRx ∧ Idle cp2 := by
    rw [← hx]
    exact ⟨rfl, rfl, st1, rfl, rfl, rfl, rfl, rfl, rfl, ⟨O.cpIdle.bufLen, O.cpIdle.len, O.cpIdle.buf, O.cpIdle.rx⟩⟩
  obtain ⟨f1, f2, f3, f4, f5, f6, f7, f8, f9, f12⟩ := f
  have act2 : cp2.scActive = true := by show cp2.flags.scActive = _; rw [f1]; exact AG.cpActive
  have sq : 0 ≤ cp2.seq ∧ cp2.seq ≤ 3 := by
    exact ⟨by rw [f8]; exact O.seqOk, I2.hi⟩
  have E : Ends cp2 pd1 := by
    refine ⟨by rw [f1, O.flags]; exact P.cpMode, by rw [O.pdFlags]; exact P.pdMode, f7.trans O.address, by rw [O.pdAddress]; exact P.range, ?_, fun _ => ?_, fun _ => ?_⟩
    · rw [act2]; exact AG.pdActive
    · rw [f2]
      exact ⟨AG.enc.1.trans AG.enc.2.symm, AG.mac1.1.trans AG.mac1.2.symm, AG.mac2.1.trans AG.mac2.2.symm, AG.rmac.1⟩
    · have := P.capable
      unfold Pd.scCapable at *
      rw [O.pdFlags]; exact this
  have tx2 : 69 ≤ cp2.txBufSize := by
    have := P.cpTx
    unfold Pd.txBufSize at *
    rw [f9, O.peerRx]; exact this
  have hl := installPkt_length C cp2 cp.sc.scbk
  have hsq : cp2.seq = pd1.seq := f8.trans O.seq
  have he2 : cp2.eph = .cmd (installCmd cp.sc.scbk) := by rw [f6]; exact O.eph hd
  intro e1 c1
  obtain ⟨buf, hs1, hbl⟩ := cp_installs C cp2 pd1 cb e1 cp.sc.scbk E act2 f12 O.pdIdle f4 f5 he2 tx2
    (by rw [f1]; exact O.mark) hsq sq (by omega)
  have hse := (PdM.sendOuts_sent cp2 e1 (cpPkt C cp2 (installBody cp.sc.scbk)).bytes (by omega)).1
  refine ⟨_, _, _, hs1, hse, ?_⟩
  obtain ⟨f, msg, id, data, w1, w2, w3, -⟩ := CpM.session_sealed I2 act2 hs1 (by rw [hse]; exact List.mem_singleton.mpr rfl)
  have hm : CpM.MaySend cp2 e1 := .inl f4
  unfold commandBuilt at w2
  cases hb : CpM.commandBody C (CpM.nextCmd cp2) e1 (CpM.cmdTx cp2) (cp2.txBufSize - (CpM.cmdTx cp2).dataOff) with
  | error e => rw [hb] at w2; cases w2
  | ok b =>
    rw [hb] at w2
    obtain ⟨-, -, k, k1, k2, k3⟩ := CpM.keyset_body (p := CpM.nextCmd cp2) f5 hb w2
    have k3 := k3 _ he2
    rw [k2, k3] at w3
    exact keyRead_sealed (by rw [f2]; exact AG.enc.1) (by rw [f2]; exact AG.rmac.1.trans AG.rmac.2) w3 cp.sc.scbk.2 w1 c1

/-- the 8 bytes from the `n`th on of the `i`th packet -/
def eight (pkts : List (List Byte)) (i n : Nat) : Half := .padTo 8 (((pkts[i]?).getD []).drop n)

/-- What goes over the line while the PD of C70 is commissioned: a listener takes the two random numbers from the fourth packets and has the key
from the sixth of the CP. -/
example :
    (let a := sent (newcomers 17).cpOuts; let b := sent (newcomers 17).pdOuts
     keyRead xorCipher (eight a 3 10) (eight b 3 18) ((a[5]?).getD []) = Sample.key.1) ∧ (newcomers 17).bad = false := by decide +kernel

/-- a CP of which `C76_overheard` speaks -/
example : (newcomers 10).cp.flags.useScbkd = true ∧ (newcomers 10).cp.sc.scbk = Sample.key ∧ (newcomers 10).cp.state = .scChlng ∧
    (newcomers 10).cp.phyState = .sendCmd := by decide +kernel

end Osdp.Link

namespace Osdp.CpM

open Spec.Wire (sent)

/-- in a session of its own key, the application changes the key -/
def rekeying : Sample.Talk :=
  (((Sample.talk.turns xorCipher 20 20).cpDoes xorCipher (.send { now := 400 } (.keyset ⟨1#8, 16#8, .fill 32 0x5A#8⟩))).turns xorCipher 20 4)

/-- Both cases of `C76_partial` occur: the sample CP sends in the clear until it has a session; then KEYSET goes out sealed, in which the new key is
not seen. -/
example : rekeying.bad = false ∧ rekeying.cp.sc.scbk = Sample.key ∧
    (let bs := (sent rekeying.cpOuts).getLast?.getD []
     (bs.drop 7).take 2 = [0x17#8, 0x75#8] ∧ bs.length = 47 ∧ (∀ b ∈ (bs.drop 11).take 16, b ≠ 0x5A#8)) ∧
    sent (Sample.talk.turns xorCipher 20 2).cpOuts ≠ [] ∧ (Sample.talk.turns xorCipher 20 2).cp.scActive = false := by decide +kernel

end Osdp.CpM
