import Verif.Spec.Wire
import Verif.Lemmas.Transp
import Verif.Lemmas.Ite
import Verif.Props.C02

/-! # Sending -/

namespace Osdp.Phy

open Spec.Wire

/-- what sending changes: the MAC of this side and the packet buffer -/
def Sending (p q : Pd) : Prop :=
  q = { p with packetBuf := q.packetBuf, sc := { p.sc with cMac := q.sc.cMac, rMac := q.sc.rMac } }

theorem Sending.refl (p : Pd) : Sending p p := rfl

/-- the packet a header describes -/
def pktOf (t : Tx) (data : List Byte) : Packet := ⟨t.mark, t.addr, t.ctl, t.scb, data⟩

theorem byteOf_mod (k n : Nat) : byteOf k n = BitVec.ofNat 8 (n / 256 ^ k) := by
  unfold byteOf
  rw [Nat.shiftRight_eq_div_pow, Nat.pow_mul]

theorem header_core (t : Tx) (data : List Byte) :
    header t (5 + t.scb.length + data.length + 2) ++ t.scb ++ data = (pktOf t data).core := by
  unfold header Packet.core pktOf Packet.len
  simp only [byteOf_mod, Nat.pow_zero, Nat.div_one, Nat.pow_one, SOM]

theorem le16_crc (m : List Byte) : m ++ le16 (Crc.computeCrc16 m).toNat = Spec.Crc.frame m (Spec.Crc.crc m) := by
  unfold Spec.Crc.frame le16
  rw [Crc.C02_crc_is_polynomial_crc]
  simp only [byteOf_mod, Nat.pow_zero, Nat.div_one, Nat.pow_one]
  have h1 : BitVec.ofNat 8 (Spec.Crc.crc m).toNat = (Spec.Crc.crc m).setWidth 8 := by
    apply BitVec.eq_of_toNat_eq; simp
  have h2 : BitVec.ofNat 8 ((Spec.Crc.crc m).toNat / 256) = (Spec.Crc.crc m >>> 8).setWidth 8 := by
    apply BitVec.eq_of_toNat_eq; simp [Nat.shiftRight_eq_div_pow]
  rw [h1, h2]

theorem pktOf_bytes (t : Tx) (data : List Byte) :
    (if t.mark then [MARK] else []) ++ (pktOf t data).core ++
      le16 (Crc.computeCrc16 (pktOf t data).core).toNat = (pktOf t data).bytes := by
  rw [List.append_assoc, le16_crc]; rfl

theorem core_length (k : Packet) : k.core.length = 5 + k.scb.length + k.data.length := by
  simp [Packet.core]; omega

theorem frame_length (k : Packet) : k.frame.length = k.len := by
  simp [Packet.frame, Spec.Crc.frame, core_length, Packet.len]

theorem bytes_length (k : Packet) : k.bytes.length = (if k.mark then 1 else 0) + k.len := by
  unfold Packet.bytes; cases k.mark <;> simp [frame_length]; omega

/-- is the packet to be secured -/
def Secured (p : Pd) (t : Tx) : Prop :=
  p.scActive = true ∧ hasBit t.ctl CTL_SCB = true ∧ ∃ ty, t.scb[1]? = some ty ∧ 0x15#8 ≤ ty

/-- the wire data of a packet: id byte in the clear; secured: payload possibly encrypted, MAC last -/
structure DataOf (C : Cipher) (p : Pd) (t : Tx) (data wire : List Byte) (q : Pd) : Prop where
  plain : ¬ Secured p t → wire = data ∧ q = p
  id : wire.head? = data.head?
  secured : Secured p t → ∃ body sc,
    body = (if t.scbType = some 0x17#8 ∨ t.scbType = some 0x18#8
      then data.take 1 ++ Sc.encryptData C p.isCp p.sc (data.drop 1) else data) ∧
    wire = body ++ (if p.isCp then sc.cMac else sc.rMac).1.take 4 ∧
    Sc.computeMac C p.isCp p.sc ((pktOf t wire).core.take (5 + t.scb.length + body.length)) = .ok sc ∧
    q = setSc p sc

theorem secured_iff (p : Pd) (t : Tx) : t.secured p = true ↔ Secured p t := by
  unfold Tx.secured Secured Tx.scbType
  cases ht : t.scb[1]? with
  | none => simp
  | some ty => simp [and_assoc]

theorem encrypted_iff (t : Tx) : t.encrypted = true ↔ (t.scbType = some 0x17#8 ∨ t.scbType = some 0x18#8) := by
  unfold Tx.encrypted
  cases t.scbType with
  | none => simp
  | some ty => simp

theorem wrap_inv {t : Tx} {wire bs : List Byte} {m m0 : Nat} (h : wrap t (pktOf t wire).core m = some bs)
    (hm : m = m0 - (if t.mark then 1 else 0)) : bs = (pktOf t wire).bytes ∧ bs.length ≤ m0 := by
  unfold wrap at h
  split at h
  · cases h
  · rename_i hl
    injection h with h
    rw [← List.append_assoc, pktOf_bytes] at h
    refine ⟨h.symm, ?_⟩
    rw [← h, bytes_length, show (pktOf t wire).mark = t.mark from rfl]
    rw [core_length] at hl
    have e : (pktOf t wire).len = 5 + t.scb.length + wire.length + 2 := rfl
    have e' : 5 + (pktOf t wire).scb.length + (pktOf t wire).data.length = 5 + t.scb.length + wire.length := rfl
    rw [e]; rw [e'] at hl
    split at hm
    · rename_i hk; rw [if_pos hk]; omega
    · rename_i hk; rw [if_neg hk]; omega

theorem finalizeMac_inv {C : Cipher} {p q : Pd} {t : Tx} {body : List Byte} {m m0 : Nat} {r : Option (List Byte)}
    (hm : m = m0 - (if t.mark then 1 else 0)) (h : finalizeMac C p t body m = .ok (q, r)) :
    Sending p q ∧ (∀ bs, r = some bs → ∃ sc wire,
      wire = body ++ (if p.isCp then sc.cMac else sc.rMac).1.take 4 ∧
      Sc.computeMac C p.isCp p.sc ((pktOf t wire).core.take (5 + t.scb.length + body.length)) = .ok sc ∧
      q = setSc p sc ∧ bs = (pktOf t wire).bytes ∧ bs.length ≤ m0) := by
  unfold finalizeMac at h
  dsimp only at h
  split at h
  · injection h with h; injection h with h1 h2; subst h1 h2
    exact ⟨rfl, by simp⟩
  obtain ⟨sc, hsc, h⟩ := Res.bind_eq_ok.mp h
  have hml : ((if p.isCp = true then sc.cMac else sc.rMac).1.take 4).length = 4 := by
    rw [List.length_take, (if p.isCp = true then sc.cMac else sc.rMac).2]; rfl
  generalize hmac : (if p.isCp = true then sc.cMac else sc.rMac).1.take 4 = mac at h hml
  have hcore : header t (5 + t.scb.length + body.length + 6) ++ t.scb ++ body ++ mac = (pktOf t (body ++ mac)).core := by
    rw [← header_core]
    simp only [List.length_append, hml, List.append_assoc]
    congr 2
  rw [hcore] at h
  have hpre : (pktOf t (body ++ mac)).core.take (5 + t.scb.length + body.length) =
      header t (5 + t.scb.length + body.length + 6) ++ t.scb ++ body := by
    rw [← hcore]
    refine (List.take_append_of_le_length (by simp [header]; omega)).trans ?_
    exact List.take_of_length_le (by simp [header]; omega)
  have hsend : Sending p (setSc p sc) := by
    have := computeMac_only hsc
    show ({ p with sc := sc } : Pd) = { p with sc := { p.sc with cMac := sc.cMac, rMac := sc.rMac } }
    rw [← this]
  injection h with h; injection h with h1 h2; subst h1
  refine ⟨hsend, fun bs hbs => ⟨sc, body ++ mac, by rw [hmac], by rw [hpre]; exact hsc, rfl, ?_⟩⟩
  exact wrap_inv (h2.trans hbs) hm

theorem finalize_inv {C : Cipher} {p q : Pd} {t : Tx} {data : List Byte} {m : Nat} {r : Option (List Byte)}
    (hd : data ≠ []) (h : finalize C p t data m = .ok (q, r)) :
    Sending p q ∧ (∀ bs, r = some bs → t.misaligned = false ∧ ∃ wire, DataOf C p t data wire q ∧
      bs = (pktOf t wire).bytes ∧ bs.length ≤ m) := by
  unfold finalize at h
  dsimp only at h
  by_cases hm : t.misaligned = true
  · rw [if_pos hm] at h; injection h with h; injection h with h1 h2; subst h1 h2
    exact ⟨rfl, by simp⟩
  have hmf : t.misaligned = false := by simpa using hm
  rw [if_neg hm] at h
  by_cases hs : (if t.mark = true then 1 else 0) + 5 + t.scb.length + data.length ≤ 5
  · rw [if_pos hs] at h; injection h with h; injection h with h1 h2; subst h1 h2
    exact ⟨rfl, by simp⟩
  rw [if_neg hs] at h
  by_cases hsec : t.secured p = true
  · rw [if_pos hsec] at h
    have hs' := (secured_iff p t).mp hsec
    unfold finalizeSecured at h
    by_cases he : t.encrypted = true
    · rw [if_pos he] at h
      replace h := ite_inv h
      rcases h with ⟨-, h⟩ | ⟨-, h⟩
      · injection h with h; injection h with h1 h2; subst h1 h2
        exact ⟨rfl, by simp⟩
      replace h := ite_inv h
      rcases h with ⟨-, h⟩ | ⟨-, h⟩
      · cases h
      obtain ⟨h1, h2⟩ := finalizeMac_inv rfl h
      refine ⟨h1, fun bs hbs => ?_⟩
      obtain ⟨sc, wire, hw, hsc, hq, hb⟩ := h2 bs hbs
      refine ⟨hmf, wire, ⟨fun x => absurd hs' x, ?_, fun _ => ⟨_, sc, ?_, hw, hsc, hq⟩⟩, hb⟩
      · obtain ⟨x, l, rfl⟩ := List.exists_cons_of_ne_nil hd
        rw [hw]; simp
      · rw [if_pos ((encrypted_iff t).mp he)]
    · rw [if_neg he] at h
      obtain ⟨h1, h2⟩ := finalizeMac_inv rfl h
      refine ⟨h1, fun bs hbs => ?_⟩
      obtain ⟨sc, wire, hw, hsc, hq, hb⟩ := h2 bs hbs
      refine ⟨hmf, wire, ⟨fun x => absurd hs' x, ?_, fun _ => ⟨_, sc, ?_, hw, hsc, hq⟩⟩, hb⟩
      · obtain ⟨x, l, rfl⟩ := List.exists_cons_of_ne_nil hd
        rw [hw]; simp
      · rw [if_neg (fun x => he ((encrypted_iff t).mpr x))]
  · rw [if_neg hsec, header_core] at h
    injection h with h; injection h with h1 h2; subst h1
    refine ⟨rfl, fun bs hbs => ⟨hmf, data, ⟨fun _ => ⟨rfl, rfl⟩, rfl, fun x => absurd ((secured_iff p t).mpr x) hsec⟩, ?_⟩⟩
    exact wrap_inv (h2.trans hbs) rfl

theorem finalizeMac_buf {C : Cipher} {p q : Pd} {t : Tx} {body : List Byte} {m : Nat} {r : Option (List Byte)}
    (h : finalizeMac C p t body m = .ok (q, r)) : q.packetBuf = p.packetBuf := by
  unfold finalizeMac at h
  dsimp only at h
  split at h
  · injection h with h; injection h with h _; subst h; rfl
  · obtain ⟨sc, -, h⟩ := Res.bind_eq_ok.mp h
    injection h with h; injection h with h _; subst h; rfl

theorem finalize_buf {C : Cipher} {p q : Pd} {t : Tx} {data : List Byte} {m : Nat} {r : Option (List Byte)}
    (h : finalize C p t data m = .ok (q, r)) : q.packetBuf = p.packetBuf := by
  unfold finalize at h
  dsimp only at h
  replace h := ite_inv h
  rcases h with ⟨-, h⟩ | ⟨-, h⟩
  · injection h with h; injection h with h _; subst h; rfl
  replace h := ite_inv h
  rcases h with ⟨-, h⟩ | ⟨-, h⟩
  · injection h with h; injection h with h _; subst h; rfl
  replace h := ite_inv h
  rcases h with ⟨-, h⟩ | ⟨-, h⟩
  · unfold finalizeSecured at h
    replace h := ite_inv h
    rcases h with ⟨-, h⟩ | ⟨-, h⟩
    · dsimp only at h
      replace h := ite_inv h
      rcases h with ⟨-, h⟩ | ⟨-, h⟩
      · injection h with h; injection h with h _; subst h; rfl
      replace h := ite_inv h
      rcases h with ⟨-, h⟩ | ⟨-, h⟩
      · cases h
      · exact finalizeMac_buf h
    · exact finalizeMac_buf h
  · injection h with h; injection h with h _; subst h; rfl

theorem sendPacket_buf {C : Cipher} {p q : Pd} {env : Env} {t : Tx} {data : List Byte} {m : Nat}
    {outs : List Out} {ok : Bool} (h : sendPacket C p env t data m = .ok (q, outs, ok)) :
    q.packetBuf.length = p.packetBuf.length := by
  unfold sendPacket at h
  obtain ⟨⟨p1, r⟩, h1, h⟩ := Res.bind_eq_ok.mp h
  have e := finalize_buf h1
  cases r with
  | none => injection h with h; injection h with h _; subst h; rw [e]
  | some bs =>
    obtain ⟨buf, hb, h⟩ := Res.bind_eq_ok.mp h
    injection h with h; injection h with h _; subst h
    rw [← e]
    exact writeAt_length hb

theorem wrap_none {t : Tx} {body : List Byte} {m : Nat} (h : wrap t body m = none) : m < body.length + 2 := by
  unfold wrap at h
  split at h
  · omega
  · cases h

theorem finalizeMac_none {C : Cipher} {p q : Pd} {t : Tx} {body : List Byte} {m : Nat}
    (h : finalizeMac C p t body m = .ok (q, none)) : m < 5 + t.scb.length + body.length + 6 := by
  unfold finalizeMac at h
  dsimp only at h
  split at h
  · omega
  · obtain ⟨sc, -, h⟩ := Res.bind_eq_ok.mp h
    injection h with h; injection h with _ h
    have := wrap_none h
    simp [header] at this
    omega

/-- a packet is not sent for want of room only -/
theorem finalize_none {C : Cipher} {p q : Pd} {t : Tx} {data : List Byte} {m : Nat} (hd : data ≠ [])
    (h : finalize C p t data m = .ok (q, none)) :
    t.misaligned = true ∨ m < 28 + t.scb.length + data.length := by
  have hdl : 0 < data.length := List.length_pos_iff.mpr hd
  unfold finalize at h
  dsimp only at h
  replace h := ite_inv h
  rcases h with ⟨hm, h⟩ | ⟨-, h⟩
  · exact .inl hm
  right
  replace h := ite_inv h
  rcases h with ⟨hs, h⟩ | ⟨-, h⟩
  · omega
  have hmk : (if t.mark = true then 1 else 0) ≤ 1 := by split <;> omega
  generalize (if t.mark = true then 1 else 0) = mk at *
  replace h := ite_inv h
  rcases h with ⟨-, h⟩ | ⟨-, h⟩
  · unfold finalizeSecured at h
    replace h := ite_inv h
    rcases h with ⟨-, h⟩ | ⟨-, h⟩
    · dsimp only at h
      have := Sc.aesPadLen_lt ((data.drop 1).length + 1)
      rw [List.length_drop] at this
      replace h := ite_inv h
      rcases h with ⟨hn, h⟩ | ⟨-, h⟩
      · rw [List.length_drop] at hn
        omega
      replace h := ite_inv h
      rcases h with ⟨-, h⟩ | ⟨-, h⟩
      · cases h
      · have h' := finalizeMac_none h
        rw [List.length_append, Sc.encryptData_length, List.length_take, List.length_drop] at h'
        omega
    · have := finalizeMac_none h
      omega
  · injection h with h; injection h with _ h
    have := wrap_none h
    simp [header] at this
    omega

/-- the effects of handing bytes to the channel -/
def sendOuts (p : Pd) (env : Env) (bs : List Byte) : List Out :=
  (if p.hasFlush then [Out.flush] else []) ++ [Out.send (bs.take env.sendCap)]

theorem sendPacket_inv {C : Cipher} {p q : Pd} {env : Env} {t : Tx} {data : List Byte} {m : Nat}
    {outs : List Out} {ok : Bool} (hd : data ≠ []) (h : sendPacket C p env t data m = .ok (q, outs, ok)) :
    Sending p q ∧
    ((outs = [] ∧ ok = false ∧ (t.misaligned = true ∨ m < 28 + t.scb.length + data.length)) ∨
      ∃ wire q', t.misaligned = false ∧ DataOf C p t data wire q' ∧ q.sc = q'.sc ∧ (pktOf t wire).bytes.length ≤ m ∧
        outs = sendOuts p env (pktOf t wire).bytes ∧
        ok = decide ((pktOf t wire).bytes.length ≤ env.sendCap)) := by
  unfold sendPacket at h
  obtain ⟨⟨p1, r⟩, h1, h⟩ := Res.bind_eq_ok.mp h
  obtain ⟨hs, hr⟩ := finalize_inv hd h1
  cases r with
  | none =>
    injection h with h; injection h with h4 h2; injection h2 with h2 h3; subst h4 h2 h3
    exact ⟨hs, .inl ⟨rfl, rfl, finalize_none hd h1⟩⟩
  | some bs =>
    obtain ⟨hmis, wire, hdw, rfl, hl⟩ := hr bs rfl
    obtain ⟨buf, hb, h⟩ := Res.bind_eq_ok.mp h
    injection h with h; injection h with h1 h2; injection h2 with h2 h3; subst h1 h2 h3
    refine ⟨?_, .inr ⟨wire, p1, hmis, hdw, rfl, hl, ?_, rfl⟩⟩
    · unfold Sending at hs ⊢
      rw [hs]
    · unfold sendOuts
      rw [hs]

theorem Sending.buf {p q : Pd} (h : Sending p q) : q = { p with packetBuf := q.packetBuf, sc := q.sc } := by
  unfold Sending at h; rw [h]

end Osdp.Phy
