import Verif.Lemmas.CpOut

/-! # What the CP learns from replies -/

namespace Osdp

/-- The packet taken in by one receive attempt, decoded: its id byte and the rest. -/
def Phy.heard (C : Cipher) (p : Pd) (env : Env) : Option (Byte × List Byte) :=
  match Phy.checkPacket p env with
  | .ok (p1, .none) =>
    match Phy.decodePacket C p1 with
    | .ok (_, d) => if d.len ≤ 0 then none else d.data[0]?.map fun id => (id, (d.data.take d.len.toNat).drop 1)
    | .error _ => none
  | _ => none

theorem Phy.heard_of {C : Cipher} {p p1 p2 : Pd} {env : Env} {d : Phy.Decoded} {id : Byte}
    (h1 : Phy.checkPacket p env = .ok (p1, .none)) (h2 : Phy.decodePacket C p1 = .ok (p2, d)) (hl : 0 < d.len)
    (hid : d.data[0]? = some id) : Phy.heard C p env = some (id, (d.data.take d.len.toNat).drop 1) := by
  unfold Phy.heard
  rw [h1]; dsimp only; rw [h2]; dsimp only
  rw [if_neg (by omega), hid]; rfl

namespace CpM

open Phy (heard)

/-- the reply the CP takes in during a visit, decoded -/
def replyOf (C : Cipher) (p : Pd) (env : Env) : Option (Byte × List Byte) :=
  if p.phyState = .replyWait then heard C p env else none

/-- the same knowledge about the PD -/
structure SameInfo (p q : Pd) : Prop where
  id : q.id = p.id
  cap : q.cap = p.cap
  peerRx : q.peerRx = p.peerRx
  address : q.address = p.address
  baudRate : q.baudRate = p.baudRate
  scCapable : q.flags.scCapable = p.flags.scCapable

theorem SameInfo.refl (p : Pd) : SameInfo p p := ⟨rfl, rfl, rfl, rfl, rfl, rfl⟩

theorem SameInfo.trans {p q s : Pd} (h : SameInfo p q) (h' : SameInfo q s) : SameInfo p s :=
  ⟨h'.id.trans h.id, h'.cap.trans h.cap, h'.peerRx.trans h.peerRx, h'.address.trans h.address,
    h'.baudRate.trans h.baudRate, h'.scCapable.trans h.scCapable⟩

theorem Drift.info {p q : Pd} (h : Drift p q) : SameInfo p q := by
  obtain ⟨a, b, c, d, e, -⟩ := h.keeps
  exact ⟨c, d, e, a, b, by rw [h.flags]⟩

theorem Sent.info {p q : Pd} (h : Sent p q) : SameInfo p q := by
  unfold Sent at h
  rw [h]; exact ⟨rfl, rfl, rfl, rfl, rfl, rfl⟩

theorem transp_info {p q : Pd} (h : Phy.Transp p q) : SameInfo p q := by
  unfold Phy.Transp Phy.upd Phy.chgOf at h
  rw [h]; exact ⟨rfl, rfl, rfl, rfl, rfl, rfl⟩

/-- a reply is decoded and has its effect, or nothing is learned -/
theorem Reply.learned {C : Cipher} {p q : Pd} {env : Env} {outs : List Out} {rc : CpErr} (h : Reply C p env q outs rc) :
    (SameInfo p q ∧ outs = [] ∧ Phy.heard C p env = none) ∨ ∃ id body p2, Phy.heard C p env = some (id, body) ∧ Phy.Transp p p2 ∧
      response C { p2 with replyId := id.toNat } env body = .ok (q, outs, rc) ∧
      Effect C { p2 with replyId := id.toNat } env body q outs rc := by
  cases h with
  | nothing h hc hr =>
    refine .inl ⟨transp_info hc.transp, rfl, ?_⟩
    unfold Phy.heard; rw [h]
    rcases hr with rfl | rfl <;> rfl
  | bad h hc hr =>
    refine .inl ⟨transp_info hc.transp, rfl, ?_⟩
    unfold Phy.heard; rw [h]
    rcases hr with rfl | rfl | rfl <;> rfl
  | busy h hc => refine .inl ⟨transp_info hc.transp, rfl, ?_⟩; unfold Phy.heard; rw [h]
  | seq h hc => refine .inl ⟨transp_info hc.transp, rfl, ?_⟩; unfold Phy.heard; rw [h]
  | refused h1 hc h2 hd hl =>
    refine .inl ⟨transp_info (hc.transp.trans hd.transp), rfl, ?_⟩
    unfold Phy.heard; rw [h1]; dsimp only; rw [h2]; dsimp only; rw [if_pos hl]
  | @reply p1 p2 _ d id body _ _ h1 hc h2 hd hl hid _ hb hr he =>
    refine .inr ⟨id, body, p2, ?_, hc.transp.trans hd.transp, hr, he⟩
    rw [hb]
    exact Phy.heard_of h1 h2 hl hid

theorem Waited.reply {C : Cipher} {p q : Pd} {env : Env} {outs : List Out} {rc : CpErr} (h : Waited C p env q outs rc) :
    ∃ q' rc', Reply C p env q' outs rc' ∧ SameInfo q' q ∧ q.eph = q'.eph ∧ q.reqEventSend = q'.reqEventSend ∧
      q.replyId = q'.replyId ∧ q.flags = q'.flags ∧ q.sc = q'.sc := by
  cases h with
  | answered h => exact ⟨_, _, h, ⟨rfl, rfl, rfl, rfl, rfl, rfl⟩, rfl, rfl, rfl, rfl, rfl⟩
  | ignored h _ _ => exact ⟨_, _, h, ⟨rfl, rfl, rfl, rfl, rfl, rfl⟩, rfl, rfl, rfl, rfl, rfl⟩
  | failed h _ => exact ⟨_, _, h, ⟨rfl, rfl, rfl, rfl, rfl, rfl⟩, rfl, rfl, rfl, rfl, rfl⟩
  | busy h => exact ⟨_, _, h, ⟨rfl, rfl, rfl, rfl, rfl, rfl⟩, rfl, rfl, rfl, rfl, rfl⟩
  | retry h _ _ => exact ⟨_, _, h, ⟨rfl, rfl, rfl, rfl, rfl, rfl⟩, rfl, rfl, rfl, rfl, rfl⟩
  | exhausted h _ _ => exact ⟨_, _, h, ⟨rfl, rfl, rfl, rfl, rfl, rfl⟩, rfl, rfl, rfl, rfl, rfl⟩
  | waiting h _ => exact ⟨_, _, h, ⟨rfl, rfl, rfl, rfl, rfl, rfl⟩, rfl, rfl, rfl, rfl, rfl⟩

/-- what one visit learns -/
theorem Update.learned {C : Cipher} {cb : Bool} {p q : Pd} {env : Env} {outs : List Out} {y : Bool} (h : Update C cb p env q outs y) :
    (SameInfo p q ∧ replyOf C p env = none) ∨ ∃ id body p2 p3 o rc, replyOf C p env = some (id, body) ∧ p.phyState = .replyWait ∧
      Phy.Transp p p2 ∧ response C { p2 with replyId := id.toNat } env body = .ok (p3, o, rc) ∧
      Effect C { p2 with replyId := id.toNat } env body p3 o rc ∧ SameInfo p3 q := by
  have wait : ∀ {q1 q : Pd} {o : List Out} {rc : CpErr}, p.phyState = .replyWait → Waited C p env q1 o rc → SameInfo q1 q →
      (SameInfo p q ∧ replyOf C p env = none) ∨ ∃ id body p2 p3 o rc, replyOf C p env = some (id, body) ∧ p.phyState = .replyWait ∧
      Phy.Transp p p2 ∧ response C { p2 with replyId := id.toNat } env body = .ok (p3, o, rc) ∧
      Effect C { p2 with replyId := id.toNat } env body p3 o rc ∧ SameInfo p3 q := by
    intro q1 q o rc hps hw hi
    obtain ⟨q', rc', hr, hi', -⟩ := hw.reply
    unfold replyOf
    rw [if_pos hps]
    rcases hr.learned with ⟨a, -, b⟩ | ⟨id, body, p2, a, b, c, d⟩
    · exact .inl ⟨a.trans (hi'.trans hi), b⟩
    · exact .inr ⟨id, body, p2, q', _, _, a, hps, b, c, d, hi'.trans hi⟩
  have none' : ∀ {q : Pd}, p.phyState ≠ .replyWait → SameInfo p q → SameInfo p q ∧ replyOf C p env = none := by
    intro q hps hi
    unfold replyOf
    rw [if_neg hps]
    exact ⟨hi, rfl⟩
  have may : MaySend p env → p.phyState ≠ .replyWait := by
    intro hm; rcases hm with h | ⟨h, -⟩ <;> simp [h]
  cases h with
  | hold h _ => exact .inl (none' (by simp [h]) (.refl p))
  | sent hm h => exact .inl (none' (may hm) (h.sent.info.trans ⟨rfl, rfl, rfl, rfl, rfl, rfl⟩))
  | unsent hm h1 h2 =>
    have hd := (settle_drift h2).info
    exact .inl (none' (may hm) (h1.sent.info.trans ⟨hd.id, hd.cap, hd.peerRx, hd.address, hd.baudRate, hd.scCapable⟩))
  | replied hps h1 _ h2 => exact wait hps h1 (settle_drift h2).info
  | again hps h => exact wait hps h (.refl q)
  | waiting hps h => exact wait hps h (.refl q)
  | idle hps h => exact .inl (none' (by rcases hps with h | h | h <;> simp [h]) (settle_drift h).info)

/-! ### API calls -/

/-- what an API call other than a visit can change -/
def Api (p q : Pd) : Prop :=
  q = { p with cmdQueue := q.cmdQueue, file := q.file, flags := { p.flags with
    enforceSecure := q.flags.enforceSecure, installMode := q.flags.installMode, ignUnsolicited := q.flags.ignUnsolicited,
    chnShared := q.flags.chnShared } }

theorem step_apiOnly {C : Cipher} {p q : Pd} {op : Op} {outs : List Out} (h : step C p op = .ok (q, outs))
    (hop : ∀ cb env, op ≠ .update cb env) : Api p q := by
  cases op with
  | update cb env => exact absurd rfl (hop cb env)
  | send env c =>
    injection h with h; injection h with e1 e2; subst e1 e2
    unfold Api; rw [sendPd_keeps]
  | flag f b =>
    injection h with h; injection h with e1 e2; subst e1 e2
    unfold Api; rw [modifyPd_flags]
  | flush => injection h with h; injection h with e1 e2; subst e1 e2; rfl
  | fileOps => injection h with h; injection h with e1 e2; subst e1 e2; rfl
  | share => injection h with h; injection h with e1 e2; subst e1 e2; rfl

theorem Api.info {p q : Pd} (h : Api p q) : SameInfo p q := by
  unfold Api at h
  rw [h]; exact ⟨rfl, rfl, rfl, rfl, rfl, rfl⟩

end CpM
end Osdp
