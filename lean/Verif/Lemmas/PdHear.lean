import Verif.Lemmas.PdSeq

/-! # The command a PD takes in -/

namespace Osdp.PdM

open Phy (checkPacket decodePacket Transp)

/-- The command a refresh takes in, decoded: id and the rest; none if there is none or it is refused because a PD with
`ENFORCE_SECURE` takes no such command outside a secure channel. -/
def commandOf (C : Cipher) (p : Pd) (env : Env) : Option (Byte × List Byte) :=
  match checkPacket (expire p env.now) env with
  | .ok (p1, .none) =>
    match decodePacket C p1 with
    | .ok (p2, d) =>
      if d.len ≤ 0 then none
      else match d.data[0]? with
        | some id => if plainRefused (noteCmd p2 id) then none else some (id, (d.data.take d.len.toNat).drop 1)
        | none => none
    | .error _ => none
  | _ => none

/-- one receive attempt: no command, or one that is dispatched -/
theorem Got.heard {C : Cipher} {p q : Pd} {env : Env} {outs : List Out} {ret : PdRet} (h : Got C (expire p env.now) env q outs ret) :
    (commandOf C p env = none ∧ outs = [] ∧ (q.peerRx = p.peerRx ∧ q.cap = p.cap)) ∨
    ∃ id body p2, commandOf C p env = some (id, body) ∧ Transp (expire p env.now) p2 ∧
      dispatch (noteCmd p2 id) env body = .ok (q, outs, ret) ∧ Outcome (noteCmd p2 id) env body q outs ret := by
  have hx : ∀ {x : Pd}, Transp (expire p env.now) x → x.peerRx = p.peerRx ∧ x.cap = p.cap := by
    intro x ht
    refine ⟨ht.peerRx.trans (expire_fields p env.now).1.peerRx, ht.cap.trans ?_⟩
    unfold expire; split <;> rfl
  cases h with
  | nothing h1 hc hr =>
    refine .inl ⟨?_, rfl, hx hc.transp⟩
    unfold commandOf; rw [h1]
    rcases hr with ⟨rfl, -⟩ | ⟨rfl, -⟩ | ⟨rfl, -⟩ | ⟨rfl, -⟩ <;> rfl
  | skip h1 hc => have := hx hc.transp; exact .inl ⟨by unfold commandOf; rw [h1], rfl, this.1, this.2⟩
  | seq h1 hc => exact .inl ⟨by unfold commandOf; rw [h1], rfl, hx hc.transp⟩
  | refused h1 hc h2 hd hl =>
    exact .inl ⟨by unfold commandOf; rw [h1]; dsimp only; rw [h2]; dsimp only; rw [if_pos hl], rfl, hx (hc.transp.trans hd.transp)⟩
  | @insecure p1 p2 d id h1 hc h2 hd hl hid hr =>
    refine .inl ⟨by unfold commandOf; rw [h1]; dsimp only; rw [h2]; dsimp only; rw [if_neg (by omega), hid]; dsimp only; rw [if_pos hr],
      rfl, ?_⟩
    have := hx (hc.transp.trans hd.transp)
    exact ⟨this.1, this.2⟩
  | @command p1 p2 _ d id body _ _ h1 hc h2 hd hl hid _ hb hr hdis ho =>
    refine .inr ⟨id, body, p2, ?_, hc.transp.trans hd.transp, hdis, ho⟩
    unfold commandOf; rw [h1]; dsimp only; rw [h2]; dsimp only; rw [if_neg (by omega), hid]; dsimp only
    rw [if_neg (by simp [hr]), hb]

end Osdp.PdM
