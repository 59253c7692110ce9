import Verif.Lemmas.Stream
import Verif.Lemmas.PdConst

/-! # The PD between refreshes: what it holds of the line, and what it has answered -/

namespace Osdp.Phy

theorem writeAt_keeps {buf buf' bs : List Byte} {i k : Nat} (h : writeAt buf i bs = .ok buf') (hk : k ≤ i) :
    buf'.take k = buf.take k := by
  unfold writeAt at h
  split at h
  · rename_i hl
    injection h with h; subst h
    rw [List.append_assoc, List.take_append_of_le_length (by simp; omega), List.take_take]
    congr 1; omega
  · cases h

/-- decoding leaves the header alone -/
theorem decodePacket_take5 {C : Cipher} {p q : Pd} {d : Decoded} (h : decodePacket C p = .ok (q, d)) :
    q.packetBuf.take 5 = p.packetBuf.take 5 := by
  unfold decodePacket at h
  obtain ⟨ctl, -, h⟩ := Res.bind_eq_ok.mp h
  dsimp only at h
  replace h := ite_inv h
  rcases h with ⟨-, h⟩ | ⟨-, h⟩
  · unfold decodeScb at h
    dsimp only at h
    replace h := ite_inv h
    rcases h with ⟨-, h⟩ | ⟨-, h⟩
    · injection h with h; injection h with h _; subst h; rfl
    obtain ⟨ty, -, h⟩ := Res.bind_eq_ok.mp h
    replace h := ite_inv h
    rcases h with ⟨-, h⟩ | ⟨-, h⟩
    · injection h with h; injection h with h _; subst h; rfl
    replace h := ite_inv h
    rcases h with ⟨-, h⟩ | ⟨-, h⟩
    · injection h with h; injection h with h _; subst h; rfl
    obtain ⟨d2, -, h⟩ := Res.bind_eq_ok.mp h
    obtain ⟨sb, -, h⟩ := Res.bind_eq_ok.mp h
    have en : (noteScbkd p ty d2).packetBuf = p.packetBuf := by unfold noteScbkd; split <;> rfl
    generalize noteScbkd p ty d2 = p1 at h en
    rw [← en]
    replace h := ite_inv h
    rcases h with ⟨-, h⟩ | ⟨-, h⟩
    · unfold decodeSecured at h
      dsimp only at h
      replace h := ite_inv h
      rcases h with ⟨-, h⟩ | ⟨-, h⟩
      · cases h
      obtain ⟨sc, -, h⟩ := Res.bind_eq_ok.mp h
      replace h := ite_inv h
      rcases h with ⟨-, h⟩ | ⟨-, h⟩
      · injection h with h; injection h with h _; subst h; rfl
      replace h := ite_inv h
      rcases h with ⟨-, h⟩ | ⟨-, h⟩
      · unfold decodeCipher at h
        dsimp only at h
        obtain ⟨r, -, h⟩ := Res.bind_eq_ok.mp h
        cases r with
        | none => injection h with h; injection h with h _; subst h; rfl
        | some plain =>
          obtain ⟨buf, hb, h⟩ := Res.bind_eq_ok.mp h
          injection h with h; injection h with h _; subst h
          exact writeAt_keeps hb (by omega)
      · injection h with h; injection h with h _; subst h; rfl
    · injection h with h; injection h with h _; subst h; rfl
  · unfold decodePlain at h
    dsimp only at h
    obtain ⟨d0, -, h⟩ := Res.bind_eq_ok.mp h
    replace h := ite_inv h
    rcases h with ⟨-, h⟩ | ⟨-, h⟩
    · injection h with h; injection h with h _; subst h; rfl
    · injection h with h; injection h with h _; subst h; rfl

end Osdp.Phy

namespace Osdp.PdM

open Spec.Wire
open Phy (setNak checkPacket decodePacket stateReset Decoded Transp Collected Checked DecodedTo pend got Framed Stored
  heldFrame held headerFields)

/-- what the receiver holds is not affected -/
structure Kept (p q : Pd) : Prop where
  buf : q.packetBuf = p.packetBuf
  bufLen : q.packetBufLen = p.packetBufLen
  len : q.packetLen = p.packetLen
  rx : q.rx = p.rx
  mark : q.flags.hasMark = p.flags.hasMark
  pdMode : q.flags.pdMode = p.flags.pdMode

theorem kept_quiet {p q : Pd} (h : Quiet p q) : Kept p q := by
  obtain ⟨_, _, rfl⟩ := h; exact ⟨rfl, rfl, rfl, rfl, rfl, rfl⟩

theorem kept_outcome {p q : Pd} {env : Env} {body : List Byte} {outs : List Out} {ret : PdRet}
    (h : Outcome p env body q outs ret) : Kept p q := by
  cases h with
  | plain hpl _ => exact kept_quiet hpl.quiet
  | poll _ _ => unfold pollEvent; split <;> exact ⟨rfl, rfl, rfl, rfl, rfl, rfl⟩
  | file _ _ => split <;> exact ⟨rfl, rfl, rfl, rfl, rfl, rfl⟩
  | _ => exact ⟨rfl, rfl, rfl, rfl, rfl, rfl⟩

theorem Kept.framed {p q : Pd} (h : Kept p q) (hf : Framed p) : Framed q := by
  refine ⟨by rw [h.buf]; exact hf.buf, by rw [h.len, h.bufLen]; exact hf.start, ?_⟩
  rw [h.len, h.bufLen, Phy.headerFields_take (p := p) (q := q) h.mark (by unfold Pd.isCp; rw [h.pdMode])
    (by unfold Pd.isPd; rw [h.pdMode]) (by rw [h.buf])]
  exact hf.rest

theorem noteCmd_framed {p : Pd} {id : Byte} (hf : Framed p) : Framed (noteCmd p id) :=
  Kept.framed (p := p) ⟨rfl, rfl, rfl, rfl, rfl, rfl⟩ hf

theorem decoded_framed {C : Cipher} {p q : Pd} {d : Decoded} (h : decodePacket C p = .ok (q, d))
    (hf : Framed p) : Framed q := by
  have hd := Phy.decodePacket_to h
  refine ⟨by rw [hd.bufLen]; exact hf.buf, by rw [hd.packetLen, hd.packetBufLen]; exact hf.start, ?_⟩
  rw [hd.packetLen, hd.packetBufLen, Phy.headerFields_take (p := p) (q := q) hd.hasMark
    (by unfold Pd.isCp; rw [hd.transp.pdMode]) (by unfold Pd.isPd; rw [hd.transp.pdMode]) (Phy.decodePacket_take5 h)]
  exact hf.rest

/-- the receiver is empty except for the FIFO -/
structure Cleared (p q : Pd) : Prop where
  bufLen : q.packetBufLen = 0
  len : q.packetLen = 0
  rx : q.rx = p.rx
  buf : q.packetBuf.length = p.packetBuf.length

theorem Cleared.pend {p q : Pd} (h : Cleared p q) : pend q = p.rx := by
  unfold Phy.pend got; rw [h.bufLen, h.rx]; rfl

theorem Cleared.framed {p q : Pd} (h : Cleared p q) (hb : p.packetBuf.length = 256) : Framed q :=
  ⟨h.buf.trans hb, fun _ => by rw [h.bufLen]; omega, fun hn => absurd h.len hn⟩

theorem sent_kept {C : Cipher} {p q : Pd} {env : Env} {outs : List Out} {ok : Bool}
    (h : SendOutcome C p env q outs ok) : q.rx = p.rx ∧ q.packetBuf.length = p.packetBuf.length := by
  cases h with
  | mute _ => exact ⟨rfl, rfl⟩
  | built b q outs ok hb ho hh hs hc hl =>
    rw [hl, show q.rx = b.p.rx by rw [hs]]
    have : ∀ {p' : Pd} {t}, BodyOutcome C p' env t b → b.p.rx = p'.rx ∧ b.p.packetBuf.length = p'.packetBuf.length := by
      intro p' t h
      cases h <;> try exact ⟨rfl, rfl⟩
      split <;> exact ⟨rfl, rfl⟩
    have e := this ho
    exact e

theorem afterSend_cleared {p q : Pd} {ok : Bool} (h : afterSend p ok = .ok q) : Cleared p q := by
  rcases afterSend_inv h with ⟨rfl, -⟩ | ⟨-, -, -, k, -, rfl⟩ <;> exact ⟨rfl, rfl, rfl, rfl⟩

theorem touch_kept (p : Pd) (ret : PdRet) (now : Int) :
    (touch p ret now).rx = p.rx ∧ (touch p ret now).packetBuf = p.packetBuf := by
  unfold touch; split <;> exact ⟨rfl, rfl⟩

/-- after the reply phase the packet is either kept, or gone -/
theorem finished_cleared {C : Cipher} {p q : Pd} {env : Env} {ret : PdRet} {outs : List Out}
    (h : Finished C p env ret q outs) :
    (q = p ∧ outs = [] ∧ (ret = .ignore ∨ ret = .noData ∨ ret = .wait)) ∨ Cleared p q := by
  cases h with
  | keep hr => exact .inl ⟨rfl, rfl, by rcases hr with h | h | h <;> simp [h]⟩
  | reset _ => exact .inr ⟨rfl, rfl, rfl, rfl⟩
  | reply _ hs ha =>
    obtain ⟨e1, e2⟩ := sent_kept hs
    obtain ⟨t1, t2⟩ := touch_kept p ret env.now
    have hc := afterSend_cleared ha
    exact .inr ⟨hc.bufLen, hc.len, hc.rx.trans (e1.trans t1), hc.buf.trans (e2.trans (by rw [t2]))⟩

/-- the reply phase hands at most one packet to the channel, and only when there is something to answer -/
theorem finished_sent {C : Cipher} {p q : Pd} {env : Env} {ret : PdRet} {outs : List Out}
    (h : Finished C p env ret q outs) :
    (sent outs).length ≤ 1 ∧ (sent outs ≠ [] → (ret = .none ∨ ret = .reply) ∧ Cleared p q) := by
  have hcl := finished_cleared h
  cases h with
  | keep _ => exact ⟨by simp [sent], by simp [sent]⟩
  | reset _ => exact ⟨by simp [sent], by simp [sent]⟩
  | reply hr hs ha =>
    have hlen : (sent outs).length ≤ 1 := by
      cases hs with
      | mute _ => simp [sent]
      | built b q outs ok hb ho hh hs hc hl =>
        have hb0 : sent b.outs = [] := by
          cases ho with
          | ftstat f outs' r room hid hst =>
            unfold File.statBuild at hst
            split at hst
            · injection hst with hst; injection hst with _ hst; injection hst with hst _; subst hst; rfl
            · split at hst
              · injection hst with hst; injection hst with _ hst; injection hst with hst _; subst hst; rfl
              split at hst
              · injection hst with hst; injection hst with _ hst; injection hst with hst _; subst hst; rfl
              dsimp only at hst
              replace hst := ite_inv hst
              rcases hst with ⟨-, hst⟩ | ⟨-, hst⟩
              · cases hst
              replace hst := ite_inv hst
              rcases hst with ⟨-, hst⟩ | ⟨-, hst⟩
              · split at hst <;>
                · injection hst with hst; injection hst with _ hst; injection hst with hst _; subst hst
                  rfl
              · injection hst with hst; injection hst with _ hst; injection hst with hst _; subst hst; rfl
          | _ => rfl
        rw [show sent (b.outs ++ outs) = sent b.outs ++ sent outs from List.filterMap_append, hb0]
        rcases hc with ⟨rfl, -⟩ | ⟨w, q', -, -, -, rfl, -⟩
        · simp [sent]
        · unfold Phy.sendOuts sent
          split <;> simp
    refine ⟨hlen, fun _ => ⟨hr, ?_⟩⟩
    rcases hcl with ⟨-, -, h⟩ | h
    · rcases hr with rfl | rfl <;> simp at h
    · exact h

theorem expire_kept (p : Pd) (now : Int) : Kept p (expire p now) ∧ (expire p now).address = p.address := by
  unfold expire; split <;> exact ⟨⟨rfl, rfl, rfl, rfl, rfl, rfl⟩, rfl⟩

/-- What receiving leaves in the receiver.  A packet is dealt with only if it is an intact command for this
PD. -/
inductive Rest (p : Pd) (x : List Byte) : Pd → PdRet → Prop
  /-- still collecting -/
  | more {q ret} : Framed q → (pend q).Sublist (pend p ++ x) → ret = .noData ∨ ret = .wait →
      ¬ (p.packetLen ≠ 0 ∧ p.packetBufLen = p.packetLen) → Rest p x q ret
  /-- what was collected is dropped -/
  | drop {q ret} : q.packetBuf.length = 256 → q.rx.Sublist (pend p ++ x) →
      (p.packetLen ≠ 0 → p.packetBufLen = p.packetLen → q.rx.Sublist (p.rx ++ x)) →
      (ret = .ignore ∧ q.packetBufLen = 0 ∧ q.packetLen = 0 ∨ ret = .generic) → Rest p x q ret
  /-- a whole packet was processed -/
  | whole {q ret} (f : List Byte) : Framed q → q.packetLen ≠ 0 → q.packetBufLen = q.packetLen →
      Intact f → CommandFor p.address f →
      (f ++ q.rx).Sublist (pend p ++ x) →
      (p.packetLen ≠ 0 → p.packetBufLen = p.packetLen → q.rx.Sublist (p.rx ++ x)) →
      ret ≠ .ignore → ret ≠ .noData → Rest p x q ret

theorem rx_pend (q : Pd) : q.rx.Sublist (pend q) := List.sublist_append_right _ _

theorem heldFrame_pend {q : Pd} (he : q.packetBufLen = q.packetLen) : (heldFrame q ++ q.rx).Sublist (pend q) := by
  unfold Phy.pend got heldFrame
  refine List.Sublist.append ?_ (List.Sublist.refl _)
  rw [he, ← List.drop_take]
  exact List.drop_sublist _ _

theorem got_rest {C : Cipher} {p q : Pd} {env : Env} {outs : List Out} {ret : PdRet} (hp : p.flags.pdMode = true)
    (hf : Framed p) (h : Got C p env q outs ret) : Rest p env.recv.flatten q ret := by
  have key : ∀ {p1 : Pd} {r : Phy.PktRet} {q : Pd} {ret : PdRet}, checkPacket p env = .ok (p1, r) → r = .none ∨ r = .nack →
      Framed q → q.rx = p1.rx → q.packetBufLen = p1.packetBufLen → q.packetLen = p1.packetLen →
      ret ≠ .ignore → ret ≠ .noData → Rest p env.recv.flatten q ret := by
    intro p1 r q ret hc hr hq e1 e2 e3 n1 n2
    have hs := Phy.checkPacket_stored hf hc
    obtain ⟨w1, w2, w3, w4⟩ := hs.whole hr
    refine .whole (heldFrame p1) hq (by rw [e3]; exact w1) (by rw [e2, e3]; exact w2) w3 (w4 hp) ?_ ?_ n1 n2
    · rw [e1]; exact (heldFrame_pend w2).trans hs.pend
    · rw [e1]; exact fun a b => (hs.again a b).1
  cases h with
  | nothing hc hcol hr =>
    have hs := Phy.checkPacket_stored hf hc
    rcases hr with ⟨rfl, rfl⟩ | ⟨rfl, rfl⟩ | ⟨rfl, rfl⟩ | ⟨rfl, rfl⟩
    · exact .more (hs.framed (.inl rfl)) hs.pend (.inl rfl) fun ⟨a, b⟩ => (hs.again a b).2.2 rfl
    · exact .more (hs.framed (.inr (.inl rfl))) hs.pend (.inr rfl) fun ⟨a, b⟩ => (hs.again a b).2.1 rfl
    · exact .drop hs.buf ((rx_pend q).trans hs.pend) (fun a b => (hs.again a b).1) (.inr rfl)
    · exact absurd rfl (hs.notCheck hp)
  | @skip q1 hc hcol =>
    have hs := Phy.checkPacket_stored hf hc
    exact .drop hs.buf ((rx_pend q1).trans hs.pend) (fun a b => (hs.again a b).1) (.inl ⟨rfl, rfl, rfl⟩)
  | seq hc hck =>
    exact key hc (.inr rfl) ((Phy.checkPacket_stored hf hc).framed (by simp)) rfl rfl rfl (by simp) (by simp)
  | refused hc hck hd hdt hl =>
    have h1 := (Phy.checkPacket_stored hf hc).framed (by simp)
    refine key hc (.inl rfl) (decoded_framed hd h1) hdt.rx hdt.packetBufLen hdt.packetLen ?_ ?_ <;> split <;> simp
  | insecure hc hck hd hdt hl hid hpr =>
    have h1 := (Phy.checkPacket_stored hf hc).framed (by simp)
    exact key hc (.inl rfl) ((kept_quiet (setNak_quiet _ _)).framed
        (noteCmd_framed (decoded_framed hd h1)))
      hdt.rx hdt.packetBufLen hdt.packetLen (by simp) (by simp)
  | command hc hck hd hdt hl hid hlen hb hpr hdis hout =>
    have h1 := (Phy.checkPacket_stored hf hc).framed (by simp)
    have hk := kept_outcome hout
    have hnot : ret ≠ .ignore ∧ ret ≠ .noData := by
      cases hout with
      | plain hpl _ => rcases hpl.ret with h | h
                       · rw [h]; simp
                       · rw [h.1]; simp
      | file _ _ => split <;> simp
      | _ => simp
    refine key hc (.inl rfl) (hk.framed (noteCmd_framed (decoded_framed hd h1)))
      (hk.rx.trans hdt.rx) (hk.bufLen.trans hdt.packetBufLen) (hk.len.trans hdt.packetLen) hnot.1 hnot.2

end Osdp.PdM
