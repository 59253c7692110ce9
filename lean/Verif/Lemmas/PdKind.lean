import Verif.Lemmas.PdDispatch
import Verif.Lemmas.PdKey
import Verif.Spec.Answer

/-! # The reply a command gets -/

namespace Osdp.PdM

open Phy (setNak)

/-- refused, or answered as the command demands, or (a file transfer only) not answered at all -/
def Kind (p q : Pd) (ret : PdRet) : Prop :=
  (q.replyId = Id.NAK ∧ ret = .reply) ∨ (q.replyId ∈ Spec.Answer.replies p.cmdId ∧ ret = .none) ∨
  (p.cmdId = Id.FILETRANSFER ∧ q.replyId = p.replyId ∧ ret = .wait)

theorem kind_badLen {p p' q : Pd} {o outs : List Out} {ret : PdRet} (h : badLen p' o = .ok (q, outs, ret)) : Kind p q ret := by
  obtain ⟨rfl, rfl, rfl⟩ := badLen_inv h; exact .inl ⟨rfl, rfl⟩

theorem kind_reply {p p' q : Pd} {r n : Nat} {o outs : List Out} {ret : PdRet} (h : reply p' r o = .ok (q, outs, ret))
    (hn : p.cmdId = n) (hr : r ∈ Spec.Answer.replies n) : Kind p q ret := by
  obtain ⟨rfl, rfl, rfl⟩ := reply_inv h; exact .inr (.inl ⟨by rw [hn]; exact hr, rfl⟩)

theorem kind_refused {p q : Pd} {ret : PdRet} (h : Refused q ret) : Kind p q ret := .inl ⟨h.2.1, h.1⟩

theorem kind_status {p p' q : Pd} {env : Env} {ty : StatusType} {r n : Nat} {outs : List Out} {ret : PdRet}
    (h : statusCmd p' env ty r = .ok (q, outs, ret)) (hn : p.cmdId = n) (hr : r ∈ Spec.Answer.replies n) : Kind p q ret := by
  unfold statusCmd at h
  obtain ⟨⟨p2, o2, r2⟩, h1, h⟩ := Res.bind_eq_ok.mp h
  split at h
  · exact kind_badLen h
  · exact kind_reply h hn hr
  · cases h

theorem kind_records {p p' q : Pd} {env : Env} {dec : List Byte → Option Cmd} {k n : Nat} {body : List Byte}
    {outs : List Out} {ret : PdRet}
    (h : recordsCmd p' env dec k body = .ok (q, outs, ret)) (hn : p.cmdId = n) (hr : Id.ACK ∈ Spec.Answer.replies n) : Kind p q ret := by
  unfold recordsCmd at h
  split at h
  · exact kind_badLen h
  · obtain ⟨⟨p2, o2⟩, h1, h⟩ := Res.bind_eq_ok.mp h
    exact kind_reply h hn hr

theorem kind_cap {p q : Pd} {c : Option Cmd} (h : capOk p c = (q, false)) (p' : Pd) : Kind p' q .reply := by
  obtain ⟨-, -, -, h4⟩ := capOk_quiet h
  obtain ⟨code, rfl⟩ := h4 rfl
  exact .inl ⟨rfl, rfl⟩

theorem kind_cb {p p' q : Pd} {env : Env} {i : Nat} {c : Cmd} {outs : List Out} (h : callback p' env i c = .ok (q, outs, none)) :
    Kind p q .reply := by
  obtain ⟨cb, -, -, hr⟩ := callback_inv h
  rcases hr with ⟨-, rfl, -⟩ | ⟨c', h, -⟩
  · exact .inl ⟨rfl, rfl⟩
  · cases h

theorem event_replies (e : Event) : eventReply e ∈ Spec.Answer.replies Id.POLL := by
  unfold eventReply
  split
  · split <;> decide
  · decide
  · split <;> decide
  · decide
  · decide

theorem dispatch_kind {p q : Pd} {env : Env} {body : List Byte} {outs : List Out} {ret : PdRet}
    (h : dispatch p env body = .ok (q, outs, ret)) : Kind p q ret := by
  unfold dispatch at h
  dsimp only at h
  replace h := ite_inv h
  rcases h with ⟨hid, h⟩ | ⟨-, h⟩
  · split at h
    · exact kind_badLen h
    · refine kind_reply h hid ?_
      unfold pollEvent
      split
      · show Id.ACK ∈ _
        decide
      · exact event_replies _
  replace h := ite_inv h
  rcases h with ⟨hid, h⟩ | ⟨-, h⟩
  · split at h
    · exact kind_badLen h
    · exact kind_status h hid (by decide)
  replace h := ite_inv h
  rcases h with ⟨hid, h⟩ | ⟨-, h⟩
  · split at h
    · exact kind_badLen h
    · split at h
      · rename_i hc
        injection h with h; injection h with h1 h2; injection h2 with h2 h3; subst h1 h2 h3
        exact kind_cap hc p
      · exact kind_status h hid (by decide)
  replace h := ite_inv h
  rcases h with ⟨hid, h⟩ | ⟨-, h⟩
  · split at h
    · exact kind_badLen h
    · split at h
      · rename_i hc
        injection h with h; injection h with h1 h2; injection h2 with h2 h3; subst h1 h2 h3
        exact kind_cap hc p
      · exact kind_status h hid (by decide)
  replace h := ite_inv h
  rcases h with ⟨hid, h⟩ | ⟨-, h⟩
  · split at h
    · exact kind_badLen h
    · exact kind_status h hid (by decide)
  replace h := ite_inv h
  rcases h with ⟨hid, h⟩ | ⟨-, h⟩
  · split at h
    · exact kind_badLen h
    · exact kind_reply h hid (by decide)
  replace h := ite_inv h
  rcases h with ⟨hid, h⟩ | ⟨-, h⟩
  · split at h
    · exact kind_badLen h
    · exact kind_reply h hid (by decide)
  replace h := ite_inv h
  rcases h with ⟨hid, h⟩ | ⟨-, h⟩
  · exact kind_records h hid (by decide)
  replace h := ite_inv h
  rcases h with ⟨hid, h⟩ | ⟨-, h⟩
  · exact kind_records h hid (by decide)
  replace h := ite_inv h
  rcases h with ⟨hid, h⟩ | ⟨-, h⟩
  · exact kind_records h hid (by decide)
  replace h := ite_inv h
  rcases h with ⟨hid, h⟩ | ⟨-, h⟩
  · unfold textCmd at h
    split at h
    · exact kind_badLen h
    split at h
    · dsimp only at h
      split at h
      · exact kind_badLen h
      split at h
      · rename_i hc
        injection h with h; injection h with h1 h2; injection h2 with h2 h3; subst h1 h2 h3
        exact kind_cap hc p
      · obtain ⟨⟨p2, o2, r2⟩, h1, h⟩ := Res.bind_eq_ok.mp h
        split at h
        · rename_i e
          injection e with e1 e; injection e with e2 e3; subst e1 e2 e3
          injection h with h; injection h with h3 h2; injection h2 with h2 h4; subst h3 h2 h4
          exact kind_cb h1
        · exact kind_reply h hid (by decide)
    · exact kind_badLen h
  replace h := ite_inv h
  rcases h with ⟨hid, h⟩ | ⟨-, h⟩
  · unfold comsetCmd at h
    split at h
    · exact kind_badLen h
    split at h
    · dsimp only at h
      split at h
      · exact kind_badLen h
      obtain ⟨⟨p2, o2, r2⟩, h1, h⟩ := Res.bind_eq_ok.mp h
      split at h
      · rename_i e
        injection e with e1 e; injection e with e2 e3; subst e1 e2 e3
        injection h with h; injection h with h3 h2; injection h2 with h2 h4; subst h3 h2 h4
        exact kind_cb h1
      · exact kind_reply h hid (by decide)
      · cases h
    · exact kind_badLen h
  replace h := ite_inv h
  rcases h with ⟨hid, h⟩ | ⟨-, h⟩
  · unfold mfgCmd at h
    split at h
    · exact kind_badLen h
    split at h
    · dsimp only at h
      split at h
      · exact kind_badLen h
      obtain ⟨⟨p2, o2, r2⟩, h1, h⟩ := Res.bind_eq_ok.mp h
      split at h
      · rename_i e
        injection e with e1 e; injection e with e2 e3; subst e1 e2 e3
        injection h with h; injection h with h3 h2; injection h2 with h2 h4; subst h3 h2 h4
        exact kind_cb h1
      · exact kind_reply h hid (by decide)
    · exact kind_badLen h
  replace h := ite_inv h
  rcases h with ⟨hid, h⟩ | ⟨-, h⟩
  · split at h
    · exact kind_reply h hid (by decide)
    · exact kind_badLen h
  replace h := ite_inv h
  rcases h with ⟨hid, h⟩ | ⟨-, h⟩
  · split at h
    · exact kind_reply h hid (by decide)
    · exact kind_badLen h
  replace h := ite_inv h
  rcases h with ⟨hid, h⟩ | ⟨-, h⟩
  · split at h
    · exact kind_badLen h
    · exact kind_reply h hid (by decide)
  replace h := ite_inv h
  rcases h with ⟨hid, h⟩ | ⟨-, h⟩
  · obtain ⟨r, -, h⟩ := Res.bind_eq_ok.mp h
    split at h
    · exact kind_reply h hid (by decide)
    · injection h with h; injection h with h3 h2; injection h2 with h2 h4; subst h3 h2 h4
      exact .inr (.inr ⟨hid, rfl, rfl⟩)
  replace h := ite_inv h
  rcases h with ⟨hid, h⟩ | ⟨-, h⟩
  · unfold keysetCmd at h
    split at h
    · exact kind_badLen h
    dsimp only at h
    split at h
    · exact kind_badLen h
    split at h
    · rename_i hc
      injection h with h; injection h with h1 h2; injection h2 with h2 h3; subst h1 h2 h3
      exact kind_cap hc p
    · rename_i hc
      obtain ⟨-, -, he, -⟩ := capOk_quiet hc
      have he := he rfl; subst he
      split at h
      · injection h with h; injection h with h1 h2; injection h2 with h2 h3; subst h1 h2 h3
        exact .inl ⟨rfl, rfl⟩
      split at h
      · injection h with h; injection h with h1 h2; injection h2 with h2 h3; subst h1 h2 h3
        exact .inl ⟨rfl, rfl⟩
      obtain ⟨⟨p2, o2, r2⟩, h1, h⟩ := Res.bind_eq_ok.mp h
      split at h
      · rename_i e
        injection e with e1 e; injection e with e2 e3; subst e1 e2 e3
        injection h with h; injection h with h3 h2; injection h2 with h2 h4; subst h3 h2 h4
        exact kind_cb h1
      · exact kind_reply h hid (by decide)
      · cases h
  replace h := ite_inv h
  rcases h with ⟨hid, h⟩ | ⟨-, h⟩
  · unfold chlngCmd at h
    split at h
    · exact kind_badLen h
    split at h
    · rename_i hc
      injection h with h; injection h with h1 h2; injection h2 with h2 h3; subst h1 h2 h3
      exact kind_cap hc p
    · exact kind_reply h hid (by decide)
  replace h := ite_inv h
  rcases h with ⟨hid, h⟩ | ⟨-, h⟩
  · unfold scryptCmd at h
    split at h
    · exact kind_badLen h
    split at h
    · rename_i hc
      injection h with h; injection h with h1 h2; injection h2 with h2 h3; subst h1 h2 h3
      exact kind_cap hc p
    · split at h
      · injection h with h; injection h with h1 h2; injection h2 with h2 h3; subst h1 h2 h3
        exact .inl ⟨rfl, rfl⟩
      · exact kind_reply h hid (by decide)
  injection h with h; injection h with h1 h2; injection h2 with h2 h3; subst h1 h2 h3
  exact .inl ⟨rfl, rfl⟩

end Osdp.PdM
