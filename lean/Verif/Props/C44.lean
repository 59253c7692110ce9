import Verif.Lemmas.CpHear
import Verif.Lemmas.SampleCp
import Verif.Props.C15

/-!
# C44: the CP changes the address or baud rate it uses for a PD only in reaction to the PD's answer to a COMSET
-/

namespace Osdp.CpM

/-- the address and baud rate of a COM reply: address, baud rate least significant byte first -/
def comOf : List Byte → Option (Int × Int)
  | [a, b0, b1, b2, b3] => some (a.toNat, ofLe32i [b0, b1, b2, b3])
  | _ => none

/-- **C44, `_partial`.**  In every history, a visit or API call leaves address and baud rate as they are, unless it is a visit
that takes in a COM reply, whose address and baud rate are then used.

Missing from the full statement: that the command answered by the COM was a COMSET, i.e. `q.cmdId = Id.COMSET` -- which is
false, see `C44_unasked`. -/
theorem C44_partial (C : Cipher) (info : PdM.Info) (q s : Pd) (op : Op) (o : List Out) (hq : Reached C info q)
    (h : step C q op = .ok (s, o)) :
    (s.address = q.address ∧ s.baudRate = q.baudRate) ∨
    ∃ cb env body, op = .update cb env ∧ replyOf C q env = some (b8 Id.COM, body) ∧ comOf body = some (s.address, s.baudRate) := by
  cases op with
  | update cb env =>
    obtain ⟨⟨p1, o1, y⟩, hu, hs⟩ := Res.bind_eq_ok.mp h
    injection hs with hs; injection hs with e1 e2; subst e1 e2
    rcases (stateUpdate_inv hq.inv.cp hu).learned with ⟨hi, -⟩ | ⟨id, body, p2, p3, o, rc, hr, -, ht, -, he, hi⟩
    · exact .inl ⟨hi.address, hi.baudRate⟩
    · have h2 := transp_info ht
      cases he with
      | com a b0 b1 b2 b3 hid hb =>
        refine .inr ⟨cb, env, body, rfl, ?_, ?_⟩
        · rw [hr]; congr 2; exact BitVec.eq_of_toNat_eq hid
        · rw [hb, hi.address, hi.baudRate]; rfl
      | _ => exact .inl ⟨hi.address.trans h2.address, hi.baudRate.trans h2.baudRate⟩
  | _ =>
    have hi := (step_apiOnly h (fun cb env h => by cases h)).info
    exact .inl ⟨hi.address, hi.baudRate⟩

/-- conversely, every well-formed COM reply taken in is acted on -/
theorem C44_com (C : Cipher) (info : PdM.Info) (q s : Pd) (cb : Bool) (env : Env) (o : List Out) (hq : Reached C info q)
    (h : step C q (.update cb env) = .ok (s, o)) (body : List Byte) (a b : Int) (hr : replyOf C q env = some (b8 Id.COM, body))
    (hb : comOf body = some (a, b)) : s.address = a ∧ s.baudRate = b := by
  obtain ⟨⟨p1, o1, y⟩, hu, hs⟩ := Res.bind_eq_ok.mp h
  injection hs with hs; injection hs with e1 e2; subst e1 e2
  rcases (stateUpdate_inv hq.inv.cp hu).learned with ⟨-, hn⟩ | ⟨id, body', p2, p3, o, rc, hr', -, ht, hres, -, hi⟩
  · rw [hr] at hn; cases hn
  · rw [hr] at hr'; injection hr' with hr'; injection hr' with e1 e2; subst e1 e2
    unfold comOf at hb
    split at hb
    · rename_i a' b0 b1 b2 b3
      injection hb with hb; injection hb with hb1 hb2; subst hb1 hb2
      injection hres with hres; injection hres with e1 _; subst e1
      exact ⟨hi.address, hi.baudRate⟩
    · cases hb

/-- **C44 fails**: the answer to the ID command, which starts every connection, is a COM reply (the application never asked
for anything); the CP moves the PD from address 101 to 7. -/
theorem C44_unasked : ∃ q o, run xorCipher Sample.cp (Sample.asks (Sample.reply 0 [b8 Id.COM, 7, 0x80, 0x25, 0, 0])) = .ok (q, o) ∧
    Sample.cp.address = 101 ∧ q.address = 7 ∧ q.cmdId = Id.ID := by
  obtain ⟨q, o, h, hq⟩ := Sample.ran (C := xorCipher) (p := Sample.cp)
    (ops := Sample.asks (Sample.reply 0 [b8 Id.COM, 7, 0x80, 0x25, 0, 0]))
    (fun q _ => decide (q.address = 7 ∧ q.cmdId = Id.ID)) (by decide +kernel)
  obtain ⟨h1, h2⟩ := of_decide_eq_true hq
  exact ⟨q, o, h, rfl, h1, h2⟩

/-- The hypotheses of the other theorems are met, also by a COM that was asked for. -/
example : ∃ q, Reached xorCipher Sample.pdInfo q ∧ q.cmdId = Id.COMSET ∧
    replyOf xorCipher q { now := 0, recv := Sample.blocks64 (Sample.reply 2 [b8 Id.COM, 7, 0x80, 0x25, 0, 0]) } =
      some (b8 Id.COM, [7, 0x80, 0x25, 0, 0]) ∧ comOf [7, 0x80, 0x25, 0, 0] = some (7, 9600) := by
  obtain ⟨q, o, h, hq⟩ := Sample.ran (C := xorCipher) (p := Sample.cp)
    (ops := Sample.meets [4, 1, 1] ++ [.send { now := 0 } (.comset ⟨7, 9600⟩), Sample.hears [], Sample.hears []])
    (fun q _ => decide (q.cmdId = Id.COMSET ∧
      replyOf xorCipher q { now := 0, recv := Sample.blocks64 (Sample.reply 2 [b8 Id.COM, 7, 0x80, 0x25, 0, 0]) } =
      some (b8 Id.COM, [7, 0x80, 0x25, 0, 0]))) (by decide +kernel)
  obtain ⟨h1, h2⟩ := of_decide_eq_true hq
  exact ⟨q, Sample.cp_reached h, h1, h2, by decide⟩

end Osdp.CpM
