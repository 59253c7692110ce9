import Verif.Props.C01
import Verif.Model.Phy

/-!
# C01, continued: the receiver on the ring buffer

The model of the receiver (`Model/Phy`) has a list in place of the ring buffer. What `osdp_channel_receive` and the search for the start of a packet
do on the ring buffer is what the model does on the list of pending bytes (for `osdp_rb_pop_buf` that is `popBuf_spec`).
-/

namespace Osdp.RingBuf

/-- **C01**: receiving. -/
theorem C01_receive (cs : List (List Byte)) (p : Rb) (h : Wf p) :
    match Phy.channelReceive cs (contents p) with
    | .ok (l, n) => ∃ p', receive cs p = .ok (p', n) ∧ Wf p' ∧ contents p' = l
    | .error e => receive cs p = .error e := by
  induction cs generalizing p with
  | nil => exact ⟨p, rfl, h, rfl⟩
  | cons c cs ih =>
    unfold Phy.channelReceive receive
    by_cases h0 : c = []
    · rw [if_pos h0, if_pos h0]; exact ⟨p, rfl, h, rfl⟩
    rw [if_neg h0, if_neg h0]
    by_cases h1 : c.length > 64
    · rw [if_pos h1, if_pos h1]
    rw [if_neg h1, if_neg h1]
    obtain ⟨p1, e1, w1, c1⟩ := pushBuf_spec h c
    have hu : used p < 512 := used_lt
    rw [contents_length, e1]
    simp only [Res.ok_bind]
    by_cases h2 : used p + c.length > 511
    · rw [if_pos h2, if_pos (show min c.length (511 - used p) ≠ c.length by omega)]
      exact ⟨p1, rfl, w1, c1⟩
    rw [if_neg h2, if_neg (show ¬ min c.length (511 - used p) ≠ c.length by omega)]
    rw [List.take_of_length_le (by omega)] at c1
    by_cases h3 : c.length = 64
    · rw [if_pos h3, if_pos h3]
      have := ih p1 w1
      rw [c1] at this
      cases hr : Phy.channelReceive cs (contents p ++ c) with
      | error e => rw [hr] at this; rw [this]; rfl
      | ok r =>
        rw [hr] at this
        obtain ⟨p2, e2, w2, c2⟩ := this
        rw [e2]
        exact ⟨p2, rfl, w2, c2⟩
    · rw [if_neg h3, if_neg h3]
      exact ⟨p1, rfl, w1, c1⟩

/-- **C01**: the search for the start of a packet. It looks at no more bytes than a full buffer holds. -/
theorem C01_scan (n : Nat) (prev : Byte) (p : Rb) (h : Wf p) (hn : used p < n) :
    match Phy.scan prev (contents p) with
    | none => ∃ p', scan n prev p = .ok (p', none) ∧ Wf p' ∧ contents p' = []
    | some (m, l) => ∃ p', scan n prev p = .ok (p', some m) ∧ Wf p' ∧ contents p' = l := by
  induction n generalizing prev p with
  | zero => omega
  | succ n ih =>
    unfold scan
    cases hc : contents p with
    | nil =>
      rw [pop_empty h hc]
      exact ⟨p, rfl, h, hc⟩
    | cons b bs =>
      obtain ⟨p1, e1, w1, c1⟩ := pop_cons h hc
      rw [e1]
      simp only [Res.ok_bind]
      unfold Phy.scan
      by_cases hb : b = 0x53#8
      · rw [if_pos hb, if_pos hb]
        exact ⟨p1, rfl, w1, c1⟩
      · rw [if_neg hb, if_neg hb, ← c1]
        refine ih b p1 w1 ?_
        rw [← contents_length, c1]
        rw [← contents_length, hc, List.length_cons] at hn
        omega

/-- a buffer that wrapped around: 511 bytes are pending, from index 500 on -/
def wrapped : Rb := { head := 499, tail := 500, buffer := (List.replicate 512 0#8).set 510 0x53#8 }

/-- it takes no more; the search goes across the end of the array or stops at the start byte -/
example : Wf wrapped ∧ used wrapped = 511 ∧ (receive [[1, 2]] wrapped).toOption.map (·.2) = some (-1) ∧
    (receive [[1, 2]] { wrapped with head := 10 }).toOption.map (·.2) = some 2 ∧
    ((scan 512 0 wrapped).toOption.map fun r => (r.1.tail, r.2)) = some (511, some false) := by
  refine ⟨⟨by decide, by decide, by decide +kernel⟩, ?_⟩
  decide +kernel

end Osdp.RingBuf
