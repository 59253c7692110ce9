import Verif.Model.RingBuf
import Verif.Spec.Fifo

/-!
# C01: receive buffering is a lossless bounded FIFO of 511 bytes
-/

namespace Osdp.RingBuf

open Spec.Fifo (Op Obs)

/-- Well-formed ring buffer. -/
def Wf (p : Rb) : Prop := p.head < size ∧ p.tail < size ∧ p.buffer.length = size

/-- number of bytes pending -/
def used (p : Rb) : Nat := (p.head + size - p.tail) % size

/-- The pending bytes, oldest first. -/
def contents (p : Rb) : List Byte :=
  (List.range (used p)).map fun i => p.buffer.getD ((p.tail + i) % size) 0#8

theorem contents_length (p : Rb) : (contents p).length = used p := by simp [contents]

theorem used_lt {p : Rb} : used p < size := Nat.mod_lt _ (by decide)

private theorem next_eq {i : Nat} (h : i < size) : next i = (i + 1) % size := by
  unfold next; unfold size at *; split <;> omega

theorem push_full {p : Rb} (h : Wf p) (b : Byte) (hf : used p = 511) :
    push p b = .ok (p, false) := by
  obtain ⟨h1, h2, h3⟩ := h
  have : next p.head = p.tail := by
    rw [next_eq h1]; unfold used at hf; unfold size at *; omega
  simp [push, this]

theorem push_room {p : Rb} (h : Wf p) (b : Byte) (hf : used p < 511) :
    ∃ p', push p b = .ok (p', true) ∧ Wf p' ∧ contents p' = contents p ++ [b] := by
  obtain ⟨h1, h2, h3⟩ := h
  have hn : next p.head ≠ p.tail := by
    rw [next_eq h1]; unfold used at hf; unfold size at *; omega
  refine ⟨{ p with buffer := p.buffer.set p.head b, head := next p.head }, ?_, ?_, ?_⟩
  · simp [push, hn, h3, h1]
  · refine ⟨?_, h2, by simp [h3]⟩
    rw [next_eq h1]; exact Nat.mod_lt _ (by decide)
  · have hu : used { p with buffer := p.buffer.set p.head b, head := next p.head } = used p + 1 := by
      show (next p.head + size - p.tail) % size = _
      rw [next_eq h1]; unfold used at *; unfold size at *; omega
    apply List.ext_getElem
    · simp [contents_length, hu]
    intro i hi hi'
    simp only [contents_length, hu] at hi
    simp only [contents, List.getElem_map, List.getElem_range]
    by_cases hl : i < used p
    · rw [List.getElem_append_left (by simpa using hl)]
      simp only [List.getElem_map, List.getElem_range, List.getD_eq_getElem?_getD]
      rw [List.getElem?_set_ne]
      unfold used at *; unfold size at *; omega
    · have hiu : i = used p := by omega
      subst hiu
      rw [List.getElem_append_right (by simp)]
      have : (p.tail + used p) % size = p.head := by
        unfold used; unfold size at *; omega
      simp [this, h3, h1]

theorem pop_empty {p : Rb} (h : Wf p) (hf : contents p = []) : pop p = .ok (p, none) := by
  have : used p = 0 := by rw [← contents_length, hf]; rfl
  obtain ⟨h1, h2, h3⟩ := h
  have : p.head = p.tail := by unfold used at this; unfold size at *; omega
  simp [pop, this]

theorem pop_cons {p : Rb} (h : Wf p) {b : Byte} {bs : List Byte} (hf : contents p = b :: bs) :
    ∃ p', pop p = .ok (p', some b) ∧ Wf p' ∧ contents p' = bs := by
  have hu : used p = bs.length + 1 := by rw [← contents_length, hf]; rfl
  obtain ⟨h1, h2, h3⟩ := h
  have hn : p.head ≠ p.tail := by
    intro he; unfold used at hu; unfold size at *; rw [he] at hu; omega
  have hb : p.buffer[p.tail]? = some b := by
    have := congrArg (·[0]?) hf
    simp only [contents, hu] at this
    simp [List.getElem?_map, Nat.mod_eq_of_lt h2, h3, h2] at this
    simp [h3, h2, this]
  refine ⟨{ p with tail := next p.tail }, ?_, ?_, ?_⟩
  · simp [pop, hn, rd, hb]
  · refine ⟨h1, ?_, h3⟩
    rw [next_eq h2]; exact Nat.mod_lt _ (by decide)
  · have hu' : used { p with tail := next p.tail } = bs.length := by
      show (p.head + size - next p.tail) % size = _
      rw [next_eq h2]; unfold used at *; unfold size at *; omega
    apply List.ext_getElem
    · simp [contents_length, hu']
    intro i hi hi'
    have e : (b :: bs)[i+1]'(by simpa using hi') = bs[i] := rfl
    rw [← e]
    simp only [← hf]
    simp only [contents, List.getElem_map, List.getElem_range, next_eq h2]
    have : ((p.tail + 1) % size + i) % size = (p.tail + (i + 1)) % size := by
      unfold size; omega
    rw [this]

theorem pushBuf_spec {p : Rb} (h : Wf p) (bs : List Byte) :
    ∃ p', pushBuf p bs = .ok (p', min bs.length (511 - used p)) ∧ Wf p' ∧
      contents p' = contents p ++ bs.take (511 - used p) := by
  induction bs generalizing p with
  | nil => exact ⟨p, by simp [pushBuf], h, by simp⟩
  | cons b bs ih =>
    have hlt : used p < 512 := used_lt
    by_cases hf : used p = 511
    · refine ⟨p, ?_, h, ?_⟩
      · simp [pushBuf, push_full h b hf, hf]
      · simp [hf]
    · obtain ⟨p1, e1, w1, c1⟩ := push_room h b (by omega)
      obtain ⟨p2, e2, w2, c2⟩ := ih w1
      have hu : used p1 = used p + 1 := by rw [← contents_length, c1]; simp [contents_length]
      obtain ⟨k, hk⟩ : ∃ k, 511 - used p = k + 1 := ⟨510 - used p, by omega⟩
      have hk' : 511 - used p1 = k := by omega
      refine ⟨p2, ?_, w2, ?_⟩
      · simp only [pushBuf, e1, Res.ok_bind, if_true, e2, hk, hk', List.length_cons]
        congr 2
        omega
      · rw [c2, c1, hk, hk']; simp

theorem popBuf_spec {p : Rb} (h : Wf p) (n : Nat) :
    ∃ p', popBuf p n = .ok (p', (contents p).take n) ∧ Wf p' ∧
      contents p' = (contents p).drop n := by
  induction n generalizing p with
  | zero => exact ⟨p, by simp [popBuf], h, by simp⟩
  | succ n ih =>
    cases hc : contents p with
    | nil => exact ⟨p, by simp [popBuf, pop_empty h hc], h, by simp [hc]⟩
    | cons b bs =>
      obtain ⟨p1, e1, w1, c1⟩ := pop_cons h hc
      obtain ⟨p2, e2, w2, c2⟩ := ih w1
      refine ⟨p2, ?_, w2, ?_⟩
      · simp [popBuf, e1, e2, c1]
      · rw [c2, c1]; simp

/-- The implementation's reaction to one client operation. -/
def implStep (p : Rb) : Op → Res (Rb × Obs)
  | .push b => do let r ← push p b; .ok (r.1, .accepted r.2)
  | .pop => do let r ← pop p; .ok (r.1, .byte r.2)
  | .pushBuf bs => do let r ← pushBuf p bs; .ok (r.1, .count r.2)
  | .popBuf n => do let r ← popBuf p n; .ok (r.1, .bytes r.2)

/-- The implementation's observations over a history. -/
def implRun : Rb → List Op → Res (Rb × List Obs)
  | p, [] => .ok (p, [])
  | p, o :: os => do
    let r ← implStep p o
    let r' ← implRun r.1 os
    .ok (r'.1, r.2 :: r'.2)

theorem implStep_refines {p : Rb} (h : Wf p) (o : Op) :
    ∃ p', implStep p o = .ok (p', (Spec.Fifo.step 511 (contents p) o).2) ∧ Wf p' ∧
      contents p' = (Spec.Fifo.step 511 (contents p) o).1 := by
  have hlt : used p < 512 := used_lt
  cases o with
  | push b =>
    simp only [Spec.Fifo.step, contents_length]
    by_cases hf : used p = 511
    · exact ⟨p, by simp [implStep, push_full h b hf, hf], h, by simp [hf]⟩
    · have hr : used p < 511 := by omega
      obtain ⟨p1, e1, w1, c1⟩ := push_room h b hr
      exact ⟨p1, by simp [implStep, e1, hr], w1, by simp [hr, c1]⟩
  | pop =>
    cases hc : contents p with
    | nil => exact ⟨p, by simp [implStep, pop_empty h hc, Spec.Fifo.step], h, by simp [hc, Spec.Fifo.step]⟩
    | cons b bs =>
      obtain ⟨p1, e1, w1, c1⟩ := pop_cons h hc
      exact ⟨p1, by simp [implStep, e1, Spec.Fifo.step], w1, by simp [c1, Spec.Fifo.step]⟩
  | pushBuf bs =>
    obtain ⟨p1, e1, w1, c1⟩ := pushBuf_spec h bs
    exact ⟨p1, by simp [implStep, e1, Spec.Fifo.step, contents_length], w1,
      by simp [c1, Spec.Fifo.step, contents_length]⟩
  | popBuf n =>
    obtain ⟨p1, e1, w1, c1⟩ := popBuf_spec h n
    exact ⟨p1, by simp [implStep, e1, Spec.Fifo.step], w1, by simp [c1, Spec.Fifo.step]⟩

theorem implRun_refines {p : Rb} (h : Wf p) (os : List Op) :
    ∃ p', implRun p os = .ok (p', (Spec.Fifo.run 511 (contents p) os).2) ∧ Wf p' ∧
      contents p' = (Spec.Fifo.run 511 (contents p) os).1 := by
  induction os generalizing p with
  | nil => exact ⟨p, rfl, h, rfl⟩
  | cons o os ih =>
    obtain ⟨p1, e1, w1, c1⟩ := implStep_refines h o
    obtain ⟨p2, e2, w2, c2⟩ := ih w1
    refine ⟨p2, ?_, w2, ?_⟩
    · simp [implRun, e1, e2, Spec.Fifo.run, c1]
    · simp [c2, Spec.Fifo.run, c1]

theorem empty_wf : Wf empty := ⟨by decide, by decide, by simp [empty]⟩

/-- **C01.** For every history of operations starting from the initial buffer,
the ring buffer never faults and is observationally equal to a FIFO of capacity
511. -/
theorem C01_ring_buffer_is_fifo (os : List Op) :
    ∃ p', implRun empty os = .ok (p', (Spec.Fifo.run 511 [] os).2) := by
  obtain ⟨p', e, -, -⟩ := implRun_refines empty_wf os
  have : contents empty = [] := rfl
  rw [this] at e
  exact ⟨p', e⟩

/-- Non-vacuity: a history with wrap-around in the FIFO reference is matched. -/
example : (Spec.Fifo.run 511 [] [.push 1, .pushBuf [2, 3], .popBuf 2, .pop, .pop]).2
    = [.accepted true, .count 2, .bytes [1, 2], .byte (some 3), .byte none] := by decide

/-- The reference FIFO itself loses nothing: bytes popped plus bytes still queued
are exactly the bytes accepted, in order (checked here for the spec, so that C01
is meaningful). -/
theorem C01_fifo_conserves (cap : Nat) (q bs : List Byte) (n : Nat)
    (h : q.length + bs.length ≤ cap) :
    let r := Spec.Fifo.run cap q [.pushBuf bs, .popBuf n]
    ∃ out, r.2 = [.count bs.length, .bytes out] ∧ out ++ r.1 = q ++ bs := by
  refine ⟨(q ++ bs).take n, ?_, ?_⟩
  · have h1 : bs.take (cap - q.length) = bs := List.take_of_length_le (by omega)
    have h2 : min bs.length (cap - q.length) = bs.length := by omega
    simp [Spec.Fifo.run, Spec.Fifo.step, h1, h2]
  · have h1 : bs.take (cap - q.length) = bs := List.take_of_length_le (by omega)
    simp [Spec.Fifo.run, Spec.Fifo.step, h1, List.take_append_drop]

example : (4 : Nat) + 3 ≤ 511 := by decide

end Osdp.RingBuf
