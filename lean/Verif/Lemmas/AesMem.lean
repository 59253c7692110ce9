import Verif.Model.AesMem
import Verif.Model.Cbc

/-!
# The in-place AES computes the functions of `Model/Aes.lean`
-/

namespace Osdp.AesMem
open Osdp.Aes (State toBlock ofBlock)

theorem Prog.bind_done {α β : Type} (a : α) (f : α → Prog β) : ((Prog.done a : Prog α) >>= f) = f a := rfl
theorem Prog.pure_bind {α β : Type} (a : α) (f : α → Prog β) : ((pure a : Prog α) >>= f) = f a := rfl

theorem run_bind {α β : Type} (p : Prog α) (f : α → Prog β) (m : List Byte) :
    run (p >>= f) m = run p m >>= fun r => run (f r.1) r.2 := by
  show run (Prog.bind p f) m = _
  induction p generalizing m with
  | done a => rfl
  | load i k ih =>
    simp only [Prog.bind, run]
    cases get m i with
    | error e => rfl
    | ok b => exact ih b m
  | store i v k ih =>
    simp only [Prog.bind, run]
    cases wr m i v with
    | error e => rfl
    | ok m' => exact ih m'
  | fault e => rfl

/-- one after another -/
theorem run_seq {α β : Type} {p : Prog α} {f : α → Prog β} {m m1 : List Byte} {a : α} (h : run p m = .ok (a, m1)) :
    run (p >>= f) m = run (f a) m1 := by rw [run_bind, h]; rfl

theorem get_shift (pre m : List Byte) (k : Nat) : get (pre ++ m) (pre.length + k) = get m k := by
  induction pre with
  | nil => simp
  | cons b pre ih =>
    rw [show (b :: pre).length + k = (pre.length + k) + 1 by simp; omega]
    exact ih

theorem get_front (m post : List Byte) (k : Nat) (h : k < m.length) : get (m ++ post) k = get m k := by
  induction m generalizing k with
  | nil => exact absurd h (by simp)
  | cons b m ih =>
    cases k with
    | zero => rfl
    | succ k => exact ih k (by simpa using h)

theorem get_eq (m : List Byte) (k : Nat) (h : k < m.length) : get m k = .ok m[k] := by
  induction m generalizing k with
  | nil => exact absurd h (by simp)
  | cons b m ih =>
    cases k with
    | zero => rfl
    | succ k => exact ih k (by simpa using h)

theorem wr_shift (pre m : List Byte) (k : Nat) (v : Byte) :
    wr (pre ++ m) (pre.length + k) v = wr m k v >>= fun m' => .ok (pre ++ m') := by
  induction pre with
  | nil => simp; cases wr m k v <;> rfl
  | cons b pre ih =>
    rw [show (b :: pre).length + k = (pre.length + k) + 1 by simp; omega]
    show (wr (pre ++ m) (pre.length + k) v >>= fun m => .ok (b :: m)) = _
    rw [ih]
    cases wr m k v <;> rfl

/-- code whose pointer has been advanced past `pre` leaves `pre` alone -/
theorem run_at {α : Type} (pre : List Byte) (p : Prog α) (m : List Byte) :
    run (Prog.at_ pre.length p) (pre ++ m) = run p m >>= fun r => .ok (r.1, pre ++ r.2) := by
  induction p generalizing m with
  | done a => rfl
  | load i k ih =>
    simp only [Prog.at_, run, get_shift]
    cases get m i with
    | error e => rfl
    | ok b => exact ih b m
  | store i v k ih =>
    simp only [Prog.at_, run, wr_shift]
    cases wr m i v with
    | error e => rfl
    | ok m' => exact ih m'
  | fault e => rfl

theorem loop_congr {f g : Nat → Prog Unit} (s n : Nat) (h : ∀ i, s ≤ i → i < s + n → f i = g i) :
    loop f s n = loop g s n := by
  induction n generalizing s with
  | zero => rfl
  | succ n ih =>
    rw [loop, loop, h s (Nat.le_refl _) (by omega), ih (s + 1) fun i h1 h2 => h i (by omega) (by omega)]

/-! ### the steps of a round -/

theorem subBytes_run (s : State) (post : List Byte) :
    run subBytes ((toBlock s).1 ++ post) = .ok ((), (toBlock (Aes.subBytes s)).1 ++ post) := rfl

theorem shiftRows_run (s : State) (post : List Byte) :
    run shiftRows ((toBlock s).1 ++ post) = .ok ((), (toBlock (Aes.shiftRows s)).1 ++ post) := rfl

set_option maxRecDepth 20000 in
theorem mixColumns_run (s : State) (post : List Byte) :
    run mixColumns ((toBlock s).1 ++ post) = .ok ((), (toBlock (Aes.mixColumns s)).1 ++ post) := rfl

theorem invSubBytes_run (s : State) (post : List Byte) :
    run invSubBytes ((toBlock s).1 ++ post) = .ok ((), (toBlock (Aes.invSubBytes s)).1 ++ post) := rfl

theorem invShiftRows_run (s : State) (post : List Byte) :
    run invShiftRows ((toBlock s).1 ++ post) = .ok ((), (toBlock (Aes.invShiftRows s)).1 ++ post) := rfl

set_option maxRecDepth 20000 in
theorem invMixColumns_run (s : State) (post : List Byte) :
    run invMixColumns ((toBlock s).1 ++ post) = .ok ((), (toBlock (Aes.invMixColumns s)).1 ++ post) := rfl

theorem addRoundKey_first (k s : State) (post : List Byte) :
    run (addRoundKey (toBlock k).1 0) ((toBlock s).1 ++ post) = .ok ((), (toBlock (Aes.addRoundKey k s)).1 ++ post) := rfl

/-- the round key number `n` of the schedule `rk` is `k` -/
def HasKey (rk : List Byte) (n : Nat) (k : State) : Prop :=
  ∃ pre post, rk = pre ++ ((toBlock k).1 ++ post) ∧ pre.length = 16 * n

theorem addRoundKey_run {rk : List Byte} {n : Nat} {k : State} (h : HasKey rk n k) (s : State) (post : List Byte) :
    run (addRoundKey rk n) ((toBlock s).1 ++ post) = .ok ((), (toBlock (Aes.addRoundKey k s)).1 ++ post) := by
  obtain ⟨pre, kpost, rfl, hl⟩ := h
  rw [← addRoundKey_first]
  congr 1
  unfold addRoundKey
  refine loop_congr 0 4 fun i _ hi => loop_congr 0 4 fun j _ hj => ?_
  have hg : get (pre ++ ((toBlock k).1 ++ kpost)) (n * 4 * 4 + i * 4 + j) = get (toBlock k).1 (0 * 4 * 4 + i * 4 + j) := by
    rw [show n * 4 * 4 + i * 4 + j = pre.length + (i * 4 + j) by omega, get_shift,
      get_front _ _ _ (by rw [(toBlock k).2]; omega), show 0 * 4 * 4 + i * 4 + j = i * 4 + j by omega]
  rw [hg]

/-- the schedule `rk` holds the eleven round keys of `key` -/
def Schedule (rk : List Byte) (key : State) : Prop := ∀ n, n ≤ 10 → HasKey rk n (Aes.roundKey key n)

theorem cipherRounds_run {rk : List Byte} {key : State} (h : Schedule rk key) (post : List Byte) (n r : Nat) (hr : n + r = 10)
    (s : State) : ∃ t, run (cipherRounds rk n r) ((toBlock s).1 ++ post) = .ok ((), (toBlock t).1 ++ post) ∧
      Aes.addRoundKey (Aes.roundKey key 10) t = Aes.cipherRounds key n r s := by
  induction n generalizing r s with
  | zero =>
    refine ⟨Aes.shiftRows (Aes.subBytes s), rfl, ?_⟩
    rw [show r = 10 by omega]
    rfl
  | succ n ih =>
    obtain ⟨t, ht, hk⟩ := ih (r + 1) (by omega)
      (Aes.addRoundKey (Aes.roundKey key r) (Aes.mixColumns (Aes.shiftRows (Aes.subBytes s))))
    refine ⟨t, ?_, hk⟩
    unfold cipherRounds
    rw [run_seq (subBytes_run s post), run_seq (shiftRows_run _ post), run_seq (mixColumns_run _ post),
      run_seq (addRoundKey_run (h r (by omega)) _ post)]
    exact ht

theorem cipher_run {rk : List Byte} {key : State} (h : Schedule rk key) (s : State) (post : List Byte) :
    run (cipher rk) ((toBlock s).1 ++ post) = .ok ((), (toBlock (Aes.cipher key s)).1 ++ post) := by
  obtain ⟨t, ht, hk⟩ := cipherRounds_run h post 9 1 rfl (Aes.addRoundKey (Aes.roundKey key 0) s)
  unfold cipher
  rw [run_seq (addRoundKey_run (h 0 (by omega)) s post), run_seq ht, addRoundKey_run (h 10 (by omega)), hk]
  rfl

theorem invCipherRounds_run {rk : List Byte} {key : State} (h : Schedule rk key) (post : List Byte) (r : Nat) (hr : r ≤ 10)
    (s : State) : run (invCipherRounds rk r) ((toBlock s).1 ++ post) = .ok ((), (toBlock (Aes.invCipherRounds key r s)).1 ++ post) := by
  induction r generalizing s with
  | zero =>
    unfold invCipherRounds
    rw [run_seq (invShiftRows_run s post), run_seq (invSubBytes_run _ post), addRoundKey_run (h 0 (by omega))]
    rfl
  | succ r ih =>
    unfold invCipherRounds
    rw [run_seq (invShiftRows_run s post), run_seq (invSubBytes_run _ post), run_seq (addRoundKey_run (h (r + 1) hr) _ post),
      run_seq (invMixColumns_run _ post), ih (by omega)]
    rfl

theorem invCipher_run {rk : List Byte} {key : State} (h : Schedule rk key) (s : State) (post : List Byte) :
    run (invCipher rk) ((toBlock s).1 ++ post) = .ok ((), (toBlock (Aes.invCipher key s)).1 ++ post) := by
  unfold invCipher
  rw [run_seq (addRoundKey_run (h 10 (by omega)) s post), invCipherRounds_run h post 9 (by omega)]
  rfl

/-! ### the key schedule -/

/-- a long enough array begins with a block -/
theorem chunk (l : List Byte) (h : 16 ≤ l.length) : ∃ (s : State) (post : List Byte), l = (toBlock s).1 ++ post ∧
    post.length + 16 = l.length := by
  match l, h with
  | a :: b :: c :: d :: e :: f :: g :: i :: j :: k :: m :: n :: o :: p :: q :: r :: post, _ =>
    exact ⟨⟨⟨a, b, c, d⟩, ⟨e, f, g, i⟩, ⟨j, k, m, n⟩, ⟨o, p, q, r⟩⟩, post, rfl, by simp⟩

theorem loop_add (f : Nat → Prog Unit) (s n m : Nat) (l : List Byte) {l1 : List Byte} (h : run (loop f s n) l = .ok ((), l1)) :
    run (loop f s (n + m)) l = run (loop f (s + n) m) l1 := by
  induction n generalizing s l with
  | zero =>
    cases (Prod.mk.inj (Except.ok.inj h)).2
    simp
  | succ n ih =>
    rw [show n + 1 + m = (n + m) + 1 by omega, loop, run_bind]
    rw [loop, run_bind] at h
    cases hf : run (f s) l with
    | error e => rw [hf] at h; cases h
    | ok q =>
      rw [hf] at h
      rw [show s + (n + 1) = s + 1 + n by omega]
      exact ih (s + 1) q.2 h

/-- `expandWord` with what happens to `tempa` left open -/
def expandWith (f : Nat → Aes.Word → Aes.Word) (i : Nat) : Prog Unit := do
  let k := (i - 1) * 4
  let t0 ← ld (k + 0)
  let t1 ← ld (k + 1)
  let t2 ← ld (k + 2)
  let t3 ← ld (k + 3)
  let t := f i ⟨t0, t1, t2, t3⟩
  let j := i * 4
  let k := (i - 4) * 4
  st (j + 0) ((← ld (k + 0)) ^^^ t.b0)
  st (j + 1) ((← ld (k + 1)) ^^^ t.b1)
  st (j + 2) ((← ld (k + 2)) ^^^ t.b2)
  st (j + 3) ((← ld (k + 3)) ^^^ t.b3)

theorem loop_at (o : Nat) (f : Nat → Prog Unit) (s n : Nat) : Prog.at_ o (loop f s n) = loop (fun i => Prog.at_ o (f i)) s n := by
  have hb : ∀ {α β : Type} (p : Prog α) (g : α → Prog β), Prog.at_ o (p >>= g) = (Prog.at_ o p >>= fun a => Prog.at_ o (g a)) := by
    intro α β p g
    show Prog.at_ o (Prog.bind p g) = Prog.bind (Prog.at_ o p) _
    induction p with
    | done a => rfl
    | load i k ih => simp only [Prog.bind, Prog.at_, ih]
    | store i v k ih => simp only [Prog.bind, Prog.at_, ih]
    | fault e => rfl
  induction n generalizing s with
  | zero => rfl
  | succ n ih => rw [loop, loop, hb]; congr 1; funext _; exact ih (s + 1)

theorem loop_offset (f : Nat → Prog Unit) (o s n : Nat) : loop f (o + s) n = loop (fun i => f (o + i)) s n := by
  induction n generalizing s with
  | zero => rfl
  | succ n ih => rw [loop, loop, ← ih (s + 1)]; rfl

theorem expandWord_at (r i : Nat) (hi : 4 ≤ i) :
    expandWord (4 * r + i) = Prog.at_ (16 * r) (expandWith (fun j => tempa (4 * r + j)) i) := by
  unfold expandWord expandWith
  have h1 : ∀ d, (4 * r + i - 1) * 4 + d = 16 * r + ((i - 1) * 4 + d) := fun d => by omega
  have h2 : ∀ d, (4 * r + i) * 4 + d = 16 * r + (i * 4 + d) := fun d => by omega
  have h3 : ∀ d, (4 * r + i - 4) * 4 + d = 16 * r + ((i - 4) * 4 + d) := fun d => by omega
  simp only [h1, h2, h3]
  rfl

theorem tempa_core (r : Nat) (t : Aes.Word) : tempa (4 * r + 4) t = Aes.scheduleCore (r + 1) t := by
  unfold tempa
  rw [if_pos (by omega), show (4 * r + 4) / 4 = r + 1 by omega]
  rfl

theorem tempa_same (i : Nat) (h : i % 4 ≠ 0) (t : Aes.Word) : tempa i t = t := by unfold tempa; rw [if_neg h]

/-- the four words after the first four -/
theorem expandWith_run (g : Aes.Word → Aes.Word) (k old : State) (post : List Byte) :
    run (loop (expandWith fun i t => if i = 4 then g t else t) 4 4) ((toBlock k).1 ++ ((toBlock old).1 ++ post)) =
      .ok ((), (toBlock k).1 ++ ((toBlock ⟨k.c0.xor (g k.c3), k.c1.xor (k.c0.xor (g k.c3)),
        k.c2.xor (k.c1.xor (k.c0.xor (g k.c3))), k.c3.xor (k.c2.xor (k.c1.xor (k.c0.xor (g k.c3))))⟩).1 ++ post)) := rfl

theorem expand_run (r : Nat) (pre : List Byte) (hp : pre.length = 16 * r) (k old : State) (post : List Byte) :
    run (loop expandWord (4 * r + 4) 4) (pre ++ ((toBlock k).1 ++ ((toBlock old).1 ++ post))) =
      .ok ((), pre ++ ((toBlock k).1 ++ ((toBlock (Aes.nextRoundKey (r + 1) k)).1 ++ post))) := by
  rw [loop_offset, loop_congr 4 4 fun i hi _ => expandWord_at r i hi, ← loop_at, ← hp, run_at,
    loop_congr (g := expandWith fun i t => if i = 4 then Aes.scheduleCore (r + 1) t else t) 4 4 ?_, expandWith_run]
  · rfl
  · intro i h1 h2
    unfold expandWith
    have : ∀ t, tempa (4 * r + i) t = if i = 4 then Aes.scheduleCore (r + 1) t else t := fun t => by
      by_cases h : i = 4
      · subst h; exact tempa_core r t
      · rw [if_neg h]; exact tempa_same _ (by omega) t
    simp only [this]

theorem copyWord_run (k old : State) (post : List Byte) :
    run (loop (copyWord (toBlock k).1) 0 4) ((toBlock old).1 ++ post) = .ok ((), (toBlock k).1 ++ post) := rfl

theorem HasKey.mono {pre : List Byte} {n : Nat} {k : State} (h : HasKey pre n k) (post : List Byte) : HasKey (pre ++ post) n k := by
  obtain ⟨a, b, rfl, hl⟩ := h
  exact ⟨a, b ++ post, by simp, hl⟩

theorem expand_loop (key : State) (rest : List Byte) (r : Nat) (hr : 16 * r ≤ rest.length) :
    ∃ pre post, run (loop expandWord 4 (4 * r)) ((toBlock key).1 ++ rest) =
        .ok ((), pre ++ ((toBlock (Aes.roundKey key r)).1 ++ post)) ∧
      pre.length = 16 * r ∧ post.length + 16 * r = rest.length ∧ ∀ n, n < r → HasKey pre n (Aes.roundKey key n) := by
  induction r with
  | zero => exact ⟨[], rest, rfl, rfl, rfl, fun n h => absurd h (by omega)⟩
  | succ r ih =>
    obtain ⟨pre, post, hrun, hp, hpost, hk⟩ := ih (by omega)
    obtain ⟨old, post', rfl, hl⟩ := chunk post (by omega)
    refine ⟨pre ++ (toBlock (Aes.roundKey key r)).1, post', ?_, ?_, by omega, fun n hn => ?_⟩
    · rw [show 4 * (r + 1) = 4 * r + 4 by omega, loop_add _ _ _ _ _ hrun, show 4 + 4 * r = 4 * r + 4 by omega, expand_run r pre hp]
      simp [Aes.roundKey]
    · rw [List.length_append, hp, (toBlock _).2]; omega
    · by_cases h : n < r
      · exact (hk n h).mono _
      · have : n = r := by omega
        subst this
        exact ⟨pre, [], by simp, hp⟩

/-- `KeyExpansion` fills an array of 176 bytes, whatever it held, with the eleven round keys -/
theorem keyExpansion_run (key : State) (junk : List Byte) (h : junk.length = 176) :
    ∃ rk, run (keyExpansion (toBlock key).1) junk = .ok ((), rk) ∧ rk.length = 176 ∧ Schedule rk key := by
  obtain ⟨old, rest, rfl, hl⟩ := chunk junk (by omega)
  obtain ⟨pre, post, hrun, hp, hpost, hk⟩ := expand_loop key rest 10 (by omega)
  refine ⟨_, (run_seq (copyWord_run key old rest)).trans hrun, ?_, fun n hn => ?_⟩
  · rw [List.length_append, List.length_append, hp, (toBlock _).2]; omega
  · by_cases h : n < 10
    · exact (hk n h).mono _
    · have : n = 10 := by omega
      subst this
      exact ⟨pre, post, rfl, hp⟩

end Osdp.AesMem
