import Verif.Model.Bytes

/-!
# Specification: AES-128 as in FIPS 197

Bytes are elements of GF(2^8), polynomials over GF(2) modulo x^8 + x^4 + x^3 + x + 1.  The state is
a matrix `s r c` (row, column).
-/

namespace Osdp.Spec.Fips197

/-- product of polynomials over GF(2), bit `i` of the number being the coefficient of `x^i` -/
def polyMul (a b : Nat) : Nat :=
  (List.range 8).foldl (fun acc i => if b.testBit i then acc ^^^ (a <<< i) else acc) 0

/-- remainder modulo x^8 + x^4 + x^3 + x + 1, for degree below 15 -/
def polyMod (n : Nat) : Nat :=
  [6, 5, 4, 3, 2, 1, 0].foldl (fun m i => if m.testBit (8 + i) then m ^^^ (0x11B <<< i) else m) n

/-- section 4.2: multiplication in GF(2^8) -/
def mul (a b : Byte) : Byte := BitVec.ofNat 8 (polyMod (polyMul a.toNat b.toNat))

/-- powers in GF(2^8) -/
def pow (a : Byte) : Nat → Byte
  | 0 => 1#8
  | n + 1 => mul a (pow a n)

/-- repeated squaring: `a^(2^n)` -/
def sq (a : Byte) : Nat → Byte
  | 0 => a
  | n + 1 => mul (sq a n) (sq a n)

/-- section 5.1.1: the multiplicative inverse `a^254` (254 = 2 + 4 + .. + 128), with 0 mapped to itself -/
def inv (a : Byte) : Byte :=
  mul (mul (mul (sq a 1) (sq a 2)) (mul (sq a 3) (sq a 4))) (mul (mul (sq a 5) (sq a 6)) (sq a 7))

/-- section 5.1.1, (5.1): bit `i` of the affine transformation -/
def affineBit (b : Byte) (i : Nat) : Bool :=
  b.getLsbD i ^^ b.getLsbD ((i + 4) % 8) ^^ b.getLsbD ((i + 5) % 8) ^^ b.getLsbD ((i + 6) % 8) ^^
    b.getLsbD ((i + 7) % 8) ^^ (0x63#8).getLsbD i

/-- section 5.1.1, (5.1): the affine transformation -/
def affine (b : Byte) : Byte :=
  BitVec.ofBoolListLE [affineBit b 0, affineBit b 1, affineBit b 2, affineBit b 3, affineBit b 4, affineBit b 5,
    affineBit b 6, affineBit b 7]

/-- the S-box -/
def sub (a : Byte) : Byte := affine (inv a)

abbrev State := Fin 4 → Fin 4 → Byte

/-- section 5.1.1 SubBytes -/
def subBytes (s : State) : State := fun r c => sub (s r c)

/-- section 5.1.2 ShiftRows -/
def shiftRows (s : State) : State := fun r c => s r (c + r)

/-- section 5.1.3, (5.6) MixColumns -/
def mixColumns (s : State) : State := fun r c =>
  mul 2#8 (s r c) ^^^ mul 3#8 (s (r + 1) c) ^^^ s (r + 2) c ^^^ s (r + 3) c

/-- section 5.2: word `i` of the key schedule, byte `r` -/
def word (key : Fin 4 → Fin 4 → Byte) (i : Nat) (r : Fin 4) : Byte :=
  if h : i < 4 then key ⟨i, h⟩ r
  else
    let temp : Byte := if i % 4 = 0 then
        sub (word key (i - 1) (r + 1)) ^^^ (if r = 0 then pow 2#8 (i / 4 - 1) else 0#8)
      else word key (i - 1) r
    word key (i - 4) r ^^^ temp
termination_by i

/-- section 5.1.4 AddRoundKey with round key `n` -/
def addRoundKey (key : Fin 4 → Fin 4 → Byte) (n : Nat) (s : State) : State := fun r c => s r c ^^^ word key (4 * n + c) r

/-- figure 5: rounds 1 to `n` -/
def rounds (key : Fin 4 → Fin 4 → Byte) (s : State) : Nat → State
  | 0 => addRoundKey key 0 s
  | n + 1 => addRoundKey key (n + 1) (mixColumns (shiftRows (subBytes (rounds key s n))))

/-- figure 5: the cipher on a state -/
def cipher (key : Fin 4 → Fin 4 → Byte) (s : State) : State :=
  addRoundKey key 10 (shiftRows (subBytes (rounds key s 9)))

/-- byte `i` of a block -/
def byte (b : Block) (i : Nat) (h : i < 16) : Byte := b.1[i]'(by rw [b.2]; exact h)

/-- section 3.4: `s[r,c] = in[r + 4c]`, the words of the key being its consecutive groups of four bytes -/
def encrypt (key b : Block) : Block :=
  let s := cipher (fun i r => byte key (r + 4 * i) (by omega)) (fun r c => byte b (r + 4 * c) (by omega))
  ⟨(List.finRange 16).map fun i : Fin 16 => s ⟨i.1 % 4, by omega⟩ ⟨i.1 / 4, by omega⟩, by simp⟩

end Osdp.Spec.Fips197
