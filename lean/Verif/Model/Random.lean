import Verif.Model.Base

/-!
# Random bytes of the bundled crypto: src/crypto/tinyaes.c:49-57 `osdp_fill_random`

`buf[i] = (uint8_t)(((float)rnd) / RAND_MAX * 256)` with `rnd = rand()`.

Assumptions: RAND_MAX is 2^31 - 1; `float` is IEEE 754 single precision and expressions are evaluated in it
(FLT_EVAL_METHOD 0), rounding to nearest.  All values here are integers or integers divided by a power of two, so a
`float` of an integer is given as that integer.
-/

namespace Osdp.Random

/-- RAND_MAX (C library) -/
def randMax : Nat := 2 ^ 31 - 1

/-- `(float)n`: 24 significant bits, to nearest, ties to even -/
def toFloat (n : Nat) : Nat :=
  let u := 2 ^ (n.log2 - 23)
  let q := n / u
  let r := n % u
  if 2 * r < u then q * u
  else if 2 * r = u ∧ q % 2 = 0 then q * u
  else (q + 1) * u

/-- lines 54-55: one byte from one value of `rand()`.  `RAND_MAX` becomes a `float`, too, and that is 2^31, so that
the division and the multiplication are exact; the conversion to `uint8_t` cuts off the fraction and is undefined
(`none`) from 256 on. -/
def fillByte (rnd : Nat) : Option Byte :=
  let q := toFloat rnd * 256 / toFloat randMax
  if q < 256 then some (BitVec.ofNat 8 q) else none

end Osdp.Random
