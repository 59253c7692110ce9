import Verif.Spec.Fips197

/-!
# Specification: cipher block chaining (NIST SP 800-38A, section 6.2) with AES-128

`C_1 = CIPH(P_1 xor IV)`, `C_j = CIPH(P_j xor C_{j-1})`.
-/

namespace Osdp.Spec.Cbc

/-- block number `j` (from 0) of a byte string -/
def block (l : List Byte) (j : Nat) : List Byte := (l.drop (16 * j)).take 16

/-- `cipher` is `plain` encrypted under `key` with initialisation vector `iv`; both whole blocks -/
def Chained (key iv : Block) (plain cipher : List Byte) : Prop :=
  cipher.length = plain.length ∧ ∀ j, 16 * j < plain.length →
    ∃ p prev : Block, p.1 = block plain j ∧ prev.1 = (if j = 0 then iv.1 else block cipher (j - 1)) ∧
      block cipher j = (Fips197.encrypt key (p.xor prev)).1

end Osdp.Spec.Cbc
