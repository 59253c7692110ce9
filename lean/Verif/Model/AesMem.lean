import Verif.Model.Aes

/-!
# The bundled AES as it works on memory: src/crypto/tinyaes_src.c, src/crypto/tinyaes.c

`Model/Aes.lean` and `Model/Cbc.lean` give each step as a function.  Here the code is followed
store by store: the arrays are overwritten in place, pointers are indices, and an access outside
an array is a fault.  `uint8_t` arithmetic and the tables are those of `Model/Aes.lean`.

Simplifications: `len` is not negative (`int len` becomes a `size_t`); the exact self-copy
`memcpy(ctx->Iv, ctx->Iv, 16)` of `AES_CBC_encrypt_buffer` with no data is the identity.
-/

namespace Osdp.AesMem
open Osdp.Aes

/-- A piece of code working on one array: its reads and writes in order. -/
inductive Prog (α : Type) where
  | done (a : α)
  | load (i : Nat) (k : Byte → Prog α)
  | store (i : Nat) (v : Byte) (k : Prog α)
  | fault (f : Fault)

namespace Prog

def bind {α β : Type} : Prog α → (α → Prog β) → Prog β
  | done a, f => f a
  | load i k, f => load i fun b => bind (k b) f
  | store i v k, f => store i v (bind k f)
  | fault e, _ => fault e

instance : Monad Prog where
  pure := done
  bind := bind

/-- the same code with its pointer advanced by `o` bytes -/
def at_ {α : Type} (o : Nat) : Prog α → Prog α
  | done a => done a
  | load i k => load (o + i) fun b => at_ o (k b)
  | store i v k => store (o + i) v (at_ o k)
  | fault e => fault e

end Prog

/-- reading array element `i` -/
def ld (i : Nat) : Prog Byte := .load i .done
/-- writing array element `i` -/
def st (i : Nat) (v : Byte) : Prog Unit := .store i v (.done ())
/-- the outcome of something done outside the array -/
def other {α : Type} : Res α → Prog α
  | .ok a => .done a
  | .error e => .fault e

/-- a write to an array -/
def wr : List Byte → Nat → Byte → Res (List Byte)
  | [], _, _ => .error .oobWrite
  | _ :: m, 0, v => .ok (v :: m)
  | b :: m, i + 1, v => do
    let m ← wr m i v
    .ok (b :: m)

/-- a read from an array -/
def get : List Byte → Nat → Res Byte
  | [], _ => .error .oobRead
  | b :: _, 0 => .ok b
  | _ :: m, i + 1 => get m i

/-- what the code does to the array -/
def run {α : Type} : Prog α → List Byte → Res (α × List Byte)
  | .done a, m => .ok (a, m)
  | .load i k, m => do
    let b ← get m i
    run (k b) m
  | .store i v k, m => do
    let m ← wr m i v
    run k m
  | .fault e, _ => .error e

/-- `for (i = s; i < s + n; ++i)` -/
def loop (f : Nat → Prog Unit) : Nat → Nat → Prog Unit
  | _, 0 => pure ()
  | s, n + 1 => do
    f s
    loop f (s + 1) n

/-- lines 153-159: the first round key is the key itself (one iteration) -/
def copyWord (key : List Byte) (i : Nat) : Prog Unit := do
  st (i * 4 + 0) (← other (get key (i * 4 + 0)))
  st (i * 4 + 1) (← other (get key (i * 4 + 1)))
  st (i * 4 + 2) (← other (get key (i * 4 + 2)))
  st (i * 4 + 3) (← other (get key (i * 4 + 3)))

/-- lines 172-199: `tempa` where `i % Nk == 0`, otherwise unchanged -/
def tempa (i : Nat) (t : Word) : Word :=
  if i % 4 = 0 then
    let u8tmp := t.b0
    let t : Word := ⟨t.b1, t.b2, t.b3, u8tmp⟩
    let t : Word := ⟨sbox t.b0, sbox t.b1, sbox t.b2, sbox t.b3⟩
    ⟨t.b0 ^^^ rconTable.getD (i / 4) 0#8, t.b1, t.b2, t.b3⟩
  else t

/-- lines 162-216: one iteration of the second loop of `KeyExpansion` -/
def expandWord (i : Nat) : Prog Unit := do
  let k := (i - 1) * 4
  let t0 ← ld (k + 0)
  let t1 ← ld (k + 1)
  let t2 ← ld (k + 2)
  let t3 ← ld (k + 3)
  let t := tempa i ⟨t0, t1, t2, t3⟩
  let j := i * 4
  let k := (i - 4) * 4
  st (j + 0) ((← ld (k + 0)) ^^^ t.b0)
  st (j + 1) ((← ld (k + 1)) ^^^ t.b1)
  st (j + 2) ((← ld (k + 2)) ^^^ t.b2)
  st (j + 3) ((← ld (k + 3)) ^^^ t.b3)

/-- lines 146-217 `KeyExpansion` on `RoundKey` (Nk = 4, Nb = 4, Nr = 10) -/
def keyExpansion (key : List Byte) : Prog Unit := do
  loop (copyWord key) 0 4
  loop expandWord 4 40

/-- lines 237-247 `AddRoundKey`; `(*state)[i][j]` is byte `4 * i + j` at `state` -/
def addRoundKey (rk : List Byte) (round : Nat) : Prog Unit :=
  loop (fun i => loop (fun j => do
    st (4 * i + j) ((← ld (4 * i + j)) ^^^ (← other (get rk (round * 4 * 4 + i * 4 + j))))) 0 4) 0 4

/-- lines 251-261 `SubBytes` -/
def subBytes : Prog Unit :=
  loop (fun i => loop (fun j => do st (4 * j + i) (sbox (← ld (4 * j + i)))) 0 4) 0 4

/-- lines 266-292 `ShiftRows` -/
def shiftRows : Prog Unit := do
  let temp ← ld (4 * 0 + 1)
  st (4 * 0 + 1) (← ld (4 * 1 + 1))
  st (4 * 1 + 1) (← ld (4 * 2 + 1))
  st (4 * 2 + 1) (← ld (4 * 3 + 1))
  st (4 * 3 + 1) temp
  let temp ← ld (4 * 0 + 2)
  st (4 * 0 + 2) (← ld (4 * 2 + 2))
  st (4 * 2 + 2) temp
  let temp ← ld (4 * 1 + 2)
  st (4 * 1 + 2) (← ld (4 * 3 + 2))
  st (4 * 3 + 2) temp
  let temp ← ld (4 * 0 + 3)
  st (4 * 0 + 3) (← ld (4 * 3 + 3))
  st (4 * 3 + 3) (← ld (4 * 2 + 3))
  st (4 * 2 + 3) (← ld (4 * 1 + 3))
  st (4 * 1 + 3) temp

/-- lines 300-313 `MixColumns`: one iteration -/
def mixColumn (i : Nat) : Prog Unit := do
  let t ← ld (4 * i + 0)
  let tmp := (← ld (4 * i + 0)) ^^^ (← ld (4 * i + 1)) ^^^ (← ld (4 * i + 2)) ^^^ (← ld (4 * i + 3))
  let tm := xtime ((← ld (4 * i + 0)) ^^^ (← ld (4 * i + 1)))
  st (4 * i + 0) ((← ld (4 * i + 0)) ^^^ (tm ^^^ tmp))
  let tm := xtime ((← ld (4 * i + 1)) ^^^ (← ld (4 * i + 2)))
  st (4 * i + 1) ((← ld (4 * i + 1)) ^^^ (tm ^^^ tmp))
  let tm := xtime ((← ld (4 * i + 2)) ^^^ (← ld (4 * i + 3)))
  st (4 * i + 2) ((← ld (4 * i + 2)) ^^^ (tm ^^^ tmp))
  let tm := xtime ((← ld (4 * i + 3)) ^^^ t)
  st (4 * i + 3) ((← ld (4 * i + 3)) ^^^ (tm ^^^ tmp))

/-- lines 300-313 `MixColumns` -/
def mixColumns : Prog Unit := loop mixColumn 0 4

/-- lines 350-366 `InvMixColumns`: one iteration -/
def invMixColumn (i : Nat) : Prog Unit := do
  let a ← ld (4 * i + 0)
  let b ← ld (4 * i + 1)
  let c ← ld (4 * i + 2)
  let d ← ld (4 * i + 3)
  st (4 * i + 0) (multiply a 0x0e#8 ^^^ multiply b 0x0b#8 ^^^ multiply c 0x0d#8 ^^^ multiply d 0x09#8)
  st (4 * i + 1) (multiply a 0x09#8 ^^^ multiply b 0x0e#8 ^^^ multiply c 0x0b#8 ^^^ multiply d 0x0d#8)
  st (4 * i + 2) (multiply a 0x0d#8 ^^^ multiply b 0x09#8 ^^^ multiply c 0x0e#8 ^^^ multiply d 0x0b#8)
  st (4 * i + 3) (multiply a 0x0b#8 ^^^ multiply b 0x0d#8 ^^^ multiply c 0x09#8 ^^^ multiply d 0x0e#8)

/-- lines 350-366 `InvMixColumns` -/
def invMixColumns : Prog Unit := loop invMixColumn 0 4

/-- lines 371-381 `InvSubBytes` -/
def invSubBytes : Prog Unit :=
  loop (fun i => loop (fun j => do st (4 * j + i) (rsbox (← ld (4 * j + i)))) 0 4) 0 4

/-- lines 383-409 `InvShiftRows` -/
def invShiftRows : Prog Unit := do
  let temp ← ld (4 * 3 + 1)
  st (4 * 3 + 1) (← ld (4 * 2 + 1))
  st (4 * 2 + 1) (← ld (4 * 1 + 1))
  st (4 * 1 + 1) (← ld (4 * 0 + 1))
  st (4 * 0 + 1) temp
  let temp ← ld (4 * 0 + 2)
  st (4 * 0 + 2) (← ld (4 * 2 + 2))
  st (4 * 2 + 2) temp
  let temp ← ld (4 * 1 + 2)
  st (4 * 1 + 2) (← ld (4 * 3 + 2))
  st (4 * 3 + 2) temp
  let temp ← ld (4 * 0 + 3)
  st (4 * 0 + 3) (← ld (4 * 1 + 3))
  st (4 * 1 + 3) (← ld (4 * 2 + 3))
  st (4 * 2 + 3) (← ld (4 * 3 + 3))
  st (4 * 3 + 3) temp

/-- lines 425-433: the loop of `Cipher` from `round` on, `Nr - round` being the first argument -/
def cipherRounds (rk : List Byte) : Nat → Nat → Prog Unit
  | 0, _ => do
    subBytes
    shiftRows
  | n + 1, round => do
    subBytes
    shiftRows
    mixColumns
    addRoundKey rk round
    cipherRounds rk n (round + 1)

/-- lines 413-436 `Cipher` -/
def cipher (rk : List Byte) : Prog Unit := do
  addRoundKey rk 0
  cipherRounds rk 9 1
  addRoundKey rk 10

/-- lines 449-458: the loop of `InvCipher` from `round` down -/
def invCipherRounds (rk : List Byte) : Nat → Prog Unit
  | 0 => do
    invShiftRows
    invSubBytes
    addRoundKey rk 0
  | round + 1 => do
    invShiftRows
    invSubBytes
    addRoundKey rk (round + 1)
    invMixColumns
    invCipherRounds rk round

/-- lines 439-461 `InvCipher` -/
def invCipher (rk : List Byte) : Prog Unit := do
  addRoundKey rk 10
  invCipherRounds rk 9

/-- lines 492-499 `XorWithIv`, `buf` at byte `buf` of the data; `iv i` reads `Iv[i]` -/
def xorWithIv (buf : Nat) (iv : Nat → Prog Byte) : Prog Unit :=
  loop (fun i => do st (buf + i) ((← ld (buf + i)) ^^^ (← iv i))) 0 16

/-- `struct AES_ctx` (tinyaes_src.h:44-50) -/
structure Ctx where
  roundKey : List Byte
  iv : List Byte
  deriving DecidableEq

/-- the pointer `Iv` of `AES_CBC_encrypt_buffer`: `ctx->Iv`, or a place in the data -/
def ivAt (c : Ctx) : Option Nat → Nat → Prog Byte
  | none, i => other (get c.iv i)
  | some p, i => ld (p + i)

/-- lines 505-511: the loop of `AES_CBC_encrypt_buffer`, the first argument being the number of
iterations left; results in the last value of `Iv` -/
def cbcEncLoop (c : Ctx) : Nat → (buf : Nat) → (iv : Option Nat) → Prog (Option Nat)
  | 0, _, iv => pure iv
  | n + 1, buf, iv => do
    xorWithIv buf (ivAt c iv)
    Prog.at_ buf (cipher c.roundKey)
    cbcEncLoop c n (buf + 16) (some buf)

/-- `memcpy(dst, src, 16)`: the 16 bytes `src` reads -/
def read16 (src : Nat → Prog Byte) : Nat → Nat → Prog (List Byte)
  | _, 0 => pure []
  | s, n + 1 => do
    let b ← src s
    let l ← read16 src (s + 1) n
    pure (b :: l)

/-- the number of iterations of `for (i = 0; i < length; i += 16)` -/
def blocksOf (length : Nat) : Nat := (length + 15) / 16

/-- lines 501-514 `AES_CBC_encrypt_buffer` on the data -/
def cbcEncrypt (c : Ctx) (length : Nat) : Prog Ctx := do
  let iv ← cbcEncLoop c (blocksOf length) 0 none
  let last ← read16 (ivAt c iv) 0 16
  pure { c with iv := last }

/-- lines 516-529: the loop of `AES_CBC_decrypt_buffer` -/
def cbcDecLoop : Ctx → Nat → (buf : Nat) → Prog Ctx
  | c, 0, _ => pure c
  | c, n + 1, buf => do
    let storeNextIv ← read16 (fun i => ld (buf + i)) 0 16
    Prog.at_ buf (invCipher c.roundKey)
    xorWithIv buf (fun i => other (get c.iv i))
    cbcDecLoop { c with iv := storeNextIv } n (buf + 16)

/-- the first 16 bytes of an array (`memcpy` from it) -/
def take16 (l : List Byte) : Res (List Byte) := if 16 ≤ l.length then .ok (l.take 16) else .error .oobRead

/-- lines 221-230 `AES_init_ctx`, `AES_init_ctx_iv`; `c` is what the stack held -/
def initCtx (c : Ctx) (key : List Byte) (iv : Option (List Byte)) : Res Ctx := do
  let (_, rk) ← run (keyExpansion key) c.roundKey
  match iv with
  | none => .ok { c with roundKey := rk }
  | some iv => do
    let iv ← take16 iv
    .ok ⟨rk, iv⟩

/-- src/crypto/tinyaes.c:17-31 `osdp_encrypt`: the data afterwards -/
def osdpEncrypt (stack : Ctx) (key : List Byte) (iv : Option (List Byte)) (data : List Byte) (len : Nat) : Res (List Byte) :=
  match iv with
  | some iv => do
    let c ← initCtx stack key (some iv)
    let (_, data) ← run (cbcEncrypt c len) data
    .ok data
  | none =>
    if len ≤ 16 then do
      let c ← initCtx stack key none
      let (_, data) ← run (cipher c.roundKey) data
      .ok data
    else .error .assertFail

/-- src/crypto/tinyaes.c:33-47 `osdp_decrypt`: the data afterwards -/
def osdpDecrypt (stack : Ctx) (key : List Byte) (iv : Option (List Byte)) (data : List Byte) (len : Nat) : Res (List Byte) :=
  match iv with
  | some iv => do
    let c ← initCtx stack key (some iv)
    let (_, data) ← run (cbcDecLoop c (blocksOf len) 0) data
    .ok data
  | none =>
    if len ≤ 16 then do
      let c ← initCtx stack key none
      let (_, data) ← run (invCipher c.roundKey) data
      .ok data
    else .error .assertFail

end Osdp.AesMem
