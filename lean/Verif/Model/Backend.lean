import Verif.Model.Sc

/-!
# The three cipher back ends: src/crypto/tinyaes.c, openssl.c, mbedtls.c, and src/osdp_sc.c on top of them

The functions of a back end work on the bytes from `data` on (`mem`, up to the end of the array) and may change the initial
value they are handed.  The cipher `C` is the one of all libraries.

The libraries themselves are taken from their documentation:
* `EVP_EncryptUpdate`/`EVP_DecryptUpdate` with padding off process the whole blocks, in place; they fail for a negative length;
  `EVP_EncryptFinal_ex`/`EVP_DecryptFinal_ex` fail if bytes are left over.  Allocation does not fail.
* `mbedtls_aes_crypt_cbc` fails for a length that is not a multiple of 16, works in place and leaves the last block of cipher
  text in `iv`; `mbedtls_aes_crypt_ecb` does one block.  Setting a key does not fail.
A failing `assert` and `osdp_openssl_fatal` end the process: `assertFail`.
-/

namespace Osdp.Backend

/-- what the library was built with -/
inductive Lib where
  | tinyaes
  | openssl
  | mbedtls
  deriving DecidableEq, Repr

/-- the first `n` blocks of `mem` are replaced -/
def inPlace (f : List Block → List Block) (mem : List Byte) (n : Nat) : Res (List Byte) :=
  if 16 * n ≤ mem.length then .ok (ofBlocks (f (toBlocks (mem.take (16 * n)))) ++ mem.drop (16 * n)) else .error .oobWrite

/-- the last of the first `n` blocks of `mem` -/
def lastBlock (v : Block) (mem : List Byte) (n : Nat) : Block := ((toBlocks (mem.take (16 * n))).getLast?).getD v

/-- src/crypto/tinyaes.c:17-47, tinyaes_src.c:501-529: an incomplete block at the end is processed like a whole one; the initial
value is copied into the context -/
def tinyaes (cbc : Block → List Block → List Block) (ecb : Block → Block) (iv : Option Block) (mem : List Byte) (len : Int) :
    Res (Option Block × List Byte) :=
  match iv with
  | some v => if len < 0 then .error .oobWrite else do .ok (some v, ← inPlace (cbc v) mem ((len.toNat + 15) / 16))
  | none => if len > 16 then .error .assertFail else do .ok (none, ← inPlace (List.map ecb) mem 1)

/-- src/crypto/openssl.c:31-101 -/
def openssl (cbc : Block → List Block → List Block) (ecb : Block → Block) (iv : Option Block) (mem : List Byte) (len : Int) :
    Res (Option Block × List Byte) :=
  if len < 0 then .error .assertFail
  else do
    let m ← inPlace (match iv with | some v => cbc v | none => List.map ecb) mem (len.toNat / 16)
    if len % 16 ≠ 0 then .error .assertFail else .ok (iv, m)

/-- src/crypto/mbedtls.c:39-81; `len` becomes a `size_t` -/
def mbedtls (enc : Bool) (cbc : Block → List Block → List Block) (ecb : Block → Block) (iv : Option Block) (mem : List Byte) (len : Int) :
    Res (Option Block × List Byte) :=
  match iv with
  | some v =>
    if len % 16 ≠ 0 then .error .assertFail
    else if len < 0 then .error .oobWrite
    else do
      let m ← inPlace (cbc v) mem (len.toNat / 16)
      .ok (some (lastBlock v (if enc then m else mem) (len.toNat / 16)), m)
  | none => if len > 16 then .error .assertFail else do .ok (none, ← inPlace (List.map ecb) mem 1)

/-- `osdp_encrypt`: src/crypto/tinyaes.c:17-31, openssl.c:31-65, mbedtls.c:39-59 -/
def encrypt (lib : Lib) (C : Cipher) (key : Block) : Option Block → List Byte → Int → Res (Option Block × List Byte) :=
  match lib with
  | .tinyaes => tinyaes (cbcEnc C key) (C.enc key)
  | .openssl => openssl (cbcEnc C key) (C.enc key)
  | .mbedtls => mbedtls true (cbcEnc C key) (C.enc key)

/-- `osdp_decrypt`: src/crypto/tinyaes.c:33-47, openssl.c:67-101, mbedtls.c:61-81 -/
def decrypt (lib : Lib) (C : Cipher) (key : Block) : Option Block → List Byte → Int → Res (Option Block × List Byte) :=
  match lib with
  | .tinyaes => tinyaes (cbcDec C key) (C.dec key)
  | .openssl => openssl (cbcDec C key) (C.dec key)
  | .mbedtls => mbedtls false (cbcDec C key) (C.dec key)

/-- the block at `o` -/
def blockAt (mem : List Byte) (o : Nat) : Res Block :=
  match toBlocks (mem.drop o) with
  | b :: _ => .ok b
  | [] => .error .oobRead

/-- `osdp_encrypt(key, NULL, block, 16)`: every call of src/osdp_sc.c:17-131 -/
def one (lib : Lib) (C : Cipher) (key b : Block) : Res Block := do
  let (_, m) ← encrypt lib C key none b.1 16
  blockAt m 0

/-- src/osdp_sc.c:56-58: the session keys -/
def sessionKeys (lib : Lib) (C : Cipher) (useScbkd : Bool) (sc : Sc) : Res Sc := do
  let k := Sc.baseKey useScbkd sc
  let sEnc ← one lib C k (Sc.keySeed 0x82#8 sc.cpRandom)
  let sMac1 ← one lib C k (Sc.keySeed 0x01#8 sc.cpRandom)
  let sMac2 ← one lib C k (Sc.keySeed 0x02#8 sc.cpRandom)
  .ok { sc with sEnc, sMac1, sMac2 }

/-- src/osdp_sc.c:61-67, 102-108: the two cryptograms -/
def cryptograms (lib : Lib) (C : Cipher) (sc : Sc) : Res (Block × Block) := do
  let cp ← one lib C sc.sEnc (Bytes.join sc.pdRandom sc.cpRandom)
  let pd ← one lib C sc.sEnc (Bytes.join sc.cpRandom sc.pdRandom)
  .ok (cp, pd)

/-- src/osdp_sc.c:125-131 -/
def rmacI (lib : Lib) (C : Cipher) (sc : Sc) : Res Block := do
  one lib C sc.sMac2 (← one lib C sc.sMac1 sc.cpCryptogram)

/-- src/osdp_sc.c:165-183 `osdp_encrypt_data`: the value returned and the bytes from `data` on -/
def encryptData (lib : Lib) (C : Cipher) (isCmd : Bool) (sc : Sc) (mem : List Byte) (length : Nat) : Res (Nat × List Byte) :=
  if mem.length < Sc.aesPadLen (length + 1) then .error .oobWrite
  else do
    let (_, m) ← encrypt lib C sc.sEnc (some (Sc.dataIv isCmd sc))
      (Sc.padData (mem.take length) ++ mem.drop (Sc.aesPadLen (length + 1))) (Sc.aesPadLen (length + 1))
    .ok (Sc.aesPadLen (length + 1), m)

/-- src/osdp_sc.c:133-163 `osdp_decrypt_data`: `none` for a negative value, else the data (that the marker is overwritten is left
out; for `length = 0` see `Sc.decryptData`) -/
def decryptData (lib : Lib) (C : Cipher) (allowEmpty isCmd : Bool) (sc : Sc) (mem : List Byte) (length : Int) :
    Res (Option (List Byte)) :=
  if length % 16 ≠ 0 then .ok none
  else if allowEmpty ∧ length = 0 then .ok (some [])
  else do
    let (_, m) ← decrypt lib C sc.sEnc (some (Sc.dataIv isCmd sc)) mem length
    .ok (Sc.stripPad (m.take length.toNat))

/-- src/osdp_sc.c:204-209: the blocks before the last; what is then in `iv` and `buf` -/
def macChain (lib : Lib) (C : Cipher) (k1 iv : Block) (buf : List Byte) (pad : Nat) : Res (Block × List Byte) :=
  if pad > 16 then do
    let (_, m) ← encrypt lib C k1 (some iv) buf ((pad - 16 : Nat) : Int)
    .ok (← blockAt m (pad - 32), m)
  else .ok (iv, buf)

/-- src/osdp_sc.c:185-217 `osdp_compute_mac` -/
def computeMac (lib : Lib) (C : Cipher) (isCmd : Bool) (sc : Sc) (data : List Byte) : Res Sc :=
  if data.length > 256 then .error .oobWrite
  else if data = [] then .error .oobRead
  else do
    let padded := Sc.padMac data
    let buf := padded ++ List.replicate (256 - padded.length) 0#8
    let (iv, buf) ← macChain lib C sc.sMac1 (if isCmd then sc.rMac else sc.cMac) buf padded.length
    let (_, m) ← encrypt lib C sc.sMac2 (some iv) (buf.drop (padded.length - 16)) 16
    let mac ← blockAt m 0
    .ok (if isCmd then { sc with cMac := mac } else { sc with rMac := mac })

/-! ### the life of the objects of src/crypto/mbedtls.c:17-19, which all devices of a process share -/

/-- what a device does with the back end -/
inductive Use where
  /-- `osdp_crypt_setup` -/
  | setup
  /-- `osdp_fill_random` -/
  | draw
  /-- a block is enciphered or deciphered -/
  | cipher
  /-- `osdp_crypt_teardown` -/
  | teardown
  deriving DecidableEq, Repr

/-- is the generator seeded, has the cipher object been initialised (and not freed since) -/
structure Objects where
  seeded : Bool := false
  cipher : Bool := false
  deriving DecidableEq, Repr

/-- src/crypto/mbedtls.c:21-37, 83-96 and the two empty functions of the others; the Boolean: only objects that are ready were used -/
def use (lib : Lib) (s : Objects) (u : Use) : Objects × Bool :=
  match lib, u with
  | .mbedtls, .setup => (⟨true, true⟩, true)
  | .mbedtls, .draw => (s, s.seeded)
  | .mbedtls, .cipher => (s, s.cipher)
  | .mbedtls, .teardown => (⟨false, false⟩, true)
  | _, _ => (s, true)

/-- for each use in turn whether the objects were ready -/
def ready (lib : Lib) : Objects → List Use → List (Use × Bool)
  | _, [] => []
  | s, u :: us => (u, (use lib s u).2) :: ready lib (use lib s u).1 us

/-- what a device does -/
inductive Act where
  /-- a CP begins a handshake with one of its PDs: src/osdp_cp.c:1208 -/
  | challenge
  /-- a PD answers the challenge: src/osdp_pd.c:872-880 -/
  | answer
  /-- keys, cryptograms, data and MACs -/
  | crypt
  /-- the end of an active session: src/osdp_common.h:552-558 -/
  | drop
  deriving DecidableEq, Repr

/-- src/osdp_sc.c:219-245 (`osdp_sc_setup`, the only caller of `osdp_crypt_setup`), src/osdp_pd.c:876-878, src/osdp_sc.c:247-251 -/
def Act.uses : Act → List Use
  | .challenge => [.setup, .draw]
  | .answer => [.draw, .cipher]
  | .crypt => [.cipher]
  | .drop => [.teardown]

/-- the history of a process, from its start, with all its devices -/
def history (lib : Lib) (acts : List Act) : List (Use × Bool) := ready lib {} (acts.flatMap Act.uses)

end Osdp.Backend
