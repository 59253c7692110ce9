import Verif.Model.ScMem

/-!
# Keys and cryptograms as they are computed in memory: src/osdp_sc.c:17-131, 219-245

`Model/Sc.lean` gives their results; here the functions run on `struct osdp_secure_channel` (src/osdp_common.h:353-365), an array of
152 bytes in which every member begins at a fixed index (arrays of `uint8_t` are not padded), with the bundled AES of
`Model/AesMem.lean`.

Simplifications: of `osdp_sc_setup` the CP's branch only (the PD never calls it); the bytes of `osdp_fill_random` are an argument.
-/

namespace Osdp.KeyMem
open Osdp.AesMem

/-! ### src/osdp_common.h:353-365: where the members begin -/
abbrev SCBK : Nat := 0
abbrev S_ENC : Nat := 16
abbrev S_MAC1 : Nat := 32
abbrev S_MAC2 : Nat := 48
abbrev R_MAC : Nat := 64
abbrev C_MAC : Nat := 80
abbrev CP_RANDOM : Nat := 96
abbrev PD_RANDOM : Nat := 104
abbrev CLIENT_UID : Nat := 112
abbrev CP_CRYPTOGRAM : Nat := 120
abbrev PD_CRYPTOGRAM : Nat := 136
/-- `sizeof(struct osdp_secure_channel)` -/
abbrev SIZE : Nat := 152

/-- `memcpy` within the array -/
def copy (d s n : Nat) : Prog Unit := loop (fun i => do st (d + i) (← ld (s + i))) 0 n
/-- `memcpy` from another array -/
def copyFrom (src : List Byte) (d n : Nat) : Prog Unit := loop (fun i => do st (d + i) (← other (get src i))) 0 n
/-- `memset(.., 0, n)` -/
def zero (d n : Nat) : Prog Unit := loop (fun i => st (d + i) 0#8) 0 n

/-- `n` bytes from index `o` on, as the callee reads them -/
def slice (m : List Byte) (o n : Nat) : List Byte := (m.drop o).take n

/-- `osdp_encrypt(key, NULL, data, 16)`, the data at index `o` -/
def encryptAt (stack : Ctx) (key : List Byte) (m : List Byte) (o : Nat) : Res (List Byte) :=
  ScMem.at_ (osdpEncrypt stack key none) m o 16

/-- lines 17-26 `osdp_compute_scbk`, `scbk` pointing `o` bytes into `buf` -/
def computeScbk (stack : Ctx) (sc master buf : List Byte) (o : Nat) : Res (List Byte) := do
  let (_, buf) ← run (do
    copyFrom (slice sc CLIENT_UID 8) o 8
    loop (fun i => do st (o + i) (~~~ (← ld (o + (i - 8))))) 8 8) buf
  encryptAt stack master buf o

/-- lines 33-37: the local copy of the base key -/
def baseKey (useScbkd : Bool) (sc : List Byte) : List Byte := if useScbkd then Sc.scbkDefault.1 else slice sc SCBK 16

/-- lines 39-54: what is encrypted into the session keys -/
def seeds : Prog Unit := do
  zero S_ENC 16
  zero S_MAC1 16
  zero S_MAC2 16
  st (S_ENC + 0) 0x01#8
  st (S_ENC + 1) 0x82#8
  st (S_MAC1 + 0) 0x01#8
  st (S_MAC1 + 1) 0x01#8
  st (S_MAC2 + 0) 0x01#8
  st (S_MAC2 + 1) 0x02#8
  loop (fun i => do
    st (S_ENC + i) (← ld (CP_RANDOM + (i - 2)))
    st (S_MAC1 + i) (← ld (CP_RANDOM + (i - 2)))
    st (S_MAC2 + i) (← ld (CP_RANDOM + (i - 2)))) 2 6

/-- lines 28-59 `osdp_compute_session_keys` -/
def sessionKeys (stack : Ctx) (useScbkd : Bool) (sc : List Byte) : Res (List Byte) := do
  let scbk := baseKey useScbkd sc
  let (_, sc) ← run seeds sc
  let sc ← encryptAt stack scbk sc S_ENC
  let sc ← encryptAt stack scbk sc S_MAC1
  encryptAt stack scbk sc S_MAC2

/-- lines 61-67 `osdp_compute_cp_cryptogram` -/
def cpCryptogram (stack : Ctx) (sc : List Byte) : Res (List Byte) := do
  let (_, sc) ← run (do copy (CP_CRYPTOGRAM + 0) PD_RANDOM 8; copy (CP_CRYPTOGRAM + 8) CP_RANDOM 8) sc
  encryptAt stack (slice sc S_ENC 16) sc CP_CRYPTOGRAM

/-- lines 102-108 `osdp_compute_pd_cryptogram` -/
def pdCryptogram (stack : Ctx) (sc : List Byte) : Res (List Byte) := do
  let (_, sc) ← run (do copy (PD_CRYPTOGRAM + 0) CP_RANDOM 8; copy (PD_CRYPTOGRAM + 8) PD_RANDOM 8) sc
  encryptAt stack (slice sc S_ENC 16) sc PD_CRYPTOGRAM

/-- lines 75-85 `osdp_ct_compare`: the differences of all bytes, one over the other -/
def ctCompare (a b : List Byte) : Nat → Nat → Byte → Res Byte
  | _, 0, r => .ok r
  | i, n + 1, r => do
    let x ← get a i
    let y ← get b i
    ctCompare a b (i + 1) n (r ||| (x ^^^ y))

/-- lines 87-100 `osdp_verify_cp_cryptogram`: is the value returned 0; `junk` is what was in the local array -/
def verifyCp (stack : Ctx) (sc junk : List Byte) : Res Bool := do
  let (_, loc) ← run (do copyFrom (slice sc PD_RANDOM 8) 0 8; copyFrom (slice sc CP_RANDOM 8) 8 8) junk
  let loc ← encryptAt stack (slice sc S_ENC 16) loc 0
  let r ← ctCompare (slice sc CP_CRYPTOGRAM 16) loc 0 16 0#8
  .ok (r = 0#8)

/-- lines 110-123 `osdp_verify_pd_cryptogram` -/
def verifyPd (stack : Ctx) (sc junk : List Byte) : Res Bool := do
  let (_, loc) ← run (do copyFrom (slice sc CP_RANDOM 8) 0 8; copyFrom (slice sc PD_RANDOM 8) 8 8) junk
  let loc ← encryptAt stack (slice sc S_ENC 16) loc 0
  let r ← ctCompare (slice sc PD_CRYPTOGRAM 16) loc 0 16 0#8
  .ok (r = 0#8)

/-- lines 125-131 `osdp_compute_rmac_i` -/
def rmacI (stack : Ctx) (sc : List Byte) : Res (List Byte) := do
  let (_, sc) ← run (copy R_MAC CP_CRYPTOGRAM 16) sc
  let sc ← encryptAt stack (slice sc S_MAC1 16) sc R_MAC
  encryptAt stack (slice sc S_MAC2 16) sc R_MAC

/-- lines 219-245 `osdp_sc_setup` on the CP; `random`: the bytes of `osdp_fill_random` -/
def setup (hasScbk : Bool) (random sc : List Byte) : Res (List Byte) := do
  let scbk := slice sc SCBK 16
  let (_, sc) ← run (do
    zero 0 SIZE
    if hasScbk then copyFrom scbk SCBK 16 else pure ()
    copyFrom random CP_RANDOM 8) sc
  .ok sc

end Osdp.KeyMem
