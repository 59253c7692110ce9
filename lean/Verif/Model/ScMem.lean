import Verif.Model.AesMem
import Verif.Model.Sc

/-!
# The data functions of the secure channel as they work on memory: src/osdp_sc.c:133-217

`Model/Sc.lean` gives their results; here they run on the buffer, with the bundled AES of
`Model/AesMem.lean`.  A pointer into a buffer is its index.

Simplifications: lengths are not negative.  `iv` is computed as a value (`Sc.dataIv`).
-/

namespace Osdp.ScMem
open Osdp.AesMem

/-- `osdp_encrypt`/`osdp_decrypt` called with a pointer `o` bytes into the buffer -/
def at_ (f : List Byte → Nat → Res (List Byte)) (buf : List Byte) (o len : Nat) : Res (List Byte) := do
  let out ← f (buf.drop o) len
  .ok (buf.take o ++ out)

/-- lines 170-174: marker and zeros -/
def pad (length : Nat) : Prog Unit := do
  st length 0x80#8
  loop (fun i => st i 0#8) (length + 1) (Sc.aesPadLen (length + 1) - length - 1)

/-- lines 165-183 `osdp_encrypt_data`, `data` at index `o`: the length returned and the buffer -/
def encryptData (stack : Ctx) (isCmd : Bool) (sc : Sc) (buf : List Byte) (o length : Nat) : Res (Nat × List Byte) := do
  let (_, buf) ← run (Prog.at_ o (pad length)) buf
  let buf ← at_ (osdpEncrypt stack sc.sEnc.1 (some (Sc.dataIv isCmd sc).1)) buf o (Sc.aesPadLen (length + 1))
  .ok (Sc.aesPadLen (length + 1), buf)

/-- lines 154-156: `while (length && data[length] == 0x00) length--`.  The argument is one more than
the place of `data[length]` in the buffer, 0 standing for a place before it; results in the place
where the loop stops. -/
def scan (buf : List Byte) (o : Nat) : Nat → Res Nat
  | 0 => .error .oobRead
  | p + 1 =>
    if p = o then .ok p
    else do
      let b ← get buf p
      if b = 0#8 then scan buf o p else .ok p

/-- lines 153-162: from `length--` on -/
def unpad (buf : List Byte) (o length : Nat) : Res (Int × List Byte) := do
  let p ← scan buf o (o + length)
  let b ← get buf p
  if b ≠ 0x80#8 then .ok (-1, buf)
  else do
    let buf ← wr buf p 0#8
    .ok ((p : Int) - o, buf)

/-- lines 133-163 `osdp_decrypt_data`, `data` at index `o`: the value returned and the buffer -/
def decryptData (stack : Ctx) (allowEmpty isCmd : Bool) (sc : Sc) (buf : List Byte) (o length : Nat) : Res (Int × List Byte) :=
  if length % 16 ≠ 0 then .ok (-1, buf)
  else if allowEmpty ∧ length = 0 then .ok (0, buf)
  else do
    let buf ← at_ (osdpDecrypt stack sc.sEnc.1 (some (Sc.dataIv isCmd sc).1)) buf o length
    unpad buf o length

/-- lines 192-196: the copy of the message in the local buffer, and its end marker -/
def copyMsg (data : List Byte) : Prog Unit := do
  loop (fun i => do st i (← other (get data i))) 0 data.length
  if data.length % 16 ≠ 0 then st data.length 0x80#8 else pure ()

/-- lines 205-210: all blocks but the last; the buffer and the next initial vector -/
def macFirst (stack : Ctx) (k1 iv buf : List Byte) (padLen : Nat) : Res (List Byte × List Byte) :=
  if padLen > 16 then do
    let buf ← osdpEncrypt stack k1 (some iv) buf (padLen - 16)
    let (iv, _) ← run (read16 (fun i => ld (padLen - 32 + i)) 0 16) buf
    .ok (buf, iv)
  else .ok (buf, iv)

/-- lines 213-214: the last block; the MAC -/
def macLast (stack : Ctx) (k2 iv buf : List Byte) (padLen : Nat) : Res (List Byte) :=
  if padLen < 16 then .error .oobRead
  else do
    let buf ← at_ (osdpEncrypt stack k2 (some iv)) buf (padLen - 16) 16
    let (m, _) ← run (read16 (fun i => ld (padLen - 16 + i)) 0 16) buf
    .ok m

/-- lines 185-217 `osdp_compute_mac`: the 16 bytes stored in `c_mac`/`r_mac` (OSDP_PACKET_BUF_SIZE = 256).
`AES_PAD_LEN(len)` is `len` where `len` is a multiple of 16. -/
def computeMac (stack : Ctx) (isCmd : Bool) (sc : Sc) (data : List Byte) : Res (List Byte) := do
  let (_, buf) ← run (copyMsg data) (List.replicate 256 0#8)
  let padLen := if data.length % 16 = 0 then data.length else Sc.aesPadLen data.length
  let (buf, iv) ← macFirst stack sc.sMac1.1 (if isCmd then sc.rMac else sc.cMac).1 buf padLen
  macLast stack sc.sMac2.1 iv buf padLen

end Osdp.ScMem
