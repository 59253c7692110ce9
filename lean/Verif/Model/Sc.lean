import Verif.Model.Types
import Verif.Model.Cbc

/-!
# Secure channel: src/osdp_sc.c

Parametric in the block cipher `C` (`Verif/Props/C14.lean` provides the bundled AES).
-/

namespace Osdp.Sc

/-- src/osdp_sc.c:12-15 `osdp_scbk_default` -/
def scbkDefault : Block :=
  ⟨[0x30#8, 0x31#8, 0x32#8, 0x33#8, 0x34#8, 0x35#8, 0x36#8, 0x37#8, 0x38#8, 0x39#8, 0x3A#8, 0x3B#8,
    0x3C#8, 0x3D#8, 0x3E#8, 0x3F#8], rfl⟩

/-- src/osdp_sc.c:17-26 `osdp_compute_scbk` -/
def computeScbk (C : Cipher) (uid : Half) (master : Block) : Block :=
  C.enc master (Bytes.join uid uid.compl)

/-- src/osdp_sc.c:39-54: the block `01 tag rnd[0..5] 00..00` that is encrypted into a session key -/
def keySeed (tag : Byte) (rnd : Half) : Block :=
  ⟨[0x01#8, tag] ++ rnd.1.take 6 ++ List.replicate 8 0#8, by simp [rnd.2]⟩

/-- src/osdp_sc.c:33-37: the base key selected by `PD_FLAG_SC_USE_SCBKD` -/
def baseKey (useScbkd : Bool) (sc : Sc) : Block := if useScbkd then scbkDefault else sc.scbk

/-- src/osdp_sc.c:28-59 `osdp_compute_session_keys` -/
def sessionKeys (C : Cipher) (useScbkd : Bool) (sc : Sc) : Sc :=
  let k := baseKey useScbkd sc
  { sc with
    sEnc := C.enc k (keySeed 0x82#8 sc.cpRandom)
    sMac1 := C.enc k (keySeed 0x01#8 sc.cpRandom)
    sMac2 := C.enc k (keySeed 0x02#8 sc.cpRandom) }

/-- src/osdp_sc.c:61-67 `osdp_compute_cp_cryptogram` -/
def computeCpCryptogram (C : Cipher) (sc : Sc) : Sc :=
  { sc with cpCryptogram := C.enc sc.sEnc (Bytes.join sc.pdRandom sc.cpRandom) }

/-- src/osdp_sc.c:87-100 `osdp_verify_cp_cryptogram`; `true` for return value 0.
(`osdp_ct_compare` is equality of the 16 bytes.) -/
def verifyCpCryptogram (C : Cipher) (sc : Sc) : Bool :=
  sc.cpCryptogram = C.enc sc.sEnc (Bytes.join sc.pdRandom sc.cpRandom)

/-- src/osdp_sc.c:102-108 `osdp_compute_pd_cryptogram` -/
def computePdCryptogram (C : Cipher) (sc : Sc) : Sc :=
  { sc with pdCryptogram := C.enc sc.sEnc (Bytes.join sc.cpRandom sc.pdRandom) }

/-- src/osdp_sc.c:110-123 `osdp_verify_pd_cryptogram`; `true` for return value 0 -/
def verifyPdCryptogram (C : Cipher) (sc : Sc) : Bool :=
  sc.pdCryptogram = C.enc sc.sEnc (Bytes.join sc.cpRandom sc.pdRandom)

/-- src/osdp_sc.c:125-131 `osdp_compute_rmac_i` -/
def computeRmacI (C : Cipher) (sc : Sc) : Sc :=
  { sc with rMac := C.enc sc.sMac2 (C.enc sc.sMac1 sc.cpCryptogram) }

/-- src/osdp_common.h:115 `AES_PAD_LEN` on a non-negative length -/
def aesPadLen (n : Nat) : Nat := (n + 15) / 16 * 16

/-- src/osdp_sc.c:146-149, 175-178: the inverted chaining value used as IV -/
def dataIv (isCmd : Bool) (sc : Sc) : Block := (if isCmd then sc.rMac else sc.cMac).compl

/-- src/osdp_sc.c:170-174: plain text with marker and zero padding -/
def padData (data : List Byte) : List Byte :=
  data ++ 0x80#8 :: List.replicate (aesPadLen (data.length + 1) - data.length - 1) 0#8

/-- src/osdp_sc.c:165-183 `osdp_encrypt_data` (the room in the buffer is the caller's concern, see
`Phy.finalize`) -/
def encryptData (C : Cipher) (isCmd : Bool) (sc : Sc) (data : List Byte) : List Byte :=
  ofBlocks (cbcEnc C sc.sEnc (dataIv isCmd sc) (toBlocks (padData data)))

/-- src/osdp_sc.c:153-162: remove zeros from the end and then the marker -/
def stripPad (l : List Byte) : Option (List Byte) :=
  match l.reverse.dropWhile (· = 0#8) with
  | [] => none
  | b :: r => if b = 0x80#8 then some r.reverse else none

/-- src/osdp_sc.c:133-163 `osdp_decrypt_data`; `none` for a negative return value.
* `length` negative and a multiple of 16: `osdp_decrypt` runs with a huge unsigned length.
* `length = 0` without the compatibility flag: the scan starts at `data[-1]`, walks backwards over
  the packet and stops at the latest at its (non-zero) first byte; whatever it finds, the value
  returned is negative. -/
def decryptData (C : Cipher) (allowEmpty isCmd : Bool) (sc : Sc) (data : List Byte) (length : Int) :
    Res (Option (List Byte)) :=
  if length % 16 ≠ 0 then .ok none
  else if length < 0 then .error .oobWrite
  else if length = 0 then .ok (if allowEmpty then some [] else none)
  else .ok (stripPad (ofBlocks (cbcDec C sc.sEnc (dataIv isCmd sc)
    (toBlocks (data.take length.toNat)))))

/-- src/osdp_sc.c:192-196: the padded copy of the message -/
def padMac (data : List Byte) : List Byte :=
  if data.length % 16 = 0 then data
  else data ++ 0x80#8 :: List.replicate (aesPadLen data.length - data.length - 1) 0#8

/-- src/osdp_sc.c:204-214: CBC with `k1` over all blocks but the last, the last with `k2` -/
def macBlocks (C : Cipher) (k1 k2 iv : Block) (blocks : List Block) : Option Block :=
  match blocks.getLast? with
  | none => none
  | some last =>
    let enc := cbcEnc C k1 iv blocks.dropLast
    let iv' := enc.getLast?.getD iv
    some (C.enc k2 (last.xor iv'))

/-- src/osdp_sc.c:185-217 `osdp_compute_mac`: a message longer than the local buffer overflows it,
an empty message makes it read and write before its start. -/
def computeMac (C : Cipher) (isCmd : Bool) (sc : Sc) (data : List Byte) : Res Sc :=
  if data.length > 256 then .error .oobWrite
  else match macBlocks C sc.sMac1 sc.sMac2 (if isCmd then sc.rMac else sc.cMac)
      (toBlocks (padMac data)) with
    | none => .error .oobRead
    | some m => .ok (if isCmd then { sc with cMac := m } else { sc with rMac := m })

/-- src/osdp_sc.c:219-245 `osdp_sc_setup` in CP mode (the PD never calls it; its only caller is the
CP's state change into `SC_CHLNG`) -/
def setup (hasScbk : Bool) (random : Half) (sc : Sc) : Sc :=
  { Sc.zero with
    scbk := if hasScbk then sc.scbk else .zero 16
    cpRandom := random }

end Osdp.Sc
