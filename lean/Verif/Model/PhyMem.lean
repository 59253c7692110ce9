import Verif.Model.ScMem
import Verif.Model.Phy

/-!
# Finishing a packet, on memory: src/osdp_phy.c:141-305

`Model/Phy.lean` gives the finished packet as a list of its parts; here `osdp_phy_packet_init` and
`osdp_phy_packet_finalize` run on the buffer, with the functions of `Model/ScMem.lean`.

Simplifications: data tracing is off (see `Model/Trace.lean`).  A negative data length is a fault of its own
(`contract`); `max_len` is not negative.  A pointer moved past the mark byte is the buffer without it.
-/

namespace Osdp.PhyMem
open Osdp.AesMem
open Osdp.Phy (hasBit SOM MARK CTL_CRC CTL_SCB)

/-- What the function leaves: its result (`none` for a negative one), the buffer, and the 16 bytes stored in `c_mac` (CP)
or `r_mac` (PD), if it came to that. -/
structure Done where
  len : Option Nat
  buf : List Byte
  mac : Option (List Byte)
  deriving DecidableEq, Repr

/-- the first `n` bytes -/
def front (buf : List Byte) (n : Nat) : Res (List Byte) := if n ≤ buf.length then .ok (buf.take n) else .error .oobRead

/-- lines 226-227, 279-280: the length field -/
def setLen (n : Nat) : Prog Unit := do
  st 2 (byteOf 0 n)
  st 3 (byteOf 1 n)

/-- lines 295-296: the check value -/
def setCrc (len : Nat) (crc : BitVec 16) : Prog Unit := do
  st (len + 0) (byteOf 0 crc.toNat)
  st (len + 1) (byteOf 1 crc.toNat)

/-- lines 290-297 -/
def addCrc (buf : List Byte) (len maxLen : Nat) (mac : Option (List Byte)) : Res Done :=
  if len + 2 > maxLen then .ok ⟨none, buf, mac⟩
  else do
    let msg ← front buf len
    let (_, buf) ← run (setCrc len (Crc.computeCrc16 msg)) buf
    .ok ⟨some (len + 2), buf, mac⟩

/-- line 285: `memcpy(buf + len, data, 4)` -/
def setMac (len : Nat) (mac : List Byte) : Prog Unit := loop (fun i => do st (len + i) (← other (get mac i))) 0 4

/-- lines 273-287 -/
def addMac (stack : Ctx) (isCp : Bool) (sc : Sc) (buf : List Byte) (len maxLen : Nat) : Res Done :=
  if len + 4 > maxLen then .ok ⟨none, buf, none⟩
  else do
    let (_, buf) ← run (setLen (len + 2 + 4)) buf
    let msg ← front buf len
    let mac ← ScMem.computeMac stack isCp sc msg
    let (_, buf) ← run (setMac len mac) buf
    addCrc buf (len + 4) maxLen (some mac)

/-- lines 252-271: the data behind the id byte is encrypted; `hd` is what precedes it -/
def encrypt (stack : Ctx) (isCp : Bool) (sc : Sc) (buf : List Byte) (hd len maxLen : Nat) : Res Done :=
  if len < hd then .error .contract
  else if Sc.aesPadLen (len - hd + 1) > maxLen then .ok ⟨none, buf, none⟩
  else do
    let (n, buf) ← ScMem.encryptData stack isCp sc buf hd (len - hd)
    addMac stack isCp sc buf (hd + n) maxLen

/-- lines 249-250: is the packet to be secured -/
def isSecured (active : Bool) (buf : List Byte) : Res Bool :=
  if !active then .ok false
  else do
    let ctl ← get buf 4
    if !hasBit ctl CTL_SCB then .ok false
    else do
      let ty ← get buf 6
      .ok (decide (0x15#8 ≤ ty))

/-- lines 249-287 for such a packet -/
def secure (stack : Ctx) (isCp : Bool) (sc : Sc) (buf : List Byte) (len maxLen : Nat) : Res Done := do
  let ty ← get buf 6
  if ty = 0x17#8 ∨ ty = 0x18#8 then do
    let sb ← get buf 5
    encrypt stack isCp sc buf (5 + sb.toNat + 1) len maxLen
  else addMac stack isCp sc buf len maxLen

/-- lines 226-297, with the length field set -/
def rest (stack : Ctx) (isCp active : Bool) (sc : Sc) (buf : List Byte) (len maxLen : Nat) : Res Done := do
  if ← isSecured active buf then secure stack isCp sc buf len maxLen
  else addCrc buf len maxLen none

/-- lines 217-297, the mark byte left out -/
def packet (stack : Ctx) (isCp active : Bool) (sc : Sc) (buf : List Byte) (len maxLen : Nat) : Res Done := do
  let som ← get buf 0
  if som ≠ SOM then .ok ⟨none, buf, none⟩
  else do
    let (_, buf) ← run (setLen (len + 2)) buf
    rest stack isCp active sc buf len maxLen

/-- lines 208-216, 299: the mark byte -/
def marked (stack : Ctx) (isCp active : Bool) (sc : Sc) (buf : List Byte) (len maxLen : Nat) : Res Done := do
  let b ← get buf 0
  if b ≠ MARK then .ok ⟨none, buf, none⟩
  else do
    let d ← packet stack isCp active sc (buf.drop 1) (len - 1) (maxLen - 1)
    .ok { d with len := d.len.map (· + 1), buf := buf.take 1 ++ d.buf }

/-- lines 195-305 `osdp_phy_packet_finalize`; `mark`: PD_FLAG_PKT_HAS_MARK, `active`: PD_FLAG_SC_ACTIVE -/
def finalize (stack : Ctx) (isCp active mark : Bool) (sc : Sc) (buf : List Byte) (len maxLen : Nat) : Res Done :=
  if len ≤ 5 then .ok ⟨none, buf, none⟩
  else if mark then marked stack isCp active sc buf len maxLen
  else packet stack isCp active sc buf len maxLen

/-! ### `osdp_phy_packet_init` -/

/-- lines 163-176: start byte and address -/
def initAddr (isPd broadcast : Bool) (address : Int) : Prog Unit := do
  st 0 SOM
  st 1 (i8 address &&& 0x7F#8)
  if isPd then do
    if broadcast then st 1 0x7F#8 else pure ()
    st 1 ((← ld 1) ||| 0x80#8)
  else pure ()

/-- lines 180-190: control byte and security block; results in `scb_len` -/
def initCtl (seq : Int) (active handshake : Bool) : Prog Nat := do
  st 4 (b8 (Phy.seqBits seq))
  st 4 ((← ld 4) ||| CTL_CRC)
  if active then do
    st 4 ((← ld 4) ||| CTL_SCB)
    st 5 2#8
    st 6 0x15#8
    pure 2
  else if handshake then do
    st 4 ((← ld 4) ||| CTL_SCB)
    st 5 3#8
    st 6 0x11#8
    pure 3
  else pure 0

/-- lines 163-190 -/
def initHeader (p : Pd) : Prog Nat := do
  initAddr p.isPd p.flags.broadcast p.address
  initCtl (Phy.nextSeq p.seq p.isCp) p.scActive (Phy.inHandshake p.isPd (if p.isPd then p.replyId else p.cmdId))

/-- lines 154-160: is a mark byte written -/
def writesMark (p : Pd) : Bool := (p.isPd && p.flags.hasMark) || (p.isCp && !p.flags.skipMark)

/-- lines 141-193 `osdp_phy_packet_init`: the value returned (`none` for a negative one) and the buffer.  The changes to the
flags and to the sequence number are those of `Phy.packetInit`. -/
def init (p : Pd) (buf : List Byte) (maxLen : Nat) : Res (Option Nat × List Byte) :=
  if maxLen < 5 + 64 then .ok (none, buf)
  else if writesMark p then do
    let (_, buf) ← run (st 0 MARK) buf
    let (n, out) ← run (initHeader p) (buf.drop 1)
    .ok (some (1 + 5 + n), buf.take 1 ++ out)
  else do
    let (n, out) ← run (initHeader p) buf
    .ok (some ((if p.flags.hasMark then 1 else 0) + 5 + n), out)

end Osdp.PhyMem
