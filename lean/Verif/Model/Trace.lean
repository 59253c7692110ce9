import Verif.Model.PhyMem

/-!
# Packet capture and data trace: src/osdp_diag.c:58-65 and its callers in src/osdp_phy.c

With OSDP_FLAG_CAPTURE_PACKETS set, a library built with CONFIG_OSDP_PACKET_TRACE hands every packet as it is on the line to
a pcap file, one built with CONFIG_OSDP_DATA_TRACE every packet before encryption and after decryption.

Simplifications: what is handed to `pcap_add` is collected in the result; the file exists (`cap` is not NULL).
-/

namespace Osdp.Trace
open Osdp.AesMem
open Osdp.Phy (hasBit SOM MARK CTL_CRC CTL_SCB BUF_SIZE Decoded markLen writeAt)

/-- `PKT_TRACE_MANGLED` -/
abbrev MANGLED : Byte := 0x80#8

/-- src/osdp_diag.c:58-65 `osdp_capture_packet`: the bytes handed to `pcap_add` -/
def capture (buf : List Byte) (len : Nat) : Res (List Byte) :=
  if len > BUF_SIZE then .error .assertFail else PhyMem.front buf len

/-! ### sending -/

/-- src/osdp_phy.c:230-247: data trace of a packet to be sent; the control byte is changed and put back -/
def traceOut (buf : List Byte) (len : Nat) : Res (List Byte × List Byte) := do
  let control ← get buf 4
  let buf ← wr buf 4 (control ||| MANGLED)
  let cap ← capture buf (len + 2)
  let buf ← wr buf 4 control
  .ok (buf, cap)

/-- src/osdp_phy.c:217-297 with data trace on, the mark byte left out -/
def packet (stack : Ctx) (isCp active : Bool) (sc : Sc) (buf : List Byte) (len maxLen : Nat) : Res (PhyMem.Done × List Byte) := do
  let som ← get buf 0
  if som ≠ SOM then .ok (⟨none, buf, none⟩, [])
  else do
    let (_, buf) ← run (PhyMem.setLen (len + 2)) buf
    let (buf, cap) ← traceOut buf len
    let d ← PhyMem.rest stack isCp active sc buf len maxLen
    .ok (d, cap)

/-- lines 208-216, 299: the mark byte -/
def marked (stack : Ctx) (isCp active : Bool) (sc : Sc) (buf : List Byte) (len maxLen : Nat) : Res (PhyMem.Done × List Byte) := do
  let b ← get buf 0
  if b ≠ MARK then .ok (⟨none, buf, none⟩, [])
  else do
    let (d, cap) ← packet stack isCp active sc (buf.drop 1) (len - 1) (maxLen - 1)
    .ok ({ d with len := d.len.map (· + 1), buf := buf.take 1 ++ d.buf }, cap)

/-- src/osdp_phy.c:195-305 `osdp_phy_packet_finalize` with data trace on; also results in the bytes captured -/
def finalize (stack : Ctx) (isCp active mark : Bool) (sc : Sc) (buf : List Byte) (len maxLen : Nat) : Res (PhyMem.Done × List Byte) :=
  if len ≤ 5 then .ok (⟨none, buf, none⟩, [])
  else if mark then marked stack isCp active sc buf len maxLen
  else packet stack isCp active sc buf len maxLen

/-- src/osdp_phy.c:318-320: packet trace of a finished packet -/
def tracePacketOut (d : PhyMem.Done) : Res (List Byte) :=
  match d.len with
  | none => .ok []
  | some n => capture d.buf n

/-! ### receiving -/

/-- src/osdp_phy.c:535-537: packet trace of a received packet -/
def tracePacketIn (p : Pd) : Res (List Byte) := capture p.packetBuf p.packetBufLen

/-- What `osdp_phy_decode_packet` leaves: the device, the value returned and the data, and the bytes captured. -/
abbrev Result := Res (Pd × Decoded × Option (List Byte))

/-- a negative answer -/
def nack (p : Pd) (code : Byte) : Result := .ok ((Phy.nackWith p code).1, (Phy.nackWith p code).2, none)

/-- the end of `osdp_phy_decode_packet`, given the device, the index of `data` in the packet buffer, and `len` -/
abbrev Exit := Pd → Nat → Int → Result

/-- src/osdp_phy.c:708-709: without data trace -/
def plainExit : Exit := fun p off len => .ok (p, ⟨len, p.packetBuf.drop off⟩, none)

/-- src/osdp_phy.c:694-703: the data block moved behind the header, the header made to fit -/
def mangle (buf : List Byte) (m off len : Nat) : Res (List Byte) := do
  if off + len > buf.length then .error .oobRead
  else do
    let buf ← writeAt buf (m + 5) ((buf.drop off).take len)
    let (_, buf) ← run (do
      st (m + 4) ((← ld (m + 4)) &&& ~~~CTL_SCB)
      st (m + 4) ((← ld (m + 4)) ||| MANGLED)
      st (m + 2) (byteOf 0 (len + 5))
      st (m + 3) (byteOf 1 (len + 5))) buf
    .ok buf

/-- src/osdp_phy.c:674-706: data trace.  A negative length converted to `size_t` makes `memmove` leave every array. -/
def traceExit : Exit := fun p off len =>
  if len < 0 then .error .oobRead
  else do
    let buf ← mangle p.packetBuf (markLen p) off len.toNat
    let cap ← capture (buf.drop (markLen p)) (len.toNat + 5)
    .ok ({ p with packetBuf := buf }, ⟨len, buf.drop (markLen p + 5)⟩, some cap)

/-- src/osdp_phy.c:642-671, as `Phy.decodeCipher` -/
def decodeCipher (C : Cipher) (exit : Exit) (p : Pd) (sb : Nat) (len : Int) : Result := do
  let at_ := markLen p + 5 + sb + 1
  match ← Sc.decryptData C p.flags.allowEmpty p.isPd p.sc (p.packetBuf.drop at_) (len - 1) with
  | none => nack p.scDeactivate Nak.SC_COND
  | some plain =>
    let buf ← writeAt p.packetBuf at_ (plain ++ List.replicate ((len - 1).toNat - plain.length) 0#8)
    exit { p with packetBuf := buf } (at_ - 1) (plain.length + 1)

/-- the MAC of a secured packet is right: decrypt it if need be -/
def decodeMatched (C : Cipher) (exit : Exit) (p : Pd) (ty : Byte) (sb : Nat) (len0 : Int) : Result :=
  if ty = 0x17#8 ∨ ty = 0x18#8 then decodeCipher C exit p sb (len0 - 5 - sb - 4)
  else exit p (markLen p + (5 + sb)) (len0 - 5 - sb - 4)

/-- src/osdp_phy.c:628-672, as `Phy.decodeSecured` -/
def decodeSecured (C : Cipher) (exit : Exit) (p : Pd) (ty : Byte) (sb : Nat) (len0 : Int) : Result :=
  let pkt := p.packetBuf.drop (markLen p)
  if len0 - 4 ≤ 0 then .error .oobRead
  else do
    let sc ← Sc.computeMac C p.isPd p.sc (pkt.take (len0 - 4).toNat)
    if (pkt.drop (len0 - 4).toNat).take 4 ≠ (if p.isPd then sc.cMac else sc.rMac).1.take 4 then
      nack (Phy.setSc p sc).scDeactivate Nak.SC_COND
    else decodeMatched C exit (Phy.setSc p sc) ty sb len0

/-- src/osdp_phy.c:578-591 and 626-672 -/
def decodeAllowed (C : Cipher) (exit : Exit) (p : Pd) (ty : Byte) (len0 : Int) : Result := do
  let pkt := p.packetBuf.drop (markLen p)
  let d2 ← rd pkt 7
  let sb ← rd pkt 5
  if p.scActive ∧ 0x15#8 ≤ ty then decodeSecured C exit (Phy.noteScbkd p ty d2) ty sb.toNat len0
  else exit (Phy.noteScbkd p ty d2) (markLen p + (5 + sb.toNat)) (len0 - 5 - sb.toNat)

/-- src/osdp_phy.c:559-591 and 626-672, as `Phy.decodeScb` -/
def decodeScb (C : Cipher) (exit : Exit) (p : Pd) (len0 : Int) : Result :=
  if p.isPd && !p.scCapable then nack p Nak.SC_UNSUP
  else do
    let ty ← rd (p.packetBuf.drop (markLen p)) 6
    if ty < 0x11#8 ∨ ty > 0x18#8 then nack p Nak.SC_COND
    else if ¬ p.scActive ∧ ty > 0x14#8 then nack p Nak.SC_COND
    else decodeAllowed C exit p ty len0

/-- src/osdp_phy.c:593-624, as `Phy.decodePlain` -/
def decodePlain (exit : Exit) (p : Pd) (len0 : Int) : Result := do
  let d0 ← rd (p.packetBuf.drop (markLen p)) 5
  if Phy.plainRefused p d0 then nack p Nak.SC_COND
  else exit p (markLen p + 5) (len0 - 5)

/-- src/osdp_phy.c:542-710 `osdp_phy_decode_packet`, as `Phy.decodePacket`, up to its end -/
def decodePacket (C : Cipher) (exit : Exit) (p : Pd) : Result := do
  let ctl ← rd (p.packetBuf.drop (markLen p)) 4
  let len0 : Int := (p.packetBufLen : Int) - markLen p - (if hasBit ctl CTL_CRC then 2 else 1)
  if hasBit ctl CTL_SCB then decodeScb C exit p len0 else decodePlain exit p len0

end Osdp.Trace
