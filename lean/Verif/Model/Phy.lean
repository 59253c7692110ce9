import Verif.Model.Sc
import Verif.Model.Crc

/-!
# Physical layer: src/osdp_phy.c

Packet tracing (`OSDP_FLAG_CAPTURE_PACKETS`, build-time options) is not modelled.
-/

namespace Osdp.Phy

/-! ### constants: src/osdp_phy.c:9-24 and src/osdp_common.h -/

abbrev MARK : Byte := 0xFF#8
abbrev SOM : Byte := 0x53#8
/-- `PKT_CONTROL_CRC` -/
abbrev CTL_CRC : Byte := 0x04#8
/-- `PKT_CONTROL_SCB` -/
abbrev CTL_SCB : Byte := 0x08#8
/-- `OSDP_PACKET_BUF_SIZE` -/
abbrev BUF_SIZE : Nat := 256
/-- bytes an `osdp_rb` of `OSDP_RX_RB_SIZE` = 512 can hold (C01) -/
abbrev RB_CAP : Nat := 511

/-- bit test `x & m` as a condition -/
def hasBit (x m : Byte) : Bool := x &&& m != 0#8

/-- result codes of `osdp_phy_check_packet` (`enum osdp_pkt_errors_e`) -/
inductive PktRet where
  | none | fmt | wait | skip | check | busy | nack | noData
  deriving DecidableEq, Repr

/-- Checked write of `bs` at index `i` of a buffer. -/
def writeAt (buf : List Byte) (i : Nat) (bs : List Byte) : Res (List Byte) :=
  if i + bs.length ≤ buf.length then .ok (buf.take i ++ bs ++ buf.drop (i + bs.length))
  else .error .oobWrite

/-- `pd->reply_id = REPLY_NAK; pd->ephemeral_data[0] = code`.  On the CP the byte overwrites the low
byte of the `id` member of the command stored there, which the CP never reads again; of an event stored there it
overwrites the `type`, so that the object no longer counts as an event. -/
def setNak (p : Pd) (code : Byte) : Pd :=
  { p with
    replyId := Id.NAK
    eph := match p.flags.pdMode, p.eph with
      | false, .cmd c => .cmd c
      | _, _ => .nak code }

/-! ### channel I/O -/

/-- src/osdp_phy.c:31-50 `osdp_channel_send`: effects and whether all bytes went out -/
def channelSend (p : Pd) (env : Env) (bytes : List Byte) : List Out × Bool :=
  ((if p.hasFlush then [Out.flush] else []) ++ [Out.send (bytes.take env.sendCap)],
    decide (bytes.length ≤ env.sendCap))

/-- src/osdp_phy.c:52-80 `osdp_channel_receive`: new content of the RX FIFO and return value.
A `recv` that claims more than the 64 bytes asked for breaks its contract. -/
def channelReceive : List (List Byte) → List Byte → Res (List Byte × Int)
  | [], rx => .ok (rx, 0)
  | c :: cs, rx =>
    if c = [] then .ok (rx, 0)
    else if c.length > 64 then .error .contract
    else if rx.length + c.length > RB_CAP then .ok (rx ++ c.take (RB_CAP - rx.length), -1)
    else if c.length = 64 then do
      let (rx', n) ← channelReceive cs (rx ++ c)
      .ok (rx', if n < 0 then n else n + 64)
    else .ok (rx ++ c, c.length)

/-! ### transmit -/

/-- src/osdp_phy.c:95-105 `osdp_phy_get_seq_number`: new counter and the two bits sent -/
def nextSeq (seq : Int) (inc : Bool) : Int :=
  if inc then (if seq + 1 > 3 then 1 else seq + 1) else seq

/-- `pd->seq_number & PKT_CONTROL_SQN` -/
def seqBits (seq : Int) : Nat := (seq % 4).toNat

/-- src/osdp_phy.c:132-139 `osdp_phy_in_sc_handshake` -/
def inHandshake (isReply : Bool) (id : Nat) : Bool :=
  if isReply then id == Id.CCRYPT || id == Id.RMAC_I else id == Id.CHLNG || id == Id.SCRYPT

/-- The header fields of a packet under construction (what `osdp_phy_packet_init` leaves in the
packet buffer).  `scb` is the security control block, its first byte being its length.
`misaligned`: `PD_FLAG_PKT_HAS_MARK` is set but no mark byte was written, so that all later
functions look for the header one byte too far. -/
structure Tx where
  mark : Bool
  misaligned : Bool
  addr : Byte
  ctl : Byte
  scb : List Byte
  deriving DecidableEq, Repr

/-- src/osdp_phy.c:141-193 `osdp_phy_packet_init`; `none` for a negative return value -/
def packetInit (p : Pd) (maxLen : Nat) : Option (Pd × Tx) :=
  if maxLen < 5 + 64 then none
  else
    let writeMark := (p.isPd && p.flags.hasMark) || (p.isCp && !p.flags.skipMark)
    let fl := if writeMark then { p.flags with hasMark := true } else p.flags
    let seq := nextSeq p.seq p.isCp
    let addr0 : Byte := i8 p.address &&& 0x7F#8
    let addr := if p.isPd then (if fl.broadcast then 0x7F#8 else addr0) ||| 0x80#8 else addr0
    let fl := if p.isPd then { fl with broadcast := false } else fl
    let id := if p.isPd then p.replyId else p.cmdId
    let ctl := b8 (seqBits seq) ||| CTL_CRC
    let (ctl, scb) : Byte × List Byte :=
      if p.scActive then (ctl ||| CTL_SCB, [2#8, 0x15#8])
      else if inHandshake p.isPd id then (ctl ||| CTL_SCB, [3#8, 0x11#8, 0#8])
      else (ctl, [])
    some ({ p with flags := fl, seq := seq },
      { mark := writeMark, misaligned := fl.hasMark && !writeMark, addr := addr, ctl := ctl, scb := scb })

/-- src/osdp_phy.c:107-122 `osdp_phy_packet_get_data_offset` for a packet under construction.  For a misaligned one the code
computes another offset, from the bytes beside the right ones; such a packet is never sent (`finalize`), so the only
difference is the number of bytes asked of the application for a file fragment that is then dropped. -/
def Tx.dataOff (t : Tx) : Nat := (if t.mark then 1 else 0) + 5 + t.scb.length

/-- the five header bytes with length field `n` -/
def header (t : Tx) (n : Nat) : List Byte := [SOM, t.addr, byteOf 0 n, byteOf 1 n, t.ctl]

/-- the security block type byte, if there is a block -/
def Tx.scbType (t : Tx) : Option Byte := t.scb[1]?

/-- src/osdp_phy.c:249-250: is the packet to be secured -/
def Tx.secured (t : Tx) (p : Pd) : Bool :=
  match t.scbType with
  | some ty => p.scActive && hasBit t.ctl CTL_SCB && decide (0x15#8 ≤ ty)
  | none => false

/-- src/osdp_phy.c:251: is its data block to be encrypted -/
def Tx.encrypted (t : Tx) : Bool :=
  match t.scbType with
  | some ty => ty = 0x17#8 || ty = 0x18#8
  | none => false

/-- src/osdp_phy.c:290-300: append the CRC, put back the mark byte; `none` when there is no room.
`maxLen` does not count the mark byte. -/
def wrap (t : Tx) (body : List Byte) (maxLen : Nat) : Option (List Byte) :=
  if body.length + 2 > maxLen then none
  else some ((if t.mark then [MARK] else []) ++ (body ++ le16 (Crc.computeCrc16 body).toNat))

/-- replace the secure channel state -/
def setSc (p : Pd) (sc : Sc) : Pd := { p with sc := sc }

/-- src/osdp_phy.c:273-287: append the MAC to the (encrypted) data -/
def finalizeMac (C : Cipher) (p : Pd) (t : Tx) (data : List Byte) (maxLen : Nat) :
    Res (Pd × Option (List Byte)) :=
  let len := 5 + t.scb.length + data.length
  if len + 4 > maxLen then .ok (p, none)
  else do
    let msg := header t (len + 6) ++ t.scb ++ data
    let sc ← Sc.computeMac C p.isCp p.sc msg
    .ok (setSc p sc, wrap t (msg ++ (if p.isCp then sc.cMac else sc.rMac).1.take 4) maxLen)

/-- src/osdp_phy.c:249-287: a secured packet.  The in-place encryption must fit the 256-byte packet
buffer. -/
def finalizeSecured (C : Cipher) (p : Pd) (t : Tx) (data : List Byte) (maxLen : Nat) :
    Res (Pd × Option (List Byte)) :=
  if t.encrypted then
    let n := Sc.aesPadLen ((data.drop 1).length + 1)
    if n > maxLen then .ok (p, none)
    else if (if t.mark then 1 else 0) + 5 + t.scb.length + 1 + n > BUF_SIZE then .error .oobWrite
    else finalizeMac C p t (data.take 1 ++ Sc.encryptData C p.isCp p.sc (data.drop 1)) maxLen
  else finalizeMac C p t data maxLen

/-- src/osdp_phy.c:195-305 `osdp_phy_packet_finalize`: `data` is the id byte and what follows.
`none` for a negative return value. -/
def finalize (C : Cipher) (p : Pd) (t : Tx) (data : List Byte) (maxLen0 : Nat) :
    Res (Pd × Option (List Byte)) :=
  let mk := if t.mark then 1 else 0
  if t.misaligned then .ok (p, none)
  else if mk + 5 + t.scb.length + data.length ≤ 5 then .ok (p, none)
  else if t.secured p then finalizeSecured C p t data (maxLen0 - mk)
  else .ok (p, wrap t (header t (5 + t.scb.length + data.length + 2) ++ t.scb ++ data) (maxLen0 - mk))

/-- src/osdp_phy.c:307-330 `osdp_phy_send_packet`; the Boolean is `ret >= 0`.  The finished packet is
left in the packet buffer (a failed build leaves parts of it there, which the model does not
track). -/
def sendPacket (C : Cipher) (p : Pd) (env : Env) (t : Tx) (data : List Byte) (maxLen : Nat) :
    Res (Pd × List Out × Bool) := do
  match ← finalize C p t data maxLen with
  | (p, none) => .ok (p, [], false)
  | (p, some bytes) =>
    let buf ← writeAt p.packetBuf 0 bytes
    let (outs, ok) := channelSend p env bytes
    .ok ({ p with packetBuf := buf }, outs, ok)

/-! ### receive -/

/-- src/osdp_phy.c:340-361: scan for the start of a packet; `some (mark, rest)` when found, `none`
when the FIFO ran empty. -/
def scan : Byte → List Byte → Option (Bool × List Byte)
  | _, [] => none
  | prev, b :: rest => if b = SOM then some (decide (prev = MARK), rest) else scan b rest

/-- the length of the mark byte -/
def markLen (p : Pd) : Nat := if p.flags.hasMark then 1 else 0

/-- Result of `phy_check_header`. -/
inductive HdrRet where
  | err (r : PktRet)
  | len (n : Nat)
  deriving DecidableEq, Repr

/-- src/osdp_phy.c:339-361 first part of `phy_check_header`; `none` for "no data" -/
def headerStart (p : Pd) : Res (Pd × Bool) :=
  if p.packetBufLen = 0 then
    match scan 0#8 p.rx with
    | none => .ok ({ p with rx := [] }, false)
    | some (true, rest) => do
      let buf ← writeAt p.packetBuf 0 [MARK, SOM]
      .ok ({ p with rx := rest, packetBuf := buf, packetBufLen := 2,
                    flags := { p.flags with hasMark := true } }, true)
    | some (false, rest) => do
      let buf ← writeAt p.packetBuf 0 [SOM]
      .ok ({ p with rx := rest, packetBuf := buf, packetBufLen := 1,
                    flags := { p.flags with hasMark := false } }, true)
  else .ok (p, true)

/-- src/osdp_rb pop into the packet buffer: `osdp_rb_pop_buf(&pd->rx_rb, packet_buf + packet_buf_len, n)` -/
def popInto (p : Pd) (n : Nat) : Res Pd := do
  let bs := p.rx.take n
  let buf ← writeAt p.packetBuf p.packetBufLen bs
  .ok { p with rx := p.rx.drop n, packetBuf := buf, packetBufLen := p.packetBufLen + bs.length }

/-- src/osdp_phy.c:372-394: the checks on the header once five bytes have been collected -/
def headerFields (p : Pd) : Res HdrRet := do
  let pkt := p.packetBuf.drop (markLen p)
  if (← rd pkt 0) ≠ SOM then return .err .fmt
  let msb := hasBit (← rd pkt 1) 0x80#8
  if (p.isCp && !msb) || (p.isPd && msb) then return .err .skip
  let n := (← rd pkt 2).toNat + 256 * (← rd pkt 3).toNat
  if n > BUF_SIZE ∨ n < 6 then return .err .fmt
  return .len (n + markLen p)

/-- src/osdp_phy.c:363-395: `phy_check_header` after the start of a packet was found -/
def headerRest (p : Pd) : Res (Pd × HdrRet) := do
  let p ← popInto p (5 - p.packetBufLen)
  if p.packetBufLen < 5 then return (p, .err .wait)
  return (p, ← headerFields p)

/-- src/osdp_phy.c:332-395 `phy_check_header` -/
def checkHeader (p : Pd) : Res (Pd × HdrRet) := do
  let (p, found) ← headerStart p
  if !found then return (p, .err .noData)
  headerRest p

/-- src/osdp_phy.c:409-426: does the check value of `pkt` (without mark, `n` bytes) match; returns
also the length without check value -/
def checkValue (pkt : List Byte) (n : Nat) : Res (Nat × Bool) := do
  if hasBit (← rd pkt 4) CTL_CRC then
    let m := n - 2
    let lo ← rd pkt m
    let hi ← rd pkt (m + 1)
    return (m, decide ((Crc.computeCrc16 (pkt.take m)).toNat = lo.toNat + 256 * hi.toNat))
  else
    let m := n - 1
    let c ← rd pkt m
    return (m, decide (Crc.computeChecksum (pkt.take m) = c))

/-- src/osdp_phy.c:441-473 (PD): what an incoming sequence number `comp` does to the counter before it
is advanced: 0 restarts (and drops the secure channel), a repeat steps back; then the broadcast
flag. -/
def pdSeqPrep (p : Pd) (comp : Nat) (bcast : Bool) : Pd :=
  let p := if comp = 0 then Pd.scDeactivate { p with seq := -1 }
    else if (comp : Int) = p.seq then { p with seq := p.seq - 1 } else p
  if bcast then { p with flags := { p.flags with broadcast := true } } else p

/-- src/osdp_phy.c:487: `cur = osdp_phy_get_seq_number(pd, is_pd_mode(pd))` in PD mode -/
def pdSeqAdvance (p : Pd) : Pd := { p with seq := nextSeq p.seq true }

/-- src/osdp_phy.c:475-485 (CP): the test for a BUSY reply -/
def isBusy (pkt : List Byte) (m comp : Nat) : Res Bool :=
  if comp = 0 ∧ m = 6 then do return decide ((← rd pkt 5) = b8 Id.BUSY) else .ok false

/-- src/osdp_phy.c:487-494: compare the sequence numbers -/
def seqVerdict (p : Pd) (comp : Nat) : Pd × PktRet :=
  if seqBits p.seq ≠ comp ∧ ¬ p.flags.skipSeqCheck then (setNak p Nak.SEQ_NUM, .nack) else (p, .none)

/-- src/osdp_phy.c:439-494: sequence number handling for a packet addressed to this object -/
def checkSeq (p : Pd) (pkt : List Byte) (m : Nat) (comp : Nat) (bcast : Bool) : Res (Pd × PktRet) :=
  if p.isPd then .ok (seqVerdict (pdSeqAdvance (pdSeqPrep p comp bcast)) comp)
  else do
    if ← isBusy pkt m comp then return ({ p with seq := p.seq - 1 }, .busy)
    return seqVerdict p comp

/-- src/osdp_phy.c:397-497 `phy_check_packet` -/
def checkPacketBody (p : Pd) : Res (Pd × PktRet) := do
  let pkt := p.packetBuf.drop (markLen p)
  let (m, ok) ← checkValue pkt (p.packetLen - markLen p)
  if !ok then return (p, .fmt)
  let pdAddr := ((← rd pkt 1) &&& 0x7F#8).toNat
  if (pdAddr : Int) ≠ p.address ∧ pdAddr ≠ 0x7F then
    return (p, if p.isCp then .check else .skip)
  let comp := ((← rd pkt 4) &&& 0x03#8).toNat
  checkSeq p pkt m comp (pdAddr == 0x7F)

/-- src/osdp_phy.c:528-539: collect the rest of the packet and check it -/
def collect (p : Pd) : Res (Pd × PktRet) := do
  let p ← popInto p (p.packetLen - p.packetBufLen)
  if p.packetBufLen ≠ p.packetLen then return (p, .wait)
  checkPacketBody p

/-- src/osdp_phy.c:516-539: `osdp_phy_check_packet` after the new bytes were taken from the channel -/
def assemble (p : Pd) : Res (Pd × PktRet) := do
  if p.packetLen = 0 then
    match ← checkHeader p with
    | (p, .err r) => return (p, r)
    | (p, .len k) => collect { p with packetLen := k }
  else collect p

/-- src/osdp_phy.c:499-515: take new bytes from the channel -/
def intake (p : Pd) (env : Env) : Res Pd := do
  let (rx, n) ← channelReceive env.recv p.rx
  let p := { p with rx := rx }
  return if p.isPd ∧ p.packetBufLen = 0 ∧ n > 0 then { p with tstamp := env.now } else p

/-- src/osdp_phy.c:499-540 `osdp_phy_check_packet` -/
def checkPacket (p : Pd) (env : Env) : Res (Pd × PktRet) := do
  let p ← intake p env
  assemble p

/-- What `osdp_phy_decode_packet` hands to its caller: the `int` it returns and, for a positive one,
the bytes from `*pkt_start` to the end of the packet buffer. -/
structure Decoded where
  len : Int
  data : List Byte
  deriving DecidableEq, Repr

/-- `OSDP_ERR_PKT_NACK` -/
abbrev PKT_NACK : Int := -6

/-- a negative answer: `reply_id = REPLY_NAK; ephemeral_data[0] = code; return OSDP_ERR_PKT_NACK` -/
def nackWith (p : Pd) (code : Byte) : Pd × Decoded := (setNak p code, ⟨PKT_NACK, []⟩)

/-- src/osdp_phy.c:578-589: a handshake packet asking for SCBK-D is honoured in install mode -/
def noteScbkd (p : Pd) (ty d2 : Byte) : Pd :=
  if (ty = 0x11#8 ∨ ty = 0x13#8) ∧ p.flags.installMode ∧ d2 = 0#8 then
    { p with flags := { p.flags with useScbkd := true } } else p

/-- src/osdp_phy.c:642-671: decrypt the data block (`len`: bytes from the id to the MAC) and put back
the id.  Decryption replaces the cipher text in the packet buffer. -/
def decodeCipher (C : Cipher) (p : Pd) (sb : Nat) (len : Int) : Res (Pd × Decoded) := do
  let at_ := markLen p + 5 + sb + 1
  match ← Sc.decryptData C p.flags.allowEmpty p.isPd p.sc (p.packetBuf.drop at_) (len - 1) with
  | none => return nackWith p.scDeactivate Nak.SC_COND
  | some plain =>
    let buf ← writeAt p.packetBuf at_ (plain ++ List.replicate ((len - 1).toNat - plain.length) 0#8)
    return ({ p with packetBuf := buf }, ⟨plain.length + 1, buf.drop (at_ - 1)⟩)

/-- src/osdp_phy.c:628-672: validate the MAC of a secured packet, then decrypt it if need be.
`len0`: length without mark and check value. -/
def decodeSecured (C : Cipher) (p : Pd) (ty : Byte) (sb : Nat) (len0 : Int) : Res (Pd × Decoded) :=
  let pkt := p.packetBuf.drop (markLen p)
  if len0 - 4 ≤ 0 then .error .oobRead
  else do
    let sc ← Sc.computeMac C p.isPd p.sc (pkt.take (len0 - 4).toNat)
    let p := setSc p sc
    if (pkt.drop (len0 - 4).toNat).take 4 ≠ (if p.isPd then sc.cMac else sc.rMac).1.take 4 then
      return nackWith p.scDeactivate Nak.SC_COND
    if ty = 0x17#8 ∨ ty = 0x18#8 then decodeCipher C p sb (len0 - 5 - sb - 4)
    else return (p, ⟨len0 - 5 - sb - 4, pkt.drop (5 + sb)⟩)

/-- src/osdp_phy.c:559-591 and 626-672: a packet with a security control block -/
def decodeScb (C : Cipher) (p : Pd) (len0 : Int) : Res (Pd × Decoded) := do
  let pkt := p.packetBuf.drop (markLen p)
  if p.isPd && !p.scCapable then return nackWith p Nak.SC_UNSUP
  let ty ← rd pkt 6
  if ty < 0x11#8 ∨ ty > 0x18#8 then return nackWith p Nak.SC_COND
  if ¬ p.scActive ∧ ty > 0x14#8 then return nackWith p Nak.SC_COND
  let d2 ← rd pkt 7
  let p := noteScbkd p ty d2
  let sb := (← rd pkt 5).toNat
  if p.scActive ∧ 0x15#8 ≤ ty then decodeSecured C p ty sb len0
  else return (p, ⟨len0 - 5 - sb, pkt.drop (5 + sb)⟩)

/-- src/osdp_phy.c:593-624: is a packet without security control block unacceptable -/
def plainRefused (p : Pd) (d0 : Byte) : Bool :=
  if p.isCp then p.scActive && !(p.cmdId == Id.KEYSET && d0 == b8 Id.ACK) && !(d0 == b8 Id.NAK)
  else p.scActive

/-- src/osdp_phy.c:593-624: a packet without security control block -/
def decodePlain (p : Pd) (len0 : Int) : Res (Pd × Decoded) := do
  let pkt := p.packetBuf.drop (markLen p)
  let d0 ← rd pkt 5
  if plainRefused p d0 then return nackWith p Nak.SC_COND
  return (p, ⟨len0 - 5, pkt.drop 5⟩)

/-- src/osdp_phy.c:542-710 `osdp_phy_decode_packet` -/
def decodePacket (C : Cipher) (p : Pd) : Res (Pd × Decoded) := do
  let ctl ← rd (p.packetBuf.drop (markLen p)) 4
  let len0 : Int := (p.packetBufLen : Int) - markLen p - (if hasBit ctl CTL_CRC then 2 else 1)
  if hasBit ctl CTL_SCB then decodeScb C p len0 else decodePlain p len0

/-- src/osdp_phy.c:712-724 `osdp_phy_state_reset` -/
def stateReset (p : Pd) (isError : Bool) : Pd × List Out :=
  let p := { p with packetBufLen := 0, packetLen := 0, phyState := .idle }
  if isError then
    ({ p with retryCount := 0, seq := -1 }, if p.hasFlush then [Out.flush] else [])
  else (p, [])

end Osdp.Phy
