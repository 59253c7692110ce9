import Verif.Model.PhyMem

/-!
# Opening a received packet, on memory: src/osdp_phy.c:542-672, 708-709

`Model/Phy.lean` gives the outcome of `osdp_phy_decode_packet` with `Model/Sc.lean`; here MAC and deciphering are those of
`Model/ScMem.lean`, working in the packet buffer with the bundled AES.

Simplifications: data tracing is off (see `Model/Trace.lean`).  As in `Model/Phy.lean` a negative length handed to
`osdp_compute_mac` or, if it is a multiple of 16, to `osdp_decrypt_data` is a fault (the conversion to `size_t` makes the
functions leave every array).
-/

namespace Osdp.OpenMem
open Osdp.AesMem
open Osdp.Phy (hasBit CTL_CRC CTL_SCB Decoded markLen nackWith noteScbkd setSc)

/-- src/osdp_sc.c:216: `memcpy(is_cmd ? pd->sc.c_mac : pd->sc.r_mac, ..., 16)` -/
def storeMac (isCmd : Bool) (sc : Sc) (mac : List Byte) : Res Sc :=
  if h : mac.length = 16 then .ok (if isCmd then { sc with cMac := ⟨mac, h⟩ } else { sc with rMac := ⟨mac, h⟩ })
  else .error .contract

/-- src/osdp_phy.c:634: `memcmp(buf + mac_offset, mac, 4) == 0`, `o` the place of the MAC in the packet buffer -/
def sameMac (buf : List Byte) (o : Nat) (mac : List Byte) : Res Bool := do
  let x ← PhyMem.front (buf.drop o) 4
  let y ← PhyMem.front mac 4
  .ok (x == y)

/-- src/osdp_phy.c:654-671: what `osdp_decrypt_data` returned (`r`) and left in the packet buffer; the data is at `o` -/
def deciphered (p : Pd) (o : Nat) (r : Int × List Byte) : Pd × Decoded :=
  if r.1 < 0 then nackWith ({ p with packetBuf := r.2 }).scDeactivate Nak.SC_COND
  else ({ p with packetBuf := r.2 }, ⟨r.1 + 1, r.2.drop (o - 1)⟩)

/-- src/osdp_phy.c:642-671: decipher in place -/
def decodeCipher (stack : Ctx) (p : Pd) (sb : Nat) (len : Int) : Res (Pd × Decoded) :=
  if len - 1 < 0 then
    if (len - 1) % 16 ≠ 0 then .ok (nackWith p.scDeactivate Nak.SC_COND) else .error .oobWrite
  else do
    let r ← ScMem.decryptData stack p.flags.allowEmpty p.isPd p.sc p.packetBuf (markLen p + 5 + sb + 1) (len - 1).toNat
    .ok (deciphered p (markLen p + 5 + sb + 1) r)

/-- src/osdp_phy.c:639-672: the MAC is right or not -/
def decodeMatched (stack : Ctx) (p : Pd) (ty : Byte) (sb : Nat) (len0 : Int) (same : Bool) : Res (Pd × Decoded) :=
  if !same then .ok (nackWith p.scDeactivate Nak.SC_COND)
  else if ty = 0x17#8 ∨ ty = 0x18#8 then decodeCipher stack p sb (len0 - 5 - sb - 4)
  else .ok (p, ⟨len0 - 5 - sb - 4, p.packetBuf.drop (markLen p + (5 + sb))⟩)

/-- src/osdp_phy.c:628-672, as `Phy.decodeSecured` -/
def decodeSecured (stack : Ctx) (p : Pd) (ty : Byte) (sb : Nat) (len0 : Int) : Res (Pd × Decoded) :=
  if len0 - 4 ≤ 0 then .error .oobRead
  else do
    let msg ← PhyMem.front (p.packetBuf.drop (markLen p)) (len0 - 4).toNat
    let mac ← ScMem.computeMac stack p.isPd p.sc msg
    let sc ← storeMac p.isPd p.sc mac
    let same ← sameMac p.packetBuf (markLen p + (len0 - 4).toNat) (if p.isPd then sc.cMac else sc.rMac).1
    decodeMatched stack (setSc p sc) ty sb len0 same

/-- src/osdp_phy.c:559-591 and 626-672, as `Phy.decodeScb` -/
def decodeScb (stack : Ctx) (p : Pd) (len0 : Int) : Res (Pd × Decoded) := do
  let pkt := p.packetBuf.drop (markLen p)
  if p.isPd && !p.scCapable then return nackWith p Nak.SC_UNSUP
  let ty ← rd pkt 6
  if ty < 0x11#8 ∨ ty > 0x18#8 then return nackWith p Nak.SC_COND
  if ¬ p.scActive ∧ ty > 0x14#8 then return nackWith p Nak.SC_COND
  let d2 ← rd pkt 7
  let p := noteScbkd p ty d2
  let sb := (← rd pkt 5).toNat
  if p.scActive ∧ 0x15#8 ≤ ty then decodeSecured stack p ty sb len0
  else return (p, ⟨len0 - 5 - sb, pkt.drop (5 + sb)⟩)

/-- src/osdp_phy.c:542-672, 708-709 `osdp_phy_decode_packet`: the device, the value returned and the bytes from `*pkt_start` on -/
def decodePacket (stack : Ctx) (p : Pd) : Res (Pd × Decoded) := do
  let ctl ← rd (p.packetBuf.drop (markLen p)) 4
  let len0 : Int := (p.packetBufLen : Int) - markLen p - (if hasBit ctl CTL_CRC then 2 else 1)
  if hasBit ctl CTL_SCB then decodeScb stack p len0 else Phy.decodePlain p len0

end Osdp.OpenMem
