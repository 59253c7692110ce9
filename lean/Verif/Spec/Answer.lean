/-!
# Which reply answers which command (OSDP v2.2, annex A: commands and replies)

Independent of the model: numeric codes only.
-/

namespace Osdp.Spec.Answer

/-- the replies, other than NAK, that a PD may give to a command; POLL may be answered by any event -/
def replies : Nat → List Nat
  | 0x60 => [0x40, 0x48, 0x49, 0x4A, 0x4B, 0x50, 0x53, 0x90]   -- POLL: ACK or an event
  | 0x61 => [0x45]                                             -- ID: PDID
  | 0x62 => [0x46]                                             -- CAP: PDCAP
  | 0x64 => [0x48]                                             -- LSTAT: LSTATR
  | 0x65 => [0x49]                                             -- ISTAT: ISTATR
  | 0x66 => [0x4A]                                             -- OSTAT: OSTATR
  | 0x67 => [0x4B]                                             -- RSTAT: RSTATR
  | 0x6E => [0x54]                                             -- COMSET: COM
  | 0x76 => [0x76]                                             -- CHLNG: CCRYPT
  | 0x77 => [0x78]                                             -- SCRYPT: RMAC_I
  | 0x7C => [0x7A]                                             -- FILETRANSFER: FTSTAT
  | 0x68 | 0x69 | 0x6A | 0x6B | 0x75 | 0x7B | 0x80 | 0xA2 | 0xA7 => [0x40]
    -- OUT, LED, BUZ, TEXT, KEYSET, ACURXSIZE, MFG, ABORT, KEEPACTIVE: ACK
  | _ => []

end Osdp.Spec.Answer
