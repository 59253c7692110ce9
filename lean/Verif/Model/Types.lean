import Verif.Model.Bytes

/-!
# Data types of the library: include/osdp.h, src/osdp_common.h
-/

namespace Osdp

/-! ### constants: src/osdp_common.h (command, reply, security block ids) -/

namespace Id
/-- command ids (src/osdp_common.h:186-215) -/
def POLL : Nat := 0x60
def ID : Nat := 0x61
def CAP : Nat := 0x62
def LSTAT : Nat := 0x64
def ISTAT : Nat := 0x65
def OSTAT : Nat := 0x66
def RSTAT : Nat := 0x67
def OUT : Nat := 0x68
def LED : Nat := 0x69
def BUZ : Nat := 0x6A
def TEXT : Nat := 0x6B
def COMSET : Nat := 0x6E
def KEYSET : Nat := 0x75
def CHLNG : Nat := 0x76
def SCRYPT : Nat := 0x77
def ACURXSIZE : Nat := 0x7B
def FILETRANSFER : Nat := 0x7C
def MFG : Nat := 0x80
def ABORT : Nat := 0xA2
def KEEPACTIVE : Nat := 0xA7
/-- reply ids (src/osdp_common.h:220-245) -/
def ACK : Nat := 0x40
def NAK : Nat := 0x41
def PDID : Nat := 0x45
def PDCAP : Nat := 0x46
def LSTATR : Nat := 0x48
def ISTATR : Nat := 0x49
def OSTATR : Nat := 0x4A
def RSTATR : Nat := 0x4B
def RAW : Nat := 0x50
def KEYPAD : Nat := 0x53
def COM : Nat := 0x54
def CCRYPT : Nat := 0x76
def RMAC_I : Nat := 0x78
def BUSY : Nat := 0x79
def FTSTAT : Nat := 0x7A
def MFGREP : Nat := 0x90
end Id

/-! NAK codes (include/osdp.h `enum osdp_pd_nak_code_e`) -/
namespace Nak
def MSG_CHK : Byte := 1#8
def CMD_LEN : Byte := 2#8
def CMD_UNKNOWN : Byte := 3#8
def SEQ_NUM : Byte := 4#8
def SC_UNSUP : Byte := 5#8
def SC_COND : Byte := 6#8
def RECORD : Byte := 9#8
end Nak

/-! capability function codes (include/osdp.h `enum osdp_pd_cap_function_code_e`) -/
namespace CapCode
def CONTACT : Nat := 1
def OUTPUT : Nat := 2
def LED : Nat := 4
def AUDIBLE : Nat := 5
def TEXT : Nat := 6
def CHECK_CHAR : Nat := 8
def COMM_SEC : Nat := 9
def RX_BUFSIZE : Nat := 10
def OSDP_VERSION : Nat := 16
def SENTINEL : Nat := 17
end CapCode

/-! ### application data: include/osdp.h -/

/-- `struct osdp_pd_cap` -/
structure Cap where
  code : Byte
  compliance : Byte
  numItems : Byte
  deriving DecidableEq, Repr

/-- `struct osdp_pd_id` (the `uint32_t` members as naturals, the `int` members as integers) -/
structure PdId where
  version : Int
  model : Int
  vendor : Nat
  serial : Nat
  firmware : Nat
  deriving DecidableEq, Repr

/-- `struct osdp_cmd_output` -/
structure CmdOutput where
  outputNo : Byte
  controlCode : Byte
  timerCount : BitVec 16
  deriving DecidableEq, Repr

/-- `struct osdp_cmd_led_params` -/
structure LedParams where
  controlCode : Byte
  onCount : Byte
  offCount : Byte
  onColor : Byte
  offColor : Byte
  timerCount : BitVec 16
  deriving DecidableEq, Repr

/-- `struct osdp_cmd_led` -/
structure CmdLed where
  reader : Byte
  ledNumber : Byte
  temporary : LedParams
  permanent : LedParams
  deriving DecidableEq, Repr

/-- `struct osdp_cmd_buzzer` -/
structure CmdBuzzer where
  reader : Byte
  controlCode : Byte
  onCount : Byte
  offCount : Byte
  repCount : Byte
  deriving DecidableEq, Repr

/-- `struct osdp_cmd_text` -/
structure CmdText where
  reader : Byte
  controlCode : Byte
  tempTime : Byte
  offsetRow : Byte
  offsetCol : Byte
  length : Byte
  data : Bytes 32
  deriving DecidableEq, Repr

/-- `struct osdp_cmd_comset` -/
structure CmdComset where
  address : Byte
  baudRate : BitVec 32
  deriving DecidableEq, Repr

/-- `struct osdp_cmd_keyset` -/
structure CmdKeyset where
  type : Byte
  length : Byte
  data : Bytes 32
  deriving DecidableEq, Repr

/-- `struct osdp_cmd_mfg` -/
structure CmdMfg where
  vendor : BitVec 32
  command : Byte
  length : Byte
  data : Bytes 64
  deriving DecidableEq, Repr

/-- `struct osdp_cmd_file_tx` -/
structure CmdFileTx where
  id : Int
  flags : BitVec 32
  deriving DecidableEq, Repr

/-- `enum osdp_status_report_type`; `other` stands for any other integer value -/
inductive StatusType where
  | input | output | localStat | remote | other
  deriving DecidableEq, Repr

/-- `struct osdp_status_report` -/
structure StatusReport where
  type : StatusType
  nrEntries : Int
  mask : BitVec 32
  deriving DecidableEq, Repr

/-- `struct osdp_cmd` (tagged union; `bad` = an `id` outside the enum) -/
inductive Cmd where
  | output (c : CmdOutput)
  | led (c : CmdLed)
  | buzzer (c : CmdBuzzer)
  | text (c : CmdText)
  | keyset (c : CmdKeyset)
  | comset (c : CmdComset)
  | mfg (c : CmdMfg)
  | fileTx (c : CmdFileTx)
  | status (c : StatusReport)
  | bad (id : Int)
  deriving DecidableEq, Repr

/-- `enum osdp_event_cardread_format_e` -/
inductive CardFormat where
  | rawUnspecified | rawWiegand | ascii | other (n : Nat)
  deriving DecidableEq, Repr

/-- `struct osdp_event_cardread` -/
structure EvCardread where
  readerNo : Int
  format : CardFormat
  direction : Int
  length : Int
  data : Bytes 64
  deriving DecidableEq, Repr

/-- `struct osdp_event_keypress` -/
structure EvKeypress where
  readerNo : Int
  length : Int
  data : Bytes 64
  deriving DecidableEq, Repr

/-- `struct osdp_event_mfgrep` -/
structure EvMfgrep where
  vendor : BitVec 32
  command : Byte
  length : Byte
  data : Bytes 128
  deriving DecidableEq, Repr

/-- `struct osdp_event_notification` -/
inductive NotifType where
  | command | scStatus | pdStatus
  deriving DecidableEq, Repr

/-- `struct osdp_event` (tagged union; `bad` = a `type` outside the enum) -/
inductive Event where
  | cardread (e : EvCardread)
  | keypress (e : EvKeypress)
  | mfgrep (e : EvMfgrep)
  | status (e : StatusReport)
  | notification (type : NotifType) (arg0 arg1 : Int)
  | bad (type : Int)
  deriving DecidableEq, Repr

/-! ### library state: src/osdp_common.h -/

/-- `pd->flags`, one Boolean per bit (src/osdp_common.h:261-275 and include/osdp.h `OSDP_FLAG_*`). -/
structure Flags where
  scCapable : Bool := false
  tamper : Bool := false
  power : Bool := false
  rTamper : Bool := false
  skipSeqCheck : Bool := false
  useScbkd : Bool := false
  scActive : Bool := false
  pdMode : Bool := false
  chnShared : Bool := false
  skipMark : Bool := false
  hasMark : Bool := false
  hasScbk : Bool := false
  scDisabled : Bool := false
  broadcast : Bool := false
  enforceSecure : Bool := false
  installMode : Bool := false
  ignUnsolicited : Bool := false
  enableNotif : Bool := false
  capture : Bool := false
  allowEmpty : Bool := false
  deriving DecidableEq, Repr

/-- `struct osdp_secure_channel` -/
structure Sc where
  scbk : Block
  sEnc : Block
  sMac1 : Block
  sMac2 : Block
  rMac : Block
  cMac : Block
  cpRandom : Half
  pdRandom : Half
  pdClientUid : Half
  cpCryptogram : Block
  pdCryptogram : Block
  deriving DecidableEq, Repr

/-- a zeroed `struct osdp_secure_channel` -/
def Sc.zero : Sc :=
  { scbk := .zero 16, sEnc := .zero 16, sMac1 := .zero 16, sMac2 := .zero 16, rMac := .zero 16,
    cMac := .zero 16, cpRandom := .zero 8, pdRandom := .zero 8, pdClientUid := .zero 8,
    cpCryptogram := .zero 16, pdCryptogram := .zero 16 }

/-- `pd->ephemeral_data`: the C union as a tagged sum.  Reading it with another tag than it was
written with is `Fault.typePun`. -/
inductive Eph where
  /-- never written (zero) -/
  | none
  /-- `ephemeral_data[0] = code` -/
  | nak (code : Byte)
  /-- a `struct osdp_cmd` -/
  | cmd (c : Cmd)
  /-- a `struct osdp_event` -/
  | event (e : Event)
  /-- 16 key bytes (PD, KEYSET) -/
  | key (k : Block)
  deriving DecidableEq, Repr

/-- `enum osdp_cp_state_e` -/
inductive CpState where
  | init | capdet | scChlng | scScrypt | setScbk | online | probe | offline
  deriving DecidableEq, Repr

/-- `enum osdp_cp_phy_state_e` -/
inductive PhyState where
  | idle | sendCmd | replyWait | wait | done | err
  deriving DecidableEq, Repr

/-- `enum file_tx_state_e` (src/osdp_file.h) -/
inductive FileTxState where
  | idle | inprog | done | keepAlive
  deriving DecidableEq, Repr

/-- `struct osdp_file` (src/osdp_file.h) without the callbacks; the `uint32_t` members are naturals
below `2^32` (wrap-around is explicit where the code adds to them). -/
structure FileSt where
  flags : BitVec 32
  fileId : Int
  state : FileTxState
  length : Int
  size : Nat
  offset : Nat
  errors : Nat
  cancelReq : Bool
  tstamp : Int
  waitTimeMs : Nat
  deriving DecidableEq, Repr

/-- `struct osdp_pd` (src/osdp_common.h:382-439).  Simplifications: the RX ring buffer is the FIFO
`rx` of the bytes it holds (C01 proves the ring buffer to be one, capacity 511); the application
data pool is its capacity `poolCap` (the slab allocator lives in the absent utils submodule);
`ephemeral_data` is the tagged sum `Eph`; names, loggers and packet capture are left out. -/
structure Pd where
  flags : Flags
  idx : Nat
  baudRate : Int
  address : Int
  seq : Int
  id : PdId
  cap : Fin 17 → Cap
  state : CpState
  phyState : PhyState
  retryCount : Nat
  waitMs : Nat
  tstamp : Int
  scTstamp : Int
  phyTstamp : Int
  reqRestartSc : Bool
  reqEventSend : Bool
  reqOffline : Bool
  peerRx : Nat
  rx : List Byte
  packetBuf : List Byte
  packetLen : Nat
  packetBufLen : Nat
  cmdId : Nat
  replyId : Nat
  eph : Eph
  cmdQueue : List Cmd
  eventQueue : List Event
  poolCap : Nat
  chanId : Int
  hasFlush : Bool
  sc : Sc
  file : Option FileSt

/-- Everything the library observes from outside during one refresh of one PD object.  Time is
constant during one refresh (simplification: the C code reads the clock several times). -/
structure Env where
  /-- `osdp_millis_now()` -/
  now : Int
  /-- bytes returned by the successive calls of `channel.recv` (an exhausted list returns 0) -/
  recv : List (List Byte) := []
  /-- how many bytes `channel.send` takes before it returns a value `<= 0` -/
  sendCap : Nat := 65536
  /-- `osdp_fill_random` -/
  random : Half := .zero 8
  /-- the PD application's command callback: index of the call within this refresh and command to
  return value and (possibly edited) command; `none` when not registered -/
  cb : Option (Nat → Cmd → Int × Cmd) := none
  /-- `ops.open(id, size)`: return value and size written back -/
  fopen : Int → Int → Int × Int := fun _ n => (-1, n)
  /-- `ops.read(len, offset)`: return value and the bytes stored -/
  fread : Int → Int → Int × List Byte := fun _ _ => (-1, [])
  /-- `ops.write(bytes, offset)` -/
  fwrite : List Byte → Int → Int := fun _ _ => -1
  /-- `ops.close()` -/
  fclose : Int := 0

/-- Externally visible effects, in order. -/
inductive Out where
  /-- bytes accepted by `channel.send` -/
  | send (bytes : List Byte)
  /-- `channel.flush` -/
  | flush
  /-- the PD command callback was called -/
  | cmd (c : Cmd)
  /-- the CP event callback was called for PD `idx` -/
  | event (idx : Nat) (e : Event)
  | fopen (id : Int) (size : Int)
  | fread (len : Int) (offset : Int)
  | fwrite (bytes : List Byte) (offset : Int)
  | fclose
  deriving DecidableEq, Repr

namespace Pd

/-- src/osdp_common.h:521-524 `is_pd_mode` -/
abbrev isPd (p : Pd) : Bool := p.flags.pdMode
/-- src/osdp_common.h:526-529 `is_cp_mode` -/
abbrev isCp (p : Pd) : Bool := !p.flags.pdMode
/-- src/osdp_common.h:536-540 `sc_is_capable` -/
def scCapable (p : Pd) : Bool := p.flags.scCapable && !p.flags.scDisabled
/-- src/osdp_common.h:542-545 `sc_is_active` -/
abbrev scActive (p : Pd) : Bool := p.flags.scActive
/-- src/osdp_common.h:547-550 `sc_activate` -/
def scActivate (p : Pd) : Pd := { p with flags := { p.flags with scActive := true } }
/-- src/osdp_common.h:552-558 `sc_deactivate` (`osdp_sc_teardown` releases nothing) -/
def scDeactivate (p : Pd) : Pd := { p with flags := { p.flags with scActive := false } }
/-- src/osdp_common.h:500-509 `get_tx_buf_size` -/
def txBufSize (p : Pd) : Nat := if p.peerRx ≠ 0 ∧ 256 > p.peerRx then p.peerRx else 256

end Pd

end Osdp
