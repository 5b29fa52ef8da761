import Verif.Model.Basic

/-!
# Types and state of the stack model

Public types from include/uwan/stack.h, the static variables of `src/stack.c`, `src/mac.c`, `src/adr.c`,
`src/channels.c`, and the observable effects.
-/

namespace Uwan

/-- include/uwan/stack.h:53-61 `enum uwan_sf`. -/
inductive Sf where | sf6 | sf7 | sf8 | sf9 | sf10 | sf11 | sf12
  deriving DecidableEq, Repr
/-- include/uwan/stack.h:63-67 `enum uwan_bw`. -/
inductive Bw where | bw125 | bw250 | bw500
  deriving DecidableEq, Repr
/-- include/uwan/stack.h:69-74 `enum uwan_cr`. -/
inductive Cr where | cr45 | cr46 | cr47 | cr48
  deriving DecidableEq, Repr
/-- include/uwan/stack.h:87-100 `enum uwan_errs`. -/
inductive Err where
  | no | state | datarate | channel | frequency | rxTimeout | rxCrc | msgLen | msgMhdr | msgMic
  | devAddr | fcnt
  deriving DecidableEq, Repr
/-- include/uwan/stack.h:112-115 `enum uwan_timer_ids`. -/
inductive TimerId where | rx1 | rx2
  deriving DecidableEq, Repr
/-- src/stack.c:63-69 `enum stack_states`. -/
inductive Phase where | notInit | idle | tx | rx1 | rx2
  deriving DecidableEq, Repr
/-- The two regions the library ships (src/region/eu868.c:33, src/region/ru864.c:33); the model does
not cover region tables supplied by the application. -/
inductive Region where | eu868 | ru864
  deriving DecidableEq, Repr

/-- include/uwan/stack.h:143-151 `struct uwan_packet_params`. -/
structure PktParams where
  sf : Sf
  bw : Bw
  cr : Cr
  preambleLen : U16
  crcOn : Bool
  invertedIq : Bool
  implicitHeader : Bool
  deriving DecidableEq, Repr

/-- include/uwan/stack.h:135-141 `struct uwan_dl_packet`.  `data = none` is the null pointer; the C
field `size` is the length of `data` (0 for null) on every path, so it is not stored. -/
structure DlPkt where
  data : Option Bytes
  fPort : Byte
  rssi : BitVec 16
  snr : BitVec 8
  deriving DecidableEq, Repr

/-- The C field `size` of `struct uwan_dl_packet`. -/
def DlPkt.size (p : DlPkt) : Nat := (p.data.getD []).length

/-- Observable effects: every call the stack makes to the radio, HAL, crypto library and
application, in order (include/uwan/stack.h:153-187). -/
inductive Ev where
  /-- `radio->set_evt_handler(...)` -/
  | setEvtHandler
  /-- `radio->rand()` -/
  | radioRand
  | setFrequency (f : U32)
  | setup (p : PktParams)
  /-- `radio->set_power(int8_t)` -/
  | setPower (p : BitVec 8)
  /-- `radio->tx(buf, len)`; `data` is `buf[0..len)` -/
  | tx (data : Bytes)
  | rx (len : Nat) (symbTimeout : Nat) (timeout : Nat)
  | readPacket
  | sleep
  | startTimer (id : TimerId) (ms : U32)
  | stopTimer (id : TimerId)
  /-- `downlink_callback(err, mtype, pkt)` -/
  | downlink (err : Err) (mtype : Byte) (pkt : DlPkt)
  | linkCheckResult (margin gwCnt : Byte)
  | getBattery
  | getDeviceTime
  | deviceTimeResult (devTime nsTime : U32) (frac : Byte)
  | aesNew (key : Block)
  | aesEncrypt (src : Block)
  | aesDel
  | cmacNew (key : Block)
  | cmacUpdate (data : Bytes)
  | cmacFinish
  | cmacDel
  /-- not a call: marks a signed left shift into or past the sign bit, undefined in C99 -/
  | ubShift
  deriving DecidableEq, Repr

/-- The crypto callbacks as deterministic functions: `aes key block` is `crypto_aes_encrypt` in a
context created with `key`; `cmac key msg` is the digest after updates whose concatenation is
`msg`. -/
structure Env where
  aes : Block → Block → Block
  cmac : Block → Bytes → Block

/-- src/stack.h:34-43 `struct node_session`.  `dr` is the value of the C enum (any `unsigned`). -/
structure Session where
  isJoined : Bool
  ackRequired : Bool
  dr : Nat
  devAddr : U32
  fCntUp : U32
  fCntDown : U32
  nwkSKey : Block
  appSKey : Block
  deriving DecidableEq, Repr

/-- src/channels.c:37 `uw_channels_mask[2]`. -/
structure Mask where
  b0 : Byte
  b1 : Byte
  deriving DecidableEq, Repr

/-- src/channels.c:36-38, the static variables of the channel module. -/
structure Chan where
  maxCount : Nat
  mask : Mask
  freq : Vector U32 16
  deriving DecidableEq, Repr

/-- Which members of `struct uwan_mac_callbacks` are non-null (include/uwan/stack.h:153-158). -/
structure MacCbs where
  battery : Bool
  linkCheck : Bool
  getTime : Bool
  timeResult : Bool
  deriving DecidableEq, Repr

/-- src/mac.c:66-70, the static variables of the MAC module.  `queue` is `mac_buf[0..mac_buf_pos)`; bytes past
`mac_buf_pos` are never read. -/
structure Mac where
  queue : Bytes
  saveDevTime : Bool
  devTime : U32
  cbs : Option MacCbs
  deriving DecidableEq, Repr

/-- src/adr.c:48-51, the static variables of the ADR module. -/
structure Adr where
  ackCnt : U32
  ackLimit : Byte
  ackDelay : Byte
  enabled : Bool
  deriving DecidableEq, Repr

/-- All static variables of the stack: src/stack.c:94-123 plus the modules above.
`uw_radio` and `uw_stack_hal` are non-null exactly when `region` is `some` (all three are
set together by `uwan_init`). `default_join_delay` is never written: it is the constant 5000. -/
structure St where
  phase : Phase
  region : Option Region
  session : Session
  pp : PktParams
  frame : Bytes
  rx1Delay : U32
  rx1Offset : Byte
  rx2Delay : U32
  joinState : Bool
  devNonce : U32
  devEui : Vector Byte 8
  appEui : Vector Byte 8
  appKey : Block
  defaultRx1Delay : U32
  defaultDr : Nat
  defaultNbTrans : Byte
  nbTrans : Byte
  defaultTxPower : Byte
  txPower : Byte
  maxEirp : BitVec 8
  snr : BitVec 8
  rx2Freq : U32
  rx2Dr : Nat
  chan : Chan
  mac : Mac
  adr : Adr
  deriving DecidableEq, Repr

/-- `memset(&uw_session, 0, sizeof(uw_session))`. -/
def Session.zero : Session where
  isJoined := false
  ackRequired := false
  dr := 0
  devAddr := 0
  fCntUp := 0
  fCntDown := 0
  nwkSKey := Vector.replicate 16 0
  appSKey := Vector.replicate 16 0

/-- Static initialisers: src/stack.c:94-123, src/mac.c:66-70, src/adr.c:48-51, src/channels.c:36-38.
(`pkt_params` is all zero bytes: SF6, BW125, CR4/5, ...) -/
def St.boot : St where
  phase := .notInit
  region := none
  session := .zero
  pp := ⟨.sf6, .bw125, .cr45, 0, false, false, false⟩
  frame := List.replicate 255 0
  rx1Delay := 0
  rx1Offset := 0
  rx2Delay := 0
  joinState := false
  devNonce := 0
  devEui := Vector.replicate 8 0
  appEui := Vector.replicate 8 0
  appKey := Vector.replicate 16 0
  defaultRx1Delay := 1000
  defaultDr := 0
  defaultNbTrans := 1
  nbTrans := 1
  defaultTxPower := 0
  txPower := 0
  maxEirp := 14
  snr := 0
  rx2Freq := 0
  rx2Dr := 0
  chan := ⟨0, ⟨0, 0⟩, Vector.replicate 16 0⟩
  mac := ⟨[], false, 0, none⟩
  adr := ⟨0, 64, 32, false⟩

end Uwan
