import Verif.Model.Sx127x

/-!
# The SX126x driver

src/device/sx126x.c, function by function, over the radio HAL.  Command codes and register addresses
are those of include/uwan/device/sx126x.h:30-165.  Multi-byte objects passed to the transfer
functions by address (`op_clear`, `op_error`, `symb_timeout`, `result` in `sx126x_rand`) are
taken little-endian, as on every target of the library.
-/

namespace Uwan.Sx126x

open Prog

/-- include/uwan/device/sx126x.h:167-173 `struct sx126x_opts`. -/
structure Opts where
  isHp : Bool
  useDcdc : Bool
  useTcxo : Bool
  tcxoTimeout : U16
  tcxoVoltage : Byte
  deriving DecidableEq, Repr

/-- The static variables of the driver (src/device/sx126x.c:47-53). -/
structure St where
  hal : Option Hal
  opts : Option Opts
  isSleep : Bool
  handler : Bool
  pkt : PktParams
  deriving DecidableEq, Repr

/-- Static storage before any call. -/
def St.zero : St := ⟨none, none, false, false, ⟨.sf6, .bw125, .cr45, 0, false, false, false⟩⟩

/-- A driver function: it starts from a value of `is_sleep` and leaves a new one. -/
abbrev Drv (α : Type) := StateT Bool Prog α

/-- src/device/sx126x.c:72-80 `sf_table`. -/
def sfTable : Sf → Byte
  | .sf6 => 0x06 | .sf7 => 0x07 | .sf8 => 0x08 | .sf9 => 0x09 | .sf10 => 0x0a | .sf11 => 0x0b
  | .sf12 => 0x0c

/-- src/device/sx126x.c:83-87 `bw_table`. -/
def bwTable : Bw → Byte
  | .bw125 => 0x04 | .bw250 => 0x05 | .bw500 => 0x06

/-- src/device/sx126x.c:90-95 `cr_table`. -/
def crTable : Cr → Byte
  | .cr45 => 0x01 | .cr46 => 0x02 | .cr47 => 0x03 | .cr48 => 0x04

/-- src/device/sx126x.c:102-120 `check_device`. -/
def checkDevice : Drv Unit := do
  if ← get then
    let _ ← frame [0xc0, 0x00]
    waitBusy
    let _ ← frame [0x80, 0x00]
    set false
  waitBusy

/-- `check_device()` followed by one chip-select frame: the shape of every transfer function
(src/device/sx126x.c:122-228). -/
def transfer (mosi : Bytes) : Drv Bytes := do
  checkDevice
  frame mosi

/-- `addr >> 8` -/
def hi (a : U16) : Byte := (a >>> 8).setWidth 8
/-- `addr & 0xff` -/
def lo (a : U16) : Byte := a.setWidth 8

/-- src/device/sx126x.c:122-135 `read_register`. -/
def readRegister (addr : U16) : Drv Byte := do
  let miso ← transfer [0x1d, hi addr, lo addr, 0xff, 0xff]
  match miso with
  | [_, _, _, _, d] => pure d
  | _ => StateT.lift (.fail .oob)

/-- src/device/sx126x.c:137-147 `write_register`. -/
def writeRegister (addr : U16) (value : Byte) : Drv Unit := do
  let _ ← transfer [0x0d, hi addr, lo addr, value]

/-- src/device/sx126x.c:149-161 `read_command` into a local array of `size` bytes; the returned status
byte is used by no caller. -/
def readCommand (cmd : Byte) (size : Nat) : Drv Bytes := do
  let miso ← transfer (cmd :: 0xff :: List.replicate size 0xff)
  pure (miso.drop 2)

/-- src/device/sx126x.c:163-172 `write_command`. -/
def writeCommand (cmd : Byte) (buf : Bytes) : Drv Unit := do
  let _ ← transfer (cmd :: buf)

/-- src/device/sx126x.c:174-188 `read_registers` into a local array. -/
def readRegisters (addr : U16) (count : Nat) : Drv Bytes := do
  let miso ← transfer (0x1d :: hi addr :: lo addr :: 0xff :: List.replicate count 0xff)
  pure (miso.drop 4)

/-- src/device/sx126x.c:190-201 `write_registers`. -/
def writeRegisters (addr : U16) (values : Bytes) : Drv Unit := do
  let _ ← transfer (0x0d :: hi addr :: lo addr :: values)

/-- src/device/sx126x.c:203-213 `write_buffer`. -/
def writeBuffer (offset : Byte) (buf : Bytes) : Drv Unit := do
  let _ ← transfer (0x0e :: offset :: buf)

/-- The loop of src/device/sx126x.c:223-224, `n` transfers left, next index `i`, writing to the
caller's array. -/
def readLoop : Nat → Nat → Bytes → Prog Bytes
  | 0, _, buf => pure buf
  | n + 1, i, buf => do
    let v ← act (.xfer 0xff)
    let buf ← Sx127x.store buf i v
    readLoop n (i + 1) buf

/-- src/device/sx126x.c:219-227, `read_buffer` after `check_device`. -/
def readBuf (offset : Byte) (buf : Bytes) (size : Nat) : Prog Bytes := do
  do_ (.select true)
  do_ (.xfer 0x1e)
  do_ (.xfer offset)
  do_ (.xfer 0xff)
  let buf ← readLoop size 0 buf
  do_ (.select false)
  pure buf

/-- src/device/sx126x.c:215-228 `read_buffer`. -/
def readBuffer (offset : Byte) (buf : Bytes) (size : Nat) : Drv Bytes := do
  checkDevice
  readBuf offset buf size

/-- src/device/sx126x.c:230-241 `setup_tcxo`. -/
def setupTcxo (voltage : Byte) (timeout : U32) : Drv Unit := do
  let t := timeout <<< 6
  writeCommand 0x97 [voltage, (t >>> 16).setWidth 8, (t >>> 8).setWidth 8, t.setWidth 8]
  writeRegister 0x0911 0

/-- src/device/sx126x.c:243-262 `set_packet_params`. -/
def setPacketParams (p : PktParams) (len : Byte) : Drv Unit := do
  let reg ← readRegister 0x0736
  writeRegister 0x0736 (if p.invertedIq then reg &&& ~~~(0x04 : Byte) else reg ||| 0x04)
  writeCommand 0x8c [hi p.preambleLen, lo p.preambleLen, if p.implicitHeader then 0x01 else 0x00, len,
    if p.crcOn then 0x01 else 0x00, if p.invertedIq then 0x01 else 0x00]

/-- src/device/sx126x.c:320-330 `sx126x_sleep`. -/
def sleep (h : Hal) : Drv Unit := do
  writeCommand 0x84 [0x04]
  opt h.ioDeinit .ioDeinit
  do_ (.delay 1000)
  set true

/-- src/device/sx126x.c:388-402 `sx126x_set_public_network`. -/
def setPublicNetwork (isPublic : Bool) : Drv Unit :=
  writeRegisters 0x0740 (if isPublic then [0x34, 0x44] else [0x14, 0x24])

/-- src/device/sx126x.c:272-317, `sx126x_init` after the null checks. -/
def init (h : Hal) (o : Opts) : Drv Bool := do
  do_ (.reset true)
  do_ (.delay 1000)
  do_ (.reset false)
  do_ (.delay 20000)
  opt h.ioDeinit .ioDeinit
  set true
  writeCommand 0x07 [0x00, 0x00]
  if o.useTcxo then setupTcxo o.tcxoVoltage (o.tcxoTimeout.setWidth 32)
  writeCommand 0x89 [0x7f]
  let opError ← readCommand 0x17 2
  if opError.any (· ≠ 0) then pure false
  else do
    writeCommand 0x96 [if o.useDcdc then 0x01 else 0x00]
    sleep h
    writeCommand 0x8a [0x01]
    setPublicNetwork true
    writeCommand 0x08 [0x02, 0x43, 0x02, 0x43, 0x00, 0x00, 0x00, 0x00]
    pure true

/-- src/device/sx126x.c:332-345 `sx126x_set_freq`.  `(uint64_t)freq << 25` is below 2^57, so the 64-bit
arithmetic is exact. -/
def setFreq (freq : U32) : Drv Unit := do
  writeCommand 0x98 [0xd7, 0xdb]
  let rf := freq.toNat * 2 ^ 25 / 32000000
  writeCommand 0x86 [BitVec.ofNat 8 (rf / 2 ^ 24), BitVec.ofNat 8 (rf / 2 ^ 16), BitVec.ofNat 8 (rf / 2 ^ 8),
    BitVec.ofNat 8 rf]

/-- src/device/sx126x.c:347-386 `sx126x_set_power`. -/
def setPower (o : Opts) (power : BitVec 8) : Drv Bool :=
  if o.isHp = false then
    if power.toInt > 15 ∨ power.toInt < -17 then pure false
    else do
      let (duty, power) := if power.toInt = 15 then ((0x06 : Byte), (14 : BitVec 8)) else (0x04, power)
      writeRegister 0x08e7 0x18
      writeCommand 0x95 [duty, 0x00, 0x01, 0x01]
      writeCommand 0x8e [power, 0x02]
      pure true
  else
    if power.toInt > 22 ∨ power.toInt < -9 then pure false
    else do
      let clamp ← readRegister 0x08d8
      writeRegister 0x08d8 (clamp ||| 0x1e)
      writeRegister 0x08e7 0x38
      writeCommand 0x95 [0x04, 0x07, 0x00, 0x01]
      writeCommand 0x8e [power, 0x02]
      pure true

/-- src/device/sx126x.c:404-421 `sx126x_setup`; the caller also stores `params` in `pkt_params`. -/
def setup (h : Hal) (p : PktParams) : Drv Unit := do
  writeCommand 0x8b [sfTable p.sf, bwTable p.bw, crTable p.cr, if Sx127x.lowDr p.sf then 0x01 else 0x00]
  opt h.ioInit .ioInit

/-- src/device/sx126x.c:423-438 `sx126x_tx`; `buf` is the `len` bytes passed, so `len` is its length. -/
def tx (h : Hal) (p : PktParams) (buf : Bytes) : Drv Unit := do
  setPacketParams p (BitVec.ofNat 8 buf.length)
  writeCommand 0x8f [0x00, 0x00]
  writeBuffer 0x00 buf
  opt h.antSw (.antSw false)
  writeCommand 0x83 [0x00, 0x00, 0x00]

/-- src/device/sx126x.c:440-461 `sx126x_rx`. -/
def rx (h : Hal) (p : PktParams) (len : Byte) (symbTimeout : U16) (timeout : U32) : Drv Unit := do
  setPacketParams p len
  writeCommand 0xa0 [lo symbTimeout]
  writeCommand 0x8f [0x00, 0x00]
  opt h.antSw (.antSw true)
  let t := if timeout ≠ 0 ∧ timeout ≠ 0xffffff then timeout <<< 6 else timeout
  writeCommand 0x82 [(t >>> 16).setWidth 8, (t >>> 8).setWidth 8, t.setWidth 8]

/-- `-x / 2` for a `uint8_t` promoted to `int` (division truncates toward zero), stored as `int16_t`
(src/device/sx126x.c:476). -/
def rssiOf (raw : Byte) : BitVec 16 := BitVec.ofInt 16 ((-(raw.toNat : Int)).tdiv 2)

/-- src/device/sx126x.c:463-478 `sx126x_read_packet`.  `pkt->size` is the length of `buf`. -/
def readPacket (buf : Bytes) : Drv Sx127x.PktOut := do
  let st ← readCommand 0x13 2
  match st with
  | [received, offset] =>
    let size := if buf.length > received.toNat then received.toNat else buf.length
    let buf ← readBuffer offset buf size
    let ps ← readCommand 0x14 3
    match ps with
    | [rssi, snr, _] => pure ⟨buf, size, rssiOf rssi, Sx127x.snrOf snr⟩
    | _ => StateT.lift (.fail .oob)
  | _ => StateT.lift (.fail .oob)

/-- src/device/sx126x.c:480-489 `sx126x_rand`. -/
def rand (h : Hal) (p : PktParams) : Drv U32 := do
  rx h p 0xff 0x00 0xffffff
  let r ← readRegisters 0x0819 4
  sleep h
  match r with
  | [a, b, c, d] => pure (or32 a b c d)
  | _ => StateT.lift (.fail .oob)

/-- src/device/sx126x.c:491-517 `sx126x_irq_handler`. -/
def irqHandler (handler : Bool) : Drv Byte := do
  let buf ← readCommand 0x12 2
  writeCommand 0x02 buf
  match buf with
  | [b0, b1] =>
    let flags : U16 := (b0.setWidth 16 <<< 8) ||| b1.setWidth 16
    let result : Byte := (((0 ||| if flags &&& 0x0001 ≠ 0 then 0x04 else 0)
      ||| if flags &&& 0x0002 ≠ 0 then 0x02 else 0)
      ||| if flags &&& 0x0200 ≠ 0 then 0x01 else 0)
      ||| if flags &&& 0x0040 ≠ 0 then 0x08 else 0
    opt handler (.handler result)
    pure result
  | _ => StateT.lift (.fail .oob)

end Uwan.Sx126x
