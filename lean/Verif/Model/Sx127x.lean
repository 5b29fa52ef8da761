import Verif.Model.Hal

/-!
# The SX127x driver

src/device/sx127x.c, function by function, over the radio HAL.  Register numbers and field values are
those of include/uwan/device/sx127x.h:30-575.
-/

namespace Uwan.Sx127x

open Prog

/-- The static variables of the driver (src/device/sx127x.c:68-71).  `hal = none` is the null pointer
before `init`; `handler` says whether `user_evt_handler` is non-null. -/
structure St where
  hal : Option Hal
  rssiOffset : BitVec 16
  handler : Bool
  deriving DecidableEq, Repr

/-- Static storage before any call. -/
def St.zero : St := ⟨none, 0, false⟩

/-- src/device/sx127x.c:42-50 `sf_table`. -/
def sfTable : Sf → Byte
  | .sf6 => 0x60 | .sf7 => 0x70 | .sf8 => 0x80 | .sf9 => 0x90 | .sf10 => 0xa0 | .sf11 => 0xb0
  | .sf12 => 0xc0

/-- src/device/sx127x.c:53-57 `bw_table`. -/
def bwTable : Bw → Byte
  | .bw125 => 0x70 | .bw250 => 0x80 | .bw500 => 0x90

/-- src/device/sx127x.c:60-65 `cr_table`. -/
def crTable : Cr → Byte
  | .cr45 => 0x02 | .cr46 => 0x04 | .cr47 => 0x06 | .cr48 => 0x08

/-- src/device/sx127x.c:89-95 `write_reg`. -/
def writeReg (addr data : Byte) : Prog Unit := do
  let _ ← frame [addr ||| 0x80, data]

/-- src/device/sx127x.c:97-104 `write_regs` and :118-126 `write_array` (the same transfers). -/
def writeRegs (addr : Byte) (data : Bytes) : Prog Unit := do
  let _ ← frame ((addr ||| 0x80) :: data)

/-- src/device/sx127x.c:106-116 `read_reg`: the byte that came back in the second transfer. -/
def readReg (addr : Byte) : Prog Byte := do
  let miso ← frame [addr, 0x00]
  match miso with
  | [_, d] => pure d
  | _ => .fail .oob

/-- `buf[i] = v` in a caller's array: undefined past its end. -/
def store (buf : Bytes) (i : Nat) (v : Byte) : Prog Bytes :=
  if i < buf.length then pure (buf.set i v) else .fail .oob

/-- The loop of src/device/sx127x.c:133-134, `n` transfers left, next index `i`. -/
def readLoop : Nat → Nat → Bytes → Prog Bytes
  | 0, _, buf => pure buf
  | n + 1, i, buf => do
    let v ← act (.xfer 0x00)
    let buf ← store buf i v
    readLoop n (i + 1) buf

/-- src/device/sx127x.c:128-136 `read_array`. -/
def readArray (addr : Byte) (buf : Bytes) (size : Nat) : Prog Bytes := do
  do_ (.select true)
  do_ (.xfer addr)
  let buf ← readLoop size 0 buf
  do_ (.select false)
  pure buf

/-- src/device/sx127x.c:138-143 `set_op_mode`. -/
def setOpMode (mode : Byte) : Prog Unit := do
  let opMode ← readReg 0x01
  writeReg 0x01 ((opMode &&& ~~~(0x07 : Byte)) ||| mode)

/-- src/device/sx127x.c:145-154 `lora_set_modem_conf1`. -/
def setModemConf1 (bw cr : Byte) (impHeader : Bool) : Prog Unit :=
  writeReg 0x1d ((bw ||| cr) ||| (if impHeader then 0x01 else 0x00))

/-- src/device/sx127x.c:156-168 `lora_set_modem_conf2`. -/
def setModemConf2 (sf : Byte) (crcOn txCont : Bool) : Prog Unit :=
  writeReg 0x1e ((sf ||| (if crcOn then 0x04 else 0x00)) ||| (if txCont then 0x08 else 0x00))

/-- src/device/sx127x.c:170-183 `lora_set_modem_conf3`. -/
def setModemConf3 (lowDrOpti agcAutoOn : Bool) : Prog Unit :=
  writeReg 0x26 ((if lowDrOpti then 0x08 else 0x00) ||| (if agcAutoOn then 0x04 else 0x00))

/-- src/device/sx127x.c:185-195 `set_inverted_iq`. -/
def setInvertedIq (inv : Bool) : Prog Unit :=
  if inv then do
    writeReg 0x33 0x66
    writeReg 0x3b 0x19
  else do
    writeReg 0x33 0x27
    writeReg 0x3b 0x1d

/-- src/device/sx127x.c:260-270 `sx127x_set_freq`.  `(uint64_t)freq << 19` is below 2^51, so the 64-bit
arithmetic is exact. -/
def setFreq (freq : U32) : Prog Unit :=
  let rf := freq.toNat * 2 ^ 19 / 32000000
  writeRegs 0x06 [BitVec.ofNat 8 (rf / 2 ^ 16), BitVec.ofNat 8 (rf / 2 ^ 8), BitVec.ofNat 8 rf]

/-- src/device/sx127x.c:210-214, the polling loop of `rx_calibartion`; the argument is `timeout`
before the decrement, which is never 0 there.  Returns `timeout` after the loop. -/
def calLoop : Nat → Prog Nat
  | 0 => pure 0
  | t + 1 => do
    do_ (.delay 1000)
    let value ← readReg 0x3b
    if t ≠ 0 ∧ value &&& 0x20 ≠ 0 then calLoop t else pure t

/-- src/device/sx127x.c:197-217 `rx_calibartion`. -/
def rxCalibration : Prog Bool := do
  setFreq 868800000
  let value ← readReg 0x3b
  writeReg 0x3b (value ||| 0x40)
  let timeout ← calLoop 0xff
  pure (timeout != 0)

/-- src/device/sx127x.c:304-310 `sx127x_set_public_network`. -/
def setPublicNetwork (isPublic : Bool) : Prog Unit :=
  if isPublic then writeReg 0x39 0x34 else writeReg 0x39 0x14

/-- src/device/sx127x.c:219-251 `sx127x_init` with a non-null HAL. -/
def init (h : Hal) : Prog Bool := do
  do_ (.reset true)
  do_ (.delay 150)
  do_ (.reset false)
  do_ (.delay 6000)
  opt h.ioDeinit .ioDeinit
  let version ← readReg 0x42
  if version ≠ 0x12 then pure false
  else do
    let cal ← rxCalibration
    if cal = false then pure false
    else do
      writeReg 0x01 0x00
      writeReg 0x01 0x80
      setPublicNetwork true
      writeReg 0x0a 0x08
      writeReg 0x0c 0x23
      pure true

/-- src/device/sx127x.c:253-258 `sx127x_sleep`. -/
def sleep (h : Hal) : Prog Unit := do
  setOpMode 0x00
  opt h.ioDeinit .ioDeinit

/-- src/device/sx127x.c:272-302 `sx127x_set_power`: whether the power was accepted, and the new value
of `rssi_offset`. -/
def setPower (power : BitVec 8) (rssiOffset : BitVec 16) : Prog (Bool × BitVec 16) :=
  if power.toInt < -4 ∨ power.toInt > 17 then pure (false, rssiOffset)
  else if power.toInt ≤ 14 then do
    let (pmax, power) := if power.toInt < 0 then ((0x0 : Byte), power + 4) else (0x7, power)
    writeReg 0x09 ((0x00 ||| (pmax <<< 4)) ||| (power &&& 0x0f))
    pure (true, BitVec.ofInt 16 (-164))
  else do
    writeReg 0x09 (0x80 ||| ((power - 2) &&& 0x0f))
    pure (true, BitVec.ofInt 16 (-157))

/-- The condition `params->sf >= UWAN_SF_11` (src/device/sx127x.c:320). -/
def lowDr : Sf → Bool
  | .sf11 | .sf12 => true
  | _ => false

/-- src/device/sx127x.c:312-327 `sx127x_setup`.  `params` is assumed to hold enum values, so the table
look-ups are in range. -/
def setup (h : Hal) (p : PktParams) : Prog Unit := do
  setOpMode 0x01
  setModemConf1 (bwTable p.bw) (crTable p.cr) p.implicitHeader
  setModemConf2 (sfTable p.sf) p.crcOn false
  setModemConf3 (lowDr p.sf) true
  setInvertedIq p.invertedIq
  opt h.ioInit .ioInit

/-- src/device/sx127x.c:329-344 `sx127x_tx`; `buf` is the `len` bytes passed, so `len` is its length. -/
def tx (h : Hal) (buf : Bytes) : Prog Unit := do
  writeReg 0x0e 0
  writeReg 0x0d 0
  writeRegs 0x00 buf
  writeReg 0x22 (BitVec.ofNat 8 buf.length)
  writeReg 0x11 (~~~(0x08 : Byte))
  writeReg 0x40 0x40
  opt h.antSw (.antSw false)
  setOpMode 0x03

/-- src/device/sx127x.c:346-378 `sx127x_rx`. -/
def rx (h : Hal) (len : Byte) (symbTimeout : U16) (timeout : U32) : Prog Unit := do
  let conf2 ← readReg 0x1e
  writeReg 0x1e ((conf2 &&& ~~~(0x03 : Byte)) ||| ((symbTimeout >>> 8).setWidth 8 &&& 0x03))
  writeReg 0x1f (symbTimeout.setWidth 8)
  writeReg 0x0e 0
  writeReg 0x0d 0
  writeReg 0x23 len
  writeReg 0x36 0x02
  writeReg 0x3a 0x64
  writeReg 0x11 (~~~((0x80 ||| 0x40 : Byte) ||| 0x20))
  writeReg 0x40 (((0x00 : Byte) ||| 0x00) ||| 0x02)
  opt h.antSw (.antSw true)
  if timeout = 0 then setOpMode 0x06 else setOpMode 0x05

/-- C `int8_t / 4` (division truncates toward zero). -/
def snrOf (raw : Byte) : BitVec 8 := BitVec.ofInt 8 (raw.toInt.tdiv 4)

/-- What `read_packet` leaves in the caller's `struct uwan_dl_packet`: `buf` is the caller's array,
`size` the C field after the call. -/
structure PktOut where
  buf : Bytes
  size : Nat
  rssi : BitVec 16
  snr : BitVec 8
  deriving DecidableEq, Repr

/-- src/device/sx127x.c:380-401 `sx127x_read_packet`.  `pkt->size` is the length of `buf`. -/
def readPacket (rssiOffset : BitVec 16) (buf : Bytes) : Prog PktOut := do
  let fifoPtr ← readReg 0x10
  writeReg 0x0d fifoPtr
  let size ← readReg 0x13
  let size := if size.toNat > buf.length then buf.length else size.toNat
  let buf ← if size > 0 then readArray 0x00 buf size else pure buf
  let snr ← readReg 0x19
  let rssi ← readReg 0x1a
  pure ⟨buf, size, rssiOffset + rssi.setWidth 16, snrOf snr⟩

/-- src/device/sx127x.c:411-415, the loop of `sx127x_rand` at index `i`, `n` rounds left: the random
number so far, and whether `(rssi & 1) << 31` was evaluated with the bit set (signed overflow,
undefined in C99). -/
def randLoop : Nat → Nat → U32 → Bool → Prog (U32 × Bool)
  | 0, _, random, ub => pure (random, ub)
  | n + 1, i, random, ub => do
    do_ (.delay 1000)
    let rssi ← readReg 0x2c
    let bit := rssi &&& 0x01
    randLoop n (i + 1) (random ||| (bit.setWidth 32 <<< i)) (ub || (i == 31 && bit != 0))

/-- src/device/sx127x.c:403-419 `sx127x_rand`: the number, and the overflow flag of `randLoop`. -/
def rand : Prog (U32 × Bool) := do
  writeReg 0x11 0xff
  setOpMode 0x05
  let r ← randLoop 32 0 0 false
  setOpMode 0x00
  pure r

/-- src/device/sx127x.c:421-453 `sx127x_irq_handler`. -/
def irqHandler (handler : Bool) : Prog Byte := do
  let flags ← readReg 0x12
  let tx := flags &&& 0x08 ≠ 0
  let rx := flags &&& 0x40 ≠ 0
  let tmo := flags &&& 0x80 ≠ 0
  let crc := flags &&& 0x20 ≠ 0
  let cflags : Byte := (((0 ||| if tx then 0x08 else 0) ||| if rx then 0x40 else 0)
    ||| if tmo then 0x80 else 0) ||| if crc then 0x20 else 0
  let result : Byte := (((0 ||| if tx then 0x04 else 0) ||| if rx then 0x02 else 0)
    ||| if tmo then 0x01 else 0) ||| if crc then 0x08 else 0
  writeReg 0x12 cflags
  opt handler (.handler result)
  pure result

end Uwan.Sx127x
