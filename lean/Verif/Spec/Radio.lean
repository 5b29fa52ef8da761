import Verif.Model.Driver

/-!
# What the radio chips see

Specification side of the radio drivers: SPI framing, the register file and operating mode of
an SX127x (Semtech SX1276/77/78/79 datasheet rev. 7), the commands of an SX126x (Semtech
SX1261/2 datasheet rev. 1.2).  Nothing here refers to the drivers.
-/

namespace Spec
open Uwan

/-! ## SPI framing -/

/-- What happens on the bus: a chip-select frame with the bytes sent and received, or a call of
another HAL function with what it returned. -/
inductive Bus where
  | frame (mosi miso : Bytes)
  | other (c : Call) (r : Byte)
  deriving DecidableEq, Repr

/-- Group HAL calls into frames; the first argument holds the bytes of the open frame.  `none` when a
byte is transferred outside a frame, a frame is opened twice or closed twice, another HAL
function is called inside a frame, or a frame is left open. -/
def group : Option (Bytes × Bytes) → Trace → Option (List Bus)
  | none, [] => some []
  | some _, [] => none
  | none, (.select true, _) :: t => group (some ([], [])) t
  | none, (.select false, _) :: _ => none
  | none, (.xfer _, _) :: _ => none
  | none, (c, r) :: t => (group none t).map (.other c r :: ·)
  | some (o, i), (.xfer b, r) :: t => group (some (o ++ [b], i ++ [r])) t
  | some (o, i), (.select false, _) :: t => (group none t).map (.frame o i :: ·)
  | some _, _ :: _ => none

/-- The frames and other calls of an execution; `none` if it is badly framed. -/
def bus (tr : Trace) : Option (List Bus) := group none tr

/-- Bus activity without the polls of the BUSY line. -/
def quiet : List Bus → List Bus
  | [] => []
  | .other .isBusy _ :: l => quiet l
  | x :: l => x :: quiet l

/-- The bytes sent in each frame. -/
def sent : List Bus → List Bytes
  | [] => []
  | .frame o _ :: l => o :: sent l
  | .other _ _ :: l => sent l

/-- The event masks passed to the handler the stack registered. -/
def reported : List Bus → List Byte
  | [] => []
  | .other (.handler m) _ :: l => m :: reported l
  | _ :: l => reported l

/-! ## Events -/

/-- The radio events the stack cares about. -/
structure Events where
  txDone : Bool
  rxDone : Bool
  timeout : Bool
  crcError : Bool
  deriving DecidableEq, Repr

/-- The mask of include/uwan/stack.h:117-122; `none` if another bit is set. -/
def maskEvents (m : Byte) : Option Events :=
  if m.toNat < 16 then
    some ⟨m.toNat / 4 % 2 = 1, m.toNat / 2 % 2 = 1, m.toNat % 2 = 1, m.toNat / 8 % 2 = 1⟩
  else none

/-- RegIrqFlags of an SX127x in LoRa mode (datasheet 4.4). -/
def flags127 (f : Byte) : Events :=
  ⟨f.toNat / 8 % 2 = 1, f.toNat / 64 % 2 = 1, f.toNat / 128 % 2 = 1, f.toNat / 32 % 2 = 1⟩

/-- The two status bytes of GetIrqStatus of an SX126x (datasheet 13.3.1). -/
def flags126 (b1 b0 : Byte) : Events :=
  ⟨b0.toNat % 2 = 1, b0.toNat / 2 % 2 = 1, b1.toNat / 2 % 2 = 1, b0.toNat / 64 % 2 = 1⟩

/-! ## What the application asks for -/

/-- The spreading factor as a number. -/
def sfOf : Sf → Nat
  | .sf6 => 6 | .sf7 => 7 | .sf8 => 8 | .sf9 => 9 | .sf10 => 10 | .sf11 => 11 | .sf12 => 12
/-- The bandwidth in kHz. -/
def bwKhz : Bw → Nat
  | .bw125 => 125 | .bw250 => 250 | .bw500 => 500
/-- The denominator of the coding rate 4/n. -/
def crDen : Cr → Nat
  | .cr45 => 5 | .cr46 => 6 | .cr47 => 7 | .cr48 => 8

/-! ## SX127x: registers

The first byte of a frame is the address, bit 7 set for a write; each further byte accesses one
register, the address going up by one except for the FIFO at address 0 (datasheet 2.2). -/

/-- A single register access, or a reset of the chip. -/
inductive Reg where
  | write (a : Nat) (v : Byte)
  | read (a : Nat) (v : Byte)
  | reset
  deriving DecidableEq, Repr

/-- Accesses of the data bytes of a frame. -/
def burst (f : Nat → Byte → Reg) : Nat → Bytes → List Reg
  | _, [] => []
  | a, v :: vs => f a v :: burst f (if a = 0 then 0 else a + 1) vs

/-- The register accesses of a frame: a write carries the bytes sent, a read the bytes received. -/
def accesses : Bus → List Reg
  | .other (.reset _) _ => [.reset]
  | .frame (c :: o) (_ :: i) =>
    if c.toNat < 128 then burst .read c.toNat i else burst .write (c.toNat - 128) o
  | _ => []

/-- All register accesses, in order. -/
def regs (l : List Bus) : List Reg := l.flatMap accesses

/-- The values read from a register, in order. -/
def readsOf (a : Nat) : List Reg → Bytes
  | [] => []
  | .read b v :: l => if b = a then v :: readsOf a l else readsOf a l
  | _ :: l => readsOf a l

/-- The values written to a register, in order. -/
def writesOf (a : Nat) : List Reg → Bytes
  | [] => []
  | .write b v :: l => if b = a then v :: writesOf a l else writesOf a l
  | _ :: l => writesOf a l

/-- Register file and data buffer of an SX127x, and the register contents after a reset.  The registers of
the LoRa and FSK pages share addresses; only one page is looked at in each statement. -/
structure Chip where
  por : Nat → Byte
  reg : Nat → Byte
  mem : Byte → Byte

/-- `f` with `v` at `a`. -/
def put {α β : Type} [DecidableEq α] (f : α → β) (a : α) (v : β) : α → β :=
  fun x => if x = a then v else f x

/-- One access.  The FIFO goes through the address pointer in register 0x0d, which then advances
(datasheet 4.1.2.3). -/
def Chip.access (c : Chip) : Reg → Chip
  | .write a v =>
    if a = 0 then { c with reg := put c.reg 0x0d (c.reg 0x0d + 1), mem := put c.mem (c.reg 0x0d) v }
    else { c with reg := put c.reg a v }
  | .read a _ =>
    if a = 0 then { c with reg := put c.reg 0x0d (c.reg 0x0d + 1) } else c
  | .reset => { c with reg := c.por }

/-- A sequence of accesses. -/
def Chip.run (c : Chip) : List Reg → Chip
  | [] => c
  | x :: l => (c.access x).run l

/-- Reads of the addresses in `S` return what the chip holds there (for the FIFO: in the data
buffer at the pointer); reads of other addresses may return anything. -/
def Chip.Honest (S : List Nat) (c : Chip) : List Reg → Prop
  | [] => True
  | .read a v :: l =>
    (a ∈ S → v = if a = 0 then c.mem (c.reg 0x0d) else c.reg a) ∧ (c.access (.read a v)).Honest S l
  | .write a v :: l => (c.access (.write a v)).Honest S l
  | .reset :: l => (c.access .reset).Honest S l

/-! ### Modem configuration (datasheet 4.4, LoRa page) -/

/-- RegModemConfig1 bits 7-4. -/
def Chip.bwKhz (c : Chip) : Option Nat :=
  match (c.reg 0x1d).toNat / 16 with
  | 7 => some 125 | 8 => some 250 | 9 => some 500 | _ => none
/-- RegModemConfig1 bits 3-1: 4/(4+n). -/
def Chip.crDen (c : Chip) : Nat := 4 + (c.reg 0x1d).toNat / 2 % 8
/-- RegModemConfig1 bit 0. -/
def Chip.implicit (c : Chip) : Bool := (c.reg 0x1d).toNat % 2 = 1
/-- RegModemConfig2 bits 7-4. -/
def Chip.sf (c : Chip) : Nat := (c.reg 0x1e).toNat / 16
/-- RegModemConfig2 bit 3. -/
def Chip.txContinuous (c : Chip) : Bool := (c.reg 0x1e).toNat / 8 % 2 = 1
/-- RegModemConfig2 bit 2. -/
def Chip.crcOn (c : Chip) : Bool := (c.reg 0x1e).toNat / 4 % 2 = 1
/-- RegModemConfig2 bits 1-0 and RegSymbTimeoutLsb. -/
def Chip.symbTimeout (c : Chip) : Nat := (c.reg 0x1e).toNat % 4 * 256 + (c.reg 0x1f).toNat
/-- RegModemConfig3 bit 3. -/
def Chip.lowDataRate (c : Chip) : Bool := (c.reg 0x26).toNat / 8 % 2 = 1
/-- RegModemConfig3 bit 2. -/
def Chip.agcAuto (c : Chip) : Bool := (c.reg 0x26).toNat / 4 % 2 = 1
/-- RegInvertIQ: receive path inverted by bit 6, transmit path inverted by clearing bit 0; and
RegInvertIQ2, 0x19 for inverted and 0x1d for normal. `none` for inconsistent settings. -/
def Chip.invertedIq (c : Chip) : Option Bool :=
  match (c.reg 0x33).toNat / 64 % 2, (c.reg 0x33).toNat % 2, c.reg 0x3b with
  | 1, 0, 0x19 => some true
  | 0, 1, 0x1d => some false
  | _, _, _ => none
/-- RegPreamble: symbols in the preamble. -/
def Chip.preamble (c : Chip) : Nat := (c.reg 0x20).toNat * 256 + (c.reg 0x21).toNat
/-- RegFrf: carrier frequency in units of 32 MHz / 2^19. -/
def Chip.frf (c : Chip) : Nat :=
  (c.reg 0x06).toNat * 65536 + (c.reg 0x07).toNat * 256 + (c.reg 0x08).toNat
/-- RegPaConfig (datasheet 3.4.2): output power in tenths of a dBm. -/
def Chip.power (c : Chip) : Int :=
  let out : Int := (c.reg 0x09).toNat % 16
  if (c.reg 0x09).toNat / 128 = 1 then 10 * (17 - (15 - out))
  else (108 + 6 * ((c.reg 0x09).toNat / 16 % 8 : Nat)) - 10 * (15 - out)

/-- RegDioMapping1: the selection for pins DIO0..DIO3.  In LoRa mode DIO0 signals RxDone (0) or TxDone (1), DIO1 RxTimeout (0), DIO3
PayloadCrcError (2) (datasheet table 18). -/
def Chip.dio (c : Chip) (k : Nat) : Nat := (c.reg 0x40).toNat / 4 ^ (3 - k) % 4

/-! ### Operating mode (datasheet 4.1.6, RegOpMode) -/

/-- Long-range (LoRa) mode, access to the FSK page from LoRa mode, and operating mode. -/
structure OpMode where
  lora : Bool
  shared : Bool
  mode : Nat
  deriving DecidableEq, Repr

/-- After a reset: FSK, standby. -/
def OpMode.reset : OpMode := ⟨false, false, 1⟩

/-- A write to RegOpMode.  The LoRa bit can only be changed in sleep mode (mode 0). -/
def OpMode.write (m : OpMode) (v : Byte) : OpMode :=
  ⟨if m.mode = 0 then v.toNat / 128 = 1 else m.lora, v.toNat / 64 % 2 = 1, v.toNat % 8⟩

/-- Follow the operating mode; when a transmission or reception ends the chip goes to standby by
itself, which matters neither to the LoRa bit nor to whether it sleeps. -/
def OpMode.next (m : OpMode) : Reg → OpMode
  | .reset => .reset
  | .write a v => if a = 1 then m.write v else m
  | .read _ _ => m

/-- The operating mode after a sequence of accesses. -/
def OpMode.run (m : OpMode) : List Reg → OpMode
  | [] => m
  | x :: l => (m.next x).run l

/-- A read of RegOpMode returns the LoRa and page bits the chip has; the mode bits may have changed. -/
def OpMode.Agrees (m : OpMode) : Reg → Prop
  | .read a v => a = 1 → (v.toNat / 128 = 1 ↔ m.lora = true) ∧ (v.toNat / 64 % 2 = 1 ↔ m.shared = true)
  | _ => True

/-- Every read of RegOpMode does. -/
def OpMode.Honest (m : OpMode) : List Reg → Prop
  | [] => True
  | x :: l => m.Agrees x ∧ (m.next x).Honest l

/-! ## SX126x: commands -/

/-- What a frame does to a sleeping or awake SX126x: `none` when a sleeping chip receives anything but
the wake-up GetStatus; SetSleep puts it to sleep (datasheet 9.3, 13.1.1). -/
def nap : Bool → Bus → Option Bool
  | _, .other (.reset _) _ => some false
  | a, .other _ _ => some a
  | _, .frame [] _ => none
  | true, .frame (c :: _) _ => if c = 0xc0 then some false else none
  | false, .frame (c :: _) _ => some (c = 0x84)

/-- Whether the chip sleeps after a sequence of bus activity; `none` if it was ever talked to while
asleep. -/
def naps : Bool → List Bus → Option Bool
  | a, [] => some a
  | a, x :: l => (nap a x).bind (naps · l)

/-- Whether every frame but a wake-up GetStatus is sent right after the BUSY line was seen low
(datasheet 8.3.1); the argument says whether that was just the case. -/
def polled : Bool → List Bus → Bool
  | _, [] => true
  | ready, .frame o _ :: l => (ready || o.head? == some 0xc0) && polled false l
  | _, .other .isBusy r :: l => polled (r == 0) l
  | _, .other _ _ :: l => polled false l

/-- SetModulationParams (datasheet 13.4.5): SF, bandwidth in kHz, coding-rate denominator, low data
rate optimisation. -/
def modParams : Bytes → Option (Nat × Nat × Nat × Bool)
  | [0x8b, sf, bw, cr, ldro] =>
    let k := match bw.toNat with | 4 => some 125 | 5 => some 250 | 6 => some 500 | _ => none
    match k with
    | some k =>
      if 5 ≤ sf.toNat ∧ sf.toNat ≤ 12 ∧ 1 ≤ cr.toNat ∧ cr.toNat ≤ 4 ∧ ldro.toNat ≤ 1 then
        some (sf.toNat, k, 4 + cr.toNat, ldro = 1)
      else none
    | none => none
  | _ => none

/-- SetPacketParams for LoRa (datasheet 13.4.6). -/
structure PacketCfg where
  preamble : Nat
  implicit : Bool
  length : Nat
  crcOn : Bool
  invertedIq : Bool
  deriving DecidableEq, Repr

def packetParams : Bytes → Option PacketCfg
  | [0x8c, p1, p2, hdr, len, crc, iq] =>
    if hdr.toNat ≤ 1 ∧ crc.toNat ≤ 1 ∧ iq.toNat ≤ 1 then
      some ⟨p1.toNat * 256 + p2.toNat, hdr = 1, len.toNat, crc = 1, iq = 1⟩
    else none
  | _ => none

/-- Output power in dBm for a SetPaConfig and a SetTxParams command (datasheet 13.1.14, 13.4.4), for the
documented PA settings. -/
def paPower : Bytes → Bytes → Option Int
  | [0x95, duty, hpMax, dev, lut], [0x8e, p, _] =>
    if lut ≠ 1 then none
    else if dev = 1 ∧ hpMax = 0 then
      if p.toInt < -17 ∨ 14 < p.toInt then none
      else if duty = 4 then some p.toInt
      else if duty = 6 ∧ p.toInt = 14 then some 15
      else none
    else if dev = 0 ∧ hpMax = 7 ∧ duty = 4 then
      if p.toInt < -9 ∨ 22 < p.toInt then none else some p.toInt
    else none
  | _, _ => none

/-- The frequency in a SetRfFrequency command, in units of 32 MHz / 2^25 (datasheet 13.4.1). -/
def rfFreq : Bytes → Option Nat
  | [0x86, b3, b2, b1, b0] => some (b3.toNat * 2 ^ 24 + b2.toNat * 2 ^ 16 + b1.toNat * 2 ^ 8 + b0.toNat)
  | _ => none

/-- The band in MHz for which a CalibrateImage command calibrates (datasheet 9.2.1): in steps of 4 MHz. -/
def imageBand : Bytes → Option (Nat × Nat)
  | [0x98, lo, hi] => some (4 * lo.toNat, 4 * hi.toNat)
  | _ => none

/-- Read a register of an SX126x. -/
def readCmd (a : Nat) : Bytes := [0x1d, BitVec.ofNat 8 (a / 256), BitVec.ofNat 8 a, 0xff, 0xff]

/-- Write a register of an SX126x. -/
def writeCmd (a : Nat) (v : Byte) : Bytes := [0x0d, BitVec.ofNat 8 (a / 256), BitVec.ofNat 8 a, v]

/-- The workaround of datasheet 15.4 for inverted IQ: `rd` reads register 0x0736 and `wr` writes it back with bit 2 clear for inverted
and set for normal IQ, the other bits as they were read. -/
def IqFixed (inverted : Bool) (l : List Bus) (rd wr : Bytes) : Prop :=
  rd = readCmd 0x736 ∧ ∃ m0 m1 m2 m3 v x, .frame rd [m0, m1, m2, m3, v] ∈ l ∧ wr = writeCmd 0x736 x ∧
    x.toNat / 4 % 2 = (if inverted then 0 else 1) ∧ x.toNat % 4 = v.toNat % 4 ∧ x.toNat / 8 = v.toNat / 8

/-- The workaround of datasheet 15.2 for the high-power amplifier: `rd` reads register 0x08d8 and `wr` writes it back with bits 4-1 set, the
other bits as they were read. -/
def Clamped (l : List Bus) (rd wr : Bytes) : Prop :=
  rd = readCmd 0x8d8 ∧ ∃ m0 m1 m2 m3 v x, .frame rd [m0, m1, m2, m3, v] ∈ l ∧ wr = writeCmd 0x8d8 x ∧
    x.toNat / 2 % 16 = 15 ∧ x.toNat % 2 = v.toNat % 2 ∧ x.toNat / 32 = v.toNat / 32

/-- The timeout in a SetRx command, in units of 15.625 us (datasheet 13.1.5). -/
def rxTimeout : Bytes → Option Nat
  | [0x82, b2, b1, b0] => some (b2.toNat * 2 ^ 16 + b1.toNat * 2 ^ 8 + b0.toNat)
  | _ => none

/-- The voltage selection and the start-up time in a SetDIO3AsTcxoCtrl command, in units of 15.625 us
(datasheet 13.3.6). -/
def tcxo : Bytes → Option (Byte × Nat)
  | [0x97, v, b2, b1, b0] => some (v, b2.toNat * 2 ^ 16 + b1.toNat * 2 ^ 8 + b0.toNat)
  | _ => none

/-- The two wake-up frames, GetStatus and SetStandby(RC), or nothing. -/
def Woken (w : List Bytes) : Prop := w = [] ∨ w = [[0xc0, 0], [0x80, 0]]

/-- The configuration an SX126x holds: LoRa packet type, modulation, frequency word, PA and TX commands, registers. -/
structure Held where
  lora : Bool
  modulation : Option (Nat × Nat × Nat × Bool)
  rf : Option Nat
  pa : Option Bytes
  txp : Option Bytes
  reg : Nat → Byte

/-- Consecutive register writes. -/
def putAll (f : Nat → Byte) : Nat → Bytes → Nat → Byte
  | _, [] => f
  | a, v :: vs => putAll (put f a v) (a + 1) vs

/-- After a reset or a cold-start sleep: FSK, nothing configured, register defaults `por`. -/
def Held.fresh (por : Nat → Byte) : Held := ⟨false, none, none, none, none, por⟩

/-- What a frame does to the held configuration.  SetSleep keeps it only with bit 2 (warm start) set (datasheet 13.1.1);
changing the packet type loses the modulation parameters (13.4.2). -/
def Held.next (por : Nat → Byte) (c : Held) : Bus → Held
  | .other (.reset _) _ => .fresh por
  | .other _ _ => c
  | .frame [0x84, x] _ => if x.toNat / 4 % 2 = 1 then c else .fresh por
  | .frame [0x8a, t] _ => { c with lora := t = 1, modulation := none }
  | .frame (0x8b :: o) _ => { c with modulation := if c.lora then modParams (0x8b :: o) else none }
  | .frame (0x86 :: o) _ => { c with rf := rfFreq (0x86 :: o) }
  | .frame (0x95 :: o) _ => { c with pa := some (0x95 :: o) }
  | .frame (0x8e :: o) _ => { c with txp := some (0x8e :: o) }
  | .frame (0x0d :: h :: l :: vs) _ => { c with reg := putAll c.reg (h.toNat * 256 + l.toNat) vs }
  | .frame _ _ => c

/-- The configuration after a sequence of bus activity. -/
def Held.run (por : Nat → Byte) (c : Held) : List Bus → Held
  | [] => c
  | x :: l => (c.next por x).run por l

/-! ## What the application asked for -/

/-- The requests made since the last `init`, and whether that `init` succeeded. -/
structure Wish where
  up : Bool
  freq : Option U32
  power : Option (BitVec 8)
  setup : Option PktParams
  isPublic : Bool

/-- One call. -/
def Wish.next (w : Wish) (x : DItem) : Wish :=
  match x.op with
  | .init _ _ => ⟨x.ret = .bool true, none, none, none, true⟩
  | .setFrequency f => { w with freq := some f }
  | .setPower p => if x.ret = .bool true then { w with power := some p } else w
  | .setup p => { w with setup := some p }
  | .setPublicNetwork b => { w with isPublic := b }
  | _ => w

/-- A sequence of calls, from power-on. -/
def wish (log : List DItem) : Wish := log.foldl Wish.next ⟨false, none, none, none, true⟩

/-- The result of the last `init` call: whether the driver is up. -/
def lastInit : List DItem → Option DRet
  | [] => none
  | x :: l => match lastInit l with
    | some r => some r
    | none => match x.op with
      | .init _ _ => some x.ret
      | _ => none

/-- The power of the last `set_power` call that was accepted. -/
def lastPower : List DItem → Option (BitVec 8)
  | [] => none
  | x :: l => match lastPower l with
    | some r => some r
    | none => match x.op with
      | .setPower p => if x.ret = .bool true then some p else none
      | _ => none

/-- The last element satisfying a test. -/
def lastOf {α β : Type} (f : α → Option β) : List α → Option β
  | [] => none
  | x :: l => match lastOf f l with
    | some b => some b
    | none => f x

/-! ## The board around the chip -/

/-- What concerns the board: the optional HAL functions, and the chip starting to transmit or to receive. -/
inductive Board where
  | antenna (isRx : Bool)
  | ioInit
  | ioDeinit
  | start (isRx : Bool)
  deriving DecidableEq, Repr

/-- A board function of the HAL. -/
def boardCall : Call → List Board
  | .antSw b => [.antenna b]
  | .ioInit => [.ioInit]
  | .ioDeinit => [.ioDeinit]
  | _ => []

/-- A write of RegOpMode of an SX127x that starts the transmitter (mode 3) or the receiver (modes 5 and 6). -/
def start127 : Reg → List Board
  | .write a v => if a = 1 then if v.toNat % 8 = 3 then [.start false] else if v.toNat % 8 = 5 ∨ v.toNat % 8 = 6 then [.start true] else [] else []
  | _ => []

/-- What concerns the board, with an SX127x. -/
def board127 (l : List Bus) : List Board :=
  l.flatMap fun x => match x with
    | .other c _ => boardCall c
    | x => (accesses x).flatMap start127

/-- What concerns the board, with an SX126x: the commands are SetTx (0x83) and SetRx (0x82). -/
def board126 (l : List Bus) : List Board :=
  l.flatMap fun x => match x with
    | .other c _ => boardCall c
    | .frame (c :: _) _ => if c.toNat = 0x83 then [.start false] else if c.toNat = 0x82 then [.start true] else []
    | .frame [] _ => []

/-- The HAL given to the last `init`. -/
def halOf (log : List DItem) : Option Hal :=
  log.foldl (fun h x => match x.op with | .init h' _ => h' | _ => h) none

/-- `x` if the HAL provides it. -/
def provided (b : Bool) (x : Board) : List Board := if b then [x] else []

/-- What should happen around a call other than `init` and `rand`. -/
def expected (h : Hal) : DOp → List Board
  | .setup _ => provided h.ioInit .ioInit
  | .sleep => provided h.ioDeinit .ioDeinit
  | .tx _ => provided h.antSw (.antenna false) ++ [.start false]
  | .rx _ _ _ => provided h.antSw (.antenna true) ++ [.start true]
  | _ => []

end Spec
