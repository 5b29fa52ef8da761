import Verif.Code.Sx127x
import Verif.Code.Enc
import Verif.Model.Driver

/-!
# Running the text of the SX127x driver

The program printed from `src/device/sx127x.c` runs against a chip that may answer every call of the HAL in any way. `sx127x_set_freq` (260-270) is written
with 64-bit integers, which the semantics does not have: it is not printed, and `Model/Sx127x.lean` stands for it.
-/

namespace Uwan.C.Drv

/-- What a call of the driver has done so far: the calls of the HAL with the bytes that came back, and whether a left shift overflowed. -/
structure Wire where
  tr : Trace
  over : Bool
  deriving DecidableEq, Repr

/-- What a chip answers, knowing everything that happened since the driver was called. -/
abbrev ChipAns := Trace → Call → Byte

/-- A call of the HAL. -/
def Wire.did (ans : ChipAns) (w : Wire) (c : Call) : Wire := ⟨w.tr ++ [(c, ans w.tr c)], w.over⟩

/-- Follow a program of the model against a chip that is never busy. -/
def follow (ans : ChipAns) {α : Type} : Prog α → Wire → Except UB (α × Wire)
  | .ret a, w => .ok (a, w)
  | .call c k, w => follow ans (k (ans w.tr c)) (w.did ans c)
  | .poll k, w => follow ans k ⟨w.tr ++ [(.isBusy, 0)], w.over⟩
  | .fail u, _ => .error u

/-- A function of the HAL. -/
def halCall (ans : ChipAns) (c : Call) (ret : Byte → Val) : M Wire Val := fun m =>
  .ok (ret (ans m.io.tr c), { m with io := m.io.did ans c })

/-- The HAL (include/uwan/stack.h:124-133), the event handler of the stack, and `sx127x_set_freq`. -/
def chipHost (ans : ChipAns) : Host Wire where
  ext := fun f as =>
    match f, as with
    | "hal.spi_xfer", [.int _ n] => halCall ans (.xfer (BitVec.ofInt 8 n)) fun r => .int .u8 r.toNat
    | "hal.select", [.int _ n] => halCall ans (.select (decide (n ≠ 0))) fun _ => .null
    | "hal.reset", [.int _ n] => halCall ans (.reset (decide (n ≠ 0))) fun _ => .null
    | "hal.delay_us", [.int _ n] => halCall ans (.delay (n % 4294967296).toNat) fun _ => .null
    | "hal.io_init", [] => halCall ans .ioInit fun _ => .null
    | "hal.io_deinit", [] => halCall ans .ioDeinit fun _ => .null
    | "hal.ant_sw_ctrl", [.int _ n] => halCall ans (.antSw (decide (n ≠ 0))) fun _ => .null
    | "evt_handler", [.int _ n] => halCall ans (.handler (BitVec.ofInt 8 n)) fun _ => .null
    | "sx127x_set_freq", [.int _ n] => fun m =>
      match m.glob.get "hal" with
      | some [.ptr _] =>
        match follow ans (Sx127x.setFreq (BitVec.ofInt 32 n)) m.io with
        | .ok (_, w) => .ok (.null, { m with io := w })
        | .error _ => .error .stuck
      | _ => .error .null
    | _, _ => M.fail .stuck
  mark := fun w => { w with over := true }

/-- The `struct radio_hal` of the application. -/
def radioObjs (h : Hal) : Objs := [
  ("radio_hal.spi_xfer", [.fn "hal.spi_xfer"]),
  ("radio_hal.reset", [.fn "hal.reset"]),
  ("radio_hal.select", [.fn "hal.select"]),
  ("radio_hal.delay_us", [.fn "hal.delay_us"]),
  ("radio_hal.is_busy", [.null]),
  ("radio_hal.io_init", [optFn h.ioInit "hal.io_init"]),
  ("radio_hal.io_deinit", [optFn h.ioDeinit "hal.io_deinit"]),
  ("radio_hal.ant_sw_ctrl", [optFn h.antSw "hal.ant_sw_ctrl"])]

/-- The function behind a member of `struct radio_dev`, its arguments, and the memory of the caller they point to. `struct uwan_packet_params`:
include/uwan/stack.h:143-151. -/
def dcall : DOp → String × List Val × Objs
  | .init h _ => ("sx127x_init", [if h.isSome then globPtr "radio_hal" else .null, .null], [])
  | .sleep => ("sx127x_sleep", [], [])
  | .setFrequency f => ("sx127x_set_freq", [u32Val f], [])
  | .setPower p => ("sx127x_set_power", [i8Val p], [])
  | .setPublicNetwork b => ("sx127x_set_public_network", [boolVal b], [])
  | .setup p => ("sx127x_setup", [globPtr "params"], [
      ("params.sf", [enumVal (Sf.num p.sf)]), ("params.bw", [enumVal (Bw.num p.bw)]), ("params.cr", [enumVal (Cr.num p.cr)]),
      ("params.crc_on", [boolVal p.crcOn]), ("params.inverted_iq", [boolVal p.invertedIq]), ("params.implicit_header", [boolVal p.implicitHeader])])
  | .tx buf => ("sx127x_tx", [globPtr "buf", .int .u8 buf.length], [("buf", buf.map byteVal)])
  | .rx len symb tmo => ("sx127x_rx", [byteVal len, .int .u16 symb.toNat, u32Val tmo], [])
  | .readPacket buf => ("sx127x_read_packet", [globPtr "pkt"], [
      ("pkt.data", [globPtr "buf"]), ("pkt.size", [.int .u8 buf.length]), ("pkt.rssi", [.int .i16 0]), ("pkt.snr", [.int .i8 0]), ("buf", buf.map byteVal)])
  | .rand => ("sx127x_rand", [], [])
  | .irqHandler => ("sx127x_irq_handler", [], [])
  | .setEvtHandler b => ("sx127x_set_evt_handler", [optFn b "evt_handler"], [])

/-- An integer the driver left behind. -/
def intOf : Option (List Val) → Int
  | some [.int _ n] => n
  | _ => 0

/-- Bytes the driver left behind. -/
def bytesOf (l : List Val) : Bytes := l.map fun
  | .int _ n => BitVec.ofInt 8 n
  | _ => 0

/-- What the caller sees: the value returned, or the packet filled in. -/
def dret (op : DOp) (v : Val) (m : Mem Wire) : DRet :=
  match op, v with
  | .init _ _, .int _ n => .bool (decide (n ≠ 0))
  | .setPower _, .int _ n => .bool (decide (n ≠ 0))
  | .rand, .int _ n => .rand (BitVec.ofInt 32 n) m.io.over
  | .irqHandler, .int _ n => .mask (BitVec.ofInt 8 n)
  | .readPacket _, _ => .pkt ⟨bytesOf ((m.glob.get "buf").getD []), (intOf (m.glob.get "pkt.size")).toNat,
      BitVec.ofInt 16 (intOf (m.glob.get "pkt.rssi")), BitVec.ofInt 8 (intOf (m.glob.get "pkt.snr"))⟩
  | _, _ => .unit

/-- The contents of the HAL table during a call: `init` is the only member that gets one. -/
def halNow (h : Hal) : DOp → Hal
  | .init (some h') _ => h'
  | _ => h

/-- A member of `struct radio_dev` called when the variables of the driver are `g`: at most `L` rounds of any loop, calls nested at most `D` deep. -/
def dturn (ans : ChipAns) (L D : Nat) (g : Objs) (h : Hal) (op : DOp) : Except Fault (Val × Mem Wire) :=
  call (chipHost ans) Sx127xSrc.sx127xFuns L D (dcall op).1 (dcall op).2.1
    ⟨g ++ radioObjs (halNow h op) ++ (dcall op).2.2, [], ⟨[], false⟩⟩

end Uwan.C.Drv
