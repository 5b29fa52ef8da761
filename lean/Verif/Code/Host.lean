import Verif.Code.Sem
import Verif.Model.Stack

/-!
# The environment of the C program

The radio, the timers, the cipher and the application, as seen by the functions printed in `Verif/Code`: every call they make outside is turned into the effect `Ev` the model
uses for it; what the environment answers is the model's oracle.
-/

namespace Uwan.C

/-- What the environment will answer during one call of the stack. -/
structure Input where
  env : Env
  rx : Bytes
  rssi : BitVec 16
  snr : BitVec 8
  devTime : U32
  seed : U32

/-- What changes in the environment: random numbers and battery levels still to come, the running CMAC computation, the calls made so far. -/
structure World where
  rands : List Nat
  bats : List Byte
  cmac : Block × Bytes
  ev : List Ev

abbrev Comp := M World

/-- A byte in memory. -/
def byteVal (b : Byte) : Val := .int .u8 b.toNat

def valByte? : Val → Option Byte
  | .int .u8 n => some (BitVec.ofInt 8 n)
  | _ => none

/-- `n` bytes from a pointer. -/
def readBytes (r : Ref) (n : Nat) : Comp Bytes := M.bind (loads r n) fun l => ofOption .stuck (l.mapM valByte?)

def writeBytes (r : Ref) (l : Bytes) : Comp Unit := stores r (l.map byteVal)

/-- 16 bytes from a pointer. -/
def readBlock (r : Ref) : Comp Block := M.bind (readBytes r 16) fun l => ofOption .stuck (toBlock? l)

/-- Record a call. -/
def emit (e : Ev) : Comp Unit := fun m => .ok ((), { m with io := { m.io with ev := m.io.ev ++ [e] } })

/-- A call without result. -/
def emitV (e : Ev) : Comp Val := M.bind (emit e) fun _ => M.pure .null

/-- A member of a structure as an integer. -/
def field (r : Ref) (f : String) : Comp Int := M.bind (loadRef { r with obj := r.obj ++ f }) fun
  | .int _ n => M.pure n
  | _ => M.fail .stuck

def sfOf? : Int → Option Sf
  | 0 => some .sf6 | 1 => some .sf7 | 2 => some .sf8 | 3 => some .sf9 | 4 => some .sf10 | 5 => some .sf11 | 6 => some .sf12
  | _ => none

def bwOf? : Int → Option Bw
  | 0 => some .bw125 | 1 => some .bw250 | 2 => some .bw500
  | _ => none

def crOf? : Int → Option Cr
  | 0 => some .cr45 | 1 => some .cr46 | 2 => some .cr47 | 3 => some .cr48
  | _ => none

def timerOf? : Int → Option TimerId
  | 0 => some .rx1 | 1 => some .rx2
  | _ => none

def errOf? : Int → Option Err
  | 0 => some .no | 1 => some .state | 2 => some .datarate | 3 => some .channel | 4 => some .frequency | 5 => some .rxTimeout | 6 => some .rxCrc
  | 7 => some .msgLen | 8 => some .msgMhdr | 9 => some .msgMic | 10 => some .devAddr | 11 => some .fcnt
  | _ => none

/-- `struct uwan_packet_params` behind a pointer. -/
def readParams (r : Ref) : Comp PktParams :=
  M.bind (field r ".sf") fun sf => M.bind (ofOption .stuck (sfOf? sf)) fun sf =>
  M.bind (field r ".bw") fun bw => M.bind (ofOption .stuck (bwOf? bw)) fun bw =>
  M.bind (field r ".cr") fun cr => M.bind (ofOption .stuck (crOf? cr)) fun cr =>
  M.bind (field r ".preamble_len") fun pl => M.bind (field r ".crc_on") fun crc => M.bind (field r ".inverted_iq") fun iq =>
  M.bind (field r ".implicit_header") fun ih =>
  M.pure ⟨sf, bw, cr, BitVec.ofInt 16 pl, decide (crc ≠ 0), decide (iq ≠ 0), decide (ih ≠ 0)⟩

/-- `struct uwan_dl_packet` behind a pointer. -/
def readPkt (r : Ref) : Comp DlPkt :=
  M.bind (loadRef { r with obj := r.obj ++ ".data" }) fun d => M.bind (field r ".size") fun n => M.bind (field r ".f_port") fun port =>
  M.bind (field r ".rssi") fun rssi => M.bind (field r ".snr") fun snr =>
  match d with
  | .null => if n = 0 then M.pure ⟨none, BitVec.ofInt 8 port, BitVec.ofInt 16 rssi, BitVec.ofInt 8 snr⟩ else M.fail .null
  | .ptr q => M.bind (readBytes q n.toNat) fun l => M.pure ⟨some l, BitVec.ofInt 8 port, BitVec.ofInt 16 rssi, BitVec.ofInt 8 snr⟩
  | _ => M.fail .stuck

/-- `read_packet` of the radio: at most `pkt->size` bytes of the packet received. -/
def radioRead (I : Input) (r : Ref) : Comp Unit :=
  M.bind (loadRef { r with obj := r.obj ++ ".data" }) fun
  | .ptr q => M.bind (field r ".size") fun n =>
    let l := I.rx.take n.toNat
    M.bind (writeBytes q l) fun _ =>
    M.bind (storeRef { r with obj := r.obj ++ ".size" } (.int .u8 l.length)) fun _ =>
    M.bind (storeRef { r with obj := r.obj ++ ".rssi" } (.int .i16 I.rssi.toInt)) fun _ =>
    M.bind (storeRef { r with obj := r.obj ++ ".snr" } (.int .i8 I.snr.toInt)) fun _ => M.pure ()
  | _ => M.fail .stuck

/-- `rand()`. -/
def popRand : Comp Val := fun m =>
  match m.io.rands with
  | r :: rs => .ok (.int .i32 r, { m with io := { m.io with rands := rs } })
  | [] => .error .stuck

/-- `get_battery_level()`. -/
def popBat : Comp Val := fun m =>
  match m.io.bats with
  | b :: bs => .ok (byteVal b, { m with io := { m.io with bats := bs, ev := m.io.ev ++ [.getBattery] } })
  | [] => .error .stuck

/-- Bytes as integers, the content of a cipher context. -/
def keyInts (k : Block) : List Int := k.toList.map fun b => (b.toNat : Int)

def intsKey? (l : List Int) : Option Block := toBlock? (l.map (BitVec.ofInt 8))

/-- A call out of the stack (prototypes: include/uwan/stack.h:153-194). Arguments are converted to the type of the parameter. -/
def outside (I : Input) (f : String) (as : List Val) : Comp Val :=
  match f, as with
  | "srand", [.int _ _] => M.pure .null
  | "rand", [] => popRand
  | "radio.set_evt_handler", [.fn "evt_handler"] => emitV .setEvtHandler
  | "radio.rand", [] => M.bind (emit .radioRand) fun _ => M.pure (.int .u32 I.seed.toNat)
  | "radio.set_frequency", [.int _ n] => emitV (.setFrequency (BitVec.ofInt 32 n))
  | "radio.setup", [.ptr r] => M.bind (readParams r) fun p => emitV (.setup p)
  | "radio.set_power", [.int _ n] => emitV (.setPower (BitVec.ofInt 8 n))
  | "radio.tx", [.ptr r, .int _ n] => M.bind (readBytes r (n % 256).toNat) fun l => emitV (.tx l)
  | "radio.rx", [.int _ a, .int _ b, .int _ c] => emitV (.rx (a % 256).toNat (b % 65536).toNat (c % 4294967296).toNat)
  | "radio.read_packet", [.ptr r] => M.bind (radioRead I r) fun _ => emitV .readPacket
  | "radio.sleep", [] => emitV .sleep
  | "hal.start_timer", [.int _ i, .int _ ms] => M.bind (ofOption .stuck (timerOf? i)) fun t => emitV (.startTimer t (BitVec.ofInt 32 ms))
  | "hal.stop_timer", [.int _ i] => M.bind (ofOption .stuck (timerOf? i)) fun t => emitV (.stopTimer t)
  | "hal.downlink_callback", [.int _ e, .int _ mt, .ptr r] =>
    M.bind (ofOption .stuck (errOf? e)) fun e => M.bind (readPkt r) fun p => emitV (.downlink e (BitVec.ofInt 8 mt) p)
  | "hal.crypto_aes_create_context", [.ptr r] => M.bind (readBlock r) fun k => M.bind (emit (.aesNew k)) fun _ => M.pure (.opaque (keyInts k))
  | "hal.crypto_aes_encrypt", [.opaque k, .ptr d, .ptr s] =>
    M.bind (ofOption .stuck (intsKey? k)) fun k => M.bind (readBlock s) fun b => M.bind (emit (.aesEncrypt b)) fun _ =>
    M.bind (writeBytes d (I.env.aes k b).toList) fun _ => M.pure .null
  | "hal.crypto_aes_delete_context", [.opaque _] => emitV .aesDel
  | "hal.crypto_cmac_create_context", [.ptr r] => M.bind (readBlock r) fun k => M.bind (emit (.cmacNew k)) fun _ => fun m =>
    .ok (.opaque [], { m with io := { m.io with cmac := (k, []) } })
  | "hal.crypto_cmac_update", [.opaque _, .ptr s, .int _ n] => M.bind (readBytes s n.toNat) fun l => M.bind (emit (.cmacUpdate l)) fun _ => fun m =>
    .ok (.null, { m with io := { m.io with cmac := (m.io.cmac.1, m.io.cmac.2 ++ l) } })
  | "hal.crypto_cmac_finish", [.opaque _, .ptr d] => M.bind (emit .cmacFinish) fun _ => fun m =>
    M.bind (writeBytes d (I.env.cmac m.io.cmac.1 m.io.cmac.2).toList) (fun _ => M.pure .null) m
  | "hal.crypto_cmac_delete_context", [.opaque _] => emitV .cmacDel
  | "app.get_battery_level", [] => popBat
  | "app.link_check_result", [.int _ a, .int _ b] => emitV (.linkCheckResult (BitVec.ofInt 8 a) (BitVec.ofInt 8 b))
  | "app.get_device_time", [] => M.bind (emit .getDeviceTime) fun _ => M.pure (.int .u32 I.devTime.toNat)
  | "app.device_time_result", [.int _ a, .int _ b, .int _ c] =>
    emitV (.deviceTimeResult (BitVec.ofInt 32 a) (BitVec.ofInt 32 b) (BitVec.ofInt 8 c))
  | _, _ => M.fail .stuck

/-- The environment. -/
def host (I : Input) : Host World where
  ext := outside I
  mark w := { w with ev := w.ev ++ [.ubShift] }

end Uwan.C
