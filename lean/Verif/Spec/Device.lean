import Verif.Spec.Radio
import Verif.Spec.Exchange
import Verif.Model.Device

/-!
# What the radio chip does during an exchange

Specification side of the stack running on a driver: what an SX127x or SX126x has in its data buffer, and the
frequency it is tuned to.
-/

namespace Spec
open Uwan

/-- A synthesizer word `w` of an SX127x is the largest one not above `f` Hz; the step is 32 MHz / 2^19 = 61 Hz (datasheet 4.1.4). -/
def tuned127 (w f : Nat) : Prop := w * 32000000 ≤ f * 2 ^ 19 ∧ f * 2 ^ 19 < (w + 1) * 32000000

/-- The same for an SX126x, with a step of 32 MHz / 2^25 = 1 Hz (datasheet 13.4.1). -/
def tuned126 (w f : Nat) : Prop := w * 32000000 ≤ f * 2 ^ 25 ∧ f * 2 ^ 25 < (w + 1) * 32000000

/-- Modem settings of LoRaWAN frames at spreading factor `k` and 125 kHz: coding rate 4/5, explicit header, CRC on, low-data-rate
optimisation from SF11 on; downlinks have inverted IQ. -/
structure Chip.LoRaWan (c : Chip) (k : Nat) (down : Bool) : Prop where
  sf : c.sf = k
  bw : c.bwKhz = some 125
  cr : c.crDen = 5
  explicit : c.implicit = false
  crc : c.crcOn = true
  iq : c.invertedIq = some down
  ldro : c.lowDataRate = decide (11 ≤ k)
  packet : c.txContinuous = false

/-- What an SX127x sends in TX mode: RegPayloadLength bytes from RegFifoTxBaseAddr (datasheet 4.1.2.3). -/
def Chip.toSend (c : Chip) : Bytes := (List.range (c.reg 0x22).toNat).map fun i => c.mem (c.reg 0x0e + BitVec.ofNat 8 i)

/-- What an SX127x has received: RegRxNbBytes bytes from RegFifoRxCurrentAddr (datasheet 4.1.2.3). -/
def Chip.received (c : Chip) : Bytes := (List.range (c.reg 0x13).toNat).map fun i => c.mem (c.reg 0x10 + BitVec.ofNat 8 i)

/-- Data buffer, packet parameters and symbol timeout of an SX126x, and the last command (datasheet 13.2.3, 13.4.6, 13.4.8, 13.4.9). -/
structure Data where
  txBase : Byte
  mem : Byte → Byte
  pkt : Option PacketCfg
  symb : Byte
  last : Bytes

/-- Consecutive buffer writes; the offset wraps around. -/
def fill (f : Byte → Byte) : Byte → Bytes → Byte → Byte
  | _, [] => f
  | a, v :: vs => fill (put f a v) (a + 1) vs

/-- One frame. The buffer does not survive sleep. -/
def Data.next (c : Data) (o : Bytes) : Data :=
  match o with
  | [0x8f, t, _] => { c with txBase := t, last := o }
  | [0xa0, s] => { c with symb := s, last := o }
  | 0x0e :: off :: l => { c with mem := fill c.mem off l, last := o }
  | 0x8c :: _ => { c with pkt := packetParams o, last := o }
  | 0x84 :: _ => { c with mem := fun _ => 0, last := o }
  | _ => { c with last := o }

/-- All frames. -/
def Data.run (c : Data) (l : List Bus) : Data := (sent l).foldl Data.next c

/-- What an SX126x sends after SetTx. -/
def Data.toSend (c : Data) : Bytes := (List.range ((c.pkt.map (·.length)).getD 0)).map fun i => c.mem (c.txBase + BitVec.ofNat 8 i)

/-- An SX126x with a packet of `n` bytes at offset `off` of its buffer `mem` answers GetRxBufferStatus and ReadBuffer so (datasheet 13.2.4,
13.5.2). -/
def buffered (n off : Byte) (mem : Byte → Byte) (l : List Bus) : Prop :=
  ∀ o i, Bus.frame o i ∈ l → match o with
    | 0x13 :: _ => i.drop 2 = [n, off]
    | 0x1e :: a :: _ => i.drop 3 = (List.range (i.length - 3)).map fun k => mem (a + BitVec.ofNat 8 k)
    | _ => True

/-- Whether the options given to the last `init` were for a high-power chip. -/
def highPower (log : List DItem) : Option Bool :=
  log.foldl (fun h x => match x.op with | .init _ o => o.map (·.isHp) | _ => h) none

/-- The output power the stack is configured for, in dBm: maximum EIRP less 2 dB per power index. -/
def asked (E : Env) (log : List Entry) : Int := (config E (items log)).eirp - 2 * ((config E (items log)).pow : Int)

/-- The radio has not been initialised since the last frame was sent. -/
def settled (log : List Entry) : Bool :=
  log.foldl (fun b e =>
    if e.item.any sentItem then true
    else b && e.calls.all fun x => match x.op with | .init .. => false | _ => true) false

/-- The FIFO of an SX127x (address 0) is accessed only outside of sleep mode, where it is not available (datasheet 2.1.1, table 16). -/
def fifoAwake (m : OpMode) : List Reg → Bool
  | [] => true
  | x :: l =>
    (match x with
      | .write a _ | .read a _ => a != 0 || m.mode != 0
      | .reset => true) && fifoAwake (m.next x) l

/-- The application initialises the radio only between exchanges. -/
def initBetween (log : List Entry) : Prop :=
  ∀ a e b, log = a ++ [e] ++ b → e.item = none → (∃ x ∈ e.calls, ∃ hal o, x.op = .init hal o) → exch (trace (items a)) ≠ .busy

/-- Driver calls made in this order meet no undefined behaviour, whatever the chip answers. -/
def Defined {σ : Type} (step : σ → DOp → Prog (DRet × σ)) : σ → List DOp → Prop
  | _, [] => True
  | d, op :: ops => (step d op).Safe ∧ ∀ tr r d', Exec (step d op) tr (r, d') → Defined step d' ops

end Spec
