import Verif.Code.RunDriver

/-!
# What can be asked of the text of the SX127x driver

The members of `sx127x_dev` called one after the other, in any order, with any arguments, on a chip that answers every call of the HAL as it likes.
-/

namespace Uwan.C.Drv

/-- One call, and the chip it meets. -/
structure DTurn where
  ans : ChipAns
  op : DOp

/-- The calls `ts` made one after the other when the variables of the driver are `g` and the application's HAL is `h`: what was seen, and the variables
afterwards. The memory of the caller lives as long as the call. -/
def runDriver (L D : Nat) : List DTurn → Objs → Hal → Except Fault (List DItem × Objs)
  | [], g, _ => .ok ([], g)
  | t :: ts, g, h =>
    match dturn t.ans L D g h t.op with
    | .error e => .error e
    | .ok (v, m) =>
      match runDriver L D ts (m.glob.take Sx127xSrc.sx127xVars.length) (halNow h t.op) with
      | .error e => .error e
      | .ok (l, g') => .ok (⟨t.op, m.io.tr, dret t.op v m⟩ :: l, g')

/-- Calls that reach for the HAL the application handed over; `init` needs it to be one. -/
def Needs : DOp → Bool
  | .init h _ => h.isNone
  | .setEvtHandler _ => false
  | .setPower p => decide (-4 ≤ p.toInt ∧ p.toInt ≤ 17)
  | _ => true

/-- Whether the driver was given a HAL before it needed one; `up` says that it has one already. -/
def Started : Bool → List DOp → Bool
  | _, [] => true
  | _, .init (some _) _ :: ops => Started true ops
  | _, .init none _ :: _ => false
  | up, op :: ops => (up || !Needs op) && Started up ops

/-- The member of `struct radio_dev` (include/uwan/stack.h:160-173) the stack calls. -/
def member : DOp → String
  | .init _ _ => "sx127x_dev.init"
  | .sleep => "sx127x_dev.sleep"
  | .setFrequency _ => "sx127x_dev.set_frequency"
  | .setPower _ => "sx127x_dev.set_power"
  | .setPublicNetwork _ => "sx127x_dev.set_public_network"
  | .setup _ => "sx127x_dev.setup"
  | .tx _ => "sx127x_dev.tx"
  | .rx _ _ _ => "sx127x_dev.rx"
  | .readPacket _ => "sx127x_dev.read_packet"
  | .rand => "sx127x_dev.rand"
  | .irqHandler => "sx127x_dev.irq_handler"
  | .setEvtHandler _ => "sx127x_dev.set_evt_handler"

end Uwan.C.Drv
