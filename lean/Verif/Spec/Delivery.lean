import Verif.Spec.Config

/-!
# What a received message may decide (specification for C134)

The stack needs the header of a data downlink: type, address, control byte, counter, options and port. What follows is for the
application. `sealRx` blanks it, and the integrity code with it.
-/

namespace Spec
open Uwan (Op Ret Ev Err Item Byte Bytes)

/-- A frame followed by `mic` bytes of integrity code. LoRaWAN 1.0.3 section 4: of a data downlink (type 3 or 5) the header is eight
bytes, as many bytes of options as the low half of FCtrl says, and a port if there is room for one. What follows is blanked. -/
def sealRx (mic : Nat) (m : Bytes) : Bytes :=
  let n := 8 + (m.getD 5 0).toNat % 16
  let k := if n + mic < m.length then n + 1 else n
  if (m.headD 0).toNat / 32 = 3 ∨ (m.headD 0).toNat / 32 = 5 then m.take k ++ List.replicate (m.length - k) 0 else m

/-- The operation without the message in a received packet. -/
def sealRxOp : Op → Op
  | .event m o => .event m { o with rxData := sealRx 4 o.rxData }
  | op => op

/-- An effect without the message: what the application is handed, and the bytes the integrity code is computed over. Of an accepted
message the length remains. -/
def sealRxEv : Ev → Ev
  | .downlink .no m pkt => .downlink .no m { pkt with data := pkt.data.map fun d => List.replicate d.length 0 }
  | .downlink e m pkt => .downlink e m { pkt with data := pkt.data.map (sealRx 4) }
  | .cmacUpdate m => .cmacUpdate (sealRx 0 m)
  | e => e

/-- An operation without the message in a received packet, with the result reported to the application. -/
def sealRxItem (it : Item) : Op × Ret × List Ev := (sealRxOp it.op, it.ret, it.ev.map sealRxEv)

/-- The operation without the message, and the verdict on it. -/
def sealRxIn (it : Item) : Op × Option Err := (sealRxOp it.op, report it.ev)

end Spec
