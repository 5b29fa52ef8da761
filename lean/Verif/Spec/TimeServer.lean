import Verif.Spec.ClockSync
import Verif.Spec.Network

/-!
# A time server

The other end of the clock synchronisation package (LoRaWAN Application Layer Clock Synchronization, sections 3.2 and 3.3), and what a
history of the stack with the package looks like to somebody who sees the calls of the stack only.
-/

namespace Spec
open Uwan (Byte Bytes Item Ev SItem SEv)

/-- The calls made by the stack. -/
def ofStack (ev : List SEv) : List Ev := ev.filterMap fun | .st e => some e | .cs _ => none

/-- The calls of `uwan_send_frame` made by the package: port, payload, confirmed. -/
def handedOver (ev : List SEv) : List (Byte × Bytes × Bool) := ev.filterMap fun | .cs (.sendFrame p d c) => some (p, d, c) | _ => none

/-- The calls of the stack in one operation: the application's own ones, and those of the package. -/
def stackCalls (it : SItem) : List Item :=
  match it.op with
  | .stack op => [⟨it.pre.stack, op, it.ret, ofStack it.ev, it.post.stack⟩]
  | .csTimeReq _ _ rnd => (handedOver it.ev).map fun x => ⟨it.pre.stack, .send x.1 x.2.1 x.2.2 rnd, it.ret, ofStack it.ev, it.post.stack⟩
  | .csSendAnsw rnd => (handedOver it.ev).map fun x => ⟨it.pre.stack, .send x.1 x.2.1 x.2.2 rnd, it.ret, ofStack it.ev, it.post.stack⟩
  | _ => []

/-- The calls of the stack in a history. -/
def stackLog (log : List SItem) : List Item := log.flatMap stackCalls

/-- The server reads a payload of port 202: answers of the device are skipped; an AppTimeReq gives the device's time, the token, and
whether an answer is required. -/
def timeRequest : Bytes → Option (Nat × Nat × Bool)
  | cid :: a :: b :: rest =>
    if cid.toNat = 0 then timeRequest rest
    else
      match rest with
      | c :: d :: p :: rest =>
        if cid.toNat = 1 then some (leNat [a, b, c, d], p.toNat % 16, p.toNat / 16 % 2 = 1)
        else if cid.toNat = 2 then timeRequest rest
        else none
      | _ => none
  | _ => none

/-- The server's answer when its own clock shows the GPS time `now`: AppTimeAns with the difference and the token. -/
def timeAnswer (now : Nat) (payload : Bytes) : Option Bytes :=
  (timeRequest payload).map fun x => [1] ++ leBytes 4 ((now + 4294967296 - x.1) % 4294967296) ++ [BitVec.ofNat 8 x.2.1]

/-- A clock showing Unix time `unix` is set forward by `v` seconds; it has 32 bits. -/
def adjust (unix : Nat) (v : Int) : Nat := ((unix + v) % 4294967296).toNat

/-- The application is told of a packet in operation `a`, and passes it to the package in operation `c`. -/
def passedOn (a c : SItem) : Prop :=
  ∃ e mt p tail unix, (e, mt, p) ∈ results (ofStack a.ev) ∧ c.op = .csHandle e p.fPort (p.data.getD []) tail unix

end Spec
