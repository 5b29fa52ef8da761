import Verif.Spec.Exchange
import Verif.Spec.Radio

/-!
# Timing

Operations with the time at which they happen, in microseconds. The stack is taken to run in no time: its calls happen at
the time of the operation. What the hardware needs on top is in the tolerances.
-/

namespace Spec
open Uwan

/-- The duration of a LoRa symbol in microseconds: 2^SF chips at the bandwidth. -/
def symbolTime (p : PktParams) : Nat := 2 ^ sfNum p.sf * 1000 / bwKhz p.bw

/-- How late things may be, in microseconds. -/
structure Tolerance where
  /-- a timer callback after the timer has expired -/
  timer : Nat
  /-- the report of a time-out after the radio has listened for the symbols asked for -/
  irq : Nat
  /-- the report of a received packet after the time at which the radio would have timed out without it -/
  packet : Nat

/-- What is to happen: the expiry of the running timers and the time-out of the reception in progress; and the time of the last
operation and the symbol time the radio is configured for. -/
structure Due where
  now : Nat
  t1 : Option Nat
  t2 : Option Nat
  rx : Option Nat
  symbol : Nat
  deriving DecidableEq, Repr

/-- One call of the stack. -/
def Due.call (d : Due) : Ev → Due
  | .tx _ => { d with rx := none }
  | .rx _ symb _ => { d with rx := some (d.now + symb * d.symbol) }
  | .sleep => { d with rx := none }
  | .setup p => { d with symbol := symbolTime p }
  | .startTimer .rx1 ms => { d with t1 := some (d.now + 1000 * ms.toNat) }
  | .startTimer .rx2 ms => { d with t2 := some (d.now + 1000 * ms.toNat) }
  | .stopTimer .rx1 => { d with t1 := none }
  | .stopTimer .rx2 => { d with t2 := none }
  | _ => d

/-- An interrupt of the radio ends its operation, a timer that fires is no longer running. -/
def Due.begin (d : Due) : Op → Due
  | .event .. => { d with rx := none }
  | .timer .rx1 => { d with t1 := none }
  | .timer .rx2 => { d with t2 := none }
  | _ => d

/-- One operation at time `x.2`. -/
def Due.next (d : Due) (x : Item × Nat) : Due := x.1.ev.foldl Due.call ({ d with now := x.2 }.begin x.1.op)

/-- What is due after a history. -/
def due (log : List (Item × Nat)) : Due := log.foldl Due.next ⟨0, none, none, none, 0⟩

/-- The operation happens in time: time does not run backwards, a timer fires once it has expired and soon after, and the radio
reports (bit 0: RxTimeout, bit 1: RxDone) soon. -/
def onTime (tol : Tolerance) (d : Due) (x : Item × Nat) : Bool :=
  decide (d.now ≤ x.2) &&
  match x.1.op with
  | .timer .rx1 => d.t1.all fun t => decide (t ≤ x.2) && decide (x.2 ≤ t + tol.timer)
  | .timer .rx2 => d.t2.all fun t => decide (t ≤ x.2) && decide (x.2 ≤ t + tol.timer)
  | .event m _ => d.rx.all fun t => decide (x.2 ≤ t + if m.toNat % 2 = 1 then tol.irq else tol.packet)
  | _ => true

/-- Everything in `rest`, which follows `log`, happens in time. -/
def timely (tol : Tolerance) (log : List (Item × Nat)) : List (Item × Nat) → Bool
  | [] => true
  | x :: rest => onTime tol (due log) x && timely tol (log ++ [x]) rest

/-- Nothing is overdue at a time. -/
def upToDate (tol : Tolerance) (d : Due) (now : Nat) : Bool :=
  (d.t1.all fun t => decide (now ≤ t + tol.timer)) && (d.t2.all fun t => decide (now ≤ t + tol.timer)) &&
  d.rx.all fun t => decide (now ≤ t + max tol.irq tol.packet)

/-- The history without times. -/
abbrev untimed (log : List (Item × Nat)) : List Item := log.map (·.1)

end Spec
