import Verif.Spec.Timing

/-!
# What an exchange costs

Sending and listening are what drains the battery of a device. Told from the calls to the radio.
-/

namespace Spec
open Uwan

/-- Transmissions started. -/
def sends (l : List Ev) : Nat :=
  l.countP fun
    | .tx _ => true
    | _ => false

/-- Receptions started. -/
def windows (l : List Ev) : Nat :=
  l.countP fun
    | .rx .. => true
    | _ => false

/-- Frames the application had sent. -/
def frames (log : List Item) : Nat := log.countP sentItem

/-- If a timer fires after `log`, it is running. -/
def timerHonest (log : List Item) (it : Item) : Bool :=
  match it.op with
  | .timer .rx1 => (hw log).t1
  | .timer .rx2 => (hw log).t2
  | _ => true

/-- In `rest`, which follows `log`, only timers fire that are running. -/
def timersHonest (log : List Item) : List Item → Bool
  | [] => true
  | it :: rest => timerHonest log it && timersHonest (log ++ [it]) rest

/-- Since when the radio has been receiving, and how long it had been before, in microseconds. -/
structure Listen where
  since : Option Nat
  total : Nat
  deriving DecidableEq, Repr

/-- The reception ends at a time. -/
def Listen.stop (l : Listen) (now : Nat) : Listen :=
  match l.since with
  | some t => ⟨none, l.total + (now - t)⟩
  | none => l

/-- One call of the stack at a time. -/
def Listen.call (now : Nat) (l : Listen) : Ev → Listen
  | .rx .. => ⟨some now, (l.stop now).total⟩
  | .tx _ => l.stop now
  | .sleep => l.stop now
  | _ => l

/-- One operation; an interrupt of the radio ends the reception. -/
def Listen.next (l : Listen) (x : Item × Nat) : Listen :=
  x.1.ev.foldl (Listen.call x.2) (match x.1.op with
    | .event .. => l.stop x.2
    | _ => l)

/-- The microseconds the radio spent receiving, up to now. -/
def listened (log : List (Item × Nat)) (now : Nat) : Nat := ((log.foldl Listen.next ⟨none, 0⟩).stop now).total

end Spec
