import Verif.Spec.Radio

/-! # Interrupt flags

A flag of the chip, which the chip raises when it likes: between any two accesses of the driver. -/

namespace Spec
open Uwan

/-- What happens to one flag: the chip raises it, the driver reads it, the driver clears it (or writes without clearing this one). -/
inductive FlagEv where
  | raised
  | read (b : Bool)
  | clear (b : Bool)
  deriving DecidableEq, Repr

/-- The flag afterwards. -/
def FlagEv.next (f : Bool) : FlagEv → Bool
  | .raised => true
  | .read _ => f
  | .clear b => f && !b

/-- The flag after a story. -/
def flagAfter : Bool → List FlagEv → Bool
  | f, [] => f
  | f, x :: l => flagAfter (x.next f) l

/-- Reading the flag gives the flag. -/
def Truthful : Bool → List FlagEv → Prop
  | _, [] => True
  | f, .read b :: l => b = f ∧ Truthful f l
  | f, x :: l => Truthful (x.next f) l

/-- How often the chip has raised the flag when it was not already raised. -/
def rises : Bool → List FlagEv → Nat
  | _, [] => 0
  | f, .raised :: l => (if f then 0 else 1) + rises true l
  | f, x :: l => rises (x.next f) l

/-- The driver's part of a story. -/
def driverPart (l : List FlagEv) : List FlagEv := l.filter (· != .raised)

/-- The four events. -/
inductive Event where
  | txDone | rxDone | timeout | crcError
  deriving DecidableEq, Repr

/-- Whether the event is among those reported. -/
def Events.has (e : Events) : Event → Bool
  | .txDone => e.txDone
  | .rxDone => e.rxDone
  | .timeout => e.timeout
  | .crcError => e.crcError

/-- The bit of RegIrqFlags of an SX127x (datasheet 4.4). -/
def bit127 : Event → Nat
  | .txDone => 3 | .rxDone => 6 | .timeout => 7 | .crcError => 5

/-- The bit of the interrupt status of an SX126x (datasheet 8.5). -/
def bit126 : Event → Nat
  | .txDone => 0 | .rxDone => 1 | .timeout => 9 | .crcError => 6

/-- What accesses to an SX127x do to a flag; a one written to the register clears the flag. -/
def flag127 (e : Event) (l : List Reg) : List FlagEv :=
  l.filterMap fun x => match x with
    | .read a v => if a = 0x12 then some (.read (v.getLsbD (bit127 e))) else none
    | .write a v => if a = 0x12 then some (.clear (v.getLsbD (bit127 e))) else none
    | .reset => some (.clear true)

/-- The same for an SX126x: GetIrqStatus (0x12), ClearIrqStatus (0x02). -/
def flag126 (e : Event) (l : List Bus) : List FlagEv :=
  l.filterMap fun x => match x with
    | .frame (0x12 :: _) [_, _, hi, lo] => some (.read ((hi ++ lo).getLsbD (bit126 e)))
    | .frame [0x02, hi, lo] _ => some (.clear ((hi ++ lo).getLsbD (bit126 e)))
    | .other (.reset _) _ => some (.clear true)
    | _ => none

/-- How often `irq_handler` has reported the event. -/
def tellings (e : Event) (log : List DItem) : Nat :=
  log.countP fun x => match x.op, x.ret with
    | .irqHandler, .mask m => match maskEvents m with
      | some ev => ev.has e
      | none => false
    | _, _ => false

/-- 1 if raised. -/
def pending (f : Bool) : Nat := if f then 1 else 0

end Spec
