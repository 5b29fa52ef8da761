import Verif.Model.History

/-!
# Comparing two runs (specification for C113)

What can be seen of an operation from outside: the call with its arguments, its result, and the calls it made. Two runs are compared up
to the random number that picks the channel.
-/

namespace Spec
open Uwan (Op Ret Ev Item Byte Bytes)

/-- The call without the random number used to pick a channel. -/
def blank : Op → Op
  | .join _ n => .join 0 n
  | .send port pld c _ => .send port pld c 0
  | op => op

/-- What can be seen of an operation. -/
def seen (it : Item) : Op × Ret × List Ev := (blank it.op, it.ret, it.ev)

/-- The radio handed over at least one byte, if the operation is a radio event. -/
def nonEmpty (it : Item) : Prop := ∀ m o, it.op = .event m o → o.rxData ≠ []

/-- The first byte of the last frame sent or read, given the one before the operation. An empty packet has none. -/
def leadNext (h : Option Byte) (it : Item) : Option Byte :=
  match it.op with
  | .event _ o => if Ev.readPacket ∈ it.ev then o.rxData.head?.or h else h
  | .join _ _ | .send _ _ _ _ => match it.ev.getLast? with | some (.tx d) => d.head? | _ => h
  | _ => h

/-- The first byte of the last frame sent or read, 0 at power-on. -/
def lead (log : List Item) : Option Byte := log.foldl leadNext (some 0)

end Spec
