import Verif.Model.Reenter
import Verif.Spec.LoRaWAN

/-! # What applications do inside callbacks, and what is seen of it -/

namespace Uwan
open Spec

/-- Calls that do not replace the session. -/
def Op.Mild (op : Op) : Prop := (∀ r, op ≠ .init r) ∧ ∀ a u d n k, op ≠ .setSession a u d n k

/-- Calls inside the MAC callbacks that do not replace the session. -/
def Inside.Mild (A : Inside) : Prop := ∀ n, ∀ op ∈ A.mac n, op.Mild

/-- No call inside a callback replaces the session. -/
def Inside.Within (A : Inside) : Prop := A.Mild ∧ ∀ op ∈ A.time, op.Mild

/-- A stretch of re-entrant operations in which the application replaces the session nowhere; the events in order. -/
inductive Stretch (E : Env) (s : St) : List Ev → St → Prop where
  | nil : Stretch E s [] s
  | snoc {ev : List Ev} {s1 s2 : St} {A : Inside} {op : Op} {r : Ret} {ev' : List Ev} (h : Stretch E s ev s1) (ha : A.Valid)
      (hm : A.Within) (hv : op.Valid) (ho : op.Mild) (hs : stepR E A s1 op = .ok (r, s2, ev')) : Stretch E s (ev ++ ev') s2

/-- Address and counter field of a data frame (MType 2 or 4), nothing for another frame. -/
def upHead : Bytes → Option (Nat × Nat)
  | m :: a0 :: a1 :: a2 :: a3 :: _ :: c0 :: c1 :: _ =>
    if m = 0x40 ∨ m = 0x80 then some (leNat [a0, a1, a2, a3], leNat [c0, c1]) else none
  | _ => none

/-- Address and counter field of the data frames handed to the radio, in order. -/
def upHeads (ev : List Ev) : List (Nat × Nat) := (txs ev).filterMap upHead

/-- `downlink_callback` does not report a join-accept. -/
def NoJoin (ev : List Ev) : Prop := ∀ p, Ev.downlink .no 1 p ∉ ev

end Uwan
