import Verif.Model.Stack

/-! # Histories with everything that can be observed about them -/

namespace Uwan

/-- Arguments the public API allows: `enum uwan_dr` arguments below 256 (all enumerators are below 6), payload
lengths that fit the `uint8_t` parameter. -/
def Op.Valid : Op → Prop
  | .setDr dr => dr < 256
  | .setRx2 _ dr => dr < 256
  | .send _ pld _ _ => pld.length ≤ 255
  | _ => True

instance (op : Op) : Decidable op.Valid := by unfold Op.Valid; split <;> infer_instance

/-- One operation of a history: the operation, what it returned, the calls it made, and the state before and after. -/
structure Item where
  pre : St
  op : Op
  ret : Ret
  ev : List Ev
  post : St

/-- `Seg E s log s'`: `log` is a possible history leading from state `s` to `s'`. -/
inductive Seg (E : Env) (s : St) : List Item → St → Prop where
  | nil : Seg E s [] s
  | snoc {log : List Item} {s1 s2 : St} {op : Op} {r : Ret} {ev : List Ev} (h : Seg E s log s1) (hv : op.Valid)
      (hs : step E s1 op = .ok (r, s2, ev)) : Seg E s (log ++ [⟨s1, op, r, ev, s2⟩]) s2

/-- A history from power-on. -/
abbrev Hist (E : Env) (log : List Item) (s : St) : Prop := Seg E .boot log s

/-- All calls made in a history. -/
def trace (log : List Item) : List Ev := log.flatMap (·.ev)

/-- The frames handed to the radio. -/
def txs (ev : List Ev) : List Bytes := ev.filterMap fun | .tx d => some d | _ => none

/-- Build the log of a list of operations (used for concrete examples). -/
def logOf (E : Env) (s : St) : List Op → Option (List Item × St)
  | [] => some ([], s)
  | op :: ops =>
    match step E s op with
    | .ok (r, s', ev) =>
      match logOf E s' ops with
      | some (l, s'') => some (⟨s, op, r, ev, s'⟩ :: l, s'')
      | none => none
    | .error _ => none

end Uwan
