import Verif.Code.Enc
import Verif.Model.History

/-!
# Histories of the program text

The application calls a function of the API, or an interrupt calls the event handler or the timer callback, again and again. Memory is kept from one call to the next.
-/

namespace Uwan.C

/-- One call from outside: the operation (only its arguments are used here, not the answers of the environment it may carry), and what the environment answers while the call runs. -/
structure Turn where
  op : Op
  input : Input
  rands : List Nat
  bats : List Byte

/-- The objects in which the application keeps what it passes by pointer. -/
def isArg (o : String × List Val) : Bool := o.1 == "arg1" || o.1 == "arg2" || o.1 == "arg3"

/-- Give objects the contents listed first. -/
def Objs.over : Objs → Objs → Objs
  | [], g => g
  | (x, v) :: l, g => Objs.over l (g.put x v)

/-- The application writes the memory it is going to pass by pointer. -/
def Op.store (op : Op) (g : Objs) : Objs :=
  (match op with
    | .macSetHandlers (some c) => (cbsObjs c).over g
    | _ => g).filter (fun o => !isArg o) ++ Op.args op

/-- One call, with at most `L` rounds of each loop and at most `D` nested calls. -/
def Turn.run (L D : Nat) (t : Turn) (m : Mem World) : Except Fault (Val × Mem World) :=
  call (host t.input) Src.prog L D (Op.fn t.op) (Op.vals t.op) { m with glob := Op.store t.op m.glob, io := { m.io with rands := t.rands, bats := t.bats } }

/-- What is seen of one call from outside: the call, the value it returned and the calls the program made to the radio, the HAL and the application. -/
structure Seen where
  turn : Turn
  val : Val
  ev : List Ev

/-- Calls one after the other: what is seen of them and the memory at the end, or the fault that stopped the program. -/
def runText (L D : Nat) (m : Mem World) : List Turn → Except Fault (List Seen × Mem World)
  | [] => .ok ([], m)
  | t :: ts =>
    match t.run L D m with
    | .error f => .error f
    | .ok (v, m') =>
      match runText L D m' ts with
      | .error f => .error f
      | .ok (l, m'') => .ok (⟨t, v, m'.io.ev.drop m.io.ev.length⟩ :: l, m'')

/-- Power-on: the variables have the values their definitions in the sources give them; the application has filled in the HAL and has no callbacks yet. -/
def start (c : Block × Bytes) : Mem World where
  glob := Src.utilsVars ++ Src.channelsVars ++ Src.regionCommonVars ++ Src.regionEu868Vars ++ Src.regionRu864Vars ++ Src.adrVars ++
    Src.macVars ++ Src.stackVars ++ cbsObjs ⟨false, false, false, false⟩ ++ halObjs ++ Src.clockSyncVars
  frames := []
  io := ⟨[], [], c, []⟩

/-- What is assumed about a call: arguments the API allows; the same block cipher all the time; `rand` returns an `int`; the application answers every request for the battery level. -/
structure Turn.Valid (E : Env) (t : Turn) : Prop where
  op : t.op.Valid
  env : t.input.env = E
  rands : 2 ≤ t.rands.length
  small : ∀ r ∈ t.rands, r < 2147483648
  bats : 15 < t.bats.length

/-! ## The operations of the model these calls are -/

/-- Battery levels for every occasion the model may ask for one, all of them answers of the application. -/
abbrev Answers (l : List Byte) := { f : Nat → Byte // ∀ q, f q ∈ l }

/-- Always the first answer. -/
def Answers.first {l : List Byte} {n : Nat} (h : n < l.length) : Answers l := ⟨fun _ => l[0]'(Nat.zero_lt_of_lt h), fun _ => List.getElem_mem _⟩


/-- The answers of the environment as the model takes them. -/
abbrev Input.oracle (I : Input) (bat : Nat → Byte) : Oracle := ⟨I.rx, I.rssi, I.snr, bat, I.devTime⟩

/-- The operation with the answers the environment gave: the random numbers the program drew, the packet, the time and the battery levels. -/
def Op.answered (I : Input) (rands : List Nat) (bat : Nat → Byte) : Op → Op
  | .join _ _ => .join (rands[0]?.getD 0) (rands[1]?.getD 0)
  | .send p l c _ => .send p l c (rands[0]?.getD 0)
  | .event m _ => .event m (I.oracle bat)
  | op => op

/-- The operation of the model is the call with the answers the environment gave. -/
def Turn.Is (t : Turn) (op : Op) : Prop := ∃ bat : Answers t.bats, op = Op.answered t.input t.rands bat.1 t.op

/-- What is seen of an operation of the model: the call with the answers the environment gave, the value returned, the calls made. -/
structure Seen.Of (a : Seen) (i : Item) : Prop where
  op : a.turn.Is i.op
  val : a.val = Ret.val i.ret
  ev : a.ev = i.ev

/-- What is seen of the operations of a history of the model, one by one. -/
inductive Shows : List Seen → List Item → Prop where
  | nil : Shows [] []
  | cons {a : Seen} {i : Item} {as : List Seen} {l : List Item} (h : a.Of i) (hs : Shows as l) : Shows (a :: as) (i :: l)

end Uwan.C
