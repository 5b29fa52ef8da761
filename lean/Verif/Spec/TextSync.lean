import Verif.Code.RunClock
import Verif.Spec.ClockSync

/-!
# What is seen of the running program text of the stack and the clock synchronisation package

Computed from the calls from outside, the values returned and the calls the program makes to the outside.
-/

namespace Uwan.C
open Spec

/-- The program text ran through these calls from power-on, in the environment `E`; this was seen, and this is its memory at the end. At most 513 rounds of a loop and 9 nested calls are needed, more may be allowed. -/
def SRan (E : Env) (seen : List SSeen) (m : SMem) : Prop :=
  ∃ L D c, 513 ≤ L ∧ 9 ≤ D ∧ (∀ a ∈ seen, a.turn.Valid E) ∧ runSys L D (startSys c) (seen.map (·.turn)) = .ok (seen, m)

/-- The call is not one with a packet the package does not handle: an identifier from 31 on, a ForceDeviceResyncReq without its parameter at the end, a period from 6 on. -/
def STurn.Sound (t : STurn) : Prop :=
  match t.op with
  | .csHandle _ _ data _ _ => ¬ Spec.Fault true True (readSync [] data)
  | _ => True

/-- The corrections of the clock the application was asked for. -/
def corrected (l : List SSeen) : List Int := corrections (callsOf (l.flatMap (·.ev)))

/-- The call registers callbacks, or takes them back. -/
def SSeen.registers (a : SSeen) : Bool :=
  match a.turn.op with
  | .csInit _ => true
  | _ => false

/-- The answers to the last packet received without error; `p` tells whether the application handles periodicity requests. -/
def owed (p : Bool) (l : List SSeen) : Bytes :=
  l.foldl (fun h a =>
    match a.turn.op with
    | .csHandle .no port data _ unix => if port = 202 then answers p unix.toNat (readSync [] data) else []
    | _ => h) []

end Uwan.C
