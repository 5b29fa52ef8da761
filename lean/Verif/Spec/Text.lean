import Verif.Code.Run
import Verif.Spec.Session
import Verif.Spec.Exchange
import Verif.Spec.Downlink

/-!
# What is seen of the running program text

The program text runs from power-on under any calls and interrupts; everything here is computed from the calls, the values returned and the calls the program makes to the outside.
-/

namespace Uwan.C
open Spec

/-- The program text ran through these calls from power-on, in the environment `E`; this was seen, and this is its memory at the end. At most 256 rounds of a loop and 9 nested calls
are needed, more may be allowed. -/
def Ran (E : Env) (seen : List Seen) (m : Mem World) : Prop :=
  ∃ L D c, 256 ≤ L ∧ 9 ≤ D ∧ (∀ a ∈ seen, a.turn.Valid E) ∧ runText L D (start c) (seen.map (·.turn)) = .ok (seen, m)

/-- All calls made to the outside. -/
def seenEv (l : List Seen) : List Ev := l.flatMap (·.ev)

/-- The call started a session, or ended the last one. -/
def Seen.opens (a : Seen) : Bool :=
  match a.turn.op with
  | .init _ | .setSession .. => true
  | _ => joinReported a.ev

/-- An uplink was accepted: `uwan_send_frame` returned `UWAN_ERR_NO`. -/
def Seen.sent (a : Seen) : Bool :=
  match a.turn.op with
  | .send .. => a.val == .int .u32 0
  | _ => false

end Uwan.C
