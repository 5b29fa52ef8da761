import Verif.Spec.TimeServer
import Verif.Model.SyncReenter

/-! # Sending from inside the callbacks of the clock synchronisation package -/

namespace Spec
open Uwan (Byte Bytes CsEv SEv SyncInside)

/-- No frame goes to the radio. -/
def silent (ev : List SEv) : Prop := Uwan.txs (ofStack ev) = []

/-- The calls the package makes itself, without what happens inside them. -/
def outer (ev : List (CsEv × List SEv)) : List SEv := ev.map fun x => .cs x.1

/-- Operations an application may call inside, with payloads that fit. -/
def SyncFit (A : SyncInside) : Prop := ∀ op ∈ A.correction ++ A.period ++ A.time ++ A.resync, op.Valid ∧ op.inCall = true

end Spec
