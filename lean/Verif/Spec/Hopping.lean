import Verif.Spec.Config

/-!
# Channel hopping (specification for C133)
-/

namespace Spec
open Uwan (Op Ev Item Bytes)

/-- The first enabled channel at or after `r`, counting modulo `m`. -/
def nextOn (on : Nat → Bool) (m r : Nat) : Option Nat := ((List.range m).map fun k => (r + k) % m).find? on

/-- The random number a call draws for the choice of the channel. -/
def draw : Op → Option Nat
  | .send _ _ _ r => some r
  | .join r _ => some r
  | _ => none

/-- A LinkADRReq that enables no channel at all. -/
def empties : Cmd → Bool
  | .linkAdrReq _ _ mask _ _ => mask = 0
  | _ => false

/-- A data downlink with such a command in its FOpts field. -/
def silences (l : Bytes) : Bool :=
  isDataDown l &&
    match parse l with
    | none => false
    | some f => (commands f.fOpts.length f.fOpts).any fun x => empties x.1

/-- No initialisation, and no packet is read that would disable all channels. -/
def keepsOn (it : Item) : Bool :=
  match it.op with
  | .init _ => false
  | .event _ o => !(decide (Ev.readPacket ∈ it.ev) && silences (o.rxData.take 255))
  | _ => true

end Spec
