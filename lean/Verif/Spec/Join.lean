import Verif.Spec.Downlink

/-! # Joining, as seen from outside -/

namespace Spec
open Uwan (Byte Bytes Block Env Ev Item Err)

/-- The operation establishes a session: the application supplies one, or is told that a join-accept was accepted. -/
def establishes (it : Item) : Bool :=
  match it.op with
  | .setSession .. => true
  | .event .. => joinReported it.ev
  | _ => false

/-- The operation ends the session: a restart or the start of a join. -/
def abandons (it : Item) : Bool :=
  match it.op with
  | .init _ => true
  | .join .. => it.ret == .err .no
  | _ => false

/-- What a pending exchange was started for. -/
inductive Kind where
  /-- no exchange is pending -/
  | none
  | join
  | data
  deriving DecidableEq, Repr

/-- One operation: an accepted join or uplink starts an exchange, a result or a restart ends it. -/
def Kind.next (k : Kind) (it : Item) : Kind :=
  match it.op with
  | .init _ => .none
  | .join .. => if it.ret = .err .no then .join else k
  | .send .. => if it.ret = .err .no then .data else k
  | _ => if results it.ev = [] then k else .none

/-- The pending exchange after a history. -/
def kind (log : List Item) : Kind := log.foldl Kind.next .none

/-- The stack was never restarted while a join was pending; `rest` follows a history ending in `k`. -/
def unbroken : Kind → List Item → Bool
  | _, [] => true
  | k, it :: rest => (match it.op with | .init _ => k != .join | _ => true) && unbroken (k.next it) rest

end Spec
