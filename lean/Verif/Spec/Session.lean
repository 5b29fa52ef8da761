import Verif.Spec.LoRaWAN
import Verif.Model.History

/-!
# The session, as an outside observer reconstructs it

`view E log` is computed from the calls made, their return values and the results reported to the application, without looking
at the stack's state.
-/

namespace Spec
open Uwan (Byte Bytes Block Env Ev Item txs)

/-- What the observer knows. -/
structure View where
  joined : Bool
  addr : Nat
  /-- counter of the next uplink -/
  up : Nat
  nwk : Block
  app : Block
  appKey : Block
  devEui : Bytes
  appEui : Bytes
  /-- DevNonce of the last join-request sent -/
  nonce : Nat

/-- At power-on all is zero. -/
def View.boot : View :=
  ⟨false, 0, 0, Vector.replicate 16 0, Vector.replicate 16 0, Vector.replicate 16 0, List.replicate 8 0,
   List.replicate 8 0, 0⟩

/-- The application was told that a join-accept (message type 1) was accepted. -/
def joinReported (ev : List Ev) : Bool :=
  ev.any fun
    | .downlink .no m _ => m == 1
    | _ => false

/-- The application was told that a data downlink was accepted. -/
def dataReported (ev : List Ev) : Bool :=
  ev.any fun
    | .downlink .no m _ => m != 1
    | _ => false

/-- The clear text behind MHDR of a received join-accept. -/
def joinClear (E : Env) (appKey : Block) (l : Bytes) : Bytes :=
  (E.aes appKey (blockOf ((l.drop 1).take 16))).toList ++
    (if l.length ≤ 17 then [] else (E.aes appKey (blockOf ((l.drop 17).take 16))).toList)

/-- The session of an accepted join-accept (section 6.2.5). -/
def View.accept (v : View) (E : Env) (l : Bytes) : View :=
  let c := joinClear E v.appKey l
  let appNonce := leNat (c.take 3)
  let netId := leNat ((c.drop 3).take 3)
  { v with
    joined := true
    addr := leNat ((c.drop 6).take 4)
    up := 0
    nwk := sessionKey E v.appKey 1 appNonce netId v.nonce
    app := sessionKey E v.appKey 2 appNonce netId v.nonce }

/-- DevNonce in a transmitted join-request: bytes 17 and 18. -/
def nonceSent (ev : List Ev) : Nat := leNat ((((txs ev).headD []).drop 17).take 2)

/-- One operation, seen from outside. -/
def View.next (E : Env) (v : View) (it : Item) : View :=
  match it.op with
  | .init _ =>
    { v with joined := false, addr := 0, up := 0, nwk := Vector.replicate 16 0, app := Vector.replicate 16 0 }
  | .setOtaaKeys d a k => { v with devEui := d.toList, appEui := a.toList, appKey := k }
  | .setSession a u _ n k => { v with joined := true, addr := a.toNat, up := u.toNat, nwk := n, app := k }
  | .join _ _ => if it.ret = .err .no then { v with joined := false, nonce := nonceSent it.ev } else v
  | .send .. => if it.ret = .err .no then { v with up := (v.up + 1) % 2 ^ 32 } else v
  | .event _ o => if joinReported it.ev then v.accept E o.rxData else v
  | _ => v

/-- The observer's knowledge after a history. -/
def view (E : Env) (log : List Item) : View := log.foldl (View.next E) View.boot

/-- The operation started a new session (or wiped the old one). -/
def newSession (it : Item) : Bool :=
  match it.op with
  | .init _ => true
  | .setSession .. => true
  | _ => joinReported it.ev

/-- The number of uplinks accepted. -/
def sentCount (log : List Item) : Nat :=
  log.countP fun it => match it.op with | .send .. => it.ret == .err .no | _ => false

/-- The first uplink counter of the session an operation starts: given by the application, or 0. -/
def firstCount (it : Item) : Nat :=
  match it.op with
  | .setSession _ u _ _ _ => u.toNat
  | _ => 0

end Spec
