import Verif.Spec.Downlink

/-! # MAC commands in a received frame -/

namespace Spec
open Uwan (Byte Bytes Block Env Ev Item Err)

/-- The payload length of a command identifier; `none` for an unknown one. -/
def cmdSize (cid : Byte) : Option Nat :=
  match cid.toNat with
  | 2 => some 2
  | 3 => some 4
  | 4 => some 1
  | 5 => some 4
  | 6 => some 0
  | 7 => some 5
  | 8 => some 1
  | 9 => some 1
  | 10 => some 4
  | 13 => some 5
  | _ => none

/-- `Parses l cs r`: reading complete commands from `l` one after the other gives `cs` and leaves `r`. -/
inductive Parses : Bytes → List Cmd → Bytes → Prop where
  | nil (l : Bytes) : Parses l [] l
  | cons {l m r : Bytes} {c : Cmd} {cs : List Cmd} (h : decode l = some (c, m)) (t : Parses m cs r) : Parses l (c :: cs) r

/-- Executing these commands one after the other, none of them stops the processing. -/
def Cfg.goesOn (bat : Nat → Byte) (c : Cfg) : List (Cmd × Nat) → Bool
  | [] => true
  | (cmd, n) :: l => (c.exec (bat n) cmd).1 && Cfg.goesOn bat (c.exec (bat n) cmd).2.1 l

/-- The identifier and length of the answer to a command; `none` if there is no answer. -/
def Cmd.answer : Cmd → Option (Byte × Nat)
  | .linkAdrReq .. => some (3, 2)
  | .dutyCycleReq => some (4, 1)
  | .rxParamSetupReq .. => some (5, 2)
  | .devStatusReq => some (6, 3)
  | .newChannelReq .. => some (7, 2)
  | .rxTimingSetupReq _ => some (8, 1)
  | _ => none

/-- `ans` are the answers to `cs` in order, each complete. -/
inductive Answers : List Cmd → List Bytes → Prop where
  | nil : Answers [] []
  | skip {c : Cmd} {cs : List Cmd} {as : List Bytes} (h : c.answer = none) (t : Answers cs as) : Answers (c :: cs) as
  | cons {c : Cmd} {cs : List Cmd} {a : Bytes} {as : List Bytes} {i : Byte} {n : Nat} (h : c.answer = some (i, n))
      (ha : a.head? = some i ∧ a.length = n) (t : Answers cs as) : Answers (c :: cs) (a :: as)

/-- Bytes of all answers to these commands. -/
def answerBytes (cs : List Cmd) : Nat := (cs.map fun c => (c.answer.map (·.2)).getD 0).sum

/-- A channel in 0..15 is enabled. -/
def Cfg.audible (c : Cfg) : Prop := ∃ i < 16, c.on i = true

/-- An accepted data uplink. -/
def frameSent (it : Item) : Bool :=
  match it.op with
  | .send .. => decide (it.ret = .err .no)
  | _ => false

/-- The operation ends no transmission, is no initialisation and no refused DeviceTimeReq. -/
def timeKept (it : Item) : Bool :=
  match it.op with
  | .init _ => false
  | .deviceTimeReq => decide (it.ret = .bool true)
  | _ => !txEnded it.ev

/-- The application's clock was read. -/
def clockRead (ev : List Ev) : Bool :=
  ev.any fun
    | .getDeviceTime => true
    | _ => false

end Spec
