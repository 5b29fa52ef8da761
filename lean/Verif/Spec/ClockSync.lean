import Verif.Spec.LoRaWAN
import Verif.Model.ClockSync

/-!
# The clock synchronisation package, as the server sees it

Independent of the model: packets are read as lists, with no offsets, masks or buffers (LoRaWAN Application Layer Clock
Synchronization, section 3). Shared with the model are only the types of bytes, of histories, and of the recorded calls.
-/

namespace Spec
open Uwan (Byte Bytes CsEv SItem)

/-- A 32-bit number as a signed one. -/
def signed32 (n : Nat) : Int := if n < 2147483648 then n else (n : Int) - 4294967296

/-- What a device finds in a packet. -/
inductive SyncCmd where
  | version
  | timeAns (corr : Int) (token : Nat)
  | period (p : Nat)
  | resync (n : Nat)
  /-- an unknown identifier, or AppTimeAns or PeriodicityReq cut off; the next byte is taken for an identifier again -/
  | skip
  /-- an identifier from 31 on -/
  | wild
  /-- ForceDeviceResyncReq as the last byte -/
  | cut
  deriving DecidableEq

/-- The commands in a packet, `seen` being the identifiers below 8 seen so far. A second one of these ends the packet. -/
def readSync (seen : List Nat) : Bytes → List SyncCmd
  | [] => []
  | cid :: rest =>
    if seen.contains cid.toNat then []
    else if cid.toNat = 0 then .version :: readSync (0 :: seen) rest
    else if cid.toNat = 1 then
      match rest with
      | a :: b :: c :: d :: t :: rest => .timeAns (signed32 (leNat [a, b, c, d])) (t.toNat % 16) :: readSync (1 :: seen) rest
      | rest => .skip :: readSync (1 :: seen) rest
    else if cid.toNat = 2 then
      match rest with
      | p :: rest => .period p.toNat :: readSync (2 :: seen) rest
      | [] => [.skip]
    else if cid.toNat = 3 then
      match rest with
      | n :: rest => .resync (n.toNat % 8) :: readSync (3 :: seen) rest
      | [] => [.cut]
    else if cid.toNat < 8 then .skip :: readSync (cid.toNat :: seen) rest
    else if cid.toNat < 31 then .skip :: readSync seen rest
    else [.wild]

/-- Something in the packet is not handled: an identifier from 31 on, a ForceDeviceResyncReq without its parameter at the end (when
`noTail`: nothing follows the packet in memory), or a period from 6 on. -/
def Fault (supported : Bool) (noTail : Prop) (l : List SyncCmd) : Prop :=
  (.cut ∈ l ∧ noTail) ∨ .wild ∈ l ∨ (supported = true ∧ ∃ p, 6 ≤ p ∧ .period p ∈ l)

/-- A complete command, as sent by a server. -/
inductive SyncMsg where
  | version
  | timeAns (a b c d t : Byte)
  | period (p : Byte)
  | resync (n : Byte)

/-- Its identifier. -/
def SyncMsg.cid : SyncMsg → Byte
  | .version => 0
  | .timeAns .. => 1
  | .period _ => 2
  | .resync _ => 3

/-- Its encoding. -/
def SyncMsg.bytes : SyncMsg → Bytes
  | .version => [0]
  | .timeAns a b c d t => [1, a, b, c, d, t]
  | .period p => [2, p]
  | .resync n => [3, n]

/-- GPS time of a Unix time: the GPS epoch is 315964800, and GPS is 18 leap seconds ahead. -/
def gpsTime (unix : Nat) : Nat := (unix + 4294967296 - 315964800 + 18) % 4294967296

/-- The answer to one command; `supported` tells whether the application handles periodicity requests. -/
def SyncCmd.answer (supported : Bool) (unix : Nat) : SyncCmd → Bytes
  | .version => [0, 1, 1]
  | .period _ => [2, if supported then 0 else 1] ++ leBytes 4 (gpsTime unix)
  | _ => []

/-- All answers to a packet. -/
def answers (supported : Bool) (unix : Nat) (l : List SyncCmd) : Bytes := l.flatMap (SyncCmd.answer supported unix)

/-- Calls of the application. -/
inductive SyncCall where
  | correct (v : Int)
  | period (sec : Nat)
  | resync
  deriving DecidableEq

/-- The calls one command leads to, when the device waits for the answer with token `tok`; `sec` is the length of a period. -/
def SyncCmd.calls (supported : Bool) (sec : Nat → Nat) (tok : Nat) : SyncCmd → List SyncCall
  | .timeAns v t => if t = tok then [.correct v] else []
  | .period p => if supported then [.period (sec p)] else []
  | .resync n => if n = 0 then [] else [.resync]
  | _ => []

/-- All calls of a packet. A packet has at most one AppTimeAns, so the token is the same for all. -/
def calls (supported : Bool) (sec : Nat → Nat) (tok : Nat) (l : List SyncCmd) : List SyncCall :=
  l.flatMap (SyncCmd.calls supported sec tok)

/-- What is seen of the calls recorded by the model. -/
def callOf : CsEv → Option SyncCall
  | .correction v => some (.correct v.toInt)
  | .period s => some (.period s.toNat)
  | .resync => some .resync
  | _ => none

/-- The calls of the application in a list of recorded calls. -/
def callsOf (ev : List Uwan.SEv) : List SyncCall := ev.filterMap fun | .cs e => callOf e | .st _ => none

/-- The corrections among calls. -/
def corrections (l : List SyncCall) : List Int := l.filterMap fun | .correct v => some v | _ => none

/-- What an observer knows about the package: the registered callbacks (whether periodicity requests are handled), the number of
corrections since `uwan_clock_sync_init`, and the answers not yet superseded. -/
structure SyncView where
  cbs : Option Bool
  count : Nat
  held : Bytes
  deriving DecidableEq

/-- One more operation. -/
def SyncView.next (v : SyncView) (it : SItem) : SyncView :=
  match it.op with
  | .csInit cbs => ⟨cbs.map (·.period), 0, []⟩
  | .csHandle err port data _ unix =>
    if err = .no then
      { v with
        count := v.count + (corrections (callsOf it.ev)).length
        held := match v.cbs with
          | some p => if port = 202 then answers p unix.toNat (readSync [] data) else []
          | none => [] }
    else v
  | _ => v

/-- What an observer of a history knows. -/
def syncView (log : List SItem) : SyncView := log.foldl SyncView.next ⟨none, 0, []⟩

end Spec
