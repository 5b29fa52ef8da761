import Verif.Spec.Config
import Verif.Spec.Downlink
import Verif.Spec.Exchange

/-!
# A session continued after a restart

The device loses power and runs again from nothing; the application puts the session back with `uwan_set_session`
(include/uwan/stack.h:215-226). The two lives are two histories, each from power-on.
-/

namespace Spec
open Uwan (Byte Bytes Block Env Ev Item Op Ret U32 Oracle)

/-- In the history `log` the application put back the session with `uwan_set_session`, and no other session has started since; `seg` is
what happened since. -/
structure Resumed (log : List Item) (addr up down : U32) (nwk app : Block) (seg : List Item) : Prop where
  cut : ∃ log0 it0, log = log0 ++ [it0] ++ seg ∧ it0.op = .setSession addr up down nwk app
  same : ∀ x ∈ seg, newSession x = false

/-- There is a history in which the session was put back with the downlink counter `down`, then nothing was reported to the application until
the packet `l` came in a data exchange; it was accepted if `ok`, else refused. -/
def MeetsFirst (E : Env) (addr down : U32) (nwk app : Block) (l : Bytes) (ok : Bool) : Prop :=
  ∃ log seg it s up, Uwan.Hist E (log ++ [it]) s ∧ Resumed log addr up down nwk app seg ∧ (∀ x ∈ seg, results x.ev = []) ∧
    outcome log it = .packet l ∧ (config E log).joining = false ∧ ((results it.ev).map (·.1) = [.no] ↔ ok = true)

/-- With the downlink counter `down` put back, the stack can accept the network's next frame and can refuse the last one before the
restart. -/
def Continues (E : Env) (addr down : U32) (nwk app : Block) (next last : Bytes) : Prop :=
  MeetsFirst E addr down nwk app next true ∧ MeetsFirst E addr down nwk app last false

/-- `l` is a frame of the network with this counter, and no other counter has its MIC. -/
def FrameOf (E : Env) (addr : U32) (nwk : Block) (cnt : Nat) (l : Bytes) : Prop :=
  ∃ f, parse l = some f ∧ f.fCnt = cnt % 65536 ∧ f.mic = dataMic E nwk 1 addr.toNat cnt (signed l) ∧
    ∀ c, c < 2 ^ 32 → dataMic E nwk 1 addr.toNat c (signed l) = f.mic → c = cnt

/-- The call made or the interrupt passed on, without what the radio holds: the packet, its RSSI and SNR. -/
def toldOp : Op → Op
  | .event m o => .event m { o with rxData := [], rssi := 0, snr := 0 }
  | op => op

/-- What the application's callbacks for downlinks and MAC commands are given. -/
def toldEv (ev : List Ev) : List Ev :=
  ev.filter fun
    | .downlink .. | .linkCheckResult .. | .getBattery | .getDeviceTime | .deviceTimeResult .. => true
    | _ => false

/-- What the application knows of a history: the calls made, the values returned, and what its callbacks were given. The bytes on air
and the blocks handed to its crypto functions are left out. -/
def told (log : List Item) : List (Op × Ret × List Ev) := log.map fun it => (toldOp it.op, it.ret, toldEv it.ev)

end Spec
