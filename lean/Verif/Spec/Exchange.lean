import Verif.Spec.Config

/-!
# Exchanges and radio settings, told from the calls the stack makes

Nothing here looks at the stack's state: everything is a function of the sequence of calls to the radio, the timers and the
application.
-/

namespace Spec
open Uwan (Byte Bytes Block Ev Item Op PktParams Sf TimerId trace)

/-- Where an exchange stands. -/
inductive Exch where
  /-- never initialised -/
  | off
  /-- no exchange pending -/
  | idle
  /-- a frame was transmitted, its outcome not yet reported -/
  | busy
  deriving DecidableEq, Repr

/-- `uwan_init` installs the radio event handler; a transmission opens an exchange, the result closes it. -/
def Exch.next (x : Exch) : Ev → Exch
  | .setEvtHandler => .idle
  | .tx _ => .busy
  | .downlink .. => .idle
  | _ => x

/-- Where the exchange stands after these calls. -/
def exch (l : List Ev) : Exch := l.foldl Exch.next .off

/-- Transmissions happen only when no exchange is pending, results only when one is. -/
def alternates : Exch → List Ev → Bool
  | _, [] => true
  | x, e :: l =>
    (match e with
      | .tx _ => x == .idle
      | .downlink .. => x == .busy
      | _ => true) && alternates (x.next e) l

/-- Radio settings: frequency and modem parameters last set, and those at the last transmission. -/
structure Radio where
  freq : Nat
  pp : Option PktParams
  power : Option Int
  txFreq : Nat
  txPp : Option PktParams
  deriving DecidableEq, Repr

/-- One call. -/
def Radio.next (r : Radio) : Ev → Radio
  | .setFrequency f => { r with freq := f.toNat }
  | .setup p => { r with pp := some p }
  | .setPower p => { r with power := some p.toInt }
  | .tx _ => { r with txFreq := r.freq, txPp := r.pp }
  | _ => r

/-- The settings after these calls. -/
def radio (l : List Ev) : Radio := l.foldl Radio.next ⟨0, none, none, 0, none⟩

/-- The spreading factor as a number. -/
def sfNum : Sf → Nat
  | .sf6 => 6
  | .sf7 => 7
  | .sf8 => 8
  | .sf9 => 9
  | .sf10 => 10
  | .sf11 => 11
  | .sf12 => 12

/-- The settings common to all LoRaWAN transmissions and receptions of the stack. -/
def commonPp (p : PktParams) : Bool :=
  p.cr == .cr45 && p.preambleLen == 8 && p.crcOn && !p.implicitHeader && p.bw == .bw125 && decide (7 ≤ sfNum p.sf)

/-- Every transmission uses normal IQ, every reception inverted IQ, both the common settings. -/
def directed : Radio → List Ev → Bool
  | _, [] => true
  | r, e :: l =>
    (match e with
      | .tx _ => r.pp.any fun p => commonPp p && !p.invertedIq
      | .rx .. => r.pp.any fun p => commonPp p && p.invertedIq
      | _ => true) && directed (r.next e) l

/-- An accepted uplink or join-request. -/
def sentItem (it : Item) : Bool :=
  match it.op with
  | .send .. => it.ret == .err .no
  | .join .. => it.ret == .err .no
  | _ => false

/-- The stages of an exchange. -/
inductive Stage where
  | off
  | idle
  /-- transmitting -/
  | tx
  /-- first window, from the end of the transmission -/
  | rx1
  /-- second window, from the time-out of the first -/
  | rx2
  deriving DecidableEq, Repr

/-- One call: the second timer is started when a transmission ends; retuning during the first window means that it timed
out. -/
def Stage.next (x : Stage) : Ev → Stage
  | .setEvtHandler => .idle
  | .tx _ => .tx
  | .startTimer .rx2 _ => .rx1
  | .setFrequency _ => if x = .rx1 then .rx2 else x
  | .downlink .. => .idle
  | _ => x

/-- The stage after these calls. -/
def stage (l : List Ev) : Stage := l.foldl Stage.next .off

/-- The timers started, with their delays in milliseconds. -/
def timers (ev : List Ev) : List (TimerId × Nat) :=
  ev.filterMap fun
    | .startTimer i t => some (i, t.toNat)
    | _ => none

/-- The radio was told to receive. -/
def listens (ev : List Ev) : Bool :=
  ev.any fun
    | .rx .. => true
    | _ => false

/-- The radio was put to sleep and not used since. -/
def asleep (l : List Ev) : Bool :=
  l.foldl (fun a e =>
    match e with
    | .sleep => true
    | .setFrequency _ | .setup _ | .setPower _ | .tx _ | .rx .. | .readPacket => false
    | _ => a) false

/-- What the hardware around the stack is doing: the radio operation in progress and the timers running. -/
structure Hw where
  sending : Bool
  receiving : Bool
  t1 : Bool
  t2 : Bool
  deriving DecidableEq, Repr

/-- One call of the stack. -/
def Hw.call (h : Hw) : Ev → Hw
  | .tx _ => { h with sending := true, receiving := false }
  | .rx .. => { h with sending := false, receiving := true }
  | .sleep => { h with sending := false, receiving := false }
  | .startTimer .rx1 _ => { h with t1 := true }
  | .startTimer .rx2 _ => { h with t2 := true }
  | .stopTimer .rx1 => { h with t1 := false }
  | .stopTimer .rx2 => { h with t2 := false }
  | _ => h

/-- An interrupt of the radio ends its operation, a timer that fires is no longer running. -/
def Hw.begin (h : Hw) : Op → Hw
  | .event .. => { h with sending := false, receiving := false }
  | .timer .rx1 => { h with t1 := false }
  | .timer .rx2 => { h with t2 := false }
  | _ => h

/-- One operation: what happened outside, then the calls of the stack. -/
def Hw.next (h : Hw) (it : Item) : Hw := it.ev.foldl Hw.call (h.begin it.op)

/-- The hardware after a history. -/
def hw (log : List Item) : Hw := log.foldl Hw.next ⟨false, false, false, false⟩

/-- Nothing is in progress. -/
def Hw.rest (h : Hw) : Bool := !h.sending && !h.receiving && !h.t1 && !h.t2

/-- The operation is something that happens in this situation: the radio reports the end of the operation in progress (bit 2:
TxDone, bit 0: RxTimeout, bit 1: RxDone), only running timers fire, and the application initialises the stack only when
nothing is in progress. Other calls of the application are free. -/
def Hw.allows (h : Hw) : Op → Bool
  | .event m _ =>
    (h.sending && m.toNat / 4 % 2 == 1) || (h.receiving && (m.toNat % 2 == 1 || m.toNat / 2 % 2 == 1))
  | .timer .rx1 => h.t1
  | .timer .rx2 => h.t2
  | .init _ => h.rest
  | _ => true

/-- When the first window times out, the timer of the second is still running. -/
def prompt (log : List Item) (it : Item) : Bool :=
  match it.op with
  | .event m _ => !(stage (trace log) == .rx1 && m.toNat % 2 == 1) || (hw log).t2
  | _ => true

/-- Everything in `rest`, which follows `log`, is allowed. -/
def obeys (log : List Item) : List Item → Bool
  | [] => true
  | it :: rest => (hw log).allows it.op && obeys (log ++ [it]) rest

/-- Every time-out of a first window in `rest`, which follows `log`, is prompt. -/
def allPrompt (log : List Item) : List Item → Bool
  | [] => true
  | it :: rest => prompt log it && allPrompt (log ++ [it]) rest

/-- The delay in milliseconds of the first window of a frame sent after `log`. -/
def windowDelay (E : Uwan.Env) (log : List Item) (it : Item) : Nat :=
  match it.op with
  | .join .. => 5000
  | _ => 1000 * (config E log).delay

/-- An interrupt or a timer. -/
def isEnv : Op → Bool
  | .event .. => true
  | .timer _ => true
  | _ => false

/-- The results reported to the application. -/
def reports (ev : List Ev) : Nat :=
  ev.countP fun
    | .downlink .. => true
    | _ => false

/-- The crypto context that is open: an AES context, used or not, or a CMAC context, without input, with input, finished; `bad` after
a call out of order. -/
inductive Crypto where
  | none
  | aes (used : Bool)
  | cmac (fed done : Bool)
  | bad
  deriving DecidableEq, Repr

/-- One call: a context is created only when none is open, used only when open and of the right kind, and deleted only after it has been
used; a CMAC is finished once, after its input. -/
def Crypto.next (c : Crypto) : Ev → Crypto
  | .aesNew _ => if c = .none then .aes false else .bad
  | .aesEncrypt _ => match c with | .aes _ => .aes true | _ => .bad
  | .aesDel => if c = .aes true then .none else .bad
  | .cmacNew _ => if c = .none then .cmac false false else .bad
  | .cmacUpdate _ => match c with | .cmac _ false => .cmac true false | _ => .bad
  | .cmacFinish => if c = .cmac true false then .cmac true true else .bad
  | .cmacDel => if c = .cmac true true then .none else .bad
  | _ => c

/-- The open context after these calls. -/
def crypto (l : List Ev) : Crypto := l.foldl Crypto.next .none

end Spec
