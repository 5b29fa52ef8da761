import Verif.Spec.Exchange

/-!
# ADR bookkeeping told from the history
-/

namespace Spec
open Uwan (Byte Bytes Env Ev Item Err)

/-- ADR is on when the last `uwan_adr_enable` said so. -/
def adrOn (log : List Item) : Bool :=
  log.foldl (fun a it => match it.op with | .adrEnable b => b | _ => a) false

/-- The uplink count starts anew: `uwan_adr_enable`, or a data downlink accepted. -/
def adrReset (it : Item) : Bool :=
  match it.op with
  | .adrEnable _ => true
  | _ => dataReported it.ev

/-- Nothing that bears on the data rate happened, except possibly an uplink: no reset, no new session, no setting of data rate or
ADR parameters, no received frame whose MAC commands were executed. -/
def calm (it : Item) : Bool :=
  match it.op with
  | .init _ | .setSession .. | .setDr _ | .adrEnable _ | .adrSetupAck .. => false
  | _ => report it.ev != some .no && report it.ev != some .msgMic

/-- A data frame of type "confirmed data down" was received in a data exchange that began after `log`'s last transmission. The
stack looks at type and length only: neither address nor MIC. -/
def confirmedSeen (E : Env) (log : List Item) (it : Item) : Bool :=
  match it.op with
  | .event _ o =>
    !(config E log).joining && isDataDown (o.rxData.take 255) && (leNat (o.rxData.take 1) / 32 == 5) &&
      (match report it.ev with
        | none => false
        | some e => e != .rxTimeout && e != .rxCrc)
  | _ => false

/-- Pending acknowledgements are gone: sent with an uplink, or a new session. -/
def ackCleared (it : Item) : Bool :=
  match it.op with
  | .init _ | .setSession .. => true
  | .send .. => it.ret == .err .no
  | _ => joinReported it.ev

end Spec
