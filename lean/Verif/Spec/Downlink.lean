import Verif.Spec.Exchange

/-! # Receptions: what arrived in a receive window and what the application is told -/

namespace Spec
open Uwan (Byte Bytes Block Env Ev Item Err DlPkt trace)

/-- How an event ends an exchange, if it does. -/
inductive Outcome where
  /-- it does not -/
  | none
  /-- nothing was received in either window -/
  | timeout
  /-- a packet with a wrong CRC -/
  | crc
  /-- a packet -/
  | packet (l : Bytes)
  deriving DecidableEq, Repr

/-- Read off the event bits (bit 0: RxTimeout, bit 1: RxDone, bit 3: CRC error) in a receive window; a time-out in the first window
leads to the second. A packet has at most 255 bytes. -/
def outcome (log : List Item) (it : Item) : Outcome :=
  match it.op with
  | .event m o =>
    if stage (trace log) = .rx1 ∨ stage (trace log) = .rx2 then
      if m.toNat % 2 = 1 then if stage (trace log) = .rx2 then .timeout else .none
      else if m.toNat / 2 % 2 = 1 then if m.toNat / 8 % 2 = 1 then .crc else .packet (o.rxData.take 255)
      else .none
    else .none
  | _ => .none

/-- What is reported to the application: error code, message type, packet. -/
def results (ev : List Ev) : List (Err × Byte × DlPkt) :=
  ev.filterMap fun
    | .downlink e m p => some (e, m, p)
    | _ => none

/-- Calls into the application's MAC handlers. -/
def macCalls (ev : List Ev) : List Ev :=
  ev.filter fun
    | .getBattery | .linkCheckResult .. | .deviceTimeResult .. => true
    | _ => false

/-- The result the application is told for the bytes `l` received in a join exchange: 17 or 33 bytes, MHDR 0x20, and the MIC in
the last four bytes of the clear text. -/
def joinVerdict (E : Env) (appKey : Block) (l : Bytes) : Err :=
  if l.length ≠ 17 ∧ l.length ≠ 33 then .msgLen
  else if l.head? ≠ some 0x20 then .msgMhdr
  else
    let c := joinClear E appKey l
    if c.drop (c.length - 4) = (E.cmac appKey (0x20 :: c.take (c.length - 4))).toList.take 4 then .no else .msgMic

/-- The packet handed to the application for the bytes `l` received in a data exchange; `down` is the counter before them. An
accepted frame is handed over as its port (0 if there is none) and clear payload; otherwise the raw bytes are. -/
def handed (E : Env) (v : View) (down : Nat) (l : Bytes) (rssi : BitVec 16) (snr : BitVec 8) : DlPkt :=
  match verdict E v down l, parse l with
  | .no, some f =>
    match f.port with
    | none => ⟨none, 0, rssi, snr⟩
    | some p =>
      ⟨some (crypt E (if p = 0 then v.nwk else v.app) 1 v.addr ((nextDown down f.fCnt).getD 0) f.payload), BitVec.ofNat 8 p,
        rssi, snr⟩
  | .msgMic, some f => ⟨some l, BitVec.ofNat 8 (f.port.getD 0), rssi, snr⟩
  | _, _ => ⟨some l, 0, rssi, snr⟩

/-- What the MAC commands in a data downlink with the bytes `l` and fields `f` start from: counter, acknowledgement flag and SNR of the
frame have been noted. -/
def Cfg.arrived (c : Cfg) (l : Bytes) (f : DataFrame) (snr : BitVec 8) : Cfg :=
  { c.noteAck l with down := (nextDown c.down f.fCnt).getD 0, snr := snr.toInt }

/-- A counter the network may use after `down`: ahead by 1..16384, or anything below 65536 when none was used yet. -/
def inStep (down cnt : Nat) : Prop := (down = 0 ∧ cnt < 65536) ∨ (down < cnt ∧ cnt ≤ down + 16384 ∧ cnt < 2 ^ 32)

/-- The port and payload of a downlink as the application should see it. -/
def Downlink.shown (D : Downlink) (rssi : BitVec 16) (snr : BitVec 8) : DlPkt :=
  match D.body with
  | none => ⟨none, 0, rssi, snr⟩
  | some (port, pld) => ⟨some pld, port, rssi, snr⟩

end Spec
