import Verif.Spec.Session

/-!
# The device's configuration, as an outside observer reconstructs it

`config E log` is computed from the calls made, the packets received and the results reported, with natural-number
arithmetic and without looking at the stack's state. It covers the channel map, receive windows, data rates, power, the
MAC answer queue, ADR bookkeeping, the acknowledgement flag and the downlink counter. Where the code deviates from LoRaWAN the
observer follows the code; the theorems about such properties say so.
-/

namespace Spec
open Uwan (Byte Bytes Block Env Ev Item Err Region MacCbs Oracle)

/-- What the observer knows about the configuration. -/
structure Cfg where
  region : Option Region
  /-- channel frequencies in Hz, 0 for an undefined channel -/
  freq : Nat → Nat
  /-- enabled channels -/
  on : Nat → Bool
  rx2Freq : Nat
  rx2Dr : Nat
  /-- RX1 data rate offset -/
  off : Nat
  /-- receive delay in seconds -/
  delay : Nat
  /-- session data rate (used when ADR is on) and default data rate -/
  dr : Nat
  defDr : Nat
  nb : Nat
  defNb : Nat
  /-- TX power index -/
  pow : Nat
  defPow : Nat
  eirp : Int
  adr : Bool
  limit : Nat
  adrDelay : Nat
  /-- uplinks since the last accepted downlink, ADR enable or back-off step -/
  cnt : Nat
  queue : Bytes
  ack : Bool
  /-- last downlink counter -/
  down : Nat
  /-- SNR of the last data downlink -/
  snr : Int
  cbs : Option MacCbs
  /-- a DeviceTimeReq waits to be stamped at the end of the next transmission -/
  stamp : Bool
  devTime : Nat
  /-- the pending exchange is a join -/
  joining : Bool
  /-- window delays in ms of the last exchange -/
  win1 : Nat
  win2 : Nat

/-- Power-on values. -/
def Cfg.boot : Cfg where
  region := none
  freq := fun _ => 0
  on := fun _ => false
  rx2Freq := 0
  rx2Dr := 0
  off := 0
  delay := 1
  dr := 0
  defDr := 0
  nb := 1
  defNb := 1
  pow := 0
  defPow := 0
  eirp := 14
  adr := false
  limit := 64
  adrDelay := 32
  cnt := 0
  queue := []
  ack := false
  down := 0
  snr := 0
  cbs := none
  stamp := false
  devTime := 0
  joining := false
  win1 := 0
  win2 := 0

/-- Change one value of a map. -/
def upd {α : Type} (f : Nat → α) (i : Nat) (v : α) : Nat → α := fun j => if j = i then v else f j

/-- The band the stack allows. -/
def inBand (f : Nat) : Bool := 860000000 ≤ f && f ≤ 870000000

/-- Define and enable a channel; refused for a bad index or frequency. -/
def Cfg.setChannel (c : Cfg) (i f : Nat) : Cfg :=
  if i < 16 ∧ inBand f then { c with freq := upd c.freq i f, on := upd c.on i true } else c

/-- Enable or disable a channel; only a defined one can be enabled. -/
def Cfg.enable (c : Cfg) (i : Nat) (en : Bool) : Cfg :=
  if i < 16 ∧ (en = true → c.freq i ≠ 0) then { c with on := upd c.on i en } else c

/-- The data rate of the next data uplink. -/
def Cfg.txDr (c : Cfg) : Nat := if c.adr then c.dr else c.defDr

/-- The data rate of a frame sent by an operation: the default one for a join-request. -/
def sentDr (c : Cfg) : Uwan.Op → Nat
  | .join .. => c.defDr
  | _ => c.txDr

/-- The largest application payload per data rate. -/
def maxPayload (dr : Nat) : Nat := if dr ≤ 2 then 51 else if dr = 3 then 115 else 222

/-- What is left of it beside the queued MAC commands. -/
def Cfg.room (c : Cfg) : Nat := maxPayload c.txDr - c.queue.length

/-! ### MAC commands (LoRaWAN 1.0.x section 5) -/

/-- Commands from the network. -/
inductive Cmd where
  | linkCheckAns (margin gwCnt : Byte)
  | linkAdrReq (dr pow mask cntl nb : Nat)
  | dutyCycleReq
  | rxParamSetupReq (off dr freq : Nat)
  | devStatusReq
  | newChannelReq (idx freq maxDr minDr : Nat)
  | rxTimingSetupReq (delay : Nat)
  | txParamSetupReq
  | dlChannelReq
  | deviceTimeAns (gps : Nat) (frac : Byte)
  deriving DecidableEq, Repr

/-- Read one complete command. -/
def decode : Bytes → Option (Cmd × Bytes)
  | [] => none
  | cid :: l =>
    match cid.toNat, l with
    | 2, m :: g :: r => some (.linkCheckAns m g, r)
    | 3, d :: m0 :: m1 :: x :: r =>
      some (.linkAdrReq (d.toNat / 16) (d.toNat % 16) (leNat [m0, m1]) (x.toNat / 16 % 8) (x.toNat % 16), r)
    | 4, _ :: r => some (.dutyCycleReq, r)
    | 5, d :: f0 :: f1 :: f2 :: r =>
      some (.rxParamSetupReq (d.toNat / 16 % 8) (d.toNat % 16) (100 * leNat [f0, f1, f2]), r)
    | 6, r => some (.devStatusReq, r)
    | 7, i :: f0 :: f1 :: f2 :: d :: r =>
      some (.newChannelReq i.toNat (100 * leNat [f0, f1, f2]) (d.toNat / 16) (d.toNat % 16), r)
    | 8, d :: r => some (.rxTimingSetupReq (d.toNat % 16), r)
    | 9, _ :: r => some (.txParamSetupReq, r)
    | 10, _ :: _ :: _ :: _ :: r => some (.dlChannelReq, r)
    | 13, t0 :: t1 :: t2 :: t3 :: fr :: r => some (.deviceTimeAns (leNat [t0, t1, t2, t3]) fr, r)
    | _, _ => none

/-- The longest prefix of complete known commands, each with the number of bytes behind it. The first argument bounds the
number of commands; every command has at least one byte. -/
def commands : Nat → Bytes → List (Cmd × Nat)
  | 0, _ => []
  | n + 1, l =>
    match decode l with
    | none => []
    | some (c, r) => (c, r.length) :: commands n r

/-- Queue an answer if it fits entirely. -/
def Cfg.answer (c : Cfg) (l : Bytes) : Bool × Cfg :=
  if c.queue.length + l.length ≤ 15 then (true, { c with queue := c.queue ++ l }) else (false, c)

/-- Three conditions as the low bits of an answer. -/
def bits (b0 b1 b2 : Bool) : Byte := BitVec.ofNat 8 (b0.toNat + 2 * b1.toNat + 4 * b2.toNat)

/-- Bit `i` of a number. -/
def bit (n i : Nat) : Bool := n / 2 ^ i % 2 = 1

/-- A channel mask is acceptable when every channel in it is defined. The code looks only at bit 2 of ChMaskCntl. -/
def Cfg.maskOk (c : Cfg) (mask cntl : Nat) : Bool :=
  !bit cntl 2 && (List.range 16).all fun i => !bit mask i || c.freq i != 0

/-- Answer bits and effect of LinkADRReq: all or nothing. -/
def Cfg.linkAdr (c : Cfg) (dr pow mask cntl nb : Nat) : Byte × Cfg :=
  let ok := c.maskOk mask cntl && decide (dr < 6) && decide (pow < 8)
  (bits (c.maskOk mask cntl) (dr < 6) (pow < 8),
   if ok then
     { c with
       dr := dr
       pow := pow
       nb := if nb = 0 then c.defNb else nb
       on := fun i => if i < 16 then bit mask i else false }
   else c)

/-- Answer bits and effect of RXParamSetupReq: all or nothing. -/
def Cfg.rxParam (c : Cfg) (off dr freq : Nat) : Byte × Cfg :=
  let ok := inBand freq && decide (dr < 6) && decide (off < 6)
  (bits (inBand freq) (dr < 6) (off < 6),
   if ok then { c with off := off, rx2Dr := dr, rx2Freq := freq } else c)

/-- Answer bits and effect of NewChannelReq. A bad index clears both bits. -/
def Cfg.newChannel (c : Cfg) (idx freq maxDr minDr : Nat) : Byte × Cfg :=
  let range := decide (maxDr = 5 ∧ minDr = 0)
  if inBand freq ∧ range ∧ 16 ≤ idx then (0, c)
  else (bits (inBand freq) range false, if range then c.setChannel idx freq else c)

/-- Execute one command: does processing go on, the new configuration, the callbacks made. `bat` is what the battery callback
returns. -/
def Cfg.exec (c : Cfg) (bat : Byte) : Cmd → Bool × Cfg × List Ev
  | .linkCheckAns m g =>
    (true, c, if (c.cbs.map (·.linkCheck)).getD false then [.linkCheckResult m g] else [])
  | .linkAdrReq dr pow mask cntl nb =>
    let r := c.linkAdr dr pow mask cntl nb
    let a := r.2.answer [3, r.1]
    (a.1, a.2, [])
  | .dutyCycleReq => let a := c.answer [4]; (a.1, a.2, [])
  | .rxParamSetupReq off dr freq =>
    let r := c.rxParam off dr freq
    let a := r.2.answer [5, r.1]
    (a.1, a.2, [])
  | .devStatusReq =>
    let asked := (c.cbs.map (·.battery)).getD false
    let a := c.answer [6, if asked then bat else 255, BitVec.ofInt 8 (c.snr % 64)]
    (a.1, a.2, if asked then [.getBattery] else [])
  | .newChannelReq idx freq maxDr minDr =>
    let r := c.newChannel idx freq maxDr minDr
    let a := r.2.answer [7, r.1]
    (a.1, a.2, [])
  | .rxTimingSetupReq d => let a := { c with delay := max 1 d }.answer [8]; (a.1, a.2, [])
  | .txParamSetupReq => (true, c, [])
  | .dlChannelReq => (true, c, [])
  | .deviceTimeAns gps frac =>
    (true, c,
     if (c.cbs.map (·.timeResult)).getD false then
       [.deviceTimeResult (BitVec.ofNat 32 c.devTime) (BitVec.ofNat 32 (gps + 315964800 - 18)) frac]
     else [])

/-- Execute commands up to the first one whose answer does not fit. -/
def Cfg.execAll (bat : Nat → Byte) (c : Cfg) : List (Cmd × Nat) → Cfg × List Ev
  | [] => (c, [])
  | (cmd, n) :: l =>
    let r := c.exec (bat n) cmd
    if r.1 then
      let t := Cfg.execAll bat r.2.1 l
      (t.1, r.2.2 ++ t.2)
    else (r.2.1, r.2.2)

/-- Execute the content of an FOpts field. -/
def Cfg.execBytes (bat : Nat → Byte) (c : Cfg) (l : Bytes) : Cfg × List Ev := c.execAll bat (commands l.length l)

/-! ### Downlinks -/

/-- A data downlink of major version 0, by length and first byte. -/
def isDataDown (l : Bytes) : Bool :=
  decide (12 ≤ l.length) && (leNat (l.take 1) % 4 == 0) &&
    (leNat (l.take 1) / 32 == 3 || leNat (l.take 1) / 32 == 5)

/-- The counter the stack reconstructs: the first downlink of a session may carry any counter; later ones are taken as ahead by
1..16384, anything further as belonging to the next block of 65536. -/
def nextDown (cur fcnt : Nat) : Option Nat :=
  let d := (fcnt + 65536 - cur % 65536) % 65536
  if cur = 0 then some fcnt
  else if d = 0 then none
  else if d ≤ 16384 then some ((cur + d) % 2 ^ 32)
  else some ((cur / 65536 * 65536 + 65536 + fcnt) % 2 ^ 32)

/-- The result the application is told for the bytes `l` received in a data exchange (src/stack.c documents the codes in
include/uwan/stack.h:87-100). -/
def verdict (E : Env) (v : View) (down : Nat) (l : Bytes) : Err :=
  if l.length < 12 then .msgLen
  else if !isDataDown l then .msgMhdr
  else if leNat ((l.drop 1).take 4) ≠ v.addr then .devAddr
  else
    match parse l with
    | none => .msgLen
    | some f =>
      match nextDown down f.fCnt with
      | none => .fcnt
      | some d => if f.mic = dataMic E v.nwk 1 v.addr d (signed l) then .no else .msgMic

/-- The result reported to the application in an event. -/
def report (ev : List Ev) : Option Err :=
  ev.findSome? fun
    | .downlink e _ _ => some e
    | _ => none

/-- A confirmed downlink asks for an acknowledgement (the code notes it before checking address and MIC). -/
def Cfg.noteAck (c : Cfg) (l : Bytes) : Cfg :=
  if isDataDown l ∧ leNat (l.take 1) / 32 = 5 then { c with ack := true } else c

/-- A frame received in a data exchange; counter and MAC commands are taken over before the MIC check. -/
def Cfg.receive (c : Cfg) (o : Oracle) (l : Bytes) (err : Err) : Cfg :=
  if err = .no ∨ err = .msgMic then
    match parse l with
    | none => c
    | some f =>
      let c := { c.noteAck l with down := (nextDown c.down f.fCnt).getD 0, snr := o.snr.toInt }
      let c := (c.execBytes o.bat f.fOpts).1
      if err = .no then { c with cnt := 0 } else c
  else if err = .rxTimeout ∨ err = .rxCrc then c
  else c.noteAck l

/-! ### Join-accept -/

/-- The channel slots of a CFList: five after the region's default channels. -/
def cfFirst : Region → Nat
  | .eu868 => 3
  | .ru864 => 2

/-- One CFList entry: zero disables the channel, a frequency defines and enables it. -/
def Cfg.cfEntry (c : Cfg) (i f : Nat) : Cfg := if f = 0 then c.enable i false else c.setChannel i (100 * f)

/-- A CFList of 16 bytes: five frequencies and a type, which must be 0. -/
def Cfg.cfList (c : Cfg) (first : Nat) (l : Bytes) : Cfg :=
  if leNat ((l.drop 15).take 1) = 0 then
    (List.range 5).foldl (fun c k => c.cfEntry (first + k) (leNat ((l.drop (3 * k)).take 3))) c
  else c

/-- The settings of an accepted join-accept with clear text `l` (behind MHDR). -/
def Cfg.accept (c : Cfg) (l : Bytes) : Cfg :=
  let dl := leNat ((l.drop 10).take 1)
  let dly := leNat ((l.drop 11).take 1)
  let c :=
    { c with
      off := if dl / 16 % 8 < 6 then dl / 16 % 8 else c.off
      rx2Dr := if dl % 16 < 6 then dl % 16 else c.rx2Dr
      delay := max 1 (dly % 16)
      dr := c.defDr
      ack := false
      down := 0 }
  match c.region with
  | some r => if l.length = 32 then c.cfList (cfFirst r) (l.drop 12) else c
  | none => c

/-! ### Uplinks -/

/-- Bookkeeping of an accepted uplink: the queue and the acknowledgement have been sent, windows are set, ADR counts. -/
def Cfg.sent (c : Cfg) : Cfg :=
  let n := (c.cnt + 1) % 2 ^ 32
  let back := decide (c.dr ≠ 0) && decide (c.limit + c.adrDelay < n)
  { c with
    queue := []
    ack := false
    win1 := 1000 * c.delay
    win2 := 1000 * c.delay + 1000
    dr := if back then c.dr - 1 else c.dr
    cnt := if back then 0 else n }

/-- The two window timers were started: a transmission has ended. -/
def txEnded (ev : List Ev) : Bool :=
  ev.any fun
    | .startTimer .. => true
    | _ => false

/-- One operation, seen from outside; `v` is the session view before it. -/
def Cfg.next (E : Env) (v : View) (c : Cfg) (it : Item) : Cfg :=
  match it.op with
  | .init r =>
    let c :=
      { c with
        region := some r, on := fun _ => false, off := 0, delay := 1, dr := 0, ack := false, down := 0, queue := []
        stamp := false, rx2Dr := 0, rx2Freq := match r with | .eu868 => 868100000 | .ru864 => 869100000 }
    match r with
    | .eu868 => ((c.setChannel 0 868100000).setChannel 1 868300000).setChannel 2 868500000
    | .ru864 => (c.setChannel 0 868900000).setChannel 1 869100000
  | .setSession _ _ d _ _ => { c with dr := c.defDr, ack := false, down := d.toNat }
  | .enableChannel i en => c.enable i.toNat en
  | .setChannel i f => c.setChannel i.toNat f.toNat
  | .setRx2 f dr => if dr < 6 ∧ inBand f.toNat then { c with rx2Freq := f.toNat, rx2Dr := dr } else c
  | .join _ _ => if it.ret = .err .no then { c with joining := true, win1 := 5000, win2 := 6000 } else c
  | .send .. => if it.ret = .err .no then c.sent else c
  | .event _ o =>
    match report it.ev with
    | some err =>
      let c' :=
        if c.joining then if err = .no then c.accept (joinClear E v.appKey o.rxData) else c
        else c.receive o (o.rxData.take 255) err
      { c' with joining := false }
    | none =>
      if txEnded it.ev then
        { c with
          stamp := false
          devTime := if c.stamp && (c.cbs.map (·.getTime)).getD false then o.devTime.toNat else c.devTime }
      else c
  | .setDr dr => if dr < 6 then { c with dr := dr, defDr := dr } else c
  | .setNbTrans n => if 1 ≤ n.toNat ∧ n.toNat ≤ 15 then { c with nb := n.toNat, defNb := n.toNat } else c
  | .setMaxEirp e => { c with eirp := e.toInt }
  | .setTxPower p => if p.toNat < 8 then { c with pow := p.toNat, defPow := p.toNat } else c
  | .setRx1DrOffset o => if o.toNat < 6 then { c with off := o.toNat } else c
  | .setRx1Delay d => if 1 ≤ d.toNat ∧ d.toNat ≤ 15 then { c with delay := d.toNat } else c
  | .adrEnable en => { c with adr := en, cnt := 0 }
  | .adrSetupAck l d => { c with limit := l.toNat, adrDelay := d.toNat }
  | .macSetHandlers cbs => { c with cbs := cbs }
  | .linkCheckReq => (c.answer [2]).2
  | .deviceTimeReq => let a := c.answer [13]; { a.2 with stamp := a.1 }
  | _ => c

/-- The operation may touch channel `i`: setting or switching it, initialisation, or a received packet. -/
def touches (i : Nat) (it : Item) : Bool :=
  match it.op with
  | .setChannel j _ => j.toNat == i
  | .enableChannel j _ => j.toNat == i
  | .init _ => true
  | .event .. => (report it.ev).isSome
  | _ => false

/-- What the observer knows after a history: session and configuration. -/
def observe (E : Env) (log : List Item) : View × Cfg :=
  log.foldl (fun x it => (x.1.next E it, x.2.next E x.1 it)) (View.boot, Cfg.boot)

/-- The configuration after a history. -/
def config (E : Env) (log : List Item) : Cfg := (observe E log).2

end Spec
