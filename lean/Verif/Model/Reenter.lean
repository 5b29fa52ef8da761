import Verif.Model.History

/-!
# Calls made from inside application callbacks

`Model/Stack` takes application callbacks to return without calling the stack.  Here an application may call any public
function from inside `link_check_result`, `get_battery_level`, `device_time_result` and `get_device_time`.  While the first
three run, `handle_data_msg` is in the middle of a frame that lies in `uw_frame`, the buffer in which `uwan_send_frame` and
`uwan_join` build theirs; so from the MAC commands on, every byte is read from the frame buffer as it is at that moment.
Radio events are not raised inside a callback.
-/

namespace Uwan

/-- The calls an application makes inside its callbacks while one radio event is handled: `mac n` inside the callback of the
MAC command that has `n` bytes of FOpts after its identifier, `time` inside `get_device_time`. -/
structure Inside where
  mac : Nat → List Op
  time : List Op

/-- No calls. -/
def Inside.none : Inside := ⟨fun _ => [], []⟩

/-- src/mac.c:89-98 `link_check`, the application calling `ops` inside `link_check_result`. -/
def hLinkCheckR (E : Env) (ops : List Op) (s : St) (pld : Bytes) : Except UB (Bool × St × List Ev) :=
  match s.mac.cbs with
  | some cbs =>
    if cbs.linkCheck then
      match pld with
      | m :: g :: _ => do
        let (s', ev) ← run E s ops
        .ok (true, s', .linkCheckResult m g :: ev)
      | _ => .error .oob
    else .ok (true, s, [])
  | none => .ok (true, s, [])

/-- src/mac.c:138-149 `dev_status`, the application calling `ops` inside `get_battery_level`; the margin is read before. -/
def hDevStatusR (E : Env) (ops : List Op) (s : St) (bat : Byte) : Except UB (Bool × St × List Ev) :=
  let margin : Byte := s.snr &&& 0x3f
  match s.mac.cbs with
  | some cbs =>
    if cbs.battery then do
      let (s', ev) ← run E s ops
      let r := s'.enqueue 0x06 [bat, margin]
      .ok (r.1, r.2, .getBattery :: ev)
    else
      let r := s.enqueue 0x06 [255, margin]
      .ok (r.1, r.2, [])
  | none =>
    let r := s.enqueue 0x06 [255, margin]
    .ok (r.1, r.2, [])

/-- src/mac.c:185-196 `device_time`, the application calling `ops` inside `device_time_result`. -/
def hDeviceTimeR (E : Env) (ops : List Op) (s : St) (pld : Bytes) : Except UB (Bool × St × List Ev) :=
  match s.mac.cbs with
  | some cbs =>
    if cbs.timeResult then
      match pld with
      | a :: b :: c :: d :: frac :: _ => do
        let (s', ev) ← run E s ops
        .ok (true, s', shiftMark d ++ .deviceTimeResult s.mac.devTime (gpsToUnix (or32 a b c d)) frac :: ev)
      | _ => .error .oob
    else .ok (true, s, [])
  | none => .ok (true, s, [])

/-- The handlers of src/mac.c:89-206; only three of them call the application. -/
def runHandlerR (E : Env) (ops : List Op) (h : MacHandler) (s : St) (pld : Bytes) (bat : Byte) :
    Except UB (Bool × St × List Ev) :=
  match h with
  | .linkCheck => hLinkCheckR E ops s pld
  | .devStatus => hDevStatusR E ops s bat
  | .deviceTime => hDeviceTimeR E ops s pld
  | h => runHandler h s pld bat

/-- src/mac.c:231-254 `mac_handle_commands`; `start` is `uw_frame + off` and `end - start` is the last argument.  The first
number bounds the iterations. -/
def macLoopR (E : Env) (A : Inside) (bat : Nat → Byte) : Nat → St → Nat → Nat → Except UB (St × List Ev)
  | _, s, _, 0 => .ok (s, [])
  | 0, _, _, _ + 1 => .error .diverge
  | n + 1, s, off, len + 1 =>
    match s.frame.drop off with
    | [] => .error .oob
    | cid :: more =>
      match macCommands.find? (fun c => c.cid == cid) with
      | none => .ok (s, [])
      | some c =>
        if c.pldSize ≤ len then do
          let (ok, s', ev) ← runHandlerR E (A.mac len) c.handler s (more.take len) (bat len)
          if ok then
            let (s'', ev') ← macLoopR E A bat n s' (off + 1 + c.pldSize) (len - c.pldSize)
            .ok (s'', ev ++ ev')
          else .ok (s', ev)
        else .ok (s, [])

/-- src/stack.c:385-386: MAC commands in FOpts. -/
def dataCmdsR (E : Env) (A : Inside) (bat : Nat → Byte) (s : St) (fo : Nat) : Except UB (St × List Ev) :=
  if fo > 0 then macLoopR E A bat fo s 8 fo else .ok (s, [])

/-- src/stack.c:383-414; `size` is `pkt->size`, and `buf` is `uw_frame`. -/
def dataBodyR (E : Env) (A : Inside) (bat : Nat → Byte) (s : St) (pkt : DlPkt) (size fo : Nat) :
    Except UB (Err × St × DlPkt × List Ev) := do
  let s := { s with snr := pkt.snr }
  let (s, ev1) ← dataCmdsR E A bat s fo
  let buf := s.frame.take size
  let (pkt, pld) ← dataTail pkt (size - (12 + fo)) (buf.drop (8 + fo))
  let (e, s, pkt, ev2) ← dataFinish E s pkt pld buf (8 + fo + 1)
  .ok (e, s, pkt, ev1 ++ ev2)

/-- src/stack.c:320-415 `handle_data_msg`. Up to the MAC commands the application is not called, and the received bytes
are still those of the packet. -/
def handleDataMsgR (E : Env) (A : Inside) (bat : Nat → Byte) (s : St) (pkt : DlPkt) :
    Except UB (Err × St × DlPkt × List Ev) :=
  match pkt.data with
  | none => .error .nullDeref
  | some buf =>
    if buf.length < 12 then .ok (.msgLen, s, pkt, [])
    else
      match buf with
      | mhdr :: a0 :: a1 :: a2 :: a3 :: fctrl :: c0 :: c1 :: _ =>
        if (mhdr &&& 0x3) ≠ 0 then .ok (.msgMhdr, s, pkt, [])
        else
          let mtype : Byte := (mhdr >>> 5) &&& 7
          if mtype ≠ 3 ∧ mtype ≠ 5 then .ok (.msgMhdr, s, pkt, [])
          else
            let s := markAck s mtype
            let ev0 := shiftMark a3
            if s.session.devAddr ≠ or32 a0 a1 a2 a3 then .ok (.devAddr, s, pkt, ev0)
            else
              let fo : Nat := (fctrl &&& 0xf).toNat
              if buf.length < 12 + fo then .ok (.msgLen, s, pkt, ev0)
              else
                match nextFCntDown s.session.fCntDown (or16 c0 c1) with
                | none => .ok (.fcnt, s, pkt, ev0)
                | some d => do
                  let s := { s with session := { s.session with fCntDown := d } }
                  let (e, s, pkt, ev) ← dataBodyR E A bat s pkt buf.length fo
                  .ok (e, s, pkt, ev0 ++ ev)
      | _ => .error .oob

/-- src/stack.c:417-440 `handle_downlink`. -/
def handleDownlinkR (E : Env) (A : Inside) (o : Oracle) (s : St) (err : Err) : Except UB (St × List Ev) :=
  if err = .no then do
    let data := o.rxData.take 255
    let frame ← orOob (blit s.frame 0 data)
    let s := { s with frame := frame }
    let pkt : DlPkt := ⟨some data, 0, o.rssi, o.snr⟩
    let hd ← orOob frame.head?
    let mtype : Byte := (hd >>> 5) &&& 7
    let (err, s, pkt, ev) ←
      if s.joinState then handleJoinMsg E s pkt else handleDataMsgR E A o.bat s pkt
    .ok ({ s with joinState := false },
         [.readPacket, .sleep] ++ ev ++ [.downlink err mtype pkt])
  else
    .ok ({ s with joinState := false }, [.sleep, .downlink err 0 ⟨none, 0, 0, 0⟩])

/-- src/mac.c:272-279 `mac_on_tx_complete`, the application calling `ops` inside `get_device_time`: `mac_save_dev_time` is
cleared before, `mac_dev_time` is stored after. -/
def macOnTxCompleteR (E : Env) (ops : List Op) (s : St) (t : U32) : Except UB (St × List Ev) :=
  if s.mac.saveDevTime then
    match s.mac.cbs with
    | none => .error .nullDeref
    | some cbs =>
      let s := { s with mac := { s.mac with saveDevTime := false } }
      if cbs.getTime then do
        let (s, ev) ← run E s ops
        .ok ({ s with mac := { s.mac with devTime := t } }, .getDeviceTime :: ev)
      else .ok (s, [])
  else .ok (s, [])

/-- src/stack.c:448-471, `evt_handler` in state TX. -/
def evtTxR (E : Env) (A : Inside) (o : Oracle) (s : St) (mask : Byte) : Except UB (St × List Ev) :=
  if irqTxDone mask then do
    let pp ← rx1Params s
    let (s', ev2) ← macOnTxCompleteR E A.time { s with phase := .rx1, pp := pp } o.devTime
    .ok (s', [.startTimer .rx1 s.rx1Delay, .startTimer .rx2 s.rx2Delay, .setup pp] ++ ev2)
  else .ok (s, [])

/-- src/stack.c:473-492, `evt_handler` in state RX1. -/
def evtRx1R (E : Env) (A : Inside) (o : Oracle) (s : St) (mask : Byte) : Except UB (St × List Ev) :=
  if irqRxTimeout mask then do
    let (sf, bw) ← orOob (drTable s.rx2Dr)
    let s := { s with phase := .rx2, pp := { s.pp with sf := sf, bw := bw, invertedIq := true } }
    .ok (s, [.setFrequency s.rx2Freq, .setup s.pp])
  else if irqRxDone mask then do
    let s := { s with phase := .idle }
    let (s, ev) ← handleDownlinkR E A o s (if irqCrcError mask then .rxCrc else .no)
    .ok (s, .stopTimer .rx2 :: ev)
  else .ok (s, [])

/-- src/stack.c:494-506, `evt_handler` in state RX2. -/
def evtRx2R (E : Env) (A : Inside) (o : Oracle) (s : St) (mask : Byte) : Except UB (St × List Ev) :=
  if irqRxTimeout mask then handleDownlinkR E A o { s with phase := .idle } .rxTimeout
  else if irqRxDone mask then
    handleDownlinkR E A o { s with phase := .idle } (if irqCrcError mask then .rxCrc else .no)
  else .ok (s, [])

/-- src/stack.c:442-511 `evt_handler`. -/
def evtHandlerR (E : Env) (A : Inside) (o : Oracle) (s : St) (mask : Byte) : Except UB (St × List Ev) :=
  match s.phase with
  | .notInit => .ok (s, [])
  | .idle => .ok (s, [])
  | .tx => evtTxR E A o s mask
  | .rx1 => evtRx1R E A o s mask
  | .rx2 => evtRx2R E A o s mask

/-- One operation of an application that calls the stack from inside its callbacks; only radio events lead to callbacks of
`struct uwan_mac_callbacks`. -/
def stepR (E : Env) (A : Inside) (s : St) : Op → Except UB (Ret × St × List Ev)
  | .event m o => do let (s', ev) ← evtHandlerR E A o s m; .ok (.unit, s', ev)
  | op => step E s op

/-- Calls an application can make: any public function with valid arguments, but no radio event. -/
def Op.Call (op : Op) : Prop := op.Valid ∧ ∀ m o, op ≠ .event m o

/-- All the calls inside callbacks are calls. -/
def Inside.Valid (A : Inside) : Prop := (∀ n, ∀ op ∈ A.mac n, op.Call) ∧ ∀ op ∈ A.time, op.Call

/-- States reachable from power-on by an application that may call the stack from inside its callbacks. -/
inductive Reach (E : Env) : St → Prop where
  | boot : Reach E .boot
  | step {s s' : St} {A : Inside} {op : Op} {r : Ret} {ev : List Ev} (h : Reach E s) (ha : A.Valid) (hv : op.Valid)
      (hs : stepR E A s op = .ok (r, s', ev)) : Reach E s'

end Uwan
