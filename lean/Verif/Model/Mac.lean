import Verif.Model.Region

/-! # `src/mac.c`, `src/adr.c`, `src/utils.c` -/

namespace Uwan

/-! ## `src/utils.c` -/

/-- src/utils.c:41-46 `utils_unix_to_gps`. -/
def unixToGps (t : U32) : U32 := (t - 315964800) + 18

/-- src/utils.c:48-53 `utils_gps_to_unix`. -/
def gpsToUnix (t : U32) : U32 := (t + 315964800) - 18

/-! ## Small setters of `src/stack.c` used by ADR -/

/-- src/stack.c:789-797 `set_nb_trans`. -/
def setNbTransInt (s : St) (n : Byte) : Bool × St :=
  if 1 ≤ n.toNat ∧ n.toNat ≤ 15 then (true, { s with nbTrans := n }) else (false, s)

/-- src/stack.c:799-802 `reset_nb_trans`. -/
def resetNbTrans (s : St) : St := { s with nbTrans := s.defaultNbTrans }

/-- src/stack.c:810-818 `set_tx_power`. -/
def setTxPowerInt (s : St) (p : Byte) : Bool × St :=
  if isValidTxPower p then (true, { s with txPower := p }) else (false, s)

/-! ## The answer queue -/

/-- src/mac.c:256-270 `mac_enqueue`; `MAC_BUF_SIZE` is 15. `free` is the `uint8_t` value
`15 - mac_buf_pos`. -/
def macEnqueue (m : Mac) (cid : Byte) (data : Bytes) : Bool × Mac :=
  let free : Byte := 15 - BitVec.ofNat 8 m.queue.length
  if 1 + data.length > free.toNat then (false, m)
  else (true, { m with queue := m.queue ++ cid :: data })

/-- `mac_enqueue` on the whole state. -/
def St.enqueue (s : St) (cid : Byte) (data : Bytes) : Bool × St :=
  let r := macEnqueue s.mac cid data
  (r.1, { s with mac := r.2 })

/-! ## `src/adr.c` -/

/-- src/adr.c:58-62 `uwan_adr_enable`. -/
def adrEnable (a : Adr) (en : Bool) : Adr := { a with enabled := en, ackCnt := 0 }

/-- src/adr.c:64-68 `uwan_adr_setup_ack`. -/
def adrSetupAck (a : Adr) (limit delay : Byte) : Adr := { a with ackLimit := limit, ackDelay := delay }

/-- src/adr.c:70-76 `adr_get_req_bit`. -/
def adrGetReqBit (s : St) : Bool :=
  if s.adr.enabled = false ∨ s.session.dr = 0 then false
  else s.adr.ackLimit.toNat ≤ s.adr.ackCnt.toNat

/-- src/adr.c:86-87: the field is masked with the SHIFT constant 4, not with the MASK constant 7. -/
def linkAdrCntl (redundancy : Byte) : Nat := ((redundancy >>> 4) &&& 4).toNat

/-- src/adr.c:80-94, the status byte of the answer. -/
def linkAdrStatus (s : St) (drTxpow : Byte) (chMask : U16) (redundancy : Byte) : Byte :=
  let r : Byte := 0
  let r := if isValidDr ((drTxpow >>> 4) &&& 0xf).toNat then r ||| 0x2 else r
  let r := if (handleAdrChMask s.chan chMask (linkAdrCntl redundancy) true).1 then r ||| 0x1 else r
  if isValidTxPower (drTxpow &&& 0xf) then r ||| 0x4 else r

/-- src/adr.c:97-99. -/
def linkAdrNbTrans (s : St) (nb : Byte) : St :=
  let t := setNbTransInt s nb
  if t.1 then t.2 else resetNbTrans t.2

/-- src/adr.c:97-103, taking over all settings. -/
def linkAdrApply (s : St) (drTxpow : Byte) (chMask : U16) (redundancy : Byte) : St :=
  let s := linkAdrNbTrans s (redundancy &&& 0xf)
  let s := (setTxPowerInt s (drTxpow &&& 0xf)).2
  { s with
    session := { s.session with dr := ((drTxpow >>> 4) &&& 0xf).toNat }
    chan := (handleAdrChMask s.chan chMask (linkAdrCntl redundancy) false).2 }

/-- src/adr.c:78-107 `adr_handle_link_req`: result of `mac_enqueue` and new state. -/
def adrHandleLinkReq (s : St) (drTxpow : Byte) (chMask : U16) (redundancy : Byte) : Bool × St :=
  let result := linkAdrStatus s drTxpow chMask redundancy
  let s := if result = 0x7 then linkAdrApply s drTxpow chMask redundancy else s
  s.enqueue 0x03 [result]

/-- src/adr.c:109-117 `adr_handle_uplink`. -/
def adrHandleUplink (s : St) : St :=
  let cnt := s.adr.ackCnt + 1
  if s.session.dr ≠ 0 ∧ cnt.toNat > s.adr.ackLimit.toNat + s.adr.ackDelay.toNat then
    { s with session := { s.session with dr := s.session.dr - 1 }, adr := { s.adr with ackCnt := 0 } }
  else { s with adr := { s.adr with ackCnt := cnt } }

/-- src/adr.c:119-122 `adr_handle_downlink`. -/
def adrHandleDownlink (s : St) : St := { s with adr := { s.adr with ackCnt := 0 } }

/-! ## Command handlers of `src/mac.c` -/

/-- Values that application callbacks and the radio return while one radio event is handled.
`bat` is the battery level, a function of the number of unread FOpts bytes, so that several DevStatusReq in one frame can
see different values. -/
structure Oracle where
  rxData : Bytes
  rssi : BitVec 16
  snr : BitVec 8
  bat : Nat → Byte
  devTime : U32

/-- Names of the handler functions in the table src/mac.c:72-87. -/
inductive MacHandler where
  | linkCheck | linkAdr | dutyCycle | rxParamSetup | devStatus | newChannel | rxTimingSetup
  | txParamSetup | diChannel | deviceTime
  deriving DecidableEq, Repr

/-- One row of `mac_commands`. -/
structure MacCommand where
  handler : MacHandler
  cid : Byte
  pldSize : Nat
  deriving DecidableEq, Repr

/-- src/mac.c:72-87 `mac_commands`, with the sizes of src/mac.c:32-41 and the CIDs of
src/mac.h:31-40. -/
def macCommands : List MacCommand :=
  [ ⟨.linkCheck, 0x02, 2⟩, ⟨.linkAdr, 0x03, 4⟩, ⟨.dutyCycle, 0x04, 1⟩, ⟨.rxParamSetup, 0x05, 4⟩,
    ⟨.devStatus, 0x06, 0⟩, ⟨.newChannel, 0x07, 5⟩, ⟨.rxTimingSetup, 0x08, 1⟩,
    ⟨.txParamSetup, 0x09, 1⟩, ⟨.diChannel, 0x0A, 4⟩, ⟨.deviceTime, 0x0D, 5⟩ ]

/-- The C99-undefined shift `b << 24` happened iff `b >= 128`. -/
def shiftMark (b : Byte) : List Ev := if 128 ≤ b.toNat then [.ubShift] else []

/-- src/mac.c:89-98 `link_check`. -/
def hLinkCheck (s : St) (pld : Bytes) : Except UB (Bool × St × List Ev) :=
  match s.mac.cbs with
  | some cbs =>
    if cbs.linkCheck then
      match pld with
      | m :: g :: _ => .ok (true, s, [.linkCheckResult m g])
      | _ => .error .oob
    else .ok (true, s, [])
  | none => .ok (true, s, [])

/-- src/mac.c:100-103 `link_adr`.  `uw_region` is dereferenced (src/adr.c:88). -/
def hLinkAdr (s : St) (pld : Bytes) : Except UB (Bool × St × List Ev) :=
  match s.region, pld with
  | none, _ => .error .nullDeref
  | some _, a :: b :: c :: d :: _ =>
    let r := adrHandleLinkReq s a (or16 b c) d
    .ok (r.1, r.2, [])
  | some _, _ => .error .oob

/-- src/mac.c:105-109 `duty_cycle`. -/
def hDutyCycle (s : St) : Except UB (Bool × St × List Ev) :=
  let r := s.enqueue 0x04 []
  .ok (r.1, r.2, [])

/-- src/mac.c:117-127, the status byte of RXParamSetupAns. -/
def rxParamStatus (off rx2dr : Byte) (f : U32) : Byte :=
  let r : Byte := if isValidDr off.toNat then 0x4 else 0
  let r : Byte := if isValidDr rx2dr.toNat then r ||| 0x2 else r
  if isValidFrequency f then r ||| 0x1 else r

/-- src/mac.c:129-132. -/
def rxParamApply (s : St) (off rx2dr : Byte) (f : U32) : St :=
  (setRx2 (setRx1DrOffset s off).2 f rx2dr.toNat).2

/-- src/mac.c:111-136 `rx_param_setup`. -/
def hRxParamSetup (s : St) (pld : Bytes) : Except UB (Bool × St × List Ev) :=
  match pld with
  | dl :: a :: b :: c :: _ =>
    let off : Byte := (dl >>> 4) &&& 7
    let rx2dr : Byte := dl &&& 0xf
    let f : U32 := or24 a b c * 100
    let result := rxParamStatus off rx2dr f
    let s := if result = 7 then rxParamApply s off rx2dr f else s
    let r := s.enqueue 0x05 [result]
    .ok (r.1, r.2, [])
  | _ => .error .oob

/-- src/mac.c:138-149 `dev_status`; `bat` is what `get_battery_level` returns. -/
def hDevStatus (s : St) (bat : Byte) : Except UB (Bool × St × List Ev) :=
  let margin : Byte := s.snr &&& 0x3f
  match s.mac.cbs with
  | some cbs =>
    if cbs.battery then
      let r := s.enqueue 0x06 [bat, margin]
      .ok (r.1, r.2, [.getBattery])
    else
      let r := s.enqueue 0x06 [255, margin]
      .ok (r.1, r.2, [])
  | none =>
    let r := s.enqueue 0x06 [255, margin]
    .ok (r.1, r.2, [])

/-- src/mac.c:156-167: the status byte of NewChannelAns and the new channel table. -/
def newChannelRes (c : Chan) (idx : Byte) (f : U32) (drRange : Byte) : Byte × Chan :=
  let r : Byte := if isValidFrequency f then 0x1 else 0
  let r : Byte := if drRange = 0x50 then r ||| 0x2 else r
  if r = 3 then
    let t := setChannel c idx.toNat f
    (if t.1 ≠ .no then 0 else r, t.2)
  else (r, c)

/-- src/mac.c:151-170 `new_channel`. -/
def hNewChannel (s : St) (pld : Bytes) : Except UB (Bool × St × List Ev) :=
  match pld with
  | idx :: a :: b :: c :: drRange :: _ =>
    let t := newChannelRes s.chan idx (or24 a b c * 100) drRange
    let r := { s with chan := t.2 }.enqueue 0x07 [t.1]
    .ok (r.1, r.2, [])
  | _ => .error .oob

/-- src/mac.c:172-183 `rx_timing_setup`. -/
def hRxTimingSetup (s : St) (pld : Bytes) : Except UB (Bool × St × List Ev) :=
  match pld with
  | a :: _ =>
    let d : Byte := a &&& 0xf
    let d : Byte := if d = 0 then 1 else d
    let s := (setRx1Delay s d).2
    let r := s.enqueue 0x08 []
    .ok (r.1, r.2, [])
  | _ => .error .oob

/-- src/mac.c:185-196 `device_time`. -/
def hDeviceTime (s : St) (pld : Bytes) : Except UB (Bool × St × List Ev) :=
  match s.mac.cbs with
  | some cbs =>
    if cbs.timeResult then
      match pld with
      | a :: b :: c :: d :: frac :: _ =>
        .ok (true, s, shiftMark d ++ [.deviceTimeResult s.mac.devTime (gpsToUnix (or32 a b c d)) frac])
      | _ => .error .oob
    else .ok (true, s, [])
  | none => .ok (true, s, [])

/-- Dispatch of a handler; `pld` is the memory from the pointer `start` to the end of the FOpts
field (reading past it is an out-of-bounds access), `bat` is what the battery callback returns.
src/mac.c:198-206: `tx_param_setup` and `di_channel` do nothing. -/
def runHandler (h : MacHandler) (s : St) (pld : Bytes) (bat : Byte) : Except UB (Bool × St × List Ev) :=
  match h with
  | .linkCheck => hLinkCheck s pld
  | .linkAdr => hLinkAdr s pld
  | .dutyCycle => hDutyCycle s
  | .rxParamSetup => hRxParamSetup s pld
  | .devStatus => hDevStatus s bat
  | .newChannel => hNewChannel s pld
  | .rxTimingSetup => hRxTimingSetup s pld
  | .txParamSetup => .ok (true, s, [])
  | .diChannel => .ok (true, s, [])
  | .deviceTime => hDeviceTime s pld

/-- src/mac.c:231-254, the loop of `mac_handle_commands`; the list is the memory from `start` to `end`.
The first argument bounds the number of iterations; running out of it would be an endless loop. -/
def macLoop (bat : Nat → Byte) : Nat → St → Bytes → Except UB (St × List Ev)
  | _, s, [] => .ok (s, [])
  | 0, _, _ :: _ => .error .diverge
  | n + 1, s, cid :: rest =>
    match macCommands.find? (fun c => c.cid == cid) with
    | none => .ok (s, [])
    | some c =>
      if c.pldSize ≤ rest.length then do
        let (ok, s', ev) ← runHandler c.handler s rest (bat rest.length)
        if ok then
          let (s'', ev') ← macLoop bat n s' (rest.drop c.pldSize)
          .ok (s'', ev ++ ev')
        else .ok (s', ev)
      else .ok (s, [])

/-- src/mac.c:231-254 `mac_handle_commands`. -/
def macHandleCommands (bat : Nat → Byte) (s : St) (buf : Bytes) : Except UB (St × List Ev) :=
  macLoop bat buf.length s buf

/-- src/mac.c:218-223 `uwan_mac_device_time_req`. -/
def macDeviceTimeReq (m : Mac) : Bool × Mac :=
  let r := macEnqueue m 0x0D []
  (r.1, { r.2 with saveDevTime := r.1 })

/-- src/mac.c:225-229 `mac_init`. -/
def macInit (m : Mac) : Mac := { m with queue := [], saveDevTime := false }

/-- src/mac.c:272-279 `mac_on_tx_complete`; `t` is what `get_device_time` returns. `mac_cbs` is dereferenced
without a null check. -/
def macOnTxComplete (m : Mac) (t : U32) : Except UB (Mac × List Ev) :=
  if m.saveDevTime then
    match m.cbs with
    | none => .error .nullDeref
    | some cbs =>
      if cbs.getTime then .ok ({ m with saveDevTime := false, devTime := t }, [.getDeviceTime])
      else .ok ({ m with saveDevTime := false }, [])
  else .ok (m, [])

/-- src/mac.c:286-297 `mac_get_payload`: the bytes copied and the new queue. -/
def macGetPayload (m : Mac) (bufSize : Nat) : Bytes × Mac :=
  if m.queue.length ≤ bufSize then (m.queue, { m with queue := [] }) else ([], m)

end Uwan
