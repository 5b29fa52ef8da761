import Verif.Model.Mac

/-! # `src/stack.c` -/

namespace Uwan

/-- src/stack.c:77-84 `uw_dr_table`; `none` is an index outside the table. -/
def drTable : Nat → Option (Sf × Bw)
  | 0 => some (.sf12, .bw125)
  | 1 => some (.sf11, .bw125)
  | 2 => some (.sf10, .bw125)
  | 3 => some (.sf9, .bw125)
  | 4 => some (.sf8, .bw125)
  | 5 => some (.sf7, .bw125)
  | _ => none

/-- src/stack.c:86-88 `uw_tx_power_table`; `none` is an index outside the table. -/
def txPowerTable (i : Nat) : Option Nat := [0, 2, 4, 6, 8, 10, 12, 14][i]?

/-- src/stack.c:90-92 `uw_max_app_pld_size`. -/
def maxAppPldSize (i : Nat) : Option Nat := [51, 51, 51, 115, 222, 222][i]?

/-- src/stack.c:125-129 `apply_tx_power`: the `int8_t` argument passed to `radio->set_power`, whose result is
ignored. -/
def applyTxPower (s : St) : Except UB (List Ev) := do
  let p ← orOob (txPowerTable s.txPower.toNat)
  .ok [.setPower (BitVec.ofInt 8 (s.maxEirp.toInt - (p : Int)))]

/-- src/stack.c:131-137 `get_current_dr`. -/
def currentDr (s : St) : Nat := if s.adr.enabled then s.session.dr else s.defaultDr

/-- src/stack.c:148-164,169, the block `Ai`. -/
def aBlock (dir : Byte) (addr fcnt : U32) (i : Byte) : Block :=
  #v[0x01, 0x00, 0x00, 0x00, 0x00, dir,
     byteOf addr 0, byteOf addr 1, byteOf addr 2, byteOf addr 3,
     byteOf fcnt 0, byteOf fcnt 1, byteOf fcnt 2, byteOf fcnt 3, 0x00, i]

/-- src/stack.c:195-210, the block `B0`. -/
def b0Block (dir : Byte) (addr fcnt : U32) (msgLen : Byte) : Block :=
  #v[0x49, 0x00, 0x00, 0x00, 0x00, dir,
     byteOf addr 0, byteOf addr 1, byteOf addr 2, byteOf addr 3,
     byteOf fcnt 0, byteOf fcnt 1, byteOf fcnt 2, byteOf fcnt 3, 0x00, msgLen]

/-- src/stack.c:168-178, the loop of `encrypt_payload`; the first argument (an upper bound for the number of
iterations) is the payload size; every iteration consumes at least one byte, so it never runs
out. -/
def encLoop (aes : Block → Block) (dir : Byte) (addr fcnt : U32) : Nat → Byte → Bytes → Bytes × List Ev
  | _, _, [] => ([], [])
  | 0, _, l => (l, [])
  | n + 1, i, b :: l =>
    let a := aBlock dir addr fcnt i
    let sBlk := aes a
    let chunk := (b :: l).take 16
    let r := encLoop aes dir addr fcnt n (i + 1) ((b :: l).drop 16)
    (List.zipWith (· ^^^ ·) chunk sBlk.toList ++ r.1, .aesEncrypt a :: r.2)

/-- src/stack.c:139-181 `encrypt_payload`. -/
def encryptPayload (E : Env) (ss : Session) (buf : Bytes) (key : Block) (dir : Byte) : Bytes × List Ev :=
  let fcnt := if dir ≠ 0 then ss.fCntDown else ss.fCntUp
  let r := encLoop (E.aes key) dir ss.devAddr fcnt buf.length 1 buf
  (r.1, .aesNew key :: r.2 ++ [.aesDel])

/-- src/stack.c:183-220 `calc_mic`: the first 4 bytes of the CMAC. `msg_len` is a `uint8_t`. -/
def calcMic (E : Env) (ss : Session) (msg : Bytes) (key : Block) (dir : Byte) (b0 : Bool) :
    Bytes × List Ev :=
  let fcnt := if dir ≠ 0 then ss.fCntDown else ss.fCntUp
  let pre : Bytes := if b0 then (b0Block dir ss.devAddr fcnt (BitVec.ofNat 8 msg.length)).toList else []
  ((E.cmac key (pre ++ msg)).toList.take 4,
   .cmacNew key :: (if b0 then [.cmacUpdate pre] else []) ++ [.cmacUpdate msg, .cmacFinish, .cmacDel])

/-- src/stack.c:222-241 `derive_session_key`. -/
def deriveSessionKey (E : Env) (appKey : Block) (keyType : Byte) (appNonce netId devNonce : U32) :
    Block × List Ev :=
  let k : Block :=
    #v[keyType, byteOf appNonce 0, byteOf appNonce 1, byteOf appNonce 2,
       byteOf netId 0, byteOf netId 1, byteOf netId 2, byteOf devNonce 0, byteOf devNonce 1,
       0, 0, 0, 0, 0, 0, 0]
  (E.aes appKey k, [.aesNew appKey, .aesEncrypt k, .aesDel])

/-- src/stack.c:544-557 `uwan_set_session`. -/
def setSession (s : St) (addr up down : U32) (nwk app : Block) : St :=
  { s with session :=
    { isJoined := true, ackRequired := false, dr := s.defaultDr, devAddr := addr, fCntUp := up,
      fCntDown := down, nwkSKey := nwk, appSKey := app } }

/-- src/stack.c:290-303: DLSettings and RxDelay of a join-accept. -/
def joinRxParams (s : St) (dl dly : Byte) : St :=
  let off : Byte := (dl >>> 4) &&& 7
  let rx2dr : Byte := dl &&& 0xf
  let s := if isValidDr off.toNat then { s with rx1Offset := off } else s
  let s := if isValidDr rx2dr.toNat then { s with rx2Dr := rx2dr.toNat } else s
  let d : Byte := dly &&& 0xf
  let d : Byte := if d = 0 then 1 else d
  { s with defaultRx1Delay := BitVec.ofNat 32 (d.toNat * 1000) }

/-- src/stack.c:305-306: the CFList; `rest` is `buf + offset`. -/
def joinCflist (s : St) (cflist : Bool) (rest : Bytes) : Except UB Chan :=
  if cflist then
    match s.region with
    | none => .error .nullDeref
    | some r => handleCflist r rest s.chan
  else .ok s.chan

/-- src/stack.c:276-317, the part of `handle_join_msg` after the MIC check; `buf` is the decrypted message. -/
def joinAccepted (E : Env) (s : St) (buf : Bytes) (cflist : Bool) : Except UB (St × List Ev) :=
  match buf with
  | _ :: n0 :: n1 :: n2 :: i0 :: i1 :: i2 :: a0 :: a1 :: a2 :: a3 :: dl :: dly :: rest => do
    let appNonce := or24 n0 n1 n2
    let netId := or24 i0 i1 i2
    let addr := or32 a0 a1 a2 a3
    let s := joinRxParams s dl dly
    let chan ← joinCflist s cflist rest
    let s := { s with chan := chan }
    let nwk := deriveSessionKey E s.appKey 0x01 appNonce netId s.devNonce
    let app := deriveSessionKey E s.appKey 0x02 appNonce netId s.devNonce
    .ok (setSession s addr 0 0 nwk.1 app.1, shiftMark a3 ++ nwk.2 ++ app.2)
  | _ => .error .oob

/-- src/stack.c:263-270: in-place "encryption" of one or two blocks; `body` is the memory from `buf + 1`. -/
def joinDecrypt (E : Env) (key : Block) (body : Bytes) (cflist : Bool) : Except UB (Bytes × List Ev) := do
  let blk1 ← orOob (toBlock? body)
  if cflist then
    let blk2 ← orOob (toBlock? (body.drop 16))
    .ok ((E.aes key blk1).toList ++ (E.aes key blk2).toList,
         [.aesNew key, .aesEncrypt blk1, .aesEncrypt blk2, .aesDel])
  else .ok ((E.aes key blk1).toList, [.aesNew key, .aesEncrypt blk1, .aesDel])

/-- src/stack.c:272-317: MIC check and the rest; `buf` is the decrypted message. -/
def joinFinish (E : Env) (s : St) (pkt : DlPkt) (buf : Bytes) (cflist : Bool) :
    Except UB (Err × St × DlPkt × List Ev) :=
  let mic := calcMic E s.session (buf.take (buf.length - 4)) s.appKey 0 false
  if buf.drop (buf.length - 4) ≠ mic.1 then .ok (.msgMic, s, pkt, mic.2)
  else do
    let (s, ev) ← joinAccepted E s buf cflist
    .ok (.no, s, pkt, mic.2 ++ ev)

/-- src/stack.c:243-318 `handle_join_msg`. `pkt.data` points to `uw_frame`, so decryption also changes
`s.frame`. -/
def handleJoinMsg (E : Env) (s : St) (pkt : DlPkt) : Except UB (Err × St × DlPkt × List Ev) :=
  match pkt.data with
  | none => .error .nullDeref
  | some buf =>
    if buf.length ≠ 17 ∧ buf.length ≠ 33 then .ok (.msgLen, s, pkt, [])
    else
      match buf with
      | [] => .error .oob
      | mhdr :: body =>
        if mhdr ≠ 0x20 then .ok (.msgMhdr, s, pkt, [])
        else do
          let cflist : Bool := body.length = 32
          let (dec, ev1) ← joinDecrypt E s.appKey body cflist
          let frame ← orOob (blit s.frame 0 (mhdr :: dec))
          let (e, s, pkt, ev2) ←
            joinFinish E { s with frame := frame } { pkt with data := some (mhdr :: dec) } (mhdr :: dec) cflist
          .ok (e, s, pkt, ev1 ++ ev2)

/-- src/stack.c:363-381: the new `f_cnt_down`, `none` for `UWAN_ERR_FCNT`. -/
def nextFCntDown (cur : U32) (fcnt : U16) : Option U32 :=
  if cur = 0 then some (fcnt.setWidth 32)
  else
    let diff : U16 := fcnt - cur.setWidth 16
    if diff = 0 then none
    else if diff.toNat ≤ 16384 then some (cur + diff.setWidth 32)
    else some ((cur &&& 0xffff0000) + 0x10000 + fcnt.setWidth 32)

/-- src/stack.c:385-386: MAC commands in FOpts; `l` is the memory from `buf + offset`. -/
def dataCmds (bat : Nat → Byte) (s : St) (fo : Nat) (l : Bytes) : Except UB (St × List Ev) :=
  if fo > 0 then macHandleCommands bat s (l.take fo) else .ok (s, [])

/-- src/stack.c:390-396: port and payload; `n` is `pld_size`, `l` the memory from `buf + offset`. -/
def dataTail (pkt : DlPkt) (n : Nat) (l : Bytes) : Except UB (DlPkt × Option Bytes) :=
  if n > 0 then
    match l with
    | port :: more => .ok ({ pkt with fPort := port }, some (more.take (n - 1)))
    | [] => .error .oob
  else .ok (pkt, none)

/-- src/stack.c:398-414: MIC check and decryption; `pldOff` is where the payload starts in the frame. -/
def dataFinish (E : Env) (s : St) (pkt : DlPkt) (pld : Option Bytes) (buf : Bytes) (pldOff : Nat) :
    Except UB (Err × St × DlPkt × List Ev) :=
  let mic := calcMic E s.session (buf.take (buf.length - 4)) s.session.nwkSKey 1 true
  if buf.drop (buf.length - 4) ≠ mic.1 then .ok (.msgMic, s, pkt, mic.2)
  else
    match pld with
    | some (b :: l) => do
      let key := if pkt.fPort = 0 then s.session.nwkSKey else s.session.appSKey
      let e := encryptPayload E s.session (b :: l) key 1
      let frame ← orOob (blit s.frame pldOff e.1)
      .ok (.no, adrHandleDownlink { s with frame := frame }, { pkt with data := some e.1 }, mic.2 ++ e.2)
    | pld => .ok (.no, adrHandleDownlink s, { pkt with data := pld }, mic.2)

/-- src/stack.c:383-414: what follows the frame counter update. -/
def dataBody (E : Env) (bat : Nat → Byte) (s : St) (pkt : DlPkt) (buf rest : Bytes) (fo : Nat) :
    Except UB (Err × St × DlPkt × List Ev) := do
  let s := { s with snr := pkt.snr }
  let (s, ev1) ← dataCmds bat s fo rest
  let (pkt, pld) ← dataTail pkt (buf.length - (12 + fo)) (rest.drop fo)
  let (e, s, pkt, ev2) ← dataFinish E s pkt pld buf (8 + fo + 1)
  .ok (e, s, pkt, ev1 ++ ev2)

/-- src/stack.c:340-341: a confirmed downlink asks for an acknowledgement (before any check of address or MIC). -/
def markAck (s : St) (mtype : Byte) : St :=
  if mtype = 5 then { s with session := { s.session with ackRequired := true } } else s

/-- src/stack.c:320-415 `handle_data_msg`.  `pkt.data` points to `uw_frame`. -/
def handleDataMsg (E : Env) (bat : Nat → Byte) (s : St) (pkt : DlPkt) :
    Except UB (Err × St × DlPkt × List Ev) :=
  match pkt.data with
  | none => .error .nullDeref
  | some buf =>
    if buf.length < 12 then .ok (.msgLen, s, pkt, [])
    else
      match buf with
      | mhdr :: a0 :: a1 :: a2 :: a3 :: fctrl :: c0 :: c1 :: rest =>
        if (mhdr &&& 0x3) ≠ 0 then .ok (.msgMhdr, s, pkt, [])
        else
          let mtype : Byte := (mhdr >>> 5) &&& 7
          if mtype ≠ 3 ∧ mtype ≠ 5 then .ok (.msgMhdr, s, pkt, [])
          else
            let s := markAck s mtype
            let ev0 := shiftMark a3
            if s.session.devAddr ≠ or32 a0 a1 a2 a3 then .ok (.devAddr, s, pkt, ev0)
            else
              let fo : Nat := (fctrl &&& 0xf).toNat
              if buf.length < 12 + fo then .ok (.msgLen, s, pkt, ev0)
              else
                match nextFCntDown s.session.fCntDown (or16 c0 c1) with
                | none => .ok (.fcnt, s, pkt, ev0)
                | some d => do
                  let s := { s with session := { s.session with fCntDown := d } }
                  let (e, s, pkt, ev) ← dataBody E bat s pkt buf rest fo
                  .ok (e, s, pkt, ev0 ++ ev)
      | _ => .error .oob

/-- src/stack.c:417-440 `handle_downlink`. The radio writes at most `sizeof(uw_frame) = 255` bytes of the received
packet (drivers: src/device/sx127x.c, src/device/sx126x.c `read_packet`). -/
def handleDownlink (E : Env) (o : Oracle) (s : St) (err : Err) : Except UB (St × List Ev) :=
  if err = .no then do
    let data := o.rxData.take 255
    let frame ← orOob (blit s.frame 0 data)
    let s := { s with frame := frame }
    let pkt : DlPkt := ⟨some data, 0, o.rssi, o.snr⟩
    let hd ← orOob frame.head?
    let mtype : Byte := (hd >>> 5) &&& 7
    let (err, s, pkt, ev) ←
      if s.joinState then handleJoinMsg E s pkt else handleDataMsg E o.bat s pkt
    .ok ({ s with joinState := false },
         [.readPacket, .sleep] ++ ev ++ [.downlink err mtype pkt])
  else
    .ok ({ s with joinState := false }, [.sleep, .downlink err 0 ⟨none, 0, 0, 0⟩])

/-- Radio event bits, include/uwan/stack.h:117-122. -/
def irqRxTimeout (m : Byte) : Bool := (m &&& 0x1) != 0
/-- see `irqRxTimeout` -/
def irqRxDone (m : Byte) : Bool := (m &&& 0x2) != 0
/-- see `irqRxTimeout` -/
def irqTxDone (m : Byte) : Bool := (m &&& 0x4) != 0
/-- see `irqRxTimeout` -/
def irqCrcError (m : Byte) : Bool := (m &&& 0x8) != 0

/-- src/stack.c:454-464: packet parameters for the first window. -/
def rx1Params (s : St) : Except UB PktParams :=
  if s.rx1Offset ≠ 0 then do
    let cur := currentDr s
    let dr := if s.rx1Offset.toNat > cur then 0 else cur - s.rx1Offset.toNat
    let (sf, bw) ← orOob (drTable dr)
    .ok { s.pp with sf := sf, bw := bw, invertedIq := true }
  else .ok { s.pp with invertedIq := true }

/-- src/stack.c:448-471, `evt_handler` in state TX. -/
def evtTx (o : Oracle) (s : St) (mask : Byte) : Except UB (St × List Ev) :=
  if irqTxDone mask then do
    let pp ← rx1Params s
    let (mac, ev2) ← macOnTxComplete s.mac o.devTime
    .ok ({ s with phase := .rx1, pp := pp, mac := mac },
         [.startTimer .rx1 s.rx1Delay, .startTimer .rx2 s.rx2Delay, .setup pp] ++ ev2)
  else .ok (s, [])

/-- src/stack.c:473-492, `evt_handler` in state RX1. -/
def evtRx1 (E : Env) (o : Oracle) (s : St) (mask : Byte) : Except UB (St × List Ev) :=
  if irqRxTimeout mask then do
    let (sf, bw) ← orOob (drTable s.rx2Dr)
    let s := { s with phase := .rx2, pp := { s.pp with sf := sf, bw := bw, invertedIq := true } }
    .ok (s, [.setFrequency s.rx2Freq, .setup s.pp])
  else if irqRxDone mask then do
    let s := { s with phase := .idle }
    let (s, ev) ← handleDownlink E o s (if irqCrcError mask then .rxCrc else .no)
    .ok (s, .stopTimer .rx2 :: ev)
  else .ok (s, [])

/-- src/stack.c:494-506, `evt_handler` in state RX2. -/
def evtRx2 (E : Env) (o : Oracle) (s : St) (mask : Byte) : Except UB (St × List Ev) :=
  if irqRxTimeout mask then handleDownlink E o { s with phase := .idle } .rxTimeout
  else if irqRxDone mask then
    handleDownlink E o { s with phase := .idle } (if irqCrcError mask then .rxCrc else .no)
  else .ok (s, [])

/-- src/stack.c:442-511 `evt_handler`. -/
def evtHandler (E : Env) (o : Oracle) (s : St) (mask : Byte) : Except UB (St × List Ev) :=
  match s.phase with
  | .notInit | .idle => .ok (s, [])
  | .tx => evtTx o s mask
  | .rx1 => evtRx1 E o s mask
  | .rx2 => evtRx2 E o s mask

/-- src/stack.c:513-534 `uwan_init`. -/
def uwanInit (s : St) (r : Region) : St × List Ev :=
  let s := { s with phase := .idle, region := some r, session := .zero }
  let s := { s with mac := macInit s.mac, chan := channelsInit s.chan }
  let s := r.init s
  ({ s with pp := { s.pp with cr := .cr45, preambleLen := 8, crcOn := true, implicitHeader := false } },
   [.setEvtHandler, .radioRand])

/-- src/stack.c:599-614: the join-request in `uw_frame` and the crypto calls. -/
def buildJoin (E : Env) (s : St) (nonce : U32) : Bytes × List Ev :=
  let msg : Bytes :=
    0x00 :: (s.appEui.toList ++ s.devEui.toList.reverse ++ [byteOf nonce 0, byteOf nonce 1])
  let mic := calcMic E s.session msg s.appKey 0 false
  (msg ++ mic.1, mic.2)

/-- src/stack.c:578-621 `uwan_join`; `rnd1` and `rnd2` are the two `rand()` results. -/
def uwanJoin (E : Env) (s : St) (rnd1 rnd2 : Nat) : Except UB (Err × St × List Ev) :=
  if s.phase ≠ .idle then .ok (.state, s, [])
  else do
    let f ← channelsGetNext s.chan rnd1
    if f = 0 then .ok (.channel, s, [])
    else do
      let (sf, bw) ← orOob (drTable s.defaultDr)
      let s := { s with pp := { s.pp with sf := sf, bw := bw, invertedIq := false } }
      let evp ← applyTxPower s
      let nonce : U32 := BitVec.ofNat 32 (rnd2 % 65536)
      let jr := buildJoin E s nonce
      let frame ← orOob (blit s.frame 0 jr.1)
      let s := { s with
        session := { s.session with isJoined := false }
        joinState := true
        devNonce := nonce
        frame := frame
        rx1Delay := 5000
        rx2Delay := 5000 + 1000
        phase := .tx }
      .ok (.no, s, [.setFrequency f, .setup s.pp] ++ evp ++ jr.2 ++ [.tx jr.1])

/-- src/stack.c:623-637 `uwan_get_max_payload_size`. -/
def getMaxPayloadSize (s : St) : Nat :=
  let m := (maxAppPldSize (currentDr s)).getD 0
  if s.mac.queue.length ≤ m then m - s.mac.queue.length else 0

/-- src/stack.c:678-687, the FCtrl byte. -/
def fCtrl (s : St) : Byte :=
  let c : Byte := if s.adr.enabled then 0x80 else 0
  let c : Byte := if adrGetReqBit s then c ||| 0x40 else c
  let c : Byte := if s.session.ackRequired then c ||| 0x20 else c
  c ||| (BitVec.ofNat 8 s.mac.queue.length &&& 0xf)

/-- src/stack.c:667-702: the bytes written to `uw_frame` (`offset` of them at the end) and the crypto calls. -/
def buildUplink (E : Env) (s : St) (port : Byte) (pld : Bytes) (confirm : Bool) : Bytes × List Ev :=
  let mtype : Byte := if confirm then 4 else 2
  let ss := s.session
  let hdr : Bytes :=
    [mtype <<< 5, byteOf ss.devAddr 0, byteOf ss.devAddr 1, byteOf ss.devAddr 2, byteOf ss.devAddr 3,
     fCtrl s, byteOf ss.fCntUp 0, byteOf ss.fCntUp 1] ++ (macGetPayload s.mac 15).1
  let body : Bytes × List Ev :=
    if pld.length ≠ 0 then
      let e := encryptPayload E ss pld ss.appSKey 0
      (port :: e.1, e.2)
    else ([], [])
  let msg := hdr ++ body.1
  let mic := calcMic E ss msg ss.nwkSKey 0 true
  (msg ++ mic.1, body.2 ++ mic.2)

/-- src/stack.c:639-716 `uwan_send_frame`. `rnd` is the `rand()` result; `pld` is `payload[0..pld_len)`. -/
def sendFrame (E : Env) (s : St) (port : Byte) (pld : Bytes) (confirm : Bool) (rnd : Nat) :
    Except UB (Err × St × List Ev) :=
  if s.phase ≠ .idle then .ok (.state, s, [])
  else do
    let f ← channelsGetNext s.chan rnd
    if f = 0 then .ok (.channel, s, [])
    else if pld.length > getMaxPayloadSize s then .ok (.msgLen, s, [])
    else if pld.length = 0 ∧ s.mac.queue.length = 0 then .ok (.msgLen, s, [])
    else do
      let (sf, bw) ← orOob (drTable (currentDr s))
      let s := { s with pp := { s.pp with sf := sf, bw := bw, invertedIq := false } }
      let evp ← applyTxPower s
      let up := buildUplink E s port pld confirm
      let frame ← orOob (blit s.frame 0 up.1)
      let s := { s with
        frame := frame
        mac := (macGetPayload s.mac 15).2
        session := { s.session with ackRequired := false, fCntUp := s.session.fCntUp + 1 }
        rx1Delay := s.defaultRx1Delay
        rx2Delay := s.defaultRx1Delay + 1000
        phase := .tx }
      .ok (.no, adrHandleUplink s, [.setFrequency f, .setup s.pp] ++ evp ++ up.2 ++ [.tx up.1])

/-- src/stack.c:718-726 `uwan_timer_callback`. -/
def timerCallback (s : St) (id : TimerId) : St × List Ev :=
  if s.phase = .rx1 ∧ id = .rx1 then (s, [.rx 255 8 0])
  else if s.phase = .rx2 ∧ id = .rx2 then (s, [.rx 255 8 0])
  else (s, [])

/-- src/stack.c:728-732 `uwan_set_dr`. -/
def setDr (s : St) (dr : Nat) : St :=
  if isValidDr dr then { s with defaultDr := dr, session := { s.session with dr := dr } } else s

/-- src/stack.c:734-742 `uwan_set_nb_trans`. -/
def setNbTrans (s : St) (n : Byte) : Bool × St :=
  let r := setNbTransInt s n
  if r.1 then (true, { r.2 with defaultNbTrans := n }) else (false, s)

/-- src/stack.c:749-757 `uwan_set_tx_power`. -/
def setTxPower (s : St) (p : Byte) : Bool × St :=
  let r := setTxPowerInt s p
  if r.1 then (true, { r.2 with defaultTxPower := p }) else (false, s)

/-! ## Operations and histories -/

/-- Everything that can happen to the stack: public API calls (include/uwan/stack.h:196-360), the timer callback and
radio events (`evt_handler`, reached through the radio driver's `irq_handler`).  `Nat` arguments named `rnd` are
`rand()` results; `dr : Nat` arguments are `enum uwan_dr` values. -/
inductive Op where
  | init (r : Region)
  | setOtaaKeys (devEui appEui : Vector Byte 8) (appKey : Block)
  | setSession (addr up down : U32) (nwk app : Block)
  | enableChannel (index : Byte) (en : Bool)
  | setChannel (index : Byte) (f : U32)
  | setRx2 (f : U32) (dr : Nat)
  | join (rnd1 rnd2 : Nat)
  | send (port : Byte) (pld : Bytes) (confirm : Bool) (rnd : Nat)
  | timer (id : TimerId)
  | event (mask : Byte) (o : Oracle)
  | setDr (dr : Nat)
  | setNbTrans (n : Byte)
  | setMaxEirp (e : BitVec 8)
  | setTxPower (p : Byte)
  | setRx1DrOffset (off : Byte)
  | setRx1Delay (d : Byte)
  | adrEnable (en : Bool)
  | adrSetupAck (limit delay : Byte)
  | macSetHandlers (cbs : Option MacCbs)
  | linkCheckReq
  | deviceTimeReq
  | isJoined
  | getMaxPayload

/-- What a call returns. -/
inductive Ret where
  | unit
  | err (e : Err)
  | bool (b : Bool)
  | nat (n : Nat)
  deriving DecidableEq, Repr

/-- One operation: return value, new state, effects; or undefined behaviour. -/
def step (E : Env) (s : St) : Op → Except UB (Ret × St × List Ev)
  | .init r => let x := uwanInit s r; .ok (.unit, x.1, x.2)
  -- src/stack.c:536-542
  | .setOtaaKeys d a k => .ok (.unit, { s with devEui := d, appEui := a, appKey := k }, [])
  | .setSession a u d n k => .ok (.unit, setSession s a u d n k, [])
  | .enableChannel i en => let x := enableChannel s.chan i.toNat en; .ok (.err x.1, { s with chan := x.2 }, [])
  | .setChannel i f => let x := setChannel s.chan i.toNat f; .ok (.err x.1, { s with chan := x.2 }, [])
  | .setRx2 f dr => let x := setRx2 s f dr; .ok (.err x.1, x.2, [])
  | .join r1 r2 => do let (e, s', ev) ← uwanJoin E s r1 r2; .ok (.err e, s', ev)
  | .send p l c r => do let (e, s', ev) ← sendFrame E s p l c r; .ok (.err e, s', ev)
  | .timer id => let x := timerCallback s id; .ok (.unit, x.1, x.2)
  | .event m o => do let (s', ev) ← evtHandler E o s m; .ok (.unit, s', ev)
  | .setDr dr => .ok (.unit, setDr s dr, [])
  | .setNbTrans n => let x := setNbTrans s n; .ok (.bool x.1, x.2, [])
  -- src/stack.c:744-747
  | .setMaxEirp e => .ok (.unit, { s with maxEirp := e }, [])
  | .setTxPower p => let x := setTxPower s p; .ok (.bool x.1, x.2, [])
  | .setRx1DrOffset o => let x := setRx1DrOffset s o; .ok (.bool x.1, x.2, [])
  | .setRx1Delay d => let x := setRx1Delay s d; .ok (.bool x.1, x.2, [])
  | .adrEnable en => .ok (.unit, { s with adr := adrEnable s.adr en }, [])
  | .adrSetupAck l d => .ok (.unit, { s with adr := adrSetupAck s.adr l d }, [])
  -- src/mac.c:208-211
  | .macSetHandlers c => .ok (.unit, { s with mac := { s.mac with cbs := c } }, [])
  -- src/mac.c:213-216
  | .linkCheckReq => let x := s.enqueue 0x02 []; .ok (.bool x.1, x.2, [])
  | .deviceTimeReq => let x := macDeviceTimeReq s.mac; .ok (.bool x.1, { s with mac := x.2 }, [])
  -- src/stack.c:559-562
  | .isJoined => .ok (.bool s.session.isJoined, s, [])
  | .getMaxPayload => .ok (.nat (getMaxPayloadSize s), s, [])

/-- A history: operations run one after the other; the effects are concatenated. -/
def run (E : Env) (s : St) : List Op → Except UB (St × List Ev)
  | [] => .ok (s, [])
  | op :: ops => do
    let (_, s', ev) ← step E s op
    let (s'', ev') ← run E s' ops
    .ok (s'', ev ++ ev')

end Uwan
