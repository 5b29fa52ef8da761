import Verif.Model.Stack

/-!
# The repository's unit tests, replayed on the model

These are tests of the model's fidelity to the code (same inputs and expected values as in
/repo/tests), not proofs of properties.
-/

namespace Uwan.Tests

/-- tests/test_stack.c:203-245: XOR "cipher", CMAC digest = key. -/
def xorEnv : Env where
  aes k b := Vector.zipWith (· ^^^ ·) b k
  cmac k _ := k

def devEui : Vector Byte 8 := #v[0, 1, 2, 3, 4, 5, 6, 7]
def appEui : Vector Byte 8 := #v[0x11, 0x22, 0x33, 0x44, 0x55, 0x66, 0x77, 0x88]
def appKey : Block := #v[4, 5, 6, 7, 4, 5, 6, 7, 4, 5, 6, 7, 4, 5, 6, 7]

/-- An oracle delivering `d` with RSSI -120 and SNR -5. -/
def rxOf (d : Bytes) : Oracle := ⟨d, BitVec.ofInt 16 (-120), BitVec.ofInt 8 (-5), fun _ => 0x64, 0⟩

def joinAccept : Bytes :=
  [0x20, 0x05, 0x07, 0x05, 0xad, 0xbf, 0xc9, 0x06, 0x06, 0x06, 0x06, 0x06, 0x06, 0, 0, 0, 0]

def rnd : Nat := 0x01234567

def joinOps : List Op :=
  [.init .eu868, .setDr 5, .setTxPower 1, .setOtaaKeys devEui appEui appKey, .join rnd rnd,
   .event 4 (rxOf []), .timer .rx1, .event 2 (rxOf joinAccept)]

/-- The transmitted frames of a history. -/
def txOf : Except UB (St × List Ev) → List Bytes
  | .ok (_, ev) => ev.filterMap fun | .tx d => some d | _ => none
  | .error _ => []

def cbOf : Except UB (St × List Ev) → List (Err × Byte × DlPkt)
  | .ok (_, ev) => ev.filterMap fun | .downlink e m p => some (e, m, p) | _ => none
  | .error _ => []

def stOf : Except UB (St × List Ev) → St
  | .ok (s, _) => s
  | .error _ => .boot

-- tests/test_stack.c:264-310 test_join_successfull
example : txOf (run xorEnv .boot joinOps) =
    [[0x00, 0x11, 0x22, 0x33, 0x44, 0x55, 0x66, 0x77, 0x88, 0x07, 0x06, 0x05, 0x04, 0x03, 0x02, 0x01, 0x00,
      0x67, 0x45, 0x04, 0x05, 0x06, 0x07]] := by decide +kernel
example : (cbOf (run xorEnv .boot joinOps)).map (fun x => (x.1, x.2.1, x.2.2.rssi.toInt, x.2.2.snr.toInt)) =
    [(.no, 1, -120, -5)] := by decide +kernel
example : (stOf (run xorEnv .boot joinOps)).session.isJoined = true := by decide +kernel

-- tests/test_stack.c:312-325 test_send_uplink_fail
example : (match run xorEnv .boot joinOps with
    | .ok (s, _) => (match sendFrame xorEnv s 4 (List.replicate 223 0) true rnd with
        | .ok (e, _, _) => some e | _ => none)
    | _ => none) = some .msgLen := by decide +kernel

-- tests/test_stack.c:327-354 test_send_uplink_successfull and the final assertions
example : (txOf (run xorEnv .boot (joinOps ++ [.send 4 [0, 1, 2, 3] false rnd]))).getLast? =
    some [0x40, 0x00, 0x01, 0x02, 0x03, 0x00, 0x00, 0x00, 4, 0x07, 0x05, 0x06, 0x07,
          0x05, 0x04, 0x04, 0x04] := by decide +kernel
def radioView : Ev → Option (Nat × Int)
  | .setFrequency f => some (f.toNat, 0)
  | .setPower p => some (0, p.toInt)
  | .setup p => if p.sf = .sf7 ∧ p.bw = .bw125 ∧ p.cr = .cr45 then some (1, 1) else none
  | _ => none
def evOf : Except UB (St × List Ev) → List Ev
  | .ok (_, ev) => ev
  | .error _ => []
example : (evOf (run xorEnv .boot (joinOps ++ [.send 4 [0, 1, 2, 3] false rnd]))).filterMap radioView =
    [(868300000, 0), (1, 1), (0, 12), (1, 1), (868300000, 0), (1, 1), (0, 12)] := by decide +kernel

-- tests/test_mac.c:80-140.  The test runs with an all-zero region, so its LinkADRReq is answered by a stub; here the
-- LinkADRReq is left out, the SNR is -10 and DeviceTime goes through the real conversion.
def macPld : Bytes :=
  [0x02, 0x0a, 0x01, 0x04, 0x00, 0x05, 0x12, 0x40, 0x72, 0x84, 0x06,
   0x07, 0x03, 0x40, 0x72, 0x84, 0x50, 0x07, 0x04, 0x40, 0x72, 0x84, 0x41, 0x08, 0x00, 0x09, 0x00,
   0x0A, 0x00, 0x40, 0x72, 0x84, 0x0D, 0xf8, 0xca, 0xd4, 0x53, 0xaa]
def macSt : St := { (uwanInit .boot .eu868).1 with
  snr := BitVec.ofInt 8 (-10), mac := ⟨[], false, 0, some ⟨true, true, true, true⟩⟩ }
def macRes : St × List Ev :=
  match macHandleCommands (fun _ => 0x64) macSt macPld with | .ok x => x | .error _ => (.boot, [])
example : macRes.1.mac.queue =
    [0x04, 0x05, 0x07, 0x06, 0x64, 0x36, 0x07, 0x03, 0x07, 0x01, 0x08] := by decide +kernel
example : macRes.2 = [.linkCheckResult 0x0a 0x01, .getBattery, .deviceTimeResult 0 1722419302 0xaa] := by
  decide +kernel
example : (macRes.1.rx1Offset, macRes.1.defaultRx1Delay, macRes.1.rx2Freq, macRes.1.rx2Dr) =
    (1, 1000, 868000000, 2) := by decide +kernel
example : ((macDeviceTimeReq (macRes.1.enqueue 0x02 []).2.mac).2.queue) =
    [0x04, 0x05, 0x07, 0x06, 0x64, 0x36, 0x07, 0x03, 0x07, 0x01, 0x08, 0x02, 0x0D] := by decide +kernel

-- tests/test_adr.c:80-124
def adrSt : St :=
  let s := (uwanInit .boot .eu868).1
  { s with session := { s.session with dr := 5 }, adr := ⟨0, 2, 2, true⟩ }
example : adrGetReqBit adrSt = false := by decide +kernel
example : adrGetReqBit (adrHandleUplink (adrHandleUplink adrSt)) = true := by decide +kernel
def adrSt5 : St := (adrHandleUplink ∘ adrHandleUplink ∘ adrHandleUplink ∘ adrHandleUplink ∘ adrHandleUplink) adrSt
example : adrSt5.session.dr = 4 ∧ adrGetReqBit adrSt5 = false := by decide +kernel
def adrSt7 : St := adrHandleUplink (adrHandleUplink adrSt5)
example : adrGetReqBit adrSt7 = true ∧ adrGetReqBit (adrHandleDownlink adrSt7) = false := by decide +kernel
example : (adrHandleLinkReq adrSt7 0x21 0x3 0x03).2.mac.queue = [0x03, 0x07] := by decide +kernel
example : let s := (adrHandleLinkReq adrSt7 0x21 0x3 0x03).2
    (s.session.dr, s.txPower, s.nbTrans) = (2, 1, 3) := by decide +kernel

-- tests/test_channels.c:25-52 (there the stubbed random function returns the start index itself; 8 is out of range
-- for `rand() % 8`, its search starts at index 0 here)
def ch0 : Chan := St.boot.chan
def ch2 : Chan := (setChannel (setChannel ch0 3 869100000).2 7 868800000).2
example : channelsGetNext ch0 5 = .ok 0 := by decide +kernel
example : channelsGetNext ch2 5 = .ok 868800000 := by decide +kernel
example : channelsGetNext ch2 8 = .ok 869100000 := by decide +kernel
example : (setChannel ch2 16 868800000).1 = .channel := by decide +kernel

end Uwan.Tests
