import Verif.Model.Types

/-!
# LoRaWAN 1.0 frames, as the network sees them

An independent description (LoRaWAN 1.0.x specification, sections 4 and 6) with natural-number arithmetic. It shares with the
model only the type of bytes and blocks and the crypto primitives `Env`.
-/

namespace Spec
open Uwan (Byte Bytes Block Env)

/-- The number written little-endian in a byte string. -/
def leNat : Bytes → Nat
  | [] => 0
  | b :: l => b.toNat + 256 * leNat l

/-- `x` written little-endian in `n` bytes. -/
def leBytes : Nat → Nat → Bytes
  | 0, _ => []
  | n + 1, x => BitVec.ofNat 8 x :: leBytes n (x / 256)

/-- Sixteen bytes given as a list, as a cipher block. -/
def blockOf (l : Bytes) : Block := Vector.ofFn fun i => l.getD i 0

/-- The fields of a data frame (section 4). -/
structure DataFrame where
  mtype : Nat
  rfu : Nat
  major : Nat
  devAddr : Nat
  adr : Bool
  adrAckReq : Bool
  ack : Bool
  fPending : Bool
  fCnt : Nat
  fOpts : Bytes
  port : Option Nat
  payload : Bytes
  mic : Bytes

/-- Read a data frame: MHDR, DevAddr, FCtrl, FCnt, FOpts, FPort, FRMPayload, MIC. -/
def parse (l : Bytes) : Option DataFrame :=
  let mhdr := leNat (l.take 1)
  let fctrl := leNat ((l.drop 5).take 1)
  let n := fctrl % 16
  if l.length < 12 + n then none
  else
    let tail := (l.drop (8 + n)).take (l.length - 12 - n)
    some
      { mtype := mhdr / 32
        rfu := mhdr / 4 % 8
        major := mhdr % 4
        devAddr := leNat ((l.drop 1).take 4)
        adr := fctrl / 128 % 2 = 1
        adrAckReq := fctrl / 64 % 2 = 1
        ack := fctrl / 32 % 2 = 1
        fPending := fctrl / 16 % 2 = 1
        fCnt := leNat ((l.drop 6).take 2)
        fOpts := (l.drop 8).take n
        port := tail.head?.map (·.toNat)
        payload := tail.drop 1
        mic := l.drop (l.length - 4) }

/-- Section 4.3.3.1: the block A_i. -/
def blockA (dir addr cnt i : Nat) : Block :=
  blockOf ([1, 0, 0, 0, 0, BitVec.ofNat 8 dir] ++ leBytes 4 addr ++ leBytes 4 cnt ++ [0, BitVec.ofNat 8 i])

/-- Section 4.3.3.1: encryption and decryption of FRMPayload; byte `k` is combined with byte `k mod 16` of the encrypted
block number `k / 16 + 1`. -/
def crypt (E : Env) (key : Block) (dir addr cnt : Nat) (l : Bytes) : Bytes :=
  l.mapIdx fun k b => b ^^^ (E.aes key (blockA dir addr cnt (k / 16 + 1)))[k % 16]'(Nat.mod_lt _ (by decide))

/-- Section 4.4: the block B0 for a message of `len` bytes. -/
def bytesB0 (dir addr cnt len : Nat) : Bytes :=
  [0x49, 0, 0, 0, 0, BitVec.ofNat 8 dir] ++ leBytes 4 addr ++ leBytes 4 cnt ++ [0, BitVec.ofNat 8 len]

/-- Section 4.4: the MIC of a data message. -/
def dataMic (E : Env) (key : Block) (dir addr cnt : Nat) (msg : Bytes) : Bytes :=
  (E.cmac key (bytesB0 dir addr cnt msg.length ++ msg)).toList.take 4

/-- Everything in front of the MIC. -/
def signed (l : Bytes) : Bytes := l.take (l.length - 4)

/-- A data downlink as the network server builds it. `hi` are the four high bits of FCtrl (ADR, RFU, ACK, FPending), `port` and
`pld` the port and clear-text payload, if any. -/
structure Downlink where
  confirmed : Bool
  rfu : Nat
  hi : Nat
  fOpts : Bytes
  body : Option (Byte × Bytes)

/-- FPort and encrypted FRMPayload, if any. -/
def Downlink.tail (D : Downlink) (E : Env) (nwk app : Block) (addr cnt : Nat) : Bytes :=
  match D.body with
  | none => []
  | some (port, pld) => port :: crypt E (if port = 0 then nwk else app) 1 addr cnt pld

/-- Sections 4.1-4.3: MHDR | DevAddr | FCtrl | FCnt | FOpts | FPort | encrypted FRMPayload. -/
def Downlink.msg (D : Downlink) (E : Env) (nwk app : Block) (addr cnt : Nat) : Bytes :=
  [BitVec.ofNat 8 ((if D.confirmed then 5 else 3) * 32 + D.rfu % 8 * 4)] ++ leBytes 4 addr ++
    [BitVec.ofNat 8 (D.hi % 16 * 16 + D.fOpts.length)] ++ leBytes 2 cnt ++ D.fOpts ++ D.tail E nwk app addr cnt

/-- Section 4.4: the MIC goes behind it. -/
def Downlink.build (D : Downlink) (E : Env) (nwk app : Block) (addr cnt : Nat) : Bytes :=
  D.msg E nwk app addr cnt ++ dataMic E nwk 1 addr cnt (D.msg E nwk app addr cnt)

/-- Section 6.2.4: the join-request; the EUIs as they go over the air (little-endian). -/
def joinRequest (E : Env) (appKey : Block) (appEui devEui : Bytes) (nonce : Nat) : Bytes :=
  let msg : Bytes := [0] ++ appEui ++ devEui ++ leBytes 2 nonce
  msg ++ (E.cmac appKey msg).toList.take 4

/-- Section 6.2.5: session keys, `t` is 1 for NwkSKey and 2 for AppSKey. -/
def sessionKey (E : Env) (appKey : Block) (t appNonce netId devNonce : Nat) : Block :=
  E.aes appKey (blockOf ([BitVec.ofNat 8 t] ++ leBytes 3 appNonce ++ leBytes 3 netId ++ leBytes 2 devNonce ++
    [0, 0, 0, 0, 0, 0, 0]))

/-- Section 6.2.5: the contents of a join-accept. `dlSettings` and `rxDelay` are whole bytes; `cfList` is empty or 16 bytes. -/
structure JoinAccept where
  appNonce : Nat
  netId : Nat
  devAddr : Nat
  dlSettings : Byte
  rxDelay : Byte
  cfList : Bytes

/-- The fields of a join-accept as bytes, without MHDR and MIC. -/
def JoinAccept.body (J : JoinAccept) : Bytes :=
  leBytes 3 J.appNonce ++ leBytes 3 J.netId ++ leBytes 4 J.devAddr ++ [J.dlSettings, J.rxDelay] ++ J.cfList

/-- Section 6.2.5: the join-accept the network sends; `dec` is the inverse of the block cipher (the network "decrypts" so
that the device can use its encryption). -/
def JoinAccept.build (J : JoinAccept) (E : Env) (dec : Block → Block → Block) (appKey : Block) : Bytes :=
  let msg : Bytes := 0x20 :: J.body
  let clear := J.body ++ (E.cmac appKey msg).toList.take 4
  0x20 :: ((dec appKey (blockOf (clear.take 16))).toList ++
    (if clear.length ≤ 16 then [] else (dec appKey (blockOf (clear.drop 16))).toList))

end Spec
