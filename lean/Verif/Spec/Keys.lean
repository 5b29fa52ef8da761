import Verif.Spec.Downlink

/-!
# What is computed with which key

`uses ev` lists the cipher and CMAC computations an observer of the crypto callbacks sees in a list of calls: the key of the open
context and the complete input.
-/

namespace Spec
open Uwan (Byte Bytes Block Env Ev)

/-- One computation. -/
inductive Use where
  /-- a block encrypted -/
  | aes (key input : Block)
  /-- a CMAC over `input` -/
  | cmac (key : Block) (input : Bytes)
  /-- a call without a fitting context -/
  | stray
  deriving DecidableEq, Repr

/-- The open context: its key, and the input of a CMAC so far. -/
inductive Open where
  | none
  | aes (key : Block)
  | cmac (key : Block) (input : Bytes)

/-- The computations in a list of calls, starting with a context. -/
def usesFrom : Open → List Ev → List Use
  | _, [] => []
  | _, .aesNew k :: l => usesFrom (.aes k) l
  | .aes k, .aesEncrypt b :: l => .aes k b :: usesFrom (.aes k) l
  | c, .aesEncrypt _ :: l => .stray :: usesFrom c l
  | _, .aesDel :: l => usesFrom .none l
  | _, .cmacNew k :: l => usesFrom (.cmac k []) l
  | .cmac k m, .cmacUpdate x :: l => usesFrom (.cmac k (m ++ x)) l
  | c, .cmacUpdate _ :: l => .stray :: usesFrom c l
  | .cmac k m, .cmacFinish :: l => .cmac k m :: usesFrom (.cmac k m) l
  | c, .cmacFinish :: l => .stray :: usesFrom c l
  | _, .cmacDel :: l => usesFrom .none l
  | c, _ :: l => usesFrom c l

/-- The computations in a list of calls. -/
def uses (l : List Ev) : List Use := usesFrom .none l

/-- Section 4.3.3.1: encrypting or deciphering `len` bytes takes the blocks A_1, A_2, ... up to the last byte. -/
def streamUses (key : Block) (dir addr cnt len : Nat) : List Use :=
  (List.range ((len + 15) / 16)).map fun i => .aes key (blockA dir addr cnt (i + 1))

/-- Section 4.4: the MIC of a data message is computed over B0 and the message. -/
def micUse (key : Block) (dir addr cnt : Nat) (msg : Bytes) : Use := .cmac key (bytesB0 dir addr cnt msg.length ++ msg)

/-- What is computed for the bytes `l` received in a data exchange: nothing if they are refused before the MIC check; else the MIC, under
the NwkSKey; and if it is right the key stream of the payload, under the NwkSKey for port 0 and the AppSKey for the others. -/
def dataUses (E : Env) (v : View) (down : Nat) (l : Bytes) : List Use :=
  match verdict E v down l, parse l with
  | .no, some f =>
    let d := (nextDown down f.fCnt).getD 0
    micUse v.nwk 1 v.addr d (signed l) :: streamUses (if f.port = some 0 then v.nwk else v.app) 1 v.addr d f.payload.length
  | .msgMic, some f => [micUse v.nwk 1 v.addr ((nextDown down f.fCnt).getD 0) (signed l)]
  | _, _ => []

/-- Section 6.2.5: the block a session key is computed from. -/
def keyInput (t appNonce netId devNonce : Nat) : Block :=
  blockOf ([BitVec.ofNat 8 t] ++ leBytes 3 appNonce ++ leBytes 3 netId ++ leBytes 2 devNonce ++ [0, 0, 0, 0, 0, 0, 0])

/-- What is computed for the bytes `l` received in a join exchange, all under the AppKey: nothing for a wrong length or type; else the
clear text and its MIC; and if that is right the two session keys. -/
def joinUses (E : Env) (v : View) (l : Bytes) : List Use :=
  let c := joinClear E v.appKey l
  let clear : List Use := .aes v.appKey (blockOf ((l.drop 1).take 16)) ::
    ((if l.length ≤ 17 then [] else [.aes v.appKey (blockOf ((l.drop 17).take 16))]) ++
      [.cmac v.appKey (0x20 :: c.take (c.length - 4))])
  match joinVerdict E v.appKey l with
  | .no => clear ++ [.aes v.appKey (keyInput 1 (leNat (c.take 3)) (leNat ((c.drop 3).take 3)) v.nonce),
      .aes v.appKey (keyInput 2 (leNat (c.take 3)) (leNat ((c.drop 3).take 3)) v.nonce)]
  | .msgMic => clear
  | _ => []

end Spec
