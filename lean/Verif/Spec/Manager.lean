import Verif.Spec.Mac

/-!
# What the network knows about a device's settings

How a network server keeps record of the settings of a device (LoRaWAN 1.0.x, section 5): it knows the commands it sent and the MAC commands
in the next uplink, and takes a setting over when its command was answered positively. Nothing here looks at the device.
-/

namespace Spec
open Uwan (Byte Bytes)

/-- MAC commands from a device. -/
inductive Up where
  | linkCheckReq
  | linkAdrAns (status : Nat)
  | dutyCycleAns
  | rxParamSetupAns (status : Nat)
  | devStatusAns (battery margin : Byte)
  | newChannelAns (status : Nat)
  | rxTimingSetupAns
  | deviceTimeReq
  deriving DecidableEq, Repr

/-- The commands in an FOpts field (section 5, table 4). -/
def readUp : Bytes → List Up
  | [] => []
  | cid :: l =>
    if cid = 2 then .linkCheckReq :: readUp l
    else if cid = 3 then match l with | s :: r => .linkAdrAns s.toNat :: readUp r | [] => []
    else if cid = 4 then .dutyCycleAns :: readUp l
    else if cid = 5 then match l with | s :: r => .rxParamSetupAns s.toNat :: readUp r | [] => []
    else if cid = 6 then match l with | b :: m :: r => .devStatusAns b m :: readUp r | _ => []
    else if cid = 7 then match l with | s :: r => .newChannelAns s.toNat :: readUp r | [] => []
    else if cid = 8 then .rxTimingSetupAns :: readUp l
    else if cid = 13 then .deviceTimeReq :: readUp l
    else []

/-- An answer; the others are requests of the device. -/
def Up.isAnswer : Up → Bool
  | .linkCheckReq => false
  | .deviceTimeReq => false
  | _ => true

/-- Whether this is the answer to a command, and if so whether it is positive: all status bits set. -/
def Up.says : Up → Cmd → Option Bool
  | .linkAdrAns st, .linkAdrReq .. => some (st % 8 == 7)
  | .rxParamSetupAns st, .rxParamSetupReq .. => some (st % 8 == 7)
  | .newChannelAns st, .newChannelReq .. => some (st % 4 == 3)
  | .rxTimingSetupAns, .rxTimingSetupReq _ => some true
  | .dutyCycleAns, .dutyCycleReq => some true
  | .devStatusAns .., .devStatusReq => some true
  | _, _ => none

/-- The settings the network is in charge of. -/
structure Settings where
  /-- channel frequencies in Hz -/
  freq : Nat → Nat
  /-- enabled channels -/
  on : Nat → Bool
  rx2Freq : Nat
  rx2Dr : Nat
  /-- RX1 data rate offset -/
  off : Nat
  /-- receive delay in seconds -/
  delay : Nat
  dr : Nat
  pow : Nat
  nb : Nat

/-- A command that was carried out. ChMaskCntl 6 enables all defined channels, NbTrans 0 means 1, Delay 0 means 1 second. -/
def Settings.done (s : Settings) : Cmd → Settings
  | .linkAdrReq dr pow mask cntl nb =>
    { s with
      dr := dr, pow := pow, nb := if nb = 0 then 1 else nb
      on := if cntl = 6 then fun i => s.freq i != 0 else fun i => decide (i < 16) && bit mask i }
  | .rxParamSetupReq off dr freq => { s with off := off, rx2Dr := dr, rx2Freq := freq }
  | .newChannelReq idx freq _ _ => { s with freq := upd s.freq idx freq, on := upd s.on idx true }
  | .rxTimingSetupReq d => { s with delay := max 1 d }
  | _ => s

/-- The network goes through the commands it sent and the answers it got, in order. It stops where an answer is missing. -/
def Settings.learn : Settings → List Cmd → List Up → Settings
  | s, [], _ => s
  | s, c :: cs, us =>
    if c.answer = none then s.learn cs us
    else match us with
      | [] => s
      | u :: us =>
        match u.says c with
        | some true => (s.done c).learn cs us
        | some false => s.learn cs us
        | none => s

/-- The settings a device works with. -/
def Settings.of (c : Cfg) : Settings := ⟨c.freq, c.on, c.rx2Freq, c.rx2Dr, c.off, c.delay, c.dr, c.pow, c.nb⟩

/-- A command as defined for the 868 MHz bands: ChMaskCntl 0 or 6, the other values are reserved; NbTrans not left to the device. -/
def Cmd.proper : Cmd → Prop
  | .linkAdrReq _ _ _ cntl nb => (cntl = 0 ∨ cntl = 6) ∧ nb ≠ 0
  | _ => True

end Spec
