import Verif.Model.History

/-!
# What an observer sees of a message (specification for C132)

An observer sees every call and every effect, but not the message: of what the application hands over the length, of a data uplink
everything up to the port and the total length.
-/

namespace Spec
open Uwan (Op Ret Ev Item Byte Bytes)

/-- The call without the contents of the message, only its length. -/
def sealOp : Op → Op
  | .send port pld c rnd => .send port (List.replicate pld.length 0) c rnd
  | op => op

/-- A data uplink followed by `mic` bytes of integrity code. LoRaWAN 1.0.3 section 4: eight bytes of header, as many bytes of options
as the low half of FCtrl says, and a port if there is a message. What follows the port is blanked. -/
def sealMsg (mic : Nat) (m : Bytes) : Bytes :=
  let n := 8 + (m.getD 5 0).toNat % 16
  if (m.headD 0 = 0x40 ∨ m.headD 0 = 0x80) ∧ n + mic < m.length then m.take (n + 1) ++ List.replicate (m.length - (n + 1)) 0 else m

/-- An effect without the contents of a message: the transmission itself, and the bytes the integrity code is computed over. -/
def sealEv : Ev → Ev
  | .tx d => .tx (sealMsg 4 d)
  | .cmacUpdate m => .cmacUpdate (sealMsg 0 m)
  | e => e

/-- What the observer sees of an operation. -/
def sealed (it : Item) : Op × Ret × List Ev := (sealOp it.op, it.ret, it.ev.map sealEv)

end Spec
