import Verif.Spec.Radio

/-!
# LoRa sync words (specification for C140)

A LoRa receiver takes only frames that begin with its own sync word. Public networks (LoRaWAN) use 0x34, private ones 0x12 (SX127x datasheet,
RegSyncWord: reset value 0x12, "value 0x34 is reserved for LoRaWAN networks"; SX126x datasheet, table of registers: 0x3444 for a public and
0x1424 for a private network).
-/

namespace Spec
open Uwan (Byte)

/-- The sync word of a network. -/
def syncWord (isPublic : Bool) : Byte := if isPublic then 0x34 else 0x12

/-- The sync word that registers 0x740 and 0x741 of a SX126x stand for: each holds one half of it in its upper four bits, the lower four are
the value 4. -/
def sx126xSyncWord (msb lsb : Byte) : Option Byte :=
  if msb.toNat % 16 = 4 ∧ lsb.toNat % 16 = 4 then some (BitVec.ofNat 8 (msb.toNat / 16 * 16 + lsb.toNat / 16)) else none

example : sx126xSyncWord 0x34 0x44 = some 0x34 ∧ sx126xSyncWord 0x14 0x24 = some 0x12 ∧ sx126xSyncWord 0x12 0x34 = none := by decide

end Spec
