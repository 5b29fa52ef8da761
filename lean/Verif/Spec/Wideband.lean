import Verif.Spec.Radio

/-! # Receiver optimisation of the SX127x

Semtech's errata note for the SX1276/77/78 (2.1, "Sensitivity optimisation with a 500 kHz bandwidth"). -/

namespace Spec
open Uwan

/-- What registers 0x36 (RegHighBwOptimize1) and 0x3a (RegHighBwOptimize2) should hold for reception with a bandwidth of `khz` at
`f` Hz.  With other bandwidths the chip chooses the second one itself. -/
def Optimised (khz f : Nat) (c : Chip) : Prop :=
  if khz = 500 then
    c.reg 0x36 = 0x02 ∧ (862000000 ≤ f → f ≤ 1020000000 → c.reg 0x3a = 0x64) ∧ (410000000 ≤ f → f ≤ 525000000 → c.reg 0x3a = 0x7f)
  else c.reg 0x36 = 0x03

end Spec
