import Verif.Spec.Config

/-!
# Regional parameters and rules about MAC commands

Numbers of the LoRaWAN regional parameters for EU863-870 and RU864-870, and two rules of LoRaWAN 1.0.2 about MAC commands.
-/

namespace Spec
open Uwan (Region)

/-- Default frequency and data rate of the second receive window (sections 2.1.7 and 2.11.7). -/
def defaultRx2 : Region → Nat × Nat
  | .eu868 => (869525000, 0)
  | .ru864 => (869100000, 0)

/-- The channels every device has, which are those for join-requests (sections 2.1.2 and 2.11.2). -/
def defaultChannels : Region → List Nat
  | .eu868 => [868100000, 868300000, 868500000]
  | .ru864 => [868900000, 869100000]

/-- A request to set data rate, power, channel mask (ChMaskCntl 0) and repetitions. -/
structure AdrReq where
  dr : Nat
  pow : Nat
  mask : Nat
  nb : Nat

/-- As a command. -/
def AdrReq.cmd (r : AdrReq) : Cmd := .linkAdrReq r.dr r.pow r.mask 0 r.nb

/-- It can be met, with channels at the frequencies `freq`. -/
def AdrReq.ok (r : AdrReq) (freq : Nat → Nat) : Prop := r.dr ≤ 5 ∧ r.pow ≤ 7 ∧ ∀ i < 16, bit r.mask i = true → freq i ≠ 0

end Spec
