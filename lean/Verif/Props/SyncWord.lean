import Verif.Spec.SyncWord
import Verif.Props.Sx127x
import Verif.Props.Sx126x

/-!
# The chip uses the sync word of the network asked for (C140)

Full claim: after `init` and `set_public_network` the chip uses the sync word of the network last asked for. It holds for the SX126x; a SX127x
asked for a private network is given another word.
-/

namespace Uwan
open Spec

/-- **C140** (SX126x) After any sequence of driver calls whose last `init` succeeded, the chip has the sync word of the network last asked for. -/
theorem Sx126x.C140_sync (por : Nat → Byte) (c : Held) {log : List DItem} {s : Sx126x.St} (h : Calls Sx126x.step .zero log s) :
    ∃ l, bus (wire log) = some l ∧ ((wish log).up = true →
      sx126xSyncWord ((c.run por l).reg 0x740) ((c.run por l).reg 0x741) = some (syncWord (wish log).isPublic)) := by
  obtain ⟨l, hb, hg⟩ := Sx126x.C92_held por c h
  refine ⟨l, hb, fun hu => ?_⟩
  obtain ⟨h0, h1⟩ := hg.sync hu
  rw [h0, h1]
  cases (wish log).isPublic <;> decide

/-- **C140** (SX127x), what holds: a chip last asked for a public network has its sync word, provided the chip reads back RegModemConfig2 as
written. Missing: private networks, see `C140_private`. -/
theorem Sx127x.C140_public_partial {log : List DItem} {s : Sx127x.St} (h : Calls Sx127x.step .zero log s) :
    ∃ l, bus (wire log) = some l ∧ ∀ c : Chip, c.Honest [0x1e] (regs l) → (wish log).up = true → (wish log).isPublic = true →
      (c.run (regs l)).reg 0x39 = syncWord (wish log).isPublic := by
  obtain ⟨l, hb, hg⟩ := Sx127x.C93_held h
  refine ⟨l, hb, fun c hc hu hp => ?_⟩
  rw [(hg c hc).sync hu, hp]
  rfl

/-- **C140** does not hold for the SX127x: a chip last asked for a private network is given the upper byte of the SX126x's pair of registers, which is
the sync word of no network. It hears neither a SX126x asked for the same nor any other device of a private network. -/
theorem Sx127x.C140_private {log : List DItem} {s : Sx127x.St} (h : Calls Sx127x.step .zero log s) :
    ∃ l, bus (wire log) = some l ∧ ∀ c : Chip, c.Honest [0x1e] (regs l) → (wish log).up = true → (wish log).isPublic = false →
      ∀ b, (c.run (regs l)).reg 0x39 ≠ syncWord b := by
  obtain ⟨l, hb, hg⟩ := Sx127x.C93_held h
  refine ⟨l, hb, fun c hc hu hp b => ?_⟩
  rw [(hg c hc).sync hu, hp]
  cases b <;> decide

/-- Non-trivial cases: the days of the test suite end with the driver up in a private network; the same calls without `set_public_network` end
in a public one. -/
example : Calls Sx126x.step .zero (madeBy Sx126x.day) (stateBy .zero Sx126x.day) ∧ (wish (madeBy Sx126x.day)).up = true ∧
    (wish (madeBy Sx126x.day)).isPublic = false ∧
    Calls Sx127x.step .zero (madeBy Sx127x.day) (stateBy .zero Sx127x.day) ∧ (wish (madeBy Sx127x.day)).up = true ∧
    (wish (madeBy Sx127x.day)).isPublic = false :=
  ⟨Sx126x.day_calls, by decide +kernel, by decide +kernel, Sx127x.day_calls, by decide +kernel, by decide +kernel⟩

example : ∃ log s, Calls Sx127x.step .zero log s ∧ (wish log).up = true ∧ (wish log).isPublic = true :=
  ⟨_, _, calls_of_play (step := Sx127x.step) (chip := Sim127.chip) (z := .zero) (t := .por) (ops := (dayOps none).take 8) (by decide +kernel)
    (fun op h => dayOps_valid none op (List.mem_of_mem_take h)), by decide +kernel, by decide +kernel⟩

end Uwan
