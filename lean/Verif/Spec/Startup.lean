import Verif.Spec.Radio

/-!
# Starting a radio chip, and its times of rest

What the datasheets ask of the host when it resets, calibrates, configures and puts to sleep an SX127x (Semtech
SX1276/77/78/79 rev. 7) or SX126x (Semtech SX1261/2 rev. 1.2).  Nothing here refers to the drivers.
-/

namespace Spec
open Uwan

/-- The chip is reset once and before anything else: the line is active for at least 100 µs, and nothing is sent in the 5 ms after
(SX127x datasheet 7.2.2; SX126x datasheet 8.1). -/
def ResetFirst (l : List Bus) : Prop :=
  ∃ a b r1 r2 r3 r4 rest, l = [.other (.reset true) r1, .other (.delay a) r2, .other (.reset false) r3, .other (.delay b) r4] ++ rest ∧
    100 ≤ a ∧ 5000 ≤ b ∧ ∀ x r, .other (.reset x) r ∉ rest

/-! ## SX126x -/

/-- The interrupt masks in a SetDioIrqParams command: enabled, and routed to DIO1, DIO2, DIO3 (datasheet 13.3.1). -/
def irqParams : Bytes → Option (Nat × Nat × Nat × Nat)
  | [0x08, a1, a0, b1, b0, c1, c0, d1, d0] =>
    some (a1.toNat * 256 + a0.toNat, b1.toNat * 256 + b0.toNat, c1.toNat * 256 + c0.toNat, d1.toNat * 256 + d0.toNat)
  | _ => none

/-- TxDone (bit 0), RxDone (bit 1), CrcErr (bit 6) and Timeout (bit 9), datasheet table 13-29. -/
def stackIrqs : Nat := 2 ^ 0 + 2 ^ 1 + 2 ^ 6 + 2 ^ 9

/-- Whether a SetRegulatorMode command selects the DC-DC converter (datasheet 13.1.11). -/
def regulator : Bytes → Option Bool
  | [0x96, x] => if x = 0 then some false else if x = 1 then some true else none
  | _ => none

/-- Interrupt routing and regulator mode of an SX126x, as far as configured. -/
structure Lines where
  irq : Option (Nat × Nat × Nat × Nat)
  dcdc : Option Bool
  deriving DecidableEq, Repr

/-- What bus activity does to them: a reset or a cold-start sleep loses them (datasheet 13.1.1). -/
def Lines.next (c : Lines) : Bus → Lines
  | .other (.reset _) _ => ⟨none, none⟩
  | .other _ _ => c
  | .frame (0x84 :: o) _ => if o = [0x04] then c else ⟨none, none⟩
  | .frame (0x08 :: o) _ => { c with irq := irqParams (0x08 :: o) }
  | .frame (0x96 :: o) _ => { c with dcdc := regulator (0x96 :: o) }
  | .frame _ _ => c

/-- A sequence of bus activity. -/
def Lines.run (c : Lines) : List Bus → Lines
  | [] => c
  | x :: l => (c.next x).run l

/-- The regulator the last `init` asked for. -/
def lastDcdc : List DItem → Option Bool
  | [] => none
  | x :: l => match lastDcdc l with
    | some b => some b
    | none => match x.op with
      | .init _ (some o) => some o.useDcdc
      | _ => none

/-- Less than 500 µs of rest. -/
def tooSoon : Option Nat → Bool
  | some t => t < 500
  | none => false

/-- The rest of a chip that goes to sleep: `some t` for `t` µs since SetSleep, `none` while it is awake.  The outer `none` is a frame sent to a chip
less than 500 µs after SetSleep, during which it must be left alone (datasheet 9.3). -/
def rests : Option Nat → List Bus → Option (Option Nat)
  | z, [] => some z
  | z, .frame o _ :: l =>
    if tooSoon z then none else rests (if o.head? = some 0x84 then some 0 else none) l
  | z, .other (.delay d) _ :: l => rests (z.map (· + d)) l
  | _, .other (.reset _) _ :: l => rests none l
  | z, .other _ _ :: l => rests z l

/-! ## SX127x -/

/-- Whether every access of register `a` comes at least `n` µs after the one before (or after the start); the argument is the time waited so far. -/
def paced (a : Byte) (n : Nat) : Nat → List Bus → Bool
  | _, [] => true
  | t, .frame (c :: _) _ :: l => if c = a then decide (n ≤ t) && paced a n 0 l else paced a n t l
  | t, .other (.delay d) _ :: l => paced a n (t + d) l
  | t, _ :: l => paced a n t l

end Spec
