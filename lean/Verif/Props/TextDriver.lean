import Verif.Lemmas.CodeDriver
import Verif.Props.Sx127x
import Verif.Props.SyncWord
import Verif.Props.Flags
import Verif.Props.Board
import Verif.Tests.RadioTests

/-!
# The program text of the SX127x driver (C151 - C153)

The functions of `src/device/sx127x.c`, printed from the source, run by the semantics of C in `Verif/Code`, call after call, on any chip.
-/

namespace Uwan.C.Drv
open Spec

/-- Enough rounds for the loops of the driver (the longest writes 255 bytes), enough depth for its calls. -/
theorem depth {D : Nat} (h : 6 ≤ D) : ∃ k, D = k + 6 := ⟨D - 6, by omega⟩

/-- **C151** Whatever the chip answers: if the driver is given a HAL before it needs one, no call of its text reads or writes memory it must not, and every
loop and every call comes to an end. -/
theorem C151_text_safe {L D : Nat} (hL : 256 ≤ L) (hD : 6 ≤ D) (ts : List DTurn) (hv : ∀ t ∈ ts, t.op.Valid) (h : Hal) (hs : Started false (ts.map (·.op)) = true) :
    ∃ log g, runDriver L D ts Sx127xSrc.sx127xVars h = .ok (log, g) ∧ log.map (·.op) = ts.map (·.op) := by
  obtain ⟨k, rfl⟩ := depth hD
  have := run_started (k := k) hL ts .zero h nofun hv
  rw [statics_zero] at this
  rwa [if_pos (by exact hs)] at this

/-- **C151** Otherwise a null pointer is used. -/
theorem C151_text_null {L D : Nat} (hL : 256 ≤ L) (hD : 6 ≤ D) (ts : List DTurn) (hv : ∀ t ∈ ts, t.op.Valid) (h : Hal) (hs : Started false (ts.map (·.op)) = false) :
    runDriver L D ts Sx127xSrc.sx127xVars h = .error .null := by
  obtain ⟨k, rfl⟩ := depth hD
  have := run_started (k := k) hL ts .zero h nofun hv
  rw [statics_zero] at this
  rwa [if_neg (by rw [show Sx127x.St.zero.hal.isSome = false from rfl, hs]; decide)] at this

/-- **C151** What the text does in a sequence of calls (bytes on the bus, pins, delays, callbacks, values returned) is what the model of the driver does on
a chip that gives the same answers. So every theorem about sequences of calls of the SX127x driver is one about its text. -/
theorem C151_text_calls {L D : Nat} (hL : 256 ≤ L) (hD : 6 ≤ D) {ts : List DTurn} (hv : ∀ t ∈ ts, t.op.Valid) {h : Hal} {log : List DItem} {g : Objs}
    (hr : runDriver L D ts Sx127xSrc.sx127xVars h = .ok (log, g)) : ∃ s, Calls Sx127x.step .zero log s := by
  obtain ⟨k, rfl⟩ := depth hD
  rw [← statics_zero] at hr
  obtain ⟨s, hc, _⟩ := run_calls (k := k) hL .zero ts .zero h [] log g nofun .nil hv hr
  exact ⟨s, hc⟩

/-- **C151** The functions called are the ones the text puts into `sx127x_dev`, and each is defined, but for `sx127x_set_freq`. -/
theorem C151_text_members (op : DOp) : Sx127xSrc.sx127xVars.get (member op) = some [.fn (dcall op).1] ∧
    (((Sx127xSrc.sx127xFuns.find? (·.1 = (dcall op).1)).isSome = true) ∨ ∃ f, op = .setFrequency f) := by
  cases op <;> first | exact ⟨rfl, .inl rfl⟩ | exact ⟨rfl, .inr ⟨_, rfl⟩⟩

/-- `((uint64_t)freq << 19) / 32000000` with 64-bit integers (src/device/sx127x.c:262). -/
def carrier (freq : U32) : BitVec 64 := (freq.setWidth 64 <<< 19) / 32000000

theorem carrier_exact (freq : U32) : (carrier freq).toNat = freq.toNat * 2 ^ 19 / 32000000 := by
  have h : freq.toNat * 2 ^ 19 < 2 ^ 64 := by have := freq.isLt; omega
  have h2 : freq.toNat < 2 ^ 64 := by have := freq.isLt; omega
  rw [carrier, BitVec.toNat_udiv, BitVec.toNat_shiftLeft, BitVec.toNat_setWidth, Nat.mod_eq_of_lt h2, Nat.shiftLeft_eq, Nat.mod_eq_of_lt h]
  rfl

theorem byte_of (x : BitVec 64) (k : Nat) : ((x >>> k) &&& 0xff).setWidth 8 = BitVec.ofNat 8 (x.toNat / 2 ^ k) := by
  apply BitVec.eq_of_toNat_eq
  rw [BitVec.toNat_setWidth, BitVec.toNat_and, BitVec.toNat_ushiftRight, BitVec.toNat_ofNat, Nat.shiftRight_eq_div_pow]
  rw [show (0xff : BitVec 64).toNat = 2 ^ 8 - 1 from rfl, Nat.and_two_pow_sub_one_eq_mod, Nat.mod_mod]

/-- **C151** The model of `sx127x_set_freq` computes what the 64-bit arithmetic of src/device/sx127x.c:260-270 computes. -/
theorem C151_freq64 (freq : U32) : Sx127x.setFreq freq =
    Sx127x.writeRegs 0x06 [((carrier freq >>> 16) &&& 0xff).setWidth 8, ((carrier freq >>> 8) &&& 0xff).setWidth 8, (carrier freq &&& 0xff).setWidth 8] := by
  have h0 := byte_of (carrier freq) 0
  rw [show carrier freq >>> 0 = carrier freq from BitVec.ushiftRight_zero _, Nat.pow_zero, Nat.div_one] at h0
  rw [byte_of, byte_of, h0, carrier_exact]
  rfl

/-- 868.1 MHz is 0xd90666 steps of 61.035 Hz. -/
example : carrier 868100000 = 0xd90666 := by decide +kernel

/-- The first calls of a sequence, and the others. -/
theorem calls_split {z s : Sx127x.St} {l1 : List DItem} : ∀ {l2 : List DItem}, Calls Sx127x.step z (l1 ++ l2) s → ∃ s1, Calls Sx127x.step z l1 s1 ∧ Calls Sx127x.step s1 l2 s := by
  intro l2 h
  generalize hl : l1 ++ l2 = l at h
  induction h generalizing l2 with
  | nil =>
    obtain ⟨rfl, rfl⟩ := List.append_eq_nil_iff.mp hl
    exact ⟨_, .nil, .nil⟩
  | @snoc log s s' op tr r hc hv e ih =>
    rcases List.eq_nil_or_concat l2 with rfl | ⟨l3, x, rfl⟩
    · rw [List.append_nil] at hl
      subst hl
      exact ⟨_, .snoc hc hv e, .nil⟩
    · rw [List.concat_eq_append, ← List.append_assoc] at hl
      obtain ⟨h1, h2⟩ := List.append_inj' hl rfl
      cases h2
      obtain ⟨s1, c1, c2⟩ := ih h1
      exact ⟨s1, c1, by rw [List.concat_eq_append]; exact .snoc c2 hv e⟩

/-- One call of a sequence. -/
theorem calls_item {z s : Sx127x.St} {x : DItem} (h : Calls Sx127x.step z [x] s) : Exec (Sx127x.step z x.op) x.tr (x.ret, s) := by
  generalize hl : [x] = l at h
  cases h with
  | nil => cases hl
  | @snoc log s' s'' op tr r hc hv e =>
    rcases List.eq_nil_or_concat log with rfl | ⟨l3, y, rfl⟩
    · cases hl
      generalize hn : ([] : List DItem) = l0 at hc
      cases hc with
      | nil => exact e
      | snoc => simp at hn
    · have := congrArg List.length hl
      simp at this

variable {L D : Nat} (hL : 256 ≤ L) (hD : 6 ≤ D) {ts : List DTurn} (hv : ∀ t ∈ ts, t.op.Valid) {h : Hal}
include hL hD hv

/-- **C152** After any sequence of calls of the text whose last `init` succeeded, the registers hold the frequency, power, modem settings and sync word last
asked for, if the chip reads back RegModemConfig2 as written. -/
theorem C152_text_held {log : List DItem} {g : Objs} (hr : runDriver L D ts Sx127xSrc.sx127xVars h = .ok (log, g)) :
    ∃ l, bus (wire log) = some l ∧ ∀ c : Chip, c.Honest [0x1e] (regs l) → Sx127x.Good (wish log) (c.run (regs l)) := by
  obtain ⟨s, hc⟩ := C151_text_calls hL hD hv hr
  exact Sx127x.C93_held hc

/-- **C152** Once `init` has succeeded, the chip is in LoRa mode after any sequence of calls of the text, if it reads back RegOpMode as it is. -/
theorem C152_text_lora {log : List DItem} {g : Objs} (hr : runDriver L D ts Sx127xSrc.sx127xVars h = .ok (log, g)) :
    ∃ l, bus (wire log) = some l ∧ (lastInit log = some (.bool true) → ∀ m : OpMode, m.Honest (regs l) → (m.run (regs l)).lora = true ∧ (m.run (regs l)).shared = false) := by
  obtain ⟨s, hc⟩ := C151_text_calls hL hD hv hr
  exact Sx127x.C82_lora hc

/-- **C153** Between two calls of `init` of the text, every event the chip raises a flag for is reported to the stack exactly once, unless its flag is still up
at the end. -/
theorem C153_text_once {ev : Event} {l1 l2 : List DItem} {g : Objs} (hr : runDriver L D ts Sx127xSrc.sx127xVars h = .ok (l1 ++ l2, g)) (hn : ∀ x ∈ l2, ∀ a b, x.op ≠ .init a b) :
    ∃ l, bus (wire l2) = some l ∧ ∀ (f : Bool) (st : List FlagEv), driverPart st = flag127 ev (regs l) → Truthful f st →
      pending f + rises f st = tellings ev l2 + pending (flagAfter f st) := by
  obtain ⟨s, hc⟩ := C151_text_calls hL hD hv hr
  obtain ⟨s1, _, c2⟩ := calls_split hc
  exact Sx127x.C138_once c2 hn

/-- **C153** The text of `read_packet` reports SNR = raw/4 rounded toward zero, and RSSI = raw − 164 after an accepted power of up to 14 dBm, raw − 157
above, raw if no power was ever set. -/
theorem C153_text_quality {l1 l2 : List DItem} {x : DItem} {g : Objs} (hr : runDriver L D ts Sx127xSrc.sx127xVars h = .ok (l1 ++ [x] ++ l2, g)) {buf : Bytes} (hx : x.op = .readPacket buf) :
    ∃ l p snr rssi, bus x.tr = some l ∧ x.ret = .pkt p ∧ readsOf 0x19 (regs l) = [snr] ∧ readsOf 0x1a (regs l) = [rssi] ∧ p.snr.toInt = snr.toInt.tdiv 4 ∧
      p.rssi.toInt = rssi.toNat + match lastPower l1 with
        | none => 0
        | some q => if q.toInt ≤ 14 then -164 else -157 := by
  obtain ⟨s, hc⟩ := C151_text_calls hL hD hv hr
  obtain ⟨s1, c1, _⟩ := calls_split hc
  obtain ⟨s2, c2, c3⟩ := calls_split c1
  have e := calls_item c3
  rw [hx] at e
  exact Sx127x.C85_quality c2 e

/-- **C153** A call of the text does to the board what it should, in this order: `tx` turns the antenna switch and then starts the transmitter, `rx` likewise the
receiver, `setup` initialises and `sleep` releases the board I/O, `init` releases it, `rand` only starts the receiver, and nothing else touches the board;
each function only if the HAL provides it. -/
theorem C153_text_board {l1 l2 : List DItem} {x : DItem} {g : Objs} (hr : runDriver L D ts Sx127xSrc.sx127xVars h = .ok (l1 ++ [x] ++ l2, g)) :
    ∃ l, bus x.tr = some l ∧ match x.op with
      | .init hal _ => ∃ h, hal = some h ∧ board127 l = provided h.ioDeinit .ioDeinit
      | .rand => board127 l = [.start true]
      | op => (∃ h, halOf l1 = some h ∧ board127 l = expected h op) ∨ ((∃ b, op = .setEvtHandler b) ∨ ∃ p, op = .setPower p) ∧ board127 l = [] := by
  obtain ⟨s, hc⟩ := C151_text_calls hL hD hv hr
  obtain ⟨s1, c1, _⟩ := calls_split hc
  obtain ⟨s2, c2, c3⟩ := calls_split c1
  have e := calls_item c3
  obtain ⟨op, tr, ret⟩ := x
  cases op <;> exact Sx127x.C89_board c2 e

omit hL hD hv

/-! ## A run -/

/-- A chip that answers 0x12 to everything: that is its version, the calibration is over at once, CadDone and FhssChangeChannel are up. -/
def plain : ChipAns := fun _ _ => 0x12
/-- A chip that has received a packet. -/
def packet : ChipAns := fun _ _ => 0x40

/-- The day of `Tests/RadioTests.lean`. -/
def dayText : List DTurn := (dayOps none).map fun op => ⟨match op with | .irqHandler => packet | _ => plain, op⟩

/-- What the text does on that day. -/
def daySeen : List DItem := match runDriver 256 6 dayText Sx127xSrc.sx127xVars ⟨true, true, true⟩ with
  | .ok (l, _) => l
  | .error _ => []

/-- The hypotheses are met, and a lot happens: 16 calls, 449 calls of the HAL. -/
example : (∀ t ∈ dayText, t.op.Valid) ∧ Started false (dayText.map (·.op)) = true ∧ Started false [.setFrequency 868100000, .init (some ⟨true, true, true⟩) none] = false ∧
    daySeen.length = 16 ∧ lastInit daySeen = some (.bool true) ∧ lastPower daySeen = some 16 ∧ (wish daySeen).up = true ∧ tellings .rxDone daySeen = 2 ∧
    daySeen.map (·.ret) = [.bool true, .unit, .unit, .bool true, .bool false, .unit, .unit, .mask 2, .unit, .unit, .unit, .mask 2,
      .pkt ⟨[0x12, 0x12, 0x12, 0x12, 0x12, 0x12], 6, BitVec.ofInt 16 (-139), 4⟩, .unit, .rand 0 false, .unit] := by
  refine ⟨?_, by decide +kernel, by decide +kernel, by decide +kernel, by decide +kernel, by decide +kernel, by decide +kernel, by decide +kernel, by decide +kernel⟩
  intro t ht
  obtain ⟨op, ho, rfl⟩ := List.mem_map.mp ht
  exact dayOps_valid none op ho

/-- A null HAL is used at once; a HAL that was never handed over as soon as the radio is needed. -/
example : runDriver 256 6 [⟨plain, .setEvtHandler true⟩, ⟨plain, .setPower 99⟩, ⟨plain, .sleep⟩] Sx127xSrc.sx127xVars ⟨true, true, true⟩ = .error .null :=
  C151_text_null (by omega) (by omega) _ (by simp [DOp.Valid]) _ (by decide +kernel)

end Uwan.C.Drv
