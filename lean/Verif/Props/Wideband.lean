import Verif.Spec.Wideband
import Verif.Props.Device127

/-! # The receiver is optimised for one bandwidth only (C137) -/

namespace Uwan.Sx127x
open Spec

variable {E : Env} {log : List Entry} {e : Entry} {it : Item} {s s' : St} {t t' : Uwan.St}

theorem rx_tuning {len : Byte} {symb : U16} {tmo : U32} {tr : Trace} {r : DRet}
    (e : Exec (step s (.rx len symb tmo)) tr (r, s')) :
    ∃ l, bus tr = some l ∧ ∀ c : Chip, (c.run (regs l)).reg 0x36 = 0x02 ∧ (c.run (regs l)).reg 0x3a = 0x64 := by
  obtain ⟨hal, hh⟩ := hal_of_exec e (by simp) (by simp) (by simp)
  simp only [step, hh] at e
  obtain ⟨_, e1, _⟩ := exec_map e
  suffices key : wr (rx hal len symb tmo) fun _ x => ∀ c : Chip, (c.run x).reg 0x36 = 0x02 ∧ (c.run x).reg 0x3a = 0x64 from wr_exec key e1
  exact wr_rx fun cf v c => ⟨rfl, rfl⟩

theorem rx_after {log : List DItem} {len : Byte} {symb : U16} {tmo : U32} {tr : Trace} {r : DRet} {p : PktParams}
    (h : Calls step .zero log s) (hu : (wish log).up = true) (hp : (wish log).setup = some p) (e : Exec (step s (.rx len symb tmo)) tr (r, s')) :
    ∃ l, bus (wire log ++ tr) = some l ∧ ∀ c : Chip, c.Honest [0x1e] (regs l) →
      (c.run (regs l)).bwKhz = some (bwKhz p.bw) ∧ (c.run (regs l)).reg 0x36 = 0x02 ∧ (c.run (regs l)).reg 0x3a = 0x64 := by
  obtain ⟨l0, hb0, -⟩ := C93_held h
  obtain ⟨l1, hb1, h1⟩ := rx_tuning e
  have h2 := h.snoc (op := .rx len symb tmo) trivial e
  obtain ⟨l, hb, hg⟩ := C93_held h2
  rw [wire_snoc, bus_append hb0 hb1] at hb
  injection hb with hb
  subst hb
  refine ⟨l0 ++ l1, bus_append hb0 hb1, fun c hc => ?_⟩
  have hw : wish (log ++ [⟨.rx len symb tmo, tr, r⟩]) = wish log := by simp [wish, List.foldl_append, Wish.next]
  have G := hg c hc
  rw [hw] at G
  refine ⟨(G.setup hu p hp).2.1, ?_⟩
  rw [regs_append, chip_append]
  exact h1 _

/-- **C137** With a bandwidth of 500 kHz and a frequency from 862 to 1020 MHz, `rx` sets the receiver up as the errata note asks. -/
theorem C137_wide_partial {log : List DItem} {len : Byte} {symb : U16} {tmo : U32} {tr : Trace} {r : DRet} {p : PktParams} {f : U32}
    (h : Calls step .zero log s) (hu : (wish log).up = true) (hp : (wish log).setup = some p) (_hf : (wish log).freq = some f)
    (hb : p.bw = .bw500) (hr : 862000000 ≤ f.toNat ∧ f.toNat ≤ 1020000000) (e : Exec (step s (.rx len symb tmo)) tr (r, s')) :
    ∃ l, bus (wire log ++ tr) = some l ∧ ∀ c : Chip, c.Honest [0x1e] (regs l) →
      (c.run (regs l)).bwKhz = some 500 ∧ Optimised 500 f.toNat (c.run (regs l)) := by
  obtain ⟨l, h1, h2⟩ := rx_after h hu hp e
  refine ⟨l, h1, fun c hc => ?_⟩
  obtain ⟨k1, k2, k3⟩ := h2 c hc
  rw [hb] at k1
  refine ⟨k1, ?_⟩
  unfold Optimised
  rw [if_pos rfl]
  exact ⟨k2, fun _ _ => k3, fun _ _ => by omega⟩

/-- What is missing from C137: with any other bandwidth, or between 410 and 525 MHz, the receiver is set up for 500 kHz in the high band all the same. -/
theorem C137_narrow {log : List DItem} {len : Byte} {symb : U16} {tmo : U32} {tr : Trace} {r : DRet} {p : PktParams} {f : U32}
    (h : Calls step .zero log s) (hu : (wish log).up = true) (hp : (wish log).setup = some p) (_hf : (wish log).freq = some f)
    (hb : p.bw ≠ .bw500 ∨ (410000000 ≤ f.toNat ∧ f.toNat ≤ 525000000)) (e : Exec (step s (.rx len symb tmo)) tr (r, s')) :
    ∃ l, bus (wire log ++ tr) = some l ∧ ∀ c : Chip, c.Honest [0x1e] (regs l) →
      (c.run (regs l)).bwKhz = some (bwKhz p.bw) ∧ ¬ Optimised (bwKhz p.bw) f.toNat (c.run (regs l)) := by
  obtain ⟨l, h1, h2⟩ := rx_after h hu hp e
  refine ⟨l, h1, fun c hc => ?_⟩
  obtain ⟨k1, k2, k3⟩ := h2 c hc
  refine ⟨k1, fun ho => ?_⟩
  unfold Optimised at ho
  rw [k2, k3] at ho
  by_cases hw : p.bw = .bw500
  · rw [hw, if_pos (show bwKhz .bw500 = 500 from rfl)] at ho
    rcases hb with hb | hb
    · exact hb hw
    · exact absurd (ho.2.2 hb.1 hb.2) (by decide)
  · rw [if_neg (by cases hq : p.bw <;> simp_all [bwKhz])] at ho
    exact absurd ho (by decide)

/-- **C137** does not hold of the code in any receive window of the stack: all of them have 125 kHz, and the receiver is set up for 500. -/
theorem C137_windows (h : Device E step .zero (log ++ [e]) t' s') (hi : e.item = some it) (hl : listens it.ev = true)
    (hu : (wish (calls log)).up = true) (hs : settled log = true) :
    ∃ l, bus (wire (calls (log ++ [e]))) = some l ∧ ∀ c : Chip, c.Honest [0x1e] (regs l) →
      (c.run (regs l)).bwKhz = some 125 ∧ ∀ f, ¬ Optimised 125 f (c.run (regs l)) := by
  obtain ⟨d0, x, L⟩ := h.listens hi hl
  obtain ⟨l0, hb0, -⟩ := C93_held L.before
  obtain ⟨l1, hb1, h1⟩ := rx_tuning L.ex
  obtain ⟨l, k, g, hb, -, hg, -⟩ := C98_window h hi hl hu hs
  have hsplit : l = l0 ++ l1 := by
    have hw : wire (calls (log ++ [e])) = wire (calls log) ++ x.tr := by
      rw [calls_append, calls_one, L.calls, wire_append]
      simp [wire]
    rw [hw, bus_append hb0 hb1] at hb
    injection hb with hb
    exact hb.symm
  refine ⟨l, hb, fun c hc => ⟨(hg c hc).2.1.bw, fun f ho => ?_⟩⟩
  unfold Optimised at ho
  rw [if_neg (by decide), hsplit, regs_append, chip_append, (h1 _).1] at ho
  exact absurd ho (by decide)

/-- The receiver set up for 125 kHz. -/
example (c : Chip) : Optimised 125 868100000 (c.run [.write 0x36 3]) := by
  unfold Optimised
  rw [if_neg (by decide)]
  rfl

/-- Histories that end ready for an `rx` at 500 kHz and at 125 kHz. -/
def tunedTo (bw : Bw) : Option (List DItem × St × Sim127) :=
  playAll step Sim127.chip .zero .por [.init (some ⟨false, false, false⟩) none, .setFrequency 868100000, .setup ⟨.sf8, bw, .cr45, 8, false, true, true⟩]

example : Calls step .zero (madeBy (tunedTo .bw500)) (stateBy .zero (tunedTo .bw500)) ∧ (wish (madeBy (tunedTo .bw500))).up = true ∧
    (wish (madeBy (tunedTo .bw500))).setup.map (·.bw) = some .bw500 ∧ (wish (madeBy (tunedTo .bw500))).freq = some 868100000 :=
  ⟨calls_of_play (by decide +kernel) (by decide), by decide +kernel, by decide +kernel, by decide +kernel⟩

example : Calls step .zero (madeBy (tunedTo .bw125)) (stateBy .zero (tunedTo .bw125)) ∧ (wish (madeBy (tunedTo .bw125))).up = true ∧
    (wish (madeBy (tunedTo .bw125))).setup.map (·.bw) = some .bw125 ∧ (wish (madeBy (tunedTo .bw125))).freq = some 868100000 :=
  ⟨calls_of_play (by decide +kernel) (by decide), by decide +kernel, by decide +kernel, by decide +kernel⟩

example : ∃ x : Played St, Device Tests.xorEnv step .zero (x.log ++ [x.e]) x.s x.d ∧ x.e.item = some x.it ∧
    (listens x.it.ev && (wish (calls x.log)).up && settled x.log) = true :=
  of_played (chip := Sim127.chip) (t := .por) dev127Rx2 _ (by decide +kernel)

end Uwan.Sx127x
