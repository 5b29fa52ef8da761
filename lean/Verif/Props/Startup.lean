import Verif.Spec.Startup
import Verif.Props.Sx126x
import Verif.Props.Sx127x

/-!
# Starting the chips, and leaving them alone

C124 (start-up of both chips), C125 (rest after SetSleep, pacing of repeated readings), C126 (image calibration), C127 (no events while a random number
is drawn).
-/

namespace Uwan.Sx126x
open Spec

/-- Bus activity of a call other than `init`: no reset, no interrupt or regulator command, and after each (warm) SetSleep 1 ms of rest. -/
inductive Made : List Bus → Prop where
  | nil : Made []
  | other {c : Call} {r : Byte} {l : List Bus} : (∀ x, c ≠ .reset x) → (∀ x, c ≠ .delay x) → Made l → Made (.other c r :: l)
  | frame {c : Byte} {o m : Bytes} {l : List Bus} : c ≠ 0x84 → c ≠ 0x08 → c ≠ 0x96 → Made l → Made (.frame (c :: o) m :: l)
  | sleep {m : Bytes} {r : Byte} {l : List Bus} : Made l → Made (.frame [0x84, 0x04] m :: .other (.delay 1000) r :: l)
  | nap {m : Bytes} {r r' : Byte} {l : List Bus} : Made l → Made (.frame [0x84, 0x04] m :: .other .ioDeinit r' :: .other (.delay 1000) r :: l)

theorem made_append {a b : List Bus} (h : Made a) (k : Made b) : Made (a ++ b) := by
  induction h with
  | nil => exact k
  | other h1 h2 _ ih => exact .other h1 h2 ih
  | frame h1 h2 h3 _ ih => exact .frame h1 h2 h3 ih
  | sleep _ ih => exact .sleep ih
  | nap _ ih => exact .nap ih

theorem made_wake {b : Bool} {pre : List Bus} (h : Wake b pre) : Made pre := by
  cases h with
  | awake => exact .nil
  | asleep => exact .frame (by decide) (by decide) (by decide) (.frame (by decide) (by decide) (by decide) .nil)

theorem made_opt {t : Bool} {c : Call} {r : Byte} (h1 : ∀ x, c ≠ .reset x) (h2 : ∀ x, c ≠ .delay x) :
    Made (if t then [.other c r] else []) := by
  cases t
  · exact .nil
  · exact .other h1 h2 .nil

theorem made_sleep {t : Bool} {m : Bytes} {r r' : Byte} : Made (.frame [0x84, 0x04] m :: ((if t then [.other .ioDeinit r] else []) ++ [.other (.delay 1000) r'])) := by
  cases t
  · exact .sleep .nil
  · exact .nap .nil

/-- A list of frames that are no sleep, interrupt or regulator commands. -/
theorem made_frames {l : List Bus} (h : ∀ x ∈ l, ∃ c o m, x = .frame (c :: o) m ∧ c ≠ 0x84 ∧ c ≠ 0x08 ∧ c ≠ 0x96) : Made l := by
  induction l with
  | nil => exact .nil
  | cons x l ih =>
    obtain ⟨c, o, m, rfl, h1, h2, h3⟩ := h x (by simp)
    exact .frame h1 h2 h3 (ih fun y hy => h y (by simp [hy]))

theorem made_step {s s' : St} {op : DOp} {tr : Trace} {r : DRet} (hi : ∀ a b, op ≠ .init a b) (e : Exec (step s op) tr (r, s')) :
    ∃ l, bus tr = some l ∧ Made (quiet l) := by
  cases op with
  | init hal o => exact (hi _ _ rfl).elim
  | setEvtHandler b =>
    obtain ⟨rfl, _⟩ := exec_ret e
    exact ⟨[], rfl, .nil⟩
  | setPower p =>
    obtain ⟨o, ho, hin, hout⟩ := C73_power e
    by_cases hp : if o.isHp then -9 ≤ p.toInt ∧ p.toInt ≤ 22 else -17 ≤ p.toInt ∧ p.toInt ≤ 15
    · cases hh : s.hal with
      | none =>
        simp only [step, ho, hh] at e
        exfalso
        cases hx : o.isHp
        · simp only [hx, Bool.false_eq_true, if_false] at hp
          simp only [hx, if_true] at e
          rw [if_neg (by omega)] at e
          exact (Sx127x.exec_fail e).elim
        · simp only [hx, if_true] at hp
          simp only [hx, Bool.true_eq_false, if_false] at e
          rw [if_neg (by omega)] at e
          exact (Sx127x.exec_fail e).elim
      | some hal =>
        simp only [step, ho, hh] at e
        obtain ⟨a, b, e1, _, _⟩ := exec_with e
        refine wd_exec (Q := fun _ _ l => Made l) ?_ e1
        cases hx : o.isHp
        · simp only [hx, Bool.false_eq_true, if_false] at hp
          exact wd_setPower_lp hx hp fun pre m1 m2 m3 hw => made_append (made_wake hw) (made_frames (by simp))
        · simp only [hx, if_true] at hp
          exact wd_setPower_hp hx hp fun pre a0 a1 a2 a3 v m0 m1 m2 m3 hw => made_append (made_wake hw) (made_frames (by simp))
    · obtain ⟨_, rfl, _⟩ := hout hp
      exact ⟨[], rfl, .nil⟩
  | setFrequency f =>
    obtain ⟨hal, hh⟩ := hal_of_exec e (by simp) (by simp) (by simp)
    simp only [step, hh] at e
    obtain ⟨a, b, e1, _, _⟩ := exec_with e
    exact wd_exec (Q := fun _ _ l => Made l) (wd_setFreq fun pre m1 m2 hw => made_append (made_wake hw) (made_frames (by simp))) e1
  | setPublicNetwork pub =>
    obtain ⟨hal, hh⟩ := hal_of_exec e (by simp) (by simp) (by simp)
    simp only [step, hh] at e
    obtain ⟨a, b, e1, _, _⟩ := exec_with e
    exact wd_exec (Q := fun _ _ l => Made l) (wd_setPublicNetwork fun pre m hw => made_append (made_wake hw) (made_frames (by simp))) e1
  | setup p =>
    obtain ⟨hal, hh⟩ := hal_of_exec e (by simp) (by simp) (by simp)
    simp only [step, hh] at e
    obtain ⟨a, b, e1, _, _⟩ := exec_with e
    exact wd_exec (Q := fun _ _ l => Made l) (wd_setup fun pre m r hw =>
      made_append (made_append (made_wake hw) (made_frames (by simp))) (made_opt (by simp) (by simp))) e1
  | sleep =>
    obtain ⟨hal, hh⟩ := hal_of_exec e (by simp) (by simp) (by simp)
    simp only [step, hh] at e
    obtain ⟨a, b, e1, _, _⟩ := exec_with e
    exact wd_exec (Q := fun _ _ l => Made l) (wd_sleep fun pre m r r' hw => by
      rw [List.append_assoc, List.append_assoc]
      exact made_append (made_wake hw) made_sleep) e1
  | tx buf =>
    obtain ⟨hal, hh⟩ := hal_of_exec e (by simp) (by simp) (by simp)
    simp only [step, hh] at e
    obtain ⟨a, b, e1, _, _⟩ := exec_with e
    exact wd_exec (Q := fun _ _ l => Made l) (wd_tx fun pre a0 a1 a2 a3 v n1 n2 m1 m2 m3 r hw =>
      made_append (made_append (made_append (made_append (made_wake hw) (made_frames (by simp [pktFrames]))) (made_frames (by simp)))
        (made_opt (by simp) (by simp))) (made_frames (by simp))) e1
  | rx len symb tmo =>
    obtain ⟨hal, hh⟩ := hal_of_exec e (by simp) (by simp) (by simp)
    simp only [step, hh] at e
    obtain ⟨a, b, e1, _, _⟩ := exec_with e
    exact wd_exec (Q := fun _ _ l => Made l) (wd_rx fun pre a0 a1 a2 a3 v n1 n2 m1 m2 m3 r hw =>
      made_append (made_append (made_append (made_append (made_wake hw) (made_frames (by simp [pktFrames]))) (made_frames (by simp)))
        (made_opt (by simp) (by simp))) (made_frames (by simp))) e1
  | readPacket buf =>
    obtain ⟨hal, hh⟩ := hal_of_exec e (by simp) (by simp) (by simp)
    simp only [step, hh] at e
    obtain ⟨a, b, e1, _, _⟩ := exec_with e
    exact wd_exec (Q := fun _ _ l => Made l) (wd_readPacket fun pre a0 a1 n off b0 b1 b2 vs c0 c1 rssi snr sig hw hl =>
      made_append (made_wake hw) (made_frames (by simp))) e1
  | rand =>
    obtain ⟨hal, hh⟩ := hal_of_exec e (by simp) (by simp) (by simp)
    simp only [step, hh] at e
    obtain ⟨a, b, e1, _, _⟩ := exec_with e
    refine wd_exec (Q := fun _ _ l => Made l) (wd_rand fun pre a0 a1 a2 a3 v n1 n2 m1 m2 m3 r d0 d1 d2 d3 x0 x1 x2 x3 m4 r1 r2 hw => ?_) e1
    have : ∀ (a b c d f : List Bus) (x y z : Bus), a ++ b ++ c ++ d ++ [x, y, z] ++ f ++ [.other (.delay 1000) r2] =
        a ++ b ++ c ++ d ++ [x, y] ++ (z :: (f ++ [.other (.delay 1000) r2])) := by simp
    rw [this]
    exact made_append (made_append (made_append (made_append (made_append (made_wake hw) (made_frames (by simp [pktFrames]))) (made_frames (by simp)))
      (made_opt (by simp) (by simp))) (made_frames (by simp))) made_sleep
  | irqHandler =>
    obtain ⟨hal, hh⟩ := hal_of_exec e (by simp) (by simp) (by simp)
    simp only [step, hh] at e
    obtain ⟨a, b, e1, _, _⟩ := exec_with e
    exact wd_exec (Q := fun _ _ l => Made l) (wd_irqHandler fun pre a0 a1 b1 b0 m r res hw hm =>
      made_append (made_append (made_wake hw) (made_frames (by simp))) (made_opt (by simp) (by simp))) e1

/-! ## The interrupt lines and the regulator -/

theorem lines_append : ∀ (a b : List Bus) (c : Lines), c.run (a ++ b) = (c.run a).run b
  | [], _, _ => rfl
  | x :: a, b, c => lines_append a b (c.next x)

theorem lines_quiet : ∀ (l : List Bus) (c : Lines), c.run (quiet l) = c.run l
  | [], _ => rfl
  | .frame o m :: l, c => by simp only [quiet, Lines.run]; exact lines_quiet l _
  | .other k r :: l, c => by
    cases k <;> simp only [quiet, Lines.run] <;> first | exact lines_quiet l _ | exact lines_quiet l c

theorem lines_made {l : List Bus} (h : Made l) (c : Lines) : c.run l = c := by
  induction h generalizing c with
  | nil => rfl
  | @other k r l h1 h2 _ ih =>
    rw [Lines.run]
    have : c.next (.other k r) = c := by cases k <;> first | rfl | exact (h1 _ rfl).elim
    rw [this, ih]
  | @frame k o m l h1 h2 h3 _ ih =>
    rw [Lines.run]
    have : c.next (.frame (k :: o) m) = c := by
      unfold Lines.next
      split
      all_goals first | rfl | simp_all
    rw [this, ih]
  | sleep _ ih => exact ih c
  | nap _ ih => exact ih c

theorem lastDcdc_snoc (log : List DItem) (x : DItem) : lastDcdc (log ++ [x]) =
    match x.op with | .init _ (some o) => some o.useDcdc | _ => lastDcdc log := by
  induction log with
  | nil =>
    obtain ⟨op, tr, r⟩ := x
    simp only [List.nil_append, lastDcdc]
    cases op with
    | init a o => cases o <;> rfl
    | _ => rfl
  | cons y log ih =>
    rw [List.cons_append, lastDcdc, ih]
    obtain ⟨op, tr, r⟩ := x
    cases op with
    | init a o => cases o <;> rfl
    | _ => rfl

/-- The lists of `init`. -/
theorem init_lists {s s' : St} {hal : Hal} {o : Opts} {tr : Trace} {r : DRet}
    (e : Exec (step s (.init (some hal) (some o))) tr (r, s')) {P : Bool → List Bus → Prop}
    (hf : ∀ r1 r2 r3 r4 r5 w1 w2 c1 c2 t1 t2 m0 m1 x y, P false (initHead hal o r1 r2 r3 r4 r5 w1 w2 c1 c2 t1 t2 m0 m1 x y))
    (ht : ∀ r1 r2 r3 r4 r5 w1 w2 c1 c2 t1 t2 m0 m1 r6 r7 c3 c4 w3 w4 c5 c6 c7,
      P true (initHead hal o r1 r2 r3 r4 r5 w1 w2 c1 c2 t1 t2 m0 m1 0 0 ++ initTail hal o r6 r7 c3 c4 w3 w4 c5 c6 c7)) :
    ∃ l ok, bus tr = some l ∧ r = .bool ok ∧ P ok (quiet l) := by
  obtain ⟨ok, b, e1, hr, _⟩ := exec_with e
  obtain ⟨l, hb, h⟩ := wd_exec (Q := fun ok _ l => P ok l) (wd_init (fun _ _ _ _ _ _ _ _ _ _ _ _ _ _ _ _ => hf ..) ht) e1
  exact ⟨l, ok, hb, hr, h⟩

/-- **C124** (SX126x) `init` resets the chip once and first, holding the line for at least 100 µs and waiting at least 5 ms.  It clears the
chip's error flags before, and sets up the TCXO before it has every block calibrated (datasheet 13.1.12: all seven
bits); the errors are read right after and not cleared in between. -/
theorem C124_start {s s' : St} {hal : Hal} {o : Opts} {tr : Trace} {r : DRet}
    (e : Exec (step s (.init (some hal) (some o))) tr (r, s')) :
    ∃ l a b, bus tr = some l ∧ ResetFirst (quiet l) ∧ sent l = a ++ [[0x89, 0x7f], [0x17, 0xff, 0xff, 0xff]] ++ b ∧
      [0x07, 0, 0] ∈ a ∧ ((∃ x ∈ a, x.head? = some 0x97) ↔ o.useTcxo = true) ∧ (o.useTcxo = true → writeCmd 0x911 0 ∈ a) ∧
      (∀ x ∈ b, x.head? ≠ some 0x07 ∧ x.head? ≠ some 0x89 ∧ x.head? ≠ some 0x97) ∧ (r = .bool false → b = []) := by
  suffices key : ∃ l ok, bus tr = some l ∧ r = .bool ok ∧ ResetFirst (quiet l) ∧ ∃ a b, sent (quiet l) = a ++ [[0x89, 0x7f], [0x17, 0xff, 0xff, 0xff]] ++ b ∧
      [0x07, 0, 0] ∈ a ∧ ((∃ x ∈ a, x.head? = some 0x97) ↔ o.useTcxo = true) ∧ (o.useTcxo = true → writeCmd 0x911 0 ∈ a) ∧
      (∀ x ∈ b, x.head? ≠ some 0x07 ∧ x.head? ≠ some 0x89 ∧ x.head? ≠ some 0x97) ∧ (ok = false → b = []) by
    obtain ⟨l, ok, hb, hr, h1, a, b, h2⟩ := key
    rw [sent_quiet] at h2
    exact ⟨l, a, b, hb, h1, h2.1, h2.2.1, h2.2.2.1, h2.2.2.2.1, h2.2.2.2.2.1, fun h => h2.2.2.2.2.2 (by rw [hr] at h; injection h)⟩
  refine init_lists e (P := fun ok l => ResetFirst l ∧ ∃ a b, sent l = a ++ [[0x89, 0x7f], [0x17, 0xff, 0xff, 0xff]] ++ b ∧
      [0x07, 0, 0] ∈ a ∧ ((∃ x ∈ a, x.head? = some 0x97) ↔ o.useTcxo = true) ∧ (o.useTcxo = true → writeCmd 0x911 0 ∈ a) ∧
      (∀ x ∈ b, x.head? ≠ some 0x07 ∧ x.head? ≠ some 0x89 ∧ x.head? ≠ some 0x97) ∧ (ok = false → b = [])) ?_ ?_
  · intro r1 r2 r3 r4 r5 w1 w2 c1 c2 t1 t2 m0 m1 x y
    refine ⟨⟨1000, 20000, r1, r2, r3, r4, _, by simp only [initHead, List.append_assoc]; rfl, by decide, by decide, ?_⟩,
      ([[0xc0, 0], [0x80, 0], [0x07, 0, 0]] : List Bytes) ++ (if o.useTcxo then [[0x97, o.tcxoVoltage, (((o.tcxoTimeout.setWidth 32 : U32) <<< 6) >>> 16).setWidth 8,
      (((o.tcxoTimeout.setWidth 32 : U32) <<< 6) >>> 8).setWidth 8, ((o.tcxoTimeout.setWidth 32 : U32) <<< 6).setWidth 8], writeCmd 0x911 0] else []), [], ?_, by simp, ?_, ?_, by simp, fun _ => rfl⟩
    · cases hal.ioDeinit <;> cases o.useTcxo <;> simp
    · simp only [initHead, sent_append, sent_opt]
      cases o.useTcxo <;> rfl
    · cases o.useTcxo <;> simp
    · intro h; simp [h]
  · intro r1 r2 r3 r4 r5 w1 w2 c1 c2 t1 t2 m0 m1 r6 r7 c3 c4 w3 w4 c5 c6 c7
    refine ⟨⟨1000, 20000, r1, r2, r3, r4, _, by simp only [initHead, List.append_assoc]; rfl, by decide, by decide, ?_⟩,
      ([[0xc0, 0], [0x80, 0], [0x07, 0, 0]] : List Bytes) ++ (if o.useTcxo then [[0x97, o.tcxoVoltage, (((o.tcxoTimeout.setWidth 32 : U32) <<< 6) >>> 16).setWidth 8,
      (((o.tcxoTimeout.setWidth 32 : U32) <<< 6) >>> 8).setWidth 8, ((o.tcxoTimeout.setWidth 32 : U32) <<< 6).setWidth 8], writeCmd 0x911 0] else []),
      [[0x96, if o.useDcdc then 0x01 else 0x00], [0x84, 0x04], [0xc0, 0], [0x80, 0], [0x8a, 0x01], [0x0d, 0x07, 0x40, 0x34, 0x44],
        [0x08, 0x02, 0x43, 0x02, 0x43, 0, 0, 0, 0]], ?_, by simp, ?_, ?_, by simp, nofun⟩
    · cases hal.ioDeinit <;> cases o.useTcxo <;> simp [initTail]
    · simp only [initHead, initTail, sent_append, sent_opt]
      cases o.useTcxo <;> rfl
    · cases o.useTcxo <;> simp
    · intro h; simp [h]

/-- A start with and without TCXO. -/
example : (framesOf true (.init (some ⟨true, true, true⟩) (some ⟨true, true, true, 320, 0x02⟩)) []).map (fun x => x.2.take 7) =
    some [[0xc0, 0], [0x80, 0], [0x07, 0, 0], [0x97, 0x02, 0, 0x50, 0], [0x0d, 0x09, 0x11, 0], [0x89, 0x7f], [0x17, 0xff, 0xff, 0xff]] := by decide +kernel

/-- **C124** (SX126x) After any sequence of calls whose last `init` succeeded, sleeping and waking included, the chip raises DIO1, and no other line, on
exactly TxDone, RxDone, CrcErr and Timeout, and runs on the regulator `init` was told to use. -/
theorem C124_lines {log : List DItem} {s : St} (h : Calls step .zero log s) (hu : (wish log).up = true) :
    ∃ l, bus (wire log) = some l ∧ ∀ c : Lines, (c.run l).irq = some (stackIrqs, stackIrqs, 0, 0) ∧ (c.run l).dcdc = lastDcdc log ∧
      (lastDcdc log).isSome = true := by
  suffices key : ∃ l, bus (wire log) = some l ∧ ∀ c : Lines, (wish log).up = true → (c.run l).irq = some (stackIrqs, stackIrqs, 0, 0) ∧
      (c.run l).dcdc = lastDcdc log ∧ (lastDcdc log).isSome = true by
    obtain ⟨l, hb, h⟩ := key
    exact ⟨l, hb, fun c => h c hu⟩
  clear hu
  induction h with
  | nil => exact ⟨[], rfl, fun c h => nomatch h⟩
  | @snoc log s s' op tr r hc hv e ih =>
    obtain ⟨l, hb, ih⟩ := ih
    rw [Sx127x.wire_snoc, lastDcdc_snoc]
    have hw : (wish (log ++ [⟨op, tr, r⟩])) = (wish log).next ⟨op, tr, r⟩ := by simp [wish, List.foldl_append]
    rw [hw]
    have old : (∀ a b, op ≠ .init a b) → ((wish log).next ⟨op, tr, r⟩).up = (wish log).up := by
      intro h
      cases op <;> first | rfl | exact (h _ _ rfl).elim | (simp only [Wish.next]; split <;> rfl)
    cases op with
    | init hal o =>
      have down : tr = [] → r = .bool false → ∃ l', bus (wire log ++ tr) = some l' ∧ ∀ c : Lines, ((wish log).next ⟨.init hal o, tr, r⟩).up = true →
          (c.run l').irq = some (stackIrqs, stackIrqs, 0, 0) ∧ (c.run l').dcdc = (match o with | some o => some o.useDcdc | none => lastDcdc log) ∧
          (match o with | some o => some o.useDcdc | none => lastDcdc log).isSome = true := by
        rintro rfl rfl
        refine ⟨l, by rw [List.append_nil]; exact hb, fun c h => nomatch h⟩
      cases hal with
      | none =>
        obtain ⟨h1, ex⟩ := exec_ret e
        injection ex with ex _
        cases o <;> exact down h1 ex
      | some hal =>
        cases o with
        | none =>
          obtain ⟨h1, ex⟩ := exec_ret e
          injection ex with ex _
          exact down h1 ex
        | some o =>
          obtain ⟨l', ok, hb', hr, hp⟩ := init_lists e (P := fun ok l => ok = true → ∀ c : Lines, c.run l = ⟨some (stackIrqs, stackIrqs, 0, 0), some o.useDcdc⟩)
            (fun _ _ _ _ _ _ _ _ _ _ _ _ _ _ _ h => nomatch h) (fun r1 r2 r3 r4 r5 w1 w2 c1 c2 t1 t2 m0 m1 r6 r7 c3 c4 w3 w4 c5 c6 c7 _ c => by
              rw [lines_append]
              generalize c.run _ = c'
              simp only [initTail]
              cases hal.ioDeinit <;> cases o.useDcdc <;> rfl)
          refine ⟨l ++ l', bus_append hb hb', fun c hu => ?_⟩
          subst hr
          have hok : ok = true := by cases ok; exact nomatch hu; rfl
          have := hp hok (c.run l)
          rw [lines_quiet] at this
          rw [lines_append, this]
          exact ⟨rfl, rfl, rfl⟩
    | _ =>
      obtain ⟨l', hb', hm⟩ := made_step (by simp) e
      refine ⟨l ++ l', bus_append hb hb', fun c hu => ?_⟩
      rw [old (by simp)] at hu
      rw [lines_append, ← lines_quiet l', lines_made hm]
      exact ih c hu

/-- The history of the demo: the regulator asked for. -/
example : Calls step .zero (madeBy day) (stateBy .zero day) ∧ (wish (madeBy day)).up = true ∧ lastDcdc (madeBy day) = some true :=
  ⟨day_calls, by decide +kernel, by decide +kernel⟩

/-- **C127** does not hold of the code (SX126x): after any sequence of calls whose last `init` succeeded, `rand` has the chip listen without end (SetRx
with 0xffffff) while it still raises DIO1 on RxDone, CrcErr and Timeout; the interrupts are not masked before the chip goes to sleep again. -/
theorem C127_armed {log : List DItem} {s s' : St} {tr : Trace} {r : DRet} (h : Calls step .zero log s) (hu : (wish log).up = true)
    (e : Exec (step s .rand) tr (r, s')) :
    ∃ l l' a m b m' d, bus (wire log) = some l ∧ bus tr = some l' ∧ quiet l' = a ++ [.frame [0x82, 0xff, 0xff, 0xff] m] ++ b ++ [.frame [0x84, 0x04] m'] ++ d ∧
      (∀ c : Lines, (c.run (l ++ a)).irq = some (stackIrqs, stackIrqs, 0, 0)) ∧ ∀ c : Lines, c.run b = c := by
  obtain ⟨l, hb, hl⟩ := C124_lines h hu
  obtain ⟨hal, hh⟩ := hal_of_exec e (by simp) (by simp) (by simp)
  simp only [step, hh] at e
  obtain ⟨x, b', e1, _, _⟩ := exec_with e
  suffices key : wd (rand hal s.pkt) s.isSleep fun _ _ x => ∃ a m b m' d, x = a ++ [.frame [0x82, 0xff, 0xff, 0xff] m] ++ b ++ [.frame [0x84, 0x04] m'] ++ d ∧
      Made a ∧ Made b by
    obtain ⟨l', hb', a, m, b, m', d, h1, h2, h3⟩ := wd_exec key e1
    refine ⟨l, l', a, m, b, m', d, hb, hb', h1, fun c => ?_, lines_made h3⟩
    rw [lines_append, lines_made h2]
    exact (hl c).1
  refine wd_rand fun pre a0 a1 a2 a3 v n1 n2 m1 m2 m3 r d0 d1 d2 d3 x0 x1 x2 x3 m4 r1 r2 hw => ?_
  have : ∀ (a b c d f : List Bus) (x y z w : Bus), a ++ b ++ c ++ d ++ [x, y, z] ++ f ++ [w] = (a ++ b ++ c ++ d) ++ [x] ++ [y] ++ [z] ++ (f ++ [w]) := by simp
  exact ⟨_, m3, _, m4, _, this .., made_append (made_append (made_append (made_wake hw) (made_frames (by simp [pktFrames]))) (made_frames (by simp)))
      (made_opt (by simp) (by simp)), made_frames (by simp)⟩

/-- The history of the demo, and what is sent for a random number then. -/
example : Calls step .zero (madeBy day) (stateBy .zero day) ∧ (wish (madeBy day)).up = true ∧
    (framesOf true .rand []).map (fun x => x.2.filterMap irqParams) = some [] :=
  ⟨day_calls, by decide +kernel, by decide +kernel⟩

/-! ## Rest -/

theorem rests_append : ∀ (a b : List Bus) (z : Option Nat), rests z (a ++ b) = (rests z a).bind (rests · b)
  | [], _, _ => rfl
  | .frame o m :: a, b, z => by
    simp only [List.cons_append, rests]
    split
    · rfl
    · exact rests_append a b _
  | .other c r :: a, b, z => by
    cases c <;> simp only [List.cons_append, rests] <;> exact rests_append a b _

theorem rests_quiet : ∀ (l : List Bus) (z : Option Nat), rests z (quiet l) = rests z l
  | [], _ => rfl
  | .frame o m :: l, z => by
    simp only [quiet, rests]
    split
    · rfl
    · exact rests_quiet l _
  | .other c r :: l, z => by
    cases c <;> simp only [quiet, rests] <;> exact rests_quiet l _

/-- Enough rest. -/
def Rested (z : Option Nat) : Prop := ∀ t, z = some t → 500 ≤ t

theorem rested_frame {z : Option Nat} (h : Rested z) : tooSoon z = false := by
  cases z with
  | none => rfl
  | some t =>
    have := h t rfl
    simp only [tooSoon, decide_eq_false_iff_not]
    omega

theorem rests_made {l : List Bus} (h : Made l) : ∀ z, Rested z → ∃ z', rests z l = some z' ∧ Rested z' := by
  induction h with
  | nil => exact fun z h => ⟨z, rfl, h⟩
  | @other k r l h1 h2 _ ih =>
    intro z hz
    have : rests z (.other k r :: l) = rests z l := by
      cases k <;> first | rfl | exact (h1 _ rfl).elim | exact (h2 _ rfl).elim
    rw [this]
    exact ih z hz
  | @frame k o m l h1 h2 h3 _ ih =>
    intro z hz
    rw [rests, rested_frame hz, if_neg (by decide), if_neg (by simpa using h1)]
    exact ih none (fun _ h => nomatch h)
  | sleep _ ih =>
    intro z hz
    rw [rests, rested_frame hz, if_neg (by decide)]
    exact ih (some 1000) (by rintro _ ⟨⟩; decide)
  | nap _ ih =>
    intro z hz
    rw [rests, rested_frame hz, if_neg (by decide)]
    exact ih (some 1000) (by rintro _ ⟨⟩; decide)

theorem rests_step {s s' : St} {op : DOp} {tr : Trace} {r : DRet} (e : Exec (step s op) tr (r, s')) :
    ∃ l, bus tr = some l ∧ ∀ z, Rested z → ∃ z', rests z l = some z' ∧ Rested z' := by
  by_cases hi : ∃ hal o, op = .init hal o
  · obtain ⟨hal, o, rfl⟩ := hi
    have nil : tr = [] → ∃ l, bus tr = some l ∧ ∀ z, Rested z → ∃ z', rests z l = some z' ∧ Rested z' := by
      rintro rfl
      exact ⟨[], rfl, fun z h => ⟨z, rfl, h⟩⟩
    cases hal with
    | none => exact nil (exec_ret e).1
    | some hal =>
      cases o with
      | none => exact nil (exec_ret e).1
      | some o =>
        obtain ⟨l, ok, hb, _, h⟩ := init_lists e (P := fun _ l => ∀ z, rests z l = some none)
          (fun r1 r2 r3 r4 r5 w1 w2 c1 c2 t1 t2 m0 m1 x y z => by
            simp only [initHead]
            cases hal.ioDeinit <;> cases o.useTcxo <;> rfl)
          (fun r1 r2 r3 r4 r5 w1 w2 c1 c2 t1 t2 m0 m1 r6 r7 c3 c4 w3 w4 c5 c6 c7 z => by
            simp only [initHead, initTail]
            cases hal.ioDeinit <;> cases o.useTcxo <;> rfl)
        refine ⟨l, hb, fun z _ => ⟨none, ?_, fun _ h => nomatch h⟩⟩
        rw [← rests_quiet]
        exact h z
  · obtain ⟨l, hb, hm⟩ := made_step (fun a b h => hi ⟨a, b, h⟩) e
    refine ⟨l, hb, fun z hz => ?_⟩
    rw [← rests_quiet]
    exact rests_made hm z hz

/-- **C125** (SX126x) In any sequence of driver calls, after each SetSleep at least 500 µs pass before the chip is next sent anything. -/
theorem C125_rest {log : List DItem} {s : St} (h : Calls step .zero log s) :
    ∃ l z, bus (wire log) = some l ∧ rests none l = some z := by
  suffices key : ∃ l z, bus (wire log) = some l ∧ rests none l = some z ∧ Rested z by
    obtain ⟨l, z, h1, h2, _⟩ := key
    exact ⟨l, z, h1, h2⟩
  induction h with
  | nil => exact ⟨[], none, rfl, rfl, fun _ h => nomatch h⟩
  | @snoc log s s' op tr r hc hv e ih =>
    obtain ⟨l, z, hb, h1, h2⟩ := ih
    obtain ⟨l', hb', h'⟩ := rests_step e
    obtain ⟨z', h3, h4⟩ := h' z h2
    refine ⟨l ++ l', z', ?_, ?_, h4⟩
    · rw [Sx127x.wire_snoc]
      exact bus_append hb hb'
    · rw [rests_append, h1]
      exact h3

/-- The demo puts the chip to sleep and wakes it; a wake-up 10 µs after SetSleep would be noticed. -/
example : Calls step .zero (madeBy day) (stateBy .zero day) ∧
    rests none [.frame [0x84, 0x04] [], .other (.delay 10) 0, .frame [0xc0, 0] []] = none := ⟨day_calls, by decide⟩

/-! ## Image calibration -/

/-- A frequency within the calibrated band. -/
def InBand (b : Nat × Nat) (f : U32) : Prop := b.1 * 1000000 ≤ f.toNat ∧ f.toNat ≤ b.2 * 1000000

/-- **C126** `set_frequency(f)` calibrates the image rejection for a band which contains `f`, if `f` is between 860 and 876 MHz.  Missing: other
frequencies, see `C126_other_band`. -/
theorem C126_image_partial {s s' : St} {f : U32} {tr : Trace} {r : DRet} (hf : 860000000 ≤ f.toNat ∧ f.toNat ≤ 876000000)
    (e : Exec (step s (.setFrequency f)) tr (r, s')) :
    ∃ l b, bus tr = some l ∧ (sent l).filterMap imageBand = [b] ∧ InBand b f := by
  obtain ⟨l, w, cal, cmd, n, hb, hw, hs, hc, hr, _⟩ := C71_frequency (by omega) e
  refine ⟨l, (860, 876), hb, ?_, hf⟩
  have hcmd : imageBand cmd = none := by
    unfold rfFreq at hr
    split at hr
    · rfl
    · exact nomatch hr
  rw [hs]
  rcases hw with rfl | rfl
  · simp [hc, hcmd]
  · rw [List.filterMap_append, show List.filterMap imageBand [[0xc0, 0], [0x80, 0]] = [] from rfl]
    simp [hc, hcmd]

/-- A frequency of the RU864 band. -/
example : 860000000 ≤ (868900000 : U32).toNat ∧ (868900000 : U32).toNat ≤ 876000000 := by decide

/-- **C126** does not hold of the code: for every other frequency up to 4095 MHz the image rejection is calibrated for a band which does not contain it. -/
theorem C126_other_band {s s' : St} {f : U32} {tr : Trace} {r : DRet} (hf : f.toNat < 860000000 ∨ 876000000 < f.toNat) (hm : f.toNat ≤ 4095000000)
    (e : Exec (step s (.setFrequency f)) tr (r, s')) :
    ∃ l b, bus tr = some l ∧ (sent l).filterMap imageBand = [b] ∧ ¬ InBand b f := by
  obtain ⟨l, w, cal, cmd, n, hb, hw, hs, hc, hr, _⟩ := C71_frequency hm e
  refine ⟨l, (860, 876), hb, ?_, fun h => by have h1 : 860 * 1000000 ≤ f.toNat := h.1; have h2 : f.toNat ≤ 876 * 1000000 := h.2; omega⟩
  have hcmd : imageBand cmd = none := by
    unfold rfFreq at hr
    split at hr
    · rfl
    · exact nomatch hr
  rw [hs]
  rcases hw with rfl | rfl
  · simp [hc, hcmd]
  · rw [List.filterMap_append, show List.filterMap imageBand [[0xc0, 0], [0x80, 0]] = [] from rfl]
    simp [hc, hcmd]

/-- 433.175 MHz on an initialised driver. -/
example : ((framesOf true (.setFrequency 433175000) []).map fun x => x.2.filterMap imageBand) = some [(860, 876)] := by decide +kernel

end Uwan.Sx126x

namespace Uwan.Sx127x
open Spec Prog

/-! ## SX127x: start-up -/

theorem paced_quiet (a : Byte) (n : Nat) : ∀ (l : List Bus) (t : Nat), paced a n t (quiet l) = paced a n t l
  | [], _ => rfl
  | .frame [] m :: l, t => by simp only [quiet, paced]; exact paced_quiet a n l t
  | .frame (c :: o) m :: l, t => by simp only [quiet, paced, paced_quiet a n l]
  | .other c r :: l, t => by
    cases c <;> simp only [quiet, paced] <;> exact paced_quiet a n l _

/-- Followed by a well-paced end, from any time. -/
def Paces {α : Type} (p : Prog α) (a : Byte) (n : Nat) (t : Nat) (k : α → Nat → Prop) : Prop :=
  wp p fun x l => ∃ t', k x t' ∧ ∀ r, paced a n t (l ++ r) = paced a n t' r

theorem paces_bind {α β : Type} {p : Prog α} {f : α → Prog β} {a : Byte} {n t : Nat} {k : β → Nat → Prop}
    (h : Paces p a n t fun x t' => Paces (f x) a n t' k) : Paces (p >>= f) a n t k :=
  wp_bind (wp_mono h fun x l ⟨t', h1, h2⟩ => wp_mono h1 fun y l' ⟨t'', h3, h4⟩ =>
    ⟨t'', h3, fun r => by rw [List.append_assoc, h2, h4]⟩)

theorem paces_mono {α : Type} {p : Prog α} {a : Byte} {n t : Nat} {k k' : α → Nat → Prop} (h : Paces p a n t k) (i : ∀ x t, k x t → k' x t) :
    Paces p a n t k' :=
  wp_mono h fun x _ ⟨t', h1, h2⟩ => ⟨t', i x t' h1, h2⟩

theorem paces_pure {α : Type} {x : α} {a : Byte} {n t : Nat} {k : α → Nat → Prop} (h : k x t) : Paces (pure x) a n t k :=
  wp_ret ⟨t, h, fun _ => rfl⟩

theorem paces_delay {a : Byte} {n t d : Nat} {k : Unit → Nat → Prop} (h : k () (t + d)) : Paces (do_ (.delay d)) a n t k :=
  wp_do (by trivial) fun _ => ⟨t + d, h, fun _ => rfl⟩

theorem paces_do {c : Call} (hc : Plain c) (hd : ∀ d, c ≠ .delay d) {a : Byte} {n t : Nat} {k : Unit → Nat → Prop} (h : k () t) :
    Paces (do_ c) a n t k :=
  wp_do hc fun _ => ⟨t, h, fun _ => by cases c <;> first | rfl | exact (hd _ rfl).elim⟩

theorem paces_opt {c : Call} (hc : Plain c) (hd : ∀ d, c ≠ .delay d) {b : Bool} {a : Byte} {n t : Nat} {k : Unit → Nat → Prop} (h : k () t) :
    Paces (opt b c) a n t k :=
  wp_opt hc fun _ => ⟨t, h, fun _ => by cases b <;> cases c <;> first | rfl | exact (hd _ rfl).elim⟩

/-- A reading of the paced register. -/
theorem paces_read {a : Byte} {n t : Nat} {k : Byte → Nat → Prop} (ht : n ≤ t) (h : ∀ v, k v 0) : Paces (readReg a) a n t k :=
  wp_readReg fun m v => ⟨0, h v, fun r => by simp [paced, ht]⟩

theorem paces_readOther {a b : Byte} (hb : b ≠ a) {n t : Nat} {k : Byte → Nat → Prop} (h : ∀ v, k v t) : Paces (readReg b) a n t k :=
  wp_readReg fun m v => ⟨t, h v, fun r => by simp [paced, hb]⟩

theorem paces_write {a b d : Byte} (hb : b ||| 0x80 ≠ a) {n t : Nat} {k : Unit → Nat → Prop} (h : k () t) : Paces (writeReg b d) a n t k :=
  wp_writeReg fun _ _ => ⟨t, h, fun _ => if_neg hb⟩

theorem paces_writes {a b : Byte} {d : Bytes} (hb : b ||| 0x80 ≠ a) {n t : Nat} {k : Unit → Nat → Prop} (h : k () t) :
    Paces (writeRegs b d) a n t k :=
  wp_bind (wp_frame fun _ _ => wp_ret ⟨t, h, fun _ => if_neg hb⟩)

theorem paces_exec {α : Type} {p : Prog α} {a : Byte} {n : Nat} (h : Paces p a n 0 fun _ _ => True) {tr : Trace} {x : α} (e : Exec p tr x) :
    ∃ l, bus tr = some l ∧ paced a n 0 l = true := by
  obtain ⟨l, hb, t', _, hq⟩ := h.2 _ _ e
  refine ⟨l, hb, ?_⟩
  have := hq []
  rw [List.append_nil, paced_quiet] at this
  exact this

theorem paces_calLoop : ∀ (n t : Nat), Paces (calLoop n) 0x3b 1000 t fun _ _ => True
  | 0, _ => paces_pure trivial
  | n + 1, t => paces_bind (paces_delay (paces_bind (paces_read (by omega) fun v => by
      split
      · exact paces_calLoop n 0
      · exact paces_pure trivial)))

theorem paces_init (hal : Hal) : Paces (init hal) 0x3b 1000 0 fun _ _ => True := by
  refine paces_bind (paces_do (by trivial) (by simp) (paces_bind (paces_delay (paces_bind (paces_do (by trivial) (by simp)
    (paces_bind (paces_delay (paces_bind (paces_opt (by trivial) (by simp) (paces_bind (paces_readOther (by decide) fun v => ?_)))))))))))
  split
  · exact paces_pure trivial
  · refine paces_bind (paces_bind (paces_writes (by decide) (paces_bind (paces_read (by decide) fun v => paces_bind (paces_write (by decide)
      (paces_bind (paces_mono (paces_calLoop _ _) ?_)))))))
    intro x t' _
    refine paces_pure ?_
    split
    · exact paces_pure trivial
    · exact paces_bind (paces_write (by decide) (paces_bind (paces_write (by decide) (paces_bind (paces_write (by decide)
        (paces_bind (paces_write (by decide) (paces_bind (paces_write (by decide) (paces_pure trivial))))))))))

theorem paces_randLoop : ∀ (n i : Nat) (r : U32) (ub : Bool) (t : Nat), Paces (randLoop n i r ub) 0x2c 1000 t fun _ _ => True
  | 0, _, _, _, _ => paces_pure trivial
  | n + 1, i, r, ub, t => paces_bind (paces_delay (paces_bind (paces_read (by omega) fun v => paces_randLoop n _ _ _ 0)))

theorem paces_setOpMode {m a : Byte} (h1 : (1 : Byte) ≠ a) (h2 : (0x81 : Byte) ≠ a) {n t : Nat} {k : Unit → Nat → Prop} (h : k () t) :
    Paces (setOpMode m) a n t k :=
  paces_bind (paces_readOther h1 fun _ => paces_write (by simpa using h2) h)

theorem paces_rand : Paces rand 0x2c 1000 0 fun _ _ => True := by
  refine paces_bind (paces_write (by decide) (paces_bind (paces_setOpMode (by decide) (by decide) (paces_bind (paces_mono (paces_randLoop _ _ _ _ _) ?_)))))
  exact fun x t' _ => paces_bind (paces_setOpMode (by decide) (by decide) (paces_pure trivial))

/-- **C125** (SX127x) `init` lets at least 1 ms pass between two accesses of the calibration register, as `rand` does between two readings of the
random source: the 32 bits come from readings at least 1 ms apart. -/
theorem C125_paced {s s' : St} {op : DOp} {tr : Trace} {r : DRet} (e : Exec (step s op) tr (r, s')) :
    (∀ hal o, op = .init (some hal) o → ∃ l, bus tr = some l ∧ paced 0x3b 1000 0 l = true) ∧
    (op = .rand → ∃ l, bus tr = some l ∧ paced 0x2c 1000 0 l = true) := by
  refine ⟨?_, ?_⟩
  · rintro hal o rfl
    obtain ⟨_, e1, _⟩ := exec_map e
    exact paces_exec (paces_init hal) e1
  · rintro rfl
    obtain ⟨hal, hh⟩ := hal_of_exec e (by simp) (by simp) (by simp)
    simp only [step, hh] at e
    obtain ⟨_, e1, _⟩ := exec_map e
    exact paces_exec paces_rand e1

/-- Readings 10 µs apart would be noticed. -/
example : paced 0x2c 1000 0 [.other (.delay 1000) 0, .frame [0x2c, 0] [0, 0], .other (.delay 10) 0, .frame [0x2c, 0] [0, 0]] = false := by decide

/-- The resets and delays at the start of `init`. -/
theorem start_init {hal : Hal} : wp (init hal) fun _ l => ResetFirst l := by
  have noR : ∀ {α : Type} (p : Prog α), wr p (fun _ x => Reg.reset ∉ x) → wp p fun _ l => ∀ x r, Bus.other (.reset x) r ∉ l := by
    intro α p h
    refine wp_mono h fun _ l h x r hm => h ?_
    simp only [regs, List.mem_flatMap]
    exact ⟨_, hm, by simp [accesses]⟩
  refine wp_bind (wp_do (by trivial) fun r1 => wp_bind (wp_do (by trivial) fun r2 => wp_bind (wp_do (by trivial) fun r3 => wp_bind (wp_do (by trivial) fun r4 => ?_))))
  refine wp_mono (noR _ ?_) fun _ l h => ⟨150, 6000, r1, r2, r3, r4, l, by simp, by decide, by decide, h⟩
  refine wr_bind (wr_opt (by trivial) (by simp) (wr_bind (wr_readReg (by decide) fun v => ?_)))
  split
  · exact wr_pure (by simp)
  · refine wr_bind (wr_bind (wr_setFreq (wr_bind (wr_readReg (by decide) fun v => wr_bind
      (wr_writeReg (by decide) (wr_bind (wr_calLoop 254 fun vs h0 h1 h2 h3 => wr_pure ?_)))))))
    split
    · exact wr_pure (by simp [burst])
    · refine wr_bind (wr_writeReg (by decide) (wr_bind (wr_writeReg (by decide) (wr_bind (wr_setPublicNetwork ?_)))))
      exact wr_bind (wr_writeReg (by decide) (wr_bind (wr_writeReg (by decide) (wr_pure (by simp [burst])))))

/-- **C124** (SX127x) `init` resets the chip once and first, holding the line for at least 100 µs and waiting at least 5 ms.  If the chip answers with
the right version, the image and RSSI calibration is started (bit 6 of RegImageCal, the other bits as read) once, before the first
poll, tuned to 868.8 MHz (within 62 Hz), and while the chip is in FSK standby mode as it must be (datasheet 2.1.3.8). -/
theorem C124_start {s s' : St} {hal : Hal} {o : Option Sx126x.Opts} {tr : Trace} {r : DRet}
    (e : Exec (step s (.init (some hal) o)) tr (r, s')) :
    ∃ l, bus tr = some l ∧ ResetFirst (quiet l) ∧ (readsOf 0x42 (regs l) = [0x12] →
      ∃ a v b, regs l = a ++ [.read 0x3b v, .write 0x3b (v ||| 0x40)] ++ b ∧ readsOf 0x3b a = [] ∧ writesOf 0x3b a = [] ∧
        writesOf 0x3b b = [] ∧ (∀ m : OpMode, m.run a = .reset) ∧
        ∀ c : Chip, (c.run a).frf * 32000000 ≤ 868800000 * 2 ^ 19 ∧ 868800000 * 2 ^ 19 < ((c.run a).frf + 1) * 32000000) := by
  obtain ⟨ok, e1, ex⟩ := exec_map e
  obtain ⟨l, hb, h1⟩ := start_init.2 _ _ e1
  refine ⟨l, hb, h1, ?_⟩
  suffices key : wr (init hal) fun _ x => readsOf 0x42 x = [0x12] →
      ∃ a v b, x = a ++ [.read 0x3b v, .write 0x3b (v ||| 0x40)] ++ b ∧ readsOf 0x3b a = [] ∧ writesOf 0x3b a = [] ∧
        writesOf 0x3b b = [] ∧ (∀ m : OpMode, m.run a = .reset) ∧
        ∀ c : Chip, (c.run a).frf * 32000000 ≤ 868800000 * 2 ^ 19 ∧ 868800000 * 2 ^ 19 < ((c.run a).frf + 1) * 32000000 by
    obtain ⟨l', hb', h⟩ := wr_exec key e1
    rw [hb] at hb'
    injection hb' with hb'
    subst hb'
    exact h
  have frq : ∀ c : Chip, (c.run (initHead 0x12 ++ calFreq)).frf = 14234419 := fun c => by
    simp [initHead, calFreq, burst, Chip.run, Chip.access, Chip.frf, put]
  refine wr_init ?_ ?_ ?_
  · intro v hv h
    simp only [initHead, readsOf, if_true] at h
    injection h with h
    exact (hv h).elim
  · intro v vs _ _ _
    exact ⟨initHead 0x12 ++ calFreq, v, vs.map (.read 0x3b ·), rfl, rfl, rfl, writesOf_reads .., fun _ => rfl, fun c => by rw [frq]; decide⟩
  · intro v vs _ _ _ _
    refine ⟨initHead 0x12 ++ calFreq, v, vs.map (.read 0x3b ·) ++ _, by simp only [List.append_assoc]; rfl, rfl, rfl, ?_, fun _ => rfl, fun c => by rw [frq]; decide⟩
    rw [writesOf_append, writesOf_reads]
    rfl

/-- The version read in the demo. -/
example : (regsOf (.init (some ⟨true, true, true⟩) none) [0, 0x12, 0, 0, 0, 0, 0, 0x82, 0, 0, 0, 0x20, 0, 0x20, 0, 0x00]).map
    (fun x => (readsOf 0x42 x.2, writesOf 0x3b x.2)) = some ([0x12], [0xc2]) := by decide +kernel

/-- Only `init` writes the ramp and amplifier registers. -/
theorem front_step {s s' : St} {op : DOp} {tr : Trace} {r : DRet} (hv : op.Valid) (hi : ∀ a b, op ≠ .init a b) (e : Exec (step s op) tr (r, s')) :
    ∃ l, bus tr = some l ∧ writesOf 0x0a (regs l) = [] ∧ writesOf 0x0c (regs l) = [] ∧ noReset (regs l) := by
  refine wr_step (P := fun _ l => writesOf 0x0a l = [] ∧ writesOf 0x0c l = [] ∧ noReset l) hv ?_ ?_ ?_ ?_ ?_ ?_ ?_ ?_ ?_ ?_ ?_ ?_ e
  · intro hal o h
    exact (hi _ _ h).elim
  · intros; simp [writesOf, noReset]
  · intros; simp [writesOf, noReset]
  · intros; simp [burst, writesOf, noReset]
  · intros; simp [writesOf, noReset]
  · intros; simp [writesOf, noReset]
  · intros; simp [writesOf, noReset]
  · intro buf _ v; simp [burst_zero, writesOf, writesOf_append, writesOf_map, noReset]
  · intros; simp [writesOf, noReset]
  · intros; simp [pktRegs, writesOf, writesOf_append, writesOf_reads, noReset]
  · intros; simp [writesOf, writesOf_append, writesOf_reads, noReset]
  · intros; simp [writesOf, noReset]

/-- **C124** (SX127x) After any sequence of calls whose last `init` succeeded the power amplifier ramps in 50 µs (RegPaRamp, 8) and the receiver's
low-noise amplifier works at highest gain (RegLna bits 7-5: 1) and boosted (bits 1-0: 3). -/
theorem C124_front {log : List DItem} {s : St} (h : Calls step .zero log s) (hu : lastInit log = some (.bool true)) :
    ∃ l, bus (wire log) = some l ∧ ∀ c : Chip, ((c.run (regs l)).reg 0x0a).toNat % 16 = 8 ∧
      ((c.run (regs l)).reg 0x0c).toNat / 32 = 1 ∧ ((c.run (regs l)).reg 0x0c).toNat % 4 = 3 := by
  suffices key : ∃ l, bus (wire log) = some l ∧ (lastInit log = some (.bool true) → ∀ c : Chip, (c.run (regs l)).reg 0x0a = 8 ∧ (c.run (regs l)).reg 0x0c = 0x23) by
    obtain ⟨l, hb, h⟩ := key
    refine ⟨l, hb, fun c => ?_⟩
    rw [(h hu c).1, (h hu c).2]
    decide
  clear hu
  induction h with
  | nil => exact ⟨[], rfl, fun h => nomatch h⟩
  | @snoc log s s' op tr r hc hv e ih =>
    obtain ⟨l, hb, ih⟩ := ih
    rw [wire_snoc, lastInit_snoc]
    have old : (∀ a b, op ≠ .init a b) → ∃ l', bus (wire log ++ tr) = some l' ∧ (lastInit log = some (.bool true) →
        ∀ c : Chip, (c.run (regs l')).reg 0x0a = 8 ∧ (c.run (regs l')).reg 0x0c = 0x23) := by
      intro hi
      obtain ⟨l', hb', h1, h2, h3⟩ := front_step hv hi e
      refine ⟨l ++ l', bus_append hb hb', fun hl c => ?_⟩
      rw [regs_append, chip_append, reg_kept (by decide) h1 h3, reg_kept (by decide) h2 h3]
      exact ih hl c
    cases op with
    | init hal o =>
      cases hal with
      | none => exact (exec_fail e).elim
      | some hal =>
        obtain ⟨ok, e1, ex⟩ := exec_map e
        injection ex with ex _
        suffices key : wr (init hal) fun ok l => ok = true → ∀ c : Chip, (c.run l).reg 0x0a = 8 ∧ (c.run l).reg 0x0c = 0x23 by
          obtain ⟨l', hb', hq⟩ := wr_exec key e1
          refine ⟨l ++ l', bus_append hb hb', fun hl c => ?_⟩
          rw [regs_append, chip_append]
          refine hq ?_ _
          subst ex
          injection hl with hl
          injection hl
        refine wr_init (fun _ _ h => (nomatch h)) (fun _ _ _ _ h => (nomatch h)) fun v vs _ _ _ _ c => ?_
        rw [chip_append]
        simp [Chip.run, Chip.access, put]
    | _ => exact old (by simp)

/-- A history whose `init` succeeded. -/
example : Calls step .zero (madeBy day) (stateBy .zero day) ∧ lastInit (madeBy day) = some (.bool true) := ⟨day_calls, by decide +kernel⟩

/-- **C127** (SX127x) While `rand` takes its readings the chip is in continuous reception and has all its interrupts masked, and nothing is written in between. -/
theorem C127_masked {s s' : St} {tr : Trace} {r : DRet} (e : Exec (step s .rand) tr (r, s')) :
    ∃ l a, ∃ vs : Bytes, ∃ b, bus tr = some l ∧ regs l = a ++ vs.map (.read 0x2c ·) ++ b ∧ vs.length = 32 ∧ readsOf 0x2c a = [] ∧ readsOf 0x2c b = [] ∧
      (∀ m : OpMode, (m.run a).mode = 5) ∧ ∀ c : Chip, (c.run a).reg 0x11 = 0xff := by
  obtain ⟨hal, hh⟩ := hal_of_exec e (by simp) (by simp) (by simp)
  simp only [step, hh] at e
  obtain ⟨x, e1, _⟩ := exec_map e
  suffices key : wr rand fun _ l => ∃ a, ∃ vs : Bytes, ∃ b, l = a ++ vs.map (.read 0x2c ·) ++ b ∧ vs.length = 32 ∧ readsOf 0x2c a = [] ∧ readsOf 0x2c b = [] ∧
      (∀ m : OpMode, (m.run a).mode = 5) ∧ ∀ c : Chip, (c.run a).reg 0x11 = 0xff by
    obtain ⟨l, hb, a, vs, b, h⟩ := wr_exec key e1
    exact ⟨l, a, vs, b, hb, h⟩
  refine wr_rand fun v w vs hl => ⟨[.write 0x11 0xff, .read 1 v, .write 1 (opVal v 5)], vs, [.read 1 w, .write 1 (opVal w 0)], rfl, hl, rfl, rfl, fun m => ?_, fun c => rfl⟩
  have := (mode_rmw (m := m) (v := v) (mode := 5) (by decide)).1
  exact this

end Uwan.Sx127x
