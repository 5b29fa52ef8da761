import Verif.Lemmas.Timing

/-!
# Exchanges in real time (C122)
-/

namespace Uwan
open Spec

variable {E : Env}

/-- C122: when the timers and the radio are late by less than the second between the windows minus the time the radio listens in
the first (eight symbols, at most 262144 µs), first windows time out before the second is to open; so the exchange completes as in
C10: after at most five interrupts and timer expiries, with one result. -/
theorem C122_completes {tol : Tolerance} {log seg : List (Item × Nat)} {x0 : Item × Nat} {s : St}
    (hb : tol.timer + tol.irq + 262144 < 1000000)
    (h : Hist E (untimed (log ++ [x0] ++ seg)) s) (ho : obeys [] (untimed (log ++ [x0] ++ seg)) = true)
    (ht : timely tol [] (log ++ [x0] ++ seg) = true)
    (h0 : sentItem x0.1 = true) (hseg : ∀ x ∈ seg, sentItem x.1 = false) :
    seg.countP (fun x => isEnv x.1.op) ≤ 5 ∧
    ((hw (untimed (log ++ [x0] ++ seg))).rest = true ↔ exch (trace (untimed (log ++ [x0] ++ seg))) = .idle) ∧
    reports (trace (untimed seg)) = if exch (trace (untimed (log ++ [x0] ++ seg))) = .idle then 1 else 0 := by
  have hp := (timed_hist hb _ h ho ht).1
  have e : untimed (log ++ [x0] ++ seg) = untimed log ++ [x0.1] ++ untimed seg := by
    unfold untimed
    rw [List.map_append, List.map_append]; rfl
  rw [e] at h ho hp ⊢
  have := C10_completes_partial h ho hp h0 (by
    intro x hx
    obtain ⟨y, hy, rfl⟩ := List.mem_map.mp hx
    exact hseg y hy)
  unfold untimed at this ⊢
  rw [List.countP_map] at this
  exact this

/-- C122: the exchange is over in time. The second window opens `w` milliseconds after the end of the transmission; once the tolerances
and eight symbols have passed after that, and nothing is overdue, the exchange is over and its result has been reported, once. -/
theorem C122_deadline {tol : Tolerance} {a b : List (Item × Nat)} {x : Item × Nat} {s : St} {m : Byte} {o : Oracle} {w now : Nat}
    (hb : tol.timer + tol.irq + 262144 < 1000000)
    (h : Hist E (untimed (a ++ [x] ++ b)) s) (ho : obeys [] (untimed (a ++ [x] ++ b)) = true)
    (ht : timely tol [] (a ++ [x] ++ b) = true)
    (hx : stage (trace (untimed a)) = .tx) (hop : x.1.op = .event m o) (hm : m.toNat / 4 % 2 = 1)
    (hseg : ∀ y ∈ b, sentItem y.1 = false) (hw : (TimerId.rx2, w) ∈ timers x.1.ev)
    (hu : upToDate tol (due (a ++ [x] ++ b)) now = true)
    (hn : x.2 + 1000 * w + tol.timer + 262144 + max tol.irq tol.packet < now) :
    exch (trace (untimed (a ++ [x] ++ b))) = .idle ∧ reports (trace (untimed b)) = 1 := by
  have key : ∀ {s : St}, Hist E (untimed (a ++ [x] ++ b)) s → obeys [] (untimed (a ++ [x] ++ b)) = true →
      timely tol [] (a ++ [x] ++ b) = true → DueInv tol (x.2 + 1000 * w) s.phase (due (a ++ [x] ++ b)) ∧ s.phase ≠ .tx := by
    clear hu hn h ho ht
    revert hseg
    refine timed_induction (P := fun b => (∀ y ∈ b, sentItem y.1 = false) → ∀ {s : St}, Hist E (untimed (a ++ [x] ++ b)) s →
      obeys [] (untimed (a ++ [x] ++ b)) = true → timely tol [] (a ++ [x] ++ b) = true →
      DueInv tol (x.2 + 1000 * w) s.phase (due (a ++ [x] ++ b)) ∧ s.phase ≠ .tx) ?_ ?_ b
    · intro _ s' h ho ht
      rw [List.append_nil] at h ho ht ⊢
      rw [untimed_snoc] at h ho
      rw [obeys_snoc, Bool.and_eq_true] at ho
      rw [timely_snoc, Bool.and_eq_true] at ht
      obtain ⟨s1, h1, -, -, -, hs⟩ := h.last
      have hph : s1.phase = .tx := phase_of h1 .tx hx
      obtain ⟨i1, z, i2⟩ := timed_hist hb a h1 ho.1 ht.1
      obtain ⟨-, z', g2, -, g3⟩ := timed_snoc hb h1 h (hw_hist h1 ho.1 i1) ho.2 ht.2 i2
      have hph' : s'.phase = .rx1 := txDone_phase h h1 hph hop hm
      have e := g3 hph hph'
      obtain ⟨d1, -⟩ := delay_gap h h1 hph hph'
      rw [d1] at hw
      have hw' : w = s1.rx2Delay.toNat := by simpa using hw
      rw [hw', ← e]
      exact ⟨g2, by rw [hph']; decide⟩
    · intro l y ih hseg s' h ho ht
      rw [← List.append_assoc] at h ho ht ⊢
      rw [untimed_snoc] at h ho
      rw [obeys_snoc, Bool.and_eq_true] at ho
      rw [timely_snoc, Bool.and_eq_true] at ht
      obtain ⟨s1, h1, -, -, -, hs⟩ := h.last
      obtain ⟨i1, i2⟩ := ih (fun y hy => hseg y (by simp [hy])) h1 ho.1 ht.1
      have hp := (timed_hist hb _ h1 ho.1 ht.1).1
      obtain ⟨-, z', g2, g3, -⟩ := timed_snoc hb h1 h (hw_hist h1 ho.1 hp) ho.2 ht.2 i1
      rw [← g3 i2]
      refine ⟨g2, ?_⟩
      intro htx
      have hst : stage (trace (untimed (a ++ [x] ++ l) ++ [y.1])) = .tx := by rw [stage_hist h, htx]; rfl
      by_cases hi : ∃ r, y.1.op = .init r
      · obtain ⟨r, hi⟩ := hi
        rw [init_stage h hi] at hst
        cases hst
      · have := (window_step h (hseg y (by simp)) (fun r hr => hi ⟨r, hr⟩)).2.2.2.2 hst
        exact i2 (phase_of h1 .tx this)
  obtain ⟨hd, hp⟩ := key h ho ht
  have hpr := (timed_hist hb _ h ho ht).1
  have hwi := hw_hist h ho hpr
  obtain ⟨g1, g2, g3⟩ := agree_hist (a ++ [x] ++ b)
  unfold upToDate at hu
  rw [Bool.and_eq_true, Bool.and_eq_true] at hu
  obtain ⟨⟨u1, u2⟩, u3⟩ := hu
  have hid : s.phase = .idle := by
    cases hq : s.phase with
    | idle => rfl
    | notInit =>
      exfalso
      have hoff := stage_on (x := stage (trace (untimed a))) (by rw [hx]; decide) (trace (untimed ([x] ++ b)))
      apply hoff
      have e : stage (trace (untimed (a ++ [x] ++ b))) = .off := by rw [stage_hist h, hq]; rfl
      rw [← e, List.append_assoc]
      simp only [stage, untimed, List.map_append, trace_append, List.foldl_append]
    | tx => exact absurd hq hp
    | rx1 =>
      exfalso
      rw [hq] at hwi
      obtain ⟨d1, d2, d3, d4⟩ := hd.1 hq
      obtain ⟨w1, w2⟩ := hwi
      rw [← g1, ← g3] at w2
      cases e1 : (due (a ++ [x] ++ b)).t1 with
      | some t =>
        rw [e1] at u1
        simp only [Option.all_some, decide_eq_true_eq] at u1
        have := d2 t e1
        omega
      | none =>
        cases e3 : (due (a ++ [x] ++ b)).rx with
        | none => rw [e1, e3] at w2; cases w2
        | some t =>
          rw [e3] at u3
          simp only [Option.all_some, decide_eq_true_eq] at u3
          have := d3 t e3
          omega
    | rx2 =>
      exfalso
      rw [hq] at hwi
      obtain ⟨d1, d2, d3⟩ := hd.2 hq
      obtain ⟨w1, w2, w3⟩ := hwi
      rw [← g2, ← g3] at w3
      cases e1 : (due (a ++ [x] ++ b)).t2 with
      | some t =>
        rw [e1] at u2
        simp only [Option.all_some, decide_eq_true_eq] at u2
        have := d2 t e1
        omega
      | none =>
        cases e3 : (due (a ++ [x] ++ b)).rx with
        | none => rw [e1, e3] at w3; cases w3
        | some t =>
          rw [e3] at u3
          simp only [Option.all_some, decide_eq_true_eq] at u3
          have := d3 t e3
          omega
  have hex : exch (trace (untimed (a ++ [x] ++ b))) = .idle := by rw [(obs_hist h).1, hid]; rfl
  refine ⟨hex, ?_⟩
  have eb : untimed (a ++ [x] ++ b) = untimed a ++ [x.1] ++ untimed b := by
    unfold untimed
    rw [List.map_append, List.map_append]; rfl
  rw [eb] at h ho hpr hex
  obtain ⟨sx, h1, -⟩ := h.prefix
  obtain ⟨sa, h2, -⟩ := h1.last
  have hph := txDone_phase h1 h2 (phase_of h2 .tx hx) hop hm
  obtain ⟨a1, it0, a2, ea, k1, k2, -⟩ := tx_entered h2 hx
  have ho1 := obeys_prefix _ _ _ ho
  have hp1 := allPrompt_prefix _ _ _ hpr
  have hxe : exch (trace (untimed a ++ [x.1])) = .busy := by rw [(obs_hist h1).1, hph]; rfl
  rw [ea, List.append_assoc] at h1 ho1 hp1 hxe
  rw [ea, List.append_assoc, List.append_assoc] at h ho hpr hex
  have hns : sentItem x.1 = false := by unfold sentItem; rw [hop]
  have r1 := (C10_completes_partial h1 ho1 hp1 k1 (by
    intro y hy
    rcases List.mem_append.mp hy with hy | hy
    · exact k2 y hy
    · rw [List.mem_singleton.mp hy]; exact hns)).2.2
  have r2 := (C10_completes_partial h ho hpr k1 (by
    intro y hy
    rcases List.mem_append.mp hy with hy | hy
    · exact k2 y hy
    · rcases List.mem_append.mp hy with hy | hy
      · rw [List.mem_singleton.mp hy]; exact hns
      · obtain ⟨z, hz, rfl⟩ := List.mem_map.mp hy
        exact hseg z hz)).2.2
  rw [hxe, if_neg (by decide)] at r1
  rw [hex, if_pos rfl, ← List.append_assoc, trace_append, reports_append, r1, Nat.zero_add] at r2
  exact r2

/-- The times of `fullOps`: the transmission takes 60 ms, the timers are up to 0.1 ms late, the radio 0.3 ms. -/
def fullTimes : List Nat := [0, 1000, 2000, 62000, 70000, 1062100, 1324500, 2062050, 2324300]

/-- `fullOps` with these times. -/
def fullTimed : List (Item × Nat) := (Demo.items fullOps).zip fullTimes

theorem timed_cut (l : List (Item × Nat)) (n : Nat) (h : n < l.length) :
    ∃ x, l[n]? = some x ∧ l = l.take n ++ [x] ++ l.drop (n + 1) := ⟨l[n], by simp [h], by simp⟩

theorem untimed_zip {ops : List Op} {times : List Nat} (hf : Demo.fine ops = true) (hl : ops.length = times.length) :
    untimed ((Demo.items ops).zip times) = Demo.items ops := by
  unfold untimed
  exact List.map_fst_zip (by rw [Demo.items_length hf, hl]; exact Nat.le_refl _)

example : ∃ (tol : Tolerance) (log seg : List (Item × Nat)) (x0 : Item × Nat) (s : St),
    tol.timer + tol.irq + 262144 < 1000000 ∧ Hist Tests.xorEnv (untimed (log ++ [x0] ++ seg)) s ∧
    obeys [] (untimed (log ++ [x0] ++ seg)) = true ∧ timely tol [] (log ++ [x0] ++ seg) = true ∧ sentItem x0.1 = true ∧
    (∀ x ∈ seg, sentItem x.1 = false) ∧ seg.countP (fun x => isEnv x.1.op) = 5 ∧
    exch (trace (untimed (log ++ [x0] ++ seg))) = .idle := by
  have hf : Demo.fine fullOps = true := by decide +kernel
  obtain ⟨x0, h2, h3⟩ := timed_cut fullTimed 2 (by decide +kernel)
  have hs : sentItem x0.1 = true := by
    have : (fullTimed[2]?).map (fun x => sentItem x.1) = some true := by decide +kernel
    rw [h2] at this
    simpa using this
  have hu : untimed fullTimed = Demo.items fullOps := untimed_zip hf rfl
  refine ⟨⟨100, 300, 0⟩, fullTimed.take 2, fullTimed.drop 3, x0, Demo.final fullOps, by decide, ?_, ?_, ?_, hs, ?_, ?_, ?_⟩
  · rw [← h3, hu]; exact Demo.hist hf
  · rw [← h3]; decide +kernel
  · rw [← h3]; decide +kernel
  · decide +kernel
  · decide +kernel
  · rw [← h3]; decide +kernel

/-- The same exchange: 0.7 s after the time-out of the second window it is over. -/
example : ∃ (tol : Tolerance) (a b : List (Item × Nat)) (x : Item × Nat) (s : St) (m : Byte) (o : Oracle) (w now : Nat),
    tol.timer + tol.irq + 262144 < 1000000 ∧ Hist Tests.xorEnv (untimed (a ++ [x] ++ b)) s ∧
    obeys [] (untimed (a ++ [x] ++ b)) = true ∧ timely tol [] (a ++ [x] ++ b) = true ∧
    stage (trace (untimed a)) = .tx ∧ x.1.op = .event m o ∧ m.toNat / 4 % 2 = 1 ∧ (∀ y ∈ b, sentItem y.1 = false) ∧
    (TimerId.rx2, w) ∈ timers x.1.ev ∧ upToDate tol (due (a ++ [x] ++ b)) now = true ∧
    x.2 + 1000 * w + tol.timer + 262144 + max tol.irq tol.packet < now := by
  have hf : Demo.fine fullOps = true := by decide +kernel
  obtain ⟨x, h2, h3⟩ := timed_cut fullTimed 3 (by decide +kernel)
  have hu : untimed fullTimed = Demo.items fullOps := untimed_zip hf rfl
  obtain ⟨it, g1, g2, -⟩ := Demo.cut hf 3 (by decide +kernel)
  have hx : x.1 = it := by
    have := congrArg (fun l => l[3]?) hu
    simp only [untimed, List.getElem?_map, h2, g2, Option.map_some, Option.some.injEq] at this
    exact this
  have hq : (fullTimed[3]?).map (fun x => (decide ((TimerId.rx2, 2000) ∈ timers x.1.ev), x.2)) = some (true, 62000) := by
    decide +kernel
  rw [h2, Option.map_some, Option.some.injEq, Prod.mk.injEq] at hq
  refine ⟨⟨100, 300, 400⟩, fullTimed.take 3, fullTimed.drop 4, x, Demo.final fullOps, 4, Tests.rxOf [], 2000, 3000000, by decide, ?_,
    ?_, ?_, ?_, ?_, by decide, ?_, of_decide_eq_true hq.1, ?_, ?_⟩
  · rw [← h3, hu]; exact Demo.hist hf
  · rw [← h3]; decide +kernel
  · rw [← h3]; decide +kernel
  · decide +kernel
  · rw [hx, g1]; rfl
  · decide +kernel
  · rw [← h3]; decide +kernel
  · rw [hq.2]; decide

/-- `stuckOps` with times: the timers are exact, and the time-out of the first window is reported 737856 µs late, in the moment in which
the second is to open. -/
def stuckTimes : List Nat := [0, 1000, 2000, 62000, 1062000, 2062000, 2062000]

/-- C122: the bound is sharp. If the tolerances and the time the radio listens make up the whole second between the windows, the
exchange may get stuck. -/
theorem C122_sharp : ∃ (tol : Tolerance) (log : List (Item × Nat)) (s : St), tol.timer + tol.irq + 262144 = 1000000 ∧
    Hist Tests.xorEnv (untimed log) s ∧ obeys [] (untimed log) = true ∧ timely tol [] log = true ∧
    (hw (untimed log)).rest = true ∧ exch (trace (untimed log)) = .busy := by
  have hf : Demo.fine stuckOps = true := by decide +kernel
  refine ⟨⟨0, 737856, 0⟩, (Demo.items stuckOps).zip stuckTimes, Demo.final stuckOps, by decide, ?_, ?_, ?_, ?_, ?_⟩
  · rw [untimed_zip hf rfl]; exact Demo.hist hf
  · decide +kernel
  · decide +kernel
  · decide +kernel
  · decide +kernel

end Uwan
