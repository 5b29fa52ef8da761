import Verif.Lemmas.Windows
import Verif.Tests.Demo

/-!
# Exchanges, receive windows and radio settings (C08-C15, C36)
-/

namespace Uwan
open Spec

variable {E : Env} {log : List Item} {it : Item} {s' : St}

/-! ### C08, C09, C14 -/

/-- C08: unless the stack is initialised and no exchange is pending, `uwan_send_frame` and `uwan_join` return UWAN_ERR_STATE and do
nothing; otherwise they never return UWAN_ERR_STATE. -/
theorem C08_one_exchange (h : Hist E (log ++ [it]) s')
    (hop : (∃ p l c r, it.op = .send p l c r) ∨ ∃ r1 r2, it.op = .join r1 r2) :
    (exch (trace log) ≠ .idle → it.ret = .err .state ∧ it.ev = []) ∧
    (exch (trace log) = .idle → it.ret ≠ .err .state) := by
  obtain ⟨s, h1, -, -, -, hs⟩ := h.last
  have hx := (obs_hist h1).1
  have hi : exch (trace log) = .idle ↔ s.phase = .idle := by
    rw [hx]; cases s.phase <;> decide
  rw [Ne, hi]
  rcases hop with ⟨p, l, c, r, hop⟩ | ⟨r1, r2, hop⟩
  · rw [hop] at hs
    obtain ⟨e, hr, hc⟩ := step_send h1.inv hs
    rw [hr]
    generalize it.ev = ev at *
    cases hc with
    | state hp => exact ⟨fun _ => ⟨rfl, rfl⟩, fun h => absurd h hp⟩
    | channel hp => exact ⟨fun h => absurd hp h, fun _ h => by cases h⟩
    | len f hp => exact ⟨fun h => absurd hp h, fun _ h => by cases h⟩
    | sent f d hp => exact ⟨fun h => absurd hp h, fun _ h => by cases h⟩
  · rw [hop] at hs
    obtain ⟨e, hr, hc⟩ := step_join h1.inv hs
    rw [hr]
    generalize it.ev = ev at *
    cases hc with
    | state hp => exact ⟨fun _ => ⟨rfl, rfl⟩, fun h => absurd h hp⟩
    | channel hp => exact ⟨fun h => absurd hp h, fun _ h => by cases h⟩
    | sent f d hp => exact ⟨fun h => absurd hp h, fun _ h => by cases h⟩

/-- An ABP session. -/
def abpOps : List Op := [.init .eu868, .setSession 0x11223344 0 0 Tests.appKey Tests.appKey]
/-- A frame is on air. -/
def onAirOps : List Op := abpOps ++ [.send 2 [9] false 0]

/-- A second uplink while the first is on air. -/
example : ∃ (log : List Item) (it : Item) (s' : St), Hist Tests.xorEnv (log ++ [it]) s' ∧ it.op = .send 2 [9] false 0 ∧
    exch (trace log) = .busy := by
  have hf : Demo.fine onAirOps = true := by decide +kernel
  obtain ⟨h1, h2⟩ := Demo.next (op := .send 2 [9] false 0) hf (by decide) (by decide +kernel)
  exact ⟨_, _, _, h1, h2, by decide +kernel⟩

/-- C09: in the whole history, transmissions happen only when no exchange is pending and results are reported only when one is; so
they alternate between initialisations. -/
theorem C09_alternate {s : St} (h : Hist E log s) : alternates .off (trace log) = true := (obs_hist h).2.1

/-- C14: every transmission with normal IQ, every reception with inverted IQ, both with the common settings. -/
theorem C14_directed {s : St} (h : Hist E log s) : directed (radio []) (trace log) = true := (obs_hist h).2.2.2

/-- A history with two transmissions, three receptions and two results. -/
example : ∃ (log : List Item) (s : St), Hist Tests.xorEnv log s ∧ (txs (trace log)).length = 2 ∧ reports (trace log) = 2 ∧
    log.countP (fun x => listens x.ev) = 3 := by
  have hf : Demo.fine (onAirOps ++ [.event 4 (Tests.rxOf []), .timer .rx1, .event 1 (Tests.rxOf []), .timer .rx2,
    .event 1 (Tests.rxOf []), .join 0 0, .event 4 (Tests.rxOf []), .timer .rx1, .event 2 (Tests.rxOf [1, 2, 3])]) = true := by
    decide +kernel
  exact ⟨_, _, Demo.hist hf, by decide +kernel, by decide +kernel, by decide +kernel⟩

/-! ### C10 -/

/-- C10, what holds: provided the timer of the second window is still running whenever the first times out, an exchange sees at most
five interrupts and timer expiries, and as long as it is not over the radio is busy or a timer is running; it is over exactly when its result
has been reported, once. Missing: a second timer that fires too early leaves the stack stuck (`C10_deadlock`), and the end of a
transmission may be undefined behaviour (`C61_null_callback`). -/
theorem C10_completes_partial {it0 : Item} {seg : List Item} {s : St} (h : Hist E (log ++ [it0] ++ seg) s)
    (ho : obeys [] (log ++ [it0] ++ seg) = true) (hp : allPrompt [] (log ++ [it0] ++ seg) = true)
    (h0 : sentItem it0 = true) (hseg : ∀ x ∈ seg, sentItem x = false) :
    seg.countP (fun x => isEnv x.op) ≤ 5 ∧
    ((hw (log ++ [it0] ++ seg)).rest = true ↔ exch (trace (log ++ [it0] ++ seg)) = .idle) ∧
    reports (trace seg) = if exch (trace (log ++ [it0] ++ seg)) = .idle then 1 else 0 := by
  have key : seg.countP (fun x => isEnv x.op) + left s.phase (hw (log ++ [it0] ++ seg)) ≤ 5 ∧
      reports (trace seg) = (if left s.phase (hw (log ++ [it0] ++ seg)) = 0 then 1 else 0) ∧
      s.phase ≠ .notInit := by
    revert h ho hp hseg s
    refine snoc_induction (P := fun seg => ∀ {s : St}, Hist E (log ++ [it0] ++ seg) s →
      obeys [] (log ++ [it0] ++ seg) = true → allPrompt [] (log ++ [it0] ++ seg) = true →
      (∀ x ∈ seg, sentItem x = false) → seg.countP (fun x => isEnv x.op) + left s.phase (hw (log ++ [it0] ++ seg)) ≤ 5 ∧
      reports (trace seg) = (if left s.phase (hw (log ++ [it0] ++ seg)) = 0 then 1 else 0) ∧
      s.phase ≠ .notInit) ?_ ?_ seg
    · intro s h ho hp _
      rw [List.append_nil] at *
      have h2 := (sent_stage h h0).2
      have hph : s.phase = .tx := phase_of h .tx h2
      rw [hph]
      exact ⟨Nat.le_refl _, rfl, by decide⟩
    · intro l x ih s h ho hp hseg
      rw [← List.append_assoc] at h ho hp ⊢
      rw [obeys_snoc, Bool.and_eq_true] at ho
      rw [allPrompt_snoc, Bool.and_eq_true] at hp
      obtain ⟨s1, h1, -, -, -, hs⟩ := h.last
      obtain ⟨i1, i2, i3⟩ := ih h1 ho.1 hp.1 (fun y hy => hseg y (by simp [hy]))
      have hw1 := hw_hist h1 ho.1 hp.1
      obtain ⟨g1, g2⟩ := hw_step h1.inv hs hw1 ho.2 (fun m o e => prompt_use h1 hp.2 m o e)
      have hx := hseg x (by simp)
      have hpr : Progress s1.phase s.phase (hw (log ++ [it0] ++ l)) (hw (log ++ [it0] ++ l ++ [x])) x.op x.ev := by
        rcases g2 with ⟨hop, hr⟩ | g2
        · exfalso
          unfold sentItem at hx
          rw [hr] at hx
          rcases hop with ⟨a, b, c, d, hop⟩ | ⟨a, b, hop⟩ <;> rw [hop] at hx <;> exact Bool.noConfusion hx
        · rw [hw_snoc]; exact g2
      have hb := hpr.bound
      have hr := hpr.results
      rw [trace_append, reports_append, trace_one, List.countP_append, i2, hr]
      have hc : List.countP (fun x => isEnv x.op) [x] = (isEnv x.op).toNat := by
        simp only [List.countP_cons, List.countP_nil]
        cases isEnv x.op <;> rfl
      rw [hc]
      refine ⟨by omega, ?_, ?_⟩
      · by_cases e1 : left s1.phase (hw (log ++ [it0] ++ l)) = 0
        · have e2 : left s.phase (hw (log ++ [it0] ++ l ++ [x])) = 0 := by omega
          simp only [e1, e2, ne_eq, not_true_eq_false, false_and, ↓reduceIte, Nat.add_zero]
        · simp only [e1, ne_eq, not_false_eq_true, true_and, ↓reduceIte, Nat.zero_add]
      · intro hn
        have := stage_on (x := phaseStage s1.phase) (by
          intro hh
          exact i3 (phaseStage_inj (b := .notInit) hh)) x.ev
        rw [step_stage h1.inv hs, hn] at this
        exact this rfl
  obtain ⟨k1, k2, k3⟩ := key
  obtain ⟨z1, z2⟩ := left_zero (hw_hist h ho hp)
  have hx : exch (trace (log ++ [it0] ++ seg)) = .idle ↔ left s.phase (hw (log ++ [it0] ++ seg)) = 0 := by
    rw [(obs_hist h).1, z2]
    cases hq : s.phase <;> first | exact absurd hq k3 | decide
  refine ⟨by omega, by rw [hx]; exact z1.symm, ?_⟩
  rw [k2]
  by_cases e : left s.phase (hw (log ++ [it0] ++ seg)) = 0
  · rw [if_pos e, if_pos (hx.mpr e)]
  · rw [if_neg e, if_neg (fun h => e (hx.mp h))]

/-- A complete exchange with five expiries and interrupts, and a refused send in between. -/
def fullOps : List Op :=
  abpOps ++ [.send 2 [9] false 0, .event 4 (Tests.rxOf []), .send 2 [8] false 0, .timer .rx1, .event 1 (Tests.rxOf []),
    .timer .rx2, .event 1 (Tests.rxOf [])]

example : ∃ (log : List Item) (it0 : Item) (seg : List Item) (s : St), Hist Tests.xorEnv (log ++ [it0] ++ seg) s ∧
    obeys [] (log ++ [it0] ++ seg) = true ∧ allPrompt [] (log ++ [it0] ++ seg) = true ∧ sentItem it0 = true ∧
    (∀ x ∈ seg, sentItem x = false) ∧ seg.countP (fun x => isEnv x.op) = 5 ∧
    exch (trace (log ++ [it0] ++ seg)) = .idle := by
  have hf : Demo.fine fullOps = true := by decide +kernel
  obtain ⟨it, h1, h2, h3⟩ := Demo.cut hf 2 (by decide +kernel)
  have hs : sentItem it = true := by
    have : ((Demo.items fullOps)[2]?).map sentItem = some true := by decide +kernel
    rw [h2] at this
    simpa using this
  refine ⟨(Demo.items fullOps).take 2, it, (Demo.items fullOps).drop 3, Demo.final fullOps, ?_, ?_, ?_, hs, ?_, ?_, ?_⟩
  · rw [← h3]; exact Demo.hist hf
  · rw [← h3]; decide +kernel
  · rw [← h3]; decide +kernel
  · decide +kernel
  · decide +kernel
  · rw [← h3]; decide +kernel

/-- The second timer fires during the first window, which then times out. -/
def stuckOps : List Op := onAirOps ++ [.event 4 (Tests.rxOf []), .timer .rx1, .timer .rx2, .event 1 (Tests.rxOf [])]

/-- C10 does not hold of the code: when the second timer fires before the first window has timed out, the second window is never
opened. The radio is idle, no timer runs, no result was reported and every further uplink is refused. -/
theorem C10_deadlock : ∃ (log : List Item) (it : Item) (s s' : St), Hist Tests.xorEnv log s ∧ obeys [] log = true ∧
    (hw log).rest = true ∧ reports (trace log) = 0 ∧ sentCount log = 1 ∧
    Hist Tests.xorEnv (log ++ [it]) s' ∧ it.op = .send 2 [9] false 0 ∧ it.ret = .err .state := by
  have hf : Demo.fine stuckOps = true := by decide +kernel
  obtain ⟨h1, h2⟩ := Demo.next (op := .send 2 [9] false 0) hf (by decide) (by decide +kernel)
  exact ⟨_, _, _, _, Demo.hist hf, by decide +kernel, by decide +kernel, by decide +kernel, by decide +kernel, h1, h2,
    by decide +kernel⟩

/-- C10, when it fails: the first time a first window times out after the timer of the second has fired, the radio is idle and no
timer runs, but the exchange is still pending. -/
theorem C10_late (h : Hist E (log ++ [it]) s') (ho : obeys [] (log ++ [it]) = true) (hp : allPrompt [] log = true)
    (hn : prompt log it = false) : (hw (log ++ [it])).rest = true ∧ exch (trace (log ++ [it])) = .busy := by
  obtain ⟨s, h1, -, -, -, hs⟩ := h.last
  rw [obeys_snoc, Bool.and_eq_true] at ho
  have hw1 := hw_hist h1 ho.1 hp
  unfold prompt at hn
  cases hop : it.op <;> simp only [hop] at hn <;> try exact Bool.noConfusion hn
  rename_i m o
  simp only [Bool.or_eq_false_iff, Bool.not_eq_false', Bool.and_eq_true, beq_iff_eq] at hn
  obtain ⟨⟨ht, hm⟩, h2⟩ := hn
  have hph : s.phase = .rx1 := phase_of h1 .rx1 ht
  rw [hop] at hs
  have hcase := step_event h1.inv hs
  obtain ⟨m1, m2, m3, -⟩ := irqBits m
  have hmt : irqRxTimeout m = true := by rw [m2]; simpa using hm
  have ha := ho.2
  rw [hop] at ha
  have ha' : ((hw log).sending && m.toNat / 4 % 2 == 1 || (hw log).receiving && (m.toNat % 2 == 1 || m.toNat / 2 % 2 == 1)) = true := ha
  rw [hph] at hw1
  obtain ⟨w1, w2⟩ := hw1
  have w3 : (hw log).receiving = true := by rw [w1] at ha'; simp at ha'; exact ha'.1
  rw [hw_snoc]
  unfold Hw.next
  rw [hop]
  have hx := (obs_hist h).1
  generalize it.ev = ev at *
  cases hcase with
  | rx1Timeout d =>
    refine ⟨?_, ?_⟩
    · generalize hw log = x at *
      obtain ⟨b1, b2, b3, b4⟩ := x
      simp only at w1 w2 w3 h2
      subst w1 w3 h2
      rw [w2]; rfl
    · rw [hx]; rfl
  | ignore hig =>
    exfalso
    rcases hig with hig | hig | ⟨hig, -⟩ | ⟨-, hm1, -⟩
    · rw [hph] at hig; cases hig
    · rw [hph] at hig; cases hig
    · rw [hph] at hig; cases hig
    · rw [hmt] at hm1; cases hm1
  | txDone _ _ hq => rw [hph] at hq; cases hq
  | rx1Done _ _ _ hq => rw [hmt] at hq; cases hq
  | rx2Timeout _ _ hq => rw [hph] at hq; cases hq
  | rx2Done _ _ hq => rw [hph] at hq; cases hq

/-- C10: an exchange that is pending with the radio idle and no timer running is pending for good: until the application initialises
the stack again there are no more interrupts and timer expiries, every uplink and join-request is refused and the stack calls
nothing. -/
theorem C10_stuck {seg : List Item} {s : St} (h : Hist E (log ++ seg) s) (ho : obeys [] (log ++ seg) = true)
    (hr : (hw log).rest = true) (hb : exch (trace log) = .busy) (hi : ∀ x ∈ seg, ∀ r, x.op ≠ .init r) :
    trace seg = [] ∧ ∀ x ∈ seg, isEnv x.op = false ∧ (x.ret = .err .state ∨
      (∀ p l c r, x.op ≠ .send p l c r) ∧ ∀ r1 r2, x.op ≠ .join r1 r2) := by
  have key : hw (log ++ seg) = hw log ∧ trace seg = [] ∧ ∀ x ∈ seg, isEnv x.op = false ∧ (x.ret = .err .state ∨
      (∀ p l c r, x.op ≠ .send p l c r) ∧ ∀ r1 r2, x.op ≠ .join r1 r2) := by
    revert h ho hi s
    refine snoc_induction (P := fun seg => ∀ {s : St}, Hist E (log ++ seg) s → obeys [] (log ++ seg) = true →
      (∀ x ∈ seg, ∀ r, x.op ≠ .init r) → hw (log ++ seg) = hw log ∧ trace seg = [] ∧
      ∀ x ∈ seg, isEnv x.op = false ∧ (x.ret = .err .state ∨
      (∀ p l c r, x.op ≠ .send p l c r) ∧ ∀ r1 r2, x.op ≠ .join r1 r2)) ?_ ?_ seg
    · intro s _ _ _
      exact ⟨by rw [List.append_nil], rfl, fun x hx => absurd hx List.not_mem_nil⟩
    · intro l x ih s h ho hi
      rw [← List.append_assoc] at h ho ⊢
      rw [obeys_snoc, Bool.and_eq_true] at ho
      obtain ⟨s1, h1, -, -, -, hs⟩ := h.last
      obtain ⟨i1, i2, i3⟩ := ih h1 ho.1 (fun y hy => hi y (by simp [hy]))
      have hx : exch (trace (log ++ l)) ≠ .idle := by rw [trace_append, i2, List.append_nil, hb]; decide
      have ha := ho.2
      rw [List.nil_append, i1] at ha
      have hrest : (hw log).sending = false ∧ (hw log).receiving = false ∧ (hw log).t1 = false ∧ (hw log).t2 = false := by
        simpa [Hw.rest, and_assoc] using hr
      obtain ⟨r1, r2, r3, r4⟩ := hrest
      have henv : isEnv x.op = false := by
        cases hop : x.op <;> first | rfl | (rw [hop] at ha; simp only [Hw.allows, r1, r2] at ha; exact Bool.noConfusion ha) | skip
        rename_i id
        rw [hop] at ha
        cases id <;> simp only [Hw.allows, r3, r4] at ha <;> exact Bool.noConfusion ha
      have hev : x.ev = [] ∧ (x.ret = .err .state ∨
          (∀ p l c r, x.op ≠ .send p l c r) ∧ ∀ r1 r2, x.op ≠ .join r1 r2) := by
        by_cases hc : x.op.isCfg = true
        · refine ⟨(step_cfg hc hs).1, .inr ⟨?_, ?_⟩⟩
          · intro _ _ _ _ e; rw [e] at hc; cases hc
          · intro _ _ e; rw [e] at hc; cases hc
        cases hop : x.op with
        | init r => exact absurd hop (hi x (by simp) r)
        | join a b =>
          have := (C08_one_exchange h (.inr ⟨a, b, hop⟩)).1 hx
          exact ⟨this.2, .inl this.1⟩
        | send a b c d =>
          have := (C08_one_exchange h (.inl ⟨a, b, c, d, hop⟩)).1 hx
          exact ⟨this.2, .inl this.1⟩
        | timer id => rw [hop] at henv; cases henv
        | event m o => rw [hop] at henv; cases henv
        | _ => rw [hop] at hc; exact absurd rfl hc
      refine ⟨?_, ?_, ?_⟩
      · rw [hw_snoc, i1]
        unfold Hw.next
        rw [hev.1, begin_free _ henv]; rfl
      · rw [trace_append, i2, trace_one, hev.1]; rfl
      · intro y hy
        rcases List.mem_append.mp hy with hy | hy
        · exact i3 y hy
        · rw [List.mem_singleton.mp hy]
          exact ⟨henv, hev.2⟩
  exact key.2

/-- The stuck exchange of `C10_deadlock`, with calls after it. -/
example : ∃ (log : List Item) (it : Item) (seg : List Item) (s s' : St), Hist Tests.xorEnv (log ++ [it]) s' ∧
    obeys [] (log ++ [it]) = true ∧ allPrompt [] log = true ∧ prompt log it = false ∧ Hist Tests.xorEnv (log ++ [it] ++ seg) s ∧
    obeys [] (log ++ [it] ++ seg) = true ∧ (∀ x ∈ seg, ∀ r, x.op ≠ .init r) ∧ seg.length = 3 := by
  have hf : Demo.fine (stuckOps ++ [.join 0 0, .setDr 3, .send 2 [9] false 0]) = true := by decide +kernel
  obtain ⟨it, h1, h2, h3⟩ := Demo.cut hf 6 (by decide +kernel)
  have hh := Demo.hist hf
  rw [h3] at hh
  obtain ⟨s', hp, -⟩ := hh.prefix
  have e1 : (Demo.items (stuckOps ++ [.join 0 0, .setDr 3, .send 2 [9] false 0])).take 6 ++ [it] =
      (Demo.items (stuckOps ++ [.join 0 0, .setDr 3, .send 2 [9] false 0])).take 7 := by
    have := @List.take_add_one Item (i := 6) (l := Demo.items (stuckOps ++ [.join 0 0, .setDr 3, .send 2 [9] false 0]))
    rw [h2] at this
    exact this.symm
  have hpr : ((Demo.items (stuckOps ++ [.join 0 0, .setDr 3, .send 2 [9] false 0]))[6]?).map
      (prompt ((Demo.items (stuckOps ++ [.join 0 0, .setDr 3, .send 2 [9] false 0])).take 6)) = some false := by decide +kernel
  rw [h2] at hpr
  refine ⟨_, it, _, _, s', hp, by rw [e1]; decide +kernel, by decide +kernel, by simpa using hpr, hh, by rw [← h3]; decide +kernel, ?_, by decide +kernel⟩
  have : ((Demo.items (stuckOps ++ [.join 0 0, .setDr 3, .send 2 [9] false 0])).drop 7).all
      (fun x => match x.op with | .init _ => false | _ => true) = true := by decide +kernel
  intro x hx r e
  have := List.all_eq_true.mp this x hx
  rw [e] at this
  cases this

/-! ### C11 -/

/-- C11: at the end of a transmission exactly two timers are started, for the first window after the delay that was configured
when the frame `x` was sent (1..15 s, 5 s for a join-request) and for the second one second later. Timers are started at no
other moment. -/
theorem C11_timers (h : Hist E (log ++ [it]) s') :
    (∀ m o, it.op = .event m o → m.toNat / 4 % 2 = 1 → stage (trace log) = .tx →
      ∃ a x b, log = a ++ [x] ++ b ∧ sentItem x = true ∧ (∀ y ∈ b, sentItem y = false) ∧
        timers it.ev = [(.rx1, windowDelay E a x), (.rx2, windowDelay E a x + 1000)] ∧
        1 ≤ (config E a).delay ∧ (config E a).delay ≤ 15) ∧
    (timers it.ev ≠ [] → (∃ m o, it.op = .event m o ∧ m.toNat / 4 % 2 = 1) ∧ stage (trace log) = .tx) := by
  obtain ⟨s, h1, -, -, -, hs⟩ := h.last
  constructor
  · intro m o hop hm ht
    have hph : s.phase = .tx := phase_of h1 .tx ht
    have hx : stage (trace (log ++ [it])) = .rx1 := by
      rw [stage_hist h]
      rw [hop] at hs
      have hev := step_event h1.inv hs
      have hm' : irqTxDone m = true := by rw [(irqBits m).1]; simpa using hm
      generalize it.ev = ev at *
      cases hev with
      | ignore hig =>
        rcases hig with h | h | ⟨_, h⟩ | ⟨h, _⟩
        · rw [hph] at h; cases h
        · rw [hph] at h; cases h
        · rw [hm'] at h; cases h
        · rw [hph] at h; rcases h with h | h <;> cases h
      | txDone => rfl
      | rx1Timeout d hp => rw [hph] at hp; cases hp
      | rx1Done _ _ hp => rw [hph] at hp; cases hp
      | rx2Timeout _ _ hp => rw [hph] at hp; cases hp
      | rx2Done _ _ hp => rw [hph] at hp; cases hp
    obtain ⟨a, x, b, rfl, g1, g2, -⟩ := tx_entered h1 ht
    obtain ⟨s2, m2, o2, h2, -, -, -, ht2, -⟩ := txDone_item h ht hx
    obtain ⟨sa, ha, -⟩ := h1.prefix
    obtain ⟨sb, hb, -⟩ := ha.last
    refine ⟨a, x, b, rfl, g1, g2, ?_, ?_⟩
    · rw [ht2]
      have w := win_keep (E := E) (a ++ [x]) b g2
      rw [(win_sent g1).1, (win_sent g1).2, ← config_hist h2, (cfg_win s2).1, (cfg_win s2).2] at w
      rw [w.1, w.2]
      unfold windowDelay
      rfl
    · rw [← config_hist hb]
      obtain ⟨k, k1, k2, k3⟩ := hb.inv.delay
      have : (cfgOf sb).delay = k := by
        show sb.defaultRx1Delay.toNat / 1000 = k
        rw [k3]
        have : (BitVec.ofNat 32 (k * 1000)).toNat = k * 1000 := by
          rw [BitVec.toNat_ofNat, Nat.mod_eq_of_lt (by omega)]
        omega
      omega
  · intro hne
    have key : it.ev = [] → False := fun h => hne (by rw [h]; rfl)
    by_cases hc : it.op.isCfg = true
    · exact (key (step_cfg hc hs).1).elim
    cases hop : it.op with
    | init r =>
      rw [hop] at hs
      simp only [step, Except.ok.injEq, Prod.mk.injEq] at hs
      rw [← hs.2.2] at hne
      exact absurd rfl hne
    | join r1 r2 =>
      rw [hop] at hs
      obtain ⟨e, hr, hcs⟩ := step_join h1.inv hs
      exfalso
      generalize it.ev = ev at *
      cases hcs with
      | state => exact key rfl
      | channel => exact key rfl
      | sent f d =>
        apply hne
        unfold joinEv
        rw [timers_append, timers_append, timers_quiet (buildJoin_quiet ..)]; rfl
    | send p l c r =>
      rw [hop] at hs
      obtain ⟨e, hr, hcs⟩ := step_send h1.inv hs
      exfalso
      generalize it.ev = ev at *
      cases hcs with
      | state => exact key rfl
      | channel => exact key rfl
      | len => exact key rfl
      | sent f d =>
        apply hne
        unfold sentEv
        rw [timers_append, timers_append, timers_quiet (buildUplink_quiet ..)]; rfl
    | timer id =>
      rw [hop] at hs
      obtain ⟨rfl, hev⟩ := step_timer hs
      rcases hev with hev | ⟨hev, -⟩
      · exact (key hev).elim
      · rw [hev] at hne; exact absurd rfl hne
    | event m o =>
      rw [hop] at hs
      have hev := step_event h1.inv hs
      rw [stage_hist h1]
      generalize it.ev = ev at *
      cases hev with
      | ignore => exact (key rfl).elim
      | txDone mm ev2 hp hm => 
        rw [hp]
        exact ⟨⟨m, o, rfl, by rw [(irqBits m).1] at hm; simpa using hm⟩, rfl⟩
      | rx1Timeout => exact absurd rfl hne
      | rx1Done _ _ _ _ _ hc => exact absurd hc.timers hne
      | rx2Timeout _ _ _ _ hc => exact absurd hc.timers hne
      | rx2Done _ _ _ _ _ hc => exact absurd hc.timers hne
    | _ => rw [hop] at hc; exact absurd rfl hc

/-- The delay is changed between an uplink and the end of its transmission. -/
example : ∃ (log : List Item) (it : Item) (s' : St) (o : Oracle), Hist Tests.xorEnv (log ++ [it]) s' ∧ it.op = .event 4 o ∧
    stage (trace log) = .tx ∧ timers it.ev = [(.rx1, 3000), (.rx2, 4000)] := by
  have hf : Demo.fine (abpOps ++ [.setRx1Delay 3, .send 2 [9] false 0, .setRx1Delay 7]) = true := by decide +kernel
  obtain ⟨h1, h2⟩ := Demo.next (op := .event 4 (Tests.rxOf [])) hf (by decide) (by decide +kernel)
  exact ⟨_, _, _, _, h1, h2, by decide +kernel, by decide +kernel⟩

/-! ### C12, C13 -/

/-- C12, frequency: throughout the first window, so in particular when the radio is told to receive (`C13_only_windows`), it is tuned to
the frequency of the last transmission. -/
theorem C12_frequency {s : St} (h1 : Hist E log s) (ht : stage (trace log) = .rx1) :
    (radio (trace log)).freq = (radio (trace log)).txFreq := by
  exact ((obs_hist h1).2.2.1.2.2.1 (phase_of h1 .rx1 ht)).2.2.2.symm

/-- C12, data rate: the first window uses the spreading factor of the transmission lowered by the offset configured at the end
`x` of the transmission, if the offset is 0 or the data rate configured at `x` is still the one the frame was sent with. Missing:
with an offset, the code starts from the data rate configured at `x`, which may have changed (`C12_backoff`, `C12_join`). -/
theorem C12_datarate_partial {s : St} (h1 : Hist E log s) (ht : stage (trace log) = .rx1) :
    ∃ a x b p q, log = a ++ [x] ++ b ∧ stage (trace a) = .tx ∧ stage (trace (a ++ [x])) = .rx1 ∧
      (∀ y ∈ b, sentItem y = false) ∧ (radio (trace log)).txPp = some p ∧ (radio (trace log)).pp = some q ∧
      ((config E a).off = 0 ∨ (config E a).txDr = 12 - sfNum p.sf →
        sfNum q.sf = 12 - ((12 - sfNum p.sf) - (config E a).off)) ∧
      ((config E a).off ≠ 0 → sfNum q.sf = 12 - ((config E a).txDr - (config E a).off)) := by
  obtain ⟨a, x, b, rfl, g1, g2, g3, g4⟩ := rx1_entered h1 ht
  obtain ⟨sx, hx, -⟩ := h1.prefix
  have hxs : stage (trace (a ++ [x])) = .rx1 := by simpa using g4 [] (List.nil_prefix)
  obtain ⟨sa, m, o, ha, hph, -, -, -, hr⟩ := txDone_item hx g1 hxs
  have hk := radio_keep (.inl rfl) h1 g4
  obtain ⟨r1, r2, r3, r4, r5⟩ := (obs_hist ha).2.2.1.2.1 hph
  refine ⟨a, x, b, sa.pp, rx1Pp sa, rfl, g1, hxs, g2, by rw [hk, hr]; exact r3, by rw [hk, hr], ?_⟩
  have hoff : (config E a).off = sa.rx1Offset.toNat := by rw [← config_hist ha]; rfl
  have hdr : (config E a).txDr = currentDr sa := by rw [← config_hist ha]; exact txDr_eq sa
  rw [hoff, hdr]
  have hsf : 7 ≤ sfNum sa.pp.sf ∧ sfNum sa.pp.sf ≤ 12 := by
    have := commonPp_sf r2
    cases hq : sa.pp.sf <;> first | exact absurd hq this.2 | decide
  by_cases ho : sa.rx1Offset = 0
  · have e : rx1Pp sa = { sa.pp with invertedIq := true } := by unfold rx1Pp; rw [if_pos ho]
    have e0 : sa.rx1Offset.toNat = 0 := by rw [ho]; rfl
    rw [e, e0]
    exact ⟨fun _ => by show sfNum sa.pp.sf = _; omega, fun h => absurd rfl h⟩
  · have e0 : sa.rx1Offset.toNat ≠ 0 := fun h => ho (BitVec.eq_of_toNat_eq h)
    have hlt := currentDr_lt ha.inv
    obtain ⟨sf, hd, -⟩ := drTable_lt (n := currentDr sa - sa.rx1Offset.toNat) (by omega)
    have e : (rx1Pp sa).sf = sf := by unfold rx1Pp; rw [if_neg ho, hd]; rfl
    have := (drTable_sf hd).2
    rw [e, this]
    exact ⟨fun h => by omega, fun _ => rfl⟩

/-- The first window at DR3 for an uplink at DR5 with offset 2, the data rate being changed while the window is open. -/
def rx1Ops : List Op :=
  abpOps ++ [.setDr 5, .setRx1DrOffset 2, .send 2 [9] false 1, .event 4 (Tests.rxOf []), .setDr 1, .setRx1DrOffset 5]

example : ∃ (log : List Item) (it : Item) (s' : St), Hist Tests.xorEnv (log ++ [it]) s' ∧ listens it.ev = true ∧
    stage (trace log) = .rx1 ∧ (radio (trace log)).txPp.map (fun p => sfNum p.sf) = some 7 ∧
    (radio (trace log)).pp.map (fun p => sfNum p.sf) = some 9 := by
  have hf : Demo.fine rx1Ops = true := by decide +kernel
  obtain ⟨h1, h2⟩ := Demo.next (op := .timer .rx1) hf (by decide) (by decide +kernel)
  exact ⟨_, _, _, h1, by decide +kernel, by decide +kernel, by decide +kernel, by decide +kernel⟩

/-- C12 does not hold of the code: an ADR back-off step after the uplink moves the first window of that uplink one data rate too far. The
uplink goes out at DR5 (SF7) with offset 1, the window listens at DR3 (SF9) instead of DR4. -/
theorem C12_backoff : ∃ (log : List Item) (it : Item) (s' : St), Hist Tests.xorEnv (log ++ [it]) s' ∧ listens it.ev = true ∧
    stage (trace log) = .rx1 ∧ (config Tests.xorEnv log).off = 1 ∧
    (radio (trace log)).txPp.map (fun p => sfNum p.sf) = some 7 ∧
    (radio (trace log)).pp.map (fun p => sfNum p.sf) = some 9 := by
  have hf : Demo.fine (abpOps ++ [.setDr 5, .adrSetupAck 0 0, .adrEnable true, .setRx1DrOffset 1, .send 2 [9] false 1,
    .event 4 (Tests.rxOf [])]) = true := by decide +kernel
  obtain ⟨h1, h2⟩ := Demo.next (op := .timer .rx1) hf (by decide) (by decide +kernel)
  exact ⟨_, _, _, h1, by decide +kernel, by decide +kernel, by decide +kernel, by decide +kernel, by decide +kernel⟩

/-- C12 does not hold of join exchanges either: the join-request goes out at the default data rate, but with an offset the first
window starts from the session's data rate, here DR0 after a re-initialisation: SF12 instead of SF8. -/
theorem C12_join : ∃ (log : List Item) (it : Item) (s' : St), Hist Tests.xorEnv (log ++ [it]) s' ∧ listens it.ev = true ∧
    stage (trace log) = .rx1 ∧ (config Tests.xorEnv log).off = 1 ∧
    (radio (trace log)).txPp.map (fun p => sfNum p.sf) = some 7 ∧
    (radio (trace log)).pp.map (fun p => sfNum p.sf) = some 12 := by
  have hf : Demo.fine [.init .eu868, .setDr 5, .init .eu868, .adrEnable true, .setRx1DrOffset 1, .join 0 0,
    .event 4 (Tests.rxOf [])] = true := by decide +kernel
  obtain ⟨h1, h2⟩ := Demo.next (op := .timer .rx1) hf (by decide) (by decide +kernel)
  exact ⟨_, _, _, h1, by decide +kernel, by decide +kernel, by decide +kernel, by decide +kernel, by decide +kernel⟩

/-- C13: throughout the second window, so in particular when the radio is told to receive (`C13_only_windows`), it is tuned to the RX2 frequency and data rate configured at the
time-out `x` of the first window. -/
theorem C13_rx2 {s : St} (h1 : Hist E log s) (ht : stage (trace log) = .rx2) :
    ∃ a x b q, log = a ++ [x] ++ b ∧ stage (trace a) = .rx1 ∧ stage (trace (a ++ [x])) = .rx2 ∧
      (∀ y ∈ b, sentItem y = false) ∧ (radio (trace log)).pp = some q ∧
      (radio (trace log)).freq = (config E a).rx2Freq ∧ sfNum q.sf = 12 - (config E a).rx2Dr ∧
      (config E a).rx2Dr ≤ 5 := by
  obtain ⟨a, x, b, rfl, g1, g2, g3, g4⟩ := rx2_entered h1 ht
  obtain ⟨sx, hx, -⟩ := h1.prefix
  have hxs : stage (trace (a ++ [x])) = .rx2 := by simpa using g4 [] (List.nil_prefix)
  obtain ⟨sa, m, o, d, ha, hph, -, -, hd, hr⟩ := rx1Timeout_item hx g1 hxs
  have hk := radio_keep (.inr rfl) h1 g4
  refine ⟨a, x, b, rx2Pp sa d, rfl, g1, hxs, g2, by rw [hk, hr], ?_, ?_, ?_⟩
  · rw [hk, hr, ← config_hist ha]; rfl
  · have := (drTable_sf hd).2
    rw [← config_hist ha]
    exact this
  · have := (drTable_sf hd).1
    rw [← config_hist ha]
    show sa.rx2Dr ≤ 5
    omega

/-- RX2 settings from the application. -/
example : ∃ (log : List Item) (it : Item) (s' : St), Hist Tests.xorEnv (log ++ [it]) s' ∧ listens it.ev = true ∧
    stage (trace log) = .rx2 ∧ (radio (trace log)).freq = 869525000 ∧
    (radio (trace log)).pp.map (fun p => sfNum p.sf) = some 9 := by
  have hf : Demo.fine (abpOps ++ [.setRx2 869525000 3, .send 2 [9] false 1, .event 4 (Tests.rxOf []), .timer .rx1,
    .event 1 (Tests.rxOf []), .setRx2 868000000 1]) = true := by decide +kernel
  obtain ⟨h1, h2⟩ := Demo.next (op := .timer .rx2) hf (by decide) (by decide +kernel)
  exact ⟨_, _, _, h1, by decide +kernel, by decide +kernel, by decide +kernel, by decide +kernel⟩

/-- C12 and C13, when: the radio is told to receive only in one of the two windows, in nothing but that, for 8 symbols and up to 255
bytes, with the settings from before. -/
theorem C13_only_windows (h : Hist E (log ++ [it]) s') (hl : listens it.ev = true) :
    (stage (trace log) = .rx1 ∧ it.op = .timer .rx1 ∨ stage (trace log) = .rx2 ∧ it.op = .timer .rx2) ∧
    it.ev = [.rx 255 8 0] := by
  obtain ⟨s, h1, -, -, -, hs⟩ := h.last
  have e := (h.listens hl).2.1
  refine ⟨?_, e⟩
  have hsh := step_shape h1.inv hs
  rw [e] at hsh
  rw [stage_hist h1]
  generalize hev : [Ev.rx 255 8 0] = ev at hsh
  cases hsh with
  | nothing => cases hev
  | init => cases hev
  | sent => cases hev
  | txDone => cases hev
  | window id ho hss hp =>
    rw [ho]
    rcases hp with ⟨hp, rfl⟩ | ⟨hp, rfl⟩ <;> rw [hp]
    · exact .inl ⟨rfl, rfl⟩
    · exact .inr ⟨rfl, rfl⟩
  | rx1Timeout => cases hev
  | result m o a q e mt p ho hp hp' hj ha hq =>
    rcases ha with rfl | rfl | rfl | rfl <;> cases hev

/-! ### C15 -/

/-- C15: no call of `set_frequency` in any history is outside 860-870 MHz. -/
theorem C15_band {s : St} (h : Hist E log s) (f : U32) (hf : Ev.setFrequency f ∈ trace log) :
    860000000 ≤ f.toNat ∧ f.toNat ≤ 870000000 := by
  have key : isValidFrequency f = true := by
    obtain ⟨it, hit, he⟩ := List.mem_flatMap.mp hf
    obtain ⟨a, b, rfl⟩ := List.append_of_mem hit
    have h' : Hist E (a ++ [it] ++ b) s := by simpa using h
    obtain ⟨s1, h1, -⟩ := h'.prefix
    obtain ⟨s0, h0, -, -, -, hs⟩ := h1.last
    have hsh := step_shape h0.inv hs
    have hqn : ∀ q, Quiet q → Ev.setFrequency f ∈ q → False := fun q hq hm => Bool.noConfusion (hq.all _ hm)
    generalize it.ev = ev at *
    cases hsh with
    | nothing => cases he
    | init => simp at he
    | sent g d q l hp hr ho hg hq =>
      simp only [List.mem_append, txSetup, List.mem_cons, Ev.setFrequency.injEq, reduceCtorEq, List.not_mem_nil, or_false] at he
      rcases he with rfl | he
      · exact hg.valid h0.inv.chan
      · exact (hqn q hq he).elim
    | txDone m o q ho hp hp' hm hq =>
      rcases List.mem_append.mp he with he | he
      · simp at he
      · exact (hqn q hq he).elim
    | window => simp at he
    | rx1Timeout m o d ho hp hp' hm =>
      simp only [List.mem_cons, Ev.setFrequency.injEq, reduceCtorEq, List.not_mem_nil, or_false] at he
      subst he
      exact h0.inv.rx2Freq (h0.inv.region (by rw [hp]; decide))
    | result m o a q e mt p ho hp hp' hj ha hq =>
      rcases List.mem_append.mp he with he | he
      · rcases List.mem_append.mp he with he | he
        · rcases ha with rfl | rfl | rfl | rfl <;> simp at he
        · exact (hqn q hq he).elim
      · simp at he
  rw [isValidFrequency_eq] at key
  simpa [inBand] using key

/-- A legal channel set by the application is used; an illegal one is refused. -/
example : ∃ (log : List Item) (s : St), Hist Tests.xorEnv log s ∧ Ev.setFrequency 870000000 ∈ trace log ∧
    Ev.setFrequency 870000001 ∉ trace log := by
  have hf : Demo.fine (abpOps ++ [.setChannel 0 870000000, .setChannel 1 870000001, .enableChannel 1 false, .enableChannel 2 false,
    .send 2 [9] false 0]) = true := by decide +kernel
  exact ⟨_, _, Demo.hist hf, by decide +kernel, by decide +kernel⟩

/-! ### C36 -/

/-- C36: the result is the last call of its event and the only result in it; when it is made the radio sleeps, and the stack is idle with no
join pending, so an uplink started there is not refused with UWAN_ERR_STATE. -/
theorem C36_callback (h : Hist E (log ++ [it]) s') (e : Err) (m : Byte) (p : DlPkt) (he : Ev.downlink e m p ∈ it.ev) :
    ∃ pre, it.ev = pre ++ [.downlink e m p] ∧ reports pre = 0 ∧ asleep (trace log ++ pre) = true ∧
      exch (trace (log ++ [it])) = .idle ∧ (config E (log ++ [it])).joining = false ∧
      ∀ it2 s2, Hist E (log ++ [it] ++ [it2]) s2 →
        ((∃ a b c d, it2.op = .send a b c d) ∨ ∃ a b, it2.op = .join a b) → it2.ret ≠ .err .state := by
  obtain ⟨s, h1, -, -, -, hs⟩ := h.last
  have hsh := step_shape h1.inv hs
  have hqn : ∀ q, Quiet q → Ev.downlink e m p ∈ q → False := fun q hq hm => Bool.noConfusion (hq.all _ hm)
  have hidle : s'.phase = .idle → exch (trace (log ++ [it])) = .idle := by
    intro hp
    rw [(obs_hist h).1, hp]; rfl
  have hcfg : (config E (log ++ [it])).joining = s'.joinState := by rw [← config_hist h]; rfl
  rw [hcfg]
  have hlast : exch (trace (log ++ [it])) = .idle → ∀ it2 s2, Hist E (log ++ [it] ++ [it2]) s2 →
        ((∃ a b c d, it2.op = .send a b c d) ∨ ∃ a b, it2.op = .join a b) → it2.ret ≠ .err .state :=
    fun hi it2 s2 h2 ho => (C08_one_exchange h2 ho).2 hi
  generalize it.ev = ev at *
  cases hsh with
  | nothing => cases he
  | init => simp at he
  | sent f d q l hp hr ho hf hq =>
    simp only [List.mem_append, txSetup, List.mem_cons, reduceCtorEq, List.not_mem_nil, or_false, false_or] at he
    exact (hqn q hq he).elim
  | txDone m o q ho hp hp' hm hq =>
    rcases List.mem_append.mp he with he | he
    · simp at he
    · exact (hqn q hq he).elim
  | window => simp at he
  | rx1Timeout => simp at he
  | result m1 o a q e1 m2 p1 ho hp hp' hj ha hq =>
    have e0 : Ev.downlink e m p = .downlink e1 m2 p1 := by
      rcases List.mem_append.mp he with he | he
      · rcases List.mem_append.mp he with he | he
        · rcases ha with rfl | rfl | rfl | rfl <;> simp at he
        · exact (hqn q hq he).elim
      · simpa using he
    rw [e0]
    refine ⟨a ++ q, rfl, ?_, ?_, hidle hp', hj, hlast (hidle hp')⟩
    · rw [reports_append, reports_quiet hq]
      rcases ha with rfl | rfl | rfl | rfl <;> rfl
    · have hsl : ∀ q, Quiet q → ∀ l, asleep l = true → asleep (l ++ q) = true := by
        intro q hq
        induction q with
        | nil => intro l hl; simpa using hl
        | cons e q ih =>
          intro l hl
          have e1 : l ++ e :: q = (l ++ [e]) ++ q := by simp
          rw [e1]
          refine ih ⟨fun x hx => hq.all x (by simp [hx])⟩ _ ?_
          have := hq.all e (by simp)
          unfold asleep at *
          rw [List.foldl_append, hl]
          cases e
          case setFrequency => exact Bool.noConfusion this
          case setup => exact Bool.noConfusion this
          case setPower => exact Bool.noConfusion this
          case tx => exact Bool.noConfusion this
          case rx => exact Bool.noConfusion this
          case readPacket => exact Bool.noConfusion this
          all_goals rfl
      rw [← List.append_assoc]
      refine hsl q hq _ ?_
      unfold asleep
      rw [List.foldl_append]
      rcases ha with rfl | rfl | rfl | rfl <;> rfl

/-- A reception in the first window. -/
def answeredOps : List Op := onAirOps ++ [.event 4 (Tests.rxOf []), .timer .rx1, .event 2 (Tests.rxOf [1, 2, 3])]

/-- Its result, followed by the next uplink. -/
example : ∃ (log : List Item) (it it2 : Item) (s1 s2 : St), Hist Tests.xorEnv (log ++ [it]) s1 ∧ reports it.ev = 1 ∧
    Hist Tests.xorEnv (log ++ [it] ++ [it2]) s2 ∧ it2.op = .send 2 [7] false 1 ∧ it2.ret = .err .no := by
  have hf : Demo.fine answeredOps = true := by decide +kernel
  obtain ⟨h1, h2⟩ := Demo.next (op := .send 2 [7] false 1) hf (by decide) (by decide +kernel)
  obtain ⟨it, -, hi, h3⟩ := Demo.cut hf 5 (by decide)
  have hd : List.drop (5 + 1) (Demo.items answeredOps) = [] := by decide +kernel
  rw [hd, List.append_nil] at h3
  have hr : ((Demo.items answeredOps)[5]?).map (fun x => reports x.ev) = some 1 := by decide +kernel
  refine ⟨(Demo.items answeredOps).take 5, it, Demo.nextItem answeredOps (.send 2 [7] false 1),
    Demo.final answeredOps, (Demo.nextItem answeredOps (.send 2 [7] false 1)).post, ?_, ?_, ?_, h2, by decide +kernel⟩
  · rw [← h3]; exact Demo.hist hf
  · rw [hi] at hr; simpa using hr
  · rw [← h3]; exact h1

end Uwan
