import Verif.Lemmas.Stage

/-! The hardware around the stack along a history, and the stages of an exchange cut out of it. -/

namespace Uwan
open Spec

variable {E : Env}

/-! ### Entering a stage -/

/-- Every stage but the first was entered once, and has lasted since then. -/
theorem stage_entered (t : Stage) (ht : t ≠ .off) (log : List Item) (h : stage (trace log) = t) :
    ∃ a x b, log = a ++ [x] ++ b ∧ stage (trace a) ≠ t ∧ ∀ c, c <+: b → stage (trace (a ++ [x] ++ c)) = t := by
  revert h
  refine snoc_induction (P := fun log => stage (trace log) = t →
    ∃ a x b, log = a ++ [x] ++ b ∧ stage (trace a) ≠ t ∧ ∀ c, c <+: b → stage (trace (a ++ [x] ++ c)) = t) ?_ ?_ log
  · intro h
    exact absurd h.symm ht
  · intro l y ih h
    by_cases hl : stage (trace l) = t
    · obtain ⟨a, x, b, rfl, h1, h2⟩ := ih hl
      refine ⟨a, x, b ++ [y], by simp, h1, fun c hc => ?_⟩
      rcases List.prefix_concat_iff.mp hc with rfl | hc
      · rw [← List.append_assoc]; exact h
      · exact h2 c hc
    · refine ⟨l, y, [], by simp, hl, fun c hc => ?_⟩
      rw [List.prefix_nil.mp hc, List.append_nil]; exact h

/-- Initialisation leads to an idle stack. -/
theorem init_stage {log : List Item} {it : Item} {s' : St} (h : Hist E (log ++ [it]) s') {r : Region} (hop : it.op = .init r) :
    stage (trace (log ++ [it])) = .idle := by
  obtain ⟨s0, h0, -, -, -, hst⟩ := h.last
  rw [hop] at hst
  simp only [step, Except.ok.injEq, Prod.mk.injEq] at hst
  rw [stage_trace, ← hst.2.2]; rfl

/-- A frame is sent only in an idle stack, which then is transmitting. -/
theorem sent_stage {log : List Item} {it : Item} {s' : St} (h : Hist E (log ++ [it]) s') (hs : sentItem it = true) :
    stage (trace log) = .idle ∧ stage (trace (log ++ [it])) = .tx := by
  unfold sentItem at hs
  cases hop : it.op <;> simp only [hop] at hs <;> try exact Bool.noConfusion hs
  · rw [beq_iff_eq] at hs
    obtain ⟨s, h1, -, -, -, hst⟩ := h.last
    rw [stage_hist h, stage_hist h1]
    rw [hop] at hst
    obtain ⟨e, hr, hcs⟩ := step_join h1.inv hst
    rw [hs] at hr
    cases hr
    generalize it.ev = ev at *
    cases hcs with
    | sent f d hp => rw [hp]; exact ⟨rfl, rfl⟩
  · rw [beq_iff_eq] at hs
    obtain ⟨s, h1, -, -, -, hst⟩ := h.last
    rw [stage_hist h, stage_hist h1]
    rw [hop] at hst
    obtain ⟨e, hr, hcs⟩ := step_send h1.inv hst
    rw [hs] at hr
    cases hr
    generalize it.ev = ev at *
    cases hcs with
    | sent f d hp =>
      have hp' : ∀ fr, (sentSt s d fr).phase = .tx := by
        intro fr; unfold sentSt adrHandleUplink; simp only; split <;> rfl
      rw [hp, hp']; exact ⟨rfl, rfl⟩

/-- While a stage other than idle lasts, no frame is sent. -/
theorem stage_noSent {a b : List Item} {x : Item} {s : St} (h : Hist E (a ++ [x] ++ b) s) {t : Stage} (ht : t ≠ .idle)
    (hb : ∀ c, c <+: b → stage (trace (a ++ [x] ++ c)) = t) : ∀ y ∈ b, sentItem y = false := by
  intro y hy
  cases hs : sentItem y with
  | false => rfl
  | true =>
    exfalso
    obtain ⟨b1, b2, rfl⟩ := List.append_of_mem hy
    have e : a ++ [x] ++ (b1 ++ y :: b2) = (a ++ [x] ++ b1 ++ [y]) ++ b2 := by simp
    rw [e] at h
    obtain ⟨s1, hp, -⟩ := h.prefix
    have := (sent_stage hp hs).1
    rw [hb b1 (List.prefix_append ..)] at this
    exact ht this

theorem stage_noInit {a b : List Item} {x : Item} {s : St} (h : Hist E (a ++ [x] ++ b) s) {t : Stage} (ht : t ≠ .idle)
    (hb : ∀ c, c <+: b → stage (trace (a ++ [x] ++ c)) = t) : ∀ y ∈ b, ∀ r, y.op ≠ .init r := by
  intro y hy r hop
  obtain ⟨b1, b2, rfl⟩ := List.append_of_mem hy
  have e : a ++ [x] ++ (b1 ++ y :: b2) = (a ++ [x] ++ b1 ++ [y]) ++ b2 := by simp
  rw [e] at h
  obtain ⟨s1, hp, -⟩ := h.prefix
  have h1 := hb (b1 ++ [y]) ⟨b2, by simp⟩
  rw [← List.append_assoc] at h1
  rw [init_stage hp hop] at h1
  exact ht h1.symm

/-- What makes a transmission begin. -/
theorem tx_entered {log : List Item} {s : St} (h : Hist E log s) (ht : stage (trace log) = .tx) :
    ∃ a x b, log = a ++ [x] ++ b ∧ sentItem x = true ∧ (∀ y ∈ b, sentItem y = false) ∧
      ∀ c, c <+: b → stage (trace (a ++ [x] ++ c)) = .tx := by
  obtain ⟨a, x, b, rfl, h1, h2⟩ := stage_entered .tx (by decide) log ht
  refine ⟨a, x, b, rfl, ?_, stage_noSent h (by decide) h2, h2⟩
  obtain ⟨s1, hp, -⟩ := h.prefix
  have h3 := h2 [] (List.nil_prefix)
  rw [List.append_nil] at h3
  cases hs : sentItem x with
  | true => rfl
  | false =>
    exfalso
    by_cases hi : ∃ r, x.op = .init r
    · obtain ⟨r, hop⟩ := hi
      rw [init_stage hp hop] at h3
      cases h3
    · exact h1 ((window_step hp hs (fun r hr => hi ⟨r, hr⟩)).2.2.2.2 h3)

/-- What makes the first window begin. -/
theorem rx1_entered {log : List Item} {s : St} (h : Hist E log s) (ht : stage (trace log) = .rx1) :
    ∃ a x b, log = a ++ [x] ++ b ∧ stage (trace a) = .tx ∧ (∀ y ∈ b, sentItem y = false) ∧
      (∀ y ∈ b, ∀ r, y.op ≠ .init r) ∧
      ∀ c, c <+: b → stage (trace (a ++ [x] ++ c)) = .rx1 := by
  obtain ⟨a, x, b, rfl, h1, h2⟩ := stage_entered .rx1 (by decide) log ht
  refine ⟨a, x, b, rfl, ?_, stage_noSent h (by decide) h2, stage_noInit h (by decide) h2, h2⟩
  obtain ⟨s1, hp, -⟩ := h.prefix
  have h3 := h2 [] (List.nil_prefix)
  rw [List.append_nil] at h3
  have hs : sentItem x = false := by
    cases hs : sentItem x with
    | false => rfl
    | true => rw [(sent_stage hp hs).2] at h3; cases h3
  have hi : ∀ r, x.op ≠ .init r := by
    intro r hop
    rw [init_stage hp hop] at h3
    cases h3
  rcases (window_step hp hs hi).2.2.1 h3 with h4 | h4
  · exact absurd h4 h1
  · exact h4

/-- What makes the second window begin. -/
theorem rx2_entered {log : List Item} {s : St} (h : Hist E log s) (ht : stage (trace log) = .rx2) :
    ∃ a x b, log = a ++ [x] ++ b ∧ stage (trace a) = .rx1 ∧ (∀ y ∈ b, sentItem y = false) ∧
      (∀ y ∈ b, ∀ r, y.op ≠ .init r) ∧
      ∀ c, c <+: b → stage (trace (a ++ [x] ++ c)) = .rx2 := by
  obtain ⟨a, x, b, rfl, h1, h2⟩ := stage_entered .rx2 (by decide) log ht
  refine ⟨a, x, b, rfl, ?_, stage_noSent h (by decide) h2, stage_noInit h (by decide) h2, h2⟩
  obtain ⟨s1, hp, -⟩ := h.prefix
  have h3 := h2 [] (List.nil_prefix)
  rw [List.append_nil] at h3
  have hs : sentItem x = false := by
    cases hs : sentItem x with
    | false => rfl
    | true => rw [(sent_stage hp hs).2] at h3; cases h3
  have hi : ∀ r, x.op ≠ .init r := by
    intro r hop
    rw [init_stage hp hop] at h3
    cases h3
  rcases (window_step hp hs hi).2.2.2.1 h3 with h4 | h4
  · exact absurd h4 h1
  · exact h4

/-- While a window lasts, the radio settings stay. -/
theorem radio_keep {a b : List Item} {x : Item} {s : St} {t : Stage} (ht : t = .rx1 ∨ t = .rx2)
    (h : Hist E (a ++ [x] ++ b) s) (hb : ∀ c, c <+: b → stage (trace (a ++ [x] ++ c)) = t) :
    radio (trace (a ++ [x] ++ b)) = radio (trace (a ++ [x])) := by
  revert h hb s
  refine snoc_induction (P := fun b => ∀ {s : St}, Hist E (a ++ [x] ++ b) s →
    (∀ c, c <+: b → stage (trace (a ++ [x] ++ c)) = t) →
    radio (trace (a ++ [x] ++ b)) = radio (trace (a ++ [x]))) ?_ ?_ b
  · intro s _ _; rw [List.append_nil]
  · intro l y ih s h hb
    have hns := stage_noSent h (by rcases ht with rfl | rfl <;> decide) hb y (by simp)
    have hni := stage_noInit h (by rcases ht with rfl | rfl <;> decide) hb y (by simp)
    rw [← List.append_assoc] at h ⊢
    obtain ⟨s1, hp, -⟩ := h.prefix
    have e1 := hb l (List.prefix_append ..)
    have e2 := hb (l ++ [y]) (List.prefix_rfl)
    rw [← List.append_assoc] at e2
    obtain ⟨w1, w2, -⟩ := window_step h hns hni
    rw [← ih hp (fun c hc => hb c (hc.trans (List.prefix_append ..)))]
    rcases ht with rfl | rfl
    · exact w1 e2 e1
    · exact w2 e2 e1

/-! ### The hardware -/

theorem hw_snoc (log : List Item) (it : Item) : hw (log ++ [it]) = (hw log).next it := by
  unfold hw; rw [List.foldl_append]; rfl

theorem hw_quiet {q : List Ev} (h : Quiet q) (x : Hw) : q.foldl Hw.call x = x := by
  induction q with
  | nil => rfl
  | cons e l ih =>
    have he := h.all e (by simp)
    have : x.call e = x := by cases e <;> first | rfl | exact Bool.noConfusion he
    rw [List.foldl_cons, this]
    exact ih ⟨fun y hy => h.all y (by simp [hy])⟩

/-- What the hardware does in each stage. -/
def HwInv (p : Phase) (h : Hw) : Prop :=
  match p with
  | .notInit | .idle => h = ⟨false, false, false, false⟩
  | .tx => h = ⟨true, false, false, false⟩
  | .rx1 => h.sending = false ∧ h.t1 = !h.receiving
  | .rx2 => h.sending = false ∧ h.t1 = false ∧ h.t2 = !h.receiving

/-- An upper bound for the number of interrupts and timers still to come in an exchange. -/
def left (p : Phase) (h : Hw) : Nat :=
  match p with
  | .notInit | .idle => 0
  | .tx => 5
  | .rx1 => 2 + h.t1.toNat + h.t2.toNat
  | .rx2 => 1 + h.t2.toNat

theorem DlCase.hw {o : Oracle} {s : St} {err : Err} {s' : St} {ev : List Ev} (hc : DlCase E o s err s' ev) (x : Hw) :
    ev.foldl Hw.call x = { x with sending := false, receiving := false } := by
  obtain ⟨a, q, e, m, p, ha, hq, rfl⟩ := hc.shape
  have h1 : ∀ y : Hw, [Ev.downlink e m p].foldl Hw.call y = y := fun _ => rfl
  have h2 : a.foldl Hw.call x = { x with sending := false, receiving := false } := by rcases ha with rfl | rfl <;> rfl
  rw [List.foldl_append, List.foldl_append, h1, hw_quiet hq, h2]

theorem reports_quiet {q : List Ev} (h : Quiet q) : reports q = 0 := by
  unfold reports
  rw [List.countP_eq_zero]
  intro e he
  have := h.all e he
  cases e
  case downlink => exact Bool.noConfusion this
  all_goals exact Bool.false_ne_true

theorem reports_append (a b : List Ev) : reports (a ++ b) = reports a + reports b := by
  unfold reports; rw [List.countP_append]

theorem DlCase.reports {o : Oracle} {s : St} {err : Err} {s' : St} {ev : List Ev} (hc : DlCase E o s err s' ev) :
    Spec.reports ev = 1 := by
  obtain ⟨a, q, e, m, p, ha, hq, rfl⟩ := hc.shape
  rw [reports_append, reports_append, reports_quiet hq]
  rcases ha with rfl | rfl <;> rfl

/-- The hardware, the bound and the results reported, over one operation that sends nothing. -/
structure Progress (p p' : Phase) (h h' : Hw) (op : Op) (ev : List Ev) : Prop where
  bound : (isEnv op).toNat + left p' h' ≤ left p h
  results : reports ev = if left p h ≠ 0 ∧ left p' h' = 0 then 1 else 0

theorem Progress.same (p : Phase) (h : Hw) {op : Op} (ho : isEnv op = false) : Progress p p h h op [] :=
  ⟨by rw [ho]; exact Nat.le_of_eq (Nat.zero_add _), by rw [if_neg (by omega)]; rfl⟩

theorem begin_free (h : Hw) {op : Op} (ho : isEnv op = false) : h.begin op = h := by
  cases op <;> first | rfl | exact Bool.noConfusion ho

/-- The calls of the timer callback. -/
def timerEv (p : Phase) (id : TimerId) : List Ev :=
  if p = .rx1 ∧ id = .rx1 ∨ p = .rx2 ∧ id = .rx2 then [.rx 255 8 0] else []

theorem timerEv_eq (s : St) (id : TimerId) : (timerCallback s id).2 = timerEv s.phase id := by
  unfold timerCallback timerEv
  by_cases h1 : s.phase = .rx1 ∧ id = .rx1 <;> by_cases h2 : s.phase = .rx2 ∧ id = .rx2 <;> simp [h1, h2]

theorem hw_timer {s : St} {h : Hw} {id : TimerId} (hw : HwInv s.phase h) (ha : h.allows (.timer id) = true) :
    HwInv s.phase ((timerCallback s id).2.foldl Hw.call (h.begin (.timer id))) ∧
    Progress s.phase s.phase h ((timerCallback s id).2.foldl Hw.call (h.begin (.timer id))) (.timer id) (timerCallback s id).2 := by
  rw [timerEv_eq]
  generalize s.phase = p at *
  obtain ⟨b1, b2, b3, b4⟩ := h
  cases id <;> (have ht : _ = true := ha) <;> simp only [Hw.allows] at ht <;> subst ht <;>
    cases p <;> simp only [HwInv, Hw.mk.injEq] at hw <;> try (exfalso; revert hw; simp; done)
  · obtain ⟨rfl, h2⟩ := hw
    have : b2 = false := by simpa using h2
    subst this
    cases b4 <;> exact ⟨⟨rfl, rfl⟩, ⟨by decide, by decide⟩⟩
  · obtain ⟨rfl, h2⟩ := hw
    subst h2
    cases b2 <;> exact ⟨⟨rfl, rfl⟩, ⟨by decide, by decide⟩⟩
  · obtain ⟨rfl, rfl, h2⟩ := hw
    have : b2 = false := by simpa using h2
    subst this
    exact ⟨⟨rfl, rfl, rfl⟩, ⟨by decide, by decide⟩⟩

theorem hw_done {o : Oracle} {s : St} {err : Err} {s' : St} {ev ev0 : List Ev} (hc : DlCase E o s err s' ev)
    {p : Phase} {h : Hw} (hw : HwInv p h) (hp : p = .rx1 ∧ ev0 = [.stopTimer .rx2] ∨ p = .rx2 ∧ ev0 = [])
    (hr : h.sending = false → h.receiving = true) (m : Byte) :
    HwInv .idle ((ev0 ++ ev).foldl Hw.call (h.begin (.event m o))) ∧
    Progress p .idle h ((ev0 ++ ev).foldl Hw.call (h.begin (.event m o))) (.event m o) (ev0 ++ ev) := by
  obtain ⟨b1, b2, b3, b4⟩ := h
  have key : ∀ x : Hw, reports (ev0 ++ ev) = 1 → left p ⟨b1, b2, b3, b4⟩ ≠ 0 → x = ⟨false, false, false, false⟩ →
      HwInv .idle x ∧ Progress p .idle ⟨b1, b2, b3, b4⟩ x (.event m o) (ev0 ++ ev) := by
    rintro x h1 h2 rfl
    refine ⟨rfl, ⟨?_, ?_⟩⟩
    · show 1 + 0 ≤ _; omega
    · rw [h1, if_pos ⟨h2, rfl⟩]
  have hrep : reports (ev0 ++ ev) = 1 := by
    rw [reports_append, hc.reports]
    rcases hp with ⟨-, rfl⟩ | ⟨-, rfl⟩ <;> rfl
  rcases hp with ⟨rfl, rfl⟩ | ⟨rfl, rfl⟩
  · simp only [HwInv] at hw
    obtain ⟨rfl, h4⟩ := hw
    have h2 : b2 = true := hr rfl
    subst h2
    subst h4
    refine key _ hrep (by unfold left; simp) ?_
    rw [List.foldl_append, hc.hw]; rfl
  · simp only [HwInv] at hw
    obtain ⟨rfl, rfl, h4⟩ := hw
    have h2 : b2 = true := hr rfl
    subst h2
    subst h4
    refine key _ hrep (by unfold left; simp) ?_
    rw [List.foldl_append, hc.hw]; rfl

/-- One operation. -/
theorem hw_step {s s' : St} {op : Op} {ret : Ret} {ev : List Ev} {h : Hw} (hi : Inv s)
    (hs : step E s op = .ok (ret, s', ev)) (hw : HwInv s.phase h) (ha : h.allows op = true)
    (hp : ∀ m o, op = .event m o → s.phase = .rx1 → m.toNat % 2 = 1 → h.t2 = true) :
    HwInv s'.phase (ev.foldl Hw.call (h.begin op)) ∧
    (((∃ a b c d, op = .send a b c d) ∨ ∃ a b, op = .join a b) ∧ ret = .err .no ∨
      Progress s.phase s'.phase h (ev.foldl Hw.call (h.begin op)) op ev) := by
  by_cases hc : op.isCfg = true
  · obtain ⟨rfl, hf⟩ := step_cfg hc hs
    have e2 : isEnv op = false := by cases op <;> first | rfl | exact Bool.noConfusion hc
    rw [begin_free h e2, hf.phase]
    exact ⟨hw, .inr (.same _ _ e2)⟩
  cases op with
  | init rg =>
    simp only [step, Except.ok.injEq, Prod.mk.injEq] at hs
    obtain ⟨-, hs1, rfl⟩ := hs
    have hr : h.rest = true := ha
    obtain ⟨b1, b2, b3, b4⟩ := h
    have : b1 = false ∧ b2 = false ∧ b3 = false ∧ b4 = false := by
      simpa [Hw.rest, and_assoc] using hr
    obtain ⟨rfl, rfl, rfl, rfl⟩ := this
    have hph : s'.phase = .idle := by rw [← hs1, uwanInit_eq s rg]
    rw [hph]
    have hl : left s.phase ⟨false, false, false, false⟩ = 0 := by
      cases hq : s.phase <;> rw [hq] at hw <;> first | rfl | (simp [HwInv] at hw)
    refine ⟨rfl, .inr ⟨Nat.zero_le _, ?_⟩⟩
    rw [if_neg (by rw [hl]; simp)]; rfl
  | join r1 r2 =>
    obtain ⟨e, rfl, hc⟩ := step_join hi hs
    cases hc with
    | state => exact ⟨hw, .inr (.same _ _ rfl)⟩
    | channel => exact ⟨hw, .inr (.same _ _ rfl)⟩
    | sent f d hp hg hf hd hd1 hd2 =>
      rw [hp] at hw
      have hw' : h = ⟨false, false, false, false⟩ := hw
      subst hw'
      refine ⟨?_, .inl ⟨.inr ⟨_, _, rfl⟩, rfl⟩⟩
      show _ = _
      unfold joinEv
      rw [List.foldl_append, List.foldl_append, hw_quiet (buildJoin_quiet ..)]; rfl
  | send p l c rnd =>
    obtain ⟨e, rfl, hc⟩ := step_send hi hs
    cases hc with
    | state => exact ⟨hw, .inr (.same _ _ rfl)⟩
    | channel => exact ⟨hw, .inr (.same _ _ rfl)⟩
    | len => exact ⟨hw, .inr (.same _ _ rfl)⟩
    | sent f d hp hg hf hl hn hd hd1 hd2 hlen =>
      rw [hp] at hw
      have hw' : h = ⟨false, false, false, false⟩ := hw
      subst hw'
      refine ⟨?_, .inl ⟨.inl ⟨_, _, _, _, rfl⟩, rfl⟩⟩
      have hp' : ∀ fr, (sentSt s d fr).phase = .tx := by
        intro fr; unfold sentSt adrHandleUplink; simp only; split <;> rfl
      rw [hp']
      show _ = _
      unfold sentEv
      rw [List.foldl_append, List.foldl_append, hw_quiet (buildUplink_quiet ..)]; rfl
  | timer id =>
    have hs0 := hs
    obtain ⟨rfl, -⟩ := step_timer hs
    simp only [step, Except.ok.injEq, Prod.mk.injEq] at hs
    obtain ⟨-, -, rfl⟩ := hs
    obtain ⟨h1, h2⟩ := hw_timer hw ha
    exact ⟨h1, .inr h2⟩
  | event m o =>
    have hcase := step_event hi hs
    obtain ⟨m1, m2, m3, -⟩ := irqBits m
    have ha' : (h.sending && m.toNat / 4 % 2 == 1 || h.receiving && (m.toNat % 2 == 1 || m.toNat / 2 % 2 == 1)) = true := ha
    rw [← m1, ← m2, ← m3] at ha'
    have hrx : h.sending = false → h.receiving = true := by
      intro e; rw [e] at ha'; simp at ha'; exact ha'.1
    cases hcase with
    | ignore hig =>
      exfalso
      rcases hig with hig | hig | ⟨hig, hm⟩ | ⟨hig, hm1, hm2⟩
      · rw [hig] at hw
        have : h = _ := hw
        simp [this] at ha'
      · rw [hig] at hw
        have : h = _ := hw
        simp [this] at ha'
      · rw [hig] at hw
        have : h = _ := hw
        simp [this, hm] at ha'
      · have hb : h.sending = false := by rcases hig with hig | hig <;> rw [hig] at hw <;> exact hw.1
        simp [hb, hm1, hm2] at ha'
    | txDone mm ev2 hph hm hmac =>
      have hq := macOnTxComplete_quiet hmac
      rw [hph] at hw
      have : h = ⟨true, false, false, false⟩ := hw
      subst this
      rw [hph]
      rw [List.foldl_append, hw_quiet hq]
      refine ⟨⟨rfl, rfl⟩, .inr ⟨Nat.le_refl _, ?_⟩⟩
      rw [reports_append, reports_quiet hq]; rfl
    | rx1Timeout d hph hm hd hd1 hd2 =>
      have h2 : h.t2 = true := hp m o rfl hph (by rw [m2] at hm; simpa using hm)
      rw [hph] at hw
      obtain ⟨h3, h4⟩ := hw
      have h5 := hrx h3
      rw [h5] at h4
      obtain ⟨b1, b2, b3, b4⟩ := h
      simp only at h2 h3 h4 h5
      subst h2; subst h3; subst h4; subst h5
      rw [hph]
      exact ⟨⟨rfl, rfl, rfl⟩, .inr ⟨(by decide : 1 + 2 ≤ 3), rfl⟩⟩
    | rx1Done s1 ev1 hph ht hm hc =>
      have hphase : s'.phase = .idle := hc.dl.1.phase
      rw [hph] at hw
      rw [hphase, hph]
      obtain ⟨g1, g2⟩ := hw_done hc hw (.inl ⟨rfl, rfl⟩) hrx m
      exact ⟨g1, .inr g2⟩
    | rx2Timeout _ _ hph hm hc =>
      have hphase : s'.phase = .idle := hc.dl.1.phase
      rw [hph] at hw
      rw [hphase, hph]
      obtain ⟨g1, g2⟩ := hw_done hc hw (.inr ⟨rfl, rfl⟩) hrx m
      exact ⟨g1, .inr g2⟩
    | rx2Done _ _ hph ht hm hc =>
      have hphase : s'.phase = .idle := hc.dl.1.phase
      rw [hph] at hw
      rw [hphase, hph]
      obtain ⟨g1, g2⟩ := hw_done hc hw (.inr ⟨rfl, rfl⟩) hrx m
      exact ⟨g1, .inr g2⟩
  | _ => exact absurd rfl hc

end Uwan
