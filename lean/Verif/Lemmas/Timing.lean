import Verif.Spec.Timing
import Verif.Props.Exchange

/-!
# Facts about timed histories
-/

namespace Uwan
open Spec

variable {E : Env}

/-- The timed and the untimed view of the hardware agree. -/
def Agree (d : Due) (h : Hw) : Prop := d.t1.isSome = h.t1 ∧ d.t2.isSome = h.t2 ∧ d.rx.isSome = h.receiving

theorem Agree.call {d : Due} {h : Hw} (a : Agree d h) (e : Ev) : Agree (d.call e) (h.call e) := by
  obtain ⟨a1, a2, a3⟩ := a
  cases e
  case startTimer id ms => cases id <;> exact ⟨by first | rfl | exact a1, by first | rfl | exact a2, a3⟩
  case stopTimer id => cases id <;> exact ⟨by first | rfl | exact a1, by first | rfl | exact a2, a3⟩
  case tx => exact ⟨a1, a2, rfl⟩
  case rx => exact ⟨a1, a2, rfl⟩
  case sleep => exact ⟨a1, a2, rfl⟩
  all_goals exact ⟨a1, a2, a3⟩

theorem Agree.calls (ev : List Ev) : ∀ {d : Due} {h : Hw}, Agree d h → Agree (ev.foldl Due.call d) (ev.foldl Hw.call h) := by
  induction ev with
  | nil => exact fun a => a
  | cons e l ih => exact fun a => ih (a.call e)

theorem Agree.begin {d : Due} {h : Hw} (a : Agree d h) (op : Op) (τ : Nat) :
    Agree ({ d with now := τ }.begin op) (h.begin op) := by
  obtain ⟨a1, a2, a3⟩ := a
  cases op
  case timer id => cases id <;> exact ⟨by first | rfl | exact a1, by first | rfl | exact a2, a3⟩
  case event => exact ⟨a1, a2, rfl⟩
  all_goals exact ⟨a1, a2, a3⟩

theorem due_snoc (log : List (Item × Nat)) (x : Item × Nat) : due (log ++ [x]) = (due log).next x := by
  unfold due
  rw [List.foldl_append]; rfl

theorem untimed_snoc (log : List (Item × Nat)) (x : Item × Nat) : untimed (log ++ [x]) = untimed log ++ [x.1] := by
  unfold untimed
  rw [List.map_append]; rfl

theorem timed_induction {P : List (Item × Nat) → Prop} (h0 : P []) (h1 : ∀ l x, P l → P (l ++ [x])) : ∀ l, P l := by
  intro l
  rw [← List.reverse_reverse l]
  induction l.reverse with
  | nil => exact h0
  | cons x r ih => rw [List.reverse_cons]; exact h1 _ _ ih

theorem agree_hist (log : List (Item × Nat)) : Agree (due log) (hw (untimed log)) := by
  refine timed_induction (P := fun log => Agree (due log) (hw (untimed log))) ⟨rfl, rfl, rfl⟩ ?_ log
  intro l x ih
  rw [due_snoc, untimed_snoc, hw_snoc]
  exact (ih.begin x.1.op x.2).calls x.1.ev

theorem timely_snoc (tol : Tolerance) (rest : List (Item × Nat)) : ∀ (log : List (Item × Nat)) (x : Item × Nat),
    timely tol log (rest ++ [x]) = (timely tol log rest && onTime tol (due (log ++ rest)) x) := by
  induction rest with
  | nil => intro log x; simp [timely]
  | cons y l ih =>
    intro log x
    rw [List.cons_append, timely, ih, timely, Bool.and_assoc]
    simp

theorem due_quiet {q : List Ev} (h : Quiet q) (d : Due) : q.foldl Due.call d = d := by
  induction q with
  | nil => rfl
  | cons e l ih =>
    have he := h.all e (by simp)
    have : d.call e = d := by cases e <;> first | rfl | exact Bool.noConfusion he
    rw [List.foldl_cons, this]
    exact ih ⟨fun y hy => h.all y (by simp [hy])⟩

theorem symbolTime_le {p : PktParams} (h : commonPp p = true) : symbolTime p ≤ 32768 := by
  unfold symbolTime
  rw [(commonPp_sf h).1]
  cases p.sf <;> decide

/-- What is due during the receive windows, when the second is to open at time `z`. -/
def DueInv (tol : Tolerance) (z : Nat) (p : Phase) (d : Due) : Prop :=
  (p = .rx1 → d.symbol ≤ 32768 ∧ (∀ t, d.t1 = some t → t + 1000000 ≤ z) ∧
    (∀ t, d.rx = some t → t + 1000000 ≤ z + tol.timer + 262144) ∧ (d.t2 = some z ∨ d.t2 = none ∧ z ≤ d.now)) ∧
  (p = .rx2 → d.symbol ≤ 32768 ∧ (∀ t, d.t2 = some t → t = z) ∧
    ∀ t, d.rx = some t → t ≤ z + tol.timer + 262144)

theorem DueInv.free {tol : Tolerance} {z : Nat} {p : Phase} {d : Due} (h1 : p ≠ .rx1) (h2 : p ≠ .rx2) : DueInv tol z p d :=
  ⟨fun h => absurd h h1, fun h => absurd h h2⟩

theorem DueInv.wait {tol : Tolerance} {z τ : Nat} {p : Phase} {d : Due} (h : DueInv tol z p d) (hn : d.now ≤ τ) :
    DueInv tol z p { d with now := τ } := by
  refine ⟨fun hp => ?_, fun hp => h.2 hp⟩
  obtain ⟨h1, h2, h3, h4⟩ := h.1 hp
  refine ⟨h1, h2, h3, ?_⟩
  rcases h4 with h4 | ⟨h4, h5⟩
  · exact .inl h4
  · exact .inr ⟨h4, Nat.le_trans h5 hn⟩

/-- One step. A transmission that ends fixes the time of the second window; otherwise it stays. -/
theorem due_step {tol : Tolerance} {z τ : Nat} {s s' : St} {op : Op} {ret : Ret} {ev : List Ev} {d : Due} {pre post : St}
    (hi : Inv s) (hs : step E s op = .ok (ret, s', ev))
    (hr : s'.phase = .rx1 ∨ s'.phase = .rx2 → commonPp s'.pp = true)
    (hd : s.phase = .tx → s'.phase = .rx1 → s.rx2Delay.toNat = s.rx1Delay.toNat + 1000)
    (ht1 : op = .timer .rx1 → d.t1.isSome = true) (ht2 : op = .timer .rx2 → d.t2.isSome = true)
    (h2 : ∀ m o, op = .event m o → s.phase = .rx1 → m.toNat % 2 = 1 → d.t2.isSome = true)
    (hx : DueInv tol z s.phase d) (ht : onTime tol d (⟨pre, op, ret, ev, post⟩, τ) = true) :
    ∃ z', DueInv tol z' s'.phase (d.next (⟨pre, op, ret, ev, post⟩, τ)) ∧ (s.phase ≠ .tx → z' = z) ∧
      (s.phase = .tx → s'.phase = .rx1 → z' = τ + 1000 * s.rx2Delay.toNat) := by
  unfold onTime at ht
  rw [Bool.and_eq_true, decide_eq_true_eq] at ht
  obtain ⟨hn, ht⟩ := ht
  have hno : ∀ {p : Phase} {d' : Due}, (s.phase = .tx → p ≠ .rx1) → DueInv tol z p d' →
      ∃ z', DueInv tol z' p d' ∧ (s.phase ≠ .tx → z' = z) ∧
        (s.phase = .tx → p = .rx1 → z' = τ + 1000 * s.rx2Delay.toNat) :=
    fun hP h => ⟨z, h, fun _ => rfl, fun h1 h2 => absurd h2 (hP h1)⟩
  have hsame : s.phase = .tx → s.phase ≠ .rx1 := fun h1 h2 => by rw [h1] at h2; cases h2
  show ∃ z', DueInv tol z' s'.phase (ev.foldl Due.call ({ d with now := τ }.begin op)) ∧ _
  by_cases hc : op.isCfg = true
  · obtain ⟨rfl, hf⟩ := step_cfg hc hs
    have e2 : ({ d with now := τ } : Due).begin op = { d with now := τ } := by
      cases op <;> first | rfl | exact Bool.noConfusion hc
    rw [e2, hf.phase]
    exact hno hsame (hx.wait hn)
  cases op with
  | init rg =>
    simp only [step, Except.ok.injEq, Prod.mk.injEq] at hs
    obtain ⟨-, hs1, -⟩ := hs
    have hph : s'.phase = .idle := by rw [← hs1, uwanInit_eq s rg]
    rw [hph]
    exact hno (fun _ => by decide) (.free (by decide) (by decide))
  | join r1 r2 =>
    obtain ⟨e, rfl, hc⟩ := step_join hi hs
    cases hc with
    | state => exact hno hsame (hx.wait hn)
    | channel => exact hno hsame (hx.wait hn)
    | sent => exact hno (fun _ h => by cases h) (.free (by intro h; cases h) (by intro h; cases h))
  | send p l c rnd =>
    obtain ⟨e, rfl, hc⟩ := step_send hi hs
    cases hc with
    | state => exact hno hsame (hx.wait hn)
    | channel => exact hno hsame (hx.wait hn)
    | len => exact hno hsame (hx.wait hn)
    | sent f dd hp hg hf hl hn hd hd1 hd2 hlen =>
      have hp' : ∀ fr, (sentSt s dd fr).phase = .tx := by
        intro fr; unfold sentSt adrHandleUplink; simp only; split <;> rfl
      rw [hp']
      exact hno (fun _ h => by cases h) (.free (by intro h; cases h) (by intro h; cases h))
  | timer id =>
    obtain ⟨rfl, hev⟩ := step_timer hs
    refine hno hsame ?_
    obtain ⟨now, t1, t2, rx, sym⟩ := d
    obtain ⟨x1, x2⟩ := hx
    simp only at x1 x2 hn ht
    rcases hev with rfl | ⟨rfl, ⟨hp, rfl⟩ | ⟨hp, rfl⟩⟩
    · cases id with
      | rx1 =>
        refine ⟨fun hp => ?_, x2⟩
        obtain ⟨a1, a2, a3, a4⟩ := x1 hp
        refine ⟨a1, fun t h => (by cases h), a3, ?_⟩
        rcases a4 with a4 | ⟨a4, a5⟩
        · exact .inl a4
        · exact .inr ⟨a4, Nat.le_trans a5 hn⟩
      | rx2 =>
        refine ⟨fun hp => ?_, fun hp => ?_⟩
        · obtain ⟨a1, a2, a3, a4⟩ := x1 hp
          refine ⟨a1, a2, a3, .inr ⟨rfl, ?_⟩⟩
          show z ≤ τ
          rcases a4 with rfl | ⟨rfl, a5⟩
          · simp only [Option.all_some, Bool.and_eq_true, decide_eq_true_eq] at ht
            exact ht.1
          · exact Nat.le_trans a5 hn
        · obtain ⟨a1, a2, a3⟩ := x2 hp
          exact ⟨a1, fun t h => (by cases h), a3⟩
    · obtain ⟨a1, a2, a3, a4⟩ := x1 hp
      have ht1' := ht1 rfl
      cases t1 with
      | none => cases ht1'
      | some t =>
        simp only [Option.all_some, Bool.and_eq_true, decide_eq_true_eq] at ht
        have b := a2 t rfl
        refine ⟨fun _ => ⟨a1, fun t h => (by cases h), fun u h => ?_, ?_⟩, fun h => by rw [hp] at h; cases h⟩
        · have h' : some (τ + 8 * sym) = some u := h
          cases h'
          omega
        · rcases a4 with a4 | ⟨a4, a5⟩
          · exact .inl a4
          · exact .inr ⟨a4, Nat.le_trans a5 hn⟩
    · obtain ⟨a1, a2, a3⟩ := x2 hp
      have ht2' := ht2 rfl
      cases t2 with
      | none => cases ht2'
      | some t =>
        simp only [Option.all_some, Bool.and_eq_true, decide_eq_true_eq] at ht
        have b := a2 t rfl
        refine ⟨fun h => (by rw [hp] at h; cases h), fun _ => ⟨a1, fun t h => (by cases h), fun u h => ?_⟩⟩
        have h' : some (τ + 8 * sym) = some u := h
        cases h'
        omega
  | event m o =>
    have hev := step_event hi hs
    cases hev with
    | ignore hig =>
      refine hno hsame ⟨fun hp => ?_, fun hp => ?_⟩
      · obtain ⟨a1, a2, a3, a4⟩ := hx.1 hp
        refine ⟨a1, a2, fun t h => (by cases h), ?_⟩
        rcases a4 with a4 | ⟨a4, a5⟩
        · exact .inl a4
        · exact .inr ⟨a4, Nat.le_trans a5 hn⟩
      · obtain ⟨a1, a2, a3⟩ := hx.2 hp
        exact ⟨a1, a2, fun t h => by cases h⟩
    | txDone mm ev2 hp hm hmac =>
      have hq := macOnTxComplete_quiet hmac
      have hr' : commonPp (rx1Pp s) = true := hr (.inl rfl)
      have hd' := hd hp rfl
      rw [List.foldl_append, due_quiet hq]
      refine ⟨τ + 1000 * s.rx2Delay.toNat, ⟨fun _ => ⟨symbolTime_le hr', fun t h => ?_, fun t h => ?_, .inl rfl⟩,
        fun h => by cases h⟩, fun h => absurd hp h, fun _ _ => rfl⟩
      · have h' : some (τ + 1000 * s.rx1Delay.toNat) = some t := h
        cases h'
        omega
      · cases h
    | rx1Timeout dd hp hm hdd hd1 hd2 =>
      have hr' : commonPp (rx2Pp s dd) = true := hr (.inr rfl)
      refine hno (fun h => by rw [hp] at h; cases h) ⟨fun h => (by cases h), fun _ => ⟨symbolTime_le hr', fun t h => ?_, fun t h => ?_⟩⟩
      · obtain ⟨a1, a2, a3, a4⟩ := hx.1 hp
        have hm' : m.toNat % 2 = 1 := by rw [(irqBits m).2.1] at hm; simpa using hm
        have h3 := h2 m o rfl hp hm'
        have h' : d.t2 = some t := h
        rcases a4 with a4 | ⟨a4, -⟩
        · rw [a4] at h'; cases h'; rfl
        · rw [a4] at h'; cases h'
      · cases h
    | rx1Done s1 ev1 hp _ _ hc =>
      have hid : s'.phase = .idle := hc.dl.1.phase
      rw [hid]
      exact hno (fun _ => by decide) (.free (by decide) (by decide))
    | rx2Timeout s1 ev1 hp _ hc =>
      have hid : s'.phase = .idle := hc.dl.1.phase
      rw [hid]
      exact hno (fun _ => by decide) (.free (by decide) (by decide))
    | rx2Done s1 ev1 hp _ _ hc =>
      have hid : s'.phase = .idle := hc.dl.1.phase
      rw [hid]
      exact hno (fun _ => by decide) (.free (by decide) (by decide))
  | _ => exact absurd rfl hc

/-- A history leads to one state. -/
theorem Seg.det {log : List Item} {s1 s2 : St} (h1 : Hist E log s1) (h2 : Hist E log s2) : s1 = s2 := by
  rcases List.eq_nil_or_concat log with rfl | ⟨l, x, rfl⟩
  · rw [h1.nil_inv, h2.nil_inv]
  · rw [List.concat_eq_append] at h1 h2
    obtain ⟨_, -, -, e1, -⟩ := h1.last
    obtain ⟨_, -, -, e2, -⟩ := h2.last
    rw [← e1, ← e2]

theorem obeys_prefix (b : List Item) : ∀ (log a : List Item), obeys log (a ++ b) = true → obeys log a = true := by
  intro log a
  induction a generalizing log with
  | nil => exact fun _ => rfl
  | cons y l ih =>
    intro h
    rw [List.cons_append, obeys, Bool.and_eq_true] at h
    rw [obeys, Bool.and_eq_true]
    exact ⟨h.1, ih _ h.2⟩

theorem allPrompt_prefix (b : List Item) : ∀ (log a : List Item), allPrompt log (a ++ b) = true → allPrompt log a = true := by
  intro log a
  induction a generalizing log with
  | nil => exact fun _ => rfl
  | cons y l ih =>
    intro h
    rw [List.cons_append, allPrompt, Bool.and_eq_true] at h
    rw [allPrompt, Bool.and_eq_true]
    exact ⟨h.1, ih _ h.2⟩

theorem txDone_phase {log : List Item} {it : Item} {s s' : St} (h : Hist E (log ++ [it]) s') (h1 : Hist E log s)
    (hph : s.phase = .tx) {m : Byte} {o : Oracle} (hop : it.op = .event m o) (hm : m.toNat / 4 % 2 = 1) : s'.phase = .rx1 := by
  obtain ⟨s0, h0, -, -, -, hs⟩ := h.last
  have e := h0.det h1
  subst e
  rw [hop] at hs
  have hev := step_event h1.inv hs
  have hm' : irqTxDone m = true := by rw [(irqBits m).1]; simpa using hm
  generalize it.ev = ev at *
  cases hev with
  | ignore hig =>
    rcases hig with h | h | ⟨_, h⟩ | ⟨h, _⟩
    · rw [hph] at h; cases h
    · rw [hph] at h; cases h
    · rw [hm'] at h; cases h
    · rw [hph] at h; rcases h with h | h <;> cases h
  | txDone => rfl
  | rx1Timeout d hp => rw [hph] at hp; cases hp
  | rx1Done _ _ hp => rw [hph] at hp; cases hp
  | rx2Timeout _ _ hp => rw [hph] at hp; cases hp
  | rx2Done _ _ hp => rw [hph] at hp; cases hp

/-- The delays of an ended transmission. -/
theorem delay_gap {log : List Item} {it : Item} {s s' : St} (h : Hist E (log ++ [it]) s') (h1 : Hist E log s)
    (ht : s.phase = .tx) (hx : s'.phase = .rx1) : timers it.ev = [(.rx1, s.rx1Delay.toNat), (.rx2, s.rx2Delay.toNat)] ∧
    s.rx2Delay.toNat = s.rx1Delay.toNat + 1000 := by
  have g1 : stage (trace log) = .tx := by rw [stage_hist h1, ht]; rfl
  have g2 : stage (trace (log ++ [it])) = .rx1 := by rw [stage_hist h, hx]; rfl
  obtain ⟨s2, m, o, h2, -, hop, hm, ht2, -⟩ := txDone_item h g1 g2
  have e : s2 = s := h2.det h1
  subst e
  obtain ⟨a, x, b, -, -, -, hti, -⟩ := (C11_timers h).1 m o hop hm g1
  rw [ht2] at hti
  simp only [List.cons.injEq, Prod.mk.injEq, true_and, and_true] at hti
  exact ⟨ht2, by rw [hti.1, hti.2]⟩

/-- One more operation of a timed history. -/
theorem timed_snoc {tol : Tolerance} {log : List (Item × Nat)} {x : Item × Nat} {s s' : St} {z : Nat}
    (hb : tol.timer + tol.irq + 262144 < 1000000)
    (h1 : Hist E (untimed log) s) (h : Hist E (untimed log ++ [x.1]) s') (hw1 : HwInv s.phase (hw (untimed log)))
    (ha : (hw (untimed log)).allows x.1.op = true) (ht : onTime tol (due log) x = true)
    (hx : DueInv tol z s.phase (due log)) :
    prompt (untimed log) x.1 = true ∧
    ∃ z', DueInv tol z' s'.phase (due (log ++ [x])) ∧ (s.phase ≠ .tx → z' = z) ∧
      (s.phase = .tx → s'.phase = .rx1 → z' = x.2 + 1000 * s.rx2Delay.toNat) := by
  obtain ⟨s0, h0, -, -, -, hs⟩ := h.last
  have e := h0.det h1
  subst e
  obtain ⟨g1, g2, g3⟩ := agree_hist log
  have hpr : ∀ m o, x.1.op = .event m o → s0.phase = .rx1 → m.toNat % 2 = 1 → (due log).t2.isSome = true := by
    intro m o hop hp hm
    rw [hop] at ha
    have ha' : ((hw (untimed log)).sending && m.toNat / 4 % 2 == 1 ||
      (hw (untimed log)).receiving && (m.toNat % 2 == 1 || m.toNat / 2 % 2 == 1)) = true := ha
    rw [hp] at hw1
    obtain ⟨w1, w2⟩ := hw1
    rw [w1] at ha'
    have w3 : (hw (untimed log)).receiving = true := by simp at ha'; exact ha'.1
    rw [w3] at g3
    obtain ⟨a1, a2, a3, a4⟩ := hx.1 hp
    unfold onTime at ht
    rw [hop, Bool.and_eq_true, decide_eq_true_eq] at ht
    obtain ⟨hn, ht⟩ := ht
    cases hrx : (due log).rx with
    | none => rw [hrx] at g3; cases g3
    | some t =>
      rw [hrx] at ht
      simp only [Option.all_some, decide_eq_true_eq] at ht
      rw [if_pos hm] at ht
      have := a3 t hrx
      rcases a4 with a4 | ⟨-, a5⟩
      · rw [a4]; rfl
      · omega
  refine ⟨?_, ?_⟩
  · unfold prompt
    cases hop : x.1.op <;> try rfl
    rename_i m o
    simp only [stage_hist h1]
    by_cases hp : s0.phase = .rx1
    · by_cases hm : m.toNat % 2 = 1
      · rw [← g2, hpr m o hop hp hm]; simp
      · simp [hm]
    · have : (phaseStage s0.phase == Stage.rx1) = false := by
        cases hq : s0.phase <;> first | rfl | exact absurd hq hp
      rw [this]; rfl
  · rw [due_snoc]
    obtain ⟨⟨pre, op, ret, ev, post⟩, τ⟩ := x
    refine due_step h1.inv hs ?_ ?_ ?_ ?_ hpr hx ht
    · intro hp
      exact ((obs_hist h).2.2.1.pend hp).2.2.1
    · intro hp hp'
      exact (delay_gap h h1 hp hp').2
    · intro hop
      have hop' : op = .timer .rx1 := hop
      subst hop'
      rw [g1]; exact ha
    · intro hop
      have hop' : op = .timer .rx2 := hop
      subst hop'
      rw [g2]; exact ha

/-- With timers and radio in time, first windows time out in time. -/
theorem timed_hist {tol : Tolerance} (hb : tol.timer + tol.irq + 262144 < 1000000) (log : List (Item × Nat)) :
    ∀ {s : St}, Hist E (untimed log) s → obeys [] (untimed log) = true → timely tol [] log = true →
    allPrompt [] (untimed log) = true ∧ ∃ z, DueInv tol z s.phase (due log) := by
  refine timed_induction (P := fun log => ∀ {s : St}, Hist E (untimed log) s → obeys [] (untimed log) = true →
    timely tol [] log = true → allPrompt [] (untimed log) = true ∧ ∃ z, DueInv tol z s.phase (due log)) ?_ ?_ log
  · intro s h _ _
    cases h.nil_inv
    exact ⟨rfl, 0, .free (by decide) (by decide)⟩
  · intro l x ih s' h ho ht
    rw [untimed_snoc] at h ho ⊢
    rw [obeys_snoc, Bool.and_eq_true] at ho
    rw [timely_snoc, Bool.and_eq_true] at ht
    obtain ⟨s, h1, -⟩ := h.last
    obtain ⟨i1, z, i2⟩ := ih h1 ho.1 ht.1
    obtain ⟨g1, z', g2, -⟩ := timed_snoc hb h1 h (hw_hist h1 ho.1 i1) ho.2 ht.2 i2
    rw [allPrompt_snoc, i1]
    exact ⟨g1, z', g2⟩

end Uwan
