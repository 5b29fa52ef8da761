import Verif.Spec.Energy
import Verif.Props.Timing

/-!
# C130: what an exchange costs
-/

namespace Uwan
open Spec

variable {E : Env}

theorem sends_append (a b : List Ev) : sends (a ++ b) = sends a + sends b := by
  unfold sends; rw [List.countP_append]

theorem windows_append (a b : List Ev) : windows (a ++ b) = windows a + windows b := by
  unfold windows; rw [List.countP_append]

theorem costs_quiet {q : List Ev} (h : Quiet q) : sends q = 0 ∧ windows q = 0 := by
  unfold sends windows
  constructor <;> rw [List.countP_eq_zero] <;> intro e he <;> have hq := h.all e he <;> cases e <;>
    first | exact Bool.noConfusion hq | exact Bool.false_ne_true

theorem DlCase.costs {o : Oracle} {s : St} {err : Err} {s' : St} {ev : List Ev} (hc : DlCase E o s err s' ev) :
    sends ev = 0 ∧ windows ev = 0 := by
  obtain ⟨a, q, e, m, p, ha, hq, rfl⟩ := hc.shape
  rw [sends_append, sends_append, windows_append, windows_append, (costs_quiet hq).1, (costs_quiet hq).2]
  rcases ha with rfl | rfl <;> exact ⟨rfl, rfl⟩

/-- Receptions that can still come from the exchange under way. -/
def toCome (p : Phase) (h : Hw) : Nat := if p = .tx then 2 else h.t1.toNat + h.t2.toNat

theorem toCome_le (p : Phase) (h : Hw) : toCome p h ≤ 2 := by
  unfold toCome; split
  · exact Nat.le_refl _
  · have := Bool.toNat_le h.t1; have := Bool.toNat_le h.t2; omega

/-- What one operation costs. -/
structure Cost (p p' : Phase) (h h' : Hw) (n : Nat) (ev : List Ev) : Prop where
  sends : Spec.sends ev = n
  windows : Spec.windows ev + toCome p' h' ≤ 2 * n + toCome p h

theorem cost_step {s s' : St} {op : Op} {ret : Ret} {ev : List Ev} {h : Hw} (hi : Inv s) {pre post : St}
    (hs : step E s op = .ok (ret, s', ev))
    (h1 : op = .timer .rx1 → h.t1 = true) (h2 : op = .timer .rx2 → h.t2 = true) :
    Cost s.phase s'.phase h (ev.foldl Hw.call (h.begin op)) (if sentItem ⟨pre, op, ret, ev, post⟩ then 1 else 0) ev := by
  by_cases hc : op.isCfg = true
  · obtain ⟨rfl, hf⟩ := step_cfg hc hs
    have e2 : isEnv op = false := by cases op <;> first | rfl | exact Bool.noConfusion hc
    have e3 : sentItem ⟨pre, op, ret, [], post⟩ = false := by cases op <;> first | rfl | exact Bool.noConfusion hc
    rw [begin_free h e2, hf.phase, e3]
    exact ⟨rfl, by show 0 + _ ≤ _; simp⟩
  cases op with
  | init rg =>
    simp only [step, Except.ok.injEq, Prod.mk.injEq] at hs
    obtain ⟨-, hs1, rfl⟩ := hs
    have hph : s'.phase = .idle := by rw [← hs1, uwanInit_eq s rg]
    rw [hph]
    refine ⟨rfl, ?_⟩
    show 0 + (h.t1.toNat + h.t2.toNat) ≤ 0 + toCome s.phase h
    unfold toCome; split
    · have := Bool.toNat_le h.t1; have := Bool.toNat_le h.t2; omega
    · omega
  | join r1 r2 =>
    obtain ⟨e, rfl, hc⟩ := step_join hi hs
    cases hc with
    | state => exact ⟨rfl, by show 0 + _ ≤ 0 + _; exact Nat.le_refl _⟩
    | channel => exact ⟨rfl, by show 0 + _ ≤ 0 + _; exact Nat.le_refl _⟩
    | sent f d hp =>
      refine ⟨?_, ?_⟩
      · unfold joinEv
        rw [sends_append, sends_append, (costs_quiet (buildJoin_quiet ..)).1]; rfl
      · unfold joinEv
        rw [windows_append, windows_append, (costs_quiet (buildJoin_quiet ..)).2]
        exact Nat.le_add_right 2 _
  | send p l c rnd =>
    obtain ⟨e, rfl, hc⟩ := step_send hi hs
    cases hc with
    | state => exact ⟨rfl, by show 0 + _ ≤ 0 + _; exact Nat.le_refl _⟩
    | channel => exact ⟨rfl, by show 0 + _ ≤ 0 + _; exact Nat.le_refl _⟩
    | len => exact ⟨rfl, by show 0 + _ ≤ 0 + _; exact Nat.le_refl _⟩
    | sent f d hp =>
      refine ⟨?_, ?_⟩
      · unfold sentEv
        rw [sends_append, sends_append, (costs_quiet (buildUplink_quiet ..)).1]; rfl
      · have hw : windows (sentEv E s d f p l c) = 0 := by
          unfold sentEv
          rw [windows_append, windows_append, (costs_quiet (buildUplink_quiet ..)).2]; rfl
        rw [hw]
        have h1 := toCome_le (sentSt s d ((buildUplink E s p l c).1 ++ s.frame.drop (buildUplink E s p l c).1.length)).phase
          ((sentEv E s d f p l c).foldl Hw.call (h.begin (.send p l c rnd)))
        have h2 : (if sentItem ⟨pre, .send p l c rnd, .err .no, sentEv E s d f p l c, post⟩ = true then 1 else 0) = 1 := rfl
        rw [h2]
        omega
  | timer id =>
    obtain ⟨rfl, hev⟩ := step_timer hs
    obtain ⟨b1, b2, b3, b4⟩ := h
    simp only at h1 h2
    rcases hev with rfl | ⟨rfl, ⟨hp, rfl⟩ | ⟨hp, rfl⟩⟩
    · refine ⟨rfl, ?_⟩
      cases id
      · have := h1 rfl; subst this
        show 0 + toCome s'.phase ⟨b1, b2, false, b4⟩ ≤ 0 + toCome s'.phase ⟨b1, b2, true, b4⟩
        unfold toCome; split <;> simp
      · have := h2 rfl; subst this
        show 0 + toCome s'.phase ⟨b1, b2, b3, false⟩ ≤ 0 + toCome s'.phase ⟨b1, b2, b3, true⟩
        unfold toCome; split <;> simp
    · have := h1 rfl; subst this
      refine ⟨rfl, ?_⟩
      rw [hp]
      show 1 + (0 + b4.toNat) ≤ 0 + (1 + b4.toNat)
      omega
    · have := h2 rfl; subst this
      refine ⟨rfl, ?_⟩
      rw [hp]
      show 1 + (b3.toNat + 0) ≤ 0 + (b3.toNat + 1)
      omega
  | event m o =>
    have hend : ∀ {ev0 ev1 : List Ev} {st : St} {err : Err} {s1 : St}, DlCase E o st err s1 ev1 → s1.phase = .idle →
        s.phase ≠ .tx → ev0 = [] ∨ ev0 = [.stopTimer .rx2] →
        Cost s.phase s1.phase h ((ev0 ++ ev1).foldl Hw.call (h.begin (.event m o))) 0 (ev0 ++ ev1) := by
      intro ev0 ev1 st err s1 hc hph hp h0
      obtain ⟨c1, c2⟩ := hc.costs
      obtain ⟨b1, b2, b3, b4⟩ := h
      refine ⟨?_, ?_⟩
      · rw [sends_append, c1]; rcases h0 with rfl | rfl <;> rfl
      · rw [windows_append, c2, hph, List.foldl_append, hc.hw]
        have e1 : toCome s.phase ⟨b1, b2, b3, b4⟩ = b3.toNat + b4.toNat := by unfold toCome; rw [if_neg hp]
        rw [e1]
        rcases h0 with rfl | rfl
        · show 0 + 0 + (b3.toNat + b4.toNat) ≤ _; omega
        · show 0 + 0 + (b3.toNat + 0) ≤ _; omega
    cases step_event hi hs with
    | ignore hig => exact ⟨rfl, by show 0 + toCome s.phase h ≤ 0 + toCome s.phase h; exact Nat.le_refl _⟩
    | txDone mm ev2 hp hm hmac =>
      have hq := macOnTxComplete_quiet hmac
      refine ⟨?_, ?_⟩
      · rw [sends_append, (costs_quiet hq).1]; rfl
      · rw [windows_append, (costs_quiet hq).2, hp]
        show 0 + 0 + toCome _ _ ≤ 0 + 2
        have := toCome_le .rx1 (([Ev.startTimer .rx1 s.rx1Delay, .startTimer .rx2 s.rx2Delay, .setup (rx1Pp s)] ++ ev2).foldl
          Hw.call (h.begin (.event m o)))
        simp only at this ⊢
        omega
    | rx1Timeout d hp =>
      refine ⟨rfl, ?_⟩
      rw [hp]
      show 0 + (h.t1.toNat + h.t2.toNat) ≤ 0 + (h.t1.toNat + h.t2.toNat)
      exact Nat.le_refl _
    | rx1Done s1 ev1 hp _ _ hc =>
      exact hend hc hc.dl.1.phase (by rw [hp]; decide) (.inr rfl)
    | rx2Timeout s1 ev1 hp _ hc =>
      exact hend (ev0 := []) hc hc.dl.1.phase (by rw [hp]; decide) (.inl rfl)
    | rx2Done s1 ev1 hp _ _ hc =>
      exact hend (ev0 := []) hc hc.dl.1.phase (by rw [hp]; decide) (.inl rfl)
  | _ => exact absurd rfl hc

theorem timersHonest_snoc (rest : List Item) : ∀ (log : List Item) (x : Item),
    timersHonest log (rest ++ [x]) = (timersHonest log rest && timerHonest (log ++ rest) x) := by
  induction rest with
  | nil => intro log x; simp [timersHonest]
  | cons y l ih =>
    intro log x
    rw [List.cons_append, timersHonest, ih, timersHonest, Bool.and_assoc]
    simp

theorem timerHonest_iff {log : List Item} {x : Item} (h : timerHonest log x = true) :
    (x.op = .timer .rx1 → (hw log).t1 = true) ∧ (x.op = .timer .rx2 → (hw log).t2 = true) := by
  unfold timerHonest at h
  refine ⟨fun hop => ?_, fun hop => ?_⟩ <;> (rw [hop] at h; exact h)

theorem cost_seg {log : List Item} {s0 : St} (h0 : Hist E log s0) (seg : List Item) : ∀ {s : St}, Hist E (log ++ seg) s →
    timersHonest log seg = true →
    sends (trace seg) = frames seg ∧
    windows (trace seg) + toCome s.phase (hw (log ++ seg)) ≤ 2 * frames seg + toCome s0.phase (hw log) := by
  refine snoc_induction (P := fun seg => ∀ {s : St}, Hist E (log ++ seg) s → timersHonest log seg = true →
    sends (trace seg) = frames seg ∧
    windows (trace seg) + toCome s.phase (hw (log ++ seg)) ≤ 2 * frames seg + toCome s0.phase (hw log)) ?_ ?_ seg
  · intro s h _
    rw [List.append_nil] at h ⊢
    cases h.det h0
    exact ⟨rfl, by show 0 + _ ≤ 0 + _; exact Nat.le_refl _⟩
  · intro l x ih s' h ht
    rw [timersHonest_snoc, Bool.and_eq_true] at ht
    rw [← List.append_assoc] at h
    obtain ⟨s, h1, -, -, -, hs⟩ := h.last
    obtain ⟨i1, i2⟩ := ih h1 ht.1
    obtain ⟨t1, t2⟩ := timerHonest_iff ht.2
    have c := cost_step (pre := x.pre) (post := x.post) h1.inv hs t1 t2
    have e1 : trace (l ++ [x]) = trace l ++ x.ev := by unfold trace; simp
    have e2 : frames (l ++ [x]) = frames l + if sentItem x then 1 else 0 := by
      unfold frames; rw [List.countP_append]; simp
    rw [e1, e2, sends_append, windows_append, ← List.append_assoc, hw_snoc, i1]
    refine ⟨by rw [c.sends], ?_⟩
    have := c.windows
    have e4 : sentItem ⟨x.pre, x.op, x.ret, x.ev, x.post⟩ = sentItem x := rfl
    rw [e4] at this
    have e3 : (hw (log ++ l)).next x = x.ev.foldl Hw.call ((hw (log ++ l)).begin x.op) := rfl
    rw [e3]
    omega

theorem timersHonest_append (a : List Item) : ∀ (log b : List Item),
    timersHonest log (a ++ b) = (timersHonest log a && timersHonest (log ++ a) b) := by
  induction a with
  | nil => intro log b; simp [timersHonest]
  | cons y l ih =>
    intro log b
    rw [List.cons_append, timersHonest, ih, timersHonest, Bool.and_assoc]
    simp

/-- C130: in any part of a history the radio sends once for each frame accepted from the application and for nothing else; and it
listens at most twice for each, and at most twice for what was under way before. The only assumption is that timers fire when they are
running. -/
theorem C130_windows {log seg : List Item} {s : St} (h : Hist E (log ++ seg) s) (ht : timersHonest [] (log ++ seg) = true) :
    sends (trace seg) = frames seg ∧ windows (trace seg) ≤ 2 * frames seg + 2 ∧ windows (trace log) ≤ 2 * frames log := by
  obtain ⟨s0, h0, -⟩ := h.prefix
  rw [timersHonest_append, Bool.and_eq_true, List.nil_append] at ht
  obtain ⟨h1, h2⟩ := cost_seg h0 seg h ht.2
  have h3 := (cost_seg (log := []) .nil log h0 ht.1).2
  have := toCome_le s0.phase (hw log)
  have e : toCome St.boot.phase (hw []) = 0 := rfl
  rw [e] at h3
  exact ⟨h1, by omega, by omega⟩

/-! ### The time spent listening -/

/-- Only timers make the radio listen. -/
theorem noWindow {s s' : St} {op : Op} {ret : Ret} {ev : List Ev} (hi : Inv s) (hs : step E s op = .ok (ret, s', ev))
    (hop : ∀ id, op ≠ .timer id) : windows ev = 0 := by
  by_cases hc : op.isCfg = true
  · obtain ⟨rfl, -⟩ := step_cfg hc hs; rfl
  cases op with
  | timer id => exact absurd rfl (hop id)
  | init rg =>
    simp only [step, Except.ok.injEq, Prod.mk.injEq] at hs
    obtain ⟨-, -, rfl⟩ := hs
    rfl
  | join r1 r2 =>
    obtain ⟨e, rfl, hc⟩ := step_join hi hs
    cases hc with
    | state => rfl
    | channel => rfl
    | sent f d hp =>
      unfold joinEv
      rw [windows_append, windows_append, (costs_quiet (buildJoin_quiet ..)).2]; rfl
  | send p l c rnd =>
    obtain ⟨e, rfl, hc⟩ := step_send hi hs
    cases hc with
    | state => rfl
    | channel => rfl
    | len => rfl
    | sent f d hp =>
      unfold sentEv
      rw [windows_append, windows_append, (costs_quiet (buildUplink_quiet ..)).2]; rfl
  | event m o =>
    cases step_event hi hs with
    | ignore => rfl
    | txDone mm ev2 hp hm hmac => rw [windows_append, (costs_quiet (macOnTxComplete_quiet hmac)).2]; rfl
    | rx1Timeout => rfl
    | rx1Done s1 ev1 hp _ _ hc => exact hc.costs.2
    | rx2Timeout s1 ev1 hp _ hc => exact hc.costs.2
    | rx2Done s1 ev1 hp _ _ hc => exact hc.costs.2
  | _ => exact absurd rfl hc

/-- A call of the application that uses the radio is made while the radio does not receive. -/
theorem call_free {s s' : St} {op : Op} {ret : Ret} {ev : List Ev} {h : Hw} (hi : Inv s)
    (hs : step E s op = .ok (ret, s', ev)) (hw : HwInv s.phase h) (ha : h.allows op = true) (ho : isEnv op = false) :
    ev = [] ∨ h.receiving = false := by
  by_cases hc : op.isCfg = true
  · obtain ⟨rfl, -⟩ := step_cfg hc hs; exact .inl rfl
  cases op with
  | timer id => exact Bool.noConfusion ho
  | event m o => exact Bool.noConfusion ho
  | init rg =>
    right
    obtain ⟨b1, b2, b3, b4⟩ := h
    have hr : (!b1 && !b2 && !b3 && !b4) = true := ha
    simp only [Bool.and_eq_true] at hr
    simpa using hr.1.1.2
  | join r1 r2 =>
    obtain ⟨e, rfl, hc⟩ := step_join hi hs
    cases hc with
    | state => exact .inl rfl
    | channel => exact .inl rfl
    | sent f d hp =>
      right
      rw [hp] at hw
      have hw' : h = ⟨false, false, false, false⟩ := hw
      rw [hw']
  | send p l c rnd =>
    obtain ⟨e, rfl, hc⟩ := step_send hi hs
    cases hc with
    | state => exact .inl rfl
    | channel => exact .inl rfl
    | len => exact .inl rfl
    | sent f d hp =>
      right
      rw [hp] at hw
      have hw' : h = ⟨false, false, false, false⟩ := hw
      rw [hw']
  | _ => exact absurd rfl hc

theorem listen_deaf (τ : Nat) (ev : List Ev) : ∀ (k : Nat), windows ev = 0 → ev.foldl (Listen.call τ) ⟨none, k⟩ = ⟨none, k⟩ := by
  induction ev with
  | nil => intro k _; rfl
  | cons e l ih =>
    intro k h
    have h' : windows ([e] ++ l) = 0 := h
    rw [windows_append] at h'
    have h1 : windows [e] = 0 := by omega
    have h2 : windows l = 0 := by omega
    have h3 : Listen.call τ ⟨none, k⟩ e = ⟨none, k⟩ := by
      cases e
      case rx => exact absurd h1 (by simp [windows])
      all_goals rfl
    rw [List.foldl_cons, h3]
    exact ih k h2

theorem due_deaf (ev : List Ev) : ∀ (d : Due), windows ev = 0 → d.rx = none → (ev.foldl Due.call d).rx = none := by
  induction ev with
  | nil => intro d _ h; exact h
  | cons e l ih =>
    intro d h hd
    have h' : windows ([e] ++ l) = 0 := h
    rw [windows_append] at h'
    have h1 : windows [e] = 0 := by omega
    have h2 : windows l = 0 := by omega
    rw [List.foldl_cons]
    refine ih _ h2 ?_
    cases e
    case rx => exact absurd h1 (by simp [windows])
    case startTimer id t => cases id <;> exact hd
    case stopTimer id => cases id <;> exact hd
    all_goals first | rfl | exact hd

/-- The time counted so far, with `b` microseconds allowed for each of `w` receptions. -/
structure Within (b w : Nat) (d : Due) (l : Listen) : Prop where
  both : l.since.isSome = d.rx.isSome
  last : ∀ t u, l.since = some t → d.rx = some u → u ≤ t + 262144
  total : l.total + (if l.since.isSome then b else 0) ≤ w * b

theorem within_step {tol : Tolerance} {b w z τ : Nat} {s s' : St} {op : Op} {ret : Ret} {ev : List Ev} {d : Due} {h : Hw}
    {l : Listen} {pre post : St} (hbig : 262144 + max tol.irq tol.packet ≤ b) (hi : Inv s)
    (hs : step E s op = .ok (ret, s', ev)) (hw : HwInv s.phase h) (ha : h.allows op = true) (hg : Agree d h)
    (hx : DueInv tol z s.phase d) (ht : onTime tol d (⟨pre, op, ret, ev, post⟩, τ) = true) (hl : Within b w d l) :
    Within b (w + windows ev) (d.next (⟨pre, op, ret, ev, post⟩, τ)) (l.next (⟨pre, op, ret, ev, post⟩, τ)) := by
  obtain ⟨l1, l2, l3⟩ := hl
  obtain ⟨g1, g2, g3⟩ := hg
  cases he : isEnv op with
  | false =>
    have e1 : ({ d with now := τ } : Due).begin op = { d with now := τ } := by
      cases op <;> first | rfl | exact Bool.noConfusion he
    have e2 : l.next (⟨pre, op, ret, ev, post⟩, τ) = ev.foldl (Listen.call τ) l := by
      cases op <;> first | rfl | exact Bool.noConfusion he
    have e3 : d.next (⟨pre, op, ret, ev, post⟩, τ) = ev.foldl Due.call { d with now := τ } := by
      show ev.foldl Due.call (({ d with now := τ } : Due).begin op) = _
      rw [e1]
    have hn := noWindow hi hs (by rintro id rfl; exact Bool.noConfusion he)
    rw [e2, e3, hn]
    rcases call_free hi hs hw ha he with rfl | hr
    · exact ⟨l1, l2, l3⟩
    · rw [hr] at g3
      have hd : d.rx = none := by cases hq : d.rx <;> simp_all
      rw [hd] at l1
      obtain ⟨since, total⟩ := l
      have hs' : since = none := by cases since <;> simp_all
      subst hs'
      rw [listen_deaf τ ev total hn]
      refine ⟨?_, fun t u h1 => (by cases h1), l3⟩
      have := due_deaf ev { d with now := τ } hn hd
      rw [this]
  | true =>
    cases op with
    | timer id =>
      obtain ⟨rfl, hev⟩ := step_timer hs
      have hopen : ∀ {sy : Nat}, d.symbol = sy → sy ≤ 32768 → h.receiving = false →
          Within b (w + 1) (Due.call (({ d with now := τ } : Due).begin (.timer id)) (.rx 255 8 0))
            (Listen.call τ l (.rx 255 8 0)) := by
        intro sy hsy hle hr
        rw [hr] at g3
        have hd : d.rx = none := by cases hq : d.rx <;> simp_all
        rw [hd] at l1
        obtain ⟨since, total⟩ := l
        have hs' : since = none := by cases since <;> simp_all
        subst hs'
        refine ⟨by cases id <;> rfl, ?_, ?_⟩
        · intro t u h1 h2
          have h1' : some τ = some t := h1
          cases h1'
          have h2' : some (τ + 8 * d.symbol) = some u := by cases id <;> exact h2
          cases h2'
          omega
        · show total + b ≤ (w + 1) * b
          have l3' : total + 0 ≤ w * b := l3
          rw [Nat.succ_mul]; omega
      rcases hev with rfl | ⟨rfl, ⟨hp, rfl⟩ | ⟨hp, rfl⟩⟩
      · refine ⟨?_, ?_, l3⟩
        · cases id <;> exact l1
        · cases id <;> exact l2
      · rw [hp] at hw
        obtain ⟨w1, w2⟩ := hw
        have ha' : h.t1 = true := ha
        rw [ha'] at w2
        exact hopen rfl (hx.1 hp).1 (by simpa using w2.symm)
      · rw [hp] at hw
        obtain ⟨w1, w2, w3⟩ := hw
        have ha' : h.t2 = true := ha
        rw [ha'] at w3
        exact hopen rfl (hx.2 hp).1 (by simpa using w3.symm)
    | event m o =>
      have hn := noWindow hi hs (by rintro id h; cases h)
      rw [hn]
      have ht' := ht
      unfold onTime at ht'
      rw [Bool.and_eq_true, decide_eq_true_eq] at ht'
      obtain ⟨-, ht2⟩ := ht'
      have ht3 : d.rx.all (fun t => decide (τ ≤ t + if m.toNat % 2 = 1 then tol.irq else tol.packet)) = true := ht2
      have e0 : d.next (⟨pre, .event m o, ret, ev, post⟩, τ) = ev.foldl Due.call { d with now := τ, rx := none } := rfl
      have e1 : l.next (⟨pre, .event m o, ret, ev, post⟩, τ) = ev.foldl (Listen.call τ) (l.stop τ) := rfl
      obtain ⟨since, total⟩ := l
      have key : ∃ k, (⟨since, total⟩ : Listen).stop τ = ⟨none, k⟩ ∧ k ≤ w * b := by
        cases since with
        | none => exact ⟨total, rfl, l3⟩
        | some t =>
          refine ⟨total + (τ - t), rfl, ?_⟩
          cases hq : d.rx with
          | none => rw [hq] at l1; cases l1
          | some u =>
            rw [hq] at ht3
            simp only [Option.all_some, decide_eq_true_eq] at ht3
            have := l2 t u rfl hq
            have l3' : total + b ≤ w * b := l3
            have : (if m.toNat % 2 = 1 then tol.irq else tol.packet) ≤ max tol.irq tol.packet := by
              split
              · exact Nat.le_max_left ..
              · exact Nat.le_max_right ..
            omega
      obtain ⟨k, hk, hkb⟩ := key
      rw [e0, e1, hk, listen_deaf τ ev k hn]
      refine ⟨?_, fun t u h1 => (by cases h1), hkb⟩
      rw [due_deaf ev _ hn rfl]
    | _ => exact Bool.noConfusion he

theorem within_hist {tol : Tolerance} {b : Nat} (hb : tol.timer + tol.irq + 262144 < 1000000)
    (hbig : 262144 + max tol.irq tol.packet ≤ b) (log : List (Item × Nat)) :
    ∀ {s : St}, Hist E (untimed log) s → obeys [] (untimed log) = true → timely tol [] log = true →
    Within b (windows (trace (untimed log))) (due log) (log.foldl Listen.next ⟨none, 0⟩) := by
  refine timed_induction (P := fun log => ∀ {s : St}, Hist E (untimed log) s → obeys [] (untimed log) = true →
    timely tol [] log = true → Within b (windows (trace (untimed log))) (due log) (log.foldl Listen.next ⟨none, 0⟩)) ?_ ?_ log
  · intro s h _ _
    exact ⟨rfl, fun t u h => (by cases h), Nat.zero_le _⟩
  · intro l x ih s' h ho ht
    rw [untimed_snoc] at h ho ⊢
    rw [obeys_snoc, Bool.and_eq_true] at ho
    rw [timely_snoc, Bool.and_eq_true] at ht
    obtain ⟨s, h1, -, -, -, hs⟩ := h.last
    obtain ⟨i1, z, i2⟩ := timed_hist hb l h1 ho.1 ht.1
    have hw1 := hw_hist h1 ho.1 i1
    have e1 : trace (untimed l ++ [x.1]) = trace (untimed l) ++ x.1.ev := by unfold trace; simp
    rw [e1, windows_append, due_snoc, List.foldl_append]
    obtain ⟨⟨pre, op, ret, ev, post⟩, τ⟩ := x
    exact within_step hbig h1.inv hs hw1 ho.2 (agree_hist l) i2 ht.2 (ih h1 ho.1 ht.1)

theorem honest_of_obeys (rest : List Item) : ∀ (log : List Item), obeys log rest = true → timersHonest log rest = true := by
  induction rest with
  | nil => intro _ _; rfl
  | cons x l ih =>
    intro log h
    rw [obeys, Bool.and_eq_true] at h
    rw [timersHonest, Bool.and_eq_true]
    refine ⟨?_, ih _ h.2⟩
    unfold timerHonest
    have h1 := h.1
    unfold Hw.allows at h1
    cases hop : x.op <;> rw [hop] at h1 <;> try rfl
    rename_i id
    cases id <;> exact h1

/-- C130: with timers and radio on time, the radio has spent at most 262 ms (8 symbols at the slowest data rate) and the delay of its
interrupt listening for each window, so at most twice that for each frame sent, however the network and the air behave. -/
theorem C130_listening {tol : Tolerance} {log : List (Item × Nat)} {s : St} {now : Nat}
    (hb : tol.timer + tol.irq + 262144 < 1000000)
    (h : Hist E (untimed log) s) (ho : obeys [] (untimed log) = true) (ht : timely tol [] log = true)
    (hu : upToDate tol (due log) now = true) :
    listened log now ≤ 2 * frames (untimed log) * (262144 + max tol.irq tol.packet) := by
  obtain ⟨w1, w2, w3⟩ := within_hist hb (Nat.le_refl _) log h ho ht
  have hc := (C130_windows (seg := []) (by rw [List.append_nil]; exact h) (by rw [List.append_nil]; exact honest_of_obeys _ _ ho)).2.2
  refine Nat.le_trans ?_ (Nat.mul_le_mul_right _ hc)
  unfold listened
  unfold upToDate at hu
  rw [Bool.and_eq_true] at hu
  generalize List.foldl Listen.next ⟨none, 0⟩ log = l at *
  obtain ⟨since, total⟩ := l
  cases since with
  | none => exact w3
  | some t =>
    cases hq : (due log).rx with
    | none => rw [hq] at w1; cases w1
    | some u =>
      rw [hq] at hu
      have h2 := hu.2
      simp only [Option.all_some, decide_eq_true_eq] at h2
      have := w2 t u rfl hq
      have w3' : total + (262144 + max tol.irq tol.packet) ≤ _ := w3
      show total + (now - t) ≤ _
      omega

/-- A frame nobody answers: one transmission and two receptions. -/
example : ∃ (log seg : List Item) (s : St), Hist Tests.xorEnv (log ++ seg) s ∧ timersHonest [] (log ++ seg) = true ∧
    frames log = 1 ∧ frames seg = 0 ∧ windows (trace seg) = 2 := by
  have hf : Demo.fine fullOps = true := by decide +kernel
  refine ⟨(Demo.items fullOps).take 3, (Demo.items fullOps).drop 3, Demo.final fullOps, ?_, ?_, ?_, ?_, ?_⟩
  · rw [List.take_append_drop]; exact Demo.hist hf
  · rw [List.take_append_drop]; decide +kernel
  · decide +kernel
  · decide +kernel
  · decide +kernel

/-- It has listened for 524650 µs. -/
example : ∃ (tol : Tolerance) (log : List (Item × Nat)) (s : St) (now : Nat), tol.timer + tol.irq + 262144 < 1000000 ∧
    Hist Tests.xorEnv (untimed log) s ∧ obeys [] (untimed log) = true ∧ timely tol [] log = true ∧
    upToDate tol (due log) now = true ∧ frames (untimed log) = 1 ∧ listened log now = 524650 := by
  have hf : Demo.fine fullOps = true := by decide +kernel
  have hu : untimed fullTimed = Demo.items fullOps := untimed_zip hf rfl
  refine ⟨⟨100, 300, 0⟩, fullTimed, Demo.final fullOps, 3000000, by decide, ?_, ?_, ?_, ?_, ?_, ?_⟩
  · rw [hu]; exact Demo.hist hf
  · decide +kernel
  · decide +kernel
  · decide +kernel
  · decide +kernel
  · decide +kernel

/-- `fullOps` up to the first window, whose timer fires three times. -/
def echoOps : List Op := fullOps.take 4 ++ [.timer .rx1, .timer .rx1, .timer .rx1]

/-- C130: the assumption is needed. The stack starts a reception for each call of the timer callback during the window. -/
theorem C130_echo : ∃ (log : List Item) (s : St), Hist Tests.xorEnv log s ∧ frames log = 1 ∧ windows (trace log) = 3 := by
  have hf : Demo.fine echoOps = true := by decide +kernel
  exact ⟨Demo.items echoOps, Demo.final echoOps, Demo.hist hf, by decide +kernel, by decide +kernel⟩

end Uwan
