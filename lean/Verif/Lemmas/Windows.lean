import Verif.Lemmas.Hardware

/-!
# Facts about receive windows and exchanges, along histories
-/

namespace Uwan
open Spec

variable {E : Env} {log : List Item} {it : Item} {s' : St}

theorem obeys_snoc (rest : List Item) : ∀ (log : List Item) (x : Item),
    obeys log (rest ++ [x]) = (obeys log rest && (hw (log ++ rest)).allows x.op) := by
  induction rest with
  | nil => intro log x; simp [obeys]
  | cons y l ih =>
    intro log x
    rw [List.cons_append, obeys, ih, obeys, Bool.and_assoc]
    simp

theorem allPrompt_snoc (rest : List Item) : ∀ (log : List Item) (x : Item),
    allPrompt log (rest ++ [x]) = (allPrompt log rest && prompt (log ++ rest) x) := by
  induction rest with
  | nil => intro log x; simp [allPrompt]
  | cons y l ih =>
    intro log x
    rw [List.cons_append, allPrompt, ih, allPrompt, Bool.and_assoc]
    simp

theorem prompt_use {s : St} (h : Hist E log s) (hp : prompt log it = true) (m : Byte) (o : Oracle)
    (hop : it.op = .event m o) (hph : s.phase = .rx1) (hm : m.toNat % 2 = 1) : (hw log).t2 = true := by
  unfold prompt at hp
  rw [hop] at hp
  simp only [stage_hist h, hph, hm] at hp
  simpa [phaseStage] using hp

/-- The hardware invariant along a history. -/
theorem hw_hist {s : St} (h : Hist E log s) (ho : obeys [] log = true) (hp : allPrompt [] log = true) :
    HwInv s.phase (hw log) := by
  induction h with
  | nil => rfl
  | @snoc log s1 s2 op r ev h hv hs ih =>
    rw [obeys_snoc, Bool.and_eq_true] at ho
    rw [allPrompt_snoc, Bool.and_eq_true] at hp
    rw [hw_snoc]
    exact (hw_step (Hist.inv h) hs (ih ho.1 hp.1) ho.2 (fun m o e => prompt_use h hp.2 m o e)).1

theorem left_zero {p : Phase} {h : Hw} (hw : HwInv p h) : (left p h = 0 ↔ h.rest = true) ∧
    (left p h = 0 ↔ p = .notInit ∨ p = .idle) := by
  obtain ⟨b1, b2, b3, b4⟩ := h
  cases p <;> simp only [HwInv] at hw
  · cases hw; decide
  · cases hw; decide
  · cases hw; decide
  · obtain ⟨rfl, rfl⟩ := hw
    cases b2 <;> cases b4 <;> decide
  · obtain ⟨rfl, rfl, rfl⟩ := hw
    cases b2 <;> decide

theorem stage_on {x : Stage} (h : x ≠ .off) (l : List Ev) : l.foldl Stage.next x ≠ .off := by
  induction l generalizing x with
  | nil => exact h
  | cons e l ih =>
    apply ih
    unfold Stage.next
    split <;> first | (intro h; cases h; done) | exact h | skip
    split
    · intro h; cases h
    · exact h

theorem timers_quiet {q : List Ev} (h : Quiet q) : timers q = [] := by
  unfold timers
  rw [List.filterMap_eq_nil_iff]
  intro e he
  have := h.all e he
  cases e
  case startTimer => exact Bool.noConfusion this
  all_goals rfl

theorem timers_append (a b : List Ev) : timers (a ++ b) = timers a ++ timers b := List.filterMap_append ..

theorem DlCase.timers {o : Oracle} {s : St} {err : Err} {s' : St} {ev : List Ev} (hc : DlCase E o s err s' ev) :
    Spec.timers ev = [] := by
  obtain ⟨a, q, e, m, p, ha, hq, rfl⟩ := hc.shape
  rw [timers_append, timers_append, timers_quiet hq]
  rcases ha with rfl | rfl <;> rfl

/-- The end of a transmission. -/
theorem txDone_item {x : Item} {a : List Item} {s1 : St} (h : Hist E (a ++ [x]) s1) (ht : stage (trace a) = .tx)
    (hx : stage (trace (a ++ [x])) = .rx1) :
    ∃ s m o, Hist E a s ∧ s.phase = .tx ∧ x.op = .event m o ∧ m.toNat / 4 % 2 = 1 ∧
      timers x.ev = [(.rx1, s.rx1Delay.toNat), (.rx2, s.rx2Delay.toNat)] ∧
      radio (trace (a ++ [x])) = { radio (trace a) with pp := some (rx1Pp s) } := by
  obtain ⟨s, h1, -, -, -, hs⟩ := h.last
  have hph : s.phase = .tx := phase_of h1 .tx ht
  have hns : sentItem x = false := by
    cases hq : sentItem x with
    | false => rfl
    | true => rw [(sent_stage h hq).2] at hx; cases hx
  by_cases hc : x.op.isCfg = true
  · obtain ⟨-, hf⟩ := step_cfg hc hs
    rw [stage_hist h, hf.phase, hph] at hx; cases hx
  cases hop : x.op with
  | init r => rw [init_stage h hop] at hx; cases hx
  | join r1 r2 =>
    rw [hop] at hs
    obtain ⟨e, hr, hcs⟩ := step_join h1.inv hs
    generalize x.ev = ev at *
    cases hcs <;> simp_all [stage_hist h, phaseStage]
  | send p l c r =>
    rw [hop] at hs
    obtain ⟨e, hr, hcs⟩ := step_send h1.inv hs
    generalize x.ev = ev at *
    cases hcs <;> simp_all [stage_hist h, phaseStage]
  | timer id =>
    rw [hop] at hs
    obtain ⟨rfl, -⟩ := step_timer hs
    rw [stage_hist h, hph] at hx; cases hx
  | event m o =>
    rw [hop] at hs
    have hev := step_event h1.inv hs
    rw [radio_trace]
    rw [stage_hist h] at hx
    generalize x.ev = ev at *
    cases hev with
    | ignore => rw [hph] at hx; cases hx
    | txDone mm ev2 hp hm hmac =>
      have hq := macOnTxComplete_quiet hmac
      refine ⟨s, m, o, h1, hph, rfl, by rw [(irqBits m).1] at hm; simpa using hm, ?_, ?_⟩
      · rw [timers_append, timers_quiet hq]; rfl
      · rw [List.foldl_append, radio_quiet hq]; rfl
    | rx1Timeout d hp => rw [hph] at hp; cases hp
    | rx1Done _ _ hp => rw [hph] at hp; cases hp
    | rx2Timeout _ _ hp => rw [hph] at hp; cases hp
    | rx2Done _ _ hp => rw [hph] at hp; cases hp
  | _ => rw [hop] at hc; exact absurd rfl hc

/-- The time-out of the first window. -/
theorem rx1Timeout_item {x : Item} {a : List Item} {s1 : St} (h : Hist E (a ++ [x]) s1) (ht : stage (trace a) = .rx1)
    (hx : stage (trace (a ++ [x])) = .rx2) :
    ∃ s m o d, Hist E a s ∧ s.phase = .rx1 ∧ x.op = .event m o ∧ m.toNat % 2 = 1 ∧ drTable s.rx2Dr = some d ∧
      radio (trace (a ++ [x])) = { radio (trace a) with freq := s.rx2Freq.toNat, pp := some (rx2Pp s d) } := by
  obtain ⟨s, h1, -, -, -, hs⟩ := h.last
  have hph : s.phase = .rx1 := phase_of h1 .rx1 ht
  have hns : sentItem x = false := by
    cases hq : sentItem x with
    | false => rfl
    | true => rw [(sent_stage h hq).2] at hx; cases hx
  by_cases hc : x.op.isCfg = true
  · obtain ⟨-, hf⟩ := step_cfg hc hs
    rw [stage_hist h, hf.phase, hph] at hx; cases hx
  cases hop : x.op with
  | init r => rw [init_stage h hop] at hx; cases hx
  | join r1 r2 =>
    rw [hop] at hs
    obtain ⟨e, hr, hcs⟩ := step_join h1.inv hs
    generalize x.ev = ev at *
    cases hcs <;> simp_all [stage_hist h, phaseStage]
  | send p l c r =>
    rw [hop] at hs
    obtain ⟨e, hr, hcs⟩ := step_send h1.inv hs
    generalize x.ev = ev at *
    cases hcs <;> simp_all [stage_hist h, phaseStage]
  | timer id =>
    rw [hop] at hs
    obtain ⟨rfl, -⟩ := step_timer hs
    rw [stage_hist h, hph] at hx; cases hx
  | event m o =>
    rw [hop] at hs
    have hev := step_event h1.inv hs
    rw [radio_trace]
    rw [stage_hist h] at hx
    generalize x.ev = ev at *
    cases hev with
    | ignore => rw [hph] at hx; cases hx
    | txDone mm ev2 hp hm hmac => rw [hph] at hp; cases hp
    | rx1Timeout d hp hm hd =>
      exact ⟨s, m, o, d, h1, hph, rfl, by rw [(irqBits m).2.1] at hm; simpa using hm, hd, rfl⟩
    | rx1Done _ _ hp _ _ hc =>
      have : s1.phase = .idle := hc.dl.1.phase
      rw [this] at hx; cases hx
    | rx2Timeout _ _ hp => rw [hph] at hp; cases hp
    | rx2Done _ _ hp => rw [hph] at hp; cases hp
  | _ => rw [hop] at hc; exact absurd rfl hc

/-- What an operation does outside the stack. -/
inductive Shape (E : Env) (s : St) (op : Op) (ret : Ret) (s' : St) : List Ev → Prop where
  | nothing : Shape E s op ret s' []
  | init (r : Region) (ho : op = .init r) : Shape E s op ret s' [.setEvtHandler, .radioRand]
  | sent (f : U32) (d : Sf × Bw) (q : List Ev) (l : Bytes) (hp : s.phase = .idle) (hr : ret = .err .no)
      (ho : (∃ a b c d, op = .send a b c d) ∨ ∃ a b, op = .join a b) (hf : IsPick s.chan f) (hq : Quiet q) :
      Shape E s op ret s' (txSetup s d f ++ q ++ [.tx l])
  | txDone (m : Byte) (o : Oracle) (q : List Ev) (ho : op = .event m o) (hp : s.phase = .tx) (hp' : s'.phase = .rx1)
      (hm : irqTxDone m = true) (hq : Quiet q) :
      Shape E s op ret s' ([.startTimer .rx1 s.rx1Delay, .startTimer .rx2 s.rx2Delay, .setup (rx1Pp s)] ++ q)
  | window (id : TimerId) (ho : op = .timer id) (hs : s' = s)
      (hp : (s.phase = .rx1 ∧ id = .rx1) ∨ (s.phase = .rx2 ∧ id = .rx2)) : Shape E s op ret s' [.rx 255 8 0]
  | rx1Timeout (m : Byte) (o : Oracle) (d : Sf × Bw) (ho : op = .event m o) (hp : s.phase = .rx1) (hp' : s'.phase = .rx2)
      (hm : irqRxTimeout m = true) : Shape E s op ret s' [.setFrequency s.rx2Freq, .setup (rx2Pp s d)]
  | result (m : Byte) (o : Oracle) (a q : List Ev) (e : Err) (mt : Byte) (p : DlPkt) (ho : op = .event m o)
      (hp : s.phase = .rx1 ∨ s.phase = .rx2) (hp' : s'.phase = .idle) (hj : s'.joinState = false)
      (ha : a = [.sleep] ∨ a = [.readPacket, .sleep] ∨ a = [.stopTimer .rx2, .sleep] ∨
        a = [.stopTimer .rx2, .readPacket, .sleep]) (hq : Quiet q) : Shape E s op ret s' (a ++ q ++ [.downlink e mt p])

theorem step_shape {s s' : St} {op : Op} {r : Ret} {ev : List Ev} (hi : Inv s) (hs : step E s op = .ok (r, s', ev)) :
    Shape E s op r s' ev := by
  by_cases hc : op.isCfg = true
  · rw [(step_cfg hc hs).1]; exact .nothing
  cases op with
  | init rg =>
    simp only [step, Except.ok.injEq, Prod.mk.injEq] at hs
    rw [← hs.2.2]
    exact .init rg rfl
  | join r1 r2 =>
    obtain ⟨e, rfl, hcs⟩ := step_join hi hs
    cases hcs with
    | state => exact .nothing
    | channel => exact .nothing
    | sent f d hp hg hf => exact .sent f d _ _ hp rfl (.inr ⟨_, _, rfl⟩) hf (buildJoin_quiet ..)
  | send p l c rn =>
    obtain ⟨e, rfl, hcs⟩ := step_send hi hs
    cases hcs with
    | state => exact .nothing
    | channel => exact .nothing
    | len => exact .nothing
    | sent f d hp hg hf => exact .sent f d _ _ hp rfl (.inl ⟨_, _, _, _, rfl⟩) hf (buildUplink_quiet ..)
  | timer id =>
    obtain ⟨rfl, hev⟩ := step_timer hs
    rcases hev with rfl | ⟨rfl, hp⟩
    · exact .nothing
    · exact .window id rfl rfl hp
  | event m o =>
    have hev := step_event hi hs
    cases hev with
    | ignore => exact .nothing
    | txDone mm ev2 hp hm hmac => exact .txDone m o ev2 rfl hp rfl hm (macOnTxComplete_quiet hmac)
    | rx1Timeout d hp hm => exact .rx1Timeout m o d rfl hp rfl hm
    | rx1Done _ ev hp _ _ hc =>
      obtain ⟨a, q, e, mt, p, ha, hq, rfl⟩ := hc.shape
      have := Shape.result (E := E) (s := s) (ret := r) (s' := s') m o (.stopTimer .rx2 :: a) q e mt p rfl (.inl hp) hc.dl.1.phase
        hc.dl.2 (by rcases ha with rfl | rfl <;> simp) hq
      simpa using this
    | rx2Timeout _ ev hp _ hc =>
      obtain ⟨a, q, e, mt, p, ha, hq, rfl⟩ := hc.shape
      exact .result m o a q e mt p rfl (.inr hp) hc.dl.1.phase hc.dl.2 (by rcases ha with rfl | rfl <;> simp) hq
    | rx2Done _ ev hp _ _ hc =>
      obtain ⟨a, q, e, mt, p, ha, hq, rfl⟩ := hc.shape
      exact .result m o a q e mt p rfl (.inr hp) hc.dl.1.phase hc.dl.2 (by rcases ha with rfl | rfl <;> simp) hq
  | _ => exact absurd rfl hc

/-- Reception starts only in a window, and its settings are those before. -/
theorem Hist.listens (h : Hist E (log ++ [it]) s') (hl : listens it.ev = true) :
    (stage (trace log) = .rx1 ∨ stage (trace log) = .rx2) ∧ it.ev = [.rx 255 8 0] ∧
      radio (trace (log ++ [it])) = radio (trace log) := by
  obtain ⟨s, h1, -, -, -, hs⟩ := h.last
  have hsh := step_shape h1.inv hs
  rw [radio_trace, stage_hist h1]
  have hqn : ∀ q, Quiet q → Spec.listens q = false := by
    intro q hq
    unfold Spec.listens
    rw [List.any_eq_false]
    intro e he
    have := hq.all e he
    cases e
    case rx => exact Bool.noConfusion this
    all_goals exact Bool.false_ne_true
  have happ : ∀ a b, Spec.listens (a ++ b) = (Spec.listens a || Spec.listens b) := fun a b => List.any_append
  generalize it.ev = ev at *
  cases hsh with
  | nothing => cases hl
  | init => cases hl
  | sent f d q l hp hr ho hf hq => rw [happ, happ, hqn q hq] at hl; cases hl
  | txDone m o q ho hp hp' hm hq => rw [happ, hqn q hq] at hl; cases hl
  | window id ho hss hp =>
    refine ⟨?_, rfl, rfl⟩
    rcases hp with ⟨hp, -⟩ | ⟨hp, -⟩ <;> rw [hp]
    · exact .inl rfl
    · exact .inr rfl
  | rx1Timeout => cases hl
  | result m o a q e mt p ho hp hp' hj ha hq =>
    rw [happ, happ, hqn q hq] at hl
    rcases ha with rfl | rfl | rfl | rfl <;> cases hl

theorem next_chan (v : View) (c : Cfg) (it : Item) (i : Nat) (ht : touches i it = false) :
    (c.next E v it).freq i = c.freq i ∧ (c.next E v it).on i = c.on i := by
  unfold touches at ht
  unfold Cfg.next
  cases hop : it.op with
  | init r => rw [hop] at ht; cases ht
  | setChannel j f =>
    rw [hop] at ht
    have hne : i ≠ j.toNat := by
      intro e; rw [e] at ht; simp at ht
    simp only [Cfg.setChannel]
    split <;> simp [upd, hne]
  | enableChannel j en =>
    rw [hop] at ht
    have hne : i ≠ j.toNat := by
      intro e; rw [e] at ht; simp at ht
    simp only [Cfg.enable]
    split <;> simp [upd, hne]
  | event m o =>
    rw [hop] at ht
    have hn : report it.ev = none := by simpa using ht
    simp only [hn]
    split <;> exact ⟨rfl, rfl⟩
  | linkCheckReq => simp only [Cfg.answer]; split <;> exact ⟨rfl, rfl⟩
  | deviceTimeReq => simp only [Cfg.answer]; split <;> exact ⟨rfl, rfl⟩
  | _ => first | exact ⟨rfl, rfl⟩ | (simp only []; split <;> exact ⟨rfl, rfl⟩)

end Uwan
