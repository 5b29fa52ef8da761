import Verif.Lemmas.Report

/-! The stage of an exchange along a history. -/

namespace Uwan
open Spec

variable {E : Env}

/-- The stage that belongs to a phase of the stack. -/
def phaseStage : Phase → Stage
  | .notInit => .off
  | .idle => .idle
  | .tx => .tx
  | .rx1 => .rx1
  | .rx2 => .rx2

theorem stage_quiet {q : List Ev} (h : Quiet q) (x : Stage) : q.foldl Stage.next x = x := by
  induction q with
  | nil => rfl
  | cons e l ih =>
    have he := h.all e (by simp)
    have : x.next e = x := by cases e <;> first | rfl | exact Bool.noConfusion he
    rw [List.foldl_cons, this]
    exact ih ⟨fun y hy => h.all y (by simp [hy])⟩

theorem stage_trace (log : List Item) (it : Item) :
    stage (trace (log ++ [it])) = it.ev.foldl Stage.next (stage (trace log)) := by
  unfold stage; rw [trace_append, trace_one, List.foldl_append]

theorem DlCase.stage {o : Oracle} {s : St} {err : Err} {s' : St} {ev : List Ev} (hc : DlCase E o s err s' ev) (x : Stage) :
    ev.foldl Stage.next x = .idle := by
  obtain ⟨a, q, e, m, p, ha, hq, rfl⟩ := hc.shape
  rw [List.foldl_append]; rfl

theorem step_stage {s s' : St} {op : Op} {r : Ret} {ev : List Ev} (hi : Inv s)
    (hs : step E s op = .ok (r, s', ev)) : ev.foldl Stage.next (phaseStage s.phase) = phaseStage s'.phase := by
  by_cases hc : op.isCfg = true
  · obtain ⟨rfl, hf⟩ := step_cfg hc hs
    rw [hf.phase]; rfl
  cases op with
  | init rg =>
    simp only [step, Except.ok.injEq, Prod.mk.injEq] at hs
    obtain ⟨-, rfl, rfl⟩ := hs
    rw [uwanInit_eq s rg]; rfl
  | join r1 r2 =>
    obtain ⟨e, rfl, hc⟩ := step_join hi hs
    cases hc with
    | state => rfl
    | channel => rfl
    | sent f d hp hg hf hd hd1 hd2 =>
      unfold joinEv
      rw [List.foldl_append]; rfl
  | send p l c rnd =>
    obtain ⟨e, rfl, hc⟩ := step_send hi hs
    cases hc with
    | state => rfl
    | channel => rfl
    | len => rfl
    | sent f d hp hg hf hl hn hd hd1 hd2 hlen =>
      have hp' : ∀ fr, (sentSt s d fr).phase = .tx := by
        intro fr; unfold sentSt adrHandleUplink; simp only; split <;> rfl
      rw [hp']
      unfold sentEv
      rw [List.foldl_append]; rfl
  | timer id =>
    obtain ⟨rfl, hev⟩ := step_timer hs
    rcases hev with rfl | ⟨rfl, hp⟩ <;> rfl
  | event m o =>
    cases step_event hi hs with
    | ignore => rfl
    | txDone mm ev2 hp hm hmac =>
      rw [List.foldl_append, stage_quiet (macOnTxComplete_quiet hmac)]; rfl
    | rx1Timeout d hp hm hd hd1 hd2 => rw [hp]; rfl
    | rx1Done s1 ev1 hp ht hm hc =>
      have hph : s'.phase = .idle := hc.dl.1.phase
      rw [List.foldl_cons, hc.stage, hph]; rfl
    | rx2Timeout _ _ hp hm hc =>
      have hph : s'.phase = .idle := hc.dl.1.phase
      rw [hc.stage, hph]; rfl
    | rx2Done _ _ hp ht hm hc =>
      have hph : s'.phase = .idle := hc.dl.1.phase
      rw [hc.stage, hph]; rfl
  | _ => exact absurd rfl hc

theorem stage_hist {log : List Item} {s : St} (h : Hist E log s) : stage (trace log) = phaseStage s.phase := by
  induction h with
  | nil => rfl
  | @snoc log sa sb op r ev h hv hs ih =>
    rw [stage_trace, ih]
    exact step_stage (Hist.inv h) hs

theorem phaseStage_inj {a b : Phase} (h : phaseStage a = phaseStage b) : a = b := by
  cases a <;> cases b <;> first | rfl | exact absurd h (by decide)

/-- Read the phase off the observer's stage. -/
theorem phase_of {log : List Item} {s : St} (h : Hist E log s) (p : Phase) (hp : stage (trace log) = phaseStage p) :
    s.phase = p := phaseStage_inj (by rw [← stage_hist h, hp])

theorem irqBits (m : Byte) : irqTxDone m = (m.toNat / 4 % 2 == 1) ∧ irqRxTimeout m = (m.toNat % 2 == 1) ∧
    irqRxDone m = (m.toNat / 2 % 2 == 1) ∧ irqCrcError m = (m.toNat / 8 % 2 == 1) := by
  have : ∀ b : Fin 256, irqTxDone ⟨b⟩ = ((⟨b⟩ : Byte).toNat / 4 % 2 == 1) ∧
      irqRxTimeout ⟨b⟩ = ((⟨b⟩ : Byte).toNat % 2 == 1) ∧ irqRxDone ⟨b⟩ = ((⟨b⟩ : Byte).toNat / 2 % 2 == 1) ∧
      irqCrcError ⟨b⟩ = ((⟨b⟩ : Byte).toNat / 8 % 2 == 1) := by decide +kernel
  exact this m.toFin

/-- The windows of an exchange, while no other frame is sent. -/
theorem win_keep (log seg : List Item) (h : ∀ x ∈ seg, sentItem x = false) :
    (config E (log ++ seg)).win1 = (config E log).win1 ∧ (config E (log ++ seg)).win2 = (config E log).win2 := by
  refine snoc_induction (P := fun seg => (∀ x ∈ seg, sentItem x = false) →
    (config E (log ++ seg)).win1 = (config E log).win1 ∧ (config E (log ++ seg)).win2 = (config E log).win2) ?_ ?_ seg h
  · intro _; simp
  · intro l it ih hx
    obtain ⟨i1, i2⟩ := ih (fun y hy => hx y (by simp [hy]))
    have hn := hx it (by simp)
    rw [← List.append_assoc, config_snoc, ← i1, ← i2]
    generalize config E (log ++ l) = c
    generalize view E (log ++ l) = v
    unfold sentItem at hn
    unfold Cfg.next
    cases hop : it.op <;> simp only [hop] at hn ⊢
    case init r =>
      cases r
      · unfold Cfg.setChannel
        simp [inBand]
      · unfold Cfg.setChannel
        simp [inBand]
    case enableChannel i en => exact ⟨(enable_frame ..).win1, (enable_frame ..).win2⟩
    case setChannel i f => exact ⟨(setChannel_frame ..).win1, (setChannel_frame ..).win2⟩
    case linkCheckReq => exact ⟨(answer_frame ..).win1, (answer_frame ..).win2⟩
    case deviceTimeReq => exact ⟨(answer_frame ..).win1, (answer_frame ..).win2⟩
    case join => rw [if_neg (by simpa using hn)]; exact ⟨rfl, rfl⟩
    case send => rw [if_neg (by simpa using hn)]; exact ⟨rfl, rfl⟩
    case event m o =>
      split
      · simp only
        split
        · split
          · exact ⟨(accept_frame ..).win1, (accept_frame ..).win2⟩
          · exact ⟨rfl, rfl⟩
        · exact ⟨(receive_frame ..).win1, (receive_frame ..).win2⟩
      · split <;> exact ⟨rfl, rfl⟩
    all_goals first
      | exact ⟨trivial, trivial⟩
      | (split <;> exact ⟨rfl, rfl⟩)

theorem win_sent {log : List Item} {it : Item} (h : sentItem it = true) :
    (config E (log ++ [it])).win1 = (match it.op with | .join .. => 5000 | _ => 1000 * (config E log).delay) ∧
    (config E (log ++ [it])).win2 = (match it.op with | .join .. => 5000 | _ => 1000 * (config E log).delay) + 1000 := by
  rw [config_snoc]
  unfold sentItem at h
  unfold Cfg.next
  cases hop : it.op <;> simp only [hop] at h ⊢ <;> try exact Bool.noConfusion h
  · rw [if_pos (by simpa using h)]; exact ⟨rfl, rfl⟩
  · rw [if_pos (by simpa using h)]; exact ⟨rfl, rfl⟩

theorem cfg_win (s : St) : (cfgOf s).win1 = s.rx1Delay.toNat ∧ (cfgOf s).win2 = s.rx2Delay.toNat := ⟨rfl, rfl⟩

/-- What one operation does with stage and radio settings in the two windows. -/
theorem window_step {log : List Item} {it : Item} {s' : St} (h : Hist E (log ++ [it]) s') (hs : sentItem it = false)
    (hi : ∀ r, it.op ≠ .init r) :
    (stage (trace (log ++ [it])) = .rx1 → stage (trace log) = .rx1 →
      radio (trace (log ++ [it])) = radio (trace log)) ∧
    (stage (trace (log ++ [it])) = .rx2 → stage (trace log) = .rx2 →
      radio (trace (log ++ [it])) = radio (trace log)) ∧
    (stage (trace (log ++ [it])) = .rx1 → stage (trace log) = .rx1 ∨ stage (trace log) = .tx) ∧
    (stage (trace (log ++ [it])) = .rx2 → stage (trace log) = .rx2 ∨ stage (trace log) = .rx1) ∧
    (stage (trace (log ++ [it])) = .tx → stage (trace log) = .tx) := by
  obtain ⟨s, h1, -, -, -, hst⟩ := h.last
  rw [stage_hist h, stage_hist h1, radio_trace]
  have key : it.ev = [] → s'.phase = s.phase →
      (phaseStage s'.phase = .rx1 → phaseStage s.phase = .rx1 → it.ev.foldl Radio.next (radio (trace log)) = radio (trace log)) ∧
      (phaseStage s'.phase = .rx2 → phaseStage s.phase = .rx2 → it.ev.foldl Radio.next (radio (trace log)) = radio (trace log)) ∧
      (phaseStage s'.phase = .rx1 → phaseStage s.phase = .rx1 ∨ phaseStage s.phase = .tx) ∧
      (phaseStage s'.phase = .rx2 → phaseStage s.phase = .rx2 ∨ phaseStage s.phase = .rx1) ∧
      (phaseStage s'.phase = .tx → phaseStage s.phase = .tx) := by
    intro he hp
    rw [he, hp]
    exact ⟨fun _ _ => rfl, fun _ _ => rfl, .inl, .inl, id⟩
  have keyIdle : s'.phase = .idle →
      (phaseStage s'.phase = .rx1 → phaseStage s.phase = .rx1 → it.ev.foldl Radio.next (radio (trace log)) = radio (trace log)) ∧
      (phaseStage s'.phase = .rx2 → phaseStage s.phase = .rx2 → it.ev.foldl Radio.next (radio (trace log)) = radio (trace log)) ∧
      (phaseStage s'.phase = .rx1 → phaseStage s.phase = .rx1 ∨ phaseStage s.phase = .tx) ∧
      (phaseStage s'.phase = .rx2 → phaseStage s.phase = .rx2 ∨ phaseStage s.phase = .rx1) ∧
      (phaseStage s'.phase = .tx → phaseStage s.phase = .tx) := by
    intro hp; rw [hp]
    refine ⟨?_, ?_, ?_, ?_, ?_⟩ <;> intro h <;> exact absurd h (by decide)
  unfold sentItem at hs
  by_cases hc : it.op.isCfg = true
  · obtain ⟨he, hf⟩ := step_cfg hc hst
    exact key he hf.phase
  cases hop : it.op with
  | init rg => exact absurd hop (hi rg)
  | join r1 r2 =>
    rw [hop] at hst hs
    obtain ⟨e, hr, hcs⟩ := step_join h1.inv hst
    generalize hev : it.ev = ev at *
    cases hcs with
    | state => exact key rfl rfl
    | channel => exact key rfl rfl
    | sent f d => rw [hr] at hs; exact Bool.noConfusion hs
  | send p l c rnd =>
    rw [hop] at hst hs
    obtain ⟨e, hr, hcs⟩ := step_send h1.inv hst
    generalize hev : it.ev = ev at *
    cases hcs with
    | state => exact key rfl rfl
    | channel => exact key rfl rfl
    | len => exact key rfl rfl
    | sent f d => rw [hr] at hs; exact Bool.noConfusion hs
  | timer id =>
    rw [hop] at hst
    obtain ⟨rfl, hev⟩ := step_timer hst
    rcases hev with hev | ⟨hev, hp⟩
    · exact key hev rfl
    · rw [hev]
      exact ⟨fun _ _ => rfl, fun _ _ => rfl, .inl, .inl, fun h => h⟩
  | event m o =>
    rw [hop] at hst
    have hevc := step_event h1.inv hst
    generalize it.ev = ev at *
    cases hevc with
    | ignore => exact key rfl rfl
    | txDone mm ev2 hp hm hmac =>
      rw [hp]
      exact ⟨fun _ h2 => Stage.noConfusion h2, fun _ h2 => Stage.noConfusion h2, fun _ => .inr rfl,
        fun h2 => Stage.noConfusion h2, fun h2 => Stage.noConfusion h2⟩
    | rx1Timeout d hp hm hd hd1 hd2 =>
      rw [hp]
      exact ⟨fun h2 => Stage.noConfusion h2, fun _ h2 => Stage.noConfusion h2, fun h2 => Stage.noConfusion h2,
        fun _ => .inr rfl, fun h2 => Stage.noConfusion h2⟩
    | rx1Done s1 ev1 hp ht hm hc => exact keyIdle hc.dl.1.phase
    | rx2Timeout _ _ hp hm hc => exact keyIdle hc.dl.1.phase
    | rx2Done _ _ hp ht hm hc => exact keyIdle hc.dl.1.phase
  | _ => rw [hop] at hc; exact absurd rfl hc

end Uwan
