import Verif.Lemmas.CfgFrame

/-! The end of an exchange: what the event that reports its result looks like. -/

namespace Uwan
open Spec

variable {E : Env}

/-- An event that reports a result. -/
structure Reported (E : Env) (log : List Item) (it : Item) (m : Byte) (o : Oracle) (s s' : St) (err : Err)
    (ev0 ev1 : List Ev) : Prop where
  hist : Hist E log s
  inv : Inv s
  region : s.region.isSome = true
  phase : s.phase = .rx1 ∨ s.phase = .rx2
  ev : it.ev = ev0 ++ ev1
  pre : (s.phase = .rx1 ∧ ev0 = [.stopTimer .rx2]) ∨ (s.phase = .rx2 ∧ ev0 = [])
  dl : DlCase E o { s with phase := .idle } err s' ev1
  timeout : err = .rxTimeout → s.phase = .rx2 ∧ irqRxTimeout m = true
  done : err ≠ .rxTimeout → irqRxTimeout m = false ∧ irqRxDone m = true ∧ err = (if irqCrcError m then .rxCrc else .no)

theorem report_stop {l : List Ev} (x : TimerId) : report (.stopTimer x :: l) = report l := rfl

theorem Hist.reported {log : List Item} {it : Item} {s' : St} {m : Byte} {o : Oracle} {e : Err}
    (h : Hist E (log ++ [it]) s') (hop : it.op = .event m o) (hr : report it.ev = some e) :
    ∃ s err ev0 ev1, Reported E log it m o s s' err ev0 ev1 ∧ report ev1 = some e := by
  obtain ⟨s, h1, -, -, -, hs⟩ := h.last
  rw [hop] at hs
  have hev := step_event h1.inv hs
  have hreg : s.phase = .rx1 ∨ s.phase = .rx2 → s.region.isSome = true := by
    intro hp
    refine h1.inv.region ?_
    rcases hp with hp | hp <;> rw [hp] <;> decide
  have hcrc : ∀ b : Bool, (if b then Err.rxCrc else .no) ≠ .rxTimeout := by decide
  generalize hevq : it.ev = ev at *
  cases hev with
  | ignore => simp [report] at hr
  | txDone mm ev2 hp hm hmac =>
    have hq := report_quiet (macOnTxComplete_quiet hmac)
    have : report ([Ev.startTimer .rx1 s.rx1Delay, .startTimer .rx2 s.rx2Delay, .setup (rx1Pp s)] ++ ev2) = report ev2 := rfl
    rw [this, hq] at hr
    simp at hr
  | rx1Timeout => simp [report] at hr
  | rx1Done s1 ev1 hp ht hm hc =>
    exact ⟨s, _, [.stopTimer .rx2], ev1, ⟨h1, h1.inv, hreg (.inl hp), .inl hp, hevq, .inl ⟨hp, rfl⟩, hc,
      fun h => absurd h (hcrc _), fun _ => ⟨ht, hm, rfl⟩⟩, hr⟩
  | rx2Timeout _ _ hp hm hc =>
    exact ⟨s, _, [], ev, ⟨h1, h1.inv, hreg (.inr hp), .inr hp, hevq, .inr ⟨hp, rfl⟩, hc, fun _ => ⟨hp, hm⟩,
      fun h => absurd rfl h⟩, hr⟩
  | rx2Done _ _ hp ht hm hc =>
    exact ⟨s, _, [], ev, ⟨h1, h1.inv, hreg (.inr hp), .inr hp, hevq, .inr ⟨hp, rfl⟩, hc,
      fun h => absurd h (hcrc _), fun _ => ⟨ht, hm, rfl⟩⟩, hr⟩

/-- A frame was received in a data exchange. -/
structure RxData (E : Env) (log : List Item) (it : Item) (o : Oracle) (e : Err) (s s' s2 : St) (ev0 : List Ev) (p : DlPkt)
    (evq : List Ev) : Prop where
  hist : Hist E log s
  inv : Inv s
  region : s.region.isSome = true
  phase : s.phase = .rx1 ∨ s.phase = .rx2
  post : s' = { s2 with joinState := false }
  joinState : s.joinState = false
  pre : ev0 = [.stopTimer .rx2] ∨ ev0 = []
  ev : it.ev = ev0 ++ [.readPacket, .sleep] ++ evq ++ [.downlink e (rxMtype o { s with phase := .idle }) p]
  data : DataCase E o.bat (rxSt o { s with phase := .idle }) (rxPkt o) (o.rxData.take 255) e s2 p evq
  quiet : Quiet evq

theorem Hist.rxData {log : List Item} {it : Item} {s' : St} {m : Byte} {o : Oracle} {e : Err}
    (h : Hist E (log ++ [it]) s') (hop : it.op = .event m o) (hr : report it.ev = some e)
    (hj : (config E log).joining = false) (h1 : e ≠ .rxTimeout) (h2 : e ≠ .rxCrc) :
    ∃ s s2 ev0 p ev, RxData E log it o e s s' s2 ev0 p ev := by
  obtain ⟨s, err, ev0, ev1, R, hre⟩ := h.reported hop hr
  have hjs : s.joinState = false := by rw [← hj, ← config_hist R.hist]; rfl
  have hpre : ev0 = [.stopTimer .rx2] ∨ ev0 = [] := by
    rcases R.pre with ⟨_, h⟩ | ⟨_, h⟩
    · exact .inl h
    · exact .inr h
  cases hd : R.dl with
  | none he =>
    exfalso
    have : report [Ev.sleep, .downlink err 0 ⟨none, 0, 0, 0⟩] = some err := rfl
    rw [this, Option.some.injEq] at hre
    subst hre
    have := (R.done h1).2.2
    split at this
    · exact h2 this
    · exact he this
  | join e2 s2 p ev hn hj2 hc =>
    exfalso
    have : s.joinState = true := hj2
    rw [hjs] at this
    simp at this
  | data e2 s2 p ev hn hj2 hc =>
    have : report ([Ev.readPacket, .sleep] ++ ev ++ [.downlink e2 (rxMtype o { s with phase := .idle }) p]) = some e2 :=
      report_shape (.inr rfl) hc.quiet
    rw [this, Option.some.injEq] at hre
    subst hre
    refine ⟨s, s2, ev0, p, ev, R.hist, R.inv, R.region, R.phase, rfl, hjs, hpre, ?_, hc, hc.quiet⟩
    rw [R.ev]
    simp

/-- A frame was received in a join exchange. -/
structure RxJoin (E : Env) (log : List Item) (it : Item) (o : Oracle) (e : Err) (s s' s2 : St) (ev0 : List Ev) (p : DlPkt)
    (evq : List Ev) : Prop where
  hist : Hist E log s
  inv : Inv s
  region : s.region.isSome = true
  phase : s.phase = .rx1 ∨ s.phase = .rx2
  post : s' = { s2 with joinState := false }
  joinState : s.joinState = true
  pre : ev0 = [.stopTimer .rx2] ∨ ev0 = []
  ev : it.ev = ev0 ++ [.readPacket, .sleep] ++ evq ++ [.downlink e (rxMtype o { s with phase := .idle }) p]
  join : JoinCase E (rxSt o { s with phase := .idle }) (rxPkt o) (o.rxData.take 255) e s2 p evq
  quiet : Quiet evq

theorem Hist.rxJoin {log : List Item} {it : Item} {s' : St} {m : Byte} {o : Oracle} {e : Err}
    (h : Hist E (log ++ [it]) s') (hop : it.op = .event m o) (hr : report it.ev = some e)
    (hj : (config E log).joining = true) (h1 : e ≠ .rxTimeout) (h2 : e ≠ .rxCrc) :
    ∃ s s2 ev0 p ev, RxJoin E log it o e s s' s2 ev0 p ev := by
  obtain ⟨s, err, ev0, ev1, R, hre⟩ := h.reported hop hr
  have hjs : s.joinState = true := by rw [← hj, ← config_hist R.hist]; rfl
  have hpre : ev0 = [.stopTimer .rx2] ∨ ev0 = [] := by
    rcases R.pre with ⟨_, h⟩ | ⟨_, h⟩
    · exact .inl h
    · exact .inr h
  cases hd : R.dl with
  | none he =>
    exfalso
    have : report [Ev.sleep, .downlink err 0 ⟨none, 0, 0, 0⟩] = some err := rfl
    rw [this, Option.some.injEq] at hre
    subst hre
    have := (R.done h1).2.2
    split at this
    · exact h2 this
    · exact he this
  | data e2 s2 p ev hn hj2 hc =>
    exfalso
    have : s.joinState = false := hj2
    rw [hjs] at this
    simp at this
  | join e2 s2 p ev hn hj2 hc =>
    have : report ([Ev.readPacket, .sleep] ++ ev ++ [.downlink e2 (rxMtype o { s with phase := .idle }) p]) = some e2 :=
      report_shape (.inr rfl) hc.quiet
    rw [this, Option.some.injEq] at hre
    subst hre
    refine ⟨s, s2, ev0, p, ev, R.hist, R.inv, R.region, R.phase, rfl, hjs, hpre, ?_, hc, hc.quiet⟩
    rw [R.ev]
    simp

theorem joinReported_append (a b : List Ev) : joinReported (a ++ b) = (joinReported a || joinReported b) := by
  unfold joinReported; rw [List.any_append]

theorem joinReported_end {ev0 ev : List Ev} {e : Err} {m : Byte} {p : DlPkt} (h0 : ev0 = [.stopTimer .rx2] ∨ ev0 = [])
    (hq : Quiet ev) :
    joinReported (ev0 ++ [.readPacket, .sleep] ++ ev ++ [.downlink e m p]) = (decide (e = .no) && m == 1) := by
  have hq' : joinReported ev = false := by
    cases h : joinReported ev with
    | false => rfl
    | true =>
      obtain ⟨e, m, p, hm⟩ := joinReported_mem h
      exact Bool.noConfusion (hq.all _ hm)
  rw [joinReported_append, joinReported_append, joinReported_append, hq']
  rcases h0 with rfl | rfl <;> cases e <;> simp [joinReported]

theorem rxMtype_of {o : Oracle} {s : St} {b : Byte} {l : Bytes} (h : o.rxData.take 255 = b :: l) :
    (rxMtype o s).toNat = b.toNat / 32 := by
  rw [rxMtype_cons h]; exact mhdr_mtype b

/-- In a join exchange, acceptance is the report of a join-accept; in a data exchange none is ever reported. -/
theorem joinReported_iff {log : List Item} {it : Item} {s' : St} {m : Byte} {o : Oracle}
    (h : Hist E (log ++ [it]) s') (hop : it.op = .event m o) :
    joinReported it.ev = ((config E log).joining && decide (report it.ev = some .no)) := by
  cases hr : report it.ev with
  | none =>
    rw [show decide (none = some Err.no) = false by simp, Bool.and_false]
    cases hj : joinReported it.ev with
    | false => rfl
    | true =>
      exfalso
      obtain ⟨e, m, p, hm⟩ := joinReported_mem hj
      unfold report at hr
      rw [List.findSome?_eq_none_iff] at hr
      exact absurd (hr _ hm) (by simp)
  | some e =>
    by_cases hne : e = .rxTimeout ∨ e = .rxCrc
    · obtain ⟨s, err, ev0, ev1, R, hre⟩ := h.reported hop hr
      obtain ⟨a, q, e1, m1, p1, ha, hq, hev⟩ := R.dl.shape
      rw [hev, report_shape ha hq] at hre
      cases hre
      rw [R.ev, hev]
      have hq' : joinReported q = false := by
        cases h : joinReported q with
        | false => rfl
        | true =>
          obtain ⟨e, m, p, hm⟩ := joinReported_mem h
          exact Bool.noConfusion (hq.all _ hm)
      rw [joinReported_append, joinReported_append, joinReported_append, hq']
      have h0 : joinReported ev0 = false := by rcases R.pre with ⟨_, rfl⟩ | ⟨_, rfl⟩ <;> rfl
      have h1 : joinReported a = false := by rcases ha with rfl | rfl <;> rfl
      rw [h0, h1]
      rcases hne with rfl | rfl <;> simp [joinReported]
    · simp only [not_or] at hne
      cases hj : (config E log).joining with
      | false =>
        obtain ⟨s, s2, ev0, p, ev, R⟩ := h.rxData hop hr hj hne.1 hne.2
        rw [R.ev, joinReported_end R.pre R.quiet, Bool.false_and]
        by_cases he : e = .no
        · subst he
          rw [decide_eq_true rfl, Bool.true_and]
          have hd := R.data
          generalize hbuf : List.take 255 o.rxData = buf at hd
          cases hd with
          | good H d s2 ev1 fr hb hl ht =>
            rw [hb] at hbuf
            have hm := rxMtype_of (s := { s with phase := .idle }) hbuf
            have ht2 := ht.2
            unfold DHdr.mtype at ht2
            rw [← BitVec.toNat_inj, ← BitVec.toNat_inj, mhdr_mtype] at ht2
            cases hx : (rxMtype o { s with phase := .idle } == 1) with
            | false => rfl
            | true =>
              rw [beq_iff_eq] at hx
              rw [hx] at hm
              have e1 : (1 : Byte).toNat = 1 := rfl
              have e3 : (3 : Byte).toNat = 3 := rfl
              have e5 : (5 : Byte).toNat = 5 := rfl
              rw [e3, e5] at ht2
              rw [e1] at hm
              omega
        · rw [decide_eq_false he, Bool.false_and]
      | true =>
        obtain ⟨s, s2, ev0, p, ev, R⟩ := h.rxJoin hop hr hj hne.1 hne.2
        rw [R.ev, joinReported_end R.pre R.quiet, Bool.true_and]
        by_cases he : e = .no
        · subst he
          have hd := R.join
          generalize hbuf : List.take 255 o.rxData = buf at hd
          cases hd with
          | good blks fr J c hb =>
            rw [hb] at hbuf
            have hm := rxMtype_of (s := { s with phase := .idle }) hbuf
            have : rxMtype o { s with phase := .idle } = 1 := BitVec.toNat_inj.mp hm
            rw [this]; rfl
        · simp [he]

end Uwan
