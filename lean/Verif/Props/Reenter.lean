import Verif.Lemmas.ReenterCount
import Verif.Props.Downlink
import Verif.Spec.Mac

/-!
# Applications that call the stack from inside their MAC callbacks (C106-C109)

`stepR E A s op` (`Model/Reenter`) is an operation during which the application makes the calls `A` inside `link_check_result`,
`get_battery_level`, `device_time_result` and `get_device_time`; `Reach` are the states such applications can get to. `reenter_none`
connects this model with the one the other theorems are about.
-/

namespace Uwan
open Spec

variable {E : Env} {A : Inside} {s s' : St} {r : Ret} {ev : List Ev}

/-- An application that calls nothing inside its callbacks is one of the other theorems. -/
theorem reenter_none (h : Reach E s) (op : Op) : stepR E .none s op = step E s op := stepR_none h.inv op

/-- Histories of the other theorems are among the executions here. -/
theorem Hist.reach {log : List Item} (h : Hist E log s) : Reach E s := by
  induction h with
  | nil => exact .boot
  | snoc h hv hs ih => exact .step ih Inside.none_valid hv ((stepR_none ih.inv _).trans hs)

namespace Demo

/-- What happens in a concrete operation with calls inside callbacks. -/
def inside (ops : List Op) (A : Inside) (op : Op) : Option (St × List Ev) :=
  match stepR Tests.xorEnv A (final ops) op with
  | .ok (_, s', ev) => some (s', ev)
  | .error _ => none

theorem inside_ok {ops : List Op} {A : Inside} {op : Op} {P : St → List Ev → Bool}
    (h : (match inside ops A op with | some (s', ev) => P s' ev | none => false) = true) :
    ∃ r s' ev, stepR Tests.xorEnv A (final ops) op = .ok (r, s', ev) ∧ P s' ev = true := by
  unfold inside at h
  cases hs : stepR Tests.xorEnv A (final ops) op with
  | error u => rw [hs] at h; cases h
  | ok x => rw [hs] at h; exact ⟨x.1, x.2.1, x.2.2, rfl, h⟩

/-- A device with all MAC callbacks, waiting in the first window; a DeviceTimeReq was sent. -/
def macOps : List Op :=
  [.init .eu868, .setSession 0x01020304 0 0 Tests.appKey Tests.appKey, .setOtaaKeys Tests.devEui Tests.appEui Tests.appKey,
    .macSetHandlers (some ⟨true, true, true, true⟩), .deviceTimeReq, .send 2 [1] false 0, .event 4 (Tests.rxOf []), .timer .rx1]

theorem macFine : fine macOps = true := by decide +kernel

/-- A downlink with LinkCheckAns and DevStatusReq and a message on port 7. -/
def macDown : Bytes := dlFrame ⟨false, 0, 0, [2, 10, 1, 6], some (7, [0x68, 0x69])⟩ 1

/-- Calls inside the callback of the LinkCheckAns (followed by three bytes). -/
def atLinkCheck (ops : List Op) : Inside := ⟨fun n => if n = 3 then ops else [], []⟩

theorem atLinkCheck_valid {ops : List Op} (h : ∀ op ∈ ops, op.Call) : (atLinkCheck ops).Valid := by
  refine ⟨fun n op ho => ?_, fun op ho => by simp [atLinkCheck] at ho⟩
  unfold atLinkCheck at ho
  simp only at ho
  split at ho
  · exact h op ho
  · simp at ho

theorem atLinkCheck_within {ops : List Op} (h : ∀ op ∈ ops, op.Mild) : (atLinkCheck ops).Within := by
  refine ⟨fun n op ho => ?_, fun op ho => by simp [atLinkCheck] at ho⟩
  unfold atLinkCheck at ho
  simp only at ho
  split at ho
  · exact h op ho
  · simp at ho

end Demo

/-! ### C106 -/

/-- C106, what holds: what `downlink_callback` reports does not depend on the calls made inside the MAC callbacks, as long as they send nothing
and do not replace the session. Missing: an accepted uplink or join-request inside a callback overwrites the frame that is being
processed (`C106_send_inside`), and an accepted join is forgotten (`C106_join_inside`). -/
theorem C106_report_partial (h : Reach E s) (ha : A.Valid) (hm : A.Mild) (m : Byte) (o : Oracle)
    (hs : stepR E A s (.event m o) = .ok (r, s', ev)) (htx : txs ev = []) :
    ∃ s2 ev2, step E s (.event m o) = .ok (.unit, s2, ev2) ∧ results ev = results ev2 := by
  simp only [stepR, bind, Except.bind] at hs
  split at hs
  · simp at hs
  next x hx =>
  simp only [Except.ok.injEq, Prod.mk.injEq] at hs
  have hn := stepR_none (E := E) h.inv (.event m o)
  rcases evtHandlerR_ok (E := E) Inside.none_valid o h.inv m with ⟨s2, ev2, e2, -⟩ | ⟨ht, e2⟩
  · refine ⟨s2, ev2, ?_, ?_⟩
    · rw [← hn]; simp only [stepR, e2]; rfl
    · rw [← hs.2.2] at htx ⊢
      exact evtHandlerR_same (a := x.1) (v1 := x.2) ha hm o h.inv m hx htx e2
  · exfalso
    rcases evtHandlerR_ok (E := E) ha o h.inv m with ⟨s3, ev3, e3, -⟩ | ⟨-, e3⟩
    · obtain ⟨hp, hd, hsv, hcb⟩ := ht
      unfold evtHandlerR at hx
      rw [hp] at hx
      simp only [evtTxR, hd, ↓reduceIte, rx1Params_ok h.inv, bind, Except.bind, macOnTxCompleteR, hsv, hcb] at hx
      simp at hx
    · rw [e3] at hx; simp at hx

-- Settings are changed and a DeviceTimeReq queued inside the callback of a LinkCheckAns; the message is delivered.
example : ∃ s A o r s' ev, Reach Tests.xorEnv s ∧ A.Valid ∧ A.Mild ∧ stepR Tests.xorEnv A s (.event 2 o) = .ok (r, s', ev) ∧ txs ev = [] ∧
    (results ev).map (fun x => (x.1, x.2.2.data)) = [(.no, some [0x68, 0x69])] ∧ s'.adr.enabled = true ∧ s'.mac.queue.length = 4 := by
  obtain ⟨r, s', ev, hs, hp⟩ := Demo.inside_ok (ops := Demo.macOps) (A := Demo.atLinkCheck [.adrEnable true, .deviceTimeReq, .setRx1Delay 3])
    (op := .event 2 (Tests.rxOf Demo.macDown))
    (P := fun s' ev => decide (txs ev = [] ∧ (results ev).map (fun x => (x.1, x.2.2.data)) = [(.no, some [0x68, 0x69])] ∧
      s'.adr.enabled = true ∧ s'.mac.queue.length = 4)) (by decide +kernel)
  obtain ⟨p1, p2, p3, p4⟩ := of_decide_eq_true hp
  refine ⟨_, _, _, r, s', ev, (Demo.hist Demo.macFine).reach, Demo.atLinkCheck_valid ?_, (Demo.atLinkCheck_within ?_).1, hs, p1, p2, p3, p4⟩
  · intro op ho
    simp only [List.mem_cons, List.not_mem_nil, or_false] at ho
    rcases ho with rfl | rfl | rfl <;> exact ⟨trivial, fun m o => nofun⟩
  · intro op ho
    simp only [List.mem_cons, List.not_mem_nil, or_false] at ho
    rcases ho with rfl | rfl | rfl <;> exact ⟨fun r => nofun, fun a u d n k => nofun⟩

/-- C106 fails for an application that answers in `link_check_result` with an uplink: the frame is built in the buffer that holds the
downlink, and a genuine downlink, delivered otherwise, is reported as a MIC error. -/
theorem C106_send_inside : ∃ s A o s1 ev1 r s2 ev2, Reach Tests.xorEnv s ∧ A.Valid ∧
    step Tests.xorEnv s (.event 2 o) = .ok (.unit, s1, ev1) ∧
    (results ev1).map (fun x => (x.1, x.2.2.data)) = [(.no, some [0x68, 0x69])] ∧
    stepR Tests.xorEnv A s (.event 2 o) = .ok (r, s2, ev2) ∧ (txs ev2).length = 1 ∧ (results ev2).map (·.1) = [.msgMic] := by
  have hr := (Demo.hist Demo.macFine).reach
  obtain ⟨r1, s1, ev1, h1, p1⟩ := Demo.inside_ok (ops := Demo.macOps) (A := .none) (op := .event 2 (Tests.rxOf Demo.macDown))
    (P := fun _ ev => decide ((results ev).map (fun x => (x.1, x.2.2.data)) = [(.no, some [0x68, 0x69])])) (by decide +kernel)
  obtain ⟨r, s2, ev2, h2, p2⟩ := Demo.inside_ok (ops := Demo.macOps) (A := Demo.atLinkCheck [.send 2 [1, 2, 3, 4, 5, 6, 7, 8, 9, 10] false 0])
    (op := .event 2 (Tests.rxOf Demo.macDown))
    (P := fun _ ev => decide ((txs ev).length = 1 ∧ (results ev).map (·.1) = [.msgMic])) (by decide +kernel)
  obtain ⟨p3, p4⟩ := of_decide_eq_true p2
  have hu : r1 = .unit := by
    simp only [stepR, bind, Except.bind] at h1
    split at h1
    · simp at h1
    · simp only [Except.ok.injEq, Prod.mk.injEq] at h1; exact h1.1.symm
  subst hu
  refine ⟨_, _, _, s1, ev1, r, s2, ev2, hr, Demo.atLinkCheck_valid ?_, (reenter_none hr _).symm.trans h1, of_decide_eq_true p1, h2, p3, p4⟩
  intro op ho
  rw [List.mem_singleton] at ho
  subst ho
  exact ⟨by decide, fun m o => nofun⟩

/-- A join-accept after a join-request, in the first window. -/
def acceptOps : List Op := [.event 4 (Tests.rxOf []), .timer .rx1, .event 2 (Tests.rxOf Tests.joinAccept)]

/-- C106 fails for an application that starts a join in `link_check_result`: `uwan_join` succeeds and the join-request is sent, but the
join-accept is refused as a data message; the same call after the event leads to a session. -/
theorem C106_join_inside : ∃ s A o r s1 ev1 s2 ev2 s3 ev3, Reach Tests.xorEnv s ∧ A.Valid ∧
    stepR Tests.xorEnv A s (.event 2 o) = .ok (r, s1, ev1) ∧ (txs ev1).length = 1 ∧
    run Tests.xorEnv s1 acceptOps = .ok (s2, ev2) ∧ (results ev2).map (·.1) = [.msgMhdr] ∧
    run Tests.xorEnv s (.event 2 o :: A.mac 3 ++ acceptOps) = .ok (s3, ev3) ∧
    (results ev3).map (fun x => (x.1, x.2.1)) = [(.no, 3), (.no, 1)] := by
  have hr := (Demo.hist Demo.macFine).reach
  obtain ⟨r, s1, ev1, h1, p1⟩ := Demo.inside_ok (ops := Demo.macOps) (A := Demo.atLinkCheck [.join 0 5])
    (op := .event 2 (Tests.rxOf Demo.macDown))
    (P := fun s1 ev => (match run Tests.xorEnv s1 acceptOps with
        | .ok (_, ev2) => decide ((results ev2).map (·.1) = [.msgMhdr])
        | .error _ => false) && decide ((txs ev).length = 1) &&
      (match run Tests.xorEnv (Demo.final Demo.macOps) (.event 2 (Tests.rxOf Demo.macDown) :: [.join 0 5] ++ acceptOps) with
        | .ok (_, ev3) => decide ((results ev3).map (fun x => (x.1, x.2.1)) = [(.no, 3), (.no, 1)])
        | .error _ => false)) (by decide +kernel)
  rw [Bool.and_eq_true, Bool.and_eq_true] at p1
  obtain ⟨⟨p2, p3⟩, p4⟩ := p1
  split at p2
  rotate_left
  · cases p2
  next s2 ev2 h2 =>
  split at p4
  rotate_left
  · cases p4
  next s3 ev3 h3 =>
  refine ⟨_, _, _, r, s1, ev1, s2, ev2, s3, ev3, hr, Demo.atLinkCheck_valid ?_, h1, of_decide_eq_true p3, h2, of_decide_eq_true p2, h3,
    of_decide_eq_true p4⟩
  intro op ho
  rw [List.mem_singleton] at ho
  subst ho
  exact ⟨trivial, fun m o => nofun⟩

/-! ### C107 -/

/-- C107: whatever an application calls inside its callbacks, every operation ends, without access outside an array, endless loop or null
pointer; except the one null pointer of C61, which needs no such call. -/
theorem C107_defined (h : Reach E s) (ha : A.Valid) {op : Op} (hv : op.Valid) :
    (∃ r s' ev, stepR E A s op = .ok (r, s', ev) ∧ Reach E s') ∨
    (stepR E A s op = .error .nullDeref ∧ step E s op = .error .nullDeref ∧ ∃ m o, op = .event m o ∧ m.toNat / 4 % 2 = 1) := by
  rcases stepR_ok (E := E) ha h.inv hv with ⟨r, s', ev, e, -⟩ | ⟨ht, e⟩
  · exact .inl ⟨r, s', ev, e, .step h ha hv e⟩
  · right
    rcases stepR_ok (E := E) Inside.none_valid h.inv hv with ⟨r, s', ev, e2, -⟩ | ⟨-, e2⟩
    · exfalso
      cases op with
      | event m o =>
        obtain ⟨hp, hd, hsv, hcb⟩ := ht
        simp only [stepR, evtHandlerR, hp, evtTxR, hd, ↓reduceIte, rx1Params_ok h.inv, bind, Except.bind, macOnTxCompleteR, hsv, hcb] at e2
        simp at e2
      | _ => exact ht
    · refine ⟨e, (reenter_none h op).symm.trans e2, ?_⟩
      cases op with
      | event m o =>
        have hd := ht.2.1
        rw [(irqBits m).1] at hd
        exact ⟨m, o, rfl, by simpa using hd⟩
      | _ => exact ht.elim

/-- C107: an event other than the end of a transmission never fails, whatever is called inside the callbacks. -/
theorem C107_window (h : Reach E s) (ha : A.Valid) {m : Byte} (o : Oracle) (hm : m.toNat / 4 % 2 = 0) :
    ∃ r s' ev, stepR E A s (.event m o) = .ok (r, s', ev) := by
  rcases C107_defined h ha (op := .event m o) trivial with ⟨r, s', ev, e, -⟩ | ⟨-, -, m', o', he, hm'⟩
  · exact ⟨r, s', ev, e⟩
  · cases he; omega

-- The whole stack is initialised again inside a callback, and an uplink sent.
example : ∃ s A o r s' ev, Reach Tests.xorEnv s ∧ A.Valid ∧ stepR Tests.xorEnv A s (.event 2 o) = .ok (r, s', ev) ∧
    s'.region = some .ru864 ∧ (txs ev).length = 1 := by
  obtain ⟨r, s', ev, hs, hp⟩ := Demo.inside_ok (ops := Demo.macOps) (A := Demo.atLinkCheck [.init .ru864, .send 5 [1, 2, 3] true 7])
    (op := .event 2 (Tests.rxOf Demo.macDown)) (P := fun s' ev => decide (s'.region = some .ru864 ∧ (txs ev).length = 1)) (by decide +kernel)
  obtain ⟨p1, p2⟩ := of_decide_eq_true hp
  refine ⟨_, _, _, r, s', ev, (Demo.hist Demo.macFine).reach, Demo.atLinkCheck_valid ?_, hs, p1, p2⟩
  intro op ho
  simp only [List.mem_cons, List.not_mem_nil, or_false] at ho
  rcases ho with rfl | rfl
  · exact ⟨trivial, fun m o => nofun⟩
  · exact ⟨by decide, fun m o => nofun⟩

/-! ### C108 -/

/-- C108: at the end of a transmission, calls made inside `get_device_time` act exactly as calls made right after the event; and none are
made if the clock is not read. -/
theorem C108_get_time (h : Reach E s) (ha : A.Valid) (m : Byte) (o : Oracle) {s1 : St} {ev1 : List Ev}
    (h1 : step E s (.event m o) = .ok (r, s1, ev1)) (ht : txEnded ev1 = true) :
    (clockRead ev1 = true → stepR E A s (.event m o) = (run E s1 A.time).map (fun x => (.unit, x.1, ev1 ++ x.2))) ∧
    (clockRead ev1 = false → stepR E A s (.event m o) = .ok (.unit, s1, ev1)) := by
  have hev : ∀ q : List Ev, Quiet q → txEnded q = false := by
    intro q hq
    unfold txEnded
    rw [List.any_eq_false]
    intro e he
    have := hq.all e he
    cases e <;> first | exact Bool.noConfusion this | simp
  have hdl : ∀ {t : St} {err : Err} {b : St} {ev : List Ev}, DlCase E o t err b ev → txEnded ev = false := by
    intro t err b ev hc
    cases hc with
    | none => rfl
    | join e b p w _ _ hc => unfold txEnded; rw [List.any_append, List.any_append]; rw [show w.any _ = false from hev w hc.quiet]; rfl
    | data e b p w _ _ hc => unfold txEnded; rw [List.any_append, List.any_append]; rw [show w.any _ = false from hev w hc.quiet]; rfl
  cases step_event h.inv h1 with
  | ignore => cases ht
  | rx1Timeout => cases ht
  | rx1Done s' ev hp _ _ hc => rw [show txEnded (Ev.stopTimer .rx2 :: ev) = txEnded ev from rfl, hdl hc] at ht; cases ht
  | rx2Timeout s' ev hp _ hc => rw [hdl hc] at ht; cases ht
  | rx2Done s' ev hp _ _ hc => rw [hdl hc] at ht; cases ht
  | txDone mm ev2 hp hm hmac =>
    simp only [stepR, evtHandlerR, hp, evtTxR, hm, ↓reduceIte, rx1Params_ok h.inv, bind, Except.bind, macOnTxCompleteR]
    unfold macOnTxComplete at hmac
    by_cases hsv : s.mac.saveDevTime = true
    rotate_left
    · rw [if_neg hsv] at hmac ⊢
      simp only [Except.ok.injEq, Prod.mk.injEq] at hmac
      obtain ⟨rfl, rfl⟩ := hmac
      exact ⟨nofun, fun _ => rfl⟩
    rw [if_pos hsv] at hmac ⊢
    cases hcb : s.mac.cbs with
    | none => rw [hcb] at hmac; simp at hmac
    | some cbs =>
      rw [hcb] at hmac
      simp only at hmac ⊢
      by_cases hg : cbs.getTime = true
      rotate_left
      · rw [if_neg hg] at hmac ⊢
        simp only [Except.ok.injEq, Prod.mk.injEq] at hmac
        obtain ⟨rfl, rfl⟩ := hmac
        exact ⟨nofun, fun _ => rfl⟩
      rw [if_pos hg] at hmac ⊢
      simp only [Except.ok.injEq, Prod.mk.injEq] at hmac
      obtain ⟨rfl, rfl⟩ := hmac
      refine ⟨fun _ => ?_, nofun⟩
      have hst := calls_stamped (E := E) o.devTime A.time
        { s with phase := .rx1, pp := rx1Pp s, mac := { s.mac with saveDevTime := false, cbs := some cbs } } ha.2
      unfold St.stamped at hst
      simp only at hst
      rw [hst]
      cases run E { s with phase := .rx1, pp := rx1Pp s, mac := { s.mac with saveDevTime := false, cbs := some cbs } } A.time with
      | error u => rfl
      | ok x => simp [Except.map]

-- A second DeviceTimeReq is queued inside `get_device_time`, and an uplink refused.
example : ∃ (s : St) (A : Inside) (r : Ret) (s1 : St) (ev1 : List Ev) (s2 : St) (ev2 : List Ev), Reach Tests.xorEnv s ∧ A.Valid ∧ step Tests.xorEnv s (.event 4 (Tests.rxOf [])) = .ok (r, s1, ev1) ∧
    txEnded ev1 = true ∧ clockRead ev1 = true ∧ run Tests.xorEnv s1 A.time = .ok (s2, ev2) ∧ s2.mac.queue = [0x0d] := by
  let ops := Demo.macOps.take 6
  have hr : Reach Tests.xorEnv (Demo.final ops) := (Demo.hist (ops := ops) (by decide +kernel)).reach
  obtain ⟨r1, s1, ev1, h1, p1⟩ := Demo.inside_ok (ops := ops) (A := .none) (op := .event 4 (Tests.rxOf []))
    (P := fun s1 ev => decide (txEnded ev = true ∧ clockRead ev = true) && (match run Tests.xorEnv s1 [.deviceTimeReq, .send 2 [1] false 0] with
      | .ok (s2, _) => decide (s2.mac.queue = [0x0d])
      | .error _ => false)) (by decide +kernel)
  rw [Bool.and_eq_true] at p1
  obtain ⟨p2, p3⟩ := p1
  obtain ⟨p4, p5⟩ := of_decide_eq_true p2
  split at p3
  rotate_left
  · cases p3
  next s2 ev2 h2 =>
  refine ⟨_, ⟨fun _ => [], [.deviceTimeReq, .send 2 [1] false 0]⟩, r1, s1, ev1, s2, ev2, hr, ⟨fun _ op ho => by simp at ho, ?_⟩,
    (reenter_none hr _).symm.trans h1, p4, p5, h2, of_decide_eq_true p3⟩
  intro op ho
  simp only [List.mem_cons, List.not_mem_nil, or_false] at ho
  rcases ho with rfl | rfl
  · exact ⟨trivial, fun m o => nofun⟩
  · exact ⟨by decide, fun m o => nofun⟩

/-! ### C109 -/

/-- C109: whatever is called inside callbacks, the data frames sent in a session carry its address and consecutive counters from the
first one on. The session starts with `uwan_set_session`; `ev` is what happens until the next one, a `uwan_init` or a successful join. -/
theorem C109_counters {s0 : St} (h0 : Reach E s0) (addr up down : U32) (nwk app : Block)
    (hs : step E s0 (.setSession addr up down nwk app) = .ok (r, s, ev)) {ev' : List Ev} (h : Stretch E s ev' s') (hn : NoJoin ev') :
    upHeads ev' = (List.range (upHeads ev').length).map (fun i => (addr.toNat, (up.toNat + i) % 65536)) := by
  have hi : Inv s := by
    rcases step_ok E h0.inv (op := .setSession addr up down nwk app) trivial with ⟨r1, s1, ev1, e, hi⟩ | ⟨ht, -⟩
    · rw [hs] at e; simp only [Except.ok.injEq, Prod.mk.injEq] at e; rw [e.2.1]; exact hi
    · exact ht.elim
  simp only [step, Except.ok.injEq, Prod.mk.injEq] at hs
  obtain ⟨⟨-, n, e1, -⟩, -⟩ := h.ups hi hn
  rw [← hs.2.1] at e1
  have e2 : upHeads ev' = ticks addr.toNat up.toNat n := e1
  rw [e2, ticks_length, ticks_eq]

/-- C109: so fewer than 65536 of them never carry the same counter. -/
theorem C109_distinct {s0 : St} (h0 : Reach E s0) (addr up down : U32) (nwk app : Block)
    (hs : step E s0 (.setSession addr up down nwk app) = .ok (r, s, ev)) {ev' : List Ev} (h : Stretch E s ev' s') (hn : NoJoin ev')
    (hl : (upHeads ev').length ≤ 65536) : (upHeads ev').Nodup := by
  rw [C109_counters h0 addr up down nwk app hs h hn]
  refine List.Pairwise.map (R := fun a b => (up.toNat + a) % 65536 ≠ (up.toNat + b) % 65536) _ ?_
    (List.Pairwise.imp_of_mem ?_ List.nodup_range)
  · exact fun a b hab he => hab (Prod.mk.inj he).2
  · intro a b ha hb hne
    rw [List.mem_range] at ha hb
    omega

/-- Several operations with calls inside callbacks. -/
def Demo.stretch (E : Env) : St → List Ev → List (Inside × Op) → Option (List Ev × St)
  | s, ev, [] => some (ev, s)
  | s, ev, (A, op) :: l =>
    match stepR E A s op with
    | .ok (_, s', ev') => stretch E s' (ev ++ ev') l
    | .error _ => none

theorem Demo.stretch_ok {s0 : St} : ∀ (l : List (Inside × Op)) (s : St) (ev : List Ev) (x : List Ev × St), Stretch E s0 ev s →
    (∀ x ∈ l, x.1.Valid ∧ x.1.Within ∧ x.2.Valid ∧ x.2.Mild) → stretch E s ev l = some x → Stretch E s0 x.1 x.2
  | [], s, ev, x, h, _, he => by
    simp only [stretch, Option.some.injEq] at he
    rw [← he]; exact h
  | (A, op) :: l, s, ev, x, h, hv, he => by
    simp only [stretch] at he
    split at he
    · next r s' ev' hs =>
      obtain ⟨v1, v2, v3, v4⟩ := hv (A, op) (by simp)
      exact stretch_ok l s' (ev ++ ev') x (.snoc h v1 v2 v3 v4 hs) (fun y hy => hv y (by simp [hy])) he
    · simp at he

/-- An uplink; another one sent inside `link_check_result` while its answer is processed, whose windows pass; a third one. -/
def chatty : List (Inside × Op) :=
  [(.none, .macSetHandlers (some ⟨true, true, true, true⟩)), (.none, .send 2 [1] false 0), (.none, .event 4 (Tests.rxOf [])), (.none, .timer .rx1),
    (Demo.atLinkCheck [.send 3 [2] false 0], .event 2 (Tests.rxOf Demo.macDown)), (.none, .send 4 [3] false 0),
    (.none, .event 4 (Tests.rxOf [])), (.none, .event 1 (Tests.rxOf [])), (.none, .event 1 (Tests.rxOf [])), (.none, .send 5 [4] true 0)]

example : ∃ (s0 : St) (r : Ret) (s : St) (ev ev' : List Ev) (s' : St), Reach Tests.xorEnv s0 ∧
    step Tests.xorEnv s0 (.setSession 0x01020304 65534 0 Tests.appKey Tests.appKey) = .ok (r, s, ev) ∧ Stretch Tests.xorEnv s ev' s' ∧
    NoJoin ev' ∧ upHeads ev' = [(0x01020304, 65534), (0x01020304, 65535), (0x01020304, 0)] := by
  have hr : Reach Tests.xorEnv (Demo.final [.init .eu868]) := (Demo.hist (by decide +kernel)).reach
  have hx : ∃ x, Demo.stretch Tests.xorEnv (setSession (Demo.final [.init .eu868]) 0x01020304 65534 0 Tests.appKey Tests.appKey) [] chatty = some x ∧
      upHeads x.1 = [(0x01020304, 65534), (0x01020304, 65535), (0x01020304, 0)] ∧
      (x.1.all fun e => match e with | .downlink .no 1 _ => false | _ => true) = true := by
    cases h : Demo.stretch Tests.xorEnv (setSession (Demo.final [.init .eu868]) 0x01020304 65534 0 Tests.appKey Tests.appKey) [] chatty with
    | none =>
      have : (Demo.stretch Tests.xorEnv (setSession (Demo.final [.init .eu868]) 0x01020304 65534 0 Tests.appKey Tests.appKey) []
        chatty).isSome = true := by decide +kernel
      rw [h] at this; cases this
    | some x =>
      have hd : (match Demo.stretch Tests.xorEnv (setSession (Demo.final [.init .eu868]) 0x01020304 65534 0 Tests.appKey Tests.appKey) [] chatty with
        | some x => decide (upHeads x.1 = [(0x01020304, 65534), (0x01020304, 65535), (0x01020304, 0)] ∧
          (x.1.all fun e => match e with | .downlink .no 1 _ => false | _ => true) = true)
        | none => false) = true := by decide +kernel
      rw [h] at hd
      exact ⟨x, rfl, of_decide_eq_true hd⟩
  obtain ⟨x, h1, h2, h3⟩ := hx
  refine ⟨_, _, _, _, x.1, x.2, hr, rfl, Demo.stretch_ok chatty _ _ x .nil ?_ h1, fun p hp => ?_, h2⟩
  · intro y hy
    unfold chatty at hy
    simp only [List.mem_cons, List.not_mem_nil, or_false] at hy
    have nn : Inside.none.Within := ⟨Inside.none_mild, fun op h => by simp [Inside.none] at h⟩
    have ev : ∀ m o, (Op.event m o).Mild := fun m o => ⟨fun r => nofun, fun a u d n k => nofun⟩
    have sd : ∀ p l c n, (Op.send p l c n).Mild := fun p l c n => ⟨fun r => nofun, fun a u d n k => nofun⟩
    rcases hy with rfl | rfl | rfl | rfl | rfl | rfl | rfl | rfl | rfl | rfl
    · exact ⟨Inside.none_valid, nn, trivial, fun r => nofun, fun a u d n k => nofun⟩
    · exact ⟨Inside.none_valid, nn, by decide, sd ..⟩
    · exact ⟨Inside.none_valid, nn, trivial, ev ..⟩
    · exact ⟨Inside.none_valid, nn, trivial, fun r => nofun, fun a u d n k => nofun⟩
    · refine ⟨Demo.atLinkCheck_valid ?_, Demo.atLinkCheck_within ?_, trivial, ev ..⟩
      · intro op ho
        rw [List.mem_singleton] at ho
        subst ho
        exact ⟨by decide, fun m o => nofun⟩
      · intro op ho
        rw [List.mem_singleton] at ho
        subst ho
        exact sd ..
    · exact ⟨Inside.none_valid, nn, by decide, sd ..⟩
    · exact ⟨Inside.none_valid, nn, trivial, ev ..⟩
    · exact ⟨Inside.none_valid, nn, trivial, ev ..⟩
    · exact ⟨Inside.none_valid, nn, trivial, ev ..⟩
    · exact ⟨Inside.none_valid, nn, by decide, sd ..⟩
  · have := List.all_eq_true.mp h3 _ hp
    cases this

end Uwan
