import Verif.Lemmas.Queue
import Verif.Props.Mac
import Verif.Props.Uplink

/-!
# The queue of MAC commands, DeviceTimeReq, settings (C45, C46, C57-C59)

`it.pre.mac.queue` are the bytes queued before the last operation `it`, `s'.mac.queue` those after it; what an uplink carries in FOpts
shows them to the outside.
-/

namespace Uwan
open Spec

variable {E : Env} {log : List Item} {it : Item} {s' : St} {o : Oracle} {l : Bytes} {f : DataFrame}

/-! ### C45 -/

/-- C45: never more than 15 bytes. -/
theorem C45_bounded {s : St} (h : Hist E log s) : s.mac.queue.length ≤ 15 := h.inv.queue

/-- C45: `uwan_mac_link_check_req` and `uwan_mac_device_time_req` return true exactly if the command fits, and then it is appended. -/
theorem C45_request (h : Hist E (log ++ [it]) s') :
    (it.op = .linkCheckReq → it.ret = .bool (decide (it.pre.mac.queue.length + 1 ≤ 15)) ∧
      s'.mac.queue = if it.pre.mac.queue.length + 1 ≤ 15 then it.pre.mac.queue ++ [0x02] else it.pre.mac.queue) ∧
    (it.op = .deviceTimeReq → it.ret = .bool (decide (it.pre.mac.queue.length + 1 ≤ 15)) ∧
      s'.mac.queue = if it.pre.mac.queue.length + 1 ≤ 15 then it.pre.mac.queue ++ [0x0d] else it.pre.mac.queue) :=
  ⟨fun hop => h.request (.inl ⟨hop, rfl⟩), fun hop => h.request (.inr ⟨hop, rfl⟩)⟩

/-- C45: the commands of a received frame append their answers, each entirely, in the order of the commands, up to the first one that
does not fit. -/
theorem C45_answers {cmds : List (Cmd × Nat)} (h : Carries E log it s' o l f cmds) : ∃ (k : Nat) (as : List Bytes),
    Answers ((cmds.take k).map (·.1)) as ∧ s'.mac.queue = it.pre.mac.queue ++ as.flatten ∧
    (k = cmds.length ∨ ∃ cmd n i x, cmds[k]? = some (cmd, n) ∧ cmd.answer = some (i, x) ∧ 15 < s'.mac.queue.length + x) := by
  obtain ⟨s, hs, hpre, -⟩ := h.hist.last
  have hcfg := config_hist hs
  obtain ⟨k, as, h1, h2, h3⟩ := execAll_queue o.bat cmds ((config E log).arrived l f o.snr)
  have hq : ((config E log).arrived l f o.snr).queue = it.pre.mac.queue := by
    refine (noteAck_queue (config E log) l).trans ?_
    rw [← hcfg, hpre]; rfl
  have h4 : s'.mac.queue = it.pre.mac.queue ++ as.flatten := by
    rw [← hq, ← h2]
    exact congrArg Cfg.queue h.all.2
  rw [hq] at h3
  refine ⟨k, as, h1, h4, ?_⟩
  rw [h4]
  exact h3

/-- C45: nothing else changes the queue, except `uwan_init` and accepted uplinks, which empty it (C46). -/
theorem C45_kept (h : Hist E (log ++ [it]) s') (h1 : ∀ r, it.op ≠ .init r) (h2 : frameSent it = false) (h3 : it.op ≠ .linkCheckReq)
    (h4 : it.op ≠ .deviceTimeReq)
    (h5 : ∀ r ∈ results it.ev, (config E log).joining = true ∨ (r.1 ≠ .no ∧ r.1 ≠ .msgMic)) :
    s'.mac.queue = it.pre.mac.queue := by
  obtain ⟨s, hs, hpre, -⟩ := h.last
  obtain ⟨r, e1, e2⟩ := next_queue (E := E) (view E log) (config E log) it h1 h2
  have : r = [] := by
    refine e2 h3 h4 fun e he => ?_
    rw [report_results] at he
    cases hr : results it.ev with
    | nil => rw [hr] at he; cases he
    | cons x t =>
      rw [hr] at he
      cases he
      exact h5 x (by rw [hr]; exact List.mem_cons_self)
  rw [this, List.append_nil, ← config_snoc, ← config_hist h, ← config_hist hs, ← hpre] at e1
  exact e1

/-- C45: `uwan_init` empties the queue. -/
theorem C45_init (h : Hist E (log ++ [it]) s') (r : Region) (hop : it.op = .init r) : s'.mac.queue = [] := by
  show (cfgOf s').queue = []
  rw [config_hist h, config_snoc]
  unfold Cfg.next
  rw [hop]
  cases r
  · exact (setChannel_queue ..).trans ((setChannel_queue ..).trans (setChannel_queue ..))
  · exact (setChannel_queue ..).trans (setChannel_queue ..)

-- The fifteenth request fits, the sixteenth does not.
example : ∃ log it s', Hist Tests.xorEnv (log ++ [it]) s' ∧ it.op = .deviceTimeReq ∧ it.ret = .bool true ∧
    s'.mac.queue = List.replicate 14 2 ++ [13] := by
  obtain ⟨h, ho⟩ := Demo.next (ops := .init .eu868 :: List.replicate 14 .linkCheckReq) (op := .deviceTimeReq) (by decide +kernel) trivial (by decide +kernel)
  exact ⟨_, _, _, h, ho, by decide +kernel, by decide +kernel⟩
example : ∃ log it s', Hist Tests.xorEnv (log ++ [it]) s' ∧ it.op = .deviceTimeReq ∧ it.ret = .bool false ∧ s'.mac.queue = it.pre.mac.queue := by
  obtain ⟨h, ho⟩ := Demo.next (ops := .init .eu868 :: List.replicate 15 .linkCheckReq) (op := .deviceTimeReq) (by decide +kernel) trivial (by decide +kernel)
  exact ⟨_, _, _, h, ho, by decide +kernel, by decide +kernel⟩

/-! ### C46 -/

/-- C46: an accepted uplink carries exactly the queued bytes in FOpts and leaves the queue empty. -/
theorem C46_carried {port : Byte} {pld : Bytes} {c : Bool} {rnd : Nat} (h : Hist E (log ++ [it]) s') (hop : it.op = .send port pld c rnd)
    (hr : it.ret = .err .no) :
    ∃ frame f, txs it.ev = [frame] ∧ parse frame = some f ∧ f.fOpts = it.pre.mac.queue ∧ s'.mac.queue = [] := by
  obtain ⟨frame, f, h1, h2, -, -, -, -, -, -, h3, -⟩ := C01_uplink_frame h hop hr
  obtain ⟨s, hs, hpre, -⟩ := h.last
  refine ⟨frame, f, h1, h2, ?_, ?_⟩
  · rw [h3, ← config_hist hs, hpre]; rfl
  · show (cfgOf s').queue = []
    rw [config_hist h, config_snoc]
    unfold Cfg.next
    rw [hop]
    simp only [hr, if_true]
    rfl

/-- C46: refused sends and all joins keep the queue. -/
theorem C46_kept (h : Hist E (log ++ [it]) s')
    (hop : (∃ port pld c rnd, it.op = .send port pld c rnd ∧ it.ret ≠ .err .no) ∨ ∃ r1 r2, it.op = .join r1 r2) :
    s'.mac.queue = it.pre.mac.queue := by
  have hnr : results it.ev = [] := by
    have hout := h.end_of
    have : outcome log it = .none := by
      unfold outcome
      rcases hop with ⟨p, l, c, r, hop, -⟩ | ⟨r1, r2, hop⟩ <;> rw [hop]
    rw [this] at hout
    exact hout
  apply C45_kept h
  · rcases hop with ⟨p, l, c, r, hop, -⟩ | ⟨r1, r2, hop⟩ <;> rw [hop] <;> nofun
  · unfold frameSent
    rcases hop with ⟨p, l, c, r, hop, hr⟩ | ⟨r1, r2, hop⟩ <;> rw [hop]
    exact decide_eq_false hr
  · rcases hop with ⟨p, l, c, r, hop, -⟩ | ⟨r1, r2, hop⟩ <;> rw [hop] <;> nofun
  · rcases hop with ⟨p, l, c, r, hop, -⟩ | ⟨r1, r2, hop⟩ <;> rw [hop] <;> nofun
  · rw [hnr]; nofun

/-- The bytes an operation appends to the queue. -/
def queued (it : Item) : Bytes := it.post.mac.queue.drop it.pre.mac.queue.length

theorem queue_seg {seg : List Item} : ∀ {s0 s : St}, Hist E log s0 → Hist E (log ++ seg) s →
    (∀ x ∈ seg, frameSent x = false ∧ ∀ r, x.op ≠ .init r) → s.mac.queue = s0.mac.queue ++ (seg.map queued).flatten := by
  refine snoc_induction (P := fun seg => ∀ {s0 s : St}, Hist E log s0 → Hist E (log ++ seg) s →
    (∀ x ∈ seg, frameSent x = false ∧ ∀ r, x.op ≠ .init r) → s.mac.queue = s0.mac.queue ++ (seg.map queued).flatten) ?_ ?_ seg
  · intro s0 s h0 h _
    rw [List.append_nil] at h
    rw [h.unique h0]; simp
  · intro seg x ih s0 s h0 h hx
    rw [← List.append_assoc] at h
    obtain ⟨s1, h1, hpre, hpost, -⟩ := h.last
    have e := ih h0 h1 fun y hy => hx y (List.mem_append_left _ hy)
    obtain ⟨hx1, hx2⟩ := hx x (List.mem_append_right _ List.mem_cons_self)
    obtain ⟨r, hr, -⟩ := next_queue (E := E) (view E (log ++ seg)) (config E (log ++ seg)) x hx2 hx1
    rw [← config_snoc, ← config_hist h, ← config_hist h1] at hr
    have hq : s.mac.queue = s1.mac.queue ++ r := hr
    have hqq : queued x = r := by unfold queued; rw [hpre, hpost, hq, List.drop_left]
    rw [List.map_append, List.flatten_append, ← List.append_assoc, ← e]
    simp only [List.map_cons, List.map_nil, List.flatten_cons, List.flatten_nil, List.append_nil, hqq]
    exact hq

/-- C46: exactly once: between two accepted uplinks, without `uwan_init` in between, the second one carries exactly what was queued
after the first, in order. -/
theorem C46_once {x : Item} {seg : List Item} (h : Hist E (log ++ [x] ++ seg ++ [it]) s') (hx : frameSent x = true)
    (hs : ∀ y ∈ seg, frameSent y = false ∧ ∀ r, y.op ≠ .init r) (hit : frameSent it = true) :
    ∃ frame f, txs it.ev = [frame] ∧ parse frame = some f ∧ f.fOpts = (seg.map queued).flatten := by
  have hsend : ∀ y : Item, frameSent y = true → ∃ port pld c rnd, y.op = .send port pld c rnd ∧ y.ret = .err .no := by
    intro y hy
    unfold frameSent at hy
    split at hy
    · next p l c r hop => exact ⟨p, l, c, r, hop, of_decide_eq_true hy⟩
    · cases hy
  obtain ⟨p, pl, c, rnd, hop, hr⟩ := hsend it hit
  obtain ⟨p', pl', c', rnd', hop', hr'⟩ := hsend x hx
  obtain ⟨frame, f, h1, h2, h3, -⟩ := C46_carried h hop hr
  obtain ⟨s2, g2, hpre, -⟩ := h.last
  obtain ⟨s1, g1, -⟩ := Seg.split g2 (log ++ [x]) seg rfl
  obtain ⟨-, -, -, -, -, hempty⟩ := C46_carried g1 hop' hr'
  have := queue_seg g1 g2 hs
  rw [hempty, List.nil_append] at this
  exact ⟨frame, f, h1, h2, by rw [h3, hpre, this]⟩

/-- The demonstration of C46: a session, an uplink, a link check request and a DevStatusReq from the network. -/
def onceA : List Op := [.init .eu868, .setSession 0x01020304 0 0 Tests.appKey Tests.appKey]
/-- see `onceA` -/
def onceB : List Op := [.event 4 (Tests.rxOf []), .linkCheckReq, .timer .rx1, .event 2 (Tests.rxOf (cmdFrame [6]))]

example : ∃ log x seg it s', Hist Tests.xorEnv (log ++ [x] ++ seg ++ [it]) s' ∧ frameSent x = true ∧
    (∀ y ∈ seg, frameSent y = false ∧ ∀ r, y.op ≠ .init r) ∧ frameSent it = true ∧ (seg.map queued).flatten = [2, 6, 255, 59] := by
  have h := Demo.two (a := onceA) (op1 := .send 2 [1] false 0) (b := onceB) (op2 := .send 2 [2] false 0) (by decide +kernel)
  refine ⟨_, _, _, _, _, h, by decide +kernel, ?_, by decide +kernel, by decide +kernel⟩
  intro y hy
  have h1 : ((Demo.items (onceA ++ [.send 2 [1] false 0] ++ onceB)).drop (onceA.length + 1)).all
      (fun y => !frameSent y && match y.op with | .init _ => false | _ => true) = true := by decide +kernel
  have := List.all_eq_true.mp h1 y hy
  simp only [Bool.and_eq_true, Bool.not_eq_true'] at this
  refine ⟨this.1, fun r hr => ?_⟩
  rw [hr] at this
  exact Bool.noConfusion this.2

/-! ### C58 -/

/-- C58, what holds: when the queue has room for the answers to all commands of a frame, all of them are executed and their answers are
queued, complete and in order. Missing: when it has not, a command can take effect without its answer being queued (`C58_dropped`). -/
theorem C58_answered_partial {cmds : List (Cmd × Nat)} (h : Carries E log it s' o l f cmds)
    (hq : it.pre.mac.queue.length + answerBytes (cmds.map (·.1)) ≤ 15) :
    passes E log o l f cmds ∧ ∃ as, Answers (cmds.map (·.1)) as ∧ s'.mac.queue = it.pre.mac.queue ++ as.flatten := by
  obtain ⟨s, hs, hpre, -⟩ := h.hist.last
  have hcfg := config_hist hs
  have hqq : ((config E log).arrived l f o.snr).queue = it.pre.mac.queue := by
    refine (noteAck_queue (config E log) l).trans ?_
    rw [← hcfg, hpre]; rfl
  obtain ⟨h1, as, h2, h3⟩ := execAll_room o.bat cmds ((config E log).arrived l f o.snr) (by rw [hqq]; exact hq)
  refine ⟨h1, as, h2, ?_⟩
  rw [← hqq, ← h3]
  exact congrArg Cfg.queue h.all.2

example : ∃ log it s' o l f cmds, Carries Tests.xorEnv log it s' o l f cmds ∧ it.pre.mac.queue.length + answerBytes (cmds.map (·.1)) ≤ 15 ∧
    cmds.map (·.1) = [.devStatusReq, .linkAdrReq 3 2 5 0 2, .rxTimingSetupReq 4] := by
  obtain ⟨f, h⟩ := adrDemo
  exact ⟨_, _, _, _, _, f, _, h, by decide +kernel, rfl⟩

/-- C58 fails with a full queue: fifteen link check requests queued during the exchange leave no room; the RXTimingSetupReq takes effect
and is not answered. -/
theorem C58_dropped : ∃ log it s' o l f, Carries Tests.xorEnv log it s' o l f [(.rxTimingSetupReq 4, 0)] ∧
    (it.pre.defaultRx1Delay, s'.defaultRx1Delay) = (1000, 4000) ∧ s'.mac.queue = List.replicate 15 2 :=
  ⟨_, _, _, _, _, _, cmdDemo (dlOps ++ List.replicate 15 .linkCheckReq) [8, 4] _ _ (by decide +kernel) (by decide +kernel) (by decide +kernel)
    (by decide +kernel) (by decide +kernel) rfl (by decide +kernel), by decide +kernel, by decide +kernel⟩

/-! ### C57 -/

theorem stamp_seg {seg : List Item} : ∀ {s0 s : St}, Hist E log s0 → Hist E (log ++ seg) s → (∀ x ∈ seg, timeKept x = true) →
    s0.mac.saveDevTime = true → s.mac.saveDevTime = true := by
  refine snoc_induction (P := fun seg => ∀ {s0 s : St}, Hist E log s0 → Hist E (log ++ seg) s → (∀ x ∈ seg, timeKept x = true) →
    s0.mac.saveDevTime = true → s.mac.saveDevTime = true) ?_ ?_ seg
  · intro s0 s h0 h _ hs
    rw [List.append_nil] at h
    rw [h.unique h0]; exact hs
  · intro seg x ih s0 s h0 h hx hs
    rw [← List.append_assoc] at h
    obtain ⟨s1, h1, hpre, hpost, -⟩ := h.last
    have e := ih h0 h1 (fun y hy => hx y (List.mem_append_left _ hy)) hs
    have hk := hx x (List.mem_append_right _ List.mem_cons_self)
    show (cfgOf s).stamp = true
    rw [config_hist h, config_snoc]
    refine next_stamp _ _ _ hk (fun hop => ?_) ?_
    · have hr := (h.request (.inr ⟨hop, rfl⟩)).1
      unfold timeKept at hk
      rw [hop] at hk
      rw [of_decide_eq_true hk, hpre] at hr
      rw [← config_hist h1]
      exact of_decide_eq_true (Ret.bool.inj hr.symm)
    · rw [← config_hist h1]; exact e

theorem devTime_seg {seg : List Item} : ∀ {s0 s : St}, Hist E log s0 → Hist E (log ++ seg) s → (∀ x ∈ seg, clockRead x.ev = false) →
    s.mac.devTime = s0.mac.devTime := by
  refine snoc_induction (P := fun seg => ∀ {s0 s : St}, Hist E log s0 → Hist E (log ++ seg) s → (∀ x ∈ seg, clockRead x.ev = false) →
    s.mac.devTime = s0.mac.devTime) ?_ ?_ seg
  · intro s0 s h0 h _
    rw [List.append_nil] at h
    rw [h.unique h0]
  · intro seg x ih s0 s h0 h hx
    rw [← List.append_assoc] at h
    obtain ⟨s1, h1, hpre, hpost, -⟩ := h.last
    have e := ih h0 h1 fun y hy => hx y (List.mem_append_left _ hy)
    rw [← e, h.devTime (hx x (List.mem_append_right _ List.mem_cons_self)), hpre]

/-- The end of a transmission. -/
theorem Hist.txEnd {m : Byte} (h : Hist E (log ++ [it]) s') (hop : it.op = .event m o) (hend : txEnded it.ev = true)
    (hs : it.pre.mac.saveDevTime = true) (hc : ∃ cbs, it.pre.mac.cbs = some cbs ∧ cbs.getTime = true) :
    clockRead it.ev = true ∧ s'.mac.devTime = o.devTime := by
  obtain ⟨s, h1, hpre, -, hv, hst⟩ := h.last
  rw [hpre] at hs hc
  rw [hop] at hst
  have hcase := step_event h1.inv hst
  have stop : ∀ {a q : List Ev} {e : Err} {mm : Byte} {p : DlPkt}, (a = [.sleep] ∨ a = [.readPacket, .sleep]) → Quiet q →
      txEnded (a ++ q ++ [.downlink e mm p]) = false := by
    intro a q e mm p ha hq
    have happ : ∀ x y : List Ev, txEnded (x ++ y) = (txEnded x || txEnded y) := fun x y => List.any_append
    rw [happ, happ]
    have h1 : txEnded q = false := by
      unfold txEnded
      rw [List.any_eq_false]
      intro x hx
      have := hq.1 x hx
      cases x <;> first | exact Bool.false_ne_true | cases this
    rw [h1]
    rcases ha with rfl | rfl <;> rfl
  generalize it.ev = ev at *
  cases hcase with
  | txDone mm ev2 hp hm hmac =>
    obtain ⟨cbs, hc, hg⟩ := hc
    unfold macOnTxComplete at hmac
    rw [hs, hc] at hmac
    simp only [hg, if_true, Except.ok.injEq, Prod.mk.injEq] at hmac
    obtain ⟨rfl, rfl⟩ := hmac
    exact ⟨rfl, rfl⟩
  | ignore => cases hend
  | rx1Timeout => cases hend
  | rx1Done s1 ev1 hp ht hm hdl =>
    obtain ⟨a, q, e, m, p, ha, hq, rfl⟩ := hdl.shape
    have := stop (e := e) (mm := m) (p := p) ha hq
    rw [show txEnded (Ev.stopTimer .rx2 :: (a ++ q ++ [.downlink e m p])) = txEnded (a ++ q ++ [.downlink e m p]) from rfl, this] at hend
    cases hend
  | rx2Timeout s1 ev1 hp hm hdl =>
    obtain ⟨a, q, e, m, p, ha, hq, rfl⟩ := hdl.shape
    rw [stop ha hq] at hend
    cases hend
  | rx2Done s1 ev1 hp ht hm hdl =>
    obtain ⟨a, q, e, m, p, ha, hq, rfl⟩ := hdl.shape
    rw [stop ha hq] at hend
    cases hend

theorem sent_of {y : Item} (hy : frameSent y = true) : ∃ port pld c rnd, y.op = .send port pld c rnd ∧ y.ret = .err .no := by
  unfold frameSent at hy
  split at hy
  · next p l c r hop => exact ⟨p, l, c, r, hop, of_decide_eq_true hy⟩
  · cases hy

/-- C57, what holds: a DeviceTimeReq is accepted, no transmission ends before the uplink `x` that carries it, and the application does
not initialise the stack or have another request refused until that uplink has been sent. Then the uplink carries the request, the
application's clock is read at the end `tx` of its transmission, and this is the time handed over with answers (`C56_device_time`),
until the clock is read again. Missing: the time is wrong when another transmission ends first (`C57_on_air`, `C57_join`)
and when a second request is refused (`C57_refused`). -/
theorem C57_stamped_partial {req x tx : Item} {a b c : List Item} {m : Byte} {s : St}
    (h : Hist E (log ++ [req] ++ a ++ [x] ++ b ++ [tx] ++ c) s)
    (hreq : req.op = .deviceTimeReq) (hret : req.ret = .bool true)
    (ha : ∀ y ∈ a, timeKept y = true ∧ frameSent y = false) (hx : frameSent x = true) (hb : ∀ y ∈ b, timeKept y = true)
    (htx : tx.op = .event m o) (hend : txEnded tx.ev = true) (hcbs : ∃ cbs, tx.pre.mac.cbs = some cbs ∧ cbs.getTime = true)
    (hc : ∀ y ∈ c, clockRead y.ev = false) :
    (∃ frame f, txs x.ev = [frame] ∧ parse frame = some f ∧ 0x0d ∈ f.fOpts) ∧ clockRead tx.ev = true ∧ s.mac.devTime = o.devTime := by
  obtain ⟨s5, h5, -⟩ := Seg.split h (log ++ [req] ++ a ++ [x] ++ b ++ [tx]) c rfl
  obtain ⟨s4, h4, pre5, -⟩ := Hist.last h5
  obtain ⟨s3, h3, -⟩ := Seg.split h4 (log ++ [req] ++ a ++ [x]) b rfl
  obtain ⟨s2, h2, pre3, -⟩ := Hist.last h3
  obtain ⟨s1, h1, -⟩ := Seg.split h2 (log ++ [req]) a rfl
  obtain ⟨s0, h0, pre1, -⟩ := Hist.last h1
  obtain ⟨q1, q2⟩ := Hist.request h1 (.inr ⟨hreq, rfl⟩)
  rw [hret] at q1
  have q3 : req.pre.mac.queue.length + 1 ≤ 15 := by simpa using q1
  rw [if_pos q3] at q2
  have e1 : s1.mac.saveDevTime = true := by
    show (cfgOf s1).stamp = true
    rw [config_hist h1, config_snoc]
    unfold Cfg.next
    rw [hreq]
    show ((config E log).answer [13]).1 = true
    rw [answer_goes, ← config_hist h0, ← pre1]
    exact decide_eq_true q3
  have e2 := stamp_seg h1 h2 (fun y hy => (ha y hy).1) e1
  obtain ⟨p, pl, cc, rnd, hop, hr⟩ := sent_of hx
  have e3 : s3.mac.saveDevTime = true := by
    show (cfgOf s3).stamp = true
    rw [config_hist h3, config_snoc]
    unfold Cfg.next
    rw [hop]
    simp only [hr, if_true]
    show (config E _).stamp = true
    rw [← config_hist h2]
    exact e2
  have e4 := stamp_seg h3 h4 hb e3
  obtain ⟨e5, e6⟩ := Hist.txEnd h5 htx hend (by rw [pre5]; exact e4) hcbs
  refine ⟨?_, e5, ?_⟩
  · obtain ⟨frame, f, f1, f2, f3, -⟩ := C46_carried h3 hop hr
    refine ⟨frame, f, f1, f2, ?_⟩
    have hq := queue_seg h1 h2 fun y hy => by
      refine ⟨(ha y hy).2, fun r hr => ?_⟩
      have := (ha y hy).1
      unfold timeKept at this
      rw [hr] at this
      cases this
    rw [f3, pre3, hq, q2]
    simp
  · rw [devTime_seg h5 h hc, e6]

/-- The answer for the demonstrations: GPS time 1419724818. -/
def timeAns : Oracle := Tests.rxOf (cmdFrame [13, 0x12, 0x48, 0x9f, 0x54, 128])
/-- A moment on the application's clock. -/
def atTime (t : U32) : Oracle := ⟨[], 0, 0, fun _ => 0, t⟩
/-- The start of the demonstrations. -/
def timeStart : List Op := [.init .eu868, .setSession 0x01020304 0 0 Tests.appKey Tests.appKey, .macSetHandlers (some ⟨true, true, true, true⟩)]
/-- An uplink without answer. -/
def silentUp (t : U32) : List Op := [.send 2 [1] false 0, .event 4 (atTime t), .timer .rx1, .event 1 (atTime 0), .timer .rx2, .event 1 (atTime 0)]

example : ∃ log req a x b tx c s o m, Hist Tests.xorEnv (log ++ [req] ++ a ++ [x] ++ b ++ [tx] ++ c) s ∧
    req.op = .deviceTimeReq ∧ req.ret = .bool true ∧ (∀ y ∈ a, timeKept y = true ∧ frameSent y = false) ∧ frameSent x = true ∧
    (∀ y ∈ b, timeKept y = true) ∧ tx.op = .event m o ∧ txEnded tx.ev = true ∧ (∃ cbs, tx.pre.mac.cbs = some cbs ∧ cbs.getTime = true) ∧
    (∀ y ∈ c, clockRead y.ev = false) ∧ c ≠ [] ∧ s.mac.devTime = 500 := by
  have h : Demo.fine (timeStart ++ [.deviceTimeReq] ++ [.linkCheckReq] ++ [.send 2 [1] false 0] ++ [.setDr 3] ++ [.event 4 (atTime 500)] ++ [.timer .rx1]) = true := by
    decide +kernel
  have h1 := Demo.fine_left h
  have h2 := Demo.fine_left h1
  have h3 := Demo.fine_left h2
  have h4 := Demo.fine_left h3
  have h5 := Demo.fine_left h4
  have hh := Demo.hist h
  rw [(Demo.items_snoc h).1, (Demo.items_snoc h1).1, (Demo.items_snoc h2).1, (Demo.items_snoc h3).1, (Demo.items_snoc h4).1,
    (Demo.items_snoc h5).1] at hh
  refine ⟨_, _, _, _, _, _, _, _, _, _, hh, Demo.nextItem_op .., by decide +kernel, ?_, by decide +kernel, ?_, Demo.nextItem_op .., by decide +kernel,
    ⟨⟨true, true, true, true⟩, by decide +kernel, rfl⟩, ?_, by simp, by decide +kernel⟩ <;>
  · intro y hy
    obtain rfl := List.mem_singleton.mp hy
    decide +kernel

/-- The opposite of C57: the uplink `x` carries a DeviceTimeReq, its transmission ends at `t`, the answer arrives in its first window,
before any other transmission, and is reported with the time `t'`. -/
def WrongTime (E : Env) (log : List Item) (x tx c it : Item) (s : St) (t t' : U32) : Prop :=
  Hist E (log ++ [x] ++ [tx] ++ [c] ++ [it]) s ∧
  (∃ frame f, txs x.ev = [frame] ∧ parse frame = some f ∧ 0x0d ∈ f.fOpts) ∧
  (∃ m, tx.op = .event m (atTime t)) ∧ txEnded tx.ev = true ∧ c.op = .timer .rx1 ∧
  it.op = .event 2 timeAns ∧ macCalls it.ev = [.deviceTimeResult t' 1735689600 128] ∧ t ≠ t'

/-- The only frame sent carries a DeviceTimeReq. -/
def asksTime (ev : List Ev) : Bool :=
  match txs ev with
  | [frame] => match parse frame with | some f => decide (0x0d ∈ f.fOpts) | none => false
  | _ => false

theorem asksTime_iff {ev : List Ev} (h : asksTime ev = true) : ∃ frame f, txs ev = [frame] ∧ parse frame = some f ∧ 0x0d ∈ f.fOpts := by
  unfold asksTime at h
  split at h
  · next frame hf =>
    split at h
    · next f hp => exact ⟨frame, f, hf, hp, of_decide_eq_true h⟩
    · cases h
  · cases h

theorem wrongTime {ops : List Op} {t t' : U32} (h : Demo.fine (ops ++ [.send 2 [1] false 0] ++ [.event 4 (atTime t)] ++ [.timer .rx1] ++ [.event 2 timeAns]) = true)
    (h1 : asksTime (Demo.nextItem ops (.send 2 [1] false 0)).ev = true)
    (h4 : txEnded (Demo.nextItem (ops ++ [.send 2 [1] false 0]) (.event 4 (atTime t))).ev = true)
    (h5 : macCalls (Demo.nextItem (ops ++ [.send 2 [1] false 0] ++ [.event 4 (atTime t)] ++ [.timer .rx1]) (.event 2 timeAns)).ev =
      [.deviceTimeResult t' 1735689600 128]) (h6 : t ≠ t') :
    ∃ log x tx c it s, WrongTime Tests.xorEnv log x tx c it s t t' := by
  have g1 := Demo.fine_left h
  have g2 := Demo.fine_left g1
  have g3 := Demo.fine_left g2
  have hh := Demo.hist h
  rw [(Demo.items_snoc h).1, (Demo.items_snoc g1).1, (Demo.items_snoc g2).1, (Demo.items_snoc g3).1] at hh
  exact ⟨_, _, _, _, _, _, hh, asksTime_iff h1, ⟨4, Demo.nextItem_op ..⟩, h4, Demo.nextItem_op .., Demo.nextItem_op .., h5, h6⟩

/-- C57 fails when the request is made while another uplink is on the air: its end (100) is reported. -/
theorem C57_on_air : ∃ log x tx c it s, WrongTime Tests.xorEnv log x tx c it s 500 100 :=
  wrongTime (ops := timeStart ++ [.send 2 [1] false 0, .deviceTimeReq, .event 4 (atTime 100), .timer .rx1, .event 1 (atTime 0), .timer .rx2,
    .event 1 (atTime 0)]) (by decide +kernel) (by decide +kernel) (by decide +kernel) (by decide +kernel) (by decide +kernel)

/-- C57 fails when a join request is sent between the request and the uplink: its end (100) is reported. -/
theorem C57_join : ∃ log x tx c it s, WrongTime Tests.xorEnv log x tx c it s 500 100 :=
  wrongTime (ops := timeStart ++ [.deviceTimeReq, .join 1 0, .event 4 (atTime 100), .timer .rx1, .event 1 (atTime 0), .timer .rx2,
    .event 1 (atTime 0)]) (by decide +kernel) (by decide +kernel) (by decide +kernel) (by decide +kernel) (by decide +kernel)

/-- C57 fails when a second request is refused because the queue is full: the clock is not read, the time reported is the one stored
before. -/
theorem C57_refused : ∃ log x tx c it s, WrongTime Tests.xorEnv log x tx c it s 500 100 :=
  wrongTime (ops := timeStart ++ [.deviceTimeReq] ++ silentUp 100 ++ [.deviceTimeReq] ++ List.replicate 14 .linkCheckReq ++ [.deviceTimeReq])
    (by decide +kernel) (by decide +kernel) (by decide +kernel) (by decide +kernel) (by decide +kernel)

/-! ### C59 -/

/-- C59: each setter accepts exactly its range; a rejected call changes nothing, an accepted one only its setting (the current one
and the one ADR falls back to). No setter calls the radio or the application. -/
theorem C59_setters (h : Hist E (log ++ [it]) s') :
    match (generalizing := false) it.op with
    | .setNbTrans n => it.ev = [] ∧
      if 1 ≤ n.toNat ∧ n.toNat ≤ 15 then it.ret = .bool true ∧ s' = { it.pre with nbTrans := n, defaultNbTrans := n }
      else it.ret = .bool false ∧ s' = it.pre
    | .setTxPower p => it.ev = [] ∧
      if p.toNat ≤ 7 then it.ret = .bool true ∧ s' = { it.pre with txPower := p, defaultTxPower := p }
      else it.ret = .bool false ∧ s' = it.pre
    | .setRx1DrOffset x => it.ev = [] ∧
      if x.toNat ≤ 5 then it.ret = .bool true ∧ s' = { it.pre with rx1Offset := x }
      else it.ret = .bool false ∧ s' = it.pre
    | .setRx1Delay d => it.ev = [] ∧
      if 1 ≤ d.toNat ∧ d.toNat ≤ 15 then
        it.ret = .bool true ∧ ∃ ms : U32, ms.toNat = 1000 * d.toNat ∧ s' = { it.pre with defaultRx1Delay := ms }
      else it.ret = .bool false ∧ s' = it.pre
    | .setRx2 x dr => it.ev = [] ∧
      if dr ≤ 5 ∧ 860000000 ≤ x.toNat ∧ x.toNat ≤ 870000000 then
        it.ret = .err .no ∧ s' = { it.pre with rx2Freq := x, rx2Dr := dr }
      else (it.ret = .err .datarate ∨ it.ret = .err .frequency) ∧ s' = it.pre
    | .setDr dr => it.ev = [] ∧ it.ret = .unit ∧
      s' = if dr ≤ 5 then { it.pre with defaultDr := dr, session := { it.pre.session with dr := dr } } else it.pre
    | .setMaxEirp e => it.ev = [] ∧ it.ret = .unit ∧ s' = { it.pre with maxEirp := e }
    | _ => True := by
  obtain ⟨s, h1, hpre, -, hv, hst⟩ := h.last
  rw [hpre]
  cases hop : it.op <;> (try trivial) <;> rw [hop] at hst hv <;>
    simp only [step, Except.ok.injEq, Prod.mk.injEq] at hst <;> obtain ⟨hr, hs, he⟩ := hst <;> rw [← he, ← hr, ← hs]
  · next x dr =>
    refine ⟨rfl, ?_⟩
    unfold setRx2
    rw [isValidDr_eq hv]
    by_cases h1 : dr < 6
    · by_cases h2 : 860000000 ≤ x.toNat ∧ x.toNat ≤ 870000000
      · have e : isValidFrequency x = true := by unfold isValidFrequency; simpa using h2
        rw [if_pos ⟨by omega, h2⟩, decide_eq_true h1, e]
        exact ⟨rfl, rfl⟩
      · have e : isValidFrequency x = false := by
          cases hx : isValidFrequency x with
          | false => rfl
          | true => unfold isValidFrequency at hx; exact absurd (by simpa using hx) h2
        rw [if_neg fun h => h2 h.2, decide_eq_true h1, e]
        exact ⟨.inr rfl, rfl⟩
    · rw [if_neg fun h => h1 (by omega), decide_eq_false h1]
      exact ⟨.inl rfl, rfl⟩
  · next dr =>
    refine ⟨rfl, rfl, ?_⟩
    unfold setDr
    rw [isValidDr_eq hv]
    by_cases h1 : dr < 6
    · rw [decide_eq_true h1, if_pos rfl, if_pos (by omega)]
    · rw [decide_eq_false h1, if_neg (by decide), if_neg (by omega)]
  · next n =>
    refine ⟨rfl, ?_⟩
    unfold setNbTrans setNbTransInt
    split <;> exact ⟨rfl, rfl⟩
  · exact ⟨rfl, rfl, rfl⟩
  · next p =>
    refine ⟨rfl, ?_⟩
    unfold setTxPower setTxPowerInt isValidTxPower
    by_cases h1 : p.toNat ≤ 7
    · rw [if_pos h1, decide_eq_true (show p.toNat < 8 by omega)]; exact ⟨rfl, rfl⟩
    · rw [if_neg h1, decide_eq_false (show ¬p.toNat < 8 by omega)]; exact ⟨rfl, rfl⟩
  · next x =>
    refine ⟨rfl, ?_⟩
    unfold setRx1DrOffset
    rw [isValidDr_eq x.isLt]
    by_cases h1 : x.toNat ≤ 5
    · rw [if_pos h1, decide_eq_true (show x.toNat < 6 by omega)]; exact ⟨rfl, rfl⟩
    · rw [if_neg h1, decide_eq_false (show ¬x.toNat < 6 by omega)]; exact ⟨rfl, rfl⟩
  · next d =>
    refine ⟨rfl, ?_⟩
    unfold setRx1Delay
    by_cases h1 : 1 ≤ d.toNat ∧ d.toNat ≤ 15
    · rw [if_pos h1, if_pos h1]
      exact ⟨rfl, _, by rw [BitVec.toNat_ofNat, Nat.mod_eq_of_lt (by omega), Nat.mul_comm], rfl⟩
    · rw [if_neg h1, if_neg h1]
      exact ⟨rfl, rfl⟩

-- An accepted and a rejected call.
example : ∃ log it s', Hist Tests.xorEnv (log ++ [it]) s' ∧ it.op = .setRx1Delay 15 ∧ it.ret = .bool true ∧ s'.defaultRx1Delay = 15000 := by
  obtain ⟨h, ho⟩ := Demo.next (ops := dlOps) (op := .setRx1Delay 15) dlFine trivial (by decide +kernel)
  exact ⟨_, _, _, h, ho, by decide +kernel, by decide +kernel⟩
example : ∃ log it s', Hist Tests.xorEnv (log ++ [it]) s' ∧ it.op = .setRx1Delay 16 ∧ it.ret = .bool false ∧ s'.defaultRx1Delay = 1000 := by
  obtain ⟨h, ho⟩ := Demo.next (ops := dlOps) (op := .setRx1Delay 16) dlFine trivial (by decide +kernel)
  exact ⟨_, _, _, h, ho, by decide +kernel, by decide +kernel⟩

end Uwan
