import Verif.Lemmas.Commands
import Verif.Lemmas.JoinHist

/-! The queue of MAC commands and the time stamp through histories. -/

namespace Uwan
open Spec

variable {E : Env} {log : List Item} {it : Item} {s' : St}

theorem setChannel_queue (c : Cfg) (i x : Nat) : (c.setChannel i x).queue = c.queue := by
  unfold Cfg.setChannel; split <;> rfl

theorem enable_queue (c : Cfg) (i : Nat) (b : Bool) : (c.enable i b).queue = c.queue := by
  unfold Cfg.enable; split <;> rfl

theorem cfList_queue (c : Cfg) (first : Nat) (l : Bytes) : (c.cfList first l).queue = c.queue := by
  unfold Cfg.cfList
  split
  · generalize List.range 5 = r
    induction r generalizing c with
    | nil => rfl
    | cons k r ih =>
      rw [List.foldl_cons, ih]
      unfold Cfg.cfEntry
      split
      · exact enable_queue ..
      · exact setChannel_queue ..
  · rfl

theorem accept_queue (c : Cfg) (l : Bytes) : (c.accept l).queue = c.queue := by
  unfold Cfg.accept
  simp only
  split
  · split
    · exact cfList_queue ..
    · rfl
  · rfl

theorem noteAck_queue (c : Cfg) (l : Bytes) : (c.noteAck l).queue = c.queue := by
  unfold Cfg.noteAck; split <;> rfl

/-- A received frame only appends to the queue, and nothing if it is not taken. -/
theorem receive_queue (c : Cfg) (o : Oracle) (l : Bytes) (e : Err) :
    (∃ r, (c.receive o l e).queue = c.queue ++ r) ∧ (e ≠ .no → e ≠ .msgMic → (c.receive o l e).queue = c.queue) := by
  unfold Cfg.receive
  split
  · next h =>
    refine ⟨?_, fun h1 h2 => absurd h (by simp [h1, h2])⟩
    split
    · exact ⟨[], by simp⟩
    · next f hf =>
      simp only
      obtain ⟨k, as, -, h1, -⟩ := execAll_queue o.bat (commands f.fOpts.length f.fOpts)
        { c.noteAck l with down := (nextDown c.down f.fCnt).getD 0, snr := o.snr.toInt }
      refine ⟨as.flatten, ?_⟩
      rw [show ({ c.noteAck l with down := (nextDown c.down f.fCnt).getD 0, snr := o.snr.toInt } : Cfg).queue = c.queue
        from noteAck_queue c l] at h1
      split
      · exact h1
      · exact h1
  · split
    · exact ⟨⟨[], by simp⟩, fun _ _ => rfl⟩
    · exact ⟨⟨[], by simp [noteAck_queue]⟩, fun _ _ => noteAck_queue c l⟩

theorem next_queue (v : View) (c : Cfg) (it : Item) (h1 : ∀ r, it.op ≠ .init r) (h2 : frameSent it = false) :
    ∃ r, (c.next E v it).queue = c.queue ++ r ∧ (it.op ≠ .linkCheckReq → it.op ≠ .deviceTimeReq →
      (∀ e, report it.ev = some e → c.joining = true ∨ (e ≠ .no ∧ e ≠ .msgMic)) → r = []) := by
  have key : ∀ d : Cfg, d.queue = c.queue → ∃ r, d.queue = c.queue ++ r ∧ (it.op ≠ .linkCheckReq → it.op ≠ .deviceTimeReq →
      (∀ e, report it.ev = some e → c.joining = true ∨ (e ≠ .no ∧ e ≠ .msgMic)) → r = []) :=
    fun d hd => ⟨[], by rw [hd, List.append_nil], fun _ _ _ => rfl⟩
  unfold Cfg.next
  split
  case h_1 r hop => exact absurd hop (h1 r)
  case h_7 hop =>
    unfold frameSent at h2
    rw [hop] at h2
    rw [if_neg (of_decide_eq_false h2)]
    exact key _ rfl
  case h_8 m o hop =>
    split
    · next err hrep =>
      simp only
      cases hj : c.joining with
      | true =>
        refine ⟨[], ?_, fun _ _ _ => rfl⟩
        rw [List.append_nil]
        simp only [if_true]
        split
        · exact accept_queue ..
        · rfl
      | false =>
        simp only [Bool.false_eq_true, if_false]
        obtain ⟨⟨r, hr⟩, hk⟩ := receive_queue c o (o.rxData.take 255) err
        refine ⟨r, hr, fun _ _ hh => ?_⟩
        rcases hh err hrep with h | ⟨h, h'⟩
        · cases h
        · have := hk h h'
          rw [hr] at this
          exact List.append_right_eq_self.mp this
    · split <;> exact key _ rfl
  case h_18 hop =>
    refine ⟨if c.queue.length + 1 ≤ 15 then [2] else [], ?_, fun h => absurd hop h⟩
    rw [answer_queue]
    simp only [List.length_cons, List.length_nil, Nat.zero_add]
    split <;> simp
  case h_19 hop =>
    refine ⟨if c.queue.length + 1 ≤ 15 then [13] else [], ?_, fun _ h => absurd hop h⟩
    show (c.answer [13]).2.queue = _
    rw [answer_queue]
    simp only [List.length_cons, List.length_nil, Nat.zero_add]
    split <;> simp
  all_goals first
    | exact key _ rfl
    | exact key _ (enable_queue ..)
    | exact key _ (setChannel_queue ..)
    | (split <;> exact key _ rfl)

/-- A request of the application. -/
theorem Hist.request (h : Hist E (log ++ [it]) s') {x : Byte} (hop : (it.op = .linkCheckReq ∧ x = 2) ∨ (it.op = .deviceTimeReq ∧ x = 13)) :
    it.ret = .bool (decide (it.pre.mac.queue.length + 1 ≤ 15)) ∧
    s'.mac.queue = if it.pre.mac.queue.length + 1 ≤ 15 then it.pre.mac.queue ++ [x] else it.pre.mac.queue := by
  obtain ⟨s, h1, hpre, -, -, hs⟩ := h.last
  have hq := h1.inv.queue
  rw [hpre]
  rcases hop with ⟨hop, rfl⟩ | ⟨hop, rfl⟩
  · rw [hop] at hs
    simp only [step, Except.ok.injEq, Prod.mk.injEq] at hs
    obtain ⟨hr, hs, -⟩ := hs
    obtain ⟨e1, e2⟩ := cfgOf_enqueue s hq 2 []
    rw [← hr, ← hs, e1, answer_goes]
    exact ⟨rfl, (congrArg Cfg.queue e2).trans (answer_queue ..)⟩
  · rw [hop] at hs
    simp only [step, Except.ok.injEq, Prod.mk.injEq] at hs
    obtain ⟨hr, hs, -⟩ := hs
    obtain ⟨e1, e2⟩ := cfgOf_enqueue s hq 13 []
    rw [← hr, ← hs]
    refine ⟨congrArg Ret.bool (e1.trans (answer_goes ..)), (congrArg Cfg.queue e2).trans (answer_queue ..)⟩

/-! ### The time stamp -/

theorem next_stamp (v : View) (c : Cfg) (it : Item) (h : timeKept it = true) (hr : it.op = .deviceTimeReq → c.queue.length + 1 ≤ 15)
    (hs : c.stamp = true) : (c.next E v it).stamp = true := by
  unfold timeKept at h
  unfold Cfg.next
  split
  case h_1 r hop => rw [hop] at h; cases h
  case h_7 => split <;> exact hs
  case h_8 m o hop =>
    rw [hop] at h
    split
    · simp only
      split
      · split
        · exact (accept_frame ..).stamp.trans hs
        · exact hs
      · exact (receive_frame ..).stamp.trans hs
    · split
      · next ht => rw [ht] at h; cases h
      · exact hs
  case h_18 => exact (answer_frame ..).stamp.trans hs
  case h_19 hop =>
    show (c.answer [13]).1 = true
    rw [answer_goes]
    exact decide_eq_true (hr hop)
  all_goals first
    | exact hs
    | exact (enable_frame ..).stamp.trans hs
    | exact (setChannel_frame ..).stamp.trans hs
    | (split <;> exact hs)

/-- The stored time changes only when the application's clock is read. -/
theorem Hist.devTime (h : Hist E (log ++ [it]) s') (hc : clockRead it.ev = false) : s'.mac.devTime = it.pre.mac.devTime := by
  obtain ⟨s, h1, hpre, -, hv, hs⟩ := h.last
  rw [hpre]
  have hcfg := cfg_step h1.inv hv (view_hist h1) hs
  suffices hd : (cfgOf s').devTime = (cfgOf s).devTime from BitVec.eq_of_toNat_eq hd
  by_cases hev : ∃ m o, it.op = .event m o
  · obtain ⟨m, o, hop⟩ := hev
    rw [hcfg]
    rw [hop] at hs ⊢
    have hcase := step_event h1.inv hs
    unfold Cfg.next
    simp only
    split
    · simp only
      split
      · split
        · exact (accept_frame ..).devTime
        · rfl
      · exact (receive_frame ..).devTime
    · next hn =>
      generalize it.ev = ev at *
      cases hcase with
      | txDone mm ev2 hp hm hmac =>
        split
        · show (if s.mac.saveDevTime && (s.mac.cbs.map (·.getTime)).getD false then _ else _) = _
          unfold macOnTxComplete at hmac
          cases hsv : s.mac.saveDevTime with
          | false => rfl
          | true =>
            rw [hsv] at hmac
            cases hcb : s.mac.cbs with
            | none => rfl
            | some cbs =>
              rw [hcb] at hmac
              cases hg : cbs.getTime with
              | false => simp [hg]
              | true =>
                simp only [hg, if_true, Except.ok.injEq, Prod.mk.injEq] at hmac
                rw [← hmac.2] at hc
                exact Bool.noConfusion hc
        · rfl
      | ignore => rfl
      | rx1Timeout => rfl
      | rx1Done s1 ev1 hp ht hm hdl =>
        obtain ⟨a, q, e, m, p, ha, hq, rfl⟩ := hdl.shape
        rw [report_stop, report_shape ha hq] at hn
        cases hn
      | rx2Timeout s1 ev1 hp hm hdl =>
        obtain ⟨a, q, e, m, p, ha, hq, rfl⟩ := hdl.shape
        rw [report_shape ha hq] at hn
        cases hn
      | rx2Done s1 ev1 hp ht hm hdl =>
        obtain ⟨a, q, e, m, p, ha, hq, rfl⟩ := hdl.shape
        rw [report_shape ha hq] at hn
        cases hn
  · rw [hcfg]
    unfold Cfg.next
    split
    case h_1 r hop =>
      split
      · exact (setChannel_frame ..).devTime.trans ((setChannel_frame ..).devTime.trans ((setChannel_frame ..).devTime.trans rfl))
      · exact (setChannel_frame ..).devTime.trans ((setChannel_frame ..).devTime.trans rfl)
    case h_8 m o hop => exact absurd ⟨m, o, hop⟩ hev
    case h_18 => exact (answer_frame ..).devTime
    case h_19 => exact (answer_frame (cfgOf s) [13]).devTime
    all_goals first
      | rfl
      | exact (enable_frame ..).devTime
      | exact (setChannel_frame ..).devTime
      | (split <;> rfl)

end Uwan
