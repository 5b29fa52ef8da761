import Verif.Spec.Regional
import Verif.Props.Queue
import Verif.Props.Mac
import Verif.Props.Exchange
import Verif.Props.Channels

/-!
# Regional parameters and rules about MAC commands (C115-C120)
-/

namespace Uwan
open Spec

variable {E : Env} {log : List Item} {it : Item} {s' : St} {o : Oracle} {l : Bytes} {f : DataFrame} {a b : List (Cmd × Nat)} {n : Nat}

/-! ### C115 -/

/-- Neither application nor network touched the receive windows: no `uwan_init`, no `uwan_set_rx2`, no packet received. -/
def rx2Untouched (x : Item) : Prop :=
  (∀ r, x.op ≠ .init r) ∧ (∀ f dr, x.op ≠ .setRx2 f dr) ∧ (∀ r ∈ results x.ev, r.1 = .rxTimeout ∨ r.1 = .rxCrc)

theorem rx2_next (x : Item) (hx : rx2Untouched x) :
    (config E (log ++ [x])).rx2Freq = (config E log).rx2Freq ∧ (config E (log ++ [x])).rx2Dr = (config E log).rx2Dr := by
  obtain ⟨h1, h2, h3⟩ := hx
  rw [config_snoc]
  generalize config E log = c
  unfold Cfg.next
  cases hop : x.op with
  | init r => exact (h1 r hop).elim
  | setRx2 f dr => exact (h2 f dr hop).elim
  | event m o =>
    simp only
    cases hr : report x.ev with
    | none => simp only; split <;> exact ⟨rfl, rfl⟩
    | some err =>
      have hm : ∃ mt p, (err, mt, p) ∈ results x.ev := by
        unfold report at hr
        obtain ⟨e, he, hf⟩ := List.exists_of_findSome?_eq_some hr
        cases e <;> simp at hf
        subst hf
        exact ⟨_, _, List.mem_filterMap.mpr ⟨_, he, rfl⟩⟩
      obtain ⟨mt, p, hm⟩ := hm
      have herr := h3 _ hm
      simp only at herr
      have : err ≠ .no ∧ err ≠ .msgMic := by rcases herr with rfl | rfl <;> decide
      simp only
      split
      · simp [this.1]
      · unfold Cfg.receive
        simp [this.1, this.2, herr]
  | _ =>
    first
      | exact ⟨rfl, rfl⟩
      | (simp only; split <;> exact ⟨rfl, rfl⟩)
      | (simp only [Cfg.enable, Cfg.setChannel, Cfg.answer]; repeat' split) <;> exact ⟨rfl, rfl⟩

theorem rx2_seg {seg : List Item} : ∀ {log : List Item}, (∀ x ∈ seg, rx2Untouched x) →
    (config E (log ++ seg)).rx2Freq = (config E log).rx2Freq ∧ (config E (log ++ seg)).rx2Dr = (config E log).rx2Dr := by
  induction seg with
  | nil => intro log _; rw [List.append_nil]; exact ⟨rfl, rfl⟩
  | cons x seg ih =>
    intro log h
    have e : log ++ x :: seg = log ++ [x] ++ seg := by simp
    obtain ⟨h1, h2⟩ := ih (log := log ++ [x]) fun y hy => h y (List.mem_cons_of_mem _ hy)
    obtain ⟨h3, h4⟩ := rx2_next (E := E) (log := log) x (h x List.mem_cons_self)
    rw [e, h1, h2, h3, h4]
    exact ⟨rfl, rfl⟩

theorem rx2_init {x : Item} {r : Region} (hx : x.op = .init r) :
    (config E (log ++ [x])).rx2Freq = (match r with | .eu868 => 868100000 | .ru864 => 869100000) ∧
      (config E (log ++ [x])).rx2Dr = 0 := by
  rw [config_snoc]
  generalize config E log = c
  obtain ⟨pre, op, ret, ev, post⟩ := x
  simp only at hx
  subst hx
  cases r <;> simp only [Cfg.next, Cfg.setChannel] <;> repeat' split
  all_goals exact ⟨rfl, rfl⟩

/-- The second window after an initialisation. -/
theorem rx2_after_init {i : Item} {seg : List Item} {s : St} {r : Region} (h : Hist E (log ++ [i] ++ seg) s) (hi : i.op = .init r)
    (hu : ∀ x ∈ seg, rx2Untouched x) (ht : stage (trace (log ++ [i] ++ seg)) = .rx2) :
    ∃ q, (radio (trace (log ++ [i] ++ seg))).pp = some q ∧
      (radio (trace (log ++ [i] ++ seg))).freq = (match r with | .eu868 => 868100000 | .ru864 => 869100000) ∧ sfNum q.sf = 12 := by
  have hb := rx2_entered h ht
  obtain ⟨a, x, b, hl, g1, -, g3, g4⟩ := hb
  have hh := h
  rw [hl] at hh
  obtain ⟨sx, hx, -⟩ := hh.prefix
  have hxs : stage (trace (a ++ [x])) = .rx2 := by simpa using g4 [] (List.nil_prefix)
  obtain ⟨sa, m, o, d, ha, hph, hxop, -, hd, hr⟩ := rx1Timeout_item hx g1 hxs
  have hk := radio_keep (.inr rfl) hh g4
  have key : ∃ a', a = log ++ [i] ++ a' ∧ ∀ y ∈ a', rx2Untouched y := by
    have hl' : (log ++ [i]) ++ seg = a ++ (x :: b) := by rw [hl]; simp
    rcases List.append_eq_append_iff.mp hl' with ⟨c, e1, e2⟩ | ⟨c, e1, e2⟩
    · exact ⟨c, e1, fun y hy => hu y (by rw [e2]; exact List.mem_append_left _ hy)⟩
    · cases c with
      | nil => exact ⟨[], by simpa using e1.symm, fun y hy => absurd hy List.not_mem_nil⟩
      | cons z c =>
        exfalso
        obtain ⟨rfl, rfl⟩ : x = z ∧ b = c ++ seg := by simpa using e2
        have hlast := congrArg List.getLast? e1
        rcases List.eq_nil_or_concat c with rfl | ⟨c, w, rfl⟩
        · obtain rfl : i = x := by simpa using hlast
          rw [hi] at hxop
          cases hxop
        · obtain rfl : i = w := by
            have e : a ++ x :: c.concat w = (a ++ x :: c) ++ [w] := by simp
            rw [e, List.getLast?_concat, List.getLast?_concat] at hlast
            exact Option.some.inj hlast
          exact g3 i (by simp) r hi
  obtain ⟨a', rfl, ha'⟩ := key
  obtain ⟨k1, k2⟩ := rx2_seg (E := E) (log := log ++ [i]) ha'
  obtain ⟨k3, k4⟩ := rx2_init (E := E) (log := log) hi
  have hc := config_hist ha
  rw [hl]
  refine ⟨rx2Pp sa d, by rw [hk, hr], ?_, ?_⟩
  · rw [hk, hr, ← k3, ← k1, ← hc]; rfl
  · have := (drTable_sf hd).2
    rw [k4, ← hc] at k2
    have k2 : sa.rx2Dr = 0 := k2
    rw [k2] at this
    exact this

/-- C115, what holds: with RU864, from `uwan_init` until the application or the network sets the second window, it is opened on the channel
the regional parameters name. Missing: EU868, see `C115_eu868`. -/
theorem C115_ru864_partial {i : Item} {seg : List Item} {s : St} (h : Hist E (log ++ [i] ++ seg) s) (hi : i.op = .init .ru864)
    (hu : ∀ x ∈ seg, rx2Untouched x) (ht : stage (trace (log ++ [i] ++ seg)) = .rx2) :
    ∃ q, (radio (trace (log ++ [i] ++ seg))).pp = some q ∧
      ((radio (trace (log ++ [i] ++ seg))).freq, 12 - sfNum q.sf) = defaultRx2 .ru864 := by
  obtain ⟨q, h1, h2, h3⟩ := rx2_after_init h hi hu ht
  exact ⟨q, h1, by rw [h2, h3]; rfl⟩

/-- C115 does not hold with EU868: whatever the history, as long as nobody sets the second window it is opened on 868.1 MHz and not on the
869.525 MHz of the regional parameters, where a network answers. -/
theorem C115_eu868 {i : Item} {seg : List Item} {s : St} (h : Hist E (log ++ [i] ++ seg) s) (hi : i.op = .init .eu868)
    (hu : ∀ x ∈ seg, rx2Untouched x) (ht : stage (trace (log ++ [i] ++ seg)) = .rx2) :
    (radio (trace (log ++ [i] ++ seg))).freq = 868100000 ∧
      (radio (trace (log ++ [i] ++ seg))).freq ≠ (defaultRx2 .eu868).1 := by
  obtain ⟨q, h1, h2, h3⟩ := rx2_after_init h hi hu ht
  exact ⟨h2, by rw [h2]; show (868100000 : Nat) ≠ 869525000; decide⟩

/-- No answer in the first window: the second one is open. -/
def rx2Ops : List Op :=
  [.setSession 0x01020304 0 0 Tests.appKey Tests.appKey, .send 2 [1] false 0, .event 4 (Tests.rxOf []), .timer .rx1, .event 1 (Tests.rxOf [])]

/-- see `rx2Untouched` -/
def rx2UntouchedB (x : Item) : Bool :=
  (match x.op with | .init _ => false | .setRx2 .. => false | _ => true) && (results x.ev).all fun r => r.1 == .rxTimeout || r.1 == .rxCrc

theorem rx2UntouchedB_iff {seg : List Item} (h : seg.all rx2UntouchedB = true) : ∀ x ∈ seg, rx2Untouched x := by
  intro x hx
  have := List.all_eq_true.mp h x hx
  unfold rx2UntouchedB at this
  rw [Bool.and_eq_true] at this
  refine ⟨fun r hr => ?_, fun f d hr => ?_, fun r hr => ?_⟩
  · rw [hr] at this; exact Bool.noConfusion this.1
  · rw [hr] at this; exact Bool.noConfusion this.1
  · simpa using List.all_eq_true.mp this.2 r hr

example : ∃ log i seg s, Hist Tests.xorEnv (log ++ [i] ++ seg) s ∧ i.op = .init .ru864 ∧ (∀ x ∈ seg, rx2Untouched x) ∧
    stage (trace (log ++ [i] ++ seg)) = .rx2 := by
  have h := Demo.two (a := []) (op1 := .init .ru864) (b := rx2Ops) (op2 := .setDr 3) (by decide +kernel)
  rw [List.append_assoc] at h
  exact ⟨_, _, _, _, h, Demo.nextItem_op .., rx2UntouchedB_iff (by decide +kernel), by decide +kernel⟩

example : ∃ log i seg s, Hist Tests.xorEnv (log ++ [i] ++ seg) s ∧ i.op = .init .eu868 ∧ (∀ x ∈ seg, rx2Untouched x) ∧
    stage (trace (log ++ [i] ++ seg)) = .rx2 := by
  have h := Demo.two (a := []) (op1 := .init .eu868) (b := rx2Ops) (op2 := .setDr 3) (by decide +kernel)
  rw [List.append_assoc] at h
  exact ⟨_, _, _, _, h, Demo.nextItem_op .., rx2UntouchedB_iff (by decide +kernel), by decide +kernel⟩

/-! ### C116 -/

/-- C116, what holds: the answers to the commands of a frame are in the next accepted uplink, complete and in order, if the queue has
room for them. Missing: when nothing comes back after that uplink they are not repeated, see `C116_not_repeated`. -/
theorem C116_next_partial {cmds : List (Cmd × Nat)} {seg : List Item} {u : Item} {s2 : St} (h : Carries E log it s' o l f cmds)
    (hq : it.pre.mac.queue.length + answerBytes (cmds.map (·.1)) ≤ 15) (h2 : Hist E (log ++ [it] ++ seg ++ [u]) s2)
    (hs : ∀ y ∈ seg, frameSent y = false ∧ ∀ r, y.op ≠ .init r) (hu : frameSent u = true) :
    ∃ as frame f', Answers (cmds.map (·.1)) as ∧ txs u.ev = [frame] ∧ parse frame = some f' ∧
      it.pre.mac.queue ++ as.flatten <+: f'.fOpts := by
  obtain ⟨-, as, g1, g2⟩ := C58_answered_partial h hq
  have hsend : ∃ port pld c rnd, u.op = .send port pld c rnd ∧ u.ret = .err .no := by
    unfold frameSent at hu
    split at hu
    · next p l c r hop => exact ⟨p, l, c, r, hop, of_decide_eq_true hu⟩
    · cases hu
  obtain ⟨p, pl, c, rnd, hop, hr⟩ := hsend
  obtain ⟨frame, f', k1, k2, k3, -⟩ := C46_carried h2 hop hr
  obtain ⟨s1, h1, hpre, -⟩ := h2.last
  have := queue_seg h.hist h1 hs
  refine ⟨as, frame, f', g1, k1, k2, ?_⟩
  rw [k3, hpre, this, g2]
  exact List.prefix_append _ _

/-- C116 does not hold: whatever the first of two uplinks carried, with nothing received and nothing requested in between the second one
carries no answers, so an RXParamSetupAns or RXTimingSetupAns is sent once and not until a downlink arrives. -/
theorem C116_not_repeated {x : Item} {seg : List Item} (h : Hist E (log ++ [x] ++ seg ++ [it]) s') (hx : frameSent x = true)
    (hs : ∀ y ∈ seg, frameSent y = false ∧ (∀ r, y.op ≠ .init r) ∧ queued y = []) (hit : frameSent it = true) :
    ∃ frame f, txs it.ev = [frame] ∧ parse frame = some f ∧ f.fOpts = [] := by
  obtain ⟨frame, f, h1, h2, h3⟩ := C46_once h hx (fun y hy => ⟨(hs y hy).1, (hs y hy).2.1⟩) hit
  refine ⟨frame, f, h1, h2, ?_⟩
  rw [h3, List.flatten_eq_nil_iff]
  intro z hz
  obtain ⟨y, hy, rfl⟩ := List.mem_map.mp hz
  exact (hs y hy).2.2

/-- RXTimingSetupReq 4 in the first window, then the exchange is over. -/
def timingOps : List Op := dlOps ++ [.event 2 (Tests.rxOf (cmdFrame [8, 4]))]
/-- Transmission ended, no answer in either window. -/
def noAnswerOps : List Op := [.event 4 (Tests.rxOf []), .timer .rx1, .event 1 (Tests.rxOf []), .timer .rx2, .event 1 (Tests.rxOf [])]

theorem quiet_iff {seg : List Item} (h : seg.all (fun y => !frameSent y && (match y.op with | .init _ => false | _ => true) &&
    (queued y).isEmpty) = true) : ∀ y ∈ seg, frameSent y = false ∧ (∀ r, y.op ≠ .init r) ∧ queued y = [] := by
  intro y hy
  have := List.all_eq_true.mp h y hy
  simp only [Bool.and_eq_true, Bool.not_eq_true', List.isEmpty_iff] at this
  refine ⟨this.1.1, fun r hr => ?_, this.2⟩
  rw [hr] at this
  exact Bool.noConfusion this.1.2

-- The first uplink carries the RXTimingSetupAns, the second one after silence does not.
example : ∃ log x seg it s', Hist Tests.xorEnv (log ++ [x] ++ seg ++ [it]) s' ∧ frameSent x = true ∧
    (∀ y ∈ seg, frameSent y = false ∧ (∀ r, y.op ≠ .init r) ∧ queued y = []) ∧ frameSent it = true ∧
    (txs x.ev).map (fun fr => (parse fr).map (·.fOpts)) = [some [8]] ∧ (txs it.ev).map (fun fr => (parse fr).map (·.fOpts)) = [some []] ∧
    (∀ y ∈ seg, ∀ r ∈ results y.ev, r.1 = .rxTimeout) := by
  have h := Demo.two (a := timingOps) (op1 := .send 2 [1] false 0) (b := noAnswerOps) (op2 := .send 2 [2] false 0) (by decide +kernel)
  exact ⟨_, _, _, _, _, h, by decide +kernel, quiet_iff (by decide +kernel), by decide +kernel, by decide +kernel, by decide +kernel,
    by decide +kernel⟩

example : ∃ log it s' o l f seg u s2, Carries Tests.xorEnv log it s' o l f [(.rxTimingSetupReq 4, 0)] ∧
    it.pre.mac.queue.length + answerBytes [.rxTimingSetupReq 4] ≤ 15 ∧ Hist Tests.xorEnv (log ++ [it] ++ seg ++ [u]) s2 ∧
    (∀ y ∈ seg, frameSent y = false ∧ ∀ r, y.op ≠ .init r) ∧ frameSent u = true := by
  have h := Demo.two (a := dlOps) (op1 := .event 2 (Tests.rxOf (cmdFrame [8, 4]))) (b := [.setDr 3]) (op2 := .send 2 [2] false 0) (by decide +kernel)
  have hc := cmdDemo dlOps [8, 4] [(.rxTimingSetupReq 4, 0)] _ dlFine (by decide +kernel) (by decide +kernel) (by decide +kernel) (by decide +kernel) rfl (by decide +kernel)
  exact ⟨_, _, _, _, _, _, _, _, _, hc, by decide +kernel, h,
    fun y hy => ⟨(quiet_iff (by decide +kernel) y hy).1, (quiet_iff (by decide +kernel) y hy).2.1⟩, by decide +kernel⟩

/-! ### C117 -/

/-- C117, what holds: a DutyCycleReq is acknowledged in the next accepted uplink, if the queue has room. Missing: it is not
obeyed, see `C117_ignored` and `C117_no_effect`. -/
theorem C117_answered_partial {seg : List Item} {u : Item} {s2 : St} (h : Carries E log it s' o l f [(.dutyCycleReq, n)])
    (hq : it.pre.mac.queue.length < 15) (h2 : Hist E (log ++ [it] ++ seg ++ [u]) s2)
    (hs : ∀ y ∈ seg, frameSent y = false ∧ ∀ r, y.op ≠ .init r) (hu : frameSent u = true) :
    ∃ frame f', txs u.ev = [frame] ∧ parse frame = some f' ∧ it.pre.mac.queue ++ [4] <+: f'.fOpts := by
  obtain ⟨as, frame, f', h1, h3, h4, h5⟩ := C116_next_partial h (by simp [answerBytes, Cmd.answer]; omega) h2 hs hu
  refine ⟨frame, f', h3, h4, ?_⟩
  cases h1 with
  | skip h _ => cases h
  | @cons _ _ x as i k h ha t =>
    cases h
    cases t
    obtain ⟨a1, a2⟩ := ha
    match x, a1, a2 with
    | [y], a1, _ =>
      obtain rfl : y = 4 := by simpa using a1
      simpa using h5

/-- C117 does not hold: a frame with a DutyCycleReq, whatever limit it asks for, leaves the device like one without it but for the
queued acknowledgement. -/
theorem C117_no_effect (h : Carries E log it s' o l f [(.dutyCycleReq, n)]) :
    cfgOf s' = { (config E log).arrived l f o.snr with
      queue := if it.pre.mac.queue.length + 1 ≤ 15 then it.pre.mac.queue ++ [4] else it.pre.mac.queue
      joining := false, cnt := rxCnt E log l } := by
  obtain ⟨s, hs, hpre, -⟩ := h.hist.last
  have hcfg := config_hist hs
  have hqq : ((config E log).arrived l f o.snr).queue = it.pre.mac.queue := by
    refine (noteAck_queue (config E log) l).trans ?_
    rw [← hcfg, hpre]; rfl
  have := (C55_duty_cycle (a := []) (b := []) h rfl (c := (config E log).arrived l f o.snr) rfl).1
  rw [hqq] at this
  rw [this]
  by_cases hk : it.pre.mac.queue.length + 1 ≤ 15 <;> simp [hk, Cfg.execAll]

/-- C117: right after a DutyCycleReq with the smallest share of time the next uplinks are taken, sent and over without delay. -/
theorem C117_ignored : ∃ log it s' o l f seg u s2, Carries Tests.xorEnv log it s' o l f [(.dutyCycleReq, 0)] ∧ f.fOpts = [4, 15] ∧
    Hist Tests.xorEnv (log ++ [it] ++ seg ++ [u]) s2 ∧ seg = [] ∧ frameSent u = true := by
  have h := Demo.two (a := dlOps) (op1 := .event 2 (Tests.rxOf (cmdFrame [4, 15]))) (b := []) (op2 := .send 2 [2] false 0) (by decide +kernel)
  have hc := cmdDemo dlOps [4, 15] [(.dutyCycleReq, 0)] _ dlFine (by decide +kernel) (by decide +kernel) (by decide +kernel) (by decide +kernel) rfl (by decide +kernel)
  refine ⟨_, _, _, _, _, _, _, _, _, hc, by decide +kernel, h, ?_, by decide +kernel⟩
  rw [List.append_nil, (Demo.items_snoc (by decide +kernel)).1]
  exact List.drop_eq_nil_of_le (by rw [List.length_append, Demo.items_length dlFine]; exact Nat.le_refl _)

/-! ### C118 -/

/-- C118, what holds: while all enabled channels are at default frequencies of the region, so are the join-requests. Missing: other
enabled channels are used as well, see `C118_other_channel`. -/
theorem C118_default_partial {r : Region} {r1 r2 : Nat} (h : Hist E (log ++ [it]) s') (hop : it.op = .join r1 r2) (hr : it.ret = .err .no)
    (hd : ∀ i < 16, (config E log).on i = true → (config E log).freq i ∈ defaultChannels r) :
    (radio (trace (log ++ [it]))).txFreq ∈ defaultChannels r := by
  obtain ⟨i, h1, h2, -, h4⟩ := C16_enabled h (by unfold sentItem; rw [hop]; simp [hr])
  rw [h4]
  exact hd i h1 h2

/-- C118 does not hold: after the network added a channel, a join-request goes out on it. -/
theorem C118_other_channel : ∃ log it s', Hist Tests.xorEnv (log ++ [it]) s' ∧ it.op = .join 4 0 ∧ it.ret = .err .no ∧
    (config Tests.xorEnv log).region = some .eu868 ∧ (radio (trace (log ++ [it]))).txFreq = 867100000 ∧
    (radio (trace (log ++ [it]))).txFreq ∉ defaultChannels .eu868 := by
  obtain ⟨h, ho⟩ := Demo.next (ops := dlOps ++ [.event 2 (Tests.rxOf (cmdFrame [7, 4, 0x18, 0x4f, 0x84, 0x50])),
    .setOtaaKeys Tests.devEui Tests.appEui Tests.appKey]) (op := .join 4 0) (by decide +kernel) trivial (by decide +kernel)
  exact ⟨_, _, _, h, ho, by decide +kernel, by decide +kernel, by decide +kernel, by decide +kernel⟩

example : ∃ log it s', Hist Tests.xorEnv (log ++ [it]) s' ∧ it.op = .join 4 0 ∧ it.ret = .err .no ∧
    ∀ i < 16, (config Tests.xorEnv log).on i = true → (config Tests.xorEnv log).freq i ∈ defaultChannels .eu868 := by
  obtain ⟨h, ho⟩ := Demo.next (ops := [.init .eu868, .setOtaaKeys Tests.devEui Tests.appEui Tests.appKey]) (op := .join 4 0) (by decide +kernel)
    trivial (by decide +kernel)
  exact ⟨_, _, _, h, ho, by decide +kernel, by decide +kernel⟩

/-! ### C119 -/

theorem arrived_same (c : Cfg) (l : Bytes) (f : DataFrame) (snr : BitVec 8) :
    (c.arrived l f snr).freq = c.freq ∧ (c.arrived l f snr).on = c.on ∧ (c.arrived l f snr).defNb = c.defNb := by
  unfold Cfg.arrived Cfg.noteAck
  split <;> exact ⟨rfl, rfl, rfl⟩

/-- C119, what holds: a NewChannelReq leaves all other channels alone, and a refused one all channels. Missing: it can neither remove
a channel (`C119_not_removed`) nor is it kept from changing a default channel (`C119_default_changed`). -/
theorem C119_others_partial {idx freq hi lo : Nat} (h : Carries E log it s' o l f [(.newChannelReq idx freq hi lo, n)]) (i : Nat)
    (hn : i ≠ idx ∨ ¬ (idx < 16 ∧ (860000000 ≤ freq ∧ freq ≤ 870000000) ∧ hi = 5 ∧ lo = 0)) :
    (config E (log ++ [it])).freq i = (config E log).freq i ∧ (config E (log ++ [it])).on i = (config E log).on i := by
  have h2 := h.all.2
  unfold before at h2
  rw [execAll_one, config_hist h.hist] at h2
  have e1 : ((config E log).arrived l f o.snr).freq = (config E log).freq := (arrived_same _ _ _ _).1
  have e2 : ((config E log).arrived l f o.snr).on = (config E log).on := (arrived_same _ _ _ _).2.1
  rw [← e1, ← e2]
  generalize (config E log).arrived l f o.snr = c at h2
  obtain ⟨st, -, -, h3⟩ := exec_newChannel c (o.bat n)
    (all := decide (idx < 16 ∧ (860000000 ≤ freq ∧ freq ≤ 870000000) ∧ hi = 5 ∧ lo = 0)) decide_eq_true_iff
  rw [h3] at h2
  rw [h2]
  rcases hn with hn | hn
  · show (if _ then _ else _ : Nat → Nat) i = _ ∧ (if _ then _ else _ : Nat → Bool) i = _
    split <;> simp [upd, hn]
  · rw [decide_eq_false hn]
    exact ⟨rfl, rfl⟩

/-- C119 does not hold: a NewChannelReq with frequency 0, by which a network removes a channel, changes no channel. -/
theorem C119_not_removed {idx hi lo : Nat} (h : Carries E log it s' o l f [(.newChannelReq idx 0 hi lo, n)]) :
    (config E (log ++ [it])).freq idx = (config E log).freq idx ∧ (config E (log ++ [it])).on idx = (config E log).on idx :=
  C119_others_partial h idx (.inr (by omega))

/-- C119 does not hold: a NewChannelReq for channel 0 moves this default channel, and is acknowledged. -/
theorem C119_default_changed : ∃ log it s' o l f, Carries Tests.xorEnv log it s' o l f [(.newChannelReq 0 867100000 5 0, 0)] ∧
    (config Tests.xorEnv log).region = some .eu868 ∧ (config Tests.xorEnv log).freq 0 ∈ defaultChannels .eu868 ∧
    (config Tests.xorEnv (log ++ [it])).freq 0 = 867100000 ∧ s'.mac.queue = [7, 3] :=
  ⟨_, _, _, _, _, _, cmdDemo dlOps [7, 0, 0x18, 0x4f, 0x84, 0x50] _ _ dlFine (by decide +kernel) (by decide +kernel) (by decide +kernel)
    (by decide +kernel) rfl (by decide +kernel), by decide +kernel, by decide +kernel, by decide +kernel, by decide +kernel⟩

-- A request to remove channel 2.
example : ∃ log it s' o l f, Carries Tests.xorEnv log it s' o l f [(.newChannelReq 2 0 5 0, 0)] ∧
    (config Tests.xorEnv log).freq 2 = 868500000 ∧ (config Tests.xorEnv log).on 2 = true ∧ s'.mac.queue = [7, 2] :=
  ⟨_, _, _, _, _, _, cmdDemo dlOps [7, 2, 0, 0, 0, 0x50] _ _ dlFine (by decide +kernel) (by decide +kernel) (by decide +kernel)
    (by decide +kernel) rfl (by decide +kernel), by decide +kernel, by decide +kernel, by decide +kernel⟩

/-! ### C120 -/

/-- The configuration a request asks for. -/
def meet (c : Cfg) (r : AdrReq) : Cfg :=
  { c with
    dr := r.dr, pow := r.pow, nb := if r.nb = 0 then c.defNb else r.nb, on := fun i => decide (i < 16) && bit r.mask i }

theorem adr_block (bat : Nat → Byte) : ∀ (rs : List AdrReq) (r : AdrReq) (cmds : List (Cmd × Nat)) (c : Cfg),
    cmds.map (·.1) = (rs ++ [r]).map AdrReq.cmd → (∀ x ∈ rs ++ [r], x.ok c.freq) → c.queue.length + 2 * (rs.length + 1) ≤ 15 →
    (c.execAll bat cmds).1 = { meet c r with queue := c.queue ++ (List.replicate (rs.length + 1) [3, 7]).flatten }
  | rs, r, [], c, h, _, _ => by simp at h
  | rs, r, (cmd, n) :: cmds, c, h, hok, hq => by
    obtain ⟨x, hx, hxr⟩ : ∃ x, cmd = x.cmd ∧ (rs = [] ∧ x = r ∧ cmds = [] ∨ ∃ rs', rs = x :: rs' ∧ cmds.map (·.1) = (rs' ++ [r]).map AdrReq.cmd) := by
      cases rs with
      | nil => simp at h; exact ⟨r, h.1, .inl ⟨rfl, rfl, h.2⟩⟩
      | cons x rs' => simp at h; exact ⟨x, h.1, .inr ⟨rs', rfl, by simpa using h.2⟩⟩
    have hxok : x.ok c.freq := by
      rcases hxr with ⟨rfl, rfl, -⟩ | ⟨rs', rfl, -⟩ <;> exact hok x (by simp)
    obtain ⟨k1, k2, k3⟩ := hxok
    have he := exec_linkAdr c (bat n) (dr := x.dr) (pow := x.pow) (mask := x.mask) (cntl := 0) (nb := x.nb) (maskOk := true) (all := true)
      (by simp only [true_iff]; exact ⟨by decide, k3⟩) (by simp only [true_iff]; exact ⟨trivial, k1, k2⟩)
    have hroom : c.queue.length + 2 ≤ 15 := by omega
    have he' : c.exec (bat n) cmd = (true, { meet c x with queue := c.queue ++ [3, 7] }, []) := by
      rw [hx]; unfold AdrReq.cmd
      rw [he]
      simp [hroom, meet, k1, k2, bits]
    rw [execAll_cons, he']
    simp only [if_true]
    rcases hxr with ⟨rfl, rfl, rfl⟩ | ⟨rs', rfl, hm⟩
    · simp [Cfg.execAll, List.replicate]
    · have hc : ∀ c' : Cfg, c' = { meet c x with queue := c.queue ++ [3, 7] } → c'.freq = c.freq ∧ c'.queue = c.queue ++ [3, 7] ∧
          ∀ q, ({ meet c' r with queue := q } : Cfg) = { meet c r with queue := q } := by
        rintro _ rfl
        exact ⟨rfl, rfl, fun q => rfl⟩
      generalize ({ meet c x with queue := c.queue ++ [3, 7] } : Cfg) = c' at hc ⊢
      obtain ⟨f1, f2, f3⟩ := hc c' rfl
      rw [adr_block bat rs' r cmds c' hm (fun y hy => by rw [f1]; exact hok y (by rw [List.cons_append]; exact List.mem_cons_of_mem _ hy))
        (by rw [f2]; simp at hq ⊢; omega), f2, f3]
      simp [List.replicate_succ]

/-- C120, what holds: of a block of LinkADRReq which can all be met the last one counts, and each is answered positively. Missing: when
one of them cannot be met the others are still carried out, see `C120_not_atomic`. -/
theorem C120_block_partial {cmds : List (Cmd × Nat)} {rs : List AdrReq} {r : AdrReq} (h : Carries E log it s' o l f cmds)
    (hc : cmds.map (·.1) = (rs ++ [r]).map AdrReq.cmd) (hok : ∀ x ∈ rs ++ [r], x.ok (config E log).freq)
    (hq : it.pre.mac.queue.length + 2 * (rs.length + 1) ≤ 15) :
    (config E (log ++ [it])).dr = r.dr ∧ (config E (log ++ [it])).pow = r.pow ∧
      (config E (log ++ [it])).nb = (if r.nb = 0 then (config E log).defNb else r.nb) ∧
      (∀ i < 16, (config E (log ++ [it])).on i = bit r.mask i) ∧
      s'.mac.queue = it.pre.mac.queue ++ (List.replicate (rs.length + 1) [3, 7]).flatten := by
  obtain ⟨s, hs, hpre, -⟩ := h.hist.last
  have hcfg := config_hist hs
  have hqq : ((config E log).arrived l f o.snr).queue = it.pre.mac.queue := by
    refine (noteAck_queue (config E log) l).trans ?_
    rw [← hcfg, hpre]; rfl
  have e1 : ((config E log).arrived l f o.snr).freq = (config E log).freq := (arrived_same _ _ _ _).1
  have e2 : ((config E log).arrived l f o.snr).defNb = (config E log).defNb := (arrived_same _ _ _ _).2.2
  have h2 := h.all.2
  unfold before at h2
  rw [adr_block o.bat rs r cmds _ hc (by rw [e1]; exact hok) (by rw [hqq]; exact hq), hqq] at h2
  have hqs : s'.mac.queue = (cfgOf s').queue := rfl
  rw [hqs, ← config_hist h.hist, h2]
  refine ⟨rfl, rfl, ?_, fun i hi => ?_, rfl⟩
  · show (if r.nb = 0 then _ else _) = _
    rw [e2]
  · show (decide (i < 16) && bit r.mask i) = _
    simp [hi]

/-- C120 does not hold: of two LinkADRReq in a row the second cannot be met (data rate 15); it is refused and the first one is carried
out all the same. -/
theorem C120_not_atomic : ∃ log it s' o l f, Carries Tests.xorEnv log it s' o l f [(.linkAdrReq 3 2 5 0 2, 5), (.linkAdrReq 15 2 5 0 2, 0)] ∧
    (config Tests.xorEnv log).dr = 0 ∧ (config Tests.xorEnv (log ++ [it])).dr = 3 ∧ s'.mac.queue = [3, 7, 3, 5] :=
  ⟨_, _, _, _, _, _, cmdDemo dlOps [3, 0x32, 5, 0, 2, 3, 0xf2, 5, 0, 2] _ _ dlFine (by decide +kernel) (by decide +kernel) (by decide +kernel)
    (by decide +kernel) rfl (by decide +kernel), by decide +kernel, by decide +kernel, by decide +kernel⟩

example : ∃ log it s' o l f cmds rs r, Carries Tests.xorEnv log it s' o l f cmds ∧ cmds.map (·.1) = (rs ++ [r]).map AdrReq.cmd ∧
    (∀ x ∈ rs ++ [r], x.ok (config Tests.xorEnv log).freq) ∧ it.pre.mac.queue.length + 2 * (rs.length + 1) ≤ 15 ∧ rs.length = 1 := by
  refine ⟨_, _, _, _, _, _, [(.linkAdrReq 3 2 5 0 2, 5), (.linkAdrReq 4 2 6 0 2, 0)], [⟨3, 2, 5, 2⟩], ⟨4, 2, 6, 2⟩,
    cmdDemo dlOps [3, 0x32, 5, 0, 2, 3, 0x42, 6, 0, 2] _ _ dlFine (by decide +kernel) (by decide +kernel) (by decide +kernel)
    (by decide +kernel) rfl (by decide +kernel), rfl, ?_, by decide +kernel, rfl⟩
  unfold AdrReq.ok
  decide +kernel

end Uwan
