import Verif.Spec.Exchange
import Verif.Lemmas.Uplink

/-! Exchanges, radio settings and crypto contexts along a history. -/

namespace Uwan
open Spec

variable {E : Env}

/-! ### What each call does to the observers -/

theorem exch_quiet {q : List Ev} (h : Quiet q) (x : Exch) : q.foldl Exch.next x = x := by
  induction q with
  | nil => rfl
  | cons e l ih =>
    have he := h.all e (by simp)
    have : x.next e = x := by cases e <;> first | rfl | exact Bool.noConfusion he
    rw [List.foldl_cons, this]
    exact ih ⟨fun y hy => h.all y (by simp [hy])⟩

theorem radio_quiet {q : List Ev} (h : Quiet q) (x : Radio) : q.foldl Radio.next x = x := by
  induction q with
  | nil => rfl
  | cons e l ih =>
    have he := h.all e (by simp)
    have : x.next e = x := by cases e <;> first | rfl | exact Bool.noConfusion he
    rw [List.foldl_cons, this]
    exact ih ⟨fun y hy => h.all y (by simp [hy])⟩

theorem alternates_append (a b : List Ev) (x : Exch) :
    alternates x (a ++ b) = (alternates x a && alternates (a.foldl Exch.next x) b) := by
  induction a generalizing x with
  | nil => rfl
  | cons e l ih => simp only [List.cons_append, alternates, ih, List.foldl_cons, Bool.and_assoc]

theorem alternates_quiet {q : List Ev} (h : Quiet q) (x : Exch) : alternates x q = true := by
  induction q generalizing x with
  | nil => rfl
  | cons e l ih =>
    have he := h.all e (by simp)
    unfold alternates
    rw [ih ⟨fun y hy => h.all y (by simp [hy])⟩, Bool.and_true]
    cases e <;> first | rfl | exact Bool.noConfusion he

theorem directed_append (a b : List Ev) (x : Radio) :
    directed x (a ++ b) = (directed x a && directed (a.foldl Radio.next x) b) := by
  induction a generalizing x with
  | nil => rfl
  | cons e l ih => simp only [List.cons_append, directed, ih, List.foldl_cons, Bool.and_assoc]

theorem directed_quiet {q : List Ev} (h : Quiet q) (x : Radio) : directed x q = true := by
  induction q generalizing x with
  | nil => rfl
  | cons e l ih =>
    have he := h.all e (by simp)
    unfold directed
    rw [ih ⟨fun y hy => h.all y (by simp [hy])⟩, Bool.and_true]
    cases e <;> first | rfl | exact Bool.noConfusion he

theorem trace_append (a b : List Item) : trace (a ++ b) = trace a ++ trace b := by
  unfold trace; rw [List.flatMap_append]

theorem trace_one (it : Item) : trace [it] = it.ev := by simp [trace]

theorem exch_trace (log : List Item) (it : Item) : exch (trace (log ++ [it])) = it.ev.foldl Exch.next (exch (trace log)) := by
  unfold exch; rw [trace_append, trace_one, List.foldl_append]

theorem radio_trace (log : List Item) (it : Item) :
    radio (trace (log ++ [it])) = it.ev.foldl Radio.next (radio (trace log)) := by
  unfold radio; rw [trace_append, trace_one, List.foldl_append]

/-- The settings of a transmission. -/
def txRadio (s : St) (d : Sf × Bw) (f : U32) (x : Radio) : Radio :=
  { x with
    freq := f.toNat, pp := some (txPp s.pp d)
    power := some (BitVec.ofInt 8 (s.maxEirp.toInt - 2 * (s.txPower.toNat : Int))).toInt
    txFreq := f.toNat, txPp := some (txPp s.pp d) }

theorem radio_sentEv (s : St) (d : Sf × Bw) (f : U32) (p : Byte) (l : Bytes) (c : Bool) (x : Radio) :
    (sentEv E s d f p l c).foldl Radio.next x = txRadio s d f x := by
  unfold sentEv
  rw [List.foldl_append, List.foldl_append, radio_quiet (buildUplink_quiet ..)]; rfl

theorem radio_joinEv (s : St) (d : Sf × Bw) (f : U32) (n : Nat) (x : Radio) :
    (joinEv E s d f n).foldl Radio.next x = txRadio s d f x := by
  unfold joinEv
  rw [List.foldl_append, List.foldl_append, radio_quiet (buildJoin_quiet ..)]; rfl

theorem exch_sentEv (s : St) (d : Sf × Bw) (f : U32) (p : Byte) (l : Bytes) (c : Bool) (x : Exch) :
    (sentEv E s d f p l c).foldl Exch.next x = .busy := by
  unfold sentEv
  rw [List.foldl_append, List.foldl_append, exch_quiet (buildUplink_quiet ..)]; rfl

theorem exch_joinEv (s : St) (d : Sf × Bw) (f : U32) (n : Nat) (x : Exch) :
    (joinEv E s d f n).foldl Exch.next x = .busy := by
  unfold joinEv
  rw [List.foldl_append, List.foldl_append, exch_quiet (buildJoin_quiet ..)]; rfl

theorem alternates_sentEv (s : St) (d : Sf × Bw) (f : U32) (p : Byte) (l : Bytes) (c : Bool) :
    alternates .idle (sentEv E s d f p l c) = true := by
  unfold sentEv
  rw [alternates_append, alternates_append, alternates_quiet (buildUplink_quiet ..), List.foldl_append,
    exch_quiet (buildUplink_quiet ..)]
  rfl

theorem alternates_joinEv (s : St) (d : Sf × Bw) (f : U32) (n : Nat) :
    alternates .idle (joinEv E s d f n) = true := by
  unfold joinEv
  rw [alternates_append, alternates_append, alternates_quiet (buildJoin_quiet ..), List.foldl_append,
    exch_quiet (buildJoin_quiet ..)]
  rfl

/-- `handle_downlink` closes the exchange. -/
theorem DlCase.exch {o : Oracle} {s : St} {err : Err} {s' : St} {ev : List Ev} (hc : DlCase E o s err s' ev) (x : Exch) :
    ev.foldl Exch.next x = .idle := by
  obtain ⟨a, q, e, m, p, ha, hq, rfl⟩ := hc.shape
  rw [List.foldl_append]; rfl

theorem DlCase.alternates {o : Oracle} {s : St} {err : Err} {s' : St} {ev : List Ev} (hc : DlCase E o s err s' ev) :
    Spec.alternates .busy ev = true := by
  obtain ⟨a, q, e, m, p, ha, hq, rfl⟩ := hc.shape
  rw [alternates_append, alternates_append, alternates_quiet hq, List.foldl_append, exch_quiet hq]
  rcases ha with rfl | rfl <;> rfl

theorem DlCase.radio {o : Oracle} {s : St} {err : Err} {s' : St} {ev : List Ev} (hc : DlCase E o s err s' ev) (x : Radio) :
    ev.foldl Radio.next x = x ∧ directed x ev = true := by
  obtain ⟨a, q, e, m, p, ha, hq, rfl⟩ := hc.shape
  rw [directed_append, directed_append, directed_quiet hq, List.foldl_append, List.foldl_append, radio_quiet hq]
  rcases ha with rfl | rfl <;> exact ⟨rfl, rfl⟩

/-! ### The phase of the stack, seen from outside -/

/-- The phase and the observer's view of it. -/
def phaseExch : Phase → Exch
  | .notInit => .off
  | .idle => .idle
  | .tx | .rx1 | .rx2 => .busy

/-- Settings every transmission leaves alone. -/
def fixedPp (p : PktParams) : Prop := p.cr = .cr45 ∧ p.preambleLen = 8 ∧ p.crcOn = true ∧ p.implicitHeader = false

/-- What the radio settings are in each phase. -/
def RadioInv (s : St) (r : Radio) : Prop :=
  (s.phase ≠ .notInit → fixedPp s.pp) ∧
  (s.phase = .tx → r.pp = some s.pp ∧ commonPp s.pp = true ∧ r.txPp = some s.pp ∧ s.pp.invertedIq = false ∧ r.txFreq = r.freq) ∧
  (s.phase = .rx1 → r.pp = some s.pp ∧ commonPp s.pp = true ∧ s.pp.invertedIq = true ∧ r.txFreq = r.freq) ∧
  (s.phase = .rx2 → r.pp = some s.pp ∧ commonPp s.pp = true ∧ s.pp.invertedIq = true)

theorem commonPp_of {p : PktParams} (h : fixedPp p) (hb : p.bw = .bw125) (hs : p.sf ≠ .sf6) : commonPp p = true := by
  obtain ⟨h1, h2, h3, h4⟩ := h
  unfold commonPp
  rw [h1, h2, h3, h4, hb]
  have : 7 ≤ sfNum p.sf := by
    cases hx : p.sf <;> first | decide | exact absurd hx hs
  simp [this]

theorem commonPp_sf {p : PktParams} (h : commonPp p = true) : p.bw = .bw125 ∧ p.sf ≠ .sf6 := by
  unfold commonPp at h
  simp only [Bool.and_eq_true, beq_iff_eq, decide_eq_true_eq] at h
  refine ⟨h.1.2, fun e => ?_⟩
  rw [e] at h
  have := h.2
  simp [sfNum] at this

theorem rx1Pp_spec {s : St} (h : Inv s) (hf : fixedPp s.pp) (hc : commonPp s.pp = true) :
    fixedPp (rx1Pp s) ∧ commonPp (rx1Pp s) = true ∧ (rx1Pp s).invertedIq = true := by
  have hf' : fixedPp (rx1Pp s) := by unfold rx1Pp; split <;> exact hf
  refine ⟨hf', ?_, by unfold rx1Pp; split <;> rfl⟩
  refine commonPp_of hf' ?_ ?_
  all_goals
    unfold rx1Pp
    split
    · first | exact (commonPp_sf hc).1 | exact (commonPp_sf hc).2
    · have := currentDr_lt h
      obtain ⟨sf, hd, hsf⟩ := drTable_lt (n := currentDr s - s.rx1Offset.toNat) (by omega)
      simp only [hd, Option.getD_some]
      all_goals first | trivial | exact hsf

/-- Everything the observers say about one operation. -/
structure ObsStep (s s' : St) (ev : List Ev) : Prop where
  exch : ev.foldl Exch.next (phaseExch s.phase) = phaseExch s'.phase
  alt : Spec.alternates (phaseExch s.phase) ev = true
  rad : ∀ r, RadioInv s r → RadioInv s' (ev.foldl Radio.next r) ∧ directed r ev = true

theorem RadioInv.idle {s : St} {r : Radio} (hp : s.phase = .idle) (hf : fixedPp s.pp) : RadioInv s r :=
  ⟨fun _ => hf, by rw [hp]; simp, by rw [hp]; simp, by rw [hp]; simp⟩

theorem RadioInv.pend {s : St} {r : Radio} (h : RadioInv s r) (hp : s.phase = .rx1 ∨ s.phase = .rx2) :
    fixedPp s.pp ∧ r.pp = some s.pp ∧ commonPp s.pp = true ∧ s.pp.invertedIq = true := by
  obtain ⟨h1, h2, h3, h4⟩ := h
  rcases hp with hp | hp
  · have := h3 hp; exact ⟨h1 (by rw [hp]; decide), this.1, this.2.1, this.2.2.1⟩
  · have := h4 hp; exact ⟨h1 (by rw [hp]; decide), this.1, this.2.1, this.2.2⟩

theorem ObsStep.refl (s : St) : ObsStep s s [] := ⟨rfl, rfl, fun _ h => ⟨h, rfl⟩⟩

theorem ObsStep.frame {s s' : St} (hp : s'.phase = s.phase) (hpp : s'.pp = s.pp) : ObsStep s s' [] :=
  ⟨by rw [hp]; rfl, rfl, fun r h => ⟨by
    unfold RadioInv at h ⊢
    rw [hp, hpp]; exact h, rfl⟩⟩

theorem txSetup_directed (s : St) (d : Sf × Bw) (f : U32) (q : List Ev) (hq : Quiet q) (fr : Bytes) (r : Radio)
    (hf : fixedPp s.pp) (h1 : d.2 = .bw125) (h2 : d.1 ≠ .sf6) : directed r (txSetup s d f ++ q ++ [Ev.tx fr]) = true := by
  rw [directed_append, directed_append, directed_quiet hq, List.foldl_append, radio_quiet hq]
  have : commonPp (txPp s.pp d) = true := commonPp_of hf h1 h2
  simp only [txSetup, directed, List.foldl_cons, List.foldl_nil, Radio.next, Option.any_some, this, Bool.true_and,
    Bool.and_true]
  rfl

theorem step_obs {s s' : St} {op : Op} {r : Ret} {ev : List Ev} (hi : Inv s)
    (hs : step E s op = .ok (r, s', ev)) : ObsStep s s' ev := by
  by_cases hc : op.isCfg = true
  · obtain ⟨rfl, hf⟩ := step_cfg hc hs
    exact .frame hf.phase hf.pp
  cases op with
  | init rg =>
    simp only [step, Except.ok.injEq, Prod.mk.injEq] at hs
    obtain ⟨-, rfl, rfl⟩ := hs
    have e := uwanInit_eq s rg
    have hp : (uwanInit s rg).1.phase = .idle := by rw [e]
    refine ⟨by rw [hp]; rfl, rfl, fun r _ => ⟨RadioInv.idle hp (by rw [e]; exact ⟨rfl, rfl, rfl, rfl⟩), rfl⟩⟩
  | join r1 r2 =>
    obtain ⟨e, rfl, hc⟩ := step_join hi hs
    cases hc with
    | state => exact .refl _
    | channel => exact .refl _
    | sent f d hp hg hf hd hd1 hd2 =>
      refine ⟨exch_joinEv .., by rw [hp]; exact alternates_joinEv .., fun r hr => ?_⟩
      have hfx := hr.1 (by rw [hp]; decide)
      refine ⟨?_, txSetup_directed s d f _ (buildJoin_quiet ..) _ r hfx hd1 hd2⟩
      rw [radio_joinEv]
      exact ⟨fun _ => hfx, fun _ => ⟨rfl, commonPp_of hfx hd1 hd2, rfl, rfl, rfl⟩, nofun, nofun⟩
  | send p l c rnd =>
    obtain ⟨e, rfl, hc⟩ := step_send hi hs
    cases hc with
    | state => exact .refl _
    | channel => exact .refl _
    | len => exact .refl _
    | sent f d hp hg hf hl hn hd hd1 hd2 hlen =>
      have hp' : ∀ fr, (sentSt s d fr).phase = .tx ∧ (sentSt s d fr).pp = txPp s.pp d := by
        intro fr; unfold sentSt adrHandleUplink; simp only; split <;> exact ⟨rfl, rfl⟩
      refine ⟨by rw [(hp' _).1]; exact exch_sentEv .., by rw [hp]; exact alternates_sentEv .., fun r hr => ?_⟩
      have hfx := hr.1 (by rw [hp]; decide)
      refine ⟨?_, txSetup_directed s d f _ (buildUplink_quiet ..) _ r hfx hd1 hd2⟩
      rw [radio_sentEv]
      unfold RadioInv
      rw [(hp' _).1, (hp' _).2]
      exact ⟨fun _ => hfx, fun _ => ⟨rfl, commonPp_of hfx hd1 hd2, rfl, rfl, rfl⟩, nofun, nofun⟩
  | timer id =>
    obtain ⟨rfl, hev⟩ := step_timer hs
    rcases hev with rfl | ⟨rfl, hp⟩
    · exact .refl _
    · refine ⟨rfl, rfl, fun r hr => ⟨hr, ?_⟩⟩
      obtain ⟨-, h1, h2, h3⟩ := hr.pend (by rcases hp with h | h <;> simp [h.1])
      simp [directed, h1, h2, h3]
  | event m o =>
    have hdl : ∀ (err : Err) (s1 : St) (ev1 : List Ev), (s.phase = .rx1 ∨ s.phase = .rx2) →
        DlCase E o { s with phase := .idle } err s1 ev1 → ObsStep s s1 ev1 := by
      intro err s1 ev1 hp hc
      have hb : phaseExch s.phase = .busy := by rcases hp with h | h <;> rw [h] <;> rfl
      have hph : s1.phase = .idle := hc.dl.1.phase
      refine ⟨by rw [hph]; exact hc.exch _, by rw [hb]; exact hc.alternates, fun r hr => ?_⟩
      rw [(hc.radio r).1]
      refine ⟨RadioInv.idle hph ?_, (hc.radio r).2⟩
      rw [hc.dl.1.pp]; exact (hr.pend hp).1
    cases step_event hi hs with
    | ignore => exact .refl _
    | txDone mm ev2 hp hm hmac =>
      have hq := macOnTxComplete_quiet hmac
      refine ⟨?_, ?_, fun r hr => ?_⟩
      · rw [List.foldl_append, exch_quiet hq, hp]; rfl
      · rw [alternates_append, alternates_quiet hq]; rfl
      · obtain ⟨h1, h2, h3, h4⟩ := hr
        have hfx := h1 (by rw [hp]; decide)
        obtain ⟨g1, g2, g3, g4, g5⟩ := h2 hp
        obtain ⟨k1, k2, k3⟩ := rx1Pp_spec hi hfx g2
        rw [directed_append, directed_quiet hq, List.foldl_append, radio_quiet hq]
        exact ⟨⟨fun _ => k1, nofun, fun _ => ⟨rfl, k2, k3, g5⟩, nofun⟩, rfl⟩
    | rx1Timeout d hp hm hd hd1 hd2 =>
      refine ⟨by rw [hp]; rfl, rfl, fun r hr => ?_⟩
      obtain ⟨hfx, -, -, -⟩ := hr.pend (.inl hp)
      exact ⟨⟨fun _ => hfx, nofun, nofun, fun _ => ⟨rfl, commonPp_of hfx hd1 hd2, rfl⟩⟩, rfl⟩
    | rx1Done s1 ev1 hp ht hm hc =>
      obtain ⟨h1, h2, h3⟩ := hdl _ _ _ (.inl hp) hc
      exact ⟨h1, h2, fun r hr => h3 r hr⟩
    | rx2Timeout _ _ hp hm hc => exact hdl _ _ _ (.inr hp) hc
    | rx2Done _ _ hp ht hm hc => exact hdl _ _ _ (.inr hp) hc
  | _ => exact absurd rfl hc

theorem obs_hist {log : List Item} {s : St} (h : Hist E log s) :
    exch (trace log) = phaseExch s.phase ∧ alternates .off (trace log) = true ∧
    RadioInv s (radio (trace log)) ∧ directed (radio []) (trace log) = true := by
  induction h with
  | nil => exact ⟨rfl, rfl, ⟨fun h => absurd rfl h, nofun, nofun, nofun⟩, rfl⟩
  | @snoc log sa sb op r ev h hv hs ih =>
    obtain ⟨i1, i2, i3, i4⟩ := ih
    obtain ⟨o1, o2, o3⟩ := step_obs (Hist.inv h) hs
    refine ⟨?_, ?_, ?_, ?_⟩
    · rw [exch_trace, i1, o1]
    · rw [trace_append, trace_one, alternates_append, i2]
      show Spec.alternates (exch (trace log)) ev = true
      rw [i1]; exact o2
    · rw [radio_trace]; exact (o3 _ i3).1
    · rw [trace_append, trace_one, directed_append, i4]
      exact (o3 _ i3).2

end Uwan
