import Verif.Model.Device
import Verif.Spec.Device
import Verif.Lemmas.Windows
import Verif.Lemmas.Uplink
import Verif.Lemmas.Bus
import Verif.Props.Uplink
import Verif.Props.Exchange
import Verif.Props.Channels
import Verif.Props.Downlink

/-! # The stack and the driver together: projections and the driver calls behind each operation -/

namespace Uwan
open Spec

variable {E : Env} {σ : Type} {dstep : σ → DOp → Prog (DRet × σ)} {z : σ} {log : List Entry} {e : Entry} {it : Item} {s s' : St} {d d' : σ}

theorem items_append (a b : List Entry) : items (a ++ b) = items a ++ items b := List.filterMap_append ..
theorem calls_append (a b : List Entry) : calls (a ++ b) = calls a ++ calls b := List.flatMap_append ..
theorem items_one (e : Entry) : items [e] = e.item.toList := by cases h : e.item <;> simp [items, h]
theorem calls_one (e : Entry) : calls [e] = e.calls := by simp [calls]
theorem wire_append (a b : List DItem) : wire (a ++ b) = wire a ++ wire b := List.flatMap_append ..
theorem wish_append (a b : List DItem) : wish (a ++ b) = b.foldl Wish.next (wish a) := List.foldl_append ..

theorem Device.hist (h : Device E dstep z log s d) : Hist E (items log) s := by
  induction h with
  | boot => exact .nil
  | direct _ _ _ ih => rw [items_append]; simpa [items] using ih
  | call _ _ hv hs _ ih => rw [items_append]; exact ih.snoc hv hs
  | ignored _ _ _ ih => rw [items_append]; simpa [items] using ih
  | irq _ _ _ hs _ _ ih => rw [items_append]; exact ih.snoc trivial hs

theorem Runs.calls {ops : List DOp} {l : List DItem} (hr : Runs dstep d ops l d') (hv : ∀ op ∈ ops, op.Valid) :
    ∀ {log : List DItem}, Calls dstep z log d → Calls dstep z (log ++ l) d' := by
  induction hr with
  | nil => intro log h; simpa using h
  | @cons d d1 d2 op ops tr r l e _ ih =>
    intro log h
    have := ih (fun o ho => hv o (by simp [ho])) (h.snoc (hv op (by simp)) e)
    simpa using this

theorem Runs.ops {ops : List DOp} {l : List DItem} (hr : Runs dstep d ops l d') : l.map DItem.op = ops := by
  induction hr with
  | nil => rfl
  | cons _ _ ih => simp [ih]

theorem Runs.framed {ops : List DOp} {l : List DItem} (hr : Runs dstep d ops l d') (hv : ∀ op ∈ ops, op.Valid)
    (hf : ∀ {s s' : σ} {op : DOp} {tr : Trace} {r : DRet}, op.Valid → Exec (dstep s op) tr (r, s') → (bus tr).isSome) :
    (bus (wire l)).isSome := by
  induction hr with
  | nil => rfl
  | @cons d d1 d2 op ops tr r l e _ ih =>
    obtain ⟨a, ha⟩ := Option.isSome_iff_exists.1 (hf (hv op (by simp)) e)
    obtain ⟨b, hb⟩ := Option.isSome_iff_exists.1 (ih fun o ho => hv o (by simp [ho]))
    have : wire (⟨op, tr, r⟩ :: l) = tr ++ wire l := rfl
    rw [this, bus_append ha hb]
    rfl

theorem Runs.last {ops : List DOp} {op : DOp} : ∀ {d : σ} {l : List DItem}, Runs dstep d (ops ++ [op]) l d' →
    ∃ l1 dx x, l = l1 ++ [x] ∧ Runs dstep d ops l1 dx ∧ Exec (dstep dx op) x.tr (x.ret, d') := by
  induction ops with
  | nil =>
    intro d l h
    cases h with
    | cons e h => cases h; exact ⟨[], _, _, rfl, .nil, e⟩
  | cons o ops ih =>
    intro d l h
    cases h with
    | cons e h =>
      obtain ⟨l1, dx, x, rfl, h1, h2⟩ := ih h
      exact ⟨_ :: l1, dx, x, rfl, .cons e h1, h2⟩

/-- Quiet effects are no driver calls. -/
theorem quiet_dop {q : List Ev} (h : Quiet q) (fr : Bytes) : q.filterMap (Ev.dop fr) = [] := by
  rw [List.filterMap_eq_nil_iff]
  intro e he
  have := h.all e he
  cases e <;> first | rfl | exact nomatch this

/-- Which arguments of driver calls are valid. -/
theorem dop_ok {fr : Bytes} {ev : List Ev} (ht : ∀ f ∈ txs ev, f.length ≤ 255) (hf : fr.length ≤ 255) :
    ∀ o ∈ ev.filterMap (Ev.dop fr), o.Valid := by
  induction ev with
  | nil => intro o ho; exact nomatch ho
  | cons e ev ih =>
    have rest : ∀ f ∈ txs ev, f.length ≤ 255 := fun f hf => ht f (by unfold txs at *; rw [List.filterMap_cons]; split <;> simp [hf])
    intro o ho
    rw [List.filterMap_cons] at ho
    cases e with
    | tx f =>
      rcases List.mem_cons.1 ho with rfl | ho
      · exact ht f (by simp [txs])
      · exact ih rest o ho
    | readPacket =>
      rcases List.mem_cons.1 ho with rfl | ho
      · exact hf
      · exact ih rest o ho
    | setEvtHandler | radioRand | setFrequency | setup | setPower | rx | sleep =>
      rcases List.mem_cons.1 ho with rfl | ho
      · exact trivial
      · exact ih rest o ho
    | _ => exact ih rest o ho

theorem dop_valid {op : Op} {r : Ret} {ev : List Ev} {l : List Item} (h : Hist E l s) (hv : op.Valid)
    (hs : step E s op = .ok (r, s', ev)) : ∀ o ∈ ev.filterMap (Ev.dop s.frame), o.Valid := by
  refine dop_ok (fun fr hf => ?_) (Nat.le_of_eq h.inv.frame)
  have h2 := h.snoc hv hs
  rcases C03_frame_length h2 fr hf with ⟨_, _, _, _, _, _, h2⟩ | ⟨_, _, _, h2⟩
  · omega
  · omega

theorem Device.calls (h : Device E dstep z log s d) : Calls dstep z (calls log) d := by
  induction h with
  | boot => exact .nil
  | @direct _ _ _ _ op _ _ _ ho e ih =>
    rw [calls_append, calls_one]
    exact ih.snoc (by cases op <;> first | trivial | exact nomatch ho) e
  | call h _ hv hs hr ih =>
    rw [calls_append, calls_one]
    exact hr.calls (dop_valid h.hist hv hs) ih
  | ignored _ e _ ih => rw [calls_append, calls_one]; exact ih.snoc trivial e
  | irq h e _ hs hr _ ih =>
    rw [calls_append, calls_one]
    have := hr.calls (dop_valid (op := .event _ _) h.hist trivial hs) (ih.snoc (op := .irqHandler) trivial e)
    simpa using this

/-- An entry in which the stack took part. -/
structure Took (E : Env) (dstep : σ → DOp → Prog (DRet × σ)) (z : σ) (log : List Entry) (e : Entry) (it : Item) (s' : St) (d' : σ)
    (s : St) (d0 d : σ) (pre l : List DItem) : Prop where
  before : Device E dstep z log s d0
  mid : Calls dstep z (calls log ++ pre) d
  start : it.pre = s
  valid : it.op.Valid
  step : step E s it.op = .ok (it.ret, s', it.ev)
  calls : e.calls = pre ++ l
  runs : Runs dstep d (it.ev.filterMap (Ev.dop s.frame)) l d'
  how : (it.op.isCall = true ∧ pre = [] ∧ d = d0) ∨ ∃ m o tr r, it.op = .event m o ∧ pre = [⟨.irqHandler, tr, r⟩] ∧
    Exec (dstep d0 .irqHandler) tr (r, d) ∧ handled tr = [m] ∧ ∀ x ∈ l, x.shows o

theorem Device.took (h : Device E dstep z (log ++ [e]) s' d') (hi : e.item = some it) :
    ∃ s d0 d pre l, Took E dstep z log e it s' d' s d0 d pre l := by
  generalize hx : log ++ [e] = L at h
  cases h with
  | boot => simp at hx
  | direct _ _ _ => obtain ⟨rfl, h2⟩ := List.append_inj' hx rfl; injection h2 with h2; subst h2; exact nomatch hi
  | ignored _ _ _ => obtain ⟨rfl, h2⟩ := List.append_inj' hx rfl; injection h2 with h2; subst h2; exact nomatch hi
  | call h ho hv hs hr =>
    obtain ⟨rfl, h2⟩ := List.append_inj' hx rfl; injection h2 with h2; subst h2
    injection hi with hi; subst hi
    exact ⟨_, _, _, [], _, h, by simpa using h.calls, rfl, hv, hs, rfl, hr, .inl ⟨ho, rfl, rfl⟩⟩
  | irq h e hm hs hr hsh =>
    obtain ⟨rfl, h2⟩ := List.append_inj' hx rfl; injection h2 with h2; subst h2
    injection hi with hi; subst hi
    exact ⟨_, _, _, [_], _, h, h.calls.snoc (op := .irqHandler) trivial e, rfl, trivial, hs, rfl, hr, .inr ⟨_, _, _, _, rfl, rfl, e, hm, hsh⟩⟩

theorem Device.init (h : Device E dstep z (log ++ [e]) s d) : ∃ s0 d0, Device E dstep z log s0 d0 := by
  generalize hx : log ++ [e] = L at h
  cases h with
  | boot => simp at hx
  | direct h _ _ => obtain ⟨rfl, -⟩ := List.append_inj' hx rfl; exact ⟨_, _, h⟩
  | ignored h _ _ => obtain ⟨rfl, -⟩ := List.append_inj' hx rfl; exact ⟨_, _, h⟩
  | call h _ _ _ _ => obtain ⟨rfl, -⟩ := List.append_inj' hx rfl; exact ⟨_, _, h⟩
  | irq h _ _ _ _ _ => obtain ⟨rfl, -⟩ := List.append_inj' hx rfl; exact ⟨_, _, h⟩

theorem Device.items_snoc (hi : e.item = some it) : items (log ++ [e]) = items log ++ [it] := by
  rw [items_append, items_one, hi]; rfl

/-- The masks on the bus are those passed to the handler. -/
theorem reported_group : ∀ (tr : Trace) (st : Option (Bytes × Bytes)) (l : List Bus), group st tr = some l → reported l = handled tr := by
  intro tr
  induction tr with
  | nil =>
    intro st l h
    cases st with
    | none => simp only [group, Option.some.injEq] at h; subst h; rfl
    | some x => exact nomatch h
  | cons x tr ih =>
    intro st l h
    obtain ⟨c, r⟩ := x
    cases st with
    | none =>
      cases c with
      | select b =>
        cases b with
        | true => simp only [group] at h; exact ih _ _ h
        | false => exact nomatch h
      | xfer b => exact nomatch h
      | handler m =>
        simp only [group, Option.map_eq_some_iff] at h
        obtain ⟨l', h', rfl⟩ := h
        simp only [reported, handled, List.filterMap_cons]
        rw [ih _ _ h']
        rfl
      | _ =>
        simp only [group, Option.map_eq_some_iff] at h
        obtain ⟨l', h', rfl⟩ := h
        exact (ih _ _ h' :)
    | some y =>
      obtain ⟨o, i⟩ := y
      cases c with
      | xfer b => simp only [group] at h; exact ih _ _ h
      | select b =>
        cases b with
        | true => exact nomatch h
        | false =>
          simp only [group, Option.map_eq_some_iff] at h
          obtain ⟨l', h', rfl⟩ := h
          exact (ih _ _ h' :)
      | _ => exact nomatch h

theorem reported_handled {tr : Trace} {l : List Bus} (h : bus tr = some l) : reported l = handled tr := reported_group tr none l h

/-! ### The calls behind an accepted uplink or join-request -/

/-- What the driver is told when a frame is sent. -/
structure SentCalls (E : Env) (dstep : σ → DOp → Prog (DRet × σ)) (z : σ) (log : List Entry) (e : Entry) (it : Item) (d' : σ)
    (f : U32) (pp : PktParams) (pw : BitVec 8) (fr : Bytes) (d0 d1 d2 d3 : σ) (x1 x2 x3 x4 : DItem) : Prop where
  before : Calls dstep z (calls log ++ [x1, x2]) d2
  ex1 : Exec (dstep d0 (.setFrequency f)) x1.tr (x1.ret, d1)
  ex2 : Exec (dstep d1 (.setup pp)) x2.tr (x2.ret, d2)
  asked : Ev.setFrequency f ∈ it.ev
  calls : e.calls = [x1, x2, x3, x4]
  op1 : x1.op = .setFrequency f
  op2 : x2.op = .setup pp
  op3 : x3.op = .setPower pw
  op4 : x4.op = .tx fr
  ex3 : Exec (dstep d2 (.setPower pw)) x3.tr (x3.ret, d3)
  ex4 : Exec (dstep d3 (.tx fr)) x4.tr (x4.ret, d')
  txs : txs it.ev = [fr]
  len : fr.length ≤ 255
  freq : (radio (trace (items (log ++ [e])))).txFreq = f.toNat ∧ (radio (trace (items (log ++ [e])))).freq = f.toNat
  setup : (radio (trace (items (log ++ [e])))).txPp = some pp ∧ (radio (trace (items (log ++ [e])))).pp = some pp
  power : pw = BitVec.ofInt 8 ((config E (items log)).eirp - 2 * ((config E (items log)).pow : Int))
  common : commonPp pp = true ∧ pp.invertedIq = false
  sf : sfNum pp.sf = 12 - sentDr (config E (items log)) it.op
  dr : sentDr (config E (items log)) it.op ≤ 5

theorem runs4 {o1 o2 o3 o4 : DOp} {l : List DItem} (h : Runs dstep d [o1, o2, o3, o4] l d') : ∃ d1 d2 d3 x1 x2 x3 x4, l = [x1, x2, x3, x4] ∧
    x1.op = o1 ∧ x2.op = o2 ∧ x3.op = o3 ∧ x4.op = o4 ∧ Exec (dstep d o1) x1.tr (x1.ret, d1) ∧ Exec (dstep d1 o2) x2.tr (x2.ret, d2) ∧
    Exec (dstep d2 o3) x3.tr (x3.ret, d3) ∧ Exec (dstep d3 o4) x4.tr (x4.ret, d') := by
  cases h with
  | cons e1 h =>
    cases h with
    | cons e2 h =>
      cases h with
      | cons e3 h =>
        cases h with
        | cons e4 h =>
          cases h
          exact ⟨_, _, _, _, _, _, _, rfl, rfl, rfl, rfl, rfl, e1, e2, e3, e4⟩

theorem Device.sent (h : Device E dstep z (log ++ [e]) s' d') (hi : e.item = some it) (hs : sentItem it = true) :
    ∃ f pp pw fr d0 d1 d2 d3 x1 x2 x3 x4, SentCalls E dstep z log e it d' f pp pw fr d0 d1 d2 d3 x1 x2 x3 x4 := by
  have hh := h.hist
  rw [Device.items_snoc hi] at hh
  obtain ⟨s, d0, d, pre, l, T⟩ := h.took hi
  have hdir := (obs_hist hh).2.2.2
  rw [trace_append, trace_one, directed_append, Bool.and_eq_true] at hdir
  have main : ∀ (sx : St) (dd : Sf × Bw) (f : U32) (q : List Ev) (fr : Bytes), Hist E (items log) sx → Quiet q →
      it.ev = txSetup sx dd f ++ q ++ [.tx fr] → it.op.isCall = true → txs it.ev = [fr] →
      drTable (sentDr (config E (items log)) it.op) = some dd → sentDr (config E (items log)) it.op < 6 →
      ∃ f pp pw fr d0 d1 d2 d3 x1 x2 x3 x4, SentCalls E dstep z log e it d' f pp pw fr d0 d1 d2 d3 x1 x2 x3 x4 := by
    intro sx dd f q fr hsx hq hev hcall htx hdr hlt
    have hpre : pre = [] := by
      rcases T.how with ⟨_, h, _⟩ | ⟨m, o, _, _, h, _⟩
      · exact h
      · rw [h] at hcall; exact nomatch hcall
    have hc := T.calls
    have hm := T.mid
    have hr := T.runs
    rw [hpre, List.nil_append] at hc
    rw [hpre, List.append_nil] at hm
    have hops : it.ev.filterMap (Ev.dop s.frame) = [.setFrequency f, .setup (txPp sx.pp dd),
        .setPower (BitVec.ofInt 8 (sx.maxEirp.toInt - 2 * (sx.txPower.toNat : Int))), .tx fr] := by
      rw [hev, List.filterMap_append, List.filterMap_append, quiet_dop hq]
      rfl
    rw [hops] at hr
    obtain ⟨d1, d2, d3, x1, x2, x3, x4, rfl, o1, o2, o3, o4, e1, e2, e3, e4⟩ := runs4 hr
    have hrad : radio (trace (items (log ++ [e]))) = (it.ev.foldl Radio.next (radio (trace (items log)))) := by
      rw [Device.items_snoc hi, radio_trace]
    rw [hev, List.foldl_append, List.foldl_append, radio_quiet hq] at hrad
    have hd2 := hdir.2
    rw [hev, directed_append, directed_append, Bool.and_eq_true, Bool.and_eq_true, List.foldl_append, radio_quiet hq] at hd2
    have hcom : (commonPp (txPp sx.pp dd) && !(txPp sx.pp dd).invertedIq) = true := by
      have := hd2.2
      simp only [directed, Bool.and_true] at this
      exact this
    rw [Bool.and_eq_true, Bool.not_eq_true'] at hcom
    have hlen : fr.length ≤ 255 := by
      rcases C03_frame_length hh fr (by rw [htx]; simp) with ⟨_, _, _, _, _, _, h2⟩ | ⟨_, _, _, h2⟩
      · omega
      · omega
    refine ⟨f, txPp sx.pp dd, _, fr, d, d1, d2, d3, x1, x2, x3, x4, ?_, e1, e2, by rw [hev]; simp [txSetup], hc, o1, o2, o3, o4, e3, e4, htx, hlen, ?_, ?_, ?_, hcom, ?_,
      Nat.le_of_lt_succ hlt⟩
    · have := (hm.snoc (op := .setFrequency f) trivial e1).snoc (op := .setup (txPp sx.pp dd)) trivial e2
      obtain ⟨p1, t1, r1⟩ := x1
      obtain ⟨p2, t2, r2⟩ := x2
      simp only at o1 o2
      subst o1 o2
      simpa using this
    · rw [hrad]; exact ⟨rfl, rfl⟩
    · rw [hrad]; exact ⟨rfl, rfl⟩
    · rw [← config_hist hsx]; rfl
    · show sfNum dd.1 = _
      generalize sentDr (config E (items log)) it.op = n at hdr hlt
      match n, hlt with
      | 0, _ | 1, _ | 2, _ | 3, _ | 4, _ | 5, _ => injection hdr with hdr; rw [← hdr]; rfl
  unfold sentItem at hs
  cases hop : it.op <;> simp only [hop] at hs <;> try exact Bool.noConfusion hs
  · rw [beq_iff_eq] at hs
    obtain ⟨sx, f, dd, ha⟩ := hh.joinSent hop hs
    have hd : sentDr (config E (items log)) it.op = sx.defaultDr := by rw [hop, ← config_hist ha.hist]; rfl
    refine main sx dd f _ _ ha.hist (buildJoin_quiet ..) ha.ev (by rw [hop]; rfl) (by rw [ha.ev, txs_join]) ?_ ?_
    · rw [hd]; exact ha.dr
    · rw [hd]; exact ha.inv.defaultDr
  · rw [beq_iff_eq] at hs
    obtain ⟨sx, f, dd, ha⟩ := hh.accepted hop hs
    have hd : sentDr (config E (items log)) it.op = currentDr sx := by rw [hop, ← config_hist ha.hist]; exact txDr_eq sx
    refine main sx dd f _ _ ha.hist (buildUplink_quiet ..) ha.ev (by rw [hop]; rfl) (by rw [ha.ev, txs_sent]) ?_ ?_
    · rw [hd]; exact ha.dr
    · rw [hd]; exact currentDr_lt ha.inv

/-! ### The settings between a transmission and its windows -/

/-- The driver was asked for the radio settings the stack believes in. -/
structure Linked (w : Wish) (r : Radio) : Prop where
  freq : ∃ f, w.freq = some f ∧ f.toNat = r.freq
  setup : w.setup = r.pp

theorem linked_fold {fr : Bytes} : ∀ (ev : List Ev) (l : List DItem) (w : Wish) (r : Radio), l.map DItem.op = ev.filterMap (Ev.dop fr) →
    Linked w r → Linked (l.foldl Wish.next w) (ev.foldl Radio.next r) ∧ (l.foldl Wish.next w).up = w.up ∧
      (l.foldl Wish.next w).isPublic = w.isPublic := by
  intro ev
  induction ev with
  | nil =>
    intro l w r h hl
    rw [List.filterMap_nil, List.map_eq_nil_iff] at h
    subst h
    exact ⟨hl, rfl, rfl⟩
  | cons e ev ih =>
    intro l w r h hl
    have skip : Ev.dop fr e = none → r.next e = r → Linked (l.foldl Wish.next w) ((e :: ev).foldl Radio.next r) ∧ (l.foldl Wish.next w).up = w.up ∧
      (l.foldl Wish.next w).isPublic = w.isPublic := by
      intro hn hr
      rw [List.filterMap_cons_none hn] at h
      rw [List.foldl_cons, hr]
      exact ih l w r h hl
    have one : ∀ o, Ev.dop fr e = some o → (∀ x : DItem, x.op = o → Linked (w.next x) (r.next e) ∧ (w.next x).up = w.up ∧ (w.next x).isPublic = w.isPublic) →
        Linked (l.foldl Wish.next w) ((e :: ev).foldl Radio.next r) ∧ (l.foldl Wish.next w).up = w.up ∧
      (l.foldl Wish.next w).isPublic = w.isPublic := by
      intro o ho hx
      rw [List.filterMap_cons_some ho] at h
      obtain ⟨x, l', rfl, h1, h2⟩ := List.map_eq_cons_iff.1 h
      obtain ⟨g1, g2, g3⟩ := hx x h1
      obtain ⟨k1, k2, k3⟩ := ih l' (w.next x) (r.next e) h2 g1
      exact ⟨k1, k2.trans g2, k3.trans g3⟩
    cases e with
    | setFrequency f => exact one _ rfl fun x hx => by simp only [Wish.next, hx]; exact ⟨⟨⟨f, rfl, rfl⟩, hl.setup⟩, trivial, trivial⟩
    | setup p => exact one _ rfl fun x hx => by simp only [Wish.next, hx]; exact ⟨⟨hl.freq, rfl⟩, trivial, trivial⟩
    | setPower p =>
      refine one _ rfl fun x hx => ?_
      simp only [Wish.next, hx]
      split <;> exact ⟨⟨hl.freq, hl.setup⟩, rfl, rfl⟩
    | setEvtHandler | radioRand | tx | rx | readPacket | sleep =>
      exact one _ rfl fun x hx => by simp only [Wish.next, hx]; exact ⟨⟨hl.freq, hl.setup⟩, trivial, trivial⟩
    | _ => exact skip rfl rfl

theorem settled_snoc (log : List Entry) (e : Entry) : settled (log ++ [e]) =
    if e.item.any sentItem then true else settled log && e.calls.all fun x => match x.op with | .init .. => false | _ => true := by
  unfold settled
  rw [List.foldl_append]
  rfl

theorem SentCalls.linked {f : U32} {pp : PktParams} {pw : BitVec 8} {fr : Bytes} {d0 d1 d2 d3 : σ} {x1 x2 x3 x4 : DItem}
    (S : SentCalls E dstep z log e it d' f pp pw fr d0 d1 d2 d3 x1 x2 x3 x4) :
    let w := wish (Uwan.calls (log ++ [e]))
    w.freq = some f ∧ w.setup = some pp ∧ w.up = (wish (Uwan.calls log)).up ∧ w.isPublic = (wish (Uwan.calls log)).isPublic ∧
      w.power = if x3.ret = .bool true then some pw else (wish (Uwan.calls log)).power := by
  intro w
  have hw : w = [x1, x2, x3, x4].foldl Wish.next (wish (Uwan.calls log)) := by
    show wish (Uwan.calls (log ++ [e])) = _
    rw [calls_append, calls_one, S.calls, wish_append]
  generalize wish (Uwan.calls log) = w0 at hw
  have : w = ((((w0.next x1).next x2).next x3).next x4) := hw
  clear_value w
  subst this
  simp only [Wish.next, S.op1, S.op2, S.op3, S.op4]
  by_cases hb : x3.ret = .bool true
  · simp [hb]
  · simp [hb]

theorem Device.linked (h : Device E dstep z log s d) (hs : settled log = true) : Linked (wish (Uwan.calls log)) (radio (trace (items log))) := by
  induction h with
  | boot => exact nomatch hs
  | @direct log s d d' op tr r h ho e ih =>
    rw [settled_snoc] at hs
    simp only [Option.any_none, Bool.false_eq_true, ↓reduceIte, Bool.and_eq_true] at hs
    rw [items_append, items_one, calls_append, calls_one, wish_append]
    have := ih hs.1
    cases op with
    | init => simp at hs
    | setPublicNetwork b => simp only [Option.toList, List.append_nil]; exact ⟨this.freq, this.setup⟩
    | _ => exact nomatch ho
  | @ignored log s d d' tr r h e hm ih =>
    rw [settled_snoc] at hs
    simp only [Option.any_none, Bool.false_eq_true, ↓reduceIte, Bool.and_eq_true] at hs
    rw [items_append, items_one, calls_append, calls_one, wish_append]
    have := ih hs.1
    simp only [Option.toList, List.append_nil]
    exact ⟨this.freq, this.setup⟩
  | @call log s s' d d' op r ev l h ho hv hst hr ih =>
    by_cases hsent : sentItem ⟨s, op, r, ev, s'⟩ = true
    · obtain ⟨f, pp, pw, fr, d0, d1, d2, d3, x1, x2, x3, x4, S⟩ := (Device.call h ho hv hst hr).sent rfl hsent
      obtain ⟨k1, k2, -⟩ := S.linked
      exact ⟨⟨f, k1, S.freq.2.symm⟩, by rw [k2, S.setup.2]⟩
    · rw [settled_snoc] at hs
      simp only [Option.any_some, hsent, Bool.false_eq_true, ↓reduceIte, Bool.and_eq_true] at hs
      rw [items_append, items_one, calls_append, calls_one, wish_append]
      have e2 : radio (trace (items log ++ [⟨s, op, r, ev, s'⟩])) = ev.foldl Radio.next (radio (trace (items log))) := radio_trace ..
      show Linked _ (radio (trace (items log ++ [⟨s, op, r, ev, s'⟩])))
      rw [e2]
      exact (linked_fold ev l _ _ hr.ops (ih hs.1)).1
  | @irq log s s' d d1 d' tr r m o u ev l h e hm hst hr hsh ih =>
    rw [settled_snoc] at hs
    have hsent : sentItem ⟨s, .event m o, u, ev, s'⟩ = false := rfl
    simp only [Option.any_some, hsent, Bool.false_eq_true, ↓reduceIte, Bool.and_eq_true] at hs
    rw [items_append, items_one, calls_append, calls_one, wish_append]
    have e2 : radio (trace (items log ++ [⟨s, .event m o, u, ev, s'⟩])) = ev.foldl Radio.next (radio (trace (items log))) := radio_trace ..
    show Linked _ (radio (trace (items log ++ [⟨s, .event m o, u, ev, s'⟩])))
    rw [e2]
    exact (linked_fold ev l _ _ hr.ops (ih hs.1)).1

theorem dop_direct {fr : Bytes} {e : Ev} {o : DOp} (h : Ev.dop fr e = some o) : o.direct = false := by
  have : ∀ e : Ev, (Ev.dop fr e).all fun o => !o.direct := by intro e; cases e <;> rfl
  have := this e
  rw [h] at this
  simpa using this

/-- The stack itself does not initialise the radio or choose the sync word. -/
theorem wish_kept (fr : Bytes) : ∀ (ev : List Ev) (l : List DItem) (w : Wish), l.map DItem.op = ev.filterMap (Ev.dop fr) →
    (l.foldl Wish.next w).up = w.up ∧ (l.foldl Wish.next w).isPublic = w.isPublic := by
  intro ev l w h
  have : ∀ x ∈ l, (∀ a b, x.op ≠ .init a b) ∧ ∀ b, x.op ≠ .setPublicNetwork b := by
    intro x hx
    have : x.op ∈ l.map DItem.op := List.mem_map_of_mem hx
    rw [h] at this
    obtain ⟨e, _, he⟩ := List.mem_filterMap.1 this
    have hd := dop_direct he
    exact ⟨fun a b h => by rw [h] at hd; exact (nomatch hd), fun b h => by rw [h] at hd; exact (nomatch hd)⟩
  clear h
  induction l generalizing w with
  | nil => exact ⟨rfl, rfl⟩
  | cons x l ih =>
    obtain ⟨h1, h2⟩ := this x (by simp)
    obtain ⟨k1, k2⟩ := ih (w.next x) fun y hy => this y (by simp [hy])
    have : (w.next x).up = w.up ∧ (w.next x).isPublic = w.isPublic := by
      unfold Wish.next
      split
      · exact absurd ‹_› (h1 _ _)
      · exact ⟨rfl, rfl⟩
      · split <;> exact ⟨rfl, rfl⟩
      · exact ⟨rfl, rfl⟩
      · exact absurd ‹_› (h2 _)
      · exact ⟨rfl, rfl⟩
    exact ⟨k1.trans this.1, k2.trans this.2⟩

/-! ### Reception -/

/-- What the driver is told when a window opens. -/
structure ListenCalls (E : Env) (dstep : σ → DOp → Prog (DRet × σ)) (z : σ) (log : List Entry) (e : Entry) (it : Item) (d' : σ)
    (d0 : σ) (x : DItem) : Prop where
  before : Calls dstep z (calls log) d0
  calls : e.calls = [x]
  op : x.op = .rx 255 8 0
  ex : Exec (dstep d0 (.rx 255 8 0)) x.tr (x.ret, d')
  radio : radio (trace (items (log ++ [e]))) = radio (trace (items log))
  wish : wish (Uwan.calls (log ++ [e])) = wish (Uwan.calls log)
  pp : ∃ p, (Spec.radio (trace (items log))).pp = some p ∧ commonPp p = true ∧ p.invertedIq = true

theorem Device.listens (h : Device E dstep z (log ++ [e]) s' d') (hi : e.item = some it) (hl : Spec.listens it.ev = true) :
    ∃ d0 x, ListenCalls E dstep z log e it d' d0 x := by
  have hh := h.hist
  rw [Device.items_snoc hi] at hh
  obtain ⟨how, hev⟩ := C13_only_windows hh hl
  have hrad := (Hist.listens hh hl).2.2
  obtain ⟨s, d0, d, pre, l, T⟩ := h.took hi
  have hcall : it.op.isCall = true := by rcases how with ⟨_, h⟩ | ⟨_, h⟩ <;> rw [h] <;> rfl
  have hpre : pre = [] ∧ d = d0 := by
    rcases T.how with ⟨_, h, h2⟩ | ⟨m, o, _, _, h, _⟩
    · exact ⟨h, h2⟩
    · rw [h] at hcall; exact nomatch hcall
  obtain ⟨rfl, rfl⟩ := hpre
  have hr := T.runs
  have hc := T.calls
  rw [hev] at hr
  have hr : Runs dstep d [.rx 255 8 0] l d' := hr
  cases hr with
  | cons e1 hr =>
    cases hr
    have hd := (obs_hist hh).2.2.2
    rw [trace_append, trace_one, directed_append, Bool.and_eq_true, hev] at hd
    have hd := hd.2
    simp only [directed, Bool.and_true] at hd
    have hd : ((radio (trace (items log))).pp.any fun p => commonPp p && p.invertedIq) = true := hd
    refine ⟨d, _, T.before.calls, hc, rfl, e1, ?_, ?_, ?_⟩
    · rw [Device.items_snoc hi, hrad]
    · rw [calls_append, calls_one, hc, wish_append]; rfl
    · cases hp : (radio (trace (items log))).pp with
      | none => rw [hp] at hd; exact nomatch hd
      | some p =>
        rw [hp] at hd
        simp only [Option.any_some, Bool.and_eq_true] at hd
        exact ⟨p, rfl, hd.1, hd.2⟩

/-- The frequency is one that was asked for. -/
theorem radio_freq (ev : List Ev) : (radio ev).freq = 0 ∨ ∃ f, Ev.setFrequency f ∈ ev ∧ (radio ev).freq = f.toNat := by
  suffices h : ∀ (ev : List Ev) (r : Radio), (ev.foldl Radio.next r).freq = r.freq ∨
      ∃ f, Ev.setFrequency f ∈ ev ∧ (ev.foldl Radio.next r).freq = f.toNat from h ev _
  intro ev
  induction ev with
  | nil => exact fun r => .inl rfl
  | cons x ev ih =>
    intro r
    rcases ih (r.next x) with h | ⟨f, h1, h2⟩
    · rw [List.foldl_cons, h]
      cases x with
      | setFrequency f => exact .inr ⟨f, List.mem_cons_self, rfl⟩
      | _ => exact .inl rfl
    · exact .inr ⟨f, List.mem_cons_of_mem _ h1, h2⟩

/-- An interrupt the stack was told of. -/
structure IrqCalls (E : Env) (dstep : σ → DOp → Prog (DRet × σ)) (z : σ) (log : List Entry) (e : Entry) (it : Item) (d' : σ)
    (m : Byte) (o : Oracle) (s : St) (d0 d1 : σ) (x : DItem) (l : List DItem) : Prop where
  before : Device E dstep z log s d0
  frame : s.frame.length = 255
  step : step E s (.event m o) = .ok (it.ret, it.post, it.ev)
  op : it.op = .event m o
  calls : e.calls = x :: l
  xop : x.op = .irqHandler
  ex : Exec (dstep d0 .irqHandler) x.tr (x.ret, d1)
  handled : handled x.tr = [m]
  runs : Runs dstep d1 (it.ev.filterMap (Ev.dop s.frame)) l d'
  shows : ∀ x ∈ l, x.shows o

theorem Device.event (h : Device E dstep z (log ++ [e]) s' d') (hi : e.item = some it) {m : Byte} {o : Oracle} (ho : it.op = .event m o) :
    ∃ s d0 d1 x l, IrqCalls E dstep z log e it d' m o s d0 d1 x l := by
  obtain ⟨s, d0, d, pre, l, T⟩ := h.took hi
  have hh := h.hist
  rw [Device.items_snoc hi] at hh
  rcases T.how with ⟨h1, -, -⟩ | ⟨m', o', tr, r, h1, h2, h3, h4, h5⟩
  · rw [ho] at h1; exact nomatch h1
  · have hpost : it.post = s' := by obtain ⟨_, _, _, h, _⟩ := hh.last; exact h
    have hc := T.calls
    rw [h2] at hc
    rw [ho] at h1
    injection h1 with h1 h1'
    subst h1 h1'
    have hst := T.step
    rw [ho, ← hpost] at hst
    have hfr := T.before.hist.inv.frame
    exact ⟨s, d0, d, _, l, T.before, hfr, hst, ho, hc, rfl, h3, h4, T.runs, h5⟩

theorem dop_report {a q : List Ev} {e : Err} {mt : Byte} {p : DlPkt} (hq : Quiet q) (fr : Bytes) :
    (a ++ q ++ [Ev.downlink e mt p]).filterMap (Ev.dop fr) = a.filterMap (Ev.dop fr) := by
  rw [List.filterMap_append, List.filterMap_append, quiet_dop hq, List.filterMap_cons_none (f := Ev.dop fr) (a := .downlink e mt p) rfl,
    List.filterMap_nil, List.append_nil, List.append_nil]

/-- A packet is read from the radio before it is put to sleep. -/
theorem packet_ops {m : Byte} {o : Oracle} {r : Ret} {ev : List Ev} {l : List Item} {it : Item} (h : Hist E l s)
    (hs : step E s (.event m o) = .ok (r, s', ev)) (ho : it.op = .event m o) {b : Bytes} (hp : outcome l it = .packet b) (fr : Bytes) :
    ev.filterMap (Ev.dop fr) = [.readPacket fr, .sleep] ∧ b = o.rxData.take 255 := by
  have hst := stage_hist h
  have hm := irqBits m
  unfold outcome at hp
  rw [ho] at hp
  simp only at hp
  have key : (s.phase = .rx1 ∨ s.phase = .rx2) ∧ irqRxTimeout m = false ∧ irqRxDone m = true ∧ irqCrcError m = false ∧ b = o.rxData.take 255 := by
    rw [hm.2.1, hm.2.2.1, hm.2.2.2]
    split at hp
    · rename_i hw
      refine ⟨?_, ?_⟩
      · rcases hw with hw | hw
        · exact .inl (phase_of h .rx1 hw)
        · exact .inr (phase_of h .rx2 hw)
      · split at hp
        · split at hp <;> exact nomatch hp
        · split at hp
          · split at hp
            · exact nomatch hp
            · injection hp with hp
              simp_all
          · exact nomatch hp
    · exact nomatch hp
  obtain ⟨k1, k2, k3, k4, k5⟩ := key
  refine ⟨?_, k5⟩
  have dl : ∀ {s1 s2 : St} {ev : List Ev}, DlCase E o s1 (if irqCrcError m then .rxCrc else .no) s2 ev →
      ev.filterMap (Ev.dop fr) = [.readPacket fr, .sleep] := by
    intro s1 s2 ev hc
    cases hc with
    | none hn => rw [k4] at hn; simp at hn
    | join e s1 p ev1 _ _ hc => exact dop_report hc.quiet fr
    | data e s1 p ev1 _ _ hc => exact dop_report hc.quiet fr
  have hev := step_event h.inv hs
  cases hev with
  | ignore hi => simp [k2, k3] at hi; rcases hi with h | h | h <;> simp [h] at k1
  | txDone _ _ hp => simp [hp] at k1
  | rx1Timeout _ _ hm => rw [k2] at hm; exact nomatch hm
  | rx2Timeout _ _ _ hm => rw [k2] at hm; exact nomatch hm
  | rx1Done _ ev _ _ _ hc =>
    rw [List.filterMap_cons_none (f := Ev.dop fr) (a := .stopTimer .rx2) rfl]
    exact dl hc
  | rx2Done _ ev _ _ _ hc => exact dl hc

/-- The result is reported with the radio asleep. -/
theorem report_ops {op : Op} {r : Ret} {ev : List Ev} {l : List Item} (h : Hist E l s) (hs : step E s op = .ok (r, s', ev))
    {e : Err} {mt : Byte} {p : DlPkt} (he : Ev.downlink e mt p ∈ ev) (fr : Bytes) :
    ∃ a, ev.filterMap (Ev.dop fr) = a ++ [.sleep] ∧ (a = [] ∨ a = [.readPacket fr]) := by
  have hsh := step_shape h.inv hs
  have hqn : ∀ q, Quiet q → Ev.downlink e mt p ∈ q → False := fun q hq hm => Bool.noConfusion (hq.all _ hm)
  cases hsh with
  | nothing => exact nomatch he
  | init => simp at he
  | sent f d q l _ _ _ _ hq => simp [txSetup] at he; exact (hqn q hq he).elim
  | txDone _ _ q _ _ _ _ hq => simp at he; exact (hqn q hq he).elim
  | window => simp at he
  | rx1Timeout => simp at he
  | result m o a q e mt p _ _ _ _ ha hq =>
    rw [dop_report hq]
    rcases ha with rfl | rfl | rfl | rfl
    · exact ⟨[], rfl, .inl rfl⟩
    · exact ⟨[_], rfl, .inr rfl⟩
    · exact ⟨[], rfl, .inl rfl⟩
    · exact ⟨[_], rfl, .inr rfl⟩

/-- Frequency and spreading factor of the windows. -/
theorem windows_of {its : List Item} {it : Item} {p : PktParams} (h0 : Hist E its s) (h : Hist E (its ++ [it]) s') (hl : Spec.listens it.ev = true)
    (p1 : (radio (trace its)).pp = some p) :
    (stage (trace its) = .rx1 ∧ (radio (trace its)).freq = (radio (trace its)).txFreq ∧
      ∃ a x b q, its = a ++ [x] ++ b ∧ stage (trace a) = .tx ∧ stage (trace (a ++ [x])) = .rx1 ∧ (∀ y ∈ b, sentItem y = false) ∧
        (radio (trace its)).txPp = some q ∧ ((config E a).off = 0 → sfNum p.sf = sfNum q.sf)) ∨
    (stage (trace its) = .rx2 ∧
      ∃ a x b, its = a ++ [x] ++ b ∧ stage (trace a) = .rx1 ∧ stage (trace (a ++ [x])) = .rx2 ∧ (∀ y ∈ b, sentItem y = false) ∧
        (radio (trace its)).freq = (config E a).rx2Freq ∧ sfNum p.sf = 12 - (config E a).rx2Dr) := by
  rcases (C13_only_windows h hl).1 with ⟨hst, -⟩ | ⟨hst, -⟩
  · left
    obtain ⟨a, y, b, q, q2, e1, e2, e3, e4, e5, e6, e7, -⟩ := C12_datarate_partial h0 hst
    refine ⟨hst, C12_frequency h0 hst, a, y, b, q, e1, e2, e3, e4, e5, fun ho => ?_⟩
    have := e7 (.inl ho)
    rw [p1] at e6
    injection e6 with e6
    rw [e6, this, ho]
    have : sfNum q.sf ≤ 12 := by cases q.sf <;> decide
    omega
  · right
    obtain ⟨a, y, b, q, e1, e2, e3, e4, e5, e6, e7, -⟩ := C13_rx2 h0 hst
    rw [p1] at e5
    injection e5 with e5
    exact ⟨hst, a, y, b, e1, e2, e3, e4, e6, by rw [e5, e7]⟩

theorem asked_pw (E : Env) (log : List Entry) (h : -128 ≤ asked E log) (h2 : asked E log ≤ 127) :
    (BitVec.ofInt 8 ((config E (items log)).eirp - 2 * ((config E (items log)).pow : Int))).toInt = asked E log := by
  unfold asked at *
  rw [BitVec.toInt_ofInt, Int.bmod_eq_of_le (by omega) (by omega)]

theorem mask_of {m : Byte} {v : Events} (h : maskEvents m = some v) : (m.toNat % 2 = 1 ↔ v.timeout = true) ∧
    (m.toNat / 2 % 2 = 1 ↔ v.rxDone = true) ∧ (m.toNat / 8 % 2 = 1 ↔ v.crcError = true) := by
  unfold maskEvents at h
  split at h
  · injection h with h; rw [← h]; simp
  · exact nomatch h

end Uwan
