import Verif.Spec.Radio
import Verif.Model.Driver

/-!
# Reasoning about driver programs

`wp p Q`: no execution of `p` is undefined, every execution is well framed, and `Q` holds of the
result and of the bus activity (BUSY polls left out).
-/

namespace Uwan
open Spec

/-! ## Executions -/

theorem exec_ret {α : Type} {a b : α} {tr : Trace} (h : Exec (.ret a) tr b) : tr = [] ∧ b = a := by
  cases h; exact ⟨rfl, rfl⟩

theorem exec_bind {α β : Type} {f : α → Prog β} : ∀ {p : Prog α} {tr : Trace} {b : β}, Exec (p.bind f) tr b →
    ∃ t1 t2 a, tr = t1 ++ t2 ∧ Exec p t1 a ∧ Exec (f a) t2 b := by
  intro p
  induction p with
  | ret a => intro tr b h; exact ⟨[], tr, a, rfl, .ret _, h⟩
  | call c k ih =>
    intro tr b h
    cases h with
    | call h =>
      obtain ⟨t1, t2, a, rfl, h1, h2⟩ := ih _ h
      exact ⟨_ :: t1, t2, a, rfl, .call h1, h2⟩
  | poll k ih =>
    intro tr b h
    have key : ∀ (q : Prog β) (tr : Trace) (b : β), Exec q tr b → q = (Prog.poll k).bind f →
        ∃ t1 t2 a, tr = t1 ++ t2 ∧ Exec (.poll k) t1 a ∧ Exec (f a) t2 b := by
      intro q tr b h
      induction h with
      | ret => intro e; exact nomatch e
      | call => intro e; exact nomatch e
      | busy hr _ ihb =>
        intro e
        obtain ⟨t1, t2, a, rfl, h1, h2⟩ := ihb e
        exact ⟨_ :: t1, t2, a, rfl, .busy hr h1, h2⟩
      | ready hk _ =>
        intro e
        injection e with e
        subst e
        obtain ⟨t1, t2, a, rfl, h1, h2⟩ := ih hk
        exact ⟨_ :: t1, t2, a, rfl, .ready h1, h2⟩
    exact key _ _ _ h rfl
  | fail u => intro tr b h; exact nomatch h

theorem exec_append {α β : Type} {f : α → Prog β} {p : Prog α} {t1 t2 : Trace} {a : α} {b : β}
    (h1 : Exec p t1 a) (h2 : Exec (f a) t2 b) : Exec (p.bind f) (t1 ++ t2) b := by
  induction h1 with
  | ret => exact h2
  | call _ ih => exact .call (ih h2)
  | busy hr _ ih => exact .busy hr (ih h2)
  | ready _ ih => exact .ready (ih h2)

theorem safe_bind {α β : Type} {f : α → Prog β} : ∀ {p : Prog α}, p.Safe →
    (∀ tr a, Exec p tr a → (f a).Safe) → (p.bind f).Safe := by
  intro p
  induction p with
  | ret a => intro _ h; exact h _ _ (.ret _)
  | call c k ih => intro hp h r; exact ih r (hp r) fun tr a e => h _ _ (.call (r := r) e)
  | poll k ih => intro hp h; exact ih hp fun tr a e => h _ _ (.ready e)
  | fail u => intro hp _; exact hp.elim

/-! ## Framing -/

theorem group_append : ∀ {st : Option (Bytes × Bytes)} {t1 t2 : Trace} {l1 : List Bus}, group st t1 = some l1 →
    group st (t1 ++ t2) = (group none t2).map (l1 ++ ·) := by
  intro st t1
  induction t1 generalizing st with
  | nil =>
    intro t2 l1 h
    cases st with
    | none => cases h; simp
    | some _ => exact nomatch h
  | cons x t1 ih =>
    intro t2 l1 h
    obtain ⟨c, r⟩ := x
    have other : ∀ (b : Bus), (group none t1).map (b :: ·) = some l1 →
        (group none (t1 ++ t2)).map (b :: ·) = (group none t2).map (l1 ++ ·) := by
      intro b h
      cases e : group none t1 with
      | none => rw [e] at h; exact nomatch h
      | some l =>
        rw [e] at h
        cases h
        rw [ih e, Option.map_map]
        rfl
    cases st with
    | none =>
      cases c with
      | select b =>
        cases b with
        | true => exact ih h
        | false => exact nomatch h
      | xfer b => exact nomatch h
      | reset b => exact other _ h
      | delay b => exact other _ h
      | isBusy => exact other _ h
      | ioInit => exact other _ h
      | ioDeinit => exact other _ h
      | antSw b => exact other _ h
      | handler b => exact other _ h
    | some oi =>
      obtain ⟨o, i⟩ := oi
      cases c with
      | xfer b => exact ih h
      | select b =>
        cases b with
        | true => exact nomatch h
        | false => exact other _ h
      | reset b => exact nomatch h
      | delay b => exact nomatch h
      | isBusy => exact nomatch h
      | ioInit => exact nomatch h
      | ioDeinit => exact nomatch h
      | antSw b => exact nomatch h
      | handler b => exact nomatch h

theorem exec_optTrue {c : Call} {t : Trace} {u : Unit} (e : Exec (Prog.opt true c) t u) : ∃ x, t = [(c, x)] := by
  cases e with
  | call e => rename_i x _; obtain ⟨rfl, _⟩ := exec_ret e; exact ⟨x, rfl⟩

theorem group_before {m x : Byte} : ∀ (t : Trace) (st : Option (Bytes × Bytes)), (group st (t ++ [(.handler m, x)])).isSome = true →
    (group st t).isSome = true
  | [], none, _ => rfl
  | [], some _, h => by simp [group] at h
  | (c, r) :: t, none, h => by
    cases c with
    | select b => cases b with
      | true => exact group_before t _ (by simpa [group] using h)
      | false => simp [group] at h
    | xfer b => simp [group] at h
    | _ =>
      simp only [List.cons_append, group, Option.isSome_map] at h ⊢
      exact group_before t _ h
  | (c, r) :: t, some (o, i), h => by
    cases c with
    | select b => cases b with
      | true => simp [group] at h
      | false =>
        simp only [List.cons_append, group, Option.isSome_map] at h ⊢
        exact group_before t _ h
    | xfer b => exact group_before t _ (by simpa [group] using h)
    | _ => simp [group] at h

/-- What comes before a call of the handler is well framed if the whole is. -/
theorem bus_before {t : Trace} {m x : Byte} (h : (bus (t ++ [(.handler m, x)])).isSome = true) : (bus t).isSome = true :=
  group_before t none h

theorem bus_append {t1 t2 : Trace} {l1 l2 : List Bus} (h1 : bus t1 = some l1) (h2 : bus t2 = some l2) :
    bus (t1 ++ t2) = some (l1 ++ l2) := by
  unfold bus at *
  rw [group_append h1, h2]; rfl

theorem quiet_append : ∀ (l1 l2 : List Bus), quiet (l1 ++ l2) = quiet l1 ++ quiet l2
  | [], _ => rfl
  | .frame o i :: l, l2 => by simp [quiet, quiet_append l l2]
  | .other c r :: l, l2 => by cases c <;> simp [quiet, quiet_append l l2]

/-! ## Weakest preconditions -/

/-- See the head of the file. -/
def wp {α : Type} (p : Prog α) (Q : α → List Bus → Prop) : Prop :=
  p.Safe ∧ ∀ tr a, Exec p tr a → ∃ l, bus tr = some l ∧ Q a (quiet l)

theorem wp_mono {α : Type} {p : Prog α} {Q R : α → List Bus → Prop} (h : wp p Q) (i : ∀ a l, Q a l → R a l) : wp p R :=
  ⟨h.1, fun tr a e => let ⟨l, hb, hq⟩ := h.2 tr a e; ⟨l, hb, i _ _ hq⟩⟩

theorem wp_ret {α : Type} {a : α} {Q : α → List Bus → Prop} (h : Q a []) : wp (.ret a) Q :=
  ⟨trivial, fun tr b e => by obtain ⟨rfl, rfl⟩ := exec_ret e; exact ⟨[], rfl, h⟩⟩

theorem wp_pure {α : Type} {a : α} {Q : α → List Bus → Prop} (h : Q a []) : wp (pure a : Prog α) Q := wp_ret h

theorem wp_bind' {α β : Type} {p : Prog α} {f : α → Prog β} {Q : β → List Bus → Prop}
    (h : wp p fun a l => wp (f a) fun b l' => Q b (l ++ l')) : wp (p.bind f) Q := by
  refine ⟨safe_bind h.1 fun tr a e => ?_, fun tr b e => ?_⟩
  · obtain ⟨_, _, hq⟩ := h.2 tr a e
    exact hq.1
  · obtain ⟨t1, t2, a, rfl, e1, e2⟩ := exec_bind e
    obtain ⟨l1, hb1, hq⟩ := h.2 _ _ e1
    obtain ⟨l2, hb2, hq2⟩ := hq.2 _ _ e2
    exact ⟨l1 ++ l2, bus_append hb1 hb2, by rw [quiet_append]; exact hq2⟩

theorem wp_bind {α β : Type} {p : Prog α} {f : α → Prog β} {Q : β → List Bus → Prop}
    (h : wp p fun a l => wp (f a) fun b l' => Q b (l ++ l')) : wp (p >>= f) Q := wp_bind' h

theorem reported_quiet : ∀ l : List Bus, reported (quiet l) = reported l
  | [] => rfl
  | .frame _ _ :: l => by simp only [quiet, reported, reported_quiet l]
  | .other c _ :: l => by cases c <;> simp only [quiet, reported, reported_quiet l]

theorem sent_quiet : ∀ l : List Bus, sent (quiet l) = sent l
  | [] => rfl
  | .frame _ _ :: l => by simp only [quiet, sent, sent_quiet l]
  | .other c _ :: l => by cases c <;> simp only [quiet, sent, sent_quiet l]

/-- HAL calls that are neither `select`, `spi_xfer` nor `is_busy`. -/
def Plain : Call → Prop
  | .select _ | .xfer _ | .isBusy => False
  | _ => True

theorem wp_do {c : Call} (hc : Plain c) {Q : Unit → List Bus → Prop} (h : ∀ r, Q () [.other c r]) :
    wp (Prog.do_ c) Q := by
  refine ⟨fun _ => trivial, fun tr a e => ?_⟩
  cases e with
  | @call _ _ r tr _ e =>
    obtain ⟨rfl, rfl⟩ := exec_ret e
    refine ⟨[.other c r], ?_, ?_⟩
    · cases c <;> first | rfl | exact hc.elim
    · have : quiet [.other c r] = [.other c r] := by cases c <;> first | rfl | exact hc.elim
      rw [this]; exact h r

theorem wp_opt {b : Bool} {c : Call} (hc : Plain c) {Q : Unit → List Bus → Prop}
    (h : ∀ r, Q () (if b then [.other c r] else [])) : wp (Prog.opt b c) Q := by
  cases b with
  | true => exact wp_do hc (by simpa using h)
  | false => exact wp_ret (by simpa using h 0)

theorem wp_waitBusy {Q : Unit → List Bus → Prop} (h : Q () []) : wp Prog.waitBusy Q := by
  refine ⟨trivial, fun tr a e => ?_⟩
  have key : ∀ (q : Prog Unit) (tr : Trace) (a : Unit), Exec q tr a → q = Prog.waitBusy →
      ∃ l, bus tr = some l ∧ quiet l = [] := by
    intro q tr a e
    induction e with
    | ret => intro e; exact nomatch e
    | call => intro e; exact nomatch e
    | @busy k r tr a hr _ ih =>
      intro e
      obtain ⟨l, hb, hq⟩ := ih e
      exact ⟨.other .isBusy r :: l, by simp only [bus, group] at hb ⊢; rw [hb]; rfl, hq⟩
    | @ready k tr a hk _ =>
      intro e
      injection e with e
      subst e
      obtain ⟨rfl, rfl⟩ := exec_ret hk
      exact ⟨[.other .isBusy 0], rfl, rfl⟩
  obtain ⟨l, hb, hq⟩ := key _ _ _ e rfl
  exact ⟨l, hb, by rw [hq]; exact h⟩

/-- Executions of a run of transfers. -/
theorem exec_xfers : ∀ {mosi : Bytes} {tr : Trace} {miso : Bytes}, Exec (Prog.xfers mosi) tr miso →
    miso.length = mosi.length ∧ tr = (mosi.zip miso).map fun x => (.xfer x.1, x.2) := by
  intro mosi
  induction mosi with
  | nil => intro tr miso e; obtain ⟨rfl, rfl⟩ := exec_ret e; exact ⟨rfl, rfl⟩
  | cons b bs ih =>
    intro tr miso e
    simp only [Prog.xfers] at e
    obtain ⟨t1, t2, r, rfl, e1, e2⟩ := exec_bind e
    obtain ⟨t3, t4, rs, rfl, e3, e4⟩ := exec_bind e2
    obtain ⟨rfl, rfl⟩ := exec_ret e4
    cases e1 with
    | call e1 =>
      obtain ⟨rfl, rfl⟩ := exec_ret e1
      obtain ⟨hl, rfl⟩ := ih e3
      exact ⟨by simp [hl], by simp⟩

theorem safe_xfers : ∀ (mosi : Bytes), (Prog.xfers mosi).Safe
  | [] => trivial
  | _ :: bs => safe_bind (fun _ => trivial) fun _ _ _ => safe_bind (safe_xfers bs) fun _ _ _ => trivial

theorem group_xfers : ∀ {mosi miso : Bytes} (o i : Bytes) (t : Trace), miso.length = mosi.length →
    group (some (o, i)) ((mosi.zip miso).map (fun x => (.xfer x.1, x.2)) ++ t) = group (some (o ++ mosi, i ++ miso)) t := by
  intro mosi
  induction mosi with
  | nil => intro miso o i t h; cases miso with
    | nil => simp
    | cons => exact nomatch h
  | cons b bs ih =>
    intro miso o i t h
    cases miso with
    | nil => exact nomatch h
    | cons r rs =>
      simp only [List.zip_cons_cons, List.map_cons, List.cons_append, group]
      rw [ih _ _ _ (by simpa using h)]
      simp

theorem bus_frame {mosi : Bytes} {tr : Trace} {a : Bytes} (e : Exec (Prog.frame mosi) tr a) :
    a.length = mosi.length ∧ bus tr = some [.frame mosi a] := by
  obtain ⟨t1, t2, _, rfl, e1, e2⟩ := exec_bind e
  obtain ⟨t3, t4, miso, rfl, e3, e4⟩ := exec_bind e2
  obtain ⟨t5, t6, _, rfl, e5, e6⟩ := exec_bind e4
  obtain ⟨rfl, rfl⟩ := exec_ret e6
  obtain ⟨hl, rfl⟩ := exec_xfers e3
  cases e1 with
  | call e1 =>
    obtain ⟨rfl, _⟩ := exec_ret e1
    cases e5 with
    | call e5 =>
      obtain ⟨rfl, _⟩ := exec_ret e5
      refine ⟨hl, ?_⟩
      simp only [bus, List.cons_append, List.nil_append, group]
      rw [group_xfers [] [] _ hl]
      rfl

theorem wp_frame {mosi : Bytes} {Q : Bytes → List Bus → Prop}
    (h : ∀ miso, miso.length = mosi.length → Q miso [.frame mosi miso]) : wp (Prog.frame mosi) Q :=
  ⟨safe_bind (fun _ => trivial) fun _ _ _ => safe_bind (safe_xfers _) fun _ _ _ =>
    safe_bind (fun _ => trivial) fun _ _ _ => trivial, fun _ a e =>
    ⟨[.frame mosi a], (bus_frame e).2, h a (bus_frame e).1⟩⟩

end Uwan
