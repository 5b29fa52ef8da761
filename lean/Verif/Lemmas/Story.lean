import Verif.Spec.Flags

/-! # Stories of a flag -/

namespace Uwan
open Spec

theorem flagAfter_append (a b : List FlagEv) : ∀ f, flagAfter f (a ++ b) = flagAfter (flagAfter f a) b := by
  induction a with
  | nil => intro f; rfl
  | cons x a ih => intro f; exact ih _

theorem truthful_append (a b : List FlagEv) : ∀ f, Truthful f (a ++ b) ↔ Truthful f a ∧ Truthful (flagAfter f a) b := by
  induction a with
  | nil => intro f; simp [Truthful, flagAfter]
  | cons x a ih =>
    intro f
    cases x with
    | read v => simp only [List.cons_append, Truthful, flagAfter, FlagEv.next, ih, and_assoc]
    | raised => exact ih _
    | clear v => exact ih _

theorem rises_append (a b : List FlagEv) : ∀ f, rises f (a ++ b) = rises f a + rises (flagAfter f a) b := by
  induction a with
  | nil => intro f; simp [rises, flagAfter]
  | cons x a ih =>
    intro f
    cases x with
    | read v => exact ih _
    | raised => simp only [List.cons_append, rises, flagAfter, FlagEv.next, ih]; omega
    | clear v => exact ih _

theorem driverPart_split : ∀ {st a b : List FlagEv}, driverPart st = a ++ b →
    ∃ s1 s2, st = s1 ++ s2 ∧ driverPart s1 = a ∧ driverPart s2 = b := by
  intro st
  induction st with
  | nil =>
    intro a b h
    have := List.append_eq_nil_iff.1 (show a ++ b = [] from h.symm)
    exact ⟨[], [], rfl, this.1.symm, this.2.symm⟩
  | cons x st ih =>
    intro a b h
    by_cases hx : x = .raised
    · subst hx
      obtain ⟨s1, s2, rfl, h1, h2⟩ := ih (a := a) (b := b) h
      exact ⟨.raised :: s1, s2, rfl, h1, h2⟩
    · have hp : driverPart (x :: st) = x :: driverPart st := by simp [driverPart, hx]
      rw [hp] at h
      cases a with
      | nil => exact ⟨[], x :: st, rfl, rfl, by rw [hp]; exact h⟩
      | cons y a =>
        injection h with h1 h2
        subst h1
        obtain ⟨s1, s2, rfl, h3, h4⟩ := ih h2
        refine ⟨x :: s1, s2, rfl, ?_, h4⟩
        rw [← h3]
        simp [driverPart, hx]

/-- While the driver does not touch the flag. -/
theorem story_idle : ∀ {st : List FlagEv} {f : Bool}, driverPart st = [] → pending f + rises f st = pending (flagAfter f st)
  | [], f, _ => by simp [rises, flagAfter]
  | x :: st, f, h => by
    by_cases hx : x = .raised
    · subst hx
      have := story_idle (st := st) (f := true) h
      simp only [rises, flagAfter, FlagEv.next]
      rw [← this]
      cases f <;> simp [pending] <;> omega
    · simp [driverPart, hx] at h

theorem idle_grows : ∀ {st : List FlagEv} {f : Bool}, driverPart st = [] → f = true → flagAfter f st = true
  | [], f, _, hf => hf
  | x :: st, f, h, hf => by
    by_cases hx : x = .raised
    · subst hx
      exact idle_grows (st := st) (f := true) h rfl
    · simp [driverPart, hx] at h

theorem driverPart_cons {st : List FlagEv} {x : FlagEv} {b : List FlagEv} (h : driverPart st = x :: b) :
    ∃ s1 s2, st = s1 ++ x :: s2 ∧ driverPart s1 = [] ∧ driverPart s2 = b := by
  induction st with
  | nil => exact nomatch h
  | cons y st ih =>
    by_cases hy : y = .raised
    · subst hy
      obtain ⟨s1, s2, rfl, h1, h2⟩ := ih h
      exact ⟨.raised :: s1, s2, rfl, h1, h2⟩
    · have hp : driverPart (y :: st) = y :: driverPart st := by simp [driverPart, hy]
      rw [hp] at h
      injection h with h1 h2
      subst h1
      exact ⟨[], st, rfl, rfl, h2⟩

/-- The driver reads the flag and clears it if it was raised; the chip may raise it before, in between and after. -/
theorem story_handled {st : List FlagEv} {f b : Bool} (h : driverPart st = [.read b, .clear b]) (ht : Truthful f st) :
    pending f + rises f st = pending b + pending (flagAfter f st) := by
  obtain ⟨s1, s2, rfl, h1, h2⟩ := driverPart_cons h
  obtain ⟨s3, s4, rfl, h3, h4⟩ := driverPart_cons h2
  rw [truthful_append] at ht
  obtain ⟨-, hb, -⟩ := ht
  have e1 := story_idle (f := f) h1
  rw [rises_append, flagAfter_append]
  generalize flagAfter f s1 = f1 at *
  subst hb
  simp only [rises, flagAfter, FlagEv.next]
  rw [rises_append, flagAfter_append]
  have e3 := story_idle (f := b) h3
  have g3 := idle_grows (f := b) h3
  generalize flagAfter b s3 = f2 at *
  simp only [rises, flagAfter, FlagEv.next]
  have e4 := story_idle (f := f2 && !b) h4
  cases b
  · simp only [Bool.not_false, Bool.and_true] at *
    simp only [pending, Bool.false_eq_true, if_false] at *
    omega
  · simp only [Bool.not_true, Bool.and_false] at *
    have := g3 trivial
    subst this
    simp only [pending, Bool.false_eq_true, if_false, if_true] at *
    omega

/-- The common part of both drivers: what each call does to a flag adds up over a sequence of calls. -/
theorem told_once {σ : Type} {step : σ → DOp → Prog (DRet × σ)} {z : σ} {e : Event} {ops : List Bus → List FlagEv}
    (happ : ∀ a b, ops (a ++ b) = ops a ++ ops b)
    (hcall : ∀ {s s' : σ} {op : DOp} {tr : Trace} {r : DRet}, op.Valid → (∀ a b, op ≠ .init a b) → Exec (step s op) tr (r, s') →
      ∃ l, bus tr = some l ∧ ((ops l = [] ∧ tellings e [⟨op, tr, r⟩] = 0) ∨ ∃ b, ops l = [.read b, .clear b] ∧ tellings e [⟨op, tr, r⟩] = pending b))
    (hbus : ∀ {a b : Trace} {l m : List Bus}, bus a = some l → bus b = some m → bus (a ++ b) = some (l ++ m))
    {log : List DItem} {s : σ} (h : Calls step z log s) (hn : ∀ x ∈ log, ∀ a b, x.op ≠ .init a b) :
    ∃ l, bus (wire log) = some l ∧ ∀ (f : Bool) (st : List FlagEv), driverPart st = ops l → Truthful f st →
      pending f + rises f st = tellings e log + pending (flagAfter f st) := by
  have hnil : ops [] = [] := by
    have := happ [] []
    simp only [List.append_nil] at this
    exact List.self_eq_append_left.1 this
  induction h with
  | nil =>
    refine ⟨[], rfl, fun f st hs _ => ?_⟩
    rw [hnil] at hs
    rw [story_idle hs]
    simp [tellings]
  | @snoc log s s' op tr r hc hv ex ih =>
    obtain ⟨l, hb, ih⟩ := ih fun x hx => hn x (by simp [hx])
    obtain ⟨l', hb', hl'⟩ := hcall hv (hn ⟨op, tr, r⟩ (by simp)) ex
    refine ⟨l ++ l', ?_, fun f st hs ht => ?_⟩
    · have : wire (log ++ [⟨op, tr, r⟩]) = wire log ++ tr := by simp [wire]
      rw [this]
      exact hbus hb hb'
    · rw [happ] at hs
      obtain ⟨s1, s2, rfl, h1, h2⟩ := driverPart_split hs
      rw [truthful_append] at ht
      have i1 := ih f s1 h1 ht.1
      have htold : tellings e (log ++ [⟨op, tr, r⟩]) = tellings e log + tellings e [⟨op, tr, r⟩] := by simp [tellings, List.countP_append]
      rw [htold, rises_append, flagAfter_append]
      rcases hl' with ⟨ho, h0⟩ | ⟨b, ho, h0⟩
      · rw [ho] at h2
        have := story_idle (f := flagAfter f s1) h2
        omega
      · rw [ho] at h2
        have := story_handled h2 ht.2
        omega

end Uwan
