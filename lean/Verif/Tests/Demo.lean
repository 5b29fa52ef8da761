import Verif.Tests.StackTests
import Verif.Lemmas.Hist

/-! Concrete histories, used to show that hypotheses of theorems can be met. -/

namespace Uwan.Demo
open Tests

/-- The log of a list of operations from power-on, with the test suite's XOR cipher. -/
def items (ops : List Op) : List Item := ((logOf xorEnv .boot ops).map (·.1)).getD []
/-- The state they lead to. -/
def final (ops : List Op) : St := ((logOf xorEnv .boot ops).map (·.2)).getD .boot
/-- The operations are valid and run without undefined behaviour. -/
def fine (ops : List Op) : Bool := (logOf xorEnv .boot ops).isSome && ops.all fun o => decide o.Valid
/-- The item of one more operation. -/
def nextItem (ops : List Op) (op : Op) : Item :=
  match step xorEnv (final ops) op with
  | .ok (r, s', ev) => ⟨final ops, op, r, ev, s'⟩
  | .error _ => ⟨final ops, op, .unit, [], final ops⟩

theorem hist {ops : List Op} (h : fine ops = true) : Hist xorEnv (items ops) (final ops) := by
  unfold fine at h
  obtain ⟨h1, h2⟩ := Bool.and_eq_true_iff.mp h
  obtain ⟨x, hx⟩ := Option.isSome_iff_exists.mp h1
  unfold items final
  rw [hx]
  exact logOf_seg ops _ _ _ (fun o ho => of_decide_eq_true (List.all_eq_true.mp h2 o ho)) hx

/-- One more operation. -/
theorem next {ops : List Op} {op : Op} (h : fine ops = true) (hv : op.Valid)
    (hs : (match step xorEnv (final ops) op with | .ok _ => true | .error _ => false) = true) :
    Hist xorEnv (items ops ++ [nextItem ops op]) (nextItem ops op).post ∧ (nextItem ops op).op = op := by
  unfold nextItem
  cases hx : step xorEnv (final ops) op with
  | error u => rw [hx] at hs; simp at hs
  | ok x =>
    obtain ⟨r, s', ev⟩ := x
    exact ⟨(hist h).snoc hv hx, rfl⟩

theorem logOf_ops : ∀ (ops : List Op) (s s' : St) (l : List Item), logOf xorEnv s ops = some (l, s') → l.map (·.op) = ops
  | [], _, _, _, h => by simp only [logOf, Option.some.injEq, Prod.mk.injEq] at h; rw [← h.1]; rfl
  | op :: ops, s, s', l, h => by
    simp only [logOf] at h
    split at h
    · next r s1 ev hs =>
      split at h
      · next l' s2 hl =>
        simp only [Option.some.injEq, Prod.mk.injEq] at h
        rw [← h.1, List.map_cons, logOf_ops ops _ _ _ hl]
      · simp at h
    · simp at h

theorem items_map {ops : List Op} (h : fine ops = true) : (items ops).map (·.op) = ops := by
  unfold fine at h
  obtain ⟨h1, h2⟩ := Bool.and_eq_true_iff.mp h
  obtain ⟨x, hx⟩ := Option.isSome_iff_exists.mp h1
  unfold items
  rw [hx]
  exact logOf_ops ops _ _ _ hx

theorem items_length {ops : List Op} (h : fine ops = true) : (items ops).length = ops.length := by
  have := congrArg List.length (items_map h)
  rwa [List.length_map] at this

/-- Cut a concrete history at its operation number `n`. -/
theorem cut {ops : List Op} (h : fine ops = true) (n : Nat) (hn : n < ops.length) :
    ∃ it, it.op = ops[n] ∧ (items ops)[n]? = some it ∧
      items ops = (items ops).take n ++ [it] ++ (items ops).drop (n + 1) := by
  have hl : n < (items ops).length := by rw [items_length h]; exact hn
  refine ⟨(items ops)[n], ?_, by simp [hl], by simp⟩
  have := congrArg (fun l => l[n]?) (items_map h)
  simp only [List.getElem?_map, List.getElem?_eq_getElem hl, List.getElem?_eq_getElem hn, Option.map_some,
    Option.some.injEq] at this
  exact this

theorem take_succ {ops : List Op} {n : Nat} {it : Item} (h : (items ops)[n]? = some it) :
    (items ops).take n ++ [it] = (items ops).take (n + 1) := by
  rw [List.take_add_one, h]; rfl

theorem logOf_append (E : Env) : ∀ (a b : List Op) (s : St),
    logOf E s (a ++ b) = (logOf E s a).bind fun x => (logOf E x.2 b).map fun y => (x.1 ++ y.1, y.2)
  | [], b, s => by cases h : logOf E s b <;> simp [logOf, h]
  | op :: a, b, s => by
    simp only [List.cons_append, logOf]
    cases hs : step E s op with
    | error u => rfl
    | ok x =>
      obtain ⟨r, s1, ev⟩ := x
      simp only [logOf_append E a b s1]
      cases ha : logOf E s1 a with
      | none => rfl
      | some y =>
        obtain ⟨l, s2⟩ := y
        simp only [Option.bind_some]
        cases hb : logOf E s2 b with
        | none => rfl
        | some z => rfl

theorem fine_left {a b : List Op} (h : fine (a ++ b) = true) : fine a = true := by
  unfold fine at h ⊢
  obtain ⟨h1, h2⟩ := Bool.and_eq_true_iff.mp h
  rw [List.all_append] at h2
  rw [logOf_append] at h1
  rw [Bool.and_eq_true_iff]
  refine ⟨?_, (Bool.and_eq_true_iff.mp h2).1⟩
  cases ha : logOf xorEnv .boot a with
  | none => rw [ha] at h1; exact h1
  | some x => rfl

theorem items_append {a b : List Op} (h : fine (a ++ b) = true) :
    items (a ++ b) = items a ++ (items (a ++ b)).drop a.length := by
  have hl := items_length (fine_left h)
  obtain ⟨h1, h2⟩ := Bool.and_eq_true_iff.mp (show ((logOf xorEnv .boot (a ++ b)).isSome && _) = true from h)
  obtain ⟨x, hx⟩ := Option.isSome_iff_exists.mp h1
  have hx' := hx
  rw [logOf_append] at hx'
  cases ha : logOf xorEnv .boot a with
  | none => rw [ha] at hx'; simp at hx'
  | some y =>
    rw [ha] at hx'
    simp only [Option.bind_some, Option.map_eq_some_iff] at hx'
    obtain ⟨z, hz, e⟩ := hx'
    have e1 : items (a ++ b) = y.1 ++ z.1 := by unfold items; rw [hx, ← e]; rfl
    have e2 : items a = y.1 := by unfold items; rw [ha]; rfl
    rw [e1, e2]
    rw [e2] at hl
    rw [← hl, List.drop_left]

theorem items_snoc {a : List Op} {op : Op} (h : fine (a ++ [op]) = true) :
    items (a ++ [op]) = items a ++ [nextItem a op] ∧ final (a ++ [op]) = (nextItem a op).post := by
  obtain ⟨h1, h2⟩ := Bool.and_eq_true_iff.mp (show ((logOf xorEnv .boot (a ++ [op])).isSome && _) = true from h)
  obtain ⟨x, hx⟩ := Option.isSome_iff_exists.mp h1
  have hx' := hx
  rw [logOf_append] at hx'
  cases ha : logOf xorEnv .boot a with
  | none => rw [ha] at hx'; simp at hx'
  | some y =>
    rw [ha] at hx'
    simp only [Option.bind_some, Option.map_eq_some_iff] at hx'
    obtain ⟨z, hz, e⟩ := hx'
    have e2 : items a = y.1 := by unfold items; rw [ha]; rfl
    have e3 : final a = y.2 := by unfold final; rw [ha]; rfl
    unfold nextItem
    rw [e3]
    simp only [logOf] at hz
    cases hs : step xorEnv y.2 op with
    | error u => rw [hs] at hz; simp at hz
    | ok w =>
      obtain ⟨r, s1, ev⟩ := w
      rw [hs] at hz
      simp only [Option.some.injEq] at hz
      refine ⟨?_, ?_⟩
      · rw [e2]; unfold items; rw [hx, ← e, ← hz]; rfl
      · unfold final; rw [hx, ← e, ← hz]; rfl

theorem nextItem_op (ops : List Op) (op : Op) : (nextItem ops op).op = op := by
  unfold nextItem; split <;> rfl

/-- A concrete history with two items picked out. -/
theorem two {a b : List Op} {op1 op2 : Op} (h : fine (a ++ [op1] ++ b ++ [op2]) = true) :
    Hist xorEnv (items a ++ [nextItem a op1] ++ (items (a ++ [op1] ++ b)).drop (a.length + 1) ++ [nextItem (a ++ [op1] ++ b) op2])
      (nextItem (a ++ [op1] ++ b) op2).post := by
  have h1 := hist h
  rw [(items_snoc h).1, (items_snoc h).2, items_append (fine_left h), (items_snoc (fine_left (fine_left h))).1] at h1
  simpa using h1

end Uwan.Demo
