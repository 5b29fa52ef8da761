import Verif.Model.ClockSync
import Verif.Tests.Demo

/-! Replay of tests/test_ext_clock_sync.c:56-115. -/

namespace Uwan.Tests

def cs0 : Cs := csInit .boot (some ⟨true⟩)
example : cs0.ansPending = false := by decide +kernel
example : ((csTimeReq cs0 true 1722419302).toOption.bind (·.2)) = some [1, 0xf8, 0xca, 0xd4, 0x53, 0x10] := by decide +kernel
def csPld : Bytes := [0, 1, 0xfe, 0xff, 0xff, 0xff, 0x00, 2, 1, 3, 3]
def csRes : Cs × List CsEv := match csHandle cs0 .no 202 csPld 11 1722419302 with | .ok x => x | .error _ => (.boot, [])
example : csRes.2 = [.ubShift, .correction (BitVec.ofInt 32 (-2)), .period 256, .getTime, .resync] := by decide +kernel
example : csRes.1.ansPending = true ∧ csRes.1.ans = [0, 1, 1, 2, 0, 0xf8, 0xca, 0xd4, 0x53] := by decide +kernel
example : csRes.1.token = 1 ∧ csRes.1.nbRep = 3 := by decide +kernel

end Uwan.Tests

namespace Uwan.SDemo

/-- The log of a list of operations, and the state they lead to. -/
def runLog (s : Sys) : List SOp → Option (List SItem × Sys)
  | [] => some ([], s)
  | op :: ops =>
    match sysStep Tests.xorEnv s op with
    | .ok (r, s', ev) =>
      match runLog s' ops with
      | some (l, s'') => some (⟨s, op, r, ev, s'⟩ :: l, s'')
      | none => none
    | .error _ => none

def items (ops : List SOp) : List SItem := ((runLog ⟨.boot, .boot⟩ ops).map (·.1)).getD []
def final (ops : List SOp) : Sys := ((runLog ⟨.boot, .boot⟩ ops).map (·.2)).getD ⟨.boot, .boot⟩
def fine (ops : List SOp) : Bool := (runLog ⟨.boot, .boot⟩ ops).isSome && ops.all fun o => decide o.Valid

theorem runLog_hist : ∀ (ops : List SOp) (l0 : List SItem) (s s' : Sys) (l : List SItem), SHist Tests.xorEnv l0 s → (∀ o ∈ ops, o.Valid) →
    runLog s ops = some (l, s') → SHist Tests.xorEnv (l0 ++ l) s'
  | [], l0, s, s', l, h, _, hr => by
    simp only [runLog, Option.some.injEq, Prod.mk.injEq] at hr
    obtain ⟨rfl, rfl⟩ := hr
    rwa [List.append_nil]
  | op :: ops, l0, s, s', l, h, hv, hr => by
    simp only [runLog] at hr
    split at hr
    · next r s1 ev hs =>
      split at hr
      · next l' s2 hl =>
        simp only [Option.some.injEq, Prod.mk.injEq] at hr
        obtain ⟨rfl, rfl⟩ := hr
        have := runLog_hist ops _ _ _ _ (h.snoc (hv op List.mem_cons_self) hs) (fun o ho => hv o (List.mem_cons_of_mem _ ho)) hl
        simpa using this
      · simp at hr
    · simp at hr

theorem hist {ops : List SOp} (h : fine ops = true) : SHist Tests.xorEnv (items ops) (final ops) := by
  unfold fine at h
  obtain ⟨h1, h2⟩ := Bool.and_eq_true_iff.mp h
  obtain ⟨x, hx⟩ := Option.isSome_iff_exists.mp h1
  unfold items final
  rw [hx]
  exact runLog_hist ops [] _ _ _ .nil (fun o ho => of_decide_eq_true (List.all_eq_true.mp h2 o ho)) hx

theorem runLog_ops : ∀ (ops : List SOp) (s s' : Sys) (l : List SItem), runLog s ops = some (l, s') → l.map SItem.op = ops
  | [], s, s', l, hr => by
    simp only [runLog, Option.some.injEq, Prod.mk.injEq] at hr
    rw [← hr.1]; rfl
  | op :: ops, s, s', l, hr => by
    simp only [runLog] at hr
    split at hr
    · split at hr
      · next l' s2 hl =>
        simp only [Option.some.injEq, Prod.mk.injEq] at hr
        rw [← hr.1, List.map_cons, runLog_ops ops _ _ _ hl]
      · simp at hr
    · simp at hr

theorem items_ops {ops : List SOp} (h : fine ops = true) : (items ops).map SItem.op = ops := by
  obtain ⟨x, hx⟩ := Option.isSome_iff_exists.mp (Bool.and_eq_true_iff.mp h).1
  unfold items
  rw [hx]
  exact runLog_ops ops _ _ _ hx

/-- The item of one more operation. -/
def nextItem (ops : List SOp) (op : SOp) : SItem :=
  match sysStep Tests.xorEnv (final ops) op with
  | .ok (r, s', ev) => ⟨final ops, op, r, ev, s'⟩
  | .error _ => ⟨final ops, op, .unit, [], final ops⟩

theorem next {ops : List SOp} {op : SOp} (h : fine ops = true) (hv : op.Valid)
    (hs : (match sysStep Tests.xorEnv (final ops) op with | .ok _ => true | .error _ => false) = true) :
    SHist Tests.xorEnv (items ops ++ [nextItem ops op]) (nextItem ops op).post ∧ (nextItem ops op).op = op := by
  unfold nextItem
  cases hx : sysStep Tests.xorEnv (final ops) op with
  | error u => rw [hx] at hs; simp at hs
  | ok x =>
    obtain ⟨r, s', ev⟩ := x
    exact ⟨(hist h).snoc hv hx, rfl⟩

end Uwan.SDemo
