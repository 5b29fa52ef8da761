import Verif.Lemmas.Sx127x
import Verif.Lemmas.Device

/-! # Driver programs that do not call the event handler -/

namespace Uwan
open Spec Prog

/-- The program never calls the event handler. -/
def Prog.Silent {α : Type} : Prog α → Prop
  | .ret _ => True
  | .call c k => (∀ m, c ≠ .handler m) ∧ ∀ r, (k r).Silent
  | .poll k => k.Silent
  | .fail _ => True

theorem silent_exec {α : Type} {p : Prog α} {tr : Trace} {a : α} (e : Exec p tr a) (h : p.Silent) : handled tr = [] := by
  induction e with
  | ret a => rfl
  | @call c k r tr a _ ih =>
    have := ih (h.2 r)
    unfold handled at this ⊢
    rw [List.filterMap_cons]
    split
    · exact this
    · rename_i m hm
      cases c <;> simp at hm
      rename_i m'
      exact (h.1 m' rfl).elim
  | @busy k r tr a _ _ ih => exact ih h
  | @ready k tr a _ ih => exact ih h

theorem silent_bind {α β : Type} {p : Prog α} {f : α → Prog β} (h : p.Silent) (k : ∀ a, (f a).Silent) : (p.bind f).Silent := by
  induction p with
  | ret a => exact k a
  | call c q ih => exact ⟨h.1, fun r => ih r (h.2 r)⟩
  | poll q ih => exact ih h
  | fail u => exact trivial

theorem silent_pure {α : Type} (a : α) : (pure a : Prog α).Silent := trivial
theorem silent_fail {α : Type} (u : UB) : (.fail u : Prog α).Silent := trivial

theorem silent_bind' {α β : Type} {p : Prog α} {f : α → Prog β} (h : p.Silent) (k : ∀ a, (f a).Silent) : (p >>= f).Silent := silent_bind h k

theorem silent_do {c : Call} (h : ∀ m, c ≠ .handler m) : (do_ c).Silent := ⟨h, fun _ => trivial⟩
theorem silent_act {c : Call} (h : ∀ m, c ≠ .handler m) : (act c).Silent := ⟨h, fun _ => trivial⟩

theorem silent_opt {b : Bool} {c : Call} (h : ∀ m, c ≠ .handler m) : (Prog.opt b c).Silent := by
  cases b
  · exact trivial
  · exact silent_do h

theorem silent_xfers : ∀ bs : Bytes, (xfers bs).Silent
  | [] => trivial
  | _ :: bs => silent_bind (silent_act (by simp)) fun _ => silent_bind (silent_xfers bs) fun _ => trivial

theorem silent_frame (bs : Bytes) : (frame bs).Silent :=
  silent_bind (silent_do (by simp)) fun _ => silent_bind (silent_xfers _) fun _ => silent_bind (silent_do (by simp)) fun _ => trivial

namespace Sx127x

theorem silent_writeReg (a d : Byte) : (writeReg a d).Silent := silent_bind' (silent_frame _) fun _ => trivial
theorem silent_writeRegs (a : Byte) (d : Bytes) : (writeRegs a d).Silent := silent_bind' (silent_frame _) fun _ => trivial
theorem silent_readReg (a : Byte) : (readReg a).Silent := silent_bind' (silent_frame _) fun m => by
  split <;> trivial
theorem silent_setOpMode (a : Byte) : (setOpMode a).Silent :=
  silent_bind' (silent_readReg _) fun _ => silent_writeReg _ _

theorem silent_calLoop : ∀ n, (calLoop n).Silent
  | 0 => trivial
  | n + 1 => silent_bind' (silent_do (by simp)) fun _ => silent_bind' (silent_readReg _) fun v => by
    split
    · exact silent_calLoop n
    · trivial

theorem silent_readLoop : ∀ n i buf, (readLoop n i buf).Silent
  | 0, _, _ => trivial
  | n + 1, i, buf => silent_bind' (silent_act (by simp)) fun v => silent_bind' (by unfold store; split <;> trivial) fun b => silent_readLoop n (i + 1) b

theorem silent_randLoop : ∀ n i x ub, (randLoop n i x ub).Silent
  | 0, _, _, _ => trivial
  | n + 1, i, x, ub => silent_bind' (silent_do (by simp)) fun _ => silent_bind' (silent_readReg _) fun _ => silent_randLoop n (i + 1) _ _

/-- Go through a program. -/
macro "silent" : tactic => `(tactic| repeat' first
  | with_reducible exact silent_pure _ | with_reducible exact silent_fail _ | with_reducible exact silent_writeReg _ _ | with_reducible exact silent_writeRegs _ _ | with_reducible exact silent_readReg _ | with_reducible exact silent_setOpMode _
  | with_reducible exact silent_calLoop _ | with_reducible exact silent_readLoop _ _ _ | with_reducible exact silent_randLoop _ _ _ _ | with_reducible exact silent_opt (by simp) | with_reducible exact silent_do (by simp)
  | (with_reducible apply silent_bind'; rotate_left; intro _; rotate_left) | split | dsimp only)

theorem silent_step {s : St} {op : DOp} (ho : op ≠ .irqHandler) : (step s op).Silent := by
  cases op with
  | irqHandler => exact (ho rfl).elim
  | init hal o =>
    cases hal with
    | none => trivial
    | some hal => unfold step init rxCalibration setFreq setPublicNetwork; silent
  | setEvtHandler b => trivial
  | setPower p => unfold step; dsimp only; unfold setPower; silent
  | sleep => unfold step; dsimp only; unfold sleep; silent
  | setFrequency f => unfold step; dsimp only; unfold setFreq; silent
  | setPublicNetwork b => unfold step; dsimp only; unfold setPublicNetwork; silent
  | setup p => unfold step; dsimp only; unfold setup setModemConf1 setModemConf2 setModemConf3 setInvertedIq; silent
  | tx buf => unfold step; dsimp only; unfold tx; silent
  | rx a b c => unfold step; dsimp only; unfold rx; silent
  | readPacket buf => unfold step; dsimp only; unfold readPacket readArray; silent
  | rand => unfold step; dsimp only; unfold rand; silent

end Sx127x
end Uwan
