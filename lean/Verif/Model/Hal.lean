import Verif.Model.Types

/-!
# Radio drivers as programs over the radio HAL

The drivers in `src/device` reach the chip only through `struct radio_hal`
(include/uwan/stack.h:124-133).  A driver function is a tree of HAL calls: after each call it goes on
with the byte the call returned.  The chip is not part of the model: any byte may come back from
any transfer, so a statement about all executions of a program covers every chip behaviour.
-/

namespace Uwan

/-- One call of a `struct radio_hal` member (include/uwan/stack.h:124-133), or of the event handler
the stack registered with `set_evt_handler`. -/
inductive Call where
  | select (enable : Bool)
  | xfer (b : Byte)
  | reset (enable : Bool)
  | delay (us : Nat)
  | isBusy
  | ioInit
  | ioDeinit
  | antSw (isRx : Bool)
  /-- `user_evt_handler(mask)` -/
  | handler (mask : Byte)
  deriving DecidableEq, Repr

/-- Which optional members of `struct radio_hal` are non-null.  The other members are assumed to be
present (`is_busy` only matters to the SX126x). -/
structure Hal where
  ioInit : Bool
  ioDeinit : Bool
  antSw : Bool
  deriving DecidableEq, Repr

/-- A driver program: it returns, or makes a call and goes on with the byte that came back
(meaningful for `xfer` only), or polls `is_busy` until it returns false and goes on, or does
something undefined. -/
inductive Prog (α : Type) where
  | ret (a : α)
  | call (c : Call) (k : Byte → Prog α)
  | poll (k : Prog α)
  | fail (u : UB)

namespace Prog

/-- Sequential composition. -/
def bind {α β : Type} : Prog α → (α → Prog β) → Prog β
  | .ret a, f => f a
  | .call c k, f => .call c fun r => (k r).bind f
  | .poll k, f => .poll (k.bind f)
  | .fail u, _ => .fail u

instance : Monad Prog where
  pure := .ret
  bind := bind

/-- Make one HAL call. -/
def act (c : Call) : Prog Byte := .call c .ret

/-- Make one HAL call and ignore what it returns. -/
def do_ (c : Call) : Prog Unit := .call c fun _ => .ret ()

/-- `while (hal->is_busy());` (src/device/sx126x.c:97-100). -/
def waitBusy : Prog Unit := .poll (.ret ())

/-- A call through an optional HAL member: `if (hal->m) hal->m(...)`. -/
def opt (present : Bool) (c : Call) : Prog Unit := if present then do_ c else .ret ()

/-- Transfer the bytes of a list, collecting what comes back: the `for` loops around `hal->spi_xfer`. -/
def xfers : Bytes → Prog Bytes
  | [] => .ret []
  | b :: bs => (act (.xfer b)).bind fun r => (xfers bs).bind fun rs => .ret (r :: rs)

/-- One chip-select frame: `select(true)`, the bytes, `select(false)`; what came back. -/
def frame (mosi : Bytes) : Prog Bytes :=
  (do_ (.select true)).bind fun _ => (xfers mosi).bind fun miso => (do_ (.select false)).bind fun _ => .ret miso

end Prog

/-- A finished execution: the calls made with the bytes that came back, in order. -/
abbrev Trace := List (Call × Byte)

/-- `Exec p tr a`: some chip makes `p` perform exactly the calls `tr` and return `a`.  A busy poll may
see the chip busy any finite number of times. -/
inductive Exec {α : Type} : Prog α → Trace → α → Prop where
  | ret (a : α) : Exec (.ret a) [] a
  | call {c : Call} {k : Byte → Prog α} {r : Byte} {tr : Trace} {a : α} :
      Exec (k r) tr a → Exec (.call c k) ((c, r) :: tr) a
  | busy {k : Prog α} {r : Byte} {tr : Trace} {a : α} :
      r ≠ 0 → Exec (.poll k) tr a → Exec (.poll k) ((.isBusy, r) :: tr) a
  | ready {k : Prog α} {tr : Trace} {a : α} :
      Exec k tr a → Exec (.poll k) ((.isBusy, 0) :: tr) a

/-- No execution of the program reaches undefined behaviour. -/
def Prog.Safe {α : Type} : Prog α → Prop
  | .ret _ => True
  | .call _ k => ∀ r, (k r).Safe
  | .poll k => k.Safe
  | .fail _ => False

/-- The program never polls `is_busy`. -/
def Prog.NoPoll {α : Type} : Prog α → Prop
  | .ret _ => True
  | .call _ k => ∀ r, (k r).NoPoll
  | .poll _ => False
  | .fail _ => True

/-- Run a program against a chip given as a state machine that answers every transfer and is never
busy; `none` on undefined behaviour.  Used for concrete examples. -/
def Prog.play {α σ : Type} (chip : σ → Call → Byte × σ) : σ → Prog α → Option (Trace × α × σ)
  | s, .ret a => some ([], a, s)
  | s, .call c k =>
    match (k (chip s c).1).play chip (chip s c).2 with
    | some (tr, a, s') => some ((c, (chip s c).1) :: tr, a, s')
    | none => none
  | s, .poll k =>
    match k.play chip s with
    | some (tr, a, s') => some ((.isBusy, 0) :: tr, a, s')
    | none => none
  | _, .fail _ => none

/-- A chip that answers transfers with the bytes of a list, then with zeros. -/
def scripted : Bytes → Call → Byte × Bytes
  | b :: bs, .xfer _ => (b, bs)
  | s, _ => (0, s)

theorem Prog.play_exec {α σ : Type} (chip : σ → Call → Byte × σ) :
    ∀ (p : Prog α) (s : σ) {tr a s'}, p.play chip s = some (tr, a, s') → Exec p tr a
  | .ret b, s, tr, a, s', h => by
    simp only [Prog.play, Option.some.injEq, Prod.mk.injEq] at h
    obtain ⟨rfl, rfl, _⟩ := h
    exact .ret _
  | .call c k, s, tr, a, s', h => by
    simp only [Prog.play] at h
    split at h
    · rename_i tr' a' s'' e
      simp only [Option.some.injEq, Prod.mk.injEq] at h
      obtain ⟨rfl, rfl, _⟩ := h
      exact .call (play_exec chip _ _ e)
    · exact nomatch h
  | .poll k, s, tr, a, s', h => by
    simp only [Prog.play] at h
    split at h
    · rename_i tr' a' s'' e
      simp only [Option.some.injEq, Prod.mk.injEq] at h
      obtain ⟨rfl, rfl, _⟩ := h
      exact .ready (play_exec chip _ _ e)
    · exact nomatch h
  | .fail u, s, tr, a, s', h => by simp [Prog.play] at h

end Uwan
