import Verif.Model.Sx126x

/-!
# The two radio drivers behind `struct radio_dev`

Every entry of `struct radio_dev` (include/uwan/stack.h:160-173) as one operation, for both
drivers, and finite sequences of such operations.  The event handler called by `irq_handler` runs as
the last action of that function, so driver calls it makes appear in the sequence after it.
-/

namespace Uwan

/-- One call of a `struct radio_dev` member with its arguments (include/uwan/stack.h:160-173). -/
inductive DOp where
  /-- `init(hal, opts)`; `none` is a null pointer.  The SX127x ignores `opts`. -/
  | init (hal : Option Hal) (opts : Option Sx126x.Opts)
  | sleep
  | setFrequency (f : U32)
  | setPower (p : BitVec 8)
  | setPublicNetwork (isPublic : Bool)
  | setup (p : PktParams)
  | tx (buf : Bytes)
  | rx (len : Byte) (symbTimeout : U16) (timeout : U32)
  /-- `buf` is the caller's array of `pkt->size` bytes -/
  | readPacket (buf : Bytes)
  | rand
  | irqHandler
  /-- `set_evt_handler(handler)`, with whether the pointer is non-null -/
  | setEvtHandler (present : Bool)
  deriving Repr

/-- `tx` and `read_packet` take their length in a `uint8_t`. -/
def DOp.Valid : DOp → Prop
  | .tx buf => buf.length ≤ 255
  | .readPacket buf => buf.length ≤ 255
  | _ => True

/-- What a call returns. -/
inductive DRet where
  | unit
  | bool (b : Bool)
  /-- `rand()`: the number, and whether a signed shift overflowed on the way -/
  | rand (v : U32) (ub : Bool)
  | mask (b : Byte)
  | pkt (p : Sx127x.PktOut)
  deriving DecidableEq, Repr

namespace Sx127x

/-- The members of `sx127x_dev` (src/device/sx127x.c:74-87,455-458).  Using a null `hal` is
undefined. -/
def step (s : St) : DOp → Prog (DRet × St)
  | .init none _ => .fail .nullDeref
  | .init (some h) _ => do
    let ok ← init h
    pure (.bool ok, { s with hal := some h })
  | .setEvtHandler b => pure (.unit, { s with handler := b })
  | .setPower p =>
    match s.hal with
    | some _ => do
      let (ok, off) ← setPower p s.rssiOffset
      pure (.bool ok, { s with rssiOffset := off })
    | none => if p.toInt < -4 ∨ p.toInt > 17 then pure (.bool false, s) else .fail .nullDeref
  | op =>
    match s.hal with
    | none => .fail .nullDeref
    | some h =>
      match op with
      | .sleep => do sleep h; pure (.unit, s)
      | .setFrequency f => do setFreq f; pure (.unit, s)
      | .setPublicNetwork b => do setPublicNetwork b; pure (.unit, s)
      | .setup p => do setup h p; pure (.unit, s)
      | .tx buf => do tx h buf; pure (.unit, s)
      | .rx len symb tmo => do rx h len symb tmo; pure (.unit, s)
      | .readPacket buf => do let p ← readPacket s.rssiOffset buf; pure (.pkt p, s)
      | .rand => do let r ← rand; pure (.rand r.1 r.2, s)
      | .irqHandler => do let b ← irqHandler s.handler; pure (.mask b, s)
      | _ => pure (.unit, s)

end Sx127x

namespace Sx126x

/-- Run a driver function from the current value of `is_sleep`. -/
def with_ {α : Type} (s : St) (d : Drv α) (f : α → DRet) : Prog (DRet × St) := do
  let (a, sleeping) ← d s.isSleep
  pure (f a, { s with isSleep := sleeping })

/-- The members of `sx126x_dev` (src/device/sx126x.c:56-69,264-270,519-522).  Using a null `hal` or
`dev_opts` is undefined. -/
def step (s : St) : DOp → Prog (DRet × St)
  | .init (some h) (some o) => with_ { s with hal := some h, opts := some o } (init h o) .bool
  | .init h o => pure (.bool false, { s with hal := h, opts := o })
  | .setEvtHandler b => pure (.unit, { s with handler := b })
  | .setPower p =>
    match s.opts, s.hal with
    | some o, some _ => with_ s (setPower o p) .bool
    | some o, none =>
      if o.isHp = false then if p.toInt > 15 ∨ p.toInt < -17 then pure (.bool false, s) else .fail .nullDeref
      else if p.toInt > 22 ∨ p.toInt < -9 then pure (.bool false, s) else .fail .nullDeref
    | none, _ => .fail .nullDeref
  | op =>
    match s.hal with
    | none => .fail .nullDeref
    | some h =>
      match op with
      | .sleep => with_ s (sleep h) fun _ => .unit
      | .setFrequency f => with_ s (setFreq f) fun _ => .unit
      | .setPublicNetwork b => with_ s (setPublicNetwork b) fun _ => .unit
      | .setup p => with_ { s with pkt := p } (setup h p) fun _ => .unit
      | .tx buf => with_ s (tx h s.pkt buf) fun _ => .unit
      | .rx len symb tmo => with_ s (rx h s.pkt len symb tmo) fun _ => .unit
      | .readPacket buf => with_ s (readPacket buf) .pkt
      | .rand => with_ s (rand h s.pkt) fun v => .rand v false
      | .irqHandler => with_ s (irqHandler s.handler) .mask
      | _ => pure (.unit, s)

end Sx126x

/-- One finished driver call. -/
structure DItem where
  op : DOp
  tr : Trace
  ret : DRet

/-- `Calls step z log s`: starting from static storage `z`, the finished calls `log` lead to the
driver state `s`. -/
inductive Calls {σ : Type} (step : σ → DOp → Prog (DRet × σ)) (z : σ) : List DItem → σ → Prop where
  | nil : Calls step z [] z
  | snoc {log : List DItem} {s s' : σ} {op : DOp} {tr : Trace} {r : DRet} :
      Calls step z log s → op.Valid → Exec (step s op) tr (r, s') →
      Calls step z (log ++ [⟨op, tr, r⟩]) s'

/-- Everything that happened on the HAL during a sequence of calls. -/
def wire (log : List DItem) : Trace := log.flatMap DItem.tr

end Uwan
