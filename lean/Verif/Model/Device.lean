import Verif.Model.History
import Verif.Model.Driver

/-!
# The stack on top of a radio driver

`uwan_init` is given a `struct radio_dev` (src/stack.c:513-534); from then on the stack reaches the radio only through its members, and
the driver reaches the stack only through the event handler, as the last action of `irq_handler`
(src/device/sx127x.c:449-450, src/device/sx126x.c:513-514).  Here both run together, on any chip.
-/

namespace Uwan

/-- The call of a `struct radio_dev` member behind an effect of the stack; `frame` is `uw_frame`, which `handle_downlink` hands to
`read_packet` with its full size (src/stack.c:422-426). -/
def Ev.dop (frame : Bytes) : Ev → Option DOp
  | .setEvtHandler => some (.setEvtHandler true)
  | .radioRand => some .rand
  | .setFrequency f => some (.setFrequency f)
  | .setup p => some (.setup p)
  | .setPower p => some (.setPower p)
  | .tx d => some (.tx d)
  | .rx len symb tmo => some (.rx (BitVec.ofNat 8 len) (BitVec.ofNat 16 symb) (BitVec.ofNat 32 tmo))
  | .readPacket => some (.readPacket frame)
  | .sleep => some .sleep
  | _ => none

/-- Driver calls one after the other. -/
inductive Runs {σ : Type} (step : σ → DOp → Prog (DRet × σ)) : σ → List DOp → List DItem → σ → Prop where
  | nil {d : σ} : Runs step d [] [] d
  | cons {d d' d'' : σ} {op : DOp} {ops : List DOp} {tr : Trace} {r : DRet} {l : List DItem} :
      Exec (step d op) tr (r, d') → Runs step d' ops l d'' → Runs step d (op :: ops) (⟨op, tr, r⟩ :: l) d''

/-- The packet the driver handed out is the one the stack saw. -/
def DItem.shows (x : DItem) (o : Oracle) : Prop :=
  match x.ret with
  | .pkt p => o.rxData = p.buf.take p.size ∧ o.rssi = p.rssi ∧ o.snr = p.snr
  | _ => True

/-- One thing that happens to the device: what the stack did, if it was involved, and the driver calls made. -/
structure Entry where
  item : Option Item
  calls : List DItem

/-- The stack's side of a device history. -/
def items (log : List Entry) : List Item := log.filterMap Entry.item

/-- The driver's side of a device history. -/
def calls (log : List Entry) : List DItem := log.flatMap Entry.calls

/-- The driver calls an application makes itself: it initialises the radio and may choose the sync word
(include/uwan/stack.h:160-173; `uwan_init` does neither). -/
def DOp.direct : DOp → Bool
  | .init _ _ => true
  | .setPublicNetwork _ => true
  | _ => false

/-- Not a radio event. -/
def Op.isCall : Op → Bool
  | .event _ _ => false
  | _ => true

/-- The events passed to the registered handler in a trace. -/
def handled (tr : Trace) : List Byte := tr.filterMap fun x => match x.1 with | .handler m => some m | _ => none

/-- `Device E step z log s d`: the history `log` of stack and driver leads from power-on to the stack state `s` and the driver
state `d`; `z` is the driver's static storage. -/
inductive Device (E : Env) {σ : Type} (dstep : σ → DOp → Prog (DRet × σ)) (z : σ) : List Entry → St → σ → Prop where
  | boot : Device E dstep z [] .boot z
  /-- the application calls the driver -/
  | direct {log : List Entry} {s : St} {d d' : σ} {op : DOp} {tr : Trace} {r : DRet} :
      Device E dstep z log s d → op.direct = true → Exec (dstep d op) tr (r, d') →
      Device E dstep z (log ++ [⟨none, [⟨op, tr, r⟩]⟩]) s d'
  /-- the application calls the stack, or a timer expires -/
  | call {log : List Entry} {s s' : St} {d d' : σ} {op : Op} {r : Ret} {ev : List Ev} {l : List DItem} :
      Device E dstep z log s d → op.isCall = true → op.Valid → step E s op = .ok (r, s', ev) →
      Runs dstep d (ev.filterMap (Ev.dop s.frame)) l d' →
      Device E dstep z (log ++ [⟨some ⟨s, op, r, ev, s'⟩, l⟩]) s' d'
  /-- an interrupt of the chip before the stack has registered its handler -/
  | ignored {log : List Entry} {s : St} {d d' : σ} {tr : Trace} {r : DRet} :
      Device E dstep z log s d → Exec (dstep d .irqHandler) tr (r, d') → handled tr = [] →
      Device E dstep z (log ++ [⟨none, [⟨.irqHandler, tr, r⟩]⟩]) s d'
  /-- an interrupt of the chip -/
  | irq {log : List Entry} {s s' : St} {d d1 d' : σ} {tr : Trace} {r : DRet} {m : Byte} {o : Oracle} {u : Ret} {ev : List Ev}
      {l : List DItem} :
      Device E dstep z log s d → Exec (dstep d .irqHandler) tr (r, d1) → handled tr = [m] →
      step E s (.event m o) = .ok (u, s', ev) → Runs dstep d1 (ev.filterMap (Ev.dop s.frame)) l d' → (∀ x ∈ l, x.shows o) →
      Device E dstep z (log ++ [⟨some ⟨s, .event m o, u, ev, s'⟩, ⟨.irqHandler, tr, r⟩ :: l⟩]) s' d'

end Uwan
