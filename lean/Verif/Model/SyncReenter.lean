import Verif.Model.ClockSync

/-!
# Calls made from inside the callbacks of the clock synchronisation package

`Model/ClockSync` takes these callbacks to return without calling the library, and the packet to be a list of bytes. Here an
application may send from inside them. `uwan_clock_sync_handle_time_answ` is called from inside `downlink_callback`: the packet
is a part of `uw_frame`, the buffer in which `uwan_send_frame` and `uwan_join` build their frames, so every byte is read from the frame
buffer as it is at that moment. Not modelled: `uwan_clock_sync_init` and `uwan_clock_sync_handle_time_answ` from inside these
callbacks, and radio events raised inside them.
-/

namespace Uwan

/-- The operations an application may call inside: everything of the stack but radio and timer events; requests and answers of the
package. -/
def SOp.inCall : SOp → Bool
  | .stack (.event ..) => false
  | .stack (.timer _) => false
  | .stack _ => true
  | .csInit _ => false
  | .csHandle .. => false
  | .csTimeReq .. => true
  | .csIsPending => true
  | .csSendAnsw _ => true

/-- What the application calls inside `set_clock_correction`, `handle_app_time_periodicity_req`, `get_unixtime` and
`force_device_resync_req` while one packet is handled. Each of them is called at most once (src/ext/clock_sync.c:110-113). -/
structure SyncInside where
  correction : List SOp
  period : List SOp
  time : List SOp
  resync : List SOp

/-- No calls. -/
def SyncInside.none : SyncInside := ⟨[], [], [], []⟩

/-- Some operations in a row. -/
def sysRun (E : Env) (s : Sys) : List SOp → Except UB (Sys × List SEv)
  | [] => .ok (s, [])
  | op :: ops => do
    let (_, s, ev) ← sysStep E s op
    let (s, ev') ← sysRun E s ops
    .ok (s, ev ++ ev')

/-- src/ext/clock_sync.c:145-151: see `csPeriod`. -/
def csPeriodR (E : Env) (A : SyncInside) (cb : CsCbs) (p : Byte) (s : Sys) :
    Except UB (Byte × Sys × List (CsEv × List SEv)) :=
  if cb.period then do
    let sec ← periodOf p
    let (s, ev) ← sysRun E s A.period
    .ok (0, s, [(.period sec, ev)])
  else .ok (1, s, [])

/-- src/ext/clock_sync.c:115-168, one round of the `switch`: see `csCmd`. The packet begins at `uw_frame + base`. Each call of the
package comes with what happens inside it. `ans_buf` is not read by calls inside, as `ans_pending` is false. -/
def csCmdR (E : Env) (A : SyncInside) (cb : CsCbs) (base : Nat) (size : Byte) (unix : U32) (cmd : Byte) (off : Nat) (s : Sys)
    (out : Bytes) : Except UB (Nat × Sys × Bytes × List (CsEv × List SEv)) :=
  if cmd = 0x0 then do
    let out ← csPush out [0x0, 1, 1]
    .ok (off, s, out, [])
  else if cmd = 0x1 then
    if size.toNat < off + 5 then .ok (off, s, out, [])
    else do
      let a ← orOob s.stack.frame[base + off]?
      let b ← orOob s.stack.frame[base + (off + 1)]?
      let d ← orOob s.stack.frame[base + (off + 2)]?
      let e ← orOob s.stack.frame[base + (off + 3)]?
      let t ← orOob s.stack.frame[base + (off + 4)]?
      let mark := if 128 ≤ e.toNat then [(CsEv.ubShift, [])] else []
      if t &&& 0xf = s.cs.token then do
        let (s, ev) ← sysRun E s A.correction
        .ok (off + 5, { s with cs := { s.cs with token := (s.cs.token + 1) &&& 0xf } }, out,
          mark ++ [(.correction (or32 a b d e), ev)])
      else .ok (off + 5, s, out, mark)
  else if cmd = 0x2 then
    if size.toNat < off + 1 then .ok (off, s, out, [])
    else do
      let p ← orOob s.stack.frame[base + off]?
      let (st, s, ev) ← csPeriodR E A cb p s
      let (s, evt) ← sysRun E s A.time
      let out ← csPush out ([0x2, st] ++ gpsBytes unix)
      .ok (off + 1, s, out, ev ++ [(.getTime, evt)])
  else if cmd = 0x3 then do
    let b ← orOob s.stack.frame[base + off]?
    let n := b &&& 0x7
    let s := { s with cs := { s.cs with nbRep := n } }
    if n ≠ 0 then do
      let (s, ev) ← sysRun E s A.resync
      .ok ((off + 1) % 256, s, out, [(.resync, ev)])
    else .ok ((off + 1) % 256, s, out, [])
  else .ok (off, s, out, [])

/-- src/ext/clock_sync.c:105-169, the loop of `handle_answ`: see `csLoop`. -/
def csLoopR (E : Env) (A : SyncInside) (cb : CsCbs) (base : Nat) (size : Byte) (unix : U32) :
    Nat → Nat → Byte → Sys → Bytes → Except UB (Sys × Bytes × List (CsEv × List SEv))
  | 0, off, _, s, out => if off < size.toNat then .error .diverge else .ok (s, out, [])
  | n + 1, off, mask, s, out =>
    if off < size.toNat then do
      let cmd ← orOob s.stack.frame[base + off]?
      if 31 ≤ cmd.toNat then .error .arith
      else
        let m : Byte := BitVec.ofNat 8 (2 ^ cmd.toNat)
        if mask &&& m ≠ 0 then .ok (s, out, [])
        else do
          let (off, s, out, ev) ← csCmdR E A cb base size unix cmd (off + 1) s out
          let (s, out, ev') ← csLoopR E A cb base size unix n off (mask ||| m) s out
          .ok (s, out, ev ++ ev')
    else .ok (s, out, [])

/-- src/ext/clock_sync.c:93-173 `handle_answ`. -/
def handleAnswR (E : Env) (A : SyncInside) (s : Sys) (base : Nat) (size : Byte) (unix : U32) :
    Except UB (Sys × List (CsEv × List SEv)) :=
  match s.cs.cbs with
  | none => .ok (s, [])
  | some cb => do
    let (s, out, ev) ← csLoopR E A cb base size unix 512 0 0 s []
    .ok ({ s with cs := { s.cs with ans := out, ansPending := !out.isEmpty } }, ev)

/-- src/ext/clock_sync.c:184-201 `uwan_clock_sync_handle_time_answ` with a packet of `size` bytes at `uw_frame + base`. -/
def csHandleR (E : Env) (A : SyncInside) (s : Sys) (err : Err) (port : Byte) (base : Nat) (size : Byte) (unix : U32) :
    Except UB (Sys × List (CsEv × List SEv)) :=
  if err ≠ .no then .ok (s, [])
  else
    let s := { s with cs := { s.cs with reqPending := false, ansPending := false } }
    if size ≠ 0 ∧ port = 202 then handleAnswR E A s base size unix else .ok (s, [])

end Uwan
