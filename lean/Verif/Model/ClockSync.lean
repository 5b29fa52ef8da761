import Verif.Model.History

/-!
# Model of `src/ext/clock_sync.c` and of the stack together with it

The three callbacks documented as required (include/uwan/ext/clock_sync.h:33-37) are taken to be present in a registered
callback structure. They do not call back into the library.
-/

namespace Uwan

/-- include/uwan/ext/clock_sync.h:32-37 `struct uwan_clock_sync_callbacks`: whether the optional callback
`handle_app_time_periodicity_req` is present. -/
structure CsCbs where
  period : Bool
  deriving DecidableEq, Repr

/-- The static variables of src/ext/clock_sync.c:51-58. `adr_enabled_prev` and `nb_trans_prev` (48-49) are never used. `ans`
is `ans_buf[0..ans_buf_data_size)`; the bytes of `ans_buf` behind it are never read. -/
structure Cs where
  cbs : Option CsCbs
  reqPending : Bool
  token : Byte
  ans : Bytes
  ansPending : Bool
  nbRep : Byte
  deriving DecidableEq, Repr

/-- The initial values. -/
def Cs.boot : Cs := ⟨none, false, 0, [], false, 1⟩

/-- Calls made by the clock synchronisation package. -/
inductive CsEv where
  /-- `set_clock_correction(int32_t)` -/
  | correction (v : BitVec 32)
  /-- `handle_app_time_periodicity_req(uint32_t)` -/
  | period (sec : U32)
  /-- `get_unixtime()` -/
  | getTime
  /-- `force_device_resync_req()` -/
  | resync
  /-- `uwan_send_frame(port, payload, len, confirm)` -/
  | sendFrame (port : Byte) (pld : Bytes) (confirm : Bool)
  /-- `x << 24` for a byte `x >= 128`: undefined in C99. The model goes on with the bits every compiler produces. -/
  | ubShift
  deriving DecidableEq, Repr

/-- src/ext/clock_sync.c:86-87: the loop of `periodicity_from_period_id`, `n` more rounds; `mul` is an `int`. -/
def squareLoop : Nat → Nat → Except UB Nat
  | 0, mul => .ok mul
  | n + 1, mul => if mul * mul < 2147483648 then squareLoop n (mul * mul) else .error .arith

/-- src/ext/clock_sync.c:60-91 `periodicity_from_period_id`. -/
def periodOf (id : Byte) : Except UB U32 := do
  let mul ← if id = 0 then .ok 1 else squareLoop (id.toNat - 1) 2
  if 128 * mul < 2147483648 then .ok (BitVec.ofNat 32 (128 * mul)) else .error .arith

/-- `ans_buf[ans_buf_offset++] = ...` for each byte of `l`; `ans_buf` has 32 bytes (src/ext/clock_sync.c:44,55). -/
def csPush (out l : Bytes) : Except UB Bytes := if out.length + l.length ≤ 32 then .ok (out ++ l) else .error .oob

/-- `cur_time` as four bytes, src/ext/clock_sync.c:153-157 and 228-233. -/
def gpsBytes (unix : U32) : Bytes :=
  let t := unixToGps unix
  [byteOf t 0, byteOf t 1, byteOf t 2, byteOf t 3]

/-- src/ext/clock_sync.c:145-151: the status byte of the answer to a periodicity request, and the call. -/
def csPeriod (cb : CsCbs) (p : Byte) : Except UB (Byte × List CsEv) :=
  if cb.period then (periodOf p).map fun sec => (0, [.period sec]) else .ok (1, [])

/-- src/ext/clock_sync.c:115-168, one round of the `switch`. `mem` is the memory from the pointer `buf` on, `off` the offset behind
the command byte; reading behind the end of `mem` is an access outside the array. `unix` is what `get_unixtime` returns.
Returns the new offset, state and content of `ans_buf`. `off` is a `uint8_t`: only the increment in line 161 can wrap, the others
stay below `size`. -/
def csCmd (cb : CsCbs) (mem : Bytes) (size : Byte) (unix : U32) (cmd : Byte) (off : Nat) (c : Cs) (out : Bytes) :
    Except UB (Nat × Cs × Bytes × List CsEv) :=
  if cmd = 0x0 then do
    let out ← csPush out [0x0, 1, 1]
    .ok (off, c, out, [])
  else if cmd = 0x1 then
    if size.toNat < off + 5 then .ok (off, c, out, [])
    else do
      let a ← orOob mem[off]?
      let b ← orOob mem[off + 1]?
      let d ← orOob mem[off + 2]?
      let e ← orOob mem[off + 3]?
      let t ← orOob mem[off + 4]?
      let mark := if 128 ≤ e.toNat then [CsEv.ubShift] else []
      if t &&& 0xf = c.token then
        .ok (off + 5, { c with token := (c.token + 1) &&& 0xf }, out, mark ++ [.correction (or32 a b d e)])
      else .ok (off + 5, c, out, mark)
  else if cmd = 0x2 then
    if size.toNat < off + 1 then .ok (off, c, out, [])
    else do
      let p ← orOob mem[off]?
      let (st, ev) ← csPeriod cb p
      let out ← csPush out ([0x2, st] ++ gpsBytes unix)
      .ok (off + 1, c, out, ev ++ [.getTime])
  else if cmd = 0x3 then do
    let b ← orOob mem[off]?
    let n := b &&& 0x7
    .ok ((off + 1) % 256, { c with nbRep := n }, out, if n ≠ 0 then [.resync] else [])
  else .ok (off, c, out, [])

/-- src/ext/clock_sync.c:105-169, the loop of `handle_answ`; `mask` is `exec_cmd_mask`. Shifting `1` by 31 or more is undefined
(`.arith`). The first argument bounds the number of rounds; running out of it would be an endless loop. -/
def csLoop (cb : CsCbs) (mem : Bytes) (size : Byte) (unix : U32) : Nat → Nat → Byte → Cs → Bytes → Except UB (Cs × Bytes × List CsEv)
  | 0, off, _, c, out => if off < size.toNat then .error .diverge else .ok (c, out, [])
  | n + 1, off, mask, c, out =>
    if off < size.toNat then do
      let cmd ← orOob mem[off]?
      if 31 ≤ cmd.toNat then .error .arith
      else
        let m : Byte := BitVec.ofNat 8 (2 ^ cmd.toNat)
        if mask &&& m ≠ 0 then .ok (c, out, [])
        else do
          let (off, c, out, ev) ← csCmd cb mem size unix cmd (off + 1) c out
          let (c, out, ev') ← csLoop cb mem size unix n off (mask ||| m) c out
          .ok (c, out, ev ++ ev')
    else .ok (c, out, [])

/-- src/ext/clock_sync.c:93-173 `handle_answ`. -/
def handleAnsw (c : Cs) (mem : Bytes) (size : Byte) (unix : U32) : Except UB (Cs × List CsEv) :=
  match c.cbs with
  | none => .ok (c, [])
  | some cb => do
    let (c, out, ev) ← csLoop cb mem size unix 512 0 0 c []
    .ok ({ c with ans := out, ansPending := !out.isEmpty }, ev)

/-- src/ext/clock_sync.c:175-182 `uwan_clock_sync_init`. -/
def csInit (c : Cs) (cbs : Option CsCbs) : Cs :=
  { c with cbs := cbs, token := 0, reqPending := false, ansPending := false, ans := [] }

/-- src/ext/clock_sync.c:184-201 `uwan_clock_sync_handle_time_answ`; the argument `m_type` is not used. `mem` is the memory behind
`pkt->data`, of which the packet is the first `size` bytes. -/
def csHandle (c : Cs) (err : Err) (port : Byte) (mem : Bytes) (size : Byte) (unix : U32) : Except UB (Cs × List CsEv) :=
  if err ≠ .no then .ok (c, [])
  else
    let c := { c with reqPending := false, ansPending := false }
    if size ≠ 0 ∧ port = 202 then handleAnsw c mem size unix else .ok (c, [])

/-- src/ext/clock_sync.c:203-236 `uwan_clock_sync_send_time_req`, up to the call of `uwan_send_frame`: the payload it is called with, or
`none` when the function returns `UWAN_ERR_STATE`. `rq_buf` has 32 bytes; an offset of `uint8_t` minus `sizeof` is unsigned. -/
def csTimeReq (c : Cs) (ansRequired : Bool) (unix : U32) : Except UB (Cs × Option Bytes) :=
  match c.cbs with
  | none => .ok (c, none)
  | some _ =>
    let buf := if c.ansPending then c.ans else []
    if 32 < buf.length then .error .oob
    else
      let c := { c with reqPending := true }
      let r : Cs × Bytes := if 32 - buf.length < 6 then ({ c with ansPending := false }, []) else (c, buf)
      .ok (r.1, some (r.2 ++ [0x1] ++ gpsBytes unix ++ [c.token ||| (if ansRequired then 0x10 else 0)]))

/-- The stack together with the clock synchronisation package. -/
structure Sys where
  stack : St
  cs : Cs
  deriving DecidableEq

/-- Calls made by the stack and by the package. -/
inductive SEv where
  | st (e : Ev)
  | cs (e : CsEv)
  deriving DecidableEq, Repr

/-- Operations of the stack and of the package. Results of `get_unixtime` and `rand` are arguments. -/
inductive SOp where
  | stack (op : Op)
  | csInit (cbs : Option CsCbs)
  /-- `uwan_clock_sync_handle_time_answ` with a packet `data` that is followed in memory by `tail` -/
  | csHandle (err : Err) (port : Byte) (data tail : Bytes) (unix : U32)
  | csTimeReq (ansRequired : Bool) (unix : U32) (rnd : Nat)
  | csIsPending
  | csSendAnsw (rnd : Nat)

/-- Payload lengths that fit the `uint8_t` fields. -/
def SOp.Valid : SOp → Prop
  | .stack op => op.Valid
  | .csHandle _ _ data _ _ => data.length ≤ 255
  | _ => True

instance (op : SOp) : Decidable op.Valid := by unfold SOp.Valid; split <;> infer_instance

/-- A call of `uwan_send_frame` by the package. -/
def csSend (E : Env) (s : Sys) (pld : Bytes) (rnd : Nat) : Except UB (Ret × Sys × List SEv) := do
  let (r, st, ev) ← step E s.stack (.send 202 pld false rnd)
  .ok (r, { s with stack := st }, .cs (.sendFrame 202 pld false) :: ev.map .st)

/-- One operation of the stack with the package. -/
def sysStep (E : Env) (s : Sys) : SOp → Except UB (Ret × Sys × List SEv)
  | .stack op => do
    let (r, st, ev) ← step E s.stack op
    .ok (r, { s with stack := st }, ev.map .st)
  | .csInit cbs => .ok (.unit, { s with cs := csInit s.cs cbs }, [])
  | .csHandle err port data tail unix => do
    let (c, ev) ← csHandle s.cs err port (data ++ tail) (BitVec.ofNat 8 data.length) unix
    .ok (.unit, { s with cs := c }, ev.map .cs)
  | .csTimeReq ans unix rnd => do
    let (c, p) ← csTimeReq s.cs ans unix
    match p with
    | none => .ok (.err .state, s, [])
    | some pld => do
      let (r, s', ev) ← csSend E { s with cs := c } pld rnd
      .ok (r, s', .cs .getTime :: ev)
  -- src/ext/clock_sync.c:239-242
  | .csIsPending => .ok (.bool s.cs.ansPending, s, [])
  -- src/ext/clock_sync.c:244-251
  | .csSendAnsw rnd => if s.cs.ansPending then csSend E s s.cs.ans rnd else .ok (.err .state, s, [])

/-- One operation of a history. -/
structure SItem where
  pre : Sys
  op : SOp
  ret : Ret
  ev : List SEv
  post : Sys

/-- A history of the stack with the package from power-on. -/
inductive SHist (E : Env) : List SItem → Sys → Prop where
  | nil : SHist E [] ⟨.boot, .boot⟩
  | snoc {log : List SItem} {s1 s2 : Sys} {op : SOp} {r : Ret} {ev : List SEv} (h : SHist E log s1) (hv : op.Valid)
      (hs : sysStep E s1 op = .ok (r, s2, ev)) : SHist E (log ++ [⟨s1, op, r, ev, s2⟩]) s2

/-- All calls made in a history. -/
def sysTrace (log : List SItem) : List SEv := log.flatMap SItem.ev

end Uwan
