import Verif.Code.Run
import Verif.Model.ClockSync

/-!
# Histories of the text of the stack together with the clock synchronisation package

`src/ext/clock_sync.c` shares no variable with the stack; it calls one function of the stack, `uwan_send_frame`, and `utils_unix_to_gps`. Its text is run in a memory of its own;
the memory of the stack is part of its environment, and a call of `uwan_send_frame` runs the text of the stack there, with the payload copied from behind the pointer.
-/

namespace Uwan.C

/-- The functions of clock_sync.c and of utils.c. -/
def Src.clockProg : Program := Src.utilsFuns ++ Src.clockSyncFuns

/-- The environment of the package: what `get_unixtime` answers, the calls made so far by the package and by the stack, and the memory of the stack. -/
structure Around where
  unix : U32
  ev : List SEv
  stack : Mem World

/-- Record calls. -/
def Around.say (a : Around) (l : List CsEv) : Around := { a with ev := a.ev ++ l.map .cs }

/-- How a frame is handed to the stack. -/
abbrev Sender := Byte → Bytes → Bool → Mem World → Except Fault (Val × Mem World)

/-- `n` bytes from a pointer. -/
def bytesAt (r : Ref) (n : Nat) : M Around Bytes := M.bind (loads r n) fun l => ofOption .stuck (l.mapM valByte?)

/-- Record a call. -/
def tellV (e : CsEv) (v : Val) : M Around Val := fun m => .ok (v, { m with io := m.io.say [e] })

/-- The stack takes a frame. -/
def handOver (send : Sender) (port : Byte) (l : Bytes) (confirm : Bool) : M Around Val := fun m =>
  match send port l confirm m.io.stack with
  | .error f => .error f
  | .ok (v, s) => .ok (v, { m with io := { m.io with ev := m.io.ev ++ [.cs (.sendFrame port l confirm)] ++ (s.io.ev.drop m.io.stack.io.ev.length).map .st, stack := s } })

/-- A call out of the package (prototypes: include/uwan/ext/clock_sync.h:32-37, include/uwan/stack.h:313-314). -/
def outsideClock (send : Sender) (f : String) (as : List Val) : M Around Val :=
  match f, as with
  | "app.set_clock_correction", [.int _ n] => tellV (.correction (BitVec.ofInt 32 n)) .null
  | "app.handle_app_time_periodicity_req", [.int _ n] => tellV (.period (BitVec.ofInt 32 n)) .null
  | "app.get_unixtime", [] => fun m => tellV .getTime (u32Val m.io.unix) m
  | "app.force_device_resync_req", [] => tellV .resync .null
  | "uwan_send_frame", [.int _ p, .ptr r, .int _ n, .int _ c] => M.bind (bytesAt r (n % 256).toNat) fun l => handOver send (BitVec.ofInt 8 p) l (decide (c ≠ 0))
  | _, _ => M.fail .stuck

/-- The environment of the package. -/
def clockHost (send : Sender) : Host Around where
  ext := outsideClock send
  mark w := w.say [.ubShift]

/-- The callback table of the application. -/
def watchObjs (period : Bool) : Objs := [
  ("watch.set_clock_correction", [.fn "app.set_clock_correction"]),
  ("watch.handle_app_time_periodicity_req", [optFn period "app.handle_app_time_periodicity_req"]),
  ("watch.get_unixtime", [.fn "app.get_unixtime"]),
  ("watch.force_device_resync_req", [.fn "app.force_device_resync_req"])]

/-- A packet for the package: `struct uwan_dl_packet` without the members `rssi` and `snr`, which the package does not have a use for, and the memory from `data` on. -/
def packetObjs (port : Byte) (size : Nat) (mem : Bytes) : Objs := [
  ("pkt.data", [globPtr "pktmem"]),
  ("pkt.size", [.int .u8 size]),
  ("pkt.f_port", [byteVal port]),
  ("pktmem", mem.map byteVal)]

/-- The variables of clock_sync.c (48-58): `buf` is the whole of `ans_buf`, `n` is `ans_buf_data_size`; then the table of callbacks, and what is passed by pointer. -/
def encCs (c : Cs) (buf : Bytes) (n : Nat) (period : Bool) (args : Objs) : Objs := [
  ("adr_enabled_prev", [.int .bool 0]),
  ("nb_trans_prev", [.int .i32 0]),
  ("app_time_req_pending", [boolVal c.reqPending]),
  ("state_token_req", [byteVal c.token]),
  ("cs_callbacks", [if c.cbs.isSome then globPtr "watch" else .null]),
  ("ans_buf", buf.map byteVal),
  ("ans_buf_data_size", [.int .u8 n]),
  ("force_resync_nb_of_rep", [.int .i32 c.nbRep.toNat]),
  ("ans_pending", [boolVal c.ansPending])] ++ watchObjs period ++ args

/-! ## Calls from outside -/

/-- One call from outside of a function of the stack or of the package: the operation with its arguments (`get_unixtime` answers what the operation says; the random number in it is not used), the argument
`m_type` of `uwan_clock_sync_handle_time_answ`, and what the environment answers while the call runs. -/
structure STurn where
  op : SOp
  mtype : U32
  input : Input
  rands : List Nat
  bats : List Byte

/-- The call to the stack in the same environment. -/
def STurn.toStack (t : STurn) (op : Op) : Turn := ⟨op, t.input, t.rands, t.bats⟩

/-- What `get_unixtime` answers. -/
def SOp.unix : SOp → U32
  | .csHandle _ _ _ _ u => u
  | .csTimeReq _ u _ => u
  | _ => 0

/-- The function called. -/
def SOp.fn : SOp → String
  | .stack op => Op.fn op
  | .csInit _ => "uwan_clock_sync_init"
  | .csHandle .. => "uwan_clock_sync_handle_time_answ"
  | .csTimeReq .. => "uwan_clock_sync_send_time_req"
  | .csIsPending => "uwan_clock_sync_is_answ_pending"
  | .csSendAnsw _ => "uwan_clock_sync_send_answ"

/-- The arguments. -/
def SOp.vals (mtype : U32) : SOp → List Val
  | .stack op => Op.vals op
  | .csInit (some _) => [globPtr "watch"]
  | .csInit none => [.null]
  | .csHandle e .. => [enumVal (Err.num e), u32Val mtype, globPtr "pkt"]
  | .csTimeReq a _ _ => [boolVal a]
  | _ => []

/-- The objects of a packet. -/
def isPkt (o : String × List Val) : Bool := o.1 == "pkt.data" || o.1 == "pkt.size" || o.1 == "pkt.f_port" || o.1 == "pktmem"

/-- What is passed by pointer. -/
def SOp.args : SOp → Objs
  | .csHandle _ port data tail _ => packetObjs port data.length (data ++ tail)
  | _ => []

/-- The application writes the memory it is going to pass by pointer. -/
def SOp.store (op : SOp) (g : Objs) : Objs :=
  (match op with
    | .csInit (some cb) => (watchObjs cb.period).over g
    | _ => g).filter (fun o => !isPkt o) ++ SOp.args op

/-- The memory of the stack and of the package. -/
structure SMem where
  stack : Mem World
  glob : Objs

/-- One call, with at most `L` rounds of each loop and at most `D` nested calls (a call of `uwan_send_frame` by the package may use `D` more): the value returned, the memory, and the calls made to the outside. -/
def STurn.run (L D : Nat) (t : STurn) (m : SMem) : Except Fault (Val × SMem × List SEv) :=
  match t.op with
  | .stack op =>
    match (t.toStack op).run L D m.stack with
    | .error f => .error f
    | .ok (v, s) => .ok (v, { m with stack := s }, (s.io.ev.drop m.stack.io.ev.length).map .st)
  | op =>
    match call (clockHost fun port l confirm => (t.toStack (.send port l confirm 0)).run L D) Src.clockProg L D (SOp.fn op) (SOp.vals t.mtype op) ⟨SOp.store op m.glob, [], ⟨SOp.unix op, [], m.stack⟩⟩ with
    | .error f => .error f
    | .ok (v, m') => .ok (v, ⟨m'.io.stack, m'.glob⟩, m'.io.ev)

/-- What is seen of one call. -/
structure SSeen where
  turn : STurn
  val : Val
  ev : List SEv

/-- Calls one after the other. -/
def runSys (L D : Nat) (m : SMem) : List STurn → Except Fault (List SSeen × SMem)
  | [] => .ok ([], m)
  | t :: ts =>
    match t.run L D m with
    | .error f => .error f
    | .ok (v, m', ev) =>
      match runSys L D m' ts with
      | .error f => .error f
      | .ok (l, m'') => .ok (⟨t, v, ev⟩ :: l, m'')

/-- Power-on. -/
def startSys (c : Block × Bytes) : SMem := ⟨start c, Src.clockSyncVars ++ watchObjs false⟩

/-- What is assumed about a call. -/
structure STurn.Valid (E : Env) (t : STurn) : Prop where
  op : t.op.Valid
  env : t.input.env = E
  rands : 2 ≤ t.rands.length
  small : ∀ r ∈ t.rands, r < 2147483648
  bats : 15 < t.bats.length

/-- The operation with the answers the environment gave. -/
def SOp.answered (I : Input) (rands : List Nat) (bat : Nat → Byte) : SOp → SOp
  | .stack op => .stack (Op.answered I rands bat op)
  | .csTimeReq a u _ => .csTimeReq a u (rands[0]?.getD 0)
  | .csSendAnsw _ => .csSendAnsw (rands[0]?.getD 0)
  | op => op

/-- The operation of the model is the call with the answers the environment gave. -/
def STurn.Is (t : STurn) (op : SOp) : Prop := ∃ bat : Answers t.bats, op = SOp.answered t.input t.rands bat.1 t.op

/-- What is seen of an operation of the model. -/
structure SSeen.Of (a : SSeen) (i : SItem) : Prop where
  op : a.turn.Is i.op
  val : a.val = Ret.val i.ret
  ev : a.ev = i.ev

/-- What is seen of the operations of a history of the model, one by one. -/
inductive SShows : List SSeen → List SItem → Prop where
  | nil : SShows [] []
  | cons {a : SSeen} {i : SItem} {as : List SSeen} {l : List SItem} (h : a.Of i) (hs : SShows as l) : SShows (a :: as) (i :: l)

end Uwan.C
