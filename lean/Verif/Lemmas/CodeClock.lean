import Verif.Lemmas.CodeDerive
import Verif.Code.RunClock

/-! # The functions of `ext/clock_sync.c`, except the parser -/

namespace Uwan.C

section
variable {ω : Type} {H : Host ω}

theorem cfind_utils_unix_to_gps : Src.clockProg.find "utils_unix_to_gps" = some Src.utils_unix_to_gps := (rfl)
theorem cfind_periodicity : Src.clockProg.find "periodicity_from_period_id" = some Src.periodicity_from_period_id := (rfl)
theorem cfind_handle_answ : Src.clockProg.find "handle_answ" = some Src.handle_answ := (rfl)
theorem cfind_init : Src.clockProg.find "uwan_clock_sync_init" = some Src.uwan_clock_sync_init := (rfl)
theorem cfind_handle : Src.clockProg.find "uwan_clock_sync_handle_time_answ" = some Src.uwan_clock_sync_handle_time_answ := (rfl)
theorem cfind_time_req : Src.clockProg.find "uwan_clock_sync_send_time_req" = some Src.uwan_clock_sync_send_time_req := (rfl)
theorem cfind_pending : Src.clockProg.find "uwan_clock_sync_is_answ_pending" = some Src.uwan_clock_sync_is_answ_pending := (rfl)
theorem cfind_send_answ : Src.clockProg.find "uwan_clock_sync_send_answ" = some Src.uwan_clock_sync_send_answ := (rfl)
theorem cfind_memcpy : Src.clockProg.find "memcpy" = none := (rfl)
theorem cfind_correction : Src.clockProg.find "app.set_clock_correction" = none := (rfl)
theorem cfind_period : Src.clockProg.find "app.handle_app_time_periodicity_req" = none := (rfl)
theorem cfind_unixtime : Src.clockProg.find "app.get_unixtime" = none := (rfl)
theorem cfind_resync : Src.clockProg.find "app.force_device_resync_req" = none := (rfl)
theorem cfind_send_frame : Src.clockProg.find "uwan_send_frame" = none := (rfl)

theorem ccall_fun {x : String} {f : Fun} {L k : Nat} (h : Src.clockProg.find x = some f) (as : List Val) (g : Objs) (fs : List Objs) (w : ω) :
    call H Src.clockProg L (k + 1) x as ⟨g, fs, w⟩ = enter ⟨H, call H Src.clockProg L k, L⟩ f.body f.result (bindParams f.params as) ⟨g, fs, w⟩ := by
  rw [call, h]
  exact run_enter _ _ _ _

theorem ccall_lib {x : String} {L k : Nat} (h : Src.clockProg.find x = none) (as : List Val) : call H Src.clockProg L (k + 1) x as = library H x as := by
  rw [call, h]

@[csem] theorem ccall_memcpy (L k : Nat) (d s : Ref) (t : Ty) (n : Int) (m : Mem ω) : call H Src.clockProg L (k + 1) "memcpy" [.ptr d, .ptr s, .int t n] m =
    andThen (loads s n.toNat m) fun l => M.bind (stores d l) fun _ => M.pure (.ptr d) := by
  rw [ccall_lib cfind_memcpy]
  rfl
end

section
variable (c : Cs) (buf : Bytes) (n : Nat) (period : Bool) (args : Objs)

@[csem] theorem cget_req : (encCs c buf n period args).get "app_time_req_pending" = some [boolVal c.reqPending] := (rfl)
@[csem] theorem cget_token : (encCs c buf n period args).get "state_token_req" = some [.int .u8 c.token.toNat] := (rfl)
@[csem] theorem cget_cbs : (encCs c buf n period args).get "cs_callbacks" = some [if c.cbs.isSome then globPtr "watch" else .null] := (rfl)
@[csem] theorem cget_buf : (encCs c buf n period args).get "ans_buf" = some (buf.map byteVal) := (rfl)
@[csem] theorem cget_size : (encCs c buf n period args).get "ans_buf_data_size" = some [.int .u8 n] := (rfl)
@[csem] theorem cget_rep : (encCs c buf n period args).get "force_resync_nb_of_rep" = some [.int .i32 c.nbRep.toNat] := (rfl)
@[csem] theorem cget_pending : (encCs c buf n period args).get "ans_pending" = some [boolVal c.ansPending] := (rfl)
@[csem] theorem cget_watch_corr : (encCs c buf n period args).get "watch.set_clock_correction" = some [.fn "app.set_clock_correction"] := (rfl)
@[csem] theorem cget_watch_period : (encCs c buf n period args).get "watch.handle_app_time_periodicity_req" = some [optFn period "app.handle_app_time_periodicity_req"] := (rfl)
@[csem] theorem cget_watch_time : (encCs c buf n period args).get "watch.get_unixtime" = some [.fn "app.get_unixtime"] := (rfl)
@[csem] theorem cget_watch_resync : (encCs c buf n period args).get "watch.force_device_resync_req" = some [.fn "app.force_device_resync_req"] := (rfl)
@[csem] theorem cget_pkt_data : (encCs c buf n period args).get "pkt.data" = args.get "pkt.data" := (rfl)
@[csem] theorem cget_pkt_size : (encCs c buf n period args).get "pkt.size" = args.get "pkt.size" := (rfl)
@[csem] theorem cget_pkt_port : (encCs c buf n period args).get "pkt.f_port" = args.get "pkt.f_port" := (rfl)
@[csem] theorem cget_pktmem : (encCs c buf n period args).get "pktmem" = args.get "pktmem" := (rfl)
@[csem] theorem pget_data (port : Byte) (k : Nat) (mem : Bytes) : (packetObjs port k mem).get "pkt.data" = some [.ptr ⟨none, "pktmem", 0⟩] := (rfl)
@[csem] theorem pget_size (port : Byte) (k : Nat) (mem : Bytes) : (packetObjs port k mem).get "pkt.size" = some [.int .u8 k] := (rfl)
@[csem] theorem pget_port (port : Byte) (k : Nat) (mem : Bytes) : (packetObjs port k mem).get "pkt.f_port" = some [.int .u8 port.toNat] := (rfl)
@[csem] theorem pget_mem (port : Byte) (k : Nat) (mem : Bytes) : (packetObjs port k mem).get "pktmem" = some (mem.map byteVal) := (rfl)

@[csem] theorem cput_req (b : Bool) : (encCs c buf n period args).put "app_time_req_pending" [boolVal b] = encCs { c with reqPending := b } buf n period args := (rfl)
theorem cput_token (b : Byte) : (encCs c buf n period args).put "state_token_req" [.int .u8 b.toNat] = encCs { c with token := b } buf n period args := (rfl)
@[csem] theorem cput_token_0 : (encCs c buf n period args).put "state_token_req" [.int .u8 0] = encCs { c with token := 0 } buf n period args := (rfl)
@[csem] theorem cput_buf (b : Bytes) : (encCs c buf n period args).put "ans_buf" (b.map byteVal) = encCs c b n period args := (rfl)
theorem cput_size (k : Nat) : (encCs c buf n period args).put "ans_buf_data_size" [.int .u8 k] = encCs c buf k period args := (rfl)
@[csem] theorem cput_size_0 : (encCs c buf n period args).put "ans_buf_data_size" [.int .u8 0] = encCs c buf 0 period args := (rfl)
theorem cput_rep (b : Byte) : (encCs c buf n period args).put "force_resync_nb_of_rep" [.int .i32 b.toNat] = encCs { c with nbRep := b } buf n period args := (rfl)
@[csem] theorem cput_pending (b : Bool) : (encCs c buf n period args).put "ans_pending" [boolVal b] = encCs { c with ansPending := b } buf n period args := (rfl)
@[csem] theorem cput_cbs_some (cb : CsCbs) : (encCs c buf n period args).put "cs_callbacks" [.ptr ⟨none, "watch", 0⟩] = encCs { c with cbs := some cb } buf n period args := (rfl)
@[csem] theorem cput_cbs_none : (encCs c buf n period args).put "cs_callbacks" [.null] = encCs { c with cbs := none } buf n period args := (rfl)
end

/-! ## Calls out of the package -/

section
variable (send : Sender) (L k : Nat) (g : Objs) (fs : List Objs) (w : Around) (t : Ty) (n : Int)

@[csem] theorem chost_correction : call (clockHost send) Src.clockProg L (k + 1) "app.set_clock_correction" [.int t n] ⟨g, fs, w⟩ =
    .ok (.null, ⟨g, fs, w.say [.correction (BitVec.ofInt 32 n)]⟩) := by
  rw [ccall_lib cfind_correction]
  rfl
@[csem] theorem chost_period : call (clockHost send) Src.clockProg L (k + 1) "app.handle_app_time_periodicity_req" [.int t n] ⟨g, fs, w⟩ =
    .ok (.null, ⟨g, fs, w.say [.period (BitVec.ofInt 32 n)]⟩) := by
  rw [ccall_lib cfind_period]
  rfl
@[csem] theorem chost_unixtime : call (clockHost send) Src.clockProg L (k + 1) "app.get_unixtime" [] ⟨g, fs, w⟩ =
    .ok (u32Val w.unix, ⟨g, fs, w.say [.getTime]⟩) := by
  rw [ccall_lib cfind_unixtime]
  rfl
@[csem] theorem chost_resync : call (clockHost send) Src.clockProg L (k + 1) "app.force_device_resync_req" [] ⟨g, fs, w⟩ =
    .ok (.null, ⟨g, fs, w.say [.resync]⟩) := by
  rw [ccall_lib cfind_resync]
  rfl
theorem chost_send (t' : Ty) (k' : Int) (r : Ref) (m : Mem Around) : call (clockHost send) Src.clockProg L (k + 1) "uwan_send_frame" [.int .i32 202, .ptr r, .int t' k', .int .i32 0] m =
    andThen (bytesAt r (k' % 256).toNat m) fun l => handOver send 202 l false := by
  rw [ccall_lib cfind_send_frame]
  rfl

@[csem] theorem around_unix (l : List CsEv) : (w.say l).unix = w.unix := (rfl)
@[csem] theorem around_say (l l' : List CsEv) : (w.say l).say l' = w.say (l ++ l') := by
  unfold Around.say
  simp

theorem crun_unix_to_gps (n : U32) : call (clockHost send) Src.clockProg L (k + 1) "utils_unix_to_gps" [.int t n.toNat] ⟨g, fs, w⟩ = .ok (u32Val (unixToGps n), ⟨g, fs, w⟩) := by
  rw [ccall_fun cfind_utils_unix_to_gps]
  unfold Src.utils_unix_to_gps unixToGps
  have h1 : ((n - 315964800).toNat : Int) = ((n.toNat : Int) - 315964800) % 4294967296 := by
    rw [BitVec.toNat_sub]
    have : (315964800 : U32).toNat = 315964800 := rfl
    omega
  have h2 : ((n - 315964800 + 18).toNat : Int) = (((n.toNat : Int) - 315964800) % 4294967296 + 18) % 4294967296 := by
    rw [← h1, BitVec.toNat_add]
    have : (18 : U32).toNat = 18 := rfl
    omega
  crun [h2]
end

/-! ## Functions without loops -/

section
variable (send : Sender) (L k : Nat) (c : Cs) (buf : Bytes) (n : Nat) (period : Bool) (args : Objs) (fs : List Objs) (w : Around)

theorem crun_init (cb : CsCbs) : call (clockHost send) Src.clockProg L (k + 1) "uwan_clock_sync_init" [globPtr "watch"] ⟨encCs c buf n period args, fs, w⟩ =
    .ok (.null, ⟨encCs (csInit c (some cb)) buf 0 period args, fs, w⟩) := by
  rw [ccall_fun cfind_init]
  unfold Src.uwan_clock_sync_init csInit
  cases hc : c.cbs <;> crun [hc, Option.isSome_some, Option.isSome_none, cput_cbs_some (cb := cb)] <;> rfl

theorem crun_init_null : call (clockHost send) Src.clockProg L (k + 1) "uwan_clock_sync_init" [.null] ⟨encCs c buf n period args, fs, w⟩ =
    .ok (.null, ⟨encCs (csInit c none) buf 0 period args, fs, w⟩) := by
  rw [ccall_fun cfind_init]
  unfold Src.uwan_clock_sync_init csInit
  cases hc : c.cbs <;> crun [hc, Option.isSome_some, Option.isSome_none] <;> rfl

theorem crun_pending : call (clockHost send) Src.clockProg L (k + 1) "uwan_clock_sync_is_answ_pending" [] ⟨encCs c buf n period args, fs, w⟩ =
    .ok (boolVal c.ansPending, ⟨encCs c buf n period args, fs, w⟩) := by
  rw [ccall_fun cfind_pending]
  unfold Src.uwan_clock_sync_is_answ_pending
  crun []

theorem bytesAt_of {fr : Option Nat} {o : String} {l : Bytes} {m : Mem Around} (h : getObj m fr o = some (l.map byteVal)) {k : Nat} (hk : k ≤ l.length) :
    bytesAt ⟨fr, o, 0⟩ k m = .ok (l.take k, m) := by
  unfold bytesAt
  have := loads_bytes (off := 0) (n := k) h (by omega)
  simp only [Int.natCast_zero, List.drop_zero] at this
  crun [this, mapM_bytes]
  rfl

theorem handOver_ok {send : Sender} {port : Byte} {l : Bytes} {b : Bool} {g : Objs} {fs : List Objs} {w : Around} {v : Val} {s : Mem World} (hs : send port l b w.stack = .ok (v, s)) :
    handOver send port l b ⟨g, fs, w⟩ = .ok (v, ⟨g, fs, { w with ev := w.ev ++ [.cs (.sendFrame port l b)] ++ (s.io.ev.drop w.stack.io.ev.length).map .st, stack := s }⟩) := by
  unfold handOver
  simp only [hs]

theorem crun_send_answ_not (h : c.ansPending = false) : call (clockHost send) Src.clockProg L (k + 2) "uwan_clock_sync_send_answ" [] ⟨encCs c buf n period args, fs, w⟩ =
    .ok (enumVal 1, ⟨encCs c buf n period args, fs, w⟩) := by
  rw [ccall_fun cfind_send_answ]
  unfold Src.uwan_clock_sync_send_answ
  crun [h]
  rfl

theorem crun_send_answ (h : c.ansPending = true) (hn : n ≤ buf.length) (hb : buf.length = 32) {v : Nat} {s : Mem World} (hv : v < 4294967296) (hs : send 202 (buf.take n) false w.stack = .ok (enumVal v, s)) :
    call (clockHost send) Src.clockProg L (k + 2) "uwan_clock_sync_send_answ" [] ⟨encCs c buf n period args, fs, w⟩ =
    .ok (enumVal v, ⟨encCs c buf n period args, fs, { w with ev := w.ev ++ [.cs (.sendFrame 202 (buf.take n) false)] ++ (s.io.ev.drop w.stack.io.ev.length).map .st, stack := s }⟩) := by
  rw [ccall_fun cfind_send_answ]
  unfold Src.uwan_clock_sync_send_answ
  have hm : ((n : Int) % 256).toNat = n := by omega
  have hbt : bytesAt ⟨none, "ans_buf", 0⟩ n (⟨encCs c buf n period args, [] :: fs, w⟩ : Mem Around) = .ok (buf.take n, ⟨encCs c buf n period args, [] :: fs, w⟩) :=
    bytesAt_of (m := ⟨encCs c buf n period args, [] :: fs, w⟩) (fr := none) (o := "ans_buf") (cget_buf c buf n period args) hn
  have ho := handOver_ok (send := send) (g := encCs c buf n period args) (fs := [] :: fs) hs
  simp only [enumVal] at ho
  crun [h, chost_send, hm, hbt, ho]

/-! ## The request -/

/-- `rq_buf`, filled with `l` so far. -/
def rqCells (l : Bytes) : List Val := l.map byteVal ++ List.replicate (32 - l.length) (.uninit (some .u8))

theorem rq_push {ω : Type} (m : Mem ω) (fr : Option Nat) (o : String) (l : Bytes) (hl : l.length < 32) (j : Int) (hj : j = l.length) (t : Ty) (v : Int) :
    setCell m fr o j (.int t v) (some (rqCells l)) = .ok (.int .u8 (BitVec.ofInt 8 v).toNat, putObj m fr o (rqCells (l ++ [BitVec.ofInt 8 v]))) := by
  subst hj
  have h1 : (rqCells l)[(l.length : Int).toNat]? = some (.uninit (some .u8)) := by
    unfold rqCells
    rw [Int.toNat_natCast, List.getElem?_append_right (by simp)]
    simp only [List.length_map, Nat.sub_self]
    rw [List.getElem?_replicate, if_pos (by omega)]
  rw [setCell_of (by omega) h1]
  have h2 : Ty.u8.conv v = ((BitVec.ofInt 8 v).toNat : Int) := by
    rw [BitVec.toNat_ofInt]
    simp only [Ty.conv]
    omega
  rw [assign_uninit, h2]
  crun []
  congr 3
  unfold rqCells
  rw [List.set_append_right _ _ (by simp)]
  obtain ⟨r, hr⟩ : ∃ r, 32 - l.length = r + 1 := ⟨31 - l.length, by omega⟩
  have h3 : 32 - (l ++ [BitVec.ofInt 8 v]).length = r := by simp; omega
  rw [hr, h3]
  simp [List.replicate_succ, byteVal]

theorem rq_fill {ω : Type} (m : Mem ω) (fr : Option Nat) (o : String) (l : Bytes) (hg : getObj m fr o = some (rqCells [])) (hl : l.length ≤ 32) :
    stores ⟨fr, o, 0⟩ (l.map byteVal) m = .ok ((), putObj m fr o (rqCells l)) := by
  have := stores_cells fr o l m (rqCells []) hg (uninit_cells 32) 0 (by simpa [rqCells] using hl)
  simp only [Int.natCast_zero] at this
  rw [this]
  congr 3
  simp only [rqCells, List.take_zero, List.nil_append, Nat.zero_add, List.map_nil, List.length_nil, List.drop_replicate, Nat.sub_zero]

theorem low_0 (t : U32) : BitVec.ofInt 8 (t.toNat : Int) = byteOf t 0 := by
  apply BitVec.eq_of_toNat_eq
  simp [byteOf]
theorem low_1 (t : U32) : BitVec.ofInt 8 ((t.toNat : Int) / 2 ^ 8) = byteOf t 1 := by
  apply BitVec.eq_of_toNat_eq
  simp [byteOf, BitVec.toNat_ofInt, Nat.shiftRight_eq_div_pow]
  omega
theorem low_2 (t : U32) : BitVec.ofInt 8 ((t.toNat : Int) / 2 ^ 16) = byteOf t 2 := by
  apply BitVec.eq_of_toNat_eq
  simp [byteOf, BitVec.toNat_ofInt, Nat.shiftRight_eq_div_pow]
  omega
theorem low_3 (t : U32) : BitVec.ofInt 8 ((t.toNat : Int) / 2 ^ 24) = byteOf t 3 := by
  apply BitVec.eq_of_toNat_eq
  simp [byteOf, BitVec.toNat_ofInt, Nat.shiftRight_eq_div_pow]
  omega

theorem token_or (tk : Byte) : BitVec.ofInt 8 (ofBits .i32 (bits (tk.toNat : Int) ||| bits 16)) = tk ||| 0x10 := by
  revert tk
  decide +kernel
theorem token_or_0 (tk : Byte) : BitVec.ofInt 8 (ofBits .i32 (bits (tk.toNat : Int) ||| bits 0)) = tk := by
  revert tk
  decide +kernel

theorem crun_time_req_none (h : c.cbs = none) (a : Bool) : call (clockHost send) Src.clockProg L (k + 2) "uwan_clock_sync_send_time_req" [boolVal a] ⟨encCs c buf n period args, fs, w⟩ =
    .ok (enumVal 1, ⟨encCs c buf n period args, fs, w⟩) := by
  rw [ccall_fun cfind_time_req]
  unfold Src.uwan_clock_sync_send_time_req
  crun [h, Option.isSome_none]
  rfl

/-- `rq_buf[offset++]` for the time and the parameter of the request, and the call. -/
def reqTail : Stmt :=
  .seq (.decl "cur_time" ([.uninit (some .u32)]))
    (.seq (.expr (.asg (.loc "cur_time") (.call (.fn "utils_unix_to_gps") (.cons (.call (.load (.fld (.elem (.load (.glob "cs_callbacks")) (.lit .i32 0)) ".get_unixtime")) (.nil)) (.nil)))))
      (.seq (.expr (.asg (.elem (.addr (.loc "rq_buf")) (.post .add (.loc "offset"))) (.lit .i32 1)))
        (.seq (.expr (.asg (.elem (.addr (.loc "rq_buf")) (.post .add (.loc "offset"))) (.load (.loc "cur_time"))))
          (.seq (.expr (.asg (.elem (.addr (.loc "rq_buf")) (.post .add (.loc "offset"))) (.bin .shr (.load (.loc "cur_time")) (.lit .i32 8))))
            (.seq (.expr (.asg (.elem (.addr (.loc "rq_buf")) (.post .add (.loc "offset"))) (.bin .shr (.load (.loc "cur_time")) (.lit .i32 16))))
              (.seq (.expr (.asg (.elem (.addr (.loc "rq_buf")) (.post .add (.loc "offset"))) (.bin .shr (.load (.loc "cur_time")) (.lit .i32 24))))
                (.seq (.expr (.asg (.elem (.addr (.loc "rq_buf")) (.post .add (.loc "offset"))) (.bin .or (.load (.glob "state_token_req")) (.bin .shl (.load (.loc "ans_required")) (.lit .i32 4)))))
                  (.retVal (.call (.fn "uwan_send_frame") (.cons (.lit .i32 202) (.cons (.addr (.loc "rq_buf")) (.cons (.load (.loc "offset")) (.cons (.lit .i32 0) (.nil))))))))))))))

/-- Before the time is taken. -/
def reqHead (S : Stmt) : Stmt :=
  .seq (.decl "rq_buf" (List.replicate 32 (.uninit (some .u8))))
    (.seq (.decl "offset" ([.uninit (some .u8)]))
      (.seq (.expr (.asg (.loc "offset") (.lit .i32 0)))
        (.seq (.ite (.bin .eq (.load (.glob "cs_callbacks")) (.null))
            (.retVal (.lit .i32 1))
            (.skip))
          (.seq (.ite (.load (.glob "ans_pending"))
              (.seq (.expr (.call (.fn "memcpy") (.cons (.addr (.loc "rq_buf")) (.cons (.addr (.glob "ans_buf")) (.cons (.load (.glob "ans_buf_data_size")) (.nil))))))
                (.expr (.asg (.loc "offset") (.load (.glob "ans_buf_data_size")))))
              (.skip))
            (.seq (.ite (.bin .eq (.load (.glob "app_time_req_pending")) (.lit .i32 0))
                (.expr (.asg (.glob "app_time_req_pending") (.lit .i32 1)))
                (.skip))
              (.seq (.ite (.bin .lt (.bin .sub (.lit .u32 32) (.load (.loc "offset"))) (.lit .i32 6))
                  (.seq (.expr (.asg (.loc "offset") (.lit .i32 0)))
                    (.expr (.asg (.glob "ans_pending") (.lit .i32 0))))
                  (.skip))
                S))))))

theorem time_req_body : Src.uwan_clock_sync_send_time_req.body = reqHead reqTail := (rfl)

def reqFrame (l : Bytes) (a : Bool) : Objs := [("offset", [.int .u8 l.length]), ("rq_buf", rqCells l), ("ans_required", [boolVal a])]

theorem head_ok (S : Stmt) (a : Bool) (h : c.cbs.isSome) (hn : n ≤ 9) (hb : buf.length = 32) :
    exec ⟨clockHost send, call (clockHost send) Src.clockProg L (k + 1), L⟩ (reqHead S) ⟨encCs c buf n period args, [("ans_required", [boolVal a])] :: fs, w⟩ =
    exec ⟨clockHost send, call (clockHost send) Src.clockProg L (k + 1), L⟩ S ⟨encCs { c with reqPending := true } buf n period args, reqFrame (if c.ansPending then buf.take n else []) a :: fs, w⟩ := by
  have hr : List.replicate 32 (Val.uninit (some .u8)) = rqCells [] := rfl
  have hl := loads_bytes (m := (⟨encCs c buf n period args, [("offset", [.int .u8 0]), ("rq_buf", rqCells []), ("ans_required", [boolVal a])] :: fs, w⟩ : Mem Around))
    (fr := none) (o := "ans_buf") (off := 0) (n := n) (cget_buf c buf n period args) (by omega)
  simp only [Int.natCast_zero, List.drop_zero] at hl
  have hs := rq_fill (⟨encCs c buf n period args, [("offset", [.int .u8 0]), ("rq_buf", rqCells []), ("ans_required", [boolVal a])] :: fs, w⟩ : Mem Around) (some fs.length) "rq_buf" (buf.take n)
    (by crun []) (by simp; omega)
  have hlen : (buf.take n).length = n := by simp; omega
  have he : c.reqPending = true → encCs { c with reqPending := true } buf n period args = encCs c buf n period args := by
    intro h
    unfold encCs
    rw [h]
  generalize hg : encCs { c with reqPending := true } buf n period args = g' at he ⊢
  cases hp : c.ansPending <;> cases hq : c.reqPending <;> unfold reqHead reqFrame
  · rw [← hg]
    crun [hr, h, hp, hq, List.length_nil, Int.natCast_zero]
  · rw [he hq]
    crun [hr, h, hp, hq, List.length_nil, Int.natCast_zero]
  · rw [← hg]
    crun [hr, h, hp, hq, hl, hs, hlen]
  · rw [he hq]
    crun [hr, h, hp, hq, hl, hs, hlen]

/-- The frame while the request is put together. -/
def reqOpen (t : U32) (l : Bytes) (o : Int) (a : Bool) : Objs := [("cur_time", [u32Val t]), ("offset", [.int .u8 o]), ("rq_buf", rqCells l), ("ans_required", [boolVal a])]

theorem seq_next {ω : Type} {C : Ctx ω} {a b : Stmt} {m m' : Mem ω} (h : exec C a m = .ok (.next, m')) : exec C (.seq a b) m = exec C b m' := by
  rw [exec_seq, h]
  rfl

theorem rq_read {ω : Type} {m : Mem ω} {fr : Option Nat} {o : String} {l : Bytes} (h : getObj m fr o = some (rqCells l)) : loads ⟨fr, o, 0⟩ l.length m = .ok (l.map byteVal, m) := by
  suffices hh : ∀ (j i : Nat), i + j = l.length → loads ⟨fr, o, i⟩ j m = .ok ((l.drop i).map byteVal, m) by
    have := hh l.length 0 (by omega)
    simpa using this
  intro j
  induction j with
  | zero =>
    intro i hi
    have : l.drop i = [] := List.drop_eq_nil_of_le (by omega)
    simp [loads, M.pure, this]
  | succ j ih =>
    intro i hi
    have hv : (rqCells l)[i]? = some (byteVal l[i]) := by
      unfold rqCells
      rw [List.getElem?_append_left (by simp; omega), List.getElem?_map, List.getElem?_eq_getElem (by omega)]
      rfl
    have hl : loadRef ⟨fr, o, (i : Int)⟩ m = .ok (byteVal l[i], m) := by
      simp only [loadRef, h, Int.toNat_natCast, hv]
      simp [byteVal]
    have h2 := ih (i + 1) (by omega)
    simp only [loads, M.bind, hl, Int.natCast_add, Int.natCast_one] at h2 ⊢
    rw [h2]
    simp only [M.pure]
    rw [List.drop_eq_getElem_cons (by omega : i < l.length), List.map_cons]

theorem push_step (C : Ctx Around) (e : Expr) (t : U32) (g : Objs) (a : Bool) (l : Bytes) (hl : l.length < 32) (ty : Ty) (v : Int)
    (he : ∀ o, eval C e ⟨g, reqOpen t l o a :: fs, w⟩ = .ok (.int ty v, ⟨g, reqOpen t l o a :: fs, w⟩)) :
    exec C (.expr (.asg (.elem (.addr (.loc "rq_buf")) (.post .add (.loc "offset"))) e)) ⟨g, reqOpen t l l.length a :: fs, w⟩ =
      .ok (.next, ⟨g, reqOpen t (l ++ [BitVec.ofInt 8 v]) (l ++ [BitVec.ofInt 8 v]).length a :: fs, w⟩) := by
  have he' := he (l.length + 1)
  unfold reqOpen at he' ⊢
  crun [] at he'
  crun [he', rq_push, List.length_append, List.length_singleton, Int.natCast_add, Int.natCast_one, List.length_nil, Int.natCast_zero]

theorem eval_time (C : Ctx Around) (t : U32) (g : Objs) (a : Bool) (l : Bytes) (o : Int) :
    eval C (.load (.loc "cur_time")) ⟨g, reqOpen t l o a :: fs, w⟩ = .ok (.int .u32 t.toNat, ⟨g, reqOpen t l o a :: fs, w⟩) := by
  unfold reqOpen
  crun []

theorem eval_shr (C : Ctx Around) (t : U32) (g : Objs) (a : Bool) (l : Bytes) (o : Int) (j : Nat) (hj : j < 32) :
    eval C (.bin .shr (.load (.loc "cur_time")) (.lit .i32 j)) ⟨g, reqOpen t l o a :: fs, w⟩ = .ok (.int .u32 ((t.toNat : Int) / 2 ^ j), ⟨g, reqOpen t l o a :: fs, w⟩) := by
  unfold reqOpen
  crun []

theorem tail_ok (a : Bool) (l : Bytes) (h : c.cbs.isSome) (hl : l.length ≤ 26) {v : Nat} {s : Mem World} (hv : v < 4294967296)
    (hs : send 202 (l ++ [0x1] ++ gpsBytes w.unix ++ [c.token ||| (if a then 0x10 else 0)]) false w.stack = .ok (enumVal v, s)) :
    ∃ f, exec ⟨clockHost send, call (clockHost send) Src.clockProg L (k + 1), L⟩ reqTail ⟨encCs c buf n period args, reqFrame l a :: fs, w⟩ =
      .ok (.ret (some (enumVal v)), ⟨encCs c buf n period args, f :: fs, { w with
        ev := w.ev ++ [.cs .getTime] ++ [.cs (.sendFrame 202 (l ++ [0x1] ++ gpsBytes w.unix ++ [c.token ||| (if a then 0x10 else 0)]) false)] ++ (s.io.ev.drop w.stack.io.ev.length).map .st, stack := s }⟩) := by
  obtain ⟨t, ht⟩ : ∃ t, t = unixToGps w.unix := ⟨_, rfl⟩
  have h0 : exec ⟨clockHost send, call (clockHost send) Src.clockProg L (k + 1), L⟩ (.expr (.asg (.loc "cur_time") (.call (.fn "utils_unix_to_gps") (.cons (.call (.load (.fld (.elem (.load (.glob "cs_callbacks")) (.lit .i32 0)) ".get_unixtime")) (.nil)) (.nil)))))
      ⟨encCs c buf n period args, (("cur_time", [.uninit (some .u32)]) :: reqFrame l a) :: fs, w⟩ = .ok (.next, ⟨encCs c buf n period args, reqOpen t l l.length a :: fs, w.say [.getTime]⟩) := by
    have := (unixToGps w.unix).isLt
    unfold reqFrame reqOpen
    subst ht
    crun [h, crun_unix_to_gps]
  have hd : exec ⟨clockHost send, call (clockHost send) Src.clockProg L (k + 1), L⟩ (.decl "cur_time" ([.uninit (some .u32)])) ⟨encCs c buf n period args, reqFrame l a :: fs, w⟩ =
      .ok (.next, ⟨encCs c buf n period args, (("cur_time", [.uninit (some .u32)]) :: reqFrame l a) :: fs, w⟩) := by
    unfold reqFrame
    crun []
  have p1 := push_step fs (w.say [.getTime]) ⟨clockHost send, call (clockHost send) Src.clockProg L (k + 1), L⟩ (.lit .i32 1) t (encCs c buf n period args) a l (by omega) .i32 1 (fun o => eval_lit _ _ _ _)
  have p2 := push_step fs (w.say [.getTime]) ⟨clockHost send, call (clockHost send) Src.clockProg L (k + 1), L⟩ (.load (.loc "cur_time")) t (encCs c buf n period args) a _ (by simp; omega) .u32 _
    (fun o => eval_time fs _ _ t _ a (l ++ [BitVec.ofInt 8 1]) o)
  have p3 := push_step fs (w.say [.getTime]) ⟨clockHost send, call (clockHost send) Src.clockProg L (k + 1), L⟩ (.bin .shr (.load (.loc "cur_time")) (.lit .i32 8)) t (encCs c buf n period args) a _ (by simp; omega) .u32 _
    (fun o => eval_shr fs _ _ t _ a (l ++ [BitVec.ofInt 8 1] ++ [BitVec.ofInt 8 (t.toNat : Int)]) o 8 (by omega))
  have p4 := push_step fs (w.say [.getTime]) ⟨clockHost send, call (clockHost send) Src.clockProg L (k + 1), L⟩ (.bin .shr (.load (.loc "cur_time")) (.lit .i32 16)) t (encCs c buf n period args) a _ (by simp; omega) .u32 _
    (fun o => eval_shr fs _ _ t _ a (l ++ [BitVec.ofInt 8 1] ++ [BitVec.ofInt 8 (t.toNat : Int)] ++ [BitVec.ofInt 8 ((t.toNat : Int) / 2 ^ 8)]) o 16 (by omega))
  have p5 := push_step fs (w.say [.getTime]) ⟨clockHost send, call (clockHost send) Src.clockProg L (k + 1), L⟩ (.bin .shr (.load (.loc "cur_time")) (.lit .i32 24)) t (encCs c buf n period args) a _ (by simp; omega) .u32 _
    (fun o => eval_shr fs _ _ t _ a (l ++ [BitVec.ofInt 8 1] ++ [BitVec.ofInt 8 (t.toNat : Int)] ++ [BitVec.ofInt 8 ((t.toNat : Int) / 2 ^ 8)] ++ [BitVec.ofInt 8 ((t.toNat : Int) / 2 ^ 16)]) o 24 (by omega))
  obtain ⟨pv, pe, pb⟩ : ∃ pv, (∀ o, eval ⟨clockHost send, call (clockHost send) Src.clockProg L (k + 1), L⟩ (.bin .or (.load (.glob "state_token_req")) (.bin .shl (.load (.loc "ans_required")) (.lit .i32 4)))
      ⟨encCs c buf n period args, reqOpen t (l ++ [BitVec.ofInt 8 1] ++ [BitVec.ofInt 8 (t.toNat : Int)] ++ [BitVec.ofInt 8 ((t.toNat : Int) / 2 ^ 8)] ++ [BitVec.ofInt 8 ((t.toNat : Int) / 2 ^ 16)] ++ [BitVec.ofInt 8 ((t.toNat : Int) / 2 ^ 24)]) o a :: fs, w.say [.getTime]⟩ =
      .ok (.int .i32 pv, ⟨encCs c buf n period args, reqOpen t (l ++ [BitVec.ofInt 8 1] ++ [BitVec.ofInt 8 (t.toNat : Int)] ++ [BitVec.ofInt 8 ((t.toNat : Int) / 2 ^ 8)] ++ [BitVec.ofInt 8 ((t.toNat : Int) / 2 ^ 16)] ++ [BitVec.ofInt 8 ((t.toNat : Int) / 2 ^ 24)]) o a :: fs, w.say [.getTime]⟩)) ∧
      BitVec.ofInt 8 pv = c.token ||| (if a then 0x10 else 0) := by
    refine ⟨ofBits .i32 (bits (c.token.toNat : Int) ||| bits (if a then 16 else 0)), fun o => ?_, ?_⟩
    · unfold reqOpen
      cases a <;> crun [boolVal] <;> rfl
    · cases a
      · simp [token_or_0]
      · simp [token_or]
  have p6 := push_step fs (w.say [.getTime]) ⟨clockHost send, call (clockHost send) Src.clockProg L (k + 1), L⟩ (.bin .or (.load (.glob "state_token_req")) (.bin .shl (.load (.loc "ans_required")) (.lit .i32 4))) t (encCs c buf n period args) a _ (by simp; omega) .i32 _ pe
  have hpl : l ++ [BitVec.ofInt 8 1] ++ [BitVec.ofInt 8 (t.toNat : Int)] ++ [BitVec.ofInt 8 ((t.toNat : Int) / 2 ^ 8)] ++ [BitVec.ofInt 8 ((t.toNat : Int) / 2 ^ 16)] ++ [BitVec.ofInt 8 ((t.toNat : Int) / 2 ^ 24)] ++ [BitVec.ofInt 8 pv] =
      l ++ [0x1] ++ gpsBytes w.unix ++ [c.token ||| (if a then 0x10 else 0)] := by
    rw [pb, low_0, low_1, low_2, low_3, ht]
    simp [gpsBytes]
  rw [hpl] at p6
  generalize hm : l ++ [0x1] ++ gpsBytes w.unix ++ [c.token ||| (if a then 0x10 else 0)] = msg at *
  have hml : msg.length ≤ 32 := by
    rw [← hm]
    simp [gpsBytes]
    omega
  refine ⟨reqOpen t msg msg.length a, ?_⟩
  unfold reqTail
  rw [seq_next hd, seq_next h0, seq_next p1, seq_next p2, seq_next p3, seq_next p4, seq_next p5, seq_next p6]
  have hbt : bytesAt ⟨some fs.length, "rq_buf", 0⟩ msg.length (⟨encCs c buf n period args, reqOpen t msg msg.length a :: fs, w.say [.getTime]⟩ : Mem Around) =
      .ok (msg, ⟨encCs c buf n period args, reqOpen t msg msg.length a :: fs, w.say [.getTime]⟩) := by
    have hg : getObj (⟨encCs c buf n period args, reqOpen t msg msg.length a :: fs, w.say [.getTime]⟩ : Mem Around) (some fs.length) "rq_buf" = some (rqCells msg) := by
      unfold reqOpen
      crun []
    have := rq_read hg
    unfold bytesAt
    crun [this, mapM_bytes]
    rfl
  have ho := handOver_ok (send := send) (g := encCs c buf n period args) (fs := reqOpen t msg msg.length a :: fs) (w := w.say [.getTime]) (port := 202) (l := msg) (b := false) hs
  have hm' : ((msg.length : Int) % 256).toNat = msg.length := by omega
  unfold reqOpen at hbt ho ⊢
  simp only [u32Val, enumVal] at hbt ho ⊢
  crun [chost_send, hm', hbt, ho]
  simp [Around.say]

/-- `uwan_clock_sync_send_time_req`: what is sent. -/
theorem crun_time_req (a : Bool) (h : c.cbs.isSome) (hn : n ≤ 9) (hb : buf.length = 32) {v : Nat} {s : Mem World} (hv : v < 4294967296) {msg : Bytes}
    (hm : msg = (if c.ansPending then buf.take n else []) ++ [0x1] ++ gpsBytes w.unix ++ [c.token ||| (if a then 0x10 else 0)]) (hs : send 202 msg false w.stack = .ok (enumVal v, s)) :
    call (clockHost send) Src.clockProg L (k + 2) "uwan_clock_sync_send_time_req" [boolVal a] ⟨encCs c buf n period args, fs, w⟩ =
    .ok (enumVal v, ⟨encCs { c with reqPending := true } buf n period args, fs, { w with
      ev := w.ev ++ [.cs .getTime] ++ [.cs (.sendFrame 202 msg false)] ++ (s.io.ev.drop w.stack.io.ev.length).map .st, stack := s }⟩) := by
  subst hm
  rw [ccall_fun cfind_time_req, time_req_body]
  obtain ⟨f, hf⟩ := tail_ok send L k { c with reqPending := true } buf n period args fs w a (if c.ansPending then buf.take n else []) h (by split <;> simp <;> omega) hv hs
  have hh := head_ok send L k c buf n period args fs w reqTail a h hn hb
  rw [hf] at hh
  have hbp : bindParams Src.uwan_clock_sync_send_time_req.params [boolVal a] = .ok [("ans_required", [boolVal a])] := by
    cases a <;> rfl
  rw [hbp]
  have hr : Src.uwan_clock_sync_send_time_req.result = some .u32 := rfl
  simp only [enumVal] at hh ⊢
  crun [hh, hr]

/-! ## The period -/

theorem wrap_arith (n : Int) (h : 2147483647 < n) : wrap .i32 n = .error .arith := by
  unfold wrap
  rw [if_neg (by decide), if_neg (by omega)]

def periodLoop : Stmt :=
  .loop (.bin .lt (.load (.loc "i")) (.bin .sub (.load (.loc "id")) (.lit .i32 1))) (.expr (.post .add (.loc "i")))
                (.expr (.asg (.loc "mul") (.bin .mul (.load (.loc "mul")) (.load (.loc "mul")))))

theorem square_text {ω : Type} (C : Ctx ω) (id : Nat) (hid : 1 ≤ id) (hid' : id < 256) (g : Objs) (fs : List Objs) (w : ω) :
    ∀ (d i x R : Nat), i + d = id - 1 → d < R → x < 2147483648 →
      iter (M.bind (eval C (.bin .lt (.load (.loc "i")) (.bin .sub (.load (.loc "id")) (.lit .i32 1)))) isTrue) (exec C (.expr (.post .add (.loc "i"))))
        (exec C (.expr (.asg (.loc "mul") (.bin .mul (.load (.loc "mul")) (.load (.loc "mul")))))) R
        ⟨g, [("i", [.int .i32 i]), ("mul", [.int .i32 x]), ("id", [.int .i32 id])] :: fs, w⟩ =
      match squareLoop d x with
      | .ok r => .ok (.next, ⟨g, [("i", [.int .i32 (id - 1 : Nat)]), ("mul", [.int .i32 r]), ("id", [.int .i32 id])] :: fs, w⟩)
      | .error _ => .error .arith := by
  intro d
  induction d with
  | zero =>
    intro i x R h hR hM
    obtain ⟨R', rfl⟩ : ∃ R', R = R' + 1 := ⟨R - 1, by omega⟩
    have : i = id - 1 := by omega
    subst this
    rw [iter_unroll]
    crun [squareLoop]
  | succ d ih =>
    intro i x R h hR hM
    obtain ⟨R', rfl⟩ : ∃ R', R = R' + 1 := ⟨R - 1, by omega⟩
    rw [iter_unroll]
    have hcast : (x : Int) * x = ((x * x : Nat) : Int) := by simp
    by_cases hm : x * x < 2147483648
    · have := ih (i + 1) (x * x) R' (by omega) (by omega) hm
      simp only [Int.natCast_add, Int.natCast_one] at this
      simp only [squareLoop, hm, if_true]
      rw [← this]
      crun [hcast]
    · simp only [squareLoop, hm, if_false]
      crun [hcast, wrap_arith]

theorem squareLoop_small : ∀ (d M r : Nat), M < 2147483648 → squareLoop d M = .ok r → r < 2147483648
  | 0, M, r, hM, h => by simp only [squareLoop] at h; injection h with h; omega
  | d + 1, M, r, hM, h => by
    simp only [squareLoop] at h
    split at h
    · exact squareLoop_small d _ r (by omega) h
    · cases h

theorem squareLoop_error : ∀ (d M : Nat) (e : UB), squareLoop d M = .error e → e = .arith
  | 0, M, e, h => by cases h
  | d + 1, M, e, h => by
    simp only [squareLoop] at h
    split at h
    · exact squareLoop_error d _ e h
    · injection h with h; exact h.symm

theorem crun_period (p : Byte) (t : Ty) (g : Objs) (hL : 256 ≤ L) : call (clockHost send) Src.clockProg L (k + 1) "periodicity_from_period_id" [.int t p.toNat] ⟨g, fs, w⟩ =
    match periodOf p with
    | .ok s => .ok (u32Val s, ⟨g, fs, w⟩)
    | .error _ => .error .arith := by
  rw [ccall_fun cfind_periodicity]
  unfold Src.periodicity_from_period_id periodOf
  have hp := p.isLt
  by_cases h0 : p = 0
  · subst h0
    crun [show ((0 : Byte).toNat : Int) = 0 from rfl]
    rfl
  · have h1 : 1 ≤ p.toNat := by
      rcases Nat.eq_zero_or_pos p.toNat with h | h
      · exact absurd (BitVec.eq_of_toNat_eq h) h0
      · exact h
    have hn : ¬ (p.toNat : Int) = 0 := by omega
    have hl := square_text ⟨clockHost send, call (clockHost send) Src.clockProg L k, L⟩ p.toNat h1 (by omega) g fs w (p.toNat - 1) 0 2 L (by omega) (by omega) (by omega)
    simp only [h0, if_false]
    cases hs : squareLoop (p.toNat - 1) 2 with
    | error e =>
      rw [hs] at hl
      have := squareLoop_error _ _ _ hs
      subst this
      simp only [Int.natCast_zero, show ((2 : Nat) : Int) = 2 from rfl] at hl
      crun [exec_loop, hl]
      rfl
    | ok r =>
      rw [hs] at hl
      have hr := squareLoop_small _ _ _ (by omega) hs
      simp only [Int.natCast_zero, show ((2 : Nat) : Int) = 2 from rfl] at hl
      have hcast : (128 : Int) * r = ((128 * r : Nat) : Int) := by simp
      by_cases hm : 128 * r < 2147483648
      · crun [exec_loop, hl, hcast]
        simp only [bind, Except.bind, hm, if_true, BitVec.toNat_ofNat]
        congr 4
        omega
      · crun [exec_loop, hl, hcast, wrap_arith]
        simp only [bind, Except.bind, hm, if_false]

end
end Uwan.C
