import Verif.Lemmas.CodeAnswer

/-! # The commands handled by `handle_answ` of `ext/clock_sync.c` -/

namespace Uwan.C

theorem ans_cell {ω : Type} (m : Mem ω) (l : Bytes) (a : Byte) (r : Bytes) (j : Int) (hj : j = l.length) (o : String) (t : Ty) (v : Int) :
    setCell m none o j (.int t v) (some ((l ++ a :: r).map byteVal)) = .ok (.int .u8 (BitVec.ofInt 8 v).toNat, putObj m none o (((l ++ [BitVec.ofInt 8 v]) ++ r).map byteVal)) := by
  subst hj
  rw [setCell_of (old := byteVal a) (by omega) (by simp)]
  unfold setTo
  have h2 : assign (byteVal a) (.int t v) = .ok (byteVal (BitVec.ofInt 8 v)) := by
    unfold byteVal assign
    simp only [conv_u8_ofInt]
  simp only [h2]
  congr 3
  simp

theorem mid_get_aoff {mask mask' : Byte} {b : List Val} {B : Objs} (h : Mid mask b B) (size off aoff : Int) (corr per tok : Val) :
    (ansFrame B size off aoff mask' corr per tok).get "ans_buf_offset" = some [.int .u8 aoff] := by
  cases h <;> rfl

theorem mid_put_aoff {mask mask' : Byte} {b : List Val} {B : Objs} (h : Mid mask b B) (size off aoff a' : Int) (corr per tok : Val) :
    (ansFrame B size off aoff mask' corr per tok).put "ans_buf_offset" [.int .u8 a'] = ansFrame B size off a' mask' corr per tok := by
  cases h <;> rfl

theorem seq_fault {C : Ctx Around} {s t : Stmt} {m : Mem Around} {e : Fault} (h : exec C s m = .error e) : exec C (.seq s t) m = .error e := by
  rw [exec_seq, h]
  rfl

section
variable (send : Sender) (L k : Nat) (c : Cs) (n : Nat) (period : Bool) (args : Objs) (fs : List Objs) (w : Around) (port : Byte) (mem : Bytes) (size off : Nat) (mask mask' : Byte) (corr per tok : Val)

/-- One byte more of the answer. -/
theorem put_step (C : Ctx Around) (e : Expr) {b : List Val} {B : Objs} (hB : Mid mask b B) (out : Bytes) (x : Byte) (tl : Bytes) (s o : Int) (hl : out.length < 255) (ty : Ty) (v : Int)
    (he : ∀ a g, eval C e ⟨g, ansFrame B s o a mask' corr per tok :: fs, w⟩ = .ok (.int ty v, ⟨g, ansFrame B s o a mask' corr per tok :: fs, w⟩)) :
    exec C (ansPut e) ⟨encCs c (out ++ x :: tl) n period args, ansFrame B s o out.length mask' corr per tok :: fs, w⟩ =
      .ok (.next, ⟨encCs c ((out ++ [BitVec.ofInt 8 v]) ++ tl) n period args, ansFrame B s o (out ++ [BitVec.ofInt 8 v]).length mask' corr per tok :: fs, w⟩) := by
  have hg := mid_get_aoff (mask' := mask') hB s o out.length corr per tok
  have hp := mid_put_aoff (mask' := mask') hB s o out.length (out.length + 1) corr per tok
  unfold ansPut
  crun [he, ans_cell, hg, hp, List.length_append, List.length_singleton, Int.natCast_add, Int.natCast_one, List.length_nil, Int.natCast_zero]

theorem sw_version {b : List Val} {B : Objs} (hB : Mid mask b B) (out : Bytes) (x y z : Byte) (tl : Bytes) (s o : Int) (hl : out.length < 200) :
    exec (ansCtx send L k) ansVersion ⟨encCs c (out ++ x :: y :: z :: tl) n period args, ansFrame B s o out.length mask' corr per tok :: fs, w⟩ =
      .ok (.brk, ⟨encCs c ((out ++ [0, 1, 1]) ++ tl) n period args, ansFrame B s o (out ++ [0, 1, 1]).length mask' corr per tok :: fs, w⟩) := by
  unfold ansVersion
  rw [seq_next (put_step c n period args fs w mask mask' corr per tok _ _ hB out x (y :: z :: tl) s o (by omega) .i32 0 (fun _ _ => rfl)),
    seq_next (put_step c n period args fs w mask mask' corr per tok _ _ hB _ y (z :: tl) s o (by simp; omega) .i32 1 (fun _ _ => rfl)),
    seq_next (put_step c n period args fs w mask mask' corr per tok _ _ hB _ z tl s o (by simp; omega) .i32 1 (fun _ _ => rfl))]
  have : out ++ [BitVec.ofInt 8 0] ++ [BitVec.ofInt 8 1] ++ [BitVec.ofInt 8 1] = out ++ [0, 1, 1] := by
    simp
  rw [this]
  rfl

theorem sw_time_short {b : List Val} {B : Objs} (hB : Mid mask b B) (buf : Bytes) (a : Int) (ho : off ≤ size) (hs : size < 256) (h : size < off + 5) :
    exec (ansCtx send L k) ansTime ⟨encCs c buf n period args, ansFrame B size off a mask' corr per tok :: fs, w⟩ =
      .ok (.brk, ⟨encCs c buf n period args, ansFrame B size off a mask' corr per tok :: fs, w⟩) := by
  unfold ansTime
  cases hB <;> unfold ansFrame <;> simp only [List.nil_append, List.cons_append] <;> crun []

set_option maxHeartbeats 1000000 in
theorem sw_time {b : List Val} {B : Objs} (hB : Mid mask b B) (buf : Bytes) (a : Int) (h : off + 5 ≤ size) (hs : size < 256) (hm : size ≤ mem.length) (hcb : c.cbs.isSome) (hc : Slot .i32 corr) (ht : Slot .u8 tok)
    (b0 b1 b2 b3 b4 : Byte) (h0 : byteAt mem off = b0) (h1 : byteAt mem (off + 1 : Nat) = b1) (h2 : byteAt mem (off + 2 : Nat) = b2) (h3 : byteAt mem (off + 3 : Nat) = b3) (h4 : byteAt mem (off + 4 : Nat) = b4) :
    exec (ansCtx send L k) ansTime ⟨encCs c buf n period (packetObjs port size mem), ansFrame B size off a mask' corr per tok :: fs, w⟩ =
      .ok (.brk, ⟨encCs (if b4 &&& 0xf = c.token then { c with token := (c.token + 1) &&& 0xf } else c) buf n period (packetObjs port size mem),
        ansFrame B size (off + 5 : Nat) a mask' (.int .i32 (ofBits .i32 (or32 b0 b1 b2 b3))) per (.int .u8 (b4 &&& 0xf).toNat) :: fs,
        w.say ((if 128 ≤ b3.toNat then [.ubShift] else []) ++ (if b4 &&& 0xf = c.token then [.correction (or32 b0 b1 b2 b3)] else []))⟩) := by
  have e1 : ((off + 1 : Nat) : Int) = (off : Int) + 1 := rfl
  have e2 : ((off + 2 : Nat) : Int) = (off : Int) + 1 + 1 := rfl
  have e3 : ((off + 3 : Nat) : Int) = (off : Int) + 1 + 1 + 1 := rfl
  have e4 : ((off + 4 : Nat) : Int) = (off : Int) + 1 + 1 + 1 + 1 := rfl
  have e5 : ((off + 5 : Nat) : Int) = (off : Int) + 1 + 1 + 1 + 1 + 1 := rfl
  rw [e1] at h1
  rw [e2] at h2
  rw [e3] at h3
  rw [e4] at h4
  rw [e5]
  have ci : c.cbs.isSome = true := hcb
  have hk := (token_facts c.token).1
  have hc' : ∀ t n, assign corr (.int t n) = .ok (.int .i32 (Ty.i32.conv n)) := hc
  have ht' : ∀ t n, assign tok (.int t n) = .ok (.int .u8 (Ty.u8.conv n)) := ht
  have hor : (bits (b0.toNat : Int) ||| bits ((b1.toNat : Int) * 2 ^ 8) ||| bits ((b2.toNat : Int) * 2 ^ 16) ||| b3.setWidth 32 <<< 24) = or32 b0 b1 b2 b3 := by
    rw [bits_byte, bits_shl, bits_shl, or32_bits]
  have hsh : ∀ m, shift (clockHost send) .shl .i32 (b3.toNat : Int) 24 m = .ok (.int .i32 (ofBits .i32 (b3.setWidth 32 <<< 24)), ⟨m.glob, m.frames, m.io.say (if 128 ≤ b3.toNat then [.ubShift] else [])⟩) := by
    intro m
    rw [shl24]
    split
    · rfl
    · rw [say_none]
  have hcor : BitVec.ofInt 32 (ofBits .i32 (or32 b0 b1 b2 b3)) = or32 b0 b1 b2 b3 := bits_ofBits_i32 _
  unfold ansTime
  by_cases htk : b4 &&& 0xf = c.token
  · have htk' : ((b4 &&& 0xf).toNat : Int) = (c.token.toNat : Int) := by rw [htk]
    rw [if_pos htk, if_pos htk]
    cases hB <;> unfold ansFrame <;> simp only [List.nil_append, List.cons_append] <;>
      crun [h0, h1, h2, h3, h4, hc', ht', hsh, and15_conv, ci, hk, conv_i32_ofBits, bits_ofBits_i32, cput_token, hor, htk', hcor]
  · have htk' : ((b4 &&& 0xf).toNat : Int) ≠ (c.token.toNat : Int) := by
      intro h
      exact htk (BitVec.eq_of_toNat_eq (by omega))
    rw [if_neg htk, if_neg htk]
    cases hB <;> unfold ansFrame <;> simp only [List.nil_append, List.cons_append] <;>
      crun [h0, h1, h2, h3, h4, hc', ht', hsh, and15_conv, ci, hk, conv_i32_ofBits, bits_ofBits_i32, cput_token, hor, htk', hcor, List.append_nil]

theorem sw_period_tail {cm b : List Val} {D : Objs} (hD : D = [] ∨ ∃ d, D = [("seconds", d)]) (h4 : mask' &&& 4 ≠ 0) (out : Bytes) (x0 x1 x2 x3 : Byte) (tl : Bytes) (s o : Int) (hl : out.length < 200) (hcb : c.cbs.isSome) :
    exec (ansCtx send L k) ansPeriodTail ⟨encCs c (out ++ x0 :: x1 :: x2 :: x3 :: tl) n period args, ansFrame (D ++ [("cmd_mask", cm), ("cmd", b)]) s o out.length mask' corr per tok :: fs, w⟩ =
      .ok (.brk, ⟨encCs c ((out ++ gpsBytes w.unix) ++ tl) n period args,
        ansFrame ([("cur_time", [u32Val (unixToGps w.unix)])] ++ D ++ [("cmd_mask", cm), ("cmd", b)]) s o (out ++ gpsBytes w.unix).length mask' corr per tok :: fs, w.say [.getTime]⟩) := by
  have ci : c.cbs.isSome = true := hcb
  have hM : Mid mask' b ([("cur_time", [u32Val (unixToGps w.unix)])] ++ D ++ [("cmd_mask", cm), ("cmd", b)]) := by
    rcases hD with rfl | ⟨d, rfl⟩
    · exact .three _ _ h4
    · exact .four _ _ _ h4
  have h1 : ∀ S, exec (ansCtx send L k) (.seq (.decl "cur_time" ([.uninit (some .u32)]))
    (.seq (.expr (.asg (.loc "cur_time") (.call (.fn "utils_unix_to_gps") (.cons (.call (.load (.fld (.elem (.load (.glob "cs_callbacks")) (.lit .i32 0)) ".get_unixtime")) (.nil)) (.nil))))) S))
      ⟨encCs c (out ++ x0 :: x1 :: x2 :: x3 :: tl) n period args, ansFrame (D ++ [("cmd_mask", cm), ("cmd", b)]) s o out.length mask' corr per tok :: fs, w⟩ =
      exec (ansCtx send L k) S ⟨encCs c (out ++ x0 :: x1 :: x2 :: x3 :: tl) n period args, ansFrame ([("cur_time", [u32Val (unixToGps w.unix)])] ++ D ++ [("cmd_mask", cm), ("cmd", b)]) s o out.length mask' corr per tok :: fs, w.say [.getTime]⟩ := by
    intro S
    rcases hD with rfl | ⟨d, rfl⟩ <;> unfold ansFrame <;> simp only [List.nil_append, List.cons_append] <;> crun [ci, crun_unix_to_gps]
  have et : ∀ a g, eval (ansCtx send L k) (.load (.loc "cur_time")) ⟨g, ansFrame ([("cur_time", [u32Val (unixToGps w.unix)])] ++ D ++ [("cmd_mask", cm), ("cmd", b)]) s o a mask' corr per tok :: fs, w.say [.getTime]⟩ =
      .ok (.int .u32 (unixToGps w.unix).toNat, ⟨g, ansFrame ([("cur_time", [u32Val (unixToGps w.unix)])] ++ D ++ [("cmd_mask", cm), ("cmd", b)]) s o a mask' corr per tok :: fs, w.say [.getTime]⟩) := by
    intro a g
    unfold ansFrame
    simp only [List.nil_append, List.cons_append]
    crun []
  have es : ∀ (j : Nat) (v : Int), v = j → j < 32 → ∀ a g, eval (ansCtx send L k) (.bin .shr (.load (.loc "cur_time")) (.lit .i32 v)) ⟨g, ansFrame ([("cur_time", [u32Val (unixToGps w.unix)])] ++ D ++ [("cmd_mask", cm), ("cmd", b)]) s o a mask' corr per tok :: fs, w.say [.getTime]⟩ =
      .ok (.int .u32 (((unixToGps w.unix).toNat : Int) / 2 ^ j), ⟨g, ansFrame ([("cur_time", [u32Val (unixToGps w.unix)])] ++ D ++ [("cmd_mask", cm), ("cmd", b)]) s o a mask' corr per tok :: fs, w.say [.getTime]⟩) := by
    intro j v hv hj a g
    subst hv
    unfold ansFrame
    simp only [List.nil_append, List.cons_append]
    crun []
  unfold ansPeriodTail
  rw [h1, seq_next (put_step c n period args fs _ mask' mask' corr per tok _ _ hM out x0 _ s o (by omega) _ _ et),
    seq_next (put_step c n period args fs _ mask' mask' corr per tok _ _ hM _ x1 _ s o (by simp; omega) _ _ (es 8 8 rfl (by decide))),
    seq_next (put_step c n period args fs _ mask' mask' corr per tok _ _ hM _ x2 _ s o (by simp; omega) _ _ (es 16 16 rfl (by decide))),
    seq_next (put_step c n period args fs _ mask' mask' corr per tok _ _ hM _ x3 _ s o (by simp; omega) _ _ (es 24 24 rfl (by decide)))]
  rw [low_0, low_1, low_2, low_3]
  have : out ++ [byteOf (unixToGps w.unix) 0] ++ [byteOf (unixToGps w.unix) 1] ++ [byteOf (unixToGps w.unix) 2] ++ [byteOf (unixToGps w.unix) 3] = out ++ gpsBytes w.unix := by
    simp [gpsBytes]
  rw [this]
  rfl

theorem sw_period_short {b : List Val} {B : Objs} (hB : Mid mask b B) (buf : Bytes) (a : Int) (ho : off ≤ size) (h : size < off + 1) :
    exec (ansCtx send L k) ansPeriod ⟨encCs c buf n period args, ansFrame B size off a mask' corr per tok :: fs, w⟩ =
      .ok (.brk, ⟨encCs c buf n period args, ansFrame B size off a mask' corr per tok :: fs, w⟩) := by
  unfold ansPeriod
  cases hB <;> unfold ansFrame <;> simp only [List.nil_append, List.cons_append] <;> crun []

theorem sw_period_start (S : Stmt) {cm b : List Val} (buf : Bytes) (a : Int) (h : off + 1 ≤ size) (hs : size < 256) (hm : size ≤ mem.length) (hp : Slot .u8 per) (x : Byte) (hx : byteAt mem off = x) :
    exec (ansCtx send L k) (.seq (.ite (.bin .lt (.bin .sub (.load (.loc "size")) (.load (.loc "offset"))) (.lit .i32 1))
      (.brk)
      (.skip))
    (.seq (.expr (.asg (.loc "periodicity") (.load (.elem (.load (.loc "buf")) (.post .add (.loc "offset")))))) S))
      ⟨encCs c buf n period (packetObjs port size mem), ansFrame [("cmd_mask", cm), ("cmd", b)] size off a mask' corr per tok :: fs, w⟩ =
      exec (ansCtx send L k) S ⟨encCs c buf n period (packetObjs port size mem), ansFrame [("cmd_mask", cm), ("cmd", b)] size (off + 1 : Nat) a mask' corr (.int .u8 x.toNat) tok :: fs, w⟩ := by
  have hp' : ∀ t n, assign per (.int t n) = .ok (.int .u8 (Ty.u8.conv n)) := hp
  have := x.isLt
  unfold ansFrame
  simp only [List.nil_append, List.cons_append]
  crun [hx, hp', Int.natCast_add, Int.natCast_one]

theorem status_none {cm b : List Val} (out : Bytes) (y : Byte) (tl : Bytes) (s o : Int) (hl : out.length < 200) (hcb : c.cbs.isSome) :
    exec (ansCtx send L k) ansStatus ⟨encCs c (out ++ y :: tl) n false args, ansFrame [("cmd_mask", cm), ("cmd", b)] s o out.length mask' corr per tok :: fs, w⟩ =
      .ok (.next, ⟨encCs c ((out ++ [BitVec.ofInt 8 1]) ++ tl) n false args, ansFrame [("cmd_mask", cm), ("cmd", b)] s o (out ++ [BitVec.ofInt 8 1]).length mask' corr per tok :: fs, w⟩) := by
  have ci : c.cbs.isSome = true := hcb
  have hps := put_step c n false args fs w mask' mask' corr per tok (ansCtx send L k) (.lit .i32 1) (.two (b := b) cm) out y tl s o (by omega) .i32 1 (fun _ _ => rfl)
  unfold ansStatus
  generalize BitVec.ofInt 8 1 = one at hps ⊢
  crun [ci, hps, optFn]

theorem status_some {cm b : List Val} (out : Bytes) (y : Byte) (tl : Bytes) (s o : Int) (hl : out.length < 200) (hcb : c.cbs.isSome) (hL : 256 ≤ L) (p : Byte) (sec : U32) (hp : periodOf p = .ok sec) :
    exec (ansCtx send L k) ansStatus ⟨encCs c (out ++ y :: tl) n true args, ansFrame [("cmd_mask", cm), ("cmd", b)] s o out.length mask' corr (.int .u8 p.toNat) tok :: fs, w⟩ =
      .ok (.next, ⟨encCs c ((out ++ [BitVec.ofInt 8 0]) ++ tl) n true args, ansFrame [("seconds", [Val.int .u32 sec.toNat]), ("cmd_mask", cm), ("cmd", b)] s o (out ++ [BitVec.ofInt 8 0]).length mask' corr (.int .u8 p.toNat) tok :: fs, w.say [.period sec]⟩) := by
  have ci : c.cbs.isSome = true := hcb
  have hg : ∀ a : Int, (ansFrame [("seconds", [Val.int .u32 sec.toNat]), ("cmd_mask", cm), ("cmd", b)] s o a mask' corr (.int .u8 p.toNat) tok).get "ans_buf_offset" = some [.int .u8 a] := fun _ => rfl
  have hput : ∀ a a' : Int, (ansFrame [("seconds", [Val.int .u32 sec.toNat]), ("cmd_mask", cm), ("cmd", b)] s o a mask' corr (.int .u8 p.toNat) tok).put "ans_buf_offset" [.int .u8 a'] =
    ansFrame [("seconds", [Val.int .u32 sec.toNat]), ("cmd_mask", cm), ("cmd", b)] s o a' mask' corr (.int .u8 p.toNat) tok := fun _ _ => rfl
  have hps : exec (ansCtx send L k) (ansPut (.lit .i32 0)) ⟨encCs c (out ++ y :: tl) n true args, ansFrame [("seconds", [Val.int .u32 sec.toNat]), ("cmd_mask", cm), ("cmd", b)] s o out.length mask' corr (.int .u8 p.toNat) tok :: fs, w.say [.period sec]⟩ =
      .ok (.next, ⟨encCs c ((out ++ [BitVec.ofInt 8 0]) ++ tl) n true args, ansFrame [("seconds", [Val.int .u32 sec.toNat]), ("cmd_mask", cm), ("cmd", b)] s o (out ++ [BitVec.ofInt 8 0]).length mask' corr (.int .u8 p.toNat) tok :: fs, w.say [.period sec]⟩) := by
    unfold ansPut
    crun [ans_cell, hg, hput, List.length_append, List.length_singleton, Int.natCast_add, Int.natCast_one, List.length_nil, Int.natCast_zero]
  have hcp : ∀ fs, call (clockHost send) Src.clockProg L (k + 1) "periodicity_from_period_id" [.int .u8 p.toNat] ⟨encCs c (out ++ y :: tl) n true args, fs, w⟩ = .ok (.int .u32 sec.toNat, ⟨encCs c (out ++ y :: tl) n true args, fs, w⟩) := by
    intro fs
    have hcp := crun_period send L k fs w p .u8 (encCs c (out ++ y :: tl) n true args) hL
    rw [hp] at hcp
    exact hcp
  unfold ansStatus
  unfold ansFrame at hps ⊢
  simp only [List.nil_append, List.cons_append] at hps ⊢
  generalize BitVec.ofInt 8 0 = zero at hps ⊢
  have hsec := sec.isLt
  crun [ci, hps, optFn, hcp]

theorem status_wild {cm b : List Val} (buf : Bytes) (a : Int) (s o : Int) (hcb : c.cbs.isSome) (hL : 256 ≤ L) (p : Byte) (e : UB) (hp : periodOf p = .error e) :
    exec (ansCtx send L k) ansStatus ⟨encCs c buf n true args, ansFrame [("cmd_mask", cm), ("cmd", b)] s o a mask' corr (.int .u8 p.toNat) tok :: fs, w⟩ = .error .arith := by
  have ci : c.cbs.isSome = true := hcb
  have hcp : ∀ fs, call (clockHost send) Src.clockProg L (k + 1) "periodicity_from_period_id" [.int .u8 p.toNat] ⟨encCs c buf n true args, fs, w⟩ = .error .arith := by
    intro fs
    have hcp := crun_period send L k fs w p .u8 (encCs c buf n true args) hL
    rw [hp] at hcp
    exact hcp
  unfold ansStatus ansFrame
  simp only [List.nil_append, List.cons_append]
  crun [ci, optFn, hcp]

theorem sw_period_none {cm b : List Val} (h4 : mask' &&& 4 ≠ 0) (out : Bytes) (y0 y1 x0 x1 x2 x3 : Byte) (tl : Bytes) (hl : out.length < 100) (hcb : c.cbs.isSome) (h : off + 1 ≤ size) (hs : size < 256) (hm : size ≤ mem.length)
    (hp : Slot .u8 per) (x : Byte) (hx : byteAt mem off = x) :
    exec (ansCtx send L k) ansPeriod ⟨encCs c (out ++ y0 :: y1 :: x0 :: x1 :: x2 :: x3 :: tl) n false (packetObjs port size mem), ansFrame [("cmd_mask", cm), ("cmd", b)] size off out.length mask' corr per tok :: fs, w⟩ =
      .ok (.brk, ⟨encCs c ((out ++ ([0x2, 1] ++ gpsBytes w.unix)) ++ tl) n false (packetObjs port size mem),
        ansFrame [("cur_time", [u32Val (unixToGps w.unix)]), ("cmd_mask", cm), ("cmd", b)] size (off + 1 : Nat) (out ++ ([0x2, 1] ++ gpsBytes w.unix)).length mask' corr (.int .u8 x.toNat) tok :: fs, w.say [.getTime]⟩) := by
  have hM : Mid mask' b [("cmd_mask", cm), ("cmd", b)] := .two _
  unfold ansPeriod
  rw [sw_period_start send L k c n false fs w port mem size off mask' corr per tok _ _ _ h hs hm hp x hx,
    seq_next (put_step c n false _ fs _ mask' mask' corr _ tok _ _ hM out y0 _ size _ (by omega) .i32 2 (fun _ _ => rfl)),
    seq_next (status_none send L k c n _ fs w mask' corr _ tok _ y1 _ _ _ (by simp; omega) hcb)]
  have h3 := sw_period_tail send L k c n false (packetObjs port size mem) fs w mask' corr (.int .u8 x.toNat) tok (D := []) (.inl rfl) (cm := cm) (b := b) h4 ((out ++ [BitVec.ofInt 8 2]) ++ [BitVec.ofInt 8 1]) x0 x1 x2 x3 tl size (off + 1 : Nat) (by simp; omega) hcb
  have : out ++ [BitVec.ofInt 8 2] ++ [BitVec.ofInt 8 1] ++ gpsBytes w.unix = out ++ ([0x2, 1] ++ gpsBytes w.unix) := by
    simp
  rw [this] at h3
  exact h3

theorem sw_period_some {cm b : List Val} (h4 : mask' &&& 4 ≠ 0) (out : Bytes) (y0 y1 x0 x1 x2 x3 : Byte) (tl : Bytes) (hl : out.length < 100) (hcb : c.cbs.isSome) (h : off + 1 ≤ size) (hs : size < 256) (hm : size ≤ mem.length)
    (hp : Slot .u8 per) (x : Byte) (hx : byteAt mem off = x) (hL : 256 ≤ L) (sec : U32) (hsec : periodOf x = .ok sec) :
    exec (ansCtx send L k) ansPeriod ⟨encCs c (out ++ y0 :: y1 :: x0 :: x1 :: x2 :: x3 :: tl) n true (packetObjs port size mem), ansFrame [("cmd_mask", cm), ("cmd", b)] size off out.length mask' corr per tok :: fs, w⟩ =
      .ok (.brk, ⟨encCs c ((out ++ ([0x2, 0] ++ gpsBytes w.unix)) ++ tl) n true (packetObjs port size mem),
        ansFrame [("cur_time", [u32Val (unixToGps w.unix)]), ("seconds", [u32Val sec]), ("cmd_mask", cm), ("cmd", b)] size (off + 1 : Nat) (out ++ ([0x2, 0] ++ gpsBytes w.unix)).length mask' corr (.int .u8 x.toNat) tok :: fs,
        w.say ([.period sec] ++ [.getTime])⟩) := by
  have hM : Mid mask' b [("cmd_mask", cm), ("cmd", b)] := .two _
  unfold ansPeriod
  rw [sw_period_start send L k c n true fs w port mem size off mask' corr per tok _ _ _ h hs hm hp x hx,
    seq_next (put_step c n true _ fs _ mask' mask' corr _ tok _ _ hM out y0 _ size _ (by omega) .i32 2 (fun _ _ => rfl)),
    seq_next (status_some send L k c n _ fs w mask' corr tok _ y1 _ _ _ (by simp; omega) hcb hL x sec hsec)]
  have h3 := sw_period_tail send L k c n true (packetObjs port size mem) fs (w.say [.period sec]) mask' corr (.int .u8 x.toNat) tok (D := [("seconds", [u32Val sec])]) (.inr ⟨_, rfl⟩) (cm := cm) (b := b) h4 ((out ++ [BitVec.ofInt 8 2]) ++ [BitVec.ofInt 8 0]) x0 x1 x2 x3 tl size (off + 1 : Nat) (by simp; omega) hcb
  have : out ++ [BitVec.ofInt 8 2] ++ [BitVec.ofInt 8 0] ++ gpsBytes w.unix = out ++ ([0x2, 0] ++ gpsBytes w.unix) := by
    simp
  rw [around_unix, this, around_say] at h3
  exact h3

theorem sw_period_wild {cm b : List Val} (out : Bytes) (y0 : Byte) (tl : Bytes) (hl : out.length < 100) (hcb : c.cbs.isSome) (h : off + 1 ≤ size) (hs : size < 256) (hm : size ≤ mem.length)
    (hp : Slot .u8 per) (x : Byte) (hx : byteAt mem off = x) (hL : 256 ≤ L) (e : UB) (hsec : periodOf x = .error e) :
    exec (ansCtx send L k) ansPeriod ⟨encCs c (out ++ y0 :: tl) n true (packetObjs port size mem), ansFrame [("cmd_mask", cm), ("cmd", b)] size off out.length mask' corr per tok :: fs, w⟩ = .error .arith := by
  have hM : Mid mask' b [("cmd_mask", cm), ("cmd", b)] := .two _
  unfold ansPeriod
  rw [sw_period_start send L k c n true fs w port mem size off mask' corr per tok _ _ _ h hs hm hp x hx,
    seq_next (put_step c n true _ fs _ mask' mask' corr _ tok _ _ hM out y0 _ size _ (by omega) .i32 2 (fun _ _ => rfl))]
  have h3 := status_wild send L k c n (packetObjs port size mem) fs w mask' corr tok (cm := cm) (b := b) ((out ++ [BitVec.ofInt 8 2]) ++ tl) (out ++ [BitVec.ofInt 8 2]).length size (off + 1 : Nat) hcb hL x e hsec
  exact seq_fault h3

theorem sw_resync_oob {b : List Val} {B : Objs} (hB : Mid mask b B) (buf : Bytes) (a : Int) (ho : off ≤ 255) (hm : mem.length ≤ off) :
    exec (ansCtx send L k) ansResync ⟨encCs c buf n period (packetObjs port size mem), ansFrame B size off a mask' corr per tok :: fs, w⟩ = .error .oob := by
  have hl : ((mem.map byteVal).length : Int) ≤ off := by
    rw [List.length_map]
    omega
  have hz : (0 : Int) + off = off := by omega
  unfold ansResync
  cases hB <;> unfold ansFrame <;> simp only [List.nil_append, List.cons_append] <;> crun [cell_oob hl, hz]

theorem sw_resync {b : List Val} {B : Objs} (hB : Mid mask b B) (buf : Bytes) (a : Int) (ho : off ≤ 255) (hm : off < mem.length) (hcb : c.cbs.isSome) (x : Byte) (hx : byteAt mem off = x) :
    exec (ansCtx send L k) ansResync ⟨encCs c buf n period (packetObjs port size mem), ansFrame B size off a mask' corr per tok :: fs, w⟩ =
      .ok (.brk, ⟨encCs { c with nbRep := x &&& 0x7 } buf n period (packetObjs port size mem), ansFrame B size ((off + 1) % 256 : Nat) a mask' corr per tok :: fs,
        w.say (if x &&& 0x7 ≠ 0 then [.resync] else [])⟩) := by
  have ci : c.cbs.isSome = true := hcb
  have hk := (token_facts x).2
  have hmod : (((off + 1) % 256 : Nat) : Int) = ((off : Int) + 1) % 256 := by omega
  rw [hmod]
  unfold ansResync
  by_cases hz : x &&& 0x7 = 0
  · have hz' : eqb ((x &&& 0x7).toNat : Int) 0 = true := by
      rw [hz]
      rfl
    rw [if_neg (not_not_intro hz), say_none]
    cases hB <;> unfold ansFrame <;> simp only [List.nil_append, List.cons_append] <;> crun [hx, hk, cput_rep, ci, hz']
  · have hz' : eqb ((x &&& 0x7).toNat : Int) 0 = false := by
      unfold eqb
      apply decide_eq_false
      intro h
      apply hz
      exact BitVec.eq_of_toNat_eq (by simpa using (by omega : (x &&& 0x7).toNat = 0))
    rw [if_pos hz]
    cases hB <;> unfold ansFrame <;> simp only [List.nil_append, List.cons_append] <;> crun [hx, hk, cput_rep, ci, hz']
end
end Uwan.C
