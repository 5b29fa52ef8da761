import Verif.Lemmas.CodeClock

/-! # The parser of `ext/clock_sync.c` -/

namespace Uwan.C

/-! ## Bits -/

theorem and_byte_zero (a b : Byte) : eqb (ofBits .i32 (bits (a.toNat : Int) &&& bits (b.toNat : Int))) 0 = decide (a &&& b = 0) := by
  have h : (a.setWidth 32 &&& b.setWidth 32 : BitVec 32) = (a &&& b).setWidth 32 := by simp
  have hl := (a &&& b).isLt
  have h2 : ((a &&& b).setWidth 32 : BitVec 32).toNat = (a &&& b).toNat := by
    rw [BitVec.toNat_setWidth]
    omega
  rw [bits_byte, bits_byte, h, ofBits_small _ (by omega), h2]
  unfold eqb
  rw [decide_eq_decide]
  constructor
  · intro h
    exact BitVec.eq_of_toNat_eq (by simpa using (by omega : (a &&& b).toNat = 0))
  · intro h
    rw [h]
    rfl

theorem ofInt8_bits (v : BitVec 32) : BitVec.ofInt 8 (ofBits .i32 v) = v.setWidth 8 := by
  apply BitVec.eq_of_toNat_eq
  rw [BitVec.toNat_ofInt, BitVec.toNat_setWidth]
  unfold ofBits
  rw [if_neg (by decide), BitVec.toInt_eq_toNat_cond]
  split <;> omega

theorem conv_u8_ofInt (n : Int) : Ty.u8.conv n = ((BitVec.ofInt 8 n).toNat : Int) := by
  rw [BitVec.toNat_ofInt]
  simp only [Ty.conv]
  omega

theorem conv_i32_ofBits (v : BitVec 32) : Ty.i32.conv (ofBits .i32 v) = ofBits .i32 v := by
  unfold ofBits
  rw [if_neg (by decide)]
  simp only [Ty.conv]
  have h0 := v.le_toInt
  have h1 := v.toInt_lt
  exact Int.bmod_eq_of_le (by simpa using h0) (by simpa using h1)

/-- `1 << c`. -/
def shl1 (c : Nat) : Int := ofBits .i32 (BitVec.ofNat 32 (2 ^ c))

/-- The marks of `1 << c`. -/
def marks (c : Nat) : List CsEv := if c = 31 then [.ubShift] else []

theorem say_none (w : Around) : w.say [] = w := by simp [Around.say]

theorem shl_one_small : ∀ c : Fin 31, ((0 : Int) ≤ 1 ∧ 1 * (2 : Int) ^ c.val ≤ 2147483647) ∧ 1 * (2 : Int) ^ c.val = ofBits .i32 (BitVec.ofNat 32 (2 ^ c.val)) := by decide +kernel

theorem shl_cmd (send : Sender) (m : Mem Around) (c : Nat) (h : c ≤ 31) :
    shift (clockHost send) .shl .i32 1 c m = .ok (.int .i32 (shl1 c), ⟨m.glob, m.frames, m.io.say (marks c)⟩) := by
  unfold shift
  rw [if_pos (by omega), if_neg (by decide), if_neg (by decide), Int.toNat_natCast]
  unfold marks shl1
  by_cases hc : c = 31
  · subst hc
    rw [if_pos rfl, if_neg (by decide)]
    have : ((1 : Int) * 2 ^ 31).bmod 4294967296 = ofBits .i32 (BitVec.ofNat 32 (2 ^ 31)) := by decide
    rw [this]
    rfl
  · have h2 := shl_one_small ⟨c, by omega⟩
    rw [if_neg hc, if_pos h2.1, h2.2, say_none]

theorem shl_cmd_wild (send : Sender) (m : Mem Around) (c : Nat) (h : 32 ≤ c) : shift (clockHost send) .shl .i32 1 c m = .error .arith := by
  unfold shift
  rw [if_neg (by omega)]

theorem conv_shl1 (c : Nat) : Ty.u8.conv (shl1 c) = ((BitVec.ofNat 8 (2 ^ c)).toNat : Int) := by
  rw [conv_u8_ofInt]
  unfold shl1
  rw [ofInt8_bits]
  congr 2
  simp

theorem or_shl1 (mask : Byte) (c : Nat) : Ty.u8.conv (ofBits .i32 (bits (mask.toNat : Int) ||| bits (shl1 c))) = ((mask ||| BitVec.ofNat 8 (2 ^ c)).toNat : Int) := by
  rw [conv_u8_ofInt, ofInt8_bits]
  unfold shl1
  rw [bits_ofBits_i32, bits_byte]
  congr 2
  simp

theorem token_facts : ∀ b : Byte, Ty.u8.conv (ofBits .i32 (bits ((b.toNat : Int) + 1) &&& bits 15)) = ((((b + 1) &&& 0xf : Byte)).toNat : Int) ∧
    Ty.i32.conv (ofBits .i32 (bits (b.toNat : Int) &&& bits 7)) = ((b &&& 0x7).toNat : Int) := by decide +kernel

/-! ## The text in parts -/

/-- Take the next identifier, and stop if it was seen before. -/
def ansHead (S : Stmt) : Stmt :=
  .seq (.decl "cmd" ([.uninit (some .u8)]))
    (.seq (.expr (.asg (.loc "cmd") (.load (.elem (.load (.loc "buf")) (.post .add (.loc "offset"))))))
      (.seq (.decl "cmd_mask" ([.uninit (some .u8)]))
        (.seq (.expr (.asg (.loc "cmd_mask") (.bin .shl (.lit .i32 1) (.load (.loc "cmd")))))
          (.seq (.ite (.bin .and (.load (.loc "exec_cmd_mask")) (.load (.loc "cmd_mask")))
              (.brk)
              (.skip))
            (.seq (.expr (.asgOp .or (.loc "exec_cmd_mask") (.bin .shl (.lit .i32 1) (.load (.loc "cmd"))))) S)))))

/-- `ans_buf[ans_buf_offset++] = e` -/
def ansPut (e : Expr) : Stmt := .expr (.asg (.elem (.addr (.glob "ans_buf")) (.post .add (.loc "ans_buf_offset"))) e)

def ansVersion : Stmt := .seq (ansPut (.lit .i32 0)) (.seq (ansPut (.lit .i32 1)) (.seq (ansPut (.lit .i32 1)) (.brk)))

def ansTime : Stmt :=
  .seq (.ite (.bin .lt (.bin .sub (.load (.loc "size")) (.load (.loc "offset"))) (.lit .i32 5))
      (.brk)
      (.skip))
    (.seq (.expr (.asg (.loc "corr_value") (.load (.elem (.load (.loc "buf")) (.post .add (.loc "offset"))))))
      (.seq (.expr (.asgOp .or (.loc "corr_value") (.bin .shl (.load (.elem (.load (.loc "buf")) (.post .add (.loc "offset")))) (.lit .i32 8))))
        (.seq (.expr (.asgOp .or (.loc "corr_value") (.bin .shl (.load (.elem (.load (.loc "buf")) (.post .add (.loc "offset")))) (.lit .i32 16))))
          (.seq (.expr (.asgOp .or (.loc "corr_value") (.bin .shl (.load (.elem (.load (.loc "buf")) (.post .add (.loc "offset")))) (.lit .i32 24))))
            (.seq (.expr (.asg (.loc "token") (.bin .and (.load (.elem (.load (.loc "buf")) (.post .add (.loc "offset")))) (.lit .i32 15))))
              (.seq (.ite (.bin .eq (.load (.loc "token")) (.load (.glob "state_token_req")))
                  (.seq (.expr (.call (.load (.fld (.elem (.load (.glob "cs_callbacks")) (.lit .i32 0)) ".set_clock_correction")) (.cons (.load (.loc "corr_value")) (.nil))))
                    (.expr (.asg (.glob "state_token_req") (.bin .and (.bin .add (.load (.glob "state_token_req")) (.lit .i32 1)) (.lit .i32 15)))))
                  (.skip))
                (.brk)))))))

def ansPeriodTail : Stmt :=
  .seq (.decl "cur_time" ([.uninit (some .u32)]))
    (.seq (.expr (.asg (.loc "cur_time") (.call (.fn "utils_unix_to_gps") (.cons (.call (.load (.fld (.elem (.load (.glob "cs_callbacks")) (.lit .i32 0)) ".get_unixtime")) (.nil)) (.nil)))))
      (.seq (ansPut (.load (.loc "cur_time")))
        (.seq (ansPut (.bin .shr (.load (.loc "cur_time")) (.lit .i32 8)))
          (.seq (ansPut (.bin .shr (.load (.loc "cur_time")) (.lit .i32 16)))
            (.seq (ansPut (.bin .shr (.load (.loc "cur_time")) (.lit .i32 24)))
              (.brk))))))

/-- The status byte of the answer. -/
def ansStatus : Stmt :=
  .ite (.bin .eq (.load (.fld (.elem (.load (.glob "cs_callbacks")) (.lit .i32 0)) ".handle_app_time_periodicity_req")) (.null))
    (ansPut (.lit .i32 1))
    (.seq (.decl "seconds" ([.uninit (some .u32)]))
      (.seq (.expr (.asg (.loc "seconds") (.call (.fn "periodicity_from_period_id") (.cons (.load (.loc "periodicity")) (.nil)))))
        (.seq (.expr (.call (.load (.fld (.elem (.load (.glob "cs_callbacks")) (.lit .i32 0)) ".handle_app_time_periodicity_req")) (.cons (.load (.loc "seconds")) (.nil))))
          (ansPut (.lit .i32 0)))))

def ansPeriod : Stmt :=
  .seq (.ite (.bin .lt (.bin .sub (.load (.loc "size")) (.load (.loc "offset"))) (.lit .i32 1))
      (.brk)
      (.skip))
    (.seq (.expr (.asg (.loc "periodicity") (.load (.elem (.load (.loc "buf")) (.post .add (.loc "offset"))))))
      (.seq (ansPut (.lit .i32 2))
        (.seq ansStatus
          ansPeriodTail)))

def ansResync : Stmt :=
  .seq (.expr (.asg (.glob "force_resync_nb_of_rep") (.bin .and (.load (.elem (.load (.loc "buf")) (.post .add (.loc "offset")))) (.lit .i32 7))))
    (.seq (.ite (.bin .ne (.load (.glob "force_resync_nb_of_rep")) (.lit .i32 0))
        (.expr (.call (.load (.fld (.elem (.load (.glob "cs_callbacks")) (.lit .i32 0)) ".force_device_resync_req")) (.nil)))
        (.skip))
      (.brk))

/-- One command. -/
def ansSwitch : Stmt :=
  .block
    (.ite (.bin .eq (.load (.loc "cmd")) (.lit .i32 0)) ansVersion
      (.ite (.bin .eq (.load (.loc "cmd")) (.lit .i32 1)) ansTime
        (.ite (.bin .eq (.load (.loc "cmd")) (.lit .i32 2)) ansPeriod
          (.ite (.bin .eq (.load (.loc "cmd")) (.lit .i32 3)) ansResync (.brk)))))

def ansCond : Expr := .bin .lt (.load (.loc "offset")) (.load (.loc "size"))

def ansAll : Stmt :=
  .seq (.decl "offset" ([.uninit (some .u8)]))
    (.seq (.expr (.asg (.loc "offset") (.lit .i32 0)))
      (.seq (.decl "ans_buf_offset" ([.uninit (some .u8)]))
        (.seq (.expr (.asg (.loc "ans_buf_offset") (.lit .i32 0)))
          (.seq (.decl "exec_cmd_mask" ([.uninit (some .u8)]))
            (.seq (.expr (.asg (.loc "exec_cmd_mask") (.lit .i32 0)))
              (.seq (.decl "corr_value" ([.uninit (some .i32)]))
                (.seq (.decl "periodicity" ([.uninit (some .u8)]))
                  (.seq (.decl "token" ([.uninit (some .u8)]))
                    (.seq (.ite (.bin .eq (.load (.glob "cs_callbacks")) (.null))
                        (.ret)
                        (.skip))
                      (.seq (.loop ansCond .skip (ansHead ansSwitch))
                        (.seq (.expr (.asg (.glob "ans_buf_data_size") (.load (.loc "ans_buf_offset"))))
                          (.expr (.asg (.glob "ans_pending") (.bin .ne (.load (.loc "ans_buf_offset")) (.lit .i32 0)))))))))))))))

theorem handle_answ_body : Src.handle_answ.body = ansAll := (rfl)

/-! ## The frame -/

/-- A cell integers can be assigned to. -/
def Slot (ty : Ty) (v : Val) : Prop := ∀ t n, assign v (.int t n) = .ok (.int ty (ty.conv n))

theorem slot_int (ty : Ty) (n : Int) : Slot ty (.int ty n) := fun _ _ => rfl
theorem slot_uninit (ty : Ty) : Slot ty (.uninit (some ty)) := fun _ _ => rfl

/-- The variables of `handle_answ`; `A` are those declared in the loop. -/
def ansFrame (A : Objs) (size off aoff : Int) (mask : Byte) (corr per tok : Val) : Objs :=
  A ++ [("token", [tok]), ("periodicity", [per]), ("corr_value", [corr]), ("exec_cmd_mask", [.int .u8 mask.toNat]), ("ans_buf_offset", [.int .u8 aoff]), ("offset", [.int .u8 off]),
    ("buf", [.ptr ⟨none, "pktmem", 0⟩]), ("size", [.int .u8 size])]

/-- The variables declared in the loop, once it was entered. -/
inductive Mid (mask : Byte) (b : List Val) : Objs → Prop where
  | two (a : List Val) : Mid mask b [("cmd_mask", a), ("cmd", b)]
  | three (a c : List Val) (h : mask &&& 4 ≠ 0) : Mid mask b [("cur_time", c), ("cmd_mask", a), ("cmd", b)]
  | four (a c d : List Val) (h : mask &&& 4 ≠ 0) : Mid mask b [("cur_time", c), ("seconds", d), ("cmd_mask", a), ("cmd", b)]

/-- Before the next round. -/
def Pre (mask : Byte) (A : Objs) : Prop := A = [] ∨ ∃ b, Mid mask b A

section
variable (send : Sender) (L k : Nat) (c : Cs) (buf : Bytes) (n : Nat) (period : Bool) (port : Byte) (mem : Bytes) (fs : List Objs) (w : Around) (size off : Nat) (aoff : Int) (mask : Byte) (corr per tok : Val)

/-- How calls are made from the parser. -/
abbrev ansCtx : Ctx Around := ⟨clockHost send, call (clockHost send) Src.clockProg L (k + 1), L⟩

theorem head_wild (S : Stmt) {A : Objs} (hA : Pre mask A) (hs : size < 256) (ho : off < size) (hm : size ≤ mem.length) (hc : 32 ≤ (byteAt mem off).toNat) :
    exec (ansCtx send L k) (ansHead S) ⟨encCs c buf n period (packetObjs port size mem), ansFrame A size off aoff mask corr per tok :: fs, w⟩ = .error .arith := by
  have := (byteAt mem off).isLt
  unfold ansHead
  rcases hA with rfl | ⟨b, ha⟩
  · unfold ansFrame
    simp only [List.nil_append]
    crun [shl_cmd_wild]
  · cases ha <;> unfold ansFrame <;> simp only [List.cons_append, List.nil_append] <;> crun [shl_cmd_wild]

theorem head_seen (S : Stmt) {A : Objs} (hA : Pre mask A) (hs : size < 256) (ho : off < size) (hm : size ≤ mem.length) (hc : (byteAt mem off).toNat ≤ 31)
    (hk : mask &&& BitVec.ofNat 8 (2 ^ (byteAt mem off).toNat) ≠ 0) :
    ∃ B, Pre mask B ∧ exec (ansCtx send L k) (ansHead S) ⟨encCs c buf n period (packetObjs port size mem), ansFrame A size off aoff mask corr per tok :: fs, w⟩ =
      .ok (.brk, ⟨encCs c buf n period (packetObjs port size mem), ansFrame B size (off + 1 : Nat) aoff mask corr per tok :: fs, w.say (marks (byteAt mem off).toNat)⟩) := by
  have hb := (byteAt mem off).isLt
  have hand := and_byte_zero mask (BitVec.ofNat 8 (2 ^ (byteAt mem off).toNat))
  rw [decide_eq_false hk] at hand
  unfold ansHead
  rcases hA with rfl | ⟨b, ha⟩
  · refine ⟨[("cmd_mask", [.int .u8 (BitVec.ofNat 8 (2 ^ (byteAt mem off).toNat)).toNat]), ("cmd", [.int .u8 (byteAt mem off).toNat])], .inr ⟨_, .two _⟩, ?_⟩
    unfold ansFrame
    simp only [List.nil_append, List.cons_append]
    crun [shl_cmd, conv_shl1, hand, Int.natCast_add, Int.natCast_one]
  · cases ha with
    | two a =>
      refine ⟨[("cmd_mask", [.int .u8 (BitVec.ofNat 8 (2 ^ (byteAt mem off).toNat)).toNat]), ("cmd", [.int .u8 (byteAt mem off).toNat])], .inr ⟨_, .two _⟩, ?_⟩
      unfold ansFrame
      simp only [List.nil_append, List.cons_append]
      crun [shl_cmd, conv_shl1, hand, Int.natCast_add, Int.natCast_one]
    | three a c' h =>
      refine ⟨[("cur_time", c'), ("cmd_mask", [.int .u8 (BitVec.ofNat 8 (2 ^ (byteAt mem off).toNat)).toNat]), ("cmd", [.int .u8 (byteAt mem off).toNat])], .inr ⟨_, .three _ _ h⟩, ?_⟩
      unfold ansFrame
      simp only [List.nil_append, List.cons_append]
      crun [shl_cmd, conv_shl1, hand, Int.natCast_add, Int.natCast_one]
    | four a c' d h =>
      refine ⟨[("cur_time", c'), ("seconds", d), ("cmd_mask", [.int .u8 (BitVec.ofNat 8 (2 ^ (byteAt mem off).toNat)).toNat]), ("cmd", [.int .u8 (byteAt mem off).toNat])], .inr ⟨_, .four _ _ _ h⟩, ?_⟩
      unfold ansFrame
      simp only [List.nil_append, List.cons_append]
      crun [shl_cmd, conv_shl1, hand, Int.natCast_add, Int.natCast_one]

theorem head_new (S : Stmt) {A : Objs} (hA : Pre mask A) (hs : size < 256) (ho : off < size) (hm : size ≤ mem.length) (hc : (byteAt mem off).toNat ≤ 31)
    (hk : mask &&& BitVec.ofNat 8 (2 ^ (byteAt mem off).toNat) = 0) :
    ∃ B, Mid mask [.int .u8 (byteAt mem off).toNat] B ∧
    exec (ansCtx send L k) (ansHead S) ⟨encCs c buf n period (packetObjs port size mem), ansFrame A size off aoff mask corr per tok :: fs, w⟩ =
      exec (ansCtx send L k) S ⟨encCs c buf n period (packetObjs port size mem),
        ansFrame B size (off + 1 : Nat) aoff (mask ||| BitVec.ofNat 8 (2 ^ (byteAt mem off).toNat)) corr per tok :: fs, w.say (marks (byteAt mem off).toNat ++ marks (byteAt mem off).toNat)⟩ := by
  have hb := (byteAt mem off).isLt
  have hand := and_byte_zero mask (BitVec.ofNat 8 (2 ^ (byteAt mem off).toNat))
  rw [decide_eq_true hk] at hand
  have hor := or_shl1 mask (byteAt mem off).toNat
  unfold ansHead
  rcases hA with rfl | ⟨b, ha⟩
  · refine ⟨[("cmd_mask", [.int .u8 (BitVec.ofNat 8 (2 ^ (byteAt mem off).toNat)).toNat]), ("cmd", [.int .u8 (byteAt mem off).toNat])], .two _, ?_⟩
    unfold ansFrame
    simp only [List.nil_append, List.cons_append]
    crun [shl_cmd, conv_shl1, hand, hor, Int.natCast_add, Int.natCast_one]
  · cases ha with
    | two a =>
      refine ⟨[("cmd_mask", [.int .u8 (BitVec.ofNat 8 (2 ^ (byteAt mem off).toNat)).toNat]), ("cmd", [.int .u8 (byteAt mem off).toNat])], .two _, ?_⟩
      unfold ansFrame
      simp only [List.nil_append, List.cons_append]
      crun [shl_cmd, conv_shl1, hand, hor, Int.natCast_add, Int.natCast_one]
    | three a c' h =>
      refine ⟨[("cur_time", c'), ("cmd_mask", [.int .u8 (BitVec.ofNat 8 (2 ^ (byteAt mem off).toNat)).toNat]), ("cmd", [.int .u8 (byteAt mem off).toNat])], .three _ _ h, ?_⟩
      unfold ansFrame
      simp only [List.nil_append, List.cons_append]
      crun [shl_cmd, conv_shl1, hand, hor, Int.natCast_add, Int.natCast_one]
    | four a c' d h =>
      refine ⟨[("cur_time", c'), ("seconds", d), ("cmd_mask", [.int .u8 (BitVec.ofNat 8 (2 ^ (byteAt mem off).toNat)).toNat]), ("cmd", [.int .u8 (byteAt mem off).toNat])], .four _ _ _ h, ?_⟩
      unfold ansFrame
      simp only [List.nil_append, List.cons_append]
      crun [shl_cmd, conv_shl1, hand, hor, Int.natCast_add, Int.natCast_one]
end
end Uwan.C
