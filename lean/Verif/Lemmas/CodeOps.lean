import Verif.Lemmas.CodeFind

/-! # Rules for the operators -/

namespace Uwan.C

section
variable {ω α : Type} (H : Host ω) (m : Mem ω) (ta tb t : Ty) (a b n : Int)

/-- A computation that does not touch memory. -/
def lift (m : Mem ω) (e : Except Fault Val) : Except Fault (Val × Mem ω) :=
  match e with
  | .ok v => .ok (v, m)
  | .error e => .error e

@[csem] theorem lift_ok (v : Val) : lift m (.ok v) = .ok (v, m) := (rfl)
@[csem] theorem lift_error (e : Fault) : lift m (.error e) = .error e := (rfl)

/-- Comparisons. -/
def ltb (a b : Int) : Bool := decide (a < b)
def leb (a b : Int) : Bool := decide (a ≤ b)
def eqb (a b : Int) : Bool := decide (a = b)

@[csem high] theorem ltb_true (h : a < b) : ltb a b = true := decide_eq_true h
@[csem high] theorem ltb_false (h : b ≤ a) : ltb a b = false := decide_eq_false (by omega)
@[csem low] theorem ltb_decide : ltb a b = decide (a < b) := (rfl)
@[csem high] theorem leb_true (h : a ≤ b) : leb a b = true := decide_eq_true h
@[csem high] theorem leb_false (h : b < a) : leb a b = false := decide_eq_false (by omega)
@[csem low] theorem leb_decide : leb a b = decide (a ≤ b) := (rfl)
@[csem high] theorem eqb_true (h : a = b) : eqb a b = true := decide_eq_true h
@[csem high] theorem eqb_false (h : ¬ a = b) : eqb a b = false := decide_eq_false h
@[csem low] theorem eqb_decide : eqb a b = decide (a = b) := (rfl)

/-- The common type of two operands. -/
def comm (ta tb : Ty) : Ty := Ty.common ta.promote tb.promote

@[csem] theorem bin_add : binop H .add (.int ta a) (.int tb b) m = lift m (wrap (comm ta tb) ((comm ta tb).operand a + (comm ta tb).operand b)) := (rfl)
@[csem] theorem bin_sub : binop H .sub (.int ta a) (.int tb b) m = lift m (wrap (comm ta tb) ((comm ta tb).operand a - (comm ta tb).operand b)) := (rfl)
@[csem] theorem bin_mul : binop H .mul (.int ta a) (.int tb b) m = lift m (wrap (comm ta tb) ((comm ta tb).operand a * (comm ta tb).operand b)) := (rfl)
/-- Division and remainder. -/
def quot (t : Ty) (a b : Int) : Except Fault Val := if b = 0 then .error .arith else wrap t (a.tdiv b)
def rem (t : Ty) (a b : Int) : Except Fault Val := if b = 0 then .error .arith else wrap t (a.tmod b)

@[csem] theorem quot_pos (h0 : 0 ≤ a) (h1 : 0 < b) : quot t a b = wrap t (a / b) := by
  unfold quot
  rw [if_neg (by omega), Int.tdiv_eq_ediv_of_nonneg h0]
@[csem] theorem rem_pos (h0 : 0 ≤ a) (h1 : 0 < b) : rem t a b = wrap t (a % b) := by
  unfold rem
  rw [if_neg (by omega), Int.tmod_eq_emod_of_nonneg h0]

@[csem] theorem bin_div : binop H .div (.int ta a) (.int tb b) m = lift m (quot (comm ta tb) ((comm ta tb).operand a) ((comm ta tb).operand b)) := (rfl)
@[csem] theorem bin_mod : binop H .mod (.int ta a) (.int tb b) m = lift m (rem (comm ta tb) ((comm ta tb).operand a) ((comm ta tb).operand b)) := (rfl)
@[csem] theorem bin_and : binop H .and (.int ta a) (.int tb b) m =
    .ok (.int (comm ta tb) (ofBits (comm ta tb) (bits ((comm ta tb).operand a) &&& bits ((comm ta tb).operand b))), m) := (rfl)
@[csem] theorem bin_or : binop H .or (.int ta a) (.int tb b) m =
    .ok (.int (comm ta tb) (ofBits (comm ta tb) (bits ((comm ta tb).operand a) ||| bits ((comm ta tb).operand b))), m) := (rfl)
@[csem] theorem bin_xor : binop H .xor (.int ta a) (.int tb b) m =
    .ok (.int (comm ta tb) (ofBits (comm ta tb) (bits ((comm ta tb).operand a) ^^^ bits ((comm ta tb).operand b))), m) := (rfl)
@[csem] theorem bin_lt : binop H .lt (.int ta a) (.int tb b) m = .ok (truth (ltb ((comm ta tb).operand a) ((comm ta tb).operand b)), m) := (rfl)
@[csem] theorem bin_le : binop H .le (.int ta a) (.int tb b) m = .ok (truth (leb ((comm ta tb).operand a) ((comm ta tb).operand b)), m) := (rfl)
@[csem] theorem bin_gt : binop H .gt (.int ta a) (.int tb b) m = .ok (truth (ltb ((comm ta tb).operand b) ((comm ta tb).operand a)), m) := (rfl)
@[csem] theorem bin_ge : binop H .ge (.int ta a) (.int tb b) m = .ok (truth (leb ((comm ta tb).operand b) ((comm ta tb).operand a)), m) := (rfl)
@[csem] theorem bin_eq : binop H .eq (.int ta a) (.int tb b) m = .ok (truth (eqb ((comm ta tb).operand a) ((comm ta tb).operand b)), m) := (rfl)
@[csem] theorem bin_ne : binop H .ne (.int ta a) (.int tb b) m = .ok (truth (!eqb ((comm ta tb).operand a) ((comm ta tb).operand b)), m) := by
  simp only [binop, arith, comm, eqb, ne_eq]
  congr 3
  exact decide_not
@[csem] theorem bin_shl : binop H .shl (.int ta a) (.int tb b) m = shift H .shl ta.promote a b m := (rfl)
@[csem] theorem bin_shr : binop H .shr (.int ta a) (.int tb b) m = shift H .shr ta.promote a b m := (rfl)
@[csem] theorem bin_ptr_add (r : Ref) : binop H .add (.ptr r) (.int tb b) m = .ok (.ptr ⟨r.frame, r.obj, r.off + b⟩, m) := (rfl)
@[csem] theorem bin_null_eq : binop H .eq .null .null m = .ok (truth true, m) := (rfl)
@[csem] theorem bin_ptr_eq_null (r : Ref) : binop H .eq (.ptr r) .null m = .ok (truth false, m) := (rfl)
@[csem] theorem bin_fn_eq_null (f : String) : binop H .eq (.fn f) .null m = .ok (truth false, m) := (rfl)

@[csem] theorem promote_bool : Ty.bool.promote = .i32 := (rfl)
@[csem] theorem promote_u8 : Ty.u8.promote = .i32 := (rfl)
@[csem] theorem promote_i8 : Ty.i8.promote = .i32 := (rfl)
@[csem] theorem promote_u16 : Ty.u16.promote = .i32 := (rfl)
@[csem] theorem promote_i16 : Ty.i16.promote = .i32 := (rfl)
@[csem] theorem promote_u32 : Ty.u32.promote = .u32 := (rfl)
@[csem] theorem promote_i32 : Ty.i32.promote = .i32 := (rfl)

@[csem] theorem comm_u32 : comm .u32 t = .u32 := by cases t <;> rfl
@[csem] theorem comm_u32' : comm t .u32 = .u32 := by cases t <;> rfl
@[csem] theorem comm_bool_bool : comm .bool .bool = .i32 := (rfl)
@[csem] theorem comm_bool_u8 : comm .bool .u8 = .i32 := (rfl)
@[csem] theorem comm_bool_i8 : comm .bool .i8 = .i32 := (rfl)
@[csem] theorem comm_bool_u16 : comm .bool .u16 = .i32 := (rfl)
@[csem] theorem comm_bool_i16 : comm .bool .i16 = .i32 := (rfl)
@[csem] theorem comm_bool_i32 : comm .bool .i32 = .i32 := (rfl)
@[csem] theorem comm_u8_bool : comm .u8 .bool = .i32 := (rfl)
@[csem] theorem comm_u8_u8 : comm .u8 .u8 = .i32 := (rfl)
@[csem] theorem comm_u8_i8 : comm .u8 .i8 = .i32 := (rfl)
@[csem] theorem comm_u8_u16 : comm .u8 .u16 = .i32 := (rfl)
@[csem] theorem comm_u8_i16 : comm .u8 .i16 = .i32 := (rfl)
@[csem] theorem comm_u8_i32 : comm .u8 .i32 = .i32 := (rfl)
@[csem] theorem comm_i8_bool : comm .i8 .bool = .i32 := (rfl)
@[csem] theorem comm_i8_u8 : comm .i8 .u8 = .i32 := (rfl)
@[csem] theorem comm_i8_i8 : comm .i8 .i8 = .i32 := (rfl)
@[csem] theorem comm_i8_u16 : comm .i8 .u16 = .i32 := (rfl)
@[csem] theorem comm_i8_i16 : comm .i8 .i16 = .i32 := (rfl)
@[csem] theorem comm_i8_i32 : comm .i8 .i32 = .i32 := (rfl)
@[csem] theorem comm_u16_bool : comm .u16 .bool = .i32 := (rfl)
@[csem] theorem comm_u16_u8 : comm .u16 .u8 = .i32 := (rfl)
@[csem] theorem comm_u16_i8 : comm .u16 .i8 = .i32 := (rfl)
@[csem] theorem comm_u16_u16 : comm .u16 .u16 = .i32 := (rfl)
@[csem] theorem comm_u16_i16 : comm .u16 .i16 = .i32 := (rfl)
@[csem] theorem comm_u16_i32 : comm .u16 .i32 = .i32 := (rfl)
@[csem] theorem comm_i16_bool : comm .i16 .bool = .i32 := (rfl)
@[csem] theorem comm_i16_u8 : comm .i16 .u8 = .i32 := (rfl)
@[csem] theorem comm_i16_i8 : comm .i16 .i8 = .i32 := (rfl)
@[csem] theorem comm_i16_u16 : comm .i16 .u16 = .i32 := (rfl)
@[csem] theorem comm_i16_i16 : comm .i16 .i16 = .i32 := (rfl)
@[csem] theorem comm_i16_i32 : comm .i16 .i32 = .i32 := (rfl)
@[csem] theorem comm_i32_bool : comm .i32 .bool = .i32 := (rfl)
@[csem] theorem comm_i32_u8 : comm .i32 .u8 = .i32 := (rfl)
@[csem] theorem comm_i32_i8 : comm .i32 .i8 = .i32 := (rfl)
@[csem] theorem comm_i32_u16 : comm .i32 .u16 = .i32 := (rfl)
@[csem] theorem comm_i32_i16 : comm .i32 .i16 = .i32 := (rfl)
@[csem] theorem comm_i32_i32 : comm .i32 .i32 = .i32 := (rfl)

@[csem] theorem operand_i32 : Ty.i32.operand n = n := (rfl)
@[csem high] theorem operand_u32_of (h0 : 0 ≤ n) (h1 : n < 4294967296) : Ty.u32.operand n = n := by simp only [Ty.operand]; omega
@[csem low] theorem operand_u32 : Ty.u32.operand n = n % 4294967296 := (rfl)

@[csem] theorem wrap_i32 (h0 : -2147483648 ≤ n) (h1 : n ≤ 2147483647) : wrap .i32 n = .ok (.int .i32 n) := by
  unfold wrap
  rw [if_neg (by decide), if_pos ⟨h0, h1⟩]
@[csem high] theorem wrap_u32_of (h0 : 0 ≤ n) (h1 : n < 4294967296) : wrap .u32 n = .ok (.int .u32 n) := by
  unfold wrap
  rw [if_pos rfl, Int.emod_eq_of_lt h0 h1]
@[csem low] theorem wrap_u32 : wrap .u32 n = .ok (.int .u32 (n % 4294967296)) := (rfl)

@[csem high] theorem conv_u8_of (h0 : 0 ≤ n) (h1 : n < 256) : Ty.u8.conv n = n := Int.emod_eq_of_lt h0 h1
@[csem low] theorem conv_u8 : Ty.u8.conv n = n % 256 := (rfl)
@[csem high] theorem conv_u16_of (h0 : 0 ≤ n) (h1 : n < 65536) : Ty.u16.conv n = n := Int.emod_eq_of_lt h0 h1
@[csem low] theorem conv_u16 : Ty.u16.conv n = n % 65536 := (rfl)
@[csem high] theorem conv_u32_of (h0 : 0 ≤ n) (h1 : n < 4294967296) : Ty.u32.conv n = n := Int.emod_eq_of_lt h0 h1
@[csem low] theorem conv_u32 : Ty.u32.conv n = n % 4294967296 := (rfl)
@[csem] theorem conv_i32_of (h0 : -2147483648 ≤ n) (h1 : n ≤ 2147483647) : Ty.i32.conv n = n := Int.bmod_eq_of_le (by omega) (by omega)
@[csem] theorem conv_i8_of (h0 : -128 ≤ n) (h1 : n < 128) : Ty.i8.conv n = n := Int.bmod_eq_of_le (by omega) (by omega)
@[csem high] theorem conv_bool_of (h0 : 0 ≤ n) (h1 : n < 2) : Ty.bool.conv n = n := by
  have : n = 0 ∨ n = 1 := by omega
  rcases this with h | h <;> subst h <;> rfl
@[csem low] theorem conv_bool : Ty.bool.conv n = if n = 0 then 0 else 1 := (rfl)

@[csem] theorem isTrue_int : isTrue (.int t n) m = .ok (!eqb n 0, m) := by
  simp only [isTrue, M.pure, eqb, ne_eq, decide_not]
@[csem] theorem isTrue_ptr (r : Ref) : isTrue (.ptr r) m = .ok (true, m) := (rfl)
@[csem] theorem isTrue_fn (f : String) : isTrue (.fn f) m = .ok (true, m) := (rfl)
@[csem] theorem isTrue_null : isTrue .null m = .ok (false, m) := (rfl)
@[csem high] theorem isTrue_truth (b : Bool) : isTrue (truth b) m = .ok (b, m) := by cases b <;> rfl

@[csem] theorem cast_int : cast ta (.int tb n) m = .ok (.int ta (ta.conv n), m) := (rfl)
@[csem] theorem bnot_int : bnot (.int t n) m = .ok (.int t.promote (ofBits t.promote (~~~ bits n)), m) := (rfl)

@[csem] theorem elemRef_ptr (r : Ref) : elemRef (.ptr r) (.int t n) m = .ok (⟨r.frame, r.obj, r.off + n⟩, m) := (rfl)
@[csem] theorem elemRef_null : elemRef .null (.int t n) m = .error .null := (rfl)

@[csem] theorem assign_int : assign (.int ta a) (.int tb b) = .ok (.int ta (ta.conv b)) := (rfl)
@[csem] theorem assign_uninit : assign (.uninit (some ta)) (.int tb b) = .ok (.int ta (ta.conv b)) := (rfl)
@[csem] theorem assign_bool_truth (d c : Bool) : assign (boolVal d) (truth c) = .ok (boolVal c) := by cases c <;> rfl
@[csem] theorem assign_bool_bool (d c : Bool) : assign (boolVal d) (boolVal c) = .ok (boolVal c) := by cases c <;> rfl
@[csem] theorem assign_bool_int (d : Bool) : assign (boolVal d) (.int t n) = .ok (boolVal (!eqb n 0)) := by
  simp only [boolVal, assign, Ty.conv, eqb]
  by_cases h : n = 0 <;> simp [h]
@[csem high] theorem assign_uninit_bool (c : Bool) : assign (.uninit (some .bool)) (boolVal c) = .ok (boolVal c) := by cases c <;> rfl
@[csem high] theorem assign_uninit_int_bool : assign (.uninit (some .bool)) (.int t n) = .ok (boolVal (!eqb n 0)) := by
  simp only [boolVal, assign, Ty.conv, eqb]
  by_cases h : n = 0 <;> simp [h]
@[csem high] theorem isTrue_boolVal (c : Bool) : isTrue (boolVal c) m = .ok (c, m) := by cases c <;> rfl
@[csem] theorem bin_eq_false (c : Bool) : binop H .eq (boolVal c) (.int .i32 0) m = .ok (truth (!c), m) := by cases c <;> rfl
@[csem] theorem bin_ne_true (c : Bool) : binop H .ne (boolVal c) (.int .i32 1) m = .ok (truth (!c), m) := by cases c <;> rfl
@[csem] theorem assign_uninit_truth (c : Bool) : assign (.uninit (some .bool)) (truth c) = .ok (boolVal c) := by cases c <;> rfl
@[csem] theorem assign_ptr (r : Ref) : assign (.uninit none) (.ptr r) = .ok (.ptr r) := (rfl)
@[csem] theorem assign_ptr_null : assign (.uninit none) .null = .ok .null := (rfl)
@[csem] theorem assign_fn (f : String) : assign (.uninit none) (.fn f) = .ok (.fn f) := (rfl)
@[csem] theorem assign_opaque (l : List Int) : assign (.uninit none) (.opaque l) = .ok (.opaque l) := (rfl)
@[csem] theorem assign_ptr_ptr (r q : Ref) : assign (.ptr q) (.ptr r) = .ok (.ptr r) := (rfl)
@[csem] theorem assign_null_ptr (r : Ref) : assign .null (.ptr r) = .ok (.ptr r) := (rfl)
@[csem] theorem assign_ptr_null' (r : Ref) : assign (.ptr r) .null = .ok .null := (rfl)
@[csem] theorem assign_null_null : assign .null .null = .ok .null := (rfl)

@[csem] theorem shift_shl_i32 (h0 : 0 ≤ a) (h1 : a * 2 ^ b.toNat ≤ 2147483647) (hb0 : 0 ≤ b) (hb1 : b < 32) :
    shift H .shl .i32 a b m = .ok (.int .i32 (a * 2 ^ b.toNat), m) := by
  unfold shift
  rw [if_pos ⟨hb0, hb1⟩, if_neg (by decide), if_neg (by decide), if_pos ⟨h0, h1⟩]
@[csem] theorem shift_shr (hb0 : 0 ≤ b) (hb1 : b < 32) : shift H .shr t a b m = .ok (.int t (a / 2 ^ b.toNat), m) := by
  unfold shift
  rw [if_pos ⟨hb0, hb1⟩, if_pos rfl]

@[csem] theorem bind_nil : bindParams [] [] = .ok [] := (rfl)

/-- Parameters are bound one after the other. -/
def consParam (x : String) (a : Except Fault Val) (b : Except Fault Objs) : Except Fault Objs :=
  match a, b with
  | .ok w, .ok l => .ok ((x, [w]) :: l)
  | .error e, _ => .error e
  | _, .error e => .error e

@[csem] theorem bind_cons (x : String) (t : Option Ty) (ps : List (String × Option Ty)) (v : Val) (vs : List Val) :
    bindParams ((x, t) :: ps) (v :: vs) = consParam x (assign (.uninit t) v) (bindParams ps vs) := (rfl)
@[csem] theorem consParam_ok (x : String) (w : Val) (l : Objs) : consParam x (.ok w) (.ok l) = .ok ((x, [w]) :: l) := (rfl)

/-- Leave a function. -/
def leave (t : Option Ty) (o : Out) : M ω Val := fun m =>
  match valueOf t o with
  | .error e => .error e
  | .ok v => .ok (v, { m with frames := m.frames.drop 1 })

/-- Enter a function. -/
def enter (C : Ctx ω) (body : Stmt) (r : Option Ty) (b : Except Fault Objs) : M ω Val := fun m =>
  match b with
  | .error e => .error e
  | .ok fr => andThen (exec C body ⟨m.glob, fr :: m.frames, m.io⟩) (leave r)

@[csem] theorem enter_ok (C : Ctx ω) (body : Stmt) (r : Option Ty) (fr : Objs) (g : Objs) (fs : List Objs) (w : ω) :
    enter C body r (.ok fr) ⟨g, fs, w⟩ = andThen (exec C body ⟨g, fr :: fs, w⟩) (leave r) := (rfl)

theorem run_enter (C : Ctx ω) (f : Fun) (as : List Val) : f.run C as m = enter C f.body f.result (bindParams f.params as) m := by
  unfold Fun.run enter
  cases h : bindParams f.params as with
  | error e => rfl
  | ok fr =>
    simp only [andThen]
    cases exec C f.body ⟨m.glob, fr :: m.frames, m.io⟩ <;> rfl

theorem call_fun {x : String} {f : Fun} {L k : Nat} (h : Src.prog.find x = some f) (as : List Val) (g : Objs) (fs : List Objs) (w : ω) :
    call H Src.prog L (k + 1) x as ⟨g, fs, w⟩ = enter ⟨H, call H Src.prog L k, L⟩ f.body f.result (bindParams f.params as) ⟨g, fs, w⟩ := by
  rw [call, h]
  exact run_enter _ _ _ _

theorem call_lib {x : String} {L k : Nat} (h : Src.prog.find x = none) (as : List Val) : call H Src.prog L (k + 1) x as = library H x as := by
  rw [call, h]

/-- The result of a call. -/
def give (m : Mem ω) (e : Except Fault Val) : Except Fault (Val × Mem ω) :=
  match e with
  | .error e => .error e
  | .ok v => .ok (v, m)

@[csem] theorem give_ok (v : Val) : give m (.ok v) = .ok (v, m) := (rfl)

@[csem] theorem leave_val (v : Val) (g f : Objs) (fs : List Objs) (w : ω) :
    leave (some t) (.ret (some v)) ⟨g, f :: fs, w⟩ = give ⟨g, fs, w⟩ (assign (.uninit (some t)) v) := (rfl)
@[csem] theorem leave_ptr (v : Val) (g f : Objs) (fs : List Objs) (w : ω) :
    leave none (.ret (some v)) ⟨g, f :: fs, w⟩ = .ok (v, ⟨g, fs, w⟩) := (rfl)
@[csem] theorem leave_next (r : Option Ty) (g f : Objs) (fs : List Objs) (w : ω) :
    leave r .next ⟨g, f :: fs, w⟩ = .ok (.null, ⟨g, fs, w⟩) := by cases r <;> rfl
@[csem] theorem leave_ret (r : Option Ty) (g f : Objs) (fs : List Objs) (w : ω) :
    leave r (.ret none) ⟨g, f :: fs, w⟩ = .ok (.null, ⟨g, fs, w⟩) := by cases r <;> rfl

theorem ite_apply_mem {p : Prop} [Decidable p] (x y : M ω α) : (if p then x else y) m = if p then x m else y m := by split <;> rfl

@[csem] theorem ofInt8_nat (n : Int) (h0 : 0 ≤ n) (h1 : n < 256) : ((BitVec.ofInt 8 n).toNat : Int) = n := by
  rw [BitVec.toNat_ofInt]; omega

@[csem] theorem ofInt32_nat (n : Int) (h0 : 0 ≤ n) (h1 : n < 4294967296) : ((BitVec.ofInt 32 n).toNat : Int) = n := by
  rw [BitVec.toNat_ofInt]; omega

theorem i8_bounds (e : BitVec 8) : -128 ≤ e.toInt ∧ e.toInt < 128 := by
  have h0 := e.le_toInt
  have h1 := e.toInt_lt
  constructor
  · simpa using h0
  · simpa using h1

theorem ofInt32_toNat (x : U32) : BitVec.ofInt 32 (x.toNat : Int) = x := by simp
theorem ofInt8_toNat (x : Byte) : BitVec.ofInt 8 (x.toNat : Int) = x := by simp
end

/-- Run the program as far as it goes. -/
macro "crun" "[" ls:Lean.Parser.Tactic.simpLemma,* "]" loc:(Lean.Parser.Tactic.location)? : tactic => `(tactic|
  simp (maxSteps := 10000000) (disch := omega) only [csem, byteVal, u32Val, enumVal, i8Val, globPtr, String.reduceBEq, String.reduceEq, beq_self_eq_true, String.reduceAppend, reduceIte, Int.reduceLE,
    Int.reduceToNat, Int.reduceAdd, Int.reduceLT, Int.reduceDiv, Int.reduceMod, Int.reduceMul, Int.toNat_zero, Int.le_refl, Int.zero_add, Int.add_zero,
    List.getElem?_cons_zero, List.getElem?_cons_succ, List.set_cons_zero, List.set_cons_succ, List.length_cons, Nat.add_sub_cancel,
    ofInt32_toNat, ofInt8_toNat, ite_apply_mem, decide_eq_true_eq, decide_not, Bool.not_eq_true', Bool.not_true, Bool.not_false, Bool.not_not, Bool.false_eq_true, decide_eq_false_iff_not, Int.toNat_natCast,
    $ls,*] $[$loc]?)

end Uwan.C
