import Verif.Lemmas.CodeAttr
import Verif.Code.Enc

/-! # Running the C program symbolically -/

namespace Uwan.C

/-- Go on with the result of a computation. -/
def andThen {ω α β : Type} (r : Except Fault (α × Mem ω)) (f : α → M ω β) : Except Fault (β × Mem ω) :=
  match r with
  | .ok (a, m) => f a m
  | .error e => .error e

section
variable {ω α β : Type}

/-- The continuation is not touched before it is its turn. -/
@[congr] theorem andThen_congr {r r' : Except Fault (α × Mem ω)} (h : r = r') (f : α → M ω β) : andThen r f = andThen r' f := by rw [h]

@[csem] theorem andThen_ok (a : α) (m : Mem ω) (f : α → M ω β) : andThen (.ok (a, m)) f = f a m := (rfl)
@[csem] theorem andThen_error (e : Fault) (f : α → M ω β) : andThen (.error e : Except Fault (α × Mem ω)) f = .error e := (rfl)
@[csem] theorem bind_andThen (x : M ω α) (f : α → M ω β) (m : Mem ω) : M.bind x f m = andThen (x m) f := (rfl)
@[csem] theorem pure_apply (a : α) (m : Mem ω) : M.pure a m = .ok (a, m) := (rfl)
@[csem] theorem fail_apply (e : Fault) (m : Mem ω) : (M.fail e : M ω α) m = .error e := (rfl)
theorem andThen_ite {p : Prop} [Decidable p] (a b : Except Fault (α × Mem ω)) (f : α → M ω β) :
    andThen (if p then a else b) f = if p then andThen a f else andThen b f := by split <;> rfl

/-- Two ways to go on; neither is touched before the choice is known. -/
def branch (b : Bool) (x y : M ω α) : M ω α := if b then x else y

@[congr] theorem branch_congr {b b' : Bool} (h : b = b') (x y : M ω α) (m : Mem ω) : branch b x y m = branch b' x y m := by rw [h]
@[csem] theorem branch_true (x y : M ω α) (m : Mem ω) : branch true x y m = x m := (rfl)
@[csem] theorem branch_false (x y : M ω α) (m : Mem ω) : branch false x y m = y m := (rfl)

variable (C : Ctx ω) (m : Mem ω)

@[csem] theorem eval_lit (t : Ty) (n : Int) : eval C (.lit t n) m = .ok (.int t n, m) := by simp only [eval, M.pure]
@[csem] theorem eval_null : eval C .null m = .ok (.null, m) := by simp only [eval, M.pure]
@[csem] theorem eval_fn (f : String) : eval C (.fn f) m = .ok (.fn f, m) := by simp only [eval, M.pure]
@[csem] theorem eval_load (l : LV) : eval C (.load l) m = andThen (place C l m) loadRef := by simp only [eval]; rfl
@[csem] theorem eval_addr (l : LV) : eval C (.addr l) m = andThen (place C l m) fun r => M.pure (.ptr r) := by simp only [eval]; rfl
@[csem] theorem eval_cast (t : Ty) (e : Expr) : eval C (.cast t e) m = andThen (eval C e m) (cast t) := by simp only [eval]; rfl
@[csem] theorem eval_not (e : Expr) : eval C (.not e) m = andThen (eval C e m) fun v => M.bind (isTrue v) fun b => M.pure (truth (!b)) := by
  simp only [eval]; rfl
@[csem] theorem eval_bnot (e : Expr) : eval C (.bnot e) m = andThen (eval C e m) bnot := by simp only [eval]; rfl
@[csem] theorem eval_bin (o : BinOp) (a b : Expr) : eval C (.bin o a b) m =
    andThen (eval C a m) fun x => M.bind (eval C b) fun y => binop C.host o x y := by simp only [eval]; rfl
@[csem] theorem eval_and (a b : Expr) : eval C (.and a b) m = andThen (eval C a m) fun x => M.bind (isTrue x) fun p =>
    branch p (M.bind (eval C b) fun y => M.bind (isTrue y) fun q => M.pure (truth q)) (M.pure (truth false)) := by simp only [eval]; rfl
@[csem] theorem eval_or (a b : Expr) : eval C (.or a b) m = andThen (eval C a m) fun x => M.bind (isTrue x) fun p =>
    branch p (M.pure (truth true)) (M.bind (eval C b) fun y => M.bind (isTrue y) fun q => M.pure (truth q)) := by simp only [eval]; rfl
@[csem] theorem eval_cond (c a b : Expr) : eval C (.cond c a b) m = andThen (eval C c m) fun x => M.bind (isTrue x) fun p =>
    branch p (eval C a) (eval C b) := by simp only [eval]; rfl
@[csem] theorem eval_asg (l : LV) (e : Expr) : eval C (.asg l e) m = andThen (place C l m) fun r => M.bind (eval C e) fun v => storeRef r v := by
  simp only [eval]; rfl
@[csem] theorem eval_asgOp (o : BinOp) (l : LV) (e : Expr) : eval C (.asgOp o l e) m = andThen (place C l m) fun r => M.bind (eval C e) fun v =>
    M.bind (loadRef r) fun w => M.bind (binop C.host o w v) fun u => storeRef r u := by simp only [eval]; rfl
@[csem] theorem eval_post (o : BinOp) (l : LV) : eval C (.post o l) m = andThen (place C l m) fun r => M.bind (loadRef r) fun w =>
    M.bind (binop C.host o w (.int .i32 1)) fun u => M.bind (storeRef r u) fun _ => M.pure w := by simp only [eval]; rfl
@[csem] theorem eval_call (f : Expr) (as : Args) : eval C (.call f as) m = andThen (eval C f m) fun g => M.bind (evals C as) fun vs =>
    match g with
    | .fn x => C.call x vs
    | .null => M.fail .null
    | _ => M.fail .stuck := by simp only [eval]; rfl

@[csem] theorem place_loc (x : String) : place C (.loc x) m = .ok (⟨some (m.frames.length - 1), x, 0⟩, m) := by simp only [place, local_]
@[csem] theorem place_glob (x : String) : place C (.glob x) m = .ok (⟨none, x, 0⟩, m) := by simp only [place, M.pure]
@[csem] theorem place_elem (p i : Expr) : place C (.elem p i) m = andThen (eval C p m) fun v => M.bind (eval C i) fun n => elemRef v n := by
  simp only [place]; rfl
@[csem] theorem place_fld (l : LV) (f : String) : place C (.fld l f) m = andThen (place C l m) fun r => M.pure { r with obj := r.obj ++ f } := by
  simp only [place]; rfl

@[csem] theorem evals_nil : evals C .nil m = .ok ([], m) := by simp only [evals, M.pure]
@[csem] theorem evals_cons (e : Expr) (as : Args) : evals C (.cons e as) m = andThen (eval C e m) fun v => M.bind (evals C as) fun vs => M.pure (v :: vs) := by
  simp only [evals]; rfl

@[csem] theorem exec_skip : exec C .skip m = .ok (.next, m) := by simp only [exec, M.pure]
@[csem] theorem exec_expr (e : Expr) : exec C (.expr e) m = andThen (eval C e m) fun _ => M.pure .next := by simp only [exec]; rfl
@[csem] theorem exec_seq (a b : Stmt) : exec C (.seq a b) m = andThen (exec C a m) fun
    | .next => exec C b
    | o => M.pure o := by simp only [exec]; rfl
@[csem] theorem exec_ite (c : Expr) (a b : Stmt) : exec C (.ite c a b) m = andThen (eval C c m) fun v => M.bind (isTrue v) fun p =>
    branch p (exec C a) (exec C b) := by simp only [exec]; rfl
@[csem] theorem exec_block (s : Stmt) : exec C (.block s) m = andThen (exec C s m) fun
    | .brk => M.pure .next
    | o => M.pure o := by simp only [exec]; rfl
@[csem] theorem exec_brk : exec C .brk m = .ok (.brk, m) := by simp only [exec, M.pure]
@[csem] theorem exec_ret : exec C .ret m = .ok (.ret none, m) := by simp only [exec, M.pure]
@[csem] theorem exec_retVal (e : Expr) : exec C (.retVal e) m = andThen (eval C e m) fun v => M.pure (.ret (some v)) := by simp only [exec]; rfl
theorem exec_loop (c : Expr) (step body : Stmt) : exec C (.loop c step body) m =
    iter (M.bind (eval C c) isTrue) (exec C step) (exec C body) C.loops m := by simp only [exec]
@[csem] theorem exec_zero (xs : List LV) : exec C (.zero xs) m = andThen (zeroAll C xs m) fun _ => M.pure .next := by simp only [exec]; rfl
@[csem] theorem zeroAll_nil : zeroAll C [] m = .ok ((), m) := (rfl)
@[csem] theorem zeroAll_cons (x : LV) (xs : List LV) : zeroAll C (x :: xs) m = andThen (place C x m) fun r => M.bind (zeroObj r) fun _ => zeroAll C xs := (rfl)

/-! ## Memory -/

variable (g : Objs) (f : Objs) (fs : List Objs) (w : ω)

@[csem] theorem exec_decl (x : String) (v : List Val) : exec C (.decl x v) ⟨g, f :: fs, w⟩ = .ok (.next, ⟨g, f.add x v :: fs, w⟩) := by
  simp only [exec, M.bind, declare, M.pure]

@[csem] theorem getObj_glob (x : String) : getObj ⟨g, fs, w⟩ none x = g.get x := (rfl)
@[csem] theorem putObj_glob (x : String) (v : List Val) : putObj ⟨g, fs, w⟩ none x v = ⟨g.put x v, fs, w⟩ := (rfl)

theorem frameAt_top : frameAt (f :: fs) fs.length = some f := by
  unfold frameAt
  rw [if_pos (by simp)]
  simp

@[csem] theorem getObj_top (x : String) : getObj ⟨g, f :: fs, w⟩ (some fs.length) x = f.get x := by
  unfold getObj
  simp only [frameAt_top]
  rfl

@[csem] theorem putObj_top (x : String) (v : List Val) : putObj ⟨g, f :: fs, w⟩ (some fs.length) x v = ⟨g, f.put x v :: fs, w⟩ := by
  unfold putObj
  simp

/-- Search in a list of objects; only the first argument is evaluated. -/
def Objs.pick (b : Bool) (v : List Val) (x : String) (l : Objs) : Option (List Val) := if b then some v else l.get x
def Objs.change (b : Bool) (x : String) (v : List Val) (y : String) (u : List Val) (l : Objs) : Objs := if b then (y, v) :: l else (y, u) :: l.put x v
def Objs.join (o : Option (List Val)) (x : String) (v : List Val) (l : Objs) : Objs := if o.isSome then l.put x v else (x, v) :: l

@[congr] theorem Objs.pick_congr {b b' : Bool} (h : b = b') (v : List Val) (x : String) (l : Objs) : Objs.pick b v x l = Objs.pick b' v x l := by rw [h]
@[congr] theorem Objs.change_congr {b b' : Bool} (h : b = b') (x : String) (v : List Val) (y : String) (u : List Val) (l : Objs) :
    Objs.change b x v y u l = Objs.change b' x v y u l := by rw [h]
@[congr] theorem Objs.join_congr {o o' : Option (List Val)} (h : o = o') (x : String) (v : List Val) (l : Objs) : Objs.join o x v l = Objs.join o' x v l := by rw [h]

@[csem] theorem Objs.get_nil (x : String) : Objs.get x [] = none := (rfl)
@[csem] theorem Objs.get_cons (x y : String) (v : List Val) (l : Objs) : Objs.get x ((y, v) :: l) = Objs.pick (y == x) v x l := by
  unfold Objs.pick
  simp only [Objs.get, beq_iff_eq]
@[csem] theorem Objs.pick_true (v : List Val) (x : String) (l : Objs) : Objs.pick true v x l = some v := (rfl)
@[csem] theorem Objs.pick_false (v : List Val) (x : String) (l : Objs) : Objs.pick false v x l = l.get x := (rfl)
@[csem] theorem Objs.put_cons (x y : String) (v u : List Val) (l : Objs) : Objs.put x v ((y, u) :: l) = Objs.change (y == x) x v y u l := by
  unfold Objs.change
  simp only [Objs.put, beq_iff_eq]
@[csem] theorem Objs.change_true (x y : String) (v u : List Val) (l : Objs) : Objs.change true x v y u l = (y, v) :: l := (rfl)
@[csem] theorem Objs.change_false (x y : String) (v u : List Val) (l : Objs) : Objs.change false x v y u l = (y, u) :: l.put x v := (rfl)
@[csem] theorem Objs.add_join (x : String) (v : List Val) (l : Objs) : Objs.add x v l = Objs.join (l.get x) x v l := by
  unfold Objs.add Objs.join
  cases l.get x <;> rfl
@[csem] theorem Objs.join_some (u : List Val) (x : String) (v : List Val) (l : Objs) : Objs.join (some u) x v l = l.put x v := (rfl)
@[csem] theorem Objs.join_none (x : String) (v : List Val) (l : Objs) : Objs.join none x v l = (x, v) :: l := (rfl)

/-- Read a cell. -/
def cell (m : Mem ω) (k : Int) (l : Option (List Val)) : Except Fault (Val × Mem ω) :=
  match l with
  | none => .error .stuck
  | some l => if 0 ≤ k then (match l[k.toNat]? with | none => .error .oob | some (.uninit _) => .error .uninit | some v => .ok (v, m)) else .error .oob

/-- Write a cell. -/
def setCell (m : Mem ω) (fr : Option Nat) (x : String) (k : Int) (v : Val) (l : Option (List Val)) : Except Fault (Val × Mem ω) :=
  match l with
  | none => .error .stuck
  | some l => if 0 ≤ k then (match l[k.toNat]? with
      | none => .error .oob
      | some old => match assign old v with | .error e => .error e | .ok w => .ok (w, putObj m fr x (l.set k.toNat w))) else .error .oob

@[csem] theorem loadRef_apply (fr : Option Nat) (x : String) (k : Int) (m : Mem ω) : loadRef ⟨fr, x, k⟩ m = cell m k (getObj m fr x) := (rfl)
@[csem] theorem storeRef_apply (fr : Option Nat) (x : String) (k : Int) (v : Val) (m : Mem ω) :
    storeRef ⟨fr, x, k⟩ v m = setCell m fr x k v (getObj m fr x) := (rfl)

/-- Store a converted value. -/
def setTo (m : Mem ω) (fr : Option Nat) (x : String) (k : Nat) (l : List Val) (w : Except Fault Val) : Except Fault (Val × Mem ω) :=
  match w with
  | .error e => .error e
  | .ok w => .ok (w, putObj m fr x (l.set k w))

@[csem] theorem setTo_ok (m : Mem ω) (fr : Option Nat) (x : String) (k : Nat) (l : List Val) (w : Val) :
    setTo m fr x k l (.ok w) = .ok (w, putObj m fr x (l.set k w)) := (rfl)

@[csem] theorem cell_int (m : Mem ω) (t : Ty) (n : Int) : cell m 0 (some [.int t n]) = .ok (.int t n, m) := (rfl)
@[csem] theorem cell_bool (m : Mem ω) (b : Bool) : cell m 0 (some [boolVal b]) = .ok (boolVal b, m) := (rfl)
@[csem] theorem cell_ptr (m : Mem ω) (r : Ref) : cell m 0 (some [.ptr r]) = .ok (.ptr r, m) := (rfl)
@[csem] theorem cell_null (m : Mem ω) : cell m 0 (some [.null]) = .ok (.null, m) := (rfl)
@[csem] theorem cell_fn (m : Mem ω) (f : String) : cell m 0 (some [.fn f]) = .ok (.fn f, m) := (rfl)
@[csem] theorem cell_opaque (m : Mem ω) (l : List Int) : cell m 0 (some [.opaque l]) = .ok (.opaque l, m) := (rfl)
@[csem] theorem setCell_one (m : Mem ω) (fr : Option Nat) (x : String) (v old : Val) :
    setCell m fr x 0 v (some [old]) = setTo m fr x 0 [old] (assign old v) := (rfl)

/-- Read a cell of an array. -/
theorem cell_of {m : Mem ω} {k : Int} {l : List Val} {t : Ty} {n : Int} (h0 : 0 ≤ k) (hv : l[k.toNat]? = some (.int t n)) :
    cell m k (some l) = .ok (.int t n, m) := by
  unfold cell
  simp only [h0, if_true, hv]

/-- Write a cell of an array. -/
theorem setCell_of {m : Mem ω} {fr : Option Nat} {x : String} {k : Int} {l : List Val} {old v : Val} (h0 : 0 ≤ k) (hv : l[k.toNat]? = some old) :
    setCell m fr x k v (some l) = setTo m fr x k.toNat l (assign old v) := by
  unfold setCell setTo
  simp only [h0, if_true, hv]

theorem cell_oob {m : Mem ω} {k : Int} {l : List Val} (hv : (l.length : Int) ≤ k) : cell m k (some l) = .error .oob := by
  unfold cell
  have h0 : 0 ≤ k := by omega
  have : l[k.toNat]? = none := List.getElem?_eq_none (by omega)
  simp only [h0, if_true, this]

end
end Uwan.C
