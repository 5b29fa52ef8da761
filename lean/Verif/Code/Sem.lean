/-!
# A semantics of the subset of C in which the stack is written

`tools/c2lean.py` prints the functions of `/repo/src` as terms of `Fun`; nothing of the meaning of C is in that tool beyond macro
expansion, scoping, `sizeof` and the decay of arrays. The meaning is given here, after C99: values carry their type; integer promotions, the usual
arithmetic conversions and conversion on assignment are made while evaluating. `int` and pointers have 32 bits, an `enum` is an `unsigned int`.

Memory is a list of named objects, each a list of cells. A member of a structure is an object of its own (`pkt.size`); an array of structures is a
structure of arrays. No object is ever accessed with another type, so bytes of wider integers are not modelled. Local variables live in frames.

A left shift of a signed integer that does not fit is undefined in C99; here, as in the model, it gives the bits every compiler produces and is recorded in
the trace. All other undefined behaviour stops with a `Fault`.
-/

namespace Uwan.C

/-- Integer types. -/
inductive Ty where | bool | u8 | i8 | u16 | i16 | u32 | i32
  deriving DecidableEq, Repr

/-- Conversion to an integer type (C99 6.3.1.2, 6.3.1.3; to signed types modulo 2^n, as every compiler does). -/
def Ty.conv : Ty → Int → Int
  | .bool, n => if n = 0 then 0 else 1
  | .u8, n => n % 256
  | .i8, n => n.bmod 256
  | .u16, n => n % 65536
  | .i16, n => n.bmod 65536
  | .u32, n => n % 4294967296
  | .i32, n => n.bmod 4294967296

/-- Integer promotion (6.3.1.1). -/
def Ty.promote : Ty → Ty
  | .u32 => .u32
  | _ => .i32

/-- Usual arithmetic conversions (6.3.1.8): the common type. -/
def Ty.common (a b : Ty) : Ty := if a = .u32 ∨ b = .u32 then .u32 else .i32

/-- Conversion of an operand to the common type. The promotions and `int` to `int` keep the value. -/
def Ty.operand : Ty → Int → Int
  | .u32, n => n % 4294967296
  | _, n => n

/-- A place in memory: an object in the globals or in frame number `n` (counted from the outermost call), and a cell in it. -/
structure Ref where
  frame : Option Nat
  obj : String
  off : Int
  deriving DecidableEq, Repr

/-- Values. `opaque` is a pointer to something made by the environment. -/
inductive Val where
  | int (t : Ty) (n : Int)
  | ptr (r : Ref)
  | null
  | fn (f : String)
  | «opaque» (l : List Int)
  /-- not yet assigned; `none` for a pointer -/
  | uninit (t : Option Ty)
  deriving DecidableEq, Repr

/-- What stops a program. -/
inductive Fault where
  | oob | null | diverge | arith | uninit
  /-- not a C program: ill-typed, or an unknown name -/
  | stuck
  deriving DecidableEq, Repr

/-- Named objects. -/
abbrev Objs := List (String × List Val)

def Objs.get (x : String) : Objs → Option (List Val)
  | [] => none
  | (y, v) :: l => if y = x then some v else Objs.get x l

def Objs.put (x : String) (v : List Val) : Objs → Objs
  | [] => []
  | (y, w) :: l => if y = x then (y, v) :: l else (y, w) :: Objs.put x v l

/-- Add or replace. -/
def Objs.add (x : String) (v : List Val) (l : Objs) : Objs :=
  match l.get x with
  | some _ => l.put x v
  | none => (x, v) :: l

/-- Memory and the rest of the world. The innermost frame comes first. -/
structure Mem (ω : Type) where
  glob : Objs
  frames : List Objs
  io : ω

/-- Computations. -/
def M (ω : Type) (α : Type) : Type := Mem ω → Except Fault (α × Mem ω)

def M.pure {ω α : Type} (a : α) : M ω α := fun m => .ok (a, m)

def M.bind {ω α β : Type} (x : M ω α) (f : α → M ω β) : M ω β := fun m =>
  match x m with
  | .ok (a, m') => f a m'
  | .error e => .error e

instance {ω : Type} : Monad (M ω) where
  pure := M.pure
  bind := M.bind

def M.fail {ω α : Type} (e : Fault) : M ω α := fun _ => .error e

def ofOption {ω α : Type} (e : Fault) : Option α → M ω α
  | some a => M.pure a
  | none => M.fail e

/-- Binary operators, except the logical ones. -/
inductive BinOp where
  | add | sub | mul | div | mod | and | or | xor | shl | shr | lt | le | gt | ge | eq | ne
  deriving DecidableEq, Repr

mutual
/-- Expressions. -/
inductive Expr where
  | lit (t : Ty) (n : Int)
  | null
  | fn (f : String)
  | load (l : LV)
  | addr (l : LV)
  | cast (t : Ty) (e : Expr)
  | not (e : Expr)
  | bnot (e : Expr)
  | bin (o : BinOp) (a b : Expr)
  | and (a b : Expr)
  | or (a b : Expr)
  | cond (c a b : Expr)
  | asg (l : LV) (e : Expr)
  | asgOp (o : BinOp) (l : LV) (e : Expr)
  /-- `l++`, `l--` -/
  | post (o : BinOp) (l : LV)
  | call (f : Expr) (as : Args)
/-- Lvalues: a local or a global variable, `p[i]`, `l.f`. `*p` is `p[0]`, `p->f` is `p[0].f`. -/
inductive LV where
  | loc (x : String)
  | glob (x : String)
  | elem (p i : Expr)
  | fld (l : LV) (f : String)
/-- Arguments of a call. -/
inductive Args where
  | nil
  | cons (e : Expr) (as : Args)
end

/-- Statements. `for (init; c; step) body` is `init` followed by `loop`. -/
inductive Stmt where
  | skip
  | expr (e : Expr)
  /-- declaration of local objects, with their cells -/
  | decl (x : String) (v : List Val)
  | seq (a b : Stmt)
  | ite (c : Expr) (a b : Stmt)
  | loop (c : Expr) (step body : Stmt)
  | doWhile (body : Stmt) (c : Expr)
  /-- a `switch`: its body ends at a `break` -/
  | block (s : Stmt)
  | brk
  | ret
  | retVal (e : Expr)
  /-- `memset` of a structure with 0 -/
  | zero (xs : List LV)

/-- A function: parameters with their types (`none` for pointers), type of the result (`none` for `void` and pointers). -/
structure Fun where
  params : List (String × Option Ty)
  result : Option Ty
  body : Stmt

/-- How a statement ends. -/
inductive Out where
  | next
  | brk
  | ret (v : Option Val)

section
variable {ω : Type}

/-! ## Memory -/

/-- The frame with number `n`. -/
def frameAt (fs : List Objs) (n : Nat) : Option Objs := if n < fs.length then fs[fs.length - 1 - n]? else none

def getObj (m : Mem ω) (f : Option Nat) (x : String) : Option (List Val) :=
  match f with
  | none => m.glob.get x
  | some n => (frameAt m.frames n).bind (·.get x)

def putObj (m : Mem ω) (f : Option Nat) (x : String) (v : List Val) : Mem ω :=
  match f with
  | none => { m with glob := m.glob.put x v }
  | some n => { m with frames := m.frames.modify (m.frames.length - 1 - n) (·.put x v) }

/-- Read a cell. -/
def loadRef (r : Ref) : M ω Val := fun m =>
  match getObj m r.frame r.obj with
  | none => .error .stuck
  | some l =>
    if 0 ≤ r.off then
      match l[r.off.toNat]? with
      | none => .error .oob
      | some (.uninit _) => .error .uninit
      | some v => .ok (v, m)
    else .error .oob

/-- The value a cell holds after `new` is assigned to it. -/
def assign (old new : Val) : Except Fault Val :=
  match old, new with
  | .int t _, .int _ n => .ok (.int t (t.conv n))
  | .uninit (some t), .int _ n => .ok (.int t (t.conv n))
  | .int _ _, _ => .error .stuck
  | .uninit (some _), _ => .error .stuck
  | _, .int _ _ => .error .stuck
  | _, v => .ok v

/-- Write a cell. The result is the value of the assignment expression. -/
def storeRef (r : Ref) (v : Val) : M ω Val := fun m =>
  match getObj m r.frame r.obj with
  | none => .error .stuck
  | some l =>
    if 0 ≤ r.off then
      match l[r.off.toNat]? with
      | none => .error .oob
      | some old =>
        match assign old v with
        | .error e => .error e
        | .ok w => .ok (w, putObj m r.frame r.obj (l.set r.off.toNat w))
    else .error .oob

/-- Where a local variable is: in the innermost frame. -/
def local_ (x : String) : M ω Ref := fun m => .ok (⟨some (m.frames.length - 1), x, 0⟩, m)

/-- A declaration. -/
def declare (x : String) (v : List Val) : M ω Unit := fun m =>
  match m.frames with
  | f :: fs => .ok ((), { m with frames := f.add x v :: fs })
  | [] => .error .stuck

/-! ## Operators -/

/-- The bits of an integer. -/
def bits (n : Int) : BitVec 32 := BitVec.ofInt 32 n

/-- A bit pattern as an integer of a promoted type. -/
def ofBits (t : Ty) (b : BitVec 32) : Int := if t = .u32 then b.toNat else b.toInt

/-- The result of an operation in a promoted type. -/
def wrap (t : Ty) (n : Int) : Except Fault Val :=
  if t = .u32 then .ok (.int .u32 (n % 4294967296))
  else if -2147483648 ≤ n ∧ n ≤ 2147483647 then .ok (.int .i32 n)
  else .error .arith

def truth (b : Bool) : Val := .int .i32 (if b then 1 else 0)

/-- Arithmetic on operands converted to their common type. -/
def arith (o : BinOp) (t : Ty) (a b : Int) : Except Fault Val :=
  match o with
  | .add => wrap t (a + b)
  | .sub => wrap t (a - b)
  | .mul => wrap t (a * b)
  | .div => if b = 0 then .error .arith else wrap t (a.tdiv b)
  | .mod => if b = 0 then .error .arith else wrap t (a.tmod b)
  | .and => .ok (.int t (ofBits t (bits a &&& bits b)))
  | .or => .ok (.int t (ofBits t (bits a ||| bits b)))
  | .xor => .ok (.int t (ofBits t (bits a ^^^ bits b)))
  | .lt => .ok (truth (decide (a < b)))
  | .le => .ok (truth (decide (a ≤ b)))
  | .gt => .ok (truth (decide (a > b)))
  | .ge => .ok (truth (decide (a ≥ b)))
  | .eq => .ok (truth (decide (a = b)))
  | .ne => .ok (truth (decide (a ≠ b)))
  | .shl | .shr => .error .stuck

/-- What the semantics needs to know of the outside: `ext` performs calls to functions not in the program, `mark` records an overflowing left shift. -/
structure Host (ω : Type) where
  ext : String → List Val → M ω Val
  mark : ω → ω

/-- Shifts; the type is that of the promoted left operand. -/
def shift (H : Host ω) (o : BinOp) (t : Ty) (a b : Int) : M ω Val := fun m =>
  if 0 ≤ b ∧ b < 32 then
    if o = .shr then
      .ok (.int t (a / 2 ^ b.toNat), m)
    else if t = .u32 then .ok (.int .u32 (a * 2 ^ b.toNat % 4294967296), m)
    else if 0 ≤ a ∧ a * 2 ^ b.toNat ≤ 2147483647 then .ok (.int .i32 (a * 2 ^ b.toNat), m)
    else .ok (.int .i32 ((a * 2 ^ b.toNat).bmod 4294967296), { m with io := H.mark m.io })
  else .error .arith

/-- Binary operators. Pointers: addition of an integer; difference and order within an object; comparison with `NULL`. -/
def binop (H : Host ω) (o : BinOp) (a b : Val) : M ω Val := fun m =>
  match a, b with
  | .int ta x, .int tb y =>
    match o with
    | .shl | .shr => shift H o ta.promote x y m
    | _ =>
      let t := Ty.common ta.promote tb.promote
      match arith o t (t.operand x) (t.operand y) with
      | .ok v => .ok (v, m)
      | .error e => .error e
  | .ptr r, .int _ y =>
    match o with
    | .add => .ok (.ptr { r with off := r.off + y }, m)
    | .sub => .ok (.ptr { r with off := r.off - y }, m)
    | _ => .error .stuck
  | .ptr r, .ptr s =>
    if r.frame = s.frame ∧ r.obj = s.obj then
      match o with
      | .sub => .ok (.int .i32 (r.off - s.off), m)
      | .lt => .ok (truth (decide (r.off < s.off)), m)
      | _ => .error .stuck
    else .error .stuck
  | .ptr _, .null =>
    match o with
    | .eq => .ok (truth false, m)
    | .ne => .ok (truth true, m)
    | _ => .error .stuck
  | .fn _, .null =>
    match o with
    | .eq => .ok (truth false, m)
    | .ne => .ok (truth true, m)
    | _ => .error .stuck
  | .null, .null =>
    match o with
    | .eq => .ok (truth true, m)
    | .ne => .ok (truth false, m)
    | _ => .error .stuck
  | _, _ => .error .stuck

/-- A value as a condition. -/
def isTrue : Val → M ω Bool
  | .int _ n => M.pure (decide (n ≠ 0))
  | .ptr _ => M.pure true
  | .fn _ => M.pure true
  | .opaque _ => M.pure true
  | .null => M.pure false
  | .uninit _ => M.fail .uninit

def cast (t : Ty) : Val → M ω Val
  | .int _ n => M.pure (.int t (t.conv n))
  | _ => M.fail .stuck

def bnot : Val → M ω Val
  | .int t n => M.pure (.int t.promote (ofBits t.promote (~~~ bits n)))
  | _ => M.fail .stuck

/-- `p[i]`. -/
def elemRef (p i : Val) : M ω Ref :=
  match p, i with
  | .ptr r, .int _ n => M.pure { r with off := r.off + n }
  | .null, .int _ _ => M.fail .null
  | _, _ => M.fail .stuck

/-! ## Library functions -/

/-- Read `n` cells. -/
def loads (r : Ref) : Nat → M ω (List Val)
  | 0 => M.pure []
  | n + 1 => M.bind (loadRef r) fun v => M.bind (loads { r with off := r.off + 1 } n) fun l => M.pure (v :: l)

/-- Write cells. -/
def stores (r : Ref) : List Val → M ω Unit
  | [] => M.pure ()
  | v :: l => M.bind (storeRef r v) fun _ => stores { r with off := r.off + 1 } l

/-- `memcpy`, `memset` and `memcmp` on arrays of bytes; anything else is the environment's. -/
def library (H : Host ω) (f : String) (as : List Val) : M ω Val :=
  match f, as with
  | "memcpy", [.ptr d, .ptr s, .int _ n] => M.bind (loads s n.toNat) fun l => M.bind (stores d l) fun _ => M.pure (.ptr d)
  | "memset", [.ptr d, .int _ v, .int _ n] => M.bind (stores d (List.replicate n.toNat (.int .u8 (v % 256)))) fun _ => M.pure (.ptr d)
  | "memcmp", [.ptr a, .ptr b, .int _ n] =>
    M.bind (loads a n.toNat) fun l => M.bind (loads b n.toNat) fun k => M.pure (.int .i32 (if l = k then 0 else 1))
  | _, _ => H.ext f as

/-! ## Evaluation -/

/-- How calls and endless loops are dealt with: `call` runs a function, `loops` bounds the number of iterations. -/
structure Ctx (ω : Type) where
  host : Host ω
  call : String → List Val → M ω Val
  loops : Nat

mutual
def eval (C : Ctx ω) : Expr → M ω Val
  | .lit t n => M.pure (.int t n)
  | .null => M.pure .null
  | .fn f => M.pure (.fn f)
  | .load l => M.bind (place C l) loadRef
  | .addr l => M.bind (place C l) fun r => M.pure (.ptr r)
  | .cast t e => M.bind (eval C e) (cast t)
  | .not e => M.bind (eval C e) fun v => M.bind (isTrue v) fun b => M.pure (truth (!b))
  | .bnot e => M.bind (eval C e) bnot
  | .bin o a b => M.bind (eval C a) fun x => M.bind (eval C b) fun y => binop C.host o x y
  | .and a b => M.bind (eval C a) fun x => M.bind (isTrue x) fun p =>
      if p then M.bind (eval C b) fun y => M.bind (isTrue y) fun q => M.pure (truth q) else M.pure (truth false)
  | .or a b => M.bind (eval C a) fun x => M.bind (isTrue x) fun p =>
      if p then M.pure (truth true) else M.bind (eval C b) fun y => M.bind (isTrue y) fun q => M.pure (truth q)
  | .cond c a b => M.bind (eval C c) fun x => M.bind (isTrue x) fun p => if p then eval C a else eval C b
  | .asg l e => M.bind (place C l) fun r => M.bind (eval C e) fun v => storeRef r v
  | .asgOp o l e => M.bind (place C l) fun r => M.bind (eval C e) fun v => M.bind (loadRef r) fun w =>
      M.bind (binop C.host o w v) fun u => storeRef r u
  | .post o l => M.bind (place C l) fun r => M.bind (loadRef r) fun w =>
      M.bind (binop C.host o w (.int .i32 1)) fun u => M.bind (storeRef r u) fun _ => M.pure w
  | .call f as => M.bind (eval C f) fun g => M.bind (evals C as) fun vs =>
      match g with
      | .fn x => C.call x vs
      | .null => M.fail .null
      | _ => M.fail .stuck
def place (C : Ctx ω) : LV → M ω Ref
  | .loc x => local_ x
  | .glob x => M.pure ⟨none, x, 0⟩
  | .elem p i => M.bind (eval C p) fun v => M.bind (eval C i) fun n => elemRef v n
  | .fld l f => M.bind (place C l) fun r => M.pure { r with obj := r.obj ++ f }
def evals (C : Ctx ω) : Args → M ω (List Val)
  | .nil => M.pure []
  | .cons e as => M.bind (eval C e) fun v => M.bind (evals C as) fun vs => M.pure (v :: vs)
end

/-- `while (c) { body; step }`, at most `n` times. -/
def iter (cond : M ω Bool) (step body : M ω Out) : Nat → M ω Out
  | 0 => M.fail .diverge
  | n + 1 => M.bind cond fun b =>
    if b then M.bind body fun
      | .next => M.bind step fun _ => iter cond step body n
      | .brk => M.pure .next
      | .ret v => M.pure (.ret v)
    else M.pure .next

/-- All cells of an object set to 0. -/
def zeroCell : Val → Val
  | .int t _ => .int t 0
  | .uninit (some t) => .int t 0
  | _ => .null

def zeroObj (r : Ref) : M ω Unit := fun m =>
  match getObj m r.frame r.obj with
  | none => .error .stuck
  | some l => .ok ((), putObj m r.frame r.obj (l.map zeroCell))

def zeroAll (C : Ctx ω) : List LV → M ω Unit
  | [] => M.pure ()
  | x :: xs => M.bind (place C x) fun r => M.bind (zeroObj r) fun _ => zeroAll C xs

def exec (C : Ctx ω) : Stmt → M ω Out
  | .skip => M.pure .next
  | .expr e => M.bind (eval C e) fun _ => M.pure .next
  | .decl x v => M.bind (declare x v) fun _ => M.pure .next
  | .seq a b => M.bind (exec C a) fun
      | .next => exec C b
      | o => M.pure o
  | .ite c a b => M.bind (eval C c) fun v => M.bind (isTrue v) fun p => if p then exec C a else exec C b
  | .loop c step body => iter (M.bind (eval C c) isTrue) (exec C step) (exec C body) C.loops
  | .doWhile body c => M.bind (exec C body) fun
      | .next => iter (M.bind (eval C c) isTrue) (M.pure .next) (exec C body) C.loops
      | .brk => M.pure .next
      | .ret v => M.pure (.ret v)
  | .block s => M.bind (exec C s) fun
      | .brk => M.pure .next
      | o => M.pure o
  | .brk => M.pure .brk
  | .ret => M.pure (.ret none)
  | .retVal e => M.bind (eval C e) fun v => M.pure (.ret (some v))
  | .zero xs => M.bind (zeroAll C xs) fun _ => M.pure .next

/-! ## Calls -/

/-- The objects of the parameters. -/
def bindParams : List (String × Option Ty) → List Val → Except Fault Objs
  | [], [] => .ok []
  | (x, t) :: ps, v :: vs =>
    match assign (.uninit t) v, bindParams ps vs with
    | .ok w, .ok l => .ok ((x, [w]) :: l)
    | .error e, _ => .error e
    | _, .error e => .error e
  | _, _ => .error .stuck

/-- The value a call has. -/
def valueOf (t : Option Ty) (o : Out) : Except Fault Val :=
  match t, o with
  | some t, .ret (some v) => assign (.uninit (some t)) v
  | none, .ret (some v) => .ok v
  | _, _ => .ok .null

/-- Run the body of a function in a frame of its own. -/
def Fun.run (C : Ctx ω) (f : Fun) (as : List Val) : M ω Val := fun m =>
  match bindParams f.params as with
  | .error e => .error e
  | .ok fr =>
    match exec C f.body { m with frames := fr :: m.frames } with
    | .error e => .error e
    | .ok (o, m') =>
      match valueOf f.result o with
      | .error e => .error e
      | .ok v => .ok (v, { m' with frames := m'.frames.drop 1 })

/-- A program: its functions by name. -/
abbrev Program := List (String × Fun)

def Program.find (P : Program) (x : String) : Option Fun :=
  match P with
  | [] => none
  | (y, f) :: P => if y = x then some f else Program.find P x

/-- Calls, nested at most `depth` deep, with loops of at most `loops` iterations. -/
def call (H : Host ω) (P : Program) (loops : Nat) : Nat → String → List Val → M ω Val
  | 0, _, _ => M.fail .diverge
  | n + 1, x, as =>
    match P.find x with
    | some f => f.run ⟨H, call H P loops n, loops⟩ as
    | none => library H x as

end
end Uwan.C
