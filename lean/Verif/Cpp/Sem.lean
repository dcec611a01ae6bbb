import Verif.Cpp.Syntax

/-!
# Semantics of the C++ subset

A clocked big-step interpreter: `run fuel f args` executes the syntax tree of a
function.  Expressions are evaluated with the C++ rules of `Verif/Core.lean`;
in particular index expressions and loop counters are C++ integers, with
overflow.  Programs that are not well-formed (unknown variables, wrong kinds of
objects) give the outcome `illFormed`, and loops that do not end within `fuel`
iterations give `outOfFuel`.
-/

namespace Verif.Cpp

/-- An object.  Simplification: a pointer carries the buffer it points into. -/
inductive Obj
  /-- scalar, `none` if uninitialised -/
  | sc (e : Elem) (v : Option Val)
  | vec (e : Elem) (n : Nat) (r : Arr e n)
  | arr (e : Elem) (n k : Nat) (r : Arr2 e n k)
  | ptr (e : Elem) (p : Ptr e)
  /-- array, or the characters of a string -/
  | cells (e : Elem) (n : Nat) (r : Arr e n)
  /-- object of class `c`; the member `m` of the object `x` is the variable `x.m` -/
  | obj (c : Nat)

/-- A pointer type. -/
def Ty.isPtr : Ty → Bool
  | .ptr _ => true
  | _ => false

/-- The type of an object. -/
def Obj.ty : Obj → Ty
  | .sc e _ => .sc e
  | .vec e n _ => .vec e n
  | .arr e n k _ => .arr e n k
  | .ptr e _ => .ptr e
  | .cells e n _ => .cells e n
  | .obj c => .cls c

/-- Variables in scope, innermost first. -/
abbrev Env := List (Nat × Obj)

/-- The program is not well-formed C++ of the subset. -/
def illFormed {α : Type} : C α := .abort "ill-formed program"
/-- The loop did not end within the given number of iterations. -/
def outOfFuel {α : Type} : C α := .abort "out of fuel"

/-- The object of a variable. -/
def Env.get (x : Nat) : Env → C Obj
  | [] => illFormed
  | (y, o) :: ρ => if x == y then .ok o else Env.get x ρ

/-- Replace the object of a variable. -/
def Env.set (x : Nat) (o : Obj) : Env → Env
  | [] => []
  | (y, p) :: ρ => if x == y then (y, o) :: ρ else (y, p) :: Env.set x o ρ

/-- The value of a scalar object. -/
def Obj.val : Obj → C Val
  | .sc _ (some v) => .ok v
  | .sc _ none => .ub .indeterminateRead
  | _ => illFormed
/-- `x.val[i]` -/
def Obj.lane (i : Val) : Obj → C Val
  | .vec _ _ r => if i.isInt then r.get i.idx else illFormed
  | _ => illFormed
/-- `r.val[j].val[i]` as an rvalue -/
def arr2Get {e : Elem} {n k : Nat} (r : Arr2 e n k) (j i : Int) : C Val :=
  if h : 0 ≤ j ∧ j < k then (r ⟨j.toNat, by omega⟩).get i else .ub .outOfBounds
/-- The lanes of a register array. -/
def ofRegs {e : Elem} {n k : Nat} (a : VecArr e n k) : Arr2 e n k := fun j => Arr.ofVec (a.reg j)
/-- `x.val[j].val[i]` -/
def Obj.lane2 (j i : Val) : Obj → C Val
  | .arr _ _ _ r => if j.isInt && i.isInt then arr2Get r j.idx i.idx else illFormed
  | _ => illFormed
/-- `x[i]` -/
def Obj.elem (i : Val) : Obj → C Val
  | .ptr _ p => if i.isInt then p.get i.idx else illFormed
  | .cells _ _ r => if i.isInt then r.get i.idx else illFormed
  | _ => illFormed

/-- `x = v` -/
def Obj.setVal (v : Val) : Obj → C Obj
  | .sc e _ => do let v ← Val.cast e v; pure (.sc e (some v))
  | _ => illFormed
/-- `x.val[i] = v` -/
def Obj.setLane (i v : Val) : Obj → C Obj
  | .vec e n r => if i.isInt then do let r ← r.set i.idx v; pure (.vec e n r) else illFormed
  | _ => illFormed
/-- `x.val[j].val[i] = v` -/
def Obj.setLane2 (j i v : Val) : Obj → C Obj
  | .arr e n k r => if j.isInt && i.isInt then do let r ← r.set j.idx i.idx v; pure (.arr e n k r) else illFormed
  | _ => illFormed
/-- `x[i] = v` -/
def Obj.setElem (i v : Val) : Obj → C Obj
  | .ptr e p => if i.isInt then do let p ← p.set i.idx v; pure (.ptr e p) else illFormed
  | .cells e n r => if i.isInt then do let r ← r.set i.idx v; pure (.cells e n r) else illFormed
  | _ => illFormed

/-- Type of a value. -/
def tyVal : Val → Elem
  | .int t _ => .int t
  | .f32 _ => .f32
  | .f64 _ => .f64

/-- Static type of the operand types of an arithmetic operation. -/
def common : Elem → Elem → Elem
  | .int s, .int t => .int (s.uac t)
  | .f64, _ | _, .f64 => .f64
  | _, _ => .f32

/-- The type of an expression. -/
def typ (ρ : Env) : Expr → Option Elem
  | .num t _ => some (.int t)
  | .dbl _ => some .f64
  | .var x =>
    match ρ.get x with
    | .ok (.sc e _) => some e
    | _ => none
  | .lane x _ =>
    match ρ.get x with
    | .ok (.vec e _ _) => some e
    | _ => none
  | .lane2 x _ _ =>
    match ρ.get x with
    | .ok (.arr e _ _ _) => some e
    | _ => none
  | .elem x _ =>
    match ρ.get x with
    | .ok (.ptr e _) => some e
    | .ok (.cells e _ _) => some e
    | _ => none
  | .bin o a b =>
    match typ ρ a, typ ρ b with
    | some s, some t =>
      match o with
      | .add | .sub | .mul | .div | .mod | .and | .or | .xor => some (common s t)
      | .shl | .shr => some (common s s)
      | .lt | .gt | .le | .ge | .eq | .land | .lor => none  -- `bool`: not used as a value
    | _, _ => none
  | .compl a => (typ ρ a).map fun s => common s s
  | .not _ => none
  | .cast e _ => some e
  | .stdMin (some e) _ _ => some e
  | .stdMax (some e) _ _ => some e
  | .stdMin none a _ => typ ρ a
  | .stdMax none a _ => typ ρ a
  | .ite _ a _ => typ ρ a

/-- `bool` used as a value. -/
def ofBool (b : Bool) : Val := .int .i32 (if b then 1 else 0)

section
variable [Dialect]

/-- `x % y` -/
def mod : Val → Val → C Val
  | .int s x, .int t y =>
    let u := s.uac t
    if t.conv u y = 0 then .ub .divByZero
    else mkQuot u ((s.conv u x).tdiv (t.conv u y)) ((s.conv u x).tmod (t.conv u y))
  | _, _ => illFormed

/-- Binary operators without `&&` and `||`. -/
def binary : BinOp → Val → Val → C Val
  | .add => Val.add
  | .sub => Val.sub
  | .mul => Val.mul
  | .div => Val.div
  | .mod => mod
  | .shl => Val.shl
  | .shr => Val.shr
  | .and => Val.and
  | .or => Val.or
  | .xor => Val.xor
  | .lt => fun x y => .ok (ofBool (Val.lt x y))
  | .gt => fun x y => .ok (ofBool (Val.gt x y))
  | .le => fun x y => .ok (ofBool (Val.cmp (fun a b => decide (a ≤ b)) (fun f a b => f.lt a b || f.eq a b) x y))
  | .ge => fun x y => .ok (ofBool (Val.cmp (fun a b => decide (b ≤ a)) (fun f a b => f.lt b a || f.eq a b) x y))
  | .eq => fun x y => .ok (ofBool (Val.eq x y))
  | .land | .lor => fun _ _ => illFormed

/-- Expressions.  Operands are evaluated from left to right; as no expression has
a side effect the order does not matter. -/
def eval (ρ : Env) : Expr → C Val
  | .num t n => .ok (.int t n)
  | .dbl n => .ok (.f64 (Val.int .i64 n).toF64)
  | .var x => do (← ρ.get x).val
  | .lane x i => do
    let i ← eval ρ i
    (← ρ.get x).lane i
  | .lane2 x j i => do
    let j ← eval ρ j
    let i ← eval ρ i
    (← ρ.get x).lane2 j i
  | .elem x i => do
    let i ← eval ρ i
    (← ρ.get x).elem i
  | .bin .land a b => do
    if (← eval ρ a).truth then
      let b ← eval ρ b
      pure (ofBool b.truth)
    else pure (ofBool false)
  | .bin .lor a b => do
    if (← eval ρ a).truth then pure (ofBool true)
    else
      let b ← eval ρ b
      pure (ofBool b.truth)
  | .bin o a b => do
    let a ← eval ρ a
    let b ← eval ρ b
    binary o a b
  | .compl a => do Val.not (← eval ρ a)
  | .not a => do
    let a ← eval ρ a
    pure (ofBool (!a.truth))
  | .cast e a => do Val.cast e (← eval ρ a)
  | .stdMin (some e) a b => do
    let a ← eval ρ a
    let b ← eval ρ b
    Val.stdMin e a b
  | .stdMax (some e) a b => do
    let a ← eval ρ a
    let b ← eval ρ b
    Val.stdMax e a b
  | .stdMin none a b =>
    -- deduction of `T` needs operands of the same type
    match typ ρ a with
    | some e =>
      if typ ρ b = some e then do
        let a ← eval ρ a
        let b ← eval ρ b
        Val.stdMin e a b
      else illFormed
    | none => illFormed
  | .stdMax none a b =>
    match typ ρ a with
    | some e =>
      if typ ρ b = some e then do
        let a ← eval ρ a
        let b ← eval ρ b
        Val.stdMax e a b
      else illFormed
    | none => illFormed
  | .ite c a b =>
    -- only operands of one type occur, so there is no conversion
    match typ ρ a with
    | some e =>
      if typ ρ b = some e then do
        if (← eval ρ c).truth then eval ρ a else eval ρ b
      else illFormed
    | none => illFormed

/-- `l = v` -/
def store (ρ : Env) (l : Expr) (v : Val) : C Env :=
  match l with
  | .var x => do
    let o ← (← ρ.get x).setVal v
    pure (ρ.set x o)
  | .lane x i => do
    let i ← eval ρ i
    let o ← (← ρ.get x).setLane i v
    pure (ρ.set x o)
  | .lane2 x j i => do
    let j ← eval ρ j
    let i ← eval ρ i
    let o ← (← ρ.get x).setLane2 j i v
    pure (ρ.set x o)
  | .elem x i => do
    let i ← eval ρ i
    let o ← (← ρ.get x).setElem i v
    pure (ρ.set x o)
  | _ => illFormed

/-- How a statement ends: normally, or by `return`. -/
inductive Flow
  | next (ρ : Env)
  | ret (o : Obj)

/-- Continue after normal completion. -/
def Flow.andThen (s : Flow) (k : Env → C Flow) : C Flow :=
  match s with
  | .next ρ => k ρ
  | .ret o => .ok (.ret o)

/-- Leave a scope that was entered with `n` variables. -/
def Flow.leave (n : Nat) : Flow → Flow
  | .next ρ => .next (ρ.drop (ρ.length - n))
  | .ret o => .ret o

/-- `while (c) { body; inc; }` -/
def iterate (c : Env → C Val) (inc body : Env → C Flow) : Nat → Env → C Flow
  | 0, _ => outOfFuel
  | n + 1, ρ => do
    if (← c ρ).truth then
      (← body ρ).andThen fun ρ => do
        (← inc ρ).andThen fun ρ => iterate c inc body n ρ
    else .ok (.next ρ)

/-- The new object of a declaration without initialiser. -/
def fresh : Ty → C Obj
  | .sc e => .ok (.sc e none)
  | .vec e n => .ok (.vec e n Arr.undef)
  | .arr e n k => .ok (.arr e n k Arr2.undef)
  | .cells e n => .ok (.cells e n Arr.undef)
  | _ => illFormed

/-- Replace `%s` (characters 37, 115) in a format by a name. -/
def format (name : List Nat) : List Nat → List Nat
  | 37 :: 115 :: cs => name ++ format name cs
  | c :: cs => c :: format name cs
  | [] => []

/-- The string with the given characters. -/
def text (cs : List Nat) : String := String.ofList (cs.map Char.ofNat)

/-- The register of which every lane is initialised. -/
def full {e : Elem} {n : Nat} (r : Arr e n) : C (Vec e n) :=
  if h : ∀ i, (r i).isSome then .ok ⟨fun i => (r i).get (h i)⟩ else .ub .indeterminateRead

/-- `sizeof(T)` -/
def sizeof : Elem → Nat
  | .int .i8 | .int .u8 => 1
  | .int .i16 | .int .u16 => 2
  | .int .i32 | .int .u32 | .f32 => 4
  | .int .i64 | .int .u64 | .f64 => 8
/-- `memcpy(&dst.val, &src.val, bytes);` of whole lanes -/
def copy (dst src : Obj) (bytes : Nat) : C Obj :=
  match dst, src with
  | .vec e n r, .vec _ _ a =>
    if bytes % sizeof e = 0 then do
      let a ← full a
      let r ← memcpyVec r a bytes
      pure (.vec e n r)
    else illFormed
  | _, _ => illFormed

/-- `memcpy(&dst, &src, bytes);` of scalars of that size -/
def copySc (dst src : Obj) (bytes : Nat) : C Obj :=
  match dst, src with
  | .sc d _, .sc s v =>
    if d.bits = 8 * bytes ∧ s.bits = 8 * bytes then
      match v with
      | some v => do
        let b ← Val.toBits s v
        pure (.sc d (some (.ofBits d (BitVec.ofNat d.bits b.toNat))))
      | none => .ub .indeterminateRead
    else illFormed
  | _, _ => illFormed

/-- How the function calls of a statement are executed. -/
structure Calls where
  /-- `f(args)`: the value returned, if any, and the variables of the caller afterwards -/
  call : Nat → List Expr → Env → C (Option Val × Env)
  /-- `c x{args}`: the variables of the caller with the new object -/
  construct : Nat → Nat → List Expr → Env → C Env
  /-- `e(x)` for an object `x` -/
  convert : Elem → Nat → Env → C Val

/-- No function can be called. -/
def noCalls : Calls := ⟨fun _ _ _ => illFormed, fun _ _ _ _ => illFormed, fun _ _ _ => illFormed⟩

/-- The value of a call that is used. -/
def returned : Option Val → C Val
  | some v => .ok v
  | none => illFormed

/-- The statement declares a variable in the scope it is in. -/
def Stmt.declares : Stmt → Bool
  | .decl .. | .declCall .. | .construct .. => true
  | .seq a b => a.declares || b.declares
  | .skip | .block _ | .assign .. | .loop .. | .ite .. | .ret _ | .fprintf _ | .abort | .memcpy .. | .memcpySc .. |
    .call .. | .assignCall .. | .retConv .. => false

/-- Statements of the function `fn` with result type `t`. -/
def exec (Γ : Calls) (fuel : Nat) (fn : List Nat) (t : Ty) : Stmt → Env → C Flow
  | .skip, ρ => .ok (.next ρ)
  | .seq (.fprintf fmt) (.seq .abort _), _ => .abort (text (format fn fmt))
  | .seq a b, ρ => do (← exec Γ fuel fn t a ρ).andThen fun ρ => exec Γ fuel fn t b ρ
  | .block s, ρ => do
    let r ← exec Γ fuel fn t s ρ
    pure (r.leave ρ.length)
  | .decl t x none, ρ => do
    let o ← fresh t
    pure (.next ((x, o) :: ρ))
  | .decl t x (some e), ρ => do
    let v ← eval ρ e
    let o ← (← fresh t).setVal v
    pure (.next ((x, o) :: ρ))
  | .assign l e, ρ => do
    let v ← eval ρ e
    let ρ ← store ρ l v
    pure (.next ρ)
  | .loop i c s b, ρ =>
    -- not in the subset: a declaration as the body
    if s.declares || b.declares then illFormed else do
    let r ← exec Γ fuel fn t i ρ
    let r ← r.andThen fun ρ =>
      iterate (fun ρ => eval ρ c) (exec Γ fuel fn t s) (exec Γ fuel fn t b) fuel ρ
    pure (r.leave ρ.length)
  | .ite c a b, ρ =>
    -- not in the subset: a declaration as a branch
    if a.declares || b.declares then illFormed else do
    if (← eval ρ c).truth then exec Γ fuel fn t a ρ else exec Γ fuel fn t b ρ
  | .ret e, ρ =>
    match t with
    | .sc t => do
      let b ← Val.toBits t (← eval ρ e)
      pure (.ret (.sc t (some (.ofBits t b))))
    | .vec .. | .arr .. =>
      match e with
      | .var x => do
        let o ← ρ.get x
        if o.ty = t then pure (.ret o) else illFormed
      | _ => illFormed
    | _ => illFormed
  | .fprintf _, _ => illFormed  -- not in the subset: output without `abort`
  | .abort, _ => .abort ""
  | .memcpy d s e n, ρ => do
    let o ← copy (← ρ.get d) (← ρ.get s) (sizeof e * n)
    pure (.next (ρ.set d o))
  | .memcpySc d s e, ρ => do
    let o ← copySc (← ρ.get d) (← ρ.get s) (sizeof e)
    pure (.next (ρ.set d o))
  | .call f args, ρ => do
    let (_, ρ) ← Γ.call f args ρ
    pure (.next ρ)
  | .declCall t x f args, ρ => do
    let (v, ρ) ← Γ.call f args ρ
    let o ← (← fresh t).setVal (← returned v)
    pure (.next ((x, o) :: ρ))
  | .assignCall l f args, ρ => do
    let (v, ρ) ← Γ.call f args ρ
    let ρ ← store ρ l (← returned v)
    pure (.next ρ)
  | .construct c x args, ρ => do
    let ρ ← Γ.construct c x args ρ
    pure (.next ρ)
  | .retConv e x, ρ =>
    match t with
    | .sc t => do
      let b ← Val.toBits t (← Γ.convert e x ρ)
      pure (.ret (.sc t (some (.ofBits t b))))
    | _ => illFormed

/-- Pass the arguments. -/
def bindArgs : List (Ty × Nat) → List Obj → Env → C Env
  | [], [], ρ => .ok ρ
  | (t, x) :: ps, o :: os, ρ => if o.ty = t then bindArgs ps os ((x, o) :: ρ) else illFormed
  | _, _, _ => illFormed

/-- The returned object; returning a register with a lane that was never written
is the outcome `indet`. -/
def result : Obj → C Obj
  | .vec e n r => do
    let v ← r.ret
    pure (.vec e n (Arr.ofVec v))
  | .arr e n k r => do
    let v ← r.ret
    pure (.arr e n k (ofRegs v))
  | o => .ok o

/-- The first pointer parameter, with the memory behind it: what a store
function has changed. -/
def memory : List (Ty × Nat) → Env → C Obj
  | (.ptr _, x) :: _, ρ => ρ.get x
  | _ :: ps, ρ => memory ps ρ
  | [], _ => illFormed

/-- The effect of a call: the returned object, or the memory after a `void` function. -/
def Flow.finish (t : Ty) (ps : List (Ty × Nat)) : Flow → C Obj
  | .ret o => result o
  | .next ρ => if t = .void then memory ps ρ else illFormed

/-- Call of a function. -/
def run (fuel : Nat) (f : Func) (args : List Obj) : C Obj := do
  let ρ ← bindArgs f.params args []
  let r ← exec noCalls fuel (chars 64 f.name).reverse f.ret f.body ρ
  r.finish f.ret f.params

/-! ## Calls between the functions of a translation unit -/

/-- The elements of an array as a buffer. -/
def toPtr {e : Elem} {n : Nat} (r : Arr e n) : Ptr e := ⟨List.ofFn r, 0⟩
/-- The elements of an array from a buffer. -/
def ofPtr {e : Elem} (p : Ptr e) (n : Nat) : Arr e n := fun i => (p.buf[i.val]?).join

/-- Initialise the parameters with the arguments: scalars are converted to the type
of the parameter, an array becomes a pointer to its first element.  No array is passed twice and no two
parameters have one name. -/
def pass (ρ : Env) : List (Ty × Nat) → List Expr → Env → C Env
  | [], [], acc => .ok acc
  | (.sc e, x) :: ps, a :: as, acc => do
    let v ← eval ρ a
    let v ← Val.cast e v
    pass ρ ps as ((x, .sc e (some v)) :: acc)
  | (.ptr e, x) :: ps, .var y :: as, acc => do
    match ← ρ.get y with
    | .cells e' _ r => if e' = e ∧ as.all (· != .var y) ∧ ps.all (·.2 != x) then pass ρ ps as ((x, .ptr e' (toPtr r)) :: acc) else illFormed
    | _ => illFormed
  | _, _, _ => illFormed

/-- The variables of the caller after a call: the arrays that were passed have the
elements of the buffers at the end of the call.  As no array is passed twice, no
function keeps a pointer and only `void` functions have pointers this is what the call does to them.  `ρ'` are the variables of the
function called. -/
def copyBack (ρ' : Env) : List (Ty × Nat) → List Expr → Env → C Env
  | (.ptr _, x) :: ps, .var y :: as, ρ => do
    match ← ρ'.get x, ← ρ.get y with
    | .ptr e p, .cells e' n _ => if e = e' then copyBack ρ' ps as (ρ.set y (.cells e n (ofPtr p n))) else illFormed
    | _, _ => illFormed
  | _ :: ps, _ :: as, ρ => copyBack ρ' ps as ρ
  | _, _, ρ => .ok ρ

/-- The function with the given name. -/
def lookup (f : Nat) : List Func → C Func
  | [] => illFormed
  | g :: gs => if g.name == f then .ok g else lookup f gs
/-- The class with the given name. -/
def lookupStruct (c : Nat) : List Struct → C Struct
  | [] => illFormed
  | s :: ss => if s.name == c then .ok s else lookupStruct c ss

/-- The members of a new object before the body of the constructor. -/
def freshMembers : List (Nat × Ty × Option Int) → C Env
  | [] => .ok []
  | (x, .cells e n, some v) :: ms => do
    let b ← Val.toBits e (vint v)
    let ρ ← freshMembers ms
    pure ((x, .cells e n (fun _ => some b)) :: ρ)
  | (x, t, none) :: ms => do
    let o ← fresh t
    let ρ ← freshMembers ms
    pure ((x, o) :: ρ)
  | _ => illFormed

/-- The members of the object `x`. -/
def getMembers (ρ : Env) (x : Nat) : List (Nat × Ty × Option Int) → C Env
  | [] => .ok []
  | (m, _, _) :: ms => do
    let o ← ρ.get (member x m)
    let ρ' ← getMembers ρ x ms
    pure ((m, o) :: ρ')

/-- Calls nested at most `depth` deep of the functions of a translation unit.
The body of a member function sees its parameters and then the members of the object;
simplification: member functions called by other member functions see no members
(the one there is uses none). -/
def TransUnit.calls (u : TransUnit) (fuel : Nat) : Nat → Calls
  | 0 => ⟨fun _ _ _ => outOfFuel, fun _ _ _ _ => outOfFuel, fun _ _ _ => outOfFuel⟩
  | depth + 1 =>
    { call := fun f args ρ => do
        let g ← lookup f u.funcs
        let ρ' ← pass ρ g.params args []
        match ← exec (u.calls fuel depth) fuel (chars 64 f).reverse g.ret g.body ρ' with
        | .ret o =>
          if g.params.all fun p => !p.1.isPtr then do
            let v ← o.val
            pure (some v, ρ)
          else illFormed
        | .next ρ' =>
          if g.ret = .void then do
            let ρ ← copyBack ρ' g.params args ρ
            pure (none, ρ)
          else illFormed
      construct := fun c x args ρ => do
        let s ← lookupStruct c u.structs
        let g ← lookup c u.ctors
        let ms ← freshMembers s.members
        let ρ' ← pass ρ g.params args ms
        match ← exec (u.calls fuel depth) fuel (chars 64 c).reverse g.ret g.body ρ' with
        | .ret _ => illFormed
        | .next ρ' =>
          if g.params.all fun p => !p.1.isPtr then
            pure ((x, .obj c) :: ((ρ'.drop (ρ'.length - ms.length)).map fun (m, o) => (member x m, o)) ++ ρ)
          else illFormed
      convert := fun e x ρ => do
        match ← ρ.get x with
        | .obj c => do
          let s ← lookupStruct c u.structs
          let g ← lookup c u.convs
          let ms ← getMembers ρ x s.members
          if g.ret = .sc e then
            match ← exec (u.calls fuel depth) fuel (chars 64 c).reverse g.ret g.body ms with
            | .ret o => o.val
            | .next _ => illFormed
          else illFormed
        | _ => illFormed }

/-- Call of the function `f` of a translation unit. -/
def TransUnit.run (fuel : Nat) (u : TransUnit) (f : Nat) (args : List Obj) : C Obj := do
  let g ← lookup f u.funcs
  let ρ ← bindArgs g.params args []
  let r ← exec (u.calls fuel fuel) fuel (chars 64 f).reverse g.ret g.body ρ
  r.finish g.ret g.params

end

/-! ## Arguments and results -/

/-- A register as an argument or result. -/
def Obj.ofVec {e : Elem} {n : Nat} (a : Vec e n) : Obj := .vec e n (Arr.ofVec a)
/-- A register array as an argument or result. -/
def Obj.ofVecArr {e : Elem} {n k : Nat} (a : VecArr e n k) : Obj := .arr e n k (ofRegs a)
/-- An `int` argument. -/
def Obj.ofInt (n : Int) : Obj := .sc .s32 (some (vint n))
/-- A scalar argument or result. -/
def Obj.ofScalar (e : Elem) (b : BitVec e.bits) : Obj := .sc e (some (.ofBits e b))
/-- A pointer argument, or the memory after a call. -/
def Obj.ofPtr {e : Elem} (p : Ptr e) : Obj := .ptr e p

/-- `Runs text args r`: the function whose definition is `text`, called with
`args`, has the outcome `r`. -/
def Runs [Dialect] (text : String) (args : List Obj) (r : C Obj) : Prop :=
  ∃ f, parse text.toList = some f ∧ ∃ fuel₀, ∀ fuel, fuel₀ ≤ fuel → run fuel f args = r

/-- `RunsIn text f args r`: the function `f` of the translation unit `text`, called with
`args`, has the outcome `r`. -/
def RunsIn [Dialect] (text : String) (f : Nat) (args : List Obj) (r : C Obj) : Prop :=
  ∃ u, parseUnit text.toList = some u ∧ ∃ fuel₀, ∀ fuel, fuel₀ ≤ fuel → u.run fuel f args = r

end Verif.Cpp
