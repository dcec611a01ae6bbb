import Verif.Cpp.Syntax

/-!
# The static rules of C++ for the subset

Which expressions and statements have a type ([expr], [stmt.stmt]), for the functions of a translation unit that may call each other.
Independent of the interpreter: only the types of the variables in scope and the declarations of the unit are used.
-/

namespace Verif.SpecType
open Verif.Cpp

/-- The types of the variables in scope, innermost first. -/
abbrev Scope := List (Nat × Ty)

/-- The type of an expression: an arithmetic type or `bool` (`none`). -/
abbrev EType := Option Elem

/-- [expr] paragraph 10: the usual arithmetic conversions. -/
def usual : Elem → Elem → Elem
  | .int s, .int t => .int (s.uac t)
  | .f64, _ | _, .f64 => .f64
  | _, _ => .f32

/-- An integer type. -/
def isInt : Elem → Bool
  | .int _ => true
  | _ => false

/-- The type of a binary expression.  Not in the subset: arithmetic on `bool`. -/
def binary : BinOp → EType → EType → Option EType
  | .add, some s, some t | .sub, some s, some t | .mul, some s, some t | .div, some s, some t => some (some (usual s t))
  | .mod, some s, some t | .and, some s, some t | .or, some s, some t | .xor, some s, some t =>
    if isInt s && isInt t then some (some (usual s t)) else none
  | .shl, some s, some t | .shr, some s, some t => if isInt s && isInt t then some (some (usual s s)) else none
  | .lt, some _, some _ | .gt, some _, some _ | .le, some _, some _ | .ge, some _, some _ | .eq, some _, some _ => some none
  | .land, _, _ | .lor, _, _ => some none
  | _, _, _ => none

/-- A subscript has an integer type. -/
def subscript : Option EType → Bool
  | some (some e) => isInt e
  | _ => false

/-- The type of an expression, if it has one. -/
def expr (Δ : Scope) : Expr → Option EType
  | .num t _ => some (some (.int t))
  | .dbl _ => some (some .f64)
  | .var x =>
    match Δ.lookup x with
    | some (.sc e) => some (some e)
    | _ => none
  | .lane x i =>
    match Δ.lookup x with
    | some (.vec e _) => if subscript (expr Δ i) then some (some e) else none
    | _ => none
  | .lane2 x j i =>
    match Δ.lookup x with
    | some (.arr e _ _) => if subscript (expr Δ j) && subscript (expr Δ i) then some (some e) else none
    | _ => none
  | .elem x i =>
    match Δ.lookup x with
    | some (.ptr e) | some (.cells e _) => if subscript (expr Δ i) then some (some e) else none
    | _ => none
  | .bin o a b =>
    match expr Δ a, expr Δ b with
    | some s, some t => binary o s t
    | _, _ => none
  | .compl a =>
    match expr Δ a with
    | some (some s) => if isInt s then some (some (usual s s)) else none
    | _ => none
  | .not a => if (expr Δ a).isSome then some none else none
  | .cast e a => if (expr Δ a).isSome then some (some e) else none
  | .stdMin (some e) a b | .stdMax (some e) a b => if (expr Δ a).isSome && (expr Δ b).isSome then some (some e) else none
  | .stdMin none a b | .stdMax none a b =>
    -- deduction of the template argument
    match expr Δ a, expr Δ b with
    | some (some s), some (some t) => if s = t then some (some s) else none
    | _, _ => none
  | .ite c a b =>
    -- not in the subset: operands of different types
    match expr Δ c, expr Δ a, expr Δ b with
    | some _, some (some s), some (some t) => if s = t then some (some s) else none
    | _, _, _ => none

/-- The expression can be assigned to. -/
def isLvalue : Expr → Bool
  | .var _ | .lane .. | .lane2 .. | .elem .. => true
  | _ => false

/-- The statement declares a variable in the scope it is in. -/
def declares : Stmt → Bool
  | .decl .. | .declCall .. | .construct .. => true
  | .seq a b => declares a || declares b
  | _ => false

/-- `sizeof(T)` -/
def sizeOf : Elem → Nat
  | .int .i8 | .int .u8 => 1
  | .int .i16 | .int .u16 => 2
  | .int .i32 | .int .u32 | .f32 => 4
  | .int .i64 | .int .u64 | .f64 => 8

/-- The function or class with the given name. -/
def named (f : Nat) (l : List Func) : Option Func := l.find? (·.name == f)
@[inherit_doc named] def namedStruct (c : Nat) (l : List Struct) : Option Struct := l.find? (·.name == c)

/-- A pointer type. -/
def isPointer : Ty → Bool
  | .ptr _ => true
  | _ => false

/-- A parameter can be initialised with the argument ([expr.call]): a scalar with an arithmetic value, a pointer with an array of elements
of its type. -/
def argument (Δ : Scope) : Ty → Expr → Bool
  | .sc _, a => (expr Δ a).isSome
  | .ptr e, .var y =>
    match Δ.lookup y with
    | some (.cells e' _) => e' = e
    | _ => false
  | _, _ => false

/-- There is an argument for each parameter.  Not in the subset: an array that is passed twice, a pointer parameter with the name of
a later one. -/
def arguments (Δ : Scope) : List (Ty × Nat) → List Expr → Bool
  | [], [] => true
  | (t, x) :: ps, a :: as =>
    argument Δ t a && (!isPointer t || (as.all (· != a) && ps.all (·.2 != x))) && arguments Δ ps as
  | _, _ => false

/-- The type of a call: `void` or a scalar type.  Not in the subset: a function with a result and a pointer parameter. -/
def callee (u : TransUnit) (Δ : Scope) (f : Nat) (as : List Expr) : Option Ty :=
  match named f u.funcs with
  | some g =>
    if arguments Δ g.params as then
      match g.ret with
      | .void => some .void
      | .sc e => if g.params.all (!isPointer ·.1) then some (.sc e) else none
      | _ => none
    else none
  | none => none

/-- The call has a value. -/
def valued (u : TransUnit) (Δ : Scope) (f : Nat) (as : List Expr) : Bool :=
  match callee u Δ f as with
  | some (.sc _) => true
  | _ => false

/-- The names in scope for an object of a class: the object and its members. -/
def object (c x : Nat) (s : Struct) : Scope := (x, .cls c) :: s.members.map fun m => (member x m.1, m.2.1)

/-- The scope after a statement of a function of the unit `u` that returns `t`, if the statement obeys the rules.  Not in the subset: output
that is not followed by `abort`, a declaration as the body of a loop or a branch. -/
def stmt (u : TransUnit) (t : Ty) (Δ : Scope) : Stmt → Option Scope
  | .skip => some Δ
  | .seq (.fprintf _) (.seq .abort s) => stmt u t Δ s
  | .seq a b => (stmt u t Δ a).bind fun Δ => stmt u t Δ b
  | .block s => (stmt u t Δ s).map fun _ => Δ
  | .decl ty x none =>
    match ty with
    | .sc _ | .vec .. | .arr .. | .cells .. => some ((x, ty) :: Δ)
    | _ => none
  | .decl ty x (some a) =>
    match ty with
    | .sc _ => if (expr Δ a).isSome then some ((x, ty) :: Δ) else none
    | _ => none
  | .assign l a => if isLvalue l && (expr Δ l).isSome && (expr Δ a).isSome then some Δ else none
  | .loop i c s b =>
    (stmt u t Δ i).bind fun Δ' =>
      if !declares s && !declares b && (expr Δ' c).isSome && (stmt u t Δ' s).isSome && (stmt u t Δ' b).isSome then some Δ else none
  | .ite c a b =>
    if !declares a && !declares b && (expr Δ c).isSome && (stmt u t Δ a).isSome && (stmt u t Δ b).isSome then some Δ else none
  | .ret a =>
    match t with
    | .sc _ => if (expr Δ a).isSome then some Δ else none
    | .vec .. | .arr .. =>
      match a with
      | .var x => if Δ.lookup x = some t then some Δ else none
      | _ => none
    | _ => none
  | .abort => some Δ
  | .memcpy d s e n =>
    match Δ.lookup d, Δ.lookup s with
    | some (.vec e' _), some (.vec _ _) => if sizeOf e * n % sizeOf e' = 0 then some Δ else none
    | _, _ => none
  | .memcpySc d s e =>
    match Δ.lookup d, Δ.lookup s with
    | some (.sc e'), some (.sc e'') => if sizeOf e' = sizeOf e ∧ sizeOf e'' = sizeOf e then some Δ else none
    | _, _ => none
  | .call f as => if (callee u Δ f as).isSome then some Δ else none
  | .declCall ty x f as =>
    match ty with
    | .sc _ => if valued u Δ f as then some ((x, ty) :: Δ) else none
    | _ => none
  | .assignCall l f as => if valued u Δ f as && isLvalue l && (expr Δ l).isSome then some Δ else none
  | .construct c x as =>
    match namedStruct c u.structs, named c u.ctors with
    | some s, some g => if arguments Δ g.params as && g.params.all (!isPointer ·.1) then some (object c x s ++ Δ) else none
    | _, _ => none
  | .retConv e x =>
    match t, Δ.lookup x with
    | .sc _, some (.cls c) =>
      match namedStruct c u.structs, named c u.convs with
      | some s, some g =>
        if g.ret = .sc e && s.members.all (fun m => Δ.lookup (member x m.1) = some m.2.1) then some Δ else none
      | _, _ => none
    | _, _ => none
  | .fprintf _ => none

/-- The statement does not end normally: on every path there is a `return` or an `abort`. -/
def returns : Stmt → Bool
  | .ret _ | .retConv .. | .abort => true
  | .seq a b => returns a || returns b
  | .block s => returns s
  | .ite _ a b => returns a && returns b
  | _ => false

/-- The first pointer among the parameters. -/
def firstPointer (ps : List (Ty × Nat)) : Option (Ty × Nat) := ps.find? fun p => match p.1 with | .ptr _ => true | _ => false

/-- The definition of a function that calls no other function obeys the rules: so does its body, where the parameters are in scope, and it
does not end without a `return`.  A `void` function has a pointer parameter that is not hidden at its end (the functions of the subset are
called for what they store). -/
def func (g : Func) : Bool :=
  match stmt ⟨[], [], [], []⟩ g.ret (g.params.map fun p => (p.2, p.1)).reverse g.body with
  | some Δ =>
    if g.ret = .void then
      match firstPointer g.params with
      | some (t, x) => Δ.lookup x = some t
      | none => false
    else returns g.body
  | none => false

/-! ## Translation units -/

/-- The definition of a function of the unit obeys the rules; `Δ` are the members in scope.  The pointer parameters are not hidden at its end
([basic.scope.block]: a parameter is not redeclared in the outermost block of the function). -/
def definition (u : TransUnit) (Δ : Scope) (g : Func) : Bool :=
  match stmt u g.ret ((g.params.map fun p => (p.2, p.1)).reverse ++ Δ) g.body with
  | some Δ' => g.params.all (fun p => !isPointer p.1 || Δ'.lookup p.2 = some p.1) && (g.ret = .void || returns g.body)
  | none => false

/-- A member of a class has a type with objects; only an array of numbers is filled. -/
def isMember : Nat × Ty × Option Int → Bool
  | (_, .cells .., _) | (_, .sc _, none) | (_, .vec .., none) | (_, .arr .., none) => true
  | _ => false

/-- The members of a class in scope. -/
def fields (s : Struct) : Scope := s.members.map fun m => (m.1, m.2.1)

/-- The unit obeys the rules: the functions, which see no members (no function of the subset uses one), the constructors, which have no
result, and the conversion functions, which have no parameters, each with the members of its class. -/
def unit (u : TransUnit) : Bool :=
  u.funcs.all (definition u []) && u.structs.all (fun s => s.members.all isMember) &&
  u.ctors.all (fun g => g.ret = .void && (namedStruct g.name u.structs).any fun s => definition u (fields s) g) &&
  u.convs.all (fun g => g.params = [] && g.ret != .void && (namedStruct g.name u.structs).any fun s => definition u (fields s) g)

end Verif.SpecType
