import Verif.Cpp.Syntax
import Verif.SpecCpp

/-!
# The grammar of the C++ subset

The productions of the standard (annex A) for the expressions, statements and definitions of the subset, as relations
between lists of tokens and syntax trees.  Only the types of `Cpp/Syntax` are used, the list of keywords, the numbers of
names (`k!"…"`), the name of a member of an object (`member`) and the meaning of a type name (`typeOf`; it agrees with the
definitions of the header, `header_types`).
-/

namespace Verif.SpecGrammar
open Verif.Cpp (Tok Expr BinOp Stmt Ty Func TransUnit keywords member typeOf)
open scoped Verif.Cpp

/-- `p!"+"`: the token. -/
scoped macro:max "p!" noWs s:str : term => do
  let v := s.getString.toList.foldl (fun n c => n * 256 + c.toNat) 0
  `(Tok.op $(Lean.Syntax.mkNumLit (toString v)))
/-- `w!"return"`: the token. -/
scoped macro:max "w!" noWs s:str : term => do
  let v := s.getString.toList.foldl (fun n c => n * 256 + c.toNat) 0
  `(Tok.id $(Lean.Syntax.mkNumLit (toString v)))

/-- The names of scalar types (`neon_sim.h:13-14`, `<stdint.h>`, LP64). -/
def scalars : List (Nat × Elem) :=
  [(k!"int8_t", .s8), (k!"int16_t", .s16), (k!"int32_t", .s32), (k!"int64_t", .s64),
   (k!"uint8_t", .u8), (k!"uint16_t", .u16), (k!"uint32_t", .u32), (k!"uint64_t", .u64),
   (k!"int", .s32), (k!"size_t", .u64),
   (k!"float", .f32), (k!"float32_t", .f32), (k!"double", .f64), (k!"float64_t", .f64)]

/-- The limits of `<stdint.h>` and their types. -/
def limits : List (Nat × ITy × Int) :=
  [(k!"INT8_MIN", .i32, -2 ^ 7), (k!"INT16_MIN", .i32, -2 ^ 15), (k!"INT32_MIN", .i32, -2 ^ 31), (k!"INT64_MIN", .i64, -2 ^ 63),
   (k!"INT8_MAX", .i32, 2 ^ 7 - 1), (k!"INT16_MAX", .i32, 2 ^ 15 - 1), (k!"INT32_MAX", .i32, 2 ^ 31 - 1),
   (k!"INT64_MAX", .i64, 2 ^ 63 - 1), (k!"UINT8_MAX", .i32, 2 ^ 8 - 1), (k!"UINT16_MAX", .i32, 2 ^ 16 - 1),
   (k!"UINT32_MAX", .u32, 2 ^ 32 - 1), (k!"UINT64_MAX", .u64, 2 ^ 64 - 1)]

/-- The binary operators with their levels, from the weakest. -/
def operators : List (Nat × Nat × BinOp) :=
  [(1, k!"||", .lor), (2, k!"&&", .land), (3, k!"|", .or), (4, k!"^", .xor), (5, k!"&", .and), (6, k!"==", .eq),
   (7, k!"<", .lt), (7, k!">", .gt), (7, k!"<=", .le), (7, k!">=", .ge), (8, k!"<<", .shl), (8, k!">>", .shr),
   (9, k!"+", .add), (9, k!"-", .sub), (10, k!"*", .mul), (10, k!"/", .div), (10, k!"%", .mod)]

/-- A name that is neither a keyword nor the name of a scalar type. -/
def Ident (x : Nat) : Prop := x ∉ keywords ∧ ∀ e, (x, e) ∉ scalars

/-- [lex.icon]: the first of the types that can represent the number. -/
def FirstOf (ts : List ITy) (n : Nat) (t : ITy) : Prop :=
  ∃ l r, ts = l ++ t :: r ∧ SpecCpp.IsValue t n ∧ ∀ s ∈ l, ¬ SpecCpp.IsValue s n

/-- [expr]: expressions of a level.  Level 0 is a conditional expression, levels 1 to 10 are the binary operators
(left associative: the left operand has the level of the operator, the right one a higher one), level 11 is a cast or unary expression,
level 12 a primary or postfix expression. -/
inductive Derives : Nat → List Tok → Expr → Prop
  | higher (p u a) : p < 12 → Derives (p + 1) u a → Derives p u a
  | cond (u v w c a b) : Derives 1 u c → Derives 0 v a → Derives 0 w b →
      Derives 0 (u ++ p!"?" :: v ++ p!":" :: w) (.ite c a b)
  | binary (p o op u v a b) : (p, o, op) ∈ operators → Derives p u a → Derives (p + 1) v b →
      Derives p (u ++ .op o :: v) (.bin op a b)
  | compl (u a) : Derives 11 u a → Derives 11 (p!"~" :: u) (.compl a)
  | not (u a) : Derives 11 u a → Derives 11 (p!"!" :: u) (.not a)
  | cast (t e u a) : (t, e) ∈ scalars → Derives 11 u a → Derives 11 (p!"(" :: .id t :: p!")" :: u) (.cast e a)
  | paren (u a) : Derives 0 u a → Derives 12 (p!"(" :: u ++ [p!")"]) a
  | decimal (n t) : FirstOf [.i32, .i64] n t → Derives 12 [.num n] (.num t n)
  | hex (n t) : FirstOf [.i32, .u32, .i64, .u64] n t → Derives 12 [.hex n] (.num t n)
  | real (n) : Derives 12 [.dbl n] (.dbl n)
  | char (c) : Derives 12 [.chr c] (.num .i8 c)
  | limit (x t v) : (x, t, v) ∈ limits → Derives 12 [.id x] (.num t v)
  | var (x) : Ident x → (∀ tv, (x, tv) ∉ limits) → Derives 12 [.id x] (.var x)
  | member (x m) : Ident x → Derives 12 [.id x, p!".", .id m] (.var (member x m))
  | elem (x u i) : Ident x → Derives 0 u i → Derives 12 (.id x :: p!"[" :: u ++ [p!"]"]) (.elem x i)
  | lane (x u i) : Ident x → Derives 0 u i → Derives 12 (.id x :: p!"." :: w!"val" :: p!"[" :: u ++ [p!"]"]) (.lane x i)
  | lane2 (x u v j i) : Ident x → Derives 0 u j → Derives 0 v i →
      Derives 12 (.id x :: p!"." :: w!"val" :: p!"[" :: u ++ p!"]" :: p!"." :: w!"val" :: p!"[" :: v ++ [p!"]"]) (.lane2 x j i)
  | min (u v a b) : Derives 0 u a → Derives 0 v b →
      Derives 12 (w!"std" :: p!"::" :: w!"min" :: p!"(" :: u ++ p!"," :: v ++ [p!")"]) (.stdMin none a b)
  | max (u v a b) : Derives 0 u a → Derives 0 v b →
      Derives 12 (w!"std" :: p!"::" :: w!"max" :: p!"(" :: u ++ p!"," :: v ++ [p!")"]) (.stdMax none a b)
  | minT (t e u v a b) : (t, e) ∈ scalars → Derives 0 u a → Derives 0 v b →
      Derives 12 (w!"std" :: p!"::" :: w!"min" :: p!"<" :: .id t :: p!">" :: p!"(" :: u ++ p!"," :: v ++ [p!")"])
        (.stdMin (some e) a b)
  | maxT (t e u v a b) : (t, e) ∈ scalars → Derives 0 u a → Derives 0 v b →
      Derives 12 (w!"std" :: p!"::" :: w!"max" :: p!"<" :: .id t :: p!">" :: p!"(" :: u ++ p!"," :: v ++ [p!")"])
        (.stdMax (some e) a b)

/-- [expr.post]: the expressions of an argument list. -/
inductive Arguments : List Tok → List Expr → Prop
  | one (u a) : Derives 0 u a → Arguments u [a]
  | more (u v a es) : Derives 0 u a → Arguments v es → Arguments (u ++ p!"," :: v) (a :: es)

/-- [dcl.dcl]: the declaration of one variable. -/
inductive Declaration : List Tok → Stmt → Prop
  | plain (t ty x) : typeOf t = some ty → Ident x → Declaration [.id t, .id x, p!";"] (.decl ty x none)
  | init (t ty x u e) : typeOf t = some ty → Ident x → Derives 0 u e →
      Declaration (.id t :: .id x :: p!"=" :: u ++ [p!";"]) (.decl ty x (some e))
  | call (t ty x g u es) : typeOf t = some ty → Ident x → Ident g → Arguments u es →
      Declaration (.id t :: .id x :: p!"=" :: .id g :: p!"(" :: u ++ [p!")", p!";"]) (.declCall ty x g es)

/-- [expr.ass], [expr.post.incr]: what changes a variable.  `x++` adds 1, and `l += e` adds `e`. -/
inductive Assignment : List Tok → Stmt → Prop
  | incr (x) : Ident x → (∀ tv, (x, tv) ∉ limits) → Assignment [.id x, p!"++"] (.assign (.var x) (.bin .add (.var x) (.num .i32 1)))
  | assign (u v l e) : Derives 1 u l → Derives 0 v e → Assignment (u ++ p!"=" :: v) (.assign l e)
  | add (u v l e) : Derives 1 u l → Derives 0 v e → Assignment (u ++ p!"+=" :: v) (.assign l (.bin .add l e))
  | call (u v l g es) : Derives 1 u l → Ident g → Arguments v es →
      Assignment (u ++ p!"=" :: .id g :: p!"(" :: v ++ [p!")"]) (.assignCall l g es)

/-- A sequence of statements, or one statement.  A statement is open if it ends with an `if` statement that has no `else`. -/
inductive Form
  | seq
  | one (opened : Bool)

/-- [stmt.stmt].  The statement before an `else` is not open: an `else` belongs to the nearest `if`. -/
inductive Statement : Form → List Tok → Stmt → Prop
  | nil : Statement .seq [] .skip
  | cons (o u v a b) : Statement (.one o) u a → Statement .seq v b → Statement .seq (u ++ v) (.seq a b)
  | empty : Statement (.one false) [p!";"] .skip
  | block (u a) : Statement .seq u a → Statement (.one false) (p!"{" :: u ++ [p!"}"]) (.block a)
  | ret (u e) : Derives 0 u e → Statement (.one false) (w!"return" :: u ++ [p!";"]) (.ret e)
  | retConv (t e x) : (t, e) ∈ scalars → Ident x →
      Statement (.one false) [w!"return", .id t, p!"(", .id x, p!")", p!";"] (.retConv e x)
  | loop (o u v w z i c s b) : Declaration u i → Derives 0 v c → Assignment w s → Statement (.one o) z b →
      Statement (.one o) (w!"for" :: p!"(" :: u ++ v ++ p!";" :: w ++ p!")" :: z) (.loop i c s b)
  | ifThen (o u v c a) : Derives 0 u c → Statement (.one o) v a →
      Statement (.one true) (w!"if" :: p!"(" :: u ++ p!")" :: v) (.ite c a .skip)
  | ifElse (o u v w c a b) : Derives 0 u c → Statement (.one false) v a → Statement (.one o) w b →
      Statement (.one o) (w!"if" :: p!"(" :: u ++ p!")" :: v ++ w!"else" :: w) (.ite c a b)
  | print (m) : 37 ∉ m → Statement (.one false) [w!"fprintf", p!"(", w!"stderr", p!",", .str m, p!")", p!";"] (.fprintf m)
  | printName (l r) : 37 ∉ l → 37 ∉ r → Statement (.one false)
      [w!"fprintf", p!"(", w!"stderr", p!",", .str (l ++ 37 :: 115 :: r), p!",", w!"__FUNCTION__", p!")", p!";"]
      (.fprintf (l ++ 37 :: 115 :: r))
  | abort : Statement (.one false) [w!"abort", p!"(", p!")", p!";"] .abort
  | copy (d s t e k) : Ident d → Ident s → (t, e) ∈ scalars → Statement (.one false)
      [w!"memcpy", p!"(", p!"&", .id d, p!".", w!"val", p!",", p!"&", .id s, p!".", w!"val", p!",",
       w!"sizeof", p!"(", .id t, p!")", p!"*", .num k, p!")", p!";"] (.memcpy d s e k)
  | copyScalar (d s t e) : Ident d → Ident s → (t, e) ∈ scalars → Statement (.one false)
      [w!"memcpy", p!"(", p!"&", .id d, p!",", p!"&", .id s, p!",", w!"sizeof", p!"(", .id t, p!")", p!")", p!";"]
      (.memcpySc d s e)
  | const (u s) : Declaration u s → Statement (.one false) (w!"const" :: u) s
  | decl (u s) : Declaration u s → Statement (.one false) u s
  | construct (c x u es) : Ident c → Ident x → Arguments u es →
      Statement (.one false) (.id c :: .id x :: p!"{" :: u ++ [p!"}", p!";"]) (.construct c x es)
  | call (g u es) : Ident g → Arguments u es → Statement (.one false) (.id g :: p!"(" :: u ++ [p!")", p!";"]) (.call g es)
  | assign (u s) : Assignment u s → Statement (.one false) (u ++ [p!";"]) s

/-- [dcl.fct]: a parameter.  `const` does not change the type of the model. -/
inductive Parameter : List Tok → Ty × Nat → Prop
  | val (t ty x) : typeOf t = some ty → Ident x → Parameter [.id t, .id x] (ty, x)
  | constVal (t ty x) : typeOf t = some ty → Ident x → Parameter [w!"const", .id t, .id x] (ty, x)
  | ptr (t e x) : (t, e) ∈ scalars → Ident x → Parameter [.id t, p!"*", .id x] (.ptr e, x)
  | constPtr (t e x) : (t, e) ∈ scalars → Ident x → Parameter [w!"const", .id t, p!"*", .id x] (.ptr e, x)
  | ptrConst (t e x) : (t, e) ∈ scalars → Ident x → Parameter [.id t, w!"const", p!"*", .id x] (.ptr e, x)

/-- Parameters separated by commas.  The last one can have a default argument. -/
inductive Parameters : List Tok → List (Ty × Nat) → Prop
  | one (u p) : Parameter u p → Parameters u [p]
  | default (u p n) : Parameter u p → Parameters (u ++ [p!"=", .num n]) [p]
  | more (u v p ps) : Parameter u p → Parameters v ps → Parameters (u ++ p!"," :: v) (p :: ps)

/-- The parameters of a function, possibly none. -/
inductive ParameterList : List Tok → List (Ty × Nat) → Prop
  | none : ParameterList [] []
  | some (u ps) : Parameters u ps → ParameterList u ps

/-- [dcl.fct.def]: a function definition. -/
inductive Function : List Tok → Func → Prop
  | mk (t ty f u ps v b) : typeOf t = some ty → Ident f → ParameterList u ps → Statement .seq v b →
      Function (.id t :: .id f :: p!"(" :: u ++ p!")" :: p!"{" :: v ++ [p!"}"]) ⟨ty, f, ps, b⟩

/-- [class.mem]: data members with the initial value of the characters of a string, and member functions.
Declarations that begin with `explicit` (of constructors and conversion functions, defined elsewhere) are left out. -/
inductive Members : List Tok → List (Nat × Ty × Option Int) → List Func → Prop
  | nil : Members [] [] []
  | access (v ms fs) : Members v ms fs → Members (w!"private" :: p!":" :: v) ms fs
  | declared (u v ms fs) : p!";" ∉ u → Members v ms fs → Members (w!"explicit" :: u ++ p!";" :: v) ms fs
  | scalar (t e x v ms fs) : (t, e) ∈ scalars → Ident x → Members v ms fs →
      Members (.id t :: .id x :: p!";" :: v) ((x, .sc e, none) :: ms) fs
  | array (t e x n v ms fs) : (t, e) ∈ scalars → Ident x → Members v ms fs →
      Members (.id t :: .id x :: p!"[" :: .num n :: p!"]" :: p!";" :: v) ((x, .cells e n, none) :: ms) fs
  | string (x n c v ms fs) : Ident x → Members v ms fs →
      Members (w!"std" :: p!"::" :: w!"string" :: .id x :: p!"=" ::
        w!"std" :: p!"::" :: w!"string" :: p!"(" :: .num n :: p!"," :: .chr c :: p!")" :: p!";" :: v)
        ((x, .cells .s8 n, some c) :: ms) fs
  | func (u v f ms fs) : Function u f → Members v ms fs → Members (u ++ v) ms (f :: fs)

/-- Classes, constructors, conversion functions and functions of a translation unit. -/
inductive Definitions : List Tok → TransUnit → Prop
  | nil : Definitions [] ⟨[], [], [], []⟩
  | struct (c v w ms fs u) : Ident c → Members v ms fs → Definitions w u →
      Definitions (w!"struct" :: .id c :: p!"{" :: v ++ p!"}" :: p!";" :: w)
        { u with structs := ⟨c, ms⟩ :: u.structs, funcs := fs ++ u.funcs }
  | conv (c t e v w b u) : Ident c → (t, e) ∈ scalars → Statement .seq v b → Definitions w u →
      Definitions (.id c :: p!"::" :: w!"operator" :: .id t :: p!"(" :: p!")" :: w!"const" :: p!"{" :: v ++ p!"}" :: w)
        { u with convs := ⟨.sc e, c, [], b⟩ :: u.convs }
  | ctor (c z ps v w b u) : Ident c → ParameterList z ps → Statement .seq v b → Definitions w u →
      Definitions (.id c :: p!"::" :: .id c :: p!"(" :: z ++ p!")" :: p!"{" :: v ++ p!"}" :: w)
        { u with ctors := ⟨.void, c, ps, b⟩ :: u.ctors }
  | func (v w f u) : Function v f → Definitions w u → Definitions (v ++ w) { u with funcs := f :: u.funcs }

end Verif.SpecGrammar
