import Verif.SpecCpp
import Verif.SpecFloat
import Verif.Cpp.Syntax

/-!
# The abstract machine of C++ for the subset

Execution as the standard describes it ([intro.execution]; section names as in N3337): objects are blocks of bytes in a
memory, names denote objects, an array argument is the address of its first element, and a register is its bytes.  Everything is a relation, given by rules.  Nothing
refers to the interpreter (`Verif/Cpp/Sem.lean`) or to the functions of `Verif/Core.lean` and `Verif/Fp.lean`;
their types of values and outcomes, the syntax trees and the unknown choice of NaNs (`Fmt.nanBits`) are shared.  The rules for integers are those of
`Verif/SpecCpp.lean`, the rules for floats those of `Verif/SpecFloat.lean`.

C++ leaves the order of evaluation of operands and of the arguments of a call open, and so do the rules: no expression has a side
effect, so the order only decides which one of two undefined operations is met first (`Alike`).  The arguments of a call inside a program
are evaluated before the left-hand side of an assignment of its value.  A program that is not well-formed has no outcome here.
-/

namespace Verif.SpecExec
open Verif.Cpp (Expr BinOp Stmt Ty Func Struct TransUnit member)
open Verif.SpecCpp
open Verif.Spec (IsSum IsDiff IsProd IsQuot Rounded IsTrunc decode Datum)

/-! ## Memory -/

abbrev Byte := BitVec 8
/-- The storage of an object, `none` being an indeterminate byte. -/
abbrev Block := List (Option Byte)
/-- Blocks by address.  Simplification: storage is not reused. -/
abbrev Memory := List Block

/-- `sizeof` a scalar type. -/
def size : Elem → Nat
  | .int t => width t / 8
  | .f32 => 4
  | .f64 => 8
/-- `sizeof` a type of objects. -/
def sizeOf : Ty → Nat
  | .sc e => size e
  | .vec e n => n * size e
  | .arr e n k => k * (n * size e)
  | .cells e n => n * size e
  | _ => 0

/-- The number with the given bytes, the least significant one first. -/
def number : List Byte → Nat
  | [] => 0
  | b :: bs => b.toNat + 256 * number bs

/-- [basic.types]: the bytes represent the value `v` of type `e` (two's complement, IEEE-754). -/
def Denotes (e : Elem) (bs : List Byte) (v : Val) : Prop :=
  bs.length = size e ∧
  match e with
  | .int t => ∃ z, v = .int t z ∧ Converts t (number bs) z
  | .f32 => v = .f32 (.ofNat 32 (number bs))
  | .f64 => v = .f64 (.ofNat 64 (number bs))

/-- `n` bytes from offset `o`. -/
def slice (b : Block) (o n : Nat) : Block := (b.drop o).take n
/-- Replace the bytes from offset `o`. -/
def splice (b : Block) (o : Nat) (new : Block) : Block := b.take o ++ new ++ b.drop (o + new.length)

/-- Where a scalar object of type `elem` is. -/
structure Place where
  elem : Elem
  block : Nat
  offset : Nat

/-- [conv.lval]: the value of the object. -/
inductive Reads (μ : Memory) : Place → C Val → Prop
  | value (e a o b bs v) : μ[a]? = some b → slice b o (size e) = bs.map some → Denotes e bs v → Reads μ ⟨e, a, o⟩ (.ok v)
  | indeterminate (e a o b) : μ[a]? = some b → none ∈ slice b o (size e) → Reads μ ⟨e, a, o⟩ (.ub .indeterminateRead)

/-- The memory after an object got the value `v` of its type. -/
inductive Writes (μ : Memory) : Place → Val → Memory → Prop
  | mk (e a o b bs v) : μ[a]? = some b → o + size e ≤ b.length → Denotes e bs v →
      Writes μ ⟨e, a, o⟩ v (μ.set a (splice b o (bs.map some)))

/-! ## Conversions -/

/-- `float` or `double`. -/
def fmt (double : Bool) : Fmt := if double then .b64 else .b32
/-- The value with the given bit pattern. -/
def floatVal (double : Bool) (r : Nat) : Val := if double then .f64 (.ofNat 64 r) else .f32 (.ofNat 32 r)

/-- A bit pattern of the format. -/
def IsPattern (f : Fmt) (r : Nat) : Prop := r < 2 ^ (1 + f.eb + f.mb)
/-- The result of an operation: a bit pattern, and if it is a NaN, the one that the implementation gives. -/
def IsResult (f : Fmt) (nan r : Nat) : Prop := IsPattern f r ∧ (decode f r = .nan → r = nan)

/-- A value of floating type and its bit pattern. -/
inductive Floating : Val → Bool → Nat → Prop
  | float (b) : Floating (.f32 b) false b.toNat
  | double (b) : Floating (.f64 b) true b.toNat

/-- [conv.double], [conv.fpint]: the value converted to `float` or `double` has the pattern `r`. -/
inductive ToFloat : Val → Bool → Nat → Prop
  | same (v d r) : Floating v d r → ToFloat v d r
  | other (v d b r) : Floating v d b → IsResult (fmt !d) ((fmt !d).nanBits (.convert (fmt d)) b 0) r → Spec.Converts (fmt d) (fmt !d) b r → ToFloat v (!d) r
  | int (t d r) (z : Int) : IsPattern (fmt d) r → Rounded (fmt d) false z r → ToFloat (.int t z) d r

/-- [conv]: conversion of a value to a type. -/
inductive Conv : Elem → Val → C Val → Prop
  | int (s t z w) : Converts t z w → Conv (.int t) (.int s z) (.ok (.int t w))
  | trunc (t v d b s x n) : Floating v d b → decode (fmt d) b = .num s x → IsTrunc x n → IsValue t n →
      Conv (.int t) v (.ok (.int t n))
  | large (t v d b s x n) : Floating v d b → decode (fmt d) b = .num s x → IsTrunc x n → ¬ IsValue t n →
      Conv (.int t) v (.ub .floatToInt)
  | special (t v d b) : Floating v d b → (∀ s x, decode (fmt d) b ≠ .num s x) → Conv (.int t) v (.ub .floatToInt)
  | float (v r) : ToFloat v false r → Conv .f32 v (.ok (floatVal false r))
  | double (v r) : ToFloat v true r → Conv .f64 v (.ok (floatVal true r))

/-! ## Operators -/

/-- [expr] paragraph 10: the operation is one of `double` if an operand is one, else of `float` if an operand is one. -/
inductive FloatOperands : Val → Val → Bool → Nat → Nat → Prop
  | double (x y a b) : (∃ p, x = .f64 p) ∨ (∃ p, y = .f64 p) → ToFloat x true a → ToFloat y true b →
      FloatOperands x y true a b
  | float (x y a b) : (∀ p, x ≠ .f64 p) → (∀ p, y ≠ .f64 p) → (∃ p, x = .f32 p) ∨ (∃ p, y = .f32 p) →
      ToFloat x false a → ToFloat y false b → FloatOperands x y false a b

/-- The mathematical result of an arithmetic operator. -/
def exact : BinOp → Int → Int → Option Int
  | .add, x, y => some (x + y)
  | .sub, x, y => some (x - y)
  | .mul, x, y => some (x * y)
  | _, _, _ => none
/-- [expr.add], [expr.mul] on floats. -/
def FloatOp (f : Fmt) : BinOp → Nat → Nat → Nat → Prop
  | .add => IsSum f
  | .sub => IsDiff f
  | .mul => IsProd f
  | .div => IsQuot f
  | _ => fun _ _ _ => False
/-- The NaN that the implementation gives for an operation, if it gives one (IEEE 754 does not say which one it is). -/
def nanOf (f : Fmt) : BinOp → Nat → Nat → Nat
  | .add => f.nanBits .add
  | .sub => f.nanBits .sub
  | .mul => f.nanBits .mul
  | .div => f.nanBits .div
  | _ => fun _ _ => 0
/-- [expr.bit.and], [expr.xor], [expr.or] -/
def bitOp : BinOp → Option (Bool → Bool → Bool)
  | .and => some and
  | .or => some or
  | .xor => some xor
  | _ => none
/-- [expr.rel], [expr.eq] -/
def Compares : BinOp → Int → Int → Option Prop
  | .lt, x, y => some (x < y)
  | .gt, x, y => some (x > y)
  | .le, x, y => some (x ≤ y)
  | .ge, x, y => some (x ≥ y)
  | .eq, x, y => some (x = y)
  | _, _, _ => none
/-- The same on floats. -/
def FloatCompares : BinOp → Datum → Datum → Option Prop
  | .lt, x, y => some (x.Less y)
  | .gt, x, y => some (y.Less x)
  | .le, x, y => some (x.Less y ∨ x.Equal y)
  | .ge, x, y => some (y.Less x ∨ y.Equal x)
  | .eq, x, y => some (x.Equal y)
  | _, _, _ => none
/-- The value of a condition, after the promotion of `bool` to `int`. -/
inductive Condition (p : Prop) : Val → Prop
  | yes : p → Condition p (.int .i32 1)
  | no : ¬ p → Condition p (.int .i32 0)

/-- Binary operators except `&&` and `||`. -/
inductive Binary (wrapv : Bool) : BinOp → Val → Val → C Val → Prop
  | arith (o s t r x y x' y' z out) : Operands s t r x y x' y' → exact o x' y' = some z → Arith wrapv r z out →
      Binary wrapv o (.int s x) (.int t y) out
  | byZero (o s t r x y x' y') : o = .div ∨ o = .mod → Operands s t r x y x' y' → y' = 0 →
      Binary wrapv o (.int s x) (.int t y) (.ub .divByZero)
  | quotOut (o s t r x y x' y' q m) : o = .div ∨ o = .mod → Operands s t r x y x' y' → y' ≠ 0 → Quotient x' y' q m → ¬ IsValue r q →
      Binary wrapv o (.int s x) (.int t y) (.ub .signedOverflow)
  | div (s t r x y x' y' q m) : Operands s t r x y x' y' → y' ≠ 0 → Quotient x' y' q m → IsValue r q →
      Binary wrapv .div (.int s x) (.int t y) (.ok (.int r q))
  | mod (s t r x y x' y' q m) : Operands s t r x y x' y' → y' ≠ 0 → Quotient x' y' q m → IsValue r q →
      Binary wrapv .mod (.int s x) (.int t y) (.ok (.int r m))
  | shiftOut (o s t r) (x y : Int) : o = .shl ∨ o = .shr → Promotes s r → ¬ (0 ≤ y ∧ y < width r) →
      Binary wrapv o (.int s x) (.int t y) (.ub .shiftAmount)
  | shr (s t r) (x z : Int) (n : Nat) : Promotes s r → n < width r → z * 2 ^ n ≤ x → x < (z + 1) * 2 ^ n →
      Binary wrapv .shr (.int s x) (.int t n) (.ok (.int r z))
  | shlOut (s t r) (x : Int) (n : Nat) : Promotes s r → n < width r → isSigned r = true → wrapv = false →
      ¬ (0 ≤ x ∧ IsValue (unsignedOf r) (x * 2 ^ n)) → Binary wrapv .shl (.int s x) (.int t n) (.ub .shiftOperand)
  | shl (s t r) (x z : Int) (n : Nat) : Promotes s r → n < width r →
      (isSigned r = false ∨ wrapv = true ∨ (0 ≤ x ∧ IsValue (unsignedOf r) (x * 2 ^ n))) → Converts r (x * 2 ^ n) z →
      Binary wrapv .shl (.int s x) (.int t n) (.ok (.int r z))
  | bits (o f s t r x y z) : bitOp o = some f → Usual s t r → IsValue r z → (∀ i < width r, bit z i = f (bit x i) (bit y i)) →
      Binary wrapv o (.int s x) (.int t y) (.ok (.int r z))
  | compare (o p s t r x y x' y' v) : Operands s t r x y x' y' → Compares o x' y' = some p → Condition p v →
      Binary wrapv o (.int s x) (.int t y) (.ok v)
  | float (o x y d a b r) : FloatOperands x y d a b → FloatOp (fmt d) o a b r → IsResult (fmt d) (nanOf (fmt d) o a b) r →
      Binary wrapv o x y (.ok (floatVal d r))
  | floatCompare (o p x y d a b v) : FloatOperands x y d a b → FloatCompares o (decode (fmt d) a) (decode (fmt d) b) = some p →
      Condition p v → Binary wrapv o x y (.ok v)

/-- [conv.bool]: `v` is converted to `b`. -/
inductive ToBool : Val → Bool → Prop
  | int (t z b) : (b = true ↔ z ≠ 0) → ToBool (.int t z) b
  | float (v d p b) : Floating v d p → (b = true ↔ ¬ (decode (fmt d) p).Equal (.num false 0)) → ToBool v b

/-- [expr.unary.op] `~` -/
inductive Complement : Val → Val → Prop
  | mk (s r x z) : Promotes s r → IsValue r z → (∀ i < width r, bit z i = !bit x i) → Complement (.int s x) (.int r z)

/-- [alg.min.max]: `std::min<T>(x, y)` is `y < x ? y : x`, `std::max<T>(x, y)` is `x < y ? y : x`. -/
inductive MinMax (e : Elem) (max : Bool) : Val → Val → C Val → Prop
  | first (x y u) : Conv e x (.ub u) → MinMax e max x y (.ub u)
  | second (x y u) : Conv e y (.ub u) → MinMax e max x y (.ub u)
  | takesY (x y x' y') : Conv e x (.ok x') → Conv e y (.ok y') →
      Binary false .lt (if max then x' else y') (if max then y' else x') (.ok (.int .i32 1)) → MinMax e max x y (.ok y')
  | takesX (x y x' y') : Conv e x (.ok x') → Conv e y (.ok y') →
      Binary false .lt (if max then x' else y') (if max then y' else x') (.ok (.int .i32 0)) → MinMax e max x y (.ok x')

/-! ## Names -/

/-- What a name denotes. -/
inductive Entity
  /-- an object of type `t` in the block `a` -/
  | object (t : Ty) (a : Nat)
  /-- a pointer to the element with number `off` of the block `a` (no pointer variable is ever assigned) -/
  | pointer (e : Elem) (a off : Nat)
  /-- an object of a class; its member `m` has the name `x.m` -/
  | instance (c : Nat)

/-- The names in scope, innermost first. -/
abbrev Names := List (Nat × Entity)

/-- The common type of two operands. -/
inductive CommonElem : Elem → Elem → Elem → Prop
  | int (s t r) : Usual s t r → CommonElem (.int s) (.int t) (.int r)
  | doubleL (t) : CommonElem .f64 t .f64
  | doubleR (s) : CommonElem s .f64 .f64
  | floatL (t) : t ≠ .f64 → CommonElem .f32 t .f32
  | floatR (s) : s ≠ .f64 → CommonElem s .f32 .f32

/-- The type of an expression (not given for conditions, of type `bool`). -/
inductive HasType (ν : Names) : Expr → Elem → Prop
  | num (t n) : HasType ν (.num t n) (.int t)
  | dbl (n) : HasType ν (.dbl n) .f64
  | var (x e a) : ν.lookup x = some (.object (.sc e) a) → HasType ν (.var x) e
  | lane (x i e n a) : ν.lookup x = some (.object (.vec e n) a) → HasType ν (.lane x i) e
  | lane2 (x j i e n k a) : ν.lookup x = some (.object (.arr e n k) a) → HasType ν (.lane2 x j i) e
  | pointer (x i e a off) : ν.lookup x = some (.pointer e a off) → HasType ν (.elem x i) e
  | array (x i e n a) : ν.lookup x = some (.object (.cells e n) a) → HasType ν (.elem x i) e
  | arith (o a b s t r) : o ∈ [BinOp.add, .sub, .mul, .div, .mod, .and, .or, .xor] → HasType ν a s → HasType ν b t →
      CommonElem s t r → HasType ν (.bin o a b) r
  | shift (o a b s t r) : o ∈ [BinOp.shl, .shr] → HasType ν a s → HasType ν b t → CommonElem s s r → HasType ν (.bin o a b) r
  | compl (a s r) : HasType ν a s → CommonElem s s r → HasType ν (.compl a) r
  | cast (e a) : HasType ν (.cast e a) e
  | minT (e a b) : HasType ν (.stdMin (some e) a b) e
  | maxT (e a b) : HasType ν (.stdMax (some e) a b) e
  | min (e a b) : HasType ν a e → HasType ν (.stdMin none a b) e
  | max (e a b) : HasType ν a e → HasType ν (.stdMax none a b) e
  | cond (c a b e) : HasType ν a e → HasType ν (.ite c a b) e

/-! ## Expressions -/

/-- What an expression gives: the place of an object (an lvalue) or a value. -/
inductive Res
  | place (p : C Place)
  | val (v : C Val)

/-- `First ν e a`: `e` evaluates `a` in any case, and may begin with it. -/
inductive First (ν : Names) : Expr → Expr → Prop
  | bin (o a b) : First ν (.bin o a b) a
  | compl (a) : First ν (.compl a) a
  | not (a) : First ν (.not a) a
  | cast (e a) : First ν (.cast e a) a
  | minT (e a b) : First ν (.stdMin (some e) a b) a
  | maxT (e a b) : First ν (.stdMax (some e) a b) a
  | min (e a b) : HasType ν a e → HasType ν b e → First ν (.stdMin none a b) a
  | max (e a b) : HasType ν a e → HasType ν b e → First ν (.stdMax none a b) a
  | cond (c a b e) : HasType ν a e → HasType ν b e → First ν (.ite c a b) c
/-- `Second ν e b`: the other operand that `e` evaluates in any case is `b`.  [intro.execution]: the order of the operands is unspecified,
so that `b` can be evaluated first. -/
inductive Second (ν : Names) : Expr → Expr → Prop
  | bin (o a b) : o ≠ .land → o ≠ .lor → Second ν (.bin o a b) b
  | minT (e a b) : Second ν (.stdMin (some e) a b) b
  | maxT (e a b) : Second ν (.stdMax (some e) a b) b
  | min (e a b) : HasType ν a e → HasType ν b e → Second ν (.stdMin none a b) b
  | max (e a b) : HasType ν a e → HasType ν b e → Second ν (.stdMax none a b) b

/-- Evaluation of expressions. -/
inductive Eval (wrapv : Bool) (ν : Names) (μ : Memory) : Expr → Res → Prop
  -- lvalues
  | var (x e a) : ν.lookup x = some (.object (.sc e) a) → Eval wrapv ν μ (.var x) (.place (.ok ⟨e, a, 0⟩))
  | laneUB (x i u) : Eval wrapv ν μ i (.val (.ub u)) → Eval wrapv ν μ (.lane x i) (.place (.ub u))
  | lane (x i e n a t) (z : Nat) : Eval wrapv ν μ i (.val (.ok (.int t z))) → ν.lookup x = some (.object (.vec e n) a) → z < n →
      Eval wrapv ν μ (.lane x i) (.place (.ok ⟨e, a, z * size e⟩))
  | laneOut (x i e n a t z) : Eval wrapv ν μ i (.val (.ok (.int t z))) → ν.lookup x = some (.object (.vec e n) a) →
      ¬ (0 ≤ z ∧ z < n) → Eval wrapv ν μ (.lane x i) (.place (.ub .outOfBounds))
  | lane2UB (x j i u) : Eval wrapv ν μ j (.val (.ub u)) → Eval wrapv ν μ (.lane2 x j i) (.place (.ub u))
  | lane2UB' (x j i u) : Eval wrapv ν μ i (.val (.ub u)) → Eval wrapv ν μ (.lane2 x j i) (.place (.ub u))
  | lane2 (x j i e n k a s t) (y z : Nat) : Eval wrapv ν μ j (.val (.ok (.int s y))) → Eval wrapv ν μ i (.val (.ok (.int t z))) →
      ν.lookup x = some (.object (.arr e n k) a) → y < k → z < n →
      Eval wrapv ν μ (.lane2 x j i) (.place (.ok ⟨e, a, y * (n * size e) + z * size e⟩))
  | lane2Out (x j i e n k a s t y z) : Eval wrapv ν μ j (.val (.ok (.int s y))) → Eval wrapv ν μ i (.val (.ok (.int t z))) →
      ν.lookup x = some (.object (.arr e n k) a) → ¬ (0 ≤ y ∧ y < k ∧ 0 ≤ z ∧ z < n) →
      Eval wrapv ν μ (.lane2 x j i) (.place (.ub .outOfBounds))
  | elemUB (x i u) : Eval wrapv ν μ i (.val (.ub u)) → Eval wrapv ν μ (.elem x i) (.place (.ub u))
  | pointer (x i e a off b t z) (m : Nat) : Eval wrapv ν μ i (.val (.ok (.int t z))) → ν.lookup x = some (.pointer e a off) →
      μ[a]? = some b → off + z = m → (m + 1) * size e ≤ b.length →
      Eval wrapv ν μ (.elem x i) (.place (.ok ⟨e, a, m * size e⟩))
  | pointerOut (x i e a off b t z) : Eval wrapv ν μ i (.val (.ok (.int t z))) → ν.lookup x = some (.pointer e a off) →
      μ[a]? = some b → ¬ (0 ≤ off + z ∧ (off + z + 1) * size e ≤ b.length) →
      Eval wrapv ν μ (.elem x i) (.place (.ub .outOfBounds))
  | array (x i e n a t) (z : Nat) : Eval wrapv ν μ i (.val (.ok (.int t z))) → ν.lookup x = some (.object (.cells e n) a) → z < n →
      Eval wrapv ν μ (.elem x i) (.place (.ok ⟨e, a, z * size e⟩))
  | arrayOut (x i e n a t z) : Eval wrapv ν μ i (.val (.ok (.int t z))) → ν.lookup x = some (.object (.cells e n) a) →
      ¬ (0 ≤ z ∧ z < n) → Eval wrapv ν μ (.elem x i) (.place (.ub .outOfBounds))
  -- values
  | load (l p v) : Eval wrapv ν μ l (.place (.ok p)) → Reads μ p v → Eval wrapv ν μ l (.val v)
  | loadUB (l u) : Eval wrapv ν μ l (.place (.ub u)) → Eval wrapv ν μ l (.val (.ub u))
  | num (t n) : Eval wrapv ν μ (.num t n) (.val (.ok (.int t n)))
  | dbl (r) (n : Nat) : IsPattern .b64 r → Rounded .b64 false n r → Eval wrapv ν μ (.dbl n) (.val (.ok (floatVal true r)))
  | first (e a u) : First ν e a → Eval wrapv ν μ a (.val (.ub u)) → Eval wrapv ν μ e (.val (.ub u))
  | second (e b u) : Second ν e b → Eval wrapv ν μ b (.val (.ub u)) → Eval wrapv ν μ e (.val (.ub u))
  | bin (o a b x y v) : Eval wrapv ν μ a (.val (.ok x)) → Eval wrapv ν μ b (.val (.ok y)) → Binary wrapv o x y v →
      Eval wrapv ν μ (.bin o a b) (.val v)
  | landNo (a b x) : Eval wrapv ν μ a (.val (.ok x)) → ToBool x false → Eval wrapv ν μ (.bin .land a b) (.val (.ok (.int .i32 0)))
  | land (a b x y p v) : Eval wrapv ν μ a (.val (.ok x)) → ToBool x true → Eval wrapv ν μ b (.val (.ok y)) → ToBool y p →
      Condition (p = true) v → Eval wrapv ν μ (.bin .land a b) (.val (.ok v))
  | landUB (a b x u) : Eval wrapv ν μ a (.val (.ok x)) → ToBool x true → Eval wrapv ν μ b (.val (.ub u)) →
      Eval wrapv ν μ (.bin .land a b) (.val (.ub u))
  | lorYes (a b x) : Eval wrapv ν μ a (.val (.ok x)) → ToBool x true → Eval wrapv ν μ (.bin .lor a b) (.val (.ok (.int .i32 1)))
  | lor (a b x y p v) : Eval wrapv ν μ a (.val (.ok x)) → ToBool x false → Eval wrapv ν μ b (.val (.ok y)) → ToBool y p →
      Condition (p = true) v → Eval wrapv ν μ (.bin .lor a b) (.val (.ok v))
  | lorUB (a b x u) : Eval wrapv ν μ a (.val (.ok x)) → ToBool x false → Eval wrapv ν μ b (.val (.ub u)) →
      Eval wrapv ν μ (.bin .lor a b) (.val (.ub u))
  | compl (a x v) : Eval wrapv ν μ a (.val (.ok x)) → Complement x v → Eval wrapv ν μ (.compl a) (.val (.ok v))
  | not (a x p v) : Eval wrapv ν μ a (.val (.ok x)) → ToBool x p → Condition (p = false) v → Eval wrapv ν μ (.not a) (.val (.ok v))
  | cast (e a x v) : Eval wrapv ν μ a (.val (.ok x)) → Conv e x v → Eval wrapv ν μ (.cast e a) (.val v)
  | minT (e a b x y v) : Eval wrapv ν μ a (.val (.ok x)) → Eval wrapv ν μ b (.val (.ok y)) → MinMax e false x y v →
      Eval wrapv ν μ (.stdMin (some e) a b) (.val v)
  | maxT (e a b x y v) : Eval wrapv ν μ a (.val (.ok x)) → Eval wrapv ν μ b (.val (.ok y)) → MinMax e true x y v →
      Eval wrapv ν μ (.stdMax (some e) a b) (.val v)
  | min (e a b x y v) : HasType ν a e → HasType ν b e → Eval wrapv ν μ a (.val (.ok x)) → Eval wrapv ν μ b (.val (.ok y)) →
      MinMax e false x y v → Eval wrapv ν μ (.stdMin none a b) (.val v)
  | max (e a b x y v) : HasType ν a e → HasType ν b e → Eval wrapv ν μ a (.val (.ok x)) → Eval wrapv ν μ b (.val (.ok y)) →
      MinMax e true x y v → Eval wrapv ν μ (.stdMax none a b) (.val v)
  | condYes (c a b e x v) : HasType ν a e → HasType ν b e → Eval wrapv ν μ c (.val (.ok x)) → ToBool x true →
      Eval wrapv ν μ a (.val v) → Eval wrapv ν μ (.ite c a b) (.val v)
  | condNo (c a b e x v) : HasType ν a e → HasType ν b e → Eval wrapv ν μ c (.val (.ok x)) → ToBool x false →
      Eval wrapv ν μ b (.val v) → Eval wrapv ν μ (.ite c a b) (.val v)

/-! ## Statements -/

/-- The state of an execution: the names, the memory and what was printed. -/
structure State where
  names : Names
  memory : Memory
  output : List Nat

/-- How a piece of code ends. -/
inductive Result
  /-- normally -/
  | next (σ : State)
  /-- by `return`, with the bytes of an object of type `t` -/
  | ret (t : Ty) (b : Block) (μ : Memory) (out : List Nat)
  /-- a call, with its value -/
  | value (v : Option Val) (σ : State)

/-- What is executed. -/
inductive Code
  | stmt (s : Stmt)
  /-- `for (; c; inc) body` -/
  | iterate (c : Expr) (inc body : Stmt)
  /-- `f(args)` -/
  | call (f : Nat) (args : List Expr)
  /-- `e(x)` for an object of a class -/
  | convert (e : Elem) (x : Nat)

/-- The function that is executed: its name and the type of its result. -/
structure Frame where
  name : Nat
  ret : Ty

/-- The name with the letters `cs`. -/
def spell (cs : List Nat) : Nat := cs.foldl (fun n c => n * 256 + c) 0

/-- [c.files] `fprintf`: the text printed for a format, with `%s` (characters 37, 115) replaced by `name`. -/
inductive Prints (name : List Nat) : List Nat → List Nat → Prop
  | nil : Prints name [] []
  | string (cs out) : Prints name cs out → Prints name (37 :: 115 :: cs) (name ++ out)
  | char (c cs out) : ¬ (c = 37 ∧ cs.head? = some 115) → Prints name cs out → Prints name (c :: cs) (c :: out)

/-- Assignment of a value to the object at a place, after conversion to its type. -/
inductive Assigns (σ : State) : Place → Val → C Result → Prop
  | ub (p v u) : Conv p.elem v (.ub u) → Assigns σ p v (.ub u)
  | ok (p v w μ) : Conv p.elem v (.ok w) → Writes σ.memory p w μ → Assigns σ p v (.ok (.next { σ with memory := μ }))

/-- `n` indeterminate bytes. -/
def raw (n : Nat) : Block := List.replicate n none
/-- A new object of type `t` with the given storage. -/
def State.new (σ : State) (x : Nat) (t : Ty) (b : Block) : State :=
  { σ with names := (x, .object t σ.memory.length) :: σ.names, memory := σ.memory ++ [b] }
/-- The types of objects that can be declared. -/
def isObject : Ty → Bool
  | .sc _ | .vec .. | .arr .. | .cells .. => true
  | _ => false

/-- The types of registers and register arrays. -/
def isRegister : Ty → Bool
  | .vec .. | .arr .. => true
  | _ => false

/-- Initialisation of a new scalar variable. -/
inductive Inits (σ : State) (x : Nat) (e : Elem) : Val → C Result → Prop
  | ub (v u) : Conv e v (.ub u) → Inits σ x e v (.ub u)
  | ok (v w bs) : Conv e v (.ok w) → Denotes e bs w → Inits σ x e v (.ok (.next (σ.new x (.sc e) (bs.map some))))

/-- `return` of a value from a function with the result type `e`. -/
inductive Returns (σ : State) (e : Elem) : Val → C Result → Prop
  | ub (v u) : Conv e v (.ub u) → Returns σ e v (.ub u)
  | ok (v w bs) : Conv e v (.ok w) → Denotes e bs w →
      Returns σ e v (.ok (.ret (.sc e) (bs.map some) σ.memory σ.output))

/-- [c.strings] `memcpy`: copy the first `n` bytes of the block `s` to the block `d`.  Simplification: the source
has to be initialised. -/
inductive Copies (μ : Memory) (d s n : Nat) : C Memory → Prop
  | indeterminate (b) : μ[s]? = some b → none ∈ b → Copies μ d s n (.ub .indeterminateRead)
  | outside (b c) : μ[s]? = some b → none ∉ b → μ[d]? = some c → (b.length < n ∨ c.length < n) →
      Copies μ d s n (.ub .outOfBounds)
  | ok (b c) : μ[s]? = some b → none ∉ b → μ[d]? = some c → n ≤ b.length → n ≤ c.length →
      Copies μ d s n (.ok (μ.set d (splice c 0 (slice b 0 n))))

/-- [expr.call]: the parameters are initialised with the arguments, which are evaluated in the memory `μ₀` of the call, in any order; an array
argument is the address of its first element.  The names of the parameters and the memory. -/
inductive Passes (wrapv : Bool) (ν : Names) (μ₀ : Memory) : List (Ty × Nat) → List Expr → Names → Memory → C (Names × Memory) → Prop
  | nil (acc μ) : Passes wrapv ν μ₀ [] [] acc μ (.ok (acc, μ))
  | value (e x ps a as acc μ v w bs r) : Eval wrapv ν μ₀ a (.val (.ok v)) → Conv e v (.ok w) → Denotes e bs w →
      Passes wrapv ν μ₀ ps as ((x, .object (.sc e) μ.length) :: acc) (μ ++ [bs.map some]) r →
      Passes wrapv ν μ₀ ((.sc e, x) :: ps) (a :: as) acc μ r
  | valueUB (e x ps a as acc μ u) : Eval wrapv ν μ₀ a (.val (.ub u)) → Passes wrapv ν μ₀ ((.sc e, x) :: ps) (a :: as) acc μ (.ub u)
  | convUB (e x ps a as acc μ v u) : Eval wrapv ν μ₀ a (.val (.ok v)) → Conv e v (.ub u) →
      Passes wrapv ν μ₀ ((.sc e, x) :: ps) (a :: as) acc μ (.ub u)
  | array (e x ps y as acc μ n b r) : ν.lookup y = some (.object (.cells e n) b) →
      Passes wrapv ν μ₀ ps as ((x, .pointer e b 0) :: acc) μ r → Passes wrapv ν μ₀ ((.ptr e, x) :: ps) (.var y :: as) acc μ r
  -- a later argument is evaluated first
  | laterUB (t x ps a as acc μ u) : Passes wrapv ν μ₀ ps as acc μ (.ub u) → Passes wrapv ν μ₀ ((t, x) :: ps) (a :: as) acc μ (.ub u)

/-- The function with the name `f`. -/
def func (fs : List Func) (f : Nat) : Option Func := fs.find? fun g => g.name == f
/-- The class with the name `c`. -/
def struct (ss : List Struct) (c : Nat) : Option Struct := ss.find? fun s => s.name == c

/-- [class.base.init]: the members of a new object, initialised by their default member initialisers. -/
inductive Constructs : List (Nat × Ty × Option Int) → Memory → Names → Memory → Prop
  | nil (μ) : Constructs [] μ [] μ
  | raw (x t ms μ ν μ') : isObject t = true → Constructs ms (μ ++ [raw (sizeOf t)]) ν μ' →
      Constructs ((x, t, none) :: ms) μ ((x, .object t μ.length) :: ν) μ'
  | filled (x e n z w bs ms μ ν μ') : Conv e (.int .i32 z) (.ok w) → Denotes e bs w →
      Constructs ms (μ ++ [(List.replicate n (bs.map some)).flatten]) ν μ' →
      Constructs ((x, .cells e n, some z) :: ms) μ ((x, .object (.cells e n) μ.length) :: ν) μ'

/-- The names of the members of the object `x`, as its member functions see them. -/
inductive Members (ν : Names) (x : Nat) : List (Nat × Ty × Option Int) → Names → Prop
  | nil : Members ν x [] []
  | cons (m t i ms o ν') : ν.lookup (member x m) = some o → Members ν x ms ν' → Members ν x ((m, t, i) :: ms) ((m, o) :: ν')

/-- The outcome ends the program. -/
inductive Fails : C Result → Prop
  | ub (u) : Fails (.ub u)
  | abort (m) : Fails (.abort m)
/-- The outcome ends the function. -/
inductive Stops : C Result → Prop
  | ret (t b μ out) : Stops (.ok (.ret t b μ out))
  | fails (r) : Fails r → Stops r

/-- Execution of code in the function `fr` of the translation unit `u`. -/
inductive Exec (wrapv : Bool) (u : TransUnit) : Frame → Code → State → C Result → Prop
  -- [stmt.stmt]
  | skip (fr σ) : Exec wrapv u fr (.stmt .skip) σ (.ok (.next σ))
  | seq (fr a b σ σ' r) : Exec wrapv u fr (.stmt a) σ (.ok (.next σ')) → Exec wrapv u fr (.stmt b) σ' r →
      Exec wrapv u fr (.stmt (.seq a b)) σ r
  | seqStop (fr a b σ r) : Exec wrapv u fr (.stmt a) σ r → Stops r → Exec wrapv u fr (.stmt (.seq a b)) σ r
  | block (fr s σ σ') : Exec wrapv u fr (.stmt s) σ (.ok (.next σ')) →
      Exec wrapv u fr (.stmt (.block s)) σ (.ok (.next { σ' with names := σ.names }))
  | blockStop (fr s σ r) : Exec wrapv u fr (.stmt s) σ r → Stops r → Exec wrapv u fr (.stmt (.block s)) σ r
  | decl (fr t x σ) : isObject t = true → Exec wrapv u fr (.stmt (.decl t x none)) σ (.ok (.next (σ.new x t (raw (sizeOf t)))))
  | declUB (fr t x a σ ub) : Eval wrapv σ.names σ.memory a (.val (.ub ub)) →
      Exec wrapv u fr (.stmt (.decl t x (some a))) σ (.ub ub)
  | init (fr e x a σ v r) : Eval wrapv σ.names σ.memory a (.val (.ok v)) → Inits σ x e v r →
      Exec wrapv u fr (.stmt (.decl (.sc e) x (some a))) σ r
  | assignUB (fr l a σ ub) : Eval wrapv σ.names σ.memory a (.val (.ub ub)) → Exec wrapv u fr (.stmt (.assign l a)) σ (.ub ub)
  | placeUB (fr l a σ ub) : Eval wrapv σ.names σ.memory l (.place (.ub ub)) → Exec wrapv u fr (.stmt (.assign l a)) σ (.ub ub)
  | assign (fr l a σ v p r) : Eval wrapv σ.names σ.memory a (.val (.ok v)) → Eval wrapv σ.names σ.memory l (.place (.ok p)) →
      Assigns σ p v r → Exec wrapv u fr (.stmt (.assign l a)) σ r
  -- [stmt.for]
  | loop (fr i c s b σ σ' σ'') : Exec wrapv u fr (.stmt i) σ (.ok (.next σ')) →
      Exec wrapv u fr (.iterate c s b) σ' (.ok (.next σ'')) →
      Exec wrapv u fr (.stmt (.loop i c s b)) σ (.ok (.next { σ'' with names := σ.names }))
  | loopStop (fr i c s b σ σ' r) : Exec wrapv u fr (.stmt i) σ (.ok (.next σ')) → Exec wrapv u fr (.iterate c s b) σ' r → Stops r →
      Exec wrapv u fr (.stmt (.loop i c s b)) σ r
  | initStop (fr i c s b σ r) : Exec wrapv u fr (.stmt i) σ r → Stops r → Exec wrapv u fr (.stmt (.loop i c s b)) σ r
  | iterateUB (fr c s b σ ub) : Eval wrapv σ.names σ.memory c (.val (.ub ub)) → Exec wrapv u fr (.iterate c s b) σ (.ub ub)
  | iterateEnd (fr c s b σ v) : Eval wrapv σ.names σ.memory c (.val (.ok v)) → ToBool v false →
      Exec wrapv u fr (.iterate c s b) σ (.ok (.next σ))
  | bodyStop (fr c s b σ v r) : Eval wrapv σ.names σ.memory c (.val (.ok v)) → ToBool v true →
      Exec wrapv u fr (.stmt b) σ r → Stops r → Exec wrapv u fr (.iterate c s b) σ r
  | incStop (fr c s b σ σ' v r) : Eval wrapv σ.names σ.memory c (.val (.ok v)) → ToBool v true →
      Exec wrapv u fr (.stmt b) σ (.ok (.next σ')) → Exec wrapv u fr (.stmt s) { σ' with names := σ.names } r → Stops r →
      Exec wrapv u fr (.iterate c s b) σ r
  | iterate (fr c s b σ σ' σ'' v r) : Eval wrapv σ.names σ.memory c (.val (.ok v)) → ToBool v true →
      Exec wrapv u fr (.stmt b) σ (.ok (.next σ')) → Exec wrapv u fr (.stmt s) { σ' with names := σ.names } (.ok (.next σ'')) →
      Exec wrapv u fr (.iterate c s b) { σ'' with names := σ.names } r → Exec wrapv u fr (.iterate c s b) σ r
  -- [stmt.if]
  | iteUB (fr c a b σ ub) : Eval wrapv σ.names σ.memory c (.val (.ub ub)) → Exec wrapv u fr (.stmt (.ite c a b)) σ (.ub ub)
  | ite (fr c a b σ σ' v p) : Eval wrapv σ.names σ.memory c (.val (.ok v)) → ToBool v p →
      Exec wrapv u fr (.stmt (if p then a else b)) σ (.ok (.next σ')) →
      Exec wrapv u fr (.stmt (.ite c a b)) σ (.ok (.next { σ' with names := σ.names }))
  | iteStop (fr c a b σ v p r) : Eval wrapv σ.names σ.memory c (.val (.ok v)) → ToBool v p →
      Exec wrapv u fr (.stmt (if p then a else b)) σ r → Stops r → Exec wrapv u fr (.stmt (.ite c a b)) σ r
  -- [stmt.return]
  | retUB (fr a σ e ub) : fr.ret = .sc e → Eval wrapv σ.names σ.memory a (.val (.ub ub)) → Exec wrapv u fr (.stmt (.ret a)) σ (.ub ub)
  | ret (fr a σ e v r) : fr.ret = .sc e → Eval wrapv σ.names σ.memory a (.val (.ok v)) → Returns σ e v r →
      Exec wrapv u fr (.stmt (.ret a)) σ r
  | retObject (fr x σ a b) : isRegister fr.ret = true → σ.names.lookup x = some (.object fr.ret a) → σ.memory[a]? = some b →
      Exec wrapv u fr (.stmt (.ret (.var x))) σ (.ok (.ret fr.ret b σ.memory σ.output))
  | retConvFail (fr σ e t x r) : fr.ret = .sc t → Exec wrapv u fr (.convert e x) σ r → Fails r →
      Exec wrapv u fr (.stmt (.retConv e x)) σ r
  | retConv (fr σ σ' e t x v r) : fr.ret = .sc t → Exec wrapv u fr (.convert e x) σ (.ok (.value (some v) σ')) → Returns σ' t v r →
      Exec wrapv u fr (.stmt (.retConv e x)) σ r
  -- the C library
  | fprintf (fr f σ name out) : spell name = fr.name → (∀ c ∈ name, 0 < c ∧ c < 256) → Prints name f out →
      Exec wrapv u fr (.stmt (.fprintf f)) σ (.ok (.next { σ with output := σ.output ++ out }))
  | abort (fr σ) : Exec wrapv u fr (.stmt .abort) σ (.abort (String.ofList (σ.output.map Char.ofNat)))
  | memcpy (fr d s e n σ t k t' k' a b μ) : σ.names.lookup d = some (.object (.vec t k) a) →
      σ.names.lookup s = some (.object (.vec t' k') b) → Copies σ.memory a b (size e * n) (.ok μ) →
      Exec wrapv u fr (.stmt (.memcpy d s e n)) σ (.ok (.next { σ with memory := μ }))
  | memcpyUB (fr d s e n σ t k t' k' a b ub) : σ.names.lookup d = some (.object (.vec t k) a) →
      σ.names.lookup s = some (.object (.vec t' k') b) → Copies σ.memory a b (size e * n) (.ub ub) →
      Exec wrapv u fr (.stmt (.memcpy d s e n)) σ (.ub ub)
  | memcpySc (fr d s e σ t t' a b μ) : σ.names.lookup d = some (.object (.sc t) a) →
      σ.names.lookup s = some (.object (.sc t') b) → Copies σ.memory a b (size e) (.ok μ) →
      Exec wrapv u fr (.stmt (.memcpySc d s e)) σ (.ok (.next { σ with memory := μ }))
  | memcpyScUB (fr d s e σ t t' a b ub) : σ.names.lookup d = some (.object (.sc t) a) →
      σ.names.lookup s = some (.object (.sc t') b) → Copies σ.memory a b (size e) (.ub ub) →
      Exec wrapv u fr (.stmt (.memcpySc d s e)) σ (.ub ub)
  -- [expr.call]
  | callStmt (fr f args σ σ' v) : Exec wrapv u fr (.call f args) σ (.ok (.value v σ')) →
      Exec wrapv u fr (.stmt (.call f args)) σ (.ok (.next σ'))
  | callFail (fr f args σ r) : Exec wrapv u fr (.call f args) σ r → Fails r → Exec wrapv u fr (.stmt (.call f args)) σ r
  | declCall (fr e x f args σ σ' v r) : Exec wrapv u fr (.call f args) σ (.ok (.value (some v) σ')) → Inits σ' x e v r →
      Exec wrapv u fr (.stmt (.declCall (.sc e) x f args)) σ r
  | declCallFail (fr t x f args σ r) : Exec wrapv u fr (.call f args) σ r → Fails r →
      Exec wrapv u fr (.stmt (.declCall t x f args)) σ r
  | assignCall (fr l f args σ σ' v p r) : Exec wrapv u fr (.call f args) σ (.ok (.value (some v) σ')) →
      Eval wrapv σ'.names σ'.memory l (.place (.ok p)) → Assigns σ' p v r → Exec wrapv u fr (.stmt (.assignCall l f args)) σ r
  | assignCallUB (fr l f args σ σ' v ub) : Exec wrapv u fr (.call f args) σ (.ok (.value (some v) σ')) →
      Eval wrapv σ'.names σ'.memory l (.place (.ub ub)) → Exec wrapv u fr (.stmt (.assignCall l f args)) σ (.ub ub)
  | assignCallFail (fr l f args σ r) : Exec wrapv u fr (.call f args) σ r → Fails r →
      Exec wrapv u fr (.stmt (.assignCall l f args)) σ r
  | passUB (fr f args σ g ub) : func u.funcs f = some g → Passes wrapv σ.names σ.memory g.params args [] σ.memory (.ub ub) →
      Exec wrapv u fr (.call f args) σ (.ub ub)
  | callVoid (fr f args σ g ν μ σ') : func u.funcs f = some g → Passes wrapv σ.names σ.memory g.params args [] σ.memory (.ok (ν, μ)) →
      Exec wrapv u ⟨f, g.ret⟩ (.stmt g.body) ⟨ν, μ, σ.output⟩ (.ok (.next σ')) → g.ret = .void →
      Exec wrapv u fr (.call f args) σ (.ok (.value none { σ' with names := σ.names }))
  | callValue (fr f args σ g ν μ e bs μ' out v) : func u.funcs f = some g →
      Passes wrapv σ.names σ.memory g.params args [] σ.memory (.ok (ν, μ)) →
      Exec wrapv u ⟨f, g.ret⟩ (.stmt g.body) ⟨ν, μ, σ.output⟩ (.ok (.ret (.sc e) (bs.map some) μ' out)) → Denotes e bs v →
      Exec wrapv u fr (.call f args) σ (.ok (.value (some v) ⟨σ.names, μ', out⟩))
  | bodyFail (fr f args σ g ν μ r) : func u.funcs f = some g → Passes wrapv σ.names σ.memory g.params args [] σ.memory (.ok (ν, μ)) →
      Exec wrapv u ⟨f, g.ret⟩ (.stmt g.body) ⟨ν, μ, σ.output⟩ r → Fails r → Exec wrapv u fr (.call f args) σ r
  -- [class.ctor]
  | construct (fr c x args σ s g ν μ ν' μ' σ' new) : struct u.structs c = some s → func u.ctors c = some g →
      Constructs s.members σ.memory ν μ → Passes wrapv σ.names σ.memory g.params args ν μ (.ok (ν', μ')) →
      Exec wrapv u ⟨c, g.ret⟩ (.stmt g.body) ⟨ν', μ', σ.output⟩ (.ok (.next σ')) →
      new = (x, .instance c) :: (ν.map fun m => (member x m.1, m.2)) →
      Exec wrapv u fr (.stmt (.construct c x args)) σ (.ok (.next { σ' with names := new ++ σ.names }))
  | constructUB (fr c x args σ s g ν μ ub) : struct u.structs c = some s → func u.ctors c = some g →
      Constructs s.members σ.memory ν μ → Passes wrapv σ.names σ.memory g.params args ν μ (.ub ub) →
      Exec wrapv u fr (.stmt (.construct c x args)) σ (.ub ub)
  | constructFail (fr c x args σ s g ν μ ν' μ' r) : struct u.structs c = some s → func u.ctors c = some g →
      Constructs s.members σ.memory ν μ → Passes wrapv σ.names σ.memory g.params args ν μ (.ok (ν', μ')) →
      Exec wrapv u ⟨c, g.ret⟩ (.stmt g.body) ⟨ν', μ', σ.output⟩ r → Fails r →
      Exec wrapv u fr (.stmt (.construct c x args)) σ r
  -- [class.conv.fct]
  | convert (fr e x σ c s g ν bs μ out v) : σ.names.lookup x = some (.instance c) → struct u.structs c = some s →
      func u.convs c = some g → g.ret = .sc e → Members σ.names x s.members ν →
      Exec wrapv u ⟨c, g.ret⟩ (.stmt g.body) ⟨ν, σ.memory, σ.output⟩ (.ok (.ret (.sc e) (bs.map some) μ out)) → Denotes e bs v →
      Exec wrapv u fr (.convert e x) σ (.ok (.value (some v) ⟨σ.names, μ, out⟩))
  | convertFail (fr e x σ c s g ν r) : σ.names.lookup x = some (.instance c) → struct u.structs c = some s →
      func u.convs c = some g → g.ret = .sc e → Members σ.names x s.members ν →
      Exec wrapv u ⟨c, g.ret⟩ (.stmt g.body) ⟨ν, σ.memory, σ.output⟩ r → Fails r → Exec wrapv u fr (.convert e x) σ r

/-- The outcome is undefined behaviour. -/
def undefined {α : Type} : C α → Bool
  | .ub _ => true
  | _ => false

/-- [intro.execution]: two outcomes that the standard does not tell apart.  When one execution has undefined behaviour, there are no
requirements on the program, whatever the operation that is undefined. -/
def Alike {α : Type} (r r' : C α) : Prop := r = r' ∨ undefined r = true ∧ undefined r' = true

/-! ## Calls from outside -/

/-- An argument: an object with the given bytes, or a pointer to the element `off` of a block. -/
inductive Arg
  | object (t : Ty) (b : Block)
  | pointer (e : Elem) (b : Block) (off : Nat)

/-- The parameters are initialised with the arguments, from left to right, each in storage of its own.  Simplification: no two pointers
point to the same block. -/
inductive Enters : List (Ty × Nat) → List Arg → Names → Memory → Names → Memory → Prop
  | nil (ν μ) : Enters [] [] ν μ ν μ
  | object (t x ps b as ν μ ν' μ') : isObject t = true → b.length = sizeOf t →
      Enters ps as ((x, .object t μ.length) :: ν) (μ ++ [b]) ν' μ' → Enters ((t, x) :: ps) (.object t b :: as) ν μ ν' μ'
  | pointer (e x ps b off as ν μ ν' μ') :
      Enters ps as ((x, .pointer e μ.length off) :: ν) (μ ++ [b]) ν' μ' → Enters ((.ptr e, x) :: ps) (.pointer e b off :: as) ν μ ν' μ'

/-- The effect of a call: the bytes of the returned object, or the blocks of memory after a `void` function; the block of the argument
`i` is the block `i`. -/
inductive Effect
  | value (t : Ty) (b : Block)
  | void (μ : Memory)

/-- The function `g` of the translation unit `u` is called with the given arguments. -/
inductive Called (wrapv : Bool) (u : TransUnit) (g : Func) (args : List Arg) : C Effect → Prop
  | value (ν μ t b μ' out) : Enters g.params args [] [] ν μ →
      Exec wrapv u ⟨g.name, g.ret⟩ (.stmt g.body) ⟨ν, μ, []⟩ (.ok (.ret t b μ' out)) → Called wrapv u g args (.ok (.value t b))
  | void (ν μ σ) : Enters g.params args [] [] ν μ → Exec wrapv u ⟨g.name, g.ret⟩ (.stmt g.body) ⟨ν, μ, []⟩ (.ok (.next σ)) →
      g.ret = .void → Called wrapv u g args (.ok (.void σ.memory))
  | undefined (ν μ ub) : Enters g.params args [] [] ν μ →
      Exec wrapv u ⟨g.name, g.ret⟩ (.stmt g.body) ⟨ν, μ, []⟩ (.ub ub) → Called wrapv u g args (.ub ub)
  | abort (ν μ m) : Enters g.params args [] [] ν μ →
      Exec wrapv u ⟨g.name, g.ret⟩ (.stmt g.body) ⟨ν, μ, []⟩ (.abort m) → Called wrapv u g args (.abort m)

end Verif.SpecExec
