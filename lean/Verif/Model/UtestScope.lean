import Verif.Model.UtestText
import Verif.Model.UtestCompare

/-!
The checks of `tests/utest.h` and the names in their arguments, written by hand.  A check is a macro that declares variables of its own
(`xEval`, `yEval`, `diff`, `exception_caught`), in whose scope the texts of the arguments stand.  Simplification: the arguments have no side
effects here (`Model/UtestArgs` has those), except the statement of `EXPECT_EXCEPTION`.
-/

namespace Verif.Utest

/-- The variables that are visible, `none` if not initialised (the scope of `tests/utest.h:579`). -/
abbrev Scope := String → Option Val

/-- A declaration in an inner block (`tests/utest.h:579`). -/
def Scope.bind (s : Scope) (x : String) (v : Option Val) : Scope := fun y => if y = x then v else s y

/-- The text of an argument (`x` of `tests/utest.h:577`): names, values and any operations on them. -/
inductive Term
  | val (v : Val)
  | var (x : String)
  | unary (f : Val → C Val) (a : Term)
  | binary (f : Val → Val → C Val) (a b : Term)

/-- The value of the argument in a scope (`(x)` of `tests/utest.h:579`). -/
def Term.eval : Term → Scope → C Val
  | .val v, _ => .ok v
  | .var x, s => match s x with
    | some v => .ok v
    | none => .ub .indeterminateRead
  | .unary f a, s => do f (← a.eval s)
  | .binary f a b, s => do f (← a.eval s) (← b.eval s)

/-- The name occurs in the text (`x` of `tests/utest.h:577`). -/
def Term.mentions (n : String) : Term → Bool
  | .val _ => false
  | .var x => x == n
  | .unary _ a => a.mentions n
  | .binary _ a b => a.mentions n || b.mentions n

/-- `UTEST_EXPECT(x, y, cond)` (`tests/utest.h:577-595`): `auto xEval = (x); auto yEval = (y); if (!((xEval)cond(yEval)))`, whether it passes; `none` is an
error of the compiler ([dcl.spec.auto]: the name of an `auto` variable in its own initializer). -/
def scopeCompare (c : Cond) (x y : Term) (s : Scope) : Option (C Bool) :=
  if x.mentions "xEval" then none
  else if y.mentions "yEval" then none
  else some do
    let v ← x.eval (s.bind "xEval" none)
    let s := s.bind "xEval" (some v)
    let w ← y.eval (s.bind "yEval" none)
    .ok (c.holds v w)

/-- `EXPECT_NEAR(x, y, epsilon)` (`tests/utest.h:688-700`): `const double diff = utest_fabs((double)x - (double)y)`, and then `epsilon` in the scope of
`diff`; whether it passes. -/
def scopeNear (x y epsilon : Term) (s : Scope) : C Bool := do
  let v ← x.eval (s.bind "diff" none)
  let w ← y.eval (s.bind "diff" none)
  let diff := utest_fabs (BitVec.ofNat 64 (Fmt.b64.sub v.toF64.toNat w.toF64.toNat))
  let e ← epsilon.eval (s.bind "diff" (some (.f64 diff)))
  .ok !(nearFails v.toF64 w.toF64 e.toF64)

/-- `EXPECT_EXCEPTION(x, type)` (`tests/utest.h:703-724`): `int exception_caught = 0; try { x; } ...`; the variables outside afterwards, and whether
it passes. -/
def scopeException {E : Type} (isA : E → Bool) (x : Scope → Scope × Option E) (s : Scope) : Scope × C Bool :=
  let (s', thrown) := x (s.bind "exception_caught" (some (.int .i32 0)))
  let caught := match thrown with
    | some e => some (.int .i32 (exceptionCaught isA (some e)))
    | none => s' "exception_caught"
  (s'.bind "exception_caught" (s "exception_caught"), match caught with
    | some v => .ok (Val.eq v (.int .i32 1))
    | none => .ub .indeterminateRead)

end Verif.Utest
