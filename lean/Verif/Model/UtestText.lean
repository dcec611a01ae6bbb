import Verif.Model.Utest

/-!
The checks of `tests/utest.h` on strings and exceptions and the messages of the comparisons, written by hand.  A pointer to characters is null
(`none`) or points to a string.  Simplification: the arguments of the macros have no side effects (they are evaluated more than
once; see `UtestArgs.lean`).
-/

namespace Verif.Utest

/-- `strcmp(x, y)` (`tests/utest.h:642`): as `strncmp` with a bound behind the terminator of `x`, which is not reached. -/
def strcmp (x y : Str) : C Int := strncmpFrom x y (x.length + 1) 0

/-- `UTEST_STRNCMP(x, y, n)` (`tests/utest.h:541`); `n` is a `size_t`. -/
def strncmp (n : BitVec 64) (x y : Str) : C Int := strncmpFrom x y n.toNat 0

/-- `%s` in a format (`tests/utest.h:644`); undefined for a null pointer. -/
def showS : Option Str → C Str
  | some s => .ok s
  | none => .ub .outOfBounds

/-- `%.*s` with `UTEST_CAST(int, n)` (`tests/utest.h:668`): a negative precision counts as none. -/
def showN (n : BitVec 64) : Option Str → C Str
  | some s => if (n.setWidth 32).toInt < 0 then .ok s else .ok (s.take (n.setWidth 32).toInt.toNat)
  | none => .ub .outOfBounds

/-- The conditions of `tests/utest.h:642` (`want` true) and `654` (`want` false): `UTEST_NULL == x || UTEST_NULL == y || 0 != cmp(x, y)`, the
check fails. -/
def strFails (want : Bool) (cmp : Str → Str → C Int) (x y : Option Str) : C Bool :=
  match x with
  | none => .ok true
  | some a =>
    match y with
    | none => .ok true
    | some b => do
      let r ← cmp a b
      .ok (if want then r != 0 else r == 0)

/-- The body of the check (`tests/utest.h:641-650`): no text if it passes, else the two lines after `Failure`. -/
def strCheck (want : Bool) (cmp : Str → Str → C Int) (sh : Option Str → C Str) (x y : Option Str) : C (Option Str) := do
  if ← strFails want cmp x y then
    let a ← sh x
    let b ← sh y
    .ok (some ("  Expected : \"".toList ++ a ++ "\"\n    Actual : \"".toList ++ b ++ "\"\n".toList))
  else .ok none

/-- `EXPECT_STREQ` (`tests/utest.h:640-650`) and `ASSERT_STREQ` (`820-831`) -/
def STREQ (x y : Option Str) : C (Option Str) := strCheck true strcmp showS x y
/-- `EXPECT_STRNE` (`tests/utest.h:652-662`) and `ASSERT_STRNE` (`833-844`) -/
def STRNE (x y : Option Str) : C (Option Str) := strCheck false strcmp showS x y
/-- `EXPECT_STRNEQ` (`tests/utest.h:664-674`) and `ASSERT_STRNEQ` (`846-857`) -/
def STRNEQ (n : BitVec 64) (x y : Option Str) : C (Option Str) := strCheck true (strncmp n) (showN n) x y
/-- `EXPECT_STRNNE` (`tests/utest.h:676-686`) and `ASSERT_STRNNE` (`859-870`) -/
def STRNNE (n : BitVec 64) (x y : Option Str) : C (Option Str) := strCheck false (strncmp n) (showN n) x y

/-- A check on strings as a statement of a test (`tests/utest.h:643-646`, `823-827`), when its outcome is `m`. -/
def textStmt {W : Type} (fatal : Bool) (place : Str) (m : Option Str) : Stmt W :=
  .compare fatal place (fun _ => m.getD []) (fun w => (w, m.isNone))

/-- `tests/utest.h:705-712`: `exception_caught`. -/
def exceptionCaught {E : Type} (isA : E → Bool) : Option E → Int
  | none => 0
  | some e => if isA e then 1 else 2

/-- `EXPECT_EXCEPTION` (`tests/utest.h:703-724`) and `ASSERT_EXCEPTION` (`888-910`): `x` runs the statement, with the exception it throws;
`isA` are the exceptions of the type `type`.  The state afterwards, and the lines after `Failure` if the check fails. -/
def EXCEPTION {W E : Type} (type : Str) (isA : E → Bool) (x : W → W × Option E) (w : W) : W × Option Str :=
  let (w, e) := x w
  let caught := exceptionCaught isA e
  if caught ≠ 1 then
    (w, some ("  Expected : ".toList ++ type ++ " exception\n    Actual : ".toList ++
      (if caught = 2 then "Unexpected exception" else "No exception").toList ++ ['\n']))
  else (w, none)

/-- `UTEST_PRINTF(fmt)` without further arguments (`tests/utest.h:585`): a conversion has no argument to print, which is undefined; `%%`
prints one `%`. -/
def printf0 : Str → C Str
  | [] => .ok []
  | c :: s =>
    if c = '%' then
      match s with
      | d :: s => if d = '%' then do .ok ('%' :: (← printf0 s)) else .ub .outOfBounds
      | [] => .ub .outOfBounds
    else do .ok (c :: (← printf0 s))

/-- `tests/utest.h:584-590`: the message of a failure of `EXPECT_EQ(x, y)` and the like; `x`, `y` are the texts of the arguments, `xv`, `yv` their
printed values. -/
def compareText (x cond y xv yv : Str) : C Str := do
  let t ← printf0 (x ++ ") ".toList ++ cond ++ " (".toList ++ y)
  .ok ("  Expected : (".toList ++ t ++ ")\n    Actual : ".toList ++ xv ++ " vs ".toList ++ yv ++ ['\n'])

end Verif.Utest
