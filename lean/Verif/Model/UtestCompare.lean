import Verif.Model.UtestText

/-!
The comparisons of `tests/utest.h` on values of arithmetic types and the text of the values, written by hand.  Simplification:
`long double` and pointers are left out, and of `long` and `long long`, which print alike, there is one.
-/

namespace Verif.Utest

/-- The operator `cond` (`tests/utest.h:633-638`, `813-818`) -/
inductive Cond
  | eq | ne | lt | le | gt | ge
  deriving DecidableEq

/-- `#cond` (`tests/utest.h:584`) -/
def Cond.text : Cond → Str
  | .eq => "==".toList
  | .ne => "!=".toList
  | .lt => "<".toList
  | .le => "<=".toList
  | .gt => ">".toList
  | .ge => ">=".toList

/-- `(xEval)cond(yEval)` (`tests/utest.h:581`); `xEval` and `yEval` have the types of the arguments. -/
def Cond.holds : Cond → Val → Val → Bool
  | .eq, x, y => Val.eq x y
  | .ne, x, y => !Val.eq x y
  | .lt, x, y => Val.lt x y
  | .le, x, y => Val.lt x y || Val.eq x y
  | .gt, x, y => Val.gt x y
  | .ge, x, y => Val.gt x y || Val.eq x y

/-- Six digits. -/
def pad6 (n : Nat) : Str := List.replicate (6 - (num n).length) '0' ++ num n

/-- `%f` (`tests/utest.h:412`, `417`): six places, correctly rounded as in glibc. -/
def fixed (d : BitVec 64) : Str :=
  (if Fmt.b64.neg d.toNat then ['-'] else []) ++
  if Fmt.b64.isNaN d.toNat then "nan".toList
  else if Fmt.b64.isInf d.toNat then "inf".toList
  else
    let n := Fmt.rne (Fmt.b64.mag d.toNat * 10 ^ 6) (2 ^ Fmt.b64.unit)
    num (n / 10 ^ 6 : Nat) ++ '.' :: pad6 (n % 10 ^ 6)

/-- `utest_type_printer` (`tests/utest.h:410-470`): `char` and `short` are promoted to `int`, `float` is converted to `double`. -/
def utest_type_printer : Val → Str
  | .int _ v => num v
  | .f32 b => fixed (Val.toF64 (.f32 b))
  | .f64 b => fixed b

/-- `UTEST_EXPECT(x, y, cond)` (`tests/utest.h:577-594`) and `UTEST_ASSERT` (`752-770`); `xt`, `yt` are the texts of the arguments and `x`, `y` their
values.  No text if the check passes, else the two lines after `Failure`. -/
def COMPARE (c : Cond) (xt yt : Str) (x y : Val) : C (Option Str) :=
  if c.holds x y then .ok none
  else do .ok (some (← compareText xt c.text yt (utest_type_printer x) (utest_type_printer y)))

end Verif.Utest
