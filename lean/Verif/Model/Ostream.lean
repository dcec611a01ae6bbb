import Verif.Model.UtestCompare
import Verif.Model.TestUtil
import Verif.Model.Helper
import Mathlib.Data.Nat.Log
import Mathlib.Data.List.DropRight

/-!
How a C++ stream writes a floating-point number, for the messages of `almostEqual` (`tests/test_util.hpp`) and the stream operators of
`tests/neon_helper.hpp`, written by hand: with the default flags as `printf` with `%g`, six significant digits, correctly rounded as in glibc.
-/

namespace Verif.Model
open Utest

/-- The power of ten of the first digit of `m / D`, for `0 < m` (`tests/test_util.hpp:25`, `<< diff`). -/
def decade (m D : Nat) : Int :=
  if D ≤ m then (Nat.log 10 (m / D) : Nat) else -(Nat.clog 10 ((D + m - 1) / m) : Nat)

/-- Six digits of `m / D` from the power of ten `Y` on, rounded (`tests/test_util.hpp:25`). -/
def digits6 (m D : Nat) (Y : Int) : Nat :=
  if Y ≤ 5 then Fmt.rne (m * 10 ^ (5 - Y).toNat) D else Fmt.rne m (D * 10 ^ (Y - 5).toNat)

/-- At least `k` digits (`tests/test_util.hpp:25`). -/
def padded (k n : Nat) : Str := List.replicate (k - (num n).length) '0' ++ num n

/-- `n / 10 ^ k` without zeros at the end of the fraction (`tests/test_util.hpp:25`). -/
def plain (n k : Nat) : Str :=
  let f := (padded k (n % 10 ^ k)).rdropWhile (· = '0')
  if f = [] then num (n / 10 ^ k : Nat) else num (n / 10 ^ k : Nat) ++ '.' :: f

/-- The exponent: a sign and at least two digits (`tests/test_util.hpp:25`). -/
def exponent (X : Int) : Str := (if X < 0 then '-' else '+') :: padded 2 X.natAbs

/-- A positive number with `%g` (`tests/test_util.hpp:25`). -/
def positive (m D : Nat) : Str :=
  let Y := decade m D
  let n := digits6 m D Y
  let (n, X) := if n = 10 ^ 6 then (10 ^ 5, Y + 1) else (n, Y)
  if -4 ≤ X ∧ X < 6 then plain n (5 - X).toNat else plain n 5 ++ 'e' :: exponent X

/-- `os << d` for a `double` (`tests/test_util.hpp:25`) -/
def general (d : BitVec 64) : Str :=
  (if Fmt.b64.neg d.toNat then ['-'] else []) ++
  if Fmt.b64.isNaN d.toNat then "nan".toList
  else if Fmt.b64.isInf d.toNat then "inf".toList
  else if Fmt.b64.mag d.toNat = 0 then ['0']
  else positive (Fmt.b64.mag d.toNat) (2 ^ Fmt.b64.unit)

/-- The text of a `float`, which is converted to `double` (`tests/neon_helper.hpp:140`), and of a `double` (`tests/neon_helper.hpp:203`). -/
abbrev defaultText : FloatText := ⟨fun b => general (Val.toF64 (.f32 b)), general⟩

/-- `tests/test_util.hpp:24-25`: the line that `almostEqual` writes. -/
def Report.text (r : Report) : Str :=
  "array[".toList ++ num r.index ++ "] (".toList ++ num r.actual ++ ") != expected[".toList ++ num r.index ++ "] (".toList ++ num r.expected ++
    "), diff = ".toList ++ general r.diff ++ ", EPS = ".toList ++ general r.eps ++ ['\n']

end Verif.Model
