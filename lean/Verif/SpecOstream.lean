import Verif.SpecNumeral

/-!
Decimal numbers with six significant digits, as a C++ stream writes them by default, for C106.
-/

namespace Verif.SpecNumeral
open Spec

/-- The first digit of the positive number `v` stands at the power `Y` of ten. -/
def Decade (v : ℚ) (Y : ℤ) : Prop := 10 ^ Y ≤ v ∧ v < 10 ^ (Y + 1)

/-- The integer nearest to `v`; of two, the even one. -/
def NearestInt (n : ℕ) (v : ℚ) : Prop := |(n : ℚ) - v| ≤ 1 / 2 ∧ (|(n : ℚ) - v| = 1 / 2 → n % 2 = 0)

/-- `w` is the positive number `v` rounded to six significant digits. -/
def SixDigits (v w : ℚ) : Prop := ∃ (Y : ℤ) (n : ℕ), Decade v Y ∧ NearestInt n (v * 10 ^ (5 - Y)) ∧ w = n * 10 ^ (Y - 5)

/-- The text is exactly the number `w`: a numeral, or a numeral, a point and digits of which the last is not zero. -/
def IsPlain (t : List Char) (w : ℚ) : Prop :=
  (∃ n : ℕ, IsNumeral t n ∧ w = n) ∨
  (∃ (d f : List Char) (n : ℕ), t = d ++ '.' :: f ∧ IsNumeral d n ∧ Digits f ∧ (∃ c, f.getLast? = some c ∧ c ≠ '0') ∧
    w = n + (value f : ℚ) / 10 ^ f.length)

/-- The text of an exponent: a sign and at least two digits, of which the first is not zero if there are more. -/
def IsExponent (t : List Char) (X : ℤ) : Prop :=
  ∃ d, t = (if X < 0 then '-' else '+') :: d ∧ Digits d ∧ 2 ≤ d.length ∧ (2 < d.length → d.head? ≠ some '0') ∧ value d = X.natAbs

/-- The text of a positive number that has at most six digits: without exponent if its first digit stands between 10^-4 and 10^5. -/
def IsShort (t : List Char) (w : ℚ) : Prop :=
  ∃ X : ℤ, Decade w X ∧
    if -4 ≤ X ∧ X ≤ 5 then IsPlain t w else ∃ s e, t = s ++ 'e' :: e ∧ IsPlain s (w / 10 ^ X) ∧ IsExponent e X

/-- The text of a floating-point number: a minus sign if it is negative, and its magnitude with six significant digits. -/
def IsGeneral (t : List Char) : Datum → Prop
  | .nan => t = "nan".toList ∨ t = "-nan".toList
  | .inf s => t = if s then "-inf".toList else "inf".toList
  | .num s x => ∃ d, t = (if s then ['-'] else []) ++ d ∧ if x = 0 then d = ['0'] else ∃ w, SixDigits |x| w ∧ IsShort d w

/-- Numbers that six digits may not tell apart: of the same sign and within ten millionths of the greater magnitude. -/
def Alike : Datum → Datum → Prop
  | .nan, .nan => True
  | .inf s, .inf s' => s = s'
  | .num s x, .num s' y => s = s' ∧ |(|x| - |y|)| ≤ max |x| |y| * (10 / 10 ^ 6)
  | _, _ => False

end Verif.SpecNumeral
