import Verif.Model.UtestCompare
import Verif.SpecFloat
import Verif.SpecCpp

/-!
The numbers of C++, the six comparisons of them and their decimal numerals, for C103.  Of the model only the names of the
comparisons (`Cond`) are used.
-/

namespace Verif.SpecNumeral
open Spec
open Utest (Cond)

/-- The number that an object holds. -/
def datum : Val → Datum
  | .int _ v => .num (decide (v < 0)) v
  | .f32 b => decode .b32 b.toNat
  | .f64 b => decode .b64 b.toNat

/-- The value is one of its type. -/
def Proper : Val → Prop
  | .int t v => SpecCpp.IsValue t v
  | _ => True

/-- The comparison holds of two numbers; of what is not a number only `≠` holds. -/
def Holds : Cond → Datum → Datum → Prop
  | .eq, x, y => x.Equal y
  | .ne, x, y => ¬ x.Equal y
  | .lt, x, y => x.Less y
  | .le, x, y => x.Less y ∨ x.Equal y
  | .gt, x, y => y.Less x
  | .ge, x, y => y.Less x ∨ y.Equal x

/-- The sign of the comparison in C++. -/
def sign : Cond → String
  | .eq => "==" | .ne => "!=" | .lt => "<" | .le => "<=" | .gt => ">" | .ge => ">="

/-- The type in which C++ compares the two objects represents the numbers of both. -/
def Faithful : Val → Val → Prop
  | .int s x, .int t y => ∃ r, SpecCpp.Usual s t r ∧ SpecCpp.IsValue r x ∧ SpecCpp.IsValue r y
  | .int _ x, .f32 _ => x.natAbs ≤ 2 ^ 24
  | .f32 _, .int _ y => y.natAbs ≤ 2 ^ 24
  | .int _ x, .f64 _ => x.natAbs ≤ 2 ^ 53
  | .f64 _, .int _ y => y.natAbs ≤ 2 ^ 53
  | _, _ => True

/-- All characters are decimal digits. -/
def Digits (t : List Char) : Prop := ∀ c ∈ t, 48 ≤ c.toNat ∧ c.toNat ≤ 57
/-- The number that a row of digits denotes. -/
def value (t : List Char) : Nat := t.foldl (fun n c => 10 * n + (c.toNat - 48)) 0

/-- The numeral of a natural number: digits, the first one is not zero unless it is the only one. -/
def IsNumeral (t : List Char) (n : Nat) : Prop :=
  t ≠ [] ∧ Digits t ∧ (1 < t.length → t.head? ≠ some '0') ∧ value t = n

/-- The numeral of an integer. -/
def IsDecimal (t : List Char) (v : Int) : Prop :=
  if v < 0 then ∃ d, t = '-' :: d ∧ IsNumeral d v.natAbs else IsNumeral t v.natAbs

/-- A decimal fraction with six places: the one nearest to `x` (of two, the one with the even last digit). -/
def IsFraction (t : List Char) (x : ℚ) : Prop :=
  ∃ (d f : List Char) (n : Nat), t = d ++ '.' :: f ∧ IsNumeral d n ∧ Digits f ∧ f.length = 6 ∧
    |((n : ℚ) + value f / 10 ^ 6) - x| ≤ 1 / 2 / 10 ^ 6 ∧
    (|((n : ℚ) + value f / 10 ^ 6) - x| = 1 / 2 / 10 ^ 6 → value f % 2 = 0)

/-- The text of a floating-point number. -/
def IsFixed (t : List Char) : Datum → Prop
  | .nan => t = "nan".toList ∨ t = "-nan".toList
  | .inf s => t = if s then "-inf".toList else "inf".toList
  | .num s x => ∃ d, t = (if s then ['-'] else []) ++ d ∧ IsFraction d |x|

/-- The text shows the number in the object. -/
def Shows (t : List Char) : Val → Prop
  | .int _ v => IsDecimal t v
  | x => IsFixed t (datum x)

end Verif.SpecNumeral
