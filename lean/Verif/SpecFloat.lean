import Mathlib.Algebra.Order.Field.Rat
import Mathlib.Algebra.Order.Field.Basic
import Verif.Fp

/-!
# Specification vocabulary for floating point

The textbook reading of IEEE-754 binary interchange formats, over exact rational
numbers: what datum a bit pattern encodes, when a pattern is the correct rounding
(to nearest, ties to even) of a rational number, and the IEEE-754 operations as
relations between patterns.  Nothing here refers to how the model computes; only
the record `Fmt` of the two field widths is shared with it.
-/

namespace Verif.Spec

/-- What a bit pattern encodes. -/
inductive Datum
  | nan
  | inf (neg : Bool)
  | num (neg : Bool) (x : ℚ)

variable (f : Fmt)

/-- Sign field. -/
def signField (b : Nat) : Bool := b.testBit (f.eb + f.mb)
/-- Biased exponent field. -/
def expField (b : Nat) : Nat := b / 2 ^ f.mb % 2 ^ f.eb
/-- Fraction field. -/
def fracField (b : Nat) : Nat := b % 2 ^ f.mb
/-- Exponent bias, which is also the largest exponent. -/
def emax : ℤ := 2 ^ (f.eb - 1) - 1

/-- `-x` or `x`. -/
def withSign (neg : Bool) (x : ℚ) : ℚ := if neg then -x else x

/-- The datum encoded by a bit pattern. -/
def decode (b : Nat) : Datum :=
  if expField f b = 2 ^ f.eb - 1 then
    if fracField f b = 0 then .inf (signField f b) else .nan
  else if expField f b = 0 then
    .num (signField f b) (withSign (signField f b) ((fracField f b : ℚ) / 2 ^ f.mb * 2 ^ (1 - emax f)))
  else
    .num (signField f b)
      (withSign (signField f b) ((1 + (fracField f b : ℚ) / 2 ^ f.mb) * 2 ^ ((expField f b : ℤ) - emax f)))

/-- The smallest magnitude that rounds to infinity: half a unit in the last place above the largest
finite number. -/
def overflowAt : ℚ := (2 - 1 / 2 ^ (f.mb + 1)) * 2 ^ emax f

/-- The pattern `r` is the rounding of the nonzero `x` to nearest, ties to even: infinity of the sign
of `x` beyond the overflow threshold; otherwise a number of the sign of `x` such that no number of the
format is closer to `x`, and whose last fraction bit is zero if another number is equally close. -/
structure RoundsTo (x : ℚ) (r : Nat) : Prop where
  overflow : overflowAt f ≤ |x| → decode f r = .inf (decide (x < 0))
  nearest : |x| < overflowAt f → ∃ v, decode f r = .num (decide (x < 0)) v ∧
    (∀ b s y, decode f b = .num s y → |v - x| ≤ |y - x|) ∧
    (∀ b s y, decode f b = .num s y → |y - x| = |v - x| → y ≠ v → fracField f r % 2 = 0)

/-- The pattern `r` is the rounding of `x`; an exact zero gets the sign `zs`. -/
def Rounded (zs : Bool) (x : ℚ) (r : Nat) : Prop :=
  if x = 0 then decode f r = .num zs 0 else RoundsTo f x r

/-- IEEE-754 addition. -/
def IsSum (a b r : Nat) : Prop :=
  match decode f a, decode f b with
  | .nan, _ => decode f r = .nan
  | _, .nan => decode f r = .nan
  | .inf s, .inf t => decode f r = if s = t then .inf s else .nan
  | .inf s, .num _ _ => decode f r = .inf s
  | .num _ _, .inf t => decode f r = .inf t
  | .num s x, .num t y => Rounded f (s && t) (x + y) r

/-- IEEE-754 subtraction. -/
def IsDiff (a b r : Nat) : Prop :=
  match decode f a, decode f b with
  | .nan, _ => decode f r = .nan
  | _, .nan => decode f r = .nan
  | .inf s, .inf t => decode f r = if s = t then .nan else .inf s
  | .inf s, .num _ _ => decode f r = .inf s
  | .num _ _, .inf t => decode f r = .inf (!t)
  | .num s x, .num t y => Rounded f (s && !t) (x - y) r

/-- IEEE-754 multiplication. -/
def IsProd (a b r : Nat) : Prop :=
  match decode f a, decode f b with
  | .nan, _ => decode f r = .nan
  | _, .nan => decode f r = .nan
  | .inf s, .inf t => decode f r = .inf (s != t)
  | .inf s, .num t y => decode f r = if y = 0 then .nan else .inf (s != t)
  | .num s x, .inf t => decode f r = if x = 0 then .nan else .inf (s != t)
  | .num s x, .num t y => Rounded f (s != t) (x * y) r

/-- IEEE-754 division. -/
def IsQuot (a b r : Nat) : Prop :=
  match decode f a, decode f b with
  | .nan, _ => decode f r = .nan
  | _, .nan => decode f r = .nan
  | .inf _, .inf _ => decode f r = .nan
  | .inf s, .num t _ => decode f r = .inf (s != t)
  | .num s _, .inf t => decode f r = .num (s != t) 0
  | .num s x, .num t y =>
    if y = 0 then decode f r = if x = 0 then .nan else .inf (s != t)
    else Rounded f (s != t) (x / y) r

/-- IEEE-754 `<`. -/
def Datum.Less : Datum → Datum → Prop
  | .nan, _ => False
  | _, .nan => False
  | .inf true, .inf true => False
  | .inf true, _ => True
  | _, .inf true => False
  | .inf false, _ => False
  | .num _ _, .inf false => True
  | .num _ x, .num _ y => x < y

/-- IEEE-754 `==`. -/
def Datum.Equal : Datum → Datum → Prop
  | .inf s, .inf t => s = t
  | .num _ x, .num _ y => x = y
  | _, _ => False

/-- `n` is `x` rounded toward zero. -/
def IsTrunc (x : ℚ) (n : ℤ) : Prop :=
  if 0 ≤ x then (n : ℚ) ≤ x ∧ x < n + 1 else x ≤ n ∧ (n : ℚ) - 1 < x

/-- The pattern `r` of the format `g` is the conversion of the pattern `b` of the format `f`. -/
def Converts (g : Fmt) (b r : Nat) : Prop :=
  match decode f b with
  | .nan => decode g r = .nan
  | .inf s => decode g r = .inf s
  | .num s x => Rounded g s x r

/-- A normal number: neither zero, subnormal, infinite nor NaN. -/
def IsNormal (b : Nat) : Prop := expField f b ≠ 0 ∧ expField f b ≠ 2 ^ f.eb - 1

/-- Relative error of `y` as an approximation of `x`. -/
def relErr (y x : ℚ) : ℚ := |y - x| / |x|

end Verif.Spec
