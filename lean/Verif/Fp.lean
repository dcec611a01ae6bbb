/-!
# IEEE-754 binary floating point with round-to-nearest-even

The C++ code computes with `float` and `double`.  A floating-point object is
its bit pattern.  This file defines the arithmetic on bit patterns, for any
binary interchange format, with natural-number arithmetic only.

Every finite number of a format is an integer multiple of the smallest
subnormal `u = 2^(1 - bias - mb)`; `mag` is that integer.  Infinity's bit
pattern read by the same formula gives `2^(mb) * 2^(2^eb - 2)`, the first
magnitude that is too large, so the order of magnitudes extends to infinity.

The sign and the payload of a NaN result are left open (`nanChoice`).
Simplifications: the rounding mode is the default one and the exception flags are
not modelled.
-/

namespace Verif

/-- A binary interchange format: `eb` exponent bits and `mb` fraction bits. -/
structure Fmt where
  eb : Nat
  mb : Nat

/-- The operations that can give a NaN. -/
inductive FloatOps
  | add
  | sub
  | mul
  | div
  /-- conversion from another format -/
  | convert (g : Fmt)

/-- Which NaN an operation gives for the operands with the bit patterns `a` and `b`: its sign and its payload.  IEEE 754-2008, 6.2, leaves this
to the implementation (quiet or propagated payloads, the default NaN of the processor).  Nothing is known of this function: it is an opaque
constant, so that no proof can use its values, and all theorems hold for every choice. -/
opaque nanChoice (f : Fmt) (o : FloatOps) (a b : Nat) : Bool × Nat

namespace Fmt

/-- `float` -/
abbrev b32 : Fmt := ⟨8, 23⟩
/-- `double` -/
abbrev b64 : Fmt := ⟨11, 52⟩

variable (f : Fmt)

/-- Number of bits of an object of the format. -/
abbrev width : Nat := 1 + f.eb + f.mb
/-- Exponent bias. -/
def bias : Nat := 2 ^ (f.eb - 1) - 1
/-- `-log2` of the smallest subnormal: `1 = 2^unit` units. -/
def unit : Nat := f.bias - 1 + f.mb
/-- Bit pattern of `+infinity`. -/
def infBits : Nat := (2 ^ f.eb - 1) * 2 ^ f.mb
/-- Weight of the sign bit. -/
def signBit : Nat := 2 ^ (f.eb + f.mb)

/-- Sign of a bit pattern. -/
def neg (b : Nat) : Bool := decide (f.signBit ≤ b)
/-- Bit pattern without the sign. -/
def abs (b : Nat) : Nat := b % f.signBit
/-- The pattern is a NaN. -/
def isNaN (b : Nat) : Bool := decide (f.infBits < f.abs b)
/-- The pattern is an infinity. -/
def isInf (b : Nat) : Bool := decide (f.abs b = f.infBits)
/-- Magnitude in units of the smallest subnormal. -/
def mag (b : Nat) : Nat :=
  let E := f.abs b / 2 ^ f.mb
  let F := f.abs b % 2 ^ f.mb
  if E = 0 then F else (2 ^ f.mb + F) * 2 ^ (E - 1)
/-- Signed magnitude in units of the smallest subnormal. -/
def fix (b : Nat) : Int := if f.neg b then -(f.mag b : Int) else f.mag b

/-- `a / b` rounded to the nearest integer, ties to even. -/
def rne (a b : Nat) : Nat :=
  let q := a / b
  let r := a % b
  if 2 * r < b then q else if b < 2 * r then q + 1 else q + q % 2

/-- Bit pattern of the number nearest to `num / den` units (ties to even,
overflow to infinity). -/
def roundMag (num den : Nat) : Nat :=
  let k := (num / den).log2 - f.mb
  min (k * 2 ^ f.mb + rne num (den * 2 ^ k)) f.infBits

/-- Attach a sign. -/
def pack (s : Bool) (m : Nat) : Nat := if s then f.signBit + m else m

/-- Round the signed value `num / den` units; `zs` is the sign of an exact zero. -/
def round (zs : Bool) (num : Int) (den : Nat) : Nat :=
  f.pack (if num = 0 then zs else decide (num < 0)) (f.roundMag num.natAbs den)

/-- The NaN that the implementation gives: the fraction is not zero, the sign and the other bits are arbitrary. -/
def nanBits (o : FloatOps) (a b : Nat) : Nat :=
  f.pack (nanChoice f o a b).1 (f.infBits + 1 + (nanChoice f o a b).2 % (2 ^ f.mb - 1))

/-- The sum, where `nan` is the pattern of an invalid result. -/
def addWith (nan a b : Nat) : Nat :=
  if f.isNaN a || f.isNaN b then nan
  else if f.isInf a then
    if f.isInf b && (f.neg a != f.neg b) then nan else a
  else if f.isInf b then b
  else f.round (f.neg a && f.neg b) (f.fix a + f.fix b) 1

def add (a b : Nat) : Nat := f.addWith (f.nanBits .add a b) a b

/-- Change of sign. -/
def negate (b : Nat) : Nat := if f.neg b then b - f.signBit else b + f.signBit

def sub (a b : Nat) : Nat :=
  if f.isNaN a || f.isNaN b then f.nanBits .sub a b else f.addWith (f.nanBits .sub a b) a (f.negate b)

def mul (a b : Nat) : Nat :=
  let s := f.neg a != f.neg b
  if f.isNaN a || f.isNaN b then f.nanBits .mul a b
  else if f.isInf a || f.isInf b then
    if f.mag a = 0 || f.mag b = 0 then f.nanBits .mul a b else f.pack s f.infBits
  else f.round s (f.fix a * f.fix b) (2 ^ f.unit)

def div (a b : Nat) : Nat :=
  let s := f.neg a != f.neg b
  if f.isNaN a || f.isNaN b then f.nanBits .div a b
  else if f.isInf a then
    if f.isInf b then f.nanBits .div a b else f.pack s f.infBits
  else if f.isInf b then f.pack s 0
  else if f.mag b = 0 then
    if f.mag a = 0 then f.nanBits .div a b else f.pack s f.infBits
  else f.pack s (f.roundMag (f.mag a * 2 ^ f.unit) (f.mag b))

/-- `a < b` -/
def lt (a b : Nat) : Bool :=
  !f.isNaN a && !f.isNaN b && decide (f.fix a < f.fix b)
/-- `a == b` -/
def eq (a b : Nat) : Bool :=
  !f.isNaN a && !f.isNaN b && decide (f.fix a = f.fix b)

/-- Conversion of an integer. -/
def ofInt (n : Int) : Nat := f.round false (n * 2 ^ f.unit) 1

/-- Truncation toward zero of a finite number; `none` for NaN and infinity. -/
def trunc (b : Nat) : Option Int :=
  if f.isNaN b || f.isInf b then none
  else some (Int.tdiv (f.fix b) (2 ^ f.unit))

/-- Conversion between formats. -/
def convert (g : Fmt) (b : Nat) : Nat :=
  if f.isNaN b then g.nanBits (.convert f) b 0
  else if f.isInf b then g.pack (f.neg b) g.infBits
  else g.round (f.neg b) (f.fix b * 2 ^ g.unit) (2 ^ f.unit)

end Fmt
end Verif
