import Verif.Core

/-!
# The integer rules of C++11, stated for themselves

The types of an LP64 machine and the rules of the standard (section names as in N3337) as relations.  Nothing here
refers to the functions of `Verif/Core.lean`; only its names of types, values and outcomes are used.  The conversion
rank of a type is its width (no two of the eight types of one signedness have the same width).
-/

namespace Verif.SpecCpp

/-- Number of bits of an object of the type. -/
def width : ITy → Nat
  | .i8 => 8 | .u8 => 8 | .i16 => 16 | .u16 => 16 | .i32 => 32 | .u32 => 32 | .i64 => 64 | .u64 => 64
/-- The type is signed. -/
def isSigned : ITy → Bool
  | .i8 => true | .u8 => false | .i16 => true | .u16 => false | .i32 => true | .u32 => false | .i64 => true | .u64 => false
/-- The unsigned type of the same width. -/
def unsignedOf : ITy → ITy
  | .i8 => .u8 | .u8 => .u8 | .i16 => .u16 | .u16 => .u16 | .i32 => .u32 | .u32 => .u32 | .i64 => .u64 | .u64 => .u64

/-- [basic.fundamental]: `v` is a value of the type (two's complement). -/
def IsValue (t : ITy) (v : Int) : Prop :=
  if isSigned t then -2 ^ (width t - 1) ≤ v ∧ v < 2 ^ (width t - 1) else 0 ≤ v ∧ v < 2 ^ width t
/-- `t` can represent all the values of `s`. -/
def Represents (t s : ITy) : Prop := ∀ v, IsValue s v → IsValue t v

/-- [conv.prom]: `s` is promoted to `r`. -/
def Promotes (s r : ITy) : Prop :=
  (width s < width .i32 ∧ Represents .i32 s ∧ r = .i32) ∨
  (width s < width .i32 ∧ ¬ Represents .i32 s ∧ r = .u32) ∨
  (width .i32 ≤ width s ∧ r = s)

/-- [expr] paragraph 10 for promoted types: the common type of `s` and `t` is `r`. -/
inductive Common : ITy → ITy → ITy → Prop
  | same (t) : Common t t t
  | rankL (s t) : isSigned s = isSigned t → width t < width s → Common s t s
  | rankR (s t) : isSigned s = isSigned t → width s < width t → Common s t t
  | unsL (s t) : isSigned s = false → isSigned t = true → width t ≤ width s → Common s t s
  | unsR (s t) : isSigned s = true → isSigned t = false → width s ≤ width t → Common s t t
  | sigL (s t) : isSigned s = true → isSigned t = false → width t < width s → Represents s t → Common s t s
  | sigR (s t) : isSigned s = false → isSigned t = true → width s < width t → Represents t s → Common s t t
  | otherL (s t) : isSigned s = true → isSigned t = false → width t < width s → ¬ Represents s t →
      Common s t (unsignedOf s)
  | otherR (s t) : isSigned s = false → isSigned t = true → width s < width t → ¬ Represents t s →
      Common s t (unsignedOf t)

/-- The type to which operands of types `s` and `t` are converted. -/
def Usual (s t r : ITy) : Prop := ∃ s' t', Promotes s s' ∧ Promotes t t' ∧ Common s' t' r

/-- [conv.integral]: the value `v` converted to type `t` is `w`: the value of the type congruent to `v` modulo
`2^width` (the standard leaves the signed case to the implementation; GCC and Clang document this). -/
def Converts (t : ITy) (v w : Int) : Prop := IsValue t w ∧ ∃ k : Int, w = v + k * 2 ^ width t

/-- The operands `x : s` and `y : t` after the usual arithmetic conversions are `x', y' : r`. -/
def Operands (s t r : ITy) (x y x' y' : Int) : Prop := Usual s t r ∧ Converts r x x' ∧ Converts r y y'

/-- [expr] paragraph 4 and [basic.fundamental] paragraph 4: the outcome of an operation in type `r` with the
mathematical result `z`.  Unsigned arithmetic is modulo `2^width`; signed overflow is undefined, or wraps. -/
def Arith (wrapv : Bool) (r : ITy) (z : Int) (o : C Val) : Prop :=
  (IsValue r z → o = .ok (.int r z)) ∧
  (¬ IsValue r z → isSigned r = true → wrapv = false → o = .ub .signedOverflow) ∧
  (¬ IsValue r z → (isSigned r = false ∨ wrapv = true) → ∃ w, Converts r z w ∧ o = .ok (.int r w))

/-- [expr.mul] paragraph 4: the algebraic quotient with the fractional part discarded, and the remainder. -/
def Quotient (x y q r : Int) : Prop := x = q * y + r ∧ r.natAbs < y.natAbs ∧ (0 ≤ x → 0 ≤ r) ∧ (x ≤ 0 → r ≤ 0)

/-- Bit `i` of the two's complement of a number. -/
def bit (v : Int) (i : Nat) : Bool := v / 2 ^ i % 2 == 1

end Verif.SpecCpp
