import Verif.Types

/-!
# Specification vocabulary

Small definitions used in the statements of the property theorems, independent
of the model of the code.  A lane is a bit vector: `x.toInt` is its
two's-complement value, `x.toNat` its unsigned value; `+`, `-`, `*` on bit
vectors are arithmetic modulo `2^w`; `x.signExtend w` and `x.setWidth w` are sign
extension and zero extension (or truncation).
-/

namespace Verif.Spec

/-- `v` is representable as a `w`-bit two's-complement integer. -/
def Fits (w : Nat) (v : Int) : Prop := -2 ^ (w - 1) ≤ v ∧ v ≤ 2 ^ (w - 1) - 1

instance (w : Nat) (v : Int) : Decidable (Fits w v) := by unfold Fits; infer_instance

/-- Signed `w`-bit arithmetic with exact result `v` has no undefined behaviour:
the result fits, or the compiler makes signed arithmetic wrap. -/
def NoOverflow [Dialect] (w : Nat) (v : Int) : Prop := Dialect.wrapv = true ∨ Fits w v

instance [Dialect] (w : Nat) (v : Int) : Decidable (NoOverflow w v) := by
  unfold NoOverflow; infer_instance

/-- `v` limited to the interval `[lo, hi]`. -/
def clamp (lo hi v : Int) : Int := max lo (min v hi)

/-- Signed saturation to `w` bits. -/
def ssat (w : Nat) (v : Int) : BitVec w :=
  BitVec.ofInt w (clamp (-2 ^ (w - 1)) (2 ^ (w - 1) - 1) v)

/-- Unsigned saturation to `w` bits. -/
def usat (w : Nat) (v : Int) : BitVec w := BitVec.ofInt w (clamp 0 (2 ^ w - 1) v)

/-- Most significant `h` bits of a `2h`-bit lane. -/
def high (h : Nat) {w : Nat} (x : BitVec w) : BitVec h := x.extractLsb' h h

/-- All bits one when the condition holds, all bits zero otherwise. -/
def mask (w : Nat) (c : Prop) [Decidable c] : BitVec w := if c then BitVec.allOnes w else 0#w

/-- Bit `b` of the register image, lane 0 being least significant (the bytes of the register in
memory on a little-endian machine). -/
def regBit {e : Elem} {n : Nat} (a : Vec e n) (b : Nat) : Bool :=
  if h : b / e.bits < n then (a.lane ⟨b / e.bits, h⟩).getLsbD (b % e.bits) else false

end Verif.Spec
