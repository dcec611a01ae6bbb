import Verif.Types

/-!
The comparison functions of the project's own tests (`tests/test_util.hpp`), written by hand.

A function that returns `true` is `none`; one that prints its message and returns `false` is the report
of the values it prints.  How `std::cerr` formats the numbers is in `Model/Ostream`.
-/

namespace Verif.Model

/-- `tests/test_util.hpp:24-25`: the values of the message `array[i] (actual) != expected[i] (expected),
diff = .., EPS = ..`. -/
structure Report where
  index : Int
  actual : Int
  expected : Int
  diff : BitVec 64
  eps : BitVec 64
  deriving DecidableEq, Repr

/-- `std::fabs` of a `float` or a `double`: the sign bit is cleared. -/
def stdFabs : Val → Val
  | .f32 b => .f32 (b &&& 0x7fffffff#32)
  | .f64 b => .f64 (b &&& 0x7fffffffffffffff#64)
  | .int t v => .f64 ((Val.int t v).toF64 &&& 0x7fffffffffffffff#64)

/-- The remaining `n` iterations, from `i`, of a loop whose body may return from the function. -/
def forRetFrom {ρ : Type} (body : Int → C (Option ρ)) : Nat → Nat → C (Option ρ)
  | 0, _ => .ok none
  | n + 1, i => do
    match ← body i with
    | some r => .ok (some r)
    | none => forRetFrom body n (i + 1)

/-- `for (int i = 0; i < n; i++) body; return true;` where the body may return. -/
def forRet {ρ : Type} (n : Nat) (body : Int → C (Option ρ)) : C (Option ρ) := forRetFrom body n 0

/-- The value of an `int` expression. -/
def intVal : Val → Int
  | .int _ v => v
  | _ => 0  -- ill-typed

variable [Dialect]

/-- `tests/test_util.hpp:17-30`: `bool almostEqual(const uint8x8_t& expected, const uint8x8_t& actual, double eps)` -/
def almostEqual_u8x8 (expected actual : uint8x8_t) (eps : BitVec 64) : C (Option Report) :=
  forRet 8 fun i => do
    let diff := stdFabs (← Val.sub (← Val.cast .f64 (← expected.get i)) (← Val.cast .f64 (← actual.get i)))
    if Val.gt diff (.f64 eps) then
      let a ← Val.cast .s32 (← actual.get i)
      let e ← Val.cast .s32 (← expected.get i)
      pure (some ⟨i, intVal a, intVal e, diff.toF64, eps⟩)
    else pure none

/-- `tests/test_util.hpp:32-45`: `bool almostEqual(const int8x8_t& expected, const int8x8_t& actual, double eps)` -/
def almostEqual_s8x8 (expected actual : int8x8_t) (eps : BitVec 64) : C (Option Report) :=
  forRet 8 fun i => do
    let diff := stdFabs (← Val.sub (← Val.cast .f64 (← expected.get i)) (← Val.cast .f64 (← actual.get i)))
    if Val.gt diff (.f64 eps) then
      let a ← Val.cast .s32 (← actual.get i)
      let e ← Val.cast .s32 (← expected.get i)
      pure (some ⟨i, intVal a, intVal e, diff.toF64, eps⟩)
    else pure none

/-- `tests/test_util.hpp:47-60`: `bool almostEqual(const uint16x8_t& expected, const uint16x8_t& actual, double eps)` -/
def almostEqual_u16x8 (expected actual : uint16x8_t) (eps : BitVec 64) : C (Option Report) :=
  forRet 8 fun i => do
    let diff := stdFabs (← Val.sub (← Val.cast .f64 (← expected.get i)) (← Val.cast .f64 (← actual.get i)))
    if Val.gt diff (.f64 eps) then
      let a ← Val.cast .s32 (← actual.get i)
      let e ← Val.cast .s32 (← expected.get i)
      pure (some ⟨i, intVal a, intVal e, diff.toF64, eps⟩)
    else pure none

/-- `tests/test_util.hpp:62-75`: `bool almostEqual(const int16x8_t& expected, const int16x8_t& actual, double eps)` -/
def almostEqual_s16x8 (expected actual : int16x8_t) (eps : BitVec 64) : C (Option Report) :=
  forRet 8 fun i => do
    let diff := stdFabs (← Val.sub (← Val.cast .f64 (← expected.get i)) (← Val.cast .f64 (← actual.get i)))
    if Val.gt diff (.f64 eps) then
      let a ← Val.cast .s32 (← actual.get i)
      let e ← Val.cast .s32 (← expected.get i)
      pure (some ⟨i, intVal a, intVal e, diff.toF64, eps⟩)
    else pure none

/-- `tests/test_util.hpp:77-90`: `bool almostEqual(const int8x16_t& expected, const int8x16_t& actual, double eps)` -/
def almostEqual_s8x16 (expected actual : int8x16_t) (eps : BitVec 64) : C (Option Report) :=
  forRet 16 fun i => do
    let diff := stdFabs (← Val.sub (← Val.cast .f64 (← expected.get i)) (← Val.cast .f64 (← actual.get i)))
    if Val.gt diff (.f64 eps) then
      let a ← Val.cast .s32 (← actual.get i)
      let e ← Val.cast .s32 (← expected.get i)
      pure (some ⟨i, intVal a, intVal e, diff.toF64, eps⟩)
    else pure none

/-- `tests/test_util.hpp:92-102`: `bool almostEqual(const uint8x8x2_t& expected, const uint8x8x2_t& actual)` -/
def almostEqual_u8x8x2 (expected actual : uint8x8x2_t) : C (Option Report) :=
  forRet 2 fun i => do
    if h : 0 ≤ i ∧ i < 2 then
      almostEqual_u8x8 (expected.reg ⟨i.toNat, by omega⟩) (actual.reg ⟨i.toNat, by omega⟩) 0#64
    else .ub .outOfBounds

/-- `tests/test_util.hpp:104-117`: `bool almostEqual(const float32x4_t& expected, const float32x4_t& actual, double eps)` -/
def almostEqual_f32x4 (expected actual : float32x4_t) (eps : BitVec 64) : C (Option Report) :=
  forRet 4 fun i => do
    let diff := stdFabs (← Val.sub (← Val.cast .f64 (← expected.get i)) (← Val.cast .f64 (← actual.get i)))
    if Val.gt diff (.f64 eps) then
      let a ← Val.cast .s32 (← actual.get i)
      let e ← Val.cast .s32 (← expected.get i)
      pure (some ⟨i, intVal a, intVal e, diff.toF64, eps⟩)
    else pure none

/-- `tests/test_util.hpp:119-132`: `bool almostEqual(const int16x4_t& expected, const int16x4_t& actual, double eps)` -/
def almostEqual_s16x4 (expected actual : int16x4_t) (eps : BitVec 64) : C (Option Report) :=
  forRet 4 fun i => do
    let diff := stdFabs (← Val.sub (← Val.cast .f64 (← expected.get i)) (← Val.cast .f64 (← actual.get i)))
    if Val.gt diff (.f64 eps) then
      let a ← Val.cast .s32 (← actual.get i)
      let e ← Val.cast .s32 (← expected.get i)
      pure (some ⟨i, intVal a, intVal e, diff.toF64, eps⟩)
    else pure none

/-- `v[i]` for a `std::vector<float>`: not checked, undefined past the end. -/
def vecAt (v : List (BitVec 32)) (i : Int) : C Val :=
  if 0 ≤ i then
    match v[i.toNat]? with
    | some b => .ok (.f32 b)
    | none => .ub .outOfBounds
  else .ub .outOfBounds

/-- `tests/test_util.hpp:134-147`: `bool almostEqual(const std::vector<float>& expected,
const std::vector<float>& actual, double eps)`.  The difference is taken in `float`. -/
def almostEqual_vec (expected actual : List (BitVec 32)) (eps : BitVec 64) : C (Option Report) :=
  forRet 4 fun i => do
    let diff ← Val.cast .f64 (stdFabs (← Val.sub (← vecAt expected i) (← vecAt actual i)))
    if Val.gt diff (.f64 eps) then
      let a ← Val.cast .s32 (← vecAt actual i)
      let e ← Val.cast .s32 (← vecAt expected i)
      pure (some ⟨i, intVal a, intVal e, diff.toF64, eps⟩)
    else pure none

end Verif.Model
