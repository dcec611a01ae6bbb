/-
C83: laws of float arithmetic.  Generated by `tools/gen_floatlaws.py`.
-/
import Verif.Props.Float
import Verif.FpLaws

namespace Verif.Props
open Verif.Model Verif.Spec Verif.FpOps

/-- The datum in a `float`. -/
def datum32 (b : BitVec 32) : Datum := decode .b32 b.toNat
/-- The datum in a `double`. -/
def datum64 (b : BitVec 64) : Datum := decode .b64 b.toNat

theorem one32 : datum32 0x3f800000 = .num false 1 := by
  have h : expField .b32 0x3f800000 = 127 ∧ fracField .b32 0x3f800000 = 0 ∧ signField .b32 0x3f800000 = false ∧ emax .b32 = 127 := by
    refine ⟨by decide +kernel, by decide +kernel, by decide +kernel, by decide +kernel⟩
  show decode .b32 0x3f800000 = _
  unfold decode
  rw [h.1, h.2.1, h.2.2.1, h.2.2.2]
  norm_num [withSign]
theorem two32 : datum32 0x40000000 = .num false 2 := by
  have h : expField .b32 0x40000000 = 128 ∧ fracField .b32 0x40000000 = 0 ∧ signField .b32 0x40000000 = false ∧ emax .b32 = 127 := by
    refine ⟨by decide +kernel, by decide +kernel, by decide +kernel, by decide +kernel⟩
  show decode .b32 0x40000000 = _
  unfold decode
  rw [h.1, h.2.1, h.2.2.1, h.2.2.2]
  norm_num [withSign]
theorem one64 : datum64 0x3ff0000000000000 = .num false 1 := by
  have h : expField .b64 0x3ff0000000000000 = 1023 ∧ fracField .b64 0x3ff0000000000000 = 0 ∧ signField .b64 0x3ff0000000000000 = false ∧
      emax .b64 = 1023 := by
    refine ⟨by decide +kernel, by decide +kernel, by decide +kernel, by decide +kernel⟩
  show decode .b64 0x3ff0000000000000 = _
  unfold decode
  rw [h.1, h.2.1, h.2.2.1, h.2.2.2]
  norm_num [withSign]
theorem zero32 : datum32 0 = .num false 0 := by
  have h : expField .b32 0 = 0 ∧ fracField .b32 0 = 0 ∧ signField .b32 0 = false := by
    refine ⟨by decide +kernel, by decide +kernel, by decide +kernel⟩
  show decode .b32 0 = _
  unfold decode
  rw [h.1, h.2.1, h.2.2]
  norm_num [withSign]

variable [Dialect]

/-- A result without overflow has a relative error of at most 2^-24. -/
theorem vaddq_f32_error (a : float32x4_t) (b : float32x4_t) :
    ∃ r, vaddq_f32 a b = .ok r ∧ ∀ i s t x y, datum32 (a.lane i) = .num s x → datum32 (b.lane i) = .num t y → |x + y| < overflowAt .b32 →
      ∃ q v, datum32 (r.lane i) = .num q v ∧ |v - (x + y)| ≤ |x + y| / 2 ^ 24 := by
  obtain ⟨r, e, h⟩ := vaddq_f32_spec a b
  exact ⟨r, e, fun i s t x y ha hb ho => sum_error ok32 (h i) ha hb ho⟩

/-- A zero as second operand changes nothing but the sign of a zero. -/
theorem vaddq_f32_zero (a : float32x4_t) (b : float32x4_t) :
    ∃ r, vaddq_f32 a b = .ok r ∧ ∀ i t, datum32 (b.lane i) = .num t 0 → (∀ s, datum32 (a.lane i) ≠ .num s 0) → datum32 (r.lane i) = datum32 (a.lane i) := by
  obtain ⟨r, e, h⟩ := vaddq_f32_spec a b
  exact ⟨r, e, fun i t hz ha => sum_zero ok32 (h i) hz ha⟩

/-- Integers whose result is at most 2^24 are computed exactly. -/
theorem vaddq_f32_int (a : float32x4_t) (b : float32x4_t) :
    ∃ r, vaddq_f32 a b = .ok r ∧ ∀ i s t (m n : ℤ), datum32 (a.lane i) = .num s m → datum32 (b.lane i) = .num t n → (m + n).natAbs ≤ 16777216 →
      ∃ q, datum32 (r.lane i) = .num q ((m + n : ℤ) : ℚ) := by
  obtain ⟨r, e, h⟩ := vaddq_f32_spec a b
  exact ⟨r, e, fun i s t m n ha hb hn => sum_int ok32 wide32 (h i) ha hb (by simpa using hn)⟩

/-- Addition is monotone, infinities included. -/
theorem vaddq_f32_mono (a a' b : float32x4_t) :
    ∃ r r', vaddq_f32 a b = .ok r ∧ vaddq_f32 a' b = .ok r' ∧ ∀ i, (datum32 (a.lane i)).AtMost (datum32 (a'.lane i)) →
      datum32 (r.lane i) ≠ .nan → datum32 (r'.lane i) ≠ .nan → (datum32 (r.lane i)).AtMost (datum32 (r'.lane i)) := by
  obtain ⟨r, e, h⟩ := vaddq_f32_spec a b
  obtain ⟨r', e', h'⟩ := vaddq_f32_spec a' b
  exact ⟨r, r', e, e', fun i hle hr hr' => sum_mono ok32 (h i) (h' i) hle hr hr'⟩

/-- Adding a number to itself is multiplying it by two. -/
theorem vaddq_f32_double (a two : float32x4_t) (h2 : ∀ i, datum32 (two.lane i) = .num false 2) :
    ∃ r r', vaddq_f32 a a = .ok r ∧ vmulq_f32 a two = .ok r' ∧ ∀ i, datum32 (r.lane i) = datum32 (r'.lane i) := by
  obtain ⟨r, e, h⟩ := vaddq_f32_spec a a
  obtain ⟨r', e', h'⟩ := vmulq_f32_spec a two
  exact ⟨r, r', e, e', fun i => sum_self ok32 (h i) (h' i) (h2 i)⟩

/-- A result without overflow has a relative error of at most 2^-24. -/
theorem vsub_f32_error (a : float32x2_t) (b : float32x2_t) :
    ∃ r, vsub_f32 a b = .ok r ∧ ∀ i s t x y, datum32 (a.lane i) = .num s x → datum32 (b.lane i) = .num t y → |x - y| < overflowAt .b32 →
      ∃ q v, datum32 (r.lane i) = .num q v ∧ |v - (x - y)| ≤ |x - y| / 2 ^ 24 := by
  obtain ⟨r, e, h⟩ := vsub_f32_spec a b
  exact ⟨r, e, fun i s t x y ha hb ho => diff_error ok32 (h i) ha hb ho⟩

/-- A zero as second operand changes nothing but the sign of a zero. -/
theorem vsub_f32_zero (a : float32x2_t) (b : float32x2_t) :
    ∃ r, vsub_f32 a b = .ok r ∧ ∀ i t, datum32 (b.lane i) = .num t 0 → (∀ s, datum32 (a.lane i) ≠ .num s 0) → datum32 (r.lane i) = datum32 (a.lane i) := by
  obtain ⟨r, e, h⟩ := vsub_f32_spec a b
  exact ⟨r, e, fun i t hz ha => diff_zero ok32 (h i) hz ha⟩

/-- Integers whose result is at most 2^24 are computed exactly. -/
theorem vsub_f32_int (a : float32x2_t) (b : float32x2_t) :
    ∃ r, vsub_f32 a b = .ok r ∧ ∀ i s t (m n : ℤ), datum32 (a.lane i) = .num s m → datum32 (b.lane i) = .num t n → (m - n).natAbs ≤ 16777216 →
      ∃ q, datum32 (r.lane i) = .num q ((m - n : ℤ) : ℚ) := by
  obtain ⟨r, e, h⟩ := vsub_f32_spec a b
  exact ⟨r, e, fun i s t m n ha hb hn => diff_int ok32 wide32 (h i) ha hb (by simpa using hn)⟩

/-- A number minus itself is `+0`. -/
theorem vsub_f32_self (a : float32x2_t) :
    ∃ r, vsub_f32 a a = .ok r ∧ ∀ i s x, datum32 (a.lane i) = .num s x → datum32 (r.lane i) = .num false 0 := by
  obtain ⟨r, e, h⟩ := vsub_f32_spec a a
  exact ⟨r, e, fun i s x ha => diff_self (h i) ha⟩

/-- Exchanging the operands changes the sign, unless they are equal. -/
theorem vsub_f32_antisymm (a b : float32x2_t) :
    ∃ r r', vsub_f32 a b = .ok r ∧ vsub_f32 b a = .ok r' ∧ ∀ i, ¬ (datum32 (a.lane i)).Equal (datum32 (b.lane i)) →
      datum32 (r'.lane i) = (datum32 (r.lane i)).opposite := by
  obtain ⟨r, e, h⟩ := vsub_f32_spec a b
  obtain ⟨r', e', h'⟩ := vsub_f32_spec b a
  exact ⟨r, r', e, e', fun i hne => diff_antisymm ok32 (h i) (h' i) hne⟩

/-- The difference of numbers within a factor of two of each other is exact (Sterbenz). -/
theorem vsub_f32_exact (a : float32x2_t) (b : float32x2_t) :
    ∃ r, vsub_f32 a b = .ok r ∧ ∀ i s t x y, datum32 (a.lane i) = .num s x → datum32 (b.lane i) = .num t y → y ≤ 2 * x → x ≤ 2 * y → ∃ q, datum32 (r.lane i) = .num q (x - y) := by
  obtain ⟨r, e, h⟩ := vsub_f32_spec a b
  exact ⟨r, e, fun i s t x y ha hb h1 h2 => diff_exact ok32 (h i) ha hb h1 h2⟩

/-- A larger number subtracted does not give a larger result. -/
theorem vsub_f32_mono (a b b' : float32x2_t) :
    ∃ r r', vsub_f32 a b = .ok r ∧ vsub_f32 a b' = .ok r' ∧ ∀ i s t t' x y y', datum32 (a.lane i) = .num s x → datum32 (b.lane i) = .num t y →
      datum32 (b'.lane i) = .num t' y' → y ≤ y' → (datum32 (r'.lane i)).AtMost (datum32 (r.lane i)) := by
  obtain ⟨r, e, h⟩ := vsub_f32_spec a b
  obtain ⟨r', e', h'⟩ := vsub_f32_spec a b'
  exact ⟨r, r', e, e', fun i s t t' x y y' ha hb hb' hle => diff_mono ok32 (h i) (h' i) ha hb hb' hle⟩

/-- A result without overflow has a relative error of at most 2^-53. -/
theorem vsub_f32_overload2_error (a : float64x1_t) (b : float64x1_t) :
    ∃ r, vsub_f32_overload2 a b = .ok r ∧ ∀ i s t x y, datum64 (a.lane i) = .num s x → datum64 (b.lane i) = .num t y → |x - y| < overflowAt .b64 →
      ∃ q v, datum64 (r.lane i) = .num q v ∧ |v - (x - y)| ≤ |x - y| / 2 ^ 53 := by
  obtain ⟨r, e, h⟩ := vsub_f32_overload2_spec a b
  exact ⟨r, e, fun i s t x y ha hb ho => diff_error ok64 (h i) ha hb ho⟩

/-- A zero as second operand changes nothing but the sign of a zero. -/
theorem vsub_f32_overload2_zero (a : float64x1_t) (b : float64x1_t) :
    ∃ r, vsub_f32_overload2 a b = .ok r ∧ ∀ i t, datum64 (b.lane i) = .num t 0 → (∀ s, datum64 (a.lane i) ≠ .num s 0) → datum64 (r.lane i) = datum64 (a.lane i) := by
  obtain ⟨r, e, h⟩ := vsub_f32_overload2_spec a b
  exact ⟨r, e, fun i t hz ha => diff_zero ok64 (h i) hz ha⟩

/-- Integers whose result is at most 2^53 are computed exactly. -/
theorem vsub_f32_overload2_int (a : float64x1_t) (b : float64x1_t) :
    ∃ r, vsub_f32_overload2 a b = .ok r ∧ ∀ i s t (m n : ℤ), datum64 (a.lane i) = .num s m → datum64 (b.lane i) = .num t n → (m - n).natAbs ≤ 9007199254740992 →
      ∃ q, datum64 (r.lane i) = .num q ((m - n : ℤ) : ℚ) := by
  obtain ⟨r, e, h⟩ := vsub_f32_overload2_spec a b
  exact ⟨r, e, fun i s t m n ha hb hn => diff_int ok64 wide64 (h i) ha hb (by simpa using hn)⟩

/-- A number minus itself is `+0`. -/
theorem vsub_f32_overload2_self (a : float64x1_t) :
    ∃ r, vsub_f32_overload2 a a = .ok r ∧ ∀ i s x, datum64 (a.lane i) = .num s x → datum64 (r.lane i) = .num false 0 := by
  obtain ⟨r, e, h⟩ := vsub_f32_overload2_spec a a
  exact ⟨r, e, fun i s x ha => diff_self (h i) ha⟩

/-- Exchanging the operands changes the sign, unless they are equal. -/
theorem vsub_f32_overload2_antisymm (a b : float64x1_t) :
    ∃ r r', vsub_f32_overload2 a b = .ok r ∧ vsub_f32_overload2 b a = .ok r' ∧ ∀ i, ¬ (datum64 (a.lane i)).Equal (datum64 (b.lane i)) →
      datum64 (r'.lane i) = (datum64 (r.lane i)).opposite := by
  obtain ⟨r, e, h⟩ := vsub_f32_overload2_spec a b
  obtain ⟨r', e', h'⟩ := vsub_f32_overload2_spec b a
  exact ⟨r, r', e, e', fun i hne => diff_antisymm ok64 (h i) (h' i) hne⟩

/-- The difference of numbers within a factor of two of each other is exact (Sterbenz). -/
theorem vsub_f32_overload2_exact (a : float64x1_t) (b : float64x1_t) :
    ∃ r, vsub_f32_overload2 a b = .ok r ∧ ∀ i s t x y, datum64 (a.lane i) = .num s x → datum64 (b.lane i) = .num t y → y ≤ 2 * x → x ≤ 2 * y → ∃ q, datum64 (r.lane i) = .num q (x - y) := by
  obtain ⟨r, e, h⟩ := vsub_f32_overload2_spec a b
  exact ⟨r, e, fun i s t x y ha hb h1 h2 => diff_exact ok64 (h i) ha hb h1 h2⟩

/-- A larger number subtracted does not give a larger result. -/
theorem vsub_f32_overload2_mono (a b b' : float64x1_t) :
    ∃ r r', vsub_f32_overload2 a b = .ok r ∧ vsub_f32_overload2 a b' = .ok r' ∧ ∀ i s t t' x y y', datum64 (a.lane i) = .num s x → datum64 (b.lane i) = .num t y →
      datum64 (b'.lane i) = .num t' y' → y ≤ y' → (datum64 (r'.lane i)).AtMost (datum64 (r.lane i)) := by
  obtain ⟨r, e, h⟩ := vsub_f32_overload2_spec a b
  obtain ⟨r', e', h'⟩ := vsub_f32_overload2_spec a b'
  exact ⟨r, r', e, e', fun i s t t' x y y' ha hb hb' hle => diff_mono ok64 (h i) (h' i) ha hb hb' hle⟩

/-- A result without overflow has a relative error of at most 2^-24. -/
theorem vsubq_f32_error (a : float32x4_t) (b : float32x4_t) :
    ∃ r, vsubq_f32 a b = .ok r ∧ ∀ i s t x y, datum32 (a.lane i) = .num s x → datum32 (b.lane i) = .num t y → |x - y| < overflowAt .b32 →
      ∃ q v, datum32 (r.lane i) = .num q v ∧ |v - (x - y)| ≤ |x - y| / 2 ^ 24 := by
  obtain ⟨r, e, h⟩ := vsubq_f32_spec a b
  exact ⟨r, e, fun i s t x y ha hb ho => diff_error ok32 (h i) ha hb ho⟩

/-- A zero as second operand changes nothing but the sign of a zero. -/
theorem vsubq_f32_zero (a : float32x4_t) (b : float32x4_t) :
    ∃ r, vsubq_f32 a b = .ok r ∧ ∀ i t, datum32 (b.lane i) = .num t 0 → (∀ s, datum32 (a.lane i) ≠ .num s 0) → datum32 (r.lane i) = datum32 (a.lane i) := by
  obtain ⟨r, e, h⟩ := vsubq_f32_spec a b
  exact ⟨r, e, fun i t hz ha => diff_zero ok32 (h i) hz ha⟩

/-- Integers whose result is at most 2^24 are computed exactly. -/
theorem vsubq_f32_int (a : float32x4_t) (b : float32x4_t) :
    ∃ r, vsubq_f32 a b = .ok r ∧ ∀ i s t (m n : ℤ), datum32 (a.lane i) = .num s m → datum32 (b.lane i) = .num t n → (m - n).natAbs ≤ 16777216 →
      ∃ q, datum32 (r.lane i) = .num q ((m - n : ℤ) : ℚ) := by
  obtain ⟨r, e, h⟩ := vsubq_f32_spec a b
  exact ⟨r, e, fun i s t m n ha hb hn => diff_int ok32 wide32 (h i) ha hb (by simpa using hn)⟩

/-- A number minus itself is `+0`. -/
theorem vsubq_f32_self (a : float32x4_t) :
    ∃ r, vsubq_f32 a a = .ok r ∧ ∀ i s x, datum32 (a.lane i) = .num s x → datum32 (r.lane i) = .num false 0 := by
  obtain ⟨r, e, h⟩ := vsubq_f32_spec a a
  exact ⟨r, e, fun i s x ha => diff_self (h i) ha⟩

/-- Exchanging the operands changes the sign, unless they are equal. -/
theorem vsubq_f32_antisymm (a b : float32x4_t) :
    ∃ r r', vsubq_f32 a b = .ok r ∧ vsubq_f32 b a = .ok r' ∧ ∀ i, ¬ (datum32 (a.lane i)).Equal (datum32 (b.lane i)) →
      datum32 (r'.lane i) = (datum32 (r.lane i)).opposite := by
  obtain ⟨r, e, h⟩ := vsubq_f32_spec a b
  obtain ⟨r', e', h'⟩ := vsubq_f32_spec b a
  exact ⟨r, r', e, e', fun i hne => diff_antisymm ok32 (h i) (h' i) hne⟩

/-- The difference of numbers within a factor of two of each other is exact (Sterbenz). -/
theorem vsubq_f32_exact (a : float32x4_t) (b : float32x4_t) :
    ∃ r, vsubq_f32 a b = .ok r ∧ ∀ i s t x y, datum32 (a.lane i) = .num s x → datum32 (b.lane i) = .num t y → y ≤ 2 * x → x ≤ 2 * y → ∃ q, datum32 (r.lane i) = .num q (x - y) := by
  obtain ⟨r, e, h⟩ := vsubq_f32_spec a b
  exact ⟨r, e, fun i s t x y ha hb h1 h2 => diff_exact ok32 (h i) ha hb h1 h2⟩

/-- A larger number subtracted does not give a larger result. -/
theorem vsubq_f32_mono (a b b' : float32x4_t) :
    ∃ r r', vsubq_f32 a b = .ok r ∧ vsubq_f32 a b' = .ok r' ∧ ∀ i s t t' x y y', datum32 (a.lane i) = .num s x → datum32 (b.lane i) = .num t y →
      datum32 (b'.lane i) = .num t' y' → y ≤ y' → (datum32 (r'.lane i)).AtMost (datum32 (r.lane i)) := by
  obtain ⟨r, e, h⟩ := vsubq_f32_spec a b
  obtain ⟨r', e', h'⟩ := vsubq_f32_spec a b'
  exact ⟨r, r', e, e', fun i s t t' x y y' ha hb hb' hle => diff_mono ok32 (h i) (h' i) ha hb hb' hle⟩

/-- A result without overflow has a relative error of at most 2^-24, or an absolute error of at most 2^-150. -/
theorem vmulq_f32_error (a : float32x4_t) (b : float32x4_t) :
    ∃ r, vmulq_f32 a b = .ok r ∧ ∀ i s t x y, datum32 (a.lane i) = .num s x → datum32 (b.lane i) = .num t y → |x * y| < overflowAt .b32 →
      ∃ q v, datum32 (r.lane i) = .num q v ∧ (|v - x * y| ≤ |x * y| / 2 ^ 24 ∨ |v - x * y| ≤ 1 / 2 ^ 150) := by
  obtain ⟨r, e, h⟩ := vmulq_f32_spec a b
  exact ⟨r, e, fun i s t x y ha hb ho => prod_error ok32 (h i) ha hb ho⟩

/-- One as second operand changes nothing. -/
theorem vmulq_f32_one (a : float32x4_t) (b : float32x4_t) :
    ∃ r, vmulq_f32 a b = .ok r ∧ ∀ i, datum32 (b.lane i) = .num false 1 → datum32 (r.lane i) = datum32 (a.lane i) := by
  obtain ⟨r, e, h⟩ := vmulq_f32_spec a b
  exact ⟨r, e, fun i ho => prod_one ok32 (h i) ho⟩

/-- Integers whose result is at most 2^24 are computed exactly. -/
theorem vmulq_f32_int (a : float32x4_t) (b : float32x4_t) :
    ∃ r, vmulq_f32 a b = .ok r ∧ ∀ i s t (m n : ℤ), datum32 (a.lane i) = .num s m → datum32 (b.lane i) = .num t n → (m * n).natAbs ≤ 16777216 →
      ∃ q, datum32 (r.lane i) = .num q ((m * n : ℤ) : ℚ) := by
  obtain ⟨r, e, h⟩ := vmulq_f32_spec a b
  exact ⟨r, e, fun i s t m n ha hb hn => prod_int ok32 wide32 (h i) ha hb (by simpa using hn)⟩

/-- Monotone in the first operand when the second is not negative. -/
theorem vmulq_f32_mono (a a' : float32x4_t) (b : float32x4_t) :
    ∃ r r', vmulq_f32 a b = .ok r ∧ vmulq_f32 a' b = .ok r' ∧ ∀ i s s' t x x' y, datum32 (a.lane i) = .num s x → datum32 (a'.lane i) = .num s' x' →
      datum32 (b.lane i) = .num t y → x ≤ x' → 0 ≤ y → (datum32 (r.lane i)).AtMost (datum32 (r'.lane i)) := by
  obtain ⟨r, e, h⟩ := vmulq_f32_spec a b
  obtain ⟨r', e', h'⟩ := vmulq_f32_spec a' b
  exact ⟨r, r', e, e', fun i s s' t x x' y ha ha' hb hle hy => prod_mono ok32 (h i) (h' i) ha ha' hb hle hy⟩

/-- A result without overflow has a relative error of at most 2^-24, or an absolute error of at most 2^-150. -/
theorem vmul_n_f32_error (a : float32x2_t) (b : float32_t) :
    ∃ r, vmul_n_f32 a b = .ok r ∧ ∀ i s t x y, datum32 (a.lane i) = .num s x → datum32 (b) = .num t y → |x * y| < overflowAt .b32 →
      ∃ q v, datum32 (r.lane i) = .num q v ∧ (|v - x * y| ≤ |x * y| / 2 ^ 24 ∨ |v - x * y| ≤ 1 / 2 ^ 150) := by
  obtain ⟨r, e, h⟩ := vmul_n_f32_spec a b
  exact ⟨r, e, fun i s t x y ha hb ho => prod_error ok32 (h i) ha hb ho⟩

/-- One as second operand changes nothing. -/
theorem vmul_n_f32_one (a : float32x2_t) (b : float32_t) :
    ∃ r, vmul_n_f32 a b = .ok r ∧ ∀ i, datum32 (b) = .num false 1 → datum32 (r.lane i) = datum32 (a.lane i) := by
  obtain ⟨r, e, h⟩ := vmul_n_f32_spec a b
  exact ⟨r, e, fun i ho => prod_one ok32 (h i) ho⟩

/-- Integers whose result is at most 2^24 are computed exactly. -/
theorem vmul_n_f32_int (a : float32x2_t) (b : float32_t) :
    ∃ r, vmul_n_f32 a b = .ok r ∧ ∀ i s t (m n : ℤ), datum32 (a.lane i) = .num s m → datum32 (b) = .num t n → (m * n).natAbs ≤ 16777216 →
      ∃ q, datum32 (r.lane i) = .num q ((m * n : ℤ) : ℚ) := by
  obtain ⟨r, e, h⟩ := vmul_n_f32_spec a b
  exact ⟨r, e, fun i s t m n ha hb hn => prod_int ok32 wide32 (h i) ha hb (by simpa using hn)⟩

/-- Monotone in the first operand when the second is not negative. -/
theorem vmul_n_f32_mono (a a' : float32x2_t) (b : float32_t) :
    ∃ r r', vmul_n_f32 a b = .ok r ∧ vmul_n_f32 a' b = .ok r' ∧ ∀ i s s' t x x' y, datum32 (a.lane i) = .num s x → datum32 (a'.lane i) = .num s' x' →
      datum32 (b) = .num t y → x ≤ x' → 0 ≤ y → (datum32 (r.lane i)).AtMost (datum32 (r'.lane i)) := by
  obtain ⟨r, e, h⟩ := vmul_n_f32_spec a b
  obtain ⟨r', e', h'⟩ := vmul_n_f32_spec a' b
  exact ⟨r, r', e, e', fun i s s' t x x' y ha ha' hb hle hy => prod_mono ok32 (h i) (h' i) ha ha' hb hle hy⟩

/-- A result without overflow has a relative error of at most 2^-53, or an absolute error of at most 2^-1075. -/
theorem vmul_n_f64_error (a : float64x1_t) (b : float64_t) :
    ∃ r, vmul_n_f64 a b = .ok r ∧ ∀ i s t x y, datum64 (a.lane i) = .num s x → datum64 (b) = .num t y → |x * y| < overflowAt .b64 →
      ∃ q v, datum64 (r.lane i) = .num q v ∧ (|v - x * y| ≤ |x * y| / 2 ^ 53 ∨ |v - x * y| ≤ 1 / 2 ^ 1075) := by
  obtain ⟨r, e, h⟩ := vmul_n_f64_spec a b
  exact ⟨r, e, fun i s t x y ha hb ho => prod_error ok64 (h i) ha hb ho⟩

/-- One as second operand changes nothing. -/
theorem vmul_n_f64_one (a : float64x1_t) (b : float64_t) :
    ∃ r, vmul_n_f64 a b = .ok r ∧ ∀ i, datum64 (b) = .num false 1 → datum64 (r.lane i) = datum64 (a.lane i) := by
  obtain ⟨r, e, h⟩ := vmul_n_f64_spec a b
  exact ⟨r, e, fun i ho => prod_one ok64 (h i) ho⟩

/-- Integers whose result is at most 2^53 are computed exactly. -/
theorem vmul_n_f64_int (a : float64x1_t) (b : float64_t) :
    ∃ r, vmul_n_f64 a b = .ok r ∧ ∀ i s t (m n : ℤ), datum64 (a.lane i) = .num s m → datum64 (b) = .num t n → (m * n).natAbs ≤ 9007199254740992 →
      ∃ q, datum64 (r.lane i) = .num q ((m * n : ℤ) : ℚ) := by
  obtain ⟨r, e, h⟩ := vmul_n_f64_spec a b
  exact ⟨r, e, fun i s t m n ha hb hn => prod_int ok64 wide64 (h i) ha hb (by simpa using hn)⟩

/-- Monotone in the first operand when the second is not negative. -/
theorem vmul_n_f64_mono (a a' : float64x1_t) (b : float64_t) :
    ∃ r r', vmul_n_f64 a b = .ok r ∧ vmul_n_f64 a' b = .ok r' ∧ ∀ i s s' t x x' y, datum64 (a.lane i) = .num s x → datum64 (a'.lane i) = .num s' x' →
      datum64 (b) = .num t y → x ≤ x' → 0 ≤ y → (datum64 (r.lane i)).AtMost (datum64 (r'.lane i)) := by
  obtain ⟨r, e, h⟩ := vmul_n_f64_spec a b
  obtain ⟨r', e', h'⟩ := vmul_n_f64_spec a' b
  exact ⟨r, r', e, e', fun i s s' t x x' y ha ha' hb hle hy => prod_mono ok64 (h i) (h' i) ha ha' hb hle hy⟩

/-- A result without overflow has a relative error of at most 2^-24, or an absolute error of at most 2^-150. -/
theorem vmulq_n_f32_error (a : float32x4_t) (b : float32_t) :
    ∃ r, vmulq_n_f32 a b = .ok r ∧ ∀ i s t x y, datum32 (a.lane i) = .num s x → datum32 (b) = .num t y → |x * y| < overflowAt .b32 →
      ∃ q v, datum32 (r.lane i) = .num q v ∧ (|v - x * y| ≤ |x * y| / 2 ^ 24 ∨ |v - x * y| ≤ 1 / 2 ^ 150) := by
  obtain ⟨r, e, h⟩ := vmulq_n_f32_spec a b
  exact ⟨r, e, fun i s t x y ha hb ho => prod_error ok32 (h i) ha hb ho⟩

/-- One as second operand changes nothing. -/
theorem vmulq_n_f32_one (a : float32x4_t) (b : float32_t) :
    ∃ r, vmulq_n_f32 a b = .ok r ∧ ∀ i, datum32 (b) = .num false 1 → datum32 (r.lane i) = datum32 (a.lane i) := by
  obtain ⟨r, e, h⟩ := vmulq_n_f32_spec a b
  exact ⟨r, e, fun i ho => prod_one ok32 (h i) ho⟩

/-- Integers whose result is at most 2^24 are computed exactly. -/
theorem vmulq_n_f32_int (a : float32x4_t) (b : float32_t) :
    ∃ r, vmulq_n_f32 a b = .ok r ∧ ∀ i s t (m n : ℤ), datum32 (a.lane i) = .num s m → datum32 (b) = .num t n → (m * n).natAbs ≤ 16777216 →
      ∃ q, datum32 (r.lane i) = .num q ((m * n : ℤ) : ℚ) := by
  obtain ⟨r, e, h⟩ := vmulq_n_f32_spec a b
  exact ⟨r, e, fun i s t m n ha hb hn => prod_int ok32 wide32 (h i) ha hb (by simpa using hn)⟩

/-- Monotone in the first operand when the second is not negative. -/
theorem vmulq_n_f32_mono (a a' : float32x4_t) (b : float32_t) :
    ∃ r r', vmulq_n_f32 a b = .ok r ∧ vmulq_n_f32 a' b = .ok r' ∧ ∀ i s s' t x x' y, datum32 (a.lane i) = .num s x → datum32 (a'.lane i) = .num s' x' →
      datum32 (b) = .num t y → x ≤ x' → 0 ≤ y → (datum32 (r.lane i)).AtMost (datum32 (r'.lane i)) := by
  obtain ⟨r, e, h⟩ := vmulq_n_f32_spec a b
  obtain ⟨r', e', h'⟩ := vmulq_n_f32_spec a' b
  exact ⟨r, r', e, e', fun i s s' t x x' y ha ha' hb hle hy => prod_mono ok32 (h i) (h' i) ha ha' hb hle hy⟩

/-- A result without overflow has a relative error of at most 2^-53, or an absolute error of at most 2^-1075. -/
theorem vmulq_n_f64_error (a : float64x2_t) (b : float64_t) :
    ∃ r, vmulq_n_f64 a b = .ok r ∧ ∀ i s t x y, datum64 (a.lane i) = .num s x → datum64 (b) = .num t y → |x * y| < overflowAt .b64 →
      ∃ q v, datum64 (r.lane i) = .num q v ∧ (|v - x * y| ≤ |x * y| / 2 ^ 53 ∨ |v - x * y| ≤ 1 / 2 ^ 1075) := by
  obtain ⟨r, e, h⟩ := vmulq_n_f64_spec a b
  exact ⟨r, e, fun i s t x y ha hb ho => prod_error ok64 (h i) ha hb ho⟩

/-- One as second operand changes nothing. -/
theorem vmulq_n_f64_one (a : float64x2_t) (b : float64_t) :
    ∃ r, vmulq_n_f64 a b = .ok r ∧ ∀ i, datum64 (b) = .num false 1 → datum64 (r.lane i) = datum64 (a.lane i) := by
  obtain ⟨r, e, h⟩ := vmulq_n_f64_spec a b
  exact ⟨r, e, fun i ho => prod_one ok64 (h i) ho⟩

/-- Integers whose result is at most 2^53 are computed exactly. -/
theorem vmulq_n_f64_int (a : float64x2_t) (b : float64_t) :
    ∃ r, vmulq_n_f64 a b = .ok r ∧ ∀ i s t (m n : ℤ), datum64 (a.lane i) = .num s m → datum64 (b) = .num t n → (m * n).natAbs ≤ 9007199254740992 →
      ∃ q, datum64 (r.lane i) = .num q ((m * n : ℤ) : ℚ) := by
  obtain ⟨r, e, h⟩ := vmulq_n_f64_spec a b
  exact ⟨r, e, fun i s t m n ha hb hn => prod_int ok64 wide64 (h i) ha hb (by simpa using hn)⟩

/-- Monotone in the first operand when the second is not negative. -/
theorem vmulq_n_f64_mono (a a' : float64x2_t) (b : float64_t) :
    ∃ r r', vmulq_n_f64 a b = .ok r ∧ vmulq_n_f64 a' b = .ok r' ∧ ∀ i s s' t x x' y, datum64 (a.lane i) = .num s x → datum64 (a'.lane i) = .num s' x' →
      datum64 (b) = .num t y → x ≤ x' → 0 ≤ y → (datum64 (r.lane i)).AtMost (datum64 (r'.lane i)) := by
  obtain ⟨r, e, h⟩ := vmulq_n_f64_spec a b
  obtain ⟨r', e', h'⟩ := vmulq_n_f64_spec a' b
  exact ⟨r, r', e, e', fun i s s' t x x' y ha ha' hb hle hy => prod_mono ok64 (h i) (h' i) ha ha' hb hle hy⟩

/-- A result without overflow has a relative error of at most 2^-24, or an absolute error of at most 2^-150. -/
theorem vdiv_f32_error (a : float32x2_t) (b : float32x2_t) :
    ∃ r, vdiv_f32 a b = .ok r ∧ ∀ i s t x y, datum32 (a.lane i) = .num s x → datum32 (b.lane i) = .num t y → y ≠ 0 → |x / y| < overflowAt .b32 →
      ∃ q v, datum32 (r.lane i) = .num q v ∧ (|v - x / y| ≤ |x / y| / 2 ^ 24 ∨ |v - x / y| ≤ 1 / 2 ^ 150) := by
  obtain ⟨r, e, h⟩ := vdiv_f32_spec a b
  exact ⟨r, e, fun i s t x y ha hb hy ho => quot_error ok32 (h i) ha hb hy ho⟩

/-- One as second operand changes nothing. -/
theorem vdiv_f32_one (a : float32x2_t) (b : float32x2_t) :
    ∃ r, vdiv_f32 a b = .ok r ∧ ∀ i, datum32 (b.lane i) = .num false 1 → datum32 (r.lane i) = datum32 (a.lane i) := by
  obtain ⟨r, e, h⟩ := vdiv_f32_spec a b
  exact ⟨r, e, fun i ho => quot_one ok32 (h i) ho⟩

/-- Monotone in the first operand when the second is positive. -/
theorem vdiv_f32_mono (a a' : float32x2_t) (b : float32x2_t) :
    ∃ r r', vdiv_f32 a b = .ok r ∧ vdiv_f32 a' b = .ok r' ∧ ∀ i s s' t x x' y, datum32 (a.lane i) = .num s x → datum32 (a'.lane i) = .num s' x' →
      datum32 (b.lane i) = .num t y → x ≤ x' → 0 < y → (datum32 (r.lane i)).AtMost (datum32 (r'.lane i)) := by
  obtain ⟨r, e, h⟩ := vdiv_f32_spec a b
  obtain ⟨r', e', h'⟩ := vdiv_f32_spec a' b
  exact ⟨r, r', e, e', fun i s s' t x x' y ha ha' hb hle hy => quot_mono ok32 (h i) (h' i) ha ha' hb hle hy⟩

/-- A nonzero number divided by itself is one. -/
theorem vdiv_f32_self (a : float32x2_t) :
    ∃ r, vdiv_f32 a a = .ok r ∧ ∀ i s x, datum32 (a.lane i) = .num s x → x ≠ 0 → datum32 (r.lane i) = .num false 1 := by
  obtain ⟨r, e, h⟩ := vdiv_f32_spec a a
  exact ⟨r, e, fun i s x ha hx => quot_self ok32 (h i) ha hx one32⟩

/-- A result without overflow has a relative error of at most 2^-53, or an absolute error of at most 2^-1075. -/
theorem vdiv_f64_error (a : float64x1_t) (b : float64x1_t) :
    ∃ r, vdiv_f64 a b = .ok r ∧ ∀ i s t x y, datum64 (a.lane i) = .num s x → datum64 (b.lane i) = .num t y → y ≠ 0 → |x / y| < overflowAt .b64 →
      ∃ q v, datum64 (r.lane i) = .num q v ∧ (|v - x / y| ≤ |x / y| / 2 ^ 53 ∨ |v - x / y| ≤ 1 / 2 ^ 1075) := by
  obtain ⟨r, e, h⟩ := vdiv_f64_spec a b
  exact ⟨r, e, fun i s t x y ha hb hy ho => quot_error ok64 (h i) ha hb hy ho⟩

/-- One as second operand changes nothing. -/
theorem vdiv_f64_one (a : float64x1_t) (b : float64x1_t) :
    ∃ r, vdiv_f64 a b = .ok r ∧ ∀ i, datum64 (b.lane i) = .num false 1 → datum64 (r.lane i) = datum64 (a.lane i) := by
  obtain ⟨r, e, h⟩ := vdiv_f64_spec a b
  exact ⟨r, e, fun i ho => quot_one ok64 (h i) ho⟩

/-- Monotone in the first operand when the second is positive. -/
theorem vdiv_f64_mono (a a' : float64x1_t) (b : float64x1_t) :
    ∃ r r', vdiv_f64 a b = .ok r ∧ vdiv_f64 a' b = .ok r' ∧ ∀ i s s' t x x' y, datum64 (a.lane i) = .num s x → datum64 (a'.lane i) = .num s' x' →
      datum64 (b.lane i) = .num t y → x ≤ x' → 0 < y → (datum64 (r.lane i)).AtMost (datum64 (r'.lane i)) := by
  obtain ⟨r, e, h⟩ := vdiv_f64_spec a b
  obtain ⟨r', e', h'⟩ := vdiv_f64_spec a' b
  exact ⟨r, r', e, e', fun i s s' t x x' y ha ha' hb hle hy => quot_mono ok64 (h i) (h' i) ha ha' hb hle hy⟩

/-- A nonzero number divided by itself is one. -/
theorem vdiv_f64_self (a : float64x1_t) :
    ∃ r, vdiv_f64 a a = .ok r ∧ ∀ i s x, datum64 (a.lane i) = .num s x → x ≠ 0 → datum64 (r.lane i) = .num false 1 := by
  obtain ⟨r, e, h⟩ := vdiv_f64_spec a a
  exact ⟨r, e, fun i s x ha hx => quot_self ok64 (h i) ha hx one64⟩

/-- A result without overflow has a relative error of at most 2^-24, or an absolute error of at most 2^-150. -/
theorem vdivq_f32_error (a : float32x4_t) (b : float32x4_t) :
    ∃ r, vdivq_f32 a b = .ok r ∧ ∀ i s t x y, datum32 (a.lane i) = .num s x → datum32 (b.lane i) = .num t y → y ≠ 0 → |x / y| < overflowAt .b32 →
      ∃ q v, datum32 (r.lane i) = .num q v ∧ (|v - x / y| ≤ |x / y| / 2 ^ 24 ∨ |v - x / y| ≤ 1 / 2 ^ 150) := by
  obtain ⟨r, e, h⟩ := vdivq_f32_spec a b
  exact ⟨r, e, fun i s t x y ha hb hy ho => quot_error ok32 (h i) ha hb hy ho⟩

/-- One as second operand changes nothing. -/
theorem vdivq_f32_one (a : float32x4_t) (b : float32x4_t) :
    ∃ r, vdivq_f32 a b = .ok r ∧ ∀ i, datum32 (b.lane i) = .num false 1 → datum32 (r.lane i) = datum32 (a.lane i) := by
  obtain ⟨r, e, h⟩ := vdivq_f32_spec a b
  exact ⟨r, e, fun i ho => quot_one ok32 (h i) ho⟩

/-- Monotone in the first operand when the second is positive. -/
theorem vdivq_f32_mono (a a' : float32x4_t) (b : float32x4_t) :
    ∃ r r', vdivq_f32 a b = .ok r ∧ vdivq_f32 a' b = .ok r' ∧ ∀ i s s' t x x' y, datum32 (a.lane i) = .num s x → datum32 (a'.lane i) = .num s' x' →
      datum32 (b.lane i) = .num t y → x ≤ x' → 0 < y → (datum32 (r.lane i)).AtMost (datum32 (r'.lane i)) := by
  obtain ⟨r, e, h⟩ := vdivq_f32_spec a b
  obtain ⟨r', e', h'⟩ := vdivq_f32_spec a' b
  exact ⟨r, r', e, e', fun i s s' t x x' y ha ha' hb hle hy => quot_mono ok32 (h i) (h' i) ha ha' hb hle hy⟩

/-- A nonzero number divided by itself is one. -/
theorem vdivq_f32_self (a : float32x4_t) :
    ∃ r, vdivq_f32 a a = .ok r ∧ ∀ i s x, datum32 (a.lane i) = .num s x → x ≠ 0 → datum32 (r.lane i) = .num false 1 := by
  obtain ⟨r, e, h⟩ := vdivq_f32_spec a a
  exact ⟨r, e, fun i s x ha hx => quot_self ok32 (h i) ha hx one32⟩

/-- A result without overflow has a relative error of at most 2^-53, or an absolute error of at most 2^-1075. -/
theorem vdivq_f64_error (a : float64x2_t) (b : float64x2_t) :
    ∃ r, vdivq_f64 a b = .ok r ∧ ∀ i s t x y, datum64 (a.lane i) = .num s x → datum64 (b.lane i) = .num t y → y ≠ 0 → |x / y| < overflowAt .b64 →
      ∃ q v, datum64 (r.lane i) = .num q v ∧ (|v - x / y| ≤ |x / y| / 2 ^ 53 ∨ |v - x / y| ≤ 1 / 2 ^ 1075) := by
  obtain ⟨r, e, h⟩ := vdivq_f64_spec a b
  exact ⟨r, e, fun i s t x y ha hb hy ho => quot_error ok64 (h i) ha hb hy ho⟩

/-- One as second operand changes nothing. -/
theorem vdivq_f64_one (a : float64x2_t) (b : float64x2_t) :
    ∃ r, vdivq_f64 a b = .ok r ∧ ∀ i, datum64 (b.lane i) = .num false 1 → datum64 (r.lane i) = datum64 (a.lane i) := by
  obtain ⟨r, e, h⟩ := vdivq_f64_spec a b
  exact ⟨r, e, fun i ho => quot_one ok64 (h i) ho⟩

/-- Monotone in the first operand when the second is positive. -/
theorem vdivq_f64_mono (a a' : float64x2_t) (b : float64x2_t) :
    ∃ r r', vdivq_f64 a b = .ok r ∧ vdivq_f64 a' b = .ok r' ∧ ∀ i s s' t x x' y, datum64 (a.lane i) = .num s x → datum64 (a'.lane i) = .num s' x' →
      datum64 (b.lane i) = .num t y → x ≤ x' → 0 < y → (datum64 (r.lane i)).AtMost (datum64 (r'.lane i)) := by
  obtain ⟨r, e, h⟩ := vdivq_f64_spec a b
  obtain ⟨r', e', h'⟩ := vdivq_f64_spec a' b
  exact ⟨r, r', e, e', fun i s s' t x x' y ha ha' hb hle hy => quot_mono ok64 (h i) (h' i) ha ha' hb hle hy⟩

/-- A nonzero number divided by itself is one. -/
theorem vdivq_f64_self (a : float64x2_t) :
    ∃ r, vdivq_f64 a a = .ok r ∧ ∀ i s x, datum64 (a.lane i) = .num s x → x ≠ 0 → datum64 (r.lane i) = .num false 1 := by
  obtain ⟨r, e, h⟩ := vdivq_f64_spec a a
  exact ⟨r, e, fun i s x ha hx => quot_self ok64 (h i) ha hx one64⟩

/-! ## Cases -/

example := vaddq_f32_double ⟨fun _ => 0x3f800000⟩ ⟨fun _ => 0x40000000⟩ fun _ => two32
example : ∃ r, vsubq_f32 ⟨fun _ => 0x40000000⟩ ⟨fun _ => 0x3f800000⟩ = .ok r ∧ ∃ q, datum32 (r.lane 0) = .num q (2 - 1) := by
  obtain ⟨r, e, h⟩ := vsubq_f32_exact ⟨fun _ => 0x40000000⟩ ⟨fun _ => 0x3f800000⟩
  exact ⟨r, e, h 0 _ _ _ _ two32 one32 (by norm_num) (by norm_num)⟩
example : ∃ r, vdivq_f64 ⟨fun _ => 0x3ff0000000000000⟩ ⟨fun _ => 0x3ff0000000000000⟩ = .ok r ∧ datum64 (r.lane 1) = .num false 1 := by
  obtain ⟨r, e, h⟩ := vdivq_f64_one ⟨fun _ => 0x3ff0000000000000⟩ ⟨fun _ => 0x3ff0000000000000⟩
  exact ⟨r, e, (h 1 one64).trans one64⟩

end Verif.Props
