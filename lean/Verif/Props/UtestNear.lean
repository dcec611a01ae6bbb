import Verif.Props.UtestChecks
import Verif.Props.TestUtil
import Verif.FpLaws

/-!
C101, the comparison of floating-point numbers: when `EXPECT_NEAR` and `ASSERT_NEAR` fail.
-/

namespace Verif.Props
open Utest SpecUtest Spec FpOps

/-- `utest_fabs` gives the magnitude. -/
theorem fabs_spec (d : BitVec 64) : decode .b64 (utest_fabs d).toNat = Datum.mag (decode .b64 d.toNat) := by
  unfold utest_fabs
  rw [fabs64, decode_abs ok64]

/-- `utest_isnan` tells what is not a number. -/
theorem isnan_spec (d : BitVec 64) : utest_isnan d ≠ 0 ↔ decode .b64 d.toNat = .nan := by
  have hi : (0x7ff0000000000000#64).toNat = Fmt.b64.infBits := by decide
  have hb : utest_isnan d ≠ 0 ↔ Fmt.b64.infBits < Fmt.b64.abs d.toNat := by
    have hc : d &&& 0x7fffffffffffffff#64 > 0x7ff0000000000000#64 ↔ Fmt.b64.infBits < Fmt.b64.abs d.toNat := by
      rw [gt_iff_lt, BitVec.lt_def, fabs64, hi]
    unfold utest_isnan
    by_cases h : d &&& 0x7fffffffffffffff#64 > 0x7ff0000000000000#64
    · rw [if_pos h]; exact ⟨fun _ => hc.1 h, fun _ => by decide⟩
    · rw [if_neg h]; exact ⟨fun c => absurd rfl c, fun c => absurd (hc.2 c) h⟩
  rw [hb, decode_eq ok64]
  constructor
  · intro h; rw [if_pos h]
  · intro h
    by_contra hc
    rw [if_neg hc] at h
    split at h <;> cases h

/-- The distance that the check computes. -/
theorem near_dist (x y : BitVec 64) : IsDist .b64 (decode .b64 x.toNat) (decode .b64 y.toNat)
    (decode .b64 (utest_fabs (BitVec.ofNat 64 (Fmt.b64.sub x.toNat y.toNat))).toNat) := by
  rw [fabs_spec, nat64 (sub_lt ok64 (lt64 x) (lt64 y))]
  exact isDist_of_diff ok64 (isDiff_sub ok64 (lt64 x) (lt64 y))

/-- The check fails exactly when the distance of the numbers, rounded to `double`, is greater than the tolerance or not a number. -/
theorem near_fails_iff (x y eps : BitVec 64) : nearFails x y eps = true ↔
    ∃ d, IsDist .b64 (decode .b64 x.toNat) (decode .b64 y.toNat) d ∧ ((decode .b64 eps.toNat).Less d ∨ d = .nan) := by
  have hd := near_dist x y
  unfold nearFails
  simp only [Bool.or_eq_true, bne_iff_ne]
  rw [isnan_spec, lt_iff ok64 (lt64 eps) (lt64 _)]
  constructor
  · intro h; exact ⟨_, hd, h⟩
  · rintro ⟨d, h, o⟩
    rw [isDist_unique ok64 h hd] at o
    exact o

/-- What is not a number is near to nothing. -/
theorem near_nan (x y eps : BitVec 64) (h : decode .b64 x.toNat = .nan ∨ decode .b64 y.toNat = .nan) : nearFails x y eps = true := by
  rw [near_fails_iff]
  refine ⟨.nan, ?_, .inr rfl⟩
  rcases h with h | h
  · rw [h]; cases decode .b64 y.toNat <;> rfl
  · rw [h]; cases decode .b64 x.toNat <;> rfl

/-- Numbers whose exact distance is at most the tolerance pass. -/
theorem near_close {x y eps : BitVec 64} {s t u : Bool} {v w e : ℚ} (hx : decode .b64 x.toNat = .num s v)
    (hy : decode .b64 y.toNat = .num t w) (he : decode .b64 eps.toNat = .num u e) (h : |v - w| ≤ e) : nearFails x y eps = false := by
  rw [Bool.eq_false_iff, Ne, near_fails_iff, hx, hy, he]
  rintro ⟨d, hd, l | rfl⟩
  · exact near_not_far he h ⟨d, hd, l⟩
  · have ho : |v - w| < overflowAt .b64 := lt_of_le_of_lt (le_trans h (le_abs_self e)) (num_lt_overflow ok64 he)
    obtain ⟨r, hr, hn⟩ := hd
    obtain ⟨s', z, dz⟩ := rounded_num hr ho
    rw [dz] at hn
    cases hn

/-- Numbers that pass are near: their exact distance exceeds the tolerance by at most the rounding of the difference, which is one part
in `2^53` of the distance.  Missing: that it does not exceed the tolerance (`near_rounding_wrong`). -/
theorem near_passes_partial {x y eps : BitVec 64} {s t u : Bool} {v w e : ℚ} (hx : decode .b64 x.toNat = .num s v)
    (hy : decode .b64 y.toNat = .num t w) (he : decode .b64 eps.toNat = .num u e) (h : nearFails x y eps = false) :
    |v - w| * (1 - 1 / 2 ^ 53) ≤ e := by
  have hd := isDiff_sub ok64 (lt64 x) (lt64 y)
  have hn := near_fails_iff x y eps
  rw [h] at hn
  have hno : ∀ d, IsDist .b64 (.num s v) (.num t w) d → ¬ ((Datum.num u e).Less d ∨ d = .nan) := by
    intro d i o
    rw [hx, hy, he] at hn
    exact absurd (hn.2 ⟨d, i, o⟩) (by simp)
  have hD := isDist_of_diff ok64 hd
  by_cases ho : |v - w| < overflowAt .b64
  · obtain ⟨q, z, dz, err⟩ := diff_error ok64 hd hx hy ho
    rw [hx, hy, dz] at hD
    have := hno _ hD
    simp only [Datum.mag, Datum.Less, not_or, not_lt] at this
    have h1 : |z| ≤ e := this.1
    have h2 : |v - w| - |z| ≤ |v - w| / 2 ^ 53 := by
      have h3 := abs_sub_abs_le_abs_sub (v - w) z
      rw [abs_sub_comm (v - w) z] at h3
      exact le_trans h3 err
    have : |v - w| * (1 - 1 / 2 ^ 53) = |v - w| - |v - w| / 2 ^ 53 := by ring
    rw [this]; linarith
  · exfalso
    rw [hx, hy] at hD
    have hr := hd
    unfold IsDiff at hr
    rw [hx, hy] at hr
    unfold Rounded at hr
    have h0 : v - w ≠ 0 := by
      intro h0; rw [h0, abs_zero] at ho; exact ho overflowAt_pos
    simp only [h0, if_false] at hr
    rw [hr.overflow (not_lt.1 ho)] at hD
    exact hno _ hD (.inl trivial)

/-- With the tolerance zero, numbers are near exactly when they are equal. -/
theorem near_zero {x y eps : BitVec 64} {s t u : Bool} {v w : ℚ} (hx : decode .b64 x.toNat = .num s v)
    (hy : decode .b64 y.toNat = .num t w) (he : decode .b64 eps.toNat = .num u 0) : nearFails x y eps = false ↔ v = w := by
  constructor
  · intro h
    have := near_passes_partial hx hy he h
    have h2 : |v - w| ≤ 0 := by
      by_contra hc
      rw [not_le] at hc
      have : 0 < |v - w| * (1 - 1 / 2 ^ 53 : ℚ) := mul_pos hc (by norm_num)
      linarith
    exact sub_eq_zero.1 (abs_nonpos_iff.1 h2)
  · intro h
    exact near_close hx hy he (by rw [h]; simp)

/-- A negative tolerance fails for all numbers. -/
theorem near_negative {x y eps : BitVec 64} {s t u : Bool} {v w e : ℚ} (hx : decode .b64 x.toNat = .num s v)
    (hy : decode .b64 y.toNat = .num t w) (he : decode .b64 eps.toNat = .num u e) (h : e < 0) : nearFails x y eps = true := by
  by_contra hc
  have := near_passes_partial hx hy he (by simpa using hc)
  have : 0 ≤ |v - w| * (1 - 1 / 2 ^ 53 : ℚ) := mul_nonneg (abs_nonneg _) (by norm_num)
  linarith

theorem dist_comm {f : Fmt} (ok : Ok f) {x y d : Datum} (h : IsDist f x y d) : IsDist f y x d := by
  cases x <;> cases y <;> try exact h
  · rename_i s t
    simp only [IsDist] at h ⊢
    rw [h]
    by_cases e : s = t
    · rw [if_pos e, if_pos e.symm]
    · rw [if_neg e, if_neg (Ne.symm e)]
  · rename_i s x t y
    obtain ⟨r, hr, rfl⟩ := h
    refine ⟨_, rounded_eval ok false (y - x), ?_⟩
    by_cases h0 : x - y = 0
    · have h1 : y - x = 0 := by linarith
      have e := rounded_eval ok false (y - x)
      unfold Rounded at hr e
      rw [if_pos h0] at hr
      rw [if_pos h1] at e
      rw [hr, e]
    · have e := rounded_eval ok false (y - x)
      have h2 : y - x = -(x - y) := by ring
      rw [h2] at e ⊢
      rw [rounded_opposite ok hr e h0]
      cases decode f r <;> simp [Datum.mag, Datum.opposite]

/-- The order of the two numbers does not matter. -/
theorem near_comm (x y eps : BitVec 64) : nearFails x y eps = nearFails y x eps := by
  have h : ∀ x y, nearFails x y eps = true → nearFails y x eps = true := by
    intro x y
    rw [near_fails_iff, near_fails_iff]
    rintro ⟨d, hd, o⟩
    exact ⟨d, dist_comm ok64 hd, o⟩
  exact Bool.eq_iff_iff.2 ⟨h x y, h y x⟩

theorem decode_one64 : decode .b64 (0x3ff0000000000000#64).toNat = .num false 1 := by
  have h1 : signField .b64 (0x3ff0000000000000#64).toNat = false := by decide +kernel
  have h2 : fracField .b64 (0x3ff0000000000000#64).toNat = 0 := by decide +kernel
  have h3 : expField .b64 (0x3ff0000000000000#64).toNat = 1023 := by decide +kernel
  have h4 : emax .b64 = 1023 := by decide
  unfold decode
  rw [h1, h2, h3, h4, if_neg (by decide), if_neg (by decide)]
  norm_num [withSign]

theorem decode_tiny64 : decode .b64 (0xbc90000000000000#64).toNat = .num true (-(1 / 2 ^ 54)) := by
  have h1 : signField .b64 (0xbc90000000000000#64).toNat = true := by decide +kernel
  have h2 : fracField .b64 (0xbc90000000000000#64).toNat = 0 := by decide +kernel
  have h3 : expField .b64 (0xbc90000000000000#64).toNat = 969 := by decide +kernel
  have h4 : emax .b64 = 1023 := by decide
  unfold decode
  rw [h1, h2, h3, h4, if_neg (by decide), if_neg (by decide)]
  norm_num [withSign]

/-- A check can pass although the distance is greater than the tolerance: 1 and `-2^-54` with the tolerance 1. -/
theorem near_rounding_wrong : ∃ x y eps s t u v w e, decode .b64 (BitVec.toNat x) = .num s v ∧ decode .b64 (BitVec.toNat y) = .num t w ∧
    decode .b64 (BitVec.toNat eps) = .num u e ∧ nearFails x y eps = false ∧ e < |v - w| := by
  refine ⟨0x3ff0000000000000#64, 0xbc90000000000000#64, 0x3ff0000000000000#64, _, _, _, _, _, _, decode_one64, decode_tiny64, decode_one64,
    by decide +kernel, ?_⟩
  rw [abs_of_pos (by norm_num)]
  norm_num

theorem decode_2_64 : decode .b64 (0x4000000000000000#64).toNat = .num false 2 := by
  have h1 : signField .b64 (0x4000000000000000#64).toNat = false := by decide +kernel
  have h2 : fracField .b64 (0x4000000000000000#64).toNat = 0 := by decide +kernel
  have h3 : expField .b64 (0x4000000000000000#64).toNat = 1024 := by decide +kernel
  have h4 : emax .b64 = 1023 := by decide
  unfold decode
  rw [h1, h2, h3, h4, if_neg (by decide), if_neg (by decide)]
  norm_num [withSign]

-- with the tolerance 0, 1 is near to 1 and not near to 2
example : nearFails 0x3ff0000000000000#64 0x3ff0000000000000#64 0#64 = false :=
  (near_zero (eps := 0#64) decode_one64 decode_one64 (decode_zero ok64)).2 rfl
example : nearFails 0x3ff0000000000000#64 0x4000000000000000#64 0#64 = true := by
  by_contra h
  have := (near_zero decode_one64 (y := 0x4000000000000000#64) (eps := 0#64) decode_2_64 (decode_zero ok64)).1 (by simpa using h)
  norm_num at this

/-- The same infinity is not near to itself, with any tolerance: the difference is not a number. -/
theorem near_inf_wrong {x : BitVec 64} {s : Bool} (hx : decode .b64 x.toNat = .inf s) (eps : BitVec 64) : nearFails x x eps = true := by
  rw [near_fails_iff]
  refine ⟨.nan, ?_, .inr rfl⟩
  rw [hx]
  simp [IsDist]

/-- With a tolerance that is not a number all numbers are near. -/
theorem near_nan_eps_wrong {x y eps : BitVec 64} {s t : Bool} {v w : ℚ} (hx : decode .b64 x.toNat = .num s v)
    (hy : decode .b64 y.toNat = .num t w) (he : decode .b64 eps.toNat = .nan) : nearFails x y eps = false := by
  rw [Bool.eq_false_iff, Ne, near_fails_iff, hx, hy, he]
  rintro ⟨d, hd, l | rfl⟩
  · exact l
  · obtain ⟨r, hr, hn⟩ := hd
    by_cases ho : |v - w| < overflowAt .b64
    · obtain ⟨s', z, dz⟩ := rounded_num hr ho
      rw [dz] at hn; cases hn
    · unfold Rounded at hr
      have h0 : v - w ≠ 0 := by
        intro h0; rw [h0, abs_zero] at ho; exact ho overflowAt_pos
      rw [if_neg h0] at hr
      rw [hr.overflow (not_lt.1 ho)] at hn; cases hn

end Verif.Props
