import Verif.FpStep

/-! # Error of rounding, monotonicity with infinities, exact cases -/

namespace Verif.FpOps
open Verif.Spec Verif.FpRound

section
variable {f : Fmt} (ok : Ok f)

include ok in
/-- The rounding of `x`, computed. -/
theorem rounded_eval (zs : Bool) (x : ℚ) : Rounded f zs x (f.round zs (x.num * 2 ^ f.unit) x.den) := by
  refine rounded_round ok zs _ _ x.den_pos x ?_
  have hU : (0 : ℚ) < 2 ^ f.unit := by positivity
  push_cast
  rw [mul_div_right_comm, mul_div_assoc, div_self (ne_of_gt hU), mul_one, Rat.num_div_den]

theorem abs_num_div (x : ℚ) : (x.num.natAbs : ℚ) / x.den = |x| := by
  rw [Nat.cast_natAbs, Int.cast_abs]
  conv_rhs => rw [← Rat.num_div_den x]
  rw [abs_div, Nat.abs_cast]

/-- Half a unit in the last place, in units of the smallest subnormal. -/
theorem mant_error (num den : Nat) (hd : 0 < den) :
    |((magA f.mb (expo f num den * 2 ^ f.mb + mant f num den) : ℕ) : ℚ) - (num : ℚ) / den| ≤ 2 ^ expo f num den / 2 := by
  rw [mag_mant f num den hd]
  have hk : (0 : ℚ) < 2 ^ expo f num den := by positivity
  have h := (rne_spec num (den * 2 ^ expo f num den) (by positivity)).1
  rw [mant_scale] at h
  have e : ((mant f num den * 2 ^ expo f num den : ℕ) : ℚ) - (num : ℚ) / den =
      (((mant f num den : ℕ) : ℚ) - (num : ℚ) / den / 2 ^ expo f num den) * 2 ^ expo f num den := by
    push_cast; field_simp
  rw [e, abs_mul, abs_of_pos hk]
  have : |((mant f num den : ℕ) : ℚ) - (num : ℚ) / den / 2 ^ expo f num den| ≤ 1 / 2 := h
  nlinarith

include ok in
/-- The magnitude that a rounding with a finite result has. -/
theorem rounded_mag {zs s : Bool} {x v : ℚ} {r : Nat} (h : Rounded f zs x r) (d : decode f r = .num s v) :
    ∃ n den : Nat, 0 < den ∧ (n : ℚ) / den = |x| * 2 ^ f.unit ∧
      |v - x| = |((magA f.mb (expo f n den * 2 ^ f.mb + mant f n den) : ℕ) : ℚ) - (n : ℚ) / den| / 2 ^ f.unit := by
  have hU : (0 : ℚ) < 2 ^ f.unit := by positivity
  refine ⟨(x.num * 2 ^ f.unit).natAbs, x.den, x.den_pos, ?_, ?_⟩
  · rw [Int.natAbs_mul]
    push_cast
    rw [mul_div_right_comm, abs_num_div]
    norm_num
  · have e := rounded_unique ok h (rounded_eval ok zs x)
    rw [d] at e
    unfold Fmt.round at e
    set t := if x.num * 2 ^ f.unit = 0 then zs else decide (x.num * 2 ^ f.unit < 0) with ht
    have hlt : f.roundMag (x.num * 2 ^ f.unit).natAbs x.den < f.infBits := by
      rcases Nat.lt_or_eq_of_le (roundMag_le (f := f) (x.num * 2 ^ f.unit).natAbs x.den) with hl | he
      · exact hl
      · rw [he, decode_pack_inf ok] at e; cases e
    rw [decode_pack_num ok t hlt] at e
    injection e with e1 e2
    rw [roundMag_eq] at hlt e2
    rw [Nat.min_eq_left (by omega)] at e2
    have hn : (((x.num * 2 ^ f.unit).natAbs : ℕ) : ℚ) / x.den = |x| * 2 ^ f.unit := by
      rw [Int.natAbs_mul]
      push_cast
      rw [mul_div_right_comm, abs_num_div]
      norm_num
    have hx : x = withSign t (|x|) := by
      by_cases h0 : x = 0
      · rw [h0]; simp [withSign_zero]
      · have hz : x.num * 2 ^ f.unit ≠ 0 := by
          have := Rat.num_ne_zero.2 h0
          positivity
        rw [ht, if_neg hz]
        unfold withSign
        by_cases hneg : x < 0
        · have : x.num * 2 ^ f.unit < 0 := mul_neg_of_neg_of_pos (Rat.num_neg.2 hneg) (by positivity)
          rw [if_pos (by simpa using this), abs_of_neg hneg]; ring
        · have : ¬ x.num * 2 ^ f.unit < 0 := not_lt.2 (mul_nonneg (Rat.num_nonneg.2 (not_lt.1 hneg)) (by positivity))
          rw [if_neg (by simpa using this), abs_of_nonneg (not_lt.1 hneg)]
    rw [hn]
    generalize magA f.mb (expo f (x.num * 2 ^ f.unit).natAbs x.den * 2 ^ f.mb + mant f (x.num * 2 ^ f.unit).natAbs x.den) = M at e2 ⊢
    have e3 : v - x = withSign t ((M : ℚ) / 2 ^ f.unit) - withSign t |x| := by rw [e2, ← hx]
    rw [e3, withSign_sub, eq_div_iff (ne_of_gt hU)]
    conv_lhs => rw [← abs_of_pos hU, ← abs_mul, abs_of_pos hU]
    congr 1
    field_simp

theorem scale_error {n d x u e k m : ℚ} (hn : n / d = x * u) (hE : e ≤ k / 2) (h0 : 2 ^ f.mb * k ≤ n / d) (hm : m = 2 ^ f.mb * 2) :
    e * m ≤ x * u := by
  rw [← hn, hm]
  have hP : (0 : ℚ) < 2 ^ f.mb := by positivity
  nlinarith

include ok in
/-- Rounding to a finite result has a relative error of at most `2^-(mb+1)`, or an absolute error of at most half the smallest
subnormal. -/
theorem rounded_error {zs s : Bool} {x v : ℚ} {r : Nat} (h : Rounded f zs x r) (d : decode f r = .num s v) :
    |v - x| ≤ |x| / 2 ^ (f.mb + 1) ∨ |v - x| ≤ 1 / 2 ^ (f.unit + 1) := by
  obtain ⟨n, den, hd, hn, he⟩ := rounded_mag ok h d
  have hU : (0 : ℚ) < 2 ^ f.unit := by positivity
  have hE := mant_error (f := f) n den hd
  rcases (binade f n den hd).2 with h0 | h0
  · right
    rw [h0] at hE
    rw [he, pow_succ, h0, div_le_div_iff₀ hU (by positivity)]
    nlinarith
  · left
    rw [he, div_le_div_iff₀ hU (by positivity), pow_succ]
    exact scale_error hn hE h0 rfl

include ok in
/-- A multiple of the smallest subnormal is rounded with a relative error of at most `2^-(mb+1)`, also where the result is subnormal. -/
theorem rounded_error_multiple {zs s : Bool} {x v : ℚ} {r : Nat} (h : Rounded f zs x r) (d : decode f r = .num s v)
    (hx : ∃ k : ℤ, x = k / 2 ^ f.unit) : |v - x| ≤ |x| / 2 ^ (f.mb + 1) := by
  obtain ⟨n, den, hd, hn, he⟩ := rounded_mag ok h d
  have hU : (0 : ℚ) < 2 ^ f.unit := by positivity
  have hE := mant_error (f := f) n den hd
  rcases (binade f n den hd).2 with h0 | h0
  · obtain ⟨k, hk⟩ := hx
    have hnk : (n : ℚ) / den = (k.natAbs : ℕ) := by
      rw [hn, hk, abs_div, abs_of_pos hU, div_mul_cancel₀ _ (ne_of_gt hU), Nat.cast_natAbs, Int.cast_abs]
    rw [h0, pow_zero, hnk] at hE
    rw [he, hnk, h0]
    generalize magA f.mb (0 * 2 ^ f.mb + mant f n den) = m at hE ⊢
    have hm : m = k.natAbs := by
      have : |((m : ℤ) : ℚ) - ((k.natAbs : ℤ) : ℚ)| ≤ 1 / 2 := by simpa using hE
      rw [← Int.cast_sub, ← Int.cast_abs] at this
      have h1 : ((|((m : ℤ)) - (k.natAbs : ℤ)| : ℤ) : ℚ) < ((1 : ℤ) : ℚ) := lt_of_le_of_lt this (by norm_num)
      have h2 := Int.cast_lt.1 h1
      rw [_root_.abs_lt] at h2
      omega
    rw [hm, sub_self, abs_zero, zero_div]
    positivity
  · rw [he, div_le_div_iff₀ hU (by positivity), pow_succ]
    exact scale_error hn hE h0 rfl

include ok in
/-- Every number of the format is a multiple of the smallest subnormal. -/
theorem num_units {s : Bool} {v : ℚ} {b : Nat} (d : decode f b = .num s v) : ∃ k : ℤ, v = k / 2 ^ f.unit := by
  have e := decode_num ok d
  refine ⟨if s then -(magA f.mb (f.abs b) : ℤ) else magA f.mb (f.abs b), ?_⟩
  rw [e]
  cases s <;> simp [withSign, neg_div]

end
end Verif.FpOps
