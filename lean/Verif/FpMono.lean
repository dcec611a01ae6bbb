import Mathlib.Data.Rat.Floor
import Verif.FpExact

/-! # Rounding is monotone, and close where the format is dense -/

namespace Verif.FpOps
open Verif.Spec Verif.FpRound

section
variable {f : Fmt} (ok : Ok f)

theorem rounded_num {zs : Bool} {x : ℚ} {r : Nat} (h : Rounded f zs x r) (hx : |x| < overflowAt f) :
    ∃ s v, decode f r = .num s v := by
  unfold Rounded at h
  split at h
  · exact ⟨_, _, h⟩
  · obtain ⟨v, d, -⟩ := h.nearest hx
    exact ⟨_, v, d⟩

/-- No number of the format is closer. -/
theorem rounded_near {zs s t : Bool} {x v y : ℚ} {r b : Nat} (h : Rounded f zs x r)
    (d : decode f r = .num s v) (db : decode f b = .num t y) : |v - x| ≤ |y - x| := by
  unfold Rounded at h
  split at h
  · rename_i h0
    rw [h] at d
    injection d with d1 d2
    rw [← d2, h0]
    simp
  · by_cases hx : |x| < overflowAt f
    · obtain ⟨w, d', near, -⟩ := h.nearest hx
      rw [d] at d'
      injection d' with d1 d2
      rw [d2]
      exact near _ _ _ db
    · have := h.overflow (not_lt.1 hx)
      rw [d] at this
      cases this

/-- The sign of a rounding of a nonzero number. -/
theorem rounded_sign {zs s : Bool} {x v : ℚ} {r : Nat} (h : Rounded f zs x r)
    (d : decode f r = .num s v) (hx : x ≠ 0) : s = decide (x < 0) := by
  unfold Rounded at h
  rw [if_neg hx] at h
  by_cases ho : |x| < overflowAt f
  · obtain ⟨w, d', -⟩ := h.nearest ho
    rw [d] at d'
    injection d'
  · have := h.overflow (not_lt.1 ho)
    rw [d] at this
    cases this

theorem rounded_le {zs s t : Bool} {x v y : ℚ} {r b : Nat} (h : Rounded f zs x r)
    (d : decode f r = .num s v) (db : decode f b = .num t y) (hxy : x ≤ y) : v ≤ y := by
  by_contra hc
  rw [not_le] at hc
  have := rounded_near h d db
  rw [abs_of_nonneg (by linarith), abs_of_nonneg (by linarith)] at this
  linarith

theorem rounded_ge {zs s t : Bool} {x v y : ℚ} {r b : Nat} (h : Rounded f zs x r)
    (d : decode f r = .num s v) (db : decode f b = .num t y) (hxy : y ≤ x) : y ≤ v := by
  by_contra hc
  rw [not_le] at hc
  have := rounded_near h d db
  rw [abs_of_nonpos (by linarith), abs_of_nonpos (by linarith)] at this
  linarith

include ok in
/-- Rounding is monotone. -/
theorem rounded_mono {zs zs' s s' : Bool} {x y v w : ℚ} {r r' : Nat} (h : Rounded f zs x r)
    (h' : Rounded f zs' y r') (d : decode f r = .num s v) (d' : decode f r' = .num s' w) (hxy : x ≤ y) :
    v ≤ w := by
  by_contra hc
  rw [not_le] at hc
  have h1 := rounded_near h d d'
  have h2 := rounded_near h' d' d
  have e1 : v + w ≤ 2 * x := by
    by_contra hlt
    rw [not_le] at hlt
    have a := abs_le.1 h1
    rcases le_total x w with hw | hw
    · rw [abs_of_nonneg (show 0 ≤ w - x by linarith)] at h1
      have := le_abs_self (v - x)
      linarith
    · rw [abs_of_nonpos (show w - x ≤ 0 by linarith)] at h1
      have := le_abs_self (v - x)
      linarith
  have e2 : 2 * y ≤ v + w := by
    by_contra hlt
    rw [not_le] at hlt
    rcases le_total v y with hw | hw
    · rw [abs_of_nonpos (show v - y ≤ 0 by linarith)] at h2
      have := neg_abs_le (w - y)
      linarith
    · rw [abs_of_nonneg (show 0 ≤ v - y by linarith)] at h2
      have := neg_abs_le (w - y)
      linarith
  have e : x = y := by linarith
  subst e
  by_cases h0 : x = 0
  · unfold Rounded at h h'
    rw [if_pos h0] at h h'
    rw [h] at d
    rw [h'] at d'
    injection d with _ d
    injection d' with _ d'
    linarith
  · unfold Rounded at h h'
    rw [if_neg h0] at h h'
    have := roundsTo_unique ok h h'
    rw [d, d'] at this
    injection this with _ e
    linarith

include ok in
/-- `± n 2^j` units is a number of the format if `n` has at most `mb + 1` bits. -/
theorem representable (s : Bool) (n j : Nat) (hn : n < 2 * 2 ^ f.mb)
    (hj : n * 2 ^ j < 2 ^ f.mb * 2 ^ (2 ^ f.eb - 2)) :
    ∃ b, b < 2 ^ f.width ∧ decode f b = .num s (withSign s ((n : ℚ) * 2 ^ j / 2 ^ f.unit)) := by
  obtain ⟨a, ha⟩ := magA_scaled (f := f) n j hn
  have hlt : a < f.infBits := by
    rw [← magA_lt_iff f.mb, magA_infBits ok.eb, ha]; exact hj
  refine ⟨f.pack s a, pack_lt _ (Nat.lt_trans hlt infBits_lt), ?_⟩
  rw [decode_pack_num ok s hlt, ha]
  push_cast
  rfl

end

/-! ### Integers in `double` -/

theorem unit64 : Fmt.b64.unit = 1074 := by decide
theorem unit32 : Fmt.b32.unit = 149 := by decide

theorem int64_rep (s : Bool) (n j : Nat) (hn : n < 2 ^ 53) (hj : j ≤ 100) :
    ∃ b, decode .b64 b = .num s (withSign s ((n : ℚ) * 2 ^ j)) := by
  obtain ⟨b, -, h⟩ := representable ok64 s n (j + 1074) hn (by
    have : n * 2 ^ (j + 1074) < 2 ^ 53 * 2 ^ 1174 :=
      Nat.mul_lt_mul_of_lt_of_le hn (Nat.pow_le_pow_right (by decide) (by omega)) (Nat.two_pow_pos _)
    exact Nat.lt_of_lt_of_le this (by decide +kernel))
  refine ⟨b, ?_⟩
  rw [h, unit64, pow_add, mul_div_assoc, mul_div_assoc, div_self (by positivity), mul_one]

theorem overflowAt64 : (2 : ℚ) ^ 1000 < overflowAt .b64 := by
  have : overflowAt .b64 = (2 - 1 / 2 ^ 53) * 2 ^ 1023 := by
    unfold overflowAt
    rw [show emax .b64 = ((1023 : ℕ) : ℤ) by decide, zpow_natCast]
  rw [this]
  calc (2 : ℚ) ^ 1000 < 2 ^ 1023 := pow_lt_pow_right₀ (by norm_num) (by norm_num)
    _ = 1 * 2 ^ 1023 := (one_mul _).symm
    _ ≤ _ := mul_le_mul_of_nonneg_right (by norm_num) (by positivity)

/-- Integers of magnitude up to `2^53` are doubles. -/
theorem int64_small {n : Int} (h : n.natAbs ≤ 2 ^ 53) : ∃ b, decode .b64 b = .num (decide (n < 0)) (n : ℚ) := by
  have hw : withSign (decide (n < 0)) (n.natAbs : ℚ) = n := by
    unfold withSign
    by_cases hn : n < 0
    · rw [if_pos (by simpa using hn), Nat.cast_natAbs, abs_of_neg hn]; push_cast; ring
    · rw [if_neg (by simpa using hn), Nat.cast_natAbs, abs_of_nonneg (by omega)]
  rcases Nat.lt_or_eq_of_le h with hl | he
  · obtain ⟨b, hb⟩ := int64_rep (decide (n < 0)) n.natAbs 0 hl (by decide)
    refine ⟨b, ?_⟩
    rw [hb, pow_zero, mul_one, hw]
  · obtain ⟨b, hb⟩ := int64_rep (decide (n < 0)) 1 53 (by decide) (by decide)
    refine ⟨b, ?_⟩
    rw [hb, ← hw, he]
    push_cast
    norm_num

theorem int64_rep' (s : Bool) (n j : Nat) (hn : n ≤ 2 ^ 53) (hj : j ≤ 40) :
    ∃ b, decode .b64 b = .num s (withSign s ((n : ℚ) * 2 ^ j)) := by
  rcases Nat.lt_or_eq_of_le hn with hl | he
  · exact int64_rep s n j hl (by omega)
  · obtain ⟨b, hb⟩ := int64_rep s 1 (53 + j) (by decide) (by omega)
    refine ⟨b, ?_⟩
    rw [hb, he, pow_add]
    push_cast
    norm_num

/-- Up to `2^64` a double is at most `2^10` away. -/
theorem rounded64_error {zs s : Bool} {x v : ℚ} {r : Nat} (h : Rounded .b64 zs x r)
    (d : decode .b64 r = .num s v) (hx : |x| ≤ 2 ^ 64) : |v - x| ≤ 2 ^ 10 := by
  set k := ⌊|x| / 2 ^ 11 + 1 / 2⌋₊ with hk
  have hp : 0 ≤ |x| / 2 ^ 11 + 1 / 2 := by positivity
  have h1 : (k : ℚ) ≤ |x| / 2 ^ 11 + 1 / 2 := Nat.floor_le hp
  have h2 : |x| / 2 ^ 11 + 1 / 2 < k + 1 := Nat.lt_floor_add_one _
  have hk53 : k ≤ 2 ^ 53 := by
    have : (k : ℚ) < ((2 ^ 53 + 1 : ℕ) : ℚ) := by
      push_cast
      refine lt_of_le_of_lt h1 ?_
      have : |x| / 2 ^ 11 ≤ 2 ^ 53 := by
        rw [div_le_iff₀ (by norm_num)]
        refine le_trans hx (by norm_num)
      linarith
    have := Nat.cast_lt.1 this
    omega
  obtain ⟨b, hb⟩ := int64_rep' (decide (x < 0)) k 11 hk53 (by decide)
  refine le_trans (rounded_near h d hb) ?_
  have hxs : x = withSign (decide (x < 0)) |x| := by
    unfold withSign
    by_cases h0 : x < 0
    · rw [if_pos (by simpa using h0), abs_of_neg h0]; ring
    · rw [if_neg (by simpa using h0), abs_of_nonneg (not_lt.1 h0)]
  conv_lhs => rw [hxs]
  have : decide (withSign (decide (x < 0)) |x| < 0) = decide (x < 0) := by rw [← hxs]
  rw [this, withSign_sub, abs_le]
  have e : |x| = |x| / 2 ^ 11 * 2 ^ 11 := by field_simp
  constructor <;> nlinarith

end Verif.FpOps
