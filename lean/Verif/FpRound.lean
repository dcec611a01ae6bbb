import Verif.SpecFloat
import Mathlib.Tactic.Linarith
import Mathlib.Tactic.Ring
import Mathlib.Tactic.FieldSimp
import Mathlib.Tactic.Positivity
import Mathlib.Tactic.NormNum
import Mathlib.Data.Nat.Log

/-! # The rounding of the model is the rounding of the specification -/

namespace Verif.FpRound
open Spec

/-! ## Magnitudes -/

/-- Magnitude of a pattern without sign. -/
def magA (mb a : Nat) : Nat :=
  if a / 2 ^ mb = 0 then a % 2 ^ mb else (2 ^ mb + a % 2 ^ mb) * 2 ^ (a / 2 ^ mb - 1)

theorem magA_form (mb k m : Nat) (h : k = 0 ∨ 2 ^ mb ≤ m) (hm : m ≤ 2 * 2 ^ mb) :
    magA mb (k * 2 ^ mb + m) = m * 2 ^ k := by
  have hP : 0 < 2 ^ mb := Nat.two_pow_pos mb
  unfold magA
  generalize 2 ^ mb = P at *
  rcases Nat.lt_or_ge m P with h1 | h1
  · have hk : k = 0 := by omega
    subst hk
    simp [Nat.div_eq_of_lt h1, Nat.mod_eq_of_lt h1]
  · rcases Nat.lt_or_ge m (2 * P) with h2 | h2
    · have e : k * P + m = P * (k + 1) + (m - P) := by
        rw [Nat.mul_add, Nat.mul_comm k]; omega
      rw [e, Nat.mul_add_div hP, Nat.mul_add_mod, Nat.div_eq_of_lt (by omega), Nat.mod_eq_of_lt (by omega)]
      rw [if_neg (by omega)]
      congr 1
      omega
    · have hm2 : m = 2 * P := by omega
      subst hm2
      have e : k * P + 2 * P = P * (k + 2) + 0 := by rw [Nat.mul_add, Nat.mul_comm k]; omega
      rw [e, Nat.mul_add_div hP, Nat.mul_add_mod, Nat.zero_div, Nat.zero_mod, if_neg (by omega)]
      have : k + 2 + 0 - 1 = k + 1 := by omega
      rw [this, Nat.pow_succ]
      ring

/-- Every magnitude is a multiple of `2^k` or below the binade of `2^k`. -/
theorem magA_cases (mb a k : Nat) : 2 ^ k ∣ magA mb a ∨ magA mb a < 2 ^ mb * 2 ^ k := by
  have hP : 0 < 2 ^ mb := Nat.two_pow_pos mb
  have hF : a % 2 ^ mb < 2 ^ mb := Nat.mod_lt _ hP
  unfold magA
  split
  · right
    have : 1 ≤ 2 ^ k := Nat.two_pow_pos k
    nlinarith
  · rename_i hE
    rcases Nat.lt_or_ge (a / 2 ^ mb - 1) k with h | h
    · right
      have h1 : 2 ^ (a / 2 ^ mb - 1) * 2 ≤ 2 ^ k := by
        rw [← Nat.pow_succ]
        exact Nat.pow_le_pow_right (by decide) h
      have h2 : 0 < 2 ^ (a / 2 ^ mb - 1) := Nat.two_pow_pos _
      nlinarith
    · left
      exact Nat.dvd_trans (Nat.pow_dvd_pow 2 h) (Nat.dvd_mul_left _ _)

theorem magA_lt_succ (mb a : Nat) : magA mb a < magA mb (a + 1) := by
  have hP : 0 < 2 ^ mb := Nat.two_pow_pos mb
  have hF : a % 2 ^ mb < 2 ^ mb := Nat.mod_lt _ hP
  by_cases hE : a / 2 ^ mb = 0
  · have ha : a < 2 ^ mb := by
      rcases Nat.div_eq_zero_iff.1 hE with h | h
      · exact absurd h (by positivity)
      · exact h
    have e1 := magA_form mb 0 a (.inl rfl) (by omega)
    have e2 := magA_form mb 0 (a + 1) (.inl rfl) (by omega)
    simp only [Nat.zero_mul, Nat.zero_add, Nat.pow_zero, Nat.mul_one] at e1 e2
    omega
  · have e : a = (a / 2 ^ mb - 1) * 2 ^ mb + (2 ^ mb + a % 2 ^ mb) := by
      have h1 := Nat.div_add_mod a (2 ^ mb)
      have h2 : a / 2 ^ mb = a / 2 ^ mb - 1 + 1 := (Nat.succ_pred_eq_of_pos (Nat.pos_of_ne_zero hE)).symm
      generalize a / 2 ^ mb - 1 = q at *
      rw [h2] at h1
      rw [Nat.mul_add, Nat.mul_comm _ q] at h1
      omega
    have e1 := magA_form mb (a / 2 ^ mb - 1) (2 ^ mb + a % 2 ^ mb) (.inr (by omega)) (by omega)
    have e2 := magA_form mb (a / 2 ^ mb - 1) (2 ^ mb + a % 2 ^ mb + 1) (.inr (by omega)) (by omega)
    rw [← Nat.add_assoc] at e2
    rw [← e] at e1 e2
    rw [e1, e2]
    have := Nat.two_pow_pos (a / 2 ^ mb - 1)
    nlinarith

theorem magA_strictMono (mb : Nat) {a b : Nat} (h : a < b) : magA mb a < magA mb b := by
  induction b with
  | zero => omega
  | succ b ih =>
    rcases Nat.lt_or_ge a b with h' | h'
    · exact Nat.lt_trans (ih h') (magA_lt_succ mb b)
    · have : a = b := by omega
      subst this
      exact magA_lt_succ mb a

theorem magA_lt_iff (mb : Nat) {a b : Nat} : magA mb a < magA mb b ↔ a < b := by
  constructor
  · intro h
    rcases Nat.lt_or_ge a b with h' | h'
    · exact h'
    · rcases Nat.eq_or_lt_of_le h' with rfl | h''
      · omega
      · have := magA_strictMono mb h''
        omega
  · exact magA_strictMono mb

theorem magA_inj (mb : Nat) {a b : Nat} (h : magA mb a = magA mb b) : a = b := by
  rcases Nat.lt_trichotomy a b with h' | h' | h'
  · have := magA_strictMono mb h'; omega
  · exact h'
  · have := magA_strictMono mb h'; omega

theorem magA_zero (mb : Nat) : magA mb 0 = 0 := by simp [magA]

/-! ## Rounding to an integer -/

/-- `rne n D` is the integer nearest to `n / D`, and even if it is not the only one. -/
theorem rne_spec (n D : Nat) (hD : 0 < D) :
    |((Fmt.rne n D : ℕ) : ℚ) - (n : ℚ) / D| ≤ 1 / 2 ∧
    (|((Fmt.rne n D : ℕ) : ℚ) - (n : ℚ) / D| = 1 / 2 → Fmt.rne n D % 2 = 0) := by
  have hDq : (0 : ℚ) < D := by exact_mod_cast hD
  have hn : (n : ℚ) / D = (n / D : ℕ) + ((n % D : ℕ) : ℚ) / D := by
    have := Nat.div_add_mod n D
    field_simp
    exact_mod_cast this.symm
  have hr : n % D < D := Nat.mod_lt _ hD
  unfold Fmt.rne
  simp only
  rw [hn]
  generalize n / D = q at *
  generalize n % D = r at *
  have hx : (r : ℚ) / D * D = r := by field_simp
  have hx0 : (0 : ℚ) ≤ (r : ℚ) / D := by positivity
  generalize (r : ℚ) / D = x at *
  split
  · rename_i h
    have h' : (2 : ℚ) * r < D := by exact_mod_cast h
    have h3 : x < 1 / 2 := by nlinarith
    have e : (q : ℚ) - (q + x) = -x := by ring
    rw [e, abs_neg, abs_of_nonneg hx0]
    exact ⟨by linarith, fun h => by linarith⟩
  · rename_i h
    split
    · rename_i h2
      have h' : (D : ℚ) < 2 * r := by exact_mod_cast h2
      have h'' : (r : ℚ) < D := by exact_mod_cast hr
      have h3 : 1 / 2 < x := by nlinarith
      have h4 : x < 1 := by nlinarith
      have e : ((q + 1 : ℕ) : ℚ) - (q + x) = 1 - x := by push_cast; ring
      rw [e, abs_of_pos (by linarith)]
      exact ⟨by linarith, fun h => by linarith⟩
    · rename_i h2
      have h' : (D : ℚ) = 2 * r := by exact_mod_cast (by omega : D = 2 * r)
      have h3 : x = 1 / 2 := by nlinarith
      subst h3
      refine ⟨?_, fun _ => by omega⟩
      rcases Nat.mod_two_eq_zero_or_one q with h | h
      · rw [h]; push_cast
        rw [abs_le]; constructor <;> linarith
      · rw [h]; push_cast
        rw [abs_le]; constructor <;> linarith

theorem rne_near (n D : Nat) (hD : 0 < D) (z : ℤ) :
    |((Fmt.rne n D : ℕ) : ℚ) - (n : ℚ) / D| ≤ |(z : ℚ) - (n : ℚ) / D| ∧
    (|(z : ℚ) - (n : ℚ) / D| = |((Fmt.rne n D : ℕ) : ℚ) - (n : ℚ) / D| → z ≠ (Fmt.rne n D : ℕ) →
      Fmt.rne n D % 2 = 0) := by
  obtain ⟨h1, h2⟩ := rne_spec n D hD
  generalize Fmt.rne n D = m at *
  generalize (n : ℚ) / D = y at *
  by_cases hz : z = (m : ℕ)
  · subst hz
    exact ⟨by push_cast; exact le_refl _, fun _ h => absurd rfl h⟩
  · have hd : (1 : ℚ) ≤ |(z : ℚ) - m| := by
      have : (1 : ℤ) ≤ |z - m| := Int.one_le_abs (by omega)
      exact_mod_cast this
    have tri : |(z : ℚ) - m| ≤ |(z : ℚ) - y| + |(m : ℚ) - y| := by
      have e : (z : ℚ) - m = (z - y) + (y - m) := by ring
      rw [e, abs_sub_comm (m : ℚ) y]
      exact abs_add_le _ _
    refine ⟨by linarith, fun h _ => h2 (by linarith)⟩

/-! ## Rounding to a magnitude -/

section
variable (f : Fmt) (heb : 2 ≤ f.eb) (hmb : 1 ≤ f.mb)

/-- Exponent of the last place used by `roundMag`. -/
def expo (num den : Nat) : Nat := (num / den).log2 - f.mb
/-- Mantissa computed by `roundMag`. -/
def mant (num den : Nat) : Nat := Fmt.rne num (den * 2 ^ expo f num den)

theorem roundMag_eq (num den : Nat) :
    f.roundMag num den = min (expo f num den * 2 ^ f.mb + mant f num den) f.infBits := rfl

/-- The value lies in the binade of its exponent. -/
theorem binade (num den : Nat) (hd : 0 < den) :
    (num : ℚ) / den < 2 * 2 ^ f.mb * 2 ^ expo f num den ∧
    (expo f num den = 0 ∨ (2 : ℚ) ^ f.mb * 2 ^ expo f num den ≤ (num : ℚ) / den) := by
  have hdq : (0 : ℚ) < den := by exact_mod_cast hd
  have hlt : num / den < 2 ^ ((num / den).log2 + 1) := Nat.lt_log2_self
  constructor
  · rw [div_lt_iff₀ hdq]
    have h1 : num < 2 ^ ((num / den).log2 + 1) * den := (Nat.div_lt_iff_lt_mul hd).1 hlt
    have h2 : 2 ^ ((num / den).log2 + 1) ≤ 2 * 2 ^ f.mb * 2 ^ expo f num den := by
      rw [← Nat.pow_succ', ← Nat.pow_add]
      apply Nat.pow_le_pow_right (by decide)
      unfold expo
      omega
    have h3 : num < 2 * 2 ^ f.mb * 2 ^ expo f num den * den :=
      Nat.lt_of_lt_of_le h1 (Nat.mul_le_mul_right den h2)
    exact_mod_cast h3
  · by_cases h : expo f num den = 0
    · exact .inl h
    · right
      have hq : num / den ≠ 0 := by
        intro h0
        apply h
        unfold expo
        rw [h0]
        simp
      rw [le_div_iff₀ hdq]
      have h1 : 2 ^ f.mb * 2 ^ expo f num den ≤ num / den := by
        rw [← Nat.pow_add, show f.mb + expo f num den = (num / den).log2 by unfold expo at *; omega]
        exact Nat.log2_self_le hq
      have h2 : 2 ^ f.mb * 2 ^ expo f num den * den ≤ num := (Nat.le_div_iff_mul_le hd).1 h1
      exact_mod_cast h2

theorem mant_scale (num den : Nat) (k : Nat) :
    (num : ℚ) / ((den * 2 ^ k : ℕ) : ℚ) = (num : ℚ) / den / 2 ^ k := by
  push_cast
  rw [div_div]

/-- The mantissa is in range. -/
theorem mant_bounds (num den : Nat) (hd : 0 < den) :
    mant f num den ≤ 2 * 2 ^ f.mb ∧ (expo f num den = 0 ∨ 2 ^ f.mb ≤ mant f num den) := by
  obtain ⟨b1, b2⟩ := binade f num den hd
  have hk : (0 : ℚ) < 2 ^ expo f num den := by positivity
  have hD : 0 < den * 2 ^ expo f num den := Nat.mul_pos hd (Nat.two_pow_pos _)
  obtain ⟨r1, r2⟩ := rne_spec num (den * 2 ^ expo f num den) hD
  rw [mant_scale] at r1
  rw [← div_lt_iff₀ hk] at b1
  rw [← le_div_iff₀ hk] at b2
  change |((mant f num den : ℕ) : ℚ) - _| ≤ _ at r1
  generalize (num : ℚ) / den / 2 ^ expo f num den = y at *
  rw [abs_le] at r1
  constructor
  · have h : (mant f num den : ℚ) < ((2 * 2 ^ f.mb + 1 : ℕ) : ℚ) := by push_cast; linarith
    have := Nat.cast_lt.1 h
    omega
  · rcases b2 with h | h
    · exact .inl h
    · right
      have h : ((2 ^ f.mb : ℕ) : ℚ) < ((mant f num den + 1 : ℕ) : ℚ) := by push_cast; linarith
      have := Nat.cast_lt.1 h
      omega

theorem mag_mant (num den : Nat) (hd : 0 < den) :
    magA f.mb (expo f num den * 2 ^ f.mb + mant f num den) = mant f num den * 2 ^ expo f num den := by
  obtain ⟨m1, m2⟩ := mant_bounds f num den hd
  exact magA_form _ _ _ m2 m1

/-- No magnitude is closer to the value than the computed one, and the computed one is even if
another one is equally close. -/
theorem near_mag (num den : Nat) (hd : 0 < den) (a : Nat) :
    |((magA f.mb (expo f num den * 2 ^ f.mb + mant f num den) : ℕ) : ℚ) - (num : ℚ) / den|
      ≤ |((magA f.mb a : ℕ) : ℚ) - (num : ℚ) / den| ∧
    (|((magA f.mb a : ℕ) : ℚ) - (num : ℚ) / den|
      = |((magA f.mb (expo f num den * 2 ^ f.mb + mant f num den) : ℕ) : ℚ) - (num : ℚ) / den| →
      magA f.mb a ≠ magA f.mb (expo f num den * 2 ^ f.mb + mant f num den) →
      mant f num den % 2 = 0) := by
  obtain ⟨b1, b2⟩ := binade f num den hd
  rw [mag_mant f num den hd]
  have hk : (0 : ℚ) < 2 ^ expo f num den := by positivity
  have hD : 0 < den * 2 ^ expo f num den := Nat.mul_pos hd (Nat.two_pow_pos _)
  have scale : ∀ z : ℤ, |(z : ℚ) * 2 ^ expo f num den - (num : ℚ) / den|
      = |(z : ℚ) - (num : ℚ) / ((den * 2 ^ expo f num den : ℕ) : ℚ)| * 2 ^ expo f num den := by
    intro z
    rw [mant_scale, ← abs_of_pos hk, ← abs_mul, abs_of_pos hk, sub_mul, div_mul_cancel₀ _ (ne_of_gt hk)]
  have hm := scale (mant f num den : ℕ)
  by_cases hdv : 2 ^ expo f num den ∣ magA f.mb a
  · obtain ⟨z, hz⟩ := hdv
    have hz' := scale (z : ℕ)
    have e : ((magA f.mb a : ℕ) : ℚ) = ((z : ℕ) : ℤ) * 2 ^ expo f num den := by
      rw [hz]; push_cast; ring
    obtain ⟨n1, n2⟩ := rne_near num (den * 2 ^ expo f num den) hD (z : ℕ)
    rw [e, hz']
    push_cast at hm ⊢
    rw [hm]
    constructor
    · push_cast at n1
      exact mul_le_mul_of_nonneg_right n1 (le_of_lt hk)
    · intro h hne
      refine n2 (mul_right_cancel₀ (ne_of_gt hk) (by push_cast; exact h)) ?_
      intro hzm
      apply hne
      have : z = mant f num den := by exact_mod_cast hzm
      rw [hz, this, Nat.mul_comm]
  · -- below the binade
    have hlt := (magA_cases f.mb a (expo f num den)).resolve_left hdv
    have hk0 : expo f num den ≠ 0 := by
      intro h0
      rw [h0] at hdv
      exact hdv (one_dvd _)
    have hb := b2.resolve_left hk0
    have hlt' : ((magA f.mb a : ℕ) : ℚ) < 2 ^ f.mb * 2 ^ expo f num den := by exact_mod_cast hlt
    obtain ⟨n1, _⟩ := rne_near num (den * 2 ^ expo f num den) hD ((2 ^ f.mb : ℕ) : ℤ)
    have hp := scale ((2 ^ f.mb : ℕ) : ℤ)
    have n1' := mul_le_mul_of_nonneg_right n1 (le_of_lt hk)
    rw [← hp] at n1'
    push_cast at hm n1'
    change |((mant f num den : ℕ) : ℚ) - _| * _ ≤ _ at n1'
    rw [← hm] at n1'
    push_cast
    generalize (num : ℚ) / den = y at *
    have h1 : |(2 : ℚ) ^ f.mb * 2 ^ expo f num den - y| = y - 2 ^ f.mb * 2 ^ expo f num den := by
      rw [abs_of_nonpos (by linarith)]; ring
    have h2 : |((magA f.mb a : ℕ) : ℚ) - y| = y - (magA f.mb a : ℕ) := by
      rw [abs_of_nonpos (by linarith)]; ring
    rw [h2]
    rw [h1] at n1'
    exact ⟨by linarith, fun h => by linarith⟩

/-! ### Overflow -/

theorem infBits_eq (heb : 2 ≤ f.eb) : f.infBits = (2 ^ f.eb - 3) * 2 ^ f.mb + 2 * 2 ^ f.mb := by
  have : 2 ^ 2 ≤ 2 ^ f.eb := Nat.pow_le_pow_right (by decide) heb
  rw [← Nat.add_mul]
  unfold Fmt.infBits
  congr 1
  omega

/-- The overflow threshold in units. -/
def thr : ℚ := (2 * 2 ^ f.mb - 1 / 2) * 2 ^ (2 ^ f.eb - 3)

theorem expo_lt_of_lt {num den : Nat} (hd : 0 < den) (K : Nat)
    (h : (num : ℚ) / den < 2 * 2 ^ f.mb * 2 ^ K) : expo f num den ≤ K := by
  obtain ⟨_, b2⟩ := binade f num den hd
  rcases b2 with h0 | h0
  · omega
  · by_contra hk
    have h1 : (2 : ℚ) ^ (K + 1) ≤ 2 ^ expo f num den := pow_le_pow_right₀ (by norm_num) (by omega)
    have h2 : (0 : ℚ) < 2 ^ f.mb := by positivity
    rw [pow_succ] at h1
    nlinarith

theorem no_overflow (heb : 2 ≤ f.eb) (num den : Nat) (hd : 0 < den) (h : (num : ℚ) / den < thr f) :
    expo f num den * 2 ^ f.mb + mant f num den < f.infBits := by
  have hP : 0 < 2 ^ f.mb := Nat.two_pow_pos _
  have hKpos : (0 : ℚ) < 2 ^ (2 ^ f.eb - 3) := by positivity
  have hk := expo_lt_of_lt f hd (2 ^ f.eb - 3) (by unfold thr at h; nlinarith)
  obtain ⟨m1, m2⟩ := mant_bounds f num den hd
  rw [infBits_eq f heb]
  rcases Nat.lt_or_ge (expo f num den) (2 ^ f.eb - 3) with h1 | h1
  · have : (expo f num den + 1) * 2 ^ f.mb ≤ (2 ^ f.eb - 3) * 2 ^ f.mb := Nat.mul_le_mul_right _ h1
    rw [Nat.add_mul] at this
    omega
  · have hkk : expo f num den = 2 ^ f.eb - 3 := by omega
    have hD : 0 < den * 2 ^ expo f num den := Nat.mul_pos hd (Nat.two_pow_pos _)
    obtain ⟨r1, r2⟩ := rne_spec num (den * 2 ^ expo f num den) hD
    rw [mant_scale] at r1
    change |((mant f num den : ℕ) : ℚ) - _| ≤ _ at r1
    rw [hkk] at r1
    unfold thr at h
    rw [← div_lt_iff₀ hKpos] at h
    generalize (num : ℚ) / den / 2 ^ (2 ^ f.eb - 3) = y at *
    rw [abs_le] at r1
    have : (mant f num den : ℚ) < ((2 * 2 ^ f.mb : ℕ) : ℚ) := by push_cast; linarith
    have := Nat.cast_lt.1 this
    rw [hkk]
    omega

theorem overflow (heb : 2 ≤ f.eb) (num den : Nat) (hd : 0 < den) (h : thr f ≤ (num : ℚ) / den) :
    f.infBits ≤ expo f num den * 2 ^ f.mb + mant f num den := by
  have hP : 0 < 2 ^ f.mb := Nat.two_pow_pos _
  have hPq : (1 : ℚ) ≤ 2 ^ f.mb := one_le_pow₀ (by norm_num)
  have hKpos : (0 : ℚ) < 2 ^ (2 ^ f.eb - 3) := by positivity
  obtain ⟨b1, b2⟩ := binade f num den hd
  have hk : 2 ^ f.eb - 3 ≤ expo f num den := by
    by_contra hk
    have h1 : (2 : ℚ) ^ (expo f num den + 1) ≤ 2 ^ (2 ^ f.eb - 3) := pow_le_pow_right₀ (by norm_num) (by omega)
    unfold thr at h
    rw [pow_succ] at h1
    have : (2 * 2 ^ f.mb - 1 / 2 : ℚ) * 2 ^ (2 ^ f.eb - 3) < 2 * 2 ^ f.mb * 2 ^ expo f num den := lt_of_le_of_lt h b1
    have h3 : (0 : ℚ) < 2 ^ expo f num den := by positivity
    nlinarith
  obtain ⟨m1, m2⟩ := mant_bounds f num den hd
  have heb' : 2 ^ 2 ≤ 2 ^ f.eb := Nat.pow_le_pow_right (by decide) heb
  rw [infBits_eq f heb]
  rcases Nat.eq_or_lt_of_le hk with h1 | h1
  · have hD : 0 < den * 2 ^ expo f num den := Nat.mul_pos hd (Nat.two_pow_pos _)
    obtain ⟨r1, r2⟩ := rne_spec num (den * 2 ^ expo f num den) hD
    rw [mant_scale] at r1 r2
    change |((mant f num den : ℕ) : ℚ) - _| ≤ _ at r1
    change |((mant f num den : ℕ) : ℚ) - _| = _ → mant f num den % 2 = 0 at r2
    rw [← h1] at r1 r2
    unfold thr at h
    rw [← le_div_iff₀ hKpos] at h
    rw [← div_lt_iff₀ (by positivity), ← h1] at b1
    generalize (num : ℚ) / den / 2 ^ (2 ^ f.eb - 3) = y at *
    rw [abs_le] at r1
    have hm : ((2 * 2 ^ f.mb : ℕ) : ℚ) < ((mant f num den + 2 : ℕ) : ℚ) := by push_cast; linarith
    have hm := Nat.cast_lt.1 hm
    rw [← h1]
    rcases Nat.lt_or_ge (mant f num den) (2 * 2 ^ f.mb) with h2 | h2
    · have hme : mant f num den = 2 * 2 ^ f.mb - 1 := by omega
      have hmq : ((mant f num den : ℕ) : ℚ) = 2 * 2 ^ f.mb - 1 := by
        rw [hme, Nat.cast_sub (by omega)]
        push_cast
        ring
      have hy : y = 2 * 2 ^ f.mb - 1 / 2 := by linarith
      have := r2 (by rw [hmq, hy, abs_of_nonpos (by linarith)]; ring)
      omega
    · omega
  · have h2 : (2 ^ f.eb - 3 + 1) * 2 ^ f.mb ≤ expo f num den * 2 ^ f.mb := Nat.mul_le_mul_right _ h1
    rw [Nat.add_mul] at h2
    have := m2.resolve_left (by omega)
    omega
end

end Verif.FpRound
