import Verif.Model.Ostream
import Verif.SpecOstream
import Verif.Props.UtestCompare
import Verif.Props.Helper
import Verif.Props.TestUtil

/-!
C106: how floating-point numbers appear in messages and printed registers.
-/

namespace Verif.Props
open Model Utest Spec SpecNumeral FpOps

/-! ## The first digit and the six digits -/

theorem decade_spec {m D : ℕ} (hm : 0 < m) (hD : 0 < D) : Decade ((m : ℚ) / D) (decade m D) := by
  have hDq : (0 : ℚ) < D := by exact_mod_cast hD
  have hmq : (0 : ℚ) < m := by exact_mod_cast hm
  unfold decade Decade
  split
  · rename_i h
    have hq : m / D ≠ 0 := (Nat.div_pos h hD).ne'
    have h1 : 10 ^ Nat.log 10 (m / D) * D ≤ m := by
      have := Nat.pow_log_le_self 10 hq
      exact (Nat.le_div_iff_mul_le hD).1 this
    have h2 : m < 10 ^ (Nat.log 10 (m / D) + 1) * D := (Nat.div_lt_iff_lt_mul hD).1 (Nat.lt_pow_succ_log_self (by decide) (m / D))
    refine ⟨?_, ?_⟩
    · rw [le_div_iff₀ hDq, zpow_natCast]; exact_mod_cast h1
    · rw [div_lt_iff₀ hDq, show ((Nat.log 10 (m / D) : ℕ) : ℤ) + 1 = ((Nat.log 10 (m / D) + 1 : ℕ) : ℤ) by push_cast; rfl, zpow_natCast]
      exact_mod_cast h2
  · rename_i h
    generalize hc : (D + m - 1) / m = c
    have c1 : D ≤ c * m := by
      have := Nat.lt_div_mul_add (a := D + m - 1) hm
      rw [hc] at this; omega
    have c2 : (c - 1) * m < D := by
      have := Nat.div_mul_le_self (D + m - 1) m
      rw [hc] at this
      rw [Nat.sub_mul]; omega
    have c3 : 1 < c := by
      by_contra hn
      have : c * m ≤ 1 * m := Nat.mul_le_mul_right m (by omega)
      omega
    have h1 := Nat.le_pow_clog (b := 10) (by decide) c
    have h2 := Nat.pow_pred_clog_lt_self (b := 10) (by decide) c3
    have hp : 0 < Nat.clog 10 c := Nat.clog_pos (by decide) c3
    obtain ⟨k, hk⟩ : ∃ k, Nat.clog 10 c = k + 1 := ⟨Nat.clog 10 c - 1, by omega⟩
    rw [hk] at h1 h2 ⊢
    rw [Nat.pred_succ] at h2
    have e1 : D ≤ 10 ^ (k + 1) * m := c1.trans (Nat.mul_le_mul_right m h1)
    have e2 : 10 ^ k * m < D := lt_of_le_of_lt (Nat.mul_le_mul_right m (by omega)) c2
    refine ⟨?_, ?_⟩
    · rw [zpow_neg, zpow_natCast, inv_eq_one_div, div_le_div_iff₀ (by positivity) hDq]
      have : (D : ℚ) ≤ 10 ^ (k + 1) * m := by exact_mod_cast e1
      linarith
    · rw [show -((k + 1 : ℕ) : ℤ) + 1 = -(k : ℤ) by push_cast; ring, zpow_neg, zpow_natCast, inv_eq_one_div, div_lt_div_iff₀ hDq (by positivity)]
      have : (10 : ℚ) ^ k * m < D := by exact_mod_cast e2
      linarith

theorem digits6_spec {m D : ℕ} (hD : 0 < D) (Y : ℤ) : NearestInt (digits6 m D Y) ((m : ℚ) / D * 10 ^ (5 - Y)) := by
  unfold digits6
  split
  · rename_i h
    obtain ⟨j, hj⟩ : ∃ j : ℕ, 5 - Y = j := ⟨(5 - Y).toNat, by omega⟩
    rw [hj, Int.toNat_natCast, zpow_natCast]
    have := FpRound.rne_spec (m * 10 ^ j) D hD
    rw [show ((m * 10 ^ j : ℕ) : ℚ) / D = (m : ℚ) / D * 10 ^ j by push_cast; ring] at this
    exact this
  · rename_i h
    obtain ⟨j, hj⟩ : ∃ j : ℕ, Y - 5 = j := ⟨(Y - 5).toNat, by omega⟩
    rw [hj, Int.toNat_natCast, show 5 - Y = -(j : ℤ) by omega, zpow_neg, zpow_natCast]
    have := FpRound.rne_spec m (D * 10 ^ j) (by positivity)
    rw [show (m : ℚ) / ((D * 10 ^ j : ℕ) : ℚ) = (m : ℚ) / D * (10 ^ j)⁻¹ by push_cast; rw [div_mul_eq_div_div]; rfl] at this
    exact this

/-- A number with its first digit at the power `Y` has six digits, or is rounded up to the next power. -/
theorem nearest_bounds {v : ℚ} {Y : ℤ} {n : ℕ} (h : Decade v Y) (hn : NearestInt n (v * 10 ^ (5 - Y))) : 10 ^ 5 ≤ n ∧ n ≤ 10 ^ 6 := by
  have p : (0 : ℚ) < 10 ^ (5 - Y) := zpow_pos (by norm_num) _
  have h1 : (10 : ℚ) ^ 5 ≤ v * 10 ^ (5 - Y) := by
    have := mul_le_mul_of_nonneg_right h.1 p.le
    rwa [← zpow_add₀ (by norm_num), show Y + (5 - Y) = ((5 : ℕ) : ℤ) by push_cast; ring, zpow_natCast] at this
  have h2 : v * 10 ^ (5 - Y) < (10 : ℚ) ^ 6 := by
    have := mul_lt_mul_of_pos_right h.2 p
    rwa [← zpow_add₀ (by norm_num), show Y + 1 + (5 - Y) = ((6 : ℕ) : ℤ) by push_cast; ring, zpow_natCast] at this
  have h3 := abs_le.1 hn.1
  constructor
  · by_contra hc
    have : n + 1 ≤ 10 ^ 5 := by omega
    have : (n : ℚ) + 1 ≤ 10 ^ 5 := by exact_mod_cast this
    linarith [h3.1]
  · by_contra hc
    have : 10 ^ 6 + 1 ≤ n := by omega
    have : (10 : ℚ) ^ 6 + 1 ≤ n := by exact_mod_cast this
    linarith [h3.2]

/-! ## Texts -/

theorem padded_spec {k n : ℕ} (h : n < 10 ^ k) (hk : 0 < k) : Digits (padded k n) ∧ (padded k n).length = k ∧ value (padded k n) = n := by
  have hn := num_numeral n
  have hl : (num n).length ≤ k := by
    rw [num_nat, show (toString n).toList = Nat.toDigits 10 n from Nat.toList_repr, Nat.length_toDigits_le_iff (by decide) hk]
    exact h
  unfold padded
  refine ⟨?_, by rw [List.length_append, List.length_replicate]; omega, ?_⟩
  · intro c hc
    rcases List.mem_append.1 hc with h | h
    · rw [(List.mem_replicate.1 h).2]; decide
    · exact hn.2.1 c h
  · rw [value_digits, Nat.ofDigitChars_append, Nat.ofDigitChars_replicate_zero, Nat.mul_zero]
    exact hn.2.2.2

/-- Zeros at the end of a fraction do not change it. -/
theorem strip_value (l : List Char) : (value (l.rdropWhile (· = '0')) : ℚ) / 10 ^ (l.rdropWhile (· = '0')).length = (value l : ℚ) / 10 ^ l.length := by
  induction l using List.reverseRecOn with
  | nil => rfl
  | append_singleton l c ih =>
    by_cases hc : c = '0'
    · subst hc
      rw [List.rdropWhile_concat_pos _ _ _ (by simp), ih]
      have : value (l ++ ['0']) = 10 * value l := by simp [value]
      rw [this, List.length_append, List.length_singleton, pow_succ]
      push_cast
      rw [mul_comm (10 : ℚ) (value l), mul_div_mul_right _ _ (by norm_num)]
    · rw [List.rdropWhile_concat_neg _ _ _ (by simpa using hc)]

theorem plain_spec (n k : ℕ) : IsPlain (plain n k) ((n : ℚ) / 10 ^ k) := by
  have hn := Nat.div_add_mod n (10 ^ k)
  have hq : (n : ℚ) / 10 ^ k = ((n / 10 ^ k : ℕ) : ℚ) + ((n % 10 ^ k : ℕ) : ℚ) / 10 ^ k := by
    have h : (n : ℚ) = 10 ^ k * ((n / 10 ^ k : ℕ) : ℚ) + ((n % 10 ^ k : ℕ) : ℚ) := by exact_mod_cast hn.symm
    have p : (10 : ℚ) ^ k ≠ 0 := by positivity
    rw [h, add_div, mul_div_cancel_left₀ _ p]
  rw [hq]
  unfold plain
  dsimp only
  rcases Nat.eq_zero_or_pos k with rfl | hk
  · have : (padded 0 (n % 10 ^ 0)).rdropWhile (· = '0') = [] := by
      rw [pow_zero, Nat.mod_one]; decide
    rw [if_pos this]
    exact .inl ⟨_, num_numeral _, by simp [Nat.mod_one]⟩
  · obtain ⟨p1, p2, p3⟩ := padded_spec (Nat.mod_lt n (show 10 ^ k > 0 by positivity)) hk
    have hs := strip_value (padded k (n % 10 ^ k))
    rw [p2, p3] at hs
    rw [← hs]
    generalize hf : (padded k (n % 10 ^ k)).rdropWhile (· = '0') = f at *
    by_cases h : f = []
    · rw [if_pos h]
      exact .inl ⟨_, num_numeral _, by rw [h]; simp [value]⟩
    · rw [if_neg h]
      refine .inr ⟨_, f, _, rfl, num_numeral _, ?_, ?_, rfl⟩
      · intro c hc
        rw [← hf] at hc
        exact p1 c (List.IsPrefix.subset (List.rdropWhile_prefix _ _) hc)
      · refine ⟨f.getLast h, List.getLast?_eq_getLast_of_ne_nil h, ?_⟩
        subst hf
        have := List.rdropWhile_last_not (fun c : Char => decide (c = '0')) (padded k (n % 10 ^ k)) h
        simpa using this

theorem exponent_spec {X : ℤ} : IsExponent (exponent X) X := by
  unfold exponent
  refine ⟨_, rfl, ?_⟩
  generalize X.natAbs = n
  have hn := num_numeral n
  unfold padded
  refine ⟨?_, by rw [List.length_append, List.length_replicate]; omega, ?_, ?_⟩
  · intro c hc
    rcases List.mem_append.1 hc with h | h
    · rw [(List.mem_replicate.1 h).2]; decide
    · exact hn.2.1 c h
  · intro h
    rw [List.length_append, List.length_replicate] at h
    have : 2 - (num n).length = 0 := by omega
    rw [this, List.replicate_zero, List.nil_append]
    exact hn.2.2.1 (by omega)
  · rw [value_digits, Nat.ofDigitChars_append, Nat.ofDigitChars_replicate_zero, Nat.mul_zero]
    exact hn.2.2.2

/-- A positive number is written with six significant digits. -/
theorem positive_spec {m D : ℕ} (hm : 0 < m) (hD : 0 < D) : ∃ w, SixDigits ((m : ℚ) / D) w ∧ IsShort (positive m D) w := by
  have hd := decade_spec hm hD
  have hn := digits6_spec (m := m) hD (decade m D)
  obtain ⟨b1, b2⟩ := nearest_bounds hd hn
  unfold positive
  dsimp only
  generalize decade m D = Y at *
  generalize digits6 m D Y = n at *
  refine ⟨_, ⟨Y, n, hd, hn, rfl⟩, ?_⟩
  obtain ⟨n', X, hX, hw, c1, c2⟩ : ∃ (n' : ℕ) (X : ℤ), (if n = 10 ^ 6 then (10 ^ 5, Y + 1) else (n, Y)) = (n', X) ∧
      (n : ℚ) * 10 ^ (Y - 5) = n' * 10 ^ (X - 5) ∧ 10 ^ 5 ≤ n' ∧ n' < 10 ^ 6 := by
    split
    · rename_i h
      refine ⟨_, _, rfl, ?_, le_refl _, by norm_num⟩
      subst h
      rw [show Y + 1 - 5 = (Y - 5) + 1 by ring, zpow_add_one₀ (by norm_num)]
      push_cast
      ring
    · exact ⟨_, _, rfl, rfl, b1, by omega⟩
  rw [hX, hw]
  dsimp only
  have c1 : (10 : ℚ) ^ 5 ≤ n' := by exact_mod_cast c1
  have c2 : (n' : ℚ) < 10 ^ 6 := by exact_mod_cast c2
  have e5 : (10 : ℚ) ^ 5 * 10 ^ (X - 5) = 10 ^ X := by
    rw [← zpow_natCast, ← zpow_add₀ (by norm_num)]; congr 1; push_cast; ring
  have e6 : (10 : ℚ) ^ 6 * 10 ^ (X - 5) = 10 ^ (X + 1) := by
    rw [← zpow_natCast, ← zpow_add₀ (by norm_num)]; congr 1; push_cast; ring
  have p : (0 : ℚ) < 10 ^ (X - 5) := zpow_pos (by norm_num) _
  refine ⟨X, ⟨?_, ?_⟩, ?_⟩
  · rw [← e5]; exact mul_le_mul_of_nonneg_right c1 p.le
  · rw [← e6]; exact mul_lt_mul_of_pos_right c2 p
  · by_cases h : -4 ≤ X ∧ X < 6
    · rw [if_pos h, if_pos (by omega)]
      obtain ⟨j, hj⟩ : ∃ j : ℕ, 5 - X = j := ⟨(5 - X).toNat, by omega⟩
      have := plain_spec n' j
      rw [hj, Int.toNat_natCast, show X - 5 = -(j : ℤ) by omega, zpow_neg, zpow_natCast]
      exact this
    · rw [if_neg h, if_neg (by omega)]
      refine ⟨_, _, rfl, ?_, exponent_spec⟩
      have := plain_spec n' 5
      rw [← e5, mul_div_mul_right _ _ p.ne']
      exact this

/-- **C106.** A stream writes a floating-point number with six significant digits, rounded to nearest. -/
theorem general_spec (d : BitVec 64) : IsGeneral (general d) (decode .b64 d.toNat) := by
  have hs : signField .b64 d.toNat = Fmt.b64.neg d.toNat := neg_eq (lt64 d)
  unfold general
  rw [decode_eq ok64, hs]
  unfold Fmt.isNaN Fmt.isInf
  by_cases h1 : Fmt.b64.infBits < Fmt.b64.abs d.toNat
  · rw [if_pos h1, if_pos (decide_eq_true h1)]
    cases Fmt.b64.neg d.toNat
    · exact .inl rfl
    · exact .inr rfl
  · rw [if_neg h1, if_neg (show ¬ decide (Fmt.b64.infBits < Fmt.b64.abs d.toNat) = true by simpa using h1)]
    by_cases h2 : Fmt.b64.abs d.toNat = Fmt.b64.infBits
    · rw [if_pos h2, if_pos (decide_eq_true h2)]
      cases Fmt.b64.neg d.toNat <;> rfl
    · rw [if_neg h2, if_neg (show ¬ decide (Fmt.b64.abs d.toNat = Fmt.b64.infBits) = true by simpa using h2)]
      refine ⟨_, rfl, ?_⟩
      have hx : |withSign (Fmt.b64.neg d.toNat) ((FpRound.magA Fmt.b64.mb (Fmt.b64.abs d.toNat) : ℚ) / 2 ^ Fmt.b64.unit)| =
          (Fmt.b64.mag d.toNat : ℚ) / (2 ^ Fmt.b64.unit : Nat) := by
        rw [mag_eq]
        push_cast
        unfold withSign
        split
        · rw [abs_neg, abs_of_nonneg (by positivity)]
        · rw [abs_of_nonneg (by positivity)]
      by_cases h0 : Fmt.b64.mag d.toNat = 0
      · rw [if_pos h0, if_pos]
        rw [h0, Nat.cast_zero, zero_div, abs_eq_zero] at hx
        exact hx
      · rw [if_neg h0, if_neg]
        · rw [hx]
          exact positive_spec (Nat.pos_of_ne_zero h0) (Nat.two_pow_pos _)
        · intro hc
          rw [hc, abs_zero] at hx
          have p : (0 : ℚ) < (Fmt.b64.mag d.toNat : ℚ) / (2 ^ Fmt.b64.unit : Nat) := by
            have : 0 < Fmt.b64.mag d.toNat := Nat.pos_of_ne_zero h0
            positivity
          linarith

-- 0.1, 1/3, 123456.7, 2^100, the least double, -0
example : [0x3fb999999999999a#64, 0x3fd5555555555555#64, 0x40fe240b33333333#64, 0x4630000000000000#64, 1#64, 0x8000000000000000#64].map general =
    ["0.1", "0.333333", "123457", "1.26765e+30", "4.94066e-324", "-0"].map String.toList := by decide +kernel
-- 999999.5 carries into the next power of ten; 0.0001 is the last one without exponent
example : [0x412e847f00000000#64, 0x3f1a36e2eb1c432d#64, 0x3ee4f8b588e368f1#64].map general = ["1e+06", "0.0001", "1e-05"].map String.toList := by
  decide +kernel

/-! ## Reading the text -/

/-- Six significant digits are off by at most five millionths of the number. -/
theorem sixDigits_close {v w : ℚ} (h : SixDigits v w) : |w - v| ≤ v * (5 / 10 ^ 6) := by
  obtain ⟨Y, n, hd, hn, rfl⟩ := h
  have p : (0 : ℚ) < 10 ^ (Y - 5) := zpow_pos (by norm_num) _
  have e : (10 : ℚ) ^ (5 - Y) * 10 ^ (Y - 5) = 1 := by
    rw [← zpow_add₀ (by norm_num)]; simp
  have e' : (n : ℚ) * 10 ^ (Y - 5) - v = (n - v * 10 ^ (5 - Y)) * 10 ^ (Y - 5) := by
    rw [sub_mul, mul_assoc, e, mul_one]
  rw [e', abs_mul, abs_of_pos p]
  have h1 := mul_le_mul_of_nonneg_right hn.1 p.le
  have h2 : (10 : ℚ) ^ (Y - 5) * 10 ^ 5 = 10 ^ Y := by
    rw [← zpow_natCast, ← zpow_add₀ (by norm_num)]; congr 1; push_cast; ring
  have h3 := hd.1
  rw [← h2] at h3
  linarith

theorem decade_unique {v : ℚ} {X Y : ℤ} (h : Decade v X) (h' : Decade v Y) : X = Y := by
  have h1 := (zpow_lt_zpow_iff_right₀ (by norm_num : (1 : ℚ) < 10)).1 (lt_of_le_of_lt h.1 h'.2)
  have h2 := (zpow_lt_zpow_iff_right₀ (by norm_num : (1 : ℚ) < 10)).1 (lt_of_le_of_lt h'.1 h.2)
  omega

theorem decade_pos {v : ℚ} {X : ℤ} (h : Decade v X) : 0 < v := lt_of_lt_of_le (zpow_pos (by norm_num) _) h.1

theorem nearestInt_unique {v : ℚ} {n k : ℕ} (h : NearestInt n v) (h' : NearestInt k v) : n = k := by
  by_contra hne
  have h1 := abs_le.1 h.1
  have h2 := abs_le.1 h'.1
  rcases Nat.lt_or_gt_of_ne hne with hl | hl
  · have hl' : (n : ℚ) + 1 ≤ k := by exact_mod_cast hl
    have a : (n : ℚ) - v = -(1 / 2) := by linarith [h1.1, h2.2]
    have b : (k : ℚ) - v = 1 / 2 := by linarith [h1.1, h2.2]
    have c : (k : ℚ) = n + 1 := by linarith
    have c : k = n + 1 := by exact_mod_cast c
    have := h.2 (by rw [a, abs_neg]; norm_num)
    have := h'.2 (by rw [b]; norm_num)
    omega
  · have hl' : (k : ℚ) + 1 ≤ n := by exact_mod_cast hl
    have a : (k : ℚ) - v = -(1 / 2) := by linarith [h2.1, h1.2]
    have b : (n : ℚ) - v = 1 / 2 := by linarith [h2.1, h1.2]
    have c : (n : ℚ) = k + 1 := by linarith
    have c : n = k + 1 := by exact_mod_cast c
    have := h'.2 (by rw [a, abs_neg]; norm_num)
    have := h.2 (by rw [b]; norm_num)
    omega

/-- A number has one rounding to six digits. -/
theorem sixDigits_unique {v w w' : ℚ} (h : SixDigits v w) (h' : SixDigits v w') : w = w' := by
  obtain ⟨Y, n, hd, hn, rfl⟩ := h
  obtain ⟨Y', n', hd', hn', rfl⟩ := h'
  obtain rfl := decade_unique hd hd'
  rw [nearestInt_unique hn hn']

theorem numeral_no {t : List Char} {n : ℕ} (h : IsNumeral t n) {c : Char} (hc : c.toNat < 48 ∨ 57 < c.toNat) : c ∉ t := fun hm => by
  have := h.2.1 c hm; omega

theorem plain_no_e {t : List Char} {w : ℚ} (h : IsPlain t w) : 'e' ∉ t := by
  rcases h with ⟨n, h, -⟩ | ⟨d, f, n, rfl, hd, hf, -, -⟩
  · exact numeral_no h (by decide)
  · intro hm
    rcases List.mem_append.1 hm with hm | hm
    · exact numeral_no hd (by decide) hm
    · rcases List.mem_cons.1 hm with hm | hm
      · exact absurd hm (by decide)
      · have := hf _ hm
        exact absurd this (by decide)

/-- A text without exponent denotes one number. -/
theorem plain_value {t : List Char} {w w' : ℚ} (h : IsPlain t w) (h' : IsPlain t w') : w = w' := by
  rcases h with ⟨n, h, rfl⟩ | ⟨d, f, n, rfl, hd, -, -, rfl⟩ <;> rcases h' with ⟨n', h', rfl⟩ | ⟨d', f', n', e, hd', -, -, rfl⟩
  · rw [← h.2.2.2, h'.2.2.2]
  · subst e
    exact absurd (by simp : '.' ∈ d' ++ '.' :: f') (numeral_no h (by decide))
  · exact absurd (by simp : '.' ∈ d ++ '.' :: f) (numeral_no h' (by decide))
  · obtain ⟨rfl, rfl⟩ := append_sep (numeral_no hd (by decide)) (numeral_no hd' (by decide)) e
    rw [← hd.2.2.2, hd'.2.2.2]

theorem exponent_value {t : List Char} {X X' : ℤ} (h : IsExponent t X) (h' : IsExponent t X') : X = X' := by
  obtain ⟨d, rfl, -, -, -, h⟩ := h
  obtain ⟨d', e, -, -, -, h'⟩ := h'
  rw [List.cons.injEq] at e
  obtain ⟨e, rfl⟩ := e
  rw [h] at h'
  by_cases h1 : X < 0 <;> by_cases h2 : X' < 0 <;> simp only [h1, h2, if_true, if_false] at e
  · omega
  · exact absurd e (by decide)
  · exact absurd e (by decide)
  · omega

/-- A text denotes one number. -/
theorem short_value {t : List Char} {w w' : ℚ} (h : IsShort t w) (h' : IsShort t w') : w = w' := by
  obtain ⟨X, hX, h⟩ := h
  obtain ⟨X', hX', h'⟩ := h'
  split at h <;> split at h'
  · exact plain_value h h'
  · obtain ⟨s, e, rfl, -, -⟩ := h'
    exact absurd (by simp : 'e' ∈ s ++ 'e' :: e) (plain_no_e h)
  · obtain ⟨s, e, rfl, -, -⟩ := h
    exact absurd (by simp : 'e' ∈ s ++ 'e' :: e) (plain_no_e h')
  · obtain ⟨s, e, rfl, hs, he⟩ := h
    obtain ⟨s', e', eq, hs', he'⟩ := h'
    obtain ⟨rfl, rfl⟩ := append_sep (plain_no_e hs) (plain_no_e hs') eq
    obtain rfl := exponent_value he he'
    have := plain_value hs hs'
    have p : (10 : ℚ) ^ X ≠ 0 := (zpow_pos (by norm_num) _).ne'
    field_simp at this
    exact this

theorem short_head {t : List Char} {w : ℚ} (h : IsShort t w) : ∃ c l, t = c :: l ∧ 48 ≤ c.toNat ∧ c.toNat ≤ 57 := by
  have num_head : ∀ {t n} (l : List Char), IsNumeral t n → ∃ c l', t ++ l = c :: l' ∧ 48 ≤ c.toNat ∧ c.toNat ≤ 57 := by
    intro t n l h
    cases t with
    | nil => exact absurd rfl h.1
    | cons c t => exact ⟨c, t ++ l, rfl, h.2.1 c (List.mem_cons_self ..)⟩
  have plain_head : ∀ {t w} (l : List Char), IsPlain t w → ∃ c l', t ++ l = c :: l' ∧ 48 ≤ c.toNat ∧ c.toNat ≤ 57 := by
    intro t w l h
    rcases h with ⟨n, h, -⟩ | ⟨d, f, n, rfl, hd, -⟩
    · exact num_head l h
    · rw [List.append_assoc]; exact num_head _ hd
  obtain ⟨X, -, h⟩ := h
  split at h
  · simpa using plain_head [] h
  · obtain ⟨s, e, rfl, hs, -⟩ := h
    exact plain_head _ hs

theorem short_ne_zero {w : ℚ} : ¬ IsShort ['0'] w := by
  rintro ⟨X, hX, h⟩
  split at h
  · have := plain_value h (.inl ⟨0, by unfold IsNumeral Digits; decide, rfl⟩)
    have := decade_pos hX
    simp_all
  · obtain ⟨s, e, eq, hs, -⟩ := h
    have : 'e' ∈ ['0'] := by rw [eq]; simp
    exact absurd this (by decide)

/-- Two numbers that are written alike have the same sign and differ by at most ten millionths of the greater one. -/
theorem general_read {t : List Char} {s s' : Bool} {x y : ℚ} (h : IsGeneral t (.num s x)) (h' : IsGeneral t (.num s' y)) :
    s = s' ∧ |(|x| - |y|)| ≤ max |x| |y| * (10 / 10 ^ 6) := by
  obtain ⟨d, rfl, h⟩ := h
  obtain ⟨d', e, h'⟩ := h'
  have head : ∀ {x : ℚ} {d : List Char}, (if x = 0 then d = ['0'] else ∃ w, SixDigits |x| w ∧ IsShort d w) →
      ∀ l, d ≠ '-' :: l := by
    intro x d h l hl
    split at h
    · rw [h] at hl; cases hl
    · obtain ⟨w, -, hs⟩ := h
      obtain ⟨c, l', e, h1, h2⟩ := short_head hs
      rw [hl] at e
      cases e
      exact absurd h1 (by decide)
  have hs : s = s' ∧ d = d' := by
    cases s <;> cases s' <;> simp only [if_true, if_false, List.nil_append, List.singleton_append, Bool.false_eq_true] at e
    · exact ⟨rfl, e⟩
    · exact absurd e (head h _)
    · exact absurd e.symm (head h' _)
    · exact ⟨rfl, (List.cons.injEq .. ▸ e).2⟩
  obtain ⟨rfl, rfl⟩ := hs
  refine ⟨rfl, ?_⟩
  split at h <;> split at h'
  · rename_i h0 h0'; rw [h0, h0']; simp
  · obtain ⟨w, -, hs⟩ := h'
    rw [h] at hs
    exact absurd hs short_ne_zero
  · obtain ⟨w, -, hs⟩ := h
    rw [h'] at hs
    exact absurd hs short_ne_zero
  · obtain ⟨w, h1, hs⟩ := h
    obtain ⟨w', h2, hs'⟩ := h'
    obtain rfl := short_value hs hs'
    have c1 := abs_le.1 (sixDigits_close h1)
    have c2 := abs_le.1 (sixDigits_close h2)
    have m1 := le_max_left |x| |y|
    have m2 := le_max_right |x| |y|
    rw [abs_le]
    constructor <;> linarith [c1.1, c1.2, c2.1, c2.2]

theorem num_head {t : List Char} {s : Bool} {x : ℚ} (h : IsGeneral t (.num s x)) :
    ∃ c l, t = (if s then ['-'] else []) ++ c :: l ∧ 48 ≤ c.toNat ∧ c.toNat ≤ 57 := by
  obtain ⟨d, rfl, h⟩ := h
  split at h
  · exact ⟨'0', [], by rw [h], by decide⟩
  · obtain ⟨w, -, hs⟩ := h
    obtain ⟨c, l, rfl, hc⟩ := short_head hs
    exact ⟨c, l, rfl, hc⟩

/-- What is written alike is alike. -/
theorem general_alike {t : List Char} {a b : Datum} (h : IsGeneral t a) (h' : IsGeneral t b) : Alike a b := by
  have clash : ∀ {s s' : Bool} {x : ℚ} {c : Char} {l : List Char}, IsGeneral t (.num s x) → (c = 'n' ∨ c = 'i') →
      t = (if s' then ['-'] else []) ++ c :: l → False := by
    intro s s' x c l hn hc ht
    obtain ⟨c', l', e, hc'⟩ := num_head hn
    rw [ht] at e
    cases s <;> cases s' <;> simp at e
    · rcases hc with rfl | rfl <;> rw [← e.1] at hc' <;> exact absurd hc'.2 (by decide)
    · rw [← e.1] at hc'; exact absurd hc'.1 (by decide)
    · rcases hc with rfl | rfl <;> exact absurd e.1 (by decide)
    · rcases hc with rfl | rfl <;> rw [← e.1] at hc' <;> exact absurd hc'.2 (by decide)
  have nan : IsGeneral t .nan → ∃ s : Bool, t = (if s then ['-'] else []) ++ 'n' :: ['a', 'n'] := fun h =>
    h.elim (fun h => ⟨false, h⟩) (fun h => ⟨true, h⟩)
  have inf : ∀ {s : Bool}, IsGeneral t (.inf s) → t = (if s then ['-'] else []) ++ 'i' :: ['n', 'f'] := by
    intro s h; cases s <;> exact h
  have nanInf : ∀ {s : Bool}, IsGeneral t .nan → IsGeneral t (.inf s) → False := by
    intro s h h'
    obtain ⟨s', h⟩ := nan h
    rw [inf h'] at h
    revert h
    cases s <;> cases s' <;> decide
  cases a with
  | nan => cases b with
    | nan => trivial
    | inf s => exact nanInf h h'
    | num s y => obtain ⟨s', h⟩ := nan h; exact clash h' (.inl rfl) h
  | inf s => cases b with
    | nan => exact nanInf h' h
    | inf s' =>
      have e := (inf h).symm.trans (inf h')
      show s = s'
      revert e
      cases s <;> cases s' <;> decide
    | num s' y => exact clash h' (.inr rfl) (inf h)
  | num s x => cases b with
    | nan => obtain ⟨s', h'⟩ := nan h'; exact clash h (.inl rfl) h'
    | inf s' => exact clash h (.inr rfl) (inf h')
    | num s' y => exact general_read h h'

theorem plain_no_comma {t : List Char} {w : ℚ} (h : IsPlain t w) : ',' ∉ t := by
  rcases h with ⟨n, h, -⟩ | ⟨d, f, n, rfl, hd, hf, -, -⟩
  · exact numeral_no h (by decide)
  · intro hm
    rcases List.mem_append.1 hm with hm | hm
    · exact numeral_no hd (by decide) hm
    · rcases List.mem_cons.1 hm with hm | hm
      · exact absurd hm (by decide)
      · exact absurd (hf _ hm) (by decide)

theorem general_no_comma {t : List Char} {a : Datum} (h : IsGeneral t a) : ',' ∉ t := by
  cases a with
  | nan => rcases h with rfl | rfl <;> decide
  | inf s => cases s <;> (subst h; decide)
  | num s x =>
    obtain ⟨d, rfl, h⟩ := h
    have : ',' ∉ d := by
      split at h
      · subst h; decide
      · obtain ⟨w, -, X, -, h⟩ := h
        split at h
        · exact plain_no_comma h
        · obtain ⟨m, e, rfl, hm, e', rfl, he, -⟩ := h
          intro hc
          rcases List.mem_append.1 hc with hc | hc
          · exact plain_no_comma hm hc
          · rcases List.mem_cons.1 hc with hc | hc
            · exact absurd hc (by decide)
            · rcases List.mem_cons.1 hc with hc | hc
              · split at hc <;> exact absurd hc (by decide)
              · exact absurd (he _ hc) (by decide)
    cases s <;> simpa using this

theorem commas_alike {n : ℕ} {f g : Fin n → List Char} {a b : Fin n → Datum} (hf : ∀ i, IsGeneral (f i) (a i))
    (hg : ∀ i, IsGeneral (g i) (b i)) (h : commas (List.ofFn f) = commas (List.ofFn g)) (i : Fin n) : Alike (a i) (b i) := by
  have := intercalate_injective ',' [' '] _ _ (by simp) (by
    intro w hw; obtain ⟨i, rfl⟩ := List.mem_ofFn.1 hw; exact general_no_comma (hf _)) (by
    intro w hw; obtain ⟨i, rfl⟩ := List.mem_ofFn.1 hw; exact general_no_comma (hg _)) h
  have e := ofFn_inj this i
  exact general_alike (hf i) (e ▸ hg i)

/-! ## Printed registers -/

theorem general_wide (b : BitVec 32) : IsGeneral (general (Val.toF64 (.f32 b))) (decode .b32 b.toNat) := datum_wide b ▸ general_spec _

/-- A printed `float32x2_t`: the numbers with six digits, separated by commas. -/
theorem put_f32x2_text (os : Stream) (v : float32x2_t) : ∃ t : Fin 2 → List Char,
    @put_f32x2 defaultText os v = .ok (os ++ commas (List.ofFn t)) ∧ ∀ i, IsGeneral (t i) (decode .b32 (v.lane i).toNat) :=
  ⟨_, @put_f32x2_spec defaultText os v, fun _ => general_wide _⟩

/-- A printed `float32x4_t`. -/
theorem put_f32x4_text (os : Stream) (v : float32x4_t) : ∃ t : Fin 4 → List Char,
    @put_f32x4 defaultText os v = .ok (os ++ commas (List.ofFn t)) ∧ ∀ i, IsGeneral (t i) (decode .b32 (v.lane i).toNat) :=
  ⟨_, @put_f32x4_spec defaultText os v, fun _ => general_wide _⟩

/-- A printed `float64x1_t`. -/
theorem put_f64x1_text (os : Stream) (v : float64x1_t) : ∃ t : Fin 1 → List Char,
    @put_f64x1 defaultText os v = .ok (os ++ commas (List.ofFn t)) ∧ ∀ i, IsGeneral (t i) (decode .b64 (v.lane i).toNat) :=
  ⟨_, @put_f64x1_spec defaultText os v, fun _ => general_spec _⟩

/-- A printed `float64x2_t`. -/
theorem put_f64x2_text (os : Stream) (v : float64x2_t) : ∃ t : Fin 2 → List Char,
    @put_f64x2 defaultText os v = .ok (os ++ commas (List.ofFn t)) ∧ ∀ i, IsGeneral (t i) (decode .b64 (v.lane i).toNat) :=
  ⟨_, @put_f64x2_spec defaultText os v, fun _ => general_spec _⟩

/-- `float32x2_t` registers that are printed alike have lanes that six digits may not tell apart. -/
theorem put_f32x2_alike (os : Stream) (v w : float32x2_t) (h : @put_f32x2 defaultText os v = @put_f32x2 defaultText os w) (i : Fin 2) :
    Alike (decode .b32 (v.lane i).toNat) (decode .b32 (w.lane i).toNat) := by
  obtain ⟨t, e, ht⟩ := put_f32x2_text os v
  obtain ⟨t', e', ht'⟩ := put_f32x2_text os w
  exact commas_alike ht ht' (ok_append (e.symm.trans (h.trans e'))) i

/-- The same for `float32x4_t`. -/
theorem put_f32x4_alike (os : Stream) (v w : float32x4_t) (h : @put_f32x4 defaultText os v = @put_f32x4 defaultText os w) (i : Fin 4) :
    Alike (decode .b32 (v.lane i).toNat) (decode .b32 (w.lane i).toNat) := by
  obtain ⟨t, e, ht⟩ := put_f32x4_text os v
  obtain ⟨t', e', ht'⟩ := put_f32x4_text os w
  exact commas_alike ht ht' (ok_append (e.symm.trans (h.trans e'))) i

/-- The same for `float64x1_t`. -/
theorem put_f64x1_alike (os : Stream) (v w : float64x1_t) (h : @put_f64x1 defaultText os v = @put_f64x1 defaultText os w) (i : Fin 1) :
    Alike (decode .b64 (v.lane i).toNat) (decode .b64 (w.lane i).toNat) := by
  obtain ⟨t, e, ht⟩ := put_f64x1_text os v
  obtain ⟨t', e', ht'⟩ := put_f64x1_text os w
  exact commas_alike ht ht' (ok_append (e.symm.trans (h.trans e'))) i

/-- The same for `float64x2_t`. -/
theorem put_f64x2_alike (os : Stream) (v w : float64x2_t) (h : @put_f64x2 defaultText os v = @put_f64x2 defaultText os w) (i : Fin 2) :
    Alike (decode .b64 (v.lane i).toNat) (decode .b64 (w.lane i).toNat) := by
  obtain ⟨t, e, ht⟩ := put_f64x2_text os v
  obtain ⟨t', e', ht'⟩ := put_f64x2_text os w
  exact commas_alike ht ht' (ok_append (e.symm.trans (h.trans e'))) i

/-- Unlike integer registers, float registers that differ can be printed alike: 1000000 and 1000001 are both `1e+06`. -/
theorem put_f32x4_blind_wrong (os : Stream) : ∃ v w : float32x4_t, v ≠ w ∧
    @put_f32x4 defaultText os v = @put_f32x4 defaultText os w ∧
    @put_f32x4 defaultText os v = .ok (os ++ "1e+06, 1e+06, 1e+06, 1e+06".toList) ∧
    decode .b32 (v.lane 0).toNat = .num false 1000000 ∧ decode .b32 (w.lane 0).toNat = .num false 1000001 := by
  have t : general (Val.toF64 (.f32 0x49742400#32)) = "1e+06".toList := by decide +kernel
  have t' : general (Val.toF64 (.f32 0x49742410#32)) = "1e+06".toList := by decide +kernel
  have p : @put_f32x4 defaultText os ⟨fun _ => 0x49742400#32⟩ = .ok (os ++ "1e+06, 1e+06, 1e+06, 1e+06".toList) := by
    rw [@put_f32x4_spec defaultText]
    show C.ok (os ++ commas (List.ofFn fun _ : Fin 4 => general (Val.toF64 (.f32 0x49742400#32)))) = _
    rw [t]; rfl
  have p' : @put_f32x4 defaultText os ⟨fun _ => 0x49742410#32⟩ = .ok (os ++ "1e+06, 1e+06, 1e+06, 1e+06".toList) := by
    rw [@put_f32x4_spec defaultText]
    show C.ok (os ++ commas (List.ofFn fun _ : Fin 4 => general (Val.toF64 (.f32 0x49742410#32)))) = _
    rw [t']; rfl
  refine ⟨_, _, ?_, p.trans p'.symm, p, ?_, ?_⟩
  · intro h
    exact absurd (congrArg (fun v : float32x4_t => v.lane 0) h) (by decide)
  · exact (congrArg (fun b : BitVec 32 => decode .b32 b.toNat) (by decide +kernel : (0x49742400#32) = Val.toF32 (.int .i32 1000000))).trans
      (datum_toF32 (by decide))
  · exact (congrArg (fun b : BitVec 32 => decode .b32 b.toNat) (by decide +kernel : (0x49742410#32) = Val.toF32 (.int .i32 1000001))).trans
      (datum_toF32 (by decide))

/-! ## Integers -/

theorem value_snoc (l : List Char) (c : Char) : value (l ++ [c]) = 10 * value l + (c.toNat - 48) := by simp [value]

theorem value_pos {c : Char} {l : List Char} (hd : Digits (c :: l)) (hc : c ≠ '0') : 0 < value (c :: l) := by
  have key : ∀ (l : List Char) (a : ℕ), 0 < a → 0 < l.foldl (fun n c => 10 * n + (c.toNat - 48)) a := by
    intro l
    induction l with
    | nil => exact fun a h => h
    | cons d l ih => exact fun a h => ih _ (by show 0 < 10 * a + (d.toNat - 48); omega)
  refine key l (10 * 0 + (c.toNat - 48)) ?_
  have h1 := hd c (List.mem_cons_self ..)
  have : c.toNat ≠ 48 := fun h => hc (Char.toNat_inj.1 h)
  omega

/-- A natural number has one numeral. -/
theorem numeral_unique {t t' : List Char} {n : ℕ} (h : IsNumeral t n) (h' : IsNumeral t' n) : t = t' := by
  have cut : ∀ {t : List Char} {n : ℕ}, IsNumeral t n → ∃ l c, t = l ++ [c] ∧ 48 ≤ c.toNat ∧ c.toNat = 48 + n % 10 ∧
      (l = [] ∧ n < 10 ∨ 10 ≤ n ∧ IsNumeral l (n / 10)) := by
    intro t n h
    obtain ⟨h0, hd, hh, hv⟩ := h
    obtain ⟨l, c, rfl⟩ : ∃ l c, t = l ++ [c] := ⟨t.dropLast, t.getLast h0, (List.dropLast_append_getLast h0).symm⟩
    rw [value_snoc] at hv
    have hc := hd c (by simp)
    refine ⟨l, c, rfl, hc.1, by omega, ?_⟩
    cases l with
    | nil => exact .inl ⟨rfl, by simp [value] at hv; omega⟩
    | cons a l =>
      have ha : a ≠ '0' := fun e => hh (by simp) (by simp [e])
      have hdl : Digits (a :: l) := fun c hc => hd c (by simp only [List.mem_append]; exact .inl hc)
      have := value_pos hdl ha
      exact .inr ⟨by omega, by simp, hdl, fun _ => by simpa using ha, by omega⟩
  induction n using Nat.strongRecOn generalizing t t' with
  | ind n ih =>
    obtain ⟨l, c, rfl, -, hc, hl⟩ := cut h
    obtain ⟨l', c', rfl, -, hc', hl'⟩ := cut h'
    have e : c = c' := Char.toNat_inj.1 (hc.trans hc'.symm)
    have : l = l' := by
      rcases hl with ⟨rfl, hl⟩ | ⟨hl, hn⟩ <;> rcases hl' with ⟨rfl, hl'⟩ | ⟨hl', hn'⟩
      · rfl
      · omega
      · omega
      · exact ih (n / 10) (by omega) hn hn'
    rw [e, this]

theorem value_lt (l : List Char) (h : Digits l) : value l < 10 ^ l.length := by
  induction l using List.reverseRecOn with
  | nil => decide
  | append_singleton l c ih =>
    have := ih fun c hc => h c (by simp [hc])
    have hc := h c (by simp)
    rw [value_snoc, List.length_append, List.length_singleton, pow_succ]
    omega

/-- A number without exponent that is an integer is written as a numeral. -/
theorem plain_int {t : List Char} {n : ℕ} (h : IsPlain t n) : IsNumeral t n := by
  rcases h with ⟨k, h, e⟩ | ⟨d, f, k, rfl, hd, hf, ⟨c, hc, hz⟩, e⟩
  · have : n = k := by exact_mod_cast e
    rw [this]; exact h
  · exfalso
    have hlt := value_lt f hf
    have hpos : 0 < value f := by
      obtain ⟨l, rfl⟩ : ∃ l, f = l ++ [c] := by
        have h0 : f ≠ [] := fun h => by simp [h] at hc
        rw [List.getLast?_eq_getLast_of_ne_nil h0] at hc
        exact ⟨f.dropLast, by rw [← Option.some.inj hc]; exact (List.dropLast_append_getLast h0).symm⟩
      have := hf c (by simp)
      have : c.toNat ≠ 48 := fun h => hz (Char.toNat_inj.1 h)
      rw [value_snoc]; omega
    have p : (0 : ℚ) < 10 ^ f.length := by positivity
    have e' : ((n : ℚ) - k) * 10 ^ f.length = value f := by rw [e]; field_simp; ring
    have e'' : ((n : ℤ) - k) * 10 ^ f.length = value f := by exact_mod_cast e'
    have h1 : (0 : ℤ) < value f := by exact_mod_cast hpos
    have h2 : (value f : ℤ) < 10 ^ f.length := by exact_mod_cast hlt
    have p' : (0 : ℤ) < 10 ^ f.length := by positivity
    rw [← e''] at h1 h2
    have h3 : 0 < (n : ℤ) - k := pos_of_mul_pos_left h1 p'.le
    nlinarith

/-- An integer below a million is its own rounding to six digits. -/
theorem sixDigits_int {n : ℕ} (h0 : 0 < n) (h : n < 10 ^ 6) : ∃ X : ℤ, Decade (n : ℚ) X ∧ X ≤ 5 ∧ 0 ≤ X ∧ SixDigits n n := by
  have hl : Nat.log 10 n ≤ 5 := by
    have := Nat.log_lt_of_lt_pow (b := 10) h0.ne' h
    omega
  have hd : Decade (n : ℚ) (Nat.log 10 n : ℕ) := by
    constructor
    · rw [zpow_natCast]; exact_mod_cast Nat.pow_log_le_self 10 h0.ne'
    · have := Nat.lt_pow_succ_log_self (b := 10) (by decide) n
      rw [show ((Nat.log 10 n : ℕ) : ℤ) + 1 = ((Nat.log 10 n + 1 : ℕ) : ℤ) by push_cast; ring, zpow_natCast]
      exact_mod_cast this
  refine ⟨_, hd, by omega, by omega, _, n * 10 ^ (5 - Nat.log 10 n), hd, ?_, ?_⟩
  · have e : ((n * 10 ^ (5 - Nat.log 10 n) : ℕ) : ℚ) - n * 10 ^ (5 - ((Nat.log 10 n : ℕ) : ℤ)) = 0 := by
      rw [show 5 - ((Nat.log 10 n : ℕ) : ℤ) = ((5 - Nat.log 10 n : ℕ) : ℤ) by omega, zpow_natCast]
      push_cast; ring
    unfold NearestInt
    rw [e]
    norm_num
  · push_cast
    rw [← zpow_natCast, mul_assoc, ← zpow_add₀ (by norm_num), show ((5 - Nat.log 10 n : ℕ) : ℤ) + ((Nat.log 10 n : ℕ) - 5) = 0 by omega]
    simp

/-- An integer below a million is written as an integer is. -/
theorem general_int {d : BitVec 64} {v : ℤ} (h : decode .b64 d.toNat = .num (decide (v < 0)) v) (hv : v.natAbs < 10 ^ 6) :
    general d = num v := by
  obtain ⟨t, e, ht⟩ : IsGeneral (general d) (.num (decide (v < 0)) v) := h ▸ general_spec d
  have key : IsNumeral t v.natAbs := by
    have ha : |(v : ℚ)| = (v.natAbs : ℕ) := by rw [Nat.cast_natAbs]; push_cast; rfl
    split at ht
    · rename_i h0
      have : v = 0 := by exact_mod_cast h0
      subst this ht
      exact num_numeral 0
    · rename_i h0
      obtain ⟨w, hw, X, hX, hs⟩ := ht
      have hp : 0 < v.natAbs := Int.natAbs_pos.2 fun h => h0 (by rw [h]; rfl)
      obtain ⟨X', hX', h5, h0', h6⟩ := sixDigits_int hp hv
      rw [ha] at hw
      obtain rfl := sixDigits_unique hw h6
      obtain rfl := decade_unique hX hX'
      rw [if_pos (by omega)] at hs
      exact plain_int hs
  have hn := num_decimal v
  unfold IsDecimal at hn
  rw [e]
  by_cases hv0 : v < 0
  · rw [if_pos hv0] at hn
    obtain ⟨t', e', hn⟩ := hn
    rw [e', numeral_unique key hn]
    simp [hv0]
  · rw [if_neg hv0] at hn
    rw [numeral_unique key hn]
    simp [hv0]

example : general 0x40c3880000000000#64 = num 10000 := by decide +kernel
example : general (Val.toF64 (.int .i32 (-999999))) = num (-999999) := general_int (datum_toF64 (by decide)) (by decide)

/-! ## The messages of `almostEqual` -/

/-- The line names the lane, the two values and, with six digits, the difference and the tolerance. -/
theorem report_text (r : Report) : ∃ i a e d p : List Char,
    r.text = "array[".toList ++ i ++ "] (".toList ++ a ++ ") != expected[".toList ++ i ++ "] (".toList ++ e ++ "), diff = ".toList ++ d ++
      ", EPS = ".toList ++ p ++ ['\n'] ∧
    IsDecimal i r.index ∧ IsDecimal a r.actual ∧ IsDecimal e r.expected ∧
    IsGeneral d (decode .b64 r.diff.toNat) ∧ IsGeneral p (decode .b64 r.eps.toNat) :=
  ⟨_, _, _, _, _, rfl, num_decimal _, num_decimal _, num_decimal _, general_spec _, general_spec _⟩

example : Report.text ⟨3, 7, 9, 0x4000000000000000#64, 0x3fe0000000000000#64⟩ =
    "array[3] (7) != expected[3] (9), diff = 2, EPS = 0.5\n".toList := by decide +kernel

/-- A message can show a difference that exceeds the tolerance as equal to it: `diff = 1, EPS = 1`. -/
theorem report_blind_wrong : ∃ (e a : float32x4_t) (eps : BitVec 64) (r : Report), @almostEqual_f32x4 .strict e a eps = .ok (some r) ∧
    r.text = "array[0] (0) != expected[0] (1), diff = 1, EPS = 1\n".toList := by
  refine ⟨⟨fun _ => 0x3f800001#32⟩, ⟨fun _ => 0#32⟩, 0x3ff0000000000000#64, ⟨0, 0, 1, 0x3ff0000020000000#64, 0x3ff0000000000000#64⟩, ?_, ?_⟩
  · decide +kernel
  · decide +kernel

end Verif.Props
