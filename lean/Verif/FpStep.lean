import Verif.FpMono

/-! # Spacing of the numbers of a format, and rounding through `double` -/

namespace Verif.FpOps
open Verif.Spec Verif.FpRound

/-- Different magnitudes are relatively far apart. -/
theorem magA_gap (mb : Nat) {a b : Nat} (h : a ≠ b) :
    magA mb a ≤ ((magA mb a : Int) - magA mb b).natAbs * 2 ^ (mb + 2) := by
  have hne : magA mb a ≠ magA mb b := fun e => h (magA_inj mb e)
  generalize hM : magA mb a = M at *
  generalize hN : magA mb b = N at *
  rcases Nat.lt_or_ge M (2 ^ (mb + 2)) with hs | hs
  · have : 1 ≤ ((M : Int) - N).natAbs := by omega
    calc M ≤ 1 * 2 ^ (mb + 2) := by omega
      _ ≤ _ := Nat.mul_le_mul_right _ this
  · -- the largest `k` with `2^mb * 2^k ≤ M / 2`
    have h0 : M ≠ 0 := by have := Nat.two_pow_pos (mb + 2); omega
    have hl : mb + 2 ≤ M.log2 := (Nat.le_log2 h0).2 hs
    obtain ⟨k, hk⟩ : ∃ k, M.log2 = mb + 1 + k := ⟨M.log2 - (mb + 1), by omega⟩
    have h1 : 2 ^ (mb + 1 + k) ≤ M := hk ▸ Nat.log2_self_le h0
    have h2 : M < 2 ^ (mb + 1 + k + 1) := by rw [← hk]; exact Nat.lt_log2_self
    have e1 : 2 ^ (mb + 1 + k) = 2 * (2 ^ mb * 2 ^ k) := by rw [pow_add, pow_succ]; ring
    have e2 : 2 ^ (mb + 1 + k + 1) = 2 ^ k * 2 ^ (mb + 2) := by
      rw [show mb + 1 + k + 1 = k + (mb + 2) by omega, pow_add]
    rw [e1] at h1
    rw [e2] at h2
    have hM' : 2 ^ k ∣ M := by
      rcases magA_cases mb a k with h | h
      · rwa [hM] at h
      · rw [hM] at h
        have : 0 < 2 ^ mb * 2 ^ k := by positivity
        omega
    rcases magA_cases mb b k with h | h
    · rw [hN] at h
      obtain ⟨m, rfl⟩ := hM'
      obtain ⟨n, rfl⟩ := h
      have hmn : m ≠ n := fun e => hne (by rw [e])
      have : 2 ^ k ≤ (((2 ^ k * m : Nat) : Int) - ((2 ^ k * n : Nat) : Int)).natAbs := by
        push_cast
        rw [← Int.mul_sub, Int.natAbs_mul, Int.natAbs_pow]
        have : 1 ≤ ((m : Int) - n).natAbs := by omega
        calc 2 ^ k = 2 ^ k * 1 := by ring
          _ ≤ _ := Nat.mul_le_mul_left _ this
      calc 2 ^ k * m ≤ 2 ^ k * 2 ^ (mb + 2) := Nat.le_of_lt h2
        _ ≤ _ := Nat.mul_le_mul_right _ this
    · rw [hN] at h
      have h4 : M ≤ 2 * ((M : Int) - N).natAbs := by omega
      calc M ≤ 2 * ((M : Int) - N).natAbs := h4
        _ ≤ ((M : Int) - N).natAbs * 2 ^ (mb + 2) := by
          have : 2 ≤ 2 ^ (mb + 2) := by
            calc 2 = 2 ^ 1 := rfl
              _ ≤ _ := Nat.pow_le_pow_right (by decide) (by omega)
          rw [Nat.mul_comm]
          exact Nat.mul_le_mul_left _ this

section
variable {f : Fmt} (ok : Ok f)

include ok in
/-- Different numbers of a format are relatively far apart. -/
theorem num_gap {s t : Bool} {c y : ℚ} {a b : Nat} (hc : decode f a = .num s c) (hy : decode f b = .num t y)
    (hne : y ≠ c) : |c| ≤ |y - c| * 2 ^ (f.mb + 2) := by
  have ec := decode_num ok hc
  have ey := decode_num ok hy
  have hU : (0 : ℚ) < 2 ^ f.unit := by positivity
  generalize hA : magA f.mb (f.abs a) = A at ec
  generalize hB : magA f.mb (f.abs b) = B at ey
  have hac : |c| = (A : ℚ) / 2 ^ f.unit := by rw [ec, withSign_abs _ (by positivity)]
  by_cases hst : s = t
  · subst hst
    have hab : f.abs a ≠ f.abs b := by
      intro e
      apply hne
      rw [ec, ey, ← hA, ← hB, e]
    have := magA_gap f.mb hab
    rw [hA, hB] at this
    have hd : |y - c| = |(A : ℚ) - B| / 2 ^ f.unit := by
      rw [ec, ey, withSign_sub, ← sub_div, abs_div, abs_of_pos hU, abs_sub_comm]
    have hn : |(A : ℚ) - B| = (((A : Int) - B).natAbs : ℚ) := by
      rw [Nat.cast_natAbs]; push_cast; rfl
    rw [hac, hd, hn, div_mul_eq_mul_div]
    apply div_le_div_of_nonneg_right _ (le_of_lt hU)
    exact_mod_cast this
  · have hd : |y - c| = ((A : ℚ) + B) / 2 ^ f.unit := by
      have : t = !s := by cases s <;> cases t <;> simp_all
      rw [ec, ey, this, withSign_sub_not, ← add_div, abs_div, abs_of_pos hU, abs_of_nonneg (by positivity), add_comm]
    rw [hac, hd, div_mul_eq_mul_div]
    apply div_le_div_of_nonneg_right _ (le_of_lt hU)
    have : (1 : ℚ) ≤ 2 ^ (f.mb + 2) := one_le_pow₀ (by norm_num)
    nlinarith [show (0 : ℚ) ≤ A by positivity, show (0 : ℚ) ≤ B by positivity]

include ok in
/-- A nonzero number is the rounding of everything much closer to it than its neighbours. -/
theorem rounded_close {zs s t : Bool} {x v c : ℚ} {r b : Nat} (h : Rounded f zs x r)
    (d : decode f r = .num t v) (hc : decode f b = .num s c) (hx : |x - c| * 2 ^ (f.mb + 3) < |c|) : v = c := by
  by_contra hne
  have h1 := rounded_near h d hc
  have h2 := num_gap ok hc d hne
  have h3 : |v - c| ≤ |v - x| + |x - c| := by
    have := abs_add_le (v - x) (x - c)
    rwa [sub_add_sub_cancel] at this
  rw [abs_sub_comm c x] at h1
  have e : (2 : ℚ) ^ (f.mb + 3) = 2 * 2 ^ (f.mb + 2) := by ring
  have hp : (0 : ℚ) < 2 ^ (f.mb + 2) := by positivity
  have h4 : |v - c| * 2 ^ (f.mb + 2) ≤ (2 * |x - c|) * 2 ^ (f.mb + 2) :=
    mul_le_mul_of_nonneg_right (by linarith) (le_of_lt hp)
  rw [e] at hx
  linarith

/-- Being the rounding of a nonzero number depends only on the encoded number. -/
theorem rounded_congr (ok : Ok f) {zs s : Bool} {x v : ℚ} {r r' : Nat} (h : Rounded f zs x r)
    (d : decode f r = .num s v) (d' : decode f r' = .num s v) : Rounded f zs x r' := by
  unfold Rounded at h ⊢
  split at h
  · rename_i h0
    rw [if_pos h0, d', ← d, h]
  · rename_i h0
    rw [if_neg h0]
    have hf : fracField f r' = fracField f r := by
      have e1 := decode_num ok d
      have e2 := decode_num ok d'
      have e3 : withSign s ((magA f.mb (f.abs r) : ℚ) / 2 ^ f.unit) = withSign s ((magA f.mb (f.abs r') : ℚ) / 2 ^ f.unit) := by
        rw [← e1, ← e2]
      have e4 : (magA f.mb (f.abs r) : ℚ) / 2 ^ f.unit = (magA f.mb (f.abs r') : ℚ) / 2 ^ f.unit := by
        unfold withSign at e3
        split at e3
        · linarith
        · exact e3
      rw [div_left_inj' (by positivity)] at e4
      have e5 := magA_inj f.mb (Nat.cast_injective e4)
      rw [fracField_eq, fracField_eq, e5]
    refine ⟨fun ho => ?_, fun ho => ?_⟩
    · have := h.overflow ho
      rw [d] at this
      cases this
    · obtain ⟨w, hw, n1, n2⟩ := h.nearest ho
      refine ⟨w, ?_, n1, ?_⟩
      · rw [d', ← d, hw]
      · rw [hf]; exact n2

include ok in
/-- Where numbers of the format are at most `2^j` units apart, rounding moves a number by half of it. -/
theorem rounded_grid {zs s : Bool} {x v : ℚ} {r : Nat} (h : Rounded f zs x r) (d : decode f r = .num s v) (j : Nat)
    (hx : |x| ≤ 2 ^ (f.mb + 1) * (2 ^ j / 2 ^ f.unit)) (hj : j + 3 < 2 ^ f.eb) :
    |v - x| ≤ 2 ^ j / 2 ^ f.unit / 2 := by
  have hg0 : (0 : ℚ) < 2 ^ j / 2 ^ f.unit := by positivity
  set g : ℚ := 2 ^ j / 2 ^ f.unit with hg
  set k := ⌊|x| / g + 1 / 2⌋₊ with hk
  have hp : 0 ≤ |x| / g + 1 / 2 := by positivity
  have h1 : (k : ℚ) ≤ |x| / g + 1 / 2 := Nat.floor_le hp
  have h2 : |x| / g + 1 / 2 < k + 1 := Nat.lt_floor_add_one _
  have hxg : |x| / g ≤ 2 ^ (f.mb + 1) := by rw [div_le_iff₀ hg0]; exact hx
  have hk' : k ≤ 2 ^ (f.mb + 1) := by
    have : (k : ℚ) < ((2 ^ (f.mb + 1) + 1 : ℕ) : ℚ) := by
      push_cast
      linarith
    have := Nat.cast_lt.1 this
    omega
  have hrep : ∃ b, decode f b = .num (decide (x < 0)) (withSign (decide (x < 0)) ((k : ℚ) * g)) := by
    have hup : (2 : ℕ) ^ (f.mb + 1) * 2 ^ j ≤ 2 ^ f.mb * 2 ^ (2 ^ f.eb - 2) := by
      rw [pow_succ, Nat.mul_assoc, ← pow_succ']
      exact Nat.mul_le_mul_left _ (Nat.pow_le_pow_right (by decide) (by omega))
    rcases Nat.lt_or_eq_of_le hk' with hl | he
    · obtain ⟨b, -, hb⟩ := representable ok (decide (x < 0)) k j (by rw [pow_succ] at hl; omega)
        (lt_of_lt_of_le (Nat.mul_lt_mul_of_pos_right hl (by positivity)) hup)
      exact ⟨b, by rw [hb, mul_div_assoc]⟩
    · obtain ⟨b, -, hb⟩ := representable ok (decide (x < 0)) 1 (f.mb + 1 + j)
        (by have := Nat.two_pow_pos f.mb; omega)
        (by
          rw [Nat.one_mul, ← pow_add]
          exact Nat.pow_lt_pow_right (by decide) (by generalize 2 ^ f.eb = q at hj; omega))
      refine ⟨b, ?_⟩
      rw [hb, he, hg, pow_add]
      push_cast
      rw [one_mul, mul_div_assoc]
  obtain ⟨b, hb⟩ := hrep
  refine le_trans (rounded_near h d hb) ?_
  have hxs : x = withSign (decide (x < 0)) |x| := by
    unfold withSign
    by_cases h0 : x < 0
    · rw [if_pos (by simpa using h0), abs_of_neg h0]; ring
    · rw [if_neg (by simpa using h0), abs_of_nonneg (not_lt.1 h0)]
  conv_lhs => rw [hxs]
  have : decide (withSign (decide (x < 0)) |x| < 0) = decide (x < 0) := by rw [← hxs]
  rw [this, withSign_sub, abs_le]
  have e : |x| = |x| / g * g := by field_simp
  constructor <;> nlinarith

include ok in
/-- A number of at least `2^(mb+j)` units is a multiple of `2^j` units. -/
theorem num_multiple {s : Bool} {v : ℚ} {b : Nat} (d : decode f b = .num s v) (j : Nat)
    (hv : 2 ^ f.mb * (2 ^ j / 2 ^ f.unit) ≤ |v|) : ∃ n : Nat, v = withSign s ((n : ℚ) * (2 ^ j / 2 ^ f.unit)) := by
  have e := decode_num ok d
  have hU : (0 : ℚ) < 2 ^ f.unit := by positivity
  rcases magA_cases f.mb (f.abs b) j with h | h
  · obtain ⟨n, hn⟩ := h
    refine ⟨n, ?_⟩
    rw [e, hn]
    push_cast
    congr 1
    ring
  · exfalso
    rw [e, withSign_abs _ (by positivity), ← mul_div_assoc, div_le_div_iff_of_pos_right hU] at hv
    have : (2 : ℚ) ^ f.mb * 2 ^ j ≤ (magA f.mb (f.abs b) : ℚ) := hv
    have h' : ((magA f.mb (f.abs b) : ℕ) : ℚ) < 2 ^ f.mb * 2 ^ j := by exact_mod_cast h
    linarith

include ok in
/-- The largest number. -/
theorem num_max {s : Bool} {c : ℚ} {b : Nat} (d : decode f b = .num s c) :
    |c| ≤ (2 * 2 ^ f.mb - 1) * 2 ^ (2 ^ f.eb - 3) / 2 ^ f.unit := by
  have e := decode_num ok d
  have hl := decode_num_lt ok d
  have hU : (0 : ℚ) < 2 ^ f.unit := by positivity
  rw [e, withSign_abs _ (by positivity), div_le_div_iff_of_pos_right hU]
  have he : 2 ^ 2 ≤ 2 ^ f.eb := Nat.pow_le_pow_right (by decide) ok.eb
  have hle : f.abs b ≤ (2 ^ f.eb - 3) * 2 ^ f.mb + (2 * 2 ^ f.mb - 1) := by
    rw [infBits_eq f ok.eb] at hl; omega
  have hP := Nat.two_pow_pos f.mb
  have hmono : magA f.mb (f.abs b) ≤ (2 * 2 ^ f.mb - 1) * 2 ^ (2 ^ f.eb - 3) := by
    rw [← magA_form f.mb _ _ (.inr (by omega)) (by omega)]
    rcases Nat.eq_or_lt_of_le hle with h | h
    · rw [h]
    · exact Nat.le_of_lt (magA_strictMono _ h)
  have hq : (magA f.mb (f.abs b) : ℚ) ≤ ((2 * 2 ^ f.mb - 1 : ℕ) : ℚ) * 2 ^ (2 ^ f.eb - 3) := by
    exact_mod_cast hmono
  rw [Nat.cast_sub (by omega)] at hq
  push_cast at hq
  exact hq

include ok in
/-- Close to a number there is no overflow. -/
theorem close_lt_overflow {s : Bool} {x c : ℚ} {b : Nat} (hc : decode f b = .num s c)
    (hx : |x - c| * 2 ^ (f.mb + 3) < |c|) : |x| < overflowAt f := by
  have hU : (0 : ℚ) < 2 ^ f.unit := by positivity
  have hm := num_max ok hc
  rw [overflowAt_eq ok, lt_div_iff₀ hU]
  rw [le_div_iff₀ hU] at hm
  unfold thr
  have h3 : |x| ≤ |x - c| + |c| := by
    have := abs_add_le (x - c) c
    rwa [sub_add_cancel] at this
  have hk : (0 : ℚ) < 2 ^ (2 ^ f.eb - 3) := by positivity
  have hP : (0 : ℚ) < 2 ^ f.mb := by positivity
  have e8 : (2 : ℚ) ^ (f.mb + 3) = 8 * 2 ^ f.mb := by ring
  rw [e8] at hx
  generalize (2 : ℚ) ^ (2 ^ f.eb - 3) = K at *
  generalize (2 : ℚ) ^ f.mb = P at *
  generalize (2 : ℚ) ^ f.unit = W at *
  -- |x - c| W < (2 P - 1) K / (8 P) < K / 4
  have h4 : |x - c| * W * (8 * P) < 2 * P * K := by
    have : |x - c| * (8 * P) * W < |c| * W := mul_lt_mul_of_pos_right hx hU
    nlinarith
  have h5 : |x - c| * W < K / 4 := by
    by_contra hcon
    rw [not_lt] at hcon
    nlinarith
  nlinarith

include ok in
theorem rounded_close' {zs s : Bool} {x c : ℚ} {r b : Nat} (h : Rounded f zs x r)
    (hc : decode f b = .num s c) (hx : |x - c| * 2 ^ (f.mb + 3) < |c|) : decode f r = .num (decide (x < 0)) c := by
  obtain ⟨t, v, d⟩ := rounded_num h (close_lt_overflow ok hc hx)
  have e := rounded_close ok h d hc hx
  have hx0 : x ≠ 0 := by
    intro h0
    rw [h0, zero_sub, abs_neg] at hx
    have : (1 : ℚ) ≤ 2 ^ (f.mb + 3) := one_le_pow₀ (by norm_num)
    nlinarith [abs_nonneg c]
  rw [d, rounded_sign h d hx0, e]

end

/-! ## `double` holds every `float`, and `2 - p` -/

theorem widen_rep {s : Bool} {v : ℚ} {b : Nat} (d : decode .b32 b = .num s v) : ∃ b', decode .b64 b' = .num s v := by
  have e := decode_num ok32 d
  have hl := decode_num_lt ok32 d
  generalize Fmt.b32.abs b = a at *
  have : ∃ n k, magA Fmt.b32.mb a = n * 2 ^ k ∧ n < 2 ^ 24 ∧ k ≤ 254 := by
    have hi : Fmt.b32.infBits = 255 * 2 ^ 23 := by decide
    rw [hi] at hl
    show ∃ n k, magA 23 a = n * 2 ^ k ∧ n < 2 ^ 24 ∧ k ≤ 254
    unfold magA
    split
    · exact ⟨a % 2 ^ 23, 0, by omega, by omega, by omega⟩
    · exact ⟨2 ^ 23 + a % 2 ^ 23, a / 2 ^ 23 - 1, rfl, by omega, by omega⟩
  obtain ⟨n, k, hn, h1, h2⟩ := this
  obtain ⟨b', -, hb'⟩ := representable ok64 s n (k + 925)
    (Nat.lt_trans h1 (by decide +kernel)) (by
      have : n * 2 ^ (k + 925) < 2 ^ 24 * 2 ^ 1179 :=
        Nat.mul_lt_mul_of_lt_of_le h1 (Nat.pow_le_pow_right (by decide) (by omega)) (Nat.two_pow_pos _)
      exact Nat.lt_of_lt_of_le this (by decide +kernel))
  refine ⟨b', ?_⟩
  rw [hb', e, hn, unit64, unit32, pow_add]
  congr 2
  push_cast
  rw [show (2 : ℚ) ^ 1074 = 2 ^ 149 * 2 ^ 925 by rw [← pow_add]]
  field_simp

theorem widen_exact {s : Bool} {v : ℚ} {b r : Nat} (d : decode .b32 b = .num s v) (h : Rounded .b64 s v r) :
    decode .b64 r = .num s v := by
  by_cases h0 : v = 0
  · unfold Rounded at h
    rw [if_pos h0] at h
    rw [h, h0]
  · obtain ⟨b', hb'⟩ := widen_rep d
    exact rounded_exact ok64 h hb' h0

/-- `n 2^-k` is a double if `n` has at most 53 bits. -/
theorem dyadic64 (n : Int) (k : Nat) (hk : k ≤ 1000) (h : n.natAbs < 2 ^ 53) :
    ∃ b s, decode .b64 b = .num s ((n : ℚ) / 2 ^ k) := by
  obtain ⟨b, -, hb⟩ := representable ok64 (decide (n < 0)) n.natAbs (1074 - k) h (by
      have : n.natAbs * 2 ^ (1074 - k) < 2 ^ 53 * 2 ^ 1074 :=
        Nat.mul_lt_mul_of_lt_of_le h (Nat.pow_le_pow_right (by decide) (by omega)) (Nat.two_pow_pos _)
      exact Nat.lt_of_lt_of_le this (by decide +kernel))
  refine ⟨b, decide (n < 0), hb.trans ?_⟩
  congr 1
  rw [unit64]
  have e : (2 : ℚ) ^ 1074 = 2 ^ (1074 - k) * 2 ^ k := by rw [← pow_add]; congr 1; omega
  rw [e, mul_comm ((2 : ℚ) ^ (1074 - k)), mul_div_mul_right _ _ (by positivity)]
  unfold withSign
  by_cases hn : n < 0
  · rw [if_pos (by simpa using hn), Nat.cast_natAbs, abs_of_neg hn]; push_cast; ring
  · rw [if_neg (by simpa using hn), Nat.cast_natAbs, abs_of_nonneg (by omega)]

/-- `2 - v` is a double for every float `v` of moderate size. -/
theorem two_sub_rep {s : Bool} {v : ℚ} {b : Nat} (d : decode .b32 b = .num s v) (h1 : 1 / 2 ^ 26 ≤ |v|)
    (h2 : |v| < 2 ^ 52) : ∃ b' s', decode .b64 b' = .num s' (2 - v) := by
  have step : ∀ (j k : Nat) (N : Nat), (2 : ℚ) ^ j / 2 ^ 149 = 1 / 2 ^ k → k ≤ 1000 → 2 ^ 23 * (1 / 2 ^ k) ≤ |v| →
      |v| < N → (N + 2) * 2 ^ k ≤ 2 ^ 53 → ∃ b' s', decode .b64 b' = .num s' (2 - v) := by
    intro j k N hjk hk hv hN hle
    obtain ⟨n, hn⟩ := num_multiple ok32 d j (by rw [unit32, hjk]; exact hv)
    rw [unit32, hjk, mul_one_div] at hn
    obtain ⟨m, hm⟩ : ∃ m : Int, v = (m : ℚ) / 2 ^ k := by
      unfold withSign at hn
      split at hn
      · exact ⟨-n, by rw [hn]; push_cast; ring⟩
      · exact ⟨n, by rw [hn]; push_cast; ring⟩
    have e : 2 - v = ((2 * 2 ^ k - m : Int) : ℚ) / 2 ^ k := by
      rw [hm]; push_cast; field_simp
    rw [e]
    apply dyadic64 _ _ hk
    have hlt : |(m : ℚ)| < N * 2 ^ k := by
      rw [hm, abs_div, abs_of_pos (show (0 : ℚ) < 2 ^ k by positivity), div_lt_iff₀ (by positivity)] at hN
      exact hN
    have hlt' : (m.natAbs : ℚ) < ((N * 2 ^ k : ℕ) : ℚ) := by
      rw [Nat.cast_natAbs]; push_cast; exact hlt
    have h3 : m.natAbs < N * 2 ^ k := Nat.cast_lt.1 hlt'
    have h4 : (2 * 2 ^ k - m : Int).natAbs ≤ 2 * 2 ^ k + m.natAbs := by
      have := Int.natAbs_sub_le (2 * 2 ^ k : Int) m
      rwa [Int.natAbs_mul, Int.natAbs_pow] at this
    rw [Nat.add_mul] at hle
    omega
  rcases lt_or_ge |v| 4 with h | h
  · exact step 100 49 4 (by norm_num) (by decide) (by refine le_trans ?_ h1; norm_num) (by exact_mod_cast h) (by decide)
  · rcases lt_or_ge |v| (2 ^ 26) with h' | h'
    · exact step 128 21 (2 ^ 26) (by norm_num) (by decide) (by refine le_trans ?_ h; norm_num)
        (by push_cast; exact h') (by decide)
    · exact step 149 0 (2 ^ 52) (by norm_num) (by decide) (by refine le_trans ?_ h'; norm_num)
        (by push_cast; exact h2) (by decide)

/-- Subtracting a float from two in double and rounding to float is the float subtraction. -/
theorem two_sub_double {two two' p d t r : Nat} (h2 : decode .b32 two = .num false 2)
    (h2' : decode .b64 two' = .num false 2) (hd : Converts .b32 .b64 p d)
    (ht : IsDiff .b64 two' d t) (hr : Converts .b64 .b32 t r) : IsDiff .b32 two p r := by
  unfold IsDiff at ht ⊢
  unfold Converts at hd hr
  rw [h2]
  rw [h2'] at ht
  match hp : decode .b32 p with
  | .nan =>
    rw [hp] at hd
    simp only at hd ⊢
    rw [hd] at ht
    simp only at ht
    rw [ht] at hr
    exact hr
  | .inf s =>
    rw [hp] at hd
    simp only at hd ⊢
    rw [hd] at ht
    simp only at ht
    rw [ht] at hr
    exact hr
  | .num s v =>
    rw [hp] at hd
    simp only at hd ⊢
    have hd' := widen_exact hp hd
    rw [hd'] at ht
    simp only at ht
    -- something close to both roundings
    have close : ∀ (c : ℚ) (b : Nat) (s' : Bool), decode .b32 b = .num s' c →
        2 * |2 - v - c| * 2 ^ 26 < |c| → Rounded .b32 (false && !s) (2 - v) r := by
      intro c b s' hb hc
      have hn := abs_nonneg (2 - v - c)
      have hx0 : 2 - v ≠ 0 := by
        intro h0
        rw [h0, zero_sub, abs_neg] at hc
        nlinarith [abs_nonneg c]
      obtain ⟨b64, hb64⟩ := widen_rep hb
      have ho : |2 - v| < overflowAt .b64 := by
        have h1 := num_max ok32 hb
        have h3 : |2 - v| ≤ |2 - v - c| + |c| := by
          have := abs_add_le (2 - v - c) c
          rwa [sub_add_cancel] at this
        have h4 : |2 - v| ≤ 2 * |c| := by nlinarith
        have h5 : |c| ≤ 2 ^ 128 := by
          refine le_trans h1 ?_
          show (2 * 2 ^ 23 - 1) * 2 ^ (2 ^ 8 - 3) / 2 ^ Fmt.b32.unit ≤ (2 : ℚ) ^ 128
          rw [unit32]
          norm_num
        refine lt_trans (lt_of_le_of_lt h4 (b := 2 * |c|) (c := 2 ^ 1000) ?_) overflowAt64
        calc 2 * |c| ≤ 2 * 2 ^ 128 := by linarith
          _ = 2 ^ 129 := by ring
          _ < 2 ^ 1000 := pow_lt_pow_right₀ (by norm_num) (by norm_num)
      obtain ⟨st, w, dt⟩ := rounded_num ht ho
      rw [dt] at hr
      simp only at hr
      have n1 := rounded_near ht dt hb64
      have hwc : |w - c| ≤ 2 * |2 - v - c| := by
        have := abs_add_le (w - (2 - v)) (2 - v - c)
        rw [sub_add_sub_cancel] at this
        rw [abs_sub_comm c] at n1
        linarith
      have hrw := rounded_close' ok32 hr hb (by
        show |w - c| * 2 ^ 26 < |c|
        nlinarith)
      -- the direct rounding
      have hdir : ∃ r', Rounded .b32 (false && !s) (2 - v) r' := by
        by_cases hx : 2 - v = 0
        · exact absurd hx hx0
        · have := rounded_round ok32 (false && !s) ((2 - v).num * 2 ^ Fmt.b32.unit) (2 - v).den (2 - v).den_pos (2 - v) (by
            push_cast
            rw [mul_div_right_comm, Rat.num_div_den, mul_div_cancel_right₀ _ (by positivity)])
          exact ⟨_, this⟩
      obtain ⟨r', hr''⟩ := hdir
      have hrw' := rounded_close' ok32 hr'' hb (by
        show |2 - v - c| * 2 ^ 26 < |c|
        nlinarith)
      have hsign : decide (w < 0) = decide (2 - v < 0) := by
        have hs : ∀ z : ℚ, |z - c| < |c| → (z < 0 ↔ c < 0) := by
          intro z hz
          rcases lt_trichotomy c 0 with h | h | h
          · rw [abs_of_neg h] at hz
            have := le_abs_self (z - c)
            constructor
            · intro _; exact h
            · intro _; linarith
          · rw [h, abs_zero] at hz
            exact absurd hz (not_lt.2 (abs_nonneg _))
          · rw [abs_of_pos h] at hz
            have := neg_abs_le (z - c)
            constructor
            · intro _; linarith
            · intro hc'; linarith
        rw [decide_eq_decide, hs w (by nlinarith), hs (2 - v) (by nlinarith)]
      rw [hsign] at hrw
      exact rounded_congr ok32 hr'' hrw' hrw
    rcases lt_or_ge |v| (1 / 2 ^ 26) with hs | hs
    · apply close 2 two false h2
      rw [show 2 - v - 2 = -v by ring, abs_neg, abs_of_pos (show (0 : ℚ) < 2 by norm_num)]
      rw [lt_div_iff₀ (by positivity)] at hs
      linarith
    · rcases lt_or_ge |v| (2 ^ 52) with hb | hb
      · obtain ⟨b', s', hb'⟩ := two_sub_rep hp hs hb
        have hdt : ∃ s'', decode .b64 t = .num s'' (2 - v) ∧ (2 - v = 0 → s'' = (false && !s)) := by
          by_cases h0 : 2 - v = 0
          · unfold Rounded at ht
            rw [if_pos h0] at ht
            exact ⟨_, by rw [ht, h0], fun _ => rfl⟩
          · exact ⟨_, rounded_exact ok64 ht hb' h0, fun h => absurd h h0⟩
        obtain ⟨s'', e, hz⟩ := hdt
        rw [e] at hr
        simp only at hr
        unfold Rounded at hr ⊢
        by_cases h0 : 2 - v = 0
        · rw [if_pos h0] at hr ⊢
          rw [hr, hz h0]
        · rw [if_neg h0] at hr ⊢
          exact hr
      · -- the pattern of `-v`
        have hlt := decode_num_lt ok32 hp
        have hneg : decode .b32 (Fmt.b32.pack (!s) (Fmt.b32.abs p)) = .num (!s) (-v) := by
          rw [decode_pack_num ok32 _ hlt, decode_num ok32 hp]
          cases s <;> simp [withSign]
        apply close (-v) _ _ hneg
        rw [show 2 - v - -v = 2 by ring, abs_neg, abs_of_pos (show (0 : ℚ) < 2 by norm_num)]
        refine lt_of_lt_of_le ?_ hb
        norm_num

end Verif.FpOps
