import Verif.FpRound

/-!
# The floating-point operations of the model meet the IEEE-754 specification
-/

set_option linter.unusedSimpArgs false
set_option linter.unnecessarySeqFocus false

namespace Verif.FpOps
open Spec FpRound

/-- The field widths make sense. -/
structure Ok (f : Fmt) : Prop where
  eb : 2 ≤ f.eb
  mb : 1 ≤ f.mb

theorem ok32 : Ok .b32 := ⟨by decide, by decide⟩
theorem ok64 : Ok .b64 := ⟨by decide, by decide⟩

section
variable {f : Fmt} (ok : Ok f)

theorem mag_eq (b : Nat) : f.mag b = magA f.mb (f.abs b) := rfl

theorem abs_lt (b : Nat) : f.abs b < f.signBit := Nat.mod_lt _ (Nat.two_pow_pos _)

theorem signBit_eq : f.signBit = 2 ^ f.mb * 2 ^ f.eb := by
  unfold Fmt.signBit; rw [Nat.pow_add, Nat.mul_comm]

theorem expField_eq (b : Nat) : expField f b = f.abs b / 2 ^ f.mb := by
  unfold expField Fmt.abs
  rw [signBit_eq, Nat.mod_mul_right_div_self]

theorem fracField_eq (b : Nat) : fracField f b = f.abs b % 2 ^ f.mb := by
  unfold fracField Fmt.abs
  rw [signBit_eq, Nat.mod_mul_right_mod]

theorem neg_eq {b : Nat} (h : b < 2 ^ f.width) : signField f b = f.neg b := by
  unfold signField Fmt.neg Fmt.signBit
  have e : 2 ^ f.width = 2 * 2 ^ (f.eb + f.mb) := by
    rw [← Nat.pow_succ']; congr 1; simp only [Fmt.width]; omega
  rw [e] at h
  rw [Nat.testBit_eq_decide_div_mod_eq]
  have hp : 0 < 2 ^ (f.eb + f.mb) := Nat.two_pow_pos _
  generalize 2 ^ (f.eb + f.mb) = S at *
  rcases Nat.lt_or_ge b S with h1 | h1
  · rw [Nat.div_eq_of_lt h1]
    simp; omega
  · have : b / S = 1 := by
      apply Nat.div_eq_of_lt_le <;> omega
    rw [this]; simp [h1]

include ok in
theorem bias_pos : 1 ≤ f.bias := by
  unfold Fmt.bias
  have : 2 ^ 1 ≤ 2 ^ (f.eb - 1) := Nat.pow_le_pow_right (by decide) (by have := ok.eb; omega)
  omega

theorem emax_eq : emax f = (f.bias : ℤ) := by
  unfold emax Fmt.bias
  have : 1 ≤ 2 ^ (f.eb - 1) := Nat.two_pow_pos _
  push_cast [Nat.cast_sub this]
  rfl

include ok in
theorem scale0 : (2 : ℚ) ^ (1 - emax f) / 2 ^ f.mb = 1 / 2 ^ f.unit := by
  have hb := bias_pos ok
  rw [emax_eq, show (1 : ℤ) - (f.bias : ℤ) = -((f.bias - 1 : ℕ) : ℤ) by omega, zpow_neg, zpow_natCast]
  unfold Fmt.unit
  rw [pow_add]
  field_simp

include ok in
theorem scale1 (E : Nat) (hE : E ≠ 0) :
    (2 : ℚ) ^ ((E : ℤ) - emax f) / 2 ^ f.mb = 2 ^ (E - 1) / 2 ^ f.unit := by
  have h := scale0 ok
  rw [show (E : ℤ) - emax f = ((E - 1 : ℕ) : ℤ) + (1 - emax f) by omega, zpow_add₀ (by norm_num),
    zpow_natCast, mul_div_assoc, h]
  ring

include ok in
theorem overflowAt_eq : overflowAt f = thr f / 2 ^ f.unit := by
  have hb := bias_pos ok
  have he : 2 ^ f.eb - 3 + 1 = f.bias + (f.bias - 1) + 1 := by
    have e : 2 ^ f.eb = 2 * 2 ^ (f.eb - 1) := by
      rw [← Nat.pow_succ']; congr 1; have := ok.eb; omega
    unfold Fmt.bias at *
    omega
  unfold overflowAt thr Fmt.unit
  rw [emax_eq, zpow_natCast, show 2 ^ f.eb - 3 = f.bias + (f.bias - 1) by omega, pow_add, pow_add, pow_succ]
  field_simp
  rw [pow_add]
  ring

include ok in
/-- The encoded datum in terms of the magnitude of the pattern. -/
theorem decode_eq (b : Nat) : decode f b =
    if f.infBits < f.abs b then .nan
    else if f.abs b = f.infBits then .inf (signField f b)
    else .num (signField f b) (withSign (signField f b) ((magA f.mb (f.abs b) : ℚ) / 2 ^ f.unit)) := by
  unfold decode
  rw [expField_eq, fracField_eq]
  have hP : 0 < 2 ^ f.mb := Nat.two_pow_pos _
  have hE : f.abs b / 2 ^ f.mb < 2 ^ f.eb := by
    rw [Nat.div_lt_iff_lt_mul hP, Nat.mul_comm, ← signBit_eq]; exact abs_lt b
  have hab : 2 ^ f.mb * (f.abs b / 2 ^ f.mb) + f.abs b % 2 ^ f.mb = f.abs b := Nat.div_add_mod _ _
  have hF : f.abs b % 2 ^ f.mb < 2 ^ f.mb := Nat.mod_lt _ hP
  have hi : f.infBits = 2 ^ f.mb * (2 ^ f.eb - 1) := Nat.mul_comm _ _
  have e1 := scale1 ok (f.abs b / 2 ^ f.mb)
  have e0 := scale0 ok
  unfold magA
  generalize hEE : f.abs b / 2 ^ f.mb = E at *
  generalize f.abs b % 2 ^ f.mb = F at *
  rw [hi]
  by_cases h : E = 2 ^ f.eb - 1
  · rw [if_pos h, ← hab, h]
    by_cases hF0 : F = 0
    · rw [if_pos hF0, if_neg (by omega), if_pos (by omega)]
    · rw [if_neg hF0, if_pos (by omega)]
  · have hlt : 2 ^ f.mb * E + F < 2 ^ f.mb * (2 ^ f.eb - 1) := by
      have : 2 ^ f.mb * (E + 1) ≤ 2 ^ f.mb * (2 ^ f.eb - 1) := Nat.mul_le_mul_left _ (by omega)
      rw [Nat.mul_add] at this
      omega
    rw [hab] at hlt
    rw [if_neg h, if_neg (c := 2 ^ f.mb * (2 ^ f.eb - 1) < f.abs b) (by omega),
      if_neg (c := f.abs b = 2 ^ f.mb * (2 ^ f.eb - 1)) (by omega)]
    by_cases h0 : E = 0
    · rw [if_pos h0, if_pos h0]
      congr 2
      rw [div_mul_eq_mul_div, mul_div_assoc, e0]
      ring
    · rw [if_neg h0, if_neg h0]
      congr 2
      have : (1 + (F : ℚ) / 2 ^ f.mb) * 2 ^ ((E : ℤ) - emax f)
          = (2 ^ f.mb + F) * (2 ^ ((E : ℤ) - emax f) / 2 ^ f.mb) := by field_simp
      rw [this, e1 h0]
      push_cast
      ring

theorem infBits_lt : f.infBits < f.signBit := by
  rw [signBit_eq, Nat.mul_comm]
  exact Nat.mul_lt_mul_of_pos_right (by have := Nat.two_pow_pos f.eb; omega) (Nat.two_pow_pos _)

theorem pack_abs (s : Bool) {m : Nat} (h : m < f.signBit) : f.abs (f.pack s m) = m := by
  unfold Fmt.pack Fmt.abs
  cases s
  · simp [Nat.mod_eq_of_lt h]
  · simp [Nat.mod_eq_of_lt h]

theorem width_eq : 2 ^ f.width = 2 * f.signBit := by
  unfold Fmt.signBit
  rw [← Nat.pow_succ']; congr 1; simp only [Fmt.width]; omega

theorem pack_lt (s : Bool) {m : Nat} (h : m < f.signBit) : f.pack s m < 2 ^ f.width := by
  rw [width_eq]
  unfold Fmt.pack
  split <;> omega

theorem pack_sign (s : Bool) {m : Nat} (h : m < f.signBit) : signField f (f.pack s m) = s := by
  rw [neg_eq (pack_lt s h)]
  unfold Fmt.neg Fmt.pack
  cases s <;> simp
  exact h

include ok in
theorem decode_pack_inf (s : Bool) : decode f (f.pack s f.infBits) = .inf s := by
  rw [decode_eq ok, pack_abs s infBits_lt, pack_sign s infBits_lt]
  simp

theorem infBits_pos (heb : 2 ≤ f.eb) : 0 < f.infBits := by
  rw [infBits_eq f heb]
  have := Nat.two_pow_pos f.mb
  omega

include ok in
theorem decode_pack_num (s : Bool) {m : Nat} (h : m < f.infBits) :
    decode f (f.pack s m) = .num s (withSign s ((magA f.mb m : ℚ) / 2 ^ f.unit)) := by
  have h' : m < f.signBit := Nat.lt_trans h infBits_lt
  rw [decode_eq ok, pack_abs s h', pack_sign s h', if_neg (by omega), if_neg (by omega)]

theorem withSign_zero (s : Bool) : withSign s 0 = 0 := by cases s <;> simp [withSign]

include ok in
theorem decode_pack_zero (s : Bool) : decode f (f.pack s 0) = .num s 0 := by
  rw [decode_pack_num ok s (infBits_pos ok.eb), magA_zero]
  simp [withSign_zero]

theorem signBit_inf : f.signBit = f.infBits + 2 ^ f.mb := by
  rw [signBit_eq, Nat.mul_comm]
  unfold Fmt.infBits
  have := Nat.two_pow_pos f.eb
  conv_rhs => rw [← Nat.succ_mul]
  congr 1; omega

theorem nan_lt (ok : Ok f) (p : Nat) : f.infBits + 1 + p % (2 ^ f.mb - 1) < f.signBit := by
  have h : 2 ^ 1 ≤ 2 ^ f.mb := Nat.pow_le_pow_right (by decide) ok.mb
  have := Nat.mod_lt p (show 2 ^ f.mb - 1 > 0 by omega)
  have := signBit_inf (f := f)
  omega

include ok in
theorem decode_nanBits (o : FloatOps) (a b : Nat) : decode f (f.nanBits o a b) = .nan := by
  unfold Fmt.nanBits
  rw [decode_eq ok, pack_abs _ (nan_lt ok _), if_pos (by omega)]

include ok in
/-- Every NaN can be chosen. -/
theorem nan_chosen {b : Nat} (hb : b < 2 ^ f.width) (h : decode f b = .nan) :
    ∃ s p, b = f.pack s (f.infBits + 1 + p % (2 ^ f.mb - 1)) := by
  rw [decode_eq ok] at h
  have hl : f.infBits < f.abs b := by
    by_contra hc
    rw [if_neg hc] at h
    split at h <;> cases h
  have hs := signBit_inf (f := f)
  have hm : f.abs b < f.signBit := Nat.mod_lt _ (by unfold Fmt.signBit; exact Nat.two_pow_pos _)
  refine ⟨f.neg b, f.abs b - f.infBits - 1, ?_⟩
  rw [Nat.mod_eq_of_lt (by omega), show f.infBits + 1 + (f.abs b - f.infBits - 1) = f.abs b by omega]
  rw [width_eq] at hb
  unfold Fmt.pack Fmt.neg
  unfold Fmt.abs at *
  by_cases hc : f.signBit ≤ b
  · rw [if_pos (by simpa using hc), Nat.mod_eq_sub_mod hc, Nat.mod_eq_of_lt (by omega)]
    omega
  · rw [if_neg (by simpa using hc), Nat.mod_eq_of_lt (by omega)]

theorem roundMag_zero (den : Nat) : f.roundMag 0 den = 0 := by
  rw [roundMag_eq]
  have h1 : expo f 0 den = 0 := by unfold expo; simp
  have h2 : mant f 0 den = 0 := by
    unfold mant Fmt.rne
    simp
  rw [h1, h2]; simp

theorem roundMag_le (num den : Nat) : f.roundMag num den ≤ f.infBits := by
  rw [roundMag_eq]; exact Nat.min_le_right _ _

theorem roundMag_lt (num den : Nat) : f.roundMag num den < f.signBit :=
  Nat.lt_of_le_of_lt (roundMag_le num den) infBits_lt

theorem withSign_abs (s : Bool) {x : ℚ} (h : 0 ≤ x) : |withSign s x| = x := by
  cases s <;> simp [withSign, h]

theorem withSign_sub (s : Bool) (x y : ℚ) : |withSign s x - withSign s y| = |x - y| := by
  cases s
  · rfl
  · simp only [withSign, if_true]
    rw [← abs_neg]; congr 1; ring

theorem withSign_sub_not (s : Bool) (x y : ℚ) : |withSign (!s) x - withSign s y| = |x + y| := by
  cases s
  · simp only [withSign, Bool.not_false, if_true]
    rw [← abs_neg]; congr 1; simp; ring
  · simp [withSign]

include ok in
/-- A finite value of a pattern, whatever its sign. -/
theorem decode_num {b : Nat} {s : Bool} {y : ℚ} (h : decode f b = .num s y) :
    y = withSign s ((magA f.mb (f.abs b) : ℚ) / 2 ^ f.unit) := by
  rw [decode_eq ok] at h
  split at h
  · cases h
  · split at h
    · cases h
    · injection h with h1 h2
      rw [← h2, h1]

include ok in
/-- `pack s (roundMag n den)` is the rounding of `± n / den` units. -/
theorem roundsTo_pack (s : Bool) (n den : Nat) (hn : 0 < n) (hd : 0 < den) (x : ℚ)
    (hx : x = withSign s ((n : ℚ) / den / 2 ^ f.unit)) :
    RoundsTo f x (f.pack s (f.roundMag n den)) := by
  have hU : (0 : ℚ) < 2 ^ f.unit := by positivity
  have hq : (0 : ℚ) < (n : ℚ) / den := div_pos (by exact_mod_cast hn) (by exact_mod_cast hd)
  have hxa : |x| = (n : ℚ) / den / 2 ^ f.unit := by
    rw [hx, withSign_abs s (le_of_lt (div_pos hq hU))]
  have hs : decide (x < 0) = s := by
    have := div_pos hq hU
    rw [hx]
    cases s
    · simp only [withSign]
      simp
      exact le_of_lt (by exact_mod_cast this)
    · simp only [withSign, if_true]
      simp
      simpa using this
  constructor
  · intro h
    rw [hxa, overflowAt_eq ok, div_le_div_iff_of_pos_right hU] at h
    have := overflow f ok.eb n den hd h
    rw [roundMag_eq, Nat.min_eq_right this, decode_pack_inf ok, hs]
  · intro h
    rw [hxa, overflowAt_eq ok, div_lt_div_iff_of_pos_right hU] at h
    have hlt := no_overflow f ok.eb n den hd h
    have near := near_mag f n den hd
    rw [roundMag_eq, Nat.min_eq_left (Nat.le_of_lt hlt)]
    have hfr : fracField f (f.pack s (expo f n den * 2 ^ f.mb + mant f n den)) % 2 = mant f n den % 2 := by
      have h2 : 2 ∣ 2 ^ f.mb := dvd_pow_self 2 (by have := ok.mb; omega)
      rw [fracField_eq, pack_abs s (Nat.lt_trans hlt infBits_lt), Nat.mod_mod_of_dvd _ h2]
      have := Nat.dvd_trans h2 (Nat.dvd_mul_left (2 ^ f.mb) (expo f n den))
      omega
    refine ⟨_, by rw [decode_pack_num ok s hlt, hs], ?_, ?_⟩
    · intro b t y hy
      have hy := decode_num ok hy
      rw [hx, hy, withSign_sub, ← sub_div, abs_div, abs_of_pos hU]
      by_cases hst : t = s
      · subst hst
        rw [withSign_sub, ← sub_div, abs_div, abs_of_pos hU, div_le_div_iff_of_pos_right hU]
        exact (near _).1
      · have hst : t = !s := by cases s <;> cases t <;> simp_all
        rw [hst, withSign_sub_not, ← add_div, abs_div, abs_of_pos hU, div_le_div_iff_of_pos_right hU]
        refine le_trans (near 0).1 ?_
        rw [magA_zero]
        have hM : (0 : ℚ) ≤ (magA f.mb (f.abs b) : ℚ) := by positivity
        rw [abs_of_nonneg (a := (magA f.mb (f.abs b) : ℚ) + (n : ℚ) / den) (by linarith),
          abs_of_nonpos (by push_cast; linarith)]
        push_cast; linarith
    · intro b t y hy htie hne
      have hy := decode_num ok hy
      rw [hfr]
      rw [hx, hy, withSign_sub, ← sub_div, abs_div, abs_of_pos hU] at htie
      by_cases hst : t = s
      · subst hst
        rw [withSign_sub, ← sub_div, abs_div, abs_of_pos hU, div_left_inj' (ne_of_gt hU)] at htie
        refine (near _).2 htie ?_
        intro heq
        apply hne
        rw [hy, heq]
      · have hst : t = !s := by cases s <;> cases t <;> simp_all
        subst hst
        rw [withSign_sub_not, ← add_div, abs_div, abs_of_pos hU, div_left_inj' (ne_of_gt hU)] at htie
        have hM : (0 : ℚ) ≤ (magA f.mb (f.abs b) : ℚ) := by positivity
        have h0 := near 0
        rw [magA_zero] at h0
        have e0 : |((0 : ℕ) : ℚ) - (n : ℚ) / den| = (n : ℚ) / den := by
          rw [abs_of_nonpos (by push_cast; linarith)]; push_cast; ring
        rw [e0] at h0
        rw [abs_of_nonneg (by linarith)] at htie
        have hM0 : (magA f.mb (f.abs b) : ℚ) = 0 := le_antisymm (by linarith [h0.1]) hM
        refine h0.2 (by rw [← htie, hM0, zero_add]) ?_
        intro hz
        apply hne
        rw [hy, hM0, ← hz]
        simp [withSign_zero]

include ok in
/-- `round` is the rounding of its argument. -/
theorem rounded_round (zs : Bool) (num : Int) (den : Nat) (hd : 0 < den) (x : ℚ)
    (hx : x = (num : ℚ) / den / 2 ^ f.unit) : Rounded f zs x (f.round zs num den) := by
  have hU : (0 : ℚ) < 2 ^ f.unit := by positivity
  have hdq : (0 : ℚ) < den := by exact_mod_cast hd
  unfold Rounded Fmt.round
  by_cases h0 : num = 0
  · subst h0
    rw [if_pos (by rw [hx]; simp), if_pos rfl, Int.natAbs_zero, roundMag_zero, decode_pack_zero ok]
  · have hx0 : x ≠ 0 := by
      rw [hx]
      have : (num : ℚ) ≠ 0 := by exact_mod_cast h0
      positivity
    rw [if_neg hx0, if_neg h0]
    apply roundsTo_pack ok _ _ _ (by omega) hd
    rw [hx]
    by_cases hn : num < 0
    · have e : ((num.natAbs : ℕ) : ℚ) = -(num : ℚ) := by
        have : ((num.natAbs : ℕ) : ℤ) = -num := by omega
        rw [← Int.cast_natCast, this]; push_cast; rfl
      rw [e, decide_eq_true hn]
      simp only [withSign, if_true]
      ring
    · have e : ((num.natAbs : ℕ) : ℚ) = (num : ℚ) := by
        have : ((num.natAbs : ℕ) : ℤ) = num := by omega
        rw [← Int.cast_natCast, this]
      rw [e, decide_eq_false hn]
      simp [withSign]

theorem round_lt (zs : Bool) (num : Int) (den : Nat) : f.round zs num den < 2 ^ f.width :=
  pack_lt _ (roundMag_lt _ _)

/-! ## Operations -/

/-- The three kinds of pattern. -/
inductive Kind (f : Fmt) (b : Nat) : Prop
  | nan (h : f.isNaN b = true) (i : f.isInf b = false) (d : decode f b = .nan)
  | inf (n : f.isNaN b = false) (h : f.isInf b = true) (d : decode f b = .inf (f.neg b))
      (e : b = f.pack (f.neg b) f.infBits)
  | num (n : f.isNaN b = false) (h : f.isInf b = false)
      (d : decode f b = .num (f.neg b) ((f.fix b : ℚ) / 2 ^ f.unit)) (l : f.abs b < f.infBits)

theorem pack_self {b : Nat} (h : b < 2 ^ f.width) : b = f.pack (f.neg b) (f.abs b) := by
  rw [width_eq] at h
  unfold Fmt.pack Fmt.neg Fmt.abs
  by_cases hn : f.signBit ≤ b
  · rw [if_pos (by simpa using hn), Nat.mod_eq_sub_mod hn, Nat.mod_eq_of_lt (by omega)]
    omega
  · rw [if_neg (by simpa using hn), Nat.mod_eq_of_lt (by omega)]

include ok in
theorem kind {b : Nat} (hb : b < 2 ^ f.width) : Kind f b := by
  have hd := decode_eq ok b
  rw [neg_eq hb] at hd
  by_cases h1 : f.infBits < f.abs b
  · rw [if_pos h1] at hd
    exact .nan (by simpa [Fmt.isNaN] using h1) (by simp [Fmt.isInf]; omega) hd
  · rw [if_neg h1] at hd
    have n : f.isNaN b = false := by simpa [Fmt.isNaN] using h1
    by_cases h2 : f.abs b = f.infBits
    · rw [if_pos h2] at hd
      exact .inf n (by simpa [Fmt.isInf] using h2) hd (by rw [← h2]; exact pack_self hb)
    · rw [if_neg h2] at hd
      refine .num n (by simpa [Fmt.isInf] using h2) ?_ (by omega)
      rw [hd]
      congr 1
      unfold Fmt.fix withSign
      rw [mag_eq]
      split
      · push_cast; ring
      · push_cast; rfl

theorem val_zero {b : Nat} : (f.fix b : ℚ) / 2 ^ f.unit = 0 ↔ f.mag b = 0 := by
  have hU : (0 : ℚ) < 2 ^ f.unit := by positivity
  rw [div_eq_zero_iff, or_iff_left (ne_of_gt hU)]
  unfold Fmt.fix
  split <;> simp

include ok in
theorem inf_mag {b : Nat} (h : f.isInf b = true) : f.mag b ≠ 0 := by
  have h : f.abs b = f.infBits := by simpa [Fmt.isInf] using h
  have := magA_strictMono f.mb (infBits_pos ok.eb)
  rw [magA_zero, ← h] at this
  rw [mag_eq]
  omega

include ok in
theorem isSum_addWith {n a b : Nat} (hn : decode f n = .nan) (ha : a < 2 ^ f.width) (hb : b < 2 ^ f.width) :
    IsSum f a b (f.addWith n a b) := by
  unfold IsSum Fmt.addWith
  rcases kind ok ha with ⟨na, ia, da⟩ | ⟨na, ia, da, ea⟩ | ⟨na, ia, da, la⟩ <;>
  rcases kind ok hb with ⟨nb, ib, db⟩ | ⟨nb, ib, db, eb⟩ | ⟨nb, ib, db, lb⟩ <;>
  simp only [na, nb, da, db, Bool.or_true, Bool.true_or, Bool.or_false, Bool.false_or, if_true,
    hn, ia, ib, if_false, Bool.false_eq_true, Bool.true_and, Bool.false_and]
  · rcases h1 : f.neg a with _ | _ <;> rcases h2 : f.neg b with _ | _ <;> simp [hn, da, h1]
  · apply rounded_round ok _ _ _ (by decide)
    push_cast
    ring

include ok in
theorem isSum_add {a b : Nat} (ha : a < 2 ^ f.width) (hb : b < 2 ^ f.width) : IsSum f a b (f.add a b) :=
  isSum_addWith ok (decode_nanBits ok _ _ _) ha hb

theorem negate_lt {b : Nat} (hb : b < 2 ^ f.width) : f.negate b < 2 ^ f.width := by
  rw [width_eq] at *
  unfold Fmt.negate Fmt.neg
  by_cases h : f.signBit ≤ b
  · rw [if_pos (by simpa using h)]; omega
  · rw [if_neg (by simpa using h)]; omega

theorem negate_abs (b : Nat) : f.abs (f.negate b) = f.abs b := by
  unfold Fmt.negate Fmt.neg Fmt.abs
  by_cases h : f.signBit ≤ b
  · rw [if_pos (by simpa using h), ← Nat.mod_eq_sub_mod h]
  · rw [if_neg (by simpa using h), Nat.add_mod_right]

theorem negate_neg {b : Nat} (hb : b < 2 ^ f.width) : f.neg (f.negate b) = !f.neg b := by
  rw [width_eq] at *
  unfold Fmt.negate Fmt.neg
  by_cases h : f.signBit ≤ b
  · rw [if_pos (by simpa using h)]; simp [h]; omega
  · rw [if_neg (by simpa using h)]; simp; omega

theorem negate_fix {b : Nat} (hb : b < 2 ^ f.width) : f.fix (f.negate b) = -f.fix b := by
  unfold Fmt.fix
  rw [negate_neg hb, mag_eq, mag_eq, negate_abs b]
  cases f.neg b <;> simp

include ok in
theorem decode_negate {b : Nat} (hb : b < 2 ^ f.width) : decode f (f.negate b) =
    match decode f b with
    | .nan => .nan
    | .inf s => .inf (!s)
    | .num s x => .num (!s) (-x) := by
  rw [decode_eq ok, decode_eq ok b, neg_eq (negate_lt hb), neg_eq hb, negate_abs b, negate_neg hb]
  split
  · rfl
  · split
    · rfl
    · simp only [Datum.num.injEq, true_and]
      cases f.neg b <;> simp [withSign]

include ok in
theorem isDiff_sub {a b : Nat} (ha : a < 2 ^ f.width) (hb : b < 2 ^ f.width) : IsDiff f a b (f.sub a b) := by
  have h := isSum_addWith ok (decode_nanBits ok .sub a b) ha (negate_lt hb)
  unfold IsSum at h
  rw [decode_negate ok hb] at h
  unfold IsDiff Fmt.sub
  rcases kind ok ha with ⟨na, ia, da⟩ | ⟨na, ia, da, ea⟩ | ⟨na, ia, da, la⟩ <;>
  rcases kind ok hb with ⟨nb, ib, db⟩ | ⟨nb, ib, db, eb⟩ | ⟨nb, ib, db, lb⟩ <;>
  rw [da, db] at h <;>
  simp only [na, nb, da, db, Bool.or_true, Bool.true_or, Bool.or_false, Bool.false_or, if_true,
    decode_nanBits ok, if_false, Bool.false_eq_true] <;>
  simp only at h
  · rw [h]; cases f.neg a <;> cases f.neg b <;> simp
  · exact h
  · exact h
  · rw [← sub_eq_add_neg] at h
    exact h

include ok in
theorem isProd_mul {a b : Nat} (ha : a < 2 ^ f.width) (hb : b < 2 ^ f.width) : IsProd f a b (f.mul a b) := by
  unfold IsProd Fmt.mul
  rcases kind ok ha with ⟨na, ia, da⟩ | ⟨na, ia, da, ea⟩ | ⟨na, ia, da, la⟩ <;>
  rcases kind ok hb with ⟨nb, ib, db⟩ | ⟨nb, ib, db, eb⟩ | ⟨nb, ib, db, lb⟩ <;>
  simp only [na, nb, da, db, Bool.or_true, Bool.true_or, Bool.or_false, Bool.false_or, if_true,
    decode_nanBits ok, ia, ib, if_false, Bool.false_eq_true]
  · simp [inf_mag ok ia, inf_mag ok ib, decode_pack_inf ok]
  · simp only [val_zero]
    by_cases h : f.mag b = 0 <;> simp [inf_mag ok ia, h, decode_pack_inf ok, decode_nanBits ok]
  · simp only [val_zero]
    by_cases h : f.mag a = 0 <;> simp [inf_mag ok ib, h, decode_pack_inf ok, decode_nanBits ok]
  · apply rounded_round ok _ _ _ (Nat.two_pow_pos _)
    push_cast
    field_simp

theorem fix_neg_mag (b : Nat) : (f.fix b : ℚ) = withSign (f.neg b) (f.mag b) := by
  unfold Fmt.fix withSign
  split <;> push_cast <;> rfl

include ok in
theorem isQuot_div {a b : Nat} (ha : a < 2 ^ f.width) (hb : b < 2 ^ f.width) : IsQuot f a b (f.div a b) := by
  unfold IsQuot Fmt.div
  rcases kind ok ha with ⟨na, ia, da⟩ | ⟨na, ia, da, ea⟩ | ⟨na, ia, da, la⟩ <;>
  rcases kind ok hb with ⟨nb, ib, db⟩ | ⟨nb, ib, db, eb⟩ | ⟨nb, ib, db, lb⟩ <;>
  simp only [na, nb, da, db, Bool.or_true, Bool.true_or, Bool.or_false, Bool.false_or, if_true,
    decode_nanBits ok, ia, ib, if_false, Bool.false_eq_true, decode_pack_inf ok, decode_pack_zero ok]
  simp only [val_zero]
  by_cases hb0 : f.mag b = 0
  · by_cases ha0 : f.mag a = 0 <;> simp [ha0, hb0, decode_pack_inf ok, decode_nanBits ok]
  · rw [if_neg hb0, if_neg hb0]
    unfold Rounded
    have hbq : (0 : ℚ) < f.mag b := by exact_mod_cast Nat.pos_of_ne_zero hb0
    have hU : (0 : ℚ) < 2 ^ f.unit := by positivity
    have hx : (f.fix a : ℚ) / 2 ^ f.unit / ((f.fix b : ℚ) / 2 ^ f.unit)
        = withSign (f.neg a != f.neg b) ((f.mag a : ℚ) / f.mag b) := by
      rw [div_div_div_cancel_right₀ (ne_of_gt hU), fix_neg_mag, fix_neg_mag]
      cases f.neg a <;> cases f.neg b <;> simp [withSign, neg_div, div_neg]
    by_cases ha0 : f.mag a = 0
    · rw [hx, ha0]
      simp [withSign_zero, roundMag_zero, decode_pack_zero ok]
    · have haq : (0 : ℚ) < f.mag a := by exact_mod_cast Nat.pos_of_ne_zero ha0
      rw [if_neg]
      · apply roundsTo_pack ok _ _ _ (Nat.mul_pos (Nat.pos_of_ne_zero ha0) (Nat.two_pow_pos _))
          (Nat.pos_of_ne_zero hb0)
        rw [hx]
        congr 1
        push_cast
        field_simp
      · rw [hx]
        intro h
        have := withSign_abs (f.neg a != f.neg b) (le_of_lt (div_pos haq hbq))
        rw [h, abs_zero] at this
        exact absurd this (ne_of_lt (div_pos haq hbq))

theorem fix_bound {b : Nat} (h : f.abs b < f.infBits) :
    f.fix b < (magA f.mb f.infBits : ℤ) ∧ -(magA f.mb f.infBits : ℤ) < f.fix b := by
  have := magA_strictMono f.mb h
  unfold Fmt.fix
  rw [mag_eq]
  split <;> omega

theorem fix_inf {b : Nat} (h : f.isInf b = true) :
    f.fix b = if f.neg b then -(magA f.mb f.infBits : ℤ) else magA f.mb f.infBits := by
  have h : f.abs b = f.infBits := by simpa [Fmt.isInf] using h
  unfold Fmt.fix
  rw [mag_eq, h]

include ok in
theorem inf_pos : 0 < (magA f.mb f.infBits : ℤ) := by
  have := magA_strictMono f.mb (infBits_pos ok.eb)
  rw [magA_zero] at this
  exact_mod_cast this

include ok in
theorem lt_iff {a b : Nat} (ha : a < 2 ^ f.width) (hb : b < 2 ^ f.width) :
    f.lt a b = true ↔ (decode f a).Less (decode f b) := by
  unfold Fmt.lt
  have hU : (0 : ℚ) < 2 ^ f.unit := by positivity
  have hi := inf_pos ok
  rcases kind ok ha with ⟨na, ia, da⟩ | ⟨na, ia, da, ea⟩ | ⟨na, ia, da, la⟩ <;>
  rcases kind ok hb with ⟨nb, ib, db⟩ | ⟨nb, ib, db, eb⟩ | ⟨nb, ib, db, lb⟩ <;>
  simp only [na, nb, da, db, Bool.not_true, Bool.not_false, Bool.false_and, Bool.and_false, Bool.true_and,
    decide_eq_true_eq] <;>
  first
  | (simp [Datum.Less]; done)
  | skip
  · rw [fix_inf ia, fix_inf ib]
    cases f.neg a <;> cases f.neg b <;> simp [Datum.Less] <;> omega
  · have := fix_bound lb
    rw [fix_inf ia]
    cases f.neg a <;> simp [Datum.Less] <;> omega
  · have := fix_bound la
    rw [fix_inf ib]
    cases f.neg b <;> simp [Datum.Less] <;> omega
  · simp only [Datum.Less]
    rw [div_lt_div_iff_of_pos_right hU]
    exact Int.cast_lt.symm

include ok in
theorem eq_iff {a b : Nat} (ha : a < 2 ^ f.width) (hb : b < 2 ^ f.width) :
    f.eq a b = true ↔ (decode f a).Equal (decode f b) := by
  unfold Fmt.eq
  have hU : (0 : ℚ) < 2 ^ f.unit := by positivity
  have hi := inf_pos ok
  rcases kind ok ha with ⟨na, ia, da⟩ | ⟨na, ia, da, ea⟩ | ⟨na, ia, da, la⟩ <;>
  rcases kind ok hb with ⟨nb, ib, db⟩ | ⟨nb, ib, db, eb⟩ | ⟨nb, ib, db, lb⟩ <;>
  simp only [na, nb, da, db, Bool.not_true, Bool.not_false, Bool.false_and, Bool.and_false, Bool.true_and,
    decide_eq_true_eq] <;>
  first
  | (simp [Datum.Equal]; done)
  | skip
  · rw [fix_inf ia, fix_inf ib]
    cases f.neg a <;> cases f.neg b <;> simp [Datum.Equal] <;> omega
  · have := fix_bound lb
    rw [fix_inf ia]
    cases f.neg a <;> simp [Datum.Equal] <;> omega
  · have := fix_bound la
    rw [fix_inf ib]
    cases f.neg b <;> simp [Datum.Equal] <;> omega

include ok in
theorem rounded_ofInt (n : Int) : Rounded f false n (f.ofInt n) := by
  unfold Fmt.ofInt
  apply rounded_round ok _ _ _ (by decide)
  push_cast
  rw [div_one, mul_div_cancel_right₀ _ (by positivity)]

include ok in
/-- Conversion between formats. -/
theorem decode_convert {g : Fmt} (okg : Ok g) {b : Nat} (hb : b < 2 ^ f.width) :
    match decode f b with
    | .nan => decode g (f.convert g b) = .nan
    | .inf s => decode g (f.convert g b) = .inf s
    | .num s x => Rounded g s x (f.convert g b) := by
  unfold Fmt.convert
  rcases kind ok hb with ⟨nb, ib, db⟩ | ⟨nb, ib, db, eb⟩ | ⟨nb, ib, db, lb⟩ <;>
  simp only [nb, db, if_true, decode_nanBits okg, if_false, Bool.false_eq_true, ib, decode_pack_inf okg]
  apply rounded_round okg _ _ _ (Nat.two_pow_pos _)
  push_cast
  field_simp

include ok in
/-- Truncation toward zero. -/
theorem trunc_spec {b : Nat} (hb : b < 2 ^ f.width) :
    match decode f b with
    | .num _ x => ∃ n, f.trunc b = some n ∧ IsTrunc x n
    | _ => f.trunc b = none := by
  unfold Fmt.trunc
  rcases kind ok hb with ⟨nb, ib, db⟩ | ⟨nb, ib, db, eb⟩ | ⟨nb, ib, db, lb⟩ <;>
  simp only [nb, db, if_true, if_false, Bool.false_eq_true, ib, Bool.or_false, Bool.true_or, Bool.false_or]
  refine ⟨_, rfl, ?_⟩
  have hU : (0 : ℚ) < 2 ^ f.unit := by positivity
  have hUz : (0 : ℤ) < 2 ^ f.unit := by positivity
  generalize f.fix b = v
  unfold IsTrunc
  rw [show (2 : ℚ) ^ f.unit = ((2 ^ f.unit : ℤ) : ℚ) by push_cast; rfl] at hU ⊢
  generalize (2 : ℤ) ^ f.unit = U at *
  have key := Int.mul_tdiv_add_tmod v U
  by_cases h : 0 ≤ v
  · have h1 := Int.tmod_nonneg U h
    have h2 := Int.tmod_lt_of_pos v hUz
    rw [if_pos (div_nonneg (by exact_mod_cast h) (le_of_lt hU)), le_div_iff₀ hU, div_lt_iff₀ hU]
    generalize v.tdiv U = q at *
    constructor
    · have : q * U ≤ v := by nlinarith
      exact_mod_cast this
    · have : v < (q + 1) * U := by nlinarith
      exact_mod_cast this
  · have h1 : (-v).tmod U = -(v.tmod U) := Int.neg_tmod v U
    have h2 := Int.tmod_nonneg U (show 0 ≤ -v by omega)
    have h3 := Int.tmod_lt_of_pos (-v) hUz
    rw [if_neg (by rw [not_le]; exact div_neg_of_neg_of_pos (by exact_mod_cast (not_le.1 h)) hU),
      div_le_iff₀ hU, lt_div_iff₀ hU]
    generalize v.tdiv U = q at *
    constructor
    · have : v ≤ q * U := by nlinarith
      exact_mod_cast this
    · have : (q - 1) * U < v := by nlinarith
      exact_mod_cast this

/-! ### Results are patterns of the format -/

theorem infBits_lt_width : f.infBits < 2 ^ f.width := by
  rw [width_eq]; have := infBits_lt (f := f); omega

theorem nanBits_lt_width (ok : Ok f) (o : FloatOps) (a b : Nat) : f.nanBits o a b < 2 ^ f.width := pack_lt _ (nan_lt ok _)

theorem addWith_lt {n a b : Nat} (hn : n < 2 ^ f.width) (ha : a < 2 ^ f.width) (hb : b < 2 ^ f.width) :
    f.addWith n a b < 2 ^ f.width := by
  unfold Fmt.addWith
  repeat' split
  all_goals first | assumption | exact round_lt _ _ _

include ok in
theorem add_lt {a b : Nat} (ha : a < 2 ^ f.width) (hb : b < 2 ^ f.width) : f.add a b < 2 ^ f.width := by
  exact addWith_lt (nanBits_lt_width ok _ _ _) ha hb

include ok in
theorem sub_lt {a b : Nat} (ha : a < 2 ^ f.width) (hb : b < 2 ^ f.width) : f.sub a b < 2 ^ f.width := by
  unfold Fmt.sub
  split
  · exact nanBits_lt_width ok _ _ _
  · exact addWith_lt (nanBits_lt_width ok _ _ _) ha (negate_lt hb)

include ok in
theorem mul_lt (a b : Nat) : f.mul a b < 2 ^ f.width := by
  unfold Fmt.mul
  have := nanBits_lt_width ok .mul a b
  simp only
  repeat' split
  all_goals first | assumption | exact round_lt _ _ _ | exact pack_lt _ infBits_lt

include ok in
theorem div_lt (a b : Nat) : f.div a b < 2 ^ f.width := by
  unfold Fmt.div
  have := nanBits_lt_width ok .div a b
  simp only
  repeat' split
  all_goals first | assumption | exact pack_lt _ (roundMag_lt _ _) | exact pack_lt _ infBits_lt |
    exact pack_lt _ (Nat.two_pow_pos _)

theorem ofInt_lt (n : Int) : f.ofInt n < 2 ^ f.width := round_lt _ _ _

theorem convert_lt {g : Fmt} (okg : Ok g) (b : Nat) : f.convert g b < 2 ^ g.width := by
  unfold Fmt.convert
  have := nanBits_lt_width okg (.convert f) b 0
  repeat' split
  all_goals first | assumption | exact round_lt _ _ _ | exact pack_lt _ infBits_lt

end
end Verif.FpOps
