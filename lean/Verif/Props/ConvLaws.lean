/-
C87: what conversions between integers and floats keep.
-/
import Verif.Props.FloatConv
import Verif.Props.FloatLaws

namespace Verif.Props
open Verif.Model Verif.Spec Verif.FpOps Verif.FpRound

theorem decode_4f000000 : decode .b32 0x4f000000 = .num false 2147483648 := by
  rw [decode_normal32 (by decide) (by decide)]
  have e1 : expField .b32 0x4f000000 = 158 := by decide
  have e2 : fracField .b32 0x4f000000 = 0 := by decide
  have e3 : signField .b32 0x4f000000 = false := by decide
  rw [e1, e2, e3]
  simp only [withSign]
  norm_num

theorem decode_4effffff : decode .b32 0x4effffff = .num false 2147483520 := by
  rw [decode_normal32 (by decide) (by decide)]
  have e1 : expField .b32 0x4effffff = 157 := by decide
  have e2 : fracField .b32 0x4effffff = 8388607 := by decide
  have e3 : signField .b32 0x4effffff = false := by decide
  rw [e1, e2, e3]
  simp only [withSign]
  norm_num

theorem decode_cf000000 : decode .b32 0xcf000000 = .num true (-2147483648) := by
  rw [decode_normal32 (by decide) (by decide)]
  have e1 : expField .b32 0xcf000000 = 158 := by decide
  have e2 : fracField .b32 0xcf000000 = 0 := by decide
  have e3 : signField .b32 0xcf000000 = true := by decide
  rw [e1, e2, e3]
  simp only [withSign]
  norm_num

/-- Floats of magnitude `2^23` and more are integers. -/
theorem float_integer {b : Nat} {s : Bool} {x : ℚ} (d : decode .b32 b = .num s x) (h : 2 ^ 23 ≤ |x|) : ∃ m : ℤ, x = m := by
  have e := decode_num ok32 d
  have hU : (0 : ℚ) < 2 ^ Fmt.b32.unit := by positivity
  rcases magA_cases Fmt.b32.mb (Fmt.b32.abs b) Fmt.b32.unit with ⟨k, hk⟩ | hlt
  · refine ⟨if s then -(k : ℤ) else k, ?_⟩
    rw [e, hk]
    push_cast
    rw [mul_div_right_comm, div_self (ne_of_gt hU), one_mul]
    unfold withSign
    split <;> simp
  · exfalso
    rw [e, withSign_abs _ (by positivity), le_div_iff₀ hU] at h
    have : (magA Fmt.b32.mb (Fmt.b32.abs b) : ℚ) < 2 ^ 23 * 2 ^ Fmt.b32.unit := by exact_mod_cast hlt
    linarith

theorem overflow31 : (4294967296 : ℚ) < overflowAt .b32 := by
  have : emax .b32 = 127 := by decide +kernel
  unfold overflowAt
  rw [this]
  norm_num

/-- What converting an `int` to `float` gives. -/
theorem ofInt_conv (n : ℤ) (h1 : -2147483648 ≤ n) (h2 : n ≤ 2147483647) {r : Nat} (h : Rounded .b32 false (n : ℚ) r) :
    ∃ (s : Bool) (m : ℤ), decode .b32 r = .num s m ∧ |m - n| ≤ 64 ∧ (n.natAbs ≤ 2 ^ 24 → m = n) ∧
      (n ≤ 2147483583 → m ≤ 2147483520) ∧ (2147483584 ≤ n → 2147483648 ≤ m) ∧ -2147483648 ≤ m := by
  have q1 : (-2147483648 : ℚ) ≤ n := by exact_mod_cast h1
  have q2 : (n : ℚ) ≤ 2147483647 := by exact_mod_cast h2
  obtain ⟨s, v, d⟩ := rounded_num h (lt_trans (by rw [_root_.abs_lt]; constructor <;> linarith : |(n : ℚ)| < 4294967296) overflow31)
  have herr := rounded_error_multiple ok32 h d ⟨n * 2 ^ Fmt.b32.unit, by
    push_cast; rw [mul_div_assoc, div_self (by positivity), mul_one]⟩
  have herr : |v - n| ≤ |(n : ℚ)| / 2 ^ 24 := herr
  have hsmall : n.natAbs ≤ 2 ^ 24 → v = n := by
    intro hn
    obtain ⟨c, hc⟩ := int_rep ok32 wide32 (n := n) hn
    have := rounded_self ok32 h hc
    rw [d] at this
    injection this
  have hint : ∃ m : ℤ, v = m := by
    by_cases hn : n.natAbs ≤ 2 ^ 24
    · exact ⟨n, hsmall hn⟩
    · refine float_integer d ?_
      have : (2 ^ 24 : ℚ) < |(n : ℚ)| := by
        rw [← Int.cast_abs, Int.abs_eq_natAbs]
        exact_mod_cast Nat.lt_of_not_le hn
      have h3 := abs_sub_abs_le_abs_sub (n : ℚ) v
      rw [abs_sub_comm] at h3
      norm_num at this herr ⊢
      linarith
  obtain ⟨m, rfl⟩ := hint
  have hmono : ∀ k : ℤ, ∀ (t : Bool) (w : ℤ), decode .b32 (Fmt.b32.ofInt k) = .num t w → (n ≤ k → m ≤ w) ∧ (k ≤ n → w ≤ m) := by
    intro k t w dw
    have hk : Rounded .b32 false (k : ℚ) (Fmt.b32.ofInt k) := rounded_ofInt ok32 k
    constructor
    · intro hle
      have := rounded_mono ok32 h hk d dw (by exact_mod_cast hle)
      exact_mod_cast this
    · intro hle
      have := rounded_mono ok32 hk h dw d (by exact_mod_cast hle)
      exact_mod_cast this
  refine ⟨s, m, d, ?_, ?_, ?_, ?_, ?_⟩
  · -- a multiple of 128 within 64
    obtain ⟨k, hk⟩ : ∃ k : ℤ, |128 * k - n| ≤ 64 ∧ k.natAbs ≤ 2 ^ 24 :=
      ⟨(n + 64) / 128, by rw [abs_le]; omega, by omega⟩
    obtain ⟨c, t, hc⟩ : ∃ c t, decode .b32 c = .num t ((128 * k : ℤ) : ℚ) := by
      rcases Nat.lt_or_eq_of_le hk.2 with hl | he
      · have hw : withSign (decide (k < 0)) (k.natAbs : ℚ) = k := by
          unfold withSign
          rw [Nat.cast_natAbs, Int.cast_abs]
          by_cases h0 : k < 0
          · rw [if_pos (by simpa using h0), abs_of_neg (by exact_mod_cast h0)]; ring
          · rw [if_neg (by simpa using h0), abs_of_nonneg (by exact_mod_cast not_lt.1 h0)]
        obtain ⟨b, -, hb⟩ := representable ok32 (decide (k < 0)) k.natAbs (Fmt.b32.unit + 7) hl
          (lt_of_lt_of_le (Nat.mul_lt_mul_of_pos_right hl (Nat.two_pow_pos _)) (by decide +kernel))
        refine ⟨b, decide (k < 0), ?_⟩
        rw [hb]
        congr 1
        have e : (k.natAbs : ℚ) * 2 ^ (Fmt.b32.unit + 7) / 2 ^ Fmt.b32.unit = 128 * k.natAbs := by
          rw [pow_add]; field_simp; norm_num
        rw [e]
        push_cast
        rw [← hw]
        unfold withSign
        split <;> simp
      · rcases Int.natAbs_eq k with hk' | hk' <;> rw [he] at hk'
        · exact ⟨0x4f000000, false, by rw [decode_4f000000, hk']; norm_num⟩
        · exact ⟨0xcf000000, true, by rw [decode_cf000000, hk']; norm_num⟩
    have h5 := rounded_near h d hc
    have h6 : |m - n| ≤ |128 * k - n| := by exact_mod_cast h5
    exact le_trans h6 hk.1
  · intro hn
    exact_mod_cast hsmall hn
  · intro hn
    exact (hmono 2147483583 false 2147483520 (by
      rw [show Fmt.b32.ofInt 2147483583 = 0x4effffff by decide +kernel, decode_4effffff]; norm_num)).1 hn
  · intro hn
    exact (hmono 2147483584 false 2147483648 (by
      rw [show Fmt.b32.ofInt 2147483584 = 0x4f000000 by decide +kernel, decode_4f000000]; norm_num)).2 hn
  · exact (hmono (-2147483648) true (-2147483648) (by
      rw [show Fmt.b32.ofInt (-2147483648) = 0xcf000000 by decide +kernel, decode_cf000000]; norm_num)).2 h1

theorem isTrunc_cast (m : ℤ) : IsTrunc (m : ℚ) m := by
  unfold IsTrunc
  split
  · exact ⟨le_refl _, by linarith⟩
  · exact ⟨le_refl _, by linarith⟩

/-- Converting to float and back: defined exactly when no lane exceeds 2147483583; then every lane is kept up to
an error of 64, and exactly if its magnitude is at most `2^24`. -/
theorem vcvtq_s32_f32_vcvtq_f32_s32 (a : int32x4_t) :
    ((∀ i, (a.lane i).toInt ≤ 2147483583) →
      ∃ r, (vcvtq_f32_s32 a >>= vcvtq_s32_f32) = .ok r ∧ ∀ i,
        |(r.lane i).toInt - (a.lane i).toInt| ≤ 64 ∧ ((a.lane i).toInt.natAbs ≤ 2 ^ 24 → r.lane i = a.lane i)) ∧
    ((∃ i, 2147483583 < (a.lane i).toInt) → (vcvtq_f32_s32 a >>= vcvtq_s32_f32) = .ub .floatToInt) := by
  obtain ⟨x, ex, hx⟩ := vcvtq_f32_s32_spec a
  have hr : ∀ i, -2147483648 ≤ (a.lane i).toInt ∧ (a.lane i).toInt ≤ 2147483647 := by
    intro i
    have h1 := BitVec.toInt_lt (x := a.lane i)
    have h2 := BitVec.le_toInt (x := a.lane i)
    have h1 : (a.lane i).toInt < 2 ^ 31 := h1
    have h2 : -2 ^ 31 ≤ (a.lane i).toInt := h2
    omega
  rw [ex, ok_bind]
  constructor
  · intro hle
    choose s m d h64 hex hup hbig hlo using fun i => ofInt_conv _ (hr i).1 (hr i).2 (hx i)
    have hm : ∀ i, -2147483648 ≤ m i ∧ m i ≤ 2147483647 := fun i => ⟨hlo i, by have := hup i (hle i); omega⟩
    refine ⟨_, vcvtq_s32_f32_partial x m fun i => ⟨⟨s i, m i, d i, isTrunc_cast _⟩, hm i⟩, fun i => ?_⟩
    have e : (BitVec.ofInt 32 (m i)).toInt = m i := by
      rw [BitVec.toInt_ofInt]
      have := hm i
      exact Int.bmod_eq_of_le (by omega) (by omega)
    refine ⟨?_, fun hn => ?_⟩
    · show |(BitVec.ofInt 32 (m i)).toInt - _| ≤ _
      rw [e]
      exact h64 i
    · show BitVec.ofInt 32 (m i) = a.lane i
      rw [hex i hn]
      exact BitVec.ofInt_toInt
  · rintro ⟨i, hi⟩
    refine vcvtq_s32_f32_ub x ⟨i, fun n ht hn => ?_⟩
    obtain ⟨s, m, d, -, -, -, hbig, -⟩ := ofInt_conv _ (hr i).1 (hr i).2 (hx i)
    obtain ⟨s', y, d', ht⟩ := ht
    rw [d] at d'
    injection d' with _ e
    rw [← e] at ht
    have := isTrunc_unique ht (isTrunc_cast m)
    have := hbig (by omega)
    omega

/-- Converting a float to an integer and back gives the float rounded toward zero, exactly. -/
theorem vcvtq_f32_s32_vcvtq_s32_f32 (a : float32x4_t) (n : Fin 4 → ℤ)
    (h : ∀ i, TruncsTo (a.lane i) (n i) ∧ -2147483648 ≤ n i ∧ n i ≤ 2147483647) :
    ∃ r, (vcvtq_s32_f32 a >>= vcvtq_f32_s32) = .ok r ∧ ∀ i, ∃ s, datum32 (r.lane i) = .num s (n i) := by
  rw [vcvtq_s32_f32_partial a n h, ok_bind]
  obtain ⟨x, ex, hx⟩ := vcvtq_f32_s32_spec ⟨fun i => BitVec.ofInt 32 (n i)⟩
  refine ⟨x, ex, fun i => ?_⟩
  have hxi := hx i
  have e : (BitVec.ofInt 32 (n i)).toInt = n i := by
    rw [BitVec.toInt_ofInt]
    have := (h i).2
    exact Int.bmod_eq_of_le (by omega) (by omega)
  have hxi : Rounded .b32 false ((BitVec.ofInt 32 (n i)).toInt : ℚ) (x.lane i).toNat := hxi
  rw [e] at hxi
  obtain ⟨⟨s, y, d, ht⟩, -⟩ := h i
  by_cases hn : (n i).natAbs ≤ 2 ^ 24
  · obtain ⟨c, hc⟩ := int_rep ok32 wide32 (n := n i) hn
    exact ⟨_, rounded_self ok32 hxi hc⟩
  · have hbig : (2 ^ 24 : ℚ) < |((n i : ℤ) : ℚ)| := by
      rw [← Int.cast_abs, Int.abs_eq_natAbs]
      exact_mod_cast Nat.lt_of_not_le hn
    have hle : |((n i : ℤ) : ℚ)| ≤ |y| := by
      unfold IsTrunc at ht
      split at ht
      · rename_i hy
        have hn0 : (0 : ℚ) ≤ (n i : ℚ) := by
          have : (-1 : ℚ) < (n i : ℚ) := by linarith [ht.2]
          have : (-1 : ℤ) < n i := by exact_mod_cast this
          exact_mod_cast (by omega : 0 ≤ n i)
        rw [abs_of_nonneg hn0, abs_of_nonneg hy]; exact ht.1
      · rename_i hy
        have hn0 : ((n i : ℤ) : ℚ) ≤ 0 := by
          have : (n i : ℚ) < 1 := by linarith [ht.2]
          have : n i < (1 : ℤ) := by exact_mod_cast this
          exact_mod_cast (by omega : n i ≤ 0)
        rw [abs_of_nonpos hn0, abs_of_neg (not_le.1 hy)]; linarith [ht.1]
    obtain ⟨m, hm⟩ := float_integer d (by norm_num at hbig ⊢; linarith)
    rw [hm] at ht d
    have := isTrunc_unique ht (isTrunc_cast m)
    rw [← this] at d
    exact ⟨_, rounded_self ok32 hxi d⟩

/-- Conversion to float is monotone. -/
theorem vcvtq_f32_s32_mono (a b : int32x4_t) :
    ∃ r r', vcvtq_f32_s32 a = .ok r ∧ vcvtq_f32_s32 b = .ok r' ∧ ∀ i, (a.lane i).toInt ≤ (b.lane i).toInt →
      (datum32 (r.lane i)).AtMost (datum32 (r'.lane i)) := by
  obtain ⟨r, e, h⟩ := vcvtq_f32_s32_spec a
  obtain ⟨r', e', h'⟩ := vcvtq_f32_s32_spec b
  exact ⟨r, r', e, e', fun i hle => rounded_atMost ok32 (h i) (h' i) (by exact_mod_cast hle)⟩

/-- Conversion to float has a relative error of at most `2^-24`. -/
theorem vcvtq_f32_s32_error (a : int32x4_t) :
    ∃ r, vcvtq_f32_s32 a = .ok r ∧ ∀ i, ∃ s v, datum32 (r.lane i) = .num s v ∧
      |v - (a.lane i).toInt| ≤ |((a.lane i).toInt : ℚ)| / 2 ^ 24 := by
  obtain ⟨r, e, h⟩ := vcvtq_f32_s32_spec a
  refine ⟨r, e, fun i => ?_⟩
  have h1 : (a.lane i).toInt < 2 ^ 31 := BitVec.toInt_lt (x := a.lane i)
  have h2 : -2 ^ 31 ≤ (a.lane i).toInt := BitVec.le_toInt (x := a.lane i)
  obtain ⟨s, m, d, -⟩ := ofInt_conv _ (by omega) (by omega) (h i)
  refine ⟨s, m, d, rounded_error_multiple ok32 (h i) d ⟨(a.lane i).toInt * 2 ^ Fmt.b32.unit, ?_⟩⟩
  push_cast
  rw [mul_div_assoc, div_self (by positivity), mul_one]

/-- `INT_MAX` does not survive the way to float and back. -/
example : (vcvtq_f32_s32 ⟨fun _ => 0x7fffffff#32⟩ >>= vcvtq_s32_f32) = .ub .floatToInt :=
  (vcvtq_s32_f32_vcvtq_f32_s32 _).2 ⟨0, by decide⟩
example : ∃ r, (vcvtq_f32_s32 ⟨fun _ => 1000#32⟩ >>= vcvtq_s32_f32) = .ok r ∧ ∀ i, r.lane i = 1000#32 := by
  obtain ⟨r, e, h⟩ := (vcvtq_s32_f32_vcvtq_f32_s32 ⟨fun _ => 1000#32⟩).1 (by decide)
  exact ⟨r, e, fun i => (h i).2 (by decide : (1000#32 : BitVec 32).toInt.natAbs ≤ 2 ^ 24)⟩
example := vcvtq_f32_s32_vcvtq_s32_f32 ⟨fun _ => 0x3fc00000#32⟩ (fun _ => 1) fun _ => ⟨truncsTo_3fc00000, by decide⟩

end Verif.Props
