import Verif.Props.Float
import Verif.Model.Convert

/-!
# Conversions between floats and integers (C53, C54, C55)
-/

namespace Verif.Props
open Verif.Model Verif.Spec Verif.FpOps

/-! ## Integer to float -/

/-- `vcvtq_f32_s32`, lane by lane, in terms of the model's conversion. -/
theorem vcvtq_f32_s32_eval (a : int32x4_t) :
    vcvtq_f32_s32 a = .ok ⟨fun i => BitVec.ofNat 32 (Fmt.b32.ofInt (a.lane i).toInt)⟩ := by
  unfold vcvtq_f32_s32
  refine fill_ok (by rfl) _ fun i D => ?_
  csim
  rfl

/-- Each lane of `vcvtq_f32_s32` is the float nearest to the integer, ties to even; zero gives `+0`. -/
theorem vcvtq_f32_s32_spec (a : int32x4_t) : ∃ r, vcvtq_f32_s32 a = .ok r ∧
    ∀ i, Rounded .b32 false ((a.lane i).toInt : ℚ) (r.lane i).toNat := by
  refine ⟨_, vcvtq_f32_s32_eval a, fun i => ?_⟩
  show Rounded _ _ _ (BitVec.ofNat 32 _).toNat
  rw [nat32 (ofInt_lt _)]
  exact rounded_ofInt ok32 _

/-- An integer of magnitude at most `2^24` has a pattern of its own. -/
theorem decode_ofInt32 (n : Int) (h : n.natAbs ≤ 2 ^ 24) :
    decode .b32 (Fmt.b32.ofInt n) = .num (decide (n < 0)) n := by
  have hU : (0 : ℚ) < 2 ^ Fmt.b32.unit := by positivity
  have key : Fmt.b32.fix (Fmt.b32.ofInt n) = n * 2 ^ Fmt.b32.unit ∧
      Fmt.b32.abs (Fmt.b32.ofInt n) < Fmt.b32.infBits ∧ Fmt.b32.neg (Fmt.b32.ofInt n) = decide (n < 0) := by
    rcases Nat.eq_or_lt_of_le h with h1 | h1
    · have : n = 2 ^ 24 ∨ n = -2 ^ 24 := by omega
      rcases this with h | h <;> rw [h] <;> decide +kernel
    · apply ofInt_exact ok32
      · exact h1
      · have e1 : Fmt.b32.unit = 149 := by decide
        rw [e1]
        exact Nat.lt_trans (Nat.mul_lt_mul_of_pos_right h1 (Nat.two_pow_pos _)) (by decide +kernel)
  obtain ⟨k1, k2, k3⟩ := key
  rcases kind ok32 (ofInt_lt (f := .b32) n) with ⟨nn, i, d⟩ | ⟨nn, i, d, e⟩ | ⟨nn, i, d, e⟩
  · have : Fmt.b32.infBits < Fmt.b32.abs (Fmt.b32.ofInt n) := by simpa [Fmt.isNaN] using nn
    omega
  · have : Fmt.b32.abs (Fmt.b32.ofInt n) = Fmt.b32.infBits := by simpa [Fmt.isInf] using i
    omega
  · rw [d, k1, k3]
    push_cast
    rw [mul_div_cancel_right₀ _ (ne_of_gt hU)]

/-- `vcvtq_f32_s32` is exact on integers of magnitude at most `2^24`. -/
theorem vcvtq_f32_s32_exact (a : int32x4_t) : ∃ r, vcvtq_f32_s32 a = .ok r ∧
    ∀ i, (a.lane i).toInt.natAbs ≤ 2 ^ 24 →
      decode .b32 (r.lane i).toNat = .num (decide ((a.lane i).toInt < 0)) ((a.lane i).toInt : ℚ) := by
  refine ⟨_, vcvtq_f32_s32_eval a, fun i h => ?_⟩
  show decode _ (BitVec.ofNat 32 _).toNat = _
  rw [nat32 (ofInt_lt _)]
  exact decode_ofInt32 _ h

/-- The bound is sharp: `2^24 + 1` becomes `2^24`. -/
example : vcvtq_f32_s32 ⟨fun _ => 16777217#32⟩ = vcvtq_f32_s32 ⟨fun _ => 16777216#32⟩ := by
  rw [vcvtq_f32_s32_eval, vcvtq_f32_s32_eval]
  have : Fmt.b32.ofInt (16777217#32 : BitVec 32).toInt = Fmt.b32.ofInt (16777216#32 : BitVec 32).toInt := by
    decide +kernel
  simp only [this]

/-! ## Float to integer -/

/-- The float is a number whose truncation toward zero is `n`. -/
def TruncsTo (b : BitVec 32) (n : Int) : Prop := ∃ s x, decode .b32 b.toNat = .num s x ∧ IsTrunc x n

/-- `n` is the integer nearest to `x`, the even one at ties. -/
def IsNearest (x : ℚ) (n : Int) : Prop := |x - n| ≤ 1 / 2 ∧ (|x - n| = 1 / 2 → n % 2 = 0)

theorem isTrunc_unique {x : ℚ} {n m : Int} (h : IsTrunc x n) (h' : IsTrunc x m) : n = m := by
  unfold IsTrunc at h h'
  split at h
  · rename_i hx
    rw [if_pos hx] at h'
    have h1 : (n : ℚ) < ((m + 1 : ℤ) : ℚ) := by push_cast; linarith
    have h2 : (m : ℚ) < ((n + 1 : ℤ) : ℚ) := by push_cast; linarith
    have := Int.cast_lt.1 h1
    have := Int.cast_lt.1 h2
    omega
  · rename_i hx
    rw [if_neg hx] at h'
    have h1 : ((n - 1 : ℤ) : ℚ) < (m : ℚ) := by push_cast; linarith
    have h2 : ((m - 1 : ℤ) : ℚ) < (n : ℚ) := by push_cast; linarith
    have := Int.cast_lt.1 h1
    have := Int.cast_lt.1 h2
    omega

theorem trunc_some {b : BitVec 32} {n : Int} (h : TruncsTo b n) : Fmt.b32.trunc b.toNat = some n := by
  obtain ⟨s, x, d, t⟩ := h
  have := trunc_spec ok32 (lt32 b)
  rw [d] at this
  obtain ⟨m, e, t'⟩ := this
  rw [e, isTrunc_unique t t']

theorem trunc_cases (b : BitVec 32) :
    (∃ n, TruncsTo b n ∧ Fmt.b32.trunc b.toNat = some n) ∨ Fmt.b32.trunc b.toNat = none := by
  have := trunc_spec ok32 (lt32 b)
  split at this
  · rename_i s x d
    obtain ⟨n, e, t⟩ := this
    exact .inl ⟨n, ⟨s, x, d, t⟩, e⟩
  · exact .inr this

theorem toBits_in {t : ITy} {b : BitVec 32} {n : Int} (h : TruncsTo b n) (hr : t.lo ≤ n ∧ n ≤ t.hi) :
    Val.toBits (.int t) (.f32 b) = .ok (BitVec.ofInt t.bits n) := by
  show (truncTo t (Fmt.b32.trunc b.toNat) >>= fun v => C.ok (BitVec.ofInt t.bits v)) = _
  rw [trunc_some h]
  show ((if t.lo ≤ n ∧ n ≤ t.hi then C.ok n else .ub .floatToInt) >>= fun v => C.ok (BitVec.ofInt t.bits v)) = _
  rw [if_pos hr]
  rfl

theorem toBits_out {t : ITy} {b : BitVec 32} (h : ¬ ∃ n, TruncsTo b n ∧ t.lo ≤ n ∧ n ≤ t.hi) :
    Val.toBits (.int t) (.f32 b) = .ub .floatToInt := by
  show (truncTo t (Fmt.b32.trunc b.toNat) >>= fun v => C.ok (BitVec.ofInt t.bits v)) = _
  rcases trunc_cases b with ⟨n, ht, e⟩ | e
  · rw [e]
    show ((if t.lo ≤ n ∧ n ≤ t.hi then C.ok n else .ub .floatToInt) >>= fun v => C.ok (BitVec.ofInt t.bits v)) = _
    rw [if_neg fun hr => h ⟨n, ht, hr⟩]
    rfl
  · rw [e]
    rfl

/-- `vcvtq_s32_f32` truncates toward zero where every truncated lane fits the result type.
Missing for the full claim: saturation of other values (they are undefined behaviour, `vcvtq_s32_f32_ub`). -/
theorem vcvtq_s32_f32_partial (a : float32x4_t) (n : Fin 4 → Int)
    (h : ∀ i, TruncsTo (a.lane i) (n i) ∧ -2147483648 ≤ n i ∧ n i ≤ 2147483647) :
    vcvtq_s32_f32 a = .ok ⟨fun i => BitVec.ofInt 32 (n i)⟩ := by
  unfold vcvtq_s32_f32
  refine fill_ok (by rfl) _ fun i D => ?_
  obtain ⟨h1, h2⟩ := h i
  have e : Val.toBits (.int .i32) (.f32 (a.lane i)) = .ok (BitVec.ofInt 32 (n i)) := by
    exact toBits_in h1 h2
  csim
  rw [e]
  rfl

/-- If some lane of the operand is a NaN or an infinity, or its truncation does not fit the result type,
`vcvtq_s32_f32` has undefined behaviour. -/
theorem vcvtq_s32_f32_ub (a : float32x4_t)
    (h : ∃ i, ∀ n, TruncsTo (a.lane i) n → ¬ (-2147483648 ≤ n ∧ n ≤ 2147483647)) :
    vcvtq_s32_f32 a = .ub .floatToInt := by
  classical
  have key : vcvtq_s32_f32 a = if ∀ i, ∃ n, TruncsTo (a.lane i) n ∧ -2147483648 ≤ n ∧ n ≤ 2147483647
      then .ok ⟨fun i => BitVec.ofInt 32 ((Fmt.b32.trunc (a.lane i).toNat).getD 0)⟩ else .ub .floatToInt := by
    unfold vcvtq_s32_f32
    refine fill_if (by rfl) _ _ _ fun i D => ?_
    csim
    by_cases hr : ∃ n, TruncsTo (a.lane i) n ∧ -2147483648 ≤ n ∧ n ≤ 2147483647
    · rw [if_pos hr]
      obtain ⟨n, t, hr⟩ := hr
      rw [trunc_some t, toBits_in (t := .i32) t hr]
      rfl
    · rw [if_neg hr, toBits_out (t := .i32) hr]
      rfl
  rw [key, if_neg]
  intro hall
  obtain ⟨i, hi⟩ := h
  obtain ⟨n, t, r⟩ := hall i
  exact hi n t r

/-- `vcvtq_u32_f32` truncates toward zero where every truncated lane fits the result type.
Missing for the full claim: saturation of other values (they are undefined behaviour, `vcvtq_u32_f32_ub`). -/
theorem vcvtq_u32_f32_partial (a : float32x4_t) (n : Fin 4 → Int)
    (h : ∀ i, TruncsTo (a.lane i) (n i) ∧ 0 ≤ n i ∧ n i ≤ 4294967295) :
    vcvtq_u32_f32 a = .ok ⟨fun i => BitVec.ofInt 32 (n i)⟩ := by
  unfold vcvtq_u32_f32
  refine fill_ok (by rfl) _ fun i D => ?_
  obtain ⟨h1, h2⟩ := h i
  have e : Val.toBits (.int .u32) (.f32 (a.lane i)) = .ok (BitVec.ofInt 32 (n i)) := by
    exact toBits_in h1 h2
  csim
  rw [e]
  rfl

/-- If some lane of the operand is a NaN or an infinity, or its truncation does not fit the result type,
`vcvtq_u32_f32` has undefined behaviour. -/
theorem vcvtq_u32_f32_ub (a : float32x4_t)
    (h : ∃ i, ∀ n, TruncsTo (a.lane i) n → ¬ (0 ≤ n ∧ n ≤ 4294967295)) :
    vcvtq_u32_f32 a = .ub .floatToInt := by
  classical
  have key : vcvtq_u32_f32 a = if ∀ i, ∃ n, TruncsTo (a.lane i) n ∧ 0 ≤ n ∧ n ≤ 4294967295
      then .ok ⟨fun i => BitVec.ofInt 32 ((Fmt.b32.trunc (a.lane i).toNat).getD 0)⟩ else .ub .floatToInt := by
    unfold vcvtq_u32_f32
    refine fill_if (by rfl) _ _ _ fun i D => ?_
    csim
    by_cases hr : ∃ n, TruncsTo (a.lane i) n ∧ 0 ≤ n ∧ n ≤ 4294967295
    · rw [if_pos hr]
      obtain ⟨n, t, hr⟩ := hr
      rw [trunc_some t, toBits_in (t := .u32) t hr]
      rfl
    · rw [if_neg hr, toBits_out (t := .u32) hr]
      rfl
  rw [key, if_neg]
  intro hall
  obtain ⟨i, hi⟩ := h
  obtain ⟨n, t, r⟩ := hall i
  exact hi n t r

/-- `vcvtnq_s32_f32` truncates toward zero, exactly like `vcvtq_s32_f32`, where every truncated lane fits the result type.
 -/
theorem vcvtnq_s32_f32_exact (a : float32x4_t) (n : Fin 4 → Int)
    (h : ∀ i, TruncsTo (a.lane i) (n i) ∧ -2147483648 ≤ n i ∧ n i ≤ 2147483647) :
    vcvtnq_s32_f32 a = .ok ⟨fun i => BitVec.ofInt 32 (n i)⟩ := by
  unfold vcvtnq_s32_f32
  refine fill_ok (by rfl) _ fun i D => ?_
  obtain ⟨h1, h2⟩ := h i
  have e : Val.toBits (.int .i32) (.f32 (a.lane i)) = .ok (BitVec.ofInt 32 (n i)) := by
    exact toBits_in h1 h2
  csim
  rw [e]
  rfl

/-- If some lane of the operand is a NaN or an infinity, or its truncation does not fit the result type,
`vcvtnq_s32_f32` has undefined behaviour. -/
theorem vcvtnq_s32_f32_ub (a : float32x4_t)
    (h : ∃ i, ∀ n, TruncsTo (a.lane i) n → ¬ (-2147483648 ≤ n ∧ n ≤ 2147483647)) :
    vcvtnq_s32_f32 a = .ub .floatToInt := by
  classical
  have key : vcvtnq_s32_f32 a = if ∀ i, ∃ n, TruncsTo (a.lane i) n ∧ -2147483648 ≤ n ∧ n ≤ 2147483647
      then .ok ⟨fun i => BitVec.ofInt 32 ((Fmt.b32.trunc (a.lane i).toNat).getD 0)⟩ else .ub .floatToInt := by
    unfold vcvtnq_s32_f32
    refine fill_if (by rfl) _ _ _ fun i D => ?_
    csim
    by_cases hr : ∃ n, TruncsTo (a.lane i) n ∧ -2147483648 ≤ n ∧ n ≤ 2147483647
    · rw [if_pos hr]
      obtain ⟨n, t, hr⟩ := hr
      rw [trunc_some t, toBits_in (t := .i32) t hr]
      rfl
    · rw [if_neg hr, toBits_out (t := .i32) hr]
      rfl
  rw [key, if_neg]
  intro hall
  obtain ⟨i, hi⟩ := h
  obtain ⟨n, t, r⟩ := hall i
  exact hi n t r

/-- The float of an exponent and fraction field, for the examples below. -/
theorem decode_normal32 {b : Nat} (h1 : expField .b32 b ≠ 255) (h2 : expField .b32 b ≠ 0) :
    decode .b32 b = .num (signField .b32 b)
      (withSign (signField .b32 b) ((1 + (fracField .b32 b : ℚ) / 2 ^ 23) * 2 ^ ((expField .b32 b : ℤ) - 127))) := by
  unfold decode
  rw [if_neg (by simpa using h1), if_neg h2]
  rfl

theorem decode_3fc00000 : decode .b32 0x3fc00000 = .num false (3 / 2) := by
  rw [decode_normal32 (by decide) (by decide)]
  have e1 : expField .b32 0x3fc00000 = 127 := by decide
  have e2 : fracField .b32 0x3fc00000 = 4194304 := by decide
  have e3 : signField .b32 0x3fc00000 = false := by decide
  rw [e1, e2, e3]
  simp only [withSign]
  norm_num

/-- `1.5f` truncates to 1. -/
theorem truncsTo_3fc00000 : TruncsTo 0x3fc00000#32 1 :=
  ⟨false, 3 / 2, decode_3fc00000, by unfold IsTrunc; norm_num⟩

/-- Concrete case: the hypotheses of the conversion theorems hold for `1.5f` in every lane. -/
example : vcvtq_s32_f32 ⟨fun _ => 0x3fc00000#32⟩ = .ok ⟨fun _ => 1#32⟩ :=
  vcvtq_s32_f32_partial _ (fun _ => 1) fun _ => ⟨truncsTo_3fc00000, by decide⟩
example : vcvtq_u32_f32 ⟨fun _ => 0x3fc00000#32⟩ = .ok ⟨fun _ => 1#32⟩ :=
  vcvtq_u32_f32_partial _ (fun _ => 1) fun _ => ⟨truncsTo_3fc00000, by decide⟩

example := vcvtnq_s32_f32_exact ⟨fun _ => 0x3fc00000#32⟩ (fun _ => 1) fun _ => ⟨truncsTo_3fc00000, by decide⟩

theorem not_truncsTo_nan (n : Int) : ¬ TruncsTo 0x7fc00000#32 n := by
  rintro ⟨s, x, d, -⟩
  rcases kind ok32 (lt32 0x7fc00000#32) with ⟨_, _, d'⟩ | ⟨n, _⟩ | ⟨n, _⟩
  · rw [d] at d'; cases d'
  · exact absurd n (by decide +kernel)
  · exact absurd n (by decide +kernel)

/-- Concrete case: NaN. -/
example : vcvtq_s32_f32 ⟨fun _ => 0x7fc00000#32⟩ = .ub .floatToInt :=
  vcvtq_s32_f32_ub _ ⟨0, fun n h => absurd h (not_truncsTo_nan n)⟩

example := vcvtq_u32_f32_ub ⟨fun _ => 0x7fc00000#32⟩ ⟨0, fun n h => absurd h (not_truncsTo_nan n)⟩
example := vcvtnq_s32_f32_ub ⟨fun _ => 0x7fc00000#32⟩ ⟨0, fun n h => absurd h (not_truncsTo_nan n)⟩

/-- The claim that out-of-range values saturate and NaN gives 0 is false of `vcvtq_s32_f32`. -/
theorem vcvtq_s32_f32_wrong : ¬ ∀ a : float32x4_t, ∃ r, vcvtq_s32_f32 a = .ok r := by
  intro h
  obtain ⟨r, e⟩ := h ⟨fun _ => 0x7fc00000#32⟩
  rw [vcvtq_s32_f32_ub _ ⟨0, fun n h => absurd h (not_truncsTo_nan n)⟩] at e
  cases e

/-- The claim that out-of-range values saturate and NaN gives 0 is false of `vcvtq_u32_f32`. -/
theorem vcvtq_u32_f32_wrong : ¬ ∀ a : float32x4_t, ∃ r, vcvtq_u32_f32 a = .ok r := by
  intro h
  obtain ⟨r, e⟩ := h ⟨fun _ => 0x7fc00000#32⟩
  rw [vcvtq_u32_f32_ub _ ⟨0, fun n h => absurd h (not_truncsTo_nan n)⟩] at e
  cases e

/-- `vcvtnq_s32_f32` gives the nearest integer where truncation does, in particular on integers.
Missing for the full claim: values with a fractional part of at least one half (refuted by
`vcvtnq_s32_f32_wrong`). -/
theorem vcvtnq_s32_f32_partial (a : float32x4_t) (x : Fin 4 → ℚ) (n : Fin 4 → Int)
    (h : ∀ i, (∃ s, decode .b32 (a.lane i).toNat = .num s (x i)) ∧ IsNearest (x i) (n i) ∧
      |(n i : ℚ)| ≤ |x i| ∧ -2147483648 ≤ n i ∧ n i ≤ 2147483647) :
    vcvtnq_s32_f32 a = .ok ⟨fun i => BitVec.ofInt 32 (n i)⟩ := by
  refine vcvtnq_s32_f32_exact a n fun i => ?_
  obtain ⟨⟨s, d⟩, ⟨hn, -⟩, hle, hr⟩ := h i
  refine ⟨⟨s, x i, d, ?_⟩, hr⟩
  generalize x i = x at *
  generalize n i = n at *
  unfold IsTrunc
  rw [abs_le] at hn
  split
  · rename_i hx
    rw [abs_of_nonneg hx] at hle
    have := le_abs_self (n : ℚ)
    constructor <;> linarith
  · rename_i hx
    rw [not_le] at hx
    rw [abs_of_neg hx] at hle
    have := neg_le_abs (n : ℚ)
    constructor <;> linarith

/-- `1.5f` should become 2 but becomes 1. -/
theorem vcvtnq_s32_f32_wrong : ¬ ∀ (a : float32x4_t) (x : Fin 4 → ℚ) (n : Fin 4 → Int),
    (∀ i, (∃ s, decode .b32 (a.lane i).toNat = .num s (x i)) ∧ IsNearest (x i) (n i) ∧
      -2147483648 ≤ n i ∧ n i ≤ 2147483647) →
    vcvtnq_s32_f32 a = .ok ⟨fun i => BitVec.ofInt 32 (n i)⟩ := by
  intro h
  have h := h ⟨fun _ => 0x3fc00000#32⟩ (fun _ => 3 / 2) (fun _ => 2) fun i =>
    ⟨⟨false, decode_3fc00000⟩, by unfold IsNearest; constructor <;> norm_num, by decide⟩
  rw [vcvtnq_s32_f32_exact _ (fun _ => 1) fun _ => ⟨truncsTo_3fc00000, by decide⟩] at h
  have := congrFun (Vec.mk.inj (C.ok.inj h)) 0
  revert this
  decide

end Verif.Props
