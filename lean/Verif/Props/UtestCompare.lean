import Verif.SpecNumeral
import Verif.Props.UtestText
import Verif.Props.UtestNear
import Verif.Props.CppRules
import Verif.FpLaws

/-!
C103: the comparisons of the test runner on numbers, and the numbers in its messages.
-/

namespace Verif.Props
open Utest SpecNumeral Spec FpOps

/-! ## Numerals -/

theorem value_digits (t : List Char) : value t = Nat.ofDigitChars 10 t 0 := rfl

theorem digits_isDigit {t : List Char} (h : ∀ c ∈ t, c.isDigit = true) : Digits t := by
  intro c hc
  have := h c hc
  simp only [Char.isDigit, Bool.and_eq_true, decide_eq_true_eq, ge_iff_le, UInt32.le_iff_toNat_le] at this
  exact this

theorem toDigits_head (n : Nat) (h : 0 < n) : (Nat.toDigits 10 n).head? ≠ some '0' := by
  induction n using Nat.strong_induction_on with
  | _ n ih =>
    rw [Nat.toDigits_eq_if (by decide)]
    split
    · rename_i hl
      simp only [List.head?_cons, ne_eq, Option.some.injEq, Nat.digitChar_eq_zero]
      omega
    · rename_i hl
      have := ih (n / 10) (by omega) (by omega)
      rw [List.head?_append]
      cases e : (Nat.toDigits 10 (n / 10)).head? with
      | none => exact absurd (List.head?_eq_none_iff.1 e) Nat.toDigits_ne_nil
      | some c => rw [e] at this; simpa using this

/-- The numeral of a natural number. -/
theorem num_numeral (n : Nat) : IsNumeral (num n) n := by
  rw [num_nat, show (toString n).toList = Nat.toDigits 10 n from Nat.toList_repr]
  refine ⟨Nat.toDigits_ne_nil, digits_isDigit fun c hc => Nat.isDigit_of_mem_toDigits (by decide) (by decide) hc, fun hl => ?_,
    Nat.ofDigitChars_ten_toDigits⟩
  apply toDigits_head
  rcases Nat.eq_zero_or_pos n with h | h
  · subst h; exact absurd hl (by decide)
  · exact h

theorem num_negSucc (n : Nat) : num (Int.negSucc n) = '-' :: num (n + 1 : Nat) := by
  have : num (Int.negSucc n) = ("-" ++ Nat.repr (n + 1)).toList := rfl
  rw [this, String.toList_append]
  rfl

/-- An integer is printed as its decimal numeral. -/
theorem num_decimal (v : Int) : IsDecimal (num v) v := by
  unfold IsDecimal
  cases v with
  | ofNat n => rw [if_neg (by simp)]; exact num_numeral n
  | negSucc n => rw [if_pos (Int.negSucc_lt_zero n)]; exact ⟨_, num_negSucc n, num_numeral (n + 1)⟩

/-- A numeral shows one integer only. -/
theorem decimal_inj {t : List Char} {v w : Int} (h : IsDecimal t v) (h' : IsDecimal t w) : v = w := by
  have key : ∀ {d : List Char} {n : Nat}, ¬ IsNumeral ('-' :: d) n := fun h =>
    absurd (h.2.1 '-' (List.mem_cons_self ..)).1 (by decide)
  unfold IsDecimal at h h'
  split at h <;> split at h'
  · obtain ⟨d, rfl, h⟩ := h
    obtain ⟨d', e, h'⟩ := h'
    cases e
    have := h.2.2.2.symm.trans h'.2.2.2
    omega
  · obtain ⟨d, rfl, h⟩ := h; exact absurd h' key
  · obtain ⟨d, rfl, h'⟩ := h'; exact absurd h key
  · have := h.2.2.2.symm.trans h'.2.2.2
    omega

theorem pad6_spec {n : Nat} (h : n < 10 ^ 6) : Digits (pad6 n) ∧ (pad6 n).length = 6 ∧ value (pad6 n) = n := by
  have hn := num_numeral n
  have hl : (num n).length ≤ 6 := by
    rw [num_nat, show (toString n).toList = Nat.toDigits 10 n from Nat.toList_repr, Nat.length_toDigits_le_iff (by decide) (by decide)]
    exact h
  unfold pad6
  refine ⟨?_, by rw [List.length_append, List.length_replicate]; omega, ?_⟩
  · intro c hc
    rcases List.mem_append.1 hc with h | h
    · rw [(List.mem_replicate.1 h).2]; decide
    · exact hn.2.1 c h
  · rw [value_digits, Nat.ofDigitChars_append, Nat.ofDigitChars_replicate_zero, Nat.mul_zero]
    exact hn.2.2.2

/-- A number rounded to six places. -/
theorem fraction_spec (m D : Nat) (hD : 0 < D) :
    IsFraction (num (Fmt.rne (m * 10 ^ 6) D / 10 ^ 6 : Nat) ++ '.' :: pad6 (Fmt.rne (m * 10 ^ 6) D % 10 ^ 6)) ((m : ℚ) / D) := by
  obtain ⟨h1, h2⟩ := FpRound.rne_spec (m * 10 ^ 6) D hD
  generalize Fmt.rne (m * 10 ^ 6) D = n at *
  obtain ⟨p1, p2, p3⟩ := pad6_spec (Nat.mod_lt n (show 10 ^ 6 > 0 by decide))
  have hDq : (0 : ℚ) < D := by exact_mod_cast hD
  have e : ((n / 10 ^ 6 : Nat) : ℚ) + ((n % 10 ^ 6 : Nat) : ℚ) / 10 ^ 6 - (m : ℚ) / D = ((n : ℚ) - ((m * 10 ^ 6 : Nat) : ℚ) / D) / 10 ^ 6 := by
    have := Nat.div_add_mod n (10 ^ 6)
    have : ((n : Nat) : ℚ) = 10 ^ 6 * ((n / 10 ^ 6 : Nat) : ℚ) + ((n % 10 ^ 6 : Nat) : ℚ) := by exact_mod_cast this.symm
    rw [this, Nat.cast_mul]; push_cast; field_simp; norm_num; ring
  refine ⟨_, _, _, rfl, num_numeral _, p1, p2, ?_⟩
  rw [p3, e, abs_div, abs_of_pos (show (0 : ℚ) < 10 ^ 6 by positivity)]
  refine ⟨div_le_div_of_nonneg_right h1 (by positivity), fun h => ?_⟩
  have := h2 (by rwa [div_left_inj' (by positivity)] at h)
  omega

/-- `%f` shows the number. -/
theorem fixed_spec (d : BitVec 64) : IsFixed (fixed d) (decode .b64 d.toNat) := by
  have hs : signField .b64 d.toNat = Fmt.b64.neg d.toNat := neg_eq (lt64 d)
  unfold fixed
  rw [decode_eq ok64, hs]
  unfold Fmt.isNaN Fmt.isInf
  by_cases h1 : Fmt.b64.infBits < Fmt.b64.abs d.toNat
  · rw [if_pos h1, if_pos (decide_eq_true h1)]
    cases Fmt.b64.neg d.toNat
    · exact .inl rfl
    · exact .inr rfl
  · rw [if_neg h1, if_neg (show ¬ decide (Fmt.b64.infBits < Fmt.b64.abs d.toNat) = true by simpa using h1)]
    by_cases h2 : Fmt.b64.abs d.toNat = Fmt.b64.infBits
    · rw [if_pos h2, if_pos (decide_eq_true h2)]
      cases Fmt.b64.neg d.toNat <;> rfl
    · rw [if_neg h2, if_neg (show ¬ decide (Fmt.b64.abs d.toNat = Fmt.b64.infBits) = true by simpa using h2)]
      refine ⟨_, rfl, ?_⟩
      have hx : |withSign (Fmt.b64.neg d.toNat) ((FpRound.magA Fmt.b64.mb (Fmt.b64.abs d.toNat) : ℚ) / 2 ^ Fmt.b64.unit)| =
          (Fmt.b64.mag d.toNat : ℚ) / (2 ^ Fmt.b64.unit : Nat) := by
        rw [mag_eq]
        push_cast
        unfold withSign
        split
        · rw [abs_neg, abs_of_nonneg (by positivity)]
        · rw [abs_of_nonneg (by positivity)]
      rw [hx]
      exact fraction_spec _ _ (Nat.two_pow_pos _)

/-- The text of a value shows it. -/
theorem printer_spec (x : Val) : Shows (utest_type_printer x) x := by
  cases x with
  | int t v => exact num_decimal v
  | f32 b =>
    have := fixed_spec (Val.toF64 (.f32 b))
    rw [show (Val.toF64 (.f32 b)).toNat = Fmt.b32.convert .b64 b.toNat from nat64 (convert_lt ok64 _), decode_wide] at this
    exact this
  | f64 b => exact fixed_spec b

/-- Different integers are printed differently. -/
theorem printer_int_inj {s t : ITy} {v w : Int} (h : utest_type_printer (.int s v) = utest_type_printer (.int t w)) : v = w := by
  have h1 := printer_spec (.int s v)
  rw [h] at h1
  exact decimal_inj h1 (printer_spec (.int t w))

/-! ## Comparisons -/

theorem equal_comm (a b : Datum) : a.Equal b ↔ b.Equal a := by
  cases a <;> cases b <;> simp [Datum.Equal, eq_comm]

/-- The six comparisons follow from `==`, `<` and `>`. -/
theorem holds_of {x y : Val} {a b : Datum} (he : Val.eq x y = true ↔ a.Equal b) (hl : Val.lt x y = true ↔ a.Less b)
    (hg : Val.gt x y = true ↔ b.Less a) (c : Cond) : c.holds x y = true ↔ Holds c a b := by
  cases c with
  | eq => exact he
  | ne => rw [Holds, ← he, Cond.holds]; cases Val.eq x y <;> decide
  | lt => exact hl
  | le => rw [Holds, ← he, ← hl]; exact Bool.or_eq_true_iff
  | gt => exact hg
  | ge => rw [Holds, equal_comm, ← he, ← hg]; exact Bool.or_eq_true_iff

theorem datum_toF32 {t : ITy} {v : Int} (h : v.natAbs ≤ 2 ^ 24) : decode .b32 (Val.toF32 (.int t v)).toNat = .num (decide (v < 0)) v := by
  obtain ⟨b, hb⟩ := int_rep ok32 wide32 (n := v) h
  have := rounded_self ok32 (rounded_ofInt ok32 v) hb
  rw [show (Val.toF32 (.int t v)).toNat = Fmt.b32.ofInt v from nat32 (ofInt_lt v), this]
  by_cases h0 : v = 0
  · subst h0; rfl
  · rw [if_neg (by exact_mod_cast h0)]

theorem datum_toF64 {t : ITy} {v : Int} (h : v.natAbs ≤ 2 ^ 53) : decode .b64 (Val.toF64 (.int t v)).toNat = .num (decide (v < 0)) v := by
  obtain ⟨b, hb⟩ := int_rep ok64 wide64 (n := v) h
  have := rounded_self ok64 (rounded_ofInt ok64 v) hb
  rw [show (Val.toF64 (.int t v)).toNat = Fmt.b64.ofInt v from nat64 (ofInt_lt v), this]
  by_cases h0 : v = 0
  · subst h0; rfl
  · rw [if_neg (by exact_mod_cast h0)]

theorem datum_wide (b : BitVec 32) : decode .b64 (Val.toF64 (.f32 b)).toNat = decode .b32 b.toNat := by
  rw [show (Val.toF64 (.f32 b)).toNat = Fmt.b32.convert .b64 b.toNat from nat64 (convert_lt ok64 _), decode_wide]

theorem holds64 {x y : BitVec 64} {a b : Datum} (ha : decode .b64 x.toNat = a) (hb : decode .b64 y.toNat = b) :
    (Fmt.b64.eq x.toNat y.toNat = true ↔ a.Equal b) ∧ (Fmt.b64.lt x.toNat y.toNat = true ↔ a.Less b) ∧
      (Fmt.b64.lt y.toNat x.toNat = true ↔ b.Less a) := by
  subst ha hb
  exact ⟨eq_iff ok64 (lt64 x) (lt64 y), lt_iff ok64 (lt64 x) (lt64 y), lt_iff ok64 (lt64 y) (lt64 x)⟩

theorem holds32 {x y : BitVec 32} {a b : Datum} (ha : decode .b32 x.toNat = a) (hb : decode .b32 y.toNat = b) :
    (Fmt.b32.eq x.toNat y.toNat = true ↔ a.Equal b) ∧ (Fmt.b32.lt x.toNat y.toNat = true ↔ a.Less b) ∧
      (Fmt.b32.lt y.toNat x.toNat = true ↔ b.Less a) := by
  subst ha hb
  exact ⟨eq_iff ok32 (lt32 x) (lt32 y), lt_iff ok32 (lt32 x) (lt32 y), lt_iff ok32 (lt32 y) (lt32 x)⟩

/-- A check compares the numbers that its arguments are, if the type in which C++ compares them represents both.  Missing: a signed
with an unsigned integer, and integers too large for the floating-point type (`compare_signs_wrong`, `compare_float_wrong`). -/
theorem compare_partial {x y : Val} (hx : Proper x) (hy : Proper y) (hf : Faithful x y) (c : Cond) :
    c.holds x y = true ↔ Holds c (datum x) (datum y) := by
  cases x <;> cases y
  case int.int s a t b =>
    obtain ⟨r, hr, ha, hb⟩ := hf
    let _ : Dialect := .strict
    obtain ⟨h1, h2, h3, -⟩ := comparison_rule s t r a b a b hx hy ⟨hr, converts_self r a ha, converts_self r b hb⟩
    refine holds_of (h3.trans ?_) (h1.trans ?_) (h2.trans ?_) c
    · exact (Int.cast_inj (α := ℚ)).symm
    · exact (Int.cast_lt (R := ℚ)).symm
    · exact (Int.cast_lt (R := ℚ)).symm
  case int.f32 t v b => have := holds32 (datum_toF32 (t := t) hf) (y := b) rfl; refine holds_of ?_ ?_ ?_ c; exacts [this.1, this.2.1, this.2.2]
  case f32.int b t v => have := holds32 (x := b) rfl (datum_toF32 (t := t) hf); refine holds_of ?_ ?_ ?_ c; exacts [this.1, this.2.1, this.2.2]
  case int.f64 t v b => have := holds64 (datum_toF64 (t := t) hf) (y := b) rfl; refine holds_of ?_ ?_ ?_ c; exacts [this.1, this.2.1, this.2.2]
  case f64.int b t v => have := holds64 (x := b) rfl (datum_toF64 (t := t) hf); refine holds_of ?_ ?_ ?_ c; exacts [this.1, this.2.1, this.2.2]
  case f32.f32 a b => have := holds32 (x := a) (y := b) rfl rfl; refine holds_of ?_ ?_ ?_ c; exacts [this.1, this.2.1, this.2.2]
  case f64.f64 a b => have := holds64 (x := a) (y := b) rfl rfl; refine holds_of ?_ ?_ ?_ c; exacts [this.1, this.2.1, this.2.2]
  case f32.f64 a b => have := holds64 (datum_wide a) (y := b) rfl; refine holds_of ?_ ?_ ?_ c; exacts [this.1, this.2.1, this.2.2]
  case f64.f32 a b => have := holds64 (x := a) rfl (datum_wide b); refine holds_of ?_ ?_ ?_ c; exacts [this.1, this.2.1, this.2.2]

/-- Integers of one signedness are compared as numbers, whatever their widths. -/
theorem compare_same_sign {s t : ITy} {a b : Int} (hs : SpecCpp.isSigned s = SpecCpp.isSigned t) (ha : SpecCpp.IsValue s a)
    (hb : SpecCpp.IsValue t b) (c : Cond) : c.holds (.int s a) (.int t b) = true ↔ Holds c (datum (.int s a)) (datum (.int t b)) := by
  refine compare_partial (x := .int s a) (y := .int t b) ha hb ⟨s.uac t, (common_type_rule s t _).2 rfl, ?_, ?_⟩ c
  all_goals
    revert hs ha hb
    cases s <;> cases t <;> simp [SpecCpp.isSigned, SpecCpp.IsValue, SpecCpp.width, ITy.uac, ITy.promote] <;> omega

/-- A signed integer compared with an unsigned one that is at least as wide: if it is negative, the check goes wrong.  Every negative number
is greater than 1 for the check. -/
theorem compare_signs_wrong {a : Int} (ha : SpecCpp.IsValue .i32 a) (h : a < 0) :
    Cond.holds .lt (.int .i32 a) (.int .u32 1) = false ∧ Holds .lt (datum (.int .i32 a)) (datum (.int .u32 1)) := by
  constructor
  · have hl : -2147483648 ≤ a := ha.1
    have e : a + 4294967296 = ITy.conv .i32 .u32 a := by
      refine (conversion_rule .i32 .u32 a _ ha).1 ⟨?_, 1, by simp [SpecCpp.width]⟩
      have : 0 ≤ a + 4294967296 ∧ a + 4294967296 < 4294967296 := by omega
      exact this
    show decide (ITy.conv .i32 .u32 a < ITy.conv .u32 .u32 1) = false
    rw [← e, show ITy.conv .u32 .u32 1 = 1 from rfl, decide_eq_false_iff_not]
    omega
  · show ((a : Int) : ℚ) < ((1 : Int) : ℚ)
    exact_mod_cast (by omega : a < 1)

/-- `EXPECT_EQ(-1, 4294967295u)` passes. -/
example : Cond.holds .eq (.int .i32 (-1)) (.int .u32 4294967295) = true := by decide +kernel

/-- An integer is rounded before it is compared with a `float`. -/
theorem compare_float_wrong : Cond.holds .eq (.int .i32 16777217) (.f32 0x4b800000#32) = true ∧
    ¬ Holds .eq (datum (.int .i32 16777217)) (datum (.f32 0x4b800000#32)) := by
  constructor
  · decide +kernel
  · have h : decode .b32 (0x4b800000#32).toNat = .num false 16777216 := by
      have h := datum_toF32 (t := .i32) (v := 16777216) (by decide)
      rw [show Val.toF32 (.int .i32 16777216) = 0x4b800000#32 by decide +kernel] at h
      rw [h]; simp
    show ¬ (Datum.num (decide ((16777217 : Int) < 0)) ((16777217 : Int) : ℚ)).Equal (decode .b32 (0x4b800000#32).toNat)
    rw [h]
    show ¬ (((16777217 : Int) : ℚ) = 16777216)
    norm_num

/-! ## Messages -/

theorem cond_sign (c : Cond) : c.text = (sign c).toList := by cases c <;> rfl

theorem cond_plain (c : Cond) : '%' ∉ c.text := by cases c <;> decide

/-- A check passes exactly when its comparison holds, and then it prints nothing; a failure prints the texts of the arguments and their
values.  Missing: texts with a `%` (C102, `compare_text_wrong`). -/
theorem compare_check_partial (c : Cond) {xt yt : Str} (hx : '%' ∉ xt) (hy : '%' ∉ yt) (x y : Val) :
    (c.holds x y = true → COMPARE c xt yt x y = .ok none) ∧
    (c.holds x y = false → ∃ a b, Shows a x ∧ Shows b y ∧ COMPARE c xt yt x y = .ok (some (Compared xt (sign c).toList yt a b))) := by
  unfold COMPARE
  constructor
  · intro h; rw [if_pos h]
  · intro h
    refine ⟨_, _, printer_spec x, printer_spec y, ?_⟩
    rw [if_neg (by simp [h]), compare_text_partial hx (cond_plain c) hy, cond_sign]
    rfl

/-- The message of a failure can show the same number twice: `EXPECT_EQ` of `1e-7` and `2e-7`. -/
theorem compare_blind_wrong : Cond.holds .eq (.f64 0x3e7ad7f29abcaf48#64) (.f64 0x3e8ad7f29abcaf48#64) = false ∧
    utest_type_printer (.f64 0x3e7ad7f29abcaf48#64) = "0.000000".toList ∧
    utest_type_printer (.f64 0x3e8ad7f29abcaf48#64) = "0.000000".toList := by
  refine ⟨by decide +kernel, by decide +kernel, by decide +kernel⟩

/-! ## Examples -/

example : utest_type_printer (.int .i8 (-5)) = "-5".toList := by decide +kernel
example : utest_type_printer (.f32 0x3fc00000#32) = "1.500000".toList := by decide +kernel
example : utest_type_printer (.f64 0x8000000000000000#64) = "-0.000000".toList := by decide +kernel
example : utest_type_printer (.f64 0x7ff0000000000000#64) = "inf".toList := by decide +kernel
example : COMPARE .lt "a".toList "b".toList (.int .i32 7) (.int .u8 3) =
    .ok (some "  Expected : (a) < (b)\n    Actual : 7 vs 3\n".toList) := by decide +kernel
example : Proper (.int .i32 (-7)) ∧ Proper (.int .i64 3) ∧ Faithful (.int .i32 (-7)) (.int .i64 3) :=
  ⟨by simp [Proper, SpecCpp.IsValue, SpecCpp.isSigned, SpecCpp.width], by simp [Proper, SpecCpp.IsValue, SpecCpp.isSigned, SpecCpp.width],
    .i64, (common_type_rule .i32 .i64 _).2 rfl, by simp [SpecCpp.IsValue, SpecCpp.isSigned, SpecCpp.width],
    by simp [SpecCpp.IsValue, SpecCpp.isSigned, SpecCpp.width]⟩

end Verif.Props
