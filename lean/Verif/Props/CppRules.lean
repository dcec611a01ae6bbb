import Verif.SpecCpp
import Verif.Cpp.Sem
import Verif.Image

/-! Property C93: the rules by which the code is evaluated are those of C++11 on an LP64 machine. -/

namespace Verif.Props
open Verif.SpecCpp

/-! ## Types -/

theorem isValue_iff (t : ITy) (v : Int) : IsValue t v ↔ t.lo ≤ v ∧ v ≤ t.hi := by
  cases t <;> simp [IsValue, isSigned, width, ITy.lo, ITy.hi] <;> omega

theorem represents_iff (t s : ITy) : Represents t s ↔ t.lo ≤ s.lo ∧ s.hi ≤ t.hi := by
  constructor
  · intro h
    have h1 := (isValue_iff t s.lo).1 (h _ ((isValue_iff s s.lo).2 ⟨Int.le_refl _, by cases s <;> decide⟩))
    have h2 := (isValue_iff t s.hi).1 (h _ ((isValue_iff s s.hi).2 ⟨by cases s <;> decide, Int.le_refl _⟩))
    exact ⟨h1.1, h2.2⟩
  · rintro ⟨h1, h2⟩ v hv
    have := (isValue_iff s v).1 hv
    exact (isValue_iff t v).2 ⟨by omega, by omega⟩

instance (t s : ITy) : Decidable (Represents t s) := decidable_of_iff _ (represents_iff t s).symm

/-- Integer promotion is that of [conv.prom]. -/
theorem promotion_rule (s r : ITy) : Promotes s r ↔ r = s.promote := by
  unfold Promotes
  cases s <;> cases r <;> decide

theorem common_iff (s t r : ITy) : Common s t r ↔
    (s = t ∧ r = s) ∨ (isSigned s = isSigned t ∧ width t < width s ∧ r = s) ∨
    (isSigned s = isSigned t ∧ width s < width t ∧ r = t) ∨
    (isSigned s = false ∧ isSigned t = true ∧ width t ≤ width s ∧ r = s) ∨
    (isSigned s = true ∧ isSigned t = false ∧ width s ≤ width t ∧ r = t) ∨
    (isSigned s = true ∧ isSigned t = false ∧ width t < width s ∧ Represents s t ∧ r = s) ∨
    (isSigned s = false ∧ isSigned t = true ∧ width s < width t ∧ Represents t s ∧ r = t) ∨
    (isSigned s = true ∧ isSigned t = false ∧ width t < width s ∧ ¬ Represents s t ∧ r = unsignedOf s) ∨
    (isSigned s = false ∧ isSigned t = true ∧ width s < width t ∧ ¬ Represents t s ∧ r = unsignedOf t) := by
  constructor
  · rintro (_ | _ | _ | _ | _ | _ | _ | _ | _) <;> simp_all
  · rintro (⟨rfl, rfl⟩ | ⟨h1, h2, rfl⟩ | ⟨h1, h2, rfl⟩ | ⟨h1, h2, h3, rfl⟩ | ⟨h1, h2, h3, rfl⟩ | ⟨h1, h2, h3, h4, rfl⟩ |
      ⟨h1, h2, h3, h4, rfl⟩ | ⟨h1, h2, h3, h4, rfl⟩ | ⟨h1, h2, h3, h4, rfl⟩)
    · exact .same _
    · exact .rankL _ _ h1 h2
    · exact .rankR _ _ h1 h2
    · exact .unsL _ _ h1 h2 h3
    · exact .unsR _ _ h1 h2 h3
    · exact .sigL _ _ h1 h2 h3 h4
    · exact .sigR _ _ h1 h2 h3 h4
    · exact .otherL _ _ h1 h2 h3 h4
    · exact .otherR _ _ h1 h2 h3 h4

instance (s t r : ITy) : Decidable (Common s t r) := decidable_of_iff _ (common_iff s t r).symm

/-- The common type of two operands is that of [expr] paragraph 10. -/
theorem common_type_rule (s t r : ITy) : Usual s t r ↔ r = s.uac t := by
  unfold Usual
  simp only [promotion_rule]
  have : (∃ s' t', s' = s.promote ∧ t' = t.promote ∧ Common s' t' r) ↔ Common s.promote t.promote r := by simp
  rw [this]
  clear this
  cases s <;> cases t <;> cases r <;> decide +kernel

theorem converts_unique (t : ITy) (v w w' : Int) (h : Converts t v w) (h' : Converts t v w') : w = w' := by
  obtain ⟨h1, k, hk⟩ := h
  obtain ⟨h2, k', hk'⟩ := h'
  rw [isValue_iff] at h1 h2
  cases t <;> simp only [ITy.lo, ITy.hi, width] at h1 h2 hk hk' <;> omega

theorem converts_wrap (t : ITy) (v : Int) : Converts t v (t.wrap v) := by
  rw [Converts, isValue_iff]
  cases t <;> simp only [ITy.lo, ITy.hi, width, ITy.wrap, ITy.signed, ITy.bits, if_true, Bool.false_eq_true, if_false,
    Int.bmod_def, Nat.reducePow, Int.reducePow]
  case i8 => exact ⟨by split <;> omega, if v % 256 < 128 then -(v / 256) else -(v / 256) - 1, by split <;> split <;> omega⟩
  case i16 =>
    exact ⟨by split <;> omega, if v % 65536 < 32768 then -(v / 65536) else -(v / 65536) - 1, by split <;> split <;> omega⟩
  case i32 =>
    exact ⟨by split <;> omega, if v % 4294967296 < 2147483648 then -(v / 4294967296) else -(v / 4294967296) - 1,
      by split <;> split <;> omega⟩
  case i64 =>
    exact ⟨by split <;> omega, if v % 18446744073709551616 < 9223372036854775808 then -(v / 18446744073709551616)
      else -(v / 18446744073709551616) - 1, by split <;> split <;> omega⟩
  case u8 => exact ⟨by omega, -(v / 256), by omega⟩
  case u16 => exact ⟨by omega, -(v / 65536), by omega⟩
  case u32 => exact ⟨by omega, -(v / 4294967296), by omega⟩
  case u64 => exact ⟨by omega, -(v / 18446744073709551616), by omega⟩

theorem converts_self (t : ITy) (v : Int) (h : IsValue t v) : Converts t v v := ⟨h, 0, by simp⟩

/-- A conversion between integer types gives the value that [conv.integral] prescribes, and only that one. -/
theorem conversion_rule (s t : ITy) (v w : Int) (hv : IsValue s v) : Converts t v w ↔ w = s.conv t v := by
  have key : Converts t v (s.conv t v) := by
    unfold ITy.conv
    split
    · rename_i h
      exact converts_self t v ((represents_iff t s).2 h v hv)
    · exact converts_wrap t v
  exact ⟨fun h => converts_unique t v _ _ h key, fun h => h ▸ key⟩

/-- The type `long`, `int` or `short` holds what the code stores into it: a byte converted to `int16_t` and back. -/
example : Converts .i8 200 (-56) ∧ Converts .u8 (-56) 200 ∧ Usual .u8 .i16 .i32 ∧ Usual .i32 .u32 .u32 ∧ Usual .u32 .i64 .i64 ∧
    IsValue .u8 200 := by
  refine ⟨⟨(isValue_iff _ _).2 (by decide), -1, by decide⟩, ⟨(isValue_iff _ _).2 (by decide), 1, by decide⟩, ?_, ?_, ?_,
    (isValue_iff _ _).2 (by decide)⟩ <;> rw [common_type_rule] <;> rfl

/-! ## Arithmetic -/

theorem arith_mkInt [Dialect] (r : ITy) (z : Int) : Arith Dialect.wrapv r z (mkInt r z) := by
  refine ⟨fun h => if_pos ((isValue_iff r z).1 h), fun h hs hw => ?_, fun h hs => ?_⟩
  · rw [isValue_iff] at h
    unfold mkInt
    rw [if_neg h, if_pos ⟨by cases r <;> simp_all [isSigned, ITy.signed], hw⟩]
  · rw [isValue_iff] at h
    refine ⟨r.wrap z, converts_wrap r z, ?_⟩
    unfold mkInt
    rw [if_neg h, if_neg]
    rintro ⟨h1, h2⟩
    cases hs with
    | inl hs => cases r <;> simp_all [isSigned, ITy.signed]
    | inr hs => simp_all

theorem arith_unique (wrapv : Bool) (r : ITy) (z : Int) (o o' : C Val) (h : Arith wrapv r z o) (h' : Arith wrapv r z o') :
    o = o' := by
  by_cases hz : IsValue r z
  · rw [h.1 hz, h'.1 hz]
  · by_cases hs : isSigned r = true ∧ wrapv = false
    · rw [h.2.1 hz hs.1 hs.2, h'.2.1 hz hs.1 hs.2]
    · have : isSigned r = false ∨ wrapv = true := by
        cases hr : isSigned r <;> cases hw : wrapv <;> simp_all
      obtain ⟨w, hw, e⟩ := h.2.2 hz this
      obtain ⟨w', hw', e'⟩ := h'.2.2 hz this
      rw [e, e', converts_unique r z w w' hw hw']

theorem operands_eq {s t r : ITy} {x y x' y' : Int} (hx : IsValue s x) (hy : IsValue t y)
    (h : Operands s t r x y x' y') : r = s.uac t ∧ x' = s.conv r x ∧ y' = t.conv r y :=
  ⟨(common_type_rule s t r).1 h.1, (conversion_rule s r x x' hx).1 h.2.1, (conversion_rule t r y y' hy).1 h.2.2⟩

/-- `x + y` is the sum in the common type of the operands, with the overflow rule of the dialect. -/
theorem add_rule [Dialect] (s t r : ITy) (x y x' y' : Int) (hx : IsValue s x) (hy : IsValue t y)
    (h : Operands s t r x y x' y') (o : C Val) :
    Arith Dialect.wrapv r (x' + y') o ↔ o = Val.add (.int s x) (.int t y) := by
  obtain ⟨rfl, rfl, rfl⟩ := operands_eq hx hy h
  exact ⟨fun ho => arith_unique _ _ _ _ _ ho (arith_mkInt _ _), fun ho => ho ▸ arith_mkInt _ _⟩

/-- `x - y` -/
theorem sub_rule [Dialect] (s t r : ITy) (x y x' y' : Int) (hx : IsValue s x) (hy : IsValue t y)
    (h : Operands s t r x y x' y') (o : C Val) :
    Arith Dialect.wrapv r (x' - y') o ↔ o = Val.sub (.int s x) (.int t y) := by
  obtain ⟨rfl, rfl, rfl⟩ := operands_eq hx hy h
  exact ⟨fun ho => arith_unique _ _ _ _ _ ho (arith_mkInt _ _), fun ho => ho ▸ arith_mkInt _ _⟩

/-- `x * y` -/
theorem mul_rule [Dialect] (s t r : ITy) (x y x' y' : Int) (hx : IsValue s x) (hy : IsValue t y)
    (h : Operands s t r x y x' y') (o : C Val) :
    Arith Dialect.wrapv r (x' * y') o ↔ o = Val.mul (.int s x) (.int t y) := by
  obtain ⟨rfl, rfl, rfl⟩ := operands_eq hx hy h
  exact ⟨fun ho => arith_unique _ _ _ _ _ ho (arith_mkInt _ _), fun ho => ho ▸ arith_mkInt _ _⟩

theorem quotient_tdiv (x y : Int) (hy : y ≠ 0) : Quotient x y (x.tdiv y) (x.tmod y) := by
  refine ⟨?_, ?_, fun h => Int.tmod_nonneg y h, fun h => ?_⟩
  · have := Int.mul_tdiv_add_tmod x y
    rw [Int.mul_comm] at this
    exact this.symm
  · rw [Int.natAbs_tmod]
    exact Nat.mod_lt _ (by omega)
  · have := Int.tmod_nonneg y (a := -x) (by omega)
    rw [Int.neg_tmod] at this
    omega

theorem quotient_unique (x y q r q' r' : Int) (h : Quotient x y q r) (h' : Quotient x y q' r') : q = q' ∧ r = r' := by
  obtain ⟨h1, h2, h3, h4⟩ := h
  obtain ⟨h1', h2', h3', h4'⟩ := h'
  have hq : q = q' := by
    have e : (q - q') * y = r' - r := by rw [Int.sub_mul]; omega
    have hlt : (r' - r).natAbs < y.natAbs := by omega
    rw [← e, Int.natAbs_mul] at hlt
    have : (q - q').natAbs = 0 := by
      rcases Nat.eq_zero_or_pos (q - q').natAbs with h0 | h0
      · exact h0
      · have := Nat.le_mul_of_pos_left y.natAbs h0
        omega
    omega
  subst hq
  exact ⟨rfl, by omega⟩

/-- `x / y`: undefined when `y` is zero or when the quotient is not a value of the type, otherwise the quotient
truncated toward zero. -/
theorem div_rule (s t r : ITy) (x y x' y' : Int) (hx : IsValue s x) (hy : IsValue t y)
    (h : Operands s t r x y x' y') :
    (y' = 0 → Val.div (.int s x) (.int t y) = .ub .divByZero) ∧
    (∀ q m, y' ≠ 0 → Quotient x' y' q m → IsValue r q → Val.div (.int s x) (.int t y) = .ok (.int r q)) ∧
    (∀ q m, y' ≠ 0 → Quotient x' y' q m → ¬ IsValue r q → Val.div (.int s x) (.int t y) = .ub .signedOverflow) := by
  obtain ⟨rfl, rfl, rfl⟩ := operands_eq hx hy h
  refine ⟨fun h0 => if_pos h0, fun q m h0 hq hv => ?_, fun q m h0 hq hv => ?_⟩ <;>
    obtain ⟨rfl, rfl⟩ := quotient_unique _ _ _ _ _ _ hq (quotient_tdiv _ _ h0)
  · exact (if_neg h0).trans (if_pos ((isValue_iff _ _).1 hv))
  · exact (if_neg h0).trans (if_neg (mt (isValue_iff _ _).2 hv))

/-- `x % y`: undefined in the same cases, otherwise the remainder, which has the sign of `x`. -/
theorem mod_rule (s t r : ITy) (x y x' y' : Int) (hx : IsValue s x) (hy : IsValue t y)
    (h : Operands s t r x y x' y') :
    (y' = 0 → Cpp.mod (.int s x) (.int t y) = .ub .divByZero) ∧
    (∀ q m, y' ≠ 0 → Quotient x' y' q m → IsValue r q → Cpp.mod (.int s x) (.int t y) = .ok (.int r m)) ∧
    (∀ q m, y' ≠ 0 → Quotient x' y' q m → ¬ IsValue r q → Cpp.mod (.int s x) (.int t y) = .ub .signedOverflow) := by
  obtain ⟨rfl, rfl, rfl⟩ := operands_eq hx hy h
  refine ⟨fun h0 => if_pos h0, fun q m h0 hq hv => ?_, fun q m h0 hq hv => ?_⟩ <;>
    obtain ⟨rfl, rfl⟩ := quotient_unique _ _ _ _ _ _ hq (quotient_tdiv _ _ h0)
  · exact (if_neg h0).trans (if_pos ((isValue_iff _ _).1 hv))
  · exact (if_neg h0).trans (if_neg (mt (isValue_iff _ _).2 hv))

/-! ## Shifts -/

/-- `x >> y`: undefined unless `0 ≤ y < width` of the promoted type of `x`; otherwise `x` divided by `2^y`, rounded down
(for negative `x` this is what GCC and Clang define). -/
theorem shr_rule (s t r : ITy) (x y : Int) (hp : Promotes s r) :
    (¬ (0 ≤ y ∧ y < width r) → Val.shr (.int s x) (.int t y) = .ub .shiftAmount) ∧
    (∀ n : Nat, y = n → n < width r → ∀ z, Val.shr (.int s x) (.int t y) = .ok (.int r z) ↔
      z * 2 ^ n ≤ x ∧ x < (z + 1) * 2 ^ n) := by
  have hw : ∀ u : ITy, (u.bits : Int) = width u := by intro u; cases u <;> rfl
  rw [promotion_rule] at hp
  subst hp
  refine ⟨fun h => if_neg (by rw [hw]; exact h), ?_⟩
  rintro n rfl hn z
  have e : Val.shr (.int s x) (.int t n) = .ok (.int s.promote (x / 2 ^ n)) := by
    have := hw s.promote
    exact if_pos (by omega)
  rw [e]
  have hpos : (0 : Int) < 2 ^ n := Int.pow_pos (by omega)
  constructor
  · intro h
    injection h with h
    injection h with _ h
    subst h
    constructor
    · exact Int.ediv_mul_le x (by omega)
    · exact Int.lt_ediv_add_one_mul_self x hpos
  · rintro ⟨h1, h2⟩
    have h3 : z ≤ x / 2 ^ n := (Int.le_ediv_iff_mul_le hpos).2 h1
    have h4 : x / 2 ^ n < z + 1 := (Int.ediv_lt_iff_lt_mul hpos).2 h2
    have : x / 2 ^ n = z := by omega
    rw [this]

/-- `x << y`: undefined unless `0 ≤ y < width` of the promoted type.  An unsigned result is `x * 2^y` modulo `2^width`.
For a signed type, a negative operand and a product that is not a value of the corresponding unsigned type are undefined;
otherwise the product is converted to the type.  With wrapping arithmetic the product is always converted. -/
theorem shl_rule [Dialect] (s t r : ITy) (x y : Int) (hp : Promotes s r) :
    (¬ (0 ≤ y ∧ y < width r) → Val.shl (.int s x) (.int t y) = .ub .shiftAmount) ∧
    (∀ n : Nat, y = n → n < width r →
      (isSigned r = true → Dialect.wrapv = false → ¬ (0 ≤ x ∧ IsValue (unsignedOf r) (x * 2 ^ n)) →
        Val.shl (.int s x) (.int t y) = .ub .shiftOperand) ∧
      (isSigned r = false ∨ Dialect.wrapv = true ∨ (0 ≤ x ∧ IsValue (unsignedOf r) (x * 2 ^ n)) →
        ∀ z, Converts r (x * 2 ^ n) z ↔ Val.shl (.int s x) (.int t y) = .ok (.int r z))) := by
  have hw : ∀ u : ITy, (u.bits : Int) = width u := by intro u; cases u <;> rfl
  have hsg : ∀ u : ITy, u.signed = isSigned u := by intro u; cases u <;> rfl
  have hun : ∀ (u : ITy) (v : Int), 0 ≤ v → (IsValue (unsignedOf u) v ↔ ¬ (2 : Int) ^ u.bits ≤ v) := by
    intro u v hv
    rw [isValue_iff]
    cases u <;> simp only [unsignedOf, ITy.lo, ITy.hi, ITy.bits] <;> omega
  rw [promotion_rule] at hp
  subst hp
  refine ⟨fun h => if_neg (by rw [hw]; exact h), ?_⟩
  rintro n rfl hn
  have hpos : (0 : Int) < 2 ^ n := Int.pow_pos (by omega)
  have e0 : Val.shl (.int s x) (.int t n) = if s.promote.signed = true ∧ Dialect.wrapv = false ∧
          (x < 0 ∨ 2 ^ s.promote.bits ≤ x * 2 ^ n) then .ub .shiftOperand
      else .ok (.int s.promote (s.promote.wrap (x * 2 ^ n))) := by
    have := hw s.promote
    exact if_pos (by omega)
  rw [e0, hsg]
  constructor
  · intro h1 h2 h3
    refine if_pos ⟨h1, h2, ?_⟩
    by_cases hx : x < 0
    · exact Or.inl hx
    · have hx0 : 0 ≤ x * 2 ^ n := Int.mul_nonneg (by omega) (by omega)
      rw [hun _ _ hx0] at h3
      refine Or.inr ?_
      rcases Classical.em ((2 : Int) ^ s.promote.bits ≤ x * 2 ^ n) with h | h
      · exact h
      · exact absurd ⟨by omega, h⟩ h3
  · intro h z
    rw [if_neg]
    · constructor
      · intro hz
        rw [converts_unique _ _ _ _ hz (converts_wrap _ _)]
      · intro hz
        injection hz with hz
        injection hz with _ hz
        exact hz ▸ converts_wrap _ _
    · rintro ⟨h1, h2, h3⟩
      rcases h with h | h | ⟨h4, h5⟩
      · rw [h1] at h; exact absurd h (by decide)
      · rw [h2] at h; exact absurd h (by decide)
      · rw [hun _ _ (Int.mul_nonneg h4 (by omega))] at h5
        rcases h3 with h3 | h3
        · omega
        · exact h5 h3

/-! ## Floating-point operands -/

/-- The value has type `double`. -/
def IsDouble : Val → Prop | .f64 _ => True | _ => False
/-- The value has type `float`. -/
def IsFloat : Val → Prop | .f32 _ => True | _ => False

/-- [expr] paragraph 10: if one operand is a `double`, the other is converted to `double` and the operation is that of
`double`; otherwise, if one is a `float`, the same with `float`. -/
theorem float_operand_rule [Dialect] (x y : Val) :
    (IsDouble x ∨ IsDouble y →
      Val.add x y = .ok (.f64 (.ofNat 64 (Fmt.b64.add x.toF64.toNat y.toF64.toNat))) ∧
      Val.sub x y = .ok (.f64 (.ofNat 64 (Fmt.b64.sub x.toF64.toNat y.toF64.toNat))) ∧
      Val.mul x y = .ok (.f64 (.ofNat 64 (Fmt.b64.mul x.toF64.toNat y.toF64.toNat))) ∧
      Val.div x y = .ok (.f64 (.ofNat 64 (Fmt.b64.div x.toF64.toNat y.toF64.toNat))) ∧
      Val.lt x y = Fmt.b64.lt x.toF64.toNat y.toF64.toNat ∧ Val.gt x y = Fmt.b64.lt y.toF64.toNat x.toF64.toNat ∧
      Val.eq x y = Fmt.b64.eq x.toF64.toNat y.toF64.toNat) ∧
    (¬ IsDouble x → ¬ IsDouble y → IsFloat x ∨ IsFloat y →
      Val.add x y = .ok (.f32 (.ofNat 32 (Fmt.b32.add x.toF32.toNat y.toF32.toNat))) ∧
      Val.sub x y = .ok (.f32 (.ofNat 32 (Fmt.b32.sub x.toF32.toNat y.toF32.toNat))) ∧
      Val.mul x y = .ok (.f32 (.ofNat 32 (Fmt.b32.mul x.toF32.toNat y.toF32.toNat))) ∧
      Val.div x y = .ok (.f32 (.ofNat 32 (Fmt.b32.div x.toF32.toNat y.toF32.toNat))) ∧
      Val.lt x y = Fmt.b32.lt x.toF32.toNat y.toF32.toNat ∧ Val.gt x y = Fmt.b32.lt y.toF32.toNat x.toF32.toNat ∧
      Val.eq x y = Fmt.b32.eq x.toF32.toNat y.toF32.toNat) := by
  cases x <;> cases y <;> refine ⟨?_, ?_⟩ <;> intros <;>
    first
    | exact ⟨rfl, rfl, rfl, rfl, rfl, rfl, rfl⟩
    | simp_all [IsDouble, IsFloat]

/-- Conversion of a floating-point number to an integer type: the number truncated toward zero if that is a value of the
type, otherwise (and for infinities and NaN) undefined. -/
theorem float_to_int_rule (t : ITy) (b : BitVec 32) (d : BitVec 64) :
    (∀ z, Fmt.b32.trunc b.toNat = some z → IsValue t z → Val.cast (.int t) (.f32 b) = .ok (.int t z)) ∧
    (∀ z, Fmt.b64.trunc d.toNat = some z → IsValue t z → Val.cast (.int t) (.f64 d) = .ok (.int t z)) ∧
    ((∀ z, Fmt.b32.trunc b.toNat = some z → ¬ IsValue t z) → Val.cast (.int t) (.f32 b) = .ub .floatToInt) ∧
    ((∀ z, Fmt.b64.trunc d.toNat = some z → ¬ IsValue t z) → Val.cast (.int t) (.f64 d) = .ub .floatToInt) := by
  have h1 : ∀ o z, o = some z → IsValue t z → truncTo t o = .ok z := by
    rintro _ z rfl hz
    exact if_pos ((isValue_iff t z).1 hz)
  have h2 : ∀ o, (∀ z, o = some z → ¬ IsValue t z) → truncTo t o = .ub .floatToInt := by
    intro o ho
    cases o with
    | none => rfl
    | some z => exact if_neg (mt (isValue_iff t z).2 (ho z rfl))
  refine ⟨fun z h hz => ?_, fun z h hz => ?_, fun h => ?_, fun h => ?_⟩ <;> show (truncTo _ _ >>= fun v => C.ok (Val.int t v)) = _
  · rw [h1 _ z h hz]; rfl
  · rw [h1 _ z h hz]; rfl
  · rw [h2 _ h]; rfl
  · rw [h2 _ h]; rfl

/-! ## Bitwise operators -/

theorem bit_ofInt (w : Nat) (x : Int) (i : Nat) (h : i < w) : bit x i = (BitVec.ofInt w x).getLsbD i := by
  have hw : (2 : Int) ^ w = 2 ^ i * (2 * 2 ^ (w - i - 1)) := by
    rw [← Int.mul_assoc, ← Int.pow_succ, ← Int.pow_add]
    congr 1
    omega
  have hpos : (0 : Int) < 2 ^ i := Int.pow_pos (by omega)
  have hpw : (0 : Int) < 2 ^ w := Int.pow_pos (by omega)
  have hr : 0 ≤ x % 2 ^ w := Int.emod_nonneg _ (by omega)
  have e1 : x / 2 ^ i % 2 = x % 2 ^ w / 2 ^ i % 2 := by
    have h1 : x = x % 2 ^ w + 2 ^ i * (2 * (2 ^ (w - i - 1) * (x / 2 ^ w))) := by
      have := Int.emod_add_mul_ediv x (2 ^ w)
      rw [← Int.mul_assoc 2, ← Int.mul_assoc, ← hw]
      exact this.symm
    have h2 : x / 2 ^ i = x % 2 ^ w / 2 ^ i + 2 * (2 ^ (w - i - 1) * (x / 2 ^ w)) := by
      conv => lhs; rw [h1]
      exact Int.add_mul_ediv_left _ _ (by omega)
    omega
  unfold bit
  rw [e1, BitVec.getLsbD, BitVec.toNat_ofInt, Nat.testBit_eq_decide_div_mod_eq]
  have e2 : ((((x % (2 ^ w : Nat)).toNat / 2 ^ i % 2 : Nat)) : Int) = x % 2 ^ w / 2 ^ i % 2 := by
    rw [Int.natCast_emod, Int.natCast_ediv, Int.toNat_of_nonneg (by simpa using hr)]
    simp
  rw [← e2]
  generalize (x % (2 ^ w : Nat)).toNat / 2 ^ i % 2 = m
  by_cases hm : m = 1
  · subst hm; rfl
  · have : (m : Int) ≠ 1 := by omega
    rw [decide_eq_false hm]
    exact beq_eq_false_iff_ne.2 this

theorem ofInt_intOfBits (t : ITy) (b : BitVec t.bits) : BitVec.ofInt t.bits (intOfBits t b) = b := by
  unfold intOfBits
  split
  · exact BitVec.ofInt_toInt
  · exact (BitVec.ofInt_natCast t.bits b.toNat).trans (by simp)

theorem isValue_intOfBits (t : ITy) (b : BitVec t.bits) : IsValue t (intOfBits t b) := by
  have h1 := b.isLt
  have h2 := BitVec.le_toInt b
  have h3 := BitVec.toInt_lt (x := b)
  rw [isValue_iff]
  unfold intOfBits
  cases t <;> simp only [ITy.signed, ITy.lo, ITy.hi, ITy.bits, if_true, Bool.false_eq_true, if_false] at * <;> omega

theorem bits_width (t : ITy) : t.bits = width t := by cases t <;> rfl

theorem eq_of_bits (t : ITy) (x y : Int) (hx : IsValue t x) (hy : IsValue t y)
    (h : ∀ i < width t, bit x i = bit y i) : x = y := by
  have e : BitVec.ofInt t.bits x = BitVec.ofInt t.bits y := by
    refine BitVec.eq_of_getLsbD_eq fun i hi => ?_
    rw [← bit_ofInt _ _ _ hi, ← bit_ofInt _ _ _ hi, h i (by rw [← bits_width]; exact hi)]
  have e2 : x % (2 ^ t.bits : Nat) = y % (2 ^ t.bits : Nat) := by
    have := congrArg BitVec.toNat e
    rw [BitVec.toNat_ofInt, BitVec.toNat_ofInt] at this
    have hpw : (0 : Int) < (2 ^ t.bits : Nat) := by cases t <;> decide
    have a1 := Int.emod_nonneg x (b := (2 ^ t.bits : Nat)) (by omega)
    have a2 := Int.emod_nonneg y (b := (2 ^ t.bits : Nat)) (by omega)
    omega
  rw [isValue_iff] at hx hy
  cases t <;> simp only [ITy.lo, ITy.hi, ITy.bits] at hx hy e2 <;> omega

theorem bitop_rule (op : (w : Nat) → BitVec w → BitVec w → BitVec w) (f : Bool → Bool → Bool)
    (hop : ∀ w (a b : BitVec w) i, i < w → (op w a b).getLsbD i = f (a.getLsbD i) (b.getLsbD i))
    (s t r : ITy) (x y z : Int) (h : Usual s t r) :
    (IsValue r z ∧ ∀ i < width r, bit z i = f (bit x i) (bit y i)) ↔
      Val.bitop op (.int s x) (.int t y) = .ok (.int r z) := by
  rw [common_type_rule] at h
  subst h
  have key : ∀ i < width (s.uac t), bit (intOfBits (s.uac t)
      (op _ (BitVec.ofInt (s.uac t).bits x) (BitVec.ofInt (s.uac t).bits y))) i = f (bit x i) (bit y i) := by
    intro i hi
    rw [← bits_width] at hi
    rw [bit_ofInt _ _ _ hi, ofInt_intOfBits, hop _ _ _ _ hi, bit_ofInt _ x _ hi, bit_ofInt _ y _ hi]
  constructor
  · rintro ⟨h1, h2⟩
    have : z = _ := eq_of_bits _ _ _ h1 (isValue_intOfBits _ _) fun i hi => (h2 i hi).trans (key i hi).symm
    exact congrArg (fun v => C.ok (Val.int (s.uac t) v)) this.symm
  · intro h
    injection h with h
    injection h with _ h
    subst h
    exact ⟨isValue_intOfBits _ _, key⟩

/-- `x & y`: bit by bit in the common type. -/
theorem and_rule (s t r : ITy) (x y z : Int) (h : Usual s t r) :
    (IsValue r z ∧ ∀ i < width r, bit z i = (bit x i && bit y i)) ↔ Val.and (.int s x) (.int t y) = .ok (.int r z) :=
  bitop_rule _ _ (fun _ _ _ _ _ => BitVec.getLsbD_and) s t r x y z h
/-- `x | y` -/
theorem or_rule (s t r : ITy) (x y z : Int) (h : Usual s t r) :
    (IsValue r z ∧ ∀ i < width r, bit z i = (bit x i || bit y i)) ↔ Val.or (.int s x) (.int t y) = .ok (.int r z) :=
  bitop_rule _ _ (fun _ _ _ _ _ => BitVec.getLsbD_or) s t r x y z h
/-- `x ^ y` -/
theorem xor_rule (s t r : ITy) (x y z : Int) (h : Usual s t r) :
    (IsValue r z ∧ ∀ i < width r, bit z i = (bit x i ^^ bit y i)) ↔ Val.xor (.int s x) (.int t y) = .ok (.int r z) :=
  bitop_rule _ _ (fun _ _ _ _ _ => BitVec.getLsbD_xor) s t r x y z h

/-- `~x`: the complement in the promoted type. -/
theorem not_rule (s r : ITy) (x z : Int) (h : Promotes s r) :
    (IsValue r z ∧ ∀ i < width r, bit z i = !bit x i) ↔ Val.not (.int s x) = .ok (.int r z) := by
  rw [promotion_rule] at h
  subst h
  have key : ∀ i < width s.promote, bit (intOfBits s.promote (~~~ BitVec.ofInt s.promote.bits x)) i = !bit x i := by
    intro i hi
    rw [← bits_width] at hi
    rw [bit_ofInt _ _ _ hi, ofInt_intOfBits, BitVec.getLsbD_not, bit_ofInt _ x _ hi, decide_eq_true hi, Bool.true_and]
  constructor
  · rintro ⟨h1, h2⟩
    have : z = _ := eq_of_bits _ _ _ h1 (isValue_intOfBits _ _) fun i hi => (h2 i hi).trans (key i hi).symm
    exact congrArg (fun v => C.ok (Val.int s.promote v)) this.symm
  · intro h
    injection h with h
    injection h with _ h
    subst h
    exact ⟨isValue_intOfBits _ _, key⟩

/-! ## Comparisons, minimum and maximum -/

/-- `x < y`, `x > y`, `x == y`, `x <= y` and `x >= y` compare the converted operands. -/
theorem comparison_rule [Dialect] (s t r : ITy) (x y x' y' : Int) (hx : IsValue s x) (hy : IsValue t y)
    (h : Operands s t r x y x' y') :
    (Val.lt (.int s x) (.int t y) = true ↔ x' < y') ∧ (Val.gt (.int s x) (.int t y) = true ↔ y' < x') ∧
    (Val.eq (.int s x) (.int t y) = true ↔ x' = y') ∧
    (Cpp.binary .lt (.int s x) (.int t y) = .ok (.int .i32 (if x' < y' then 1 else 0))) ∧
    (Cpp.binary .gt (.int s x) (.int t y) = .ok (.int .i32 (if y' < x' then 1 else 0))) ∧
    (Cpp.binary .le (.int s x) (.int t y) = .ok (.int .i32 (if x' ≤ y' then 1 else 0))) ∧
    (Cpp.binary .ge (.int s x) (.int t y) = .ok (.int .i32 (if y' ≤ x' then 1 else 0))) ∧
    (Cpp.binary .eq (.int s x) (.int t y) = .ok (.int .i32 (if x' = y' then 1 else 0))) := by
  obtain ⟨rfl, rfl, rfl⟩ := operands_eq hx hy h
  have e : ∀ (p : Prop) [Decidable p], Cpp.ofBool (decide p) = .int .i32 (if p then 1 else 0) := by
    intro p _; by_cases hp : p <;> simp [Cpp.ofBool, hp]
  refine ⟨decide_eq_true_iff, decide_eq_true_iff, decide_eq_true_iff, ?_, ?_, ?_, ?_, ?_⟩ <;>
    exact congrArg C.ok (e _)

/-- The comparison of a signed with an unsigned operand of the same width is the unsigned one: `-1 < 1u` is false. -/
example : Val.lt (.int .i32 (-1)) (.int .u32 1) = false := by decide +kernel

/-- A scalar used as a condition is true unless it is zero. -/
theorem truth_rule (s : ITy) (x : Int) : Val.truth (.int s x) = true ↔ x ≠ 0 := decide_eq_true_iff

/-- A cast, and an initialisation, of an integer is the conversion of [conv.integral]. -/
theorem cast_rule (s t : ITy) (v w : Int) (hv : IsValue s v) :
    Converts t v w ↔ Val.cast (.int t) (.int s v) = .ok (.int t w) := by
  rw [conversion_rule s t v w hv]
  constructor
  · rintro rfl; rfl
  · intro h
    injection h with h
    injection h with _ h
    exact h.symm

/-- `std::min<T>(x, y)` and `std::max<T>(x, y)`: the arguments are converted to `T` and compared. -/
theorem min_max_rule (s t u : ITy) (x y x' y' : Int) (hx : IsValue s x) (hy : IsValue t y)
    (cx : Converts u x x') (cy : Converts u y y') :
    Val.stdMin (.int u) (.int s x) (.int t y) = .ok (.int u (min x' y')) ∧
    Val.stdMax (.int u) (.int s x) (.int t y) = .ok (.int u (max x' y')) := by
  have vx := cx.1
  have vy := cy.1
  rw [cast_rule s u x x' hx] at cx
  rw [cast_rule t u y y' hy] at cy
  obtain ⟨r, hr⟩ : ∃ r, Usual u u r := ⟨_, (common_type_rule u u _).2 rfl⟩
  have hrep : ∀ v, IsValue u v → Converts r v v := by
    intro v hv
    refine converts_self r v ?_
    have : Represents (u.uac u) u := by cases u <;> decide
    rw [(common_type_rule u u r).1 hr]
    exact this v hv
  have hlt : ∀ a b, IsValue u a → IsValue u b → (Val.lt (.int u a) (.int u b) = true ↔ a < b) := by
    intro a b ha hb
    have := @comparison_rule .strict u u r a b a b ha hb ⟨hr, hrep a ha, hrep b hb⟩
    exact this.1
  unfold Val.stdMin Val.stdMax
  rw [cx, cy]
  constructor
  · show (if Val.lt (.int u y') (.int u x') = true then C.ok (Val.int u y') else .ok (.int u x')) = _
    by_cases h : y' < x'
    · rw [if_pos ((hlt _ _ vy vx).2 h), Int.min_eq_right (by omega)]
    · rw [if_neg (mt (hlt _ _ vy vx).1 h), Int.min_eq_left (by omega)]
  · show (if Val.lt (.int u x') (.int u y') = true then C.ok (Val.int u y') else .ok (.int u x')) = _
    by_cases h : x' < y'
    · rw [if_pos ((hlt _ _ vx vy).2 h), Int.max_eq_right (by omega)]
    · rw [if_neg (mt (hlt _ _ vx vy).1 h), Int.max_eq_left (by omega)]

/-! ## Objects -/

/-- Every object representation of an integer type is a value of the type, and different representations are different
values. -/
theorem object_value (t : ITy) (b : BitVec t.bits) :
    ∃ v, Val.ofBits (.int t) b = .int t v ∧ IsValue t v ∧ ∀ i < width t, bit v i = b.getLsbD i := by
  refine ⟨intOfBits t b, rfl, isValue_intOfBits t b, fun i hi => ?_⟩
  rw [← bits_width] at hi
  rw [bit_ofInt _ _ _ hi, ofInt_intOfBits]

/-- What is read from an object of integer type is what was assigned to it, converted to its type. -/
theorem assign_value (s t : ITy) (v w : Int) : Converts t v w ↔
    ∃ b, Val.toBits (.int t) (.int s v) = .ok b ∧ Val.ofBits (.int t) b = .int t w := by
  have key : Converts t v (intOfBits t (BitVec.ofInt t.bits v)) := by
    refine ⟨isValue_intOfBits _ _, ?_⟩
    have e : BitVec.ofInt t.bits (intOfBits t (BitVec.ofInt t.bits v)) = BitVec.ofInt t.bits v := ofInt_intOfBits _ _
    generalize intOfBits t (BitVec.ofInt t.bits v) = z at *
    have := congrArg BitVec.toNat e
    rw [BitVec.toNat_ofInt, BitVec.toNat_ofInt] at this
    have hpw : (0 : Int) < (2 ^ t.bits : Nat) := by cases t <;> decide
    have a1 := Int.emod_nonneg z (b := (2 ^ t.bits : Nat)) (by omega)
    have a2 := Int.emod_nonneg v (b := (2 ^ t.bits : Nat)) (by omega)
    have e2 : z % (2 ^ t.bits : Nat) = v % (2 ^ t.bits : Nat) := by omega
    refine ⟨z / (2 ^ t.bits : Nat) - v / (2 ^ t.bits : Nat), ?_⟩
    have b1 := Int.emod_add_mul_ediv z (2 ^ t.bits : Nat)
    have b2 := Int.emod_add_mul_ediv v (2 ^ t.bits : Nat)
    have c : (2 : Int) ^ width t = ((2 ^ t.bits : Nat) : Int) := by cases t <;> rfl
    rw [c, Int.sub_mul, Int.mul_comm (z / _), Int.mul_comm (v / _)]
    omega
  constructor
  · intro h
    refine ⟨_, rfl, ?_⟩
    rw [converts_unique t v w _ h key]
    rfl
  · rintro ⟨b, h1, h2⟩
    injection h1 with h1
    subst h1
    injection h2 with _ h2
    exact h2 ▸ key

/-- [expr.log.and], [expr.log.or]: the right operand is evaluated only if the left one does not decide the result. -/
theorem short_circuit (b : C Bool) :
    cAnd (.ok false) b = .ok false ∧ cAnd (.ok true) b = b ∧ cOr (.ok true) b = .ok true ∧ cOr (.ok false) b = b ∧
    ∀ a, (∀ x, a ≠ .ok x) → cAnd a b = a ∧ cOr a b = a := by
  refine ⟨rfl, rfl, rfl, rfl, fun a ha => ?_⟩
  cases a with
  | ok x => exact absurd rfl (ha x)
  | _ => exact ⟨rfl, rfl⟩

/-- A lane that is assigned in range holds the value converted to the lane type, the other lanes are unchanged; an index
out of range is undefined behaviour. -/
theorem lane_assignment {e : Elem} {n : Nat} (r : Arr e n) (i : Int) (v : Val) (b : BitVec e.bits)
    (hb : v.toBits e = .ok b) :
    (¬ (0 ≤ i ∧ i < n) → r.set i v = .ub .outOfBounds ∧ r.get i = .ub .outOfBounds) ∧
    (0 ≤ i ∧ i < n → ∃ r', r.set i v = .ok r' ∧ r'.get i = .ok (.ofBits e b) ∧ ∀ j, j ≠ i → r'.get j = r.get j) := by
  unfold Arr.set
  rw [hb]
  constructor
  · intro h
    exact ⟨dif_neg h, dif_neg h⟩
  · intro h
    refine ⟨r.put ⟨i.toNat, by omega⟩ b, by rw [dif_pos h]; rfl, ?_, ?_⟩
    · unfold Arr.get
      rw [dif_pos h]
      unfold Arr.put
      rw [if_pos rfl]
    · intro j hj
      unfold Arr.get
      by_cases h' : 0 ≤ j ∧ j < n
      · rw [dif_pos h', dif_pos h']
        unfold Arr.put
        rw [if_neg]
        intro hh
        have := congrArg Fin.val hh
        simp only at this
        omega
      · rw [dif_neg h', dif_neg h']

/-- A local register has no value before its lanes are assigned. -/
theorem lane_undefined {e : Elem} {n : Nat} (i : Int) (h : 0 ≤ i ∧ i < n) :
    (Arr.undef : Arr e n).get i = .ub .indeterminateRead := by
  unfold Arr.get
  rw [dif_pos h]
  rfl

/-- Memory: an element assigned in bounds holds the converted value, the other elements and the size of the buffer are
unchanged; out of bounds, before the start or past the end, reading and writing are undefined. -/
theorem element_assignment {e : Elem} (p : Ptr e) (i : Int) (v : Val) (b : BitVec e.bits) (hb : v.toBits e = .ok b) :
    (¬ (0 ≤ p.off + i ∧ p.off + i < p.buf.length) → p.set i v = .ub .outOfBounds ∧ p.get i = .ub .outOfBounds) ∧
    (0 ≤ p.off + i ∧ p.off + i < p.buf.length → ∃ p', p.set i v = .ok p' ∧ p'.get i = .ok (.ofBits e b) ∧
      p'.off = p.off ∧ p'.buf.length = p.buf.length ∧ ∀ j, j ≠ i → p'.get j = p.get j) := by
  unfold Ptr.set
  rw [hb]
  constructor
  · intro h
    refine ⟨if_neg h, ?_⟩
    unfold Ptr.get
    by_cases h0 : 0 ≤ p.off + i
    · rw [if_pos h0, List.getElem?_eq_none (by omega)]
    · rw [if_neg h0]
  · intro h
    refine ⟨{ p with buf := p.buf.set (p.off + i).toNat (some b) }, by rw [if_pos h]; rfl, ?_, rfl, List.length_set, ?_⟩
    · unfold Ptr.get
      simp only [if_pos h.1]
      rw [List.getElem?_set_self (by omega)]
    · intro j hj
      unfold Ptr.get
      simp only
      split
      · rw [List.getElem?_set_ne (by omega)]
      · rfl

/-- An element in bounds is read if and only if it was written. -/
theorem element_undefined {e : Elem} (p : Ptr e) (i : Int) (h : 0 ≤ p.off + i ∧ p.off + i < p.buf.length) :
    (p.buf[(p.off + i).toNat]? = some none → p.get i = .ub .indeterminateRead) ∧
    ∀ b, p.buf[(p.off + i).toNat]? = some (some b) → p.get i = .ok (.ofBits e b) := by
  unfold Ptr.get
  rw [if_pos h.1]
  exact ⟨fun h => by rw [h], fun b h => by rw [h]⟩

/-- Non-vacuity: a buffer with a written and an unwritten element. -/
example : (⟨[some 7, none], 0⟩ : Ptr .u8).get 1 = .ub .indeterminateRead ∧ (⟨[some 7, none], 1⟩ : Ptr .u8).get (-1) = .ok (.int .u8 7) :=
  ⟨(element_undefined _ _ (by decide)).1 rfl, (element_undefined _ _ (by decide)).2 7 rfl⟩

/-- `memcpy` between registers: undefined if it reads or writes past the end of one of them; otherwise the bits of the lanes that it
covers are those of the source in the order of memory, and the lanes that it does not reach keep what they hold. -/
theorem memcpy_rule {e e' : Elem} {n m : Nat} (r : Arr e' m) (a : Vec e n) (bytes : Nat) :
    (n * e.bits < bytes * 8 ∨ m * e'.bits < bytes * 8 → memcpyVec r a bytes = .ub .outOfBounds) ∧
    (bytes * 8 ≤ n * e.bits ∧ bytes * 8 ≤ m * e'.bits → ∃ r', memcpyVec r a bytes = .ok r' ∧ ∀ i : Fin m,
      ((i.val + 1) * e'.bits ≤ bytes * 8 → ∃ b, r' i = some b ∧ ∀ k < e'.bits, b.getLsbD k = Spec.regBit a (i.val * e'.bits + k)) ∧
      (bytes * 8 ≤ i.val * e'.bits → r' i = r i)) := by
  unfold memcpyVec
  refine ⟨fun h => if_neg (by omega), fun h => ⟨_, if_pos h, fun i => ⟨fun hi => ⟨_, if_pos hi, fun k hk => ?_⟩, fun hi => if_neg ?_⟩⟩⟩
  · rw [BitVec.getLsbD_ofNat, Nat.testBit_div_two_pow, imageOf_regBit]
    simp [hk, Nat.add_comm]
  · have := elem_bits_pos e'
    rw [Nat.succ_mul]
    omega

/-- Non-vacuity: the first four bytes of eight bytes as one lane of 32 bits, lane 1 keeps its value; nine bytes are too many. -/
example : memcpyVec (fun _ => some 7 : Arr .s32 2) (⟨fun i => BitVec.ofNat 8 i.val⟩ : Vec .u8 8) 9 = .ub .outOfBounds ∧
    ∃ r', memcpyVec (fun _ => some 7 : Arr .s32 2) (⟨fun i => BitVec.ofNat 8 i.val⟩ : Vec .u8 8) 4 = .ok r' ∧ r' 1 = some 7 := by
  refine ⟨(memcpy_rule _ _ 9).1 (.inl (by decide)), ?_⟩
  obtain ⟨r', h, hr⟩ := (memcpy_rule (fun _ => some 7 : Arr .s32 2) (⟨fun i => BitVec.ofNat 8 i.val⟩ : Vec .u8 8) 4).2 ⟨by decide, by decide⟩
  exact ⟨r', h, (hr 1).2 (by decide)⟩

/-- Non-vacuity: the sum of two bytes is computed in `int`, the sum of two `int`s can overflow, `uint32_t` wraps, the
smallest `int` divided by -1 is undefined. -/
example : @Val.add .strict (.int .u8 200) (.int .u8 100) = .ok (.int .i32 300) ∧
    @Val.add .strict (.int .i32 2147483647) (.int .i8 1) = .ub .signedOverflow ∧
    @Val.add .wrapping (.int .i32 2147483647) (.int .i8 1) = .ok (.int .i32 (-2147483648)) ∧
    @Val.sub .strict (.int .u32 0) (.int .i32 1) = .ok (.int .u32 4294967295) ∧
    Val.div (.int .i32 (-7)) (.int .i32 2) = .ok (.int .i32 (-3)) ∧
    Cpp.mod (.int .i32 (-7)) (.int .i32 2) = .ok (.int .i32 (-1)) ∧
    Val.div (.int .i32 (-2147483648)) (.int .i32 (-1)) = .ub .signedOverflow ∧
    Val.shr (.int .i8 (-7)) (.int .i32 1) = .ok (.int .i32 (-4)) ∧
    @Val.shl .strict (.int .i32 (-1)) (.int .i32 1) = .ub .shiftOperand ∧
    Val.not (.int .u8 0) = .ok (.int .i32 (-1)) ∧
    Operands .u8 .u8 .i32 200 100 200 100 := by
  refine ⟨by decide +kernel, by decide +kernel, by decide +kernel, by decide +kernel, by decide +kernel, by decide +kernel,
    by decide +kernel, by decide +kernel, by decide +kernel, by decide +kernel, (common_type_rule _ _ _).2 rfl,
    converts_self _ _ ((isValue_iff _ _).2 (by decide)), converts_self _ _ ((isValue_iff _ _).2 (by decide))⟩

end Verif.Props
