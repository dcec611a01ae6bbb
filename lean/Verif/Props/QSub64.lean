import Verif.FpMono
import Verif.Fill
import Verif.Props.Float
import Verif.Props.FloatConv

/-!
# Saturating subtraction of 64-bit lanes (C21)

The code converts both operands to `double`, subtracts in `double`, compares and converts back.
`DoubleDiff` states that computation in IEEE-754 terms; the theorems say for which operands the result is
the saturated difference, for which operands it is not, and how far it can be off.
-/

namespace Verif.Props
open Verif.Model Verif.Spec Verif.FpOps

/-- `v` is the double-precision difference of the integers `x` and `y`, both converted to double. -/
def DoubleDiff (x y : ℤ) (v : ℚ) : Prop := ∃ dx dy t s, Rounded .b64 false x dx ∧ Rounded .b64 false y dy ∧
  IsDiff .b64 dx dy t ∧ decode .b64 t = .num s v

/-- The pattern the code computes. -/
def subBits (x y : Int) : Nat := Fmt.b64.sub (Fmt.b64.ofInt x) (Fmt.b64.ofInt y)

theorem subBits_lt (x y : Int) : subBits x y < 2 ^ Fmt.b64.width :=
  sub_lt ok64 (ofInt_lt _) (ofInt_lt _)

theorem isDiff_congr {f : Fmt} {a a' b b' r : Nat} (h : IsDiff f a b r) (ha : decode f a = decode f a')
    (hb : decode f b = decode f b') : IsDiff f a' b' r := by
  unfold IsDiff at h ⊢
  rw [← ha, ← hb]
  exact h

theorem DoubleDiff.bits {x y : ℤ} {v : ℚ} (h : DoubleDiff x y v) : ∃ s, decode .b64 (subBits x y) = .num s v := by
  obtain ⟨dx, dy, t, s, hx, hy, hd, hv⟩ := h
  refine ⟨s, ?_⟩
  rw [← hv]
  have h1 := rounded_unique ok64 (rounded_ofInt ok64 x) hx
  have h2 := rounded_unique ok64 (rounded_ofInt ok64 y) hy
  exact isDiff_unique ok64 (isDiff_congr (isDiff_sub ok64 (ofInt_lt x) (ofInt_lt y)) h1 h2) hd

theorem DoubleDiff.unique {x y : ℤ} {v w : ℚ} (h : DoubleDiff x y v) (h' : DoubleDiff x y w) : v = w := by
  obtain ⟨s, e⟩ := h.bits
  obtain ⟨s', e'⟩ := h'.bits
  rw [e] at e'
  injection e'

theorem two64_lt : (2 : ℚ) ^ 64 < overflowAt .b64 :=
  lt_trans (pow_lt_pow_right₀ (by norm_num) (by norm_num)) overflowAt64
theorem two65_lt : (2 : ℚ) ^ 65 < overflowAt .b64 :=
  lt_trans (pow_lt_pow_right₀ (by norm_num) (by norm_num)) overflowAt64

theorem decode_ofInt64 {x : ℤ} (h : |x| ≤ 2 ^ 64) : ∃ s v, decode .b64 (Fmt.b64.ofInt x) = .num s v := by
  refine rounded_num (rounded_ofInt ok64 x) (lt_of_le_of_lt ?_ two64_lt)
  have : ((|x| : ℤ) : ℚ) ≤ ((2 ^ 64 : ℤ) : ℚ) := Int.cast_le.2 h
  push_cast at this
  exact this

/-- The number `2^64`. -/
theorem rep_two64 (s : Bool) : ∃ b, decode .b64 b = .num s (withSign s (2 ^ 64)) := by
  obtain ⟨b, h⟩ := int64_rep s 1 64 (by decide) (by decide)
  exact ⟨b, by rw [h]; norm_num⟩
/-- The number `2^63`. -/
theorem rep_two63 (s : Bool) : ∃ b, decode .b64 b = .num s (withSign s (2 ^ 63)) := by
  obtain ⟨b, h⟩ := int64_rep s 1 63 (by decide) (by decide)
  exact ⟨b, by rw [h]; norm_num⟩

/-- The parts of the computation for operands of magnitude at most `2^64`. -/
theorem doubleDiff_parts (x y : ℤ) (hx : |x| ≤ 2 ^ 64) (hy : |y| ≤ 2 ^ 64) :
    ∃ s u t w v, decode .b64 (Fmt.b64.ofInt x) = .num s u ∧ decode .b64 (Fmt.b64.ofInt y) = .num t w ∧
      Rounded .b64 (s && !t) (u - w) (subBits x y) ∧ |u| ≤ 2 ^ 64 ∧ |w| ≤ 2 ^ 64 ∧
      (∃ s', decode .b64 (subBits x y) = .num s' v) ∧ DoubleDiff x y v := by
  obtain ⟨s, u, du⟩ := decode_ofInt64 hx
  obtain ⟨t, w, dw⟩ := decode_ofInt64 hy
  have b (z : ℤ) (hz : |z| ≤ 2 ^ 64) {s u} (d : decode .b64 (Fmt.b64.ofInt z) = .num s u) : |u| ≤ 2 ^ 64 := by
    obtain ⟨b1, h1⟩ := rep_two64 false
    obtain ⟨b2, h2⟩ := rep_two64 true
    rw [abs_le] at hz
    have z1 : (z : ℚ) ≤ ((2 ^ 64 : ℤ) : ℚ) := Int.cast_le.2 hz.2
    have z2 : ((-2 ^ 64 : ℤ) : ℚ) ≤ (z : ℚ) := Int.cast_le.2 hz.1
    push_cast at z1 z2
    have := rounded_le (rounded_ofInt ok64 z) d h1 (by simp only [withSign, Bool.false_eq_true, if_false]; norm_num at z1 ⊢; linarith)
    have := rounded_ge (rounded_ofInt ok64 z) d h2 (by simp only [withSign, if_true]; norm_num at z2 ⊢; linarith)
    simp only [withSign, if_true, Bool.false_eq_true, if_false] at *
    exact abs_le.2 ⟨by assumption, by assumption⟩
  have hu := b x hx du
  have hw := b y hy dw
  have hd := isDiff_sub ok64 (ofInt_lt (f := .b64) x) (ofInt_lt (f := .b64) y)
  have hr : Rounded .b64 (s && !t) (u - w) (subBits x y) := by
    have := hd
    unfold IsDiff at this
    rw [du, dw] at this
    exact this
  have ho : |u - w| < overflowAt .b64 := by
    refine lt_of_le_of_lt (abs_sub _ _) (lt_of_le_of_lt ?_ two65_lt)
    have : (2 : ℚ) ^ 65 = 2 ^ 64 + 2 ^ 64 := by norm_num
    linarith
  obtain ⟨s', v, dv⟩ := rounded_num hr ho
  exact ⟨s, u, t, w, v, du, dw, hr, hu, hw, ⟨s', dv⟩,
    _, _, _, _, rounded_ofInt ok64 x, rounded_ofInt ok64 y, hd, dv⟩

/-- The computation always has a number as result. -/
theorem doubleDiff_exists (x y : ℤ) (hx : |x| ≤ 2 ^ 64) (hy : |y| ≤ 2 ^ 64) : ∃ v, DoubleDiff x y v := by
  obtain ⟨_, _, _, _, v, _, _, _, _, _, _, h⟩ := doubleDiff_parts x y hx hy
  exact ⟨v, h⟩

/-- The computation is exact while the operands and the difference are at most `2^53`. -/
theorem doubleDiff_exact {x y : ℤ} (hx : x.natAbs ≤ 2 ^ 53) (hy : y.natAbs ≤ 2 ^ 53)
    (hxy : (x - y).natAbs ≤ 2 ^ 53) : DoubleDiff x y ((x - y : ℤ) : ℚ) := by
  have ex (z : ℤ) (hz : z.natAbs ≤ 2 ^ 53) : ∃ s, decode .b64 (Fmt.b64.ofInt z) = .num s z := by
    obtain ⟨b, hb⟩ := int64_small hz
    by_cases h0 : z = 0
    · subst h0
      exact ⟨false, by have := rounded_ofInt ok64 0; simpa [Rounded] using this⟩
    · exact ⟨_, rounded_exact ok64 (rounded_ofInt ok64 z) hb (by exact_mod_cast h0)⟩
  obtain ⟨s, u, t, w, v, du, dw, hr, -, -, ⟨s', dv⟩, hd⟩ := doubleDiff_parts x y
    (by rw [Int.abs_eq_natAbs]; omega) (by rw [Int.abs_eq_natAbs]; omega)
  obtain ⟨s1, e1⟩ := ex x hx
  obtain ⟨s2, e2⟩ := ex y hy
  rw [du] at e1
  rw [dw] at e2
  injection e1 with _ e1
  injection e2 with _ e2
  subst e1 e2
  have : v = ((x - y : ℤ) : ℚ) := by
    push_cast
    by_cases h0 : (x : ℚ) - y = 0
    · rw [h0] at hr ⊢
      unfold Rounded at hr
      rw [if_pos rfl, dv] at hr
      injection hr
    · obtain ⟨b, hb⟩ := int64_small hxy
      push_cast at hb
      have := rounded_exact ok64 hr hb h0
      rw [dv] at this
      injection this
  rw [← this]
  exact hd

/-- Equal operands give zero. -/
theorem doubleDiff_self (x : ℤ) (hx : |x| ≤ 2 ^ 64) : DoubleDiff x x 0 := by
  obtain ⟨s, u, t, w, v, du, dw, hr, -, -, ⟨s', dv⟩, hd⟩ := doubleDiff_parts x x hx hx
  rw [du] at dw
  injection dw with _ e
  rw [e, sub_self] at hr
  unfold Rounded at hr
  rw [if_pos rfl, dv] at hr
  injection hr with _ e
  rwa [← e]

theorem rep_zero : decode .b64 0 = .num false 0 := by
  have := decode_pack_zero ok64 false
  exact this

/-- The sign of the difference is never wrong. -/
theorem doubleDiff_nonpos {x y : ℤ} {v : ℚ} (hx : |x| ≤ 2 ^ 64) (hy : |y| ≤ 2 ^ 64) (h : x ≤ y)
    (hv : DoubleDiff x y v) : v ≤ 0 := by
  obtain ⟨s, u, t, w, v', du, dw, hr, -, -, ⟨s', dv⟩, hd⟩ := doubleDiff_parts x y hx hy
  obtain rfl := hv.unique hd
  have := rounded_mono ok64 (rounded_ofInt ok64 x) (rounded_ofInt ok64 y) du dw (by exact_mod_cast h)
  exact rounded_le hr dv rep_zero (by linarith)
theorem doubleDiff_nonneg {x y : ℤ} {v : ℚ} (hx : |x| ≤ 2 ^ 64) (hy : |y| ≤ 2 ^ 64) (h : y ≤ x)
    (hv : DoubleDiff x y v) : 0 ≤ v := by
  obtain ⟨s, u, t, w, v', du, dw, hr, -, -, ⟨s', dv⟩, hd⟩ := doubleDiff_parts x y hx hy
  obtain rfl := hv.unique hd
  have := rounded_mono ok64 (rounded_ofInt ok64 y) (rounded_ofInt ok64 x) dw du (by exact_mod_cast h)
  exact rounded_ge hr dv rep_zero (by linarith)

/-- How far the computation can be off: three roundings of at most `2^10`. -/
theorem doubleDiff_error {x y : ℤ} {v : ℚ} (hx : |x| ≤ 2 ^ 64) (hy : |y| ≤ 2 ^ 64)
    (hs : 0 ≤ x ∧ 0 ≤ y ∨ |x| ≤ 2 ^ 63 ∧ |y| ≤ 2 ^ 63)
    (hv : DoubleDiff x y v) : |v - ((x - y : ℤ) : ℚ)| ≤ 3 * 2 ^ 10 := by
  obtain ⟨s, u, t, w, v', du, dw, hr, hu, hw, ⟨s', dv⟩, hd⟩ := doubleDiff_parts x y hx hy
  obtain rfl := hv.unique hd
  have c (z : ℤ) (B : ℤ) (h : |z| ≤ B) : |(z : ℚ)| ≤ B := by exact_mod_cast h
  have cx := c x _ hx
  have cy := c y _ hy
  push_cast at cx cy
  have e1 := rounded64_error (rounded_ofInt ok64 x) du cx
  have e2 := rounded64_error (rounded_ofInt ok64 y) dw cy
  have hb : |u - w| ≤ 2 ^ 64 := by
    rcases hs with ⟨h1, h2⟩ | ⟨h1, h2⟩
    · have p1 : 0 ≤ u := rounded_ge (rounded_ofInt ok64 x) du rep_zero (by exact_mod_cast h1)
      have p2 : 0 ≤ w := rounded_ge (rounded_ofInt ok64 y) dw rep_zero (by exact_mod_cast h2)
      rw [abs_of_nonneg p1] at hu
      rw [abs_of_nonneg p2] at hw
      exact abs_le.2 ⟨by linarith, by linarith⟩
    · have b (z : ℤ) (hz : |z| ≤ 2 ^ 63) {s u} (d : decode .b64 (Fmt.b64.ofInt z) = .num s u) : |u| ≤ 2 ^ 63 := by
        obtain ⟨b1, h1⟩ := rep_two63 false
        obtain ⟨b2, h2⟩ := rep_two63 true
        rw [abs_le] at hz
        have z1 : (z : ℚ) ≤ ((2 ^ 63 : ℤ) : ℚ) := Int.cast_le.2 hz.2
        have z2 : ((-2 ^ 63 : ℤ) : ℚ) ≤ (z : ℚ) := Int.cast_le.2 hz.1
        push_cast at z1 z2
        have := rounded_le (rounded_ofInt ok64 z) d h1 (by simp only [withSign, Bool.false_eq_true, if_false]; norm_num at z1 ⊢; linarith)
        have := rounded_ge (rounded_ofInt ok64 z) d h2 (by simp only [withSign, if_true]; norm_num at z2 ⊢; linarith)
        simp only [withSign, if_true, Bool.false_eq_true, if_false] at *
        exact abs_le.2 ⟨by assumption, by assumption⟩
      refine le_trans (abs_sub _ _) ?_
      have := b x h1 du
      have := b y h2 dw
      have : (2 : ℚ) ^ 64 = 2 ^ 63 + 2 ^ 63 := by norm_num
      linarith
  have e3 := rounded64_error hr dv hb
  push_cast
  rw [abs_le] at *
  constructor <;> linarith

set_option linter.unusedSectionVars false
variable [Dialect]

/-- `csim` with a proof term for every step: the kernel does not compare large floating-point literals. -/
macro "csim_slow" : tactic => `(tactic|
  simp -implicitDefEqProofs (disch := omega) only [csem, ↓reduceIte])

/-! ## The body of the loops -/

theorem isTrunc_bounds {x : ℚ} {n : ℤ} (h : IsTrunc x n) : |(n : ℚ) - x| < 1 ∧ (0 ≤ x → 0 ≤ n) ∧ (x ≤ 0 → n ≤ 0) := by
  unfold IsTrunc at h
  split at h
  · rename_i hx
    refine ⟨_root_.abs_lt.2 ⟨by linarith, by linarith⟩, fun _ => ?_, fun hx' => ?_⟩
    · have : ((-1 : ℤ) : ℚ) < n := by push_cast; linarith
      have := Int.cast_lt.1 this
      omega
    · have : (n : ℚ) ≤ ((0 : ℤ) : ℚ) := by push_cast; linarith
      exact Int.cast_le.1 this
  · rename_i hx
    rw [not_le] at hx
    refine ⟨_root_.abs_lt.2 ⟨by linarith, by linarith⟩, fun _ => by linarith, fun _ => ?_⟩
    have : (n : ℚ) < ((1 : ℤ) : ℚ) := by push_cast; linarith
    have := Int.cast_lt.1 this
    omega

/-- Truncation is monotone. -/
theorem isTrunc_le {x : ℚ} {n m : ℤ} (h : IsTrunc x n) : x ≤ m → n ≤ m := by
  intro hx
  unfold IsTrunc at h
  split at h
  · have : (n : ℚ) ≤ m := by linarith
    exact Int.cast_le.1 this
  · have : ((n - 1 : ℤ) : ℚ) < m := by push_cast; linarith
    have := Int.cast_lt.1 this
    omega
theorem isTrunc_ge {x : ℚ} {n m : ℤ} (h : IsTrunc x n) : (m : ℚ) ≤ x → m ≤ n := by
  intro hx
  unfold IsTrunc at h
  split at h
  · have : (m : ℚ) < ((n + 1 : ℤ) : ℚ) := by push_cast; linarith
    have := Int.cast_lt.1 this
    omega
  · have : (m : ℚ) ≤ n := by linarith
    exact Int.cast_le.1 this
theorem isTrunc_lt {x : ℚ} {n m : ℤ} (h : IsTrunc x n) (hm : 0 < m) : x < m → n < m := by
  intro hx
  unfold IsTrunc at h
  split at h
  · have : (n : ℚ) < m := by linarith
    exact Int.cast_lt.1 this
  · rename_i h0
    have : (n : ℚ) < ((1 : ℤ) : ℚ) := by push_cast; linarith
    have := Int.cast_lt.1 this
    omega

theorem trunc64 {t : Nat} (ht : t < 2 ^ Fmt.b64.width) {s : Bool} {v : ℚ} {n : ℤ} (d : decode .b64 t = .num s v)
    (h : IsTrunc v n) : Fmt.b64.trunc t = some n := by
  have := trunc_spec ok64 ht
  rw [d] at this
  obtain ⟨m, e, h'⟩ := this
  rw [e, isTrunc_unique h h']

theorem less64 {a b : Nat} (ha : a < 2 ^ Fmt.b64.width) (hb : b < 2 ^ Fmt.b64.width) {s t : Bool} {x y : ℚ}
    (da : decode .b64 a = .num s x) (db : decode .b64 b = .num t y) : Fmt.b64.lt a b = true ↔ x < y := by
  rw [lt_iff ok64 ha hb, da, db]
  rfl

theorem decode_normal64 {b : Nat} (h1 : expField .b64 b ≠ 2047) (h2 : expField .b64 b ≠ 0) :
    decode .b64 b = .num (signField .b64 b)
      (withSign (signField .b64 b) ((1 + (fracField .b64 b : ℚ) / 2 ^ 52) * 2 ^ ((expField .b64 b : ℤ) - 1023))) := by
  unfold decode
  rw [if_neg (by simpa using h1), if_neg h2]
  rfl

theorem decode_43e0 : decode .b64 0x43e0000000000000 = .num false (2 ^ 63) := by
  rw [decode_normal64 (by decide) (by decide), show expField .b64 0x43e0000000000000 = 1086 by decide,
    show fracField .b64 0x43e0000000000000 = 0 by decide, show signField .b64 0x43e0000000000000 = false by decide]
  simp only [withSign]
  norm_num
theorem decode_c3e0 : decode .b64 0xc3e0000000000000 = .num true (-2 ^ 63) := by
  rw [decode_normal64 (by decide) (by decide), show expField .b64 0xc3e0000000000000 = 1086 by decide,
    show fracField .b64 0xc3e0000000000000 = 0 by decide, show signField .b64 0xc3e0000000000000 = true by decide]
  simp only [withSign]
  norm_num
theorem decode_43f0 : decode .b64 0x43f0000000000000 = .num false (2 ^ 64) := by
  rw [decode_normal64 (by decide) (by decide), show expField .b64 0x43f0000000000000 = 1087 by decide,
    show fracField .b64 0x43f0000000000000 = 0 by decide, show signField .b64 0x43f0000000000000 = false by decide]
  simp only [withSign]
  norm_num

theorem toBits64_in {t : ITy} {b : BitVec 64} {n : Int} (h : Fmt.b64.trunc b.toNat = some n)
    (hr : t.lo ≤ n ∧ n ≤ t.hi) : Val.toBits (.int t) (.f64 b) = .ok (BitVec.ofInt t.bits n) := by
  show (truncTo t (Fmt.b64.trunc b.toNat) >>= fun v => C.ok (BitVec.ofInt t.bits v)) = _
  rw [h]
  show ((if t.lo ≤ n ∧ n ≤ t.hi then C.ok n else .ub .floatToInt) >>= fun v => C.ok (BitVec.ofInt t.bits v)) = _
  rw [if_pos hr]
  rfl
theorem toBits64_out {t : ITy} {b : BitVec 64} {n : Int} (h : Fmt.b64.trunc b.toNat = some n)
    (hr : ¬ (t.lo ≤ n ∧ n ≤ t.hi)) : Val.toBits (.int t) (.f64 b) = .ub .floatToInt := by
  show (truncTo t (Fmt.b64.trunc b.toNat) >>= fun v => C.ok (BitVec.ofInt t.bits v)) = _
  rw [h]
  show ((if t.lo ≤ n ∧ n ≤ t.hi then C.ok n else .ub .floatToInt) >>= fun v => C.ok (BitVec.ofInt t.bits v)) = _
  rw [if_neg hr]
  rfl

theorem ssat_hi {n : ℤ} (h : 2 ^ 63 ≤ n) : ssat 64 n = BitVec.ofInt 64 9223372036854775807 := by
  unfold ssat clamp
  congr 1
  simp only [Int.reducePow, Nat.reduceSub] at h ⊢
  omega
theorem ssat_lo {n : ℤ} (h : n ≤ -9223372036854775808) : ssat 64 n = BitVec.ofInt 64 (-9223372036854775808) := by
  unfold ssat clamp
  congr 1
  simp only [Int.reducePow, Nat.reduceSub]
  omega
theorem ssat_mid {n : ℤ} (h : -9223372036854775808 ≤ n) (h' : n < 2 ^ 63) : ssat 64 n = BitVec.ofInt 64 n := by
  unfold ssat clamp
  congr 1
  simp only [Int.reducePow, Nat.reduceSub] at h' ⊢
  omega

theorem usat_hi {n : ℤ} (h : 2 ^ 64 ≤ n) : usat 64 n = BitVec.ofInt 64 18446744073709551615 := by
  unfold usat clamp
  congr 1
  simp only [Int.reducePow] at h ⊢
  omega
theorem usat_lo {n : ℤ} (h : n ≤ 0) : usat 64 n = BitVec.ofInt 64 (0) := by
  unfold usat clamp
  congr 1
  simp only [Int.reducePow]
  omega
theorem usat_mid {n : ℤ} (h : 0 ≤ n) (h' : n < 2 ^ 64) : usat 64 n = BitVec.ofInt 64 n := by
  unfold usat clamp
  congr 1
  simp only [Int.reducePow] at h' ⊢
  omega

theorem cast_hi_s64 : Val.cast .f64 (.int .i64 9223372036854775807) = .ok (.f64 0x43e0000000000000#64) := by
  have : BitVec.ofNat 64 (Fmt.b64.ofInt 9223372036854775807) = 0x43e0000000000000#64 := by decide +kernel
  rw [← this]
  rfl

theorem qsub_body_s64 {x y n : ℤ} {v : ℚ} (h : DoubleDiff x y v) (hn : IsTrunc v n) {α : Type}
    (k : BitVec 64 → C α) :
    (if Fmt.b64.lt (0x43e0000000000000#64 : BitVec 64).toNat (BitVec.ofNat 64 (subBits x y)).toNat = true then
        k (BitVec.ofInt 64 9223372036854775807)
      else if (Val.f64 (BitVec.ofNat 64 (subBits x y))).lt (Val.int ITy.i64 (-9223372036854775808)) = true then
        k (BitVec.ofInt 64 (-9223372036854775808))
      else Val.toBits Elem.s64 (Val.f64 (BitVec.ofNat 64 (subBits x y))) >>= k) =
    if v ≠ 2 ^ 63 then k (ssat 64 n) else .ub .floatToInt := by
  obtain ⟨s, d⟩ := h.bits
  have ht := subBits_lt x y
  have e0 : (BitVec.ofNat 64 (subBits x y)).toNat = subBits x y := nat64 ht
  have e1 : (0x43e0000000000000#64 : BitVec 64).toNat = 0x43e0000000000000 := by decide +kernel
  have e2 : (Val.f64 (BitVec.ofNat 64 (subBits x y))).lt (Val.int ITy.i64 (-9223372036854775808)) =
      Fmt.b64.lt (BitVec.ofNat 64 (subBits x y)).toNat (BitVec.ofNat 64 (Fmt.b64.ofInt (-9223372036854775808))).toNat := rfl
  have e3 : (BitVec.ofNat 64 (Fmt.b64.ofInt (-9223372036854775808))).toNat = 0xc3e0000000000000 := by decide +kernel
  have htr : Fmt.b64.trunc (BitVec.ofNat 64 (subBits x y)).toNat = some n := by
    rw [e0]; exact trunc64 ht d hn
  have c1 := less64 (show 0x43e0000000000000 < 2 ^ Fmt.b64.width by decide) ht decode_43e0 d
  have c2 := less64 ht (show 0xc3e0000000000000 < 2 ^ Fmt.b64.width by decide) d decode_c3e0
  rw [e2, e3, e1, e0]
  have hlo : (-2 ^ 63 : ℚ) = ((-9223372036854775808 : ℤ) : ℚ) := by norm_num
  have hhi : (2 ^ 63 : ℚ) = ((2 ^ 63 : ℤ) : ℚ) := by push_cast; rfl
  rw [hlo] at c2
  rw [hhi] at c1 ⊢
  by_cases h1 : ((2 ^ 63 : ℤ) : ℚ) < v
  · rw [if_pos (c1.2 h1), if_pos (ne_of_gt h1)]
    have := isTrunc_ge hn (le_of_lt h1)
    rw [ssat_hi this]
  · rw [if_neg (by rw [c1]; exact h1)]
    rw [not_lt] at h1
    by_cases h2 : v < ((-9223372036854775808 : ℤ) : ℚ)
    · have hne : v ≠ ((2 ^ 63 : ℤ) : ℚ) := by
        refine ne_of_lt (lt_trans h2 ?_)
        norm_num
      rw [if_pos (c2.2 h2), if_pos hne]
      have := isTrunc_le hn (le_of_lt h2)
      rw [ssat_lo this]
    · rw [if_neg (by rw [c2]; exact h2)]
      rw [not_lt] at h2
      have k1 := isTrunc_ge hn h2
      by_cases h3 : v = ((2 ^ 63 : ℤ) : ℚ)
      · have : (2 ^ 63 : ℤ) ≤ n := isTrunc_ge hn (le_of_eq h3.symm)
        rw [if_neg (by simpa using h3), toBits64_out (t := .i64) htr (by
          intro hc
          have := hc.2
          simp only [ITy.hi] at this
          omega)]
        rfl
      · have k2 := isTrunc_lt hn (by norm_num) (lt_of_le_of_ne h1 h3)
        rw [if_pos h3, toBits64_in (t := .i64) htr ⟨k1, by simp only [ITy.hi]; omega⟩]
        rw [ssat_mid k1 k2]
        rfl

theorem cast_hi_u64 : Val.cast .f64 (.int .u64 18446744073709551615) = .ok (.f64 0x43f0000000000000#64) := by
  have : BitVec.ofNat 64 (Fmt.b64.ofInt 18446744073709551615) = 0x43f0000000000000#64 := by decide +kernel
  rw [← this]
  rfl

theorem qsub_body_u64 {x y n : ℤ} {v : ℚ} (h : DoubleDiff x y v) (hn : IsTrunc v n) {α : Type}
    (k : BitVec 64 → C α) :
    (if Fmt.b64.lt (0x43f0000000000000#64 : BitVec 64).toNat (BitVec.ofNat 64 (subBits x y)).toNat = true then
        k (BitVec.ofInt 64 18446744073709551615)
      else if (Val.f64 (BitVec.ofNat 64 (subBits x y))).lt (vint 0) = true then
        k (BitVec.ofInt 64 (0))
      else Val.toBits Elem.u64 (Val.f64 (BitVec.ofNat 64 (subBits x y))) >>= k) =
    if v ≠ 2 ^ 64 then k (usat 64 n) else .ub .floatToInt := by
  obtain ⟨s, d⟩ := h.bits
  have ht := subBits_lt x y
  have e0 : (BitVec.ofNat 64 (subBits x y)).toNat = subBits x y := nat64 ht
  have e1 : (0x43f0000000000000#64 : BitVec 64).toNat = 0x43f0000000000000 := by decide +kernel
  have e2 : (Val.f64 (BitVec.ofNat 64 (subBits x y))).lt (vint 0) =
      Fmt.b64.lt (BitVec.ofNat 64 (subBits x y)).toNat (BitVec.ofNat 64 (Fmt.b64.ofInt (0))).toNat := rfl
  have e3 : (BitVec.ofNat 64 (Fmt.b64.ofInt (0))).toNat = 0x0 := by decide +kernel
  have htr : Fmt.b64.trunc (BitVec.ofNat 64 (subBits x y)).toNat = some n := by
    rw [e0]; exact trunc64 ht d hn
  have c1 := less64 (show 0x43f0000000000000 < 2 ^ Fmt.b64.width by decide) ht decode_43f0 d
  have c2 := less64 ht (show 0x0 < 2 ^ Fmt.b64.width by decide) d rep_zero
  rw [e2, e3, e1, e0]
  have hlo : (0 : ℚ) = ((0 : ℤ) : ℚ) := by norm_num
  have hhi : (2 ^ 64 : ℚ) = ((2 ^ 64 : ℤ) : ℚ) := by push_cast; rfl
  rw [hlo] at c2
  rw [hhi] at c1 ⊢
  by_cases h1 : ((2 ^ 64 : ℤ) : ℚ) < v
  · rw [if_pos (c1.2 h1), if_pos (ne_of_gt h1)]
    have := isTrunc_ge hn (le_of_lt h1)
    rw [usat_hi this]
  · rw [if_neg (by rw [c1]; exact h1)]
    rw [not_lt] at h1
    by_cases h2 : v < ((0 : ℤ) : ℚ)
    · have hne : v ≠ ((2 ^ 64 : ℤ) : ℚ) := by
        refine ne_of_lt (lt_trans h2 ?_)
        norm_num
      rw [if_pos (c2.2 h2), if_pos hne]
      have := isTrunc_le hn (le_of_lt h2)
      rw [usat_lo this]
    · rw [if_neg (by rw [c2]; exact h2)]
      rw [not_lt] at h2
      have k1 := isTrunc_ge hn h2
      by_cases h3 : v = ((2 ^ 64 : ℤ) : ℚ)
      · have : (2 ^ 64 : ℤ) ≤ n := isTrunc_ge hn (le_of_eq h3.symm)
        rw [if_neg (by simpa using h3), toBits64_out (t := .u64) htr (by
          intro hc
          have := hc.2
          simp only [ITy.hi] at this
          omega)]
        rfl
      · have k2 := isTrunc_lt hn (by norm_num) (lt_of_le_of_ne h1 h3)
        rw [if_pos h3, toBits64_in (t := .u64) htr ⟨k1, by simp only [ITy.hi]; omega⟩]
        rw [usat_mid k1 k2]
        rfl

theorem exists_isTrunc (x : ℚ) : ∃ n, IsTrunc x n := by
  unfold IsTrunc
  by_cases h : 0 ≤ x
  · simp only [if_pos h]
    exact ⟨⌊x⌋, Int.floor_le x, Int.lt_floor_add_one x⟩
  · simp only [if_neg h]
    refine ⟨⌈x⌉, Int.le_ceil x, ?_⟩
    have := Int.ceil_lt_add_one x
    linarith

theorem isTrunc_int (n : ℤ) : IsTrunc (n : ℚ) n := by
  unfold IsTrunc
  split <;> constructor <;> linarith

theorem doubleDiff_eval {x y : ℤ} {v : ℚ} {s : Bool} (t : Nat) (h : subBits x y = t)
    (hd : decode .b64 t = .num s v) : DoubleDiff x y v := by
  refine ⟨_, _, t, s, rounded_ofInt ok64 x, rounded_ofInt ok64 y, ?_, hd⟩
  rw [← h]
  exact isDiff_sub ok64 (ofInt_lt _) (ofInt_lt _)

theorem ssat_toInt (n : ℤ) : (ssat 64 n).toInt = clamp (-9223372036854775808) 9223372036854775807 n := by
  unfold ssat
  rw [BitVec.toInt_ofInt]
  have : clamp (-2 ^ (64 - 1)) (2 ^ (64 - 1) - 1) n = clamp (-9223372036854775808) 9223372036854775807 n := by
    norm_num
  rw [this, Int.bmod_eq_of_le] <;> unfold clamp <;> norm_num
theorem usat_toNat (n : ℤ) : ((usat 64 n).toNat : ℤ) = clamp 0 18446744073709551615 n := by
  unfold usat
  rw [BitVec.toNat_ofInt]
  have : clamp 0 (2 ^ 64 - 1) n = clamp 0 18446744073709551615 n := by
    norm_num
  have hb : 0 ≤ clamp 0 18446744073709551615 n ∧ clamp 0 18446744073709551615 n < 18446744073709551616 := by
    unfold clamp; omega
  rw [this]
  generalize clamp 0 18446744073709551615 n = c at *
  omega

/-! ## `vqsub_s64` -/

theorem vqsub_s64_eval (N M : int64x1_t) (v : Fin 1 → ℚ) (n : Fin 1 → ℤ)
    (h : ∀ i, DoubleDiff (N.lane i).toInt (M.lane i).toInt (v i) ∧ IsTrunc (v i) (n i)) [DecidablePred fun i => v i ≠ 2 ^ 63] :
    vqsub_s64 N M = if ∀ i, v i ≠ 2 ^ 63 then .ok ⟨fun i => ssat 64 (n i)⟩ else .ub .floatToInt := by
  unfold vqsub_s64
  refine fill_if (e := Elem.s64) (by rfl) (fun i => ssat 64 (n i)) (fun i => v i ≠ 2 ^ 63) .floatToInt fun i D => ?_
  obtain ⟨h1, h2⟩ := h i
  simp -implicitDefEqProofs only [cast_hi_s64, Vec.get_fin, ofBits_i64]
  generalize (N.lane i).toInt = x at h1 ⊢
  generalize (M.lane i).toInt = y at h1 ⊢
  csim_slow
  have := qsub_body_s64 h1 h2 (fun b => C.ok (D.put i b))
  rw [nat64 (ofInt_lt x), nat64 (ofInt_lt y)]
  simp only [bind_ok]
  unfold subBits at this
  rewrite [this]
  by_cases hv : v i ≠ 2 ^ 63
  · rewrite [if_pos hv, if_pos hv]
    rfl
  · rewrite [if_neg hv, if_neg hv]
    rfl

/-- `vqsub_s64` for all operands: the double-precision difference, truncated and saturated, unless that
difference is exactly `2^63`. -/
theorem vqsub_s64_exact (N M : int64x1_t) (v : Fin 1 → ℚ) (n : Fin 1 → ℤ)
    (h : ∀ i, DoubleDiff (N.lane i).toInt (M.lane i).toInt (v i) ∧ IsTrunc (v i) (n i) ∧ v i ≠ 2 ^ 63) :
    vqsub_s64 N M = .ok ⟨fun i => ssat 64 (n i)⟩ := by
  classical
  rw [vqsub_s64_eval N M v n fun i => ⟨(h i).1, (h i).2.1⟩, if_pos fun i => (h i).2.2]

theorem vqsub_s64_bnd (a : BitVec 64) : |a.toInt| ≤ 2 ^ 64 := by
  have h1 := toInt64 a
  rw [abs_le]
  omega

/-- If the double-precision difference of some lane is exactly `2^63`, `vqsub_s64` has undefined behaviour. -/
theorem vqsub_s64_ub (N M : int64x1_t) (h : ∃ i, DoubleDiff (N.lane i).toInt (M.lane i).toInt (2 ^ 63)) :
    vqsub_s64 N M = .ub .floatToInt := by
  classical
  choose v hv using fun i => doubleDiff_exists (N.lane i).toInt (M.lane i).toInt (vqsub_s64_bnd (N.lane i)) (vqsub_s64_bnd (M.lane i))
  choose n hn using fun i => exists_isTrunc (v i)
  rw [vqsub_s64_eval N M v n fun i => ⟨hv i, hn i⟩, if_neg]
  intro hall
  obtain ⟨i, hi⟩ := h
  exact hall i ((hv i).unique hi)

/-- `vqsub_s64` is the saturated difference while the operands and the differences are at most `2^53`.
Missing for the full claim: other operands, where the result is inexact (`vqsub_s64_wrong`) or undefined
(`vqsub_s64_ub`). -/
theorem vqsub_s64_partial (N M : int64x1_t)
    (h : ∀ i, (N.lane i).toInt.natAbs ≤ 2 ^ 53 ∧ (M.lane i).toInt.natAbs ≤ 2 ^ 53 ∧ ((N.lane i).toInt - (M.lane i).toInt).natAbs ≤ 2 ^ 53) :
    vqsub_s64 N M = .ok ⟨fun i => ssat 64 ((N.lane i).toInt - (M.lane i).toInt)⟩ := by
  refine vqsub_s64_exact N M (fun i => (((N.lane i).toInt - (M.lane i).toInt : ℤ) : ℚ)) _ fun i => ⟨?_, isTrunc_int _, ?_⟩
  · exact doubleDiff_exact (h i).1 (h i).2.1 (h i).2.2
  · intro hc
    have : (N.lane i).toInt - (M.lane i).toInt = 2 ^ 63 := by exact_mod_cast hc
    have := (h i).2.2
    omega

/-- Equal operands always give zero. -/
theorem vqsub_s64_self (N : int64x1_t) : vqsub_s64 N N = .ok ⟨fun _ => 0#64⟩ := by
  rw [vqsub_s64_exact N N (fun _ => 0) (fun _ => 0) fun i =>
    ⟨doubleDiff_self _ (vqsub_s64_bnd _), by simpa using isTrunc_int 0, by norm_num⟩]
  rw [ssat_mid (by norm_num) (by norm_num)]
  rfl

/-- The sign of the result is never wrong: a difference that is not positive gives no positive lane. -/
theorem vqsub_s64_nonpos (N M r : int64x1_t) (hr : vqsub_s64 N M = .ok r) (i : Fin 1)
    (h : (N.lane i).toInt ≤ (M.lane i).toInt) : (r.lane i).toInt ≤ 0 := by
  classical
  choose v hv using fun i => doubleDiff_exists (N.lane i).toInt (M.lane i).toInt (vqsub_s64_bnd (N.lane i)) (vqsub_s64_bnd (M.lane i))
  choose n hn using fun i => exists_isTrunc (v i)
  rw [vqsub_s64_eval N M v n fun i => ⟨hv i, hn i⟩] at hr
  split at hr
  · injection hr with hr
    subst hr
    have h1 := doubleDiff_nonpos (vqsub_s64_bnd _) (vqsub_s64_bnd _) h (hv i)
    have h2 := (isTrunc_bounds (hn i)).2.2 h1
    show (ssat 64 (n i)).toInt ≤ 0
    rw [ssat_toInt]
    unfold clamp
    omega
  · cases hr

/-- Likewise for a difference that is not negative. -/
theorem vqsub_s64_nonneg (N M r : int64x1_t) (hr : vqsub_s64 N M = .ok r) (i : Fin 1)
    (h : (M.lane i).toInt ≤ (N.lane i).toInt) : 0 ≤ (r.lane i).toInt := by
  classical
  choose v hv using fun i => doubleDiff_exists (N.lane i).toInt (M.lane i).toInt (vqsub_s64_bnd (N.lane i)) (vqsub_s64_bnd (M.lane i))
  choose n hn using fun i => exists_isTrunc (v i)
  rw [vqsub_s64_eval N M v n fun i => ⟨hv i, hn i⟩] at hr
  split at hr
  · injection hr with hr
    subst hr
    have h1 := doubleDiff_nonneg (vqsub_s64_bnd _) (vqsub_s64_bnd _) h (hv i)
    have h2 := (isTrunc_bounds (hn i)).2.1 h1
    show 0 ≤ (ssat 64 (n i)).toInt
    rw [ssat_toInt]
    unfold clamp
    omega
  · cases hr

/-- Wherever `vqsub_s64` has a result, it is at most `3072` away from the saturated difference. -/
theorem vqsub_s64_error (N M r : int64x1_t) (hr : vqsub_s64 N M = .ok r) (i : Fin 1) :
    |(r.lane i).toInt - clamp (-9223372036854775808) 9223372036854775807 ((N.lane i).toInt - (M.lane i).toInt)| ≤ 3072 := by
  classical
  choose v hv using fun i => doubleDiff_exists (N.lane i).toInt (M.lane i).toInt (vqsub_s64_bnd (N.lane i)) (vqsub_s64_bnd (M.lane i))
  choose n hn using fun i => exists_isTrunc (v i)
  rw [vqsub_s64_eval N M v n fun i => ⟨hv i, hn i⟩] at hr
  split at hr
  · injection hr with hr
    subst hr
    have e := doubleDiff_error (vqsub_s64_bnd (N.lane i)) (vqsub_s64_bnd (M.lane i)) (.inr ⟨by have := toInt64 (N.lane i); rw [abs_le]; omega, by have := toInt64 (M.lane i); rw [abs_le]; omega⟩) (hv i)
    have hn1 := (isTrunc_bounds (hn i)).1
    have hlt : |((n i - ((N.lane i).toInt - (M.lane i).toInt) : ℤ) : ℚ)| < ((3073 : ℤ) : ℚ) := by
      push_cast at e ⊢
      rw [abs_le] at e
      rw [_root_.abs_lt] at hn1 ⊢
      constructor <;> linarith
    rw [← Int.cast_abs, Int.cast_lt] at hlt
    have := ssat_toInt (n i)
    show |(ssat 64 (n i)).toInt - _| ≤ _
    rw [this]
    unfold clamp
    generalize n i = m at *
    generalize (N.lane i).toInt = p at *
    generalize (M.lane i).toInt = q at *
    rw [_root_.abs_lt] at hlt
    rw [abs_le]
    omega
  · cases hr

/-- Above `2^53` the low bits are lost: `2^53 + 1 - 0` gives `2^53`. -/
theorem vqsub_s64_wrong : vqsub_s64 ⟨fun _ => 9007199254740993#64⟩ ⟨fun _ => 0#64⟩ = .ok ⟨fun _ => 9007199254740992#64⟩ := by
  rw [vqsub_s64_exact _ _ (fun _ => ((9007199254740992 : ℤ) : ℚ)) (fun _ => 9007199254740992) fun i =>
    ⟨?_, isTrunc_int _, by norm_num⟩]
  · rw [ssat_mid (by norm_num) (by norm_num)]
    rfl
  · exact doubleDiff_eval (s := false) 0x4340000000000000 (by
      show subBits ((9007199254740993#64 : BitVec 64).toInt) ((0#64 : BitVec 64).toInt) = _
      decide +kernel) (by
      rw [decode_normal64 (by decide) (by decide), show expField .b64 0x4340000000000000 = 1076 by decide,
        show fracField .b64 0x4340000000000000 = 0 by decide,
        show signField .b64 0x4340000000000000 = false by decide]
      simp only [withSign]; norm_num)

example : vqsub_s64 ⟨fun _ => 9223372036854775807#64⟩ ⟨fun _ => 0#64⟩ = .ub .floatToInt :=
  vqsub_s64_ub _ _ ⟨0, doubleDiff_eval 0x43e0000000000000 (by decide +kernel) decode_43e0⟩
example : vqsub_s64 ⟨fun _ => 7#64⟩ ⟨fun _ => 5#64⟩ = .ok ⟨fun _ => 2#64⟩ := by
  rw [vqsub_s64_partial _ _ fun i => by
    show ((7#64 : BitVec 64).toInt).natAbs ≤ 2 ^ 53 ∧ ((5#64 : BitVec 64).toInt).natAbs ≤ 2 ^ 53 ∧ ((7#64 : BitVec 64).toInt - (5#64 : BitVec 64).toInt).natAbs ≤ 2 ^ 53
    decide]
  simp only [show (7#64 : BitVec 64).toInt - (5#64 : BitVec 64).toInt = 2 by decide]
  rw [ssat_mid (by norm_num) (by norm_num)]
  rfl
example : ∃ r, vqsub_s64 ⟨fun _ => 7#64⟩ ⟨fun _ => 5#64⟩ = .ok r ∧ ((7#64 : BitVec 64).toInt ≥ (5#64 : BitVec 64).toInt) :=
  ⟨_, vqsub_s64_partial _ _ (fun i => by
    show ((7#64 : BitVec 64).toInt).natAbs ≤ 2 ^ 53 ∧ ((5#64 : BitVec 64).toInt).natAbs ≤ 2 ^ 53 ∧ ((7#64 : BitVec 64).toInt - (5#64 : BitVec 64).toInt).natAbs ≤ 2 ^ 53
    decide), by decide⟩

/-! ## `vqsubq_s64` -/

theorem vqsubq_s64_eval (N M : int64x2_t) (v : Fin 2 → ℚ) (n : Fin 2 → ℤ)
    (h : ∀ i, DoubleDiff (N.lane i).toInt (M.lane i).toInt (v i) ∧ IsTrunc (v i) (n i)) [DecidablePred fun i => v i ≠ 2 ^ 63] :
    vqsubq_s64 N M = if ∀ i, v i ≠ 2 ^ 63 then .ok ⟨fun i => ssat 64 (n i)⟩ else .ub .floatToInt := by
  unfold vqsubq_s64
  refine fill_if (e := Elem.s64) (by rfl) (fun i => ssat 64 (n i)) (fun i => v i ≠ 2 ^ 63) .floatToInt fun i D => ?_
  obtain ⟨h1, h2⟩ := h i
  simp -implicitDefEqProofs only [cast_hi_s64, Vec.get_fin, ofBits_i64]
  generalize (N.lane i).toInt = x at h1 ⊢
  generalize (M.lane i).toInt = y at h1 ⊢
  csim_slow
  have := qsub_body_s64 h1 h2 (fun b => C.ok (D.put i b))
  rw [nat64 (ofInt_lt x), nat64 (ofInt_lt y)]
  simp only [bind_ok]
  unfold subBits at this
  rewrite [this]
  by_cases hv : v i ≠ 2 ^ 63
  · rewrite [if_pos hv, if_pos hv]
    rfl
  · rewrite [if_neg hv, if_neg hv]
    rfl

/-- `vqsubq_s64` for all operands: the double-precision difference, truncated and saturated, unless that
difference is exactly `2^63`. -/
theorem vqsubq_s64_exact (N M : int64x2_t) (v : Fin 2 → ℚ) (n : Fin 2 → ℤ)
    (h : ∀ i, DoubleDiff (N.lane i).toInt (M.lane i).toInt (v i) ∧ IsTrunc (v i) (n i) ∧ v i ≠ 2 ^ 63) :
    vqsubq_s64 N M = .ok ⟨fun i => ssat 64 (n i)⟩ := by
  classical
  rw [vqsubq_s64_eval N M v n fun i => ⟨(h i).1, (h i).2.1⟩, if_pos fun i => (h i).2.2]

theorem vqsubq_s64_bnd (a : BitVec 64) : |a.toInt| ≤ 2 ^ 64 := by
  have h1 := toInt64 a
  rw [abs_le]
  omega

/-- If the double-precision difference of some lane is exactly `2^63`, `vqsubq_s64` has undefined behaviour. -/
theorem vqsubq_s64_ub (N M : int64x2_t) (h : ∃ i, DoubleDiff (N.lane i).toInt (M.lane i).toInt (2 ^ 63)) :
    vqsubq_s64 N M = .ub .floatToInt := by
  classical
  choose v hv using fun i => doubleDiff_exists (N.lane i).toInt (M.lane i).toInt (vqsubq_s64_bnd (N.lane i)) (vqsubq_s64_bnd (M.lane i))
  choose n hn using fun i => exists_isTrunc (v i)
  rw [vqsubq_s64_eval N M v n fun i => ⟨hv i, hn i⟩, if_neg]
  intro hall
  obtain ⟨i, hi⟩ := h
  exact hall i ((hv i).unique hi)

/-- `vqsubq_s64` is the saturated difference while the operands and the differences are at most `2^53`.
Missing for the full claim: other operands, where the result is inexact (`vqsubq_s64_wrong`) or undefined
(`vqsubq_s64_ub`). -/
theorem vqsubq_s64_partial (N M : int64x2_t)
    (h : ∀ i, (N.lane i).toInt.natAbs ≤ 2 ^ 53 ∧ (M.lane i).toInt.natAbs ≤ 2 ^ 53 ∧ ((N.lane i).toInt - (M.lane i).toInt).natAbs ≤ 2 ^ 53) :
    vqsubq_s64 N M = .ok ⟨fun i => ssat 64 ((N.lane i).toInt - (M.lane i).toInt)⟩ := by
  refine vqsubq_s64_exact N M (fun i => (((N.lane i).toInt - (M.lane i).toInt : ℤ) : ℚ)) _ fun i => ⟨?_, isTrunc_int _, ?_⟩
  · exact doubleDiff_exact (h i).1 (h i).2.1 (h i).2.2
  · intro hc
    have : (N.lane i).toInt - (M.lane i).toInt = 2 ^ 63 := by exact_mod_cast hc
    have := (h i).2.2
    omega

/-- Equal operands always give zero. -/
theorem vqsubq_s64_self (N : int64x2_t) : vqsubq_s64 N N = .ok ⟨fun _ => 0#64⟩ := by
  rw [vqsubq_s64_exact N N (fun _ => 0) (fun _ => 0) fun i =>
    ⟨doubleDiff_self _ (vqsubq_s64_bnd _), by simpa using isTrunc_int 0, by norm_num⟩]
  rw [ssat_mid (by norm_num) (by norm_num)]
  rfl

/-- The sign of the result is never wrong: a difference that is not positive gives no positive lane. -/
theorem vqsubq_s64_nonpos (N M r : int64x2_t) (hr : vqsubq_s64 N M = .ok r) (i : Fin 2)
    (h : (N.lane i).toInt ≤ (M.lane i).toInt) : (r.lane i).toInt ≤ 0 := by
  classical
  choose v hv using fun i => doubleDiff_exists (N.lane i).toInt (M.lane i).toInt (vqsubq_s64_bnd (N.lane i)) (vqsubq_s64_bnd (M.lane i))
  choose n hn using fun i => exists_isTrunc (v i)
  rw [vqsubq_s64_eval N M v n fun i => ⟨hv i, hn i⟩] at hr
  split at hr
  · injection hr with hr
    subst hr
    have h1 := doubleDiff_nonpos (vqsubq_s64_bnd _) (vqsubq_s64_bnd _) h (hv i)
    have h2 := (isTrunc_bounds (hn i)).2.2 h1
    show (ssat 64 (n i)).toInt ≤ 0
    rw [ssat_toInt]
    unfold clamp
    omega
  · cases hr

/-- Likewise for a difference that is not negative. -/
theorem vqsubq_s64_nonneg (N M r : int64x2_t) (hr : vqsubq_s64 N M = .ok r) (i : Fin 2)
    (h : (M.lane i).toInt ≤ (N.lane i).toInt) : 0 ≤ (r.lane i).toInt := by
  classical
  choose v hv using fun i => doubleDiff_exists (N.lane i).toInt (M.lane i).toInt (vqsubq_s64_bnd (N.lane i)) (vqsubq_s64_bnd (M.lane i))
  choose n hn using fun i => exists_isTrunc (v i)
  rw [vqsubq_s64_eval N M v n fun i => ⟨hv i, hn i⟩] at hr
  split at hr
  · injection hr with hr
    subst hr
    have h1 := doubleDiff_nonneg (vqsubq_s64_bnd _) (vqsubq_s64_bnd _) h (hv i)
    have h2 := (isTrunc_bounds (hn i)).2.1 h1
    show 0 ≤ (ssat 64 (n i)).toInt
    rw [ssat_toInt]
    unfold clamp
    omega
  · cases hr

/-- Wherever `vqsubq_s64` has a result, it is at most `3072` away from the saturated difference. -/
theorem vqsubq_s64_error (N M r : int64x2_t) (hr : vqsubq_s64 N M = .ok r) (i : Fin 2) :
    |(r.lane i).toInt - clamp (-9223372036854775808) 9223372036854775807 ((N.lane i).toInt - (M.lane i).toInt)| ≤ 3072 := by
  classical
  choose v hv using fun i => doubleDiff_exists (N.lane i).toInt (M.lane i).toInt (vqsubq_s64_bnd (N.lane i)) (vqsubq_s64_bnd (M.lane i))
  choose n hn using fun i => exists_isTrunc (v i)
  rw [vqsubq_s64_eval N M v n fun i => ⟨hv i, hn i⟩] at hr
  split at hr
  · injection hr with hr
    subst hr
    have e := doubleDiff_error (vqsubq_s64_bnd (N.lane i)) (vqsubq_s64_bnd (M.lane i)) (.inr ⟨by have := toInt64 (N.lane i); rw [abs_le]; omega, by have := toInt64 (M.lane i); rw [abs_le]; omega⟩) (hv i)
    have hn1 := (isTrunc_bounds (hn i)).1
    have hlt : |((n i - ((N.lane i).toInt - (M.lane i).toInt) : ℤ) : ℚ)| < ((3073 : ℤ) : ℚ) := by
      push_cast at e ⊢
      rw [abs_le] at e
      rw [_root_.abs_lt] at hn1 ⊢
      constructor <;> linarith
    rw [← Int.cast_abs, Int.cast_lt] at hlt
    have := ssat_toInt (n i)
    show |(ssat 64 (n i)).toInt - _| ≤ _
    rw [this]
    unfold clamp
    generalize n i = m at *
    generalize (N.lane i).toInt = p at *
    generalize (M.lane i).toInt = q at *
    rw [_root_.abs_lt] at hlt
    rw [abs_le]
    omega
  · cases hr

/-- Above `2^53` the low bits are lost: `2^53 + 1 - 0` gives `2^53`. -/
theorem vqsubq_s64_wrong : vqsubq_s64 ⟨fun _ => 9007199254740993#64⟩ ⟨fun _ => 0#64⟩ = .ok ⟨fun _ => 9007199254740992#64⟩ := by
  rw [vqsubq_s64_exact _ _ (fun _ => ((9007199254740992 : ℤ) : ℚ)) (fun _ => 9007199254740992) fun i =>
    ⟨?_, isTrunc_int _, by norm_num⟩]
  · rw [ssat_mid (by norm_num) (by norm_num)]
    rfl
  · exact doubleDiff_eval (s := false) 0x4340000000000000 (by
      show subBits ((9007199254740993#64 : BitVec 64).toInt) ((0#64 : BitVec 64).toInt) = _
      decide +kernel) (by
      rw [decode_normal64 (by decide) (by decide), show expField .b64 0x4340000000000000 = 1076 by decide,
        show fracField .b64 0x4340000000000000 = 0 by decide,
        show signField .b64 0x4340000000000000 = false by decide]
      simp only [withSign]; norm_num)

example : vqsubq_s64 ⟨fun _ => 9223372036854775807#64⟩ ⟨fun _ => 0#64⟩ = .ub .floatToInt :=
  vqsubq_s64_ub _ _ ⟨0, doubleDiff_eval 0x43e0000000000000 (by decide +kernel) decode_43e0⟩
example : vqsubq_s64 ⟨fun _ => 7#64⟩ ⟨fun _ => 5#64⟩ = .ok ⟨fun _ => 2#64⟩ := by
  rw [vqsubq_s64_partial _ _ fun i => by
    show ((7#64 : BitVec 64).toInt).natAbs ≤ 2 ^ 53 ∧ ((5#64 : BitVec 64).toInt).natAbs ≤ 2 ^ 53 ∧ ((7#64 : BitVec 64).toInt - (5#64 : BitVec 64).toInt).natAbs ≤ 2 ^ 53
    decide]
  simp only [show (7#64 : BitVec 64).toInt - (5#64 : BitVec 64).toInt = 2 by decide]
  rw [ssat_mid (by norm_num) (by norm_num)]
  rfl
example : ∃ r, vqsubq_s64 ⟨fun _ => 7#64⟩ ⟨fun _ => 5#64⟩ = .ok r ∧ ((7#64 : BitVec 64).toInt ≥ (5#64 : BitVec 64).toInt) :=
  ⟨_, vqsubq_s64_partial _ _ (fun i => by
    show ((7#64 : BitVec 64).toInt).natAbs ≤ 2 ^ 53 ∧ ((5#64 : BitVec 64).toInt).natAbs ≤ 2 ^ 53 ∧ ((7#64 : BitVec 64).toInt - (5#64 : BitVec 64).toInt).natAbs ≤ 2 ^ 53
    decide), by decide⟩

/-! ## `vqsub_u64` -/

theorem vqsub_u64_eval (N M : uint64x1_t) (v : Fin 1 → ℚ) (n : Fin 1 → ℤ)
    (h : ∀ i, DoubleDiff ((N.lane i).toNat : ℤ) ((M.lane i).toNat : ℤ) (v i) ∧ IsTrunc (v i) (n i)) [DecidablePred fun i => v i ≠ 2 ^ 64] :
    vqsub_u64 N M = if ∀ i, v i ≠ 2 ^ 64 then .ok ⟨fun i => usat 64 (n i)⟩ else .ub .floatToInt := by
  unfold vqsub_u64
  refine fill_if (e := Elem.u64) (by rfl) (fun i => usat 64 (n i)) (fun i => v i ≠ 2 ^ 64) .floatToInt fun i D => ?_
  obtain ⟨h1, h2⟩ := h i
  simp -implicitDefEqProofs only [cast_hi_u64, Vec.get_fin, ofBits_u64]
  generalize ((N.lane i).toNat : ℤ) = x at h1 ⊢
  generalize ((M.lane i).toNat : ℤ) = y at h1 ⊢
  csim_slow
  have := qsub_body_u64 h1 h2 (fun b => C.ok (D.put i b))
  rw [nat64 (ofInt_lt x), nat64 (ofInt_lt y)]
  simp only [bind_ok]
  unfold subBits at this
  rewrite [this]
  by_cases hv : v i ≠ 2 ^ 64
  · rewrite [if_pos hv, if_pos hv]
    rfl
  · rewrite [if_neg hv, if_neg hv]
    rfl

/-- `vqsub_u64` for all operands: the double-precision difference, truncated and saturated, unless that
difference is exactly `2^64`. -/
theorem vqsub_u64_exact (N M : uint64x1_t) (v : Fin 1 → ℚ) (n : Fin 1 → ℤ)
    (h : ∀ i, DoubleDiff ((N.lane i).toNat : ℤ) ((M.lane i).toNat : ℤ) (v i) ∧ IsTrunc (v i) (n i) ∧ v i ≠ 2 ^ 64) :
    vqsub_u64 N M = .ok ⟨fun i => usat 64 (n i)⟩ := by
  classical
  rw [vqsub_u64_eval N M v n fun i => ⟨(h i).1, (h i).2.1⟩, if_pos fun i => (h i).2.2]

theorem vqsub_u64_bnd (a : BitVec 64) : |(a.toNat : ℤ)| ≤ 2 ^ 64 := by
  have h1 := a.isLt
  rw [abs_le]
  omega

/-- If the double-precision difference of some lane is exactly `2^64`, `vqsub_u64` has undefined behaviour. -/
theorem vqsub_u64_ub (N M : uint64x1_t) (h : ∃ i, DoubleDiff ((N.lane i).toNat : ℤ) ((M.lane i).toNat : ℤ) (2 ^ 64)) :
    vqsub_u64 N M = .ub .floatToInt := by
  classical
  choose v hv using fun i => doubleDiff_exists ((N.lane i).toNat : ℤ) ((M.lane i).toNat : ℤ) (vqsub_u64_bnd (N.lane i)) (vqsub_u64_bnd (M.lane i))
  choose n hn using fun i => exists_isTrunc (v i)
  rw [vqsub_u64_eval N M v n fun i => ⟨hv i, hn i⟩, if_neg]
  intro hall
  obtain ⟨i, hi⟩ := h
  exact hall i ((hv i).unique hi)

/-- `vqsub_u64` is the saturated difference while the operands and the differences are at most `2^53`.
Missing for the full claim: other operands, where the result is inexact (`vqsub_u64_wrong`) or undefined
(`vqsub_u64_ub`). -/
theorem vqsub_u64_partial (N M : uint64x1_t)
    (h : ∀ i, ((N.lane i).toNat : ℤ).natAbs ≤ 2 ^ 53 ∧ ((M.lane i).toNat : ℤ).natAbs ≤ 2 ^ 53 ∧ (((N.lane i).toNat : ℤ) - ((M.lane i).toNat : ℤ)).natAbs ≤ 2 ^ 53) :
    vqsub_u64 N M = .ok ⟨fun i => usat 64 (((N.lane i).toNat : ℤ) - ((M.lane i).toNat : ℤ))⟩ := by
  refine vqsub_u64_exact N M (fun i => ((((N.lane i).toNat : ℤ) - ((M.lane i).toNat : ℤ) : ℤ) : ℚ)) _ fun i => ⟨?_, isTrunc_int _, ?_⟩
  · exact doubleDiff_exact (h i).1 (h i).2.1 (h i).2.2
  · intro hc
    have : ((N.lane i).toNat : ℤ) - ((M.lane i).toNat : ℤ) = 2 ^ 64 := by exact_mod_cast hc
    have := (h i).2.2
    omega

/-- Equal operands always give zero. -/
theorem vqsub_u64_self (N : uint64x1_t) : vqsub_u64 N N = .ok ⟨fun _ => 0#64⟩ := by
  rw [vqsub_u64_exact N N (fun _ => 0) (fun _ => 0) fun i =>
    ⟨doubleDiff_self _ (vqsub_u64_bnd _), by simpa using isTrunc_int 0, by norm_num⟩]
  rw [usat_mid (by norm_num) (by norm_num)]
  rfl

/-- Where no lane of the minuend exceeds the subtrahend, the result is zero, for all operands. -/
theorem vqsub_u64_zero (N M : uint64x1_t) (h : ∀ i, (N.lane i).toNat ≤ (M.lane i).toNat) :
    vqsub_u64 N M = .ok ⟨fun _ => 0#64⟩ := by
  choose v hv using fun i => doubleDiff_exists ((N.lane i).toNat : ℤ) ((M.lane i).toNat : ℤ) (vqsub_u64_bnd (N.lane i)) (vqsub_u64_bnd (M.lane i))
  choose n hn using fun i => exists_isTrunc (v i)
  have h1 (i : Fin 1) : v i ≤ 0 :=
    doubleDiff_nonpos (vqsub_u64_bnd _) (vqsub_u64_bnd _) (by exact_mod_cast h i) (hv i)
  rw [vqsub_u64_exact N M v n fun i => ⟨hv i, hn i, ne_of_lt (lt_of_le_of_lt (h1 i) (by norm_num))⟩]
  congr 2
  funext i
  have h2 := (isTrunc_bounds (hn i)).2.2 (h1 i)
  apply BitVec.eq_of_toNat_eq
  have := usat_toNat (n i)
  unfold clamp at this
  simp only [BitVec.toNat_ofNat]
  omega

/-- Wherever `vqsub_u64` has a result, it is at most `3072` away from the saturated difference. -/
theorem vqsub_u64_error (N M r : uint64x1_t) (hr : vqsub_u64 N M = .ok r) (i : Fin 1) :
    |((r.lane i).toNat : ℤ) - clamp 0 18446744073709551615 ((N.lane i).toNat - (M.lane i).toNat)| ≤ 3072 := by
  classical
  choose v hv using fun i => doubleDiff_exists ((N.lane i).toNat : ℤ) ((M.lane i).toNat : ℤ) (vqsub_u64_bnd (N.lane i)) (vqsub_u64_bnd (M.lane i))
  choose n hn using fun i => exists_isTrunc (v i)
  rw [vqsub_u64_eval N M v n fun i => ⟨hv i, hn i⟩] at hr
  split at hr
  · injection hr with hr
    subst hr
    have e := doubleDiff_error (vqsub_u64_bnd (N.lane i)) (vqsub_u64_bnd (M.lane i)) (.inl ⟨by omega, by omega⟩) (hv i)
    have hn1 := (isTrunc_bounds (hn i)).1
    have hlt : |((n i - (((N.lane i).toNat : ℤ) - ((M.lane i).toNat : ℤ)) : ℤ) : ℚ)| < ((3073 : ℤ) : ℚ) := by
      push_cast at e ⊢
      rw [abs_le] at e
      rw [_root_.abs_lt] at hn1 ⊢
      constructor <;> linarith
    rw [← Int.cast_abs, Int.cast_lt] at hlt
    have := usat_toNat (n i)
    show |((usat 64 (n i)).toNat : ℤ) - _| ≤ _
    rw [this]
    unfold clamp
    generalize n i = m at *
    generalize ((N.lane i).toNat : ℤ) = p at *
    generalize ((M.lane i).toNat : ℤ) = q at *
    rw [_root_.abs_lt] at hlt
    rw [abs_le]
    omega
  · cases hr

/-- Above `2^53` the low bits are lost: `2^53 + 1 - 0` gives `2^53`. -/
theorem vqsub_u64_wrong : vqsub_u64 ⟨fun _ => 9007199254740993#64⟩ ⟨fun _ => 0#64⟩ = .ok ⟨fun _ => 9007199254740992#64⟩ := by
  rw [vqsub_u64_exact _ _ (fun _ => ((9007199254740992 : ℤ) : ℚ)) (fun _ => 9007199254740992) fun i =>
    ⟨?_, isTrunc_int _, by norm_num⟩]
  · rw [usat_mid (by norm_num) (by norm_num)]
    rfl
  · exact doubleDiff_eval (s := false) 0x4340000000000000 (by
      show subBits (((9007199254740993#64 : BitVec 64).toNat : ℤ)) (((0#64 : BitVec 64).toNat : ℤ)) = _
      decide +kernel) (by
      rw [decode_normal64 (by decide) (by decide), show expField .b64 0x4340000000000000 = 1076 by decide,
        show fracField .b64 0x4340000000000000 = 0 by decide,
        show signField .b64 0x4340000000000000 = false by decide]
      simp only [withSign]; norm_num)

example : vqsub_u64 ⟨fun _ => 18446744073709551615#64⟩ ⟨fun _ => 0#64⟩ = .ub .floatToInt :=
  vqsub_u64_ub _ _ ⟨0, doubleDiff_eval 0x43f0000000000000 (by decide +kernel) decode_43f0⟩
example : vqsub_u64 ⟨fun _ => 7#64⟩ ⟨fun _ => 5#64⟩ = .ok ⟨fun _ => 2#64⟩ := by
  rw [vqsub_u64_partial _ _ fun i => by
    show (((7#64 : BitVec 64).toNat : ℤ)).natAbs ≤ 2 ^ 53 ∧ (((5#64 : BitVec 64).toNat : ℤ)).natAbs ≤ 2 ^ 53 ∧ (((7#64 : BitVec 64).toNat : ℤ) - ((5#64 : BitVec 64).toNat : ℤ)).natAbs ≤ 2 ^ 53
    decide]
  simp only [show ((7#64 : BitVec 64).toNat : ℤ) - ((5#64 : BitVec 64).toNat : ℤ) = 2 by decide]
  rw [usat_mid (by norm_num) (by norm_num)]
  rfl
example : ∃ r, vqsub_u64 ⟨fun _ => 7#64⟩ ⟨fun _ => 5#64⟩ = .ok r ∧ ((7#64 : BitVec 64).toInt ≥ (5#64 : BitVec 64).toInt) :=
  ⟨_, vqsub_u64_partial _ _ (fun i => by
    show (((7#64 : BitVec 64).toNat : ℤ)).natAbs ≤ 2 ^ 53 ∧ (((5#64 : BitVec 64).toNat : ℤ)).natAbs ≤ 2 ^ 53 ∧ (((7#64 : BitVec 64).toNat : ℤ) - ((5#64 : BitVec 64).toNat : ℤ)).natAbs ≤ 2 ^ 53
    decide), by decide⟩

/-! ## `vqsubq_u64` -/

theorem vqsubq_u64_eval (N M : uint64x2_t) (v : Fin 2 → ℚ) (n : Fin 2 → ℤ)
    (h : ∀ i, DoubleDiff ((N.lane i).toNat : ℤ) ((M.lane i).toNat : ℤ) (v i) ∧ IsTrunc (v i) (n i)) [DecidablePred fun i => v i ≠ 2 ^ 64] :
    vqsubq_u64 N M = if ∀ i, v i ≠ 2 ^ 64 then .ok ⟨fun i => usat 64 (n i)⟩ else .ub .floatToInt := by
  unfold vqsubq_u64
  refine fill_if (e := Elem.u64) (by rfl) (fun i => usat 64 (n i)) (fun i => v i ≠ 2 ^ 64) .floatToInt fun i D => ?_
  obtain ⟨h1, h2⟩ := h i
  simp -implicitDefEqProofs only [cast_hi_u64, Vec.get_fin, ofBits_u64]
  generalize ((N.lane i).toNat : ℤ) = x at h1 ⊢
  generalize ((M.lane i).toNat : ℤ) = y at h1 ⊢
  csim_slow
  have := qsub_body_u64 h1 h2 (fun b => C.ok (D.put i b))
  rw [nat64 (ofInt_lt x), nat64 (ofInt_lt y)]
  simp only [bind_ok]
  unfold subBits at this
  rewrite [this]
  by_cases hv : v i ≠ 2 ^ 64
  · rewrite [if_pos hv, if_pos hv]
    rfl
  · rewrite [if_neg hv, if_neg hv]
    rfl

/-- `vqsubq_u64` for all operands: the double-precision difference, truncated and saturated, unless that
difference is exactly `2^64`. -/
theorem vqsubq_u64_exact (N M : uint64x2_t) (v : Fin 2 → ℚ) (n : Fin 2 → ℤ)
    (h : ∀ i, DoubleDiff ((N.lane i).toNat : ℤ) ((M.lane i).toNat : ℤ) (v i) ∧ IsTrunc (v i) (n i) ∧ v i ≠ 2 ^ 64) :
    vqsubq_u64 N M = .ok ⟨fun i => usat 64 (n i)⟩ := by
  classical
  rw [vqsubq_u64_eval N M v n fun i => ⟨(h i).1, (h i).2.1⟩, if_pos fun i => (h i).2.2]

theorem vqsubq_u64_bnd (a : BitVec 64) : |(a.toNat : ℤ)| ≤ 2 ^ 64 := by
  have h1 := a.isLt
  rw [abs_le]
  omega

/-- If the double-precision difference of some lane is exactly `2^64`, `vqsubq_u64` has undefined behaviour. -/
theorem vqsubq_u64_ub (N M : uint64x2_t) (h : ∃ i, DoubleDiff ((N.lane i).toNat : ℤ) ((M.lane i).toNat : ℤ) (2 ^ 64)) :
    vqsubq_u64 N M = .ub .floatToInt := by
  classical
  choose v hv using fun i => doubleDiff_exists ((N.lane i).toNat : ℤ) ((M.lane i).toNat : ℤ) (vqsubq_u64_bnd (N.lane i)) (vqsubq_u64_bnd (M.lane i))
  choose n hn using fun i => exists_isTrunc (v i)
  rw [vqsubq_u64_eval N M v n fun i => ⟨hv i, hn i⟩, if_neg]
  intro hall
  obtain ⟨i, hi⟩ := h
  exact hall i ((hv i).unique hi)

/-- `vqsubq_u64` is the saturated difference while the operands and the differences are at most `2^53`.
Missing for the full claim: other operands, where the result is inexact (`vqsubq_u64_wrong`) or undefined
(`vqsubq_u64_ub`). -/
theorem vqsubq_u64_partial (N M : uint64x2_t)
    (h : ∀ i, ((N.lane i).toNat : ℤ).natAbs ≤ 2 ^ 53 ∧ ((M.lane i).toNat : ℤ).natAbs ≤ 2 ^ 53 ∧ (((N.lane i).toNat : ℤ) - ((M.lane i).toNat : ℤ)).natAbs ≤ 2 ^ 53) :
    vqsubq_u64 N M = .ok ⟨fun i => usat 64 (((N.lane i).toNat : ℤ) - ((M.lane i).toNat : ℤ))⟩ := by
  refine vqsubq_u64_exact N M (fun i => ((((N.lane i).toNat : ℤ) - ((M.lane i).toNat : ℤ) : ℤ) : ℚ)) _ fun i => ⟨?_, isTrunc_int _, ?_⟩
  · exact doubleDiff_exact (h i).1 (h i).2.1 (h i).2.2
  · intro hc
    have : ((N.lane i).toNat : ℤ) - ((M.lane i).toNat : ℤ) = 2 ^ 64 := by exact_mod_cast hc
    have := (h i).2.2
    omega

/-- Equal operands always give zero. -/
theorem vqsubq_u64_self (N : uint64x2_t) : vqsubq_u64 N N = .ok ⟨fun _ => 0#64⟩ := by
  rw [vqsubq_u64_exact N N (fun _ => 0) (fun _ => 0) fun i =>
    ⟨doubleDiff_self _ (vqsubq_u64_bnd _), by simpa using isTrunc_int 0, by norm_num⟩]
  rw [usat_mid (by norm_num) (by norm_num)]
  rfl

/-- Where no lane of the minuend exceeds the subtrahend, the result is zero, for all operands. -/
theorem vqsubq_u64_zero (N M : uint64x2_t) (h : ∀ i, (N.lane i).toNat ≤ (M.lane i).toNat) :
    vqsubq_u64 N M = .ok ⟨fun _ => 0#64⟩ := by
  choose v hv using fun i => doubleDiff_exists ((N.lane i).toNat : ℤ) ((M.lane i).toNat : ℤ) (vqsubq_u64_bnd (N.lane i)) (vqsubq_u64_bnd (M.lane i))
  choose n hn using fun i => exists_isTrunc (v i)
  have h1 (i : Fin 2) : v i ≤ 0 :=
    doubleDiff_nonpos (vqsubq_u64_bnd _) (vqsubq_u64_bnd _) (by exact_mod_cast h i) (hv i)
  rw [vqsubq_u64_exact N M v n fun i => ⟨hv i, hn i, ne_of_lt (lt_of_le_of_lt (h1 i) (by norm_num))⟩]
  congr 2
  funext i
  have h2 := (isTrunc_bounds (hn i)).2.2 (h1 i)
  apply BitVec.eq_of_toNat_eq
  have := usat_toNat (n i)
  unfold clamp at this
  simp only [BitVec.toNat_ofNat]
  omega

/-- Wherever `vqsubq_u64` has a result, it is at most `3072` away from the saturated difference. -/
theorem vqsubq_u64_error (N M r : uint64x2_t) (hr : vqsubq_u64 N M = .ok r) (i : Fin 2) :
    |((r.lane i).toNat : ℤ) - clamp 0 18446744073709551615 ((N.lane i).toNat - (M.lane i).toNat)| ≤ 3072 := by
  classical
  choose v hv using fun i => doubleDiff_exists ((N.lane i).toNat : ℤ) ((M.lane i).toNat : ℤ) (vqsubq_u64_bnd (N.lane i)) (vqsubq_u64_bnd (M.lane i))
  choose n hn using fun i => exists_isTrunc (v i)
  rw [vqsubq_u64_eval N M v n fun i => ⟨hv i, hn i⟩] at hr
  split at hr
  · injection hr with hr
    subst hr
    have e := doubleDiff_error (vqsubq_u64_bnd (N.lane i)) (vqsubq_u64_bnd (M.lane i)) (.inl ⟨by omega, by omega⟩) (hv i)
    have hn1 := (isTrunc_bounds (hn i)).1
    have hlt : |((n i - (((N.lane i).toNat : ℤ) - ((M.lane i).toNat : ℤ)) : ℤ) : ℚ)| < ((3073 : ℤ) : ℚ) := by
      push_cast at e ⊢
      rw [abs_le] at e
      rw [_root_.abs_lt] at hn1 ⊢
      constructor <;> linarith
    rw [← Int.cast_abs, Int.cast_lt] at hlt
    have := usat_toNat (n i)
    show |((usat 64 (n i)).toNat : ℤ) - _| ≤ _
    rw [this]
    unfold clamp
    generalize n i = m at *
    generalize ((N.lane i).toNat : ℤ) = p at *
    generalize ((M.lane i).toNat : ℤ) = q at *
    rw [_root_.abs_lt] at hlt
    rw [abs_le]
    omega
  · cases hr

/-- Above `2^53` the low bits are lost: `2^53 + 1 - 0` gives `2^53`. -/
theorem vqsubq_u64_wrong : vqsubq_u64 ⟨fun _ => 9007199254740993#64⟩ ⟨fun _ => 0#64⟩ = .ok ⟨fun _ => 9007199254740992#64⟩ := by
  rw [vqsubq_u64_exact _ _ (fun _ => ((9007199254740992 : ℤ) : ℚ)) (fun _ => 9007199254740992) fun i =>
    ⟨?_, isTrunc_int _, by norm_num⟩]
  · rw [usat_mid (by norm_num) (by norm_num)]
    rfl
  · exact doubleDiff_eval (s := false) 0x4340000000000000 (by
      show subBits (((9007199254740993#64 : BitVec 64).toNat : ℤ)) (((0#64 : BitVec 64).toNat : ℤ)) = _
      decide +kernel) (by
      rw [decode_normal64 (by decide) (by decide), show expField .b64 0x4340000000000000 = 1076 by decide,
        show fracField .b64 0x4340000000000000 = 0 by decide,
        show signField .b64 0x4340000000000000 = false by decide]
      simp only [withSign]; norm_num)

example : vqsubq_u64 ⟨fun _ => 18446744073709551615#64⟩ ⟨fun _ => 0#64⟩ = .ub .floatToInt :=
  vqsubq_u64_ub _ _ ⟨0, doubleDiff_eval 0x43f0000000000000 (by decide +kernel) decode_43f0⟩
example : vqsubq_u64 ⟨fun _ => 7#64⟩ ⟨fun _ => 5#64⟩ = .ok ⟨fun _ => 2#64⟩ := by
  rw [vqsubq_u64_partial _ _ fun i => by
    show (((7#64 : BitVec 64).toNat : ℤ)).natAbs ≤ 2 ^ 53 ∧ (((5#64 : BitVec 64).toNat : ℤ)).natAbs ≤ 2 ^ 53 ∧ (((7#64 : BitVec 64).toNat : ℤ) - ((5#64 : BitVec 64).toNat : ℤ)).natAbs ≤ 2 ^ 53
    decide]
  simp only [show ((7#64 : BitVec 64).toNat : ℤ) - ((5#64 : BitVec 64).toNat : ℤ) = 2 by decide]
  rw [usat_mid (by norm_num) (by norm_num)]
  rfl
example : ∃ r, vqsubq_u64 ⟨fun _ => 7#64⟩ ⟨fun _ => 5#64⟩ = .ok r ∧ ((7#64 : BitVec 64).toInt ≥ (5#64 : BitVec 64).toInt) :=
  ⟨_, vqsubq_u64_partial _ _ (fun i => by
    show (((7#64 : BitVec 64).toNat : ℤ)).natAbs ≤ 2 ^ 53 ∧ (((5#64 : BitVec 64).toNat : ℤ)).natAbs ≤ 2 ^ 53 ∧ (((7#64 : BitVec 64).toNat : ℤ) - ((5#64 : BitVec 64).toNat : ℤ)).natAbs ≤ 2 ^ 53
    decide), by decide⟩

end Verif.Props
