import Verif.Props.Float
import Verif.FpStep
import Verif.Model.Recip
import Verif.Model.Perm

/-!
# Reciprocal estimate and Newton-Raphson step (C56, C57, C66, C67)

Normal lanes are estimated within `2^-8` and refined quadratically.  Zeros, infinities and NaNs are not
treated specially by the code: the theorems say what it returns instead.
-/

namespace Verif.Props
open Verif.Model Verif.Spec Verif.FpOps
set_option linter.unusedSectionVars false
variable [Dialect]

/-! ## Steps of the computation, in natural numbers -/

/-- A `uint32_t` value. -/
abbrev U (x : Nat) : Val := .int .u32 (x : Int)

theorem ofInt_nat32 (n : Nat) : BitVec.ofInt 32 (n : Int) = BitVec.ofNat 32 n := by
  apply BitVec.eq_of_toNat_eq
  simp

theorem ok_U {x y : Nat} (h : x = y) : C.ok (U x) = C.ok (U y) := by rw [h]

theorem and_mask (x k : Nat) (v : Int) (hv : v = ((2 ^ k - 1 : Nat) : Int)) (hk : k ≤ 24) (hx : x < 2 ^ 32) :
    Val.and (U x) (vint v) = .ok (U (x % 2 ^ k)) := by
  subst hv
  show C.ok (U (BitVec.ofInt 32 (x : Int) &&& BitVec.ofInt 32 ((2 ^ k - 1 : Nat) : Int)).toNat) = _
  apply ok_U
  have : 2 ^ k ≤ 2 ^ 24 := Nat.pow_le_pow_right (by decide) hk
  rw [ofInt_nat32, ofInt_nat32, BitVec.toNat_and, BitVec.toNat_ofNat, BitVec.toNat_ofNat,
    Nat.mod_eq_of_lt hx, Nat.mod_eq_of_lt (by omega), Nat.and_two_pow_sub_one_eq_mod]

theorem or_toNat (x y k : Nat) (hx : x < 2 ^ 32) (hy : y < 2 ^ 32) (hd : x % 2 ^ k = 0) (hl : y < 2 ^ k) :
    (BitVec.ofInt 32 (x : Int) ||| BitVec.ofInt 32 (y : Int)).toNat = x + y := by
  rw [ofInt_nat32, ofInt_nat32, BitVec.toNat_or, BitVec.toNat_ofNat, BitVec.toNat_ofNat, Nat.mod_eq_of_lt hx,
    Nat.mod_eq_of_lt hy]
  obtain ⟨q, rfl⟩ := Nat.dvd_of_mod_eq_zero hd
  rw [Nat.two_pow_add_eq_or_of_lt hl]

theorem or_U (x y k : Nat) (hx : x < 2 ^ 32) (hy : y < 2 ^ 32) (hd : x % 2 ^ k = 0) (hl : y < 2 ^ k) :
    Val.or (U x) (U y) = .ok (U (x + y)) := by
  show C.ok (U (BitVec.ofInt 32 (x : Int) ||| BitVec.ofInt 32 (y : Int)).toNat) = _
  exact ok_U (or_toNat x y k hx hy hd hl)

theorem or_swap (x y k : Nat) (hx : x < 2 ^ 32) (hy : y < 2 ^ 32) (hd : y % 2 ^ k = 0) (hl : x < 2 ^ k) :
    Val.or (U x) (U y) = .ok (U (y + x)) := by
  show C.ok (U (BitVec.ofInt 32 (x : Int) ||| BitVec.ofInt 32 (y : Int)).toNat) = _
  rw [BitVec.or_comm]
  exact ok_U (or_toNat y x k hy hx hd hl)

theorem or_256 (y : Nat) (hy : y < 256) : Val.or (vint 0x100) (U y) = .ok (U (256 + y)) := by
  show C.ok (U (BitVec.ofInt 32 ((256 : Nat) : Int) ||| BitVec.ofInt 32 (y : Int)).toNat) = _
  exact ok_U (or_toNat 256 y 8 (by decide) (by omega) (by decide) hy)

theorem shr_U (x k : Nat) (hk : k < 32) : Val.shr (U x) (vint (k : Int)) = .ok (U (x / 2 ^ k)) := by
  refine (if_pos ⟨Int.natCast_nonneg k, by show (k : Int) < (32 : Nat); omega⟩).trans ?_
  show C.ok (Val.int .u32 ((x : Int) / 2 ^ ((k : Int).toNat))) = _
  rw [Int.toNat_natCast]
  congr 2

theorem shl_U (x k : Nat) (hk : k < 32) (h : x * 2 ^ k < 2 ^ 32) :
    Val.shl (U x) (vint (k : Int)) = .ok (U (x * 2 ^ k)) := by
  refine (shl_u32_i32 (x : Int) ⟨Int.natCast_nonneg k, by omega⟩).trans ?_
  rw [Int.toNat_natCast]
  congr 2
  have : ((x * 2 ^ k : Nat) : Int) = (x : Int) * 2 ^ k := by simp
  rw [← this]
  omega

theorem sub_U (c x : Nat) (_ : c < 2 ^ 32) (hx : x < 2 ^ 32) :
    Val.sub (vint (c : Int)) (U x) = .ok (U ((c + (2 ^ 32 - x)) % 2 ^ 32)) := by
  rw [sub_i32_u32, mkInt_u32]
  congr 2
  omega

theorem add_U (x c : Nat) (h : x + c < 2 ^ 32) : Val.add (U x) (vint (c : Int)) = .ok (U (x + c)) := by
  rw [add_u32_i32, mkInt_u32]
  congr 2
  omega

theorem mul_U (x c : Nat) (h : x * c < 2 ^ 32) (hc : c < 2 ^ 32) :
    Val.mul (U x) (vint (c : Int)) = .ok (U (x * c)) := by
  rw [mul_u32_i32, mkInt_u32]
  congr 2
  rw [umod32 (v := (c : Int)) (by omega)]
  have : ((x * c : Nat) : Int) = (x : Int) * c := by simp
  rw [← this]
  omega

theorem cast_U (x : Nat) : Val.cast (.int .u32) (U x) = .ok (U x) := rfl

theorem div_U (x y : Nat) (hx : x < 2 ^ 32) (hy : 0 < y) :
    (if (y : Int) = 0 then C.ub .divByZero else mkQuot .u32 (Int.tdiv (x : Int) (y : Int)) (Int.tdiv (x : Int) (y : Int))) = .ok (U (x / y)) := by
  rw [if_neg (by omega)]
  have h1 : Int.tdiv (x : Int) (y : Int) = ((x / y : Nat) : Int) := by simp
  rw [h1]
  have : x / y ≤ x := Nat.div_le_self x y
  generalize x / y = q at *
  exact if_pos (show (0 : Int) ≤ q ∧ (q : Int) ≤ 4294967295 by omega)

theorem div_iU (c y : Nat) (hc : c < 2 ^ 32) (hy : 0 < y) : Val.div (vint (c : Int)) (U y) = .ok (U (c / y)) := by
  rw [← div_U c y hc hy]
  show (if (y : Int) = 0 then C.ub .divByZero else mkQuot .u32 (Int.tdiv ((c : Int) % 4294967296) (y : Int)) (Int.tdiv ((c : Int) % 4294967296) (y : Int))) = _
  rw [umod32 (v := (c : Int)) (by omega)]

theorem div_Ui (x c : Nat) (hx : x < 2 ^ 32) (hc : c < 2 ^ 32) (hy : 0 < c) :
    Val.div (U x) (vint (c : Int)) = .ok (U (x / c)) := by
  rw [← div_U x c hx hy]
  show (if (c : Int) % 4294967296 = 0 then C.ub .divByZero else mkQuot .u32 (Int.tdiv (x : Int) ((c : Int) % 4294967296)) (Int.tdiv (x : Int) ((c : Int) % 4294967296))) = _
  rw [umod32 (v := (c : Int)) (by omega)]

theorem shl_one_19 : Val.shl (vint 1) (vint 19) = .ok (vint ((524288 : Nat) : Int)) :=
  if_neg (c := _ ∧ _ ∧ _) fun h => absurd h.2.2 (by decide)
theorem shl_one_23 : Val.shl (vint 1) (vint 23) = .ok (vint 8388608) :=
  if_neg (c := _ ∧ _ ∧ _) fun h => absurd h.2.2 (by decide)
theorem sub_23 : Val.sub (vint 8388608) (vint 1) = .ok (vint 8388607) := rfl

/-- What `RecipEstimate` computes. -/
def est (a : Nat) : Nat := (524288 / (a * 2 + 1) + 1) / 2

theorem RecipEstimate_eval (a : Nat) (h : a < 1024) : RecipEstimate (U a) = .ok (U (est a)) := by
  unfold RecipEstimate
  have hd : 524288 / (a * 2 + 1) ≤ 524288 := Nat.div_le_self _ _
  have e1 : Val.mul (U a) (vint 2) = .ok (U (a * 2)) := mul_U a 2 (by omega) (by decide)
  have e2 : Val.add (U (a * 2)) (vint 1) = .ok (U (a * 2 + 1)) := add_U _ 1 (by omega)
  have e3 : Val.div (vint ((524288 : Nat) : Int)) (U (a * 2 + 1)) = .ok (U (524288 / (a * 2 + 1))) :=
    div_iU _ _ (by decide) (by omega)
  generalize hq : 524288 / (a * 2 + 1) = q at *
  have e4 : Val.add (U q) (vint 1) = .ok (U (q + 1)) := add_U _ 1 (by omega)
  have e5 : Val.div (U (q + 1)) (vint 2) = .ok (U ((q + 1) / 2)) := div_Ui _ 2 (by omega) (by decide) (by decide)
  unfold est
  rw [hq]
  simp -implicitDefEqProofs only [shl_one_19, e1, e2, e3, e4, e5, cast_U, ok_bind]

/-- The pattern `FPRecipEstimate` computes from the pattern `n`. -/
def recipBits (n : Nat) : Nat :=
  n / 2 ^ 31 * 2 ^ 31 + (509 - n / 2 ^ 23 % 256) % 256 * 2 ^ 23 + est (256 + n / 2 ^ 15 % 256) % 256 * 2 ^ 15

theorem ofFloat_eval (b : BitVec 32) : float_parts.ofFloat b =
    .ok ⟨U (b.toNat / 2 ^ 31), U (b.toNat % 2 ^ 23), U (b.toNat / 2 ^ 23 % 2 ^ 8)⟩ := by
  unfold float_parts.ofFloat
  have hb : b.toNat < 2 ^ 32 := b.isLt
  have e1 : Val.shr (U b.toNat) (vint 31) = .ok (U (b.toNat / 2 ^ 31)) := shr_U _ 31 (by decide)
  have e2 : Val.and (U (b.toNat / 2 ^ 31)) (vint 0x1) = .ok (U (b.toNat / 2 ^ 31 % 2 ^ 1)) :=
    and_mask _ 1 _ (by decide) (by decide) (by omega)
  have e3 : Val.and (U b.toNat) (vint 8388607) = .ok (U (b.toNat % 2 ^ 23)) :=
    and_mask _ 23 _ (by decide) (by decide) hb
  have e4 : Val.shr (U b.toNat) (vint 23) = .ok (U (b.toNat / 2 ^ 23)) := shr_U _ 23 (by decide)
  have e5 : Val.and (U (b.toNat / 2 ^ 23)) (vint 0xff) = .ok (U (b.toNat / 2 ^ 23 % 2 ^ 8)) :=
    and_mask _ 8 _ (by decide) (by decide) (by omega)
  have e6 : b.toNat / 2 ^ 31 % 2 ^ 1 = b.toNat / 2 ^ 31 := by omega
  rw [e6] at e2
  simp -implicitDefEqProofs only [e1, e2, e3, e4, e5, shl_one_23, sub_23, cast_U, ok_bind, pure_eq]

theorem toFloat_eval (s e f : Nat) (hs : s < 2) (he : e < 2 ^ 32) (hf : f < 2 ^ 23) :
    float_parts.toFloat ⟨U s, U f, U e⟩ = .ok (BitVec.ofNat 32 (s * 2 ^ 31 + e % 256 * 2 ^ 23 + f)) := by
  unfold float_parts.toFloat
  have e1 : Val.and (U s) (vint 0x1) = .ok (U (s % 2 ^ 1)) := and_mask _ 1 _ (by decide) (by decide) (by omega)
  have e2 : Val.shl (U (s % 2 ^ 1)) (vint 31) = .ok (U (s % 2 ^ 1 * 2 ^ 31)) := shl_U _ 31 (by decide) (by omega)
  have e3 : Val.and (U f) (vint 8388607) = .ok (U (f % 2 ^ 23)) := and_mask _ 23 _ (by decide) (by decide) (by omega)
  rw [show f % 2 ^ 23 = f by omega] at e3
  rw [show s % 2 ^ 1 = s by omega] at e1 e2
  have e4 : Val.or (U (s * 2 ^ 31)) (U f) = .ok (U (s * 2 ^ 31 + f)) :=
    or_U _ _ 23 (by omega) (by omega) (by omega) hf
  have e5 : Val.and (U e) (vint 0xff) = .ok (U (e % 2 ^ 8)) := and_mask _ 8 _ (by decide) (by decide) he
  have e6 : Val.shl (U (e % 2 ^ 8)) (vint 23) = .ok (U (e % 2 ^ 8 * 2 ^ 23)) := shl_U _ 23 (by decide) (by omega)
  have e7 : Val.or (U (s * 2 ^ 31 + f)) (U (e % 2 ^ 8 * 2 ^ 23)) = .ok (U (s * 2 ^ 31 + e % 256 * 2 ^ 23 + f)) := by
    show C.ok (U (BitVec.ofInt 32 ((s * 2 ^ 31 + f : Nat) : Int) |||
      BitVec.ofInt 32 ((e % 2 ^ 8 * 2 ^ 23 : Nat) : Int)).toNat) = _
    apply ok_U
    have h1 := or_toNat (s * 2 ^ 31) f 23 (by omega) (by omega) (by omega) hf
    have h2 := or_toNat (s * 2 ^ 31) (e % 2 ^ 8 * 2 ^ 23) 31 (by omega) (by omega) (by omega) (by omega)
    have h3 := or_toNat (s * 2 ^ 31 + e % 2 ^ 8 * 2 ^ 23) f 23 (by omega) (by omega) (by omega) hf
    have t1 : BitVec.ofInt 32 ((s * 2 ^ 31 + f : Nat) : Int) =
        BitVec.ofInt 32 ((s * 2 ^ 31 : Nat) : Int) ||| BitVec.ofInt 32 (f : Int) := by
      apply BitVec.eq_of_toNat_eq
      rw [h1, ofInt_nat32, BitVec.toNat_ofNat]
      omega
    have t2 : BitVec.ofInt 32 ((s * 2 ^ 31 + e % 2 ^ 8 * 2 ^ 23 : Nat) : Int) =
        BitVec.ofInt 32 ((s * 2 ^ 31 : Nat) : Int) ||| BitVec.ofInt 32 ((e % 2 ^ 8 * 2 ^ 23 : Nat) : Int) := by
      apply BitVec.eq_of_toNat_eq
      rw [h2, ofInt_nat32, BitVec.toNat_ofNat]
      omega
    rw [t1, BitVec.or_assoc, BitVec.or_comm (BitVec.ofInt 32 (f : Int)), ← BitVec.or_assoc, ← t2, h3,
      show (2 : Nat) ^ 8 = 256 from rfl]
  have e8 (x : Nat) : Val.toBits .u32 (U x) = .ok (BitVec.ofNat 32 x) := by
    show C.ok (BitVec.ofInt 32 (x : Int)) = _
    rw [ofInt_nat32]
  simp -implicitDefEqProofs only [e1, e2, e3, e4, e5, e6, e7, shl_one_23, sub_23, cast_U, ok_bind]
  exact e8 _

theorem FPRecipEstimate_eval (b : BitVec 32) :
    FPRecipEstimate b = .ok (BitVec.ofNat 32 (recipBits b.toNat)) := by
  unfold FPRecipEstimate
  have hb : b.toNat < 2 ^ 32 := b.isLt
  generalize hn : b.toNat = n at *
  have e0 := ofFloat_eval b
  rw [hn] at e0
  have e1 : Val.sub (vint 253) (U (n / 2 ^ 23 % 2 ^ 8)) = .ok (U ((253 + (2 ^ 32 - n / 2 ^ 23 % 2 ^ 8)) % 2 ^ 32)) :=
    sub_U 253 _ (by decide) (by omega)
  have e2 : Val.shr (U (n % 2 ^ 23)) (vint 15) = .ok (U (n % 2 ^ 23 / 2 ^ 15)) := shr_U _ 15 (by decide)
  have e3 : Val.and (U (n % 2 ^ 23 / 2 ^ 15)) (vint 0xFF) = .ok (U (n % 2 ^ 23 / 2 ^ 15 % 2 ^ 8)) :=
    and_mask _ 8 _ (by decide) (by decide) (by omega)
  rw [show n % 2 ^ 23 / 2 ^ 15 % 2 ^ 8 = n / 2 ^ 15 % 256 by omega] at e3
  have e4 := or_256 (n / 2 ^ 15 % 256) (by omega)
  have e5 := RecipEstimate_eval (256 + n / 2 ^ 15 % 256) (by omega)
  have hest : est (256 + n / 2 ^ 15 % 256) < 2 ^ 20 := by
    unfold est
    have : 524288 / ((256 + n / 2 ^ 15 % 256) * 2 + 1) ≤ 524288 := Nat.div_le_self _ _
    generalize 524288 / ((256 + n / 2 ^ 15 % 256) * 2 + 1) = q at *
    omega
  unfold recipBits
  generalize est (256 + n / 2 ^ 15 % 256) = q at *
  have e6 : Val.and (U q) (vint 0xff) = .ok (U (q % 2 ^ 8)) := and_mask _ 8 _ (by decide) (by decide) (by omega)
  have e7 : Val.shl (U (q % 2 ^ 8)) (vint 15) = .ok (U (q % 2 ^ 8 * 2 ^ 15)) := shl_U _ 15 (by decide) (by omega)
  have e8 := toFloat_eval (n / 2 ^ 31) ((253 + (2 ^ 32 - n / 2 ^ 23 % 2 ^ 8)) % 2 ^ 32) (q % 2 ^ 8 * 2 ^ 15)
    (by omega) (by omega) (by omega)
  simp -implicitDefEqProofs only [e0, e1, e2, e3, e4, e5, e6, e7, cast_U, ok_bind]
  rw [e8]
  have e9 : (253 + (2 ^ 32 - n / 2 ^ 23 % 2 ^ 8)) % 2 ^ 32 % 256 = (509 - n / 2 ^ 23 % 256) % 256 := by omega
  rw [e9, show (2 : Nat) ^ 8 = 256 from rfl]

theorem vrecpeq_f32_eval (a : float32x4_t) :
    vrecpeq_f32 a = .ok ⟨fun i => BitVec.ofNat 32 (recipBits (a.lane i).toNat)⟩ := by
  unfold vrecpeq_f32
  refine fill_ok (by rfl) _ fun i D => ?_
  have e : Val.toF32 (Val.ofBits Elem.f32 (a.lane i)) = a.lane i := rfl
  simp -implicitDefEqProofs only [Vec.get_fin, ok_bind, e, FPRecipEstimate_eval, Arr.set_fin]
  rfl

/-! ## Fields of the estimate -/

theorem recip_fields (n : Nat) (hn : n < 2 ^ 32) :
    recipBits n < 2 ^ 32 ∧ signField .b32 (recipBits n) = signField .b32 n ∧
    expField .b32 (recipBits n) = (509 - expField .b32 n) % 256 ∧
    fracField .b32 (recipBits n) = est (256 + n / 2 ^ 15 % 256) % 256 * 2 ^ 15 := by
  show _ ∧ (recipBits n).testBit 31 = n.testBit 31 ∧ recipBits n / 2 ^ 23 % 2 ^ 8 = (509 - n / 2 ^ 23 % 2 ^ 8) % 256 ∧
    recipBits n % 2 ^ 23 = _
  rw [Nat.testBit_eq_decide_div_mod_eq, Nat.testBit_eq_decide_div_mod_eq]
  unfold recipBits
  generalize est (256 + n / 2 ^ 15 % 256) = q
  have h31 : (n / 2 ^ 31 * 2 ^ 31 + (509 - n / 2 ^ 23 % 256) % 256 * 2 ^ 23 + q % 256 * 2 ^ 15) / 2 ^ 31 = n / 2 ^ 31 := by
    omega
  refine ⟨by omega, by rw [h31], by omega, by omega⟩

/-- The table behind the estimate. -/
theorem est_table : ∀ m : Fin 256, 256 ≤ est (256 + m.val) ∧ est (256 + m.val) ≤ 511 ∧
    2 ^ 17 * 255 ≤ 256 * (est (256 + m.val) * (256 + m.val)) ∧
    256 * (est (256 + m.val) * (257 + m.val)) ≤ 2 ^ 17 * 257 ∧
    (est (256 + m.val) = 256 ↔ m.val = 255) := by
  decide +kernel

theorem decode_normal {b : Nat} (h : IsNormal .b32 b) : decode .b32 b =
    .num (signField .b32 b) (withSign (signField .b32 b)
      ((1 + (fracField .b32 b : ℚ) / 2 ^ 23) * 2 ^ ((expField .b32 b : ℤ) - 127))) := by
  unfold decode
  rw [if_neg h.2, if_neg h.1]
  rfl

/-- The magnitude of a normal number. -/
theorem normal_bounds {b : Nat} (h : IsNormal .b32 b) {s : Bool} {x : ℚ} (d : decode .b32 b = .num s x) :
    2 ^ ((expField .b32 b : ℤ) - 127) ≤ |x| ∧ |x| < 2 ^ ((expField .b32 b : ℤ) - 126) := by
  rw [decode_normal h] at d
  injection d with _ d
  have hz : (0 : ℚ) < 2 ^ ((expField .b32 b : ℤ) - 127) := zpow_pos (by norm_num) _
  have hf : fracField .b32 b < 2 ^ 23 := Nat.mod_lt _ (by decide)
  have hf' : (fracField .b32 b : ℚ) < 2 ^ 23 := by exact_mod_cast hf
  rw [← d, withSign_abs _ (by positivity)]
  have h1 : (0 : ℚ) ≤ (fracField .b32 b : ℚ) / 2 ^ 23 := by positivity
  have h2 : (fracField .b32 b : ℚ) / 2 ^ 23 < 1 := by rw [div_lt_one (by positivity)]; exact hf'
  have e : (2 : ℚ) ^ ((expField .b32 b : ℤ) - 126) = 2 * 2 ^ ((expField .b32 b : ℤ) - 127) := by
    rw [show (expField .b32 b : ℤ) - 126 = (expField .b32 b : ℤ) - 127 + 1 by ring, zpow_add₀ (by norm_num)]
    ring
  rw [e]
  constructor <;> nlinarith

theorem normal_ne {b : Nat} (h : IsNormal .b32 b) {s : Bool} {x : ℚ} (d : decode .b32 b = .num s x) : x ≠ 0 := by
  have := (normal_bounds h d).1
  intro h0
  rw [h0, abs_zero] at this
  exact absurd this (not_le.2 (zpow_pos (by norm_num) _))

/-- The relative error of `y` as reciprocal of `x`. -/
theorem relErr_recip {x y : ℚ} (hx : x ≠ 0) : relErr y (1 / x) = |x * y - 1| := by
  unfold relErr
  rw [abs_div, abs_one, div_div_eq_mul_div, div_one, ← abs_mul]
  congr 1
  field_simp

/-- A normal number has a normal estimate exactly if its exponent field is at most 252. -/
theorem recip_normal_iff (n : Nat) (hn : n < 2 ^ 32) (h : IsNormal .b32 n) :
    IsNormal .b32 (recipBits n) ↔ expField .b32 n ≤ 252 := by
  obtain ⟨-, -, he, -⟩ := recip_fields n hn
  obtain ⟨h0, h255⟩ := h
  have hlt : expField .b32 n < 256 := Nat.mod_lt _ (by decide)
  unfold IsNormal
  rw [he]
  change expField .b32 n ≠ 255 at h255
  show ¬ _ ∧ ¬ _ = 255 ↔ _
  generalize expField .b32 n = e at *
  omega

theorem recip_arith (k m l : Nat) (t3 : 2 ^ 17 * 255 ≤ 256 * ((256 + k) * (256 + m)))
    (t4 : 256 * ((256 + k) * (257 + m)) ≤ 2 ^ 17 * 257) (hl : l ≤ 2 ^ 15) :
    -(1 / 2 ^ 8) ≤ ((256 + (k : ℚ)) * ((256 + m) * 2 ^ 15 + l) - 2 ^ 32) / 2 ^ 32 ∧
    ((256 + (k : ℚ)) * ((256 + m) * 2 ^ 15 + l) - 2 ^ 32) / 2 ^ 32 ≤ 1 / 2 ^ 8 := by
  have c4 : (0 : ℚ) ≤ l := Nat.cast_nonneg l
  have c5 : (0 : ℚ) ≤ k := Nat.cast_nonneg k
  have c1 : (33423360 : ℚ) ≤ 256 * ((256 + k) * (256 + m)) := by
    have : 33423360 ≤ 256 * ((256 + k) * (256 + m)) := t3
    exact_mod_cast this
  have c2 : 256 * ((256 + (k : ℚ)) * (257 + m)) ≤ 33685504 := by
    have : 256 * ((256 + k) * (257 + m)) ≤ 33685504 := t4
    exact_mod_cast this
  have c3 : (l : ℚ) ≤ 32768 := by
    have : l ≤ 32768 := hl
    exact_mod_cast this
  clear t3 t4 hl
  have c6 : 0 ≤ (256 + (k : ℚ)) * l := by positivity
  have c7 : (256 + (k : ℚ)) * l ≤ (256 + (k : ℚ)) * 32768 := mul_le_mul_of_nonneg_left c3 (by positivity)
  constructor
  · rw [le_div_iff₀ (by norm_num)]
    norm_num
    linarith
  · rw [div_le_iff₀ (by norm_num)]
    norm_num
    linarith

/-- The estimate of a normal number. -/
theorem recip_accurate (n : Nat) (hn : n < 2 ^ 32) (h : IsNormal .b32 n) (he : expField .b32 n ≤ 252)
    {s : Bool} {x : ℚ} (d : decode .b32 n = .num s x) :
    ∃ y, decode .b32 (recipBits n) = .num s y ∧ |x * y - 1| ≤ 1 / 2 ^ 8 := by
  have hnr := (recip_normal_iff n hn h).2 he
  obtain ⟨-, r1, r2, r3⟩ := recip_fields n hn
  rw [decode_normal h] at d
  injection d with d1 d2
  refine ⟨_, (decode_normal hnr).trans (by rw [r1, d1]), ?_⟩
  have hm : n / 2 ^ 15 % 256 < 256 := Nat.mod_lt _ (by decide)
  obtain ⟨t1, t2, t3, t4, -⟩ := est_table ⟨_, hm⟩
  simp only at t1 t2 t3 t4
  have hf : fracField .b32 n = n / 2 ^ 15 % 256 * 2 ^ 15 + n % 2 ^ 15 := by
    show n % 2 ^ 23 = _
    omega
  have hl : n % 2 ^ 15 < 2 ^ 15 := Nat.mod_lt _ (by decide)
  have h0 : expField .b32 n ≠ 0 := h.1
  rw [r3, r2, ← d2, ← d1, hf]
  generalize est (256 + n / 2 ^ 15 % 256) = q at *
  generalize n / 2 ^ 15 % 256 = m at *
  generalize n % 2 ^ 15 = l at *
  generalize hE : expField .b32 n = E at *
  have e1 : (((509 - E) % 256 : ℕ) : ℤ) - 127 = -((E : ℤ) - 127) - 1 := by omega
  have e2 : q % 256 = q - 256 := by omega
  rw [e1, e2]
  have hw (s : Bool) (u v : ℚ) : withSign s u * withSign s v = u * v := by
    cases s <;> simp [withSign]
  rw [hw, zpow_sub₀ (by norm_num) (-((E : ℤ) - 127)), zpow_neg, zpow_one]
  generalize hz : (2 : ℚ) ^ ((E : ℤ) - 127) = z
  have hzp : 0 < z := hz ▸ zpow_pos (by norm_num) _
  obtain ⟨k, rfl⟩ : ∃ k, q = 256 + k := ⟨q - 256, by omega⟩
  rw [Nat.add_sub_cancel_left]
  push_cast
  have e3 : (1 + ((m : ℚ) * 32768 + l) / 2 ^ 23) * z * ((1 + (k : ℚ) * 32768 / 2 ^ 23) * (z⁻¹ / 2)) - 1 =
      ((256 + k) * ((256 + m) * 2 ^ 15 + l) - 2 ^ 32) / 2 ^ 32 := by
    field_simp
    ring
  rw [e3, abs_le]
  clear e3
  exact recip_arith k m l t3 t4 (Nat.le_of_lt hl)

/-! ## The estimate (C56) -/

/-- Every normal lane with a normal estimate is estimated with the sign of the lane and a relative error
of at most `2^-8`; the estimate is normal exactly for exponent fields up to 252. -/
theorem vrecpeq_f32_spec (a : float32x4_t) : ∃ r, vrecpeq_f32 a = .ok r ∧
    ∀ (i : Fin 4) (s : Bool) (x : ℚ), IsNormal .b32 (a.lane i).toNat → decode .b32 (a.lane i).toNat = .num s x →
      (IsNormal .b32 (r.lane i).toNat ↔ expField .b32 (a.lane i).toNat ≤ 252) ∧
      (IsNormal .b32 (r.lane i).toNat →
        ∃ y, decode .b32 (r.lane i).toNat = .num s y ∧ relErr y (1 / x) ≤ 1 / 2 ^ 8) := by
  refine ⟨_, vrecpeq_f32_eval a, fun i s x hn d => ?_⟩
  have hr : (BitVec.ofNat 32 (recipBits (a.lane i).toNat)).toNat = recipBits (a.lane i).toNat := by
    rw [BitVec.toNat_ofNat]
    exact Nat.mod_eq_of_lt (recip_fields _ (a.lane i).isLt).1
  show (IsNormal .b32 (BitVec.ofNat 32 _).toNat ↔ _) ∧ (IsNormal .b32 (BitVec.ofNat 32 _).toNat → ∃ y,
    decode .b32 (BitVec.ofNat 32 _).toNat = _ ∧ _)
  rw [hr]
  have hiff := recip_normal_iff _ (a.lane i).isLt hn
  refine ⟨hiff, fun h => ?_⟩
  obtain ⟨y, dy, hy⟩ := recip_accurate _ (a.lane i).isLt hn (hiff.1 h) d
  exact ⟨y, dy, by rw [relErr_recip (normal_ne hn d)]; exact hy⟩

/-- The hypotheses are met: 3.0 is normal and so is its estimate. -/
example : IsNormal .b32 (0x40400000#32).toNat ∧ IsNormal .b32 (recipBits (0x40400000#32).toNat) := by
  unfold IsNormal
  decide +kernel

/-! ## Special values (C57) -/

theorem decode_field {n : Nat} (h : expField .b32 n ≠ 255) : ∃ x, decode .b32 n = .num (signField .b32 n) x := by
  unfold decode
  rw [if_neg (c := expField .b32 n = 2 ^ Fmt.b32.eb - 1) h]
  split
  · exact ⟨_, rfl⟩
  · exact ⟨_, rfl⟩

/-- The lanes of `vrecpeq_f32` read back. -/
theorem vrecpeq_f32_lane (a : float32x4_t) : ∃ r, vrecpeq_f32 a = .ok r ∧
    ∀ i : Fin 4, (r.lane i).toNat = recipBits (a.lane i).toNat := by
  refine ⟨_, vrecpeq_f32_eval a, fun i => ?_⟩
  show (BitVec.ofNat 32 _).toNat = _
  rw [BitVec.toNat_ofNat]
  exact Nat.mod_eq_of_lt (recip_fields _ (a.lane i).isLt).1

/-- The sign is always kept, and the result is a number unless the exponent field of the operand is 254. -/
theorem vrecpeq_f32_sign_partial (a : float32x4_t) : ∃ r, vrecpeq_f32 a = .ok r ∧
    ∀ i : Fin 4, signField .b32 (r.lane i).toNat = signField .b32 (a.lane i).toNat ∧
      (expField .b32 (a.lane i).toNat ≠ 254 →
        ∃ y, decode .b32 (r.lane i).toNat = .num (signField .b32 (a.lane i).toNat) y) := by
  obtain ⟨r, hr, hl⟩ := vrecpeq_f32_lane a
  refine ⟨r, hr, fun i => ?_⟩
  rw [hl]
  obtain ⟨-, r1, r2, -⟩ := recip_fields _ (a.lane i).isLt
  refine ⟨r1, fun h => ?_⟩
  obtain ⟨y, hy⟩ := decode_field (n := recipBits (a.lane i).toNat) (by
    rw [r2]
    have : expField .b32 (a.lane i).toNat < 256 := Nat.mod_lt _ (by decide)
    omega)
  exact ⟨y, by rw [hy, r1]⟩

/-- No NaN operand gives NaN and no infinite operand gives zero: every NaN and every infinity gives a
normal number. -/
theorem vrecpeq_f32_nan_wrong (a : float32x4_t) : ∃ r, vrecpeq_f32 a = .ok r ∧
    ∀ i : Fin 4, (decode .b32 (a.lane i).toNat = .nan ∨ ∃ s, decode .b32 (a.lane i).toNat = .inf s) →
      IsNormal .b32 (r.lane i).toNat := by
  obtain ⟨r, hr, hl⟩ := vrecpeq_f32_lane a
  refine ⟨r, hr, fun i h => ?_⟩
  rw [hl]
  obtain ⟨-, -, r2, -⟩ := recip_fields _ (a.lane i).isLt
  have he : expField .b32 (a.lane i).toNat = 255 := by
    by_contra hc
    obtain ⟨x, d⟩ := decode_field hc
    rw [d] at h
    rcases h with h | ⟨s, h⟩ <;> cases h
  unfold IsNormal
  rw [r2, he]
  decide

/-- A zero operand gives a normal number, not an infinity. -/
theorem vrecpeq_f32_zero_wrong (a : float32x4_t) : ∃ r, vrecpeq_f32 a = .ok r ∧
    ∀ (i : Fin 4) (s : Bool), decode .b32 (a.lane i).toNat = .num s 0 → IsNormal .b32 (r.lane i).toNat := by
  obtain ⟨r, hr, hl⟩ := vrecpeq_f32_lane a
  refine ⟨r, hr, fun i s h => ?_⟩
  rw [hl]
  obtain ⟨-, -, r2, -⟩ := recip_fields _ (a.lane i).isLt
  have he : expField .b32 (a.lane i).toNat = 0 := by
    by_contra hc
    by_cases h255 : expField .b32 (a.lane i).toNat = 2 ^ Fmt.b32.eb - 1
    · unfold decode at h
      rw [if_pos h255] at h
      split at h <;> cases h
    · exact normal_ne ⟨hc, h255⟩ h rfl
  unfold IsNormal
  rw [r2, he]
  decide

/-- NaN comes out exactly for the largest binade, except for its last 2^15 numbers, which give infinity:
NaN is produced from numbers and only from numbers. -/
theorem vrecpeq_f32_huge_wrong (a : float32x4_t) : ∃ r, vrecpeq_f32 a = .ok r ∧
    ∀ i : Fin 4, (decode .b32 (r.lane i).toNat = .nan ↔
      expField .b32 (a.lane i).toNat = 254 ∧ (a.lane i).toNat / 2 ^ 15 % 256 ≠ 255) := by
  obtain ⟨r, hr, hl⟩ := vrecpeq_f32_lane a
  refine ⟨r, hr, fun i => ?_⟩
  rw [hl]
  obtain ⟨-, -, r2, r3⟩ := recip_fields _ (a.lane i).isLt
  have hm : (a.lane i).toNat / 2 ^ 15 % 256 < 256 := Nat.mod_lt _ (by decide)
  obtain ⟨t1, t2, -, -, t5⟩ := est_table ⟨_, hm⟩
  simp only at t1 t2 t5
  have hlt : expField .b32 (a.lane i).toNat < 256 := Nat.mod_lt _ (by decide)
  have key : decode .b32 (recipBits (a.lane i).toNat) = .nan ↔
      expField .b32 (recipBits (a.lane i).toNat) = 255 ∧ fracField .b32 (recipBits (a.lane i).toNat) ≠ 0 := by
    unfold decode
    show (if _ = 255 then _ else _) = _ ↔ _
    split
    · rename_i h
      split
      · rename_i h2; simp [h2]
      · rename_i h2; simp [h, h2]
    · rename_i h
      split <;> simp [h]
  rw [key, r2, r3]
  generalize (a.lane i).toNat / 2 ^ 15 % 256 = m at *
  generalize est (256 + m) = q at *
  generalize expField .b32 (a.lane i).toNat = e at *
  omega

/-- Such a number: the largest power of two. -/
example : ∃ r, vrecpeq_f32 ⟨fun _ => 0x7F000000#32⟩ = .ok r ∧ decode .b32 (r.lane 0).toNat = .nan := by
  obtain ⟨r, h1, h2⟩ := vrecpeq_f32_huge_wrong ⟨fun _ => 0x7F000000#32⟩
  exact ⟨r, h1, (h2 0).2 (by decide)⟩

/-! ## The step (C67) -/

/-- The code of the step in terms of the model's operations. -/
def stepBits (a b : Nat) : Nat :=
  Fmt.b64.convert .b32 (Fmt.b64.sub 0x4000000000000000 (Fmt.b32.convert .b64 (Fmt.b32.mul a b)))

theorem toF32_f64 (b : BitVec 64) : Val.toF32 (.f64 b) = BitVec.ofNat 32 (Fmt.b64.convert .b32 b.toNat) := rfl
theorem toF64_f32 (b : BitVec 32) : Val.toF64 (.f32 b) = BitVec.ofNat 64 (Fmt.b32.convert .b64 b.toNat) := rfl
theorem sub_f64_f32 (x : BitVec 64) (y : BitVec 32) : Val.sub (.f64 x) (.f32 y) =
    .ok (.f64 (BitVec.ofNat 64 (Fmt.b64.sub x.toNat (Val.toF64 (.f32 y)).toNat))) := rfl

theorem step_lane (x y : BitVec 32) : BitVec.ofNat 32 (Fmt.b64.convert .b32 (BitVec.ofNat 64
    (Fmt.b64.sub (0x4000000000000000#64).toNat (BitVec.ofNat 64 (Fmt.b32.convert .b64 (BitVec.ofNat 32
      (Fmt.b32.mul x.toNat y.toNat)).toNat)).toNat)).toNat) = BitVec.ofNat 32 (stepBits x.toNat y.toNat) := by
  have h2 : (0x4000000000000000 : Nat) < 2 ^ Fmt.b64.width := by decide +kernel
  rw [nat32 (mul_lt ok32 _ _), nat64 (convert_lt ok64 _),
    show (0x4000000000000000#64).toNat = 0x4000000000000000 from rfl,
    nat64 (sub_lt ok64 h2 (convert_lt ok64 _))]
  rfl

theorem vrecpsq_f32_eval (a b : float32x4_t) : vrecpsq_f32 a b =
    .ok ⟨fun i => BitVec.ofNat 32 (stepBits (a.lane i).toNat (b.lane i).toNat)⟩ := by
  unfold vrecpsq_f32
  refine fill_ok (by rfl) _ fun i D => ?_
  rw [← step_lane]
  simp -implicitDefEqProofs only [Vec.get_fin, ok_bind, ofBits_f32, mul_f32_f32, sub_f64_f32, Arr.set_fin,
    toBits_f32, toF32_f64, toF64_f32]

theorem decode_two32 : decode .b32 0x40000000 = .num false 2 := by
  rw [decode_normal (by unfold IsNormal; decide)]
  have h1 : signField .b32 0x40000000 = false := by decide
  have h2 : fracField .b32 0x40000000 = 0 := by decide
  have h3 : expField .b32 0x40000000 = 128 := by decide
  rw [h1, h2, h3]
  norm_num [withSign]

theorem decode_two64 : decode .b64 0x4000000000000000 = .num false 2 := by
  have h1 : signField .b64 0x4000000000000000 = false := by decide +kernel
  have h2 : fracField .b64 0x4000000000000000 = 0 := by decide +kernel
  have h3 : expField .b64 0x4000000000000000 = 1024 := by decide +kernel
  have h4 : emax .b64 = 1023 := by decide
  unfold decode
  rw [h1, h2, h3, h4, if_neg (by decide), if_neg (by decide)]
  norm_num [withSign]

theorem step_spec (x y : BitVec 32) : ∃ p, IsProd .b32 x.toNat y.toNat p ∧
    IsDiff .b32 0x40000000 p (BitVec.ofNat 32 (stepBits x.toNat y.toNat)).toNat := by
  refine ⟨Fmt.b32.mul x.toNat y.toNat, isProd_mul ok32 (lt32 x) (lt32 y), ?_⟩
  have hm := mul_lt ok32 x.toNat y.toNat
  have h2 : (0x4000000000000000 : Nat) < 2 ^ Fmt.b64.width := by decide +kernel
  have hc := convert_lt (f := .b32) ok64 (Fmt.b32.mul x.toNat y.toNat)
  unfold stepBits
  rw [nat32 (convert_lt ok32 _)]
  exact two_sub_double decode_two32 decode_two64 (decode_convert ok32 ok64 hm) (isDiff_sub ok64 h2 hc)
    (decode_convert ok64 ok32 (sub_lt ok64 h2 hc))

/-- Each lane of `vrecpsq_f32` is `2 - a * b` with the product rounded to float and then the difference
rounded to float; computing the difference in double makes no difference. -/
theorem vrecpsq_f32_partial (a b : float32x4_t) : ∃ r, vrecpsq_f32 a b = .ok r ∧
    ∀ i, ∃ p, IsProd .b32 (a.lane i).toNat (b.lane i).toNat p ∧ IsDiff .b32 0x40000000 p (r.lane i).toNat :=
  ⟨_, vrecpsq_f32_eval a b, fun i => step_spec (a.lane i) (b.lane i)⟩

/-- The hardware returns 2 for infinity times zero; the simulation returns NaN. -/
theorem vrecpsq_f32_wrong (a b : float32x4_t) : ∃ r, vrecpsq_f32 a b = .ok r ∧
    ∀ (i : Fin 4) (s t : Bool), (decode .b32 (a.lane i).toNat = .inf s ∧ decode .b32 (b.lane i).toNat = .num t 0) ∨
      (decode .b32 (a.lane i).toNat = .num s 0 ∧ decode .b32 (b.lane i).toNat = .inf t) →
      decode .b32 (r.lane i).toNat = .nan := by
  refine ⟨_, vrecpsq_f32_eval a b, fun i s t h => ?_⟩
  obtain ⟨p, hp, hd⟩ := step_spec (a.lane i) (b.lane i)
  have hn : decode .b32 p = .nan := by
    unfold IsProd at hp
    rcases h with ⟨h1, h2⟩ | ⟨h1, h2⟩ <;> rw [h1, h2] at hp <;> simpa using hp
  unfold IsDiff at hd
  rw [decode_two32, hn] at hd
  exact hd

/-- Such lanes: infinity and zero. -/
example : decode .b32 (0x7F800000#32).toNat = .inf false ∧ decode .b32 (0#32).toNat = .num false 0 :=
  ⟨decode_pack_inf ok32 false, decode_pack_zero ok32 false⟩

/-! ## Newton-Raphson (C66) -/

theorem overflowAt32 : (2 : ℚ) ^ 127 < overflowAt .b32 := by
  have : overflowAt .b32 = (2 - 1 / 2 ^ 24) * 2 ^ 127 := by
    unfold overflowAt
    rw [show emax .b32 = ((127 : ℕ) : ℤ) by decide, zpow_natCast]
  rw [this]
  norm_num

/-- One refinement step in exact terms. -/
theorem newton_bits {n y p t r : Nat} {sx sy : Bool} {vx vy η : ℚ} (hn : IsNormal .b32 n)
    (he : expField .b32 n ≤ 253) (dx : decode .b32 n = .num sx vx) (dy : decode .b32 y = .num sy vy)
    (hη : η ≤ 1 / 4) (h : |vx * vy - 1| ≤ η)
    (hp : IsProd .b32 n y p) (ht : IsDiff .b32 0x40000000 p t) (hr : IsProd .b32 t y r) :
    ∃ s w, decode .b32 r = .num s w ∧ |vx * w - 1| ≤ η ^ 2 + 1 / 2 ^ 21 := by
  have hη0 : 0 ≤ η := le_trans (abs_nonneg _) h
  obtain ⟨hu1, hu2⟩ := abs_le.1 h
  have big : ∀ q : ℚ, q ≤ 2 → q < overflowAt .b32 := fun q hq =>
    lt_trans (lt_of_le_of_lt hq (by norm_num)) overflowAt32
  have grid1 : ∀ {zs s : Bool} {x v : ℚ} {r : Nat}, Rounded .b32 zs x r → decode .b32 r = .num s v → |x| ≤ 2 →
      |v - x| ≤ 1 / 2 ^ 24 := by
    intro zs s x v r hR d hx
    refine le_trans (rounded_grid ok32 hR d 126 ?_ (by decide)) ?_
    · refine le_trans hx ?_
      show (2 : ℚ) ≤ 2 ^ 24 * (2 ^ 126 / 2 ^ Fmt.b32.unit)
      rw [unit32]; norm_num
    · rw [unit32]; norm_num
  -- the product
  unfold IsProd at hp
  rw [dx, dy] at hp
  simp only at hp
  have hu : |vx * vy| ≤ 2 := by rw [abs_le]; constructor <;> linarith
  obtain ⟨sp, P, dP⟩ := rounded_num hp (big _ hu)
  have hP := abs_le.1 (grid1 hp dP hu)
  -- the difference
  unfold IsDiff at ht
  rw [decode_two32, dP] at ht
  simp only at ht
  have hd : |2 - P| ≤ 2 := by
    rw [abs_le]
    constructor <;> linarith [hP.1, hP.2]
  obtain ⟨st, S, dS⟩ := rounded_num ht (big _ hd)
  have hS := abs_le.1 (grid1 ht dS hd)
  -- the final product
  unfold IsProd at hr
  rw [dS, dy] at hr
  simp only at hr
  obtain ⟨hb1, hb2⟩ := normal_bounds hn dx
  have h0 : expField .b32 n ≠ 0 := hn.1
  generalize hE : expField .b32 n = E at *
  have eZ : (2 : ℚ) ^ ((E : ℤ) - 127) = 2 ^ E / 2 ^ 127 := by
    rw [zpow_sub₀ (by norm_num), zpow_natCast]; norm_cast
  have eZ2 : (2 : ℚ) ^ ((E : ℤ) - 126) = 2 * (2 ^ E / 2 ^ 127) := by
    rw [show (E : ℤ) - 126 = (E : ℤ) - 127 + 1 by ring, zpow_add₀ (by norm_num), eZ]; ring
  rw [eZ] at hb1
  rw [eZ2] at hb2
  have hZ : (0 : ℚ) < 2 ^ E / 2 ^ 127 := by positivity
  have eG : (2 : ℚ) ^ (253 - E) / 2 ^ 149 = 1 / (2 ^ 23 * (2 ^ E / 2 ^ 127)) := by
    have : (2 : ℚ) ^ (253 - E) * 2 ^ E = 2 ^ 253 := by rw [← pow_add]; congr 1; omega
    rw [div_eq_div_iff (by positivity) (by positivity), one_mul]
    calc (2 : ℚ) ^ (253 - E) * (2 ^ 23 * (2 ^ E / 2 ^ 127)) = (2 ^ (253 - E) * 2 ^ E) * (2 ^ 23 / 2 ^ 127) := by ring
      _ = _ := by rw [this]; norm_num
  have hZ1 : (1 : ℚ) / 2 ^ 126 ≤ 2 ^ E / 2 ^ 127 := by
    rw [div_le_div_iff₀ (by positivity) (by positivity)]
    have : (2 : ℚ) ^ 1 ≤ 2 ^ E := pow_le_pow_right₀ (by norm_num) (by omega)
    calc (1 : ℚ) * 2 ^ 127 = 2 ^ 1 * 2 ^ 126 := by norm_num
      _ ≤ _ := mul_le_mul_of_nonneg_right this (by positivity)
  generalize (2 : ℚ) ^ E / 2 ^ 127 = Z at *
  have hSabs : |S| ≤ 3 / 2 := by
    rw [abs_le]
    constructor <;> linarith [hP.1, hP.2, hS.1, hS.2]
  have hYZ : |vy| * Z ≤ 5 / 4 := by
    have : |vy| * Z ≤ |vy| * |vx| := mul_le_mul_of_nonneg_left hb1 (abs_nonneg _)
    rw [← abs_mul, mul_comm vy vx] at this
    refine le_trans this ?_
    rw [abs_le]; constructor <;> linarith
  have hSY : |S * vy| ≤ 2 / Z := by
    rw [abs_mul, le_div_iff₀ hZ, mul_assoc]
    have : 0 ≤ |vy| * Z := by positivity
    nlinarith [abs_nonneg S]
  have hSYo : |S * vy| < overflowAt .b32 := by
    refine lt_of_le_of_lt (le_trans hSY ?_) overflowAt32
    rw [div_le_iff₀ hZ]
    rw [div_le_iff₀ (by positivity)] at hZ1
    nlinarith
  obtain ⟨sr, w, dw⟩ := rounded_num hr hSYo
  have hw : |w - S * vy| ≤ 1 / (2 ^ 23 * Z) / 2 := by
    have := rounded_grid ok32 hr dw (253 - E) (by
      rw [unit32, eG]
      refine le_trans hSY (le_of_eq ?_)
      show _ = 2 ^ 24 * (1 / (2 ^ 23 * Z))
      field_simp) (by show 253 - E + 3 < 2 ^ 8; omega)
    rwa [unit32, eG] at this
  refine ⟨sr, w, dw, ?_⟩
  have hxw : |vx * w - vx * (S * vy)| ≤ 1 / 2 ^ 23 := by
    rw [← mul_sub, abs_mul]
    calc |vx| * |w - S * vy| ≤ (2 * Z) * (1 / (2 ^ 23 * Z) / 2) :=
          mul_le_mul (le_of_lt hb2) hw (abs_nonneg _) (by positivity)
      _ = 1 / 2 ^ 23 := by field_simp
  -- `x * (S y) - 1 = - (1 - u)^2 + u δ`
  obtain ⟨δ, hδ⟩ : ∃ δ, S = 2 - vx * vy + δ := ⟨S - (2 - vx * vy), by ring⟩
  have hδ1 : |δ| ≤ 1 / 2 ^ 23 := by
    have : δ = (S - (2 - P)) + (vx * vy - P) := by rw [hδ]; ring
    rw [this, abs_le]
    constructor <;> linarith [hP.1, hP.2, hS.1, hS.2]
  have hmain : |vx * (S * vy) - 1| ≤ η ^ 2 + 5 / 4 * (1 / 2 ^ 23) := by
    have e : vx * (S * vy) - 1 = -(vx * vy - 1) ^ 2 + (vx * vy) * δ := by rw [hδ]; ring
    rw [e]
    refine le_trans (abs_add_le _ _) ?_
    rw [abs_neg, abs_pow, abs_mul]
    have h1 : |vx * vy - 1| ^ 2 ≤ η ^ 2 := pow_le_pow_left₀ (abs_nonneg _) h 2
    have h2 : |vx * vy| ≤ 5 / 4 := by rw [abs_le]; constructor <;> linarith
    have h3 : |vx * vy| * |δ| ≤ 5 / 4 * (1 / 2 ^ 23) := mul_le_mul h2 hδ1 (abs_nonneg _) (by norm_num)
    linarith
  have htri : |vx * w - 1| ≤ |vx * w - vx * (S * vy)| + |vx * (S * vy) - 1| := by
    have := abs_add_le (vx * w - vx * (S * vy)) (vx * (S * vy) - 1)
    rwa [sub_add_sub_cancel] at this
  refine le_trans htri ?_
  norm_num at hxw hmain ⊢
  linarith

/-- One Newton-Raphson step: an approximation `y` of `1 / x` with relative error `η ≤ 1/4` becomes one
with relative error at most `η^2 + 2^-21`. -/
theorem newton_step (x y : float32x4_t) : ∃ s r, vrecpsq_f32 x y = .ok s ∧ vmulq_f32 s y = .ok r ∧
    ∀ (i : Fin 4) (sx sy : Bool) (vx vy η : ℚ), IsNormal .b32 (x.lane i).toNat →
      expField .b32 (x.lane i).toNat ≤ 253 →
      decode .b32 (x.lane i).toNat = .num sx vx → decode .b32 (y.lane i).toNat = .num sy vy →
      η ≤ 1 / 4 → relErr vy (1 / vx) ≤ η →
      ∃ sw w, decode .b32 (r.lane i).toNat = .num sw w ∧ relErr w (1 / vx) ≤ η ^ 2 + 1 / 2 ^ 21 := by
  refine ⟨_, _, vrecpsq_f32_eval x y, vmulq_f32_eval _ y, ?_⟩
  intro i sx sy vx vy η hn he dx dy hη h
  have hx0 := normal_ne hn dx
  rw [relErr_recip hx0] at h
  obtain ⟨p, hp, ht⟩ := step_spec (x.lane i) (y.lane i)
  have hr := prod32 (BitVec.ofNat 32 (stepBits (x.lane i).toNat (y.lane i).toNat)) (y.lane i)
  obtain ⟨s, w, dw, hw⟩ := newton_bits hn he dx dy hη h hp ht hr
  exact ⟨s, w, dw, by rw [relErr_recip hx0]; exact hw⟩

/-- One step from the estimate: relative error at most `2^-15` for every normal lane whose estimate is
normal. -/
theorem recip_one_step (x : float32x4_t) : ∃ e s r, vrecpeq_f32 x = .ok e ∧ vrecpsq_f32 x e = .ok s ∧
    vmulq_f32 s e = .ok r ∧
    ∀ (i : Fin 4) (sx : Bool) (vx : ℚ), IsNormal .b32 (x.lane i).toNat → IsNormal .b32 (e.lane i).toNat →
      decode .b32 (x.lane i).toNat = .num sx vx →
      ∃ sw w, decode .b32 (r.lane i).toNat = .num sw w ∧ relErr w (1 / vx) ≤ 1 / 2 ^ 15 := by
  obtain ⟨e, he, hspec⟩ := vrecpeq_f32_spec x
  obtain ⟨s, r, hs, hr, hstep⟩ := newton_step x e
  refine ⟨e, s, r, he, hs, hr, fun i sx vx hn hne dx => ?_⟩
  obtain ⟨hiff, hacc⟩ := hspec i sx vx hn dx
  obtain ⟨y, dy, hy⟩ := hacc hne
  obtain ⟨sw, w, dw, hw⟩ := hstep i sx sx vx y (1 / 2 ^ 8) hn (Nat.le_succ_of_le (hiff.1 hne)) dx dy (by norm_num) hy
  exact ⟨sw, w, dw, le_trans hw (by norm_num)⟩

/-- Two steps from the estimate: relative error at most `2^-20`. -/
theorem recip_two_steps (x : float32x4_t) : ∃ e s r s' r', vrecpeq_f32 x = .ok e ∧ vrecpsq_f32 x e = .ok s ∧
    vmulq_f32 s e = .ok r ∧ vrecpsq_f32 x r = .ok s' ∧ vmulq_f32 s' r = .ok r' ∧
    ∀ (i : Fin 4) (sx : Bool) (vx : ℚ), IsNormal .b32 (x.lane i).toNat → IsNormal .b32 (e.lane i).toNat →
      decode .b32 (x.lane i).toNat = .num sx vx →
      ∃ sw w, decode .b32 (r'.lane i).toNat = .num sw w ∧ relErr w (1 / vx) ≤ 1 / 2 ^ 20 := by
  obtain ⟨e, he, hspec⟩ := vrecpeq_f32_spec x
  obtain ⟨s, r, hs, hr, hstep⟩ := newton_step x e
  obtain ⟨s', r', hs', hr', hstep'⟩ := newton_step x r
  refine ⟨e, s, r, s', r', he, hs, hr, hs', hr', fun i sx vx hn hne dx => ?_⟩
  obtain ⟨hiff, hacc⟩ := hspec i sx vx hn dx
  obtain ⟨y, dy, hy⟩ := hacc hne
  have hE := Nat.le_succ_of_le (hiff.1 hne)
  obtain ⟨sw, w, dw, hw⟩ := hstep i sx sx vx y (1 / 2 ^ 8) hn hE dx dy (by norm_num) hy
  obtain ⟨sw', w', dw', hw'⟩ := hstep' i sx sw vx w _ hn hE dx dw (by norm_num) hw
  exact ⟨sw', w', dw', le_trans hw' (by norm_num)⟩

end Verif.Props
