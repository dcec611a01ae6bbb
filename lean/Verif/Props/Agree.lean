/-
C80: for the intrinsics that the simulator gets wrong, exactly which operands it gets right.

Each theorem compares the call with the result the architecture defines for the same operands and gives
the condition on the operands that is necessary and sufficient for the two to be equal.
-/
import Verif.Props.Widen
import Verif.Props.NarrowHigh
import Verif.Props.Mul
import Verif.Props.MaxMin
import Verif.Props.Shift
import Verif.Props.Select
import Verif.Props.Perm
import Mathlib.Tactic.Linarith
import Mathlib.Tactic.NormNum

namespace Verif.Props
open Verif.Model Verif.Spec



theorem ok_vec_iff {e : Elem} {n : Nat} {f g : Fin n → BitVec e.bits} :
    ((C.ok ⟨f⟩ : C (Vec e n)) = .ok ⟨g⟩) ↔ ∀ i, f i = g i := by
  constructor
  · intro h i
    cases h
    rfl
  · intro h
    rw [funext h]

theorem if_ok_iff {α : Type} {P : Prop} [Decidable P] {x y : α} {u : UB} :
    ((if P then C.ok x else .ub u) = .ok y) ↔ P ∧ (C.ok x = C.ok y) := by
  by_cases h : P
  · simp [h]
  · simp [h]



theorem signExtend_add_iff (x y : BitVec 32) : (x + y).signExtend 64 = x.signExtend 64 + y.signExtend 64 ↔
    -2147483648 ≤ x.toInt + y.toInt ∧ x.toInt + y.toInt ≤ 2147483647 := by
  have h1 := BitVec.toInt_lt (x := x); have h2 := BitVec.le_toInt x
  have h3 := BitVec.toInt_lt (x := y); have h4 := BitVec.le_toInt y
  rw [← BitVec.toInt_inj, BitVec.toInt_signExtend_of_le (by decide), BitVec.toInt_add, BitVec.toInt_add,
    BitVec.toInt_signExtend_of_le (by decide), BitVec.toInt_signExtend_of_le (by decide)]
  simp only [Int.bmod]
  norm_num at *
  omega

theorem signExtend_mul_iff (x y : BitVec 32) : (x * y).signExtend 64 = x.signExtend 64 * y.signExtend 64 ↔
    -2147483648 ≤ x.toInt * y.toInt ∧ x.toInt * y.toInt ≤ 2147483647 := by
  have h1 := BitVec.toInt_lt (x := x); have h2 := BitVec.le_toInt x
  have h3 := BitVec.toInt_lt (x := y); have h4 := BitVec.le_toInt y
  rw [← BitVec.toInt_inj, BitVec.toInt_signExtend_of_le (by decide), BitVec.toInt_mul, BitVec.toInt_mul,
    BitVec.toInt_signExtend_of_le (by decide), BitVec.toInt_signExtend_of_le (by decide)]
  have : -4611686018427387904 ≤ x.toInt * y.toInt ∧ x.toInt * y.toInt ≤ 4611686018427387904 := by
    norm_num at *
    constructor <;> nlinarith
  generalize x.toInt * y.toInt = p at *
  simp only [Int.bmod]
  norm_num at *
  omega

theorem setWidth_add_iff (x y : BitVec 32) : (x + y).setWidth 64 = x.setWidth 64 + y.setWidth 64 ↔ x.toNat + y.toNat < 4294967296 := by
  rw [← BitVec.toNat_inj]
  simp only [BitVec.toNat_setWidth, BitVec.toNat_add]
  have := x.isLt; have := y.isLt
  omega

theorem setWidth_mul_iff (x y : BitVec 32) : (x * y).setWidth 64 = x.setWidth 64 * y.setWidth 64 ↔ x.toNat * y.toNat < 4294967296 := by
  rw [← BitVec.toNat_inj]
  simp only [BitVec.toNat_setWidth, BitVec.toNat_mul]
  have h1 := x.isLt; have h2 := y.isLt
  have : x.toNat * y.toNat < 18446744073709551616 := by
    norm_num at *
    nlinarith
  rw [Nat.mod_eq_of_lt (a := x.toNat) (by omega), Nat.mod_eq_of_lt (a := y.toNat) (by omega)]
  generalize x.toNat * y.toNat = p at *
  omega

theorem sshiftRight_sub_iff (x y : BitVec 32) :
    (x - y).sshiftRight 1 = BitVec.ofInt 32 ((x.toInt - y.toInt) / 2) ↔
    -2147483648 ≤ x.toInt - y.toInt ∧ x.toInt - y.toInt ≤ 2147483647 := by
  have h1 := BitVec.toInt_lt (x := x); have h2 := BitVec.le_toInt x
  have h3 := BitVec.toInt_lt (x := y); have h4 := BitVec.le_toInt y
  rw [← BitVec.toInt_inj, BitVec.toInt_sshiftRight, BitVec.toInt_sub, BitVec.toInt_ofInt, Int.shiftRight_eq_div_pow]
  simp only [Int.bmod]
  norm_num at *
  omega

theorem ushiftRight_sub_iff (x y : BitVec 32) :
    (x - y) >>> 1 = BitVec.ofInt 32 (((x.toNat : Int) - (y.toNat : Int)) / 2) ↔ y.toNat ≤ x.toNat := by
  have h1 := x.isLt; have h2 := y.isLt
  rw [← BitVec.toNat_inj, BitVec.toNat_ushiftRight, BitVec.toNat_sub, BitVec.toNat_ofInt, Nat.shiftRight_eq_div_pow]
  norm_num at *
  omega

theorem max_sign_iff8 (x y : BitVec 8) :
    BitVec.ofInt 8 (max x.toInt y.toInt) = BitVec.ofNat 8 (max x.toNat y.toNat) ↔ (x.toNat < 128 ↔ y.toNat < 128) := by
  have h1 := x.isLt; have h2 := y.isLt
  rw [← BitVec.toNat_inj, BitVec.toNat_ofInt, BitVec.toNat_ofNat, BitVec.toInt_eq_toNat_cond, BitVec.toInt_eq_toNat_cond]
  norm_num at *
  omega

theorem max_sign_iff16 (x y : BitVec 16) :
    BitVec.ofInt 16 (max x.toInt y.toInt) = BitVec.ofNat 16 (max x.toNat y.toNat) ↔ (x.toNat < 32768 ↔ y.toNat < 32768) := by
  have h1 := x.isLt; have h2 := y.isLt
  rw [← BitVec.toNat_inj, BitVec.toNat_ofInt, BitVec.toNat_ofNat, BitVec.toInt_eq_toNat_cond, BitVec.toInt_eq_toNat_cond]
  norm_num at *
  omega

theorem max_sign_iff32 (x y : BitVec 32) :
    BitVec.ofInt 32 (max x.toInt y.toInt) = BitVec.ofNat 32 (max x.toNat y.toNat) ↔ (x.toNat < 2147483648 ↔ y.toNat < 2147483648) := by
  have h1 := x.isLt; have h2 := y.isLt
  rw [← BitVec.toNat_inj, BitVec.toNat_ofInt, BitVec.toNat_ofNat, BitVec.toInt_eq_toNat_cond, BitVec.toInt_eq_toNat_cond]
  norm_num at *
  omega

theorem min_sign_iff8 (x y : BitVec 8) :
    BitVec.ofInt 8 (min x.toInt y.toInt) = BitVec.ofNat 8 (min x.toNat y.toNat) ↔ (x.toNat < 128 ↔ y.toNat < 128) := by
  have h1 := x.isLt; have h2 := y.isLt
  rw [← BitVec.toNat_inj, BitVec.toNat_ofInt, BitVec.toNat_ofNat, BitVec.toInt_eq_toNat_cond, BitVec.toInt_eq_toNat_cond]
  norm_num at *
  omega

theorem min_sign_iff16 (x y : BitVec 16) :
    BitVec.ofInt 16 (min x.toInt y.toInt) = BitVec.ofNat 16 (min x.toNat y.toNat) ↔ (x.toNat < 32768 ↔ y.toNat < 32768) := by
  have h1 := x.isLt; have h2 := y.isLt
  rw [← BitVec.toNat_inj, BitVec.toNat_ofInt, BitVec.toNat_ofNat, BitVec.toInt_eq_toNat_cond, BitVec.toInt_eq_toNat_cond]
  norm_num at *
  omega

theorem min_sign_iff32 (x y : BitVec 32) :
    BitVec.ofInt 32 (min x.toInt y.toInt) = BitVec.ofNat 32 (min x.toNat y.toNat) ↔ (x.toNat < 2147483648 ↔ y.toNat < 2147483648) := by
  have h1 := x.isLt; have h2 := y.isLt
  rw [← BitVec.toNat_inj, BitVec.toNat_ofInt, BitVec.toNat_ofNat, BitVec.toInt_eq_toNat_cond, BitVec.toInt_eq_toNat_cond]
  norm_num at *
  omega

theorem narrow_iff {w h : Nat} (s : Nat) (d : BitVec w) :
    (d >>> s).setWidth h = high h d ↔ ∀ j, j < h → d.getLsbD (s + j) = d.getLsbD (h + j) := by
  unfold high
  constructor
  · intro e j hj
    have := congrArg (fun x => x.getLsbD j) e
    simpa [hj] using this
  · intro e
    refine BitVec.eq_of_getLsbD_eq fun j hj => ?_
    simpa [hj] using e j hj

theorem narrow_s_iff {w h : Nat} (s : Nat) (hs : s + h ≤ w) (d : BitVec w) :
    (d.sshiftRight s).setWidth h = high h d ↔ ∀ j, j < h → d.getLsbD (s + j) = d.getLsbD (h + j) := by
  rw [← narrow_iff]
  have : (d.sshiftRight s).setWidth h = (d >>> s).setWidth h := by
    refine BitVec.eq_of_getLsbD_eq fun j hj => ?_
    rw [BitVec.getLsbD_setWidth, BitVec.getLsbD_setWidth, BitVec.getLsbD_sshiftRight, BitVec.getLsbD_ushiftRight]
    rw [if_pos (by omega)]
    have : decide (w ≤ j) = false := by simp; omega
    rw [this]
    rfl
  rw [this]

theorem sra_iff (x b : BitVec 32) (n : Nat) (h1 : 1 ≤ n) :
    x.sshiftRight n + b = x + b ↔ x = 0#32 ∨ x = BitVec.allOnes 32 := by
  have h3 := BitVec.toInt_lt (x := x); have h4 := BitVec.le_toInt x
  rw [BitVec.add_left_inj, ← BitVec.toInt_inj, BitVec.toInt_sshiftRight, Int.shiftRight_eq_div_pow,
    ← BitVec.toInt_inj, ← BitVec.toInt_inj]
  have e0 : (0#32).toInt = 0 := by decide
  have e1 : (BitVec.allOnes 32).toInt = -1 := by decide
  rw [e0, e1]
  generalize x.toInt = v at *
  have hp : (2 : Int) ≤ 2 ^ n := by
    calc (2 : Int) = 2 ^ 1 := by norm_num
      _ ≤ 2 ^ n := pow_le_pow_right₀ (by norm_num) h1
  push_cast
  generalize (2 : Int) ^ n = p at *
  constructor
  · intro e
    have a1 := Int.mul_ediv_add_emod v p
    have a2 := Int.emod_nonneg v (show p ≠ 0 by omega)
    have a3 := Int.emod_lt_of_pos v (show 0 < p by omega)
    rw [e] at a1
    by_contra hc
    rcases lt_trichotomy v 0 with hv | hv | hv
    · have : v ≤ -2 := by omega
      nlinarith
    · omega
    · nlinarith
  · rintro (rfl | rfl)
    · simp
    · exact Int.ediv_eq_iff_of_pos (by omega) |>.2 (by constructor <;> nlinarith)

theorem ssat_iff (v : Int) :
    BitVec.ofInt 32 (max v (-2147483648)) = ssat 32 v ↔ v ≤ 2147483647 ∨ v % 4294967296 = 2147483647 := by
  unfold ssat clamp
  rw [← BitVec.toNat_inj, BitVec.toNat_ofInt, BitVec.toNat_ofInt]
  norm_num at *
  omega

theorem fits32 {v : Int} : Fits 32 v ↔ -2147483648 ≤ v ∧ v ≤ 2147483647 := by
  unfold Fits
  norm_num

theorem bmod_fits {p : Int} (h : -2147483648 ≤ p ∧ p ≤ 2147483647) : p.bmod 4294967296 = p := by
  simp only [Int.bmod]
  norm_num
  omega

theorem toInt_mul_fits {x y : BitVec 32} (h : -2147483648 ≤ x.toInt * y.toInt ∧ x.toInt * y.toInt ≤ 2147483647) :
    (x * y).toInt = x.toInt * y.toInt := by
  exact (BitVec.toInt_mul x y).trans (bmod_fits h)

theorem sub_right_inj_bv (z : BitVec 64) {x y : BitVec 64} : z - x = z - y ↔ x = y := by
  constructor
  · intro h
    have h := congrArg BitVec.toNat h
    simp only [BitVec.toNat_sub] at h
    have := x.isLt; have := y.isLt; have := z.isLt
    refine BitVec.eq_of_toNat_eq ?_
    omega
  · exact fun h => h ▸ rfl

theorem sub_one_ne (y : BitVec 32) : y - 1#32 ≠ y := by
  intro h
  have h := congrArg BitVec.toNat h
  simp only [BitVec.toNat_sub, BitVec.toNat_ofNat] at h
  have := y.isLt
  omega

theorem rsubhn_ne (d : BitVec 64) : high 32 (d + 18446744071562067968#64) ≠ high 32 (d + 2147483648#64) := by
  intro h
  exact sub_one_ne _ ((off_by_one d).symm.trans h)

/-- `vaddl_high_s32` gives the 64-bit sums exactly when the sums fit in 32 bits. -/
theorem vaddl_high_s32_right_iff [Dialect] (a b : int32x4_t) :
    vaddl_high_s32 a b = .ok ⟨fun i => (a[2 + i.val]).signExtend 64 + (b[2 + i.val]).signExtend 64⟩ ↔
    ∀ i : Fin 2, Fits 32 ((a[2 + i.val]).toInt + (b[2 + i.val]).toInt) := by
  rw [vaddl_high_s32_partial, if_ok_iff, ok_vec_iff]
  constructor
  · exact fun h i => fits32.2 ((signExtend_add_iff _ _).1 (h.2 i))
  · exact fun h => ⟨fun i => .inr (h i), fun i => (signExtend_add_iff _ _).2 (fits32.1 (h i))⟩
example := (@vaddl_high_s32_right_iff .strict ⟨fun i => BitVec.ofInt 32 (5 + (i.val : Int))⟩ ⟨fun i => BitVec.ofInt 32 (-7 + (i.val : Int))⟩).2 (by decide +kernel)
example := (@vaddl_high_s32_right_iff .strict ⟨fun i => BitVec.ofInt 32 (2147483640 + (i.val : Int))⟩ ⟨fun i => BitVec.ofInt 32 (30 + (i.val : Int))⟩).not.2 (by decide +kernel)

/-- `vaddl_high_u32` gives the 64-bit sums exactly when the sums are below 2^32. -/
theorem vaddl_high_u32_right_iff [Dialect] (a b : uint32x4_t) :
    vaddl_high_u32 a b = .ok ⟨fun i => (a[2 + i.val]).setWidth 64 + (b[2 + i.val]).setWidth 64⟩ ↔
    ∀ i : Fin 2, (a[2 + i.val]).toNat + (b[2 + i.val]).toNat < 4294967296 := by
  rw [vaddl_high_u32_partial, ok_vec_iff]
  exact forall_congr' fun i => setWidth_add_iff _ _
example := (@vaddl_high_u32_right_iff .strict ⟨fun i => BitVec.ofInt 32 (5 + (i.val : Int))⟩ ⟨fun i => BitVec.ofInt 32 (7 + (i.val : Int))⟩).2 (by decide +kernel)
example := (@vaddl_high_u32_right_iff .strict ⟨fun i => BitVec.ofInt 32 (-20 + (i.val : Int))⟩ ⟨fun i => BitVec.ofInt 32 (30 + (i.val : Int))⟩).not.2 (by decide +kernel)

/-- `vmull_s32` gives the 64-bit products exactly when the products fit in 32 bits. -/
theorem vmull_s32_right_iff [Dialect] (a b : int32x2_t) :
    vmull_s32 a b = .ok ⟨fun i => (a.lane i).signExtend 64 * (b.lane i).signExtend 64⟩ ↔
    ∀ i : Fin 2, Fits 32 ((a.lane i).toInt * (b.lane i).toInt) := by
  rw [vmull_s32_partial, if_ok_iff, ok_vec_iff]
  constructor
  · exact fun h i => fits32.2 ((signExtend_mul_iff _ _).1 (h.2 i))
  · exact fun h => ⟨fun i => .inr (h i), fun i => (signExtend_mul_iff _ _).2 (fits32.1 (h i))⟩
example := (@vmull_s32_right_iff .strict ⟨fun i => BitVec.ofInt 32 (46000 + (i.val : Int))⟩ ⟨fun i => BitVec.ofInt 32 (-46000 + (i.val : Int))⟩).2 (by decide +kernel)
example := (@vmull_s32_right_iff .strict ⟨fun i => BitVec.ofInt 32 (65536 + (i.val : Int))⟩ ⟨fun i => BitVec.ofInt 32 (65536 + (i.val : Int))⟩).not.2 (by decide +kernel)

/-- `vmull_u32` gives the 64-bit products exactly when the products are below 2^32. -/
theorem vmull_u32_right_iff [Dialect] (a b : uint32x2_t) :
    vmull_u32 a b = .ok ⟨fun i => (a.lane i).setWidth 64 * (b.lane i).setWidth 64⟩ ↔
    ∀ i : Fin 2, (a.lane i).toNat * (b.lane i).toNat < 4294967296 := by
  rw [vmull_u32_partial, ok_vec_iff]
  exact forall_congr' fun i => setWidth_mul_iff _ _
example := (@vmull_u32_right_iff .strict ⟨fun i => BitVec.ofInt 32 (65000 + (i.val : Int))⟩ ⟨fun i => BitVec.ofInt 32 (65000 + (i.val : Int))⟩).2 (by decide +kernel)
example := (@vmull_u32_right_iff .strict ⟨fun i => BitVec.ofInt 32 (65536 + (i.val : Int))⟩ ⟨fun i => BitVec.ofInt 32 (65536 + (i.val : Int))⟩).not.2 (by decide +kernel)

/-- `vmull_n_s32` gives the 64-bit products exactly when the products fit in 32 bits. -/
theorem vmull_n_s32_right_iff [Dialect] (N : int32x2_t) (M : int32_t) :
    vmull_n_s32 N M = .ok ⟨fun i => (N.lane i).signExtend 64 * (M).signExtend 64⟩ ↔
    ∀ i : Fin 2, Fits 32 ((N.lane i).toInt * M.toInt) := by
  rw [vmull_n_s32_partial, if_ok_iff, ok_vec_iff]
  constructor
  · exact fun h i => fits32.2 ((signExtend_mul_iff _ _).1 (h.2 i))
  · exact fun h => ⟨fun i => .inr (h i), fun i => (signExtend_mul_iff _ _).2 (fits32.1 (h i))⟩
example := (@vmull_n_s32_right_iff .strict ⟨fun i => BitVec.ofInt 32 (1000 + (i.val : Int))⟩ 77#32).2 (by decide +kernel)
example := (@vmull_n_s32_right_iff .strict ⟨fun i => BitVec.ofInt 32 (65536 + (i.val : Int))⟩ 65536#32).not.2 (by decide +kernel)

/-- `vmull_n_u32` gives the 64-bit products exactly when the products are below 2^32. -/
theorem vmull_n_u32_right_iff [Dialect] (N : uint32x2_t) (M : uint32_t) :
    vmull_n_u32 N M = .ok ⟨fun i => (N.lane i).setWidth 64 * (M).setWidth 64⟩ ↔
    ∀ i : Fin 2, (N.lane i).toNat * M.toNat < 4294967296 := by
  rw [vmull_n_u32_partial, ok_vec_iff]
  exact forall_congr' fun i => setWidth_mul_iff _ _
example := (@vmull_n_u32_right_iff .strict ⟨fun i => BitVec.ofInt 32 (1000 + (i.val : Int))⟩ 77#32).2 (by decide +kernel)
example := (@vmull_n_u32_right_iff .strict ⟨fun i => BitVec.ofInt 32 (65536 + (i.val : Int))⟩ 65536#32).not.2 (by decide +kernel)

/-- `vmlal_s32` accumulates the 64-bit products exactly when the products fit in 32 bits and the accumulation is not a signed overflow. -/
theorem vmlal_s32_right_iff [Dialect] (N : int64x2_t) (M P : int32x2_t) :
    vmlal_s32 N M P = .ok ⟨fun i => N.lane i + (M.lane i).signExtend 64 * (P.lane i).signExtend 64⟩ ↔
    ∀ i : Fin 2, Fits 32 ((M.lane i).toInt * (P.lane i).toInt) ∧
      NoOverflow 64 ((N.lane i).toInt + (M.lane i).toInt * (P.lane i).toInt) := by
  rw [vmlal_s32_partial, if_ok_iff, ok_vec_iff]
  constructor
  · intro h i
    have f1 := (signExtend_mul_iff _ _).1 ((BitVec.add_right_inj _).1 (h.2 i))
    have e := toInt_mul_fits f1
    exact ⟨fits32.2 f1, e ▸ (h.1 i).2⟩
  · intro h
    refine ⟨fun i => ⟨.inr (h i).1, ?_⟩, fun i => ?_⟩
    · rw [toInt_mul_fits (fits32.1 (h i).1)]
      exact (h i).2
    · exact congrArg (N.lane i + ·) ((signExtend_mul_iff _ _).2 (fits32.1 (h i).1))
example := (@vmlal_s32_right_iff .strict ⟨fun i => BitVec.ofInt 64 (-3 + (i.val : Int))⟩ ⟨fun i => BitVec.ofInt 32 (1000 + (i.val : Int))⟩ ⟨fun i => BitVec.ofInt 32 (77 + (i.val : Int))⟩).2 (by decide +kernel)
example := (@vmlal_s32_right_iff .strict ⟨fun i => BitVec.ofInt 64 (-3 + (i.val : Int))⟩ ⟨fun i => BitVec.ofInt 32 (65536 + (i.val : Int))⟩ ⟨fun i => BitVec.ofInt 32 (65536 + (i.val : Int))⟩).not.2 (by decide +kernel)

/-- `vmlal_u32` accumulates the 64-bit products exactly when the products are below 2^32. -/
theorem vmlal_u32_right_iff [Dialect] (N : uint64x2_t) (M P : uint32x2_t) :
    vmlal_u32 N M P = .ok ⟨fun i => N.lane i + (M.lane i).setWidth 64 * (P.lane i).setWidth 64⟩ ↔
    ∀ i : Fin 2, (M.lane i).toNat * (P.lane i).toNat < 4294967296 := by
  rw [vmlal_u32_partial, ok_vec_iff]
  exact forall_congr' fun i => (BitVec.add_right_inj _).trans (setWidth_mul_iff _ _)
example := (@vmlal_u32_right_iff .strict ⟨fun i => BitVec.ofInt 64 (-3 + (i.val : Int))⟩ ⟨fun i => BitVec.ofInt 32 (1000 + (i.val : Int))⟩ ⟨fun i => BitVec.ofInt 32 (77 + (i.val : Int))⟩).2 (by decide +kernel)
example := (@vmlal_u32_right_iff .strict ⟨fun i => BitVec.ofInt 64 (-3 + (i.val : Int))⟩ ⟨fun i => BitVec.ofInt 32 (65536 + (i.val : Int))⟩ ⟨fun i => BitVec.ofInt 32 (65536 + (i.val : Int))⟩).not.2 (by decide +kernel)

/-- `vmlsl_s32` accumulates the 64-bit products exactly when the products fit in 32 bits and the accumulation is not a signed overflow. -/
theorem vmlsl_s32_right_iff [Dialect] (N : int64x2_t) (M P : int32x2_t) :
    vmlsl_s32 N M P = .ok ⟨fun i => N.lane i - (M.lane i).signExtend 64 * (P.lane i).signExtend 64⟩ ↔
    ∀ i : Fin 2, Fits 32 ((M.lane i).toInt * (P.lane i).toInt) ∧
      NoOverflow 64 ((N.lane i).toInt - (M.lane i).toInt * (P.lane i).toInt) := by
  rw [vmlsl_s32_partial, if_ok_iff, ok_vec_iff]
  constructor
  · intro h i
    have f1 := (signExtend_mul_iff _ _).1 ((sub_right_inj_bv _).1 (h.2 i))
    have e := toInt_mul_fits f1
    exact ⟨fits32.2 f1, e ▸ (h.1 i).2⟩
  · intro h
    refine ⟨fun i => ⟨.inr (h i).1, ?_⟩, fun i => ?_⟩
    · rw [toInt_mul_fits (fits32.1 (h i).1)]
      exact (h i).2
    · exact congrArg (N.lane i - ·) ((signExtend_mul_iff _ _).2 (fits32.1 (h i).1))
example := (@vmlsl_s32_right_iff .strict ⟨fun i => BitVec.ofInt 64 (-3 + (i.val : Int))⟩ ⟨fun i => BitVec.ofInt 32 (1000 + (i.val : Int))⟩ ⟨fun i => BitVec.ofInt 32 (77 + (i.val : Int))⟩).2 (by decide +kernel)
example := (@vmlsl_s32_right_iff .strict ⟨fun i => BitVec.ofInt 64 (-3 + (i.val : Int))⟩ ⟨fun i => BitVec.ofInt 32 (65536 + (i.val : Int))⟩ ⟨fun i => BitVec.ofInt 32 (65536 + (i.val : Int))⟩).not.2 (by decide +kernel)

/-- `vmlsl_u32` accumulates the 64-bit products exactly when the products are below 2^32. -/
theorem vmlsl_u32_right_iff [Dialect] (N : uint64x2_t) (M P : uint32x2_t) :
    vmlsl_u32 N M P = .ok ⟨fun i => N.lane i - (M.lane i).setWidth 64 * (P.lane i).setWidth 64⟩ ↔
    ∀ i : Fin 2, (M.lane i).toNat * (P.lane i).toNat < 4294967296 := by
  rw [vmlsl_u32_partial, ok_vec_iff]
  exact forall_congr' fun i => (sub_right_inj_bv _).trans (setWidth_mul_iff _ _)
example := (@vmlsl_u32_right_iff .strict ⟨fun i => BitVec.ofInt 64 (-3 + (i.val : Int))⟩ ⟨fun i => BitVec.ofInt 32 (1000 + (i.val : Int))⟩ ⟨fun i => BitVec.ofInt 32 (77 + (i.val : Int))⟩).2 (by decide +kernel)
example := (@vmlsl_u32_right_iff .strict ⟨fun i => BitVec.ofInt 64 (-3 + (i.val : Int))⟩ ⟨fun i => BitVec.ofInt 32 (65536 + (i.val : Int))⟩ ⟨fun i => BitVec.ofInt 32 (65536 + (i.val : Int))⟩).not.2 (by decide +kernel)

/-- `vhsub_s32` halves the exact differences exactly when the differences fit in 32 bits. -/
theorem vhsub_s32_right_iff [Dialect] (N M : int32x2_t) :
    vhsub_s32 N M = .ok ⟨fun i => BitVec.ofInt 32 (((N.lane i).toInt - (M.lane i).toInt) / 2)⟩ ↔
    ∀ i : Fin 2, Fits 32 ((N.lane i).toInt - (M.lane i).toInt) := by
  rw [vhsub_s32_partial, if_ok_iff, ok_vec_iff]
  constructor
  · exact fun h i => fits32.2 ((sshiftRight_sub_iff _ _).1 (h.2 i))
  · exact fun h => ⟨fun i => .inr (h i), fun i => (sshiftRight_sub_iff _ _).2 (fits32.1 (h i))⟩
example := (@vhsub_s32_right_iff .strict ⟨fun i => BitVec.ofInt 32 (-5 + (i.val : Int))⟩ ⟨fun i => BitVec.ofInt 32 (9 + (i.val : Int))⟩).2 (by decide +kernel)
example := (@vhsub_s32_right_iff .strict ⟨fun i => BitVec.ofInt 32 (-2147483648 + (i.val : Int))⟩ ⟨fun i => BitVec.ofInt 32 (1 + (i.val : Int))⟩).not.2 (by decide +kernel)

/-- `vhsub_u32` halves the exact differences exactly when no difference is negative. -/
theorem vhsub_u32_right_iff [Dialect] (N M : uint32x2_t) :
    vhsub_u32 N M = .ok ⟨fun i => BitVec.ofInt 32 ((((N.lane i).toNat : Int) - ((M.lane i).toNat : Int)) / 2)⟩ ↔
    ∀ i : Fin 2, (M.lane i).toNat ≤ (N.lane i).toNat := by
  rw [vhsub_u32_partial, ok_vec_iff]
  exact forall_congr' fun i => ushiftRight_sub_iff _ _
example := (@vhsub_u32_right_iff .strict ⟨fun i => BitVec.ofInt 32 (9 + (i.val : Int))⟩ ⟨fun i => BitVec.ofInt 32 (4 + (i.val : Int))⟩).2 (by decide +kernel)
example := (@vhsub_u32_right_iff .strict ⟨fun i => BitVec.ofInt 32 (4 + (i.val : Int))⟩ ⟨fun i => BitVec.ofInt 32 (9 + (i.val : Int))⟩).not.2 (by decide +kernel)

/-- `vhsubq_s32` halves the exact differences exactly when the differences fit in 32 bits. -/
theorem vhsubq_s32_right_iff [Dialect] (N M : int32x4_t) :
    vhsubq_s32 N M = .ok ⟨fun i => BitVec.ofInt 32 (((N.lane i).toInt - (M.lane i).toInt) / 2)⟩ ↔
    ∀ i : Fin 4, Fits 32 ((N.lane i).toInt - (M.lane i).toInt) := by
  rw [vhsubq_s32_partial, if_ok_iff, ok_vec_iff]
  constructor
  · exact fun h i => fits32.2 ((sshiftRight_sub_iff _ _).1 (h.2 i))
  · exact fun h => ⟨fun i => .inr (h i), fun i => (sshiftRight_sub_iff _ _).2 (fits32.1 (h i))⟩
example := (@vhsubq_s32_right_iff .strict ⟨fun i => BitVec.ofInt 32 (-5 + (i.val : Int))⟩ ⟨fun i => BitVec.ofInt 32 (9 + (i.val : Int))⟩).2 (by decide +kernel)
example := (@vhsubq_s32_right_iff .strict ⟨fun i => BitVec.ofInt 32 (-2147483648 + (i.val : Int))⟩ ⟨fun i => BitVec.ofInt 32 (1 + (i.val : Int))⟩).not.2 (by decide +kernel)

/-- `vhsubq_u32` halves the exact differences exactly when no difference is negative. -/
theorem vhsubq_u32_right_iff [Dialect] (N M : uint32x4_t) :
    vhsubq_u32 N M = .ok ⟨fun i => BitVec.ofInt 32 ((((N.lane i).toNat : Int) - ((M.lane i).toNat : Int)) / 2)⟩ ↔
    ∀ i : Fin 4, (M.lane i).toNat ≤ (N.lane i).toNat := by
  rw [vhsubq_u32_partial, ok_vec_iff]
  exact forall_congr' fun i => ushiftRight_sub_iff _ _
example := (@vhsubq_u32_right_iff .strict ⟨fun i => BitVec.ofInt 32 (9 + (i.val : Int))⟩ ⟨fun i => BitVec.ofInt 32 (4 + (i.val : Int))⟩).2 (by decide +kernel)
example := (@vhsubq_u32_right_iff .strict ⟨fun i => BitVec.ofInt 32 (4 + (i.val : Int))⟩ ⟨fun i => BitVec.ofInt 32 (9 + (i.val : Int))⟩).not.2 (by decide +kernel)

/-- `vmaxq_u8` gives the larger unsigned lane exactly when the two lanes are on the same side of 2^7. -/
theorem vmaxq_u8_right_iff [Dialect] (N M : int8x16_t) :
    vmaxq_u8 N M = .ok ⟨fun i => BitVec.ofNat 8 (max (N.lane i).toNat (M.lane i).toNat)⟩ ↔
    ∀ i : Fin 16, ((N.lane i).toNat < 128 ↔ (M.lane i).toNat < 128) := by
  rw [vmaxq_u8_partial, ok_vec_iff]
  exact forall_congr' fun i => max_sign_iff8 _ _
example := (@vmaxq_u8_right_iff .strict ⟨fun i => BitVec.ofInt 8 (3 + (i.val : Int))⟩ ⟨fun i => BitVec.ofInt 8 (108 + (i.val : Int))⟩).2 (by decide +kernel)
example := (@vmaxq_u8_right_iff .strict ⟨fun i => BitVec.ofInt 8 (3 + (i.val : Int))⟩ ⟨fun i => BitVec.ofInt 8 (-20 + (i.val : Int))⟩).not.2 (by decide +kernel)

/-- `vmaxq_u16` gives the larger unsigned lane exactly when the two lanes are on the same side of 2^15. -/
theorem vmaxq_u16_right_iff [Dialect] (N M : int16x8_t) :
    vmaxq_u16 N M = .ok ⟨fun i => BitVec.ofNat 16 (max (N.lane i).toNat (M.lane i).toNat)⟩ ↔
    ∀ i : Fin 8, ((N.lane i).toNat < 32768 ↔ (M.lane i).toNat < 32768) := by
  rw [vmaxq_u16_partial, ok_vec_iff]
  exact forall_congr' fun i => max_sign_iff16 _ _
example := (@vmaxq_u16_right_iff .strict ⟨fun i => BitVec.ofInt 16 (3 + (i.val : Int))⟩ ⟨fun i => BitVec.ofInt 16 (32748 + (i.val : Int))⟩).2 (by decide +kernel)
example := (@vmaxq_u16_right_iff .strict ⟨fun i => BitVec.ofInt 16 (3 + (i.val : Int))⟩ ⟨fun i => BitVec.ofInt 16 (-20 + (i.val : Int))⟩).not.2 (by decide +kernel)

/-- `vmaxq_u32` gives the larger unsigned lane exactly when the two lanes are on the same side of 2^31. -/
theorem vmaxq_u32_right_iff [Dialect] (N M : int32x4_t) :
    vmaxq_u32 N M = .ok ⟨fun i => BitVec.ofNat 32 (max (N.lane i).toNat (M.lane i).toNat)⟩ ↔
    ∀ i : Fin 4, ((N.lane i).toNat < 2147483648 ↔ (M.lane i).toNat < 2147483648) := by
  rw [vmaxq_u32_partial, ok_vec_iff]
  exact forall_congr' fun i => max_sign_iff32 _ _
example := (@vmaxq_u32_right_iff .strict ⟨fun i => BitVec.ofInt 32 (3 + (i.val : Int))⟩ ⟨fun i => BitVec.ofInt 32 (2147483628 + (i.val : Int))⟩).2 (by decide +kernel)
example := (@vmaxq_u32_right_iff .strict ⟨fun i => BitVec.ofInt 32 (3 + (i.val : Int))⟩ ⟨fun i => BitVec.ofInt 32 (-20 + (i.val : Int))⟩).not.2 (by decide +kernel)

/-- `vminq_u8` gives the smaller unsigned lane exactly when the two lanes are on the same side of 2^7. -/
theorem vminq_u8_right_iff [Dialect] (N M : int8x16_t) :
    vminq_u8 N M = .ok ⟨fun i => BitVec.ofNat 8 (min (N.lane i).toNat (M.lane i).toNat)⟩ ↔
    ∀ i : Fin 16, ((N.lane i).toNat < 128 ↔ (M.lane i).toNat < 128) := by
  rw [vminq_u8_partial, ok_vec_iff]
  exact forall_congr' fun i => min_sign_iff8 _ _
example := (@vminq_u8_right_iff .strict ⟨fun i => BitVec.ofInt 8 (3 + (i.val : Int))⟩ ⟨fun i => BitVec.ofInt 8 (108 + (i.val : Int))⟩).2 (by decide +kernel)
example := (@vminq_u8_right_iff .strict ⟨fun i => BitVec.ofInt 8 (3 + (i.val : Int))⟩ ⟨fun i => BitVec.ofInt 8 (-20 + (i.val : Int))⟩).not.2 (by decide +kernel)

/-- `vminq_u16` gives the smaller unsigned lane exactly when the two lanes are on the same side of 2^15. -/
theorem vminq_u16_right_iff [Dialect] (N M : int16x8_t) :
    vminq_u16 N M = .ok ⟨fun i => BitVec.ofNat 16 (min (N.lane i).toNat (M.lane i).toNat)⟩ ↔
    ∀ i : Fin 8, ((N.lane i).toNat < 32768 ↔ (M.lane i).toNat < 32768) := by
  rw [vminq_u16_partial, ok_vec_iff]
  exact forall_congr' fun i => min_sign_iff16 _ _
example := (@vminq_u16_right_iff .strict ⟨fun i => BitVec.ofInt 16 (3 + (i.val : Int))⟩ ⟨fun i => BitVec.ofInt 16 (32748 + (i.val : Int))⟩).2 (by decide +kernel)
example := (@vminq_u16_right_iff .strict ⟨fun i => BitVec.ofInt 16 (3 + (i.val : Int))⟩ ⟨fun i => BitVec.ofInt 16 (-20 + (i.val : Int))⟩).not.2 (by decide +kernel)

/-- `vminq_u32` gives the smaller unsigned lane exactly when the two lanes are on the same side of 2^31. -/
theorem vminq_u32_right_iff [Dialect] (N M : int32x4_t) :
    vminq_u32 N M = .ok ⟨fun i => BitVec.ofNat 32 (min (N.lane i).toNat (M.lane i).toNat)⟩ ↔
    ∀ i : Fin 4, ((N.lane i).toNat < 2147483648 ↔ (M.lane i).toNat < 2147483648) := by
  rw [vminq_u32_partial, ok_vec_iff]
  exact forall_congr' fun i => min_sign_iff32 _ _
example := (@vminq_u32_right_iff .strict ⟨fun i => BitVec.ofInt 32 (3 + (i.val : Int))⟩ ⟨fun i => BitVec.ofInt 32 (2147483628 + (i.val : Int))⟩).2 (by decide +kernel)
example := (@vminq_u32_right_iff .strict ⟨fun i => BitVec.ofInt 32 (3 + (i.val : Int))⟩ ⟨fun i => BitVec.ofInt 32 (-20 + (i.val : Int))⟩).not.2 (by decide +kernel)

/-- `vsubn_u32` gives the high halves of the differences exactly when bits 8 to 23 of each difference equal bits 16 to 31. -/
theorem vsubn_u32_right_iff [Dialect] (N M : uint32x4_t) :
    vsubn_u32 N M = .ok ⟨fun i => high 16 (N.lane i - M.lane i)⟩ ↔
    ∀ i : Fin 4, ∀ j, j < 16 → (N.lane i - M.lane i).getLsbD (8 + j) = (N.lane i - M.lane i).getLsbD (16 + j) := by
  rw [vsubn_u32_partial, ok_vec_iff]
  exact forall_congr' fun i => narrow_iff 8 _
example := (@vsubn_u32_right_iff .strict ⟨fun i => BitVec.ofInt 32 (200 + (i.val : Int))⟩ ⟨fun i => BitVec.ofInt 32 (99 + (i.val : Int))⟩).2 (by decide +kernel)
example := (@vsubn_u32_right_iff .strict ⟨fun i => BitVec.ofInt 32 (70000 + (i.val : Int))⟩ ⟨fun i => BitVec.ofInt 32 (1 + (i.val : Int))⟩).not.2 (by decide +kernel)

/-- `vsubn_s32` gives the high halves of the differences exactly when no difference is a signed overflow and bits 8 to 23 of each difference equal bits 16 to 31. -/
theorem vsubn_s32_right_iff [Dialect] (N M : int32x4_t) :
    vsubn_s32 N M = .ok ⟨fun i => high 16 (N.lane i - M.lane i)⟩ ↔
    ∀ i : Fin 4, NoOverflow 32 ((N.lane i).toInt - (M.lane i).toInt) ∧
      ∀ j, j < 16 → (N.lane i - M.lane i).getLsbD (8 + j) = (N.lane i - M.lane i).getLsbD (16 + j) := by
  rw [vsubn_s32_partial, if_ok_iff, ok_vec_iff, ← forall_and]
  exact forall_congr' fun i => and_congr_right fun _ => narrow_s_iff 8 (by decide) _
example := (@vsubn_s32_right_iff .strict ⟨fun i => BitVec.ofInt 32 (200 + (i.val : Int))⟩ ⟨fun i => BitVec.ofInt 32 (99 + (i.val : Int))⟩).2 (by decide +kernel)
example := (@vsubn_s32_right_iff .strict ⟨fun i => BitVec.ofInt 32 (70000 + (i.val : Int))⟩ ⟨fun i => BitVec.ofInt 32 (1 + (i.val : Int))⟩).not.2 (by decide +kernel)

/-- `vaddhn_high_u32` gives the high halves of the sums in its upper lanes exactly when bits 4 to 19 of each sum equal bits 16 to 31. -/
theorem vaddhn_high_u32_right_iff [Dialect] (r : uint16x4_t) (a b : uint32x4_t) :
    vaddhn_high_u32 r a b = .ok ⟨fun i => if h : i.val < 4 then r[i.val] else high 16 (a[i.val - 4] + b[i.val - 4])⟩ ↔
    ∀ k : Fin 4, ∀ j, j < 16 → (a.lane k + b.lane k).getLsbD (4 + j) = (a.lane k + b.lane k).getLsbD (16 + j) := by
  rw [vaddhn_high_u32_partial, ok_vec_iff]
  constructor
  · intro e k
    have := e ⟨4 + k.val, by omega⟩
    rw [dif_neg (by simp), dif_neg (by simp)] at this
    simp only [Nat.add_sub_cancel_left] at this
    exact (narrow_iff 4 _).1 this
  · intro e i
    by_cases hi : i.val < 4
    · rw [dif_pos hi, dif_pos hi]
    · rw [dif_neg hi, dif_neg hi]
      exact (narrow_iff 4 _).2 (e ⟨i.val - 4, by omega⟩)
example := (@vaddhn_high_u32_right_iff .strict ⟨fun i => BitVec.ofInt 16 (9 + (i.val : Int))⟩ ⟨fun i => BitVec.ofInt 32 (8 + (i.val : Int))⟩ ⟨fun i => BitVec.ofInt 32 (-(i.val : Int))⟩).2 (by decide +kernel)
example := (@vaddhn_high_u32_right_iff .strict ⟨fun i => BitVec.ofInt 16 (9 + (i.val : Int))⟩ ⟨fun i => BitVec.ofInt 32 (70000 + (i.val : Int))⟩ ⟨fun i => BitVec.ofInt 32 (70000 + (i.val : Int))⟩).not.2 (by decide +kernel)

/-- `vaddhn_high_s32` gives the high halves of the sums in its upper lanes exactly when no sum is a signed overflow and bits 4 to 19 of each sum equal bits 16 to 31. -/
theorem vaddhn_high_s32_right_iff [Dialect] (r : int16x4_t) (a b : int32x4_t) :
    vaddhn_high_s32 r a b = .ok ⟨fun i => if h : i.val < 4 then r[i.val] else high 16 (a[i.val - 4] + b[i.val - 4])⟩ ↔
    ∀ k : Fin 4, NoOverflow 32 ((a.lane k).toInt + (b.lane k).toInt) ∧
      ∀ j, j < 16 → (a.lane k + b.lane k).getLsbD (4 + j) = (a.lane k + b.lane k).getLsbD (16 + j) := by
  rw [vaddhn_high_s32_partial, if_ok_iff, ok_vec_iff, forall_and]
  refine and_congr_right fun _ => ⟨?_, ?_⟩
  · intro e k
    have := e ⟨4 + k.val, by omega⟩
    rw [dif_neg (by simp), dif_neg (by simp)] at this
    simp only [Nat.add_sub_cancel_left] at this
    exact (narrow_s_iff 4 (by decide) _).1 this
  · intro e i
    by_cases hi : i.val < 4
    · rw [dif_pos hi, dif_pos hi]
    · rw [dif_neg hi, dif_neg hi]
      exact (narrow_s_iff 4 (by decide) _).2 (e ⟨i.val - 4, by omega⟩)
example := (@vaddhn_high_s32_right_iff .strict ⟨fun i => BitVec.ofInt 16 (9 + (i.val : Int))⟩ ⟨fun i => BitVec.ofInt 32 (8 + (i.val : Int))⟩ ⟨fun i => BitVec.ofInt 32 (-(i.val : Int))⟩).2 (by decide +kernel)
example := (@vaddhn_high_s32_right_iff .strict ⟨fun i => BitVec.ofInt 16 (9 + (i.val : Int))⟩ ⟨fun i => BitVec.ofInt 32 (70000 + (i.val : Int))⟩ ⟨fun i => BitVec.ofInt 32 (70000 + (i.val : Int))⟩).not.2 (by decide +kernel)

/-- `vsubn_u64` gives the high halves of the differences exactly when bits 8 to 39 of each difference equal bits 32 to 63. -/
theorem vsubn_u64_right_iff [Dialect] (N M : uint64x2_t) :
    vsubn_u64 N M = .ok ⟨fun i => high 32 (N.lane i - M.lane i)⟩ ↔
    ∀ i : Fin 2, ∀ j, j < 32 → (N.lane i - M.lane i).getLsbD (8 + j) = (N.lane i - M.lane i).getLsbD (32 + j) := by
  rw [vsubn_u64_partial, ok_vec_iff]
  exact forall_congr' fun i => narrow_iff 8 _
example := (@vsubn_u64_right_iff .strict ⟨fun i => BitVec.ofInt 64 (200 + (i.val : Int))⟩ ⟨fun i => BitVec.ofInt 64 (99 + (i.val : Int))⟩).2 (by decide +kernel)
example := (@vsubn_u64_right_iff .strict ⟨fun i => BitVec.ofInt 64 (70000 + (i.val : Int))⟩ ⟨fun i => BitVec.ofInt 64 (1 + (i.val : Int))⟩).not.2 (by decide +kernel)

/-- `vsubn_s64` gives the high halves of the differences exactly when no difference is a signed overflow and bits 8 to 39 of each difference equal bits 32 to 63. -/
theorem vsubn_s64_right_iff [Dialect] (N M : int64x2_t) :
    vsubn_s64 N M = .ok ⟨fun i => high 32 (N.lane i - M.lane i)⟩ ↔
    ∀ i : Fin 2, NoOverflow 64 ((N.lane i).toInt - (M.lane i).toInt) ∧
      ∀ j, j < 32 → (N.lane i - M.lane i).getLsbD (8 + j) = (N.lane i - M.lane i).getLsbD (32 + j) := by
  rw [vsubn_s64_partial, if_ok_iff, ok_vec_iff, ← forall_and]
  exact forall_congr' fun i => and_congr_right fun _ => narrow_s_iff 8 (by decide) _
example := (@vsubn_s64_right_iff .strict ⟨fun i => BitVec.ofInt 64 (200 + (i.val : Int))⟩ ⟨fun i => BitVec.ofInt 64 (99 + (i.val : Int))⟩).2 (by decide +kernel)
example := (@vsubn_s64_right_iff .strict ⟨fun i => BitVec.ofInt 64 (70000 + (i.val : Int))⟩ ⟨fun i => BitVec.ofInt 64 (1 + (i.val : Int))⟩).not.2 (by decide +kernel)

/-- `vaddhn_high_u64` gives the high halves of the sums in its upper lanes exactly when bits 2 to 33 of each sum equal bits 32 to 63. -/
theorem vaddhn_high_u64_right_iff [Dialect] (r : uint32x2_t) (a b : uint64x2_t) :
    vaddhn_high_u64 r a b = .ok ⟨fun i => if h : i.val < 2 then r[i.val] else high 32 (a[i.val - 2] + b[i.val - 2])⟩ ↔
    ∀ k : Fin 2, ∀ j, j < 32 → (a.lane k + b.lane k).getLsbD (2 + j) = (a.lane k + b.lane k).getLsbD (32 + j) := by
  rw [vaddhn_high_u64_partial, ok_vec_iff]
  constructor
  · intro e k
    have := e ⟨2 + k.val, by omega⟩
    rw [dif_neg (by simp), dif_neg (by simp)] at this
    simp only [Nat.add_sub_cancel_left] at this
    exact (narrow_iff 2 _).1 this
  · intro e i
    by_cases hi : i.val < 2
    · rw [dif_pos hi, dif_pos hi]
    · rw [dif_neg hi, dif_neg hi]
      exact (narrow_iff 2 _).2 (e ⟨i.val - 2, by omega⟩)
example := (@vaddhn_high_u64_right_iff .strict ⟨fun i => BitVec.ofInt 32 (9 + (i.val : Int))⟩ ⟨fun i => BitVec.ofInt 64 (2 + (i.val : Int))⟩ ⟨fun i => BitVec.ofInt 64 (-(i.val : Int))⟩).2 (by decide +kernel)
example := (@vaddhn_high_u64_right_iff .strict ⟨fun i => BitVec.ofInt 32 (9 + (i.val : Int))⟩ ⟨fun i => BitVec.ofInt 64 (70000 + (i.val : Int))⟩ ⟨fun i => BitVec.ofInt 64 (70000 + (i.val : Int))⟩).not.2 (by decide +kernel)

/-- `vaddhn_high_s64` gives the high halves of the sums in its upper lanes exactly when no sum is a signed overflow and bits 2 to 33 of each sum equal bits 32 to 63. -/
theorem vaddhn_high_s64_right_iff [Dialect] (r : int32x2_t) (a b : int64x2_t) :
    vaddhn_high_s64 r a b = .ok ⟨fun i => if h : i.val < 2 then r[i.val] else high 32 (a[i.val - 2] + b[i.val - 2])⟩ ↔
    ∀ k : Fin 2, NoOverflow 64 ((a.lane k).toInt + (b.lane k).toInt) ∧
      ∀ j, j < 32 → (a.lane k + b.lane k).getLsbD (2 + j) = (a.lane k + b.lane k).getLsbD (32 + j) := by
  rw [vaddhn_high_s64_partial, if_ok_iff, ok_vec_iff, forall_and]
  refine and_congr_right fun _ => ⟨?_, ?_⟩
  · intro e k
    have := e ⟨2 + k.val, by omega⟩
    rw [dif_neg (by simp), dif_neg (by simp)] at this
    simp only [Nat.add_sub_cancel_left] at this
    exact (narrow_s_iff 2 (by decide) _).1 this
  · intro e i
    by_cases hi : i.val < 2
    · rw [dif_pos hi, dif_pos hi]
    · rw [dif_neg hi, dif_neg hi]
      exact (narrow_s_iff 2 (by decide) _).2 (e ⟨i.val - 2, by omega⟩)
example := (@vaddhn_high_s64_right_iff .strict ⟨fun i => BitVec.ofInt 32 (9 + (i.val : Int))⟩ ⟨fun i => BitVec.ofInt 64 (2 + (i.val : Int))⟩ ⟨fun i => BitVec.ofInt 64 (-(i.val : Int))⟩).2 (by decide +kernel)
example := (@vaddhn_high_s64_right_iff .strict ⟨fun i => BitVec.ofInt 32 (9 + (i.val : Int))⟩ ⟨fun i => BitVec.ofInt 64 (70000 + (i.val : Int))⟩ ⟨fun i => BitVec.ofInt 64 (70000 + (i.val : Int))⟩).not.2 (by decide +kernel)

/-- `vrsubhn_s64` is right for no operands. -/
theorem vrsubhn_s64_never_right [Dialect] (N M : int64x2_t) :
    vrsubhn_s64 N M ≠ .ok ⟨fun i => high 32 (N.lane i - M.lane i + 2147483648#64)⟩ := by
  intro h
  rw [vrsubhn_s64_partial, if_ok_iff, ok_vec_iff] at h
  exact rsubhn_ne _ (h.2 0)

/-- `vrsubhn_u64` is right for no operands. -/
theorem vrsubhn_u64_never_right [Dialect] (N M : uint64x2_t) :
    vrsubhn_u64 N M ≠ .ok ⟨fun i => high 32 (N.lane i - M.lane i + 2147483648#64)⟩ := by
  intro h
  rw [vrsubhn_u64_partial, ok_vec_iff] at h
  exact rsubhn_ne _ (h 0)

/-- `vsraq_n_s32` (which also shifts the accumulator) is right exactly when every lane of the accumulator is 0 or -1. -/
theorem vsraq_n_s32_right_iff [Dialect] (a b : int32x4_t) (n : Nat) (h1 : 1 ≤ n) (h2 : n ≤ 31) :
    vsraq_n_s32 a b n = .ok ⟨fun i => a.lane i + (b.lane i).sshiftRight n⟩ ↔
    ∀ i : Fin 4, a.lane i = 0#32 ∨ a.lane i = BitVec.allOnes 32 := by
  rw [vsraq_n_s32_partial a b n h1 h2, ok_vec_iff]
  exact forall_congr' fun i => sra_iff _ _ n h1
example := (@vsraq_n_s32_right_iff .strict ⟨fun i => if i = 0 then 0#32 else -1#32⟩ ⟨fun i => BitVec.ofInt 32 (500 + (i.val : Int))⟩ 3 (by decide) (by decide)).2 (by decide +kernel)
example := (@vsraq_n_s32_right_iff .strict ⟨fun i => BitVec.ofInt 32 (1 + (i.val : Int))⟩ ⟨fun i => BitVec.ofInt 32 (500 + (i.val : Int))⟩ 3 (by decide) (by decide)).not.2 (by decide +kernel)

/-- `vshr_n_u16` is right exactly for the shifts up to 8, of the shifts up to 16 that the intrinsic has. -/
theorem vshr_n_u16_right_iff [Dialect] (v : uint16x4_t) (n : Nat) (h1 : 1 ≤ n) (h2 : n ≤ 16) :
    vshr_n_u16 v n = .ok ⟨fun i => (v.lane i) >>> n⟩ ↔
    n ≤ 8 := by
  constructor
  · intro h
    by_contra hn
    exact vshr_n_u16_wrong v n (by omega) h2 h
  · exact vshr_n_u16_partial v n h1
example := (@vshr_n_u16_right_iff .strict ⟨fun i => BitVec.ofInt 16 (500 + (i.val : Int))⟩ 8 (by decide) (by decide)).2 (by decide +kernel)
example := (@vshr_n_u16_right_iff .strict ⟨fun i => BitVec.ofInt 16 (500 + (i.val : Int))⟩ 9 (by decide) (by decide)).not.2 (by decide +kernel)

/-- `vqshrn_n_s64` saturates correctly exactly when no shifted lane is above 2^31-1, except for shifted lanes whose low 32 bits happen to be 0x7fffffff. -/
theorem vqshrn_n_s64_right_iff [Dialect] (a : int64x2_t) (n : Nat) (h1 : 1 ≤ n) (h2 : n ≤ 32) :
    vqshrn_n_s64 a n = .ok ⟨fun i => ssat 32 ((a.lane i).toInt / 2 ^ n)⟩ ↔
    ∀ i : Fin 2, (a.lane i).toInt / 2 ^ n ≤ 2147483647 ∨ (a.lane i).toInt / 2 ^ n % 4294967296 = 2147483647 := by
  rw [vqshrn_n_s64_partial a n h1 h2, ok_vec_iff]
  refine forall_congr' fun i => ssat_iff _
example := (@vqshrn_n_s64_right_iff .strict ⟨fun i => BitVec.ofInt 64 (-4611686018427387904 + (i.val : Int))⟩ 5 (by decide) (by decide)).2 (by decide +kernel)
example := (@vqshrn_n_s64_right_iff .strict ⟨fun i => BitVec.ofInt 64 (4611686018427387904 + (i.val : Int))⟩ 5 (by decide) (by decide)).not.2 (by decide +kernel)

/-- `vqtbl1_u8` gives the table entries, and 0 for an index of 16 or more, exactly when there is no such index. -/
theorem vqtbl1_u8_right_iff [Dialect] (t : uint8x16_t) (idx : uint8x8_t) :
    vqtbl1_u8 t idx = .ok ⟨fun i => if h : (idx.lane i).toNat < 16 then t[(idx.lane i).toNat] else 0#8⟩ ↔
    ∀ i : Fin 8, (idx.lane i).toNat < 16 := by
  rw [vqtbl1_u8_partial, if_ok_iff]
  exact and_iff_left rfl
example := (@vqtbl1_u8_right_iff .strict ⟨fun i => BitVec.ofInt 8 (100 + (i.val : Int))⟩ ⟨fun i => BitVec.ofInt 8 (8 + (i.val : Int))⟩).2 (by decide +kernel)
example := (@vqtbl1_u8_right_iff .strict ⟨fun i => BitVec.ofInt 8 (100 + (i.val : Int))⟩ ⟨fun i => BitVec.ofInt 8 (9 + (i.val : Int))⟩).not.2 (by decide +kernel)

end Verif.Props
