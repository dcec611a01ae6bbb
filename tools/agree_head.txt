/-
C80: for the intrinsics that the simulator gets wrong, exactly which operands it gets right.

Each theorem compares the call with the result the architecture defines for the same operands and gives
the condition on the operands that is necessary and sufficient for the two to be equal.
-/
import Verif.Props.Widen
import Verif.Props.NarrowHigh
import Verif.Props.Mul
import Verif.Props.MaxMin
import Verif.Props.Shift
import Verif.Props.Select
import Verif.Props.Perm
import Mathlib.Tactic.Linarith
import Mathlib.Tactic.NormNum

namespace Verif.Props
open Verif.Model Verif.Spec



theorem ok_vec_iff {e : Elem} {n : Nat} {f g : Fin n → BitVec e.bits} :
    ((C.ok ⟨f⟩ : C (Vec e n)) = .ok ⟨g⟩) ↔ ∀ i, f i = g i := by
  constructor
  · intro h i
    cases h
    rfl
  · intro h
    rw [funext h]

theorem if_ok_iff {α : Type} {P : Prop} [Decidable P] {x y : α} {u : UB} :
    ((if P then C.ok x else .ub u) = .ok y) ↔ P ∧ (C.ok x = C.ok y) := by
  by_cases h : P
  · simp [h]
  · simp [h]



theorem signExtend_add_iff (x y : BitVec 32) : (x + y).signExtend 64 = x.signExtend 64 + y.signExtend 64 ↔
    -2147483648 ≤ x.toInt + y.toInt ∧ x.toInt + y.toInt ≤ 2147483647 := by
  have h1 := BitVec.toInt_lt (x := x); have h2 := BitVec.le_toInt x
  have h3 := BitVec.toInt_lt (x := y); have h4 := BitVec.le_toInt y
  rw [← BitVec.toInt_inj, BitVec.toInt_signExtend_of_le (by decide), BitVec.toInt_add, BitVec.toInt_add,
    BitVec.toInt_signExtend_of_le (by decide), BitVec.toInt_signExtend_of_le (by decide)]
  simp only [Int.bmod]
  norm_num at *
  omega

theorem signExtend_mul_iff (x y : BitVec 32) : (x * y).signExtend 64 = x.signExtend 64 * y.signExtend 64 ↔
    -2147483648 ≤ x.toInt * y.toInt ∧ x.toInt * y.toInt ≤ 2147483647 := by
  have h1 := BitVec.toInt_lt (x := x); have h2 := BitVec.le_toInt x
  have h3 := BitVec.toInt_lt (x := y); have h4 := BitVec.le_toInt y
  rw [← BitVec.toInt_inj, BitVec.toInt_signExtend_of_le (by decide), BitVec.toInt_mul, BitVec.toInt_mul,
    BitVec.toInt_signExtend_of_le (by decide), BitVec.toInt_signExtend_of_le (by decide)]
  have : -4611686018427387904 ≤ x.toInt * y.toInt ∧ x.toInt * y.toInt ≤ 4611686018427387904 := by
    norm_num at *
    constructor <;> nlinarith
  generalize x.toInt * y.toInt = p at *
  simp only [Int.bmod]
  norm_num at *
  omega

theorem setWidth_add_iff (x y : BitVec 32) : (x + y).setWidth 64 = x.setWidth 64 + y.setWidth 64 ↔ x.toNat + y.toNat < 4294967296 := by
  rw [← BitVec.toNat_inj]
  simp only [BitVec.toNat_setWidth, BitVec.toNat_add]
  have := x.isLt; have := y.isLt
  omega

theorem setWidth_mul_iff (x y : BitVec 32) : (x * y).setWidth 64 = x.setWidth 64 * y.setWidth 64 ↔ x.toNat * y.toNat < 4294967296 := by
  rw [← BitVec.toNat_inj]
  simp only [BitVec.toNat_setWidth, BitVec.toNat_mul]
  have h1 := x.isLt; have h2 := y.isLt
  have : x.toNat * y.toNat < 18446744073709551616 := by
    norm_num at *
    nlinarith
  rw [Nat.mod_eq_of_lt (a := x.toNat) (by omega), Nat.mod_eq_of_lt (a := y.toNat) (by omega)]
  generalize x.toNat * y.toNat = p at *
  omega

theorem sshiftRight_sub_iff (x y : BitVec 32) :
    (x - y).sshiftRight 1 = BitVec.ofInt 32 ((x.toInt - y.toInt) / 2) ↔
    -2147483648 ≤ x.toInt - y.toInt ∧ x.toInt - y.toInt ≤ 2147483647 := by
  have h1 := BitVec.toInt_lt (x := x); have h2 := BitVec.le_toInt x
  have h3 := BitVec.toInt_lt (x := y); have h4 := BitVec.le_toInt y
  rw [← BitVec.toInt_inj, BitVec.toInt_sshiftRight, BitVec.toInt_sub, BitVec.toInt_ofInt, Int.shiftRight_eq_div_pow]
  simp only [Int.bmod]
  norm_num at *
  omega

theorem ushiftRight_sub_iff (x y : BitVec 32) :
    (x - y) >>> 1 = BitVec.ofInt 32 (((x.toNat : Int) - (y.toNat : Int)) / 2) ↔ y.toNat ≤ x.toNat := by
  have h1 := x.isLt; have h2 := y.isLt
  rw [← BitVec.toNat_inj, BitVec.toNat_ushiftRight, BitVec.toNat_sub, BitVec.toNat_ofInt, Nat.shiftRight_eq_div_pow]
  norm_num at *
  omega

theorem max_sign_iff8 (x y : BitVec 8) :
    BitVec.ofInt 8 (max x.toInt y.toInt) = BitVec.ofNat 8 (max x.toNat y.toNat) ↔ (x.toNat < 128 ↔ y.toNat < 128) := by
  have h1 := x.isLt; have h2 := y.isLt
  rw [← BitVec.toNat_inj, BitVec.toNat_ofInt, BitVec.toNat_ofNat, BitVec.toInt_eq_toNat_cond, BitVec.toInt_eq_toNat_cond]
  norm_num at *
  omega

theorem max_sign_iff16 (x y : BitVec 16) :
    BitVec.ofInt 16 (max x.toInt y.toInt) = BitVec.ofNat 16 (max x.toNat y.toNat) ↔ (x.toNat < 32768 ↔ y.toNat < 32768) := by
  have h1 := x.isLt; have h2 := y.isLt
  rw [← BitVec.toNat_inj, BitVec.toNat_ofInt, BitVec.toNat_ofNat, BitVec.toInt_eq_toNat_cond, BitVec.toInt_eq_toNat_cond]
  norm_num at *
  omega

theorem max_sign_iff32 (x y : BitVec 32) :
    BitVec.ofInt 32 (max x.toInt y.toInt) = BitVec.ofNat 32 (max x.toNat y.toNat) ↔ (x.toNat < 2147483648 ↔ y.toNat < 2147483648) := by
  have h1 := x.isLt; have h2 := y.isLt
  rw [← BitVec.toNat_inj, BitVec.toNat_ofInt, BitVec.toNat_ofNat, BitVec.toInt_eq_toNat_cond, BitVec.toInt_eq_toNat_cond]
  norm_num at *
  omega

theorem min_sign_iff8 (x y : BitVec 8) :
    BitVec.ofInt 8 (min x.toInt y.toInt) = BitVec.ofNat 8 (min x.toNat y.toNat) ↔ (x.toNat < 128 ↔ y.toNat < 128) := by
  have h1 := x.isLt; have h2 := y.isLt
  rw [← BitVec.toNat_inj, BitVec.toNat_ofInt, BitVec.toNat_ofNat, BitVec.toInt_eq_toNat_cond, BitVec.toInt_eq_toNat_cond]
  norm_num at *
  omega

theorem min_sign_iff16 (x y : BitVec 16) :
    BitVec.ofInt 16 (min x.toInt y.toInt) = BitVec.ofNat 16 (min x.toNat y.toNat) ↔ (x.toNat < 32768 ↔ y.toNat < 32768) := by
  have h1 := x.isLt; have h2 := y.isLt
  rw [← BitVec.toNat_inj, BitVec.toNat_ofInt, BitVec.toNat_ofNat, BitVec.toInt_eq_toNat_cond, BitVec.toInt_eq_toNat_cond]
  norm_num at *
  omega

theorem min_sign_iff32 (x y : BitVec 32) :
    BitVec.ofInt 32 (min x.toInt y.toInt) = BitVec.ofNat 32 (min x.toNat y.toNat) ↔ (x.toNat < 2147483648 ↔ y.toNat < 2147483648) := by
  have h1 := x.isLt; have h2 := y.isLt
  rw [← BitVec.toNat_inj, BitVec.toNat_ofInt, BitVec.toNat_ofNat, BitVec.toInt_eq_toNat_cond, BitVec.toInt_eq_toNat_cond]
  norm_num at *
  omega

theorem narrow_iff {w h : Nat} (s : Nat) (d : BitVec w) :
    (d >>> s).setWidth h = high h d ↔ ∀ j, j < h → d.getLsbD (s + j) = d.getLsbD (h + j) := by
  unfold high
  constructor
  · intro e j hj
    have := congrArg (fun x => x.getLsbD j) e
    simpa [hj] using this
  · intro e
    refine BitVec.eq_of_getLsbD_eq fun j hj => ?_
    simpa [hj] using e j hj

theorem narrow_s_iff {w h : Nat} (s : Nat) (hs : s + h ≤ w) (d : BitVec w) :
    (d.sshiftRight s).setWidth h = high h d ↔ ∀ j, j < h → d.getLsbD (s + j) = d.getLsbD (h + j) := by
  rw [← narrow_iff]
  have : (d.sshiftRight s).setWidth h = (d >>> s).setWidth h := by
    refine BitVec.eq_of_getLsbD_eq fun j hj => ?_
    rw [BitVec.getLsbD_setWidth, BitVec.getLsbD_setWidth, BitVec.getLsbD_sshiftRight, BitVec.getLsbD_ushiftRight]
    rw [if_pos (by omega)]
    have : decide (w ≤ j) = false := by simp; omega
    rw [this]
    rfl
  rw [this]

theorem sra_iff (x b : BitVec 32) (n : Nat) (h1 : 1 ≤ n) :
    x.sshiftRight n + b = x + b ↔ x = 0#32 ∨ x = BitVec.allOnes 32 := by
  have h3 := BitVec.toInt_lt (x := x); have h4 := BitVec.le_toInt x
  rw [BitVec.add_left_inj, ← BitVec.toInt_inj, BitVec.toInt_sshiftRight, Int.shiftRight_eq_div_pow,
    ← BitVec.toInt_inj, ← BitVec.toInt_inj]
  have e0 : (0#32).toInt = 0 := by decide
  have e1 : (BitVec.allOnes 32).toInt = -1 := by decide
  rw [e0, e1]
  generalize x.toInt = v at *
  have hp : (2 : Int) ≤ 2 ^ n := by
    calc (2 : Int) = 2 ^ 1 := by norm_num
      _ ≤ 2 ^ n := pow_le_pow_right₀ (by norm_num) h1
  push_cast
  generalize (2 : Int) ^ n = p at *
  constructor
  · intro e
    have a1 := Int.mul_ediv_add_emod v p
    have a2 := Int.emod_nonneg v (show p ≠ 0 by omega)
    have a3 := Int.emod_lt_of_pos v (show 0 < p by omega)
    rw [e] at a1
    by_contra hc
    rcases lt_trichotomy v 0 with hv | hv | hv
    · have : v ≤ -2 := by omega
      nlinarith
    · omega
    · nlinarith
  · rintro (rfl | rfl)
    · simp
    · exact Int.ediv_eq_iff_of_pos (by omega) |>.2 (by constructor <;> nlinarith)

theorem ssat_iff (v : Int) :
    BitVec.ofInt 32 (max v (-2147483648)) = ssat 32 v ↔ v ≤ 2147483647 ∨ v % 4294967296 = 2147483647 := by
  unfold ssat clamp
  rw [← BitVec.toNat_inj, BitVec.toNat_ofInt, BitVec.toNat_ofInt]
  norm_num at *
  omega

theorem fits32 {v : Int} : Fits 32 v ↔ -2147483648 ≤ v ∧ v ≤ 2147483647 := by
  unfold Fits
  norm_num

theorem bmod_fits {p : Int} (h : -2147483648 ≤ p ∧ p ≤ 2147483647) : p.bmod 4294967296 = p := by
  simp only [Int.bmod]
  norm_num
  omega

theorem toInt_mul_fits {x y : BitVec 32} (h : -2147483648 ≤ x.toInt * y.toInt ∧ x.toInt * y.toInt ≤ 2147483647) :
    (x * y).toInt = x.toInt * y.toInt := by
  exact (BitVec.toInt_mul x y).trans (bmod_fits h)

theorem sub_right_inj_bv (z : BitVec 64) {x y : BitVec 64} : z - x = z - y ↔ x = y := by
  constructor
  · intro h
    have h := congrArg BitVec.toNat h
    simp only [BitVec.toNat_sub] at h
    have := x.isLt; have := y.isLt; have := z.isLt
    refine BitVec.eq_of_toNat_eq ?_
    omega
  · exact fun h => h ▸ rfl

theorem sub_one_ne (y : BitVec 32) : y - 1#32 ≠ y := by
  intro h
  have h := congrArg BitVec.toNat h
  simp only [BitVec.toNat_sub, BitVec.toNat_ofNat] at h
  have := y.isLt
  omega

theorem rsubhn_ne (d : BitVec 64) : high 32 (d + 18446744071562067968#64) ≠ high 32 (d + 2147483648#64) := by
  intro h
  exact sub_one_ne _ ((off_by_one d).symm.trans h)
