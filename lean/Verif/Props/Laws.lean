import Verif.Fill
import Verif.Laws
import Verif.Props.AddSub
import Verif.Props.Widen
import Verif.Props.Mul
import Verif.Props.MaxMin
import Verif.Props.Move
import Verif.Props.Saturate
/-! # Laws relating several intrinsics (C29, C61, C63, C64)

Both sides of an equation are the outcomes of calls: the equation says that they return the same register, or
are undefined in the same cases.

Generated by `tools/gen_props.py`. -/

set_option linter.unusedSimpArgs false
set_option linter.unusedVariables false

namespace Verif.Props
open Verif.Model Verif.Spec

theorem toInt_smull16 (a b : BitVec 16) : (a.signExtend 32 * b.signExtend 32).toInt = a.toInt * b.toInt := by
  have := smul16 a b
  rw [BitVec.toInt_mul, BitVec.toInt_signExtend_of_le (by decide), BitVec.toInt_signExtend_of_le (by decide)]
  exact bmod32 (by omega)
theorem mul_sub' {w : Nat} (a b c : BitVec w) : a * (b - c) = a * b - a * c := by
  rw [BitVec.sub_eq_add_neg, BitVec.mul_add, BitVec.mul_neg, ← BitVec.sub_eq_add_neg]
theorem mla_add [Dialect] {a b c : BitVec 32} (h : NoOverflow 32 (b.toInt * c.toInt)) :
    NoOverflow 32 (a.toInt + (b * c).toInt) = NoOverflow 32 (a.toInt + b.toInt * c.toInt) := by
  rcases h with h | h
  · simp only [NoOverflow, h, true_or]
  · rw [fits32] at h
    rw [BitVec.toInt_mul, show (2 : Nat) ^ 32 = 4294967296 from rfl, bmod32 h]
theorem ssat_sub_fits {w : Nat} {a b : BitVec w} (h : Fits w (a.toInt - b.toInt)) : ssat w (a.toInt - b.toInt) = a - b := by
  have e : clamp (-2 ^ (w - 1)) (2 ^ (w - 1) - 1) (a.toInt - b.toInt) = a.toInt - b.toInt := by
    unfold Fits at h; unfold clamp; omega
  rw [ssat, e, ofInt_sub, BitVec.ofInt_toInt, BitVec.ofInt_toInt]

/-- `vmaxq_s8` is commutative. -/
theorem vmaxq_s8_comm [Dialect] (a b : int8x16_t) : vmaxq_s8 a b = vmaxq_s8 b a := by
  simp only [vmaxq_s8_spec, vminq_s8_spec, ok_bind]
  refine ok_vec ?_
  intro i
  try simp only [toInt_max, toInt_min]
  refine congrArg (BitVec.ofInt 8) ?_
  omega

/-- `vmaxq_s8` is associative. -/
theorem vmaxq_s8_assoc [Dialect] (a b c : int8x16_t) :
    (do vmaxq_s8 (← vmaxq_s8 a b) c) = (do vmaxq_s8 a (← vmaxq_s8 b c)) := by
  simp only [vmaxq_s8_spec, vminq_s8_spec, ok_bind]
  refine ok_vec ?_
  intro i
  try simp only [toInt_max, toInt_min]
  refine congrArg (BitVec.ofInt 8) ?_
  omega

/-- `vmaxq_s8` is idempotent. -/
theorem vmaxq_s8_self [Dialect] (a : int8x16_t) : vmaxq_s8 a a = .ok a := by
  simp only [vmaxq_s8_spec, vminq_s8_spec, ok_bind]
  refine ok_vec' ?_
  intro i
  try simp only [toInt_max, toInt_min]
  refine Eq.trans (congrArg (BitVec.ofInt 8) ?_) BitVec.ofInt_toInt
  omega

/-- `vmaxq_s8` absorbs `vminq_s8`. -/
theorem vmaxq_s8_absorb [Dialect] (a b : int8x16_t) : (do vmaxq_s8 a (← vminq_s8 a b)) = .ok a := by
  simp only [vmaxq_s8_spec, vminq_s8_spec, ok_bind]
  refine ok_vec' ?_
  intro i
  try simp only [toInt_max, toInt_min]
  refine Eq.trans (congrArg (BitVec.ofInt 8) ?_) BitVec.ofInt_toInt
  omega

/-- `vmaxq_s8` distributes over `vminq_s8`. -/
theorem vmaxq_s8_distrib [Dialect] (a b c : int8x16_t) :
    (do vmaxq_s8 a (← vminq_s8 b c)) = (do vminq_s8 (← vmaxq_s8 a b) (← vmaxq_s8 a c)) := by
  simp only [vmaxq_s8_spec, vminq_s8_spec, ok_bind]
  refine ok_vec ?_
  intro i
  try simp only [toInt_max, toInt_min]
  refine congrArg (BitVec.ofInt 8) ?_
  omega

/-- `vminq_s8` is commutative. -/
theorem vminq_s8_comm (a b : int8x16_t) : vminq_s8 a b = vminq_s8 b a := by
  simp only [vmaxq_s8_spec, vminq_s8_spec, ok_bind]
  refine ok_vec ?_
  intro i
  try simp only [toInt_max, toInt_min]
  refine congrArg (BitVec.ofInt 8) ?_
  omega

/-- `vminq_s8` is associative. -/
theorem vminq_s8_assoc (a b c : int8x16_t) :
    (do vminq_s8 (← vminq_s8 a b) c) = (do vminq_s8 a (← vminq_s8 b c)) := by
  simp only [vmaxq_s8_spec, vminq_s8_spec, ok_bind]
  refine ok_vec ?_
  intro i
  try simp only [toInt_max, toInt_min]
  refine congrArg (BitVec.ofInt 8) ?_
  omega

/-- `vminq_s8` is idempotent. -/
theorem vminq_s8_self (a : int8x16_t) : vminq_s8 a a = .ok a := by
  simp only [vmaxq_s8_spec, vminq_s8_spec, ok_bind]
  refine ok_vec' ?_
  intro i
  try simp only [toInt_max, toInt_min]
  refine Eq.trans (congrArg (BitVec.ofInt 8) ?_) BitVec.ofInt_toInt
  omega

/-- `vminq_s8` absorbs `vmaxq_s8`. -/
theorem vminq_s8_absorb [Dialect] (a b : int8x16_t) : (do vminq_s8 a (← vmaxq_s8 a b)) = .ok a := by
  simp only [vmaxq_s8_spec, vminq_s8_spec, ok_bind]
  refine ok_vec' ?_
  intro i
  try simp only [toInt_max, toInt_min]
  refine Eq.trans (congrArg (BitVec.ofInt 8) ?_) BitVec.ofInt_toInt
  omega

/-- `vminq_s8` distributes over `vmaxq_s8`. -/
theorem vminq_s8_distrib [Dialect] (a b c : int8x16_t) :
    (do vminq_s8 a (← vmaxq_s8 b c)) = (do vmaxq_s8 (← vminq_s8 a b) (← vminq_s8 a c)) := by
  simp only [vmaxq_s8_spec, vminq_s8_spec, ok_bind]
  refine ok_vec ?_
  intro i
  try simp only [toInt_max, toInt_min]
  refine congrArg (BitVec.ofInt 8) ?_
  omega

/-- `vmaxq_s16` is commutative. -/
theorem vmaxq_s16_comm [Dialect] (a b : int16x8_t) : vmaxq_s16 a b = vmaxq_s16 b a := by
  simp only [vmaxq_s16_spec, vminq_s16_spec, ok_bind]
  refine ok_vec ?_
  intro i
  try simp only [toInt_max, toInt_min]
  refine congrArg (BitVec.ofInt 16) ?_
  omega

/-- `vmaxq_s16` is associative. -/
theorem vmaxq_s16_assoc [Dialect] (a b c : int16x8_t) :
    (do vmaxq_s16 (← vmaxq_s16 a b) c) = (do vmaxq_s16 a (← vmaxq_s16 b c)) := by
  simp only [vmaxq_s16_spec, vminq_s16_spec, ok_bind]
  refine ok_vec ?_
  intro i
  try simp only [toInt_max, toInt_min]
  refine congrArg (BitVec.ofInt 16) ?_
  omega

/-- `vmaxq_s16` is idempotent. -/
theorem vmaxq_s16_self [Dialect] (a : int16x8_t) : vmaxq_s16 a a = .ok a := by
  simp only [vmaxq_s16_spec, vminq_s16_spec, ok_bind]
  refine ok_vec' ?_
  intro i
  try simp only [toInt_max, toInt_min]
  refine Eq.trans (congrArg (BitVec.ofInt 16) ?_) BitVec.ofInt_toInt
  omega

/-- `vmaxq_s16` absorbs `vminq_s16`. -/
theorem vmaxq_s16_absorb [Dialect] (a b : int16x8_t) : (do vmaxq_s16 a (← vminq_s16 a b)) = .ok a := by
  simp only [vmaxq_s16_spec, vminq_s16_spec, ok_bind]
  refine ok_vec' ?_
  intro i
  try simp only [toInt_max, toInt_min]
  refine Eq.trans (congrArg (BitVec.ofInt 16) ?_) BitVec.ofInt_toInt
  omega

/-- `vmaxq_s16` distributes over `vminq_s16`. -/
theorem vmaxq_s16_distrib [Dialect] (a b c : int16x8_t) :
    (do vmaxq_s16 a (← vminq_s16 b c)) = (do vminq_s16 (← vmaxq_s16 a b) (← vmaxq_s16 a c)) := by
  simp only [vmaxq_s16_spec, vminq_s16_spec, ok_bind]
  refine ok_vec ?_
  intro i
  try simp only [toInt_max, toInt_min]
  refine congrArg (BitVec.ofInt 16) ?_
  omega

/-- `vminq_s16` is commutative. -/
theorem vminq_s16_comm (a b : int16x8_t) : vminq_s16 a b = vminq_s16 b a := by
  simp only [vmaxq_s16_spec, vminq_s16_spec, ok_bind]
  refine ok_vec ?_
  intro i
  try simp only [toInt_max, toInt_min]
  refine congrArg (BitVec.ofInt 16) ?_
  omega

/-- `vminq_s16` is associative. -/
theorem vminq_s16_assoc (a b c : int16x8_t) :
    (do vminq_s16 (← vminq_s16 a b) c) = (do vminq_s16 a (← vminq_s16 b c)) := by
  simp only [vmaxq_s16_spec, vminq_s16_spec, ok_bind]
  refine ok_vec ?_
  intro i
  try simp only [toInt_max, toInt_min]
  refine congrArg (BitVec.ofInt 16) ?_
  omega

/-- `vminq_s16` is idempotent. -/
theorem vminq_s16_self (a : int16x8_t) : vminq_s16 a a = .ok a := by
  simp only [vmaxq_s16_spec, vminq_s16_spec, ok_bind]
  refine ok_vec' ?_
  intro i
  try simp only [toInt_max, toInt_min]
  refine Eq.trans (congrArg (BitVec.ofInt 16) ?_) BitVec.ofInt_toInt
  omega

/-- `vminq_s16` absorbs `vmaxq_s16`. -/
theorem vminq_s16_absorb [Dialect] (a b : int16x8_t) : (do vminq_s16 a (← vmaxq_s16 a b)) = .ok a := by
  simp only [vmaxq_s16_spec, vminq_s16_spec, ok_bind]
  refine ok_vec' ?_
  intro i
  try simp only [toInt_max, toInt_min]
  refine Eq.trans (congrArg (BitVec.ofInt 16) ?_) BitVec.ofInt_toInt
  omega

/-- `vminq_s16` distributes over `vmaxq_s16`. -/
theorem vminq_s16_distrib [Dialect] (a b c : int16x8_t) :
    (do vminq_s16 a (← vmaxq_s16 b c)) = (do vmaxq_s16 (← vminq_s16 a b) (← vminq_s16 a c)) := by
  simp only [vmaxq_s16_spec, vminq_s16_spec, ok_bind]
  refine ok_vec ?_
  intro i
  try simp only [toInt_max, toInt_min]
  refine congrArg (BitVec.ofInt 16) ?_
  omega

/-- `vmaxq_s32` is commutative. -/
theorem vmaxq_s32_comm [Dialect] (a b : int32x4_t) : vmaxq_s32 a b = vmaxq_s32 b a := by
  simp only [vmaxq_s32_spec, vminq_s32_spec, ok_bind]
  refine ok_vec ?_
  intro i
  try simp only [toInt_max, toInt_min]
  refine congrArg (BitVec.ofInt 32) ?_
  omega

/-- `vmaxq_s32` is associative. -/
theorem vmaxq_s32_assoc [Dialect] (a b c : int32x4_t) :
    (do vmaxq_s32 (← vmaxq_s32 a b) c) = (do vmaxq_s32 a (← vmaxq_s32 b c)) := by
  simp only [vmaxq_s32_spec, vminq_s32_spec, ok_bind]
  refine ok_vec ?_
  intro i
  try simp only [toInt_max, toInt_min]
  refine congrArg (BitVec.ofInt 32) ?_
  omega

/-- `vmaxq_s32` is idempotent. -/
theorem vmaxq_s32_self [Dialect] (a : int32x4_t) : vmaxq_s32 a a = .ok a := by
  simp only [vmaxq_s32_spec, vminq_s32_spec, ok_bind]
  refine ok_vec' ?_
  intro i
  try simp only [toInt_max, toInt_min]
  refine Eq.trans (congrArg (BitVec.ofInt 32) ?_) BitVec.ofInt_toInt
  omega

/-- `vmaxq_s32` absorbs `vminq_s32`. -/
theorem vmaxq_s32_absorb [Dialect] (a b : int32x4_t) : (do vmaxq_s32 a (← vminq_s32 a b)) = .ok a := by
  simp only [vmaxq_s32_spec, vminq_s32_spec, ok_bind]
  refine ok_vec' ?_
  intro i
  try simp only [toInt_max, toInt_min]
  refine Eq.trans (congrArg (BitVec.ofInt 32) ?_) BitVec.ofInt_toInt
  omega

/-- `vmaxq_s32` distributes over `vminq_s32`. -/
theorem vmaxq_s32_distrib [Dialect] (a b c : int32x4_t) :
    (do vmaxq_s32 a (← vminq_s32 b c)) = (do vminq_s32 (← vmaxq_s32 a b) (← vmaxq_s32 a c)) := by
  simp only [vmaxq_s32_spec, vminq_s32_spec, ok_bind]
  refine ok_vec ?_
  intro i
  try simp only [toInt_max, toInt_min]
  refine congrArg (BitVec.ofInt 32) ?_
  omega

/-- `vminq_s32` is commutative. -/
theorem vminq_s32_comm (a b : int32x4_t) : vminq_s32 a b = vminq_s32 b a := by
  simp only [vmaxq_s32_spec, vminq_s32_spec, ok_bind]
  refine ok_vec ?_
  intro i
  try simp only [toInt_max, toInt_min]
  refine congrArg (BitVec.ofInt 32) ?_
  omega

/-- `vminq_s32` is associative. -/
theorem vminq_s32_assoc (a b c : int32x4_t) :
    (do vminq_s32 (← vminq_s32 a b) c) = (do vminq_s32 a (← vminq_s32 b c)) := by
  simp only [vmaxq_s32_spec, vminq_s32_spec, ok_bind]
  refine ok_vec ?_
  intro i
  try simp only [toInt_max, toInt_min]
  refine congrArg (BitVec.ofInt 32) ?_
  omega

/-- `vminq_s32` is idempotent. -/
theorem vminq_s32_self (a : int32x4_t) : vminq_s32 a a = .ok a := by
  simp only [vmaxq_s32_spec, vminq_s32_spec, ok_bind]
  refine ok_vec' ?_
  intro i
  try simp only [toInt_max, toInt_min]
  refine Eq.trans (congrArg (BitVec.ofInt 32) ?_) BitVec.ofInt_toInt
  omega

/-- `vminq_s32` absorbs `vmaxq_s32`. -/
theorem vminq_s32_absorb [Dialect] (a b : int32x4_t) : (do vminq_s32 a (← vmaxq_s32 a b)) = .ok a := by
  simp only [vmaxq_s32_spec, vminq_s32_spec, ok_bind]
  refine ok_vec' ?_
  intro i
  try simp only [toInt_max, toInt_min]
  refine Eq.trans (congrArg (BitVec.ofInt 32) ?_) BitVec.ofInt_toInt
  omega

/-- `vminq_s32` distributes over `vmaxq_s32`. -/
theorem vminq_s32_distrib [Dialect] (a b c : int32x4_t) :
    (do vminq_s32 a (← vmaxq_s32 b c)) = (do vmaxq_s32 (← vminq_s32 a b) (← vminq_s32 a c)) := by
  simp only [vmaxq_s32_spec, vminq_s32_spec, ok_bind]
  refine ok_vec ?_
  intro i
  try simp only [toInt_max, toInt_min]
  refine congrArg (BitVec.ofInt 32) ?_
  omega

/-- `vaddl_high_s8` computes `vaddq_s16 (← vmovl_s8 (← vget_high_s8 a)) (← vmovl_s8 (← vget_high_s8 b))`. -/
theorem vaddl_high_s8_factor [Dialect] (a b : int8x16_t) :
    vaddl_high_s8 a b = (do vaddq_s16 (← vmovl_s8 (← vget_high_s8 a)) (← vmovl_s8 (← vget_high_s8 b))) := by
  simp (disch := decide) only [vaddl_high_s8_spec, vmovl_s8_spec, vget_high_s8_spec, vaddq_s16_spec, ok_bind, BitVec.toInt_signExtend_of_le]

/-- `vaddw_s8` computes `vaddq_s16 a (← vmovl_s8 b)`. -/
theorem vaddw_s8_factor [Dialect] (a : int16x8_t) (b : int8x8_t) :
    vaddw_s8 a b = (do vaddq_s16 a (← vmovl_s8 b)) := by
  simp (disch := decide) only [vaddw_s8_spec, vmovl_s8_spec, vaddq_s16_spec, ok_bind, BitVec.toInt_signExtend_of_le]

/-- `vaddw_high_s8` computes `vaddq_s16 a (← vmovl_s8 (← vget_high_s8 b))`. -/
theorem vaddw_high_s8_factor [Dialect] (a : int16x8_t) (b : int8x16_t) :
    vaddw_high_s8 a b = (do vaddq_s16 a (← vmovl_s8 (← vget_high_s8 b))) := by
  simp (disch := decide) only [vaddw_high_s8_spec, vmovl_s8_spec, vaddq_s16_spec, vget_high_s8_spec, ok_bind, BitVec.toInt_signExtend_of_le]

/-- `vsubw_s8` computes `vsubq_s16 N (← vmovl_s8 M)`. -/
theorem vsubw_s8_factor [Dialect] (N : int16x8_t) (M : int8x8_t) :
    vsubw_s8 N M = (do vsubq_s16 N (← vmovl_s8 M)) := by
  simp (disch := decide) only [vsubw_s8_spec, vmovl_s8_spec, vsubq_s16_spec, ok_bind, BitVec.toInt_signExtend_of_le]

/-- `vsubl_s8` computes `vsubq_s16 (← vmovl_s8 N) (← vmovl_s8 M)`. -/
theorem vsubl_s8_factor [Dialect] (N M : int8x8_t) :
    vsubl_s8 N M = (do vsubq_s16 (← vmovl_s8 N) (← vmovl_s8 M)) := by
  simp (disch := decide) only [vsubl_s8_spec, vmovl_s8_spec, vsubq_s16_spec, ok_bind, BitVec.toInt_signExtend_of_le]

/-- `vmull_s8` computes `vmulq_s16 (← vmovl_s8 a) (← vmovl_s8 b)`. -/
theorem vmull_s8_factor [Dialect] (a b : int8x8_t) :
    vmull_s8 a b = (do vmulq_s16 (← vmovl_s8 a) (← vmovl_s8 b)) := by
  simp (disch := decide) only [vmull_s8_spec, vmovl_s8_spec, vmulq_s16_spec, ok_bind, BitVec.toInt_signExtend_of_le]

/-- `vmlal_s8` computes `vaddq_s16 N (← vmull_s8 M P)`. -/
theorem vmlal_s8_factor [Dialect] (N : int16x8_t) (M P : int8x8_t) :
    vmlal_s8 N M P = (do vaddq_s16 N (← vmull_s8 M P)) := by
  simp (disch := decide) only [vmlal_s8_spec, vmull_s8_spec, vaddq_s16_spec, ok_bind, BitVec.toInt_signExtend_of_le]

/-- `vmlsl_s8` computes `vsubq_s16 N (← vmull_s8 M P)`. -/
theorem vmlsl_s8_factor [Dialect] (N : int16x8_t) (M P : int8x8_t) :
    vmlsl_s8 N M P = (do vsubq_s16 N (← vmull_s8 M P)) := by
  simp (disch := decide) only [vmlsl_s8_spec, vmull_s8_spec, vsubq_s16_spec, ok_bind, BitVec.toInt_signExtend_of_le]

/-- `vaddl_high_s16` computes `vaddq_s32 (← vmovl_s16 (← vget_high_s16 a)) (← vmovl_s16 (← vget_high_s16 b))`. -/
theorem vaddl_high_s16_factor [Dialect] (a b : int16x8_t) :
    vaddl_high_s16 a b = (do vaddq_s32 (← vmovl_s16 (← vget_high_s16 a)) (← vmovl_s16 (← vget_high_s16 b))) := by
  simp only [vaddl_high_s16_spec, vmovl_s16_spec, vget_high_s16_spec, vaddq_s32_partial, ok_bind]
  rw [if_pos]
  intro i
  right
  have h0 := toInt16 (a[4 + i.val])
  have h1 := toInt16 (b[4 + i.val])
  unfold Fits
  simp (disch := decide) only [BitVec.toInt_signExtend_of_le]
  omega

/-- `vaddw_s16` computes `vaddq_s32 a (← vmovl_s16 b)`. -/
theorem vaddw_s16_factor [Dialect] (a : int32x4_t) (b : int16x4_t) :
    vaddw_s16 a b = (do vaddq_s32 a (← vmovl_s16 b)) := by
  simp (disch := decide) only [vaddw_s16_partial, vmovl_s16_spec, vaddq_s32_partial, ok_bind, BitVec.toInt_signExtend_of_le]

/-- `vaddw_high_s16` computes `vaddq_s32 a (← vmovl_s16 (← vget_high_s16 b))`. -/
theorem vaddw_high_s16_factor [Dialect] (a : int32x4_t) (b : int16x8_t) :
    vaddw_high_s16 a b = (do vaddq_s32 a (← vmovl_s16 (← vget_high_s16 b))) := by
  simp (disch := decide) only [vaddw_high_s16_partial, vmovl_s16_spec, vaddq_s32_partial, vget_high_s16_spec, ok_bind, BitVec.toInt_signExtend_of_le]

/-- `vsubw_s16` computes `vsubq_s32 N (← vmovl_s16 M)`. -/
theorem vsubw_s16_factor [Dialect] (N : int32x4_t) (M : int16x4_t) :
    vsubw_s16 N M = (do vsubq_s32 N (← vmovl_s16 M)) := by
  simp (disch := decide) only [vsubw_s16_partial, vmovl_s16_spec, vsubq_s32_partial, ok_bind, BitVec.toInt_signExtend_of_le]

/-- `vsubl_s16` computes `vsubq_s32 (← vmovl_s16 N) (← vmovl_s16 M)`. -/
theorem vsubl_s16_factor [Dialect] (N M : int16x4_t) :
    vsubl_s16 N M = (do vsubq_s32 (← vmovl_s16 N) (← vmovl_s16 M)) := by
  simp only [vsubl_s16_spec, vmovl_s16_spec, vsubq_s32_partial, ok_bind]
  rw [if_pos]
  intro i
  right
  have h0 := toInt16 (N.lane i)
  have h1 := toInt16 (M.lane i)
  unfold Fits
  simp (disch := decide) only [BitVec.toInt_signExtend_of_le]
  omega

/-- `vmull_s16` computes `vmulq_s32 (← vmovl_s16 a) (← vmovl_s16 b)`. -/
theorem vmull_s16_factor [Dialect] (a b : int16x4_t) :
    vmull_s16 a b = (do vmulq_s32 (← vmovl_s16 a) (← vmovl_s16 b)) := by
  simp only [vmull_s16_spec, vmovl_s16_spec, vmulq_s32_partial, ok_bind]
  rw [if_pos]
  intro i
  right
  have h0 := smul16 (a.lane i) (b.lane i)
  unfold Fits
  simp (disch := decide) only [BitVec.toInt_signExtend_of_le]
  omega

/-- `vmlal_s16` computes `vaddq_s32 N (← vmull_s16 M P)`. -/
theorem vmlal_s16_factor [Dialect] (N : int32x4_t) (M P : int16x4_t) :
    vmlal_s16 N M P = (do vaddq_s32 N (← vmull_s16 M P)) := by
  simp only [vmlal_s16_partial, vmull_s16_spec, vaddq_s32_partial, ok_bind, toInt_smull16]

/-- `vmlsl_s16` computes `vsubq_s32 N (← vmull_s16 M P)`. -/
theorem vmlsl_s16_factor [Dialect] (N : int32x4_t) (M P : int16x4_t) :
    vmlsl_s16 N M P = (do vsubq_s32 N (← vmull_s16 M P)) := by
  simp only [vmlsl_s16_partial, vmull_s16_spec, vsubq_s32_partial, ok_bind, toInt_smull16]

/-- `vaddl_high_s32` does not factor through the widening moves: the carry is lost. -/
theorem vaddl_high_s32_factor_wrong [Dialect] (hd : Dialect.wrapv = true) :
    ¬ ∀ a b, vaddl_high_s32 a b = (do vaddq_s64 (← vmovl_s32 (← vget_high_s32 a)) (← vmovl_s32 (← vget_high_s32 b))) := by
  intro h
  have h := h ⟨fun _ => 0x7fffffff#32⟩ ⟨fun _ => 1#32⟩
  simp only [vaddl_high_s32_wrapv hd, vmovl_s32_spec, vget_high_s32_spec, ok_bind, vaddq_s64_wrapv hd] at h
  have h := congrFun (Vec.mk.inj (C.ok.inj h)) 0
  revert h
  decide
example := @vaddl_high_s32_factor_wrong .wrapping rfl

/-- `vaddw_s32` computes `vaddq_s64 a (← vmovl_s32 b)`. -/
theorem vaddw_s32_factor [Dialect] (a : int64x2_t) (b : int32x2_t) :
    vaddw_s32 a b = (do vaddq_s64 a (← vmovl_s32 b)) := by
  simp (disch := decide) only [vaddw_s32_partial, vmovl_s32_spec, vaddq_s64_partial, ok_bind, BitVec.toInt_signExtend_of_le]

/-- `vaddw_high_s32` computes `vaddq_s64 a (← vmovl_s32 (← vget_high_s32 b))`. -/
theorem vaddw_high_s32_factor [Dialect] (a : int64x2_t) (b : int32x4_t) :
    vaddw_high_s32 a b = (do vaddq_s64 a (← vmovl_s32 (← vget_high_s32 b))) := by
  simp (disch := decide) only [vaddw_high_s32_partial, vmovl_s32_spec, vaddq_s64_partial, vget_high_s32_spec, ok_bind, BitVec.toInt_signExtend_of_le]

/-- `vsubw_s32` computes `vsubq_s64 N (← vmovl_s32 M)`. -/
theorem vsubw_s32_factor [Dialect] (N : int64x2_t) (M : int32x2_t) :
    vsubw_s32 N M = (do vsubq_s64 N (← vmovl_s32 M)) := by
  simp (disch := decide) only [vsubw_s32_partial, vmovl_s32_spec, vsubq_s64_partial, ok_bind, BitVec.toInt_signExtend_of_le]

/-- `vsubl_s32` takes its first operand from the low half of a 128-bit register (its declaration and definition differ there) and computes `vsubq_s64 (vmovl (vget_low N)) (vmovl M)`. -/
theorem vsubl_s32_factor [Dialect] (N : int32x4_t) (M : int32x2_t) :
    vsubl_s32 N M = (do vsubq_s64 (← vmovl_s32 (← vget_low_s32 N)) (← vmovl_s32 M)) := by
  simp only [vsubl_s32_spec, vmovl_s32_spec, vget_low_s32_spec, vsubq_s64_partial, ok_bind]
  rw [if_pos]
  intro i
  right
  have h0 := toInt32 (N[i.val])
  have h1 := toInt32 (M.lane i)
  unfold Fits
  simp (disch := decide) only [BitVec.toInt_signExtend_of_le]
  omega

/-- `vmlal_s32` computes `vaddq_s64 N (← vmull_s32 M P)`. -/
theorem vmlal_s32_factor [Dialect] (N : int64x2_t) (M P : int32x2_t) :
    vmlal_s32 N M P = (do vaddq_s64 N (← vmull_s32 M P)) := by
  simp (disch := decide) only [vmlal_s32_partial, vmull_s32_partial, vaddq_s64_partial, ok_bind, ite_bind, ub_bind, BitVec.toInt_signExtend_of_le, ite_ite_and, forall_and]

/-- `vmlsl_s32` computes `vsubq_s64 N (← vmull_s32 M P)`. -/
theorem vmlsl_s32_factor [Dialect] (N : int64x2_t) (M P : int32x2_t) :
    vmlsl_s32 N M P = (do vsubq_s64 N (← vmull_s32 M P)) := by
  simp (disch := decide) only [vmlsl_s32_partial, vmull_s32_partial, vsubq_s64_partial, ok_bind, ite_bind, ub_bind, BitVec.toInt_signExtend_of_le, ite_ite_and, forall_and]

/-- `vaddl_u8` computes `vaddq_u16 (← vmovl_u8 a) (← vmovl_u8 b)`. -/
theorem vaddl_u8_factor [Dialect] (a b : uint8x8_t) :
    vaddl_u8 a b = (do vaddq_u16 (← vmovl_u8 a) (← vmovl_u8 b)) := by
  simp (disch := decide) only [vaddl_u8_spec, vmovl_u8_spec, vmovl_u8_spec, vaddq_u16_spec, ok_bind, BitVec.toInt_signExtend_of_le]

/-- `vaddl_high_u8` computes `vaddq_u16 (← vmovl_u8 (← vget_high_u8 a)) (← vmovl_u8 (← vget_high_u8 b))`. -/
theorem vaddl_high_u8_factor [Dialect] (a b : uint8x16_t) :
    vaddl_high_u8 a b = (do vaddq_u16 (← vmovl_u8 (← vget_high_u8 a)) (← vmovl_u8 (← vget_high_u8 b))) := by
  simp (disch := decide) only [vaddl_high_u8_spec, vmovl_u8_spec, vget_high_u8_spec, vaddq_u16_spec, ok_bind, BitVec.toInt_signExtend_of_le]

/-- `vaddw_u8` computes `vaddq_u16 a (← vmovl_u8 b)`. -/
theorem vaddw_u8_factor [Dialect] (a : uint16x8_t) (b : uint8x8_t) :
    vaddw_u8 a b = (do vaddq_u16 a (← vmovl_u8 b)) := by
  simp (disch := decide) only [vaddw_u8_spec, vmovl_u8_spec, vaddq_u16_spec, ok_bind, BitVec.toInt_signExtend_of_le]

/-- `vaddw_high_u8` computes `vaddq_u16 a (← vmovl_u8 (← vget_high_u8 b))`. -/
theorem vaddw_high_u8_factor [Dialect] (a : uint16x8_t) (b : uint8x16_t) :
    vaddw_high_u8 a b = (do vaddq_u16 a (← vmovl_u8 (← vget_high_u8 b))) := by
  simp (disch := decide) only [vaddw_high_u8_spec, vmovl_u8_spec, vaddq_u16_spec, vget_high_u8_spec, ok_bind, BitVec.toInt_signExtend_of_le]

/-- `vsubw_u8` computes `vsubq_u16 N (← vmovl_u8 M)`. -/
theorem vsubw_u8_factor [Dialect] (N : uint16x8_t) (M : uint8x8_t) :
    vsubw_u8 N M = (do vsubq_u16 N (← vmovl_u8 M)) := by
  simp (disch := decide) only [vsubw_u8_spec, vmovl_u8_spec, vsubq_u16_spec, ok_bind, BitVec.toInt_signExtend_of_le]

/-- `vsubl_u8` computes `vsubq_u16 (← vmovl_u8 N) (← vmovl_u8 M)`. -/
theorem vsubl_u8_factor [Dialect] (N M : uint8x8_t) :
    vsubl_u8 N M = (do vsubq_u16 (← vmovl_u8 N) (← vmovl_u8 M)) := by
  simp (disch := decide) only [vsubl_u8_spec, vmovl_u8_spec, vsubq_u16_spec, ok_bind, BitVec.toInt_signExtend_of_le]

/-- `vmull_u8` computes `vmulq_u16 (← vmovl_u8 a) (← vmovl_u8 b)`. -/
theorem vmull_u8_factor [Dialect] (a b : uint8x8_t) :
    vmull_u8 a b = (do vmulq_u16 (← vmovl_u8 a) (← vmovl_u8 b)) := by
  simp only [vmull_u8_spec, vmovl_u8_spec, vmulq_u16_partial, ok_bind]
  rw [if_pos]
  intro i
  right
  have h0 := umul8 (a.lane i) (b.lane i)
  unfold Fits
  simp only [BitVec.toNat_setWidth]
  have e1 : (a.lane i).toNat % 2 ^ 16 = (a.lane i).toNat := by omega
  have e2 : (b.lane i).toNat % 2 ^ 16 = (b.lane i).toNat := by omega
  rw [e1, e2]
  omega

/-- `vmlal_u8` computes `vaddq_u16 N (← vmull_u8 M P)`. -/
theorem vmlal_u8_factor [Dialect] (N : uint16x8_t) (M P : uint8x8_t) :
    vmlal_u8 N M P = (do vaddq_u16 N (← vmull_u8 M P)) := by
  simp (disch := decide) only [vmlal_u8_spec, vmull_u8_spec, vaddq_u16_spec, ok_bind, BitVec.toInt_signExtend_of_le]

/-- `vmlsl_u8` computes `vsubq_u16 N (← vmull_u8 M P)`. -/
theorem vmlsl_u8_factor [Dialect] (N : uint16x8_t) (M P : uint8x8_t) :
    vmlsl_u8 N M P = (do vsubq_u16 N (← vmull_u8 M P)) := by
  simp (disch := decide) only [vmlsl_u8_spec, vmull_u8_spec, vsubq_u16_spec, ok_bind, BitVec.toInt_signExtend_of_le]

/-- `vaddl_high_u16` computes `vaddq_u32 (← vmovl_u16 (← vget_high_u16 a)) (← vmovl_u16 (← vget_high_u16 b))`. -/
theorem vaddl_high_u16_factor [Dialect] (a b : uint16x8_t) :
    vaddl_high_u16 a b = (do vaddq_u32 (← vmovl_u16 (← vget_high_u16 a)) (← vmovl_u16 (← vget_high_u16 b))) := by
  simp (disch := decide) only [vaddl_high_u16_spec, vmovl_u16_spec, vget_high_u16_spec, vaddq_u32_spec, ok_bind, BitVec.toInt_signExtend_of_le]

/-- `vaddw_u16` computes `vaddq_u32 a (← vmovl_u16 b)`. -/
theorem vaddw_u16_factor [Dialect] (a : uint32x4_t) (b : uint16x4_t) :
    vaddw_u16 a b = (do vaddq_u32 a (← vmovl_u16 b)) := by
  simp (disch := decide) only [vaddw_u16_spec, vmovl_u16_spec, vaddq_u32_spec, ok_bind, BitVec.toInt_signExtend_of_le]

/-- `vaddw_high_u16` computes `vaddq_u32 a (← vmovl_u16 (← vget_high_u16 b))`. -/
theorem vaddw_high_u16_factor [Dialect] (a : uint32x4_t) (b : uint16x8_t) :
    vaddw_high_u16 a b = (do vaddq_u32 a (← vmovl_u16 (← vget_high_u16 b))) := by
  simp (disch := decide) only [vaddw_high_u16_spec, vmovl_u16_spec, vaddq_u32_spec, vget_high_u16_spec, ok_bind, BitVec.toInt_signExtend_of_le]

/-- `vsubw_u16` computes `vsubq_u32 N (← vmovl_u16 M)`. -/
theorem vsubw_u16_factor [Dialect] (N : uint32x4_t) (M : uint16x4_t) :
    vsubw_u16 N M = (do vsubq_u32 N (← vmovl_u16 M)) := by
  simp (disch := decide) only [vsubw_u16_spec, vmovl_u16_spec, vsubq_u32_spec, ok_bind, BitVec.toInt_signExtend_of_le]

/-- `vsubl_u16` computes `vsubq_u32 (← vmovl_u16 N) (← vmovl_u16 M)`. -/
theorem vsubl_u16_factor [Dialect] (N M : uint16x4_t) :
    vsubl_u16 N M = (do vsubq_u32 (← vmovl_u16 N) (← vmovl_u16 M)) := by
  simp (disch := decide) only [vsubl_u16_spec, vmovl_u16_spec, vsubq_u32_spec, ok_bind, BitVec.toInt_signExtend_of_le]

/-- With `-fwrapv`, `vmull_u16` computes `vmulq_u32 (vmovl a) (vmovl b)`. -/
theorem vmull_u16_factor_wrapv [Dialect] (hd : Dialect.wrapv = true) (a b : uint16x4_t) :
    vmull_u16 a b = (do vmulq_u32 (← vmovl_u16 a) (← vmovl_u16 b)) := by
  simp only [vmull_u16_wrapv hd, vmovl_u16_spec, vmulq_u32_spec, ok_bind]
example := @vmull_u16_factor_wrapv .wrapping rfl (⟨fun i => BitVec.ofNat 16 (3 + i.val)⟩) (⟨fun i => BitVec.ofNat 16 (2 + i.val)⟩)

/-- When every product is below `2^31`, `vmull_u16` computes `vmulq_u32 (vmovl a) (vmovl b)`; otherwise it is undefined in C++11 (`vmull_u16_partial`). -/
theorem vmull_u16_factor_partial [Dialect] (a b : uint16x4_t) (h : ∀ i, (a.lane i).toNat * (b.lane i).toNat < 2 ^ 31) :
    vmull_u16 a b = (do vmulq_u32 (← vmovl_u16 a) (← vmovl_u16 b)) := by
  rw [vmull_u16_partial, if_pos]
  · simp only [vmovl_u16_spec, vmulq_u32_spec, ok_bind]
  · intro i
    right
    have := h i
    unfold Fits
    have e : ((a.lane i).toNat : Int) * ((b.lane i).toNat : Int) = (((a.lane i).toNat * (b.lane i).toNat : Nat) : Int) := by simp
    rw [e]
    generalize (a.lane i).toNat * (b.lane i).toNat = z at *
    omega
example := @vmull_u16_factor_partial .strict (⟨fun i => BitVec.ofNat 16 (3 + i.val)⟩) (⟨fun i => BitVec.ofNat 16 (2 + i.val)⟩) (by decide)

/-- `vmlal_u16` computes `vaddq_u32 N (← vmull_u16 M P)`. -/
theorem vmlal_u16_factor [Dialect] (N : uint32x4_t) (M P : uint16x4_t) :
    vmlal_u16 N M P = (do vaddq_u32 N (← vmull_u16 M P)) := by
  simp only [vmlal_u16_partial, vmull_u16_partial, vaddq_u32_spec, ok_bind, ite_bind, ub_bind]

/-- `vmlsl_u16` computes `vsubq_u32 N (← vmull_u16 M P)`. -/
theorem vmlsl_u16_factor [Dialect] (N : uint32x4_t) (M P : uint16x4_t) :
    vmlsl_u16 N M P = (do vsubq_u32 N (← vmull_u16 M P)) := by
  simp only [vmlsl_u16_partial, vmull_u16_partial, vsubq_u32_spec, ok_bind, ite_bind, ub_bind]

/-- `vaddl_high_u32` does not factor through the widening moves: the carry is lost. -/
theorem vaddl_high_u32_factor_wrong [Dialect] :
    ¬ ∀ a b, vaddl_high_u32 a b = (do vaddq_u64 (← vmovl_u32 (← vget_high_u32 a)) (← vmovl_u32 (← vget_high_u32 b))) := by
  intro h
  have h := h ⟨fun _ => 0xffffffff#32⟩ ⟨fun _ => 1#32⟩
  simp only [vaddl_high_u32_partial, vmovl_u32_spec, vget_high_u32_spec, ok_bind, vaddq_u64_spec] at h
  have h := congrFun (Vec.mk.inj (C.ok.inj h)) 0
  revert h
  decide

/-- `vaddw_u32` computes `vaddq_u64 a (← vmovl_u32 b)`. -/
theorem vaddw_u32_factor [Dialect] (a : uint64x2_t) (b : uint32x2_t) :
    vaddw_u32 a b = (do vaddq_u64 a (← vmovl_u32 b)) := by
  simp (disch := decide) only [vaddw_u32_spec, vmovl_u32_spec, vaddq_u64_spec, ok_bind, BitVec.toInt_signExtend_of_le]

/-- `vaddw_high_u32` computes `vaddq_u64 a (← vmovl_u32 (← vget_high_u32 b))`. -/
theorem vaddw_high_u32_factor [Dialect] (a : uint64x2_t) (b : uint32x4_t) :
    vaddw_high_u32 a b = (do vaddq_u64 a (← vmovl_u32 (← vget_high_u32 b))) := by
  simp (disch := decide) only [vaddw_high_u32_spec, vmovl_u32_spec, vaddq_u64_spec, vget_high_u32_spec, ok_bind, BitVec.toInt_signExtend_of_le]

/-- `vsubw_u32` computes `vsubq_u64 N (← vmovl_u32 M)`. -/
theorem vsubw_u32_factor [Dialect] (N : uint64x2_t) (M : uint32x2_t) :
    vsubw_u32 N M = (do vsubq_u64 N (← vmovl_u32 M)) := by
  simp (disch := decide) only [vsubw_u32_spec, vmovl_u32_spec, vsubq_u64_spec, ok_bind, BitVec.toInt_signExtend_of_le]

/-- `vsubl_u32` takes its first operand from the low half of a 128-bit register (its declaration and definition differ there) and computes `vsubq_u64 (vmovl (vget_low N)) (vmovl M)`. -/
theorem vsubl_u32_factor [Dialect] (N : uint32x4_t) (M : uint32x2_t) :
    vsubl_u32 N M = (do vsubq_u64 (← vmovl_u32 (← vget_low_u32 N)) (← vmovl_u32 M)) := by
  simp (disch := decide) only [vsubl_u32_spec, vmovl_u32_spec, vget_low_u32_spec, vsubq_u64_spec, ok_bind, BitVec.toInt_signExtend_of_le]

/-- `vmlal_u32` computes `vaddq_u64 N (← vmull_u32 M P)`. -/
theorem vmlal_u32_factor [Dialect] (N : uint64x2_t) (M P : uint32x2_t) :
    vmlal_u32 N M P = (do vaddq_u64 N (← vmull_u32 M P)) := by
  simp only [vmlal_u32_partial, vmull_u32_partial, vaddq_u64_spec, ok_bind]

/-- `vmlsl_u32` computes `vsubq_u64 N (← vmull_u32 M P)`. -/
theorem vmlsl_u32_factor [Dialect] (N : uint64x2_t) (M P : uint32x2_t) :
    vmlsl_u32 N M P = (do vsubq_u64 N (← vmull_u32 M P)) := by
  simp only [vmlsl_u32_partial, vmull_u32_partial, vsubq_u64_spec, ok_bind]

/-- `vadd_u8` is commutative. -/
theorem vadd_u8_comm [Dialect] (a b : uint8x8_t) : vadd_u8 a b = vadd_u8 b a := by
  simp only [vadd_u8_spec]
  exact ok_vec fun i => BitVec.add_comm _ _

/-- `vadd_u8` is associative. -/
theorem vadd_u8_assoc [Dialect] (a b c : uint8x8_t) :
    (do vadd_u8 (← vadd_u8 a b) c) = (do vadd_u8 a (← vadd_u8 b c)) := by
  simp only [vadd_u8_spec, ok_bind]
  refine ok_vec fun i => ?_
  exact BitVec.add_assoc _ _ _

/-- `vsub_u8` undoes `vadd_u8`. -/
theorem vsub_u8_vadd_u8 [Dialect] (a b : uint8x8_t) :
    (do vsub_u8 (← vadd_u8 a b) b) = .ok a := by
  simp only [vadd_u8_spec, vsub_u8_spec, ok_bind]
  refine ok_vec' fun i => ?_
  exact BitVec.add_sub_cancel _ _

/-- `vadd_u8` undoes `vsub_u8`. -/
theorem vadd_u8_vsub_u8 [Dialect] (a b : uint8x8_t) :
    (do vadd_u8 (← vsub_u8 a b) b) = .ok a := by
  simp only [vadd_u8_spec, vsub_u8_spec, ok_bind]
  refine ok_vec' fun i => ?_
  exact BitVec.sub_add_cancel _ _

/-- Zero is neutral for `vadd_u8`. -/
theorem vadd_u8_zero [Dialect] (a : uint8x8_t) : (do vadd_u8 a (← vdup_n_u8 0#8)) = .ok a := by
  simp only [vdup_n_u8_spec, vadd_u8_spec, ok_bind]
  exact ok_vec' fun i => BitVec.add_zero _

/-- `vsub_u8` of a register with itself is zero. -/
theorem vsub_u8_self [Dialect] (a : uint8x8_t) : vsub_u8 a a = vdup_n_u8 0#8 := by
  simp only [vdup_n_u8_spec, vsub_u8_spec]
  exact ok_vec fun i => BitVec.sub_self _

/-- `vmul_u8` is commutative. -/
theorem vmul_u8_comm [Dialect] (a b : uint8x8_t) : vmul_u8 a b = vmul_u8 b a := by
  simp only [vmul_u8_spec]
  exact ok_vec fun i => BitVec.mul_comm _ _

/-- `vmul_u8` is associative. -/
theorem vmul_u8_assoc [Dialect] (a b c : uint8x8_t) :
    (do vmul_u8 (← vmul_u8 a b) c) = (do vmul_u8 a (← vmul_u8 b c)) := by
  simp only [vmul_u8_spec, ok_bind]
  refine ok_vec fun i => ?_
  exact BitVec.mul_assoc _ _ _

/-- `vmul_u8` distributes over `vadd_u8`. -/
theorem vmul_u8_vadd_u8 [Dialect] (a b c : uint8x8_t) :
    (do vmul_u8 a (← vadd_u8 b c)) = (do vadd_u8 (← vmul_u8 a b) (← vmul_u8 a c)) := by
  simp only [vadd_u8_spec, vmul_u8_spec, ok_bind]
  refine ok_vec fun i => ?_
  exact BitVec.mul_add

/-- `vmul_u8` distributes over `vsub_u8`. -/
theorem vmul_u8_vsub_u8 [Dialect] (a b c : uint8x8_t) :
    (do vmul_u8 a (← vsub_u8 b c)) = (do vsub_u8 (← vmul_u8 a b) (← vmul_u8 a c)) := by
  simp only [vsub_u8_spec, vmul_u8_spec, ok_bind]
  refine ok_vec fun i => ?_
  exact mul_sub' _ _ _

/-- One is neutral for `vmul_u8`. -/
theorem vmul_u8_one [Dialect] (a : uint8x8_t) : (do vmul_u8 a (← vdup_n_u8 1#8)) = .ok a := by
  simp only [vdup_n_u8_spec, vmul_u8_spec, ok_bind]
  exact ok_vec' fun i => BitVec.mul_one _

/-- `vadd_u16` is commutative. -/
theorem vadd_u16_comm [Dialect] (a b : uint16x4_t) : vadd_u16 a b = vadd_u16 b a := by
  simp only [vadd_u16_spec]
  exact ok_vec fun i => BitVec.add_comm _ _

/-- `vadd_u16` is associative. -/
theorem vadd_u16_assoc [Dialect] (a b c : uint16x4_t) :
    (do vadd_u16 (← vadd_u16 a b) c) = (do vadd_u16 a (← vadd_u16 b c)) := by
  simp only [vadd_u16_spec, ok_bind]
  refine ok_vec fun i => ?_
  exact BitVec.add_assoc _ _ _

/-- `vsub_u16` undoes `vadd_u16`. -/
theorem vsub_u16_vadd_u16 [Dialect] (a b : uint16x4_t) :
    (do vsub_u16 (← vadd_u16 a b) b) = .ok a := by
  simp only [vadd_u16_spec, vsub_u16_spec, ok_bind]
  refine ok_vec' fun i => ?_
  exact BitVec.add_sub_cancel _ _

/-- `vadd_u16` undoes `vsub_u16`. -/
theorem vadd_u16_vsub_u16 [Dialect] (a b : uint16x4_t) :
    (do vadd_u16 (← vsub_u16 a b) b) = .ok a := by
  simp only [vadd_u16_spec, vsub_u16_spec, ok_bind]
  refine ok_vec' fun i => ?_
  exact BitVec.sub_add_cancel _ _

/-- Zero is neutral for `vadd_u16`. -/
theorem vadd_u16_zero [Dialect] (a : uint16x4_t) : (do vadd_u16 a (← vdup_n_u16 0#16)) = .ok a := by
  simp only [vdup_n_u16_spec, vadd_u16_spec, ok_bind]
  exact ok_vec' fun i => BitVec.add_zero _

/-- `vsub_u16` of a register with itself is zero. -/
theorem vsub_u16_self [Dialect] (a : uint16x4_t) : vsub_u16 a a = vdup_n_u16 0#16 := by
  simp only [vdup_n_u16_spec, vsub_u16_spec]
  exact ok_vec fun i => BitVec.sub_self _

/-- `vmul_u16` is commutative (both sides are undefined for the same operands). -/
theorem vmul_u16_comm [Dialect] (a b : uint16x4_t) : vmul_u16 a b = vmul_u16 b a := by
  simp only [vmul_u16_partial]
  simp only [Int.mul_comm (BitVec.toInt (a.lane _)), Int.mul_comm ((BitVec.toNat (a.lane _) : Nat) : Int), BitVec.mul_comm (a.lane _)]

/-- `vmul_u16` is associative (with `-fwrapv`). -/
theorem vmul_u16_assoc [Dialect] (hd : Dialect.wrapv = true) (a b c : uint16x4_t) :
    (do vmul_u16 (← vmul_u16 a b) c) = (do vmul_u16 a (← vmul_u16 b c)) := by
  simp only [vmul_u16_wrapv hd, ok_bind]
  refine ok_vec fun i => ?_
  exact BitVec.mul_assoc _ _ _
example := @vmul_u16_assoc .wrapping rfl (⟨fun i => BitVec.ofNat 16 (3 + i.val)⟩) (⟨fun i => BitVec.ofNat 16 (2 + i.val)⟩) (⟨fun i => BitVec.ofNat 16 (5 + i.val)⟩)

/-- `vmul_u16` distributes over `vadd_u16` (with `-fwrapv`). -/
theorem vmul_u16_vadd_u16 [Dialect] (hd : Dialect.wrapv = true) (a b c : uint16x4_t) :
    (do vmul_u16 a (← vadd_u16 b c)) = (do vadd_u16 (← vmul_u16 a b) (← vmul_u16 a c)) := by
  simp only [vadd_u16_spec, vmul_u16_wrapv hd, ok_bind]
  refine ok_vec fun i => ?_
  exact BitVec.mul_add
example := @vmul_u16_vadd_u16 .wrapping rfl (⟨fun i => BitVec.ofNat 16 (3 + i.val)⟩) (⟨fun i => BitVec.ofNat 16 (2 + i.val)⟩) (⟨fun i => BitVec.ofNat 16 (5 + i.val)⟩)

/-- `vmul_u16` distributes over `vsub_u16` (with `-fwrapv`). -/
theorem vmul_u16_vsub_u16 [Dialect] (hd : Dialect.wrapv = true) (a b c : uint16x4_t) :
    (do vmul_u16 a (← vsub_u16 b c)) = (do vsub_u16 (← vmul_u16 a b) (← vmul_u16 a c)) := by
  simp only [vsub_u16_spec, vmul_u16_wrapv hd, ok_bind]
  refine ok_vec fun i => ?_
  exact mul_sub' _ _ _
example := @vmul_u16_vsub_u16 .wrapping rfl (⟨fun i => BitVec.ofNat 16 (3 + i.val)⟩) (⟨fun i => BitVec.ofNat 16 (2 + i.val)⟩) (⟨fun i => BitVec.ofNat 16 (5 + i.val)⟩)

/-- One is neutral for `vmul_u16`. -/
theorem vmul_u16_one [Dialect] (a : uint16x4_t) : (do vmul_u16 a (← vdup_n_u16 1#16)) = .ok a := by
  simp only [vdup_n_u16_spec, vmul_u16_partial, ok_bind]
  rw [if_pos fun i => .inr (by have : (a.lane i).toNat < 65536 := (a.lane i).isLt; unfold Fits; rw [show (1#16).toNat = 1 from rfl]; omega)]
  exact ok_vec' fun i => BitVec.mul_one _

/-- `vadd_u32` is commutative. -/
theorem vadd_u32_comm [Dialect] (a b : uint32x2_t) : vadd_u32 a b = vadd_u32 b a := by
  simp only [vadd_u32_spec]
  exact ok_vec fun i => BitVec.add_comm _ _

/-- `vadd_u32` is associative. -/
theorem vadd_u32_assoc [Dialect] (a b c : uint32x2_t) :
    (do vadd_u32 (← vadd_u32 a b) c) = (do vadd_u32 a (← vadd_u32 b c)) := by
  simp only [vadd_u32_spec, ok_bind]
  refine ok_vec fun i => ?_
  exact BitVec.add_assoc _ _ _

/-- `vsub_u32` undoes `vadd_u32`. -/
theorem vsub_u32_vadd_u32 [Dialect] (a b : uint32x2_t) :
    (do vsub_u32 (← vadd_u32 a b) b) = .ok a := by
  simp only [vadd_u32_spec, vsub_u32_spec, ok_bind]
  refine ok_vec' fun i => ?_
  exact BitVec.add_sub_cancel _ _

/-- `vadd_u32` undoes `vsub_u32`. -/
theorem vadd_u32_vsub_u32 [Dialect] (a b : uint32x2_t) :
    (do vadd_u32 (← vsub_u32 a b) b) = .ok a := by
  simp only [vadd_u32_spec, vsub_u32_spec, ok_bind]
  refine ok_vec' fun i => ?_
  exact BitVec.sub_add_cancel _ _

/-- Zero is neutral for `vadd_u32`. -/
theorem vadd_u32_zero [Dialect] (a : uint32x2_t) : (do vadd_u32 a (← vdup_n_u32 0#32)) = .ok a := by
  simp only [vdup_n_u32_spec, vadd_u32_spec, ok_bind]
  exact ok_vec' fun i => BitVec.add_zero _

/-- `vsub_u32` of a register with itself is zero. -/
theorem vsub_u32_self [Dialect] (a : uint32x2_t) : vsub_u32 a a = vdup_n_u32 0#32 := by
  simp only [vdup_n_u32_spec, vsub_u32_spec]
  exact ok_vec fun i => BitVec.sub_self _

/-- `vmul_u32` is commutative. -/
theorem vmul_u32_comm [Dialect] (a b : uint32x2_t) : vmul_u32 a b = vmul_u32 b a := by
  simp only [vmul_u32_spec]
  exact ok_vec fun i => BitVec.mul_comm _ _

/-- `vmul_u32` is associative. -/
theorem vmul_u32_assoc [Dialect] (a b c : uint32x2_t) :
    (do vmul_u32 (← vmul_u32 a b) c) = (do vmul_u32 a (← vmul_u32 b c)) := by
  simp only [vmul_u32_spec, ok_bind]
  refine ok_vec fun i => ?_
  exact BitVec.mul_assoc _ _ _

/-- `vmul_u32` distributes over `vadd_u32`. -/
theorem vmul_u32_vadd_u32 [Dialect] (a b c : uint32x2_t) :
    (do vmul_u32 a (← vadd_u32 b c)) = (do vadd_u32 (← vmul_u32 a b) (← vmul_u32 a c)) := by
  simp only [vadd_u32_spec, vmul_u32_spec, ok_bind]
  refine ok_vec fun i => ?_
  exact BitVec.mul_add

/-- `vmul_u32` distributes over `vsub_u32`. -/
theorem vmul_u32_vsub_u32 [Dialect] (a b c : uint32x2_t) :
    (do vmul_u32 a (← vsub_u32 b c)) = (do vsub_u32 (← vmul_u32 a b) (← vmul_u32 a c)) := by
  simp only [vsub_u32_spec, vmul_u32_spec, ok_bind]
  refine ok_vec fun i => ?_
  exact mul_sub' _ _ _

/-- One is neutral for `vmul_u32`. -/
theorem vmul_u32_one [Dialect] (a : uint32x2_t) : (do vmul_u32 a (← vdup_n_u32 1#32)) = .ok a := by
  simp only [vdup_n_u32_spec, vmul_u32_spec, ok_bind]
  exact ok_vec' fun i => BitVec.mul_one _

/-- `vadd_u64` is commutative. -/
theorem vadd_u64_comm [Dialect] (a b : uint64x1_t) : vadd_u64 a b = vadd_u64 b a := by
  simp only [vadd_u64_spec]
  exact ok_vec fun i => BitVec.add_comm _ _

/-- `vadd_u64` is associative. -/
theorem vadd_u64_assoc [Dialect] (a b c : uint64x1_t) :
    (do vadd_u64 (← vadd_u64 a b) c) = (do vadd_u64 a (← vadd_u64 b c)) := by
  simp only [vadd_u64_spec, ok_bind]
  refine ok_vec fun i => ?_
  exact BitVec.add_assoc _ _ _

/-- `vsub_u64` undoes `vadd_u64`. -/
theorem vsub_u64_vadd_u64 [Dialect] (a b : uint64x1_t) :
    (do vsub_u64 (← vadd_u64 a b) b) = .ok a := by
  simp only [vadd_u64_spec, vsub_u64_spec, ok_bind]
  refine ok_vec' fun i => ?_
  exact BitVec.add_sub_cancel _ _

/-- `vadd_u64` undoes `vsub_u64`. -/
theorem vadd_u64_vsub_u64 [Dialect] (a b : uint64x1_t) :
    (do vadd_u64 (← vsub_u64 a b) b) = .ok a := by
  simp only [vadd_u64_spec, vsub_u64_spec, ok_bind]
  refine ok_vec' fun i => ?_
  exact BitVec.sub_add_cancel _ _

/-- Zero is neutral for `vadd_u64`. -/
theorem vadd_u64_zero [Dialect] (a : uint64x1_t) : (do vadd_u64 a (← vdup_n_u64 0#64)) = .ok a := by
  simp only [vdup_n_u64_spec, vadd_u64_spec, ok_bind]
  exact ok_vec' fun i => BitVec.add_zero _

/-- `vsub_u64` of a register with itself is zero. -/
theorem vsub_u64_self [Dialect] (a : uint64x1_t) : vsub_u64 a a = vdup_n_u64 0#64 := by
  simp only [vdup_n_u64_spec, vsub_u64_spec]
  exact ok_vec fun i => BitVec.sub_self _

/-- `vadd_s8` is commutative. -/
theorem vadd_s8_comm [Dialect] (a b : int8x8_t) : vadd_s8 a b = vadd_s8 b a := by
  simp only [vadd_s8_spec]
  exact ok_vec fun i => BitVec.add_comm _ _

/-- `vadd_s8` is associative. -/
theorem vadd_s8_assoc [Dialect] (a b c : int8x8_t) :
    (do vadd_s8 (← vadd_s8 a b) c) = (do vadd_s8 a (← vadd_s8 b c)) := by
  simp only [vadd_s8_spec, ok_bind]
  refine ok_vec fun i => ?_
  exact BitVec.add_assoc _ _ _

/-- `vsub_s8` undoes `vadd_s8`. -/
theorem vsub_s8_vadd_s8 [Dialect] (a b : int8x8_t) :
    (do vsub_s8 (← vadd_s8 a b) b) = .ok a := by
  simp only [vadd_s8_spec, vsub_s8_spec, ok_bind]
  refine ok_vec' fun i => ?_
  exact BitVec.add_sub_cancel _ _

/-- `vadd_s8` undoes `vsub_s8`. -/
theorem vadd_s8_vsub_s8 [Dialect] (a b : int8x8_t) :
    (do vadd_s8 (← vsub_s8 a b) b) = .ok a := by
  simp only [vadd_s8_spec, vsub_s8_spec, ok_bind]
  refine ok_vec' fun i => ?_
  exact BitVec.sub_add_cancel _ _

/-- Zero is neutral for `vadd_s8`. -/
theorem vadd_s8_zero [Dialect] (a : int8x8_t) : (do vadd_s8 a (← vdup_n_s8 0#8)) = .ok a := by
  simp only [vdup_n_s8_spec, vadd_s8_spec, ok_bind]
  exact ok_vec' fun i => BitVec.add_zero _

/-- `vsub_s8` of a register with itself is zero. -/
theorem vsub_s8_self [Dialect] (a : int8x8_t) : vsub_s8 a a = vdup_n_s8 0#8 := by
  simp only [vdup_n_s8_spec, vsub_s8_spec]
  exact ok_vec fun i => BitVec.sub_self _

/-- `vmul_s8` is commutative. -/
theorem vmul_s8_comm [Dialect] (a b : int8x8_t) : vmul_s8 a b = vmul_s8 b a := by
  simp only [vmul_s8_spec]
  exact ok_vec fun i => BitVec.mul_comm _ _

/-- `vmul_s8` is associative. -/
theorem vmul_s8_assoc [Dialect] (a b c : int8x8_t) :
    (do vmul_s8 (← vmul_s8 a b) c) = (do vmul_s8 a (← vmul_s8 b c)) := by
  simp only [vmul_s8_spec, ok_bind]
  refine ok_vec fun i => ?_
  exact BitVec.mul_assoc _ _ _

/-- `vmul_s8` distributes over `vadd_s8`. -/
theorem vmul_s8_vadd_s8 [Dialect] (a b c : int8x8_t) :
    (do vmul_s8 a (← vadd_s8 b c)) = (do vadd_s8 (← vmul_s8 a b) (← vmul_s8 a c)) := by
  simp only [vadd_s8_spec, vmul_s8_spec, ok_bind]
  refine ok_vec fun i => ?_
  exact BitVec.mul_add

/-- `vmul_s8` distributes over `vsub_s8`. -/
theorem vmul_s8_vsub_s8 [Dialect] (a b c : int8x8_t) :
    (do vmul_s8 a (← vsub_s8 b c)) = (do vsub_s8 (← vmul_s8 a b) (← vmul_s8 a c)) := by
  simp only [vsub_s8_spec, vmul_s8_spec, ok_bind]
  refine ok_vec fun i => ?_
  exact mul_sub' _ _ _

/-- One is neutral for `vmul_s8`. -/
theorem vmul_s8_one [Dialect] (a : int8x8_t) : (do vmul_s8 a (← vdup_n_s8 1#8)) = .ok a := by
  simp only [vdup_n_s8_spec, vmul_s8_spec, ok_bind]
  exact ok_vec' fun i => BitVec.mul_one _

/-- `vadd_s16` is commutative. -/
theorem vadd_s16_comm [Dialect] (a b : int16x4_t) : vadd_s16 a b = vadd_s16 b a := by
  simp only [vadd_s16_spec]
  exact ok_vec fun i => BitVec.add_comm _ _

/-- `vadd_s16` is associative. -/
theorem vadd_s16_assoc [Dialect] (a b c : int16x4_t) :
    (do vadd_s16 (← vadd_s16 a b) c) = (do vadd_s16 a (← vadd_s16 b c)) := by
  simp only [vadd_s16_spec, ok_bind]
  refine ok_vec fun i => ?_
  exact BitVec.add_assoc _ _ _

/-- `vsub_s16` undoes `vadd_s16`. -/
theorem vsub_s16_vadd_s16 [Dialect] (a b : int16x4_t) :
    (do vsub_s16 (← vadd_s16 a b) b) = .ok a := by
  simp only [vadd_s16_spec, vsub_s16_spec, ok_bind]
  refine ok_vec' fun i => ?_
  exact BitVec.add_sub_cancel _ _

/-- `vadd_s16` undoes `vsub_s16`. -/
theorem vadd_s16_vsub_s16 [Dialect] (a b : int16x4_t) :
    (do vadd_s16 (← vsub_s16 a b) b) = .ok a := by
  simp only [vadd_s16_spec, vsub_s16_spec, ok_bind]
  refine ok_vec' fun i => ?_
  exact BitVec.sub_add_cancel _ _

/-- Zero is neutral for `vadd_s16`. -/
theorem vadd_s16_zero [Dialect] (a : int16x4_t) : (do vadd_s16 a (← vdup_n_s16 0#16)) = .ok a := by
  simp only [vdup_n_s16_spec, vadd_s16_spec, ok_bind]
  exact ok_vec' fun i => BitVec.add_zero _

/-- `vsub_s16` of a register with itself is zero. -/
theorem vsub_s16_self [Dialect] (a : int16x4_t) : vsub_s16 a a = vdup_n_s16 0#16 := by
  simp only [vdup_n_s16_spec, vsub_s16_spec]
  exact ok_vec fun i => BitVec.sub_self _

/-- `vmul_s16` is commutative. -/
theorem vmul_s16_comm [Dialect] (a b : int16x4_t) : vmul_s16 a b = vmul_s16 b a := by
  simp only [vmul_s16_spec]
  exact ok_vec fun i => BitVec.mul_comm _ _

/-- `vmul_s16` is associative. -/
theorem vmul_s16_assoc [Dialect] (a b c : int16x4_t) :
    (do vmul_s16 (← vmul_s16 a b) c) = (do vmul_s16 a (← vmul_s16 b c)) := by
  simp only [vmul_s16_spec, ok_bind]
  refine ok_vec fun i => ?_
  exact BitVec.mul_assoc _ _ _

/-- `vmul_s16` distributes over `vadd_s16`. -/
theorem vmul_s16_vadd_s16 [Dialect] (a b c : int16x4_t) :
    (do vmul_s16 a (← vadd_s16 b c)) = (do vadd_s16 (← vmul_s16 a b) (← vmul_s16 a c)) := by
  simp only [vadd_s16_spec, vmul_s16_spec, ok_bind]
  refine ok_vec fun i => ?_
  exact BitVec.mul_add

/-- `vmul_s16` distributes over `vsub_s16`. -/
theorem vmul_s16_vsub_s16 [Dialect] (a b c : int16x4_t) :
    (do vmul_s16 a (← vsub_s16 b c)) = (do vsub_s16 (← vmul_s16 a b) (← vmul_s16 a c)) := by
  simp only [vsub_s16_spec, vmul_s16_spec, ok_bind]
  refine ok_vec fun i => ?_
  exact mul_sub' _ _ _

/-- One is neutral for `vmul_s16`. -/
theorem vmul_s16_one [Dialect] (a : int16x4_t) : (do vmul_s16 a (← vdup_n_s16 1#16)) = .ok a := by
  simp only [vdup_n_s16_spec, vmul_s16_spec, ok_bind]
  exact ok_vec' fun i => BitVec.mul_one _

/-- `vadd_s32` is commutative (both sides are undefined for the same operands). -/
theorem vadd_s32_comm [Dialect] (a b : int32x2_t) : vadd_s32 a b = vadd_s32 b a := by
  simp only [vadd_s32_partial]
  simp only [Int.add_comm (BitVec.toInt (a.lane _)), Int.add_comm ((BitVec.toNat (a.lane _) : Nat) : Int), BitVec.add_comm (a.lane _)]

/-- `vadd_s32` is associative (with `-fwrapv`). -/
theorem vadd_s32_assoc [Dialect] (hd : Dialect.wrapv = true) (a b c : int32x2_t) :
    (do vadd_s32 (← vadd_s32 a b) c) = (do vadd_s32 a (← vadd_s32 b c)) := by
  simp only [vadd_s32_wrapv hd, ok_bind]
  refine ok_vec fun i => ?_
  exact BitVec.add_assoc _ _ _
example := @vadd_s32_assoc .wrapping rfl (⟨fun i => BitVec.ofNat 32 (3 + i.val)⟩) (⟨fun i => BitVec.ofNat 32 (2 + i.val)⟩) (⟨fun i => BitVec.ofNat 32 (5 + i.val)⟩)

/-- `vsub_s32` undoes `vadd_s32` (with `-fwrapv`). -/
theorem vsub_s32_vadd_s32 [Dialect] (hd : Dialect.wrapv = true) (a b : int32x2_t) :
    (do vsub_s32 (← vadd_s32 a b) b) = .ok a := by
  simp only [vadd_s32_wrapv hd, vsub_s32_wrapv hd, ok_bind]
  refine ok_vec' fun i => ?_
  exact BitVec.add_sub_cancel _ _
example := @vsub_s32_vadd_s32 .wrapping rfl (⟨fun i => BitVec.ofNat 32 (3 + i.val)⟩) (⟨fun i => BitVec.ofNat 32 (2 + i.val)⟩)

/-- `vadd_s32` undoes `vsub_s32` (with `-fwrapv`). -/
theorem vadd_s32_vsub_s32 [Dialect] (hd : Dialect.wrapv = true) (a b : int32x2_t) :
    (do vadd_s32 (← vsub_s32 a b) b) = .ok a := by
  simp only [vadd_s32_wrapv hd, vsub_s32_wrapv hd, ok_bind]
  refine ok_vec' fun i => ?_
  exact BitVec.sub_add_cancel _ _
example := @vadd_s32_vsub_s32 .wrapping rfl (⟨fun i => BitVec.ofNat 32 (3 + i.val)⟩) (⟨fun i => BitVec.ofNat 32 (2 + i.val)⟩)

/-- Zero is neutral for `vadd_s32`. -/
theorem vadd_s32_zero [Dialect] (a : int32x2_t) : (do vadd_s32 a (← vdup_n_s32 0#32)) = .ok a := by
  simp only [vdup_n_s32_spec, vadd_s32_partial, ok_bind]
  rw [if_pos fun i => .inr (by have := toInt32 (a.lane i); unfold Fits; simp only [BitVec.toInt_zero]; omega)]
  exact ok_vec' fun i => BitVec.add_zero _

/-- `vsub_s32` of a register with itself is zero. -/
theorem vsub_s32_self [Dialect] (a : int32x2_t) : vsub_s32 a a = vdup_n_s32 0#32 := by
  simp only [vdup_n_s32_spec, vsub_s32_partial]
  rw [if_pos fun i => .inr (by unfold Fits; omega)]
  exact ok_vec fun i => BitVec.sub_self _

/-- `vmul_s32` is commutative (both sides are undefined for the same operands). -/
theorem vmul_s32_comm [Dialect] (a b : int32x2_t) : vmul_s32 a b = vmul_s32 b a := by
  simp only [vmul_s32_partial]
  simp only [Int.mul_comm (BitVec.toInt (a.lane _)), Int.mul_comm ((BitVec.toNat (a.lane _) : Nat) : Int), BitVec.mul_comm (a.lane _)]

/-- `vmul_s32` is associative (with `-fwrapv`). -/
theorem vmul_s32_assoc [Dialect] (hd : Dialect.wrapv = true) (a b c : int32x2_t) :
    (do vmul_s32 (← vmul_s32 a b) c) = (do vmul_s32 a (← vmul_s32 b c)) := by
  simp only [vmul_s32_wrapv hd, ok_bind]
  refine ok_vec fun i => ?_
  exact BitVec.mul_assoc _ _ _
example := @vmul_s32_assoc .wrapping rfl (⟨fun i => BitVec.ofNat 32 (3 + i.val)⟩) (⟨fun i => BitVec.ofNat 32 (2 + i.val)⟩) (⟨fun i => BitVec.ofNat 32 (5 + i.val)⟩)

/-- `vmul_s32` distributes over `vadd_s32` (with `-fwrapv`). -/
theorem vmul_s32_vadd_s32 [Dialect] (hd : Dialect.wrapv = true) (a b c : int32x2_t) :
    (do vmul_s32 a (← vadd_s32 b c)) = (do vadd_s32 (← vmul_s32 a b) (← vmul_s32 a c)) := by
  simp only [vadd_s32_wrapv hd, vmul_s32_wrapv hd, ok_bind]
  refine ok_vec fun i => ?_
  exact BitVec.mul_add
example := @vmul_s32_vadd_s32 .wrapping rfl (⟨fun i => BitVec.ofNat 32 (3 + i.val)⟩) (⟨fun i => BitVec.ofNat 32 (2 + i.val)⟩) (⟨fun i => BitVec.ofNat 32 (5 + i.val)⟩)

/-- `vmul_s32` distributes over `vsub_s32` (with `-fwrapv`). -/
theorem vmul_s32_vsub_s32 [Dialect] (hd : Dialect.wrapv = true) (a b c : int32x2_t) :
    (do vmul_s32 a (← vsub_s32 b c)) = (do vsub_s32 (← vmul_s32 a b) (← vmul_s32 a c)) := by
  simp only [vsub_s32_wrapv hd, vmul_s32_wrapv hd, ok_bind]
  refine ok_vec fun i => ?_
  exact mul_sub' _ _ _
example := @vmul_s32_vsub_s32 .wrapping rfl (⟨fun i => BitVec.ofNat 32 (3 + i.val)⟩) (⟨fun i => BitVec.ofNat 32 (2 + i.val)⟩) (⟨fun i => BitVec.ofNat 32 (5 + i.val)⟩)

/-- One is neutral for `vmul_s32`. -/
theorem vmul_s32_one [Dialect] (a : int32x2_t) : (do vmul_s32 a (← vdup_n_s32 1#32)) = .ok a := by
  simp only [vdup_n_s32_spec, vmul_s32_partial, ok_bind]
  rw [if_pos fun i => .inr (by have := toInt32 (a.lane i); unfold Fits; rw [show (1#32).toInt = 1 from rfl]; omega)]
  exact ok_vec' fun i => BitVec.mul_one _

/-- `vadd_s64` is commutative (both sides are undefined for the same operands). -/
theorem vadd_s64_comm [Dialect] (a b : int64x1_t) : vadd_s64 a b = vadd_s64 b a := by
  simp only [vadd_s64_partial]
  simp only [Int.add_comm (BitVec.toInt (a.lane _)), Int.add_comm ((BitVec.toNat (a.lane _) : Nat) : Int), BitVec.add_comm (a.lane _)]

/-- `vadd_s64` is associative (with `-fwrapv`). -/
theorem vadd_s64_assoc [Dialect] (hd : Dialect.wrapv = true) (a b c : int64x1_t) :
    (do vadd_s64 (← vadd_s64 a b) c) = (do vadd_s64 a (← vadd_s64 b c)) := by
  simp only [vadd_s64_wrapv hd, ok_bind]
  refine ok_vec fun i => ?_
  exact BitVec.add_assoc _ _ _
example := @vadd_s64_assoc .wrapping rfl (⟨fun i => BitVec.ofNat 64 (3 + i.val)⟩) (⟨fun i => BitVec.ofNat 64 (2 + i.val)⟩) (⟨fun i => BitVec.ofNat 64 (5 + i.val)⟩)

/-- `vsub_s64` undoes `vadd_s64` (with `-fwrapv`). -/
theorem vsub_s64_vadd_s64 [Dialect] (hd : Dialect.wrapv = true) (a b : int64x1_t) :
    (do vsub_s64 (← vadd_s64 a b) b) = .ok a := by
  simp only [vadd_s64_wrapv hd, vsub_s64_wrapv hd, ok_bind]
  refine ok_vec' fun i => ?_
  exact BitVec.add_sub_cancel _ _
example := @vsub_s64_vadd_s64 .wrapping rfl (⟨fun i => BitVec.ofNat 64 (3 + i.val)⟩) (⟨fun i => BitVec.ofNat 64 (2 + i.val)⟩)

/-- `vadd_s64` undoes `vsub_s64` (with `-fwrapv`). -/
theorem vadd_s64_vsub_s64 [Dialect] (hd : Dialect.wrapv = true) (a b : int64x1_t) :
    (do vadd_s64 (← vsub_s64 a b) b) = .ok a := by
  simp only [vadd_s64_wrapv hd, vsub_s64_wrapv hd, ok_bind]
  refine ok_vec' fun i => ?_
  exact BitVec.sub_add_cancel _ _
example := @vadd_s64_vsub_s64 .wrapping rfl (⟨fun i => BitVec.ofNat 64 (3 + i.val)⟩) (⟨fun i => BitVec.ofNat 64 (2 + i.val)⟩)

/-- Zero is neutral for `vadd_s64`. -/
theorem vadd_s64_zero [Dialect] (a : int64x1_t) : (do vadd_s64 a (← vdup_n_s64 0#64)) = .ok a := by
  simp only [vdup_n_s64_spec, vadd_s64_partial, ok_bind]
  rw [if_pos fun i => .inr (by have := toInt64 (a.lane i); unfold Fits; simp only [BitVec.toInt_zero]; omega)]
  exact ok_vec' fun i => BitVec.add_zero _

/-- `vsub_s64` of a register with itself is zero. -/
theorem vsub_s64_self [Dialect] (a : int64x1_t) : vsub_s64 a a = vdup_n_s64 0#64 := by
  simp only [vdup_n_s64_spec, vsub_s64_partial]
  rw [if_pos fun i => .inr (by unfold Fits; omega)]
  exact ok_vec fun i => BitVec.sub_self _

/-- `vaddq_u8` is commutative. -/
theorem vaddq_u8_comm [Dialect] (a b : uint8x16_t) : vaddq_u8 a b = vaddq_u8 b a := by
  simp only [vaddq_u8_spec]
  exact ok_vec fun i => BitVec.add_comm _ _

/-- `vaddq_u8` is associative. -/
theorem vaddq_u8_assoc [Dialect] (a b c : uint8x16_t) :
    (do vaddq_u8 (← vaddq_u8 a b) c) = (do vaddq_u8 a (← vaddq_u8 b c)) := by
  simp only [vaddq_u8_spec, ok_bind]
  refine ok_vec fun i => ?_
  exact BitVec.add_assoc _ _ _

/-- `vsubq_u8` undoes `vaddq_u8`. -/
theorem vsubq_u8_vaddq_u8 [Dialect] (a b : uint8x16_t) :
    (do vsubq_u8 (← vaddq_u8 a b) b) = .ok a := by
  simp only [vaddq_u8_spec, vsubq_u8_spec, ok_bind]
  refine ok_vec' fun i => ?_
  exact BitVec.add_sub_cancel _ _

/-- `vaddq_u8` undoes `vsubq_u8`. -/
theorem vaddq_u8_vsubq_u8 [Dialect] (a b : uint8x16_t) :
    (do vaddq_u8 (← vsubq_u8 a b) b) = .ok a := by
  simp only [vaddq_u8_spec, vsubq_u8_spec, ok_bind]
  refine ok_vec' fun i => ?_
  exact BitVec.sub_add_cancel _ _

/-- Zero is neutral for `vaddq_u8`. -/
theorem vaddq_u8_zero [Dialect] (a : uint8x16_t) : (do vaddq_u8 a (← vdupq_n_u8 0#8)) = .ok a := by
  simp only [vdupq_n_u8_spec, vaddq_u8_spec, ok_bind]
  exact ok_vec' fun i => BitVec.add_zero _

/-- `vsubq_u8` of a register with itself is zero. -/
theorem vsubq_u8_self [Dialect] (a : uint8x16_t) : vsubq_u8 a a = vdupq_n_u8 0#8 := by
  simp only [vdupq_n_u8_spec, vsubq_u8_spec]
  exact ok_vec fun i => BitVec.sub_self _

/-- `vmulq_u8` is commutative. -/
theorem vmulq_u8_comm [Dialect] (a b : uint8x16_t) : vmulq_u8 a b = vmulq_u8 b a := by
  simp only [vmulq_u8_spec]
  exact ok_vec fun i => BitVec.mul_comm _ _

/-- `vmulq_u8` is associative. -/
theorem vmulq_u8_assoc [Dialect] (a b c : uint8x16_t) :
    (do vmulq_u8 (← vmulq_u8 a b) c) = (do vmulq_u8 a (← vmulq_u8 b c)) := by
  simp only [vmulq_u8_spec, ok_bind]
  refine ok_vec fun i => ?_
  exact BitVec.mul_assoc _ _ _

/-- `vmulq_u8` distributes over `vaddq_u8`. -/
theorem vmulq_u8_vaddq_u8 [Dialect] (a b c : uint8x16_t) :
    (do vmulq_u8 a (← vaddq_u8 b c)) = (do vaddq_u8 (← vmulq_u8 a b) (← vmulq_u8 a c)) := by
  simp only [vaddq_u8_spec, vmulq_u8_spec, ok_bind]
  refine ok_vec fun i => ?_
  exact BitVec.mul_add

/-- `vmulq_u8` distributes over `vsubq_u8`. -/
theorem vmulq_u8_vsubq_u8 [Dialect] (a b c : uint8x16_t) :
    (do vmulq_u8 a (← vsubq_u8 b c)) = (do vsubq_u8 (← vmulq_u8 a b) (← vmulq_u8 a c)) := by
  simp only [vsubq_u8_spec, vmulq_u8_spec, ok_bind]
  refine ok_vec fun i => ?_
  exact mul_sub' _ _ _

/-- One is neutral for `vmulq_u8`. -/
theorem vmulq_u8_one [Dialect] (a : uint8x16_t) : (do vmulq_u8 a (← vdupq_n_u8 1#8)) = .ok a := by
  simp only [vdupq_n_u8_spec, vmulq_u8_spec, ok_bind]
  exact ok_vec' fun i => BitVec.mul_one _

/-- `vmlaq_u8` is `vaddq_u8` of the accumulator and `vmulq_u8`, with the same undefined cases. -/
theorem vmlaq_u8_factor [Dialect] (N M P : uint8x16_t) :
    vmlaq_u8 N M P = (do vaddq_u8 N (← vmulq_u8 M P)) := by
  simp only [vmlaq_u8_spec, vaddq_u8_spec, vmulq_u8_spec, ok_bind]

/-- `vaddq_u16` is commutative. -/
theorem vaddq_u16_comm [Dialect] (a b : uint16x8_t) : vaddq_u16 a b = vaddq_u16 b a := by
  simp only [vaddq_u16_spec]
  exact ok_vec fun i => BitVec.add_comm _ _

/-- `vaddq_u16` is associative. -/
theorem vaddq_u16_assoc [Dialect] (a b c : uint16x8_t) :
    (do vaddq_u16 (← vaddq_u16 a b) c) = (do vaddq_u16 a (← vaddq_u16 b c)) := by
  simp only [vaddq_u16_spec, ok_bind]
  refine ok_vec fun i => ?_
  exact BitVec.add_assoc _ _ _

/-- `vsubq_u16` undoes `vaddq_u16`. -/
theorem vsubq_u16_vaddq_u16 [Dialect] (a b : uint16x8_t) :
    (do vsubq_u16 (← vaddq_u16 a b) b) = .ok a := by
  simp only [vaddq_u16_spec, vsubq_u16_spec, ok_bind]
  refine ok_vec' fun i => ?_
  exact BitVec.add_sub_cancel _ _

/-- `vaddq_u16` undoes `vsubq_u16`. -/
theorem vaddq_u16_vsubq_u16 [Dialect] (a b : uint16x8_t) :
    (do vaddq_u16 (← vsubq_u16 a b) b) = .ok a := by
  simp only [vaddq_u16_spec, vsubq_u16_spec, ok_bind]
  refine ok_vec' fun i => ?_
  exact BitVec.sub_add_cancel _ _

/-- Zero is neutral for `vaddq_u16`. -/
theorem vaddq_u16_zero [Dialect] (a : uint16x8_t) : (do vaddq_u16 a (← vdupq_n_u16 0#16)) = .ok a := by
  simp only [vdupq_n_u16_spec, vaddq_u16_spec, ok_bind]
  exact ok_vec' fun i => BitVec.add_zero _

/-- `vsubq_u16` of a register with itself is zero. -/
theorem vsubq_u16_self [Dialect] (a : uint16x8_t) : vsubq_u16 a a = vdupq_n_u16 0#16 := by
  simp only [vdupq_n_u16_spec, vsubq_u16_spec]
  exact ok_vec fun i => BitVec.sub_self _

/-- `vmulq_u16` is commutative (both sides are undefined for the same operands). -/
theorem vmulq_u16_comm [Dialect] (a b : uint16x8_t) : vmulq_u16 a b = vmulq_u16 b a := by
  simp only [vmulq_u16_partial]
  simp only [Int.mul_comm (BitVec.toInt (a.lane _)), Int.mul_comm ((BitVec.toNat (a.lane _) : Nat) : Int), BitVec.mul_comm (a.lane _)]

/-- `vmulq_u16` is associative (with `-fwrapv`). -/
theorem vmulq_u16_assoc [Dialect] (hd : Dialect.wrapv = true) (a b c : uint16x8_t) :
    (do vmulq_u16 (← vmulq_u16 a b) c) = (do vmulq_u16 a (← vmulq_u16 b c)) := by
  simp only [vmulq_u16_wrapv hd, ok_bind]
  refine ok_vec fun i => ?_
  exact BitVec.mul_assoc _ _ _
example := @vmulq_u16_assoc .wrapping rfl (⟨fun i => BitVec.ofNat 16 (3 + i.val)⟩) (⟨fun i => BitVec.ofNat 16 (2 + i.val)⟩) (⟨fun i => BitVec.ofNat 16 (5 + i.val)⟩)

/-- `vmulq_u16` distributes over `vaddq_u16` (with `-fwrapv`). -/
theorem vmulq_u16_vaddq_u16 [Dialect] (hd : Dialect.wrapv = true) (a b c : uint16x8_t) :
    (do vmulq_u16 a (← vaddq_u16 b c)) = (do vaddq_u16 (← vmulq_u16 a b) (← vmulq_u16 a c)) := by
  simp only [vaddq_u16_spec, vmulq_u16_wrapv hd, ok_bind]
  refine ok_vec fun i => ?_
  exact BitVec.mul_add
example := @vmulq_u16_vaddq_u16 .wrapping rfl (⟨fun i => BitVec.ofNat 16 (3 + i.val)⟩) (⟨fun i => BitVec.ofNat 16 (2 + i.val)⟩) (⟨fun i => BitVec.ofNat 16 (5 + i.val)⟩)

/-- `vmulq_u16` distributes over `vsubq_u16` (with `-fwrapv`). -/
theorem vmulq_u16_vsubq_u16 [Dialect] (hd : Dialect.wrapv = true) (a b c : uint16x8_t) :
    (do vmulq_u16 a (← vsubq_u16 b c)) = (do vsubq_u16 (← vmulq_u16 a b) (← vmulq_u16 a c)) := by
  simp only [vsubq_u16_spec, vmulq_u16_wrapv hd, ok_bind]
  refine ok_vec fun i => ?_
  exact mul_sub' _ _ _
example := @vmulq_u16_vsubq_u16 .wrapping rfl (⟨fun i => BitVec.ofNat 16 (3 + i.val)⟩) (⟨fun i => BitVec.ofNat 16 (2 + i.val)⟩) (⟨fun i => BitVec.ofNat 16 (5 + i.val)⟩)

/-- One is neutral for `vmulq_u16`. -/
theorem vmulq_u16_one [Dialect] (a : uint16x8_t) : (do vmulq_u16 a (← vdupq_n_u16 1#16)) = .ok a := by
  simp only [vdupq_n_u16_spec, vmulq_u16_partial, ok_bind]
  rw [if_pos fun i => .inr (by have : (a.lane i).toNat < 65536 := (a.lane i).isLt; unfold Fits; rw [show (1#16).toNat = 1 from rfl]; omega)]
  exact ok_vec' fun i => BitVec.mul_one _

/-- With `-fwrapv`, `vmlaq_u16` is `vaddq_u16` of the accumulator and `vmulq_u16`. -/
theorem vmlaq_u16_factor_wrapv [Dialect] (hd : Dialect.wrapv = true) (N M P : uint16x8_t) :
    vmlaq_u16 N M P = (do vaddq_u16 N (← vmulq_u16 M P)) := by
  simp only [vmlaq_u16_wrapv hd, vaddq_u16_spec, vmulq_u16_wrapv hd, ok_bind]
example := @vmlaq_u16_factor_wrapv .wrapping rfl (⟨fun i => BitVec.ofNat 16 (4 + i.val)⟩) (⟨fun i => BitVec.ofNat 16 (3 + i.val)⟩) (⟨fun i => BitVec.ofNat 16 (2 + i.val)⟩)

/-- Whenever `vmlaq_u16` is defined, it is `vaddq_u16` of the accumulator and `vmulq_u16` (it is undefined for more operands: the sum is formed in `int`). -/
theorem vmlaq_u16_factor_partial [Dialect] (N M P : uint16x8_t) (r : uint16x8_t) (h : vmlaq_u16 N M P = .ok r) :
    (do vaddq_u16 N (← vmulq_u16 M P)) = .ok r := by
  rw [vmlaq_u16_partial] at h
  split at h
  · rename_i g
    rw [vmulq_u16_partial, if_pos fun i => (g i).1, ok_bind, vaddq_u16_spec, ← h]
  · cases h
example := @vmlaq_u16_factor_partial .strict ⟨fun i => BitVec.ofNat 16 (4 + i.val)⟩ ⟨fun i => BitVec.ofNat 16 (300 + i.val)⟩ ⟨fun i => BitVec.ofNat 16 (200 + i.val)⟩ _ rfl

/-- `vaddq_u32` is commutative. -/
theorem vaddq_u32_comm [Dialect] (a b : uint32x4_t) : vaddq_u32 a b = vaddq_u32 b a := by
  simp only [vaddq_u32_spec]
  exact ok_vec fun i => BitVec.add_comm _ _

/-- `vaddq_u32` is associative. -/
theorem vaddq_u32_assoc [Dialect] (a b c : uint32x4_t) :
    (do vaddq_u32 (← vaddq_u32 a b) c) = (do vaddq_u32 a (← vaddq_u32 b c)) := by
  simp only [vaddq_u32_spec, ok_bind]
  refine ok_vec fun i => ?_
  exact BitVec.add_assoc _ _ _

/-- `vsubq_u32` undoes `vaddq_u32`. -/
theorem vsubq_u32_vaddq_u32 [Dialect] (a b : uint32x4_t) :
    (do vsubq_u32 (← vaddq_u32 a b) b) = .ok a := by
  simp only [vaddq_u32_spec, vsubq_u32_spec, ok_bind]
  refine ok_vec' fun i => ?_
  exact BitVec.add_sub_cancel _ _

/-- `vaddq_u32` undoes `vsubq_u32`. -/
theorem vaddq_u32_vsubq_u32 [Dialect] (a b : uint32x4_t) :
    (do vaddq_u32 (← vsubq_u32 a b) b) = .ok a := by
  simp only [vaddq_u32_spec, vsubq_u32_spec, ok_bind]
  refine ok_vec' fun i => ?_
  exact BitVec.sub_add_cancel _ _

/-- Zero is neutral for `vaddq_u32`. -/
theorem vaddq_u32_zero [Dialect] (a : uint32x4_t) : (do vaddq_u32 a (← vdupq_n_u32 0#32)) = .ok a := by
  simp only [vdupq_n_u32_spec, vaddq_u32_spec, ok_bind]
  exact ok_vec' fun i => BitVec.add_zero _

/-- `vsubq_u32` of a register with itself is zero. -/
theorem vsubq_u32_self [Dialect] (a : uint32x4_t) : vsubq_u32 a a = vdupq_n_u32 0#32 := by
  simp only [vdupq_n_u32_spec, vsubq_u32_spec]
  exact ok_vec fun i => BitVec.sub_self _

/-- `vmulq_u32` is commutative. -/
theorem vmulq_u32_comm [Dialect] (a b : uint32x4_t) : vmulq_u32 a b = vmulq_u32 b a := by
  simp only [vmulq_u32_spec]
  exact ok_vec fun i => BitVec.mul_comm _ _

/-- `vmulq_u32` is associative. -/
theorem vmulq_u32_assoc [Dialect] (a b c : uint32x4_t) :
    (do vmulq_u32 (← vmulq_u32 a b) c) = (do vmulq_u32 a (← vmulq_u32 b c)) := by
  simp only [vmulq_u32_spec, ok_bind]
  refine ok_vec fun i => ?_
  exact BitVec.mul_assoc _ _ _

/-- `vmulq_u32` distributes over `vaddq_u32`. -/
theorem vmulq_u32_vaddq_u32 [Dialect] (a b c : uint32x4_t) :
    (do vmulq_u32 a (← vaddq_u32 b c)) = (do vaddq_u32 (← vmulq_u32 a b) (← vmulq_u32 a c)) := by
  simp only [vaddq_u32_spec, vmulq_u32_spec, ok_bind]
  refine ok_vec fun i => ?_
  exact BitVec.mul_add

/-- `vmulq_u32` distributes over `vsubq_u32`. -/
theorem vmulq_u32_vsubq_u32 [Dialect] (a b c : uint32x4_t) :
    (do vmulq_u32 a (← vsubq_u32 b c)) = (do vsubq_u32 (← vmulq_u32 a b) (← vmulq_u32 a c)) := by
  simp only [vsubq_u32_spec, vmulq_u32_spec, ok_bind]
  refine ok_vec fun i => ?_
  exact mul_sub' _ _ _

/-- One is neutral for `vmulq_u32`. -/
theorem vmulq_u32_one [Dialect] (a : uint32x4_t) : (do vmulq_u32 a (← vdupq_n_u32 1#32)) = .ok a := by
  simp only [vdupq_n_u32_spec, vmulq_u32_spec, ok_bind]
  exact ok_vec' fun i => BitVec.mul_one _

/-- `vmlaq_u32` is `vaddq_u32` of the accumulator and `vmulq_u32`, with the same undefined cases. -/
theorem vmlaq_u32_factor [Dialect] (N M P : uint32x4_t) :
    vmlaq_u32 N M P = (do vaddq_u32 N (← vmulq_u32 M P)) := by
  simp only [vmlaq_u32_spec, vaddq_u32_spec, vmulq_u32_spec, ok_bind]

/-- `vaddq_u64` is commutative. -/
theorem vaddq_u64_comm [Dialect] (a b : uint64x2_t) : vaddq_u64 a b = vaddq_u64 b a := by
  simp only [vaddq_u64_spec]
  exact ok_vec fun i => BitVec.add_comm _ _

/-- `vaddq_u64` is associative. -/
theorem vaddq_u64_assoc [Dialect] (a b c : uint64x2_t) :
    (do vaddq_u64 (← vaddq_u64 a b) c) = (do vaddq_u64 a (← vaddq_u64 b c)) := by
  simp only [vaddq_u64_spec, ok_bind]
  refine ok_vec fun i => ?_
  exact BitVec.add_assoc _ _ _

/-- `vsubq_u64` undoes `vaddq_u64`. -/
theorem vsubq_u64_vaddq_u64 [Dialect] (a b : uint64x2_t) :
    (do vsubq_u64 (← vaddq_u64 a b) b) = .ok a := by
  simp only [vaddq_u64_spec, vsubq_u64_spec, ok_bind]
  refine ok_vec' fun i => ?_
  exact BitVec.add_sub_cancel _ _

/-- `vaddq_u64` undoes `vsubq_u64`. -/
theorem vaddq_u64_vsubq_u64 [Dialect] (a b : uint64x2_t) :
    (do vaddq_u64 (← vsubq_u64 a b) b) = .ok a := by
  simp only [vaddq_u64_spec, vsubq_u64_spec, ok_bind]
  refine ok_vec' fun i => ?_
  exact BitVec.sub_add_cancel _ _

/-- `vaddq_s8` is commutative. -/
theorem vaddq_s8_comm [Dialect] (a b : int8x16_t) : vaddq_s8 a b = vaddq_s8 b a := by
  simp only [vaddq_s8_spec]
  exact ok_vec fun i => BitVec.add_comm _ _

/-- `vaddq_s8` is associative. -/
theorem vaddq_s8_assoc [Dialect] (a b c : int8x16_t) :
    (do vaddq_s8 (← vaddq_s8 a b) c) = (do vaddq_s8 a (← vaddq_s8 b c)) := by
  simp only [vaddq_s8_spec, ok_bind]
  refine ok_vec fun i => ?_
  exact BitVec.add_assoc _ _ _

/-- `vsubq_s8` undoes `vaddq_s8`. -/
theorem vsubq_s8_vaddq_s8 [Dialect] (a b : int8x16_t) :
    (do vsubq_s8 (← vaddq_s8 a b) b) = .ok a := by
  simp only [vaddq_s8_spec, vsubq_s8_spec, ok_bind]
  refine ok_vec' fun i => ?_
  exact BitVec.add_sub_cancel _ _

/-- `vaddq_s8` undoes `vsubq_s8`. -/
theorem vaddq_s8_vsubq_s8 [Dialect] (a b : int8x16_t) :
    (do vaddq_s8 (← vsubq_s8 a b) b) = .ok a := by
  simp only [vaddq_s8_spec, vsubq_s8_spec, ok_bind]
  refine ok_vec' fun i => ?_
  exact BitVec.sub_add_cancel _ _

/-- Zero is neutral for `vaddq_s8`. -/
theorem vaddq_s8_zero [Dialect] (a : int8x16_t) : (do vaddq_s8 a (← vdupq_n_s8 0#8)) = .ok a := by
  simp only [vdupq_n_s8_spec, vaddq_s8_spec, ok_bind]
  exact ok_vec' fun i => BitVec.add_zero _

/-- `vsubq_s8` of a register with itself is zero. -/
theorem vsubq_s8_self [Dialect] (a : int8x16_t) : vsubq_s8 a a = vdupq_n_s8 0#8 := by
  simp only [vdupq_n_s8_spec, vsubq_s8_spec]
  exact ok_vec fun i => BitVec.sub_self _

/-- `vmulq_s8` is commutative. -/
theorem vmulq_s8_comm [Dialect] (a b : int8x16_t) : vmulq_s8 a b = vmulq_s8 b a := by
  simp only [vmulq_s8_spec]
  exact ok_vec fun i => BitVec.mul_comm _ _

/-- `vmulq_s8` is associative. -/
theorem vmulq_s8_assoc [Dialect] (a b c : int8x16_t) :
    (do vmulq_s8 (← vmulq_s8 a b) c) = (do vmulq_s8 a (← vmulq_s8 b c)) := by
  simp only [vmulq_s8_spec, ok_bind]
  refine ok_vec fun i => ?_
  exact BitVec.mul_assoc _ _ _

/-- `vmulq_s8` distributes over `vaddq_s8`. -/
theorem vmulq_s8_vaddq_s8 [Dialect] (a b c : int8x16_t) :
    (do vmulq_s8 a (← vaddq_s8 b c)) = (do vaddq_s8 (← vmulq_s8 a b) (← vmulq_s8 a c)) := by
  simp only [vaddq_s8_spec, vmulq_s8_spec, ok_bind]
  refine ok_vec fun i => ?_
  exact BitVec.mul_add

/-- `vmulq_s8` distributes over `vsubq_s8`. -/
theorem vmulq_s8_vsubq_s8 [Dialect] (a b c : int8x16_t) :
    (do vmulq_s8 a (← vsubq_s8 b c)) = (do vsubq_s8 (← vmulq_s8 a b) (← vmulq_s8 a c)) := by
  simp only [vsubq_s8_spec, vmulq_s8_spec, ok_bind]
  refine ok_vec fun i => ?_
  exact mul_sub' _ _ _

/-- One is neutral for `vmulq_s8`. -/
theorem vmulq_s8_one [Dialect] (a : int8x16_t) : (do vmulq_s8 a (← vdupq_n_s8 1#8)) = .ok a := by
  simp only [vdupq_n_s8_spec, vmulq_s8_spec, ok_bind]
  exact ok_vec' fun i => BitVec.mul_one _

/-- `vmlaq_s8` is `vaddq_s8` of the accumulator and `vmulq_s8`, with the same undefined cases. -/
theorem vmlaq_s8_factor [Dialect] (N M P : int8x16_t) :
    vmlaq_s8 N M P = (do vaddq_s8 N (← vmulq_s8 M P)) := by
  simp only [vmlaq_s8_spec, vaddq_s8_spec, vmulq_s8_spec, ok_bind]

/-- `vaddq_s16` is commutative. -/
theorem vaddq_s16_comm [Dialect] (a b : int16x8_t) : vaddq_s16 a b = vaddq_s16 b a := by
  simp only [vaddq_s16_spec]
  exact ok_vec fun i => BitVec.add_comm _ _

/-- `vaddq_s16` is associative. -/
theorem vaddq_s16_assoc [Dialect] (a b c : int16x8_t) :
    (do vaddq_s16 (← vaddq_s16 a b) c) = (do vaddq_s16 a (← vaddq_s16 b c)) := by
  simp only [vaddq_s16_spec, ok_bind]
  refine ok_vec fun i => ?_
  exact BitVec.add_assoc _ _ _

/-- `vsubq_s16` undoes `vaddq_s16`. -/
theorem vsubq_s16_vaddq_s16 [Dialect] (a b : int16x8_t) :
    (do vsubq_s16 (← vaddq_s16 a b) b) = .ok a := by
  simp only [vaddq_s16_spec, vsubq_s16_spec, ok_bind]
  refine ok_vec' fun i => ?_
  exact BitVec.add_sub_cancel _ _

/-- `vaddq_s16` undoes `vsubq_s16`. -/
theorem vaddq_s16_vsubq_s16 [Dialect] (a b : int16x8_t) :
    (do vaddq_s16 (← vsubq_s16 a b) b) = .ok a := by
  simp only [vaddq_s16_spec, vsubq_s16_spec, ok_bind]
  refine ok_vec' fun i => ?_
  exact BitVec.sub_add_cancel _ _

/-- Zero is neutral for `vaddq_s16`. -/
theorem vaddq_s16_zero [Dialect] (a : int16x8_t) : (do vaddq_s16 a (← vdupq_n_s16 0#16)) = .ok a := by
  simp only [vdupq_n_s16_spec, vaddq_s16_spec, ok_bind]
  exact ok_vec' fun i => BitVec.add_zero _

/-- `vsubq_s16` of a register with itself is zero. -/
theorem vsubq_s16_self [Dialect] (a : int16x8_t) : vsubq_s16 a a = vdupq_n_s16 0#16 := by
  simp only [vdupq_n_s16_spec, vsubq_s16_spec]
  exact ok_vec fun i => BitVec.sub_self _

/-- `vmulq_s16` is commutative. -/
theorem vmulq_s16_comm [Dialect] (a b : int16x8_t) : vmulq_s16 a b = vmulq_s16 b a := by
  simp only [vmulq_s16_spec]
  exact ok_vec fun i => BitVec.mul_comm _ _

/-- `vmulq_s16` is associative. -/
theorem vmulq_s16_assoc [Dialect] (a b c : int16x8_t) :
    (do vmulq_s16 (← vmulq_s16 a b) c) = (do vmulq_s16 a (← vmulq_s16 b c)) := by
  simp only [vmulq_s16_spec, ok_bind]
  refine ok_vec fun i => ?_
  exact BitVec.mul_assoc _ _ _

/-- `vmulq_s16` distributes over `vaddq_s16`. -/
theorem vmulq_s16_vaddq_s16 [Dialect] (a b c : int16x8_t) :
    (do vmulq_s16 a (← vaddq_s16 b c)) = (do vaddq_s16 (← vmulq_s16 a b) (← vmulq_s16 a c)) := by
  simp only [vaddq_s16_spec, vmulq_s16_spec, ok_bind]
  refine ok_vec fun i => ?_
  exact BitVec.mul_add

/-- `vmulq_s16` distributes over `vsubq_s16`. -/
theorem vmulq_s16_vsubq_s16 [Dialect] (a b c : int16x8_t) :
    (do vmulq_s16 a (← vsubq_s16 b c)) = (do vsubq_s16 (← vmulq_s16 a b) (← vmulq_s16 a c)) := by
  simp only [vsubq_s16_spec, vmulq_s16_spec, ok_bind]
  refine ok_vec fun i => ?_
  exact mul_sub' _ _ _

/-- One is neutral for `vmulq_s16`. -/
theorem vmulq_s16_one [Dialect] (a : int16x8_t) : (do vmulq_s16 a (← vdupq_n_s16 1#16)) = .ok a := by
  simp only [vdupq_n_s16_spec, vmulq_s16_spec, ok_bind]
  exact ok_vec' fun i => BitVec.mul_one _

/-- `vmlaq_s16` is `vaddq_s16` of the accumulator and `vmulq_s16`, with the same undefined cases. -/
theorem vmlaq_s16_factor [Dialect] (N M P : int16x8_t) :
    vmlaq_s16 N M P = (do vaddq_s16 N (← vmulq_s16 M P)) := by
  simp only [vmlaq_s16_spec, vaddq_s16_spec, vmulq_s16_spec, ok_bind]

/-- `vaddq_s32` is commutative (both sides are undefined for the same operands). -/
theorem vaddq_s32_comm [Dialect] (a b : int32x4_t) : vaddq_s32 a b = vaddq_s32 b a := by
  simp only [vaddq_s32_partial]
  simp only [Int.add_comm (BitVec.toInt (a.lane _)), Int.add_comm ((BitVec.toNat (a.lane _) : Nat) : Int), BitVec.add_comm (a.lane _)]

/-- `vaddq_s32` is associative (with `-fwrapv`). -/
theorem vaddq_s32_assoc [Dialect] (hd : Dialect.wrapv = true) (a b c : int32x4_t) :
    (do vaddq_s32 (← vaddq_s32 a b) c) = (do vaddq_s32 a (← vaddq_s32 b c)) := by
  simp only [vaddq_s32_wrapv hd, ok_bind]
  refine ok_vec fun i => ?_
  exact BitVec.add_assoc _ _ _
example := @vaddq_s32_assoc .wrapping rfl (⟨fun i => BitVec.ofNat 32 (3 + i.val)⟩) (⟨fun i => BitVec.ofNat 32 (2 + i.val)⟩) (⟨fun i => BitVec.ofNat 32 (5 + i.val)⟩)

/-- `vsubq_s32` undoes `vaddq_s32` (with `-fwrapv`). -/
theorem vsubq_s32_vaddq_s32 [Dialect] (hd : Dialect.wrapv = true) (a b : int32x4_t) :
    (do vsubq_s32 (← vaddq_s32 a b) b) = .ok a := by
  simp only [vaddq_s32_wrapv hd, vsubq_s32_wrapv hd, ok_bind]
  refine ok_vec' fun i => ?_
  exact BitVec.add_sub_cancel _ _
example := @vsubq_s32_vaddq_s32 .wrapping rfl (⟨fun i => BitVec.ofNat 32 (3 + i.val)⟩) (⟨fun i => BitVec.ofNat 32 (2 + i.val)⟩)

/-- `vaddq_s32` undoes `vsubq_s32` (with `-fwrapv`). -/
theorem vaddq_s32_vsubq_s32 [Dialect] (hd : Dialect.wrapv = true) (a b : int32x4_t) :
    (do vaddq_s32 (← vsubq_s32 a b) b) = .ok a := by
  simp only [vaddq_s32_wrapv hd, vsubq_s32_wrapv hd, ok_bind]
  refine ok_vec' fun i => ?_
  exact BitVec.sub_add_cancel _ _
example := @vaddq_s32_vsubq_s32 .wrapping rfl (⟨fun i => BitVec.ofNat 32 (3 + i.val)⟩) (⟨fun i => BitVec.ofNat 32 (2 + i.val)⟩)

/-- Zero is neutral for `vaddq_s32`. -/
theorem vaddq_s32_zero [Dialect] (a : int32x4_t) : (do vaddq_s32 a (← vdupq_n_s32 0#32)) = .ok a := by
  simp only [vdupq_n_s32_spec, vaddq_s32_partial, ok_bind]
  rw [if_pos fun i => .inr (by have := toInt32 (a.lane i); unfold Fits; simp only [BitVec.toInt_zero]; omega)]
  exact ok_vec' fun i => BitVec.add_zero _

/-- `vsubq_s32` of a register with itself is zero. -/
theorem vsubq_s32_self [Dialect] (a : int32x4_t) : vsubq_s32 a a = vdupq_n_s32 0#32 := by
  simp only [vdupq_n_s32_spec, vsubq_s32_partial]
  rw [if_pos fun i => .inr (by unfold Fits; omega)]
  exact ok_vec fun i => BitVec.sub_self _

/-- `vmulq_s32` is commutative (both sides are undefined for the same operands). -/
theorem vmulq_s32_comm [Dialect] (a b : int32x4_t) : vmulq_s32 a b = vmulq_s32 b a := by
  simp only [vmulq_s32_partial]
  simp only [Int.mul_comm (BitVec.toInt (a.lane _)), Int.mul_comm ((BitVec.toNat (a.lane _) : Nat) : Int), BitVec.mul_comm (a.lane _)]

/-- `vmulq_s32` is associative (with `-fwrapv`). -/
theorem vmulq_s32_assoc [Dialect] (hd : Dialect.wrapv = true) (a b c : int32x4_t) :
    (do vmulq_s32 (← vmulq_s32 a b) c) = (do vmulq_s32 a (← vmulq_s32 b c)) := by
  simp only [vmulq_s32_wrapv hd, ok_bind]
  refine ok_vec fun i => ?_
  exact BitVec.mul_assoc _ _ _
example := @vmulq_s32_assoc .wrapping rfl (⟨fun i => BitVec.ofNat 32 (3 + i.val)⟩) (⟨fun i => BitVec.ofNat 32 (2 + i.val)⟩) (⟨fun i => BitVec.ofNat 32 (5 + i.val)⟩)

/-- `vmulq_s32` distributes over `vaddq_s32` (with `-fwrapv`). -/
theorem vmulq_s32_vaddq_s32 [Dialect] (hd : Dialect.wrapv = true) (a b c : int32x4_t) :
    (do vmulq_s32 a (← vaddq_s32 b c)) = (do vaddq_s32 (← vmulq_s32 a b) (← vmulq_s32 a c)) := by
  simp only [vaddq_s32_wrapv hd, vmulq_s32_wrapv hd, ok_bind]
  refine ok_vec fun i => ?_
  exact BitVec.mul_add
example := @vmulq_s32_vaddq_s32 .wrapping rfl (⟨fun i => BitVec.ofNat 32 (3 + i.val)⟩) (⟨fun i => BitVec.ofNat 32 (2 + i.val)⟩) (⟨fun i => BitVec.ofNat 32 (5 + i.val)⟩)

/-- `vmulq_s32` distributes over `vsubq_s32` (with `-fwrapv`). -/
theorem vmulq_s32_vsubq_s32 [Dialect] (hd : Dialect.wrapv = true) (a b c : int32x4_t) :
    (do vmulq_s32 a (← vsubq_s32 b c)) = (do vsubq_s32 (← vmulq_s32 a b) (← vmulq_s32 a c)) := by
  simp only [vsubq_s32_wrapv hd, vmulq_s32_wrapv hd, ok_bind]
  refine ok_vec fun i => ?_
  exact mul_sub' _ _ _
example := @vmulq_s32_vsubq_s32 .wrapping rfl (⟨fun i => BitVec.ofNat 32 (3 + i.val)⟩) (⟨fun i => BitVec.ofNat 32 (2 + i.val)⟩) (⟨fun i => BitVec.ofNat 32 (5 + i.val)⟩)

/-- One is neutral for `vmulq_s32`. -/
theorem vmulq_s32_one [Dialect] (a : int32x4_t) : (do vmulq_s32 a (← vdupq_n_s32 1#32)) = .ok a := by
  simp only [vdupq_n_s32_spec, vmulq_s32_partial, ok_bind]
  rw [if_pos fun i => .inr (by have := toInt32 (a.lane i); unfold Fits; rw [show (1#32).toInt = 1 from rfl]; omega)]
  exact ok_vec' fun i => BitVec.mul_one _

/-- `vmlaq_s32` is `vaddq_s32` of the accumulator and `vmulq_s32`, with the same undefined cases. -/
theorem vmlaq_s32_factor [Dialect] (N M P : int32x4_t) :
    vmlaq_s32 N M P = (do vaddq_s32 N (← vmulq_s32 M P)) := by
  simp only [vmlaq_s32_partial, vaddq_s32_partial, vmulq_s32_partial, ok_bind, ite_bind, ub_bind]
  by_cases h : ∀ i : Fin 4, NoOverflow 32 ((M.lane i).toInt * (P.lane i).toInt)
  · rw [if_pos h]
    refine if_congr' ⟨fun g i => ?_, fun g i => ⟨h i, ?_⟩⟩
    · rw [mla_add (h i)]
      exact (g i).2
    · have := g i
      rwa [mla_add (h i)] at this
  · rw [if_neg h, if_neg fun g => h fun i => (g i).1]

/-- `vaddq_s64` is commutative (both sides are undefined for the same operands). -/
theorem vaddq_s64_comm [Dialect] (a b : int64x2_t) : vaddq_s64 a b = vaddq_s64 b a := by
  simp only [vaddq_s64_partial]
  simp only [Int.add_comm (BitVec.toInt (a.lane _)), Int.add_comm ((BitVec.toNat (a.lane _) : Nat) : Int), BitVec.add_comm (a.lane _)]

/-- `vaddq_s64` is associative (with `-fwrapv`). -/
theorem vaddq_s64_assoc [Dialect] (hd : Dialect.wrapv = true) (a b c : int64x2_t) :
    (do vaddq_s64 (← vaddq_s64 a b) c) = (do vaddq_s64 a (← vaddq_s64 b c)) := by
  simp only [vaddq_s64_wrapv hd, ok_bind]
  refine ok_vec fun i => ?_
  exact BitVec.add_assoc _ _ _
example := @vaddq_s64_assoc .wrapping rfl (⟨fun i => BitVec.ofNat 64 (3 + i.val)⟩) (⟨fun i => BitVec.ofNat 64 (2 + i.val)⟩) (⟨fun i => BitVec.ofNat 64 (5 + i.val)⟩)

/-- `vsubq_s64` undoes `vaddq_s64` (with `-fwrapv`). -/
theorem vsubq_s64_vaddq_s64 [Dialect] (hd : Dialect.wrapv = true) (a b : int64x2_t) :
    (do vsubq_s64 (← vaddq_s64 a b) b) = .ok a := by
  simp only [vaddq_s64_wrapv hd, vsubq_s64_wrapv hd, ok_bind]
  refine ok_vec' fun i => ?_
  exact BitVec.add_sub_cancel _ _
example := @vsubq_s64_vaddq_s64 .wrapping rfl (⟨fun i => BitVec.ofNat 64 (3 + i.val)⟩) (⟨fun i => BitVec.ofNat 64 (2 + i.val)⟩)

/-- `vaddq_s64` undoes `vsubq_s64` (with `-fwrapv`). -/
theorem vaddq_s64_vsubq_s64 [Dialect] (hd : Dialect.wrapv = true) (a b : int64x2_t) :
    (do vaddq_s64 (← vsubq_s64 a b) b) = .ok a := by
  simp only [vaddq_s64_wrapv hd, vsubq_s64_wrapv hd, ok_bind]
  refine ok_vec' fun i => ?_
  exact BitVec.sub_add_cancel _ _
example := @vaddq_s64_vsubq_s64 .wrapping rfl (⟨fun i => BitVec.ofNat 64 (3 + i.val)⟩) (⟨fun i => BitVec.ofNat 64 (2 + i.val)⟩)

/-- `vqsub_u8` is monotone in its first operand and antitone in its second. -/
theorem vqsub_u8_mono [Dialect] (a a' b b' : uint8x8_t) (ha : ∀ i, (a.lane i).toNat ≤ (a'.lane i).toNat)
    (hb : ∀ i, (b'.lane i).toNat ≤ (b.lane i).toNat) :
    ∃ r r', vqsub_u8 a b = .ok r ∧ vqsub_u8 a' b' = .ok r' ∧ ∀ i, (r.lane i).toNat ≤ (r'.lane i).toNat := by
  refine ⟨_, _, vqsub_u8_spec a b, vqsub_u8_spec a' b', fun i => ?_⟩
  have h1 := ha i
  have h2 := hb i
  exact usat_mono (by omega)
example := @vqsub_u8_mono .strict (⟨fun i => BitVec.ofNat 8 (3 + i.val)⟩) (⟨fun i => BitVec.ofNat 8 (7 + i.val)⟩) (⟨fun i => BitVec.ofNat 8 (2 + i.val)⟩) (⟨fun i => BitVec.ofNat 8 (2 + i.val)⟩) (by decide) (by decide)

/-- When no lane overflows, `vqsub_u8` and `vsub_u8` agree. -/
theorem vqsub_u8_eq_vsub_u8 [Dialect] (a b : uint8x8_t) (h : ∀ i, (b.lane i).toNat ≤ (a.lane i).toNat) :
    vqsub_u8 a b = vsub_u8 a b := by
  rw [vqsub_u8_spec, vsub_u8_spec]
  exact ok_vec fun i => usat_sub_le (h i)
example := @vqsub_u8_eq_vsub_u8 .strict (⟨fun i => BitVec.ofNat 8 (3 + i.val)⟩) (⟨fun i => BitVec.ofNat 8 (2 + i.val)⟩) (by decide)

/-- `vqadd_u8` is monotone in its first operand and monotone in its second. -/
theorem vqadd_u8_mono [Dialect] (a a' b b' : uint8x8_t) (ha : ∀ i, (a.lane i).toNat ≤ (a'.lane i).toNat)
    (hb : ∀ i, (b.lane i).toNat ≤ (b'.lane i).toNat) :
    ∃ r r', vqadd_u8 a b = .ok r ∧ vqadd_u8 a' b' = .ok r' ∧ ∀ i, (r.lane i).toNat ≤ (r'.lane i).toNat := by
  refine ⟨_, _, vqadd_u8_spec a b, vqadd_u8_spec a' b', fun i => ?_⟩
  have h1 := ha i
  have h2 := hb i
  exact usat_mono (by omega)
example := @vqadd_u8_mono .strict (⟨fun i => BitVec.ofNat 8 (3 + i.val)⟩) (⟨fun i => BitVec.ofNat 8 (7 + i.val)⟩) (⟨fun i => BitVec.ofNat 8 (2 + i.val)⟩) (⟨fun i => BitVec.ofNat 8 (2 + i.val)⟩) (by decide) (by decide)

/-- When no lane overflows, `vqadd_u8` and `vadd_u8` agree. -/
theorem vqadd_u8_eq_vadd_u8 [Dialect] (a b : uint8x8_t) (h : ∀ i, (a.lane i).toNat + (b.lane i).toNat < 2 ^ 8) :
    vqadd_u8 a b = vadd_u8 a b := by
  rw [vqadd_u8_spec, vadd_u8_spec]
  exact ok_vec fun i => usat_add_lt (h i)
example := @vqadd_u8_eq_vadd_u8 .strict (⟨fun i => BitVec.ofNat 8 (3 + i.val)⟩) (⟨fun i => BitVec.ofNat 8 (2 + i.val)⟩) (by decide)

/-- `vqsub_u8` of a register with itself is zero. -/
theorem vqsub_u8_self [Dialect] (a : uint8x8_t) : vqsub_u8 a a = .ok ⟨fun _ => 0#8⟩ := by
  rw [vqsub_u8_spec]
  exact ok_vec fun i => usat_self_sub _

/-- `vqsub_u8` gives zero in exactly the lanes where the first operand does not exceed the second. -/
theorem vqsub_u8_eq_zero_iff [Dialect] (a b : uint8x8_t) :
    ∃ r, vqsub_u8 a b = .ok r ∧ ∀ i, r.lane i = 0#8 ↔ (a.lane i).toNat ≤ (b.lane i).toNat := by
  exact ⟨_, vqsub_u8_spec a b, fun i => usat_zero_iff _ _⟩

/-- `vqsub_u8` gives the zero register exactly when no lane of the first operand exceeds that of the second. -/
theorem vqsub_u8_all_zero_iff [Dialect] (a b : uint8x8_t) :
    vqsub_u8 a b = .ok ⟨fun _ => 0#8⟩ ↔ ∀ i, (a.lane i).toNat ≤ (b.lane i).toNat := by
  obtain ⟨r, hr, h⟩ := vqsub_u8_eq_zero_iff a b
  rw [hr]
  constructor
  · intro e i
    rw [← h i, C.ok.inj e]
  · intro g
    exact congrArg _ (Vec.ext (funext fun i => (h i).mpr (g i)))

/-- Adding the second operand back to `vqsub_u8` gives the larger of the two. -/
theorem vqsub_u8_vadd_u8 [Dialect] (a b : uint8x8_t) :
    ∃ r, (do vadd_u8 (← vqsub_u8 a b) b) = .ok r ∧ ∀ i, (r.lane i).toNat = max (a.lane i).toNat (b.lane i).toNat := by
  exact ⟨_, by rw [vqsub_u8_spec, ok_bind, vadd_u8_spec], fun i => usat_sub_add _ _⟩

/-- `vqadd_u8` is commutative. -/
theorem vqadd_u8_comm [Dialect] (a b : uint8x8_t) : vqadd_u8 a b = vqadd_u8 b a := by
  simp only [vqadd_u8_spec]
  exact ok_vec fun i => by rw [Int.add_comm]

/-- `vqadd_u8` is associative. -/
theorem vqadd_u8_assoc [Dialect] (a b c : uint8x8_t) :
    (do vqadd_u8 (← vqadd_u8 a b) c) = (do vqadd_u8 a (← vqadd_u8 b c)) := by
  simp only [vqadd_u8_spec, ok_bind]
  exact ok_vec fun i => uqadd_assoc _ _ _

/-- `vqadd_u8` of `vqsub_u8` and its second operand gives the larger operand. -/
theorem vqadd_u8_vqsub_u8 [Dialect] (a b : uint8x8_t) :
    ∃ r, (do vqadd_u8 (← vqsub_u8 a b) b) = .ok r ∧ ∀ i, (r.lane i).toNat = max (a.lane i).toNat (b.lane i).toNat := by
  exact ⟨_, by rw [vqsub_u8_spec, ok_bind, vqadd_u8_spec], fun i => uqadd_qsub _ _⟩

/-- `vqsub_u16` is monotone in its first operand and antitone in its second. -/
theorem vqsub_u16_mono [Dialect] (a a' b b' : uint16x4_t) (ha : ∀ i, (a.lane i).toNat ≤ (a'.lane i).toNat)
    (hb : ∀ i, (b'.lane i).toNat ≤ (b.lane i).toNat) :
    ∃ r r', vqsub_u16 a b = .ok r ∧ vqsub_u16 a' b' = .ok r' ∧ ∀ i, (r.lane i).toNat ≤ (r'.lane i).toNat := by
  refine ⟨_, _, vqsub_u16_spec a b, vqsub_u16_spec a' b', fun i => ?_⟩
  have h1 := ha i
  have h2 := hb i
  exact usat_mono (by omega)
example := @vqsub_u16_mono .strict (⟨fun i => BitVec.ofNat 16 (3 + i.val)⟩) (⟨fun i => BitVec.ofNat 16 (7 + i.val)⟩) (⟨fun i => BitVec.ofNat 16 (2 + i.val)⟩) (⟨fun i => BitVec.ofNat 16 (2 + i.val)⟩) (by decide) (by decide)

/-- When no lane overflows, `vqsub_u16` and `vsub_u16` agree. -/
theorem vqsub_u16_eq_vsub_u16 [Dialect] (a b : uint16x4_t) (h : ∀ i, (b.lane i).toNat ≤ (a.lane i).toNat) :
    vqsub_u16 a b = vsub_u16 a b := by
  rw [vqsub_u16_spec, vsub_u16_spec]
  exact ok_vec fun i => usat_sub_le (h i)
example := @vqsub_u16_eq_vsub_u16 .strict (⟨fun i => BitVec.ofNat 16 (3 + i.val)⟩) (⟨fun i => BitVec.ofNat 16 (2 + i.val)⟩) (by decide)

/-- `vqsub_u16` of a register with itself is zero. -/
theorem vqsub_u16_self [Dialect] (a : uint16x4_t) : vqsub_u16 a a = .ok ⟨fun _ => 0#16⟩ := by
  rw [vqsub_u16_spec]
  exact ok_vec fun i => usat_self_sub _

/-- `vqsub_u16` gives zero in exactly the lanes where the first operand does not exceed the second. -/
theorem vqsub_u16_eq_zero_iff [Dialect] (a b : uint16x4_t) :
    ∃ r, vqsub_u16 a b = .ok r ∧ ∀ i, r.lane i = 0#16 ↔ (a.lane i).toNat ≤ (b.lane i).toNat := by
  exact ⟨_, vqsub_u16_spec a b, fun i => usat_zero_iff _ _⟩

/-- `vqsub_u16` gives the zero register exactly when no lane of the first operand exceeds that of the second. -/
theorem vqsub_u16_all_zero_iff [Dialect] (a b : uint16x4_t) :
    vqsub_u16 a b = .ok ⟨fun _ => 0#16⟩ ↔ ∀ i, (a.lane i).toNat ≤ (b.lane i).toNat := by
  obtain ⟨r, hr, h⟩ := vqsub_u16_eq_zero_iff a b
  rw [hr]
  constructor
  · intro e i
    rw [← h i, C.ok.inj e]
  · intro g
    exact congrArg _ (Vec.ext (funext fun i => (h i).mpr (g i)))

/-- Adding the second operand back to `vqsub_u16` gives the larger of the two. -/
theorem vqsub_u16_vadd_u16 [Dialect] (a b : uint16x4_t) :
    ∃ r, (do vadd_u16 (← vqsub_u16 a b) b) = .ok r ∧ ∀ i, (r.lane i).toNat = max (a.lane i).toNat (b.lane i).toNat := by
  exact ⟨_, by rw [vqsub_u16_spec, ok_bind, vadd_u16_spec], fun i => usat_sub_add _ _⟩

/-- `vqsub_u32` is monotone in its first operand and antitone in its second. -/
theorem vqsub_u32_mono [Dialect] (a a' b b' : uint32x2_t) (ha : ∀ i, (a.lane i).toNat ≤ (a'.lane i).toNat)
    (hb : ∀ i, (b'.lane i).toNat ≤ (b.lane i).toNat) :
    ∃ r r', vqsub_u32 a b = .ok r ∧ vqsub_u32 a' b' = .ok r' ∧ ∀ i, (r.lane i).toNat ≤ (r'.lane i).toNat := by
  refine ⟨_, _, vqsub_u32_spec a b, vqsub_u32_spec a' b', fun i => ?_⟩
  have h1 := ha i
  have h2 := hb i
  exact usat_mono (by omega)
example := @vqsub_u32_mono .strict (⟨fun i => BitVec.ofNat 32 (3 + i.val)⟩) (⟨fun i => BitVec.ofNat 32 (7 + i.val)⟩) (⟨fun i => BitVec.ofNat 32 (2 + i.val)⟩) (⟨fun i => BitVec.ofNat 32 (2 + i.val)⟩) (by decide) (by decide)

/-- When no lane overflows, `vqsub_u32` and `vsub_u32` agree. -/
theorem vqsub_u32_eq_vsub_u32 [Dialect] (a b : uint32x2_t) (h : ∀ i, (b.lane i).toNat ≤ (a.lane i).toNat) :
    vqsub_u32 a b = vsub_u32 a b := by
  rw [vqsub_u32_spec, vsub_u32_spec]
  exact ok_vec fun i => usat_sub_le (h i)
example := @vqsub_u32_eq_vsub_u32 .strict (⟨fun i => BitVec.ofNat 32 (3 + i.val)⟩) (⟨fun i => BitVec.ofNat 32 (2 + i.val)⟩) (by decide)

/-- `vqsub_u32` of a register with itself is zero. -/
theorem vqsub_u32_self [Dialect] (a : uint32x2_t) : vqsub_u32 a a = .ok ⟨fun _ => 0#32⟩ := by
  rw [vqsub_u32_spec]
  exact ok_vec fun i => usat_self_sub _

/-- `vqsub_u32` gives zero in exactly the lanes where the first operand does not exceed the second. -/
theorem vqsub_u32_eq_zero_iff [Dialect] (a b : uint32x2_t) :
    ∃ r, vqsub_u32 a b = .ok r ∧ ∀ i, r.lane i = 0#32 ↔ (a.lane i).toNat ≤ (b.lane i).toNat := by
  exact ⟨_, vqsub_u32_spec a b, fun i => usat_zero_iff _ _⟩

/-- `vqsub_u32` gives the zero register exactly when no lane of the first operand exceeds that of the second. -/
theorem vqsub_u32_all_zero_iff [Dialect] (a b : uint32x2_t) :
    vqsub_u32 a b = .ok ⟨fun _ => 0#32⟩ ↔ ∀ i, (a.lane i).toNat ≤ (b.lane i).toNat := by
  obtain ⟨r, hr, h⟩ := vqsub_u32_eq_zero_iff a b
  rw [hr]
  constructor
  · intro e i
    rw [← h i, C.ok.inj e]
  · intro g
    exact congrArg _ (Vec.ext (funext fun i => (h i).mpr (g i)))

/-- Adding the second operand back to `vqsub_u32` gives the larger of the two. -/
theorem vqsub_u32_vadd_u32 [Dialect] (a b : uint32x2_t) :
    ∃ r, (do vadd_u32 (← vqsub_u32 a b) b) = .ok r ∧ ∀ i, (r.lane i).toNat = max (a.lane i).toNat (b.lane i).toNat := by
  exact ⟨_, by rw [vqsub_u32_spec, ok_bind, vadd_u32_spec], fun i => usat_sub_add _ _⟩

/-- `vqsub_s8` is monotone in its first operand and antitone in its second. -/
theorem vqsub_s8_mono [Dialect] (a a' b b' : int8x8_t) (ha : ∀ i, (a.lane i).toInt ≤ (a'.lane i).toInt)
    (hb : ∀ i, (b'.lane i).toInt ≤ (b.lane i).toInt) :
    ∃ r r', vqsub_s8 a b = .ok r ∧ vqsub_s8 a' b' = .ok r' ∧ ∀ i, (r.lane i).toInt ≤ (r'.lane i).toInt := by
  refine ⟨_, _, vqsub_s8_spec a b, vqsub_s8_spec a' b', fun i => ?_⟩
  have h1 := ha i
  have h2 := hb i
  exact ssat_mono (by decide) (by omega)
example := @vqsub_s8_mono .strict (⟨fun i => BitVec.ofNat 8 (3 + i.val)⟩) (⟨fun i => BitVec.ofNat 8 (7 + i.val)⟩) (⟨fun i => BitVec.ofNat 8 (2 + i.val)⟩) (⟨fun i => BitVec.ofNat 8 (2 + i.val)⟩) (by decide) (by decide)

/-- When no lane overflows, `vqsub_s8` and `vsub_s8` agree. -/
theorem vqsub_s8_eq_vsub_s8 [Dialect] (a b : int8x8_t) (h : ∀ i, Fits 8 ((a.lane i).toInt - (b.lane i).toInt)) :
    vqsub_s8 a b = vsub_s8 a b := by
  rw [vqsub_s8_spec, vsub_s8_spec]
  exact ok_vec fun i => ssat_sub_fits (h i)
example := @vqsub_s8_eq_vsub_s8 .strict (⟨fun i => BitVec.ofNat 8 (3 + i.val)⟩) (⟨fun i => BitVec.ofNat 8 (2 + i.val)⟩) (by decide)

/-- `vqsub_s8` of a register with itself is zero. -/
theorem vqsub_s8_self [Dialect] (a : int8x8_t) : vqsub_s8 a a = .ok ⟨fun _ => 0#8⟩ := by
  rw [vqsub_s8_spec]
  exact ok_vec fun i => ssat_self_sub _ (by decide)

/-- `vqsub_s16` is monotone in its first operand and antitone in its second. -/
theorem vqsub_s16_mono [Dialect] (a a' b b' : int16x4_t) (ha : ∀ i, (a.lane i).toInt ≤ (a'.lane i).toInt)
    (hb : ∀ i, (b'.lane i).toInt ≤ (b.lane i).toInt) :
    ∃ r r', vqsub_s16 a b = .ok r ∧ vqsub_s16 a' b' = .ok r' ∧ ∀ i, (r.lane i).toInt ≤ (r'.lane i).toInt := by
  refine ⟨_, _, vqsub_s16_spec a b, vqsub_s16_spec a' b', fun i => ?_⟩
  have h1 := ha i
  have h2 := hb i
  exact ssat_mono (by decide) (by omega)
example := @vqsub_s16_mono .strict (⟨fun i => BitVec.ofNat 16 (3 + i.val)⟩) (⟨fun i => BitVec.ofNat 16 (7 + i.val)⟩) (⟨fun i => BitVec.ofNat 16 (2 + i.val)⟩) (⟨fun i => BitVec.ofNat 16 (2 + i.val)⟩) (by decide) (by decide)

/-- When no lane overflows, `vqsub_s16` and `vsub_s16` agree. -/
theorem vqsub_s16_eq_vsub_s16 [Dialect] (a b : int16x4_t) (h : ∀ i, Fits 16 ((a.lane i).toInt - (b.lane i).toInt)) :
    vqsub_s16 a b = vsub_s16 a b := by
  rw [vqsub_s16_spec, vsub_s16_spec]
  exact ok_vec fun i => ssat_sub_fits (h i)
example := @vqsub_s16_eq_vsub_s16 .strict (⟨fun i => BitVec.ofNat 16 (3 + i.val)⟩) (⟨fun i => BitVec.ofNat 16 (2 + i.val)⟩) (by decide)

/-- `vqsub_s16` of a register with itself is zero. -/
theorem vqsub_s16_self [Dialect] (a : int16x4_t) : vqsub_s16 a a = .ok ⟨fun _ => 0#16⟩ := by
  rw [vqsub_s16_spec]
  exact ok_vec fun i => ssat_self_sub _ (by decide)

/-- `vqsub_s32` is monotone in its first operand and antitone in its second. -/
theorem vqsub_s32_mono [Dialect] (a a' b b' : int32x2_t) (ha : ∀ i, (a.lane i).toInt ≤ (a'.lane i).toInt)
    (hb : ∀ i, (b'.lane i).toInt ≤ (b.lane i).toInt) :
    ∃ r r', vqsub_s32 a b = .ok r ∧ vqsub_s32 a' b' = .ok r' ∧ ∀ i, (r.lane i).toInt ≤ (r'.lane i).toInt := by
  refine ⟨_, _, vqsub_s32_spec a b, vqsub_s32_spec a' b', fun i => ?_⟩
  have h1 := ha i
  have h2 := hb i
  exact ssat_mono (by decide) (by omega)
example := @vqsub_s32_mono .strict (⟨fun i => BitVec.ofNat 32 (3 + i.val)⟩) (⟨fun i => BitVec.ofNat 32 (7 + i.val)⟩) (⟨fun i => BitVec.ofNat 32 (2 + i.val)⟩) (⟨fun i => BitVec.ofNat 32 (2 + i.val)⟩) (by decide) (by decide)

/-- When no lane overflows, `vqsub_s32` and `vsub_s32` agree. -/
theorem vqsub_s32_eq_vsub_s32 [Dialect] (a b : int32x2_t) (h : ∀ i, Fits 32 ((a.lane i).toInt - (b.lane i).toInt)) :
    vqsub_s32 a b = vsub_s32 a b := by
  rw [vqsub_s32_spec, vsub_s32_partial]
  rw [if_pos fun i => .inr (h i)]
  exact ok_vec fun i => ssat_sub_fits (h i)
example := @vqsub_s32_eq_vsub_s32 .strict (⟨fun i => BitVec.ofNat 32 (3 + i.val)⟩) (⟨fun i => BitVec.ofNat 32 (2 + i.val)⟩) (by decide)

/-- `vqsub_s32` of a register with itself is zero. -/
theorem vqsub_s32_self [Dialect] (a : int32x2_t) : vqsub_s32 a a = .ok ⟨fun _ => 0#32⟩ := by
  rw [vqsub_s32_spec]
  exact ok_vec fun i => ssat_self_sub _ (by decide)

/-- `vqsubq_u8` is monotone in its first operand and antitone in its second. -/
theorem vqsubq_u8_mono [Dialect] (a a' b b' : uint8x16_t) (ha : ∀ i, (a.lane i).toNat ≤ (a'.lane i).toNat)
    (hb : ∀ i, (b'.lane i).toNat ≤ (b.lane i).toNat) :
    ∃ r r', vqsubq_u8 a b = .ok r ∧ vqsubq_u8 a' b' = .ok r' ∧ ∀ i, (r.lane i).toNat ≤ (r'.lane i).toNat := by
  refine ⟨_, _, vqsubq_u8_spec a b, vqsubq_u8_spec a' b', fun i => ?_⟩
  have h1 := ha i
  have h2 := hb i
  exact usat_mono (by omega)
example := @vqsubq_u8_mono .strict (⟨fun i => BitVec.ofNat 8 (3 + i.val)⟩) (⟨fun i => BitVec.ofNat 8 (7 + i.val)⟩) (⟨fun i => BitVec.ofNat 8 (2 + i.val)⟩) (⟨fun i => BitVec.ofNat 8 (2 + i.val)⟩) (by decide) (by decide)

/-- When no lane overflows, `vqsubq_u8` and `vsubq_u8` agree. -/
theorem vqsubq_u8_eq_vsubq_u8 [Dialect] (a b : uint8x16_t) (h : ∀ i, (b.lane i).toNat ≤ (a.lane i).toNat) :
    vqsubq_u8 a b = vsubq_u8 a b := by
  rw [vqsubq_u8_spec, vsubq_u8_spec]
  exact ok_vec fun i => usat_sub_le (h i)
example := @vqsubq_u8_eq_vsubq_u8 .strict (⟨fun i => BitVec.ofNat 8 (3 + i.val)⟩) (⟨fun i => BitVec.ofNat 8 (2 + i.val)⟩) (by decide)

/-- `vqaddq_u8` is monotone in its first operand and monotone in its second. -/
theorem vqaddq_u8_mono [Dialect] (a a' b b' : uint8x16_t) (ha : ∀ i, (a.lane i).toNat ≤ (a'.lane i).toNat)
    (hb : ∀ i, (b.lane i).toNat ≤ (b'.lane i).toNat) :
    ∃ r r', vqaddq_u8 a b = .ok r ∧ vqaddq_u8 a' b' = .ok r' ∧ ∀ i, (r.lane i).toNat ≤ (r'.lane i).toNat := by
  refine ⟨_, _, vqaddq_u8_spec a b, vqaddq_u8_spec a' b', fun i => ?_⟩
  have h1 := ha i
  have h2 := hb i
  exact usat_mono (by omega)
example := @vqaddq_u8_mono .strict (⟨fun i => BitVec.ofNat 8 (3 + i.val)⟩) (⟨fun i => BitVec.ofNat 8 (7 + i.val)⟩) (⟨fun i => BitVec.ofNat 8 (2 + i.val)⟩) (⟨fun i => BitVec.ofNat 8 (2 + i.val)⟩) (by decide) (by decide)

/-- When no lane overflows, `vqaddq_u8` and `vaddq_u8` agree. -/
theorem vqaddq_u8_eq_vaddq_u8 [Dialect] (a b : uint8x16_t) (h : ∀ i, (a.lane i).toNat + (b.lane i).toNat < 2 ^ 8) :
    vqaddq_u8 a b = vaddq_u8 a b := by
  rw [vqaddq_u8_spec, vaddq_u8_spec]
  exact ok_vec fun i => usat_add_lt (h i)
example := @vqaddq_u8_eq_vaddq_u8 .strict (⟨fun i => BitVec.ofNat 8 (3 + i.val)⟩) (⟨fun i => BitVec.ofNat 8 (2 + i.val)⟩) (by decide)

/-- `vqsubq_u8` of a register with itself is zero. -/
theorem vqsubq_u8_self [Dialect] (a : uint8x16_t) : vqsubq_u8 a a = .ok ⟨fun _ => 0#8⟩ := by
  rw [vqsubq_u8_spec]
  exact ok_vec fun i => usat_self_sub _

/-- `vqsubq_u8` gives zero in exactly the lanes where the first operand does not exceed the second. -/
theorem vqsubq_u8_eq_zero_iff [Dialect] (a b : uint8x16_t) :
    ∃ r, vqsubq_u8 a b = .ok r ∧ ∀ i, r.lane i = 0#8 ↔ (a.lane i).toNat ≤ (b.lane i).toNat := by
  exact ⟨_, vqsubq_u8_spec a b, fun i => usat_zero_iff _ _⟩

/-- `vqsubq_u8` gives the zero register exactly when no lane of the first operand exceeds that of the second. -/
theorem vqsubq_u8_all_zero_iff [Dialect] (a b : uint8x16_t) :
    vqsubq_u8 a b = .ok ⟨fun _ => 0#8⟩ ↔ ∀ i, (a.lane i).toNat ≤ (b.lane i).toNat := by
  obtain ⟨r, hr, h⟩ := vqsubq_u8_eq_zero_iff a b
  rw [hr]
  constructor
  · intro e i
    rw [← h i, C.ok.inj e]
  · intro g
    exact congrArg _ (Vec.ext (funext fun i => (h i).mpr (g i)))

/-- Adding the second operand back to `vqsubq_u8` gives the larger of the two. -/
theorem vqsubq_u8_vaddq_u8 [Dialect] (a b : uint8x16_t) :
    ∃ r, (do vaddq_u8 (← vqsubq_u8 a b) b) = .ok r ∧ ∀ i, (r.lane i).toNat = max (a.lane i).toNat (b.lane i).toNat := by
  exact ⟨_, by rw [vqsubq_u8_spec, ok_bind, vaddq_u8_spec], fun i => usat_sub_add _ _⟩

/-- `vqaddq_u8` is commutative. -/
theorem vqaddq_u8_comm [Dialect] (a b : uint8x16_t) : vqaddq_u8 a b = vqaddq_u8 b a := by
  simp only [vqaddq_u8_spec]
  exact ok_vec fun i => by rw [Int.add_comm]

/-- `vqaddq_u8` is associative. -/
theorem vqaddq_u8_assoc [Dialect] (a b c : uint8x16_t) :
    (do vqaddq_u8 (← vqaddq_u8 a b) c) = (do vqaddq_u8 a (← vqaddq_u8 b c)) := by
  simp only [vqaddq_u8_spec, ok_bind]
  exact ok_vec fun i => uqadd_assoc _ _ _

/-- `vqaddq_u8` of `vqsubq_u8` and its second operand gives the larger operand. -/
theorem vqaddq_u8_vqsubq_u8 [Dialect] (a b : uint8x16_t) :
    ∃ r, (do vqaddq_u8 (← vqsubq_u8 a b) b) = .ok r ∧ ∀ i, (r.lane i).toNat = max (a.lane i).toNat (b.lane i).toNat := by
  exact ⟨_, by rw [vqsubq_u8_spec, ok_bind, vqaddq_u8_spec], fun i => uqadd_qsub _ _⟩

/-- `vqsubq_u16` is monotone in its first operand and antitone in its second. -/
theorem vqsubq_u16_mono [Dialect] (a a' b b' : uint16x8_t) (ha : ∀ i, (a.lane i).toNat ≤ (a'.lane i).toNat)
    (hb : ∀ i, (b'.lane i).toNat ≤ (b.lane i).toNat) :
    ∃ r r', vqsubq_u16 a b = .ok r ∧ vqsubq_u16 a' b' = .ok r' ∧ ∀ i, (r.lane i).toNat ≤ (r'.lane i).toNat := by
  refine ⟨_, _, vqsubq_u16_spec a b, vqsubq_u16_spec a' b', fun i => ?_⟩
  have h1 := ha i
  have h2 := hb i
  exact usat_mono (by omega)
example := @vqsubq_u16_mono .strict (⟨fun i => BitVec.ofNat 16 (3 + i.val)⟩) (⟨fun i => BitVec.ofNat 16 (7 + i.val)⟩) (⟨fun i => BitVec.ofNat 16 (2 + i.val)⟩) (⟨fun i => BitVec.ofNat 16 (2 + i.val)⟩) (by decide) (by decide)

/-- When no lane overflows, `vqsubq_u16` and `vsubq_u16` agree. -/
theorem vqsubq_u16_eq_vsubq_u16 [Dialect] (a b : uint16x8_t) (h : ∀ i, (b.lane i).toNat ≤ (a.lane i).toNat) :
    vqsubq_u16 a b = vsubq_u16 a b := by
  rw [vqsubq_u16_spec, vsubq_u16_spec]
  exact ok_vec fun i => usat_sub_le (h i)
example := @vqsubq_u16_eq_vsubq_u16 .strict (⟨fun i => BitVec.ofNat 16 (3 + i.val)⟩) (⟨fun i => BitVec.ofNat 16 (2 + i.val)⟩) (by decide)

/-- `vqsubq_u16` of a register with itself is zero. -/
theorem vqsubq_u16_self [Dialect] (a : uint16x8_t) : vqsubq_u16 a a = .ok ⟨fun _ => 0#16⟩ := by
  rw [vqsubq_u16_spec]
  exact ok_vec fun i => usat_self_sub _

/-- `vqsubq_u16` gives zero in exactly the lanes where the first operand does not exceed the second. -/
theorem vqsubq_u16_eq_zero_iff [Dialect] (a b : uint16x8_t) :
    ∃ r, vqsubq_u16 a b = .ok r ∧ ∀ i, r.lane i = 0#16 ↔ (a.lane i).toNat ≤ (b.lane i).toNat := by
  exact ⟨_, vqsubq_u16_spec a b, fun i => usat_zero_iff _ _⟩

/-- `vqsubq_u16` gives the zero register exactly when no lane of the first operand exceeds that of the second. -/
theorem vqsubq_u16_all_zero_iff [Dialect] (a b : uint16x8_t) :
    vqsubq_u16 a b = .ok ⟨fun _ => 0#16⟩ ↔ ∀ i, (a.lane i).toNat ≤ (b.lane i).toNat := by
  obtain ⟨r, hr, h⟩ := vqsubq_u16_eq_zero_iff a b
  rw [hr]
  constructor
  · intro e i
    rw [← h i, C.ok.inj e]
  · intro g
    exact congrArg _ (Vec.ext (funext fun i => (h i).mpr (g i)))

/-- Adding the second operand back to `vqsubq_u16` gives the larger of the two. -/
theorem vqsubq_u16_vaddq_u16 [Dialect] (a b : uint16x8_t) :
    ∃ r, (do vaddq_u16 (← vqsubq_u16 a b) b) = .ok r ∧ ∀ i, (r.lane i).toNat = max (a.lane i).toNat (b.lane i).toNat := by
  exact ⟨_, by rw [vqsubq_u16_spec, ok_bind, vaddq_u16_spec], fun i => usat_sub_add _ _⟩

/-- `vqsubq_u32` is monotone in its first operand and antitone in its second. -/
theorem vqsubq_u32_mono [Dialect] (a a' b b' : uint32x4_t) (ha : ∀ i, (a.lane i).toNat ≤ (a'.lane i).toNat)
    (hb : ∀ i, (b'.lane i).toNat ≤ (b.lane i).toNat) :
    ∃ r r', vqsubq_u32 a b = .ok r ∧ vqsubq_u32 a' b' = .ok r' ∧ ∀ i, (r.lane i).toNat ≤ (r'.lane i).toNat := by
  refine ⟨_, _, vqsubq_u32_spec a b, vqsubq_u32_spec a' b', fun i => ?_⟩
  have h1 := ha i
  have h2 := hb i
  exact usat_mono (by omega)
example := @vqsubq_u32_mono .strict (⟨fun i => BitVec.ofNat 32 (3 + i.val)⟩) (⟨fun i => BitVec.ofNat 32 (7 + i.val)⟩) (⟨fun i => BitVec.ofNat 32 (2 + i.val)⟩) (⟨fun i => BitVec.ofNat 32 (2 + i.val)⟩) (by decide) (by decide)

/-- When no lane overflows, `vqsubq_u32` and `vsubq_u32` agree. -/
theorem vqsubq_u32_eq_vsubq_u32 [Dialect] (a b : uint32x4_t) (h : ∀ i, (b.lane i).toNat ≤ (a.lane i).toNat) :
    vqsubq_u32 a b = vsubq_u32 a b := by
  rw [vqsubq_u32_spec, vsubq_u32_spec]
  exact ok_vec fun i => usat_sub_le (h i)
example := @vqsubq_u32_eq_vsubq_u32 .strict (⟨fun i => BitVec.ofNat 32 (3 + i.val)⟩) (⟨fun i => BitVec.ofNat 32 (2 + i.val)⟩) (by decide)

/-- `vqsubq_u32` of a register with itself is zero. -/
theorem vqsubq_u32_self [Dialect] (a : uint32x4_t) : vqsubq_u32 a a = .ok ⟨fun _ => 0#32⟩ := by
  rw [vqsubq_u32_spec]
  exact ok_vec fun i => usat_self_sub _

/-- `vqsubq_u32` gives zero in exactly the lanes where the first operand does not exceed the second. -/
theorem vqsubq_u32_eq_zero_iff [Dialect] (a b : uint32x4_t) :
    ∃ r, vqsubq_u32 a b = .ok r ∧ ∀ i, r.lane i = 0#32 ↔ (a.lane i).toNat ≤ (b.lane i).toNat := by
  exact ⟨_, vqsubq_u32_spec a b, fun i => usat_zero_iff _ _⟩

/-- `vqsubq_u32` gives the zero register exactly when no lane of the first operand exceeds that of the second. -/
theorem vqsubq_u32_all_zero_iff [Dialect] (a b : uint32x4_t) :
    vqsubq_u32 a b = .ok ⟨fun _ => 0#32⟩ ↔ ∀ i, (a.lane i).toNat ≤ (b.lane i).toNat := by
  obtain ⟨r, hr, h⟩ := vqsubq_u32_eq_zero_iff a b
  rw [hr]
  constructor
  · intro e i
    rw [← h i, C.ok.inj e]
  · intro g
    exact congrArg _ (Vec.ext (funext fun i => (h i).mpr (g i)))

/-- Adding the second operand back to `vqsubq_u32` gives the larger of the two. -/
theorem vqsubq_u32_vaddq_u32 [Dialect] (a b : uint32x4_t) :
    ∃ r, (do vaddq_u32 (← vqsubq_u32 a b) b) = .ok r ∧ ∀ i, (r.lane i).toNat = max (a.lane i).toNat (b.lane i).toNat := by
  exact ⟨_, by rw [vqsubq_u32_spec, ok_bind, vaddq_u32_spec], fun i => usat_sub_add _ _⟩

/-- `vqsubq_s8` is monotone in its first operand and antitone in its second. -/
theorem vqsubq_s8_mono [Dialect] (a a' b b' : int8x16_t) (ha : ∀ i, (a.lane i).toInt ≤ (a'.lane i).toInt)
    (hb : ∀ i, (b'.lane i).toInt ≤ (b.lane i).toInt) :
    ∃ r r', vqsubq_s8 a b = .ok r ∧ vqsubq_s8 a' b' = .ok r' ∧ ∀ i, (r.lane i).toInt ≤ (r'.lane i).toInt := by
  refine ⟨_, _, vqsubq_s8_spec a b, vqsubq_s8_spec a' b', fun i => ?_⟩
  have h1 := ha i
  have h2 := hb i
  exact ssat_mono (by decide) (by omega)
example := @vqsubq_s8_mono .strict (⟨fun i => BitVec.ofNat 8 (3 + i.val)⟩) (⟨fun i => BitVec.ofNat 8 (7 + i.val)⟩) (⟨fun i => BitVec.ofNat 8 (2 + i.val)⟩) (⟨fun i => BitVec.ofNat 8 (2 + i.val)⟩) (by decide) (by decide)

/-- When no lane overflows, `vqsubq_s8` and `vsubq_s8` agree. -/
theorem vqsubq_s8_eq_vsubq_s8 [Dialect] (a b : int8x16_t) (h : ∀ i, Fits 8 ((a.lane i).toInt - (b.lane i).toInt)) :
    vqsubq_s8 a b = vsubq_s8 a b := by
  rw [vqsubq_s8_spec, vsubq_s8_spec]
  exact ok_vec fun i => ssat_sub_fits (h i)
example := @vqsubq_s8_eq_vsubq_s8 .strict (⟨fun i => BitVec.ofNat 8 (3 + i.val)⟩) (⟨fun i => BitVec.ofNat 8 (2 + i.val)⟩) (by decide)

/-- `vqsubq_s8` of a register with itself is zero. -/
theorem vqsubq_s8_self [Dialect] (a : int8x16_t) : vqsubq_s8 a a = .ok ⟨fun _ => 0#8⟩ := by
  rw [vqsubq_s8_spec]
  exact ok_vec fun i => ssat_self_sub _ (by decide)

/-- `vqsubq_s16` is monotone in its first operand and antitone in its second. -/
theorem vqsubq_s16_mono [Dialect] (a a' b b' : int16x8_t) (ha : ∀ i, (a.lane i).toInt ≤ (a'.lane i).toInt)
    (hb : ∀ i, (b'.lane i).toInt ≤ (b.lane i).toInt) :
    ∃ r r', vqsubq_s16 a b = .ok r ∧ vqsubq_s16 a' b' = .ok r' ∧ ∀ i, (r.lane i).toInt ≤ (r'.lane i).toInt := by
  refine ⟨_, _, vqsubq_s16_spec a b, vqsubq_s16_spec a' b', fun i => ?_⟩
  have h1 := ha i
  have h2 := hb i
  exact ssat_mono (by decide) (by omega)
example := @vqsubq_s16_mono .strict (⟨fun i => BitVec.ofNat 16 (3 + i.val)⟩) (⟨fun i => BitVec.ofNat 16 (7 + i.val)⟩) (⟨fun i => BitVec.ofNat 16 (2 + i.val)⟩) (⟨fun i => BitVec.ofNat 16 (2 + i.val)⟩) (by decide) (by decide)

/-- When no lane overflows, `vqsubq_s16` and `vsubq_s16` agree. -/
theorem vqsubq_s16_eq_vsubq_s16 [Dialect] (a b : int16x8_t) (h : ∀ i, Fits 16 ((a.lane i).toInt - (b.lane i).toInt)) :
    vqsubq_s16 a b = vsubq_s16 a b := by
  rw [vqsubq_s16_spec, vsubq_s16_spec]
  exact ok_vec fun i => ssat_sub_fits (h i)
example := @vqsubq_s16_eq_vsubq_s16 .strict (⟨fun i => BitVec.ofNat 16 (3 + i.val)⟩) (⟨fun i => BitVec.ofNat 16 (2 + i.val)⟩) (by decide)

/-- `vqsubq_s16` of a register with itself is zero. -/
theorem vqsubq_s16_self [Dialect] (a : int16x8_t) : vqsubq_s16 a a = .ok ⟨fun _ => 0#16⟩ := by
  rw [vqsubq_s16_spec]
  exact ok_vec fun i => ssat_self_sub _ (by decide)

/-- `vqsubq_s32` is monotone in its first operand and antitone in its second. -/
theorem vqsubq_s32_mono [Dialect] (a a' b b' : int32x4_t) (ha : ∀ i, (a.lane i).toInt ≤ (a'.lane i).toInt)
    (hb : ∀ i, (b'.lane i).toInt ≤ (b.lane i).toInt) :
    ∃ r r', vqsubq_s32 a b = .ok r ∧ vqsubq_s32 a' b' = .ok r' ∧ ∀ i, (r.lane i).toInt ≤ (r'.lane i).toInt := by
  refine ⟨_, _, vqsubq_s32_spec a b, vqsubq_s32_spec a' b', fun i => ?_⟩
  have h1 := ha i
  have h2 := hb i
  exact ssat_mono (by decide) (by omega)
example := @vqsubq_s32_mono .strict (⟨fun i => BitVec.ofNat 32 (3 + i.val)⟩) (⟨fun i => BitVec.ofNat 32 (7 + i.val)⟩) (⟨fun i => BitVec.ofNat 32 (2 + i.val)⟩) (⟨fun i => BitVec.ofNat 32 (2 + i.val)⟩) (by decide) (by decide)

/-- When no lane overflows, `vqsubq_s32` and `vsubq_s32` agree. -/
theorem vqsubq_s32_eq_vsubq_s32 [Dialect] (a b : int32x4_t) (h : ∀ i, Fits 32 ((a.lane i).toInt - (b.lane i).toInt)) :
    vqsubq_s32 a b = vsubq_s32 a b := by
  rw [vqsubq_s32_spec, vsubq_s32_partial]
  rw [if_pos fun i => .inr (h i)]
  exact ok_vec fun i => ssat_sub_fits (h i)
example := @vqsubq_s32_eq_vsubq_s32 .strict (⟨fun i => BitVec.ofNat 32 (3 + i.val)⟩) (⟨fun i => BitVec.ofNat 32 (2 + i.val)⟩) (by decide)

/-- `vqsubq_s32` of a register with itself is zero. -/
theorem vqsubq_s32_self [Dialect] (a : int32x4_t) : vqsubq_s32 a a = .ok ⟨fun _ => 0#32⟩ := by
  rw [vqsubq_s32_spec]
  exact ok_vec fun i => ssat_self_sub _ (by decide)

end Verif.Props
