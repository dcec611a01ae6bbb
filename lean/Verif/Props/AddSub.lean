import Verif.Fill
import Verif.Model.Add
import Verif.Model.Sub
/-! # Wrapping addition and subtraction (C11, C12)

Generated by `tools/gen_props.py`. -/

set_option linter.unusedSimpArgs false
set_option linter.unusedVariables false

namespace Verif.Props
open Verif.Model Verif.Spec

/-- `vadd_s8` gives the lane-wise sum modulo `2^8`, for all operands. -/
theorem vadd_s8_spec [Dialect] (N M : int8x8_t) :
    vadd_s8 N M = .ok ⟨fun i => N.lane i + M.lane i⟩ := by
  unfold vadd_s8
  refine fill_ok (by rfl) _ fun i D => ?_
  have hb0 := toInt8 (N.lane i)
  have hb1 := toInt8 (M.lane i)
  csim
  bvnorm

/-- `vadd_s16` gives the lane-wise sum modulo `2^16`, for all operands. -/
theorem vadd_s16_spec [Dialect] (N M : int16x4_t) :
    vadd_s16 N M = .ok ⟨fun i => N.lane i + M.lane i⟩ := by
  unfold vadd_s16
  refine fill_ok (by rfl) _ fun i D => ?_
  have hb0 := toInt16 (N.lane i)
  have hb1 := toInt16 (M.lane i)
  csim
  bvnorm

/-- `vadd_s32` gives the lane-wise sum modulo `2^32`; in C++11 a lane whose exact sum overflows is undefined behaviour. -/
theorem vadd_s32_partial [Dialect] (N M : int32x2_t) :
    vadd_s32 N M =
      if ∀ i : Fin 2, NoOverflow 32 ((N.lane i).toInt + (M.lane i).toInt)
      then .ok ⟨fun i => N.lane i + M.lane i⟩ else .ub .signedOverflow := by
  unfold vadd_s32
  refine fill_if (by rfl) _ _ _ fun i D => ?_
  have hb0 := toInt32 (N.lane i)
  have hb1 := toInt32 (M.lane i)
  csim_ub
  bvnorm

/-- With `-fwrapv`, `vadd_s32` is defined for all operands. -/
theorem vadd_s32_wrapv [Dialect] (hd : Dialect.wrapv = true) (N M : int32x2_t) :
    vadd_s32 N M = .ok ⟨fun i => N.lane i + M.lane i⟩ := by
  rw [vadd_s32_partial, if_pos]
  intro i
  simp only [NoOverflow, hd, true_or, and_self]
example := @vadd_s32_wrapv .wrapping rfl (⟨fun i => BitVec.ofNat 32 (4 + i.val)⟩) (⟨fun i => BitVec.ofNat 32 (3 + i.val)⟩)

/-- In C++11 `vadd_s32` is undefined for some operands. -/
theorem vadd_s32_ub [Dialect] (hd : Dialect.wrapv = false) :
    ∃ (N M : int32x2_t), vadd_s32 N M = .ub .signedOverflow := by
  refine ⟨⟨fun _ => 2147483647#32⟩, ⟨fun _ => 1#32⟩, ?_⟩
  rw [vadd_s32_partial, if_neg]
  intro h
  have := h 0
  revert this
  simp only [NoOverflow, hd]
  decide
example := @vadd_s32_ub .strict rfl

/-- `vadd_s64` gives the lane-wise sum modulo `2^64`; in C++11 a lane whose exact sum overflows is undefined behaviour. -/
theorem vadd_s64_partial [Dialect] (N M : int64x1_t) :
    vadd_s64 N M =
      if ∀ i : Fin 1, NoOverflow 64 ((N.lane i).toInt + (M.lane i).toInt)
      then .ok ⟨fun i => N.lane i + M.lane i⟩ else .ub .signedOverflow := by
  unfold vadd_s64
  have eN : N.get 0 = .ok (.ofBits _ (N.lane 0)) := Vec.get_at N 0 (by omega) rfl
  have eM : M.get 0 = .ok (.ofBits _ (M.lane 0)) := Vec.get_at M 0 (by omega) rfl
  simp only [eN, eM, ok_bind, pure_eq]
  simp only [bind_assoc, fill_single]
  csim_ub
  bvnorm
  have e : (∀ i, NoOverflow 64 ((N.lane i).toInt + (M.lane i).toInt)) ↔ NoOverflow 64 ((N.lane 0).toInt + (M.lane 0).toInt) :=
    ⟨fun h => h 0, fun h i => by rw [Subsingleton.elim i 0]; exact h⟩
  simp only [e]
  congr 3
  funext i
  rw [Subsingleton.elim i 0]

/-- With `-fwrapv`, `vadd_s64` is defined for all operands. -/
theorem vadd_s64_wrapv [Dialect] (hd : Dialect.wrapv = true) (N M : int64x1_t) :
    vadd_s64 N M = .ok ⟨fun i => N.lane i + M.lane i⟩ := by
  rw [vadd_s64_partial, if_pos]
  intro i
  simp only [NoOverflow, hd, true_or, and_self]
example := @vadd_s64_wrapv .wrapping rfl (⟨fun i => BitVec.ofNat 64 (4 + i.val)⟩) (⟨fun i => BitVec.ofNat 64 (3 + i.val)⟩)

/-- In C++11 `vadd_s64` is undefined for some operands. -/
theorem vadd_s64_ub [Dialect] (hd : Dialect.wrapv = false) :
    ∃ (N M : int64x1_t), vadd_s64 N M = .ub .signedOverflow := by
  refine ⟨⟨fun _ => 9223372036854775807#64⟩, ⟨fun _ => 1#64⟩, ?_⟩
  rw [vadd_s64_partial, if_neg]
  intro h
  have := h 0
  revert this
  simp only [NoOverflow, hd]
  decide
example := @vadd_s64_ub .strict rfl

/-- `vadd_u8` gives the lane-wise sum modulo `2^8`, for all operands. -/
theorem vadd_u8_spec [Dialect] (N M : uint8x8_t) :
    vadd_u8 N M = .ok ⟨fun i => N.lane i + M.lane i⟩ := by
  unfold vadd_u8
  refine fill_ok (by rfl) _ fun i D => ?_
  csim
  bvnorm

/-- `vadd_u16` gives the lane-wise sum modulo `2^16`, for all operands. -/
theorem vadd_u16_spec [Dialect] (N M : uint16x4_t) :
    vadd_u16 N M = .ok ⟨fun i => N.lane i + M.lane i⟩ := by
  unfold vadd_u16
  refine fill_ok (by rfl) _ fun i D => ?_
  csim
  bvnorm

/-- `vadd_u32` gives the lane-wise sum modulo `2^32`, for all operands. -/
theorem vadd_u32_spec [Dialect] (N M : uint32x2_t) :
    vadd_u32 N M = .ok ⟨fun i => N.lane i + M.lane i⟩ := by
  unfold vadd_u32
  refine fill_ok (by rfl) _ fun i D => ?_
  csim
  bvnorm

/-- `vadd_u64` gives the lane-wise sum modulo `2^64`, for all operands. -/
theorem vadd_u64_spec [Dialect] (N M : uint64x1_t) :
    vadd_u64 N M = .ok ⟨fun i => N.lane i + M.lane i⟩ := by
  unfold vadd_u64
  have eN : N.get 0 = .ok (.ofBits _ (N.lane 0)) := Vec.get_at N 0 (by omega) rfl
  have eM : M.get 0 = .ok (.ofBits _ (M.lane 0)) := Vec.get_at M 0 (by omega) rfl
  simp only [eN, eM, ok_bind, pure_eq]
  simp only [bind_assoc, fill_single]
  csim
  bvnorm
  congr 2
  funext i
  rw [Subsingleton.elim i 0]

/-- `vaddq_s8` gives the lane-wise sum modulo `2^8`, for all operands. -/
theorem vaddq_s8_spec [Dialect] (N M : int8x16_t) :
    vaddq_s8 N M = .ok ⟨fun i => N.lane i + M.lane i⟩ := by
  unfold vaddq_s8
  refine fill_ok (by rfl) _ fun i D => ?_
  have hb0 := toInt8 (N.lane i)
  have hb1 := toInt8 (M.lane i)
  csim
  bvnorm

/-- `vaddq_s16` gives the lane-wise sum modulo `2^16`, for all operands. -/
theorem vaddq_s16_spec [Dialect] (N M : int16x8_t) :
    vaddq_s16 N M = .ok ⟨fun i => N.lane i + M.lane i⟩ := by
  unfold vaddq_s16
  refine fill_ok (by rfl) _ fun i D => ?_
  have hb0 := toInt16 (N.lane i)
  have hb1 := toInt16 (M.lane i)
  csim
  bvnorm

/-- `vaddq_s32` gives the lane-wise sum modulo `2^32`; in C++11 a lane whose exact sum overflows is undefined behaviour. -/
theorem vaddq_s32_partial [Dialect] (N M : int32x4_t) :
    vaddq_s32 N M =
      if ∀ i : Fin 4, NoOverflow 32 ((N.lane i).toInt + (M.lane i).toInt)
      then .ok ⟨fun i => N.lane i + M.lane i⟩ else .ub .signedOverflow := by
  unfold vaddq_s32
  refine fill_if (by rfl) _ _ _ fun i D => ?_
  have hb0 := toInt32 (N.lane i)
  have hb1 := toInt32 (M.lane i)
  csim_ub
  bvnorm

/-- With `-fwrapv`, `vaddq_s32` is defined for all operands. -/
theorem vaddq_s32_wrapv [Dialect] (hd : Dialect.wrapv = true) (N M : int32x4_t) :
    vaddq_s32 N M = .ok ⟨fun i => N.lane i + M.lane i⟩ := by
  rw [vaddq_s32_partial, if_pos]
  intro i
  simp only [NoOverflow, hd, true_or, and_self]
example := @vaddq_s32_wrapv .wrapping rfl (⟨fun i => BitVec.ofNat 32 (4 + i.val)⟩) (⟨fun i => BitVec.ofNat 32 (3 + i.val)⟩)

/-- In C++11 `vaddq_s32` is undefined for some operands. -/
theorem vaddq_s32_ub [Dialect] (hd : Dialect.wrapv = false) :
    ∃ (N M : int32x4_t), vaddq_s32 N M = .ub .signedOverflow := by
  refine ⟨⟨fun _ => 2147483647#32⟩, ⟨fun _ => 1#32⟩, ?_⟩
  rw [vaddq_s32_partial, if_neg]
  intro h
  have := h 0
  revert this
  simp only [NoOverflow, hd]
  decide
example := @vaddq_s32_ub .strict rfl

/-- `vaddq_s64` gives the lane-wise sum modulo `2^64`; in C++11 a lane whose exact sum overflows is undefined behaviour. -/
theorem vaddq_s64_partial [Dialect] (N M : int64x2_t) :
    vaddq_s64 N M =
      if ∀ i : Fin 2, NoOverflow 64 ((N.lane i).toInt + (M.lane i).toInt)
      then .ok ⟨fun i => N.lane i + M.lane i⟩ else .ub .signedOverflow := by
  unfold vaddq_s64
  refine fill_if (by rfl) _ _ _ fun i D => ?_
  have hb0 := toInt64 (N.lane i)
  have hb1 := toInt64 (M.lane i)
  csim_ub
  bvnorm

/-- With `-fwrapv`, `vaddq_s64` is defined for all operands. -/
theorem vaddq_s64_wrapv [Dialect] (hd : Dialect.wrapv = true) (N M : int64x2_t) :
    vaddq_s64 N M = .ok ⟨fun i => N.lane i + M.lane i⟩ := by
  rw [vaddq_s64_partial, if_pos]
  intro i
  simp only [NoOverflow, hd, true_or, and_self]
example := @vaddq_s64_wrapv .wrapping rfl (⟨fun i => BitVec.ofNat 64 (4 + i.val)⟩) (⟨fun i => BitVec.ofNat 64 (3 + i.val)⟩)

/-- In C++11 `vaddq_s64` is undefined for some operands. -/
theorem vaddq_s64_ub [Dialect] (hd : Dialect.wrapv = false) :
    ∃ (N M : int64x2_t), vaddq_s64 N M = .ub .signedOverflow := by
  refine ⟨⟨fun _ => 9223372036854775807#64⟩, ⟨fun _ => 1#64⟩, ?_⟩
  rw [vaddq_s64_partial, if_neg]
  intro h
  have := h 0
  revert this
  simp only [NoOverflow, hd]
  decide
example := @vaddq_s64_ub .strict rfl

/-- `vaddq_u8` gives the lane-wise sum modulo `2^8`, for all operands. -/
theorem vaddq_u8_spec [Dialect] (N M : uint8x16_t) :
    vaddq_u8 N M = .ok ⟨fun i => N.lane i + M.lane i⟩ := by
  unfold vaddq_u8
  refine fill_ok (by rfl) _ fun i D => ?_
  csim
  bvnorm

/-- `vaddq_u16` gives the lane-wise sum modulo `2^16`, for all operands. -/
theorem vaddq_u16_spec [Dialect] (N M : uint16x8_t) :
    vaddq_u16 N M = .ok ⟨fun i => N.lane i + M.lane i⟩ := by
  unfold vaddq_u16
  refine fill_ok (by rfl) _ fun i D => ?_
  csim
  bvnorm

/-- `vaddq_u32` gives the lane-wise sum modulo `2^32`, for all operands. -/
theorem vaddq_u32_spec [Dialect] (N M : uint32x4_t) :
    vaddq_u32 N M = .ok ⟨fun i => N.lane i + M.lane i⟩ := by
  unfold vaddq_u32
  refine fill_ok (by rfl) _ fun i D => ?_
  csim
  bvnorm

/-- `vaddq_u64` gives the lane-wise sum modulo `2^64`, for all operands. -/
theorem vaddq_u64_spec [Dialect] (N M : uint64x2_t) :
    vaddq_u64 N M = .ok ⟨fun i => N.lane i + M.lane i⟩ := by
  unfold vaddq_u64
  refine fill_ok (by rfl) _ fun i D => ?_
  csim
  bvnorm

/-- `vsub_s8` gives the lane-wise difference modulo `2^8`, for all operands. -/
theorem vsub_s8_spec [Dialect] (N M : int8x8_t) :
    vsub_s8 N M = .ok ⟨fun i => N.lane i - M.lane i⟩ := by
  unfold vsub_s8
  refine fill_ok (by rfl) _ fun i D => ?_
  have hb0 := toInt8 (N.lane i)
  have hb1 := toInt8 (M.lane i)
  csim
  bvnorm

/-- `vsub_s16` gives the lane-wise difference modulo `2^16`, for all operands. -/
theorem vsub_s16_spec [Dialect] (N M : int16x4_t) :
    vsub_s16 N M = .ok ⟨fun i => N.lane i - M.lane i⟩ := by
  unfold vsub_s16
  refine fill_ok (by rfl) _ fun i D => ?_
  have hb0 := toInt16 (N.lane i)
  have hb1 := toInt16 (M.lane i)
  csim
  bvnorm

/-- `vsub_s32` gives the lane-wise difference modulo `2^32`; in C++11 a lane whose exact difference overflows is undefined behaviour. -/
theorem vsub_s32_partial [Dialect] (N M : int32x2_t) :
    vsub_s32 N M =
      if ∀ i : Fin 2, NoOverflow 32 ((N.lane i).toInt - (M.lane i).toInt)
      then .ok ⟨fun i => N.lane i - M.lane i⟩ else .ub .signedOverflow := by
  unfold vsub_s32
  refine fill_if (by rfl) _ _ _ fun i D => ?_
  have hb0 := toInt32 (N.lane i)
  have hb1 := toInt32 (M.lane i)
  csim_ub
  bvnorm

/-- With `-fwrapv`, `vsub_s32` is defined for all operands. -/
theorem vsub_s32_wrapv [Dialect] (hd : Dialect.wrapv = true) (N M : int32x2_t) :
    vsub_s32 N M = .ok ⟨fun i => N.lane i - M.lane i⟩ := by
  rw [vsub_s32_partial, if_pos]
  intro i
  simp only [NoOverflow, hd, true_or, and_self]
example := @vsub_s32_wrapv .wrapping rfl (⟨fun i => BitVec.ofNat 32 (4 + i.val)⟩) (⟨fun i => BitVec.ofNat 32 (3 + i.val)⟩)

/-- In C++11 `vsub_s32` is undefined for some operands. -/
theorem vsub_s32_ub [Dialect] (hd : Dialect.wrapv = false) :
    ∃ (N M : int32x2_t), vsub_s32 N M = .ub .signedOverflow := by
  refine ⟨⟨fun _ => 2147483648#32⟩, ⟨fun _ => 1#32⟩, ?_⟩
  rw [vsub_s32_partial, if_neg]
  intro h
  have := h 0
  revert this
  simp only [NoOverflow, hd]
  decide
example := @vsub_s32_ub .strict rfl

/-- `vsub_s64` gives the lane-wise difference modulo `2^64`; in C++11 a lane whose exact difference overflows is undefined behaviour. -/
theorem vsub_s64_partial [Dialect] (N M : int64x1_t) :
    vsub_s64 N M =
      if ∀ i : Fin 1, NoOverflow 64 ((N.lane i).toInt - (M.lane i).toInt)
      then .ok ⟨fun i => N.lane i - M.lane i⟩ else .ub .signedOverflow := by
  unfold vsub_s64
  refine fill_if (by rfl) _ _ _ fun i D => ?_
  have hb0 := toInt64 (N.lane i)
  have hb1 := toInt64 (M.lane i)
  csim_ub
  bvnorm

/-- With `-fwrapv`, `vsub_s64` is defined for all operands. -/
theorem vsub_s64_wrapv [Dialect] (hd : Dialect.wrapv = true) (N M : int64x1_t) :
    vsub_s64 N M = .ok ⟨fun i => N.lane i - M.lane i⟩ := by
  rw [vsub_s64_partial, if_pos]
  intro i
  simp only [NoOverflow, hd, true_or, and_self]
example := @vsub_s64_wrapv .wrapping rfl (⟨fun i => BitVec.ofNat 64 (4 + i.val)⟩) (⟨fun i => BitVec.ofNat 64 (3 + i.val)⟩)

/-- In C++11 `vsub_s64` is undefined for some operands. -/
theorem vsub_s64_ub [Dialect] (hd : Dialect.wrapv = false) :
    ∃ (N M : int64x1_t), vsub_s64 N M = .ub .signedOverflow := by
  refine ⟨⟨fun _ => 9223372036854775808#64⟩, ⟨fun _ => 1#64⟩, ?_⟩
  rw [vsub_s64_partial, if_neg]
  intro h
  have := h 0
  revert this
  simp only [NoOverflow, hd]
  decide
example := @vsub_s64_ub .strict rfl

/-- `vsub_u8` gives the lane-wise difference modulo `2^8`, for all operands. -/
theorem vsub_u8_spec [Dialect] (N M : uint8x8_t) :
    vsub_u8 N M = .ok ⟨fun i => N.lane i - M.lane i⟩ := by
  unfold vsub_u8
  refine fill_ok (by rfl) _ fun i D => ?_
  csim
  bvnorm

/-- `vsub_u16` gives the lane-wise difference modulo `2^16`, for all operands. -/
theorem vsub_u16_spec [Dialect] (N M : uint16x4_t) :
    vsub_u16 N M = .ok ⟨fun i => N.lane i - M.lane i⟩ := by
  unfold vsub_u16
  refine fill_ok (by rfl) _ fun i D => ?_
  csim
  bvnorm

/-- `vsub_u32` gives the lane-wise difference modulo `2^32`, for all operands. -/
theorem vsub_u32_spec [Dialect] (N M : uint32x2_t) :
    vsub_u32 N M = .ok ⟨fun i => N.lane i - M.lane i⟩ := by
  unfold vsub_u32
  refine fill_ok (by rfl) _ fun i D => ?_
  csim
  bvnorm

/-- `vsub_u64` gives the lane-wise difference modulo `2^64`, for all operands. -/
theorem vsub_u64_spec [Dialect] (N M : uint64x1_t) :
    vsub_u64 N M = .ok ⟨fun i => N.lane i - M.lane i⟩ := by
  unfold vsub_u64
  refine fill_ok (by rfl) _ fun i D => ?_
  csim
  bvnorm

/-- `vsubq_s8` gives the lane-wise difference modulo `2^8`, for all operands. -/
theorem vsubq_s8_spec [Dialect] (N M : int8x16_t) :
    vsubq_s8 N M = .ok ⟨fun i => N.lane i - M.lane i⟩ := by
  unfold vsubq_s8
  refine fill_ok (by rfl) _ fun i D => ?_
  have hb0 := toInt8 (N.lane i)
  have hb1 := toInt8 (M.lane i)
  csim
  bvnorm

/-- `vsubq_s16` gives the lane-wise difference modulo `2^16`, for all operands. -/
theorem vsubq_s16_spec [Dialect] (N M : int16x8_t) :
    vsubq_s16 N M = .ok ⟨fun i => N.lane i - M.lane i⟩ := by
  unfold vsubq_s16
  refine fill_ok (by rfl) _ fun i D => ?_
  have hb0 := toInt16 (N.lane i)
  have hb1 := toInt16 (M.lane i)
  csim
  bvnorm

/-- `vsubq_s32` gives the lane-wise difference modulo `2^32`; in C++11 a lane whose exact difference overflows is undefined behaviour. -/
theorem vsubq_s32_partial [Dialect] (N M : int32x4_t) :
    vsubq_s32 N M =
      if ∀ i : Fin 4, NoOverflow 32 ((N.lane i).toInt - (M.lane i).toInt)
      then .ok ⟨fun i => N.lane i - M.lane i⟩ else .ub .signedOverflow := by
  unfold vsubq_s32
  refine fill_if (by rfl) _ _ _ fun i D => ?_
  have hb0 := toInt32 (N.lane i)
  have hb1 := toInt32 (M.lane i)
  csim_ub
  bvnorm

/-- With `-fwrapv`, `vsubq_s32` is defined for all operands. -/
theorem vsubq_s32_wrapv [Dialect] (hd : Dialect.wrapv = true) (N M : int32x4_t) :
    vsubq_s32 N M = .ok ⟨fun i => N.lane i - M.lane i⟩ := by
  rw [vsubq_s32_partial, if_pos]
  intro i
  simp only [NoOverflow, hd, true_or, and_self]
example := @vsubq_s32_wrapv .wrapping rfl (⟨fun i => BitVec.ofNat 32 (4 + i.val)⟩) (⟨fun i => BitVec.ofNat 32 (3 + i.val)⟩)

/-- In C++11 `vsubq_s32` is undefined for some operands. -/
theorem vsubq_s32_ub [Dialect] (hd : Dialect.wrapv = false) :
    ∃ (N M : int32x4_t), vsubq_s32 N M = .ub .signedOverflow := by
  refine ⟨⟨fun _ => 2147483648#32⟩, ⟨fun _ => 1#32⟩, ?_⟩
  rw [vsubq_s32_partial, if_neg]
  intro h
  have := h 0
  revert this
  simp only [NoOverflow, hd]
  decide
example := @vsubq_s32_ub .strict rfl

/-- `vsubq_s64` gives the lane-wise difference modulo `2^64`; in C++11 a lane whose exact difference overflows is undefined behaviour. -/
theorem vsubq_s64_partial [Dialect] (N M : int64x2_t) :
    vsubq_s64 N M =
      if ∀ i : Fin 2, NoOverflow 64 ((N.lane i).toInt - (M.lane i).toInt)
      then .ok ⟨fun i => N.lane i - M.lane i⟩ else .ub .signedOverflow := by
  unfold vsubq_s64
  refine fill_if (by rfl) _ _ _ fun i D => ?_
  have hb0 := toInt64 (N.lane i)
  have hb1 := toInt64 (M.lane i)
  csim_ub
  bvnorm

/-- With `-fwrapv`, `vsubq_s64` is defined for all operands. -/
theorem vsubq_s64_wrapv [Dialect] (hd : Dialect.wrapv = true) (N M : int64x2_t) :
    vsubq_s64 N M = .ok ⟨fun i => N.lane i - M.lane i⟩ := by
  rw [vsubq_s64_partial, if_pos]
  intro i
  simp only [NoOverflow, hd, true_or, and_self]
example := @vsubq_s64_wrapv .wrapping rfl (⟨fun i => BitVec.ofNat 64 (4 + i.val)⟩) (⟨fun i => BitVec.ofNat 64 (3 + i.val)⟩)

/-- In C++11 `vsubq_s64` is undefined for some operands. -/
theorem vsubq_s64_ub [Dialect] (hd : Dialect.wrapv = false) :
    ∃ (N M : int64x2_t), vsubq_s64 N M = .ub .signedOverflow := by
  refine ⟨⟨fun _ => 9223372036854775808#64⟩, ⟨fun _ => 1#64⟩, ?_⟩
  rw [vsubq_s64_partial, if_neg]
  intro h
  have := h 0
  revert this
  simp only [NoOverflow, hd]
  decide
example := @vsubq_s64_ub .strict rfl

/-- `vsubq_u8` gives the lane-wise difference modulo `2^8`, for all operands. -/
theorem vsubq_u8_spec [Dialect] (N M : uint8x16_t) :
    vsubq_u8 N M = .ok ⟨fun i => N.lane i - M.lane i⟩ := by
  unfold vsubq_u8
  refine fill_ok (by rfl) _ fun i D => ?_
  csim
  bvnorm

/-- `vsubq_u16` gives the lane-wise difference modulo `2^16`, for all operands. -/
theorem vsubq_u16_spec [Dialect] (N M : uint16x8_t) :
    vsubq_u16 N M = .ok ⟨fun i => N.lane i - M.lane i⟩ := by
  unfold vsubq_u16
  refine fill_ok (by rfl) _ fun i D => ?_
  csim
  bvnorm

/-- `vsubq_u32` gives the lane-wise difference modulo `2^32`, for all operands. -/
theorem vsubq_u32_spec [Dialect] (N M : uint32x4_t) :
    vsubq_u32 N M = .ok ⟨fun i => N.lane i - M.lane i⟩ := by
  unfold vsubq_u32
  refine fill_ok (by rfl) _ fun i D => ?_
  csim
  bvnorm

/-- `vsubq_u64` gives the lane-wise difference modulo `2^64`, for all operands. -/
theorem vsubq_u64_spec [Dialect] (N M : uint64x2_t) :
    vsubq_u64 N M = .ok ⟨fun i => N.lane i - M.lane i⟩ := by
  unfold vsubq_u64
  refine fill_ok (by rfl) _ fun i D => ?_
  csim
  bvnorm

end Verif.Props
