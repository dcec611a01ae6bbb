import Verif.Fill
import Verif.Model.Mul
import Verif.Model.Add
/-! # Multiplication (C23, C24, C25, C26, C27, C28)

Generated by `tools/gen_props.py`. -/

set_option linter.unusedSimpArgs false
set_option linter.unusedVariables false

namespace Verif.Props
open Verif.Model Verif.Spec

/-- `vmul_s8` gives the product modulo `2^8`, for all operands. -/
theorem vmul_s8_spec [Dialect] (N M : int8x8_t) :
    vmul_s8 N M = .ok ⟨fun i => N.lane i * M.lane i⟩ := by
  unfold vmul_s8
  refine fill_ok (by rfl) _ fun i D => ?_
  have hb0 := toInt8 (N.lane i)
  have hb1 := toInt8 (M.lane i)
  have hm := smul8 (N.lane i) (M.lane i)
  csim
  bvnorm

/-- `vmul_s16` gives the product modulo `2^16`, for all operands. -/
theorem vmul_s16_spec [Dialect] (N M : int16x4_t) :
    vmul_s16 N M = .ok ⟨fun i => N.lane i * M.lane i⟩ := by
  unfold vmul_s16
  refine fill_ok (by rfl) _ fun i D => ?_
  have hb0 := toInt16 (N.lane i)
  have hb1 := toInt16 (M.lane i)
  have hm := smul16 (N.lane i) (M.lane i)
  csim
  bvnorm

/-- `vmul_s32` gives the product modulo `2^32`; the multiplication is done in `int`, so in C++11 a product that does not fit 32 bits is undefined. -/
theorem vmul_s32_partial [Dialect] (N M : int32x2_t) :
    vmul_s32 N M =
      if ∀ i : Fin 2, NoOverflow 32 ((N.lane i).toInt * (M.lane i).toInt)
      then .ok ⟨fun i => N.lane i * M.lane i⟩ else .ub .signedOverflow := by
  unfold vmul_s32
  refine fill_if (by rfl) _ _ _ fun i D => ?_
  have hb0 := toInt32 (N.lane i)
  have hb1 := toInt32 (M.lane i)
  have hm := smul32 (N.lane i) (M.lane i)
  csim_ub
  bvnorm

/-- With `-fwrapv`, `vmul_s32` is defined for all operands. -/
theorem vmul_s32_wrapv [Dialect] (hd : Dialect.wrapv = true) (N M : int32x2_t) :
    vmul_s32 N M = .ok ⟨fun i => N.lane i * M.lane i⟩ := by
  rw [vmul_s32_partial, if_pos]
  intro i
  simp only [NoOverflow, hd, true_or, and_self]
example := @vmul_s32_wrapv .wrapping rfl (⟨fun i => BitVec.ofNat 32 (4 + i.val)⟩) (⟨fun i => BitVec.ofNat 32 (3 + i.val)⟩)

/-- In C++11 `vmul_s32` is undefined for some operands. -/
theorem vmul_s32_ub [Dialect] (hd : Dialect.wrapv = false) :
    ∃ (N M : int32x2_t), vmul_s32 N M = .ub .signedOverflow := by
  refine ⟨⟨fun _ => 65535#32⟩, ⟨fun _ => 65535#32⟩, ?_⟩
  rw [vmul_s32_partial, if_neg]
  intro h
  have := h 0
  revert this
  simp only [NoOverflow, hd]
  decide
example := @vmul_s32_ub .strict rfl

/-- `vmul_u8` gives the product modulo `2^8`, for all operands. -/
theorem vmul_u8_spec [Dialect] (N M : uint8x8_t) :
    vmul_u8 N M = .ok ⟨fun i => N.lane i * M.lane i⟩ := by
  unfold vmul_u8
  refine fill_ok (by rfl) _ fun i D => ?_
  have hm := umul8 (N.lane i) (M.lane i)
  csim
  bvnorm

/-- `vmul_u16` gives the product modulo `2^16`; the multiplication is done in `int`, so in C++11 a product that does not fit 32 bits is undefined. -/
theorem vmul_u16_partial [Dialect] (N M : uint16x4_t) :
    vmul_u16 N M =
      if ∀ i : Fin 4, NoOverflow 32 (((N.lane i).toNat : Int) * ((M.lane i).toNat : Int))
      then .ok ⟨fun i => N.lane i * M.lane i⟩ else .ub .signedOverflow := by
  unfold vmul_u16
  refine fill_if (by rfl) _ _ _ fun i D => ?_
  have hm := umul16 (N.lane i) (M.lane i)
  csim_ub
  bvnorm

/-- With `-fwrapv`, `vmul_u16` is defined for all operands. -/
theorem vmul_u16_wrapv [Dialect] (hd : Dialect.wrapv = true) (N M : uint16x4_t) :
    vmul_u16 N M = .ok ⟨fun i => N.lane i * M.lane i⟩ := by
  rw [vmul_u16_partial, if_pos]
  intro i
  simp only [NoOverflow, hd, true_or, and_self]
example := @vmul_u16_wrapv .wrapping rfl (⟨fun i => BitVec.ofNat 16 (4 + i.val)⟩) (⟨fun i => BitVec.ofNat 16 (3 + i.val)⟩)

/-- In C++11 `vmul_u16` is undefined for some operands. -/
theorem vmul_u16_ub [Dialect] (hd : Dialect.wrapv = false) :
    ∃ (N M : uint16x4_t), vmul_u16 N M = .ub .signedOverflow := by
  refine ⟨⟨fun _ => 65535#16⟩, ⟨fun _ => 65535#16⟩, ?_⟩
  rw [vmul_u16_partial, if_neg]
  intro h
  have := h 0
  revert this
  simp only [NoOverflow, hd]
  decide
example := @vmul_u16_ub .strict rfl

/-- `vmul_u32` gives the product modulo `2^32`, for all operands. -/
theorem vmul_u32_spec [Dialect] (N M : uint32x2_t) :
    vmul_u32 N M = .ok ⟨fun i => N.lane i * M.lane i⟩ := by
  unfold vmul_u32
  refine fill_ok (by rfl) _ fun i D => ?_
  have hm := umul32 (N.lane i) (M.lane i)
  csim
  bvnorm

/-- `vmulq_s8` gives the product modulo `2^8`, for all operands. -/
theorem vmulq_s8_spec [Dialect] (N M : int8x16_t) :
    vmulq_s8 N M = .ok ⟨fun i => N.lane i * M.lane i⟩ := by
  unfold vmulq_s8
  refine fill_ok (by rfl) _ fun i D => ?_
  have hb0 := toInt8 (N.lane i)
  have hb1 := toInt8 (M.lane i)
  have hm := smul8 (N.lane i) (M.lane i)
  csim
  bvnorm

/-- `vmulq_s16` gives the product modulo `2^16`, for all operands. -/
theorem vmulq_s16_spec [Dialect] (N M : int16x8_t) :
    vmulq_s16 N M = .ok ⟨fun i => N.lane i * M.lane i⟩ := by
  unfold vmulq_s16
  refine fill_ok (by rfl) _ fun i D => ?_
  have hb0 := toInt16 (N.lane i)
  have hb1 := toInt16 (M.lane i)
  have hm := smul16 (N.lane i) (M.lane i)
  csim
  bvnorm

/-- `vmulq_s32` gives the product modulo `2^32`; the multiplication is done in `int`, so in C++11 a product that does not fit 32 bits is undefined. -/
theorem vmulq_s32_partial [Dialect] (N M : int32x4_t) :
    vmulq_s32 N M =
      if ∀ i : Fin 4, NoOverflow 32 ((N.lane i).toInt * (M.lane i).toInt)
      then .ok ⟨fun i => N.lane i * M.lane i⟩ else .ub .signedOverflow := by
  unfold vmulq_s32
  refine fill_if (by rfl) _ _ _ fun i D => ?_
  have hb0 := toInt32 (N.lane i)
  have hb1 := toInt32 (M.lane i)
  have hm := smul32 (N.lane i) (M.lane i)
  csim_ub
  bvnorm

/-- With `-fwrapv`, `vmulq_s32` is defined for all operands. -/
theorem vmulq_s32_wrapv [Dialect] (hd : Dialect.wrapv = true) (N M : int32x4_t) :
    vmulq_s32 N M = .ok ⟨fun i => N.lane i * M.lane i⟩ := by
  rw [vmulq_s32_partial, if_pos]
  intro i
  simp only [NoOverflow, hd, true_or, and_self]
example := @vmulq_s32_wrapv .wrapping rfl (⟨fun i => BitVec.ofNat 32 (4 + i.val)⟩) (⟨fun i => BitVec.ofNat 32 (3 + i.val)⟩)

/-- In C++11 `vmulq_s32` is undefined for some operands. -/
theorem vmulq_s32_ub [Dialect] (hd : Dialect.wrapv = false) :
    ∃ (N M : int32x4_t), vmulq_s32 N M = .ub .signedOverflow := by
  refine ⟨⟨fun _ => 65535#32⟩, ⟨fun _ => 65535#32⟩, ?_⟩
  rw [vmulq_s32_partial, if_neg]
  intro h
  have := h 0
  revert this
  simp only [NoOverflow, hd]
  decide
example := @vmulq_s32_ub .strict rfl

/-- `vmulq_u8` gives the product modulo `2^8`, for all operands. -/
theorem vmulq_u8_spec [Dialect] (N M : uint8x16_t) :
    vmulq_u8 N M = .ok ⟨fun i => N.lane i * M.lane i⟩ := by
  unfold vmulq_u8
  refine fill_ok (by rfl) _ fun i D => ?_
  have hm := umul8 (N.lane i) (M.lane i)
  csim
  bvnorm

/-- `vmulq_u16` gives the product modulo `2^16`; the multiplication is done in `int`, so in C++11 a product that does not fit 32 bits is undefined. -/
theorem vmulq_u16_partial [Dialect] (N M : uint16x8_t) :
    vmulq_u16 N M =
      if ∀ i : Fin 8, NoOverflow 32 (((N.lane i).toNat : Int) * ((M.lane i).toNat : Int))
      then .ok ⟨fun i => N.lane i * M.lane i⟩ else .ub .signedOverflow := by
  unfold vmulq_u16
  refine fill_if (by rfl) _ _ _ fun i D => ?_
  have hm := umul16 (N.lane i) (M.lane i)
  csim_ub
  bvnorm

/-- With `-fwrapv`, `vmulq_u16` is defined for all operands. -/
theorem vmulq_u16_wrapv [Dialect] (hd : Dialect.wrapv = true) (N M : uint16x8_t) :
    vmulq_u16 N M = .ok ⟨fun i => N.lane i * M.lane i⟩ := by
  rw [vmulq_u16_partial, if_pos]
  intro i
  simp only [NoOverflow, hd, true_or, and_self]
example := @vmulq_u16_wrapv .wrapping rfl (⟨fun i => BitVec.ofNat 16 (4 + i.val)⟩) (⟨fun i => BitVec.ofNat 16 (3 + i.val)⟩)

/-- In C++11 `vmulq_u16` is undefined for some operands. -/
theorem vmulq_u16_ub [Dialect] (hd : Dialect.wrapv = false) :
    ∃ (N M : uint16x8_t), vmulq_u16 N M = .ub .signedOverflow := by
  refine ⟨⟨fun _ => 65535#16⟩, ⟨fun _ => 65535#16⟩, ?_⟩
  rw [vmulq_u16_partial, if_neg]
  intro h
  have := h 0
  revert this
  simp only [NoOverflow, hd]
  decide
example := @vmulq_u16_ub .strict rfl

/-- `vmulq_u32` gives the product modulo `2^32`, for all operands. -/
theorem vmulq_u32_spec [Dialect] (N M : uint32x4_t) :
    vmulq_u32 N M = .ok ⟨fun i => N.lane i * M.lane i⟩ := by
  unfold vmulq_u32
  refine fill_ok (by rfl) _ fun i D => ?_
  have hm := umul32 (N.lane i) (M.lane i)
  csim
  bvnorm

/-- `vmul_n_s16` gives the product modulo `2^16`, for all operands. -/
theorem vmul_n_s16_spec [Dialect] (N : int16x4_t) (M : int16_t) :
    vmul_n_s16 N M = .ok ⟨fun i => N.lane i * M⟩ := by
  unfold vmul_n_s16
  refine fill_ok (by rfl) _ fun i D => ?_
  have hb0 := toInt16 (N.lane i)
  have hb1 := toInt16 (M)
  have hm := smul16 (N.lane i) (M)
  csim
  bvnorm

/-- `vmul_n_s32` gives the product modulo `2^32`; the multiplication is done in `int`, so in C++11 a product that does not fit 32 bits is undefined. -/
theorem vmul_n_s32_partial [Dialect] (N : int32x2_t) (M : int32_t) :
    vmul_n_s32 N M =
      if ∀ i : Fin 2, NoOverflow 32 ((N.lane i).toInt * M.toInt)
      then .ok ⟨fun i => N.lane i * M⟩ else .ub .signedOverflow := by
  unfold vmul_n_s32
  refine fill_if (by rfl) _ _ _ fun i D => ?_
  have hb0 := toInt32 (N.lane i)
  have hb1 := toInt32 (M)
  have hm := smul32 (N.lane i) (M)
  csim_ub
  bvnorm

/-- With `-fwrapv`, `vmul_n_s32` is defined for all operands. -/
theorem vmul_n_s32_wrapv [Dialect] (hd : Dialect.wrapv = true) (N : int32x2_t) (M : int32_t) :
    vmul_n_s32 N M = .ok ⟨fun i => N.lane i * M⟩ := by
  rw [vmul_n_s32_partial, if_pos]
  intro i
  simp only [NoOverflow, hd, true_or, and_self]
example := @vmul_n_s32_wrapv .wrapping rfl (⟨fun i => BitVec.ofNat 32 (4 + i.val)⟩) 7

/-- In C++11 `vmul_n_s32` is undefined for some operands. -/
theorem vmul_n_s32_ub [Dialect] (hd : Dialect.wrapv = false) :
    ∃ (N : int32x2_t) (M : int32_t), vmul_n_s32 N M = .ub .signedOverflow := by
  refine ⟨⟨fun _ => 65535#32⟩, 65535#32, ?_⟩
  rw [vmul_n_s32_partial, if_neg]
  intro h
  have := h 0
  revert this
  simp only [NoOverflow, hd]
  decide
example := @vmul_n_s32_ub .strict rfl

/-- `vmul_n_u16` gives the product modulo `2^16`; the multiplication is done in `int`, so in C++11 a product that does not fit 32 bits is undefined. -/
theorem vmul_n_u16_partial [Dialect] (N : uint16x4_t) (M : uint16_t) :
    vmul_n_u16 N M =
      if ∀ i : Fin 4, NoOverflow 32 (((N.lane i).toNat : Int) * (M.toNat : Int))
      then .ok ⟨fun i => N.lane i * M⟩ else .ub .signedOverflow := by
  unfold vmul_n_u16
  refine fill_if (by rfl) _ _ _ fun i D => ?_
  have hm := umul16 (N.lane i) (M)
  csim_ub
  bvnorm

/-- With `-fwrapv`, `vmul_n_u16` is defined for all operands. -/
theorem vmul_n_u16_wrapv [Dialect] (hd : Dialect.wrapv = true) (N : uint16x4_t) (M : uint16_t) :
    vmul_n_u16 N M = .ok ⟨fun i => N.lane i * M⟩ := by
  rw [vmul_n_u16_partial, if_pos]
  intro i
  simp only [NoOverflow, hd, true_or, and_self]
example := @vmul_n_u16_wrapv .wrapping rfl (⟨fun i => BitVec.ofNat 16 (4 + i.val)⟩) 7

/-- In C++11 `vmul_n_u16` is undefined for some operands. -/
theorem vmul_n_u16_ub [Dialect] (hd : Dialect.wrapv = false) :
    ∃ (N : uint16x4_t) (M : uint16_t), vmul_n_u16 N M = .ub .signedOverflow := by
  refine ⟨⟨fun _ => 65535#16⟩, 65535#16, ?_⟩
  rw [vmul_n_u16_partial, if_neg]
  intro h
  have := h 0
  revert this
  simp only [NoOverflow, hd]
  decide
example := @vmul_n_u16_ub .strict rfl

/-- `vmul_n_u32` gives the product modulo `2^32`, for all operands. -/
theorem vmul_n_u32_spec [Dialect] (N : uint32x2_t) (M : uint32_t) :
    vmul_n_u32 N M = .ok ⟨fun i => N.lane i * M⟩ := by
  unfold vmul_n_u32
  refine fill_ok (by rfl) _ fun i D => ?_
  have hm := umul32 (N.lane i) (M)
  csim
  bvnorm

/-- `vmulq_n_s16` gives the product modulo `2^16`, for all operands. -/
theorem vmulq_n_s16_spec [Dialect] (N : int16x8_t) (M : int16_t) :
    vmulq_n_s16 N M = .ok ⟨fun i => N.lane i * M⟩ := by
  unfold vmulq_n_s16
  refine fill_ok (by rfl) _ fun i D => ?_
  have hb0 := toInt16 (N.lane i)
  have hb1 := toInt16 (M)
  have hm := smul16 (N.lane i) (M)
  csim
  bvnorm

/-- `vmulq_n_s32` gives the product modulo `2^32`; the multiplication is done in `int`, so in C++11 a product that does not fit 32 bits is undefined. -/
theorem vmulq_n_s32_partial [Dialect] (N : int32x4_t) (M : int32_t) :
    vmulq_n_s32 N M =
      if ∀ i : Fin 4, NoOverflow 32 ((N.lane i).toInt * M.toInt)
      then .ok ⟨fun i => N.lane i * M⟩ else .ub .signedOverflow := by
  unfold vmulq_n_s32
  refine fill_if (by rfl) _ _ _ fun i D => ?_
  have hb0 := toInt32 (N.lane i)
  have hb1 := toInt32 (M)
  have hm := smul32 (N.lane i) (M)
  csim_ub
  bvnorm

/-- With `-fwrapv`, `vmulq_n_s32` is defined for all operands. -/
theorem vmulq_n_s32_wrapv [Dialect] (hd : Dialect.wrapv = true) (N : int32x4_t) (M : int32_t) :
    vmulq_n_s32 N M = .ok ⟨fun i => N.lane i * M⟩ := by
  rw [vmulq_n_s32_partial, if_pos]
  intro i
  simp only [NoOverflow, hd, true_or, and_self]
example := @vmulq_n_s32_wrapv .wrapping rfl (⟨fun i => BitVec.ofNat 32 (4 + i.val)⟩) 7

/-- In C++11 `vmulq_n_s32` is undefined for some operands. -/
theorem vmulq_n_s32_ub [Dialect] (hd : Dialect.wrapv = false) :
    ∃ (N : int32x4_t) (M : int32_t), vmulq_n_s32 N M = .ub .signedOverflow := by
  refine ⟨⟨fun _ => 65535#32⟩, 65535#32, ?_⟩
  rw [vmulq_n_s32_partial, if_neg]
  intro h
  have := h 0
  revert this
  simp only [NoOverflow, hd]
  decide
example := @vmulq_n_s32_ub .strict rfl

/-- `vmulq_n_u16` gives the product modulo `2^16`; the multiplication is done in `int`, so in C++11 a product that does not fit 32 bits is undefined. -/
theorem vmulq_n_u16_partial [Dialect] (N : uint16x8_t) (M : uint16_t) :
    vmulq_n_u16 N M =
      if ∀ i : Fin 8, NoOverflow 32 (((N.lane i).toNat : Int) * (M.toNat : Int))
      then .ok ⟨fun i => N.lane i * M⟩ else .ub .signedOverflow := by
  unfold vmulq_n_u16
  refine fill_if (by rfl) _ _ _ fun i D => ?_
  have hm := umul16 (N.lane i) (M)
  csim_ub
  bvnorm

/-- With `-fwrapv`, `vmulq_n_u16` is defined for all operands. -/
theorem vmulq_n_u16_wrapv [Dialect] (hd : Dialect.wrapv = true) (N : uint16x8_t) (M : uint16_t) :
    vmulq_n_u16 N M = .ok ⟨fun i => N.lane i * M⟩ := by
  rw [vmulq_n_u16_partial, if_pos]
  intro i
  simp only [NoOverflow, hd, true_or, and_self]
example := @vmulq_n_u16_wrapv .wrapping rfl (⟨fun i => BitVec.ofNat 16 (4 + i.val)⟩) 7

/-- In C++11 `vmulq_n_u16` is undefined for some operands. -/
theorem vmulq_n_u16_ub [Dialect] (hd : Dialect.wrapv = false) :
    ∃ (N : uint16x8_t) (M : uint16_t), vmulq_n_u16 N M = .ub .signedOverflow := by
  refine ⟨⟨fun _ => 65535#16⟩, 65535#16, ?_⟩
  rw [vmulq_n_u16_partial, if_neg]
  intro h
  have := h 0
  revert this
  simp only [NoOverflow, hd]
  decide
example := @vmulq_n_u16_ub .strict rfl

/-- `vmulq_n_u32` gives the product modulo `2^32`, for all operands. -/
theorem vmulq_n_u32_spec [Dialect] (N : uint32x4_t) (M : uint32_t) :
    vmulq_n_u32 N M = .ok ⟨fun i => N.lane i * M⟩ := by
  unfold vmulq_n_u32
  refine fill_ok (by rfl) _ fun i D => ?_
  have hm := umul32 (N.lane i) (M)
  csim
  bvnorm

/-- `vmull_s8` gives the product computed in 16 bits after sign extension. -/
theorem vmull_s8_spec [Dialect] (a b : int8x8_t) :
    vmull_s8 a b = .ok ⟨fun i => (a.lane i).signExtend 16 * (b.lane i).signExtend 16⟩ := by
  unfold vmull_s8
  refine fill_ok (by rfl) _ fun i D => ?_
  have hb0 := toInt8 (a.lane i)
  have hb1 := toInt8 (b.lane i)
  have hm := smul8 (a.lane i) (b.lane i)
  csim
  bvnorm

/-- Every lane of `vmull_s8` is the exact product. -/
theorem vmull_s8_exact [Dialect] (a b : int8x8_t) :
    ∃ r, vmull_s8 a b = .ok r ∧ ∀ i, (r.lane i).toInt = (a.lane i).toInt * (b.lane i).toInt := by
  refine ⟨_, vmull_s8_spec a b, fun i => ?_⟩
  have hm := smul8 (a.lane i) (b.lane i)
  have e : (a.lane i).signExtend 16 * (b.lane i).signExtend 16 = BitVec.ofInt 16 ((a.lane i).toInt * (b.lane i).toInt) := by bvnorm
  show ((a.lane i).signExtend 16 * (b.lane i).signExtend 16).toInt = _
  rw [e, BitVec.toInt_ofInt]
  exact bmod16 (by omega)

/-- `vmull_s16` gives the product computed in 32 bits after sign extension. -/
theorem vmull_s16_spec [Dialect] (a b : int16x4_t) :
    vmull_s16 a b = .ok ⟨fun i => (a.lane i).signExtend 32 * (b.lane i).signExtend 32⟩ := by
  unfold vmull_s16
  refine fill_ok (by rfl) _ fun i D => ?_
  have hb0 := toInt16 (a.lane i)
  have hb1 := toInt16 (b.lane i)
  have hm := smul16 (a.lane i) (b.lane i)
  csim
  bvnorm

/-- Every lane of `vmull_s16` is the exact product. -/
theorem vmull_s16_exact [Dialect] (a b : int16x4_t) :
    ∃ r, vmull_s16 a b = .ok r ∧ ∀ i, (r.lane i).toInt = (a.lane i).toInt * (b.lane i).toInt := by
  refine ⟨_, vmull_s16_spec a b, fun i => ?_⟩
  have hm := smul16 (a.lane i) (b.lane i)
  have e : (a.lane i).signExtend 32 * (b.lane i).signExtend 32 = BitVec.ofInt 32 ((a.lane i).toInt * (b.lane i).toInt) := by bvnorm
  show ((a.lane i).signExtend 32 * (b.lane i).signExtend 32).toInt = _
  rw [e, BitVec.toInt_ofInt]
  exact bmod32 (by omega)

/-- `vmull_s32` multiplies in 32-bit `int` and then sign-extends; overflow of `int` is undefined in C++11. -/
theorem vmull_s32_partial [Dialect] (a b : int32x2_t) :
    vmull_s32 a b =
      if ∀ i : Fin 2, NoOverflow 32 ((a.lane i).toInt * (b.lane i).toInt)
      then .ok ⟨fun i => (a.lane i * b.lane i).signExtend 64⟩ else .ub .signedOverflow := by
  unfold vmull_s32
  refine fill_if (by rfl) _ _ _ fun i D => ?_
  have hb0 := toInt32 (a.lane i)
  have hb1 := toInt32 (b.lane i)
  have hm := smul32 (a.lane i) (b.lane i)
  csim_ub
  simp only [← int_mul_bmod32, ofInt_toInt_ext]

/-- With `-fwrapv`, `vmull_s32` is defined for all operands. -/
theorem vmull_s32_wrapv [Dialect] (hd : Dialect.wrapv = true) (a b : int32x2_t) :
    vmull_s32 a b = .ok ⟨fun i => (a.lane i * b.lane i).signExtend 64⟩ := by
  rw [vmull_s32_partial, if_pos]
  intro i
  simp only [NoOverflow, hd, true_or, and_self]
example := @vmull_s32_wrapv .wrapping rfl (⟨fun i => BitVec.ofNat 32 (3 + i.val)⟩) (⟨fun i => BitVec.ofNat 32 (2 + i.val)⟩)

/-- In C++11 `vmull_s32` is undefined for some operands. -/
theorem vmull_s32_ub [Dialect] (hd : Dialect.wrapv = false) :
    ∃ (a b : int32x2_t), vmull_s32 a b = .ub .signedOverflow := by
  refine ⟨⟨fun _ => 65536#32⟩, ⟨fun _ => 65536#32⟩, ?_⟩
  rw [vmull_s32_partial, if_neg]
  intro h
  have := h 0
  revert this
  simp only [NoOverflow, hd]
  decide
example := @vmull_s32_ub .strict rfl

/-- `vmull_s32` does not give the exact product, in any dialect. -/
theorem vmull_s32_wrong [Dialect] :
    ¬ ∀ (a b : int32x2_t), vmull_s32 a b = .ok ⟨fun i => (a.lane i).signExtend 64 * (b.lane i).signExtend 64⟩ := by
  intro h
  have h := h (⟨fun _ => 65536#32⟩) (⟨fun _ => 65536#32⟩)
  rw [vmull_s32_partial] at h
  split at h
  · have h := congrFun (Vec.mk.inj (C.ok.inj h)) 0
    revert h
    decide
  · cases h

/-- `vmull_u8` gives the product computed in 16 bits after zero extension. -/
theorem vmull_u8_spec [Dialect] (a b : uint8x8_t) :
    vmull_u8 a b = .ok ⟨fun i => (a.lane i).setWidth 16 * (b.lane i).setWidth 16⟩ := by
  unfold vmull_u8
  refine fill_ok (by rfl) _ fun i D => ?_
  have hm := umul8 (a.lane i) (b.lane i)
  csim
  bvnorm

/-- Every lane of `vmull_u8` is the exact product. -/
theorem vmull_u8_exact [Dialect] (a b : uint8x8_t) :
    ∃ r, vmull_u8 a b = .ok r ∧ ∀ i, ((r.lane i).toNat : Int) = ((a.lane i).toNat : Int) * ((b.lane i).toNat : Int) := by
  refine ⟨_, vmull_u8_spec a b, fun i => ?_⟩
  have hm := umul8 (a.lane i) (b.lane i)
  have e : (a.lane i).setWidth 16 * (b.lane i).setWidth 16 = BitVec.ofInt 16 (((a.lane i).toNat : Int) * ((b.lane i).toNat : Int)) := by bvnorm
  show (((a.lane i).setWidth 16 * (b.lane i).setWidth 16).toNat : Int) = _
  rw [e, BitVec.toNat_ofInt]
  omega

/-- `vmull_u16` gives the exact product when it fits `int`; in C++11 a larger product is undefined. -/
theorem vmull_u16_partial [Dialect] (a b : uint16x4_t) :
    vmull_u16 a b =
      if ∀ i : Fin 4, NoOverflow 32 (((a.lane i).toNat : Int) * ((b.lane i).toNat : Int))
      then .ok ⟨fun i => (a.lane i).setWidth 32 * (b.lane i).setWidth 32⟩ else .ub .signedOverflow := by
  unfold vmull_u16
  refine fill_if (by rfl) _ _ _ fun i D => ?_
  have hm := umul16 (a.lane i) (b.lane i)
  csim_ub
  bvnorm

/-- With `-fwrapv`, `vmull_u16` is defined for all operands. -/
theorem vmull_u16_wrapv [Dialect] (hd : Dialect.wrapv = true) (a b : uint16x4_t) :
    vmull_u16 a b = .ok ⟨fun i => (a.lane i).setWidth 32 * (b.lane i).setWidth 32⟩ := by
  rw [vmull_u16_partial, if_pos]
  intro i
  simp only [NoOverflow, hd, true_or, and_self]
example := @vmull_u16_wrapv .wrapping rfl (⟨fun i => BitVec.ofNat 16 (3 + i.val)⟩) (⟨fun i => BitVec.ofNat 16 (2 + i.val)⟩)

/-- In C++11 `vmull_u16` is undefined for some operands. -/
theorem vmull_u16_ub [Dialect] (hd : Dialect.wrapv = false) :
    ∃ (a b : uint16x4_t), vmull_u16 a b = .ub .signedOverflow := by
  refine ⟨⟨fun _ => 65535#16⟩, ⟨fun _ => 65535#16⟩, ?_⟩
  rw [vmull_u16_partial, if_neg]
  intro h
  have := h 0
  revert this
  simp only [NoOverflow, hd]
  decide
example := @vmull_u16_ub .strict rfl

/-- `vmull_u32` multiplies modulo `2^32` and then zero-extends: the upper half of the product is lost. -/
theorem vmull_u32_partial [Dialect] (a b : uint32x2_t) :
    vmull_u32 a b = .ok ⟨fun i => (a.lane i * b.lane i).setWidth 64⟩ := by
  unfold vmull_u32
  refine fill_ok (by rfl) _ fun i D => ?_
  have hm := umul32 (a.lane i) (b.lane i)
  csim
  simp only [← nat_mul_mod32, ofInt_toNat]

/-- `vmull_u32` does not give the exact product. -/
theorem vmull_u32_wrong [Dialect] :
    ¬ ∀ (a b : uint32x2_t), vmull_u32 a b = .ok ⟨fun i => (a.lane i).setWidth 64 * (b.lane i).setWidth 64⟩ := by
  intro h
  have h := h (⟨fun _ => 65536#32⟩) (⟨fun _ => 65536#32⟩)
  rw [vmull_u32_partial] at h
  have h := congrFun (Vec.mk.inj (C.ok.inj h)) 0
  revert h
  decide

/-- `vmull_n_s16` gives the product computed in 32 bits after sign extension. -/
theorem vmull_n_s16_spec [Dialect] (N : int16x4_t) (M : int16_t) :
    vmull_n_s16 N M = .ok ⟨fun i => (N.lane i).signExtend 32 * (M).signExtend 32⟩ := by
  unfold vmull_n_s16
  refine fill_ok (by rfl) _ fun i D => ?_
  have hb0 := toInt16 (N.lane i)
  have hb1 := toInt16 (M)
  have hm := smul16 (N.lane i) (M)
  csim
  bvnorm

/-- Every lane of `vmull_n_s16` is the exact product. -/
theorem vmull_n_s16_exact [Dialect] (N : int16x4_t) (M : int16_t) :
    ∃ r, vmull_n_s16 N M = .ok r ∧ ∀ i, (r.lane i).toInt = (N.lane i).toInt * M.toInt := by
  refine ⟨_, vmull_n_s16_spec N M, fun i => ?_⟩
  have hm := smul16 (N.lane i) (M)
  have e : (N.lane i).signExtend 32 * (M).signExtend 32 = BitVec.ofInt 32 ((N.lane i).toInt * M.toInt) := by bvnorm
  show ((N.lane i).signExtend 32 * (M).signExtend 32).toInt = _
  rw [e, BitVec.toInt_ofInt]
  exact bmod32 (by omega)

/-- `vmull_n_s32` multiplies in 32-bit `int` and then sign-extends; overflow of `int` is undefined in C++11. -/
theorem vmull_n_s32_partial [Dialect] (N : int32x2_t) (M : int32_t) :
    vmull_n_s32 N M =
      if ∀ i : Fin 2, NoOverflow 32 ((N.lane i).toInt * M.toInt)
      then .ok ⟨fun i => (N.lane i * M).signExtend 64⟩ else .ub .signedOverflow := by
  unfold vmull_n_s32
  refine fill_if (by rfl) _ _ _ fun i D => ?_
  have hb0 := toInt32 (N.lane i)
  have hb1 := toInt32 (M)
  have hm := smul32 (N.lane i) (M)
  csim_ub
  simp only [← int_mul_bmod32, ofInt_toInt_ext]

/-- With `-fwrapv`, `vmull_n_s32` is defined for all operands. -/
theorem vmull_n_s32_wrapv [Dialect] (hd : Dialect.wrapv = true) (N : int32x2_t) (M : int32_t) :
    vmull_n_s32 N M = .ok ⟨fun i => (N.lane i * M).signExtend 64⟩ := by
  rw [vmull_n_s32_partial, if_pos]
  intro i
  simp only [NoOverflow, hd, true_or, and_self]
example := @vmull_n_s32_wrapv .wrapping rfl (⟨fun i => BitVec.ofNat 32 (4 + i.val)⟩) 7

/-- In C++11 `vmull_n_s32` is undefined for some operands. -/
theorem vmull_n_s32_ub [Dialect] (hd : Dialect.wrapv = false) :
    ∃ (N : int32x2_t) (M : int32_t), vmull_n_s32 N M = .ub .signedOverflow := by
  refine ⟨⟨fun _ => 65536#32⟩, 65536#32, ?_⟩
  rw [vmull_n_s32_partial, if_neg]
  intro h
  have := h 0
  revert this
  simp only [NoOverflow, hd]
  decide
example := @vmull_n_s32_ub .strict rfl

/-- `vmull_n_s32` does not give the exact product, in any dialect. -/
theorem vmull_n_s32_wrong [Dialect] :
    ¬ ∀ (N : int32x2_t) (M : int32_t), vmull_n_s32 N M = .ok ⟨fun i => (N.lane i).signExtend 64 * (M).signExtend 64⟩ := by
  intro h
  have h := h (⟨fun _ => 65536#32⟩) (65536#32)
  rw [vmull_n_s32_partial] at h
  split at h
  · have h := congrFun (Vec.mk.inj (C.ok.inj h)) 0
    revert h
    decide
  · cases h

/-- `vmull_n_u16` gives the exact product when it fits `int`; in C++11 a larger product is undefined. -/
theorem vmull_n_u16_partial [Dialect] (N : uint16x4_t) (M : uint16_t) :
    vmull_n_u16 N M =
      if ∀ i : Fin 4, NoOverflow 32 (((N.lane i).toNat : Int) * (M.toNat : Int))
      then .ok ⟨fun i => (N.lane i).setWidth 32 * (M).setWidth 32⟩ else .ub .signedOverflow := by
  unfold vmull_n_u16
  refine fill_if (by rfl) _ _ _ fun i D => ?_
  have hm := umul16 (N.lane i) (M)
  csim_ub
  bvnorm

/-- With `-fwrapv`, `vmull_n_u16` is defined for all operands. -/
theorem vmull_n_u16_wrapv [Dialect] (hd : Dialect.wrapv = true) (N : uint16x4_t) (M : uint16_t) :
    vmull_n_u16 N M = .ok ⟨fun i => (N.lane i).setWidth 32 * (M).setWidth 32⟩ := by
  rw [vmull_n_u16_partial, if_pos]
  intro i
  simp only [NoOverflow, hd, true_or, and_self]
example := @vmull_n_u16_wrapv .wrapping rfl (⟨fun i => BitVec.ofNat 16 (4 + i.val)⟩) 7

/-- In C++11 `vmull_n_u16` is undefined for some operands. -/
theorem vmull_n_u16_ub [Dialect] (hd : Dialect.wrapv = false) :
    ∃ (N : uint16x4_t) (M : uint16_t), vmull_n_u16 N M = .ub .signedOverflow := by
  refine ⟨⟨fun _ => 65535#16⟩, 65535#16, ?_⟩
  rw [vmull_n_u16_partial, if_neg]
  intro h
  have := h 0
  revert this
  simp only [NoOverflow, hd]
  decide
example := @vmull_n_u16_ub .strict rfl

/-- `vmull_n_u32` multiplies modulo `2^32` and then zero-extends: the upper half of the product is lost. -/
theorem vmull_n_u32_partial [Dialect] (N : uint32x2_t) (M : uint32_t) :
    vmull_n_u32 N M = .ok ⟨fun i => (N.lane i * M).setWidth 64⟩ := by
  unfold vmull_n_u32
  refine fill_ok (by rfl) _ fun i D => ?_
  have hm := umul32 (N.lane i) (M)
  csim
  simp only [← nat_mul_mod32, ofInt_toNat]

/-- `vmull_n_u32` does not give the exact product. -/
theorem vmull_n_u32_wrong [Dialect] :
    ¬ ∀ (N : uint32x2_t) (M : uint32_t), vmull_n_u32 N M = .ok ⟨fun i => (N.lane i).setWidth 64 * (M).setWidth 64⟩ := by
  intro h
  have h := h (⟨fun _ => 65536#32⟩) (65536#32)
  rw [vmull_n_u32_partial] at h
  have h := congrFun (Vec.mk.inj (C.ok.inj h)) 0
  revert h
  decide

/-- `vqdmull_s16` gives the doubled exact product clamped to `int32_t`. -/
theorem vqdmull_s16_spec [Dialect] (M N : int16x4_t) :
    vqdmull_s16 M N = .ok ⟨fun i => ssat 32 (2 * ((M.lane i).toInt * (N.lane i).toInt))⟩ := by
  unfold vqdmull_s16
  refine fill_ok (by rfl) _ fun i D => ?_
  have hb0 := toInt16 (M.lane i)
  have hb1 := toInt16 (N.lane i)
  have hm := smul16 (M.lane i) (N.lane i)
  by_cases hN : (N.lane i).toInt = -32768
  · by_cases hM : (M.lane i).toInt = -32768
    · csim
      simp only [hN, hM, decide_true, if_true, reduceIte]
      rfl
    · have hm' : -1073741823 ≤ (M.lane i).toInt * (N.lane i).toInt ∧
          (M.lane i).toInt * (N.lane i).toInt ≤ 1073741823 := by rw [hN]; omega
      csim
      simp only [hN, hM, decide_true, decide_false, if_true, reduceIte, Bool.false_eq_true]
      rw [hN] at hm'
      congr 2
      simp only [ssat, clamp, Int.reducePow, Int.reduceNeg, Int.reduceSub, Nat.reduceSub]
      congr 1
      omega
  · have hm' : (M.lane i).toInt * (N.lane i).toInt ≤ 1073741823 := by
      by_cases hM : (M.lane i).toInt = -32768
      · rw [hM]; omega
      · have := mul_bound (x := (M.lane i).toInt) (y := (N.lane i).toInt) (A := 32767) (B := 32767)
          (by omega) (by omega)
        omega
    csim
    simp only [hN, decide_false, reduceIte, Bool.false_eq_true]
    congr 2
    simp only [ssat, clamp, Int.reducePow, Int.reduceNeg, Int.reduceSub, Nat.reduceSub]
    congr 1
    omega

/-- `vqdmull_s16` saturates only for `(-32768) * (-32768)`: a lane differs from the doubled exact product exactly there. -/
theorem vqdmull_s16_saturates_iff [Dialect] (M N : int16x4_t) :
    ∃ r, vqdmull_s16 M N = .ok r ∧ ∀ i, (r.lane i).toInt ≠ 2 * ((M.lane i).toInt * (N.lane i).toInt) ↔
      (M.lane i).toInt = -32768 ∧ (N.lane i).toInt = -32768 := by
  refine ⟨_, vqdmull_s16_spec M N, fun i => ?_⟩
  have hb0 := toInt16 (M.lane i)
  have hb1 := toInt16 (N.lane i)
  have hm := smul16 (M.lane i) (N.lane i)
  by_cases h : (M.lane i).toInt = -32768 ∧ (N.lane i).toInt = -32768
  · simp only [h, ssat]
    decide
  · have hm' : (M.lane i).toInt * (N.lane i).toInt ≤ 1073741823 := by
      by_cases hM : (M.lane i).toInt = -32768
      · rw [hM]; omega
      · by_cases hN : (N.lane i).toInt = -32768
        · rw [hN]; omega
        · have := mul_bound (x := (M.lane i).toInt) (y := (N.lane i).toInt) (A := 32767) (B := 32767)
            (by omega) (by omega)
          omega
    have e : clamp (-2 ^ (32 - 1)) (2 ^ (32 - 1) - 1) (2 * ((M.lane i).toInt * (N.lane i).toInt))
        = 2 * ((M.lane i).toInt * (N.lane i).toInt) := by
      simp only [clamp, Int.reducePow, Int.reduceNeg, Int.reduceSub, Nat.reduceSub]
      omega
    simp only [ssat, h, iff_false, ne_eq, Decidable.not_not]
    rw [e, BitVec.toInt_ofInt]
    exact bmod32 (by omega)

/-- `vmlal_s8` gives the sum of the accumulator and the exact product, modulo `2^16`. -/
theorem vmlal_s8_spec [Dialect] (N : int16x8_t) (M P : int8x8_t) :
    vmlal_s8 N M P = .ok ⟨fun i => N.lane i + (M.lane i).signExtend 16 * (P.lane i).signExtend 16⟩ := by
  unfold vmlal_s8
  refine fill_ok (by rfl) _ fun i D => ?_
  have hb0 := toInt16 (N.lane i)
  have hb1 := toInt8 (M.lane i)
  have hb2 := toInt8 (P.lane i)
  have hm := smul8 (M.lane i) (P.lane i)
  csim
  bvnorm

/-- `vmlal_s16` gives the sum of the accumulator and the exact product modulo `2^32`; overflow of the sum is undefined in C++11. -/
theorem vmlal_s16_partial [Dialect] (N : int32x4_t) (M P : int16x4_t) :
    vmlal_s16 N M P =
      if ∀ i : Fin 4, NoOverflow 32 ((N.lane i).toInt + (M.lane i).toInt * (P.lane i).toInt)
      then .ok ⟨fun i => N.lane i + (M.lane i).signExtend 32 * (P.lane i).signExtend 32⟩ else .ub .signedOverflow := by
  unfold vmlal_s16
  refine fill_if (by rfl) _ _ _ fun i D => ?_
  have hb0 := toInt32 (N.lane i)
  have hb1 := toInt16 (M.lane i)
  have hb2 := toInt16 (P.lane i)
  have hm := smul16 (M.lane i) (P.lane i)
  csim_ub
  bvnorm

/-- With `-fwrapv`, `vmlal_s16` is defined for all operands. -/
theorem vmlal_s16_wrapv [Dialect] (hd : Dialect.wrapv = true) (N : int32x4_t) (M P : int16x4_t) :
    vmlal_s16 N M P = .ok ⟨fun i => N.lane i + (M.lane i).signExtend 32 * (P.lane i).signExtend 32⟩ := by
  rw [vmlal_s16_partial, if_pos]
  intro i
  simp only [NoOverflow, hd, true_or, and_self]
example := @vmlal_s16_wrapv .wrapping rfl (⟨fun i => BitVec.ofNat 32 (4 + i.val)⟩) (⟨fun i => BitVec.ofNat 16 (3 + i.val)⟩) (⟨fun i => BitVec.ofNat 16 (2 + i.val)⟩)

/-- In C++11 `vmlal_s16` is undefined for some operands. -/
theorem vmlal_s16_ub [Dialect] (hd : Dialect.wrapv = false) :
    ∃ (N : int32x4_t) (M P : int16x4_t), vmlal_s16 N M P = .ub .signedOverflow := by
  refine ⟨⟨fun _ => 2147483647#32⟩, ⟨fun _ => 1#16⟩, ⟨fun _ => 1#16⟩, ?_⟩
  rw [vmlal_s16_partial, if_neg]
  intro h
  have := h 0
  revert this
  simp only [NoOverflow, hd]
  decide
example := @vmlal_s16_ub .strict rfl

/-- `vmlal_s32` multiplies in 32-bit `int`; overflow of the product or of the sum is undefined in C++11. -/
theorem vmlal_s32_partial [Dialect] (N : int64x2_t) (M P : int32x2_t) :
    vmlal_s32 N M P =
      if ∀ i : Fin 2, NoOverflow 32 ((M.lane i).toInt * (P.lane i).toInt) ∧ NoOverflow 64 ((N.lane i).toInt + (M.lane i * P.lane i).toInt)
      then .ok ⟨fun i => N.lane i + (M.lane i * P.lane i).signExtend 64⟩ else .ub .signedOverflow := by
  unfold vmlal_s32
  refine fill_if (by rfl) _ _ _ fun i D => ?_
  have hb0 := toInt64 (N.lane i)
  have hb1 := toInt32 (M.lane i)
  have hb2 := toInt32 (P.lane i)
  have hm := smul32 (M.lane i) (P.lane i)
  csim_ub
  simp only [← int_mul_bmod32]
  simp (disch := decide) only [ofInt_bmod, ofInt_sub, BitVec.ofInt_add, ofInt_toInt_ext, BitVec.signExtend_eq]

/-- With `-fwrapv`, `vmlal_s32` is defined for all operands. -/
theorem vmlal_s32_wrapv [Dialect] (hd : Dialect.wrapv = true) (N : int64x2_t) (M P : int32x2_t) :
    vmlal_s32 N M P = .ok ⟨fun i => N.lane i + (M.lane i * P.lane i).signExtend 64⟩ := by
  rw [vmlal_s32_partial, if_pos]
  intro i
  simp only [NoOverflow, hd, true_or, and_self]
example := @vmlal_s32_wrapv .wrapping rfl (⟨fun i => BitVec.ofNat 64 (4 + i.val)⟩) (⟨fun i => BitVec.ofNat 32 (3 + i.val)⟩) (⟨fun i => BitVec.ofNat 32 (2 + i.val)⟩)

/-- In C++11 `vmlal_s32` is undefined for some operands. -/
theorem vmlal_s32_ub [Dialect] (hd : Dialect.wrapv = false) :
    ∃ (N : int64x2_t) (M P : int32x2_t), vmlal_s32 N M P = .ub .signedOverflow := by
  refine ⟨⟨fun _ => 0#64⟩, ⟨fun _ => 65536#32⟩, ⟨fun _ => 65536#32⟩, ?_⟩
  rw [vmlal_s32_partial, if_neg]
  intro h
  have := h 0
  revert this
  simp only [NoOverflow, hd]
  decide
example := @vmlal_s32_ub .strict rfl

/-- `vmlal_s32` does not use the exact product, in any dialect. -/
theorem vmlal_s32_wrong [Dialect] :
    ¬ ∀ (N : int64x2_t) (M P : int32x2_t), vmlal_s32 N M P = .ok ⟨fun i => N.lane i + (M.lane i).signExtend 64 * (P.lane i).signExtend 64⟩ := by
  intro h
  have h := h (⟨fun _ => 0#64⟩) (⟨fun _ => 65536#32⟩) (⟨fun _ => 65536#32⟩)
  rw [vmlal_s32_partial] at h
  split at h
  · have h := congrFun (Vec.mk.inj (C.ok.inj h)) 0
    revert h
    decide
  · cases h

/-- `vmlal_u8` gives the sum of the accumulator and the exact product, modulo `2^16`. -/
theorem vmlal_u8_spec [Dialect] (N : uint16x8_t) (M P : uint8x8_t) :
    vmlal_u8 N M P = .ok ⟨fun i => N.lane i + (M.lane i).setWidth 16 * (P.lane i).setWidth 16⟩ := by
  unfold vmlal_u8
  refine fill_ok (by rfl) _ fun i D => ?_
  have hm := umul8 (M.lane i) (P.lane i)
  csim
  bvnorm

/-- `vmlal_u16` gives the sum of the accumulator and the product modulo `2^32`; the product is computed in `int`, so in C++11 a product above `2^31 - 1` is undefined. -/
theorem vmlal_u16_partial [Dialect] (N : uint32x4_t) (M P : uint16x4_t) :
    vmlal_u16 N M P =
      if ∀ i : Fin 4, NoOverflow 32 (((M.lane i).toNat : Int) * ((P.lane i).toNat : Int))
      then .ok ⟨fun i => N.lane i + (M.lane i).setWidth 32 * (P.lane i).setWidth 32⟩ else .ub .signedOverflow := by
  unfold vmlal_u16
  refine fill_if (by rfl) _ _ _ fun i D => ?_
  have hm := umul16 (M.lane i) (P.lane i)
  csim_ub
  bvnorm

/-- With `-fwrapv`, `vmlal_u16` is defined for all operands. -/
theorem vmlal_u16_wrapv [Dialect] (hd : Dialect.wrapv = true) (N : uint32x4_t) (M P : uint16x4_t) :
    vmlal_u16 N M P = .ok ⟨fun i => N.lane i + (M.lane i).setWidth 32 * (P.lane i).setWidth 32⟩ := by
  rw [vmlal_u16_partial, if_pos]
  intro i
  simp only [NoOverflow, hd, true_or, and_self]
example := @vmlal_u16_wrapv .wrapping rfl (⟨fun i => BitVec.ofNat 32 (4 + i.val)⟩) (⟨fun i => BitVec.ofNat 16 (3 + i.val)⟩) (⟨fun i => BitVec.ofNat 16 (2 + i.val)⟩)

/-- In C++11 `vmlal_u16` is undefined for some operands. -/
theorem vmlal_u16_ub [Dialect] (hd : Dialect.wrapv = false) :
    ∃ (N : uint32x4_t) (M P : uint16x4_t), vmlal_u16 N M P = .ub .signedOverflow := by
  refine ⟨⟨fun _ => 0#32⟩, ⟨fun _ => 65535#16⟩, ⟨fun _ => 65535#16⟩, ?_⟩
  rw [vmlal_u16_partial, if_neg]
  intro h
  have := h 0
  revert this
  simp only [NoOverflow, hd]
  decide
example := @vmlal_u16_ub .strict rfl

/-- `vmlal_u32` uses the product modulo `2^32`: its upper half is lost. -/
theorem vmlal_u32_partial [Dialect] (N : uint64x2_t) (M P : uint32x2_t) :
    vmlal_u32 N M P = .ok ⟨fun i => N.lane i + (M.lane i * P.lane i).setWidth 64⟩ := by
  unfold vmlal_u32
  refine fill_ok (by rfl) _ fun i D => ?_
  have hm := umul32 (M.lane i) (P.lane i)
  csim
  simp (disch := decide) only [← nat_mul_mod32, ofInt_emod, ofInt_sub, BitVec.ofInt_add, ofInt_toNat, BitVec.setWidth_eq]

/-- `vmlal_u32` does not use the exact product. -/
theorem vmlal_u32_wrong [Dialect] :
    ¬ ∀ (N : uint64x2_t) (M P : uint32x2_t), vmlal_u32 N M P = .ok ⟨fun i => N.lane i + (M.lane i).setWidth 64 * (P.lane i).setWidth 64⟩ := by
  intro h
  have h := h (⟨fun _ => 0#64⟩) (⟨fun _ => 65536#32⟩) (⟨fun _ => 65536#32⟩)
  rw [vmlal_u32_partial] at h
  have h := congrFun (Vec.mk.inj (C.ok.inj h)) 0
  revert h
  decide

/-- `vmlsl_s8` gives the difference of the accumulator and the exact product, modulo `2^16`. -/
theorem vmlsl_s8_spec [Dialect] (N : int16x8_t) (M P : int8x8_t) :
    vmlsl_s8 N M P = .ok ⟨fun i => N.lane i - (M.lane i).signExtend 16 * (P.lane i).signExtend 16⟩ := by
  unfold vmlsl_s8
  refine fill_ok (by rfl) _ fun i D => ?_
  have hb0 := toInt16 (N.lane i)
  have hb1 := toInt8 (M.lane i)
  have hb2 := toInt8 (P.lane i)
  have hm := smul8 (M.lane i) (P.lane i)
  csim
  bvnorm

/-- `vmlsl_s16` gives the difference of the accumulator and the exact product modulo `2^32`; overflow of the difference is undefined in C++11. -/
theorem vmlsl_s16_partial [Dialect] (N : int32x4_t) (M P : int16x4_t) :
    vmlsl_s16 N M P =
      if ∀ i : Fin 4, NoOverflow 32 ((N.lane i).toInt - (M.lane i).toInt * (P.lane i).toInt)
      then .ok ⟨fun i => N.lane i - (M.lane i).signExtend 32 * (P.lane i).signExtend 32⟩ else .ub .signedOverflow := by
  unfold vmlsl_s16
  refine fill_if (by rfl) _ _ _ fun i D => ?_
  have hb0 := toInt32 (N.lane i)
  have hb1 := toInt16 (M.lane i)
  have hb2 := toInt16 (P.lane i)
  have hm := smul16 (M.lane i) (P.lane i)
  csim_ub
  bvnorm

/-- With `-fwrapv`, `vmlsl_s16` is defined for all operands. -/
theorem vmlsl_s16_wrapv [Dialect] (hd : Dialect.wrapv = true) (N : int32x4_t) (M P : int16x4_t) :
    vmlsl_s16 N M P = .ok ⟨fun i => N.lane i - (M.lane i).signExtend 32 * (P.lane i).signExtend 32⟩ := by
  rw [vmlsl_s16_partial, if_pos]
  intro i
  simp only [NoOverflow, hd, true_or, and_self]
example := @vmlsl_s16_wrapv .wrapping rfl (⟨fun i => BitVec.ofNat 32 (4 + i.val)⟩) (⟨fun i => BitVec.ofNat 16 (3 + i.val)⟩) (⟨fun i => BitVec.ofNat 16 (2 + i.val)⟩)

/-- In C++11 `vmlsl_s16` is undefined for some operands. -/
theorem vmlsl_s16_ub [Dialect] (hd : Dialect.wrapv = false) :
    ∃ (N : int32x4_t) (M P : int16x4_t), vmlsl_s16 N M P = .ub .signedOverflow := by
  refine ⟨⟨fun _ => 2147483648#32⟩, ⟨fun _ => 1#16⟩, ⟨fun _ => 1#16⟩, ?_⟩
  rw [vmlsl_s16_partial, if_neg]
  intro h
  have := h 0
  revert this
  simp only [NoOverflow, hd]
  decide
example := @vmlsl_s16_ub .strict rfl

/-- `vmlsl_s32` multiplies in 32-bit `int`; overflow of the product or of the difference is undefined in C++11. -/
theorem vmlsl_s32_partial [Dialect] (N : int64x2_t) (M P : int32x2_t) :
    vmlsl_s32 N M P =
      if ∀ i : Fin 2, NoOverflow 32 ((M.lane i).toInt * (P.lane i).toInt) ∧ NoOverflow 64 ((N.lane i).toInt - (M.lane i * P.lane i).toInt)
      then .ok ⟨fun i => N.lane i - (M.lane i * P.lane i).signExtend 64⟩ else .ub .signedOverflow := by
  unfold vmlsl_s32
  refine fill_if (by rfl) _ _ _ fun i D => ?_
  have hb0 := toInt64 (N.lane i)
  have hb1 := toInt32 (M.lane i)
  have hb2 := toInt32 (P.lane i)
  have hm := smul32 (M.lane i) (P.lane i)
  csim_ub
  simp only [← int_mul_bmod32]
  simp (disch := decide) only [ofInt_bmod, ofInt_sub, BitVec.ofInt_add, ofInt_toInt_ext, BitVec.signExtend_eq]

/-- With `-fwrapv`, `vmlsl_s32` is defined for all operands. -/
theorem vmlsl_s32_wrapv [Dialect] (hd : Dialect.wrapv = true) (N : int64x2_t) (M P : int32x2_t) :
    vmlsl_s32 N M P = .ok ⟨fun i => N.lane i - (M.lane i * P.lane i).signExtend 64⟩ := by
  rw [vmlsl_s32_partial, if_pos]
  intro i
  simp only [NoOverflow, hd, true_or, and_self]
example := @vmlsl_s32_wrapv .wrapping rfl (⟨fun i => BitVec.ofNat 64 (4 + i.val)⟩) (⟨fun i => BitVec.ofNat 32 (3 + i.val)⟩) (⟨fun i => BitVec.ofNat 32 (2 + i.val)⟩)

/-- In C++11 `vmlsl_s32` is undefined for some operands. -/
theorem vmlsl_s32_ub [Dialect] (hd : Dialect.wrapv = false) :
    ∃ (N : int64x2_t) (M P : int32x2_t), vmlsl_s32 N M P = .ub .signedOverflow := by
  refine ⟨⟨fun _ => 0#64⟩, ⟨fun _ => 65536#32⟩, ⟨fun _ => 65536#32⟩, ?_⟩
  rw [vmlsl_s32_partial, if_neg]
  intro h
  have := h 0
  revert this
  simp only [NoOverflow, hd]
  decide
example := @vmlsl_s32_ub .strict rfl

/-- `vmlsl_s32` does not use the exact product, in any dialect. -/
theorem vmlsl_s32_wrong [Dialect] :
    ¬ ∀ (N : int64x2_t) (M P : int32x2_t), vmlsl_s32 N M P = .ok ⟨fun i => N.lane i - (M.lane i).signExtend 64 * (P.lane i).signExtend 64⟩ := by
  intro h
  have h := h (⟨fun _ => 0#64⟩) (⟨fun _ => 65536#32⟩) (⟨fun _ => 65536#32⟩)
  rw [vmlsl_s32_partial] at h
  split at h
  · have h := congrFun (Vec.mk.inj (C.ok.inj h)) 0
    revert h
    decide
  · cases h

/-- `vmlsl_u8` gives the difference of the accumulator and the exact product, modulo `2^16`. -/
theorem vmlsl_u8_spec [Dialect] (N : uint16x8_t) (M P : uint8x8_t) :
    vmlsl_u8 N M P = .ok ⟨fun i => N.lane i - (M.lane i).setWidth 16 * (P.lane i).setWidth 16⟩ := by
  unfold vmlsl_u8
  refine fill_ok (by rfl) _ fun i D => ?_
  have hm := umul8 (M.lane i) (P.lane i)
  csim
  bvnorm

/-- `vmlsl_u16` gives the difference of the accumulator and the product modulo `2^32`; the product is computed in `int`, so in C++11 a product above `2^31 - 1` is undefined. -/
theorem vmlsl_u16_partial [Dialect] (N : uint32x4_t) (M P : uint16x4_t) :
    vmlsl_u16 N M P =
      if ∀ i : Fin 4, NoOverflow 32 (((M.lane i).toNat : Int) * ((P.lane i).toNat : Int))
      then .ok ⟨fun i => N.lane i - (M.lane i).setWidth 32 * (P.lane i).setWidth 32⟩ else .ub .signedOverflow := by
  unfold vmlsl_u16
  refine fill_if (by rfl) _ _ _ fun i D => ?_
  have hm := umul16 (M.lane i) (P.lane i)
  csim_ub
  bvnorm

/-- With `-fwrapv`, `vmlsl_u16` is defined for all operands. -/
theorem vmlsl_u16_wrapv [Dialect] (hd : Dialect.wrapv = true) (N : uint32x4_t) (M P : uint16x4_t) :
    vmlsl_u16 N M P = .ok ⟨fun i => N.lane i - (M.lane i).setWidth 32 * (P.lane i).setWidth 32⟩ := by
  rw [vmlsl_u16_partial, if_pos]
  intro i
  simp only [NoOverflow, hd, true_or, and_self]
example := @vmlsl_u16_wrapv .wrapping rfl (⟨fun i => BitVec.ofNat 32 (4 + i.val)⟩) (⟨fun i => BitVec.ofNat 16 (3 + i.val)⟩) (⟨fun i => BitVec.ofNat 16 (2 + i.val)⟩)

/-- In C++11 `vmlsl_u16` is undefined for some operands. -/
theorem vmlsl_u16_ub [Dialect] (hd : Dialect.wrapv = false) :
    ∃ (N : uint32x4_t) (M P : uint16x4_t), vmlsl_u16 N M P = .ub .signedOverflow := by
  refine ⟨⟨fun _ => 0#32⟩, ⟨fun _ => 65535#16⟩, ⟨fun _ => 65535#16⟩, ?_⟩
  rw [vmlsl_u16_partial, if_neg]
  intro h
  have := h 0
  revert this
  simp only [NoOverflow, hd]
  decide
example := @vmlsl_u16_ub .strict rfl

/-- `vmlsl_u32` uses the product modulo `2^32`: its upper half is lost. -/
theorem vmlsl_u32_partial [Dialect] (N : uint64x2_t) (M P : uint32x2_t) :
    vmlsl_u32 N M P = .ok ⟨fun i => N.lane i - (M.lane i * P.lane i).setWidth 64⟩ := by
  unfold vmlsl_u32
  refine fill_ok (by rfl) _ fun i D => ?_
  have hm := umul32 (M.lane i) (P.lane i)
  csim
  simp (disch := decide) only [← nat_mul_mod32, ofInt_emod, ofInt_sub, BitVec.ofInt_add, ofInt_toNat, BitVec.setWidth_eq]

/-- `vmlsl_u32` does not use the exact product. -/
theorem vmlsl_u32_wrong [Dialect] :
    ¬ ∀ (N : uint64x2_t) (M P : uint32x2_t), vmlsl_u32 N M P = .ok ⟨fun i => N.lane i - (M.lane i).setWidth 64 * (P.lane i).setWidth 64⟩ := by
  intro h
  have h := h (⟨fun _ => 0#64⟩) (⟨fun _ => 65536#32⟩) (⟨fun _ => 65536#32⟩)
  rw [vmlsl_u32_partial] at h
  have h := congrFun (Vec.mk.inj (C.ok.inj h)) 0
  revert h
  decide

/-- `vmlaq_s8` gives accumulator plus product modulo `2^8`, for all operands. -/
theorem vmlaq_s8_spec [Dialect] (N M P : int8x16_t) :
    vmlaq_s8 N M P = .ok ⟨fun i => N.lane i + M.lane i * P.lane i⟩ := by
  unfold vmlaq_s8
  refine fill_ok (by rfl) _ fun i D => ?_
  have hb0 := toInt8 (N.lane i)
  have hb1 := toInt8 (M.lane i)
  have hb2 := toInt8 (P.lane i)
  have hm := smul8 (M.lane i) (P.lane i)
  csim
  bvnorm

/-- `vmlaq_s16` gives accumulator plus product modulo `2^16`, for all operands. -/
theorem vmlaq_s16_spec [Dialect] (N M P : int16x8_t) :
    vmlaq_s16 N M P = .ok ⟨fun i => N.lane i + M.lane i * P.lane i⟩ := by
  unfold vmlaq_s16
  refine fill_ok (by rfl) _ fun i D => ?_
  have hb0 := toInt16 (N.lane i)
  have hb1 := toInt16 (M.lane i)
  have hb2 := toInt16 (P.lane i)
  have hm := smul16 (M.lane i) (P.lane i)
  csim
  bvnorm

/-- `vmlaq_s32` gives accumulator plus product modulo `2^32`; the arithmetic is done in `int`, so overflow of product or sum is undefined in C++11. -/
theorem vmlaq_s32_partial [Dialect] (N M P : int32x4_t) :
    vmlaq_s32 N M P =
      if ∀ i : Fin 4, NoOverflow 32 ((M.lane i).toInt * (P.lane i).toInt) ∧ NoOverflow 32 ((N.lane i).toInt + (M.lane i).toInt * (P.lane i).toInt)
      then .ok ⟨fun i => N.lane i + M.lane i * P.lane i⟩ else .ub .signedOverflow := by
  unfold vmlaq_s32
  refine fill_if (by rfl) _ _ _ fun i D => ?_
  have hb0 := toInt32 (N.lane i)
  have hb1 := toInt32 (M.lane i)
  have hb2 := toInt32 (P.lane i)
  have hm := smul32 (M.lane i) (P.lane i)
  csim_ub
  simp only [noOverflow32_two']
  bvnorm

/-- With `-fwrapv`, `vmlaq_s32` is defined for all operands. -/
theorem vmlaq_s32_wrapv [Dialect] (hd : Dialect.wrapv = true) (N M P : int32x4_t) :
    vmlaq_s32 N M P = .ok ⟨fun i => N.lane i + M.lane i * P.lane i⟩ := by
  rw [vmlaq_s32_partial, if_pos]
  intro i
  simp only [NoOverflow, hd, true_or, and_self]
example := @vmlaq_s32_wrapv .wrapping rfl (⟨fun i => BitVec.ofNat 32 (4 + i.val)⟩) (⟨fun i => BitVec.ofNat 32 (3 + i.val)⟩) (⟨fun i => BitVec.ofNat 32 (2 + i.val)⟩)

/-- In C++11 `vmlaq_s32` is undefined for some operands. -/
theorem vmlaq_s32_ub [Dialect] (hd : Dialect.wrapv = false) :
    ∃ (N M P : int32x4_t), vmlaq_s32 N M P = .ub .signedOverflow := by
  refine ⟨⟨fun _ => 0#32⟩, ⟨fun _ => 65535#32⟩, ⟨fun _ => 65535#32⟩, ?_⟩
  rw [vmlaq_s32_partial, if_neg]
  intro h
  have := h 0
  revert this
  simp only [NoOverflow, hd]
  decide
example := @vmlaq_s32_ub .strict rfl

/-- `vmlaq_u8` gives accumulator plus product modulo `2^8`, for all operands. -/
theorem vmlaq_u8_spec [Dialect] (N M P : uint8x16_t) :
    vmlaq_u8 N M P = .ok ⟨fun i => N.lane i + M.lane i * P.lane i⟩ := by
  unfold vmlaq_u8
  refine fill_ok (by rfl) _ fun i D => ?_
  have hm := umul8 (M.lane i) (P.lane i)
  csim
  bvnorm

/-- `vmlaq_u16` gives accumulator plus product modulo `2^16`; the arithmetic is done in `int`, so overflow of product or sum is undefined in C++11. -/
theorem vmlaq_u16_partial [Dialect] (N M P : uint16x8_t) :
    vmlaq_u16 N M P =
      if ∀ i : Fin 8, NoOverflow 32 (((M.lane i).toNat : Int) * ((P.lane i).toNat : Int)) ∧ NoOverflow 32 (((N.lane i).toNat : Int) + ((M.lane i).toNat : Int) * ((P.lane i).toNat : Int))
      then .ok ⟨fun i => N.lane i + M.lane i * P.lane i⟩ else .ub .signedOverflow := by
  unfold vmlaq_u16
  refine fill_if (by rfl) _ _ _ fun i D => ?_
  have hm := umul16 (M.lane i) (P.lane i)
  csim_ub
  simp only [noOverflow32_two']
  bvnorm

/-- With `-fwrapv`, `vmlaq_u16` is defined for all operands. -/
theorem vmlaq_u16_wrapv [Dialect] (hd : Dialect.wrapv = true) (N M P : uint16x8_t) :
    vmlaq_u16 N M P = .ok ⟨fun i => N.lane i + M.lane i * P.lane i⟩ := by
  rw [vmlaq_u16_partial, if_pos]
  intro i
  simp only [NoOverflow, hd, true_or, and_self]
example := @vmlaq_u16_wrapv .wrapping rfl (⟨fun i => BitVec.ofNat 16 (4 + i.val)⟩) (⟨fun i => BitVec.ofNat 16 (3 + i.val)⟩) (⟨fun i => BitVec.ofNat 16 (2 + i.val)⟩)

/-- In C++11 `vmlaq_u16` is undefined for some operands. -/
theorem vmlaq_u16_ub [Dialect] (hd : Dialect.wrapv = false) :
    ∃ (N M P : uint16x8_t), vmlaq_u16 N M P = .ub .signedOverflow := by
  refine ⟨⟨fun _ => 0#16⟩, ⟨fun _ => 65535#16⟩, ⟨fun _ => 65535#16⟩, ?_⟩
  rw [vmlaq_u16_partial, if_neg]
  intro h
  have := h 0
  revert this
  simp only [NoOverflow, hd]
  decide
example := @vmlaq_u16_ub .strict rfl

/-- `vmlaq_u32` gives accumulator plus product modulo `2^32`, for all operands. -/
theorem vmlaq_u32_spec [Dialect] (N M P : uint32x4_t) :
    vmlaq_u32 N M P = .ok ⟨fun i => N.lane i + M.lane i * P.lane i⟩ := by
  unfold vmlaq_u32
  refine fill_ok (by rfl) _ fun i D => ?_
  have hm := umul32 (M.lane i) (P.lane i)
  csim
  bvnorm

/-- `vpaddl_u8` adds adjacent lanes after zero extension. -/
theorem vpaddl_u8_spec [Dialect] (a : uint8x8_t) :
    vpaddl_u8 a = .ok ⟨fun i => (a[2 * i.val]).setWidth 16 + (a[2 * i.val + 1]).setWidth 16⟩ := by
  unfold vpaddl_u8
  refine fill_ok (by rfl) _ fun i D => ?_
  have e0 : a.get (2 * ((i.val : Nat) : Int)) = .ok (.ofBits _ (a.lane ⟨2 * i.val, by omega⟩)) :=
    Vec.get_at a _ (by omega) (by omega)
  have e1 : a.get (2 * ((i.val : Nat) : Int) + 1) = .ok (.ofBits _ (a.lane ⟨2 * i.val + 1, by omega⟩)) :=
    Vec.get_at a _ (by omega) (by omega)
  simp only [e0, e1]
  csim
  bvnorm
  rfl

/-- Every lane of `vpaddl_u8` is the exact sum of two adjacent lanes. -/
theorem vpaddl_u8_exact [Dialect] (a : uint8x8_t) :
    ∃ r, vpaddl_u8 a = .ok r ∧ ∀ i, ((r.lane i).toNat : Int) = ((a[2 * i.val]).toNat : Int) + (a[2 * i.val + 1]).toNat := by
  refine ⟨_, vpaddl_u8_spec a, fun i => ?_⟩
  simp only [BitVec.toNat_add, BitVec.toNat_setWidth, Elem.bits, ITy.bits]
  omega

/-- `vpaddlq_u8` adds adjacent lanes after zero extension. -/
theorem vpaddlq_u8_spec [Dialect] (a : uint8x16_t) :
    vpaddlq_u8 a = .ok ⟨fun i => (a[2 * i.val]).setWidth 16 + (a[2 * i.val + 1]).setWidth 16⟩ := by
  unfold vpaddlq_u8
  refine fill_ok (by rfl) _ fun i D => ?_
  have e0 : a.get (2 * ((i.val : Nat) : Int)) = .ok (.ofBits _ (a.lane ⟨2 * i.val, by omega⟩)) :=
    Vec.get_at a _ (by omega) (by omega)
  have e1 : a.get (2 * ((i.val : Nat) : Int) + 1) = .ok (.ofBits _ (a.lane ⟨2 * i.val + 1, by omega⟩)) :=
    Vec.get_at a _ (by omega) (by omega)
  simp only [e0, e1]
  csim
  bvnorm
  rfl

/-- Every lane of `vpaddlq_u8` is the exact sum of two adjacent lanes. -/
theorem vpaddlq_u8_exact [Dialect] (a : uint8x16_t) :
    ∃ r, vpaddlq_u8 a = .ok r ∧ ∀ i, ((r.lane i).toNat : Int) = ((a[2 * i.val]).toNat : Int) + (a[2 * i.val + 1]).toNat := by
  refine ⟨_, vpaddlq_u8_spec a, fun i => ?_⟩
  simp only [BitVec.toNat_add, BitVec.toNat_setWidth, Elem.bits, ITy.bits]
  omega

/-- `vpaddlq_u16` adds adjacent lanes after zero extension. -/
theorem vpaddlq_u16_spec [Dialect] (a : uint16x8_t) :
    vpaddlq_u16 a = .ok ⟨fun i => (a[2 * i.val]).setWidth 32 + (a[2 * i.val + 1]).setWidth 32⟩ := by
  unfold vpaddlq_u16
  refine fill_ok (by rfl) _ fun i D => ?_
  have e0 : a.get (2 * ((i.val : Nat) : Int)) = .ok (.ofBits _ (a.lane ⟨2 * i.val, by omega⟩)) :=
    Vec.get_at a _ (by omega) (by omega)
  have e1 : a.get (2 * ((i.val : Nat) : Int) + 1) = .ok (.ofBits _ (a.lane ⟨2 * i.val + 1, by omega⟩)) :=
    Vec.get_at a _ (by omega) (by omega)
  simp only [e0, e1]
  csim
  bvnorm
  rfl

/-- Every lane of `vpaddlq_u16` is the exact sum of two adjacent lanes. -/
theorem vpaddlq_u16_exact [Dialect] (a : uint16x8_t) :
    ∃ r, vpaddlq_u16 a = .ok r ∧ ∀ i, ((r.lane i).toNat : Int) = ((a[2 * i.val]).toNat : Int) + (a[2 * i.val + 1]).toNat := by
  refine ⟨_, vpaddlq_u16_spec a, fun i => ?_⟩
  simp only [BitVec.toNat_add, BitVec.toNat_setWidth, Elem.bits, ITy.bits]
  omega

end Verif.Props
