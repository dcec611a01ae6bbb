import Verif.Fill
import Verif.Model.Logic
/-! # Bitwise logic (C35)

Generated by `tools/gen_props.py`. -/

set_option linter.unusedSimpArgs false
set_option linter.unusedVariables false

namespace Verif.Props
open Verif.Model Verif.Spec

/-- `vand_s8` acts bit by bit. -/
theorem vand_s8_spec (a b : int8x8_t) :
    vand_s8 a b = .ok ⟨fun i => a.lane i &&& b.lane i⟩ := by
  unfold vand_s8
  refine fill_ok (by rfl) _ fun i D => ?_
  csim
  bitnorm

/-- `vand_s16` acts bit by bit. -/
theorem vand_s16_spec (a b : int16x4_t) :
    vand_s16 a b = .ok ⟨fun i => a.lane i &&& b.lane i⟩ := by
  unfold vand_s16
  refine fill_ok (by rfl) _ fun i D => ?_
  csim
  bitnorm

/-- `vand_s32` acts bit by bit. -/
theorem vand_s32_spec (a b : int32x2_t) :
    vand_s32 a b = .ok ⟨fun i => a.lane i &&& b.lane i⟩ := by
  unfold vand_s32
  refine fill_ok (by rfl) _ fun i D => ?_
  csim
  bitnorm

/-- `vand_s64` acts bit by bit. -/
theorem vand_s64_spec (a b : int64x1_t) :
    vand_s64 a b = .ok ⟨fun i => a.lane i &&& b.lane i⟩ := by
  unfold vand_s64
  refine fill_ok (by rfl) _ fun i D => ?_
  csim
  bitnorm

/-- `vand_u8` acts bit by bit. -/
theorem vand_u8_spec (a b : uint8x8_t) :
    vand_u8 a b = .ok ⟨fun i => a.lane i &&& b.lane i⟩ := by
  unfold vand_u8
  refine fill_ok (by rfl) _ fun i D => ?_
  csim
  bitnorm

/-- `vand_u16` acts bit by bit. -/
theorem vand_u16_spec (a b : uint16x4_t) :
    vand_u16 a b = .ok ⟨fun i => a.lane i &&& b.lane i⟩ := by
  unfold vand_u16
  refine fill_ok (by rfl) _ fun i D => ?_
  csim
  bitnorm

/-- `vand_u32` acts bit by bit. -/
theorem vand_u32_spec (a b : uint32x2_t) :
    vand_u32 a b = .ok ⟨fun i => a.lane i &&& b.lane i⟩ := by
  unfold vand_u32
  refine fill_ok (by rfl) _ fun i D => ?_
  csim
  bitnorm

/-- `vand_u64` acts bit by bit. -/
theorem vand_u64_spec (a b : uint64x1_t) :
    vand_u64 a b = .ok ⟨fun i => a.lane i &&& b.lane i⟩ := by
  unfold vand_u64
  refine fill_ok (by rfl) _ fun i D => ?_
  csim
  bitnorm

/-- `vandq_s8` acts bit by bit. -/
theorem vandq_s8_spec (a b : int8x16_t) :
    vandq_s8 a b = .ok ⟨fun i => a.lane i &&& b.lane i⟩ := by
  unfold vandq_s8
  refine fill_ok (by rfl) _ fun i D => ?_
  csim
  bitnorm

/-- `vandq_s16` acts bit by bit. -/
theorem vandq_s16_spec (a b : int16x8_t) :
    vandq_s16 a b = .ok ⟨fun i => a.lane i &&& b.lane i⟩ := by
  unfold vandq_s16
  refine fill_ok (by rfl) _ fun i D => ?_
  csim
  bitnorm

/-- `vandq_s32` acts bit by bit. -/
theorem vandq_s32_spec (a b : int32x4_t) :
    vandq_s32 a b = .ok ⟨fun i => a.lane i &&& b.lane i⟩ := by
  unfold vandq_s32
  refine fill_ok (by rfl) _ fun i D => ?_
  csim
  bitnorm

/-- `vandq_s64` acts bit by bit. -/
theorem vandq_s64_spec (a b : int64x2_t) :
    vandq_s64 a b = .ok ⟨fun i => a.lane i &&& b.lane i⟩ := by
  unfold vandq_s64
  refine fill_ok (by rfl) _ fun i D => ?_
  csim
  bitnorm

/-- `vandq_u8` acts bit by bit. -/
theorem vandq_u8_spec (a b : uint8x16_t) :
    vandq_u8 a b = .ok ⟨fun i => a.lane i &&& b.lane i⟩ := by
  unfold vandq_u8
  refine fill_ok (by rfl) _ fun i D => ?_
  csim
  bitnorm

/-- `vandq_u16` acts bit by bit. -/
theorem vandq_u16_spec (a b : uint16x8_t) :
    vandq_u16 a b = .ok ⟨fun i => a.lane i &&& b.lane i⟩ := by
  unfold vandq_u16
  refine fill_ok (by rfl) _ fun i D => ?_
  csim
  bitnorm

/-- `vandq_u32` acts bit by bit. -/
theorem vandq_u32_spec (a b : uint32x4_t) :
    vandq_u32 a b = .ok ⟨fun i => a.lane i &&& b.lane i⟩ := by
  unfold vandq_u32
  refine fill_ok (by rfl) _ fun i D => ?_
  csim
  bitnorm

/-- `vandq_u64` acts bit by bit. -/
theorem vandq_u64_spec (a b : uint64x2_t) :
    vandq_u64 a b = .ok ⟨fun i => a.lane i &&& b.lane i⟩ := by
  unfold vandq_u64
  refine fill_ok (by rfl) _ fun i D => ?_
  csim
  bitnorm

/-- `vorr_s8` acts bit by bit. -/
theorem vorr_s8_spec (a b : int8x8_t) :
    vorr_s8 a b = .ok ⟨fun i => a.lane i ||| b.lane i⟩ := by
  unfold vorr_s8
  refine fill_ok (by rfl) _ fun i D => ?_
  csim
  bitnorm

/-- `vorr_s16` acts bit by bit. -/
theorem vorr_s16_spec (a b : int16x4_t) :
    vorr_s16 a b = .ok ⟨fun i => a.lane i ||| b.lane i⟩ := by
  unfold vorr_s16
  refine fill_ok (by rfl) _ fun i D => ?_
  csim
  bitnorm

/-- `vorr_s32` acts bit by bit. -/
theorem vorr_s32_spec (a b : int32x2_t) :
    vorr_s32 a b = .ok ⟨fun i => a.lane i ||| b.lane i⟩ := by
  unfold vorr_s32
  refine fill_ok (by rfl) _ fun i D => ?_
  csim
  bitnorm

/-- `vorr_s64` acts bit by bit. -/
theorem vorr_s64_spec (a b : int64x1_t) :
    vorr_s64 a b = .ok ⟨fun i => a.lane i ||| b.lane i⟩ := by
  unfold vorr_s64
  refine fill_ok (by rfl) _ fun i D => ?_
  csim
  bitnorm

/-- `vorr_u8` acts bit by bit. -/
theorem vorr_u8_spec (a b : uint8x8_t) :
    vorr_u8 a b = .ok ⟨fun i => a.lane i ||| b.lane i⟩ := by
  unfold vorr_u8
  refine fill_ok (by rfl) _ fun i D => ?_
  csim
  bitnorm

/-- `vorr_u16` acts bit by bit. -/
theorem vorr_u16_spec (a b : uint16x4_t) :
    vorr_u16 a b = .ok ⟨fun i => a.lane i ||| b.lane i⟩ := by
  unfold vorr_u16
  refine fill_ok (by rfl) _ fun i D => ?_
  csim
  bitnorm

/-- `vorr_u32` acts bit by bit. -/
theorem vorr_u32_spec (a b : uint32x2_t) :
    vorr_u32 a b = .ok ⟨fun i => a.lane i ||| b.lane i⟩ := by
  unfold vorr_u32
  refine fill_ok (by rfl) _ fun i D => ?_
  csim
  bitnorm

/-- `vorr_u64` acts bit by bit. -/
theorem vorr_u64_spec (a b : uint64x1_t) :
    vorr_u64 a b = .ok ⟨fun i => a.lane i ||| b.lane i⟩ := by
  unfold vorr_u64
  refine fill_ok (by rfl) _ fun i D => ?_
  csim
  bitnorm

/-- `vorrq_s8` acts bit by bit. -/
theorem vorrq_s8_spec (a b : int8x16_t) :
    vorrq_s8 a b = .ok ⟨fun i => a.lane i ||| b.lane i⟩ := by
  unfold vorrq_s8
  refine fill_ok (by rfl) _ fun i D => ?_
  csim
  bitnorm

/-- `vorrq_s16` acts bit by bit. -/
theorem vorrq_s16_spec (a b : int16x8_t) :
    vorrq_s16 a b = .ok ⟨fun i => a.lane i ||| b.lane i⟩ := by
  unfold vorrq_s16
  refine fill_ok (by rfl) _ fun i D => ?_
  csim
  bitnorm

/-- `vorrq_s32` acts bit by bit. -/
theorem vorrq_s32_spec (a b : int32x4_t) :
    vorrq_s32 a b = .ok ⟨fun i => a.lane i ||| b.lane i⟩ := by
  unfold vorrq_s32
  refine fill_ok (by rfl) _ fun i D => ?_
  csim
  bitnorm

/-- `vorrq_s64` acts bit by bit. -/
theorem vorrq_s64_spec (a b : int64x2_t) :
    vorrq_s64 a b = .ok ⟨fun i => a.lane i ||| b.lane i⟩ := by
  unfold vorrq_s64
  refine fill_ok (by rfl) _ fun i D => ?_
  csim
  bitnorm

/-- `vorrq_u8` acts bit by bit. -/
theorem vorrq_u8_spec (a b : uint8x16_t) :
    vorrq_u8 a b = .ok ⟨fun i => a.lane i ||| b.lane i⟩ := by
  unfold vorrq_u8
  refine fill_ok (by rfl) _ fun i D => ?_
  csim
  bitnorm

/-- `vorrq_u16` acts bit by bit. -/
theorem vorrq_u16_spec (a b : uint16x8_t) :
    vorrq_u16 a b = .ok ⟨fun i => a.lane i ||| b.lane i⟩ := by
  unfold vorrq_u16
  refine fill_ok (by rfl) _ fun i D => ?_
  csim
  bitnorm

/-- `vorrq_u32` acts bit by bit. -/
theorem vorrq_u32_spec (a b : uint32x4_t) :
    vorrq_u32 a b = .ok ⟨fun i => a.lane i ||| b.lane i⟩ := by
  unfold vorrq_u32
  refine fill_ok (by rfl) _ fun i D => ?_
  csim
  bitnorm

/-- `vorrq_u64` acts bit by bit. -/
theorem vorrq_u64_spec (a b : uint64x2_t) :
    vorrq_u64 a b = .ok ⟨fun i => a.lane i ||| b.lane i⟩ := by
  unfold vorrq_u64
  refine fill_ok (by rfl) _ fun i D => ?_
  csim
  bitnorm

/-- `veor_s8` acts bit by bit. -/
theorem veor_s8_spec (a b : int8x8_t) :
    veor_s8 a b = .ok ⟨fun i => a.lane i ^^^ b.lane i⟩ := by
  unfold veor_s8
  refine fill_ok (by rfl) _ fun i D => ?_
  csim
  bitnorm

/-- `veor_s16` acts bit by bit. -/
theorem veor_s16_spec (a b : int16x4_t) :
    veor_s16 a b = .ok ⟨fun i => a.lane i ^^^ b.lane i⟩ := by
  unfold veor_s16
  refine fill_ok (by rfl) _ fun i D => ?_
  csim
  bitnorm

/-- `veor_s32` acts bit by bit. -/
theorem veor_s32_spec (a b : int32x2_t) :
    veor_s32 a b = .ok ⟨fun i => a.lane i ^^^ b.lane i⟩ := by
  unfold veor_s32
  refine fill_ok (by rfl) _ fun i D => ?_
  csim
  bitnorm

/-- `veor_s64` acts bit by bit. -/
theorem veor_s64_spec (a b : int64x1_t) :
    veor_s64 a b = .ok ⟨fun i => a.lane i ^^^ b.lane i⟩ := by
  unfold veor_s64
  refine fill_ok (by rfl) _ fun i D => ?_
  csim
  bitnorm

/-- `veor_u8` acts bit by bit. -/
theorem veor_u8_spec (a b : uint8x8_t) :
    veor_u8 a b = .ok ⟨fun i => a.lane i ^^^ b.lane i⟩ := by
  unfold veor_u8
  refine fill_ok (by rfl) _ fun i D => ?_
  csim
  bitnorm

/-- `veor_u16` acts bit by bit. -/
theorem veor_u16_spec (a b : uint16x4_t) :
    veor_u16 a b = .ok ⟨fun i => a.lane i ^^^ b.lane i⟩ := by
  unfold veor_u16
  refine fill_ok (by rfl) _ fun i D => ?_
  csim
  bitnorm

/-- `ver_u32` acts bit by bit. -/
theorem ver_u32_spec (a b : uint32x2_t) :
    ver_u32 a b = .ok ⟨fun i => a.lane i ^^^ b.lane i⟩ := by
  unfold ver_u32
  refine fill_ok (by rfl) _ fun i D => ?_
  csim
  bitnorm

/-- `veor_u64` acts bit by bit. -/
theorem veor_u64_spec (a b : uint64x1_t) :
    veor_u64 a b = .ok ⟨fun i => a.lane i ^^^ b.lane i⟩ := by
  unfold veor_u64
  refine fill_ok (by rfl) _ fun i D => ?_
  csim
  bitnorm

/-- `veorq_s8` acts bit by bit. -/
theorem veorq_s8_spec (a b : int8x16_t) :
    veorq_s8 a b = .ok ⟨fun i => a.lane i ^^^ b.lane i⟩ := by
  unfold veorq_s8
  refine fill_ok (by rfl) _ fun i D => ?_
  csim
  bitnorm

/-- `veorq_s16` acts bit by bit. -/
theorem veorq_s16_spec (a b : int16x8_t) :
    veorq_s16 a b = .ok ⟨fun i => a.lane i ^^^ b.lane i⟩ := by
  unfold veorq_s16
  refine fill_ok (by rfl) _ fun i D => ?_
  csim
  bitnorm

/-- `veorq_s32` acts bit by bit. -/
theorem veorq_s32_spec (a b : int32x4_t) :
    veorq_s32 a b = .ok ⟨fun i => a.lane i ^^^ b.lane i⟩ := by
  unfold veorq_s32
  refine fill_ok (by rfl) _ fun i D => ?_
  csim
  bitnorm

/-- `veorq_s64` acts bit by bit. -/
theorem veorq_s64_spec (a b : int64x2_t) :
    veorq_s64 a b = .ok ⟨fun i => a.lane i ^^^ b.lane i⟩ := by
  unfold veorq_s64
  refine fill_ok (by rfl) _ fun i D => ?_
  csim
  bitnorm

/-- `veorq_u8` acts bit by bit. -/
theorem veorq_u8_spec (a b : uint8x16_t) :
    veorq_u8 a b = .ok ⟨fun i => a.lane i ^^^ b.lane i⟩ := by
  unfold veorq_u8
  refine fill_ok (by rfl) _ fun i D => ?_
  csim
  bitnorm

/-- `veorq_u16` acts bit by bit. -/
theorem veorq_u16_spec (a b : uint16x8_t) :
    veorq_u16 a b = .ok ⟨fun i => a.lane i ^^^ b.lane i⟩ := by
  unfold veorq_u16
  refine fill_ok (by rfl) _ fun i D => ?_
  csim
  bitnorm

/-- `veorq_u32` acts bit by bit. -/
theorem veorq_u32_spec (a b : uint32x4_t) :
    veorq_u32 a b = .ok ⟨fun i => a.lane i ^^^ b.lane i⟩ := by
  unfold veorq_u32
  refine fill_ok (by rfl) _ fun i D => ?_
  csim
  bitnorm

/-- `veorq_u64` acts bit by bit. -/
theorem veorq_u64_spec (a b : uint64x2_t) :
    veorq_u64 a b = .ok ⟨fun i => a.lane i ^^^ b.lane i⟩ := by
  unfold veorq_u64
  refine fill_ok (by rfl) _ fun i D => ?_
  csim
  bitnorm

/-- `vmvn_s8` complements every bit. -/
theorem vmvn_s8_spec (a : int8x8_t) :
    vmvn_s8 a = .ok ⟨fun i => ~~~ (a.lane i)⟩ := by
  unfold vmvn_s8
  refine fill_ok (by rfl) _ fun i D => ?_
  csim
  bitnorm

/-- `vmvn_s8` undoes itself. -/
theorem vmvn_s8_involutive (a : int8x8_t) :
    (vmvn_s8 a >>= vmvn_s8) = .ok a := by
  rw [vmvn_s8_spec, ok_bind, vmvn_s8_spec]
  congr 1
  ext i : 2
  exact BitVec.not_not

/-- De Morgan: `vmvn_s8` of `vand_s8` is `vorr_s8` of the complements. -/
theorem vmvn_s8_vand (a b : int8x8_t) :
    (vand_s8 a b >>= vmvn_s8) = (do vorr_s8 (← vmvn_s8 a) (← vmvn_s8 b)) := by
  rw [vand_s8_spec, ok_bind, vmvn_s8_spec, vmvn_s8_spec, vmvn_s8_spec, ok_bind, ok_bind, vorr_s8_spec]
  congr 1
  ext i : 2
  exact BitVec.not_and

/-- De Morgan: `vmvn_s8` of `vorr_s8` is `vand_s8` of the complements. -/
theorem vmvn_s8_vorr (a b : int8x8_t) :
    (vorr_s8 a b >>= vmvn_s8) = (do vand_s8 (← vmvn_s8 a) (← vmvn_s8 b)) := by
  rw [vorr_s8_spec, ok_bind, vmvn_s8_spec, vmvn_s8_spec, vmvn_s8_spec, ok_bind, ok_bind, vand_s8_spec]
  congr 1
  ext i : 2
  exact BitVec.not_or

/-- `vmvn_s16` complements every bit. -/
theorem vmvn_s16_spec (a : int16x4_t) :
    vmvn_s16 a = .ok ⟨fun i => ~~~ (a.lane i)⟩ := by
  unfold vmvn_s16
  refine fill_ok (by rfl) _ fun i D => ?_
  csim
  bitnorm

/-- `vmvn_s16` undoes itself. -/
theorem vmvn_s16_involutive (a : int16x4_t) :
    (vmvn_s16 a >>= vmvn_s16) = .ok a := by
  rw [vmvn_s16_spec, ok_bind, vmvn_s16_spec]
  congr 1
  ext i : 2
  exact BitVec.not_not

/-- De Morgan: `vmvn_s16` of `vand_s16` is `vorr_s16` of the complements. -/
theorem vmvn_s16_vand (a b : int16x4_t) :
    (vand_s16 a b >>= vmvn_s16) = (do vorr_s16 (← vmvn_s16 a) (← vmvn_s16 b)) := by
  rw [vand_s16_spec, ok_bind, vmvn_s16_spec, vmvn_s16_spec, vmvn_s16_spec, ok_bind, ok_bind, vorr_s16_spec]
  congr 1
  ext i : 2
  exact BitVec.not_and

/-- De Morgan: `vmvn_s16` of `vorr_s16` is `vand_s16` of the complements. -/
theorem vmvn_s16_vorr (a b : int16x4_t) :
    (vorr_s16 a b >>= vmvn_s16) = (do vand_s16 (← vmvn_s16 a) (← vmvn_s16 b)) := by
  rw [vorr_s16_spec, ok_bind, vmvn_s16_spec, vmvn_s16_spec, vmvn_s16_spec, ok_bind, ok_bind, vand_s16_spec]
  congr 1
  ext i : 2
  exact BitVec.not_or

/-- `vmvn_s32` complements every bit. -/
theorem vmvn_s32_spec (a : int32x2_t) :
    vmvn_s32 a = .ok ⟨fun i => ~~~ (a.lane i)⟩ := by
  unfold vmvn_s32
  refine fill_ok (by rfl) _ fun i D => ?_
  csim
  bitnorm

/-- `vmvn_s32` undoes itself. -/
theorem vmvn_s32_involutive (a : int32x2_t) :
    (vmvn_s32 a >>= vmvn_s32) = .ok a := by
  rw [vmvn_s32_spec, ok_bind, vmvn_s32_spec]
  congr 1
  ext i : 2
  exact BitVec.not_not

/-- De Morgan: `vmvn_s32` of `vand_s32` is `vorr_s32` of the complements. -/
theorem vmvn_s32_vand (a b : int32x2_t) :
    (vand_s32 a b >>= vmvn_s32) = (do vorr_s32 (← vmvn_s32 a) (← vmvn_s32 b)) := by
  rw [vand_s32_spec, ok_bind, vmvn_s32_spec, vmvn_s32_spec, vmvn_s32_spec, ok_bind, ok_bind, vorr_s32_spec]
  congr 1
  ext i : 2
  exact BitVec.not_and

/-- De Morgan: `vmvn_s32` of `vorr_s32` is `vand_s32` of the complements. -/
theorem vmvn_s32_vorr (a b : int32x2_t) :
    (vorr_s32 a b >>= vmvn_s32) = (do vand_s32 (← vmvn_s32 a) (← vmvn_s32 b)) := by
  rw [vorr_s32_spec, ok_bind, vmvn_s32_spec, vmvn_s32_spec, vmvn_s32_spec, ok_bind, ok_bind, vand_s32_spec]
  congr 1
  ext i : 2
  exact BitVec.not_or

/-- `vmvn_u8` complements every bit. -/
theorem vmvn_u8_spec (a : uint8x8_t) :
    vmvn_u8 a = .ok ⟨fun i => ~~~ (a.lane i)⟩ := by
  unfold vmvn_u8
  refine fill_ok (by rfl) _ fun i D => ?_
  csim
  bitnorm

/-- `vmvn_u8` undoes itself. -/
theorem vmvn_u8_involutive (a : uint8x8_t) :
    (vmvn_u8 a >>= vmvn_u8) = .ok a := by
  rw [vmvn_u8_spec, ok_bind, vmvn_u8_spec]
  congr 1
  ext i : 2
  exact BitVec.not_not

/-- De Morgan: `vmvn_u8` of `vand_u8` is `vorr_u8` of the complements. -/
theorem vmvn_u8_vand (a b : uint8x8_t) :
    (vand_u8 a b >>= vmvn_u8) = (do vorr_u8 (← vmvn_u8 a) (← vmvn_u8 b)) := by
  rw [vand_u8_spec, ok_bind, vmvn_u8_spec, vmvn_u8_spec, vmvn_u8_spec, ok_bind, ok_bind, vorr_u8_spec]
  congr 1
  ext i : 2
  exact BitVec.not_and

/-- De Morgan: `vmvn_u8` of `vorr_u8` is `vand_u8` of the complements. -/
theorem vmvn_u8_vorr (a b : uint8x8_t) :
    (vorr_u8 a b >>= vmvn_u8) = (do vand_u8 (← vmvn_u8 a) (← vmvn_u8 b)) := by
  rw [vorr_u8_spec, ok_bind, vmvn_u8_spec, vmvn_u8_spec, vmvn_u8_spec, ok_bind, ok_bind, vand_u8_spec]
  congr 1
  ext i : 2
  exact BitVec.not_or

/-- `vmvn_u16` complements every bit. -/
theorem vmvn_u16_spec (a : uint16x4_t) :
    vmvn_u16 a = .ok ⟨fun i => ~~~ (a.lane i)⟩ := by
  unfold vmvn_u16
  refine fill_ok (by rfl) _ fun i D => ?_
  csim
  bitnorm

/-- `vmvn_u16` undoes itself. -/
theorem vmvn_u16_involutive (a : uint16x4_t) :
    (vmvn_u16 a >>= vmvn_u16) = .ok a := by
  rw [vmvn_u16_spec, ok_bind, vmvn_u16_spec]
  congr 1
  ext i : 2
  exact BitVec.not_not

/-- De Morgan: `vmvn_u16` of `vand_u16` is `vorr_u16` of the complements. -/
theorem vmvn_u16_vand (a b : uint16x4_t) :
    (vand_u16 a b >>= vmvn_u16) = (do vorr_u16 (← vmvn_u16 a) (← vmvn_u16 b)) := by
  rw [vand_u16_spec, ok_bind, vmvn_u16_spec, vmvn_u16_spec, vmvn_u16_spec, ok_bind, ok_bind, vorr_u16_spec]
  congr 1
  ext i : 2
  exact BitVec.not_and

/-- De Morgan: `vmvn_u16` of `vorr_u16` is `vand_u16` of the complements. -/
theorem vmvn_u16_vorr (a b : uint16x4_t) :
    (vorr_u16 a b >>= vmvn_u16) = (do vand_u16 (← vmvn_u16 a) (← vmvn_u16 b)) := by
  rw [vorr_u16_spec, ok_bind, vmvn_u16_spec, vmvn_u16_spec, vmvn_u16_spec, ok_bind, ok_bind, vand_u16_spec]
  congr 1
  ext i : 2
  exact BitVec.not_or

/-- `vmvn_u32` complements every bit. -/
theorem vmvn_u32_spec (a : uint32x2_t) :
    vmvn_u32 a = .ok ⟨fun i => ~~~ (a.lane i)⟩ := by
  unfold vmvn_u32
  refine fill_ok (by rfl) _ fun i D => ?_
  csim
  bitnorm

/-- `vmvn_u32` undoes itself. -/
theorem vmvn_u32_involutive (a : uint32x2_t) :
    (vmvn_u32 a >>= vmvn_u32) = .ok a := by
  rw [vmvn_u32_spec, ok_bind, vmvn_u32_spec]
  congr 1
  ext i : 2
  exact BitVec.not_not

/-- De Morgan: `vmvn_u32` of `vand_u32` is `vorr_u32` of the complements. -/
theorem vmvn_u32_vand (a b : uint32x2_t) :
    (vand_u32 a b >>= vmvn_u32) = (do vorr_u32 (← vmvn_u32 a) (← vmvn_u32 b)) := by
  rw [vand_u32_spec, ok_bind, vmvn_u32_spec, vmvn_u32_spec, vmvn_u32_spec, ok_bind, ok_bind, vorr_u32_spec]
  congr 1
  ext i : 2
  exact BitVec.not_and

/-- De Morgan: `vmvn_u32` of `vorr_u32` is `vand_u32` of the complements. -/
theorem vmvn_u32_vorr (a b : uint32x2_t) :
    (vorr_u32 a b >>= vmvn_u32) = (do vand_u32 (← vmvn_u32 a) (← vmvn_u32 b)) := by
  rw [vorr_u32_spec, ok_bind, vmvn_u32_spec, vmvn_u32_spec, vmvn_u32_spec, ok_bind, ok_bind, vand_u32_spec]
  congr 1
  ext i : 2
  exact BitVec.not_or

/-- `vmvnq_s8` complements every bit. -/
theorem vmvnq_s8_spec (a : int8x16_t) :
    vmvnq_s8 a = .ok ⟨fun i => ~~~ (a.lane i)⟩ := by
  unfold vmvnq_s8
  refine fill_ok (by rfl) _ fun i D => ?_
  csim
  bitnorm

/-- `vmvnq_s8` undoes itself. -/
theorem vmvnq_s8_involutive (a : int8x16_t) :
    (vmvnq_s8 a >>= vmvnq_s8) = .ok a := by
  rw [vmvnq_s8_spec, ok_bind, vmvnq_s8_spec]
  congr 1
  ext i : 2
  exact BitVec.not_not

/-- De Morgan: `vmvnq_s8` of `vandq_s8` is `vorrq_s8` of the complements. -/
theorem vmvnq_s8_vand (a b : int8x16_t) :
    (vandq_s8 a b >>= vmvnq_s8) = (do vorrq_s8 (← vmvnq_s8 a) (← vmvnq_s8 b)) := by
  rw [vandq_s8_spec, ok_bind, vmvnq_s8_spec, vmvnq_s8_spec, vmvnq_s8_spec, ok_bind, ok_bind, vorrq_s8_spec]
  congr 1
  ext i : 2
  exact BitVec.not_and

/-- De Morgan: `vmvnq_s8` of `vorrq_s8` is `vandq_s8` of the complements. -/
theorem vmvnq_s8_vorr (a b : int8x16_t) :
    (vorrq_s8 a b >>= vmvnq_s8) = (do vandq_s8 (← vmvnq_s8 a) (← vmvnq_s8 b)) := by
  rw [vorrq_s8_spec, ok_bind, vmvnq_s8_spec, vmvnq_s8_spec, vmvnq_s8_spec, ok_bind, ok_bind, vandq_s8_spec]
  congr 1
  ext i : 2
  exact BitVec.not_or

/-- `vmvnq_s16` complements every bit. -/
theorem vmvnq_s16_spec (a : int16x8_t) :
    vmvnq_s16 a = .ok ⟨fun i => ~~~ (a.lane i)⟩ := by
  unfold vmvnq_s16
  refine fill_ok (by rfl) _ fun i D => ?_
  csim
  bitnorm

/-- `vmvnq_s16` undoes itself. -/
theorem vmvnq_s16_involutive (a : int16x8_t) :
    (vmvnq_s16 a >>= vmvnq_s16) = .ok a := by
  rw [vmvnq_s16_spec, ok_bind, vmvnq_s16_spec]
  congr 1
  ext i : 2
  exact BitVec.not_not

/-- De Morgan: `vmvnq_s16` of `vandq_s16` is `vorrq_s16` of the complements. -/
theorem vmvnq_s16_vand (a b : int16x8_t) :
    (vandq_s16 a b >>= vmvnq_s16) = (do vorrq_s16 (← vmvnq_s16 a) (← vmvnq_s16 b)) := by
  rw [vandq_s16_spec, ok_bind, vmvnq_s16_spec, vmvnq_s16_spec, vmvnq_s16_spec, ok_bind, ok_bind, vorrq_s16_spec]
  congr 1
  ext i : 2
  exact BitVec.not_and

/-- De Morgan: `vmvnq_s16` of `vorrq_s16` is `vandq_s16` of the complements. -/
theorem vmvnq_s16_vorr (a b : int16x8_t) :
    (vorrq_s16 a b >>= vmvnq_s16) = (do vandq_s16 (← vmvnq_s16 a) (← vmvnq_s16 b)) := by
  rw [vorrq_s16_spec, ok_bind, vmvnq_s16_spec, vmvnq_s16_spec, vmvnq_s16_spec, ok_bind, ok_bind, vandq_s16_spec]
  congr 1
  ext i : 2
  exact BitVec.not_or

/-- `vmvnq_s32` complements every bit. -/
theorem vmvnq_s32_spec (a : int32x4_t) :
    vmvnq_s32 a = .ok ⟨fun i => ~~~ (a.lane i)⟩ := by
  unfold vmvnq_s32
  refine fill_ok (by rfl) _ fun i D => ?_
  csim
  bitnorm

/-- `vmvnq_s32` undoes itself. -/
theorem vmvnq_s32_involutive (a : int32x4_t) :
    (vmvnq_s32 a >>= vmvnq_s32) = .ok a := by
  rw [vmvnq_s32_spec, ok_bind, vmvnq_s32_spec]
  congr 1
  ext i : 2
  exact BitVec.not_not

/-- De Morgan: `vmvnq_s32` of `vandq_s32` is `vorrq_s32` of the complements. -/
theorem vmvnq_s32_vand (a b : int32x4_t) :
    (vandq_s32 a b >>= vmvnq_s32) = (do vorrq_s32 (← vmvnq_s32 a) (← vmvnq_s32 b)) := by
  rw [vandq_s32_spec, ok_bind, vmvnq_s32_spec, vmvnq_s32_spec, vmvnq_s32_spec, ok_bind, ok_bind, vorrq_s32_spec]
  congr 1
  ext i : 2
  exact BitVec.not_and

/-- De Morgan: `vmvnq_s32` of `vorrq_s32` is `vandq_s32` of the complements. -/
theorem vmvnq_s32_vorr (a b : int32x4_t) :
    (vorrq_s32 a b >>= vmvnq_s32) = (do vandq_s32 (← vmvnq_s32 a) (← vmvnq_s32 b)) := by
  rw [vorrq_s32_spec, ok_bind, vmvnq_s32_spec, vmvnq_s32_spec, vmvnq_s32_spec, ok_bind, ok_bind, vandq_s32_spec]
  congr 1
  ext i : 2
  exact BitVec.not_or

/-- `vmvnq_u8` complements every bit. -/
theorem vmvnq_u8_spec (a : uint8x16_t) :
    vmvnq_u8 a = .ok ⟨fun i => ~~~ (a.lane i)⟩ := by
  unfold vmvnq_u8
  refine fill_ok (by rfl) _ fun i D => ?_
  csim
  bitnorm

/-- `vmvnq_u8` undoes itself. -/
theorem vmvnq_u8_involutive (a : uint8x16_t) :
    (vmvnq_u8 a >>= vmvnq_u8) = .ok a := by
  rw [vmvnq_u8_spec, ok_bind, vmvnq_u8_spec]
  congr 1
  ext i : 2
  exact BitVec.not_not

/-- De Morgan: `vmvnq_u8` of `vandq_u8` is `vorrq_u8` of the complements. -/
theorem vmvnq_u8_vand (a b : uint8x16_t) :
    (vandq_u8 a b >>= vmvnq_u8) = (do vorrq_u8 (← vmvnq_u8 a) (← vmvnq_u8 b)) := by
  rw [vandq_u8_spec, ok_bind, vmvnq_u8_spec, vmvnq_u8_spec, vmvnq_u8_spec, ok_bind, ok_bind, vorrq_u8_spec]
  congr 1
  ext i : 2
  exact BitVec.not_and

/-- De Morgan: `vmvnq_u8` of `vorrq_u8` is `vandq_u8` of the complements. -/
theorem vmvnq_u8_vorr (a b : uint8x16_t) :
    (vorrq_u8 a b >>= vmvnq_u8) = (do vandq_u8 (← vmvnq_u8 a) (← vmvnq_u8 b)) := by
  rw [vorrq_u8_spec, ok_bind, vmvnq_u8_spec, vmvnq_u8_spec, vmvnq_u8_spec, ok_bind, ok_bind, vandq_u8_spec]
  congr 1
  ext i : 2
  exact BitVec.not_or

/-- `vmvnq_u16` complements every bit. -/
theorem vmvnq_u16_spec (a : uint16x8_t) :
    vmvnq_u16 a = .ok ⟨fun i => ~~~ (a.lane i)⟩ := by
  unfold vmvnq_u16
  refine fill_ok (by rfl) _ fun i D => ?_
  csim
  bitnorm

/-- `vmvnq_u16` undoes itself. -/
theorem vmvnq_u16_involutive (a : uint16x8_t) :
    (vmvnq_u16 a >>= vmvnq_u16) = .ok a := by
  rw [vmvnq_u16_spec, ok_bind, vmvnq_u16_spec]
  congr 1
  ext i : 2
  exact BitVec.not_not

/-- De Morgan: `vmvnq_u16` of `vandq_u16` is `vorrq_u16` of the complements. -/
theorem vmvnq_u16_vand (a b : uint16x8_t) :
    (vandq_u16 a b >>= vmvnq_u16) = (do vorrq_u16 (← vmvnq_u16 a) (← vmvnq_u16 b)) := by
  rw [vandq_u16_spec, ok_bind, vmvnq_u16_spec, vmvnq_u16_spec, vmvnq_u16_spec, ok_bind, ok_bind, vorrq_u16_spec]
  congr 1
  ext i : 2
  exact BitVec.not_and

/-- De Morgan: `vmvnq_u16` of `vorrq_u16` is `vandq_u16` of the complements. -/
theorem vmvnq_u16_vorr (a b : uint16x8_t) :
    (vorrq_u16 a b >>= vmvnq_u16) = (do vandq_u16 (← vmvnq_u16 a) (← vmvnq_u16 b)) := by
  rw [vorrq_u16_spec, ok_bind, vmvnq_u16_spec, vmvnq_u16_spec, vmvnq_u16_spec, ok_bind, ok_bind, vandq_u16_spec]
  congr 1
  ext i : 2
  exact BitVec.not_or

/-- `vmvnq_u32` complements every bit. -/
theorem vmvnq_u32_spec (a : uint32x4_t) :
    vmvnq_u32 a = .ok ⟨fun i => ~~~ (a.lane i)⟩ := by
  unfold vmvnq_u32
  refine fill_ok (by rfl) _ fun i D => ?_
  csim
  bitnorm

/-- `vmvnq_u32` undoes itself. -/
theorem vmvnq_u32_involutive (a : uint32x4_t) :
    (vmvnq_u32 a >>= vmvnq_u32) = .ok a := by
  rw [vmvnq_u32_spec, ok_bind, vmvnq_u32_spec]
  congr 1
  ext i : 2
  exact BitVec.not_not

/-- De Morgan: `vmvnq_u32` of `vandq_u32` is `vorrq_u32` of the complements. -/
theorem vmvnq_u32_vand (a b : uint32x4_t) :
    (vandq_u32 a b >>= vmvnq_u32) = (do vorrq_u32 (← vmvnq_u32 a) (← vmvnq_u32 b)) := by
  rw [vandq_u32_spec, ok_bind, vmvnq_u32_spec, vmvnq_u32_spec, vmvnq_u32_spec, ok_bind, ok_bind, vorrq_u32_spec]
  congr 1
  ext i : 2
  exact BitVec.not_and

/-- De Morgan: `vmvnq_u32` of `vorrq_u32` is `vandq_u32` of the complements. -/
theorem vmvnq_u32_vorr (a b : uint32x4_t) :
    (vorrq_u32 a b >>= vmvnq_u32) = (do vandq_u32 (← vmvnq_u32 a) (← vmvnq_u32 b)) := by
  rw [vorrq_u32_spec, ok_bind, vmvnq_u32_spec, vmvnq_u32_spec, vmvnq_u32_spec, ok_bind, ok_bind, vandq_u32_spec]
  congr 1
  ext i : 2
  exact BitVec.not_or

/-- `veor_s8` with the same operand twice gives the original register. -/
theorem veor_s8_cancel (a b : int8x8_t) :
    (do veor_s8 (← veor_s8 a b) b) = .ok a := by
  rw [veor_s8_spec, ok_bind, veor_s8_spec]
  congr 1
  ext i : 2
  show (a.lane i ^^^ b.lane i) ^^^ b.lane i = _
  rw [BitVec.xor_assoc, BitVec.xor_self, BitVec.xor_zero]

/-- `veor_s16` with the same operand twice gives the original register. -/
theorem veor_s16_cancel (a b : int16x4_t) :
    (do veor_s16 (← veor_s16 a b) b) = .ok a := by
  rw [veor_s16_spec, ok_bind, veor_s16_spec]
  congr 1
  ext i : 2
  show (a.lane i ^^^ b.lane i) ^^^ b.lane i = _
  rw [BitVec.xor_assoc, BitVec.xor_self, BitVec.xor_zero]

/-- `veor_s32` with the same operand twice gives the original register. -/
theorem veor_s32_cancel (a b : int32x2_t) :
    (do veor_s32 (← veor_s32 a b) b) = .ok a := by
  rw [veor_s32_spec, ok_bind, veor_s32_spec]
  congr 1
  ext i : 2
  show (a.lane i ^^^ b.lane i) ^^^ b.lane i = _
  rw [BitVec.xor_assoc, BitVec.xor_self, BitVec.xor_zero]

/-- `veor_s64` with the same operand twice gives the original register. -/
theorem veor_s64_cancel (a b : int64x1_t) :
    (do veor_s64 (← veor_s64 a b) b) = .ok a := by
  rw [veor_s64_spec, ok_bind, veor_s64_spec]
  congr 1
  ext i : 2
  show (a.lane i ^^^ b.lane i) ^^^ b.lane i = _
  rw [BitVec.xor_assoc, BitVec.xor_self, BitVec.xor_zero]

/-- `veor_u8` with the same operand twice gives the original register. -/
theorem veor_u8_cancel (a b : uint8x8_t) :
    (do veor_u8 (← veor_u8 a b) b) = .ok a := by
  rw [veor_u8_spec, ok_bind, veor_u8_spec]
  congr 1
  ext i : 2
  show (a.lane i ^^^ b.lane i) ^^^ b.lane i = _
  rw [BitVec.xor_assoc, BitVec.xor_self, BitVec.xor_zero]

/-- `veor_u16` with the same operand twice gives the original register. -/
theorem veor_u16_cancel (a b : uint16x4_t) :
    (do veor_u16 (← veor_u16 a b) b) = .ok a := by
  rw [veor_u16_spec, ok_bind, veor_u16_spec]
  congr 1
  ext i : 2
  show (a.lane i ^^^ b.lane i) ^^^ b.lane i = _
  rw [BitVec.xor_assoc, BitVec.xor_self, BitVec.xor_zero]

/-- `ver_u32` with the same operand twice gives the original register. -/
theorem ver_u32_cancel (a b : uint32x2_t) :
    (do ver_u32 (← ver_u32 a b) b) = .ok a := by
  rw [ver_u32_spec, ok_bind, ver_u32_spec]
  congr 1
  ext i : 2
  show (a.lane i ^^^ b.lane i) ^^^ b.lane i = _
  rw [BitVec.xor_assoc, BitVec.xor_self, BitVec.xor_zero]

/-- `veor_u64` with the same operand twice gives the original register. -/
theorem veor_u64_cancel (a b : uint64x1_t) :
    (do veor_u64 (← veor_u64 a b) b) = .ok a := by
  rw [veor_u64_spec, ok_bind, veor_u64_spec]
  congr 1
  ext i : 2
  show (a.lane i ^^^ b.lane i) ^^^ b.lane i = _
  rw [BitVec.xor_assoc, BitVec.xor_self, BitVec.xor_zero]

/-- `veorq_s8` with the same operand twice gives the original register. -/
theorem veorq_s8_cancel (a b : int8x16_t) :
    (do veorq_s8 (← veorq_s8 a b) b) = .ok a := by
  rw [veorq_s8_spec, ok_bind, veorq_s8_spec]
  congr 1
  ext i : 2
  show (a.lane i ^^^ b.lane i) ^^^ b.lane i = _
  rw [BitVec.xor_assoc, BitVec.xor_self, BitVec.xor_zero]

/-- `veorq_s16` with the same operand twice gives the original register. -/
theorem veorq_s16_cancel (a b : int16x8_t) :
    (do veorq_s16 (← veorq_s16 a b) b) = .ok a := by
  rw [veorq_s16_spec, ok_bind, veorq_s16_spec]
  congr 1
  ext i : 2
  show (a.lane i ^^^ b.lane i) ^^^ b.lane i = _
  rw [BitVec.xor_assoc, BitVec.xor_self, BitVec.xor_zero]

/-- `veorq_s32` with the same operand twice gives the original register. -/
theorem veorq_s32_cancel (a b : int32x4_t) :
    (do veorq_s32 (← veorq_s32 a b) b) = .ok a := by
  rw [veorq_s32_spec, ok_bind, veorq_s32_spec]
  congr 1
  ext i : 2
  show (a.lane i ^^^ b.lane i) ^^^ b.lane i = _
  rw [BitVec.xor_assoc, BitVec.xor_self, BitVec.xor_zero]

/-- `veorq_s64` with the same operand twice gives the original register. -/
theorem veorq_s64_cancel (a b : int64x2_t) :
    (do veorq_s64 (← veorq_s64 a b) b) = .ok a := by
  rw [veorq_s64_spec, ok_bind, veorq_s64_spec]
  congr 1
  ext i : 2
  show (a.lane i ^^^ b.lane i) ^^^ b.lane i = _
  rw [BitVec.xor_assoc, BitVec.xor_self, BitVec.xor_zero]

/-- `veorq_u8` with the same operand twice gives the original register. -/
theorem veorq_u8_cancel (a b : uint8x16_t) :
    (do veorq_u8 (← veorq_u8 a b) b) = .ok a := by
  rw [veorq_u8_spec, ok_bind, veorq_u8_spec]
  congr 1
  ext i : 2
  show (a.lane i ^^^ b.lane i) ^^^ b.lane i = _
  rw [BitVec.xor_assoc, BitVec.xor_self, BitVec.xor_zero]

/-- `veorq_u16` with the same operand twice gives the original register. -/
theorem veorq_u16_cancel (a b : uint16x8_t) :
    (do veorq_u16 (← veorq_u16 a b) b) = .ok a := by
  rw [veorq_u16_spec, ok_bind, veorq_u16_spec]
  congr 1
  ext i : 2
  show (a.lane i ^^^ b.lane i) ^^^ b.lane i = _
  rw [BitVec.xor_assoc, BitVec.xor_self, BitVec.xor_zero]

/-- `veorq_u32` with the same operand twice gives the original register. -/
theorem veorq_u32_cancel (a b : uint32x4_t) :
    (do veorq_u32 (← veorq_u32 a b) b) = .ok a := by
  rw [veorq_u32_spec, ok_bind, veorq_u32_spec]
  congr 1
  ext i : 2
  show (a.lane i ^^^ b.lane i) ^^^ b.lane i = _
  rw [BitVec.xor_assoc, BitVec.xor_self, BitVec.xor_zero]

/-- `veorq_u64` with the same operand twice gives the original register. -/
theorem veorq_u64_cancel (a b : uint64x2_t) :
    (do veorq_u64 (← veorq_u64 a b) b) = .ok a := by
  rw [veorq_u64_spec, ok_bind, veorq_u64_spec]
  congr 1
  ext i : 2
  show (a.lane i ^^^ b.lane i) ^^^ b.lane i = _
  rw [BitVec.xor_assoc, BitVec.xor_self, BitVec.xor_zero]

end Verif.Props
