import Verif.Fill
import Verif.Image
import Verif.Model.Convert
/-! # Reinterpretation of registers (C52)

Generated by `tools/gen_props.py`. -/

set_option linter.unusedSimpArgs false
set_option linter.unusedVariables false

namespace Verif.Props
open Verif.Model Verif.Spec

/-- `vreinterpret_u8_s8` keeps every bit of the register. -/
theorem vreinterpret_u8_s8_spec (a : int8x8_t) :
    ∃ r, vreinterpret_u8_s8 a = .ok r ∧ ∀ b, regBit r b = regBit a b := by
  unfold vreinterpret_u8_s8
  exact memcpy_all a _ (by rfl) (by rfl)

/-- `vreinterpretq_s16_u16` keeps every bit of the register. -/
theorem vreinterpretq_s16_u16_spec (a : uint16x8_t) :
    ∃ r, vreinterpretq_s16_u16 a = .ok r ∧ ∀ b, regBit r b = regBit a b := by
  unfold vreinterpretq_s16_u16
  exact memcpy_all a _ (by rfl) (by rfl)

/-- `vreinterpretq_u16_s16` keeps every bit of the register. -/
theorem vreinterpretq_u16_s16_spec (a : int16x8_t) :
    ∃ r, vreinterpretq_u16_s16 a = .ok r ∧ ∀ b, regBit r b = regBit a b := by
  unfold vreinterpretq_u16_s16
  exact memcpy_all a _ (by rfl) (by rfl)

/-- `vreinterpret_u16_u8` keeps every bit of the register. -/
theorem vreinterpret_u16_u8_spec (a : uint8x8_t) :
    ∃ r, vreinterpret_u16_u8 a = .ok r ∧ ∀ b, regBit r b = regBit a b := by
  unfold vreinterpret_u16_u8
  exact memcpy_all a _ (by rfl) (by rfl)

/-- `vreinterpret_u32_u16` keeps every bit of the register. -/
theorem vreinterpret_u32_u16_spec (a : uint16x4_t) :
    ∃ r, vreinterpret_u32_u16 a = .ok r ∧ ∀ b, regBit r b = regBit a b := by
  unfold vreinterpret_u32_u16
  exact memcpy_all a _ (by rfl) (by rfl)

/-- `vreinterpret_u8_u32` keeps every bit of the register. -/
theorem vreinterpret_u8_u32_spec (a : uint32x2_t) :
    ∃ r, vreinterpret_u8_u32 a = .ok r ∧ ∀ b, regBit r b = regBit a b := by
  unfold vreinterpret_u8_u32
  exact memcpy_all a _ (by rfl) (by rfl)

/-- `vreinterpret_u32_u8` keeps every bit of the register. -/
theorem vreinterpret_u32_u8_spec (a : uint8x8_t) :
    ∃ r, vreinterpret_u32_u8 a = .ok r ∧ ∀ b, regBit r b = regBit a b := by
  unfold vreinterpret_u32_u8
  exact memcpy_all a _ (by rfl) (by rfl)

/-- `vreinterpret_s8_u8` keeps every bit of the register. -/
theorem vreinterpret_s8_u8_spec (a : uint8x8_t) :
    ∃ r, vreinterpret_s8_u8 a = .ok r ∧ ∀ b, regBit r b = regBit a b := by
  unfold vreinterpret_s8_u8
  exact memcpy_all a _ (by rfl) (by rfl)

/-- `vreinterpret_s32_s16` keeps every bit of the register. -/
theorem vreinterpret_s32_s16_spec (a : int16x4_t) :
    ∃ r, vreinterpret_s32_s16 a = .ok r ∧ ∀ b, regBit r b = regBit a b := by
  unfold vreinterpret_s32_s16
  exact memcpy_all a _ (by rfl) (by rfl)

/-- `vreinterpret_s16_s32` keeps every bit of the register. -/
theorem vreinterpret_s16_s32_spec (a : int32x2_t) :
    ∃ r, vreinterpret_s16_s32 a = .ok r ∧ ∀ b, regBit r b = regBit a b := by
  unfold vreinterpret_s16_s32
  exact memcpy_all a _ (by rfl) (by rfl)

/-- `vreinterpretq_u8_s8` keeps every bit of the register. -/
theorem vreinterpretq_u8_s8_spec (a : int8x16_t) :
    ∃ r, vreinterpretq_u8_s8 a = .ok r ∧ ∀ b, regBit r b = regBit a b := by
  unfold vreinterpretq_u8_s8
  exact memcpy_all a _ (by rfl) (by rfl)

/-- `vreinterpretq_u8_s16` keeps every bit of the register. -/
theorem vreinterpretq_u8_s16_spec (a : int16x8_t) :
    ∃ r, vreinterpretq_u8_s16 a = .ok r ∧ ∀ b, regBit r b = regBit a b := by
  unfold vreinterpretq_u8_s16
  exact memcpy_all a _ (by rfl) (by rfl)

/-- `vreinterpretq_u8_s32` keeps every bit of the register. -/
theorem vreinterpretq_u8_s32_spec (a : int32x4_t) :
    ∃ r, vreinterpretq_u8_s32 a = .ok r ∧ ∀ b, regBit r b = regBit a b := by
  unfold vreinterpretq_u8_s32
  exact memcpy_all a _ (by rfl) (by rfl)

/-- `vreinterpretq_u8_f32` keeps every bit of the register. -/
theorem vreinterpretq_u8_f32_spec (a : float32x4_t) :
    ∃ r, vreinterpretq_u8_f32 a = .ok r ∧ ∀ b, regBit r b = regBit a b := by
  unfold vreinterpretq_u8_f32
  exact memcpy_all a _ (by rfl) (by rfl)

/-- `vreinterpretq_u8_u16` keeps every bit of the register. -/
theorem vreinterpretq_u8_u16_spec (a : uint16x8_t) :
    ∃ r, vreinterpretq_u8_u16 a = .ok r ∧ ∀ b, regBit r b = regBit a b := by
  unfold vreinterpretq_u8_u16
  exact memcpy_all a _ (by rfl) (by rfl)

/-- `vreinterpretq_u8_u32` keeps every bit of the register. -/
theorem vreinterpretq_u8_u32_spec (a : uint32x4_t) :
    ∃ r, vreinterpretq_u8_u32 a = .ok r ∧ ∀ b, regBit r b = regBit a b := by
  unfold vreinterpretq_u8_u32
  exact memcpy_all a _ (by rfl) (by rfl)

/-- `vreinterpretq_u8_u64` keeps every bit of the register. -/
theorem vreinterpretq_u8_u64_spec (a : uint64x2_t) :
    ∃ r, vreinterpretq_u8_u64 a = .ok r ∧ ∀ b, regBit r b = regBit a b := by
  unfold vreinterpretq_u8_u64
  exact memcpy_all a _ (by rfl) (by rfl)

/-- `vreinterpretq_u8_s64` keeps every bit of the register. -/
theorem vreinterpretq_u8_s64_spec (a : int64x2_t) :
    ∃ r, vreinterpretq_u8_s64 a = .ok r ∧ ∀ b, regBit r b = regBit a b := by
  unfold vreinterpretq_u8_s64
  exact memcpy_all a _ (by rfl) (by rfl)

/-- `vreinterpretq_u8_f64` keeps every bit of the register. -/
theorem vreinterpretq_u8_f64_spec (a : float64x2_t) :
    ∃ r, vreinterpretq_u8_f64 a = .ok r ∧ ∀ b, regBit r b = regBit a b := by
  unfold vreinterpretq_u8_f64
  exact memcpy_all a _ (by rfl) (by rfl)

/-- `vreinterpretq_u32_s8` keeps every bit of the register. -/
theorem vreinterpretq_u32_s8_spec (a : int8x16_t) :
    ∃ r, vreinterpretq_u32_s8 a = .ok r ∧ ∀ b, regBit r b = regBit a b := by
  unfold vreinterpretq_u32_s8
  exact memcpy_all a _ (by rfl) (by rfl)

/-- `vreinterpretq_u32_s16` keeps every bit of the register. -/
theorem vreinterpretq_u32_s16_spec (a : int16x8_t) :
    ∃ r, vreinterpretq_u32_s16 a = .ok r ∧ ∀ b, regBit r b = regBit a b := by
  unfold vreinterpretq_u32_s16
  exact memcpy_all a _ (by rfl) (by rfl)

/-- `vreinterpretq_u32_s32` keeps every bit of the register. -/
theorem vreinterpretq_u32_s32_spec (a : int32x4_t) :
    ∃ r, vreinterpretq_u32_s32 a = .ok r ∧ ∀ b, regBit r b = regBit a b := by
  unfold vreinterpretq_u32_s32
  exact memcpy_all a _ (by rfl) (by rfl)

/-- `vreinterpretq_u32_f32` keeps every bit of the register. -/
theorem vreinterpretq_u32_f32_spec (a : float32x4_t) :
    ∃ r, vreinterpretq_u32_f32 a = .ok r ∧ ∀ b, regBit r b = regBit a b := by
  unfold vreinterpretq_u32_f32
  exact memcpy_all a _ (by rfl) (by rfl)

/-- `vreinterpretq_u32_u8` keeps every bit of the register. -/
theorem vreinterpretq_u32_u8_spec (a : uint8x16_t) :
    ∃ r, vreinterpretq_u32_u8 a = .ok r ∧ ∀ b, regBit r b = regBit a b := by
  unfold vreinterpretq_u32_u8
  exact memcpy_all a _ (by rfl) (by rfl)

/-- `vreinterpretq_u32_u16` keeps every bit of the register. -/
theorem vreinterpretq_u32_u16_spec (a : uint16x8_t) :
    ∃ r, vreinterpretq_u32_u16 a = .ok r ∧ ∀ b, regBit r b = regBit a b := by
  unfold vreinterpretq_u32_u16
  exact memcpy_all a _ (by rfl) (by rfl)

/-- `vreinterpretq_u32_u64` keeps every bit of the register. -/
theorem vreinterpretq_u32_u64_spec (a : uint64x2_t) :
    ∃ r, vreinterpretq_u32_u64 a = .ok r ∧ ∀ b, regBit r b = regBit a b := by
  unfold vreinterpretq_u32_u64
  exact memcpy_all a _ (by rfl) (by rfl)

/-- `vreinterpretq_u32_s64` keeps every bit of the register. -/
theorem vreinterpretq_u32_s64_spec (a : int64x2_t) :
    ∃ r, vreinterpretq_u32_s64 a = .ok r ∧ ∀ b, regBit r b = regBit a b := by
  unfold vreinterpretq_u32_s64
  exact memcpy_all a _ (by rfl) (by rfl)

/-- `vreinterpretq_u32_f64` keeps every bit of the register. -/
theorem vreinterpretq_u32_f64_spec (a : float64x2_t) :
    ∃ r, vreinterpretq_u32_f64 a = .ok r ∧ ∀ b, regBit r b = regBit a b := by
  unfold vreinterpretq_u32_f64
  exact memcpy_all a _ (by rfl) (by rfl)

/-- `vreinterpret_s8_u8` undoes `vreinterpret_u8_s8`. -/
theorem vreinterpret_s8_u8_vreinterpret_u8_s8 (a : int8x8_t) :
    (vreinterpret_u8_s8 a >>= vreinterpret_s8_u8) = .ok a := by
  obtain ⟨r, e, h⟩ := vreinterpret_u8_s8_spec a
  obtain ⟨r', e', h'⟩ := vreinterpret_s8_u8_spec r
  rw [e, ok_bind, e', regBit_inj fun b => (h' b).trans (h b)]

/-- `vreinterpretq_u16_s16` undoes `vreinterpretq_s16_u16`. -/
theorem vreinterpretq_u16_s16_vreinterpretq_s16_u16 (a : uint16x8_t) :
    (vreinterpretq_s16_u16 a >>= vreinterpretq_u16_s16) = .ok a := by
  obtain ⟨r, e, h⟩ := vreinterpretq_s16_u16_spec a
  obtain ⟨r', e', h'⟩ := vreinterpretq_u16_s16_spec r
  rw [e, ok_bind, e', regBit_inj fun b => (h' b).trans (h b)]

/-- `vreinterpretq_s16_u16` undoes `vreinterpretq_u16_s16`. -/
theorem vreinterpretq_s16_u16_vreinterpretq_u16_s16 (a : int16x8_t) :
    (vreinterpretq_u16_s16 a >>= vreinterpretq_s16_u16) = .ok a := by
  obtain ⟨r, e, h⟩ := vreinterpretq_u16_s16_spec a
  obtain ⟨r', e', h'⟩ := vreinterpretq_s16_u16_spec r
  rw [e, ok_bind, e', regBit_inj fun b => (h' b).trans (h b)]

/-- `vreinterpret_u32_u8` undoes `vreinterpret_u8_u32`. -/
theorem vreinterpret_u32_u8_vreinterpret_u8_u32 (a : uint32x2_t) :
    (vreinterpret_u8_u32 a >>= vreinterpret_u32_u8) = .ok a := by
  obtain ⟨r, e, h⟩ := vreinterpret_u8_u32_spec a
  obtain ⟨r', e', h'⟩ := vreinterpret_u32_u8_spec r
  rw [e, ok_bind, e', regBit_inj fun b => (h' b).trans (h b)]

/-- `vreinterpret_u8_u32` undoes `vreinterpret_u32_u8`. -/
theorem vreinterpret_u8_u32_vreinterpret_u32_u8 (a : uint8x8_t) :
    (vreinterpret_u32_u8 a >>= vreinterpret_u8_u32) = .ok a := by
  obtain ⟨r, e, h⟩ := vreinterpret_u32_u8_spec a
  obtain ⟨r', e', h'⟩ := vreinterpret_u8_u32_spec r
  rw [e, ok_bind, e', regBit_inj fun b => (h' b).trans (h b)]

/-- `vreinterpret_u8_s8` undoes `vreinterpret_s8_u8`. -/
theorem vreinterpret_u8_s8_vreinterpret_s8_u8 (a : uint8x8_t) :
    (vreinterpret_s8_u8 a >>= vreinterpret_u8_s8) = .ok a := by
  obtain ⟨r, e, h⟩ := vreinterpret_s8_u8_spec a
  obtain ⟨r', e', h'⟩ := vreinterpret_u8_s8_spec r
  rw [e, ok_bind, e', regBit_inj fun b => (h' b).trans (h b)]

/-- `vreinterpret_s16_s32` undoes `vreinterpret_s32_s16`. -/
theorem vreinterpret_s16_s32_vreinterpret_s32_s16 (a : int16x4_t) :
    (vreinterpret_s32_s16 a >>= vreinterpret_s16_s32) = .ok a := by
  obtain ⟨r, e, h⟩ := vreinterpret_s32_s16_spec a
  obtain ⟨r', e', h'⟩ := vreinterpret_s16_s32_spec r
  rw [e, ok_bind, e', regBit_inj fun b => (h' b).trans (h b)]

/-- `vreinterpret_s32_s16` undoes `vreinterpret_s16_s32`. -/
theorem vreinterpret_s32_s16_vreinterpret_s16_s32 (a : int32x2_t) :
    (vreinterpret_s16_s32 a >>= vreinterpret_s32_s16) = .ok a := by
  obtain ⟨r, e, h⟩ := vreinterpret_s16_s32_spec a
  obtain ⟨r', e', h'⟩ := vreinterpret_s32_s16_spec r
  rw [e, ok_bind, e', regBit_inj fun b => (h' b).trans (h b)]

/-- `vreinterpretq_u32_u8` undoes `vreinterpretq_u8_u32`. -/
theorem vreinterpretq_u32_u8_vreinterpretq_u8_u32 (a : uint32x4_t) :
    (vreinterpretq_u8_u32 a >>= vreinterpretq_u32_u8) = .ok a := by
  obtain ⟨r, e, h⟩ := vreinterpretq_u8_u32_spec a
  obtain ⟨r', e', h'⟩ := vreinterpretq_u32_u8_spec r
  rw [e, ok_bind, e', regBit_inj fun b => (h' b).trans (h b)]

/-- `vreinterpretq_u8_u32` undoes `vreinterpretq_u32_u8`. -/
theorem vreinterpretq_u8_u32_vreinterpretq_u32_u8 (a : uint8x16_t) :
    (vreinterpretq_u32_u8 a >>= vreinterpretq_u8_u32) = .ok a := by
  obtain ⟨r, e, h⟩ := vreinterpretq_u32_u8_spec a
  obtain ⟨r', e', h'⟩ := vreinterpretq_u8_u32_spec r
  rw [e, ok_bind, e', regBit_inj fun b => (h' b).trans (h b)]

end Verif.Props
