import Verif.Fill
import Verif.Model.Add
import Verif.Model.Sub
/-! # Saturating addition and subtraction (C19, C20)

Generated by `tools/gen_props.py`. -/

set_option linter.unusedSimpArgs false
set_option linter.unusedVariables false

namespace Verif.Props
open Verif.Model Verif.Spec

/-- `vqadd_u8` gives the exact sum clamped to `[0, 255]`. -/
theorem vqadd_u8_spec [Dialect] (a b : uint8x8_t) :
    vqadd_u8 a b = .ok ⟨fun i => usat 8 (((a.lane i).toNat : Int) + ((b.lane i).toNat : Int))⟩ := by
  unfold vqadd_u8
  refine fill_ok (by rfl) _ fun i D => ?_
  csim
  repeat' split
  all_goals sat_close

/-- `vqaddq_u8` gives the exact sum clamped to `[0, 255]`. -/
theorem vqaddq_u8_spec [Dialect] (N M : uint8x16_t) :
    vqaddq_u8 N M = .ok ⟨fun i => usat 8 (((N.lane i).toNat : Int) + ((M.lane i).toNat : Int))⟩ := by
  unfold vqaddq_u8
  refine fill_ok (by rfl) _ fun i D => ?_
  csim
  repeat' split
  all_goals sat_close

/-- `vqsub_s8` gives the exact difference clamped to the range of `int8_t`. -/
theorem vqsub_s8_spec [Dialect] (N M : int8x8_t) :
    vqsub_s8 N M = .ok ⟨fun i => ssat 8 ((N.lane i).toInt - (M.lane i).toInt)⟩ := by
  unfold vqsub_s8
  refine fill_ok (by rfl) _ fun i D => ?_
  have hb0 := toInt8 (N.lane i)
  have hb1 := toInt8 (M.lane i)
  csim
  repeat' split
  all_goals sat_close

/-- `vqsub_s16` gives the exact difference clamped to the range of `int16_t`. -/
theorem vqsub_s16_spec [Dialect] (N M : int16x4_t) :
    vqsub_s16 N M = .ok ⟨fun i => ssat 16 ((N.lane i).toInt - (M.lane i).toInt)⟩ := by
  unfold vqsub_s16
  refine fill_ok (by rfl) _ fun i D => ?_
  have hb0 := toInt16 (N.lane i)
  have hb1 := toInt16 (M.lane i)
  csim
  repeat' split
  all_goals sat_close

/-- `vqsub_s32` gives the exact difference clamped to the range of `int32_t`. -/
theorem vqsub_s32_spec [Dialect] (N M : int32x2_t) :
    vqsub_s32 N M = .ok ⟨fun i => ssat 32 ((N.lane i).toInt - (M.lane i).toInt)⟩ := by
  unfold vqsub_s32
  refine fill_ok (by rfl) _ fun i D => ?_
  have hb0 := toInt32 (N.lane i)
  have hb1 := toInt32 (M.lane i)
  csim
  repeat' split
  all_goals sat_close

/-- `vqsub_u8` gives the exact difference clamped to the range of `uint8_t`. -/
theorem vqsub_u8_spec [Dialect] (N M : uint8x8_t) :
    vqsub_u8 N M = .ok ⟨fun i => usat 8 (((N.lane i).toNat : Int) - ((M.lane i).toNat : Int))⟩ := by
  unfold vqsub_u8
  refine fill_ok (by rfl) _ fun i D => ?_
  csim
  repeat' split
  all_goals sat_close

/-- `vqsub_u16` gives the exact difference clamped to the range of `uint16_t`. -/
theorem vqsub_u16_spec [Dialect] (N M : uint16x4_t) :
    vqsub_u16 N M = .ok ⟨fun i => usat 16 (((N.lane i).toNat : Int) - ((M.lane i).toNat : Int))⟩ := by
  unfold vqsub_u16
  refine fill_ok (by rfl) _ fun i D => ?_
  csim
  repeat' split
  all_goals sat_close

/-- `vqsub_u32` gives the exact difference clamped to the range of `uint32_t`. -/
theorem vqsub_u32_spec [Dialect] (N M : uint32x2_t) :
    vqsub_u32 N M = .ok ⟨fun i => usat 32 (((N.lane i).toNat : Int) - ((M.lane i).toNat : Int))⟩ := by
  unfold vqsub_u32
  refine fill_ok (by rfl) _ fun i D => ?_
  csim
  repeat' split
  all_goals sat_close

/-- `vqsubq_s8` gives the exact difference clamped to the range of `int8_t`. -/
theorem vqsubq_s8_spec [Dialect] (N M : int8x16_t) :
    vqsubq_s8 N M = .ok ⟨fun i => ssat 8 ((N.lane i).toInt - (M.lane i).toInt)⟩ := by
  unfold vqsubq_s8
  refine fill_ok (by rfl) _ fun i D => ?_
  have hb0 := toInt8 (N.lane i)
  have hb1 := toInt8 (M.lane i)
  csim
  repeat' split
  all_goals sat_close

/-- `vqsubq_s16` gives the exact difference clamped to the range of `int16_t`. -/
theorem vqsubq_s16_spec [Dialect] (N M : int16x8_t) :
    vqsubq_s16 N M = .ok ⟨fun i => ssat 16 ((N.lane i).toInt - (M.lane i).toInt)⟩ := by
  unfold vqsubq_s16
  refine fill_ok (by rfl) _ fun i D => ?_
  have hb0 := toInt16 (N.lane i)
  have hb1 := toInt16 (M.lane i)
  csim
  repeat' split
  all_goals sat_close

/-- `vqsubq_s32` gives the exact difference clamped to the range of `int32_t`. -/
theorem vqsubq_s32_spec [Dialect] (N M : int32x4_t) :
    vqsubq_s32 N M = .ok ⟨fun i => ssat 32 ((N.lane i).toInt - (M.lane i).toInt)⟩ := by
  unfold vqsubq_s32
  refine fill_ok (by rfl) _ fun i D => ?_
  have hb0 := toInt32 (N.lane i)
  have hb1 := toInt32 (M.lane i)
  csim
  repeat' split
  all_goals sat_close

/-- `vqsubq_u8` gives the exact difference clamped to the range of `uint8_t`. -/
theorem vqsubq_u8_spec [Dialect] (N M : uint8x16_t) :
    vqsubq_u8 N M = .ok ⟨fun i => usat 8 (((N.lane i).toNat : Int) - ((M.lane i).toNat : Int))⟩ := by
  unfold vqsubq_u8
  refine fill_ok (by rfl) _ fun i D => ?_
  csim
  repeat' split
  all_goals sat_close

/-- `vqsubq_u16` gives the exact difference clamped to the range of `uint16_t`. -/
theorem vqsubq_u16_spec [Dialect] (N M : uint16x8_t) :
    vqsubq_u16 N M = .ok ⟨fun i => usat 16 (((N.lane i).toNat : Int) - ((M.lane i).toNat : Int))⟩ := by
  unfold vqsubq_u16
  refine fill_ok (by rfl) _ fun i D => ?_
  csim
  repeat' split
  all_goals sat_close

/-- `vqsubq_u32` gives the exact difference clamped to the range of `uint32_t`. -/
theorem vqsubq_u32_spec [Dialect] (N M : uint32x4_t) :
    vqsubq_u32 N M = .ok ⟨fun i => usat 32 (((N.lane i).toNat : Int) - ((M.lane i).toNat : Int))⟩ := by
  unfold vqsubq_u32
  refine fill_ok (by rfl) _ fun i D => ?_
  csim
  repeat' split
  all_goals sat_close

end Verif.Props
