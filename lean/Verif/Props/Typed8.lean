import Verif.Typing
import Verif.ArmLemmas
import Verif.Props.Signatures
import Verif.Props.Outcome
import Verif.Props.TypedBase

/-! # Calls with arguments of the declared types, part 8 (C78)

Generated by `tools/gen_typed.py`. -/

set_option linter.unusedVariables false

namespace Verif.Props
open Verif.Cpp Verif.Arm

theorem vst1_u64_good [Dialect] (ptr : Ptr .u64) (val : uint64x1_t) : Good none False (Same ptr) (Model.vst1_u64 ptr val) := by
  unfold Model.vst1_u64
  good_store

theorem vst1_u64_typed [Dialect] : Total (k!"vst1_u64", .fn Source.vst1_u64) := by
  refine total_fn vst1_u64_sig_read fun args h => ?_
  obtain ⟨ptr0, val0, rfl, tptr, tval⟩ := typed2 h
  obtain ⟨ptr, rfl⟩ := tptr
  obtain ⟨val, rfl⟩ := tval
  exact total_mem (called_fn (by kernel_rfl) (vst1_u64_source ptr val)) (vst1_u64_good ptr val)

theorem vst1q_u8_good [Dialect] (ptr : Ptr .u8) (val : uint8x16_t) : Good none False (Same ptr) (Model.vst1q_u8 ptr val) := by
  unfold Model.vst1q_u8
  good_store

theorem vst1q_u8_typed [Dialect] : Total (k!"vst1q_u8", .fn Source.vst1q_u8) := by
  refine total_fn vst1q_u8_sig_read fun args h => ?_
  obtain ⟨ptr0, val0, rfl, tptr, tval⟩ := typed2 h
  obtain ⟨ptr, rfl⟩ := tptr
  obtain ⟨val, rfl⟩ := tval
  exact total_mem (called_fn (by kernel_rfl) (vst1q_u8_source ptr val)) (vst1q_u8_good ptr val)

theorem vst1q_s8_good [Dialect] (ptr : Ptr .s8) (val : int8x16_t) : Good none False (Same ptr) (Model.vst1q_s8 ptr val) := by
  unfold Model.vst1q_s8
  good_store

theorem vst1q_s8_typed [Dialect] : Total (k!"vst1q_s8", .fn Source.vst1q_s8) := by
  refine total_fn vst1q_s8_sig_read fun args h => ?_
  obtain ⟨ptr0, val0, rfl, tptr, tval⟩ := typed2 h
  obtain ⟨ptr, rfl⟩ := tptr
  obtain ⟨val, rfl⟩ := tval
  exact total_mem (called_fn (by kernel_rfl) (vst1q_s8_source ptr val)) (vst1q_s8_good ptr val)

theorem vst1q_u16_good [Dialect] (ptr : Ptr .u16) (val : uint16x8_t) : Good none False (Same ptr) (Model.vst1q_u16 ptr val) := by
  unfold Model.vst1q_u16
  good_store

theorem vst1q_u16_typed [Dialect] : Total (k!"vst1q_u16", .fn Source.vst1q_u16) := by
  refine total_fn vst1q_u16_sig_read fun args h => ?_
  obtain ⟨ptr0, val0, rfl, tptr, tval⟩ := typed2 h
  obtain ⟨ptr, rfl⟩ := tptr
  obtain ⟨val, rfl⟩ := tval
  exact total_mem (called_fn (by kernel_rfl) (vst1q_u16_source ptr val)) (vst1q_u16_good ptr val)

theorem vst1q_s16_good [Dialect] (ptr : Ptr .s16) (val : int16x8_t) : Good none False (Same ptr) (Model.vst1q_s16 ptr val) := by
  unfold Model.vst1q_s16
  good_store

theorem vst1q_s16_typed [Dialect] : Total (k!"vst1q_s16", .fn Source.vst1q_s16) := by
  refine total_fn vst1q_s16_sig_read fun args h => ?_
  obtain ⟨ptr0, val0, rfl, tptr, tval⟩ := typed2 h
  obtain ⟨ptr, rfl⟩ := tptr
  obtain ⟨val, rfl⟩ := tval
  exact total_mem (called_fn (by kernel_rfl) (vst1q_s16_source ptr val)) (vst1q_s16_good ptr val)

theorem vst1q_u32_good [Dialect] (ptr : Ptr .u32) (val : uint32x4_t) : Good none False (Same ptr) (Model.vst1q_u32 ptr val) := by
  unfold Model.vst1q_u32
  good_store

theorem vst1q_u32_typed [Dialect] : Total (k!"vst1q_u32", .fn Source.vst1q_u32) := by
  refine total_fn vst1q_u32_sig_read fun args h => ?_
  obtain ⟨ptr0, val0, rfl, tptr, tval⟩ := typed2 h
  obtain ⟨ptr, rfl⟩ := tptr
  obtain ⟨val, rfl⟩ := tval
  exact total_mem (called_fn (by kernel_rfl) (vst1q_u32_source ptr val)) (vst1q_u32_good ptr val)

theorem vst1q_s32_good [Dialect] (ptr : Ptr .s32) (val : int32x4_t) : Good none False (Same ptr) (Model.vst1q_s32 ptr val) := by
  unfold Model.vst1q_s32
  good_store

theorem vst1q_s32_typed [Dialect] : Total (k!"vst1q_s32", .fn Source.vst1q_s32) := by
  refine total_fn vst1q_s32_sig_read fun args h => ?_
  obtain ⟨ptr0, val0, rfl, tptr, tval⟩ := typed2 h
  obtain ⟨ptr, rfl⟩ := tptr
  obtain ⟨val, rfl⟩ := tval
  exact total_mem (called_fn (by kernel_rfl) (vst1q_s32_source ptr val)) (vst1q_s32_good ptr val)

theorem vst1q_s64_good [Dialect] (ptr : Ptr .s64) (val : int64x2_t) : Good none False (Same ptr) (Model.vst1q_s64 ptr val) := by
  unfold Model.vst1q_s64
  good_store

theorem vst1q_s64_typed [Dialect] : Total (k!"vst1q_s64", .fn Source.vst1q_s64) := by
  refine total_fn vst1q_s64_sig_read fun args h => ?_
  obtain ⟨ptr0, val0, rfl, tptr, tval⟩ := typed2 h
  obtain ⟨ptr, rfl⟩ := tptr
  obtain ⟨val, rfl⟩ := tval
  exact total_mem (called_fn (by kernel_rfl) (vst1q_s64_source ptr val)) (vst1q_s64_good ptr val)

theorem vst1q_u64_good [Dialect] (ptr : Ptr .u64) (val : uint64x2_t) : Good none False (Same ptr) (Model.vst1q_u64 ptr val) := by
  unfold Model.vst1q_u64
  good_store

theorem vst1q_u64_typed [Dialect] : Total (k!"vst1q_u64", .fn Source.vst1q_u64) := by
  refine total_fn vst1q_u64_sig_read fun args h => ?_
  obtain ⟨ptr0, val0, rfl, tptr, tval⟩ := typed2 h
  obtain ⟨ptr, rfl⟩ := tptr
  obtain ⟨val, rfl⟩ := tval
  exact total_mem (called_fn (by kernel_rfl) (vst1q_u64_source ptr val)) (vst1q_u64_good ptr val)

theorem vst1q_f32_good [Dialect] (ptr : Ptr .f32) (val : float32x4_t) : Good none False (Same ptr) (Model.vst1q_f32 ptr val) := by
  unfold Model.vst1q_f32
  good_store

theorem vst1q_f32_typed [Dialect] : Total (k!"vst1q_f32", .fn Source.vst1q_f32) := by
  refine total_fn vst1q_f32_sig_read fun args h => ?_
  obtain ⟨ptr0, val0, rfl, tptr, tval⟩ := typed2 h
  obtain ⟨ptr, rfl⟩ := tptr
  obtain ⟨val, rfl⟩ := tval
  exact total_mem (called_fn (by kernel_rfl) (vst1q_f32_source ptr val)) (vst1q_f32_good ptr val)

theorem vst2_s8_good [Dialect] (ptr : Ptr .s8) (val : int8x8x2_t) : Good none False (Same ptr) (Model.vst2_s8 ptr val) := by
  unfold Model.vst2_s8
  good_store

theorem vst2_s8_typed [Dialect] : Total (k!"vst2_s8", .fn Source.vst2_s8) := by
  refine total_fn vst2_s8_sig_read fun args h => ?_
  obtain ⟨ptr0, val0, rfl, tptr, tval⟩ := typed2 h
  obtain ⟨ptr, rfl⟩ := tptr
  obtain ⟨val, rfl⟩ := tval
  exact total_mem (called_fn (by kernel_rfl) (vst2_s8_source ptr val)) (vst2_s8_good ptr val)

theorem vst2_s16_good [Dialect] (ptr : Ptr .s16) (val : int16x4x2_t) : Good none False (Same ptr) (Model.vst2_s16 ptr val) := by
  unfold Model.vst2_s16
  good_store

theorem vst2_s16_typed [Dialect] : Total (k!"vst2_s16", .fn Source.vst2_s16) := by
  refine total_fn vst2_s16_sig_read fun args h => ?_
  obtain ⟨ptr0, val0, rfl, tptr, tval⟩ := typed2 h
  obtain ⟨ptr, rfl⟩ := tptr
  obtain ⟨val, rfl⟩ := tval
  exact total_mem (called_fn (by kernel_rfl) (vst2_s16_source ptr val)) (vst2_s16_good ptr val)

theorem vst2_s32_good [Dialect] (ptr : Ptr .s32) (val : int32x2x2_t) : Good none False (Same ptr) (Model.vst2_s32 ptr val) := by
  unfold Model.vst2_s32
  good_store

theorem vst2_s32_typed [Dialect] : Total (k!"vst2_s32", .fn Source.vst2_s32) := by
  refine total_fn vst2_s32_sig_read fun args h => ?_
  obtain ⟨ptr0, val0, rfl, tptr, tval⟩ := typed2 h
  obtain ⟨ptr, rfl⟩ := tptr
  obtain ⟨val, rfl⟩ := tval
  exact total_mem (called_fn (by kernel_rfl) (vst2_s32_source ptr val)) (vst2_s32_good ptr val)

theorem vst2_u8_good [Dialect] (ptr : Ptr .u8) (val : uint8x8x2_t) : Good none False (Same ptr) (Model.vst2_u8 ptr val) := by
  unfold Model.vst2_u8
  good_store

theorem vst2_u8_typed [Dialect] : Total (k!"vst2_u8", .fn Source.vst2_u8) := by
  refine total_fn vst2_u8_sig_read fun args h => ?_
  obtain ⟨ptr0, val0, rfl, tptr, tval⟩ := typed2 h
  obtain ⟨ptr, rfl⟩ := tptr
  obtain ⟨val, rfl⟩ := tval
  exact total_mem (called_fn (by kernel_rfl) (vst2_u8_source ptr val)) (vst2_u8_good ptr val)

theorem vst2_u16_good [Dialect] (ptr : Ptr .u16) (val : uint16x4x2_t) : Good none False (Same ptr) (Model.vst2_u16 ptr val) := by
  unfold Model.vst2_u16
  good_store

theorem vst2_u16_typed [Dialect] : Total (k!"vst2_u16", .fn Source.vst2_u16) := by
  refine total_fn vst2_u16_sig_read fun args h => ?_
  obtain ⟨ptr0, val0, rfl, tptr, tval⟩ := typed2 h
  obtain ⟨ptr, rfl⟩ := tptr
  obtain ⟨val, rfl⟩ := tval
  exact total_mem (called_fn (by kernel_rfl) (vst2_u16_source ptr val)) (vst2_u16_good ptr val)

theorem vst2_u32_good [Dialect] (ptr : Ptr .u32) (val : uint32x2x2_t) : Good none False (Same ptr) (Model.vst2_u32 ptr val) := by
  unfold Model.vst2_u32
  good_store

theorem vst2_u32_typed [Dialect] : Total (k!"vst2_u32", .fn Source.vst2_u32) := by
  refine total_fn vst2_u32_sig_read fun args h => ?_
  obtain ⟨ptr0, val0, rfl, tptr, tval⟩ := typed2 h
  obtain ⟨ptr, rfl⟩ := tptr
  obtain ⟨val, rfl⟩ := tval
  exact total_mem (called_fn (by kernel_rfl) (vst2_u32_source ptr val)) (vst2_u32_good ptr val)

theorem vst2q_s8_good [Dialect] (ptr : Ptr .s8) (val : int8x16x2_t) : Good none False (Same ptr) (Model.vst2q_s8 ptr val) := by
  unfold Model.vst2q_s8
  good_store

theorem vst2q_s8_typed [Dialect] : Total (k!"vst2q_s8", .fn Source.vst2q_s8) := by
  refine total_fn vst2q_s8_sig_read fun args h => ?_
  obtain ⟨ptr0, val0, rfl, tptr, tval⟩ := typed2 h
  obtain ⟨ptr, rfl⟩ := tptr
  obtain ⟨val, rfl⟩ := tval
  exact total_mem (called_fn (by kernel_rfl) (vst2q_s8_source ptr val)) (vst2q_s8_good ptr val)

theorem vst2q_s16_good [Dialect] (ptr : Ptr .s16) (val : int16x8x2_t) : Good none False (Same ptr) (Model.vst2q_s16 ptr val) := by
  unfold Model.vst2q_s16
  good_store

theorem vst2q_s16_typed [Dialect] : Total (k!"vst2q_s16", .fn Source.vst2q_s16) := by
  refine total_fn vst2q_s16_sig_read fun args h => ?_
  obtain ⟨ptr0, val0, rfl, tptr, tval⟩ := typed2 h
  obtain ⟨ptr, rfl⟩ := tptr
  obtain ⟨val, rfl⟩ := tval
  exact total_mem (called_fn (by kernel_rfl) (vst2q_s16_source ptr val)) (vst2q_s16_good ptr val)

theorem vst2q_s32_good [Dialect] (ptr : Ptr .s32) (val : int32x4x2_t) : Good none False (Same ptr) (Model.vst2q_s32 ptr val) := by
  unfold Model.vst2q_s32
  good_store

theorem vst2q_s32_typed [Dialect] : Total (k!"vst2q_s32", .fn Source.vst2q_s32) := by
  refine total_fn vst2q_s32_sig_read fun args h => ?_
  obtain ⟨ptr0, val0, rfl, tptr, tval⟩ := typed2 h
  obtain ⟨ptr, rfl⟩ := tptr
  obtain ⟨val, rfl⟩ := tval
  exact total_mem (called_fn (by kernel_rfl) (vst2q_s32_source ptr val)) (vst2q_s32_good ptr val)

theorem vst2q_u8_good [Dialect] (ptr : Ptr .u8) (val : uint8x16x2_t) : Good none False (Same ptr) (Model.vst2q_u8 ptr val) := by
  unfold Model.vst2q_u8
  good_store

theorem vst2q_u8_typed [Dialect] : Total (k!"vst2q_u8", .fn Source.vst2q_u8) := by
  refine total_fn vst2q_u8_sig_read fun args h => ?_
  obtain ⟨ptr0, val0, rfl, tptr, tval⟩ := typed2 h
  obtain ⟨ptr, rfl⟩ := tptr
  obtain ⟨val, rfl⟩ := tval
  exact total_mem (called_fn (by kernel_rfl) (vst2q_u8_source ptr val)) (vst2q_u8_good ptr val)

theorem vst2q_u16_good [Dialect] (ptr : Ptr .u16) (val : uint16x8x2_t) : Good none False (Same ptr) (Model.vst2q_u16 ptr val) := by
  unfold Model.vst2q_u16
  good_store

theorem vst2q_u16_typed [Dialect] : Total (k!"vst2q_u16", .fn Source.vst2q_u16) := by
  refine total_fn vst2q_u16_sig_read fun args h => ?_
  obtain ⟨ptr0, val0, rfl, tptr, tval⟩ := typed2 h
  obtain ⟨ptr, rfl⟩ := tptr
  obtain ⟨val, rfl⟩ := tval
  exact total_mem (called_fn (by kernel_rfl) (vst2q_u16_source ptr val)) (vst2q_u16_good ptr val)

theorem vst2q_u32_good [Dialect] (ptr : Ptr .u32) (val : uint32x4x2_t) : Good none False (Same ptr) (Model.vst2q_u32 ptr val) := by
  unfold Model.vst2q_u32
  good_store

theorem vst2q_u32_typed [Dialect] : Total (k!"vst2q_u32", .fn Source.vst2q_u32) := by
  refine total_fn vst2q_u32_sig_read fun args h => ?_
  obtain ⟨ptr0, val0, rfl, tptr, tval⟩ := typed2 h
  obtain ⟨ptr, rfl⟩ := tptr
  obtain ⟨val, rfl⟩ := tval
  exact total_mem (called_fn (by kernel_rfl) (vst2q_u32_source ptr val)) (vst2q_u32_good ptr val)

theorem vst3_s8_good [Dialect] (ptr : Ptr .s8) (val : int8x8x3_t) : Good none False (Same ptr) (Model.vst3_s8 ptr val) := by
  unfold Model.vst3_s8
  good_store

theorem vst3_s8_typed [Dialect] : Total (k!"vst3_s8", .fn Source.vst3_s8) := by
  refine total_fn vst3_s8_sig_read fun args h => ?_
  obtain ⟨ptr0, val0, rfl, tptr, tval⟩ := typed2 h
  obtain ⟨ptr, rfl⟩ := tptr
  obtain ⟨val, rfl⟩ := tval
  exact total_mem (called_fn (by kernel_rfl) (vst3_s8_source ptr val)) (vst3_s8_good ptr val)

theorem vst3_s16_good [Dialect] (ptr : Ptr .s16) (val : int16x4x3_t) : Good none False (Same ptr) (Model.vst3_s16 ptr val) := by
  unfold Model.vst3_s16
  good_store

theorem vst3_s16_typed [Dialect] : Total (k!"vst3_s16", .fn Source.vst3_s16) := by
  refine total_fn vst3_s16_sig_read fun args h => ?_
  obtain ⟨ptr0, val0, rfl, tptr, tval⟩ := typed2 h
  obtain ⟨ptr, rfl⟩ := tptr
  obtain ⟨val, rfl⟩ := tval
  exact total_mem (called_fn (by kernel_rfl) (vst3_s16_source ptr val)) (vst3_s16_good ptr val)

theorem vst3_s32_good [Dialect] (ptr : Ptr .s32) (val : int32x2x3_t) : Good none False (Same ptr) (Model.vst3_s32 ptr val) := by
  unfold Model.vst3_s32
  good_store

theorem vst3_s32_typed [Dialect] : Total (k!"vst3_s32", .fn Source.vst3_s32) := by
  refine total_fn vst3_s32_sig_read fun args h => ?_
  obtain ⟨ptr0, val0, rfl, tptr, tval⟩ := typed2 h
  obtain ⟨ptr, rfl⟩ := tptr
  obtain ⟨val, rfl⟩ := tval
  exact total_mem (called_fn (by kernel_rfl) (vst3_s32_source ptr val)) (vst3_s32_good ptr val)

theorem vst3_u8_good [Dialect] (ptr : Ptr .u8) (val : uint8x8x3_t) : Good none False (Same ptr) (Model.vst3_u8 ptr val) := by
  unfold Model.vst3_u8
  good_store

theorem vst3_u8_typed [Dialect] : Total (k!"vst3_u8", .fn Source.vst3_u8) := by
  refine total_fn vst3_u8_sig_read fun args h => ?_
  obtain ⟨ptr0, val0, rfl, tptr, tval⟩ := typed2 h
  obtain ⟨ptr, rfl⟩ := tptr
  obtain ⟨val, rfl⟩ := tval
  exact total_mem (called_fn (by kernel_rfl) (vst3_u8_source ptr val)) (vst3_u8_good ptr val)

theorem vst3_u16_good [Dialect] (ptr : Ptr .u16) (val : uint16x4x3_t) : Good none False (Same ptr) (Model.vst3_u16 ptr val) := by
  unfold Model.vst3_u16
  good_store

theorem vst3_u16_typed [Dialect] : Total (k!"vst3_u16", .fn Source.vst3_u16) := by
  refine total_fn vst3_u16_sig_read fun args h => ?_
  obtain ⟨ptr0, val0, rfl, tptr, tval⟩ := typed2 h
  obtain ⟨ptr, rfl⟩ := tptr
  obtain ⟨val, rfl⟩ := tval
  exact total_mem (called_fn (by kernel_rfl) (vst3_u16_source ptr val)) (vst3_u16_good ptr val)

theorem vst3_u32_good [Dialect] (ptr : Ptr .u32) (val : uint32x2x3_t) : Good none False (Same ptr) (Model.vst3_u32 ptr val) := by
  unfold Model.vst3_u32
  good_store

theorem vst3_u32_typed [Dialect] : Total (k!"vst3_u32", .fn Source.vst3_u32) := by
  refine total_fn vst3_u32_sig_read fun args h => ?_
  obtain ⟨ptr0, val0, rfl, tptr, tval⟩ := typed2 h
  obtain ⟨ptr, rfl⟩ := tptr
  obtain ⟨val, rfl⟩ := tval
  exact total_mem (called_fn (by kernel_rfl) (vst3_u32_source ptr val)) (vst3_u32_good ptr val)

theorem vst3q_s8_good [Dialect] (ptr : Ptr .s8) (val : int8x16x3_t) : Good none False (Same ptr) (Model.vst3q_s8 ptr val) := by
  unfold Model.vst3q_s8
  good_store

theorem vst3q_s8_typed [Dialect] : Total (k!"vst3q_s8", .fn Source.vst3q_s8) := by
  refine total_fn vst3q_s8_sig_read fun args h => ?_
  obtain ⟨ptr0, val0, rfl, tptr, tval⟩ := typed2 h
  obtain ⟨ptr, rfl⟩ := tptr
  obtain ⟨val, rfl⟩ := tval
  exact total_mem (called_fn (by kernel_rfl) (vst3q_s8_source ptr val)) (vst3q_s8_good ptr val)

theorem vst3q_s16_good [Dialect] (ptr : Ptr .s16) (val : int16x8x3_t) : Good none False (Same ptr) (Model.vst3q_s16 ptr val) := by
  unfold Model.vst3q_s16
  good_store

theorem vst3q_s16_typed [Dialect] : Total (k!"vst3q_s16", .fn Source.vst3q_s16) := by
  refine total_fn vst3q_s16_sig_read fun args h => ?_
  obtain ⟨ptr0, val0, rfl, tptr, tval⟩ := typed2 h
  obtain ⟨ptr, rfl⟩ := tptr
  obtain ⟨val, rfl⟩ := tval
  exact total_mem (called_fn (by kernel_rfl) (vst3q_s16_source ptr val)) (vst3q_s16_good ptr val)

theorem vst3q_s32_good [Dialect] (ptr : Ptr .s32) (val : int32x4x3_t) : Good none False (Same ptr) (Model.vst3q_s32 ptr val) := by
  unfold Model.vst3q_s32
  good_store

theorem vst3q_s32_typed [Dialect] : Total (k!"vst3q_s32", .fn Source.vst3q_s32) := by
  refine total_fn vst3q_s32_sig_read fun args h => ?_
  obtain ⟨ptr0, val0, rfl, tptr, tval⟩ := typed2 h
  obtain ⟨ptr, rfl⟩ := tptr
  obtain ⟨val, rfl⟩ := tval
  exact total_mem (called_fn (by kernel_rfl) (vst3q_s32_source ptr val)) (vst3q_s32_good ptr val)

theorem vst3q_u8_good [Dialect] (ptr : Ptr .u8) (val : uint8x16x3_t) : Good none False (Same ptr) (Model.vst3q_u8 ptr val) := by
  unfold Model.vst3q_u8
  good_store

theorem vst3q_u8_typed [Dialect] : Total (k!"vst3q_u8", .fn Source.vst3q_u8) := by
  refine total_fn vst3q_u8_sig_read fun args h => ?_
  obtain ⟨ptr0, val0, rfl, tptr, tval⟩ := typed2 h
  obtain ⟨ptr, rfl⟩ := tptr
  obtain ⟨val, rfl⟩ := tval
  exact total_mem (called_fn (by kernel_rfl) (vst3q_u8_source ptr val)) (vst3q_u8_good ptr val)

theorem vst3q_u16_good [Dialect] (ptr : Ptr .u16) (val : uint16x8x3_t) : Good none False (Same ptr) (Model.vst3q_u16 ptr val) := by
  unfold Model.vst3q_u16
  good_store

theorem vst3q_u16_typed [Dialect] : Total (k!"vst3q_u16", .fn Source.vst3q_u16) := by
  refine total_fn vst3q_u16_sig_read fun args h => ?_
  obtain ⟨ptr0, val0, rfl, tptr, tval⟩ := typed2 h
  obtain ⟨ptr, rfl⟩ := tptr
  obtain ⟨val, rfl⟩ := tval
  exact total_mem (called_fn (by kernel_rfl) (vst3q_u16_source ptr val)) (vst3q_u16_good ptr val)

theorem vst3q_u32_good [Dialect] (ptr : Ptr .u32) (val : uint32x4x3_t) : Good none False (Same ptr) (Model.vst3q_u32 ptr val) := by
  unfold Model.vst3q_u32
  good_store

theorem vst3q_u32_typed [Dialect] : Total (k!"vst3q_u32", .fn Source.vst3q_u32) := by
  refine total_fn vst3q_u32_sig_read fun args h => ?_
  obtain ⟨ptr0, val0, rfl, tptr, tval⟩ := typed2 h
  obtain ⟨ptr, rfl⟩ := tptr
  obtain ⟨val, rfl⟩ := tval
  exact total_mem (called_fn (by kernel_rfl) (vst3q_u32_source ptr val)) (vst3q_u32_good ptr val)

theorem vst4_s8_good [Dialect] (ptr : Ptr .s8) (val : int8x8x4_t) : Good none False (Same ptr) (Model.vst4_s8 ptr val) := by
  unfold Model.vst4_s8
  good_store

theorem vst4_s8_typed [Dialect] : Total (k!"vst4_s8", .fn Source.vst4_s8) := by
  refine total_fn vst4_s8_sig_read fun args h => ?_
  obtain ⟨ptr0, val0, rfl, tptr, tval⟩ := typed2 h
  obtain ⟨ptr, rfl⟩ := tptr
  obtain ⟨val, rfl⟩ := tval
  exact total_mem (called_fn (by kernel_rfl) (vst4_s8_source ptr val)) (vst4_s8_good ptr val)

theorem vst4_s16_good [Dialect] (ptr : Ptr .s16) (val : int16x4x4_t) : Good none False (Same ptr) (Model.vst4_s16 ptr val) := by
  unfold Model.vst4_s16
  good_store

theorem vst4_s16_typed [Dialect] : Total (k!"vst4_s16", .fn Source.vst4_s16) := by
  refine total_fn vst4_s16_sig_read fun args h => ?_
  obtain ⟨ptr0, val0, rfl, tptr, tval⟩ := typed2 h
  obtain ⟨ptr, rfl⟩ := tptr
  obtain ⟨val, rfl⟩ := tval
  exact total_mem (called_fn (by kernel_rfl) (vst4_s16_source ptr val)) (vst4_s16_good ptr val)

theorem vst4_s32_good [Dialect] (ptr : Ptr .s32) (val : int32x2x4_t) : Good none False (Same ptr) (Model.vst4_s32 ptr val) := by
  unfold Model.vst4_s32
  good_store

theorem vst4_s32_typed [Dialect] : Total (k!"vst4_s32", .fn Source.vst4_s32) := by
  refine total_fn vst4_s32_sig_read fun args h => ?_
  obtain ⟨ptr0, val0, rfl, tptr, tval⟩ := typed2 h
  obtain ⟨ptr, rfl⟩ := tptr
  obtain ⟨val, rfl⟩ := tval
  exact total_mem (called_fn (by kernel_rfl) (vst4_s32_source ptr val)) (vst4_s32_good ptr val)

theorem vst4_u8_good [Dialect] (ptr : Ptr .u8) (val : uint8x8x4_t) : Good none False (Same ptr) (Model.vst4_u8 ptr val) := by
  unfold Model.vst4_u8
  good_store

theorem vst4_u8_typed [Dialect] : Total (k!"vst4_u8", .fn Source.vst4_u8) := by
  refine total_fn vst4_u8_sig_read fun args h => ?_
  obtain ⟨ptr0, val0, rfl, tptr, tval⟩ := typed2 h
  obtain ⟨ptr, rfl⟩ := tptr
  obtain ⟨val, rfl⟩ := tval
  exact total_mem (called_fn (by kernel_rfl) (vst4_u8_source ptr val)) (vst4_u8_good ptr val)

theorem vst4_u16_good [Dialect] (ptr : Ptr .u16) (val : uint16x4x4_t) : Good none False (Same ptr) (Model.vst4_u16 ptr val) := by
  unfold Model.vst4_u16
  good_store

theorem vst4_u16_typed [Dialect] : Total (k!"vst4_u16", .fn Source.vst4_u16) := by
  refine total_fn vst4_u16_sig_read fun args h => ?_
  obtain ⟨ptr0, val0, rfl, tptr, tval⟩ := typed2 h
  obtain ⟨ptr, rfl⟩ := tptr
  obtain ⟨val, rfl⟩ := tval
  exact total_mem (called_fn (by kernel_rfl) (vst4_u16_source ptr val)) (vst4_u16_good ptr val)

theorem vst4_u32_good [Dialect] (ptr : Ptr .u32) (val : uint32x2x4_t) : Good none False (Same ptr) (Model.vst4_u32 ptr val) := by
  unfold Model.vst4_u32
  good_store

theorem vst4_u32_typed [Dialect] : Total (k!"vst4_u32", .fn Source.vst4_u32) := by
  refine total_fn vst4_u32_sig_read fun args h => ?_
  obtain ⟨ptr0, val0, rfl, tptr, tval⟩ := typed2 h
  obtain ⟨ptr, rfl⟩ := tptr
  obtain ⟨val, rfl⟩ := tval
  exact total_mem (called_fn (by kernel_rfl) (vst4_u32_source ptr val)) (vst4_u32_good ptr val)

theorem vst4q_s8_good [Dialect] (ptr : Ptr .s8) (val : int8x16x4_t) : Good none False (Same ptr) (Model.vst4q_s8 ptr val) := by
  unfold Model.vst4q_s8
  good_store

theorem vst4q_s8_typed [Dialect] : Total (k!"vst4q_s8", .fn Source.vst4q_s8) := by
  refine total_fn vst4q_s8_sig_read fun args h => ?_
  obtain ⟨ptr0, val0, rfl, tptr, tval⟩ := typed2 h
  obtain ⟨ptr, rfl⟩ := tptr
  obtain ⟨val, rfl⟩ := tval
  exact total_mem (called_fn (by kernel_rfl) (vst4q_s8_source ptr val)) (vst4q_s8_good ptr val)

theorem vst4q_s16_good [Dialect] (ptr : Ptr .s16) (val : int16x8x4_t) : Good none False (Same ptr) (Model.vst4q_s16 ptr val) := by
  unfold Model.vst4q_s16
  good_store

theorem vst4q_s16_typed [Dialect] : Total (k!"vst4q_s16", .fn Source.vst4q_s16) := by
  refine total_fn vst4q_s16_sig_read fun args h => ?_
  obtain ⟨ptr0, val0, rfl, tptr, tval⟩ := typed2 h
  obtain ⟨ptr, rfl⟩ := tptr
  obtain ⟨val, rfl⟩ := tval
  exact total_mem (called_fn (by kernel_rfl) (vst4q_s16_source ptr val)) (vst4q_s16_good ptr val)

theorem vst4q_s32_good [Dialect] (ptr : Ptr .s32) (val : int32x4x4_t) : Good none False (Same ptr) (Model.vst4q_s32 ptr val) := by
  unfold Model.vst4q_s32
  good_store

theorem vst4q_s32_typed [Dialect] : Total (k!"vst4q_s32", .fn Source.vst4q_s32) := by
  refine total_fn vst4q_s32_sig_read fun args h => ?_
  obtain ⟨ptr0, val0, rfl, tptr, tval⟩ := typed2 h
  obtain ⟨ptr, rfl⟩ := tptr
  obtain ⟨val, rfl⟩ := tval
  exact total_mem (called_fn (by kernel_rfl) (vst4q_s32_source ptr val)) (vst4q_s32_good ptr val)

theorem vst4q_u8_good [Dialect] (ptr : Ptr .u8) (val : uint8x16x4_t) : Good none False (Same ptr) (Model.vst4q_u8 ptr val) := by
  unfold Model.vst4q_u8
  good_store

theorem vst4q_u8_typed [Dialect] : Total (k!"vst4q_u8", .fn Source.vst4q_u8) := by
  refine total_fn vst4q_u8_sig_read fun args h => ?_
  obtain ⟨ptr0, val0, rfl, tptr, tval⟩ := typed2 h
  obtain ⟨ptr, rfl⟩ := tptr
  obtain ⟨val, rfl⟩ := tval
  exact total_mem (called_fn (by kernel_rfl) (vst4q_u8_source ptr val)) (vst4q_u8_good ptr val)

theorem vst4q_u16_good [Dialect] (ptr : Ptr .u16) (val : uint16x8x4_t) : Good none False (Same ptr) (Model.vst4q_u16 ptr val) := by
  unfold Model.vst4q_u16
  good_store

theorem vst4q_u16_typed [Dialect] : Total (k!"vst4q_u16", .fn Source.vst4q_u16) := by
  refine total_fn vst4q_u16_sig_read fun args h => ?_
  obtain ⟨ptr0, val0, rfl, tptr, tval⟩ := typed2 h
  obtain ⟨ptr, rfl⟩ := tptr
  obtain ⟨val, rfl⟩ := tval
  exact total_mem (called_fn (by kernel_rfl) (vst4q_u16_source ptr val)) (vst4q_u16_good ptr val)

theorem vst4q_u32_good [Dialect] (ptr : Ptr .u32) (val : uint32x4x4_t) : Good none False (Same ptr) (Model.vst4q_u32 ptr val) := by
  unfold Model.vst4q_u32
  good_store

theorem vst4q_u32_typed [Dialect] : Total (k!"vst4q_u32", .fn Source.vst4q_u32) := by
  refine total_fn vst4q_u32_sig_read fun args h => ?_
  obtain ⟨ptr0, val0, rfl, tptr, tval⟩ := typed2 h
  obtain ⟨ptr, rfl⟩ := tptr
  obtain ⟨val, rfl⟩ := tval
  exact total_mem (called_fn (by kernel_rfl) (vst4q_u32_source ptr val)) (vst4q_u32_good ptr val)

theorem vst4q_lane_f32_good [Dialect] (ptr : Ptr .f32) (val : float32x4x4_t) (lane : Int) : Good none False (Same ptr) (Model.vst4q_lane_f32 ptr val lane) := by
  unfold Model.vst4q_lane_f32
  good_store

theorem vst4q_lane_f32_typed [Dialect] : Total (k!"vst4q_lane_f32", .fn Source.vst4q_lane_f32) := by
  refine total_fn vst4q_lane_f32_sig_read fun args h => ?_
  obtain ⟨ptr0, val0, lane0, rfl, tptr, tval, tlane⟩ := typed3 h
  obtain ⟨ptr, rfl⟩ := tptr
  obtain ⟨val, rfl⟩ := tval
  obtain ⟨lane, rfl, hlane⟩ := hasTy_int tlane
  exact total_mem (called_fn (by kernel_rfl) (vst4q_lane_f32_source ptr val lane hlane)) (vst4q_lane_f32_good ptr val lane)

theorem vsubl_s8_good [Dialect] (N : int8x8_t) (M : int8x8_t) : Good none True (fun _ => True) (Model.vsubl_s8 N M) := by
  unfold Model.vsubl_s8
  good_body

theorem vsubl_s8_typed [Dialect] : Total (k!"vsubl_s8", .fn Source.vsubl_s8) := by
  refine total_fn vsubl_s8_sig_read fun args h => ?_
  obtain ⟨N0, M0, rfl, tN, tM⟩ := typed2 h
  obtain ⟨N, rfl⟩ := tN
  obtain ⟨M, rfl⟩ := tM
  exact total_vec (called_fn (by kernel_rfl) (vsubl_s8_source N M)) (vsubl_s8_good N M) (.inl (written_s8x8_s8x8_to_s16x8 _ (.head _) N M))

theorem vsubl_s16_good [Dialect] (N : int16x4_t) (M : int16x4_t) : Good none True (fun _ => True) (Model.vsubl_s16 N M) := by
  unfold Model.vsubl_s16
  good_body

theorem vsubl_s16_typed [Dialect] : Total (k!"vsubl_s16", .fn Source.vsubl_s16) := by
  refine total_fn vsubl_s16_sig_read fun args h => ?_
  obtain ⟨N0, M0, rfl, tN, tM⟩ := typed2 h
  obtain ⟨N, rfl⟩ := tN
  obtain ⟨M, rfl⟩ := tM
  exact total_vec (called_fn (by kernel_rfl) (vsubl_s16_source N M)) (vsubl_s16_good N M) (.inl (written_s16x4_s16x4_to_s32x4 _ (.head _) N M))

theorem vsubl_s32_good [Dialect] (N : int32x4_t) (M : int32x2_t) : Good none True (fun _ => True) (Model.vsubl_s32 N M) := by
  unfold Model.vsubl_s32
  good_body

theorem vsubl_s32_typed [Dialect] : Total (k!"vsubl_s32", .fn Source.vsubl_s32) := by
  refine total_fn vsubl_s32_sig_read fun args h => ?_
  obtain ⟨N0, M0, rfl, tN, tM⟩ := typed2 h
  obtain ⟨N, rfl⟩ := tN
  obtain ⟨M, rfl⟩ := tM
  exact total_vec (called_fn (by kernel_rfl) (vsubl_s32_source N M)) (vsubl_s32_good N M) (.inl (written_s32x4_s32x2_to_s64x2 _ (.head _) N M))

theorem vsubl_u8_good [Dialect] (N : uint8x8_t) (M : uint8x8_t) : Good none True (fun _ => True) (Model.vsubl_u8 N M) := by
  unfold Model.vsubl_u8
  good_body

theorem vsubl_u8_typed [Dialect] : Total (k!"vsubl_u8", .fn Source.vsubl_u8) := by
  refine total_fn vsubl_u8_sig_read fun args h => ?_
  obtain ⟨N0, M0, rfl, tN, tM⟩ := typed2 h
  obtain ⟨N, rfl⟩ := tN
  obtain ⟨M, rfl⟩ := tM
  exact total_vec (called_fn (by kernel_rfl) (vsubl_u8_source N M)) (vsubl_u8_good N M) (.inl (written_u8x8_u8x8_to_u16x8 _ (.tail _ (.head _)) N M))

theorem vsubl_u16_good [Dialect] (N : uint16x4_t) (M : uint16x4_t) : Good none True (fun _ => True) (Model.vsubl_u16 N M) := by
  unfold Model.vsubl_u16
  good_body

theorem vsubl_u16_typed [Dialect] : Total (k!"vsubl_u16", .fn Source.vsubl_u16) := by
  refine total_fn vsubl_u16_sig_read fun args h => ?_
  obtain ⟨N0, M0, rfl, tN, tM⟩ := typed2 h
  obtain ⟨N, rfl⟩ := tN
  obtain ⟨M, rfl⟩ := tM
  exact total_vec (called_fn (by kernel_rfl) (vsubl_u16_source N M)) (vsubl_u16_good N M) (.inl (written_u16x4_u16x4_to_u32x4 _ (.head _) N M))

theorem vsubl_u32_good [Dialect] (N : uint32x4_t) (M : uint32x2_t) : Good none True (fun _ => True) (Model.vsubl_u32 N M) := by
  unfold Model.vsubl_u32
  good_body

theorem vsubl_u32_typed [Dialect] : Total (k!"vsubl_u32", .fn Source.vsubl_u32) := by
  refine total_fn vsubl_u32_sig_read fun args h => ?_
  obtain ⟨N0, M0, rfl, tN, tM⟩ := typed2 h
  obtain ⟨N, rfl⟩ := tN
  obtain ⟨M, rfl⟩ := tM
  exact total_vec (called_fn (by kernel_rfl) (vsubl_u32_source N M)) (vsubl_u32_good N M) (.inl (written_u32x4_u32x2_to_u64x2 _ (.head _) N M))

theorem vsubw_s8_good [Dialect] (N : int16x8_t) (M : int8x8_t) : Good none True (fun _ => True) (Model.vsubw_s8 N M) := by
  unfold Model.vsubw_s8
  good_body

theorem vsubw_s8_typed [Dialect] : Total (k!"vsubw_s8", .fn Source.vsubw_s8) := by
  refine total_fn vsubw_s8_sig_read fun args h => ?_
  obtain ⟨N0, M0, rfl, tN, tM⟩ := typed2 h
  obtain ⟨N, rfl⟩ := tN
  obtain ⟨M, rfl⟩ := tM
  exact total_vec (called_fn (by kernel_rfl) (vsubw_s8_source N M)) (vsubw_s8_good N M) (.inl (written_s16x8_s8x8_to_s16x8 _ (.tail _ (.head _)) N M))

theorem vsubw_s16_good [Dialect] (N : int32x4_t) (M : int16x4_t) : Good none True (fun _ => True) (Model.vsubw_s16 N M) := by
  unfold Model.vsubw_s16
  good_body

theorem vsubw_s16_typed [Dialect] : Total (k!"vsubw_s16", .fn Source.vsubw_s16) := by
  refine total_fn vsubw_s16_sig_read fun args h => ?_
  obtain ⟨N0, M0, rfl, tN, tM⟩ := typed2 h
  obtain ⟨N, rfl⟩ := tN
  obtain ⟨M, rfl⟩ := tM
  exact total_vec (called_fn (by kernel_rfl) (vsubw_s16_source N M)) (vsubw_s16_good N M) (.inl (written_s32x4_s16x4_to_s32x4 _ (.tail _ (.head _)) N M))

theorem vsubw_s32_good [Dialect] (N : int64x2_t) (M : int32x2_t) : Good none True (fun _ => True) (Model.vsubw_s32 N M) := by
  unfold Model.vsubw_s32
  good_body

theorem vsubw_s32_typed [Dialect] : Total (k!"vsubw_s32", .fn Source.vsubw_s32) := by
  refine total_fn vsubw_s32_sig_read fun args h => ?_
  obtain ⟨N0, M0, rfl, tN, tM⟩ := typed2 h
  obtain ⟨N, rfl⟩ := tN
  obtain ⟨M, rfl⟩ := tM
  exact total_vec (called_fn (by kernel_rfl) (vsubw_s32_source N M)) (vsubw_s32_good N M) (.inl (written_s64x2_s32x2_to_s64x2 _ (.tail _ (.head _)) N M))

theorem vsubw_u8_good [Dialect] (N : uint16x8_t) (M : uint8x8_t) : Good none True (fun _ => True) (Model.vsubw_u8 N M) := by
  unfold Model.vsubw_u8
  good_body

theorem vsubw_u8_typed [Dialect] : Total (k!"vsubw_u8", .fn Source.vsubw_u8) := by
  refine total_fn vsubw_u8_sig_read fun args h => ?_
  obtain ⟨N0, M0, rfl, tN, tM⟩ := typed2 h
  obtain ⟨N, rfl⟩ := tN
  obtain ⟨M, rfl⟩ := tM
  exact total_vec (called_fn (by kernel_rfl) (vsubw_u8_source N M)) (vsubw_u8_good N M) (.inl (written_u16x8_u8x8_to_u16x8 _ (.tail _ (.head _)) N M))

theorem vsubw_u16_good [Dialect] (N : uint32x4_t) (M : uint16x4_t) : Good none True (fun _ => True) (Model.vsubw_u16 N M) := by
  unfold Model.vsubw_u16
  good_body

theorem vsubw_u16_typed [Dialect] : Total (k!"vsubw_u16", .fn Source.vsubw_u16) := by
  refine total_fn vsubw_u16_sig_read fun args h => ?_
  obtain ⟨N0, M0, rfl, tN, tM⟩ := typed2 h
  obtain ⟨N, rfl⟩ := tN
  obtain ⟨M, rfl⟩ := tM
  exact total_vec (called_fn (by kernel_rfl) (vsubw_u16_source N M)) (vsubw_u16_good N M) (.inl (written_u32x4_u16x4_to_u32x4 _ (.tail _ (.head _)) N M))

theorem vsubw_u32_good [Dialect] (N : uint64x2_t) (M : uint32x2_t) : Good none True (fun _ => True) (Model.vsubw_u32 N M) := by
  unfold Model.vsubw_u32
  good_body

theorem vsubw_u32_typed [Dialect] : Total (k!"vsubw_u32", .fn Source.vsubw_u32) := by
  refine total_fn vsubw_u32_sig_read fun args h => ?_
  obtain ⟨N0, M0, rfl, tN, tM⟩ := typed2 h
  obtain ⟨N, rfl⟩ := tN
  obtain ⟨M, rfl⟩ := tM
  exact total_vec (called_fn (by kernel_rfl) (vsubw_u32_source N M)) (vsubw_u32_good N M) (.inl (written_u64x2_u32x2_to_u64x2 _ (.tail _ (.head _)) N M))

end Verif.Props
