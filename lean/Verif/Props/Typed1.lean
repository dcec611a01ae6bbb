import Verif.Typing
import Verif.ArmLemmas
import Verif.Props.Signatures
import Verif.Props.Outcome
import Verif.Props.TypedBase

/-! # Calls with arguments of the declared types, part 1 (C78)

Generated by `tools/gen_typed.py`. -/

set_option linter.unusedVariables false

namespace Verif.Props
open Verif.Cpp Verif.Arm

theorem vld1_s16_good [Dialect] (ptr : Ptr .s16) : Good none True (fun _ => True) (Model.vld1_s16 ptr) := by
  unfold Model.vld1_s16
  good_body

theorem vld1_s16_typed [Dialect] : Total (k!"vld1_s16", .fn Source.vld1_s16) := by
  refine total_fn vld1_s16_sig_read fun args h => ?_
  obtain ⟨ptr0, rfl, tptr⟩ := typed1 h
  obtain ⟨ptr, rfl⟩ := tptr
  exact total_vec (called_fn (by kernel_rfl) (vld1_s16_source ptr)) (vld1_s16_good ptr) (.inl (written_ps16_to_s16x4 _ (.head _) ptr))

theorem vld1_u32_good [Dialect] (ptr : Ptr .u32) : Good none True (fun _ => True) (Model.vld1_u32 ptr) := by
  unfold Model.vld1_u32
  good_body

theorem vld1_u32_typed [Dialect] : Total (k!"vld1_u32", .fn Source.vld1_u32) := by
  refine total_fn vld1_u32_sig_read fun args h => ?_
  obtain ⟨ptr0, rfl, tptr⟩ := typed1 h
  obtain ⟨ptr, rfl⟩ := tptr
  exact total_vec (called_fn (by kernel_rfl) (vld1_u32_source ptr)) (vld1_u32_good ptr) (.inl (written_pu32_to_u32x2 _ (.head _) ptr))

theorem vld1_u64_good [Dialect] (ptr : Ptr .u64) : Good none True (fun _ => True) (Model.vld1_u64 ptr) := by
  unfold Model.vld1_u64
  good_body

theorem vld1_u64_typed [Dialect] : Total (k!"vld1_u64", .fn Source.vld1_u64) := by
  refine total_fn vld1_u64_sig_read fun args h => ?_
  obtain ⟨ptr0, rfl, tptr⟩ := typed1 h
  obtain ⟨ptr, rfl⟩ := tptr
  exact total_vec (called_fn (by kernel_rfl) (vld1_u64_source ptr)) (vld1_u64_good ptr) (.inl (written_pu64_to_u64x1 _ (.head _) ptr))

theorem vld1_s32_good [Dialect] (ptr : Ptr .s32) : Good none True (fun _ => True) (Model.vld1_s32 ptr) := by
  unfold Model.vld1_s32
  good_body

theorem vld1_s32_typed [Dialect] : Total (k!"vld1_s32", .fn Source.vld1_s32) := by
  refine total_fn vld1_s32_sig_read fun args h => ?_
  obtain ⟨ptr0, rfl, tptr⟩ := typed1 h
  obtain ⟨ptr, rfl⟩ := tptr
  exact total_vec (called_fn (by kernel_rfl) (vld1_s32_source ptr)) (vld1_s32_good ptr) (.inl (written_ps32_to_s32x2 _ (.head _) ptr))

theorem vld1_s64_good [Dialect] (ptr : Ptr .s64) : Good none True (fun _ => True) (Model.vld1_s64 ptr) := by
  unfold Model.vld1_s64
  good_body

theorem vld1_s64_typed [Dialect] : Total (k!"vld1_s64", .fn Source.vld1_s64) := by
  refine total_fn vld1_s64_sig_read fun args h => ?_
  obtain ⟨ptr0, rfl, tptr⟩ := typed1 h
  obtain ⟨ptr, rfl⟩ := tptr
  exact total_vec (called_fn (by kernel_rfl) (vld1_s64_source ptr)) (vld1_s64_good ptr) (.inl (written_ps64_to_s64x1 _ (.head _) ptr))

theorem vld1_f32_good [Dialect] (ptr : Ptr .f32) : Good none True (fun _ => True) (Model.vld1_f32 ptr) := by
  unfold Model.vld1_f32
  good_body

theorem vld1_f32_typed [Dialect] : Total (k!"vld1_f32", .fn Source.vld1_f32) := by
  refine total_fn vld1_f32_sig_read fun args h => ?_
  obtain ⟨ptr0, rfl, tptr⟩ := typed1 h
  obtain ⟨ptr, rfl⟩ := tptr
  exact total_vec (called_fn (by kernel_rfl) (vld1_f32_source ptr)) (vld1_f32_good ptr) (.inl (written_pf32_to_f32x2 _ (.head _) ptr))

theorem vld1_f64_good [Dialect] (ptr : Ptr .f64) : Good none True (fun _ => True) (Model.vld1_f64 ptr) := by
  unfold Model.vld1_f64
  good_body

theorem vld1_f64_typed [Dialect] : Total (k!"vld1_f64", .fn Source.vld1_f64) := by
  refine total_fn vld1_f64_sig_read fun args h => ?_
  obtain ⟨ptr0, rfl, tptr⟩ := typed1 h
  obtain ⟨ptr, rfl⟩ := tptr
  exact total_vec (called_fn (by kernel_rfl) (vld1_f64_source ptr)) (vld1_f64_good ptr) (.inl (written_pf64_to_f64x1 _ (.head _) ptr))

theorem vld1q_u8_good [Dialect] (ptr : Ptr .u8) : Good none True (fun _ => True) (Model.vld1q_u8 ptr) := by
  unfold Model.vld1q_u8
  good_body

theorem vld1q_u8_typed [Dialect] : Total (k!"vld1q_u8", .fn Source.vld1q_u8) := by
  refine total_fn vld1q_u8_sig_read fun args h => ?_
  obtain ⟨ptr0, rfl, tptr⟩ := typed1 h
  obtain ⟨ptr, rfl⟩ := tptr
  exact total_vec (called_fn (by kernel_rfl) (vld1q_u8_source ptr)) (vld1q_u8_good ptr) (.inl (written_pu8_to_u8x16 _ (.head _) ptr))

theorem vld1q_s8_good [Dialect] (ptr : Ptr .s8) : Good none True (fun _ => True) (Model.vld1q_s8 ptr) := by
  unfold Model.vld1q_s8
  good_body

theorem vld1q_s8_typed [Dialect] : Total (k!"vld1q_s8", .fn Source.vld1q_s8) := by
  refine total_fn vld1q_s8_sig_read fun args h => ?_
  obtain ⟨ptr0, rfl, tptr⟩ := typed1 h
  obtain ⟨ptr, rfl⟩ := tptr
  exact total_vec (called_fn (by kernel_rfl) (vld1q_s8_source ptr)) (vld1q_s8_good ptr) (.inl (written_ps8_to_s8x16 _ (.head _) ptr))

theorem vld1q_u16_good [Dialect] (ptr : Ptr .u16) : Good none True (fun _ => True) (Model.vld1q_u16 ptr) := by
  unfold Model.vld1q_u16
  good_body

theorem vld1q_u16_typed [Dialect] : Total (k!"vld1q_u16", .fn Source.vld1q_u16) := by
  refine total_fn vld1q_u16_sig_read fun args h => ?_
  obtain ⟨ptr0, rfl, tptr⟩ := typed1 h
  obtain ⟨ptr, rfl⟩ := tptr
  exact total_vec (called_fn (by kernel_rfl) (vld1q_u16_source ptr)) (vld1q_u16_good ptr) (.inl (written_pu16_to_u16x8 _ (.head _) ptr))

theorem vld1q_s16_good [Dialect] (ptr : Ptr .s16) : Good none True (fun _ => True) (Model.vld1q_s16 ptr) := by
  unfold Model.vld1q_s16
  good_body

theorem vld1q_s16_typed [Dialect] : Total (k!"vld1q_s16", .fn Source.vld1q_s16) := by
  refine total_fn vld1q_s16_sig_read fun args h => ?_
  obtain ⟨ptr0, rfl, tptr⟩ := typed1 h
  obtain ⟨ptr, rfl⟩ := tptr
  exact total_vec (called_fn (by kernel_rfl) (vld1q_s16_source ptr)) (vld1q_s16_good ptr) (.inl (written_ps16_to_s16x8 _ (.head _) ptr))

theorem vld1q_u32_good [Dialect] (ptr : Ptr .u32) : Good none True (fun _ => True) (Model.vld1q_u32 ptr) := by
  unfold Model.vld1q_u32
  good_body

theorem vld1q_u32_typed [Dialect] : Total (k!"vld1q_u32", .fn Source.vld1q_u32) := by
  refine total_fn vld1q_u32_sig_read fun args h => ?_
  obtain ⟨ptr0, rfl, tptr⟩ := typed1 h
  obtain ⟨ptr, rfl⟩ := tptr
  exact total_vec (called_fn (by kernel_rfl) (vld1q_u32_source ptr)) (vld1q_u32_good ptr) (.inl (written_pu32_to_u32x4 _ (.head _) ptr))

theorem vld1q_s32_good [Dialect] (ptr : Ptr .s32) : Good none True (fun _ => True) (Model.vld1q_s32 ptr) := by
  unfold Model.vld1q_s32
  good_body

theorem vld1q_s32_typed [Dialect] : Total (k!"vld1q_s32", .fn Source.vld1q_s32) := by
  refine total_fn vld1q_s32_sig_read fun args h => ?_
  obtain ⟨ptr0, rfl, tptr⟩ := typed1 h
  obtain ⟨ptr, rfl⟩ := tptr
  exact total_vec (called_fn (by kernel_rfl) (vld1q_s32_source ptr)) (vld1q_s32_good ptr) (.inl (written_ps32_to_s32x4 _ (.head _) ptr))

theorem vld1q_s64_good [Dialect] (ptr : Ptr .s64) : Good none True (fun _ => True) (Model.vld1q_s64 ptr) := by
  unfold Model.vld1q_s64
  good_body

theorem vld1q_s64_typed [Dialect] : Total (k!"vld1q_s64", .fn Source.vld1q_s64) := by
  refine total_fn vld1q_s64_sig_read fun args h => ?_
  obtain ⟨ptr0, rfl, tptr⟩ := typed1 h
  obtain ⟨ptr, rfl⟩ := tptr
  exact total_vec (called_fn (by kernel_rfl) (vld1q_s64_source ptr)) (vld1q_s64_good ptr) (.inl (written_ps64_to_s64x2 _ (.head _) ptr))

theorem vld1q_u64_good [Dialect] (ptr : Ptr .u64) : Good none True (fun _ => True) (Model.vld1q_u64 ptr) := by
  unfold Model.vld1q_u64
  good_body

theorem vld1q_u64_typed [Dialect] : Total (k!"vld1q_u64", .fn Source.vld1q_u64) := by
  refine total_fn vld1q_u64_sig_read fun args h => ?_
  obtain ⟨ptr0, rfl, tptr⟩ := typed1 h
  obtain ⟨ptr, rfl⟩ := tptr
  exact total_vec (called_fn (by kernel_rfl) (vld1q_u64_source ptr)) (vld1q_u64_good ptr) (.inl (written_pu64_to_u64x2 _ (.head _) ptr))

theorem vld1q_f32_good [Dialect] (ptr : Ptr .f32) : Good none True (fun _ => True) (Model.vld1q_f32 ptr) := by
  unfold Model.vld1q_f32
  good_body

theorem vld1q_f32_typed [Dialect] : Total (k!"vld1q_f32", .fn Source.vld1q_f32) := by
  refine total_fn vld1q_f32_sig_read fun args h => ?_
  obtain ⟨ptr0, rfl, tptr⟩ := typed1 h
  obtain ⟨ptr, rfl⟩ := tptr
  exact total_vec (called_fn (by kernel_rfl) (vld1q_f32_source ptr)) (vld1q_f32_good ptr) (.inl (written_pf32_to_f32x4 _ (.head _) ptr))

theorem vld2_u8_good [Dialect] (ptr : Ptr .u8) : Good none True (fun _ => True) (Model.vld2_u8 ptr) := by
  unfold Model.vld2_u8
  good_body

theorem vld2_u8_typed [Dialect] : Total (k!"vld2_u8", .fn Source.vld2_u8) := by
  refine total_fn vld2_u8_sig_read fun args h => ?_
  obtain ⟨ptr0, rfl, tptr⟩ := typed1 h
  obtain ⟨ptr, rfl⟩ := tptr
  exact total_arr (called_fn (by kernel_rfl) (vld2_u8_source ptr)) (vld2_u8_good ptr) (.inl (written_pu8_to_u8x8x2 _ (.head _) ptr))

theorem vld2_s8_good [Dialect] (ptr : Ptr .s8) : Good none True (fun _ => True) (Model.vld2_s8 ptr) := by
  unfold Model.vld2_s8
  good_body

theorem vld2_s8_typed [Dialect] : Total (k!"vld2_s8", .fn Source.vld2_s8) := by
  refine total_fn vld2_s8_sig_read fun args h => ?_
  obtain ⟨ptr0, rfl, tptr⟩ := typed1 h
  obtain ⟨ptr, rfl⟩ := tptr
  exact total_arr (called_fn (by kernel_rfl) (vld2_s8_source ptr)) (vld2_s8_good ptr) (.inl (written_ps8_to_s8x8x2 _ (.head _) ptr))

theorem vld2_u16_good [Dialect] (ptr : Ptr .u16) : Good none True (fun _ => True) (Model.vld2_u16 ptr) := by
  unfold Model.vld2_u16
  good_body

theorem vld2_u16_typed [Dialect] : Total (k!"vld2_u16", .fn Source.vld2_u16) := by
  refine total_fn vld2_u16_sig_read fun args h => ?_
  obtain ⟨ptr0, rfl, tptr⟩ := typed1 h
  obtain ⟨ptr, rfl⟩ := tptr
  exact total_arr (called_fn (by kernel_rfl) (vld2_u16_source ptr)) (vld2_u16_good ptr) (.inl (written_pu16_to_u16x4x2 _ (.head _) ptr))

theorem vld2_s16_good [Dialect] (ptr : Ptr .s16) : Good none True (fun _ => True) (Model.vld2_s16 ptr) := by
  unfold Model.vld2_s16
  good_body

theorem vld2_s16_typed [Dialect] : Total (k!"vld2_s16", .fn Source.vld2_s16) := by
  refine total_fn vld2_s16_sig_read fun args h => ?_
  obtain ⟨ptr0, rfl, tptr⟩ := typed1 h
  obtain ⟨ptr, rfl⟩ := tptr
  exact total_arr (called_fn (by kernel_rfl) (vld2_s16_source ptr)) (vld2_s16_good ptr) (.inl (written_ps16_to_s16x4x2 _ (.head _) ptr))

theorem vld2_u32_good [Dialect] (ptr : Ptr .u32) : Good none True (fun _ => True) (Model.vld2_u32 ptr) := by
  unfold Model.vld2_u32
  good_body

theorem vld2_u32_typed [Dialect] : Total (k!"vld2_u32", .fn Source.vld2_u32) := by
  refine total_fn vld2_u32_sig_read fun args h => ?_
  obtain ⟨ptr0, rfl, tptr⟩ := typed1 h
  obtain ⟨ptr, rfl⟩ := tptr
  exact total_arr (called_fn (by kernel_rfl) (vld2_u32_source ptr)) (vld2_u32_good ptr) (.inl (written_pu32_to_u32x2x2 _ (.head _) ptr))

theorem vld_s32_good [Dialect] (ptr : Ptr .s32) : Good none True (fun _ => True) (Model.vld_s32 ptr) := by
  unfold Model.vld_s32
  good_body

theorem vld_s32_typed [Dialect] : Total (k!"vld_s32", .fn Source.vld_s32) := by
  refine total_fn vld_s32_sig_read fun args h => ?_
  obtain ⟨ptr0, rfl, tptr⟩ := typed1 h
  obtain ⟨ptr, rfl⟩ := tptr
  exact total_arr (called_fn (by kernel_rfl) (vld_s32_source ptr)) (vld_s32_good ptr) (.inl (written_ps32_to_s32x2x2 _ (.head _) ptr))

theorem vld2_f32_good [Dialect] (ptr : Ptr .f32) : Good none True (fun _ => True) (Model.vld2_f32 ptr) := by
  unfold Model.vld2_f32
  good_body

theorem vld2_f32_typed [Dialect] : Total (k!"vld2_f32", .fn Source.vld2_f32) := by
  refine total_fn vld2_f32_sig_read fun args h => ?_
  obtain ⟨ptr0, rfl, tptr⟩ := typed1 h
  obtain ⟨ptr, rfl⟩ := tptr
  exact total_arr (called_fn (by kernel_rfl) (vld2_f32_source ptr)) (vld2_f32_good ptr) (.inl (written_pf_to_f32x2x2 _ (.head _) ptr))

theorem vld2q_u8_good [Dialect] (ptr : Ptr .u8) : Good none True (fun _ => True) (Model.vld2q_u8 ptr) := by
  unfold Model.vld2q_u8
  good_body

theorem vld2q_u8_typed [Dialect] : Total (k!"vld2q_u8", .fn Source.vld2q_u8) := by
  refine total_fn vld2q_u8_sig_read fun args h => ?_
  obtain ⟨ptr0, rfl, tptr⟩ := typed1 h
  obtain ⟨ptr, rfl⟩ := tptr
  exact total_arr (called_fn (by kernel_rfl) (vld2q_u8_source ptr)) (vld2q_u8_good ptr) (.inl (written_pu8_to_u8x16x2 _ (.head _) ptr))

theorem vld2q_s8_good [Dialect] (ptr : Ptr .s8) : Good none True (fun _ => True) (Model.vld2q_s8 ptr) := by
  unfold Model.vld2q_s8
  good_body

theorem vld2q_s8_typed [Dialect] : Total (k!"vld2q_s8", .fn Source.vld2q_s8) := by
  refine total_fn vld2q_s8_sig_read fun args h => ?_
  obtain ⟨ptr0, rfl, tptr⟩ := typed1 h
  obtain ⟨ptr, rfl⟩ := tptr
  exact total_arr (called_fn (by kernel_rfl) (vld2q_s8_source ptr)) (vld2q_s8_good ptr) (.inl (written_ps8_to_s8x16x2 _ (.head _) ptr))

theorem vld2q_u16_good [Dialect] (ptr : Ptr .u16) : Good none True (fun _ => True) (Model.vld2q_u16 ptr) := by
  unfold Model.vld2q_u16
  good_body

theorem vld2q_u16_typed [Dialect] : Total (k!"vld2q_u16", .fn Source.vld2q_u16) := by
  refine total_fn vld2q_u16_sig_read fun args h => ?_
  obtain ⟨ptr0, rfl, tptr⟩ := typed1 h
  obtain ⟨ptr, rfl⟩ := tptr
  exact total_arr (called_fn (by kernel_rfl) (vld2q_u16_source ptr)) (vld2q_u16_good ptr) (.inl (written_pu16_to_u16x8x2 _ (.head _) ptr))

theorem vld2q_s16_good [Dialect] (ptr : Ptr .s16) : Good none True (fun _ => True) (Model.vld2q_s16 ptr) := by
  unfold Model.vld2q_s16
  good_body

theorem vld2q_s16_typed [Dialect] : Total (k!"vld2q_s16", .fn Source.vld2q_s16) := by
  refine total_fn vld2q_s16_sig_read fun args h => ?_
  obtain ⟨ptr0, rfl, tptr⟩ := typed1 h
  obtain ⟨ptr, rfl⟩ := tptr
  exact total_arr (called_fn (by kernel_rfl) (vld2q_s16_source ptr)) (vld2q_s16_good ptr) (.inl (written_ps16_to_s16x8x2 _ (.head _) ptr))

theorem vld2q_u32_good [Dialect] (ptr : Ptr .u32) : Good none True (fun _ => True) (Model.vld2q_u32 ptr) := by
  unfold Model.vld2q_u32
  good_body

theorem vld2q_u32_typed [Dialect] : Total (k!"vld2q_u32", .fn Source.vld2q_u32) := by
  refine total_fn vld2q_u32_sig_read fun args h => ?_
  obtain ⟨ptr0, rfl, tptr⟩ := typed1 h
  obtain ⟨ptr, rfl⟩ := tptr
  exact total_arr (called_fn (by kernel_rfl) (vld2q_u32_source ptr)) (vld2q_u32_good ptr) (.inl (written_pu32_to_u32x4x2 _ (.head _) ptr))

theorem vld2q_s32_good [Dialect] (ptr : Ptr .s32) : Good none True (fun _ => True) (Model.vld2q_s32 ptr) := by
  unfold Model.vld2q_s32
  good_body

theorem vld2q_s32_typed [Dialect] : Total (k!"vld2q_s32", .fn Source.vld2q_s32) := by
  refine total_fn vld2q_s32_sig_read fun args h => ?_
  obtain ⟨ptr0, rfl, tptr⟩ := typed1 h
  obtain ⟨ptr, rfl⟩ := tptr
  exact total_arr (called_fn (by kernel_rfl) (vld2q_s32_source ptr)) (vld2q_s32_good ptr) (.inl (written_ps32_to_s32x4x2 _ (.head _) ptr))

theorem vld3_u8_good [Dialect] (ptr : Ptr .u8) : Good none True (fun _ => True) (Model.vld3_u8 ptr) := by
  unfold Model.vld3_u8
  good_body

theorem vld3_u8_typed [Dialect] : Total (k!"vld3_u8", .fn Source.vld3_u8) := by
  refine total_fn vld3_u8_sig_read fun args h => ?_
  obtain ⟨ptr0, rfl, tptr⟩ := typed1 h
  obtain ⟨ptr, rfl⟩ := tptr
  exact total_arr (called_fn (by kernel_rfl) (vld3_u8_source ptr)) (vld3_u8_good ptr) (.inl (written_pu8_to_u8x8x3 _ (.head _) ptr))

theorem vld3_s8_good [Dialect] (ptr : Ptr .s8) : Good none True (fun _ => True) (Model.vld3_s8 ptr) := by
  unfold Model.vld3_s8
  good_body

theorem vld3_s8_typed [Dialect] : Total (k!"vld3_s8", .fn Source.vld3_s8) := by
  refine total_fn vld3_s8_sig_read fun args h => ?_
  obtain ⟨ptr0, rfl, tptr⟩ := typed1 h
  obtain ⟨ptr, rfl⟩ := tptr
  exact total_arr (called_fn (by kernel_rfl) (vld3_s8_source ptr)) (vld3_s8_good ptr) (.inl (written_ps8_to_s8x8x3 _ (.head _) ptr))

theorem vld3_u16_good [Dialect] (ptr : Ptr .u16) : Good none True (fun _ => True) (Model.vld3_u16 ptr) := by
  unfold Model.vld3_u16
  good_body

theorem vld3_u16_typed [Dialect] : Total (k!"vld3_u16", .fn Source.vld3_u16) := by
  refine total_fn vld3_u16_sig_read fun args h => ?_
  obtain ⟨ptr0, rfl, tptr⟩ := typed1 h
  obtain ⟨ptr, rfl⟩ := tptr
  exact total_arr (called_fn (by kernel_rfl) (vld3_u16_source ptr)) (vld3_u16_good ptr) (.inl (written_pu16_to_u16x4x3 _ (.head _) ptr))

theorem vld3_s16_good [Dialect] (ptr : Ptr .s16) : Good none True (fun _ => True) (Model.vld3_s16 ptr) := by
  unfold Model.vld3_s16
  good_body

theorem vld3_s16_typed [Dialect] : Total (k!"vld3_s16", .fn Source.vld3_s16) := by
  refine total_fn vld3_s16_sig_read fun args h => ?_
  obtain ⟨ptr0, rfl, tptr⟩ := typed1 h
  obtain ⟨ptr, rfl⟩ := tptr
  exact total_arr (called_fn (by kernel_rfl) (vld3_s16_source ptr)) (vld3_s16_good ptr) (.inl (written_ps16_to_s16x4x3 _ (.head _) ptr))

theorem vld3_u32_good [Dialect] (ptr : Ptr .u32) : Good none True (fun _ => True) (Model.vld3_u32 ptr) := by
  unfold Model.vld3_u32
  good_body

theorem vld3_u32_typed [Dialect] : Total (k!"vld3_u32", .fn Source.vld3_u32) := by
  refine total_fn vld3_u32_sig_read fun args h => ?_
  obtain ⟨ptr0, rfl, tptr⟩ := typed1 h
  obtain ⟨ptr, rfl⟩ := tptr
  exact total_arr (called_fn (by kernel_rfl) (vld3_u32_source ptr)) (vld3_u32_good ptr) (.inl (written_pu32_to_u32x2x3 _ (.head _) ptr))

theorem vld3_s32_good [Dialect] (ptr : Ptr .s32) : Good none True (fun _ => True) (Model.vld3_s32 ptr) := by
  unfold Model.vld3_s32
  good_body

theorem vld3_s32_typed [Dialect] : Total (k!"vld3_s32", .fn Source.vld3_s32) := by
  refine total_fn vld3_s32_sig_read fun args h => ?_
  obtain ⟨ptr0, rfl, tptr⟩ := typed1 h
  obtain ⟨ptr, rfl⟩ := tptr
  exact total_arr (called_fn (by kernel_rfl) (vld3_s32_source ptr)) (vld3_s32_good ptr) (.inl (written_ps32_to_s32x2x3 _ (.head _) ptr))

theorem vld3_f32_good [Dialect] (ptr : Ptr .f32) : Good none True (fun _ => True) (Model.vld3_f32 ptr) := by
  unfold Model.vld3_f32
  good_body

theorem vld3_f32_typed [Dialect] : Total (k!"vld3_f32", .fn Source.vld3_f32) := by
  refine total_fn vld3_f32_sig_read fun args h => ?_
  obtain ⟨ptr0, rfl, tptr⟩ := typed1 h
  obtain ⟨ptr, rfl⟩ := tptr
  exact total_arr (called_fn (by kernel_rfl) (vld3_f32_source ptr)) (vld3_f32_good ptr) (.inl (written_pf_to_f32x2x3 _ (.head _) ptr))

theorem vld3q_u8_good [Dialect] (ptr : Ptr .u8) : Good none True (fun _ => True) (Model.vld3q_u8 ptr) := by
  unfold Model.vld3q_u8
  good_body

theorem vld3q_u8_typed [Dialect] : Total (k!"vld3q_u8", .fn Source.vld3q_u8) := by
  refine total_fn vld3q_u8_sig_read fun args h => ?_
  obtain ⟨ptr0, rfl, tptr⟩ := typed1 h
  obtain ⟨ptr, rfl⟩ := tptr
  exact total_arr (called_fn (by kernel_rfl) (vld3q_u8_source ptr)) (vld3q_u8_good ptr) (.inl (written_pu8_to_u8x16x3 _ (.head _) ptr))

theorem vld3q_s8_good [Dialect] (ptr : Ptr .s8) : Good none True (fun _ => True) (Model.vld3q_s8 ptr) := by
  unfold Model.vld3q_s8
  good_body

theorem vld3q_s8_typed [Dialect] : Total (k!"vld3q_s8", .fn Source.vld3q_s8) := by
  refine total_fn vld3q_s8_sig_read fun args h => ?_
  obtain ⟨ptr0, rfl, tptr⟩ := typed1 h
  obtain ⟨ptr, rfl⟩ := tptr
  exact total_arr (called_fn (by kernel_rfl) (vld3q_s8_source ptr)) (vld3q_s8_good ptr) (.inl (written_ps8_to_s8x16x3 _ (.head _) ptr))

theorem vld3q_u16_good [Dialect] (ptr : Ptr .u16) : Good none True (fun _ => True) (Model.vld3q_u16 ptr) := by
  unfold Model.vld3q_u16
  good_body

theorem vld3q_u16_typed [Dialect] : Total (k!"vld3q_u16", .fn Source.vld3q_u16) := by
  refine total_fn vld3q_u16_sig_read fun args h => ?_
  obtain ⟨ptr0, rfl, tptr⟩ := typed1 h
  obtain ⟨ptr, rfl⟩ := tptr
  exact total_arr (called_fn (by kernel_rfl) (vld3q_u16_source ptr)) (vld3q_u16_good ptr) (.inl (written_pu16_to_u16x8x3 _ (.head _) ptr))

theorem vld3q_s16_good [Dialect] (ptr : Ptr .s16) : Good none True (fun _ => True) (Model.vld3q_s16 ptr) := by
  unfold Model.vld3q_s16
  good_body

theorem vld3q_s16_typed [Dialect] : Total (k!"vld3q_s16", .fn Source.vld3q_s16) := by
  refine total_fn vld3q_s16_sig_read fun args h => ?_
  obtain ⟨ptr0, rfl, tptr⟩ := typed1 h
  obtain ⟨ptr, rfl⟩ := tptr
  exact total_arr (called_fn (by kernel_rfl) (vld3q_s16_source ptr)) (vld3q_s16_good ptr) (.inl (written_ps16_to_s16x8x3 _ (.head _) ptr))

theorem vld3q_u32_good [Dialect] (ptr : Ptr .u32) : Good none True (fun _ => True) (Model.vld3q_u32 ptr) := by
  unfold Model.vld3q_u32
  good_body

theorem vld3q_u32_typed [Dialect] : Total (k!"vld3q_u32", .fn Source.vld3q_u32) := by
  refine total_fn vld3q_u32_sig_read fun args h => ?_
  obtain ⟨ptr0, rfl, tptr⟩ := typed1 h
  obtain ⟨ptr, rfl⟩ := tptr
  exact total_arr (called_fn (by kernel_rfl) (vld3q_u32_source ptr)) (vld3q_u32_good ptr) (.inl (written_pu32_to_u32x4x3 _ (.head _) ptr))

theorem vld3q_s32_good [Dialect] (ptr : Ptr .s32) : Good none True (fun _ => True) (Model.vld3q_s32 ptr) := by
  unfold Model.vld3q_s32
  good_body

theorem vld3q_s32_typed [Dialect] : Total (k!"vld3q_s32", .fn Source.vld3q_s32) := by
  refine total_fn vld3q_s32_sig_read fun args h => ?_
  obtain ⟨ptr0, rfl, tptr⟩ := typed1 h
  obtain ⟨ptr, rfl⟩ := tptr
  exact total_arr (called_fn (by kernel_rfl) (vld3q_s32_source ptr)) (vld3q_s32_good ptr) (.inl (written_ps32_to_s32x4x3 _ (.head _) ptr))

theorem vld4_u8_good [Dialect] (ptr : Ptr .u8) : Good none True (fun _ => True) (Model.vld4_u8 ptr) := by
  unfold Model.vld4_u8
  good_body

theorem vld4_u8_typed [Dialect] : Total (k!"vld4_u8", .fn Source.vld4_u8) := by
  refine total_fn vld4_u8_sig_read fun args h => ?_
  obtain ⟨ptr0, rfl, tptr⟩ := typed1 h
  obtain ⟨ptr, rfl⟩ := tptr
  exact total_arr (called_fn (by kernel_rfl) (vld4_u8_source ptr)) (vld4_u8_good ptr) (.inl (written_pu8_to_u8x8x4 _ (.head _) ptr))

theorem vld4_s8_good [Dialect] (ptr : Ptr .s8) : Good none True (fun _ => True) (Model.vld4_s8 ptr) := by
  unfold Model.vld4_s8
  good_body

theorem vld4_s8_typed [Dialect] : Total (k!"vld4_s8", .fn Source.vld4_s8) := by
  refine total_fn vld4_s8_sig_read fun args h => ?_
  obtain ⟨ptr0, rfl, tptr⟩ := typed1 h
  obtain ⟨ptr, rfl⟩ := tptr
  exact total_arr (called_fn (by kernel_rfl) (vld4_s8_source ptr)) (vld4_s8_good ptr) (.inl (written_ps8_to_s8x8x4 _ (.head _) ptr))

theorem vld4_u16_good [Dialect] (ptr : Ptr .u16) : Good none True (fun _ => True) (Model.vld4_u16 ptr) := by
  unfold Model.vld4_u16
  good_body

theorem vld4_u16_typed [Dialect] : Total (k!"vld4_u16", .fn Source.vld4_u16) := by
  refine total_fn vld4_u16_sig_read fun args h => ?_
  obtain ⟨ptr0, rfl, tptr⟩ := typed1 h
  obtain ⟨ptr, rfl⟩ := tptr
  exact total_arr (called_fn (by kernel_rfl) (vld4_u16_source ptr)) (vld4_u16_good ptr) (.inl (written_pu16_to_u16x4x4 _ (.head _) ptr))

theorem vld4_s16_good [Dialect] (ptr : Ptr .s16) : Good none True (fun _ => True) (Model.vld4_s16 ptr) := by
  unfold Model.vld4_s16
  good_body

theorem vld4_s16_typed [Dialect] : Total (k!"vld4_s16", .fn Source.vld4_s16) := by
  refine total_fn vld4_s16_sig_read fun args h => ?_
  obtain ⟨ptr0, rfl, tptr⟩ := typed1 h
  obtain ⟨ptr, rfl⟩ := tptr
  exact total_arr (called_fn (by kernel_rfl) (vld4_s16_source ptr)) (vld4_s16_good ptr) (.inl (written_ps16_to_s16x4x4 _ (.head _) ptr))

theorem vld4_u32_good [Dialect] (ptr : Ptr .u32) : Good none True (fun _ => True) (Model.vld4_u32 ptr) := by
  unfold Model.vld4_u32
  good_body

theorem vld4_u32_typed [Dialect] : Total (k!"vld4_u32", .fn Source.vld4_u32) := by
  refine total_fn vld4_u32_sig_read fun args h => ?_
  obtain ⟨ptr0, rfl, tptr⟩ := typed1 h
  obtain ⟨ptr, rfl⟩ := tptr
  exact total_arr (called_fn (by kernel_rfl) (vld4_u32_source ptr)) (vld4_u32_good ptr) (.inl (written_pu32_to_u32x2x4 _ (.head _) ptr))

theorem vld4_s32_good [Dialect] (ptr : Ptr .s32) : Good none True (fun _ => True) (Model.vld4_s32 ptr) := by
  unfold Model.vld4_s32
  good_body

theorem vld4_s32_typed [Dialect] : Total (k!"vld4_s32", .fn Source.vld4_s32) := by
  refine total_fn vld4_s32_sig_read fun args h => ?_
  obtain ⟨ptr0, rfl, tptr⟩ := typed1 h
  obtain ⟨ptr, rfl⟩ := tptr
  exact total_arr (called_fn (by kernel_rfl) (vld4_s32_source ptr)) (vld4_s32_good ptr) (.inl (written_ps32_to_s32x2x4 _ (.head _) ptr))

theorem vld4_f32_good [Dialect] (ptr : Ptr .f32) : Good none True (fun _ => True) (Model.vld4_f32 ptr) := by
  unfold Model.vld4_f32
  good_body

theorem vld4_f32_typed [Dialect] : Total (k!"vld4_f32", .fn Source.vld4_f32) := by
  refine total_fn vld4_f32_sig_read fun args h => ?_
  obtain ⟨ptr0, rfl, tptr⟩ := typed1 h
  obtain ⟨ptr, rfl⟩ := tptr
  exact total_arr (called_fn (by kernel_rfl) (vld4_f32_source ptr)) (vld4_f32_good ptr) (.inl (written_pf_to_f32x2x4 _ (.head _) ptr))

theorem vld4q_u8_good [Dialect] (ptr : Ptr .u8) : Good none True (fun _ => True) (Model.vld4q_u8 ptr) := by
  unfold Model.vld4q_u8
  good_body

theorem vld4q_u8_typed [Dialect] : Total (k!"vld4q_u8", .fn Source.vld4q_u8) := by
  refine total_fn vld4q_u8_sig_read fun args h => ?_
  obtain ⟨ptr0, rfl, tptr⟩ := typed1 h
  obtain ⟨ptr, rfl⟩ := tptr
  exact total_arr (called_fn (by kernel_rfl) (vld4q_u8_source ptr)) (vld4q_u8_good ptr) (.inl (written_pu8_to_u8x16x4 _ (.head _) ptr))

theorem vld4q_s8_good [Dialect] (ptr : Ptr .s8) : Good none True (fun _ => True) (Model.vld4q_s8 ptr) := by
  unfold Model.vld4q_s8
  good_body

theorem vld4q_s8_typed [Dialect] : Total (k!"vld4q_s8", .fn Source.vld4q_s8) := by
  refine total_fn vld4q_s8_sig_read fun args h => ?_
  obtain ⟨ptr0, rfl, tptr⟩ := typed1 h
  obtain ⟨ptr, rfl⟩ := tptr
  exact total_arr (called_fn (by kernel_rfl) (vld4q_s8_source ptr)) (vld4q_s8_good ptr) (.inl (written_ps8_to_s8x16x4 _ (.head _) ptr))

theorem vld4q_u16_good [Dialect] (ptr : Ptr .u16) : Good none True (fun _ => True) (Model.vld4q_u16 ptr) := by
  unfold Model.vld4q_u16
  good_body

theorem vld4q_u16_typed [Dialect] : Total (k!"vld4q_u16", .fn Source.vld4q_u16) := by
  refine total_fn vld4q_u16_sig_read fun args h => ?_
  obtain ⟨ptr0, rfl, tptr⟩ := typed1 h
  obtain ⟨ptr, rfl⟩ := tptr
  exact total_arr (called_fn (by kernel_rfl) (vld4q_u16_source ptr)) (vld4q_u16_good ptr) (.inl (written_pu16_to_u16x8x4 _ (.head _) ptr))

theorem vld4q_s16_good [Dialect] (ptr : Ptr .s16) : Good none True (fun _ => True) (Model.vld4q_s16 ptr) := by
  unfold Model.vld4q_s16
  good_body

theorem vld4q_s16_typed [Dialect] : Total (k!"vld4q_s16", .fn Source.vld4q_s16) := by
  refine total_fn vld4q_s16_sig_read fun args h => ?_
  obtain ⟨ptr0, rfl, tptr⟩ := typed1 h
  obtain ⟨ptr, rfl⟩ := tptr
  exact total_arr (called_fn (by kernel_rfl) (vld4q_s16_source ptr)) (vld4q_s16_good ptr) (.inl (written_ps16_to_s16x8x4 _ (.head _) ptr))

theorem vld4q_u32_good [Dialect] (ptr : Ptr .u32) : Good none True (fun _ => True) (Model.vld4q_u32 ptr) := by
  unfold Model.vld4q_u32
  good_body

theorem vld4q_u32_typed [Dialect] : Total (k!"vld4q_u32", .fn Source.vld4q_u32) := by
  refine total_fn vld4q_u32_sig_read fun args h => ?_
  obtain ⟨ptr0, rfl, tptr⟩ := typed1 h
  obtain ⟨ptr, rfl⟩ := tptr
  exact total_arr (called_fn (by kernel_rfl) (vld4q_u32_source ptr)) (vld4q_u32_good ptr) (.inl (written_pu32_to_u32x4x4 _ (.head _) ptr))

theorem vld4q_s32_good [Dialect] (ptr : Ptr .s32) : Good none True (fun _ => True) (Model.vld4q_s32 ptr) := by
  unfold Model.vld4q_s32
  good_body

theorem vld4q_s32_typed [Dialect] : Total (k!"vld4q_s32", .fn Source.vld4q_s32) := by
  refine total_fn vld4q_s32_sig_read fun args h => ?_
  obtain ⟨ptr0, rfl, tptr⟩ := typed1 h
  obtain ⟨ptr, rfl⟩ := tptr
  exact total_arr (called_fn (by kernel_rfl) (vld4q_s32_source ptr)) (vld4q_s32_good ptr) (.inl (written_ps32_to_s32x4x4 _ (.head _) ptr))

theorem vld1q_dup_f32_good [Dialect] (ptr : Ptr .f32) : Good none True (fun _ => True) (Model.vld1q_dup_f32 ptr) := by
  unfold Model.vld1q_dup_f32
  good_body

theorem vld1q_dup_f32_typed [Dialect] : Total (k!"vld1q_dup_f32", .fn Source.vld1q_dup_f32) := by
  refine total_fn vld1q_dup_f32_sig_read fun args h => ?_
  obtain ⟨ptr0, rfl, tptr⟩ := typed1 h
  obtain ⟨ptr, rfl⟩ := tptr
  exact total_vec (called_fn (by kernel_rfl) (vld1q_dup_f32_source ptr)) (vld1q_dup_f32_good ptr) (.inl (written_pf32_to_f32x4 _ (.tail _ (.head _)) ptr))

theorem vld1_lane_s8_good [Dialect] (ptr : Ptr .s8) (src : int8x8_t) (lane : Int) : Good none True (fun _ => True) (Model.vld1_lane_s8 ptr src lane) := by
  unfold Model.vld1_lane_s8
  good_body

theorem vld1_lane_s8_typed [Dialect] : Total (k!"vld1_lane_s8", .fn Source.vld1_lane_s8) := by
  refine total_fn vld1_lane_s8_sig_read fun args h => ?_
  obtain ⟨ptr0, src0, lane0, rfl, tptr, tsrc, tlane⟩ := typed3 h
  obtain ⟨ptr, rfl⟩ := tptr
  obtain ⟨src, rfl⟩ := tsrc
  obtain ⟨lane, rfl, hlane⟩ := hasTy_int tlane
  exact total_vec (called_fn (by kernel_rfl) (vld1_lane_s8_source ptr src lane hlane)) (vld1_lane_s8_good ptr src lane) (.inl (written_ps8_s8x8_imm_to_s8x8 _ (.head _) ptr src lane))

theorem vld1_lane_u8_good [Dialect] (ptr : Ptr .u8) (src : uint8x8_t) (lane : Int) : Good none True (fun _ => True) (Model.vld1_lane_u8 ptr src lane) := by
  unfold Model.vld1_lane_u8
  good_body

theorem vld1_lane_u8_typed [Dialect] : Total (k!"vld1_lane_u8", .fn Source.vld1_lane_u8) := by
  refine total_fn vld1_lane_u8_sig_read fun args h => ?_
  obtain ⟨ptr0, src0, lane0, rfl, tptr, tsrc, tlane⟩ := typed3 h
  obtain ⟨ptr, rfl⟩ := tptr
  obtain ⟨src, rfl⟩ := tsrc
  obtain ⟨lane, rfl, hlane⟩ := hasTy_int tlane
  exact total_vec (called_fn (by kernel_rfl) (vld1_lane_u8_source ptr src lane hlane)) (vld1_lane_u8_good ptr src lane) (.inl (written_pu8_u8x8_imm_to_u8x8 _ (.head _) ptr src lane))

theorem vld2_lane_u8_good [Dialect] (ptr : Ptr .u8) (src : uint8x8x2_t) (lane : Int) : Good (some "only support [0, 7] for param lane\n") True (fun _ => True) (Model.vld2_lane_u8 ptr src lane) := by
  unfold Model.vld2_lane_u8
  good_body

theorem vld2_lane_u8_typed [Dialect] : Total (k!"vld2_lane_u8", .fn Source.vld2_lane_u8) := by
  refine total_fn vld2_lane_u8_sig_read fun args h => ?_
  obtain ⟨ptr0, src0, lane0, rfl, tptr, tsrc, tlane⟩ := typed3 h
  obtain ⟨ptr, rfl⟩ := tptr
  obtain ⟨src, rfl⟩ := tsrc
  obtain ⟨lane, rfl, hlane⟩ := hasTy_int tlane
  exact total_arr (called_fn (by kernel_rfl) (vld2_lane_u8_source ptr src lane hlane)) (vld2_lane_u8_good ptr src lane) (.inl (written_pu8_u8x8x2_imm_to_u8x8x2 _ (.head _) ptr src lane))

theorem vld3_lane_u8_good [Dialect] (ptr : Ptr .u8) (src : uint8x8x3_t) (lane : Int) : Good (some "only support [0, 7] for param lane\n") True (fun _ => True) (Model.vld3_lane_u8 ptr src lane) := by
  unfold Model.vld3_lane_u8
  good_body

theorem vld3_lane_u8_typed [Dialect] : Total (k!"vld3_lane_u8", .fn Source.vld3_lane_u8) := by
  refine total_fn vld3_lane_u8_sig_read fun args h => ?_
  obtain ⟨ptr0, src0, lane0, rfl, tptr, tsrc, tlane⟩ := typed3 h
  obtain ⟨ptr, rfl⟩ := tptr
  obtain ⟨src, rfl⟩ := tsrc
  obtain ⟨lane, rfl, hlane⟩ := hasTy_int tlane
  exact total_arr (called_fn (by kernel_rfl) (vld3_lane_u8_source ptr src lane hlane)) (vld3_lane_u8_good ptr src lane) (.inl (written_pu8_u8x8x3_imm_to_u8x8x3 _ (.head _) ptr src lane))

end Verif.Props
