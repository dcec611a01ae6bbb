import Verif.Typing
import Verif.ArmLemmas
import Verif.Props.Signatures
import Verif.Props.Outcome
import Verif.Props.TypedBase

/-! # Calls with arguments of the declared types, part 0 (C78)

Generated by `tools/gen_typed.py`. -/

set_option linter.unusedVariables false

namespace Verif.Props
open Verif.Cpp Verif.Arm

theorem vadd_s8_good [Dialect] (N : int8x8_t) (M : int8x8_t) : Good none True (fun _ => True) (Model.vadd_s8 N M) := by
  unfold Model.vadd_s8
  good_body

theorem vadd_s8_typed [Dialect] : Total (k!"vadd_s8", .fn Source.vadd_s8) := by
  refine total_fn vadd_s8_sig_read fun args h => ?_
  obtain ⟨N0, M0, rfl, tN, tM⟩ := typed2 h
  obtain ⟨N, rfl⟩ := tN
  obtain ⟨M, rfl⟩ := tM
  exact total_vec (called_fn (by kernel_rfl) (vadd_s8_source N M)) (vadd_s8_good N M) (.inl (written_s8x8_s8x8_to_s8x8 _ (.head _) N M))

theorem vadd_s16_good [Dialect] (N : int16x4_t) (M : int16x4_t) : Good none True (fun _ => True) (Model.vadd_s16 N M) := by
  unfold Model.vadd_s16
  good_body

theorem vadd_s16_typed [Dialect] : Total (k!"vadd_s16", .fn Source.vadd_s16) := by
  refine total_fn vadd_s16_sig_read fun args h => ?_
  obtain ⟨N0, M0, rfl, tN, tM⟩ := typed2 h
  obtain ⟨N, rfl⟩ := tN
  obtain ⟨M, rfl⟩ := tM
  exact total_vec (called_fn (by kernel_rfl) (vadd_s16_source N M)) (vadd_s16_good N M) (.inl (written_s16x4_s16x4_to_s16x4 _ (.head _) N M))

theorem vadd_s32_good [Dialect] (N : int32x2_t) (M : int32x2_t) : Good none True (fun _ => True) (Model.vadd_s32 N M) := by
  unfold Model.vadd_s32
  good_body

theorem vadd_s32_typed [Dialect] : Total (k!"vadd_s32", .fn Source.vadd_s32) := by
  refine total_fn vadd_s32_sig_read fun args h => ?_
  obtain ⟨N0, M0, rfl, tN, tM⟩ := typed2 h
  obtain ⟨N, rfl⟩ := tN
  obtain ⟨M, rfl⟩ := tM
  exact total_vec (called_fn (by kernel_rfl) (vadd_s32_source N M)) (vadd_s32_good N M) (.inl (written_s32x2_s32x2_to_s32x2 _ (.head _) N M))

theorem vadd_s64_good [Dialect] (N : int64x1_t) (M : int64x1_t) : Good none True (fun _ => True) (Model.vadd_s64 N M) := by
  unfold Model.vadd_s64
  good_body

theorem vadd_s64_typed [Dialect] : Total (k!"vadd_s64", .fn Source.vadd_s64) := by
  refine total_fn vadd_s64_sig_read fun args h => ?_
  obtain ⟨N0, M0, rfl, tN, tM⟩ := typed2 h
  obtain ⟨N, rfl⟩ := tN
  obtain ⟨M, rfl⟩ := tM
  exact total_vec (called_fn (by kernel_rfl) (vadd_s64_source N M)) (vadd_s64_good N M) (.inl (written_s64x1_s64x1_to_s64x1 _ (.head _) N M))

theorem vadd_u8_good [Dialect] (N : uint8x8_t) (M : uint8x8_t) : Good none True (fun _ => True) (Model.vadd_u8 N M) := by
  unfold Model.vadd_u8
  good_body

theorem vadd_u8_typed [Dialect] : Total (k!"vadd_u8", .fn Source.vadd_u8) := by
  refine total_fn vadd_u8_sig_read fun args h => ?_
  obtain ⟨N0, M0, rfl, tN, tM⟩ := typed2 h
  obtain ⟨N, rfl⟩ := tN
  obtain ⟨M, rfl⟩ := tM
  exact total_vec (called_fn (by kernel_rfl) (vadd_u8_source N M)) (vadd_u8_good N M) (.inl (written_u8x8_u8x8_to_u8x8 _ (.head _) N M))

theorem vadd_u16_good [Dialect] (N : uint16x4_t) (M : uint16x4_t) : Good none True (fun _ => True) (Model.vadd_u16 N M) := by
  unfold Model.vadd_u16
  good_body

theorem vadd_u16_typed [Dialect] : Total (k!"vadd_u16", .fn Source.vadd_u16) := by
  refine total_fn vadd_u16_sig_read fun args h => ?_
  obtain ⟨N0, M0, rfl, tN, tM⟩ := typed2 h
  obtain ⟨N, rfl⟩ := tN
  obtain ⟨M, rfl⟩ := tM
  exact total_vec (called_fn (by kernel_rfl) (vadd_u16_source N M)) (vadd_u16_good N M) (.inl (written_u16x4_u16x4_to_u16x4 _ (.head _) N M))

theorem vadd_u32_good [Dialect] (N : uint32x2_t) (M : uint32x2_t) : Good none True (fun _ => True) (Model.vadd_u32 N M) := by
  unfold Model.vadd_u32
  good_body

theorem vadd_u32_typed [Dialect] : Total (k!"vadd_u32", .fn Source.vadd_u32) := by
  refine total_fn vadd_u32_sig_read fun args h => ?_
  obtain ⟨N0, M0, rfl, tN, tM⟩ := typed2 h
  obtain ⟨N, rfl⟩ := tN
  obtain ⟨M, rfl⟩ := tM
  exact total_vec (called_fn (by kernel_rfl) (vadd_u32_source N M)) (vadd_u32_good N M) (.inl (written_u32x2_u32x2_to_u32x2 _ (.head _) N M))

theorem vadd_u64_good [Dialect] (N : uint64x1_t) (M : uint64x1_t) : Good none True (fun _ => True) (Model.vadd_u64 N M) := by
  unfold Model.vadd_u64
  good_body

theorem vadd_u64_typed [Dialect] : Total (k!"vadd_u64", .fn Source.vadd_u64) := by
  refine total_fn vadd_u64_sig_read fun args h => ?_
  obtain ⟨N0, M0, rfl, tN, tM⟩ := typed2 h
  obtain ⟨N, rfl⟩ := tN
  obtain ⟨M, rfl⟩ := tM
  exact total_vec (called_fn (by kernel_rfl) (vadd_u64_source N M)) (vadd_u64_good N M) (.inl (written_u64x1_u64x1_to_u64x1 _ (.head _) N M))

theorem vaddq_s8_good [Dialect] (N : int8x16_t) (M : int8x16_t) : Good none True (fun _ => True) (Model.vaddq_s8 N M) := by
  unfold Model.vaddq_s8
  good_body

theorem vaddq_s8_typed [Dialect] : Total (k!"vaddq_s8", .fn Source.vaddq_s8) := by
  refine total_fn vaddq_s8_sig_read fun args h => ?_
  obtain ⟨N0, M0, rfl, tN, tM⟩ := typed2 h
  obtain ⟨N, rfl⟩ := tN
  obtain ⟨M, rfl⟩ := tM
  exact total_vec (called_fn (by kernel_rfl) (vaddq_s8_source N M)) (vaddq_s8_good N M) (.inl (written_s8x16_s8x16_to_s8x16 _ (.tail _ (.tail _ (.head _))) N M))

theorem vaddq_s16_good [Dialect] (N : int16x8_t) (M : int16x8_t) : Good none True (fun _ => True) (Model.vaddq_s16 N M) := by
  unfold Model.vaddq_s16
  good_body

theorem vaddq_s16_typed [Dialect] : Total (k!"vaddq_s16", .fn Source.vaddq_s16) := by
  refine total_fn vaddq_s16_sig_read fun args h => ?_
  obtain ⟨N0, M0, rfl, tN, tM⟩ := typed2 h
  obtain ⟨N, rfl⟩ := tN
  obtain ⟨M, rfl⟩ := tM
  exact total_vec (called_fn (by kernel_rfl) (vaddq_s16_source N M)) (vaddq_s16_good N M) (.inl (written_s16x8_s16x8_to_s16x8 _ (.tail _ (.tail _ (.head _))) N M))

theorem vaddq_s32_good [Dialect] (N : int32x4_t) (M : int32x4_t) : Good none True (fun _ => True) (Model.vaddq_s32 N M) := by
  unfold Model.vaddq_s32
  good_body

theorem vaddq_s32_typed [Dialect] : Total (k!"vaddq_s32", .fn Source.vaddq_s32) := by
  refine total_fn vaddq_s32_sig_read fun args h => ?_
  obtain ⟨N0, M0, rfl, tN, tM⟩ := typed2 h
  obtain ⟨N, rfl⟩ := tN
  obtain ⟨M, rfl⟩ := tM
  exact total_vec (called_fn (by kernel_rfl) (vaddq_s32_source N M)) (vaddq_s32_good N M) (.inl (written_s32x4_s32x4_to_s32x4 _ (.tail _ (.tail _ (.head _))) N M))

theorem vaddq_s64_good [Dialect] (N : int64x2_t) (M : int64x2_t) : Good none True (fun _ => True) (Model.vaddq_s64 N M) := by
  unfold Model.vaddq_s64
  good_body

theorem vaddq_s64_typed [Dialect] : Total (k!"vaddq_s64", .fn Source.vaddq_s64) := by
  refine total_fn vaddq_s64_sig_read fun args h => ?_
  obtain ⟨N0, M0, rfl, tN, tM⟩ := typed2 h
  obtain ⟨N, rfl⟩ := tN
  obtain ⟨M, rfl⟩ := tM
  exact total_vec (called_fn (by kernel_rfl) (vaddq_s64_source N M)) (vaddq_s64_good N M) (.inl (written_s64x2_s64x2_to_s64x2 _ (.head _) N M))

theorem vaddq_u8_good [Dialect] (N : uint8x16_t) (M : uint8x16_t) : Good none True (fun _ => True) (Model.vaddq_u8 N M) := by
  unfold Model.vaddq_u8
  good_body

theorem vaddq_u8_typed [Dialect] : Total (k!"vaddq_u8", .fn Source.vaddq_u8) := by
  refine total_fn vaddq_u8_sig_read fun args h => ?_
  obtain ⟨N0, M0, rfl, tN, tM⟩ := typed2 h
  obtain ⟨N, rfl⟩ := tN
  obtain ⟨M, rfl⟩ := tM
  exact total_vec (called_fn (by kernel_rfl) (vaddq_u8_source N M)) (vaddq_u8_good N M) (.inl (written_u8x16_u8x16_to_u8x16 _ (.head _) N M))

theorem vaddq_u16_good [Dialect] (N : uint16x8_t) (M : uint16x8_t) : Good none True (fun _ => True) (Model.vaddq_u16 N M) := by
  unfold Model.vaddq_u16
  good_body

theorem vaddq_u16_typed [Dialect] : Total (k!"vaddq_u16", .fn Source.vaddq_u16) := by
  refine total_fn vaddq_u16_sig_read fun args h => ?_
  obtain ⟨N0, M0, rfl, tN, tM⟩ := typed2 h
  obtain ⟨N, rfl⟩ := tN
  obtain ⟨M, rfl⟩ := tM
  exact total_vec (called_fn (by kernel_rfl) (vaddq_u16_source N M)) (vaddq_u16_good N M) (.inl (written_u16x8_u16x8_to_u16x8 _ (.head _) N M))

theorem vaddq_u32_good [Dialect] (N : uint32x4_t) (M : uint32x4_t) : Good none True (fun _ => True) (Model.vaddq_u32 N M) := by
  unfold Model.vaddq_u32
  good_body

theorem vaddq_u32_typed [Dialect] : Total (k!"vaddq_u32", .fn Source.vaddq_u32) := by
  refine total_fn vaddq_u32_sig_read fun args h => ?_
  obtain ⟨N0, M0, rfl, tN, tM⟩ := typed2 h
  obtain ⟨N, rfl⟩ := tN
  obtain ⟨M, rfl⟩ := tM
  exact total_vec (called_fn (by kernel_rfl) (vaddq_u32_source N M)) (vaddq_u32_good N M) (.inl (written_u32x4_u32x4_to_u32x4 _ (.head _) N M))

theorem vaddq_u64_good [Dialect] (N : uint64x2_t) (M : uint64x2_t) : Good none True (fun _ => True) (Model.vaddq_u64 N M) := by
  unfold Model.vaddq_u64
  good_body

theorem vaddq_u64_typed [Dialect] : Total (k!"vaddq_u64", .fn Source.vaddq_u64) := by
  refine total_fn vaddq_u64_sig_read fun args h => ?_
  obtain ⟨N0, M0, rfl, tN, tM⟩ := typed2 h
  obtain ⟨N, rfl⟩ := tN
  obtain ⟨M, rfl⟩ := tM
  exact total_vec (called_fn (by kernel_rfl) (vaddq_u64_source N M)) (vaddq_u64_good N M) (.inl (written_u64x2_u64x2_to_u64x2 _ (.head _) N M))

theorem vsub_s8_good [Dialect] (N : int8x8_t) (M : int8x8_t) : Good none True (fun _ => True) (Model.vsub_s8 N M) := by
  unfold Model.vsub_s8
  good_body

theorem vsub_s8_typed [Dialect] : Total (k!"vsub_s8", .fn Source.vsub_s8) := by
  refine total_fn vsub_s8_sig_read fun args h => ?_
  obtain ⟨N0, M0, rfl, tN, tM⟩ := typed2 h
  obtain ⟨N, rfl⟩ := tN
  obtain ⟨M, rfl⟩ := tM
  exact total_vec (called_fn (by kernel_rfl) (vsub_s8_source N M)) (vsub_s8_good N M) (.inl (written_s8x8_s8x8_to_s8x8 _ (.tail _ (.head _)) N M))

theorem vsub_s16_good [Dialect] (N : int16x4_t) (M : int16x4_t) : Good none True (fun _ => True) (Model.vsub_s16 N M) := by
  unfold Model.vsub_s16
  good_body

theorem vsub_s16_typed [Dialect] : Total (k!"vsub_s16", .fn Source.vsub_s16) := by
  refine total_fn vsub_s16_sig_read fun args h => ?_
  obtain ⟨N0, M0, rfl, tN, tM⟩ := typed2 h
  obtain ⟨N, rfl⟩ := tN
  obtain ⟨M, rfl⟩ := tM
  exact total_vec (called_fn (by kernel_rfl) (vsub_s16_source N M)) (vsub_s16_good N M) (.inl (written_s16x4_s16x4_to_s16x4 _ (.tail _ (.head _)) N M))

theorem vsub_s32_good [Dialect] (N : int32x2_t) (M : int32x2_t) : Good none True (fun _ => True) (Model.vsub_s32 N M) := by
  unfold Model.vsub_s32
  good_body

theorem vsub_s32_typed [Dialect] : Total (k!"vsub_s32", .fn Source.vsub_s32) := by
  refine total_fn vsub_s32_sig_read fun args h => ?_
  obtain ⟨N0, M0, rfl, tN, tM⟩ := typed2 h
  obtain ⟨N, rfl⟩ := tN
  obtain ⟨M, rfl⟩ := tM
  exact total_vec (called_fn (by kernel_rfl) (vsub_s32_source N M)) (vsub_s32_good N M) (.inl (written_s32x2_s32x2_to_s32x2 _ (.tail _ (.head _)) N M))

theorem vsub_s64_good [Dialect] (N : int64x1_t) (M : int64x1_t) : Good none True (fun _ => True) (Model.vsub_s64 N M) := by
  unfold Model.vsub_s64
  good_body

theorem vsub_s64_typed [Dialect] : Total (k!"vsub_s64", .fn Source.vsub_s64) := by
  refine total_fn vsub_s64_sig_read fun args h => ?_
  obtain ⟨N0, M0, rfl, tN, tM⟩ := typed2 h
  obtain ⟨N, rfl⟩ := tN
  obtain ⟨M, rfl⟩ := tM
  exact total_vec (called_fn (by kernel_rfl) (vsub_s64_source N M)) (vsub_s64_good N M) (.inl (written_s64x1_s64x1_to_s64x1 _ (.tail _ (.head _)) N M))

theorem vsub_u8_good [Dialect] (N : uint8x8_t) (M : uint8x8_t) : Good none True (fun _ => True) (Model.vsub_u8 N M) := by
  unfold Model.vsub_u8
  good_body

theorem vsub_u8_typed [Dialect] : Total (k!"vsub_u8", .fn Source.vsub_u8) := by
  refine total_fn vsub_u8_sig_read fun args h => ?_
  obtain ⟨N0, M0, rfl, tN, tM⟩ := typed2 h
  obtain ⟨N, rfl⟩ := tN
  obtain ⟨M, rfl⟩ := tM
  exact total_vec (called_fn (by kernel_rfl) (vsub_u8_source N M)) (vsub_u8_good N M) (.inl (written_u8x8_u8x8_to_u8x8 _ (.tail _ (.tail _ (.head _))) N M))

theorem vsub_u16_good [Dialect] (N : uint16x4_t) (M : uint16x4_t) : Good none True (fun _ => True) (Model.vsub_u16 N M) := by
  unfold Model.vsub_u16
  good_body

theorem vsub_u16_typed [Dialect] : Total (k!"vsub_u16", .fn Source.vsub_u16) := by
  refine total_fn vsub_u16_sig_read fun args h => ?_
  obtain ⟨N0, M0, rfl, tN, tM⟩ := typed2 h
  obtain ⟨N, rfl⟩ := tN
  obtain ⟨M, rfl⟩ := tM
  exact total_vec (called_fn (by kernel_rfl) (vsub_u16_source N M)) (vsub_u16_good N M) (.inl (written_u16x4_u16x4_to_u16x4 _ (.tail _ (.head _)) N M))

theorem vsub_u32_good [Dialect] (N : uint32x2_t) (M : uint32x2_t) : Good none True (fun _ => True) (Model.vsub_u32 N M) := by
  unfold Model.vsub_u32
  good_body

theorem vsub_u32_typed [Dialect] : Total (k!"vsub_u32", .fn Source.vsub_u32) := by
  refine total_fn vsub_u32_sig_read fun args h => ?_
  obtain ⟨N0, M0, rfl, tN, tM⟩ := typed2 h
  obtain ⟨N, rfl⟩ := tN
  obtain ⟨M, rfl⟩ := tM
  exact total_vec (called_fn (by kernel_rfl) (vsub_u32_source N M)) (vsub_u32_good N M) (.inl (written_u32x2_u32x2_to_u32x2 _ (.tail _ (.head _)) N M))

theorem vsub_u64_good [Dialect] (N : uint64x1_t) (M : uint64x1_t) : Good none True (fun _ => True) (Model.vsub_u64 N M) := by
  unfold Model.vsub_u64
  good_body

theorem vsub_u64_typed [Dialect] : Total (k!"vsub_u64", .fn Source.vsub_u64) := by
  refine total_fn vsub_u64_sig_read fun args h => ?_
  obtain ⟨N0, M0, rfl, tN, tM⟩ := typed2 h
  obtain ⟨N, rfl⟩ := tN
  obtain ⟨M, rfl⟩ := tM
  exact total_vec (called_fn (by kernel_rfl) (vsub_u64_source N M)) (vsub_u64_good N M) (.inl (written_u64x1_u64x1_to_u64x1 _ (.tail _ (.head _)) N M))

theorem vsubq_s8_good [Dialect] (N : int8x16_t) (M : int8x16_t) : Good none True (fun _ => True) (Model.vsubq_s8 N M) := by
  unfold Model.vsubq_s8
  good_body

theorem vsubq_s8_typed [Dialect] : Total (k!"vsubq_s8", .fn Source.vsubq_s8) := by
  refine total_fn vsubq_s8_sig_read fun args h => ?_
  obtain ⟨N0, M0, rfl, tN, tM⟩ := typed2 h
  obtain ⟨N, rfl⟩ := tN
  obtain ⟨M, rfl⟩ := tM
  exact total_vec (called_fn (by kernel_rfl) (vsubq_s8_source N M)) (vsubq_s8_good N M) (.inl (written_s8x16_s8x16_to_s8x16 _ (.tail _ (.tail _ (.tail _ (.head _)))) N M))

theorem vsubq_s16_good [Dialect] (N : int16x8_t) (M : int16x8_t) : Good none True (fun _ => True) (Model.vsubq_s16 N M) := by
  unfold Model.vsubq_s16
  good_body

theorem vsubq_s16_typed [Dialect] : Total (k!"vsubq_s16", .fn Source.vsubq_s16) := by
  refine total_fn vsubq_s16_sig_read fun args h => ?_
  obtain ⟨N0, M0, rfl, tN, tM⟩ := typed2 h
  obtain ⟨N, rfl⟩ := tN
  obtain ⟨M, rfl⟩ := tM
  exact total_vec (called_fn (by kernel_rfl) (vsubq_s16_source N M)) (vsubq_s16_good N M) (.inl (written_s16x8_s16x8_to_s16x8 _ (.tail _ (.tail _ (.tail _ (.head _)))) N M))

theorem vsubq_s32_good [Dialect] (N : int32x4_t) (M : int32x4_t) : Good none True (fun _ => True) (Model.vsubq_s32 N M) := by
  unfold Model.vsubq_s32
  good_body

theorem vsubq_s32_typed [Dialect] : Total (k!"vsubq_s32", .fn Source.vsubq_s32) := by
  refine total_fn vsubq_s32_sig_read fun args h => ?_
  obtain ⟨N0, M0, rfl, tN, tM⟩ := typed2 h
  obtain ⟨N, rfl⟩ := tN
  obtain ⟨M, rfl⟩ := tM
  exact total_vec (called_fn (by kernel_rfl) (vsubq_s32_source N M)) (vsubq_s32_good N M) (.inl (written_s32x4_s32x4_to_s32x4 _ (.tail _ (.tail _ (.tail _ (.head _)))) N M))

theorem vsubq_s64_good [Dialect] (N : int64x2_t) (M : int64x2_t) : Good none True (fun _ => True) (Model.vsubq_s64 N M) := by
  unfold Model.vsubq_s64
  good_body

theorem vsubq_s64_typed [Dialect] : Total (k!"vsubq_s64", .fn Source.vsubq_s64) := by
  refine total_fn vsubq_s64_sig_read fun args h => ?_
  obtain ⟨N0, M0, rfl, tN, tM⟩ := typed2 h
  obtain ⟨N, rfl⟩ := tN
  obtain ⟨M, rfl⟩ := tM
  exact total_vec (called_fn (by kernel_rfl) (vsubq_s64_source N M)) (vsubq_s64_good N M) (.inl (written_s64x2_s64x2_to_s64x2 _ (.tail _ (.head _)) N M))

theorem vsubq_u8_good [Dialect] (N : uint8x16_t) (M : uint8x16_t) : Good none True (fun _ => True) (Model.vsubq_u8 N M) := by
  unfold Model.vsubq_u8
  good_body

theorem vsubq_u8_typed [Dialect] : Total (k!"vsubq_u8", .fn Source.vsubq_u8) := by
  refine total_fn vsubq_u8_sig_read fun args h => ?_
  obtain ⟨N0, M0, rfl, tN, tM⟩ := typed2 h
  obtain ⟨N, rfl⟩ := tN
  obtain ⟨M, rfl⟩ := tM
  exact total_vec (called_fn (by kernel_rfl) (vsubq_u8_source N M)) (vsubq_u8_good N M) (.inl (written_u8x16_u8x16_to_u8x16 _ (.tail _ (.tail _ (.head _))) N M))

theorem vsubq_u16_good [Dialect] (N : uint16x8_t) (M : uint16x8_t) : Good none True (fun _ => True) (Model.vsubq_u16 N M) := by
  unfold Model.vsubq_u16
  good_body

theorem vsubq_u16_typed [Dialect] : Total (k!"vsubq_u16", .fn Source.vsubq_u16) := by
  refine total_fn vsubq_u16_sig_read fun args h => ?_
  obtain ⟨N0, M0, rfl, tN, tM⟩ := typed2 h
  obtain ⟨N, rfl⟩ := tN
  obtain ⟨M, rfl⟩ := tM
  exact total_vec (called_fn (by kernel_rfl) (vsubq_u16_source N M)) (vsubq_u16_good N M) (.inl (written_u16x8_u16x8_to_u16x8 _ (.tail _ (.head _)) N M))

theorem vsubq_u32_good [Dialect] (N : uint32x4_t) (M : uint32x4_t) : Good none True (fun _ => True) (Model.vsubq_u32 N M) := by
  unfold Model.vsubq_u32
  good_body

theorem vsubq_u32_typed [Dialect] : Total (k!"vsubq_u32", .fn Source.vsubq_u32) := by
  refine total_fn vsubq_u32_sig_read fun args h => ?_
  obtain ⟨N0, M0, rfl, tN, tM⟩ := typed2 h
  obtain ⟨N, rfl⟩ := tN
  obtain ⟨M, rfl⟩ := tM
  exact total_vec (called_fn (by kernel_rfl) (vsubq_u32_source N M)) (vsubq_u32_good N M) (.inl (written_u32x4_u32x4_to_u32x4 _ (.tail _ (.head _)) N M))

theorem vsubq_u64_good [Dialect] (N : uint64x2_t) (M : uint64x2_t) : Good none True (fun _ => True) (Model.vsubq_u64 N M) := by
  unfold Model.vsubq_u64
  good_body

theorem vsubq_u64_typed [Dialect] : Total (k!"vsubq_u64", .fn Source.vsubq_u64) := by
  refine total_fn vsubq_u64_sig_read fun args h => ?_
  obtain ⟨N0, M0, rfl, tN, tM⟩ := typed2 h
  obtain ⟨N, rfl⟩ := tN
  obtain ⟨M, rfl⟩ := tM
  exact total_vec (called_fn (by kernel_rfl) (vsubq_u64_source N M)) (vsubq_u64_good N M) (.inl (written_u64x2_u64x2_to_u64x2 _ (.tail _ (.head _)) N M))

theorem vaddq_f32_good [Dialect] (a : float32x4_t) (b : float32x4_t) : Good none True (fun _ => True) (Model.vaddq_f32 a b) := by
  unfold Model.vaddq_f32
  good_body

theorem vaddq_f32_typed [Dialect] : Total (k!"vaddq_f32", .fn Source.vaddq_f32) := by
  refine total_fn vaddq_f32_sig_read fun args h => ?_
  obtain ⟨a0, b0, rfl, ta, tb⟩ := typed2 h
  obtain ⟨a, rfl⟩ := ta
  obtain ⟨b, rfl⟩ := tb
  exact total_vec (called_fn (by kernel_rfl) (vaddq_f32_source a b)) (vaddq_f32_good a b) (.inl (written_f32x4_f32x4_to_f32x4 _ (.tail _ (.head _)) a b))

theorem vsub_f32_good [Dialect] (N : float32x2_t) (M : float32x2_t) : Good none True (fun _ => True) (Model.vsub_f32 N M) := by
  unfold Model.vsub_f32
  good_body

theorem vsub_f32_typed [Dialect] : Total (k!"vsub_f32", .fn Source.vsub_f32) := by
  refine total_fn vsub_f32_sig_read fun args h => ?_
  obtain ⟨N0, M0, rfl, tN, tM⟩ := typed2 h
  obtain ⟨N, rfl⟩ := tN
  obtain ⟨M, rfl⟩ := tM
  exact total_vec (called_fn (by kernel_rfl) (vsub_f32_source N M)) (vsub_f32_good N M) (.inl (written_f32x2_f32x2_to_f32x2 _ (.head _) N M))

theorem vsub_f32_overload2_good [Dialect] (N : float64x1_t) (M : float64x1_t) : Good none True (fun _ => True) (Model.vsub_f32_overload2 N M) := by
  unfold Model.vsub_f32_overload2
  good_body

theorem vsub_f32_overload2_typed [Dialect] : Total (k!"vsub_f32_overload2", .fn Source.vsub_f32_overload2) := by
  refine total_fn vsub_f32_overload2_sig_read fun args h => ?_
  obtain ⟨N0, M0, rfl, tN, tM⟩ := typed2 h
  obtain ⟨N, rfl⟩ := tN
  obtain ⟨M, rfl⟩ := tM
  exact total_vec (called_fn (by kernel_rfl) (vsub_f32_overload2_source N M)) (vsub_f32_overload2_good N M) (.inl (written_f64x1_f64x1_to_f64x1 _ (.head _) N M))

theorem vsubq_f32_good [Dialect] (N : float32x4_t) (M : float32x4_t) : Good none True (fun _ => True) (Model.vsubq_f32 N M) := by
  unfold Model.vsubq_f32
  good_body

theorem vsubq_f32_typed [Dialect] : Total (k!"vsubq_f32", .fn Source.vsubq_f32) := by
  refine total_fn vsubq_f32_sig_read fun args h => ?_
  obtain ⟨N0, M0, rfl, tN, tM⟩ := typed2 h
  obtain ⟨N, rfl⟩ := tN
  obtain ⟨M, rfl⟩ := tM
  exact total_vec (called_fn (by kernel_rfl) (vsubq_f32_source N M)) (vsubq_f32_good N M) (.inl (written_f32x4_f32x4_to_f32x4 _ (.tail _ (.tail _ (.head _))) N M))

theorem vmulq_f32_good [Dialect] (a : float32x4_t) (b : float32x4_t) : Good none True (fun _ => True) (Model.vmulq_f32 a b) := by
  unfold Model.vmulq_f32
  good_body

theorem vmulq_f32_typed [Dialect] : Total (k!"vmulq_f32", .fn Source.vmulq_f32) := by
  refine total_fn vmulq_f32_sig_read fun args h => ?_
  obtain ⟨a0, b0, rfl, ta, tb⟩ := typed2 h
  obtain ⟨a, rfl⟩ := ta
  obtain ⟨b, rfl⟩ := tb
  exact total_vec (called_fn (by kernel_rfl) (vmulq_f32_source a b)) (vmulq_f32_good a b) (.inl (written_f32x4_f32x4_to_f32x4 _ (.tail _ (.tail _ (.tail _ (.head _)))) a b))

theorem vmul_n_f32_good [Dialect] (N : float32x2_t) (M : float32_t) : Good none True (fun _ => True) (Model.vmul_n_f32 N M) := by
  unfold Model.vmul_n_f32
  good_body

theorem vmul_n_f32_typed [Dialect] : Total (k!"vmul_n_f32", .fn Source.vmul_n_f32) := by
  refine total_fn vmul_n_f32_sig_read fun args h => ?_
  obtain ⟨N0, M0, rfl, tN, tM⟩ := typed2 h
  obtain ⟨N, rfl⟩ := tN
  obtain ⟨M, rfl⟩ := tM
  exact total_vec (called_fn (by kernel_rfl) (vmul_n_f32_source N M)) (vmul_n_f32_good N M) (.inl (written_f32x2_f32_to_f32x2 _ (.head _) N M))

theorem vmul_n_f64_good [Dialect] (N : float64x1_t) (M : float64_t) : Good none True (fun _ => True) (Model.vmul_n_f64 N M) := by
  unfold Model.vmul_n_f64
  good_body

theorem vmul_n_f64_typed [Dialect] : Total (k!"vmul_n_f64", .fn Source.vmul_n_f64) := by
  refine total_fn vmul_n_f64_sig_read fun args h => ?_
  obtain ⟨N0, M0, rfl, tN, tM⟩ := typed2 h
  obtain ⟨N, rfl⟩ := tN
  obtain ⟨M, rfl⟩ := tM
  exact total_vec (called_fn (by kernel_rfl) (vmul_n_f64_source N M)) (vmul_n_f64_good N M) (.inl (written_f64x1_f64_to_f64x1 _ (.head _) N M))

theorem vmulq_n_f32_good [Dialect] (N : float32x4_t) (M : float32_t) : Good none True (fun _ => True) (Model.vmulq_n_f32 N M) := by
  unfold Model.vmulq_n_f32
  good_body

theorem vmulq_n_f32_typed [Dialect] : Total (k!"vmulq_n_f32", .fn Source.vmulq_n_f32) := by
  refine total_fn vmulq_n_f32_sig_read fun args h => ?_
  obtain ⟨N0, M0, rfl, tN, tM⟩ := typed2 h
  obtain ⟨N, rfl⟩ := tN
  obtain ⟨M, rfl⟩ := tM
  exact total_vec (called_fn (by kernel_rfl) (vmulq_n_f32_source N M)) (vmulq_n_f32_good N M) (.inl (written_f32x4_f32_to_f32x4 _ (.head _) N M))

theorem vmulq_n_f64_good [Dialect] (N : float64x2_t) (M : float64_t) : Good none True (fun _ => True) (Model.vmulq_n_f64 N M) := by
  unfold Model.vmulq_n_f64
  good_body

theorem vmulq_n_f64_typed [Dialect] : Total (k!"vmulq_n_f64", .fn Source.vmulq_n_f64) := by
  refine total_fn vmulq_n_f64_sig_read fun args h => ?_
  obtain ⟨N0, M0, rfl, tN, tM⟩ := typed2 h
  obtain ⟨N, rfl⟩ := tN
  obtain ⟨M, rfl⟩ := tM
  exact total_vec (called_fn (by kernel_rfl) (vmulq_n_f64_source N M)) (vmulq_n_f64_good N M) (.inl (written_f64x2_f64_to_f64x2 _ (.head _) N M))

theorem vdiv_f32_good [Dialect] (a : float32x2_t) (b : float32x2_t) : Good none True (fun _ => True) (Model.vdiv_f32 a b) := by
  unfold Model.vdiv_f32
  good_body

theorem vdiv_f32_typed [Dialect] : Total (k!"vdiv_f32", .fn Source.vdiv_f32) := by
  refine total_fn vdiv_f32_sig_read fun args h => ?_
  obtain ⟨a0, b0, rfl, ta, tb⟩ := typed2 h
  obtain ⟨a, rfl⟩ := ta
  obtain ⟨b, rfl⟩ := tb
  exact total_vec (called_fn (by kernel_rfl) (vdiv_f32_source a b)) (vdiv_f32_good a b) (.inl (written_f32x2_f32x2_to_f32x2 _ (.tail _ (.tail _ (.tail _ (.head _)))) a b))

theorem vdiv_f64_good [Dialect] (a : float64x1_t) (b : float64x1_t) : Good none True (fun _ => True) (Model.vdiv_f64 a b) := by
  unfold Model.vdiv_f64
  good_body

theorem vdiv_f64_typed [Dialect] : Total (k!"vdiv_f64", .fn Source.vdiv_f64) := by
  refine total_fn vdiv_f64_sig_read fun args h => ?_
  obtain ⟨a0, b0, rfl, ta, tb⟩ := typed2 h
  obtain ⟨a, rfl⟩ := ta
  obtain ⟨b, rfl⟩ := tb
  exact total_vec (called_fn (by kernel_rfl) (vdiv_f64_source a b)) (vdiv_f64_good a b) (.inl (written_f64x1_f64x1_to_f64x1 _ (.tail _ (.head _)) a b))

theorem vdivq_f32_good [Dialect] (a : float32x4_t) (b : float32x4_t) : Good none True (fun _ => True) (Model.vdivq_f32 a b) := by
  unfold Model.vdivq_f32
  good_body

theorem vdivq_f32_typed [Dialect] : Total (k!"vdivq_f32", .fn Source.vdivq_f32) := by
  refine total_fn vdivq_f32_sig_read fun args h => ?_
  obtain ⟨a0, b0, rfl, ta, tb⟩ := typed2 h
  obtain ⟨a, rfl⟩ := ta
  obtain ⟨b, rfl⟩ := tb
  exact total_vec (called_fn (by kernel_rfl) (vdivq_f32_source a b)) (vdivq_f32_good a b) (.inl (written_f32x4_f32x4_to_f32x4 _ (.tail _ (.tail _ (.tail _ (.tail _ (.tail _ (.tail _ (.head _))))))) a b))

theorem vdivq_f64_good [Dialect] (a : float64x2_t) (b : float64x2_t) : Good none True (fun _ => True) (Model.vdivq_f64 a b) := by
  unfold Model.vdivq_f64
  good_body

theorem vdivq_f64_typed [Dialect] : Total (k!"vdivq_f64", .fn Source.vdivq_f64) := by
  refine total_fn vdivq_f64_sig_read fun args h => ?_
  obtain ⟨a0, b0, rfl, ta, tb⟩ := typed2 h
  obtain ⟨a, rfl⟩ := ta
  obtain ⟨b, rfl⟩ := tb
  exact total_vec (called_fn (by kernel_rfl) (vdivq_f64_source a b)) (vdivq_f64_good a b) (.inl (written_f64x2_f64x2_to_f64x2 _ (.head _) a b))

theorem vmlaq_f32_good [Dialect] (N : float32x4_t) (M : float32x4_t) (P : float32x4_t) : Good none True (fun _ => True) (Model.vmlaq_f32 N M P) := by
  unfold Model.vmlaq_f32
  good_body

theorem vmlaq_f32_typed [Dialect] : Total (k!"vmlaq_f32", .fn Source.vmlaq_f32) := by
  refine total_fn vmlaq_f32_sig_read fun args h => ?_
  obtain ⟨N0, M0, P0, rfl, tN, tM, tP⟩ := typed3 h
  obtain ⟨N, rfl⟩ := tN
  obtain ⟨M, rfl⟩ := tM
  obtain ⟨P, rfl⟩ := tP
  exact total_vec (called_fn (by kernel_rfl) (vmlaq_f32_source N M P)) (vmlaq_f32_good N M P) (.inl (written_f32x4_f32x4_f32x4_to_f32x4 _ (.head _) N M P))

theorem vmlaq_n_f32_good [Dialect] (a : float32x4_t) (b : float32x4_t) (c : float32_t) : Good none True (fun _ => True) (Model.vmlaq_n_f32 a b c) := by
  unfold Model.vmlaq_n_f32
  good_body

theorem vmlaq_n_f32_typed [Dialect] : Total (k!"vmlaq_n_f32", .fn Source.vmlaq_n_f32) := by
  refine total_fn vmlaq_n_f32_sig_read fun args h => ?_
  obtain ⟨a0, b0, c0, rfl, ta, tb, tc⟩ := typed3 h
  obtain ⟨a, rfl⟩ := ta
  obtain ⟨b, rfl⟩ := tb
  obtain ⟨c, rfl⟩ := tc
  exact total_vec (called_fn (by kernel_rfl) (vmlaq_n_f32_source a b c)) (vmlaq_n_f32_good a b c) (.inl (written_f32x4_f32x4_f32_to_f32x4 _ (.head _) a b c))

theorem vcvtq_f32_s32_good [Dialect] (a : int32x4_t) : Good none True (fun _ => True) (Model.vcvtq_f32_s32 a) := by
  unfold Model.vcvtq_f32_s32
  good_body

theorem vcvtq_f32_s32_typed [Dialect] : Total (k!"vcvtq_f32_s32", .fn Source.vcvtq_f32_s32) := by
  refine total_fn vcvtq_f32_s32_sig_read fun args h => ?_
  obtain ⟨a0, rfl, ta⟩ := typed1 h
  obtain ⟨a, rfl⟩ := ta
  exact total_vec (called_fn (by kernel_rfl) (vcvtq_f32_s32_source a)) (vcvtq_f32_s32_good a) (.inl (written_s32x4_to_f32x4 _ (.head _) a))

theorem vcvtq_s32_f32_good [Dialect] (a : float32x4_t) : Good none True (fun _ => True) (Model.vcvtq_s32_f32 a) := by
  unfold Model.vcvtq_s32_f32
  good_body

theorem vcvtq_s32_f32_typed [Dialect] : Total (k!"vcvtq_s32_f32", .fn Source.vcvtq_s32_f32) := by
  refine total_fn vcvtq_s32_f32_sig_read fun args h => ?_
  obtain ⟨a0, rfl, ta⟩ := typed1 h
  obtain ⟨a, rfl⟩ := ta
  exact total_vec (called_fn (by kernel_rfl) (vcvtq_s32_f32_source a)) (vcvtq_s32_f32_good a) (.inl (written_f32x4_to_s32x4 _ (.head _) a))

theorem vcvtq_u32_f32_good [Dialect] (a : float32x4_t) : Good none True (fun _ => True) (Model.vcvtq_u32_f32 a) := by
  unfold Model.vcvtq_u32_f32
  good_body

theorem vcvtq_u32_f32_typed [Dialect] : Total (k!"vcvtq_u32_f32", .fn Source.vcvtq_u32_f32) := by
  refine total_fn vcvtq_u32_f32_sig_read fun args h => ?_
  obtain ⟨a0, rfl, ta⟩ := typed1 h
  obtain ⟨a, rfl⟩ := ta
  exact total_vec (called_fn (by kernel_rfl) (vcvtq_u32_f32_source a)) (vcvtq_u32_f32_good a) (.inl (written_f32x4_to_u32x4 _ (.tail _ (.head _)) a))

theorem vcvtnq_s32_f32_good [Dialect] (a : float32x4_t) : Good none True (fun _ => True) (Model.vcvtnq_s32_f32 a) := by
  unfold Model.vcvtnq_s32_f32
  good_body

theorem vcvtnq_s32_f32_typed [Dialect] : Total (k!"vcvtnq_s32_f32", .fn Source.vcvtnq_s32_f32) := by
  refine total_fn vcvtnq_s32_f32_sig_read fun args h => ?_
  obtain ⟨a0, rfl, ta⟩ := typed1 h
  obtain ⟨a, rfl⟩ := ta
  exact total_vec (called_fn (by kernel_rfl) (vcvtnq_s32_f32_source a)) (vcvtnq_s32_f32_good a) (.inl (written_f32x4_to_s32x4 _ (.tail _ (.head _)) a))

theorem vcltq_f32_good [Dialect] (N : float32x4_t) (M : float32x4_t) : Good none True (fun _ => True) (Model.vcltq_f32 N M) := by
  unfold Model.vcltq_f32
  good_body

theorem vcltq_f32_typed [Dialect] : Total (k!"vcltq_f32", .fn Source.vcltq_f32) := by
  refine total_fn vcltq_f32_sig_read fun args h => ?_
  obtain ⟨N0, M0, rfl, tN, tM⟩ := typed2 h
  obtain ⟨N, rfl⟩ := tN
  obtain ⟨M, rfl⟩ := tM
  exact total_vec (called_fn (by kernel_rfl) (vcltq_f32_source N M)) (vcltq_f32_good N M) (.inl (written_f32x4_f32x4_to_u32x4 _ (.head _) N M))

theorem vmaxq_f32_good [Dialect] (N : float32x4_t) (M : float32x4_t) : Good none True (fun _ => True) (Model.vmaxq_f32 N M) := by
  unfold Model.vmaxq_f32
  good_body

theorem vmaxq_f32_typed [Dialect] : Total (k!"vmaxq_f32", .fn Source.vmaxq_f32) := by
  refine total_fn vmaxq_f32_sig_read fun args h => ?_
  obtain ⟨N0, M0, rfl, tN, tM⟩ := typed2 h
  obtain ⟨N, rfl⟩ := tN
  obtain ⟨M, rfl⟩ := tM
  exact total_vec (called_fn (by kernel_rfl) (vmaxq_f32_source N M)) (vmaxq_f32_good N M) (.inl (written_f32x4_f32x4_to_f32x4 _ (.head _) N M))

theorem vminq_f32_good [Dialect] (N : float32x4_t) (M : float32x4_t) : Good none True (fun _ => True) (Model.vminq_f32 N M) := by
  unfold Model.vminq_f32
  good_body

theorem vminq_f32_typed [Dialect] : Total (k!"vminq_f32", .fn Source.vminq_f32) := by
  refine total_fn vminq_f32_sig_read fun args h => ?_
  obtain ⟨N0, M0, rfl, tN, tM⟩ := typed2 h
  obtain ⟨N, rfl⟩ := tN
  obtain ⟨M, rfl⟩ := tM
  exact total_vec (called_fn (by kernel_rfl) (vminq_f32_source N M)) (vminq_f32_good N M) (.inl (written_f32x4_f32x4_to_f32x4 _ (.tail _ (.tail _ (.tail _ (.tail _ (.head _))))) N M))

theorem vpmax_f32_good [Dialect] (a : float32x2_t) (b : float32x2_t) : Good none True (fun _ => True) (Model.vpmax_f32 a b) := by
  unfold Model.vpmax_f32
  good_body

theorem vpmax_f32_typed [Dialect] : Total (k!"vpmax_f32", .fn Source.vpmax_f32) := by
  refine total_fn vpmax_f32_sig_read fun args h => ?_
  obtain ⟨a0, b0, rfl, ta, tb⟩ := typed2 h
  obtain ⟨a, rfl⟩ := ta
  obtain ⟨b, rfl⟩ := tb
  exact total_vec (called_fn (by kernel_rfl) (vpmax_f32_source a b)) (vpmax_f32_good a b) (.inl (written_f32x2_f32x2_to_f32x2 _ (.tail _ (.head _)) a b))

theorem vpmin_f32_good [Dialect] (a : float32x2_t) (b : float32x2_t) : Good none True (fun _ => True) (Model.vpmin_f32 a b) := by
  unfold Model.vpmin_f32
  good_body

theorem vpmin_f32_typed [Dialect] : Total (k!"vpmin_f32", .fn Source.vpmin_f32) := by
  refine total_fn vpmin_f32_sig_read fun args h => ?_
  obtain ⟨a0, b0, rfl, ta, tb⟩ := typed2 h
  obtain ⟨a, rfl⟩ := ta
  obtain ⟨b, rfl⟩ := tb
  exact total_vec (called_fn (by kernel_rfl) (vpmin_f32_source a b)) (vpmin_f32_good a b) (.inl (written_f32x2_f32x2_to_f32x2 _ (.tail _ (.tail _ (.head _))) a b))

theorem vbslq_f32_good [Dialect] (mask : uint32x4_t) (a : float32x4_t) (b : float32x4_t) : Good none True (fun _ => True) (Model.vbslq_f32 mask a b) := by
  unfold Model.vbslq_f32
  good_body

theorem vbslq_f32_typed [Dialect] : Total (k!"vbslq_f32", .fn Source.vbslq_f32) := by
  refine total_fn vbslq_f32_sig_read fun args h => ?_
  obtain ⟨mask0, a0, b0, rfl, tmask, ta, tb⟩ := typed3 h
  obtain ⟨mask, rfl⟩ := tmask
  obtain ⟨a, rfl⟩ := ta
  obtain ⟨b, rfl⟩ := tb
  exact total_vec (called_fn (by kernel_rfl) (vbslq_f32_source mask a b)) (vbslq_f32_good mask a b) (.inl (written_u32x4_f32x4_f32x4_to_f32x4 _ (.head _) mask a b))

theorem vld1_u8_good [Dialect] (ptr : Ptr .u8) : Good none True (fun _ => True) (Model.vld1_u8 ptr) := by
  unfold Model.vld1_u8
  good_body

theorem vld1_u8_typed [Dialect] : Total (k!"vld1_u8", .fn Source.vld1_u8) := by
  refine total_fn vld1_u8_sig_read fun args h => ?_
  obtain ⟨ptr0, rfl, tptr⟩ := typed1 h
  obtain ⟨ptr, rfl⟩ := tptr
  exact total_vec (called_fn (by kernel_rfl) (vld1_u8_source ptr)) (vld1_u8_good ptr) (.inl (written_pu8_to_u8x8 _ (.head _) ptr))

theorem vld1_s8_good [Dialect] (ptr : Ptr .s8) : Good none True (fun _ => True) (Model.vld1_s8 ptr) := by
  unfold Model.vld1_s8
  good_body

theorem vld1_s8_typed [Dialect] : Total (k!"vld1_s8", .fn Source.vld1_s8) := by
  refine total_fn vld1_s8_sig_read fun args h => ?_
  obtain ⟨ptr0, rfl, tptr⟩ := typed1 h
  obtain ⟨ptr, rfl⟩ := tptr
  exact total_vec (called_fn (by kernel_rfl) (vld1_s8_source ptr)) (vld1_s8_good ptr) (.inl (written_ps8_to_s8x8 _ (.head _) ptr))

theorem vld1_u16_good [Dialect] (ptr : Ptr .u16) : Good none True (fun _ => True) (Model.vld1_u16 ptr) := by
  unfold Model.vld1_u16
  good_body

theorem vld1_u16_typed [Dialect] : Total (k!"vld1_u16", .fn Source.vld1_u16) := by
  refine total_fn vld1_u16_sig_read fun args h => ?_
  obtain ⟨ptr0, rfl, tptr⟩ := typed1 h
  obtain ⟨ptr, rfl⟩ := tptr
  exact total_vec (called_fn (by kernel_rfl) (vld1_u16_source ptr)) (vld1_u16_good ptr) (.inl (written_pu16_to_u16x4 _ (.head _) ptr))

end Verif.Props
