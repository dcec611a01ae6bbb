import Verif.Typing
import Verif.ArmLemmas
import Verif.Props.Signatures
import Verif.Props.Outcome
import Verif.Props.TypedBase

/-! # Calls with arguments of the declared types, part 3 (C78)

Generated by `tools/gen_typed.py`. -/

set_option linter.unusedVariables false

namespace Verif.Props
open Verif.Cpp Verif.Arm

theorem vmvnq_u32_good [Dialect] (a : uint32x4_t) : Good none True (fun _ => True) (Model.vmvnq_u32 a) := by
  unfold Model.vmvnq_u32
  good_body

theorem vmvnq_u32_typed [Dialect] : Total (k!"vmvnq_u32", .fn Source.vmvnq_u32) := by
  refine total_fn vmvnq_u32_sig_read fun args h => ?_
  obtain ⟨a0, rfl, ta⟩ := typed1 h
  obtain ⟨a, rfl⟩ := ta
  exact total_vec (called_fn (by kernel_rfl) (vmvnq_u32_source a)) (vmvnq_u32_good a) (.inl (written_u32x4_to_u32x4 _ (.head _) a))

theorem vmaxq_s8_good [Dialect] (N : int8x16_t) (M : int8x16_t) : Good none True (fun _ => True) (Model.vmaxq_s8 N M) := by
  unfold Model.vmaxq_s8
  good_body

theorem vmaxq_s8_typed [Dialect] : Total (k!"vmaxq_s8", .fn Source.vmaxq_s8) := by
  refine total_fn vmaxq_s8_sig_read fun args h => ?_
  obtain ⟨N0, M0, rfl, tN, tM⟩ := typed2 h
  obtain ⟨N, rfl⟩ := tN
  obtain ⟨M, rfl⟩ := tM
  exact total_vec (called_fn (by kernel_rfl) (vmaxq_s8_source N M)) (vmaxq_s8_good N M) (.inl (written_s8x16_s8x16_to_s8x16 _ (.head _) N M))

theorem vmaxq_s16_good [Dialect] (N : int16x8_t) (M : int16x8_t) : Good none True (fun _ => True) (Model.vmaxq_s16 N M) := by
  unfold Model.vmaxq_s16
  good_body

theorem vmaxq_s16_typed [Dialect] : Total (k!"vmaxq_s16", .fn Source.vmaxq_s16) := by
  refine total_fn vmaxq_s16_sig_read fun args h => ?_
  obtain ⟨N0, M0, rfl, tN, tM⟩ := typed2 h
  obtain ⟨N, rfl⟩ := tN
  obtain ⟨M, rfl⟩ := tM
  exact total_vec (called_fn (by kernel_rfl) (vmaxq_s16_source N M)) (vmaxq_s16_good N M) (.inl (written_s16x8_s16x8_to_s16x8 _ (.head _) N M))

theorem vmaxq_s32_good [Dialect] (N : int32x4_t) (M : int32x4_t) : Good none True (fun _ => True) (Model.vmaxq_s32 N M) := by
  unfold Model.vmaxq_s32
  good_body

theorem vmaxq_s32_typed [Dialect] : Total (k!"vmaxq_s32", .fn Source.vmaxq_s32) := by
  refine total_fn vmaxq_s32_sig_read fun args h => ?_
  obtain ⟨N0, M0, rfl, tN, tM⟩ := typed2 h
  obtain ⟨N, rfl⟩ := tN
  obtain ⟨M, rfl⟩ := tM
  exact total_vec (called_fn (by kernel_rfl) (vmaxq_s32_source N M)) (vmaxq_s32_good N M) (.inl (written_s32x4_s32x4_to_s32x4 _ (.head _) N M))

theorem vmaxq_u8_good [Dialect] (N : int8x16_t) (M : int8x16_t) : Good none True (fun _ => True) (Model.vmaxq_u8 N M) := by
  unfold Model.vmaxq_u8
  good_body

theorem vmaxq_u8_typed [Dialect] : Total (k!"vmaxq_u8", .fn Source.vmaxq_u8) := by
  refine total_fn vmaxq_u8_sig_read fun args h => ?_
  obtain ⟨N0, M0, rfl, tN, tM⟩ := typed2 h
  obtain ⟨N, rfl⟩ := tN
  obtain ⟨M, rfl⟩ := tM
  exact total_vec (called_fn (by kernel_rfl) (vmaxq_u8_source N M)) (vmaxq_u8_good N M) (.inl (written_s8x16_s8x16_to_s8x16 _ (.tail _ (.head _)) N M))

theorem vmaxq_u16_good [Dialect] (N : int16x8_t) (M : int16x8_t) : Good none True (fun _ => True) (Model.vmaxq_u16 N M) := by
  unfold Model.vmaxq_u16
  good_body

theorem vmaxq_u16_typed [Dialect] : Total (k!"vmaxq_u16", .fn Source.vmaxq_u16) := by
  refine total_fn vmaxq_u16_sig_read fun args h => ?_
  obtain ⟨N0, M0, rfl, tN, tM⟩ := typed2 h
  obtain ⟨N, rfl⟩ := tN
  obtain ⟨M, rfl⟩ := tM
  exact total_vec (called_fn (by kernel_rfl) (vmaxq_u16_source N M)) (vmaxq_u16_good N M) (.inl (written_s16x8_s16x8_to_s16x8 _ (.tail _ (.head _)) N M))

theorem vmaxq_u32_good [Dialect] (N : int32x4_t) (M : int32x4_t) : Good none True (fun _ => True) (Model.vmaxq_u32 N M) := by
  unfold Model.vmaxq_u32
  good_body

theorem vmaxq_u32_typed [Dialect] : Total (k!"vmaxq_u32", .fn Source.vmaxq_u32) := by
  refine total_fn vmaxq_u32_sig_read fun args h => ?_
  obtain ⟨N0, M0, rfl, tN, tM⟩ := typed2 h
  obtain ⟨N, rfl⟩ := tN
  obtain ⟨M, rfl⟩ := tM
  exact total_vec (called_fn (by kernel_rfl) (vmaxq_u32_source N M)) (vmaxq_u32_good N M) (.inl (written_s32x4_s32x4_to_s32x4 _ (.tail _ (.head _)) N M))

theorem vminq_s8_good [Dialect] (N : int8x16_t) (M : int8x16_t) : Good none True (fun _ => True) (Model.vminq_s8 N M) := by
  unfold Model.vminq_s8
  good_body

theorem vminq_s8_typed [Dialect] : Total (k!"vminq_s8", .fn Source.vminq_s8) := by
  refine total_fn vminq_s8_sig_read fun args h => ?_
  obtain ⟨N0, M0, rfl, tN, tM⟩ := typed2 h
  obtain ⟨N, rfl⟩ := tN
  obtain ⟨M, rfl⟩ := tM
  exact total_vec (called_fn (by kernel_rfl) (vminq_s8_source N M)) (vminq_s8_good N M) (.inl (written_s8x16_s8x16_to_s8x16 _ (.tail _ (.tail _ (.tail _ (.tail _ (.tail _ (.tail _ (.tail _ (.head _)))))))) N M))

theorem vminq_s16_good [Dialect] (N : int16x8_t) (M : int16x8_t) : Good none True (fun _ => True) (Model.vminq_s16 N M) := by
  unfold Model.vminq_s16
  good_body

theorem vminq_s16_typed [Dialect] : Total (k!"vminq_s16", .fn Source.vminq_s16) := by
  refine total_fn vminq_s16_sig_read fun args h => ?_
  obtain ⟨N0, M0, rfl, tN, tM⟩ := typed2 h
  obtain ⟨N, rfl⟩ := tN
  obtain ⟨M, rfl⟩ := tM
  exact total_vec (called_fn (by kernel_rfl) (vminq_s16_source N M)) (vminq_s16_good N M) (.inl (written_s16x8_s16x8_to_s16x8 _ (.tail _ (.tail _ (.tail _ (.tail _ (.tail _ (.tail _ (.tail _ (.head _)))))))) N M))

theorem vminq_s32_good [Dialect] (N : int32x4_t) (M : int32x4_t) : Good none True (fun _ => True) (Model.vminq_s32 N M) := by
  unfold Model.vminq_s32
  good_body

theorem vminq_s32_typed [Dialect] : Total (k!"vminq_s32", .fn Source.vminq_s32) := by
  refine total_fn vminq_s32_sig_read fun args h => ?_
  obtain ⟨N0, M0, rfl, tN, tM⟩ := typed2 h
  obtain ⟨N, rfl⟩ := tN
  obtain ⟨M, rfl⟩ := tM
  exact total_vec (called_fn (by kernel_rfl) (vminq_s32_source N M)) (vminq_s32_good N M) (.inl (written_s32x4_s32x4_to_s32x4 _ (.tail _ (.tail _ (.tail _ (.tail _ (.tail _ (.tail _ (.tail _ (.head _)))))))) N M))

theorem vminq_u8_good [Dialect] (N : int8x16_t) (M : int8x16_t) : Good none True (fun _ => True) (Model.vminq_u8 N M) := by
  unfold Model.vminq_u8
  good_body

theorem vminq_u8_typed [Dialect] : Total (k!"vminq_u8", .fn Source.vminq_u8) := by
  refine total_fn vminq_u8_sig_read fun args h => ?_
  obtain ⟨N0, M0, rfl, tN, tM⟩ := typed2 h
  obtain ⟨N, rfl⟩ := tN
  obtain ⟨M, rfl⟩ := tM
  exact total_vec (called_fn (by kernel_rfl) (vminq_u8_source N M)) (vminq_u8_good N M) (.inl (written_s8x16_s8x16_to_s8x16 _ (.tail _ (.tail _ (.tail _ (.tail _ (.tail _ (.tail _ (.tail _ (.tail _ (.head _))))))))) N M))

theorem vminq_u16_good [Dialect] (N : int16x8_t) (M : int16x8_t) : Good none True (fun _ => True) (Model.vminq_u16 N M) := by
  unfold Model.vminq_u16
  good_body

theorem vminq_u16_typed [Dialect] : Total (k!"vminq_u16", .fn Source.vminq_u16) := by
  refine total_fn vminq_u16_sig_read fun args h => ?_
  obtain ⟨N0, M0, rfl, tN, tM⟩ := typed2 h
  obtain ⟨N, rfl⟩ := tN
  obtain ⟨M, rfl⟩ := tM
  exact total_vec (called_fn (by kernel_rfl) (vminq_u16_source N M)) (vminq_u16_good N M) (.inl (written_s16x8_s16x8_to_s16x8 _ (.tail _ (.tail _ (.tail _ (.tail _ (.tail _ (.tail _ (.tail _ (.tail _ (.head _))))))))) N M))

theorem vminq_u32_good [Dialect] (N : int32x4_t) (M : int32x4_t) : Good none True (fun _ => True) (Model.vminq_u32 N M) := by
  unfold Model.vminq_u32
  good_body

theorem vminq_u32_typed [Dialect] : Total (k!"vminq_u32", .fn Source.vminq_u32) := by
  refine total_fn vminq_u32_sig_read fun args h => ?_
  obtain ⟨N0, M0, rfl, tN, tM⟩ := typed2 h
  obtain ⟨N, rfl⟩ := tN
  obtain ⟨M, rfl⟩ := tM
  exact total_vec (called_fn (by kernel_rfl) (vminq_u32_source N M)) (vminq_u32_good N M) (.inl (written_s32x4_s32x4_to_s32x4 _ (.tail _ (.tail _ (.tail _ (.tail _ (.tail _ (.tail _ (.tail _ (.tail _ (.head _))))))))) N M))

theorem vdup_n_s8_good [Dialect] (N : int8_t) : Good none True (fun _ => True) (Model.vdup_n_s8 N) := by
  unfold Model.vdup_n_s8
  good_body

theorem vdup_n_s8_typed [Dialect] : Total (k!"vdup_n_s8", .fn Source.vdup_n_s8) := by
  refine total_fn vdup_n_s8_sig_read fun args h => ?_
  obtain ⟨N0, rfl, tN⟩ := typed1 h
  obtain ⟨N, rfl⟩ := tN
  exact total_vec (called_fn (by kernel_rfl) (vdup_n_s8_source N)) (vdup_n_s8_good N) (.inl (written_s8_to_s8x8 _ (.head _) N))

theorem vdup_n_s16_good [Dialect] (N : int16_t) : Good none True (fun _ => True) (Model.vdup_n_s16 N) := by
  unfold Model.vdup_n_s16
  good_body

theorem vdup_n_s16_typed [Dialect] : Total (k!"vdup_n_s16", .fn Source.vdup_n_s16) := by
  refine total_fn vdup_n_s16_sig_read fun args h => ?_
  obtain ⟨N0, rfl, tN⟩ := typed1 h
  obtain ⟨N, rfl⟩ := tN
  exact total_vec (called_fn (by kernel_rfl) (vdup_n_s16_source N)) (vdup_n_s16_good N) (.inl (written_s16_to_s16x4 _ (.head _) N))

theorem vdup_n_s32_good [Dialect] (N : int32_t) : Good none True (fun _ => True) (Model.vdup_n_s32 N) := by
  unfold Model.vdup_n_s32
  good_body

theorem vdup_n_s32_typed [Dialect] : Total (k!"vdup_n_s32", .fn Source.vdup_n_s32) := by
  refine total_fn vdup_n_s32_sig_read fun args h => ?_
  obtain ⟨N0, rfl, tN⟩ := typed1 h
  obtain ⟨N, rfl⟩ := tN
  exact total_vec (called_fn (by kernel_rfl) (vdup_n_s32_source N)) (vdup_n_s32_good N) (.inl (written_s32_to_s32x2 _ (.head _) N))

theorem vdup_n_s64_good [Dialect] (N : int64_t) : Good none True (fun _ => True) (Model.vdup_n_s64 N) := by
  unfold Model.vdup_n_s64
  good_body

theorem vdup_n_s64_typed [Dialect] : Total (k!"vdup_n_s64", .fn Source.vdup_n_s64) := by
  refine total_fn vdup_n_s64_sig_read fun args h => ?_
  obtain ⟨N0, rfl, tN⟩ := typed1 h
  obtain ⟨N, rfl⟩ := tN
  exact total_vec (called_fn (by kernel_rfl) (vdup_n_s64_source N)) (vdup_n_s64_good N) (.inl (written_s64_to_s64x1 _ (.head _) N))

theorem vdup_n_u8_good [Dialect] (N : uint8_t) : Good none True (fun _ => True) (Model.vdup_n_u8 N) := by
  unfold Model.vdup_n_u8
  good_body

theorem vdup_n_u8_typed [Dialect] : Total (k!"vdup_n_u8", .fn Source.vdup_n_u8) := by
  refine total_fn vdup_n_u8_sig_read fun args h => ?_
  obtain ⟨N0, rfl, tN⟩ := typed1 h
  obtain ⟨N, rfl⟩ := tN
  exact total_vec (called_fn (by kernel_rfl) (vdup_n_u8_source N)) (vdup_n_u8_good N) (.inl (written_u8_to_u8x8 _ (.head _) N))

theorem vdup_n_u16_good [Dialect] (N : uint16_t) : Good none True (fun _ => True) (Model.vdup_n_u16 N) := by
  unfold Model.vdup_n_u16
  good_body

theorem vdup_n_u16_typed [Dialect] : Total (k!"vdup_n_u16", .fn Source.vdup_n_u16) := by
  refine total_fn vdup_n_u16_sig_read fun args h => ?_
  obtain ⟨N0, rfl, tN⟩ := typed1 h
  obtain ⟨N, rfl⟩ := tN
  exact total_vec (called_fn (by kernel_rfl) (vdup_n_u16_source N)) (vdup_n_u16_good N) (.inl (written_u16_to_u16x4 _ (.head _) N))

theorem vdup_n_u32_good [Dialect] (N : uint32_t) : Good none True (fun _ => True) (Model.vdup_n_u32 N) := by
  unfold Model.vdup_n_u32
  good_body

theorem vdup_n_u32_typed [Dialect] : Total (k!"vdup_n_u32", .fn Source.vdup_n_u32) := by
  refine total_fn vdup_n_u32_sig_read fun args h => ?_
  obtain ⟨N0, rfl, tN⟩ := typed1 h
  obtain ⟨N, rfl⟩ := tN
  exact total_vec (called_fn (by kernel_rfl) (vdup_n_u32_source N)) (vdup_n_u32_good N) (.inl (written_u32_to_u32x2 _ (.head _) N))

theorem vdup_n_u64_good [Dialect] (N : uint64_t) : Good none True (fun _ => True) (Model.vdup_n_u64 N) := by
  unfold Model.vdup_n_u64
  good_body

theorem vdup_n_u64_typed [Dialect] : Total (k!"vdup_n_u64", .fn Source.vdup_n_u64) := by
  refine total_fn vdup_n_u64_sig_read fun args h => ?_
  obtain ⟨N0, rfl, tN⟩ := typed1 h
  obtain ⟨N, rfl⟩ := tN
  exact total_vec (called_fn (by kernel_rfl) (vdup_n_u64_source N)) (vdup_n_u64_good N) (.inl (written_u64_to_u64x1 _ (.head _) N))

theorem vdupq_n_u8_good [Dialect] (value : uint8_t) : Good none True (fun _ => True) (Model.vdupq_n_u8 value) := by
  unfold Model.vdupq_n_u8
  good_body

theorem vdupq_n_u8_typed [Dialect] : Total (k!"vdupq_n_u8", .fn Source.vdupq_n_u8) := by
  refine total_fn vdupq_n_u8_sig_read fun args h => ?_
  obtain ⟨value0, rfl, tvalue⟩ := typed1 h
  obtain ⟨value, rfl⟩ := tvalue
  exact total_vec (called_fn (by kernel_rfl) (vdupq_n_u8_source value)) (vdupq_n_u8_good value) (.inl (written_u8_to_u8x16 _ (.head _) value))

theorem vdupq_n_s8_good [Dialect] (value : int8_t) : Good none True (fun _ => True) (Model.vdupq_n_s8 value) := by
  unfold Model.vdupq_n_s8
  good_body

theorem vdupq_n_s8_typed [Dialect] : Total (k!"vdupq_n_s8", .fn Source.vdupq_n_s8) := by
  refine total_fn vdupq_n_s8_sig_read fun args h => ?_
  obtain ⟨value0, rfl, tvalue⟩ := typed1 h
  obtain ⟨value, rfl⟩ := tvalue
  exact total_vec (called_fn (by kernel_rfl) (vdupq_n_s8_source value)) (vdupq_n_s8_good value) (.inl (written_s8_to_s8x16 _ (.head _) value))

theorem vdupq_n_u16_good [Dialect] (value : uint16_t) : Good none True (fun _ => True) (Model.vdupq_n_u16 value) := by
  unfold Model.vdupq_n_u16
  good_body

theorem vdupq_n_u16_typed [Dialect] : Total (k!"vdupq_n_u16", .fn Source.vdupq_n_u16) := by
  refine total_fn vdupq_n_u16_sig_read fun args h => ?_
  obtain ⟨value0, rfl, tvalue⟩ := typed1 h
  obtain ⟨value, rfl⟩ := tvalue
  exact total_vec (called_fn (by kernel_rfl) (vdupq_n_u16_source value)) (vdupq_n_u16_good value) (.inl (written_u16_to_u16x8 _ (.head _) value))

theorem vdupq_n_s16_good [Dialect] (value : int16_t) : Good none True (fun _ => True) (Model.vdupq_n_s16 value) := by
  unfold Model.vdupq_n_s16
  good_body

theorem vdupq_n_s16_typed [Dialect] : Total (k!"vdupq_n_s16", .fn Source.vdupq_n_s16) := by
  refine total_fn vdupq_n_s16_sig_read fun args h => ?_
  obtain ⟨value0, rfl, tvalue⟩ := typed1 h
  obtain ⟨value, rfl⟩ := tvalue
  exact total_vec (called_fn (by kernel_rfl) (vdupq_n_s16_source value)) (vdupq_n_s16_good value) (.inl (written_s16_to_s16x8 _ (.head _) value))

theorem vdupq_n_u32_good [Dialect] (value : uint32_t) : Good none True (fun _ => True) (Model.vdupq_n_u32 value) := by
  unfold Model.vdupq_n_u32
  good_body

theorem vdupq_n_u32_typed [Dialect] : Total (k!"vdupq_n_u32", .fn Source.vdupq_n_u32) := by
  refine total_fn vdupq_n_u32_sig_read fun args h => ?_
  obtain ⟨value0, rfl, tvalue⟩ := typed1 h
  obtain ⟨value, rfl⟩ := tvalue
  exact total_vec (called_fn (by kernel_rfl) (vdupq_n_u32_source value)) (vdupq_n_u32_good value) (.inl (written_u32_to_u32x4 _ (.head _) value))

theorem vdupq_n_s32_good [Dialect] (value : int32_t) : Good none True (fun _ => True) (Model.vdupq_n_s32 value) := by
  unfold Model.vdupq_n_s32
  good_body

theorem vdupq_n_s32_typed [Dialect] : Total (k!"vdupq_n_s32", .fn Source.vdupq_n_s32) := by
  refine total_fn vdupq_n_s32_sig_read fun args h => ?_
  obtain ⟨value0, rfl, tvalue⟩ := typed1 h
  obtain ⟨value, rfl⟩ := tvalue
  exact total_vec (called_fn (by kernel_rfl) (vdupq_n_s32_source value)) (vdupq_n_s32_good value) (.inl (written_s32_to_s32x4 _ (.head _) value))

theorem vdupq_n_f32_good [Dialect] (value : float32_t) : Good none True (fun _ => True) (Model.vdupq_n_f32 value) := by
  unfold Model.vdupq_n_f32
  good_body

theorem vdupq_n_f32_typed [Dialect] : Total (k!"vdupq_n_f32", .fn Source.vdupq_n_f32) := by
  refine total_fn vdupq_n_f32_sig_read fun args h => ?_
  obtain ⟨value0, rfl, tvalue⟩ := typed1 h
  obtain ⟨value, rfl⟩ := tvalue
  exact total_vec (called_fn (by kernel_rfl) (vdupq_n_f32_source value)) (vdupq_n_f32_good value) (.inl (written_f32_to_f32x4 _ (.head _) value))

theorem vmovq_n_f32_good [Dialect] (value : float32_t) : Good none True (fun _ => True) (Model.vmovq_n_f32 value) := by
  unfold Model.vmovq_n_f32
  good_body

theorem vmovq_n_f32_typed [Dialect] : Total (k!"vmovq_n_f32", .fn Source.vmovq_n_f32) := by
  refine total_fn vmovq_n_f32_sig_read fun args h => ?_
  obtain ⟨value0, rfl, tvalue⟩ := typed1 h
  obtain ⟨value, rfl⟩ := tvalue
  exact total_vec (called_fn (by kernel_rfl) (vmovq_n_f32_source value)) (vmovq_n_f32_good value) (.inl (written_f32_to_f32x4 _ (.tail _ (.head _)) value))

theorem vget_low_f32_good [Dialect] (a : float32x4_t) : Good none True (fun _ => True) (Model.vget_low_f32 a) := by
  unfold Model.vget_low_f32
  good_body

theorem vget_low_f32_typed [Dialect] : Total (k!"vget_low_f32", .fn Source.vget_low_f32) := by
  refine total_fn vget_low_f32_sig_read fun args h => ?_
  obtain ⟨a0, rfl, ta⟩ := typed1 h
  obtain ⟨a, rfl⟩ := ta
  exact total_vec (called_fn (by kernel_rfl) (vget_low_f32_source a)) (vget_low_f32_good a) (.inl (written_f32x4_to_f32x2 _ (.head _) a))

theorem vget_low_s32_good [Dialect] (a : int32x4_t) : Good none True (fun _ => True) (Model.vget_low_s32 a) := by
  unfold Model.vget_low_s32
  good_body

theorem vget_low_s32_typed [Dialect] : Total (k!"vget_low_s32", .fn Source.vget_low_s32) := by
  refine total_fn vget_low_s32_sig_read fun args h => ?_
  obtain ⟨a0, rfl, ta⟩ := typed1 h
  obtain ⟨a, rfl⟩ := ta
  exact total_vec (called_fn (by kernel_rfl) (vget_low_s32_source a)) (vget_low_s32_good a) (.inl (written_s32x4_to_s32x2 _ (.head _) a))

theorem vget_low_u32_good [Dialect] (a : uint32x4_t) : Good none True (fun _ => True) (Model.vget_low_u32 a) := by
  unfold Model.vget_low_u32
  good_body

theorem vget_low_u32_typed [Dialect] : Total (k!"vget_low_u32", .fn Source.vget_low_u32) := by
  refine total_fn vget_low_u32_sig_read fun args h => ?_
  obtain ⟨a0, rfl, ta⟩ := typed1 h
  obtain ⟨a, rfl⟩ := ta
  exact total_vec (called_fn (by kernel_rfl) (vget_low_u32_source a)) (vget_low_u32_good a) (.inl (written_u32x4_to_u32x2 _ (.head _) a))

theorem vget_low_s16_good [Dialect] (a : int16x8_t) : Good none True (fun _ => True) (Model.vget_low_s16 a) := by
  unfold Model.vget_low_s16
  good_body

theorem vget_low_s16_typed [Dialect] : Total (k!"vget_low_s16", .fn Source.vget_low_s16) := by
  refine total_fn vget_low_s16_sig_read fun args h => ?_
  obtain ⟨a0, rfl, ta⟩ := typed1 h
  obtain ⟨a, rfl⟩ := ta
  exact total_vec (called_fn (by kernel_rfl) (vget_low_s16_source a)) (vget_low_s16_good a) (.inl (written_s16x8_to_s16x4 _ (.head _) a))

theorem vget_low_u16_good [Dialect] (a : uint16x8_t) : Good none True (fun _ => True) (Model.vget_low_u16 a) := by
  unfold Model.vget_low_u16
  good_body

theorem vget_low_u16_typed [Dialect] : Total (k!"vget_low_u16", .fn Source.vget_low_u16) := by
  refine total_fn vget_low_u16_sig_read fun args h => ?_
  obtain ⟨a0, rfl, ta⟩ := typed1 h
  obtain ⟨a, rfl⟩ := ta
  exact total_vec (called_fn (by kernel_rfl) (vget_low_u16_source a)) (vget_low_u16_good a) (.inl (written_u16x8_to_u16x4 _ (.head _) a))

theorem vget_low_s8_good [Dialect] (a : int8x16_t) : Good none True (fun _ => True) (Model.vget_low_s8 a) := by
  unfold Model.vget_low_s8
  good_body

theorem vget_low_s8_typed [Dialect] : Total (k!"vget_low_s8", .fn Source.vget_low_s8) := by
  refine total_fn vget_low_s8_sig_read fun args h => ?_
  obtain ⟨a0, rfl, ta⟩ := typed1 h
  obtain ⟨a, rfl⟩ := ta
  exact total_vec (called_fn (by kernel_rfl) (vget_low_s8_source a)) (vget_low_s8_good a) (.inl (written_s8x16_to_s8x8 _ (.head _) a))

theorem vget_low_u8_good [Dialect] (a : uint8x16_t) : Good none True (fun _ => True) (Model.vget_low_u8 a) := by
  unfold Model.vget_low_u8
  good_body

theorem vget_low_u8_typed [Dialect] : Total (k!"vget_low_u8", .fn Source.vget_low_u8) := by
  refine total_fn vget_low_u8_sig_read fun args h => ?_
  obtain ⟨a0, rfl, ta⟩ := typed1 h
  obtain ⟨a, rfl⟩ := ta
  exact total_vec (called_fn (by kernel_rfl) (vget_low_u8_source a)) (vget_low_u8_good a) (.inl (written_u8x16_to_u8x8 _ (.head _) a))

theorem vget_high_f32_good [Dialect] (a : float32x4_t) : Good none True (fun _ => True) (Model.vget_high_f32 a) := by
  unfold Model.vget_high_f32
  good_body

theorem vget_high_f32_typed [Dialect] : Total (k!"vget_high_f32", .fn Source.vget_high_f32) := by
  refine total_fn vget_high_f32_sig_read fun args h => ?_
  obtain ⟨a0, rfl, ta⟩ := typed1 h
  obtain ⟨a, rfl⟩ := ta
  exact total_vec (called_fn (by kernel_rfl) (vget_high_f32_source a)) (vget_high_f32_good a) (.inl (written_f32x4_to_f32x2 _ (.tail _ (.head _)) a))

theorem vget_high_s32_good [Dialect] (a : int32x4_t) : Good none True (fun _ => True) (Model.vget_high_s32 a) := by
  unfold Model.vget_high_s32
  good_body

theorem vget_high_s32_typed [Dialect] : Total (k!"vget_high_s32", .fn Source.vget_high_s32) := by
  refine total_fn vget_high_s32_sig_read fun args h => ?_
  obtain ⟨a0, rfl, ta⟩ := typed1 h
  obtain ⟨a, rfl⟩ := ta
  exact total_vec (called_fn (by kernel_rfl) (vget_high_s32_source a)) (vget_high_s32_good a) (.inl (written_s32x4_to_s32x2 _ (.tail _ (.head _)) a))

theorem vget_high_u32_good [Dialect] (a : uint32x4_t) : Good none True (fun _ => True) (Model.vget_high_u32 a) := by
  unfold Model.vget_high_u32
  good_body

theorem vget_high_u32_typed [Dialect] : Total (k!"vget_high_u32", .fn Source.vget_high_u32) := by
  refine total_fn vget_high_u32_sig_read fun args h => ?_
  obtain ⟨a0, rfl, ta⟩ := typed1 h
  obtain ⟨a, rfl⟩ := ta
  exact total_vec (called_fn (by kernel_rfl) (vget_high_u32_source a)) (vget_high_u32_good a) (.inl (written_u32x4_to_u32x2 _ (.tail _ (.head _)) a))

theorem vget_high_s16_good [Dialect] (a : int16x8_t) : Good none True (fun _ => True) (Model.vget_high_s16 a) := by
  unfold Model.vget_high_s16
  good_body

theorem vget_high_s16_typed [Dialect] : Total (k!"vget_high_s16", .fn Source.vget_high_s16) := by
  refine total_fn vget_high_s16_sig_read fun args h => ?_
  obtain ⟨a0, rfl, ta⟩ := typed1 h
  obtain ⟨a, rfl⟩ := ta
  exact total_vec (called_fn (by kernel_rfl) (vget_high_s16_source a)) (vget_high_s16_good a) (.inl (written_s16x8_to_s16x4 _ (.tail _ (.head _)) a))

theorem vget_high_u16_good [Dialect] (a : uint16x8_t) : Good none True (fun _ => True) (Model.vget_high_u16 a) := by
  unfold Model.vget_high_u16
  good_body

theorem vget_high_u16_typed [Dialect] : Total (k!"vget_high_u16", .fn Source.vget_high_u16) := by
  refine total_fn vget_high_u16_sig_read fun args h => ?_
  obtain ⟨a0, rfl, ta⟩ := typed1 h
  obtain ⟨a, rfl⟩ := ta
  exact total_vec (called_fn (by kernel_rfl) (vget_high_u16_source a)) (vget_high_u16_good a) (.inl (written_u16x8_to_u16x4 _ (.tail _ (.head _)) a))

theorem vget_high_s8_good [Dialect] (a : int8x16_t) : Good none True (fun _ => True) (Model.vget_high_s8 a) := by
  unfold Model.vget_high_s8
  good_body

theorem vget_high_s8_typed [Dialect] : Total (k!"vget_high_s8", .fn Source.vget_high_s8) := by
  refine total_fn vget_high_s8_sig_read fun args h => ?_
  obtain ⟨a0, rfl, ta⟩ := typed1 h
  obtain ⟨a, rfl⟩ := ta
  exact total_vec (called_fn (by kernel_rfl) (vget_high_s8_source a)) (vget_high_s8_good a) (.inl (written_s8x16_to_s8x8 _ (.tail _ (.head _)) a))

theorem vget_high_u8_good [Dialect] (a : uint8x16_t) : Good none True (fun _ => True) (Model.vget_high_u8 a) := by
  unfold Model.vget_high_u8
  good_body

theorem vget_high_u8_typed [Dialect] : Total (k!"vget_high_u8", .fn Source.vget_high_u8) := by
  refine total_fn vget_high_u8_sig_read fun args h => ?_
  obtain ⟨a0, rfl, ta⟩ := typed1 h
  obtain ⟨a, rfl⟩ := ta
  exact total_vec (called_fn (by kernel_rfl) (vget_high_u8_source a)) (vget_high_u8_good a) (.inl (written_u8x16_to_u8x8 _ (.tail _ (.head _)) a))

theorem vcombine_u8_good [Dialect] (low : uint8x8_t) (high : uint8x8_t) : Good none True (fun _ => True) (Model.vcombine_u8 low high) := by
  unfold Model.vcombine_u8
  good_body

theorem vcombine_u8_typed [Dialect] : Total (k!"vcombine_u8", .fn Source.vcombine_u8) := by
  refine total_fn vcombine_u8_sig_read fun args h => ?_
  obtain ⟨low0, high0, rfl, tlow, thigh⟩ := typed2 h
  obtain ⟨low, rfl⟩ := tlow
  obtain ⟨high, rfl⟩ := thigh
  exact total_vec (called_fn (by kernel_rfl) (vcombine_u8_source low high)) (vcombine_u8_good low high) (.inl (written_u8x8_u8x8_to_u8x16 _ (.head _) low high))

theorem vcombine_u16_good [Dialect] (low : uint16x4_t) (high : uint16x4_t) : Good none True (fun _ => True) (Model.vcombine_u16 low high) := by
  unfold Model.vcombine_u16
  good_body

theorem vcombine_u16_typed [Dialect] : Total (k!"vcombine_u16", .fn Source.vcombine_u16) := by
  refine total_fn vcombine_u16_sig_read fun args h => ?_
  obtain ⟨low0, high0, rfl, tlow, thigh⟩ := typed2 h
  obtain ⟨low, rfl⟩ := tlow
  obtain ⟨high, rfl⟩ := thigh
  exact total_vec (called_fn (by kernel_rfl) (vcombine_u16_source low high)) (vcombine_u16_good low high) (.inl (written_u16x4_u16x4_to_u16x8 _ (.head _) low high))

theorem vcombine_u32_good [Dialect] (low : uint32x2_t) (high : uint32x2_t) : Good none True (fun _ => True) (Model.vcombine_u32 low high) := by
  unfold Model.vcombine_u32
  good_body

theorem vcombine_u32_typed [Dialect] : Total (k!"vcombine_u32", .fn Source.vcombine_u32) := by
  refine total_fn vcombine_u32_sig_read fun args h => ?_
  obtain ⟨low0, high0, rfl, tlow, thigh⟩ := typed2 h
  obtain ⟨low, rfl⟩ := tlow
  obtain ⟨high, rfl⟩ := thigh
  exact total_vec (called_fn (by kernel_rfl) (vcombine_u32_source low high)) (vcombine_u32_good low high) (.inl (written_u32x2_u32x2_to_u32x4 _ (.head _) low high))

theorem vcombine_s8_good [Dialect] (low : int8x8_t) (high : int8x8_t) : Good none True (fun _ => True) (Model.vcombine_s8 low high) := by
  unfold Model.vcombine_s8
  good_body

theorem vcombine_s8_typed [Dialect] : Total (k!"vcombine_s8", .fn Source.vcombine_s8) := by
  refine total_fn vcombine_s8_sig_read fun args h => ?_
  obtain ⟨low0, high0, rfl, tlow, thigh⟩ := typed2 h
  obtain ⟨low, rfl⟩ := tlow
  obtain ⟨high, rfl⟩ := thigh
  exact total_vec (called_fn (by kernel_rfl) (vcombine_s8_source low high)) (vcombine_s8_good low high) (.inl (written_s8x8_s8x8_to_s8x16 _ (.head _) low high))

theorem vcombine_s16_good [Dialect] (low : int16x4_t) (high : int16x4_t) : Good none True (fun _ => True) (Model.vcombine_s16 low high) := by
  unfold Model.vcombine_s16
  good_body

theorem vcombine_s16_typed [Dialect] : Total (k!"vcombine_s16", .fn Source.vcombine_s16) := by
  refine total_fn vcombine_s16_sig_read fun args h => ?_
  obtain ⟨low0, high0, rfl, tlow, thigh⟩ := typed2 h
  obtain ⟨low, rfl⟩ := tlow
  obtain ⟨high, rfl⟩ := thigh
  exact total_vec (called_fn (by kernel_rfl) (vcombine_s16_source low high)) (vcombine_s16_good low high) (.inl (written_s16x4_s16x4_to_s16x8 _ (.head _) low high))

theorem vcombine_s32_good [Dialect] (low : int32x2_t) (high : int32x2_t) : Good none True (fun _ => True) (Model.vcombine_s32 low high) := by
  unfold Model.vcombine_s32
  good_body

theorem vcombine_s32_typed [Dialect] : Total (k!"vcombine_s32", .fn Source.vcombine_s32) := by
  refine total_fn vcombine_s32_sig_read fun args h => ?_
  obtain ⟨low0, high0, rfl, tlow, thigh⟩ := typed2 h
  obtain ⟨low, rfl⟩ := tlow
  obtain ⟨high, rfl⟩ := thigh
  exact total_vec (called_fn (by kernel_rfl) (vcombine_s32_source low high)) (vcombine_s32_good low high) (.inl (written_s32x2_s32x2_to_s32x4 _ (.head _) low high))

theorem vget_lane_f32_good [Dialect] (v : float32x2_t) (lane : Int) : Good none False (fun _ => True) (Model.vget_lane_f32 v lane) := by
  unfold Model.vget_lane_f32
  good_body

theorem vget_lane_f32_typed [Dialect] : Total (k!"vget_lane_f32", .fn Source.vget_lane_f32) := by
  refine total_fn vget_lane_f32_sig_read fun args h => ?_
  obtain ⟨v0, lane0, rfl, tv, tlane⟩ := typed2 h
  obtain ⟨v, rfl⟩ := tv
  obtain ⟨lane, rfl, hlane⟩ := hasTy_int tlane
  exact total_sc (called_fn (by kernel_rfl) (vget_lane_f32_source v lane hlane)) (vget_lane_f32_good v lane)

theorem vgetq_lane_u8_good [Dialect] (v : uint8x16_t) (lane : Int) : Good none False (fun _ => True) (Model.vgetq_lane_u8 v lane) := by
  unfold Model.vgetq_lane_u8
  good_body

theorem vgetq_lane_u8_typed [Dialect] : Total (k!"vgetq_lane_u8", .fn Source.vgetq_lane_u8) := by
  refine total_fn vgetq_lane_u8_sig_read fun args h => ?_
  obtain ⟨v0, lane0, rfl, tv, tlane⟩ := typed2 h
  obtain ⟨v, rfl⟩ := tv
  obtain ⟨lane, rfl, hlane⟩ := hasTy_int tlane
  exact total_sc (called_fn (by kernel_rfl) (vgetq_lane_u8_source v lane hlane)) (vgetq_lane_u8_good v lane)

theorem vgetq_lane_u16_good [Dialect] (v : uint16x8_t) (lane : Int) : Good none False (fun _ => True) (Model.vgetq_lane_u16 v lane) := by
  unfold Model.vgetq_lane_u16
  good_body

theorem vgetq_lane_u16_typed [Dialect] : Total (k!"vgetq_lane_u16", .fn Source.vgetq_lane_u16) := by
  refine total_fn vgetq_lane_u16_sig_read fun args h => ?_
  obtain ⟨v0, lane0, rfl, tv, tlane⟩ := typed2 h
  obtain ⟨v, rfl⟩ := tv
  obtain ⟨lane, rfl, hlane⟩ := hasTy_int tlane
  exact total_sc (called_fn (by kernel_rfl) (vgetq_lane_u16_source v lane hlane)) (vgetq_lane_u16_good v lane)

theorem vgetq_lane_u32_good [Dialect] (v : uint32x4_t) (lane : Int) : Good none False (fun _ => True) (Model.vgetq_lane_u32 v lane) := by
  unfold Model.vgetq_lane_u32
  good_body

theorem vgetq_lane_u32_typed [Dialect] : Total (k!"vgetq_lane_u32", .fn Source.vgetq_lane_u32) := by
  refine total_fn vgetq_lane_u32_sig_read fun args h => ?_
  obtain ⟨v0, lane0, rfl, tv, tlane⟩ := typed2 h
  obtain ⟨v, rfl⟩ := tv
  obtain ⟨lane, rfl, hlane⟩ := hasTy_int tlane
  exact total_sc (called_fn (by kernel_rfl) (vgetq_lane_u32_source v lane hlane)) (vgetq_lane_u32_good v lane)

theorem vgetq_lane_u64_good [Dialect] (v : uint64x2_t) (lane : Int) : Good none False (fun _ => True) (Model.vgetq_lane_u64 v lane) := by
  unfold Model.vgetq_lane_u64
  good_body

theorem vgetq_lane_u64_typed [Dialect] : Total (k!"vgetq_lane_u64", .fn Source.vgetq_lane_u64) := by
  refine total_fn vgetq_lane_u64_sig_read fun args h => ?_
  obtain ⟨v0, lane0, rfl, tv, tlane⟩ := typed2 h
  obtain ⟨v, rfl⟩ := tv
  obtain ⟨lane, rfl, hlane⟩ := hasTy_int tlane
  exact total_sc (called_fn (by kernel_rfl) (vgetq_lane_u64_source v lane hlane)) (vgetq_lane_u64_good v lane)

theorem vgetq_lane_s8_good [Dialect] (v : int8x16_t) (lane : Int) : Good none False (fun _ => True) (Model.vgetq_lane_s8 v lane) := by
  unfold Model.vgetq_lane_s8
  good_body

theorem vgetq_lane_s8_typed [Dialect] : Total (k!"vgetq_lane_s8", .fn Source.vgetq_lane_s8) := by
  refine total_fn vgetq_lane_s8_sig_read fun args h => ?_
  obtain ⟨v0, lane0, rfl, tv, tlane⟩ := typed2 h
  obtain ⟨v, rfl⟩ := tv
  obtain ⟨lane, rfl, hlane⟩ := hasTy_int tlane
  exact total_sc (called_fn (by kernel_rfl) (vgetq_lane_s8_source v lane hlane)) (vgetq_lane_s8_good v lane)

theorem vgetq_lane_s16_good [Dialect] (v : int16x8_t) (lane : Int) : Good none False (fun _ => True) (Model.vgetq_lane_s16 v lane) := by
  unfold Model.vgetq_lane_s16
  good_body

theorem vgetq_lane_s16_typed [Dialect] : Total (k!"vgetq_lane_s16", .fn Source.vgetq_lane_s16) := by
  refine total_fn vgetq_lane_s16_sig_read fun args h => ?_
  obtain ⟨v0, lane0, rfl, tv, tlane⟩ := typed2 h
  obtain ⟨v, rfl⟩ := tv
  obtain ⟨lane, rfl, hlane⟩ := hasTy_int tlane
  exact total_sc (called_fn (by kernel_rfl) (vgetq_lane_s16_source v lane hlane)) (vgetq_lane_s16_good v lane)

theorem vgetq_lane_s32_good [Dialect] (v : int32x4_t) (lane : Int) : Good none False (fun _ => True) (Model.vgetq_lane_s32 v lane) := by
  unfold Model.vgetq_lane_s32
  good_body

theorem vgetq_lane_s32_typed [Dialect] : Total (k!"vgetq_lane_s32", .fn Source.vgetq_lane_s32) := by
  refine total_fn vgetq_lane_s32_sig_read fun args h => ?_
  obtain ⟨v0, lane0, rfl, tv, tlane⟩ := typed2 h
  obtain ⟨v, rfl⟩ := tv
  obtain ⟨lane, rfl, hlane⟩ := hasTy_int tlane
  exact total_sc (called_fn (by kernel_rfl) (vgetq_lane_s32_source v lane hlane)) (vgetq_lane_s32_good v lane)

theorem vgetq_lane_s64_good [Dialect] (v : int64x2_t) (lane : Int) : Good none False (fun _ => True) (Model.vgetq_lane_s64 v lane) := by
  unfold Model.vgetq_lane_s64
  good_body

theorem vgetq_lane_s64_typed [Dialect] : Total (k!"vgetq_lane_s64", .fn Source.vgetq_lane_s64) := by
  refine total_fn vgetq_lane_s64_sig_read fun args h => ?_
  obtain ⟨v0, lane0, rfl, tv, tlane⟩ := typed2 h
  obtain ⟨v, rfl⟩ := tv
  obtain ⟨lane, rfl, hlane⟩ := hasTy_int tlane
  exact total_sc (called_fn (by kernel_rfl) (vgetq_lane_s64_source v lane hlane)) (vgetq_lane_s64_good v lane)

theorem vgetq_lane_f64_good [Dialect] (v : float64x2_t) (lane : Int) : Good none False (fun _ => True) (Model.vgetq_lane_f64 v lane) := by
  unfold Model.vgetq_lane_f64
  good_body

theorem vgetq_lane_f64_typed [Dialect] : Total (k!"vgetq_lane_f64", .fn Source.vgetq_lane_f64) := by
  refine total_fn vgetq_lane_f64_sig_read fun args h => ?_
  obtain ⟨v0, lane0, rfl, tv, tlane⟩ := typed2 h
  obtain ⟨v, rfl⟩ := tv
  obtain ⟨lane, rfl, hlane⟩ := hasTy_int tlane
  exact total_sc (called_fn (by kernel_rfl) (vgetq_lane_f64_source v lane hlane)) (vgetq_lane_f64_good v lane)

theorem vgetq_lane_f32_good [Dialect] (v : float32x4_t) (lane : Int) : Good (some "vgetq_lane_f32: lane should is out of range [0, 3]") False (fun _ => True) (Model.vgetq_lane_f32 v lane) := by
  unfold Model.vgetq_lane_f32
  good_body

theorem vgetq_lane_f32_typed [Dialect] : Total (k!"vgetq_lane_f32", .fn Source.vgetq_lane_f32) := by
  refine total_fn vgetq_lane_f32_sig_read fun args h => ?_
  obtain ⟨v0, lane0, rfl, tv, tlane⟩ := typed2 h
  obtain ⟨v, rfl⟩ := tv
  obtain ⟨lane, rfl, hlane⟩ := hasTy_int tlane
  exact total_sc (called_fn (by kernel_rfl) (vgetq_lane_f32_source v lane hlane)) (vgetq_lane_f32_good v lane)

end Verif.Props
