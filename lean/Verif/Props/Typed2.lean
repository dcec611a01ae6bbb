import Verif.Typing
import Verif.ArmLemmas
import Verif.Props.Signatures
import Verif.Props.Outcome
import Verif.Props.TypedBase

/-! # Calls with arguments of the declared types, part 2 (C78)

Generated by `tools/gen_typed.py`. -/

set_option linter.unusedVariables false

namespace Verif.Props
open Verif.Cpp Verif.Arm

theorem vld4_lane_u8_good [Dialect] (ptr : Ptr .u8) (src : uint8x8x4_t) (lane : Int) : Good (some "only support [0, 7] for param lane\n") True (fun _ => True) (Model.vld4_lane_u8 ptr src lane) := by
  unfold Model.vld4_lane_u8
  good_body

theorem vld4_lane_u8_typed [Dialect] : Total (k!"vld4_lane_u8", .fn Source.vld4_lane_u8) := by
  refine total_fn vld4_lane_u8_sig_read fun args h => ?_
  obtain ⟨ptr0, src0, lane0, rfl, tptr, tsrc, tlane⟩ := typed3 h
  obtain ⟨ptr, rfl⟩ := tptr
  obtain ⟨src, rfl⟩ := tsrc
  obtain ⟨lane, rfl, hlane⟩ := hasTy_int tlane
  exact total_arr (called_fn (by kernel_rfl) (vld4_lane_u8_source ptr src lane hlane)) (vld4_lane_u8_good ptr src lane) (.inl (written_pu8_u8x8x4_imm_to_u8x8x4 _ (.head _) ptr src lane))

theorem vand_s8_good [Dialect] (a : int8x8_t) (b : int8x8_t) : Good none True (fun _ => True) (Model.vand_s8 a b) := by
  unfold Model.vand_s8
  good_body

theorem vand_s8_typed [Dialect] : Total (k!"vand_s8", .fn Source.vand_s8) := by
  refine total_fn vand_s8_sig_read fun args h => ?_
  obtain ⟨a0, b0, rfl, ta, tb⟩ := typed2 h
  obtain ⟨a, rfl⟩ := ta
  obtain ⟨b, rfl⟩ := tb
  exact total_vec (called_fn (by kernel_rfl) (vand_s8_source a b)) (vand_s8_good a b) (.inl (written_s8x8_s8x8_to_s8x8 _ (.tail _ (.tail _ (.tail _ (.tail _ (.tail _ (.head _)))))) a b))

theorem vand_s16_good [Dialect] (a : int16x4_t) (b : int16x4_t) : Good none True (fun _ => True) (Model.vand_s16 a b) := by
  unfold Model.vand_s16
  good_body

theorem vand_s16_typed [Dialect] : Total (k!"vand_s16", .fn Source.vand_s16) := by
  refine total_fn vand_s16_sig_read fun args h => ?_
  obtain ⟨a0, b0, rfl, ta, tb⟩ := typed2 h
  obtain ⟨a, rfl⟩ := ta
  obtain ⟨b, rfl⟩ := tb
  exact total_vec (called_fn (by kernel_rfl) (vand_s16_source a b)) (vand_s16_good a b) (.inl (written_s16x4_s16x4_to_s16x4 _ (.tail _ (.tail _ (.tail _ (.tail _ (.tail _ (.head _)))))) a b))

theorem vand_s32_good [Dialect] (a : int32x2_t) (b : int32x2_t) : Good none True (fun _ => True) (Model.vand_s32 a b) := by
  unfold Model.vand_s32
  good_body

theorem vand_s32_typed [Dialect] : Total (k!"vand_s32", .fn Source.vand_s32) := by
  refine total_fn vand_s32_sig_read fun args h => ?_
  obtain ⟨a0, b0, rfl, ta, tb⟩ := typed2 h
  obtain ⟨a, rfl⟩ := ta
  obtain ⟨b, rfl⟩ := tb
  exact total_vec (called_fn (by kernel_rfl) (vand_s32_source a b)) (vand_s32_good a b) (.inl (written_s32x2_s32x2_to_s32x2 _ (.tail _ (.tail _ (.tail _ (.tail _ (.tail _ (.head _)))))) a b))

theorem vand_s64_good [Dialect] (a : int64x1_t) (b : int64x1_t) : Good none True (fun _ => True) (Model.vand_s64 a b) := by
  unfold Model.vand_s64
  good_body

theorem vand_s64_typed [Dialect] : Total (k!"vand_s64", .fn Source.vand_s64) := by
  refine total_fn vand_s64_sig_read fun args h => ?_
  obtain ⟨a0, b0, rfl, ta, tb⟩ := typed2 h
  obtain ⟨a, rfl⟩ := ta
  obtain ⟨b, rfl⟩ := tb
  exact total_vec (called_fn (by kernel_rfl) (vand_s64_source a b)) (vand_s64_good a b) (.inl (written_s64x1_s64x1_to_s64x1 _ (.tail _ (.tail _ (.tail _ (.head _)))) a b))

theorem vand_u8_good [Dialect] (a : uint8x8_t) (b : uint8x8_t) : Good none True (fun _ => True) (Model.vand_u8 a b) := by
  unfold Model.vand_u8
  good_body

theorem vand_u8_typed [Dialect] : Total (k!"vand_u8", .fn Source.vand_u8) := by
  refine total_fn vand_u8_sig_read fun args h => ?_
  obtain ⟨a0, b0, rfl, ta, tb⟩ := typed2 h
  obtain ⟨a, rfl⟩ := ta
  obtain ⟨b, rfl⟩ := tb
  exact total_vec (called_fn (by kernel_rfl) (vand_u8_source a b)) (vand_u8_good a b) (.inl (written_u8x8_u8x8_to_u8x8 _ (.tail _ (.tail _ (.tail _ (.tail _ (.tail _ (.tail _ (.tail _ (.head _)))))))) a b))

theorem vand_u16_good [Dialect] (a : uint16x4_t) (b : uint16x4_t) : Good none True (fun _ => True) (Model.vand_u16 a b) := by
  unfold Model.vand_u16
  good_body

theorem vand_u16_typed [Dialect] : Total (k!"vand_u16", .fn Source.vand_u16) := by
  refine total_fn vand_u16_sig_read fun args h => ?_
  obtain ⟨a0, b0, rfl, ta, tb⟩ := typed2 h
  obtain ⟨a, rfl⟩ := ta
  obtain ⟨b, rfl⟩ := tb
  exact total_vec (called_fn (by kernel_rfl) (vand_u16_source a b)) (vand_u16_good a b) (.inl (written_u16x4_u16x4_to_u16x4 _ (.tail _ (.tail _ (.tail _ (.tail _ (.tail _ (.head _)))))) a b))

theorem vand_u32_good [Dialect] (a : uint32x2_t) (b : uint32x2_t) : Good none True (fun _ => True) (Model.vand_u32 a b) := by
  unfold Model.vand_u32
  good_body

theorem vand_u32_typed [Dialect] : Total (k!"vand_u32", .fn Source.vand_u32) := by
  refine total_fn vand_u32_sig_read fun args h => ?_
  obtain ⟨a0, b0, rfl, ta, tb⟩ := typed2 h
  obtain ⟨a, rfl⟩ := ta
  obtain ⟨b, rfl⟩ := tb
  exact total_vec (called_fn (by kernel_rfl) (vand_u32_source a b)) (vand_u32_good a b) (.inl (written_u32x2_u32x2_to_u32x2 _ (.tail _ (.tail _ (.tail _ (.tail _ (.tail _ (.head _)))))) a b))

theorem vand_u64_good [Dialect] (a : uint64x1_t) (b : uint64x1_t) : Good none True (fun _ => True) (Model.vand_u64 a b) := by
  unfold Model.vand_u64
  good_body

theorem vand_u64_typed [Dialect] : Total (k!"vand_u64", .fn Source.vand_u64) := by
  refine total_fn vand_u64_sig_read fun args h => ?_
  obtain ⟨a0, b0, rfl, ta, tb⟩ := typed2 h
  obtain ⟨a, rfl⟩ := ta
  obtain ⟨b, rfl⟩ := tb
  exact total_vec (called_fn (by kernel_rfl) (vand_u64_source a b)) (vand_u64_good a b) (.inl (written_u64x1_u64x1_to_u64x1 _ (.tail _ (.tail _ (.tail _ (.head _)))) a b))

theorem vandq_s8_good [Dialect] (a : int8x16_t) (b : int8x16_t) : Good none True (fun _ => True) (Model.vandq_s8 a b) := by
  unfold Model.vandq_s8
  good_body

theorem vandq_s8_typed [Dialect] : Total (k!"vandq_s8", .fn Source.vandq_s8) := by
  refine total_fn vandq_s8_sig_read fun args h => ?_
  obtain ⟨a0, b0, rfl, ta, tb⟩ := typed2 h
  obtain ⟨a, rfl⟩ := ta
  obtain ⟨b, rfl⟩ := tb
  exact total_vec (called_fn (by kernel_rfl) (vandq_s8_source a b)) (vandq_s8_good a b) (.inl (written_s8x16_s8x16_to_s8x16 _ (.tail _ (.tail _ (.tail _ (.tail _ (.tail _ (.tail _ (.tail _ (.tail _ (.tail _ (.head _)))))))))) a b))

theorem vandq_s16_good [Dialect] (a : int16x8_t) (b : int16x8_t) : Good none True (fun _ => True) (Model.vandq_s16 a b) := by
  unfold Model.vandq_s16
  good_body

theorem vandq_s16_typed [Dialect] : Total (k!"vandq_s16", .fn Source.vandq_s16) := by
  refine total_fn vandq_s16_sig_read fun args h => ?_
  obtain ⟨a0, b0, rfl, ta, tb⟩ := typed2 h
  obtain ⟨a, rfl⟩ := ta
  obtain ⟨b, rfl⟩ := tb
  exact total_vec (called_fn (by kernel_rfl) (vandq_s16_source a b)) (vandq_s16_good a b) (.inl (written_s16x8_s16x8_to_s16x8 _ (.tail _ (.tail _ (.tail _ (.tail _ (.tail _ (.tail _ (.tail _ (.tail _ (.tail _ (.head _)))))))))) a b))

theorem vandq_s32_good [Dialect] (a : int32x4_t) (b : int32x4_t) : Good none True (fun _ => True) (Model.vandq_s32 a b) := by
  unfold Model.vandq_s32
  good_body

theorem vandq_s32_typed [Dialect] : Total (k!"vandq_s32", .fn Source.vandq_s32) := by
  refine total_fn vandq_s32_sig_read fun args h => ?_
  obtain ⟨a0, b0, rfl, ta, tb⟩ := typed2 h
  obtain ⟨a, rfl⟩ := ta
  obtain ⟨b, rfl⟩ := tb
  exact total_vec (called_fn (by kernel_rfl) (vandq_s32_source a b)) (vandq_s32_good a b) (.inl (written_s32x4_s32x4_to_s32x4 _ (.tail _ (.tail _ (.tail _ (.tail _ (.tail _ (.tail _ (.tail _ (.tail _ (.tail _ (.head _)))))))))) a b))

theorem vandq_s64_good [Dialect] (a : int64x2_t) (b : int64x2_t) : Good none True (fun _ => True) (Model.vandq_s64 a b) := by
  unfold Model.vandq_s64
  good_body

theorem vandq_s64_typed [Dialect] : Total (k!"vandq_s64", .fn Source.vandq_s64) := by
  refine total_fn vandq_s64_sig_read fun args h => ?_
  obtain ⟨a0, b0, rfl, ta, tb⟩ := typed2 h
  obtain ⟨a, rfl⟩ := ta
  obtain ⟨b, rfl⟩ := tb
  exact total_vec (called_fn (by kernel_rfl) (vandq_s64_source a b)) (vandq_s64_good a b) (.inl (written_s64x2_s64x2_to_s64x2 _ (.tail _ (.tail _ (.tail _ (.head _)))) a b))

theorem vandq_u8_good [Dialect] (a : uint8x16_t) (b : uint8x16_t) : Good none True (fun _ => True) (Model.vandq_u8 a b) := by
  unfold Model.vandq_u8
  good_body

theorem vandq_u8_typed [Dialect] : Total (k!"vandq_u8", .fn Source.vandq_u8) := by
  refine total_fn vandq_u8_sig_read fun args h => ?_
  obtain ⟨a0, b0, rfl, ta, tb⟩ := typed2 h
  obtain ⟨a, rfl⟩ := ta
  obtain ⟨b, rfl⟩ := tb
  exact total_vec (called_fn (by kernel_rfl) (vandq_u8_source a b)) (vandq_u8_good a b) (.inl (written_u8x16_u8x16_to_u8x16 _ (.tail _ (.tail _ (.tail _ (.tail _ (.tail _ (.tail _ (.tail _ (.head _)))))))) a b))

theorem vandq_u16_good [Dialect] (a : uint16x8_t) (b : uint16x8_t) : Good none True (fun _ => True) (Model.vandq_u16 a b) := by
  unfold Model.vandq_u16
  good_body

theorem vandq_u16_typed [Dialect] : Total (k!"vandq_u16", .fn Source.vandq_u16) := by
  refine total_fn vandq_u16_sig_read fun args h => ?_
  obtain ⟨a0, b0, rfl, ta, tb⟩ := typed2 h
  obtain ⟨a, rfl⟩ := ta
  obtain ⟨b, rfl⟩ := tb
  exact total_vec (called_fn (by kernel_rfl) (vandq_u16_source a b)) (vandq_u16_good a b) (.inl (written_u16x8_u16x8_to_u16x8 _ (.tail _ (.tail _ (.tail _ (.tail _ (.tail _ (.head _)))))) a b))

theorem vandq_u32_good [Dialect] (a : uint32x4_t) (b : uint32x4_t) : Good none True (fun _ => True) (Model.vandq_u32 a b) := by
  unfold Model.vandq_u32
  good_body

theorem vandq_u32_typed [Dialect] : Total (k!"vandq_u32", .fn Source.vandq_u32) := by
  refine total_fn vandq_u32_sig_read fun args h => ?_
  obtain ⟨a0, b0, rfl, ta, tb⟩ := typed2 h
  obtain ⟨a, rfl⟩ := ta
  obtain ⟨b, rfl⟩ := tb
  exact total_vec (called_fn (by kernel_rfl) (vandq_u32_source a b)) (vandq_u32_good a b) (.inl (written_u32x4_u32x4_to_u32x4 _ (.tail _ (.tail _ (.tail _ (.tail _ (.tail _ (.head _)))))) a b))

theorem vandq_u64_good [Dialect] (a : uint64x2_t) (b : uint64x2_t) : Good none True (fun _ => True) (Model.vandq_u64 a b) := by
  unfold Model.vandq_u64
  good_body

theorem vandq_u64_typed [Dialect] : Total (k!"vandq_u64", .fn Source.vandq_u64) := by
  refine total_fn vandq_u64_sig_read fun args h => ?_
  obtain ⟨a0, b0, rfl, ta, tb⟩ := typed2 h
  obtain ⟨a, rfl⟩ := ta
  obtain ⟨b, rfl⟩ := tb
  exact total_vec (called_fn (by kernel_rfl) (vandq_u64_source a b)) (vandq_u64_good a b) (.inl (written_u64x2_u64x2_to_u64x2 _ (.tail _ (.tail _ (.tail _ (.head _)))) a b))

theorem vorr_s8_good [Dialect] (a : int8x8_t) (b : int8x8_t) : Good none True (fun _ => True) (Model.vorr_s8 a b) := by
  unfold Model.vorr_s8
  good_body

theorem vorr_s8_typed [Dialect] : Total (k!"vorr_s8", .fn Source.vorr_s8) := by
  refine total_fn vorr_s8_sig_read fun args h => ?_
  obtain ⟨a0, b0, rfl, ta, tb⟩ := typed2 h
  obtain ⟨a, rfl⟩ := ta
  obtain ⟨b, rfl⟩ := tb
  exact total_vec (called_fn (by kernel_rfl) (vorr_s8_source a b)) (vorr_s8_good a b) (.inl (written_s8x8_s8x8_to_s8x8 _ (.tail _ (.tail _ (.tail _ (.tail _ (.tail _ (.tail _ (.head _))))))) a b))

theorem vorr_s16_good [Dialect] (a : int16x4_t) (b : int16x4_t) : Good none True (fun _ => True) (Model.vorr_s16 a b) := by
  unfold Model.vorr_s16
  good_body

theorem vorr_s16_typed [Dialect] : Total (k!"vorr_s16", .fn Source.vorr_s16) := by
  refine total_fn vorr_s16_sig_read fun args h => ?_
  obtain ⟨a0, b0, rfl, ta, tb⟩ := typed2 h
  obtain ⟨a, rfl⟩ := ta
  obtain ⟨b, rfl⟩ := tb
  exact total_vec (called_fn (by kernel_rfl) (vorr_s16_source a b)) (vorr_s16_good a b) (.inl (written_s16x4_s16x4_to_s16x4 _ (.tail _ (.tail _ (.tail _ (.tail _ (.tail _ (.tail _ (.head _))))))) a b))

theorem vorr_s32_good [Dialect] (a : int32x2_t) (b : int32x2_t) : Good none True (fun _ => True) (Model.vorr_s32 a b) := by
  unfold Model.vorr_s32
  good_body

theorem vorr_s32_typed [Dialect] : Total (k!"vorr_s32", .fn Source.vorr_s32) := by
  refine total_fn vorr_s32_sig_read fun args h => ?_
  obtain ⟨a0, b0, rfl, ta, tb⟩ := typed2 h
  obtain ⟨a, rfl⟩ := ta
  obtain ⟨b, rfl⟩ := tb
  exact total_vec (called_fn (by kernel_rfl) (vorr_s32_source a b)) (vorr_s32_good a b) (.inl (written_s32x2_s32x2_to_s32x2 _ (.tail _ (.tail _ (.tail _ (.tail _ (.tail _ (.tail _ (.head _))))))) a b))

theorem vorr_s64_good [Dialect] (a : int64x1_t) (b : int64x1_t) : Good none True (fun _ => True) (Model.vorr_s64 a b) := by
  unfold Model.vorr_s64
  good_body

theorem vorr_s64_typed [Dialect] : Total (k!"vorr_s64", .fn Source.vorr_s64) := by
  refine total_fn vorr_s64_sig_read fun args h => ?_
  obtain ⟨a0, b0, rfl, ta, tb⟩ := typed2 h
  obtain ⟨a, rfl⟩ := ta
  obtain ⟨b, rfl⟩ := tb
  exact total_vec (called_fn (by kernel_rfl) (vorr_s64_source a b)) (vorr_s64_good a b) (.inl (written_s64x1_s64x1_to_s64x1 _ (.tail _ (.tail _ (.tail _ (.tail _ (.head _))))) a b))

theorem vorr_u8_good [Dialect] (a : uint8x8_t) (b : uint8x8_t) : Good none True (fun _ => True) (Model.vorr_u8 a b) := by
  unfold Model.vorr_u8
  good_body

theorem vorr_u8_typed [Dialect] : Total (k!"vorr_u8", .fn Source.vorr_u8) := by
  refine total_fn vorr_u8_sig_read fun args h => ?_
  obtain ⟨a0, b0, rfl, ta, tb⟩ := typed2 h
  obtain ⟨a, rfl⟩ := ta
  obtain ⟨b, rfl⟩ := tb
  exact total_vec (called_fn (by kernel_rfl) (vorr_u8_source a b)) (vorr_u8_good a b) (.inl (written_u8x8_u8x8_to_u8x8 _ (.tail _ (.tail _ (.tail _ (.tail _ (.tail _ (.tail _ (.tail _ (.tail _ (.head _))))))))) a b))

theorem vorr_u16_good [Dialect] (a : uint16x4_t) (b : uint16x4_t) : Good none True (fun _ => True) (Model.vorr_u16 a b) := by
  unfold Model.vorr_u16
  good_body

theorem vorr_u16_typed [Dialect] : Total (k!"vorr_u16", .fn Source.vorr_u16) := by
  refine total_fn vorr_u16_sig_read fun args h => ?_
  obtain ⟨a0, b0, rfl, ta, tb⟩ := typed2 h
  obtain ⟨a, rfl⟩ := ta
  obtain ⟨b, rfl⟩ := tb
  exact total_vec (called_fn (by kernel_rfl) (vorr_u16_source a b)) (vorr_u16_good a b) (.inl (written_u16x4_u16x4_to_u16x4 _ (.tail _ (.tail _ (.tail _ (.tail _ (.tail _ (.tail _ (.head _))))))) a b))

theorem vorr_u32_good [Dialect] (a : uint32x2_t) (b : uint32x2_t) : Good none True (fun _ => True) (Model.vorr_u32 a b) := by
  unfold Model.vorr_u32
  good_body

theorem vorr_u32_typed [Dialect] : Total (k!"vorr_u32", .fn Source.vorr_u32) := by
  refine total_fn vorr_u32_sig_read fun args h => ?_
  obtain ⟨a0, b0, rfl, ta, tb⟩ := typed2 h
  obtain ⟨a, rfl⟩ := ta
  obtain ⟨b, rfl⟩ := tb
  exact total_vec (called_fn (by kernel_rfl) (vorr_u32_source a b)) (vorr_u32_good a b) (.inl (written_u32x2_u32x2_to_u32x2 _ (.tail _ (.tail _ (.tail _ (.tail _ (.tail _ (.tail _ (.head _))))))) a b))

theorem vorr_u64_good [Dialect] (a : uint64x1_t) (b : uint64x1_t) : Good none True (fun _ => True) (Model.vorr_u64 a b) := by
  unfold Model.vorr_u64
  good_body

theorem vorr_u64_typed [Dialect] : Total (k!"vorr_u64", .fn Source.vorr_u64) := by
  refine total_fn vorr_u64_sig_read fun args h => ?_
  obtain ⟨a0, b0, rfl, ta, tb⟩ := typed2 h
  obtain ⟨a, rfl⟩ := ta
  obtain ⟨b, rfl⟩ := tb
  exact total_vec (called_fn (by kernel_rfl) (vorr_u64_source a b)) (vorr_u64_good a b) (.inl (written_u64x1_u64x1_to_u64x1 _ (.tail _ (.tail _ (.tail _ (.tail _ (.head _))))) a b))

theorem vorrq_s8_good [Dialect] (a : int8x16_t) (b : int8x16_t) : Good none True (fun _ => True) (Model.vorrq_s8 a b) := by
  unfold Model.vorrq_s8
  good_body

theorem vorrq_s8_typed [Dialect] : Total (k!"vorrq_s8", .fn Source.vorrq_s8) := by
  refine total_fn vorrq_s8_sig_read fun args h => ?_
  obtain ⟨a0, b0, rfl, ta, tb⟩ := typed2 h
  obtain ⟨a, rfl⟩ := ta
  obtain ⟨b, rfl⟩ := tb
  exact total_vec (called_fn (by kernel_rfl) (vorrq_s8_source a b)) (vorrq_s8_good a b) (.inl (written_s8x16_s8x16_to_s8x16 _ (.tail _ (.tail _ (.tail _ (.tail _ (.tail _ (.tail _ (.tail _ (.tail _ (.tail _ (.tail _ (.head _))))))))))) a b))

theorem vorrq_s16_good [Dialect] (a : int16x8_t) (b : int16x8_t) : Good none True (fun _ => True) (Model.vorrq_s16 a b) := by
  unfold Model.vorrq_s16
  good_body

theorem vorrq_s16_typed [Dialect] : Total (k!"vorrq_s16", .fn Source.vorrq_s16) := by
  refine total_fn vorrq_s16_sig_read fun args h => ?_
  obtain ⟨a0, b0, rfl, ta, tb⟩ := typed2 h
  obtain ⟨a, rfl⟩ := ta
  obtain ⟨b, rfl⟩ := tb
  exact total_vec (called_fn (by kernel_rfl) (vorrq_s16_source a b)) (vorrq_s16_good a b) (.inl (written_s16x8_s16x8_to_s16x8 _ (.tail _ (.tail _ (.tail _ (.tail _ (.tail _ (.tail _ (.tail _ (.tail _ (.tail _ (.tail _ (.head _))))))))))) a b))

theorem vorrq_s32_good [Dialect] (a : int32x4_t) (b : int32x4_t) : Good none True (fun _ => True) (Model.vorrq_s32 a b) := by
  unfold Model.vorrq_s32
  good_body

theorem vorrq_s32_typed [Dialect] : Total (k!"vorrq_s32", .fn Source.vorrq_s32) := by
  refine total_fn vorrq_s32_sig_read fun args h => ?_
  obtain ⟨a0, b0, rfl, ta, tb⟩ := typed2 h
  obtain ⟨a, rfl⟩ := ta
  obtain ⟨b, rfl⟩ := tb
  exact total_vec (called_fn (by kernel_rfl) (vorrq_s32_source a b)) (vorrq_s32_good a b) (.inl (written_s32x4_s32x4_to_s32x4 _ (.tail _ (.tail _ (.tail _ (.tail _ (.tail _ (.tail _ (.tail _ (.tail _ (.tail _ (.tail _ (.head _))))))))))) a b))

theorem vorrq_s64_good [Dialect] (a : int64x2_t) (b : int64x2_t) : Good none True (fun _ => True) (Model.vorrq_s64 a b) := by
  unfold Model.vorrq_s64
  good_body

theorem vorrq_s64_typed [Dialect] : Total (k!"vorrq_s64", .fn Source.vorrq_s64) := by
  refine total_fn vorrq_s64_sig_read fun args h => ?_
  obtain ⟨a0, b0, rfl, ta, tb⟩ := typed2 h
  obtain ⟨a, rfl⟩ := ta
  obtain ⟨b, rfl⟩ := tb
  exact total_vec (called_fn (by kernel_rfl) (vorrq_s64_source a b)) (vorrq_s64_good a b) (.inl (written_s64x2_s64x2_to_s64x2 _ (.tail _ (.tail _ (.tail _ (.tail _ (.head _))))) a b))

theorem vorrq_u8_good [Dialect] (a : uint8x16_t) (b : uint8x16_t) : Good none True (fun _ => True) (Model.vorrq_u8 a b) := by
  unfold Model.vorrq_u8
  good_body

theorem vorrq_u8_typed [Dialect] : Total (k!"vorrq_u8", .fn Source.vorrq_u8) := by
  refine total_fn vorrq_u8_sig_read fun args h => ?_
  obtain ⟨a0, b0, rfl, ta, tb⟩ := typed2 h
  obtain ⟨a, rfl⟩ := ta
  obtain ⟨b, rfl⟩ := tb
  exact total_vec (called_fn (by kernel_rfl) (vorrq_u8_source a b)) (vorrq_u8_good a b) (.inl (written_u8x16_u8x16_to_u8x16 _ (.tail _ (.tail _ (.tail _ (.tail _ (.tail _ (.tail _ (.tail _ (.tail _ (.head _))))))))) a b))

theorem vorrq_u16_good [Dialect] (a : uint16x8_t) (b : uint16x8_t) : Good none True (fun _ => True) (Model.vorrq_u16 a b) := by
  unfold Model.vorrq_u16
  good_body

theorem vorrq_u16_typed [Dialect] : Total (k!"vorrq_u16", .fn Source.vorrq_u16) := by
  refine total_fn vorrq_u16_sig_read fun args h => ?_
  obtain ⟨a0, b0, rfl, ta, tb⟩ := typed2 h
  obtain ⟨a, rfl⟩ := ta
  obtain ⟨b, rfl⟩ := tb
  exact total_vec (called_fn (by kernel_rfl) (vorrq_u16_source a b)) (vorrq_u16_good a b) (.inl (written_u16x8_u16x8_to_u16x8 _ (.tail _ (.tail _ (.tail _ (.tail _ (.tail _ (.tail _ (.head _))))))) a b))

theorem vorrq_u32_good [Dialect] (a : uint32x4_t) (b : uint32x4_t) : Good none True (fun _ => True) (Model.vorrq_u32 a b) := by
  unfold Model.vorrq_u32
  good_body

theorem vorrq_u32_typed [Dialect] : Total (k!"vorrq_u32", .fn Source.vorrq_u32) := by
  refine total_fn vorrq_u32_sig_read fun args h => ?_
  obtain ⟨a0, b0, rfl, ta, tb⟩ := typed2 h
  obtain ⟨a, rfl⟩ := ta
  obtain ⟨b, rfl⟩ := tb
  exact total_vec (called_fn (by kernel_rfl) (vorrq_u32_source a b)) (vorrq_u32_good a b) (.inl (written_u32x4_u32x4_to_u32x4 _ (.tail _ (.tail _ (.tail _ (.tail _ (.tail _ (.tail _ (.head _))))))) a b))

theorem vorrq_u64_good [Dialect] (a : uint64x2_t) (b : uint64x2_t) : Good none True (fun _ => True) (Model.vorrq_u64 a b) := by
  unfold Model.vorrq_u64
  good_body

theorem vorrq_u64_typed [Dialect] : Total (k!"vorrq_u64", .fn Source.vorrq_u64) := by
  refine total_fn vorrq_u64_sig_read fun args h => ?_
  obtain ⟨a0, b0, rfl, ta, tb⟩ := typed2 h
  obtain ⟨a, rfl⟩ := ta
  obtain ⟨b, rfl⟩ := tb
  exact total_vec (called_fn (by kernel_rfl) (vorrq_u64_source a b)) (vorrq_u64_good a b) (.inl (written_u64x2_u64x2_to_u64x2 _ (.tail _ (.tail _ (.tail _ (.tail _ (.head _))))) a b))

theorem veor_s8_good [Dialect] (a : int8x8_t) (b : int8x8_t) : Good none True (fun _ => True) (Model.veor_s8 a b) := by
  unfold Model.veor_s8
  good_body

theorem veor_s8_typed [Dialect] : Total (k!"veor_s8", .fn Source.veor_s8) := by
  refine total_fn veor_s8_sig_read fun args h => ?_
  obtain ⟨a0, b0, rfl, ta, tb⟩ := typed2 h
  obtain ⟨a, rfl⟩ := ta
  obtain ⟨b, rfl⟩ := tb
  exact total_vec (called_fn (by kernel_rfl) (veor_s8_source a b)) (veor_s8_good a b) (.inl (written_s8x8_s8x8_to_s8x8 _ (.tail _ (.tail _ (.tail _ (.tail _ (.tail _ (.tail _ (.tail _ (.head _)))))))) a b))

theorem veor_s16_good [Dialect] (a : int16x4_t) (b : int16x4_t) : Good none True (fun _ => True) (Model.veor_s16 a b) := by
  unfold Model.veor_s16
  good_body

theorem veor_s16_typed [Dialect] : Total (k!"veor_s16", .fn Source.veor_s16) := by
  refine total_fn veor_s16_sig_read fun args h => ?_
  obtain ⟨a0, b0, rfl, ta, tb⟩ := typed2 h
  obtain ⟨a, rfl⟩ := ta
  obtain ⟨b, rfl⟩ := tb
  exact total_vec (called_fn (by kernel_rfl) (veor_s16_source a b)) (veor_s16_good a b) (.inl (written_s16x4_s16x4_to_s16x4 _ (.tail _ (.tail _ (.tail _ (.tail _ (.tail _ (.tail _ (.tail _ (.head _)))))))) a b))

theorem veor_s32_good [Dialect] (a : int32x2_t) (b : int32x2_t) : Good none True (fun _ => True) (Model.veor_s32 a b) := by
  unfold Model.veor_s32
  good_body

theorem veor_s32_typed [Dialect] : Total (k!"veor_s32", .fn Source.veor_s32) := by
  refine total_fn veor_s32_sig_read fun args h => ?_
  obtain ⟨a0, b0, rfl, ta, tb⟩ := typed2 h
  obtain ⟨a, rfl⟩ := ta
  obtain ⟨b, rfl⟩ := tb
  exact total_vec (called_fn (by kernel_rfl) (veor_s32_source a b)) (veor_s32_good a b) (.inl (written_s32x2_s32x2_to_s32x2 _ (.tail _ (.tail _ (.tail _ (.tail _ (.tail _ (.tail _ (.tail _ (.head _)))))))) a b))

theorem veor_s64_good [Dialect] (a : int64x1_t) (b : int64x1_t) : Good none True (fun _ => True) (Model.veor_s64 a b) := by
  unfold Model.veor_s64
  good_body

theorem veor_s64_typed [Dialect] : Total (k!"veor_s64", .fn Source.veor_s64) := by
  refine total_fn veor_s64_sig_read fun args h => ?_
  obtain ⟨a0, b0, rfl, ta, tb⟩ := typed2 h
  obtain ⟨a, rfl⟩ := ta
  obtain ⟨b, rfl⟩ := tb
  exact total_vec (called_fn (by kernel_rfl) (veor_s64_source a b)) (veor_s64_good a b) (.inl (written_s64x1_s64x1_to_s64x1 _ (.tail _ (.tail _ (.tail _ (.tail _ (.tail _ (.head _)))))) a b))

theorem veor_u8_good [Dialect] (a : uint8x8_t) (b : uint8x8_t) : Good none True (fun _ => True) (Model.veor_u8 a b) := by
  unfold Model.veor_u8
  good_body

theorem veor_u8_typed [Dialect] : Total (k!"veor_u8", .fn Source.veor_u8) := by
  refine total_fn veor_u8_sig_read fun args h => ?_
  obtain ⟨a0, b0, rfl, ta, tb⟩ := typed2 h
  obtain ⟨a, rfl⟩ := ta
  obtain ⟨b, rfl⟩ := tb
  exact total_vec (called_fn (by kernel_rfl) (veor_u8_source a b)) (veor_u8_good a b) (.inl (written_u8x8_u8x8_to_u8x8 _ (.tail _ (.tail _ (.tail _ (.tail _ (.tail _ (.tail _ (.tail _ (.tail _ (.tail _ (.head _)))))))))) a b))

theorem veor_u16_good [Dialect] (a : uint16x4_t) (b : uint16x4_t) : Good none True (fun _ => True) (Model.veor_u16 a b) := by
  unfold Model.veor_u16
  good_body

theorem veor_u16_typed [Dialect] : Total (k!"veor_u16", .fn Source.veor_u16) := by
  refine total_fn veor_u16_sig_read fun args h => ?_
  obtain ⟨a0, b0, rfl, ta, tb⟩ := typed2 h
  obtain ⟨a, rfl⟩ := ta
  obtain ⟨b, rfl⟩ := tb
  exact total_vec (called_fn (by kernel_rfl) (veor_u16_source a b)) (veor_u16_good a b) (.inl (written_u16x4_u16x4_to_u16x4 _ (.tail _ (.tail _ (.tail _ (.tail _ (.tail _ (.tail _ (.tail _ (.head _)))))))) a b))

theorem ver_u32_good [Dialect] (a : uint32x2_t) (b : uint32x2_t) : Good none True (fun _ => True) (Model.ver_u32 a b) := by
  unfold Model.ver_u32
  good_body

theorem ver_u32_typed [Dialect] : Total (k!"ver_u32", .fn Source.ver_u32) := by
  refine total_fn ver_u32_sig_read fun args h => ?_
  obtain ⟨a0, b0, rfl, ta, tb⟩ := typed2 h
  obtain ⟨a, rfl⟩ := ta
  obtain ⟨b, rfl⟩ := tb
  exact total_vec (called_fn (by kernel_rfl) (ver_u32_source a b)) (ver_u32_good a b) (.inl (written_u32x2_u32x2_to_u32x2 _ (.tail _ (.tail _ (.tail _ (.tail _ (.tail _ (.tail _ (.tail _ (.head _)))))))) a b))

theorem veor_u64_good [Dialect] (a : uint64x1_t) (b : uint64x1_t) : Good none True (fun _ => True) (Model.veor_u64 a b) := by
  unfold Model.veor_u64
  good_body

theorem veor_u64_typed [Dialect] : Total (k!"veor_u64", .fn Source.veor_u64) := by
  refine total_fn veor_u64_sig_read fun args h => ?_
  obtain ⟨a0, b0, rfl, ta, tb⟩ := typed2 h
  obtain ⟨a, rfl⟩ := ta
  obtain ⟨b, rfl⟩ := tb
  exact total_vec (called_fn (by kernel_rfl) (veor_u64_source a b)) (veor_u64_good a b) (.inl (written_u64x1_u64x1_to_u64x1 _ (.tail _ (.tail _ (.tail _ (.tail _ (.tail _ (.head _)))))) a b))

theorem veorq_s8_good [Dialect] (a : int8x16_t) (b : int8x16_t) : Good none True (fun _ => True) (Model.veorq_s8 a b) := by
  unfold Model.veorq_s8
  good_body

theorem veorq_s8_typed [Dialect] : Total (k!"veorq_s8", .fn Source.veorq_s8) := by
  refine total_fn veorq_s8_sig_read fun args h => ?_
  obtain ⟨a0, b0, rfl, ta, tb⟩ := typed2 h
  obtain ⟨a, rfl⟩ := ta
  obtain ⟨b, rfl⟩ := tb
  exact total_vec (called_fn (by kernel_rfl) (veorq_s8_source a b)) (veorq_s8_good a b) (.inl (written_s8x16_s8x16_to_s8x16 _ (.tail _ (.tail _ (.tail _ (.tail _ (.tail _ (.tail _ (.tail _ (.tail _ (.tail _ (.tail _ (.tail _ (.head _)))))))))))) a b))

theorem veorq_s16_good [Dialect] (a : int16x8_t) (b : int16x8_t) : Good none True (fun _ => True) (Model.veorq_s16 a b) := by
  unfold Model.veorq_s16
  good_body

theorem veorq_s16_typed [Dialect] : Total (k!"veorq_s16", .fn Source.veorq_s16) := by
  refine total_fn veorq_s16_sig_read fun args h => ?_
  obtain ⟨a0, b0, rfl, ta, tb⟩ := typed2 h
  obtain ⟨a, rfl⟩ := ta
  obtain ⟨b, rfl⟩ := tb
  exact total_vec (called_fn (by kernel_rfl) (veorq_s16_source a b)) (veorq_s16_good a b) (.inl (written_s16x8_s16x8_to_s16x8 _ (.tail _ (.tail _ (.tail _ (.tail _ (.tail _ (.tail _ (.tail _ (.tail _ (.tail _ (.tail _ (.tail _ (.head _)))))))))))) a b))

theorem veorq_s32_good [Dialect] (a : int32x4_t) (b : int32x4_t) : Good none True (fun _ => True) (Model.veorq_s32 a b) := by
  unfold Model.veorq_s32
  good_body

theorem veorq_s32_typed [Dialect] : Total (k!"veorq_s32", .fn Source.veorq_s32) := by
  refine total_fn veorq_s32_sig_read fun args h => ?_
  obtain ⟨a0, b0, rfl, ta, tb⟩ := typed2 h
  obtain ⟨a, rfl⟩ := ta
  obtain ⟨b, rfl⟩ := tb
  exact total_vec (called_fn (by kernel_rfl) (veorq_s32_source a b)) (veorq_s32_good a b) (.inl (written_s32x4_s32x4_to_s32x4 _ (.tail _ (.tail _ (.tail _ (.tail _ (.tail _ (.tail _ (.tail _ (.tail _ (.tail _ (.tail _ (.tail _ (.head _)))))))))))) a b))

theorem veorq_s64_good [Dialect] (a : int64x2_t) (b : int64x2_t) : Good none True (fun _ => True) (Model.veorq_s64 a b) := by
  unfold Model.veorq_s64
  good_body

theorem veorq_s64_typed [Dialect] : Total (k!"veorq_s64", .fn Source.veorq_s64) := by
  refine total_fn veorq_s64_sig_read fun args h => ?_
  obtain ⟨a0, b0, rfl, ta, tb⟩ := typed2 h
  obtain ⟨a, rfl⟩ := ta
  obtain ⟨b, rfl⟩ := tb
  exact total_vec (called_fn (by kernel_rfl) (veorq_s64_source a b)) (veorq_s64_good a b) (.inl (written_s64x2_s64x2_to_s64x2 _ (.tail _ (.tail _ (.tail _ (.tail _ (.tail _ (.head _)))))) a b))

theorem veorq_u8_good [Dialect] (a : uint8x16_t) (b : uint8x16_t) : Good none True (fun _ => True) (Model.veorq_u8 a b) := by
  unfold Model.veorq_u8
  good_body

theorem veorq_u8_typed [Dialect] : Total (k!"veorq_u8", .fn Source.veorq_u8) := by
  refine total_fn veorq_u8_sig_read fun args h => ?_
  obtain ⟨a0, b0, rfl, ta, tb⟩ := typed2 h
  obtain ⟨a, rfl⟩ := ta
  obtain ⟨b, rfl⟩ := tb
  exact total_vec (called_fn (by kernel_rfl) (veorq_u8_source a b)) (veorq_u8_good a b) (.inl (written_u8x16_u8x16_to_u8x16 _ (.tail _ (.tail _ (.tail _ (.tail _ (.tail _ (.tail _ (.tail _ (.tail _ (.tail _ (.head _)))))))))) a b))

theorem veorq_u16_good [Dialect] (a : uint16x8_t) (b : uint16x8_t) : Good none True (fun _ => True) (Model.veorq_u16 a b) := by
  unfold Model.veorq_u16
  good_body

theorem veorq_u16_typed [Dialect] : Total (k!"veorq_u16", .fn Source.veorq_u16) := by
  refine total_fn veorq_u16_sig_read fun args h => ?_
  obtain ⟨a0, b0, rfl, ta, tb⟩ := typed2 h
  obtain ⟨a, rfl⟩ := ta
  obtain ⟨b, rfl⟩ := tb
  exact total_vec (called_fn (by kernel_rfl) (veorq_u16_source a b)) (veorq_u16_good a b) (.inl (written_u16x8_u16x8_to_u16x8 _ (.tail _ (.tail _ (.tail _ (.tail _ (.tail _ (.tail _ (.tail _ (.head _)))))))) a b))

theorem veorq_u32_good [Dialect] (a : uint32x4_t) (b : uint32x4_t) : Good none True (fun _ => True) (Model.veorq_u32 a b) := by
  unfold Model.veorq_u32
  good_body

theorem veorq_u32_typed [Dialect] : Total (k!"veorq_u32", .fn Source.veorq_u32) := by
  refine total_fn veorq_u32_sig_read fun args h => ?_
  obtain ⟨a0, b0, rfl, ta, tb⟩ := typed2 h
  obtain ⟨a, rfl⟩ := ta
  obtain ⟨b, rfl⟩ := tb
  exact total_vec (called_fn (by kernel_rfl) (veorq_u32_source a b)) (veorq_u32_good a b) (.inl (written_u32x4_u32x4_to_u32x4 _ (.tail _ (.tail _ (.tail _ (.tail _ (.tail _ (.tail _ (.tail _ (.head _)))))))) a b))

theorem veorq_u64_good [Dialect] (a : uint64x2_t) (b : uint64x2_t) : Good none True (fun _ => True) (Model.veorq_u64 a b) := by
  unfold Model.veorq_u64
  good_body

theorem veorq_u64_typed [Dialect] : Total (k!"veorq_u64", .fn Source.veorq_u64) := by
  refine total_fn veorq_u64_sig_read fun args h => ?_
  obtain ⟨a0, b0, rfl, ta, tb⟩ := typed2 h
  obtain ⟨a, rfl⟩ := ta
  obtain ⟨b, rfl⟩ := tb
  exact total_vec (called_fn (by kernel_rfl) (veorq_u64_source a b)) (veorq_u64_good a b) (.inl (written_u64x2_u64x2_to_u64x2 _ (.tail _ (.tail _ (.tail _ (.tail _ (.tail _ (.head _)))))) a b))

theorem vmvn_s8_good [Dialect] (a : int8x8_t) : Good none True (fun _ => True) (Model.vmvn_s8 a) := by
  unfold Model.vmvn_s8
  good_body

theorem vmvn_s8_typed [Dialect] : Total (k!"vmvn_s8", .fn Source.vmvn_s8) := by
  refine total_fn vmvn_s8_sig_read fun args h => ?_
  obtain ⟨a0, rfl, ta⟩ := typed1 h
  obtain ⟨a, rfl⟩ := ta
  exact total_vec (called_fn (by kernel_rfl) (vmvn_s8_source a)) (vmvn_s8_good a) (.inl (written_s8x8_to_s8x8 _ (.head _) a))

theorem vmvn_s16_good [Dialect] (a : int16x4_t) : Good none True (fun _ => True) (Model.vmvn_s16 a) := by
  unfold Model.vmvn_s16
  good_body

theorem vmvn_s16_typed [Dialect] : Total (k!"vmvn_s16", .fn Source.vmvn_s16) := by
  refine total_fn vmvn_s16_sig_read fun args h => ?_
  obtain ⟨a0, rfl, ta⟩ := typed1 h
  obtain ⟨a, rfl⟩ := ta
  exact total_vec (called_fn (by kernel_rfl) (vmvn_s16_source a)) (vmvn_s16_good a) (.inl (written_s16x4_to_s16x4 _ (.head _) a))

theorem vmvn_s32_good [Dialect] (a : int32x2_t) : Good none True (fun _ => True) (Model.vmvn_s32 a) := by
  unfold Model.vmvn_s32
  good_body

theorem vmvn_s32_typed [Dialect] : Total (k!"vmvn_s32", .fn Source.vmvn_s32) := by
  refine total_fn vmvn_s32_sig_read fun args h => ?_
  obtain ⟨a0, rfl, ta⟩ := typed1 h
  obtain ⟨a, rfl⟩ := ta
  exact total_vec (called_fn (by kernel_rfl) (vmvn_s32_source a)) (vmvn_s32_good a) (.inl (written_s32x2_to_s32x2 _ (.head _) a))

theorem vmvn_u8_good [Dialect] (a : uint8x8_t) : Good none True (fun _ => True) (Model.vmvn_u8 a) := by
  unfold Model.vmvn_u8
  good_body

theorem vmvn_u8_typed [Dialect] : Total (k!"vmvn_u8", .fn Source.vmvn_u8) := by
  refine total_fn vmvn_u8_sig_read fun args h => ?_
  obtain ⟨a0, rfl, ta⟩ := typed1 h
  obtain ⟨a, rfl⟩ := ta
  exact total_vec (called_fn (by kernel_rfl) (vmvn_u8_source a)) (vmvn_u8_good a) (.inl (written_u8x8_to_u8x8 _ (.head _) a))

theorem vmvn_u16_good [Dialect] (a : uint16x4_t) : Good none True (fun _ => True) (Model.vmvn_u16 a) := by
  unfold Model.vmvn_u16
  good_body

theorem vmvn_u16_typed [Dialect] : Total (k!"vmvn_u16", .fn Source.vmvn_u16) := by
  refine total_fn vmvn_u16_sig_read fun args h => ?_
  obtain ⟨a0, rfl, ta⟩ := typed1 h
  obtain ⟨a, rfl⟩ := ta
  exact total_vec (called_fn (by kernel_rfl) (vmvn_u16_source a)) (vmvn_u16_good a) (.inl (written_u16x4_to_u16x4 _ (.head _) a))

theorem vmvn_u32_good [Dialect] (a : uint32x2_t) : Good none True (fun _ => True) (Model.vmvn_u32 a) := by
  unfold Model.vmvn_u32
  good_body

theorem vmvn_u32_typed [Dialect] : Total (k!"vmvn_u32", .fn Source.vmvn_u32) := by
  refine total_fn vmvn_u32_sig_read fun args h => ?_
  obtain ⟨a0, rfl, ta⟩ := typed1 h
  obtain ⟨a, rfl⟩ := ta
  exact total_vec (called_fn (by kernel_rfl) (vmvn_u32_source a)) (vmvn_u32_good a) (.inl (written_u32x2_to_u32x2 _ (.head _) a))

theorem vmvnq_s8_good [Dialect] (a : int8x16_t) : Good none True (fun _ => True) (Model.vmvnq_s8 a) := by
  unfold Model.vmvnq_s8
  good_body

theorem vmvnq_s8_typed [Dialect] : Total (k!"vmvnq_s8", .fn Source.vmvnq_s8) := by
  refine total_fn vmvnq_s8_sig_read fun args h => ?_
  obtain ⟨a0, rfl, ta⟩ := typed1 h
  obtain ⟨a, rfl⟩ := ta
  exact total_vec (called_fn (by kernel_rfl) (vmvnq_s8_source a)) (vmvnq_s8_good a) (.inl (written_s8x16_to_s8x16 _ (.head _) a))

theorem vmvnq_s16_good [Dialect] (a : int16x8_t) : Good none True (fun _ => True) (Model.vmvnq_s16 a) := by
  unfold Model.vmvnq_s16
  good_body

theorem vmvnq_s16_typed [Dialect] : Total (k!"vmvnq_s16", .fn Source.vmvnq_s16) := by
  refine total_fn vmvnq_s16_sig_read fun args h => ?_
  obtain ⟨a0, rfl, ta⟩ := typed1 h
  obtain ⟨a, rfl⟩ := ta
  exact total_vec (called_fn (by kernel_rfl) (vmvnq_s16_source a)) (vmvnq_s16_good a) (.inl (written_s16x8_to_s16x8 _ (.head _) a))

theorem vmvnq_s32_good [Dialect] (a : int32x4_t) : Good none True (fun _ => True) (Model.vmvnq_s32 a) := by
  unfold Model.vmvnq_s32
  good_body

theorem vmvnq_s32_typed [Dialect] : Total (k!"vmvnq_s32", .fn Source.vmvnq_s32) := by
  refine total_fn vmvnq_s32_sig_read fun args h => ?_
  obtain ⟨a0, rfl, ta⟩ := typed1 h
  obtain ⟨a, rfl⟩ := ta
  exact total_vec (called_fn (by kernel_rfl) (vmvnq_s32_source a)) (vmvnq_s32_good a) (.inl (written_s32x4_to_s32x4 _ (.head _) a))

theorem vmvnq_u8_good [Dialect] (a : uint8x16_t) : Good none True (fun _ => True) (Model.vmvnq_u8 a) := by
  unfold Model.vmvnq_u8
  good_body

theorem vmvnq_u8_typed [Dialect] : Total (k!"vmvnq_u8", .fn Source.vmvnq_u8) := by
  refine total_fn vmvnq_u8_sig_read fun args h => ?_
  obtain ⟨a0, rfl, ta⟩ := typed1 h
  obtain ⟨a, rfl⟩ := ta
  exact total_vec (called_fn (by kernel_rfl) (vmvnq_u8_source a)) (vmvnq_u8_good a) (.inl (written_u8x16_to_u8x16 _ (.head _) a))

theorem vmvnq_u16_good [Dialect] (a : uint16x8_t) : Good none True (fun _ => True) (Model.vmvnq_u16 a) := by
  unfold Model.vmvnq_u16
  good_body

theorem vmvnq_u16_typed [Dialect] : Total (k!"vmvnq_u16", .fn Source.vmvnq_u16) := by
  refine total_fn vmvnq_u16_sig_read fun args h => ?_
  obtain ⟨a0, rfl, ta⟩ := typed1 h
  obtain ⟨a, rfl⟩ := ta
  exact total_vec (called_fn (by kernel_rfl) (vmvnq_u16_source a)) (vmvnq_u16_good a) (.inl (written_u16x8_to_u16x8 _ (.head _) a))

end Verif.Props
