import Verif.Typing
import Verif.ArmLemmas
import Verif.Props.Signatures
import Verif.Props.Outcome
import Verif.Props.TypedBase

/-! # Calls with arguments of the declared types, part 5 (C78)

Generated by `tools/gen_typed.py`. -/

set_option linter.unusedVariables false

namespace Verif.Props
open Verif.Cpp Verif.Arm

theorem vpaddl_u8_good [Dialect] (a : uint8x8_t) : Good none True (fun _ => True) (Model.vpaddl_u8 a) := by
  unfold Model.vpaddl_u8
  good_body

theorem vpaddl_u8_typed [Dialect] : Total (k!"vpaddl_u8", .fn Source.vpaddl_u8) := by
  refine total_fn vpaddl_u8_sig_read fun args h => ?_
  obtain ⟨a0, rfl, ta⟩ := typed1 h
  obtain ⟨a, rfl⟩ := ta
  exact total_vec (called_fn (by kernel_rfl) (vpaddl_u8_source a)) (vpaddl_u8_good a) (.inl (written_u8x8_to_u16x4 _ (.head _) a))

theorem vpaddlq_u8_good [Dialect] (a : uint8x16_t) : Good none True (fun _ => True) (Model.vpaddlq_u8 a) := by
  unfold Model.vpaddlq_u8
  good_body

theorem vpaddlq_u8_typed [Dialect] : Total (k!"vpaddlq_u8", .fn Source.vpaddlq_u8) := by
  refine total_fn vpaddlq_u8_sig_read fun args h => ?_
  obtain ⟨a0, rfl, ta⟩ := typed1 h
  obtain ⟨a, rfl⟩ := ta
  exact total_vec (called_fn (by kernel_rfl) (vpaddlq_u8_source a)) (vpaddlq_u8_good a) (.inl (written_u8x16_to_u16x8 _ (.head _) a))

theorem vpaddlq_u16_good [Dialect] (a : uint16x8_t) : Good none True (fun _ => True) (Model.vpaddlq_u16 a) := by
  unfold Model.vpaddlq_u16
  good_body

theorem vpaddlq_u16_typed [Dialect] : Total (k!"vpaddlq_u16", .fn Source.vpaddlq_u16) := by
  refine total_fn vpaddlq_u16_sig_read fun args h => ?_
  obtain ⟨a0, rfl, ta⟩ := typed1 h
  obtain ⟨a, rfl⟩ := ta
  exact total_vec (called_fn (by kernel_rfl) (vpaddlq_u16_source a)) (vpaddlq_u16_good a) (.inl (written_u16x8_to_u32x4 _ (.head _) a))

theorem vaddhn_high_s16_good [Dialect] (r : int8x8_t) (a : int16x8_t) (b : int16x8_t) : Good none True (fun _ => True) (Model.vaddhn_high_s16 r a b) := by
  unfold Model.vaddhn_high_s16
  good_body

theorem vaddhn_high_s16_typed [Dialect] : Total (k!"vaddhn_high_s16", .fn Source.vaddhn_high_s16) := by
  refine total_fn vaddhn_high_s16_sig_read fun args h => ?_
  obtain ⟨r0, a0, b0, rfl, tr, ta, tb⟩ := typed3 h
  obtain ⟨r, rfl⟩ := tr
  obtain ⟨a, rfl⟩ := ta
  obtain ⟨b, rfl⟩ := tb
  exact total_vec (called_fn (by kernel_rfl) (vaddhn_high_s16_source r a b)) (vaddhn_high_s16_good r a b) (.inl (written_s8x8_s16x8_s16x8_to_s8x16 _ (.head _) r a b))

theorem vaddhn_high_s32_good [Dialect] (r : int16x4_t) (a : int32x4_t) (b : int32x4_t) : Good none True (fun _ => True) (Model.vaddhn_high_s32 r a b) := by
  unfold Model.vaddhn_high_s32
  good_body

theorem vaddhn_high_s32_typed [Dialect] : Total (k!"vaddhn_high_s32", .fn Source.vaddhn_high_s32) := by
  refine total_fn vaddhn_high_s32_sig_read fun args h => ?_
  obtain ⟨r0, a0, b0, rfl, tr, ta, tb⟩ := typed3 h
  obtain ⟨r, rfl⟩ := tr
  obtain ⟨a, rfl⟩ := ta
  obtain ⟨b, rfl⟩ := tb
  exact total_vec (called_fn (by kernel_rfl) (vaddhn_high_s32_source r a b)) (vaddhn_high_s32_good r a b) (.inl (written_s16x4_s32x4_s32x4_to_s16x8 _ (.head _) r a b))

theorem vaddhn_high_s64_good [Dialect] (r : int32x2_t) (a : int64x2_t) (b : int64x2_t) : Good none True (fun _ => True) (Model.vaddhn_high_s64 r a b) := by
  unfold Model.vaddhn_high_s64
  good_body

theorem vaddhn_high_s64_typed [Dialect] : Total (k!"vaddhn_high_s64", .fn Source.vaddhn_high_s64) := by
  refine total_fn vaddhn_high_s64_sig_read fun args h => ?_
  obtain ⟨r0, a0, b0, rfl, tr, ta, tb⟩ := typed3 h
  obtain ⟨r, rfl⟩ := tr
  obtain ⟨a, rfl⟩ := ta
  obtain ⟨b, rfl⟩ := tb
  exact total_vec (called_fn (by kernel_rfl) (vaddhn_high_s64_source r a b)) (vaddhn_high_s64_good r a b) (.inl (written_s32x2_s64x2_s64x2_to_s32x4 _ (.head _) r a b))

theorem vaddhn_high_u16_good [Dialect] (r : uint8x8_t) (a : uint16x8_t) (b : uint16x8_t) : Good none True (fun _ => True) (Model.vaddhn_high_u16 r a b) := by
  unfold Model.vaddhn_high_u16
  good_body

theorem vaddhn_high_u16_typed [Dialect] : Total (k!"vaddhn_high_u16", .fn Source.vaddhn_high_u16) := by
  refine total_fn vaddhn_high_u16_sig_read fun args h => ?_
  obtain ⟨r0, a0, b0, rfl, tr, ta, tb⟩ := typed3 h
  obtain ⟨r, rfl⟩ := tr
  obtain ⟨a, rfl⟩ := ta
  obtain ⟨b, rfl⟩ := tb
  exact total_vec (called_fn (by kernel_rfl) (vaddhn_high_u16_source r a b)) (vaddhn_high_u16_good r a b) (.inl (written_u8x8_u16x8_u16x8_to_u8x16 _ (.head _) r a b))

theorem vaddhn_high_u32_good [Dialect] (r : uint16x4_t) (a : uint32x4_t) (b : uint32x4_t) : Good none True (fun _ => True) (Model.vaddhn_high_u32 r a b) := by
  unfold Model.vaddhn_high_u32
  good_body

theorem vaddhn_high_u32_typed [Dialect] : Total (k!"vaddhn_high_u32", .fn Source.vaddhn_high_u32) := by
  refine total_fn vaddhn_high_u32_sig_read fun args h => ?_
  obtain ⟨r0, a0, b0, rfl, tr, ta, tb⟩ := typed3 h
  obtain ⟨r, rfl⟩ := tr
  obtain ⟨a, rfl⟩ := ta
  obtain ⟨b, rfl⟩ := tb
  exact total_vec (called_fn (by kernel_rfl) (vaddhn_high_u32_source r a b)) (vaddhn_high_u32_good r a b) (.inl (written_u16x4_u32x4_u32x4_to_u16x8 _ (.head _) r a b))

theorem vaddhn_high_u64_good [Dialect] (r : uint32x2_t) (a : uint64x2_t) (b : uint64x2_t) : Good none True (fun _ => True) (Model.vaddhn_high_u64 r a b) := by
  unfold Model.vaddhn_high_u64
  good_body

theorem vaddhn_high_u64_typed [Dialect] : Total (k!"vaddhn_high_u64", .fn Source.vaddhn_high_u64) := by
  refine total_fn vaddhn_high_u64_sig_read fun args h => ?_
  obtain ⟨r0, a0, b0, rfl, tr, ta, tb⟩ := typed3 h
  obtain ⟨r, rfl⟩ := tr
  obtain ⟨a, rfl⟩ := ta
  obtain ⟨b, rfl⟩ := tb
  exact total_vec (called_fn (by kernel_rfl) (vaddhn_high_u64_source r a b)) (vaddhn_high_u64_good r a b) (.inl (written_u32x2_u64x2_u64x2_to_u32x4 _ (.head _) r a b))

theorem vsubhn_s16_good [Dialect] (N : int16x8_t) (M : int16x8_t) : Good none True (fun _ => True) (Model.vsubhn_s16 N M) := by
  unfold Model.vsubhn_s16
  good_body

theorem vsubhn_s16_typed [Dialect] : Total (k!"vsubhn_s16", .fn Source.vsubhn_s16) := by
  refine total_fn vsubhn_s16_sig_read fun args h => ?_
  obtain ⟨N0, M0, rfl, tN, tM⟩ := typed2 h
  obtain ⟨N, rfl⟩ := tN
  obtain ⟨M, rfl⟩ := tM
  exact total_vec (called_fn (by kernel_rfl) (vsubhn_s16_source N M)) (vsubhn_s16_good N M) (.inl (written_s16x8_s16x8_to_s8x8 _ (.head _) N M))

theorem vsubn_s32_good [Dialect] (N : int32x4_t) (M : int32x4_t) : Good none True (fun _ => True) (Model.vsubn_s32 N M) := by
  unfold Model.vsubn_s32
  good_body

theorem vsubn_s32_typed [Dialect] : Total (k!"vsubn_s32", .fn Source.vsubn_s32) := by
  refine total_fn vsubn_s32_sig_read fun args h => ?_
  obtain ⟨N0, M0, rfl, tN, tM⟩ := typed2 h
  obtain ⟨N, rfl⟩ := tN
  obtain ⟨M, rfl⟩ := tM
  exact total_vec (called_fn (by kernel_rfl) (vsubn_s32_source N M)) (vsubn_s32_good N M) (.inl (written_s32x4_s32x4_to_s16x4 _ (.head _) N M))

theorem vsubn_s64_good [Dialect] (N : int64x2_t) (M : int64x2_t) : Good none True (fun _ => True) (Model.vsubn_s64 N M) := by
  unfold Model.vsubn_s64
  good_body

theorem vsubn_s64_typed [Dialect] : Total (k!"vsubn_s64", .fn Source.vsubn_s64) := by
  refine total_fn vsubn_s64_sig_read fun args h => ?_
  obtain ⟨N0, M0, rfl, tN, tM⟩ := typed2 h
  obtain ⟨N, rfl⟩ := tN
  obtain ⟨M, rfl⟩ := tM
  exact total_vec (called_fn (by kernel_rfl) (vsubn_s64_source N M)) (vsubn_s64_good N M) (.inl (written_s64x2_s64x2_to_s32x2 _ (.head _) N M))

theorem vsubhn_u16_good [Dialect] (N : uint16x8_t) (M : uint16x8_t) : Good none True (fun _ => True) (Model.vsubhn_u16 N M) := by
  unfold Model.vsubhn_u16
  good_body

theorem vsubhn_u16_typed [Dialect] : Total (k!"vsubhn_u16", .fn Source.vsubhn_u16) := by
  refine total_fn vsubhn_u16_sig_read fun args h => ?_
  obtain ⟨N0, M0, rfl, tN, tM⟩ := typed2 h
  obtain ⟨N, rfl⟩ := tN
  obtain ⟨M, rfl⟩ := tM
  exact total_vec (called_fn (by kernel_rfl) (vsubhn_u16_source N M)) (vsubhn_u16_good N M) (.inl (written_u16x8_u16x8_to_u8x8 _ (.head _) N M))

theorem vsubn_u32_good [Dialect] (N : uint32x4_t) (M : uint32x4_t) : Good none True (fun _ => True) (Model.vsubn_u32 N M) := by
  unfold Model.vsubn_u32
  good_body

theorem vsubn_u32_typed [Dialect] : Total (k!"vsubn_u32", .fn Source.vsubn_u32) := by
  refine total_fn vsubn_u32_sig_read fun args h => ?_
  obtain ⟨N0, M0, rfl, tN, tM⟩ := typed2 h
  obtain ⟨N, rfl⟩ := tN
  obtain ⟨M, rfl⟩ := tM
  exact total_vec (called_fn (by kernel_rfl) (vsubn_u32_source N M)) (vsubn_u32_good N M) (.inl (written_u32x4_u32x4_to_u16x4 _ (.head _) N M))

theorem vsubn_u64_good [Dialect] (N : uint64x2_t) (M : uint64x2_t) : Good none True (fun _ => True) (Model.vsubn_u64 N M) := by
  unfold Model.vsubn_u64
  good_body

theorem vsubn_u64_typed [Dialect] : Total (k!"vsubn_u64", .fn Source.vsubn_u64) := by
  refine total_fn vsubn_u64_sig_read fun args h => ?_
  obtain ⟨N0, M0, rfl, tN, tM⟩ := typed2 h
  obtain ⟨N, rfl⟩ := tN
  obtain ⟨M, rfl⟩ := tM
  exact total_vec (called_fn (by kernel_rfl) (vsubn_u64_source N M)) (vsubn_u64_good N M) (.inl (written_u64x2_u64x2_to_u32x2 _ (.head _) N M))

theorem vrsubhn_s16_good [Dialect] (N : int16x8_t) (M : int16x8_t) : Good none True (fun _ => True) (Model.vrsubhn_s16 N M) := by
  unfold Model.vrsubhn_s16
  good_body

theorem vrsubhn_s16_typed [Dialect] : Total (k!"vrsubhn_s16", .fn Source.vrsubhn_s16) := by
  refine total_fn vrsubhn_s16_sig_read fun args h => ?_
  obtain ⟨N0, M0, rfl, tN, tM⟩ := typed2 h
  obtain ⟨N, rfl⟩ := tN
  obtain ⟨M, rfl⟩ := tM
  exact total_vec (called_fn (by kernel_rfl) (vrsubhn_s16_source N M)) (vrsubhn_s16_good N M) (.inl (written_s16x8_s16x8_to_s8x8 _ (.tail _ (.head _)) N M))

theorem vrsubhn_s32_good [Dialect] (N : int32x4_t) (M : int32x4_t) : Good none True (fun _ => True) (Model.vrsubhn_s32 N M) := by
  unfold Model.vrsubhn_s32
  good_body

theorem vrsubhn_s32_typed [Dialect] : Total (k!"vrsubhn_s32", .fn Source.vrsubhn_s32) := by
  refine total_fn vrsubhn_s32_sig_read fun args h => ?_
  obtain ⟨N0, M0, rfl, tN, tM⟩ := typed2 h
  obtain ⟨N, rfl⟩ := tN
  obtain ⟨M, rfl⟩ := tM
  exact total_vec (called_fn (by kernel_rfl) (vrsubhn_s32_source N M)) (vrsubhn_s32_good N M) (.inl (written_s32x4_s32x4_to_s16x4 _ (.tail _ (.head _)) N M))

theorem vrsubhn_s64_good [Dialect] (N : int64x2_t) (M : int64x2_t) : Good none True (fun _ => True) (Model.vrsubhn_s64 N M) := by
  unfold Model.vrsubhn_s64
  good_body

theorem vrsubhn_s64_typed [Dialect] : Total (k!"vrsubhn_s64", .fn Source.vrsubhn_s64) := by
  refine total_fn vrsubhn_s64_sig_read fun args h => ?_
  obtain ⟨N0, M0, rfl, tN, tM⟩ := typed2 h
  obtain ⟨N, rfl⟩ := tN
  obtain ⟨M, rfl⟩ := tM
  exact total_vec (called_fn (by kernel_rfl) (vrsubhn_s64_source N M)) (vrsubhn_s64_good N M) (.inl (written_s64x2_s64x2_to_s32x2 _ (.tail _ (.head _)) N M))

theorem vrsubhn_u16_good [Dialect] (N : uint16x8_t) (M : uint16x8_t) : Good none True (fun _ => True) (Model.vrsubhn_u16 N M) := by
  unfold Model.vrsubhn_u16
  good_body

theorem vrsubhn_u16_typed [Dialect] : Total (k!"vrsubhn_u16", .fn Source.vrsubhn_u16) := by
  refine total_fn vrsubhn_u16_sig_read fun args h => ?_
  obtain ⟨N0, M0, rfl, tN, tM⟩ := typed2 h
  obtain ⟨N, rfl⟩ := tN
  obtain ⟨M, rfl⟩ := tM
  exact total_vec (called_fn (by kernel_rfl) (vrsubhn_u16_source N M)) (vrsubhn_u16_good N M) (.inl (written_u16x8_u16x8_to_u8x8 _ (.tail _ (.head _)) N M))

theorem vrsubhn_u32_good [Dialect] (N : uint32x4_t) (M : uint32x4_t) : Good none True (fun _ => True) (Model.vrsubhn_u32 N M) := by
  unfold Model.vrsubhn_u32
  good_body

theorem vrsubhn_u32_typed [Dialect] : Total (k!"vrsubhn_u32", .fn Source.vrsubhn_u32) := by
  refine total_fn vrsubhn_u32_sig_read fun args h => ?_
  obtain ⟨N0, M0, rfl, tN, tM⟩ := typed2 h
  obtain ⟨N, rfl⟩ := tN
  obtain ⟨M, rfl⟩ := tM
  exact total_vec (called_fn (by kernel_rfl) (vrsubhn_u32_source N M)) (vrsubhn_u32_good N M) (.inl (written_u32x4_u32x4_to_u16x4 _ (.tail _ (.head _)) N M))

theorem vrsubhn_u64_good [Dialect] (N : uint64x2_t) (M : uint64x2_t) : Good none True (fun _ => True) (Model.vrsubhn_u64 N M) := by
  unfold Model.vrsubhn_u64
  good_body

theorem vrsubhn_u64_typed [Dialect] : Total (k!"vrsubhn_u64", .fn Source.vrsubhn_u64) := by
  refine total_fn vrsubhn_u64_sig_read fun args h => ?_
  obtain ⟨N0, M0, rfl, tN, tM⟩ := typed2 h
  obtain ⟨N, rfl⟩ := tN
  obtain ⟨M, rfl⟩ := tM
  exact total_vec (called_fn (by kernel_rfl) (vrsubhn_u64_source N M)) (vrsubhn_u64_good N M) (.inl (written_u64x2_u64x2_to_u32x2 _ (.tail _ (.head _)) N M))

theorem vhsub_s8_good [Dialect] (N : int8x8_t) (M : int8x8_t) : Good none True (fun _ => True) (Model.vhsub_s8 N M) := by
  unfold Model.vhsub_s8
  good_body

theorem vhsub_s8_typed [Dialect] : Total (k!"vhsub_s8", .fn Source.vhsub_s8) := by
  refine total_fn vhsub_s8_sig_read fun args h => ?_
  obtain ⟨N0, M0, rfl, tN, tM⟩ := typed2 h
  obtain ⟨N, rfl⟩ := tN
  obtain ⟨M, rfl⟩ := tM
  exact total_vec (called_fn (by kernel_rfl) (vhsub_s8_source N M)) (vhsub_s8_good N M) (.inl (written_s8x8_s8x8_to_s8x8 _ (.tail _ (.tail _ (.head _))) N M))

theorem vhsub_s16_good [Dialect] (N : int16x4_t) (M : int16x4_t) : Good none True (fun _ => True) (Model.vhsub_s16 N M) := by
  unfold Model.vhsub_s16
  good_body

theorem vhsub_s16_typed [Dialect] : Total (k!"vhsub_s16", .fn Source.vhsub_s16) := by
  refine total_fn vhsub_s16_sig_read fun args h => ?_
  obtain ⟨N0, M0, rfl, tN, tM⟩ := typed2 h
  obtain ⟨N, rfl⟩ := tN
  obtain ⟨M, rfl⟩ := tM
  exact total_vec (called_fn (by kernel_rfl) (vhsub_s16_source N M)) (vhsub_s16_good N M) (.inl (written_s16x4_s16x4_to_s16x4 _ (.tail _ (.tail _ (.head _))) N M))

theorem vhsub_s32_good [Dialect] (N : int32x2_t) (M : int32x2_t) : Good none True (fun _ => True) (Model.vhsub_s32 N M) := by
  unfold Model.vhsub_s32
  good_body

theorem vhsub_s32_typed [Dialect] : Total (k!"vhsub_s32", .fn Source.vhsub_s32) := by
  refine total_fn vhsub_s32_sig_read fun args h => ?_
  obtain ⟨N0, M0, rfl, tN, tM⟩ := typed2 h
  obtain ⟨N, rfl⟩ := tN
  obtain ⟨M, rfl⟩ := tM
  exact total_vec (called_fn (by kernel_rfl) (vhsub_s32_source N M)) (vhsub_s32_good N M) (.inl (written_s32x2_s32x2_to_s32x2 _ (.tail _ (.tail _ (.head _))) N M))

theorem vhsub_u8_good [Dialect] (N : uint8x8_t) (M : uint8x8_t) : Good none True (fun _ => True) (Model.vhsub_u8 N M) := by
  unfold Model.vhsub_u8
  good_body

theorem vhsub_u8_typed [Dialect] : Total (k!"vhsub_u8", .fn Source.vhsub_u8) := by
  refine total_fn vhsub_u8_sig_read fun args h => ?_
  obtain ⟨N0, M0, rfl, tN, tM⟩ := typed2 h
  obtain ⟨N, rfl⟩ := tN
  obtain ⟨M, rfl⟩ := tM
  exact total_vec (called_fn (by kernel_rfl) (vhsub_u8_source N M)) (vhsub_u8_good N M) (.inl (written_u8x8_u8x8_to_u8x8 _ (.tail _ (.tail _ (.tail _ (.head _)))) N M))

theorem vhsub_u16_good [Dialect] (N : uint16x4_t) (M : uint16x4_t) : Good none True (fun _ => True) (Model.vhsub_u16 N M) := by
  unfold Model.vhsub_u16
  good_body

theorem vhsub_u16_typed [Dialect] : Total (k!"vhsub_u16", .fn Source.vhsub_u16) := by
  refine total_fn vhsub_u16_sig_read fun args h => ?_
  obtain ⟨N0, M0, rfl, tN, tM⟩ := typed2 h
  obtain ⟨N, rfl⟩ := tN
  obtain ⟨M, rfl⟩ := tM
  exact total_vec (called_fn (by kernel_rfl) (vhsub_u16_source N M)) (vhsub_u16_good N M) (.inl (written_u16x4_u16x4_to_u16x4 _ (.tail _ (.tail _ (.head _))) N M))

theorem vhsub_u32_good [Dialect] (N : uint32x2_t) (M : uint32x2_t) : Good none True (fun _ => True) (Model.vhsub_u32 N M) := by
  unfold Model.vhsub_u32
  good_body

theorem vhsub_u32_typed [Dialect] : Total (k!"vhsub_u32", .fn Source.vhsub_u32) := by
  refine total_fn vhsub_u32_sig_read fun args h => ?_
  obtain ⟨N0, M0, rfl, tN, tM⟩ := typed2 h
  obtain ⟨N, rfl⟩ := tN
  obtain ⟨M, rfl⟩ := tM
  exact total_vec (called_fn (by kernel_rfl) (vhsub_u32_source N M)) (vhsub_u32_good N M) (.inl (written_u32x2_u32x2_to_u32x2 _ (.tail _ (.tail _ (.head _))) N M))

theorem vhsubq_s8_good [Dialect] (N : int8x16_t) (M : int8x16_t) : Good none True (fun _ => True) (Model.vhsubq_s8 N M) := by
  unfold Model.vhsubq_s8
  good_body

theorem vhsubq_s8_typed [Dialect] : Total (k!"vhsubq_s8", .fn Source.vhsubq_s8) := by
  refine total_fn vhsubq_s8_sig_read fun args h => ?_
  obtain ⟨N0, M0, rfl, tN, tM⟩ := typed2 h
  obtain ⟨N, rfl⟩ := tN
  obtain ⟨M, rfl⟩ := tM
  exact total_vec (called_fn (by kernel_rfl) (vhsubq_s8_source N M)) (vhsubq_s8_good N M) (.inl (written_s8x16_s8x16_to_s8x16 _ (.tail _ (.tail _ (.tail _ (.tail _ (.head _))))) N M))

theorem vhsubq_s16_good [Dialect] (N : int16x8_t) (M : int16x8_t) : Good none True (fun _ => True) (Model.vhsubq_s16 N M) := by
  unfold Model.vhsubq_s16
  good_body

theorem vhsubq_s16_typed [Dialect] : Total (k!"vhsubq_s16", .fn Source.vhsubq_s16) := by
  refine total_fn vhsubq_s16_sig_read fun args h => ?_
  obtain ⟨N0, M0, rfl, tN, tM⟩ := typed2 h
  obtain ⟨N, rfl⟩ := tN
  obtain ⟨M, rfl⟩ := tM
  exact total_vec (called_fn (by kernel_rfl) (vhsubq_s16_source N M)) (vhsubq_s16_good N M) (.inl (written_s16x8_s16x8_to_s16x8 _ (.tail _ (.tail _ (.tail _ (.tail _ (.head _))))) N M))

theorem vhsubq_s32_good [Dialect] (N : int32x4_t) (M : int32x4_t) : Good none True (fun _ => True) (Model.vhsubq_s32 N M) := by
  unfold Model.vhsubq_s32
  good_body

theorem vhsubq_s32_typed [Dialect] : Total (k!"vhsubq_s32", .fn Source.vhsubq_s32) := by
  refine total_fn vhsubq_s32_sig_read fun args h => ?_
  obtain ⟨N0, M0, rfl, tN, tM⟩ := typed2 h
  obtain ⟨N, rfl⟩ := tN
  obtain ⟨M, rfl⟩ := tM
  exact total_vec (called_fn (by kernel_rfl) (vhsubq_s32_source N M)) (vhsubq_s32_good N M) (.inl (written_s32x4_s32x4_to_s32x4 _ (.tail _ (.tail _ (.tail _ (.tail _ (.head _))))) N M))

theorem vhsubq_u8_good [Dialect] (N : uint8x16_t) (M : uint8x16_t) : Good none True (fun _ => True) (Model.vhsubq_u8 N M) := by
  unfold Model.vhsubq_u8
  good_body

theorem vhsubq_u8_typed [Dialect] : Total (k!"vhsubq_u8", .fn Source.vhsubq_u8) := by
  refine total_fn vhsubq_u8_sig_read fun args h => ?_
  obtain ⟨N0, M0, rfl, tN, tM⟩ := typed2 h
  obtain ⟨N, rfl⟩ := tN
  obtain ⟨M, rfl⟩ := tM
  exact total_vec (called_fn (by kernel_rfl) (vhsubq_u8_source N M)) (vhsubq_u8_good N M) (.inl (written_u8x16_u8x16_to_u8x16 _ (.tail _ (.tail _ (.tail _ (.head _)))) N M))

theorem vhsubq_u16_good [Dialect] (N : uint16x8_t) (M : uint16x8_t) : Good none True (fun _ => True) (Model.vhsubq_u16 N M) := by
  unfold Model.vhsubq_u16
  good_body

theorem vhsubq_u16_typed [Dialect] : Total (k!"vhsubq_u16", .fn Source.vhsubq_u16) := by
  refine total_fn vhsubq_u16_sig_read fun args h => ?_
  obtain ⟨N0, M0, rfl, tN, tM⟩ := typed2 h
  obtain ⟨N, rfl⟩ := tN
  obtain ⟨M, rfl⟩ := tM
  exact total_vec (called_fn (by kernel_rfl) (vhsubq_u16_source N M)) (vhsubq_u16_good N M) (.inl (written_u16x8_u16x8_to_u16x8 _ (.tail _ (.tail _ (.head _))) N M))

theorem vhsubq_u32_good [Dialect] (N : uint32x4_t) (M : uint32x4_t) : Good none True (fun _ => True) (Model.vhsubq_u32 N M) := by
  unfold Model.vhsubq_u32
  good_body

theorem vhsubq_u32_typed [Dialect] : Total (k!"vhsubq_u32", .fn Source.vhsubq_u32) := by
  refine total_fn vhsubq_u32_sig_read fun args h => ?_
  obtain ⟨N0, M0, rfl, tN, tM⟩ := typed2 h
  obtain ⟨N, rfl⟩ := tN
  obtain ⟨M, rfl⟩ := tM
  exact total_vec (called_fn (by kernel_rfl) (vhsubq_u32_source N M)) (vhsubq_u32_good N M) (.inl (written_u32x4_u32x4_to_u32x4 _ (.tail _ (.tail _ (.head _))) N M))

theorem vrev16_s8_good [Dialect] (vec : int8x8_t) : Good none True (fun _ => True) (Model.vrev16_s8 vec) := by
  unfold Model.vrev16_s8
  good_body

theorem vrev16_s8_typed [Dialect] : Total (k!"vrev16_s8", .fn Source.vrev16_s8) := by
  refine total_fn vrev16_s8_sig_read fun args h => ?_
  obtain ⟨vec0, rfl, tvec⟩ := typed1 h
  obtain ⟨vec, rfl⟩ := tvec
  exact total_vec (called_fn (by kernel_rfl) (vrev16_s8_source vec)) (vrev16_s8_good vec) (.inl (written_s8x8_to_s8x8 _ (.tail _ (.head _)) vec))

theorem vrev16_u8_good [Dialect] (vec : uint8x8_t) : Good none True (fun _ => True) (Model.vrev16_u8 vec) := by
  unfold Model.vrev16_u8
  good_body

theorem vrev16_u8_typed [Dialect] : Total (k!"vrev16_u8", .fn Source.vrev16_u8) := by
  refine total_fn vrev16_u8_sig_read fun args h => ?_
  obtain ⟨vec0, rfl, tvec⟩ := typed1 h
  obtain ⟨vec, rfl⟩ := tvec
  exact total_vec (called_fn (by kernel_rfl) (vrev16_u8_source vec)) (vrev16_u8_good vec) (.inl (written_u8x8_to_u8x8 _ (.tail _ (.head _)) vec))

theorem vrev16q_s8_good [Dialect] (vec : int8x16_t) : Good none True (fun _ => True) (Model.vrev16q_s8 vec) := by
  unfold Model.vrev16q_s8
  good_body

theorem vrev16q_s8_typed [Dialect] : Total (k!"vrev16q_s8", .fn Source.vrev16q_s8) := by
  refine total_fn vrev16q_s8_sig_read fun args h => ?_
  obtain ⟨vec0, rfl, tvec⟩ := typed1 h
  obtain ⟨vec, rfl⟩ := tvec
  exact total_vec (called_fn (by kernel_rfl) (vrev16q_s8_source vec)) (vrev16q_s8_good vec) (.inl (written_s8x16_to_s8x16 _ (.tail _ (.head _)) vec))

theorem vrev16q_u8_good [Dialect] (vec : uint8x16_t) : Good none True (fun _ => True) (Model.vrev16q_u8 vec) := by
  unfold Model.vrev16q_u8
  good_body

theorem vrev16q_u8_typed [Dialect] : Total (k!"vrev16q_u8", .fn Source.vrev16q_u8) := by
  refine total_fn vrev16q_u8_sig_read fun args h => ?_
  obtain ⟨vec0, rfl, tvec⟩ := typed1 h
  obtain ⟨vec, rfl⟩ := tvec
  exact total_vec (called_fn (by kernel_rfl) (vrev16q_u8_source vec)) (vrev16q_u8_good vec) (.inl (written_u8x16_to_u8x16 _ (.tail _ (.head _)) vec))

theorem vrev32_s8_good [Dialect] (vec : int8x8_t) : Good none True (fun _ => True) (Model.vrev32_s8 vec) := by
  unfold Model.vrev32_s8
  good_body

theorem vrev32_s8_typed [Dialect] : Total (k!"vrev32_s8", .fn Source.vrev32_s8) := by
  refine total_fn vrev32_s8_sig_read fun args h => ?_
  obtain ⟨vec0, rfl, tvec⟩ := typed1 h
  obtain ⟨vec, rfl⟩ := tvec
  exact total_vec (called_fn (by kernel_rfl) (vrev32_s8_source vec)) (vrev32_s8_good vec) (.inl (written_s8x8_to_s8x8 _ (.tail _ (.tail _ (.head _))) vec))

theorem vrev32_s16_good [Dialect] (vec : int16x4_t) : Good none True (fun _ => True) (Model.vrev32_s16 vec) := by
  unfold Model.vrev32_s16
  good_body

theorem vrev32_s16_typed [Dialect] : Total (k!"vrev32_s16", .fn Source.vrev32_s16) := by
  refine total_fn vrev32_s16_sig_read fun args h => ?_
  obtain ⟨vec0, rfl, tvec⟩ := typed1 h
  obtain ⟨vec, rfl⟩ := tvec
  exact total_vec (called_fn (by kernel_rfl) (vrev32_s16_source vec)) (vrev32_s16_good vec) (.inl (written_s16x4_to_s16x4 _ (.tail _ (.head _)) vec))

theorem vrev32_u8_good [Dialect] (vec : uint8x8_t) : Good none True (fun _ => True) (Model.vrev32_u8 vec) := by
  unfold Model.vrev32_u8
  good_body

theorem vrev32_u8_typed [Dialect] : Total (k!"vrev32_u8", .fn Source.vrev32_u8) := by
  refine total_fn vrev32_u8_sig_read fun args h => ?_
  obtain ⟨vec0, rfl, tvec⟩ := typed1 h
  obtain ⟨vec, rfl⟩ := tvec
  exact total_vec (called_fn (by kernel_rfl) (vrev32_u8_source vec)) (vrev32_u8_good vec) (.inl (written_u8x8_to_u8x8 _ (.tail _ (.tail _ (.head _))) vec))

theorem vrev32_u16_good [Dialect] (vec : uint16x4_t) : Good none True (fun _ => True) (Model.vrev32_u16 vec) := by
  unfold Model.vrev32_u16
  good_body

theorem vrev32_u16_typed [Dialect] : Total (k!"vrev32_u16", .fn Source.vrev32_u16) := by
  refine total_fn vrev32_u16_sig_read fun args h => ?_
  obtain ⟨vec0, rfl, tvec⟩ := typed1 h
  obtain ⟨vec, rfl⟩ := tvec
  exact total_vec (called_fn (by kernel_rfl) (vrev32_u16_source vec)) (vrev32_u16_good vec) (.inl (written_u16x4_to_u16x4 _ (.tail _ (.head _)) vec))

theorem vrev32q_s8_good [Dialect] (vec : int8x16_t) : Good none True (fun _ => True) (Model.vrev32q_s8 vec) := by
  unfold Model.vrev32q_s8
  good_body

theorem vrev32q_s8_typed [Dialect] : Total (k!"vrev32q_s8", .fn Source.vrev32q_s8) := by
  refine total_fn vrev32q_s8_sig_read fun args h => ?_
  obtain ⟨vec0, rfl, tvec⟩ := typed1 h
  obtain ⟨vec, rfl⟩ := tvec
  exact total_vec (called_fn (by kernel_rfl) (vrev32q_s8_source vec)) (vrev32q_s8_good vec) (.inl (written_s8x16_to_s8x16 _ (.tail _ (.tail _ (.head _))) vec))

theorem vrev32q_s16_good [Dialect] (vec : int16x8_t) : Good none True (fun _ => True) (Model.vrev32q_s16 vec) := by
  unfold Model.vrev32q_s16
  good_body

theorem vrev32q_s16_typed [Dialect] : Total (k!"vrev32q_s16", .fn Source.vrev32q_s16) := by
  refine total_fn vrev32q_s16_sig_read fun args h => ?_
  obtain ⟨vec0, rfl, tvec⟩ := typed1 h
  obtain ⟨vec, rfl⟩ := tvec
  exact total_vec (called_fn (by kernel_rfl) (vrev32q_s16_source vec)) (vrev32q_s16_good vec) (.inl (written_s16x8_to_s16x8 _ (.tail _ (.head _)) vec))

theorem vrev32q_u8_good [Dialect] (vec : uint8x16_t) : Good none True (fun _ => True) (Model.vrev32q_u8 vec) := by
  unfold Model.vrev32q_u8
  good_body

theorem vrev32q_u8_typed [Dialect] : Total (k!"vrev32q_u8", .fn Source.vrev32q_u8) := by
  refine total_fn vrev32q_u8_sig_read fun args h => ?_
  obtain ⟨vec0, rfl, tvec⟩ := typed1 h
  obtain ⟨vec, rfl⟩ := tvec
  exact total_vec (called_fn (by kernel_rfl) (vrev32q_u8_source vec)) (vrev32q_u8_good vec) (.inl (written_u8x16_to_u8x16 _ (.tail _ (.tail _ (.head _))) vec))

theorem vrev32q_u16_good [Dialect] (vec : uint16x8_t) : Good none True (fun _ => True) (Model.vrev32q_u16 vec) := by
  unfold Model.vrev32q_u16
  good_body

theorem vrev32q_u16_typed [Dialect] : Total (k!"vrev32q_u16", .fn Source.vrev32q_u16) := by
  refine total_fn vrev32q_u16_sig_read fun args h => ?_
  obtain ⟨vec0, rfl, tvec⟩ := typed1 h
  obtain ⟨vec, rfl⟩ := tvec
  exact total_vec (called_fn (by kernel_rfl) (vrev32q_u16_source vec)) (vrev32q_u16_good vec) (.inl (written_u16x8_to_u16x8 _ (.tail _ (.head _)) vec))

theorem vrev64_s8_good [Dialect] (vec : int8x8_t) : Good none True (fun _ => True) (Model.vrev64_s8 vec) := by
  unfold Model.vrev64_s8
  good_body

theorem vrev64_s8_typed [Dialect] : Total (k!"vrev64_s8", .fn Source.vrev64_s8) := by
  refine total_fn vrev64_s8_sig_read fun args h => ?_
  obtain ⟨vec0, rfl, tvec⟩ := typed1 h
  obtain ⟨vec, rfl⟩ := tvec
  exact total_vec (called_fn (by kernel_rfl) (vrev64_s8_source vec)) (vrev64_s8_good vec) (.inl (written_s8x8_to_s8x8 _ (.tail _ (.tail _ (.tail _ (.head _)))) vec))

theorem vrev64_s16_good [Dialect] (vec : int16x4_t) : Good none True (fun _ => True) (Model.vrev64_s16 vec) := by
  unfold Model.vrev64_s16
  good_body

theorem vrev64_s16_typed [Dialect] : Total (k!"vrev64_s16", .fn Source.vrev64_s16) := by
  refine total_fn vrev64_s16_sig_read fun args h => ?_
  obtain ⟨vec0, rfl, tvec⟩ := typed1 h
  obtain ⟨vec, rfl⟩ := tvec
  exact total_vec (called_fn (by kernel_rfl) (vrev64_s16_source vec)) (vrev64_s16_good vec) (.inl (written_s16x4_to_s16x4 _ (.tail _ (.tail _ (.head _))) vec))

theorem vrev64_s32_good [Dialect] (vec : int32x2_t) : Good none True (fun _ => True) (Model.vrev64_s32 vec) := by
  unfold Model.vrev64_s32
  good_body

theorem vrev64_s32_typed [Dialect] : Total (k!"vrev64_s32", .fn Source.vrev64_s32) := by
  refine total_fn vrev64_s32_sig_read fun args h => ?_
  obtain ⟨vec0, rfl, tvec⟩ := typed1 h
  obtain ⟨vec, rfl⟩ := tvec
  exact total_vec (called_fn (by kernel_rfl) (vrev64_s32_source vec)) (vrev64_s32_good vec) (.inl (written_s32x2_to_s32x2 _ (.tail _ (.head _)) vec))

theorem vrev64_u8_good [Dialect] (vec : uint8x8_t) : Good none True (fun _ => True) (Model.vrev64_u8 vec) := by
  unfold Model.vrev64_u8
  good_body

theorem vrev64_u8_typed [Dialect] : Total (k!"vrev64_u8", .fn Source.vrev64_u8) := by
  refine total_fn vrev64_u8_sig_read fun args h => ?_
  obtain ⟨vec0, rfl, tvec⟩ := typed1 h
  obtain ⟨vec, rfl⟩ := tvec
  exact total_vec (called_fn (by kernel_rfl) (vrev64_u8_source vec)) (vrev64_u8_good vec) (.inl (written_u8x8_to_u8x8 _ (.tail _ (.tail _ (.tail _ (.head _)))) vec))

theorem vrev64_u16_good [Dialect] (vec : uint16x4_t) : Good none True (fun _ => True) (Model.vrev64_u16 vec) := by
  unfold Model.vrev64_u16
  good_body

theorem vrev64_u16_typed [Dialect] : Total (k!"vrev64_u16", .fn Source.vrev64_u16) := by
  refine total_fn vrev64_u16_sig_read fun args h => ?_
  obtain ⟨vec0, rfl, tvec⟩ := typed1 h
  obtain ⟨vec, rfl⟩ := tvec
  exact total_vec (called_fn (by kernel_rfl) (vrev64_u16_source vec)) (vrev64_u16_good vec) (.inl (written_u16x4_to_u16x4 _ (.tail _ (.tail _ (.head _))) vec))

theorem vrev64_u32_good [Dialect] (vec : uint32x2_t) : Good none True (fun _ => True) (Model.vrev64_u32 vec) := by
  unfold Model.vrev64_u32
  good_body

theorem vrev64_u32_typed [Dialect] : Total (k!"vrev64_u32", .fn Source.vrev64_u32) := by
  refine total_fn vrev64_u32_sig_read fun args h => ?_
  obtain ⟨vec0, rfl, tvec⟩ := typed1 h
  obtain ⟨vec, rfl⟩ := tvec
  exact total_vec (called_fn (by kernel_rfl) (vrev64_u32_source vec)) (vrev64_u32_good vec) (.inl (written_u32x2_to_u32x2 _ (.tail _ (.head _)) vec))

theorem vrev64_f32_good [Dialect] (vec : float32x2_t) : Good none True (fun _ => True) (Model.vrev64_f32 vec) := by
  unfold Model.vrev64_f32
  good_body

theorem vrev64_f32_typed [Dialect] : Total (k!"vrev64_f32", .fn Source.vrev64_f32) := by
  refine total_fn vrev64_f32_sig_read fun args h => ?_
  obtain ⟨vec0, rfl, tvec⟩ := typed1 h
  obtain ⟨vec, rfl⟩ := tvec
  exact total_vec (called_fn (by kernel_rfl) (vrev64_f32_source vec)) (vrev64_f32_good vec) (.inl (written_f32x2_to_f32x2 _ (.head _) vec))

theorem vrev64q_s8_good [Dialect] (vec : int8x16_t) : Good none True (fun _ => True) (Model.vrev64q_s8 vec) := by
  unfold Model.vrev64q_s8
  good_body

theorem vrev64q_s8_typed [Dialect] : Total (k!"vrev64q_s8", .fn Source.vrev64q_s8) := by
  refine total_fn vrev64q_s8_sig_read fun args h => ?_
  obtain ⟨vec0, rfl, tvec⟩ := typed1 h
  obtain ⟨vec, rfl⟩ := tvec
  exact total_vec (called_fn (by kernel_rfl) (vrev64q_s8_source vec)) (vrev64q_s8_good vec) (.inr (by decide))

theorem vrev64q_s16_good [Dialect] (vec : int16x8_t) : Good none True (fun _ => True) (Model.vrev64q_s16 vec) := by
  unfold Model.vrev64q_s16
  good_body

theorem vrev64q_s16_typed [Dialect] : Total (k!"vrev64q_s16", .fn Source.vrev64q_s16) := by
  refine total_fn vrev64q_s16_sig_read fun args h => ?_
  obtain ⟨vec0, rfl, tvec⟩ := typed1 h
  obtain ⟨vec, rfl⟩ := tvec
  exact total_vec (called_fn (by kernel_rfl) (vrev64q_s16_source vec)) (vrev64q_s16_good vec) (.inr (by decide))

theorem vrev64q_s32_good [Dialect] (vec : int32x4_t) : Good none True (fun _ => True) (Model.vrev64q_s32 vec) := by
  unfold Model.vrev64q_s32
  good_body

theorem vrev64q_s32_typed [Dialect] : Total (k!"vrev64q_s32", .fn Source.vrev64q_s32) := by
  refine total_fn vrev64q_s32_sig_read fun args h => ?_
  obtain ⟨vec0, rfl, tvec⟩ := typed1 h
  obtain ⟨vec, rfl⟩ := tvec
  exact total_vec (called_fn (by kernel_rfl) (vrev64q_s32_source vec)) (vrev64q_s32_good vec) (.inl (written_s32x4_to_s32x4 _ (.tail _ (.head _)) vec))

theorem vrev64q_u8_good [Dialect] (vec : uint8x16_t) : Good none True (fun _ => True) (Model.vrev64q_u8 vec) := by
  unfold Model.vrev64q_u8
  good_body

theorem vrev64q_u8_typed [Dialect] : Total (k!"vrev64q_u8", .fn Source.vrev64q_u8) := by
  refine total_fn vrev64q_u8_sig_read fun args h => ?_
  obtain ⟨vec0, rfl, tvec⟩ := typed1 h
  obtain ⟨vec, rfl⟩ := tvec
  exact total_vec (called_fn (by kernel_rfl) (vrev64q_u8_source vec)) (vrev64q_u8_good vec) (.inl (written_u8x16_to_u8x16 _ (.tail _ (.tail _ (.tail _ (.head _)))) vec))

theorem vrev64q_u16_good [Dialect] (vec : uint16x8_t) : Good none True (fun _ => True) (Model.vrev64q_u16 vec) := by
  unfold Model.vrev64q_u16
  good_body

theorem vrev64q_u16_typed [Dialect] : Total (k!"vrev64q_u16", .fn Source.vrev64q_u16) := by
  refine total_fn vrev64q_u16_sig_read fun args h => ?_
  obtain ⟨vec0, rfl, tvec⟩ := typed1 h
  obtain ⟨vec, rfl⟩ := tvec
  exact total_vec (called_fn (by kernel_rfl) (vrev64q_u16_source vec)) (vrev64q_u16_good vec) (.inl (written_u16x8_to_u16x8 _ (.tail _ (.tail _ (.head _))) vec))

theorem vrev64q_u32_good [Dialect] (vec : uint32x4_t) : Good none True (fun _ => True) (Model.vrev64q_u32 vec) := by
  unfold Model.vrev64q_u32
  good_body

theorem vrev64q_u32_typed [Dialect] : Total (k!"vrev64q_u32", .fn Source.vrev64q_u32) := by
  refine total_fn vrev64q_u32_sig_read fun args h => ?_
  obtain ⟨vec0, rfl, tvec⟩ := typed1 h
  obtain ⟨vec, rfl⟩ := tvec
  exact total_vec (called_fn (by kernel_rfl) (vrev64q_u32_source vec)) (vrev64q_u32_good vec) (.inl (written_u32x4_to_u32x4 _ (.tail _ (.head _)) vec))

theorem vrev64q_f32_good [Dialect] (vec : float32x4_t) : Good none True (fun _ => True) (Model.vrev64q_f32 vec) := by
  unfold Model.vrev64q_f32
  good_body

theorem vrev64q_f32_typed [Dialect] : Total (k!"vrev64q_f32", .fn Source.vrev64q_f32) := by
  refine total_fn vrev64q_f32_sig_read fun args h => ?_
  obtain ⟨vec0, rfl, tvec⟩ := typed1 h
  obtain ⟨vec, rfl⟩ := tvec
  exact total_vec (called_fn (by kernel_rfl) (vrev64q_f32_source vec)) (vrev64q_f32_good vec) (.inl (written_f32x4_to_f32x4 _ (.head _) vec))

theorem vtrn_s8_good [Dialect] (a : int8x8_t) (b : int8x8_t) : Good none True (fun _ => True) (Model.vtrn_s8 a b) := by
  unfold Model.vtrn_s8
  good_body

theorem vtrn_s8_typed [Dialect] : Total (k!"vtrn_s8", .fn Source.vtrn_s8) := by
  refine total_fn vtrn_s8_sig_read fun args h => ?_
  obtain ⟨a0, b0, rfl, ta, tb⟩ := typed2 h
  obtain ⟨a, rfl⟩ := ta
  obtain ⟨b, rfl⟩ := tb
  exact total_arr (called_fn (by kernel_rfl) (vtrn_s8_source a b)) (vtrn_s8_good a b) (.inl (written_s8x8_s8x8_to_s8x8x2 _ (.head _) a b))

end Verif.Props
