import Verif.Typing
import Verif.ArmLemmas
import Verif.Props.Signatures
import Verif.Props.Outcome
import Verif.Props.TypedBase

/-! # Calls with arguments of the declared types, part 4 (C78)

Generated by `tools/gen_typed.py`. -/

set_option linter.unusedVariables false

namespace Verif.Props
open Verif.Cpp Verif.Arm

theorem vmovn_s32_good [Dialect] (a : int32x4_t) : Good none True (fun _ => True) (Model.vmovn_s32 a) := by
  unfold Model.vmovn_s32
  good_body

theorem vmovn_s32_typed [Dialect] : Total (k!"vmovn_s32", .fn Source.vmovn_s32) := by
  refine total_fn vmovn_s32_sig_read fun args h => ?_
  obtain ⟨a0, rfl, ta⟩ := typed1 h
  obtain ⟨a, rfl⟩ := ta
  exact total_vec (called_fn (by kernel_rfl) (vmovn_s32_source a)) (vmovn_s32_good a) (.inl (written_s32x4_to_s16x4 _ (.head _) a))

theorem vmovn_u32_good [Dialect] (a : uint32x4_t) : Good none True (fun _ => True) (Model.vmovn_u32 a) := by
  unfold Model.vmovn_u32
  good_body

theorem vmovn_u32_typed [Dialect] : Total (k!"vmovn_u32", .fn Source.vmovn_u32) := by
  refine total_fn vmovn_u32_sig_read fun args h => ?_
  obtain ⟨a0, rfl, ta⟩ := typed1 h
  obtain ⟨a, rfl⟩ := ta
  exact total_vec (called_fn (by kernel_rfl) (vmovn_u32_source a)) (vmovn_u32_good a) (.inl (written_u32x4_to_u16x4 _ (.head _) a))

theorem vmovn_u16_good [Dialect] (a : uint16x8_t) : Good none True (fun _ => True) (Model.vmovn_u16 a) := by
  unfold Model.vmovn_u16
  good_body

theorem vmovn_u16_typed [Dialect] : Total (k!"vmovn_u16", .fn Source.vmovn_u16) := by
  refine total_fn vmovn_u16_sig_read fun args h => ?_
  obtain ⟨a0, rfl, ta⟩ := typed1 h
  obtain ⟨a, rfl⟩ := ta
  exact total_vec (called_fn (by kernel_rfl) (vmovn_u16_source a)) (vmovn_u16_good a) (.inl (written_u16x8_to_u8x8 _ (.head _) a))

theorem vmovl_u8_good [Dialect] (a : uint8x8_t) : Good none True (fun _ => True) (Model.vmovl_u8 a) := by
  unfold Model.vmovl_u8
  good_body

theorem vmovl_u8_typed [Dialect] : Total (k!"vmovl_u8", .fn Source.vmovl_u8) := by
  refine total_fn vmovl_u8_sig_read fun args h => ?_
  obtain ⟨a0, rfl, ta⟩ := typed1 h
  obtain ⟨a, rfl⟩ := ta
  exact total_vec (called_fn (by kernel_rfl) (vmovl_u8_source a)) (vmovl_u8_good a) (.inl (written_u8x8_to_u16x8 _ (.head _) a))

theorem vmovl_u16_good [Dialect] (a : uint16x4_t) : Good none True (fun _ => True) (Model.vmovl_u16 a) := by
  unfold Model.vmovl_u16
  good_body

theorem vmovl_u16_typed [Dialect] : Total (k!"vmovl_u16", .fn Source.vmovl_u16) := by
  refine total_fn vmovl_u16_sig_read fun args h => ?_
  obtain ⟨a0, rfl, ta⟩ := typed1 h
  obtain ⟨a, rfl⟩ := ta
  exact total_vec (called_fn (by kernel_rfl) (vmovl_u16_source a)) (vmovl_u16_good a) (.inl (written_u16x4_to_u32x4 _ (.head _) a))

theorem vmovl_u32_good [Dialect] (a : uint32x2_t) : Good none True (fun _ => True) (Model.vmovl_u32 a) := by
  unfold Model.vmovl_u32
  good_body

theorem vmovl_u32_typed [Dialect] : Total (k!"vmovl_u32", .fn Source.vmovl_u32) := by
  refine total_fn vmovl_u32_sig_read fun args h => ?_
  obtain ⟨a0, rfl, ta⟩ := typed1 h
  obtain ⟨a, rfl⟩ := ta
  exact total_vec (called_fn (by kernel_rfl) (vmovl_u32_source a)) (vmovl_u32_good a) (.inl (written_u32x2_to_u64x2 _ (.head _) a))

theorem vmovl_s8_good [Dialect] (a : int8x8_t) : Good none True (fun _ => True) (Model.vmovl_s8 a) := by
  unfold Model.vmovl_s8
  good_body

theorem vmovl_s8_typed [Dialect] : Total (k!"vmovl_s8", .fn Source.vmovl_s8) := by
  refine total_fn vmovl_s8_sig_read fun args h => ?_
  obtain ⟨a0, rfl, ta⟩ := typed1 h
  obtain ⟨a, rfl⟩ := ta
  exact total_vec (called_fn (by kernel_rfl) (vmovl_s8_source a)) (vmovl_s8_good a) (.inl (written_s8x8_to_s16x8 _ (.head _) a))

theorem vmovl_s16_good [Dialect] (a : int16x4_t) : Good none True (fun _ => True) (Model.vmovl_s16 a) := by
  unfold Model.vmovl_s16
  good_body

theorem vmovl_s16_typed [Dialect] : Total (k!"vmovl_s16", .fn Source.vmovl_s16) := by
  refine total_fn vmovl_s16_sig_read fun args h => ?_
  obtain ⟨a0, rfl, ta⟩ := typed1 h
  obtain ⟨a, rfl⟩ := ta
  exact total_vec (called_fn (by kernel_rfl) (vmovl_s16_source a)) (vmovl_s16_good a) (.inl (written_s16x4_to_s32x4 _ (.head _) a))

theorem vmovl_s32_good [Dialect] (a : int32x2_t) : Good none True (fun _ => True) (Model.vmovl_s32 a) := by
  unfold Model.vmovl_s32
  good_body

theorem vmovl_s32_typed [Dialect] : Total (k!"vmovl_s32", .fn Source.vmovl_s32) := by
  refine total_fn vmovl_s32_sig_read fun args h => ?_
  obtain ⟨a0, rfl, ta⟩ := typed1 h
  obtain ⟨a, rfl⟩ := ta
  exact total_vec (called_fn (by kernel_rfl) (vmovl_s32_source a)) (vmovl_s32_good a) (.inl (written_s32x2_to_s64x2 _ (.head _) a))

theorem vqmovn_u16_good [Dialect] (a : uint16x8_t) : Good none True (fun _ => True) (Model.vqmovn_u16 a) := by
  unfold Model.vqmovn_u16
  good_body

theorem vqmovn_u16_typed [Dialect] : Total (k!"vqmovn_u16", .fn Source.vqmovn_u16) := by
  refine total_fn vqmovn_u16_sig_read fun args h => ?_
  obtain ⟨a0, rfl, ta⟩ := typed1 h
  obtain ⟨a, rfl⟩ := ta
  exact total_vec (called_fn (by kernel_rfl) (vqmovn_u16_source a)) (vqmovn_u16_good a) (.inl (written_u16x8_to_u8x8 _ (.tail _ (.head _)) a))

theorem vqmovun_s16_good [Dialect] (a : int16x8_t) : Good none True (fun _ => True) (Model.vqmovun_s16 a) := by
  unfold Model.vqmovun_s16
  good_body

theorem vqmovun_s16_typed [Dialect] : Total (k!"vqmovun_s16", .fn Source.vqmovun_s16) := by
  refine total_fn vqmovun_s16_sig_read fun args h => ?_
  obtain ⟨a0, rfl, ta⟩ := typed1 h
  obtain ⟨a, rfl⟩ := ta
  exact total_vec (called_fn (by kernel_rfl) (vqmovun_s16_source a)) (vqmovun_s16_good a) (.inl (written_s16x8_to_u8x8 _ (.head _) a))

theorem vmul_s8_good [Dialect] (N : int8x8_t) (M : int8x8_t) : Good none True (fun _ => True) (Model.vmul_s8 N M) := by
  unfold Model.vmul_s8
  good_body

theorem vmul_s8_typed [Dialect] : Total (k!"vmul_s8", .fn Source.vmul_s8) := by
  refine total_fn vmul_s8_sig_read fun args h => ?_
  obtain ⟨N0, M0, rfl, tN, tM⟩ := typed2 h
  obtain ⟨N, rfl⟩ := tN
  obtain ⟨M, rfl⟩ := tM
  exact total_vec (called_fn (by kernel_rfl) (vmul_s8_source N M)) (vmul_s8_good N M) (.inl (written_s8x8_s8x8_to_s8x8 _ (.tail _ (.tail _ (.tail _ (.tail _ (.head _))))) N M))

theorem vmul_s16_good [Dialect] (N : int16x4_t) (M : int16x4_t) : Good none True (fun _ => True) (Model.vmul_s16 N M) := by
  unfold Model.vmul_s16
  good_body

theorem vmul_s16_typed [Dialect] : Total (k!"vmul_s16", .fn Source.vmul_s16) := by
  refine total_fn vmul_s16_sig_read fun args h => ?_
  obtain ⟨N0, M0, rfl, tN, tM⟩ := typed2 h
  obtain ⟨N, rfl⟩ := tN
  obtain ⟨M, rfl⟩ := tM
  exact total_vec (called_fn (by kernel_rfl) (vmul_s16_source N M)) (vmul_s16_good N M) (.inl (written_s16x4_s16x4_to_s16x4 _ (.tail _ (.tail _ (.tail _ (.tail _ (.head _))))) N M))

theorem vmul_s32_good [Dialect] (N : int32x2_t) (M : int32x2_t) : Good none True (fun _ => True) (Model.vmul_s32 N M) := by
  unfold Model.vmul_s32
  good_body

theorem vmul_s32_typed [Dialect] : Total (k!"vmul_s32", .fn Source.vmul_s32) := by
  refine total_fn vmul_s32_sig_read fun args h => ?_
  obtain ⟨N0, M0, rfl, tN, tM⟩ := typed2 h
  obtain ⟨N, rfl⟩ := tN
  obtain ⟨M, rfl⟩ := tM
  exact total_vec (called_fn (by kernel_rfl) (vmul_s32_source N M)) (vmul_s32_good N M) (.inl (written_s32x2_s32x2_to_s32x2 _ (.tail _ (.tail _ (.tail _ (.tail _ (.head _))))) N M))

theorem vmul_u8_good [Dialect] (N : uint8x8_t) (M : uint8x8_t) : Good none True (fun _ => True) (Model.vmul_u8 N M) := by
  unfold Model.vmul_u8
  good_body

theorem vmul_u8_typed [Dialect] : Total (k!"vmul_u8", .fn Source.vmul_u8) := by
  refine total_fn vmul_u8_sig_read fun args h => ?_
  obtain ⟨N0, M0, rfl, tN, tM⟩ := typed2 h
  obtain ⟨N, rfl⟩ := tN
  obtain ⟨M, rfl⟩ := tM
  exact total_vec (called_fn (by kernel_rfl) (vmul_u8_source N M)) (vmul_u8_good N M) (.inl (written_u8x8_u8x8_to_u8x8 _ (.tail _ (.tail _ (.tail _ (.tail _ (.tail _ (.head _)))))) N M))

theorem vmul_u16_good [Dialect] (N : uint16x4_t) (M : uint16x4_t) : Good none True (fun _ => True) (Model.vmul_u16 N M) := by
  unfold Model.vmul_u16
  good_body

theorem vmul_u16_typed [Dialect] : Total (k!"vmul_u16", .fn Source.vmul_u16) := by
  refine total_fn vmul_u16_sig_read fun args h => ?_
  obtain ⟨N0, M0, rfl, tN, tM⟩ := typed2 h
  obtain ⟨N, rfl⟩ := tN
  obtain ⟨M, rfl⟩ := tM
  exact total_vec (called_fn (by kernel_rfl) (vmul_u16_source N M)) (vmul_u16_good N M) (.inl (written_u16x4_u16x4_to_u16x4 _ (.tail _ (.tail _ (.tail _ (.tail _ (.head _))))) N M))

theorem vmul_u32_good [Dialect] (N : uint32x2_t) (M : uint32x2_t) : Good none True (fun _ => True) (Model.vmul_u32 N M) := by
  unfold Model.vmul_u32
  good_body

theorem vmul_u32_typed [Dialect] : Total (k!"vmul_u32", .fn Source.vmul_u32) := by
  refine total_fn vmul_u32_sig_read fun args h => ?_
  obtain ⟨N0, M0, rfl, tN, tM⟩ := typed2 h
  obtain ⟨N, rfl⟩ := tN
  obtain ⟨M, rfl⟩ := tM
  exact total_vec (called_fn (by kernel_rfl) (vmul_u32_source N M)) (vmul_u32_good N M) (.inl (written_u32x2_u32x2_to_u32x2 _ (.tail _ (.tail _ (.tail _ (.tail _ (.head _))))) N M))

theorem vmulq_s8_good [Dialect] (N : int8x16_t) (M : int8x16_t) : Good none True (fun _ => True) (Model.vmulq_s8 N M) := by
  unfold Model.vmulq_s8
  good_body

theorem vmulq_s8_typed [Dialect] : Total (k!"vmulq_s8", .fn Source.vmulq_s8) := by
  refine total_fn vmulq_s8_sig_read fun args h => ?_
  obtain ⟨N0, M0, rfl, tN, tM⟩ := typed2 h
  obtain ⟨N, rfl⟩ := tN
  obtain ⟨M, rfl⟩ := tM
  exact total_vec (called_fn (by kernel_rfl) (vmulq_s8_source N M)) (vmulq_s8_good N M) (.inl (written_s8x16_s8x16_to_s8x16 _ (.tail _ (.tail _ (.tail _ (.tail _ (.tail _ (.tail _ (.head _))))))) N M))

theorem vmulq_s16_good [Dialect] (N : int16x8_t) (M : int16x8_t) : Good none True (fun _ => True) (Model.vmulq_s16 N M) := by
  unfold Model.vmulq_s16
  good_body

theorem vmulq_s16_typed [Dialect] : Total (k!"vmulq_s16", .fn Source.vmulq_s16) := by
  refine total_fn vmulq_s16_sig_read fun args h => ?_
  obtain ⟨N0, M0, rfl, tN, tM⟩ := typed2 h
  obtain ⟨N, rfl⟩ := tN
  obtain ⟨M, rfl⟩ := tM
  exact total_vec (called_fn (by kernel_rfl) (vmulq_s16_source N M)) (vmulq_s16_good N M) (.inl (written_s16x8_s16x8_to_s16x8 _ (.tail _ (.tail _ (.tail _ (.tail _ (.tail _ (.tail _ (.head _))))))) N M))

theorem vmulq_s32_good [Dialect] (N : int32x4_t) (M : int32x4_t) : Good none True (fun _ => True) (Model.vmulq_s32 N M) := by
  unfold Model.vmulq_s32
  good_body

theorem vmulq_s32_typed [Dialect] : Total (k!"vmulq_s32", .fn Source.vmulq_s32) := by
  refine total_fn vmulq_s32_sig_read fun args h => ?_
  obtain ⟨N0, M0, rfl, tN, tM⟩ := typed2 h
  obtain ⟨N, rfl⟩ := tN
  obtain ⟨M, rfl⟩ := tM
  exact total_vec (called_fn (by kernel_rfl) (vmulq_s32_source N M)) (vmulq_s32_good N M) (.inl (written_s32x4_s32x4_to_s32x4 _ (.tail _ (.tail _ (.tail _ (.tail _ (.tail _ (.tail _ (.head _))))))) N M))

theorem vmulq_u8_good [Dialect] (N : uint8x16_t) (M : uint8x16_t) : Good none True (fun _ => True) (Model.vmulq_u8 N M) := by
  unfold Model.vmulq_u8
  good_body

theorem vmulq_u8_typed [Dialect] : Total (k!"vmulq_u8", .fn Source.vmulq_u8) := by
  refine total_fn vmulq_u8_sig_read fun args h => ?_
  obtain ⟨N0, M0, rfl, tN, tM⟩ := typed2 h
  obtain ⟨N, rfl⟩ := tN
  obtain ⟨M, rfl⟩ := tM
  exact total_vec (called_fn (by kernel_rfl) (vmulq_u8_source N M)) (vmulq_u8_good N M) (.inl (written_u8x16_u8x16_to_u8x16 _ (.tail _ (.tail _ (.tail _ (.tail _ (.tail _ (.head _)))))) N M))

theorem vmulq_u16_good [Dialect] (N : uint16x8_t) (M : uint16x8_t) : Good none True (fun _ => True) (Model.vmulq_u16 N M) := by
  unfold Model.vmulq_u16
  good_body

theorem vmulq_u16_typed [Dialect] : Total (k!"vmulq_u16", .fn Source.vmulq_u16) := by
  refine total_fn vmulq_u16_sig_read fun args h => ?_
  obtain ⟨N0, M0, rfl, tN, tM⟩ := typed2 h
  obtain ⟨N, rfl⟩ := tN
  obtain ⟨M, rfl⟩ := tM
  exact total_vec (called_fn (by kernel_rfl) (vmulq_u16_source N M)) (vmulq_u16_good N M) (.inl (written_u16x8_u16x8_to_u16x8 _ (.tail _ (.tail _ (.tail _ (.tail _ (.head _))))) N M))

theorem vmulq_u32_good [Dialect] (N : uint32x4_t) (M : uint32x4_t) : Good none True (fun _ => True) (Model.vmulq_u32 N M) := by
  unfold Model.vmulq_u32
  good_body

theorem vmulq_u32_typed [Dialect] : Total (k!"vmulq_u32", .fn Source.vmulq_u32) := by
  refine total_fn vmulq_u32_sig_read fun args h => ?_
  obtain ⟨N0, M0, rfl, tN, tM⟩ := typed2 h
  obtain ⟨N, rfl⟩ := tN
  obtain ⟨M, rfl⟩ := tM
  exact total_vec (called_fn (by kernel_rfl) (vmulq_u32_source N M)) (vmulq_u32_good N M) (.inl (written_u32x4_u32x4_to_u32x4 _ (.tail _ (.tail _ (.tail _ (.tail _ (.head _))))) N M))

theorem vmul_n_s16_good [Dialect] (N : int16x4_t) (M : int16_t) : Good none True (fun _ => True) (Model.vmul_n_s16 N M) := by
  unfold Model.vmul_n_s16
  good_body

theorem vmul_n_s16_typed [Dialect] : Total (k!"vmul_n_s16", .fn Source.vmul_n_s16) := by
  refine total_fn vmul_n_s16_sig_read fun args h => ?_
  obtain ⟨N0, M0, rfl, tN, tM⟩ := typed2 h
  obtain ⟨N, rfl⟩ := tN
  obtain ⟨M, rfl⟩ := tM
  exact total_vec (called_fn (by kernel_rfl) (vmul_n_s16_source N M)) (vmul_n_s16_good N M) (.inl (written_s16x4_s16_to_s16x4 _ (.head _) N M))

theorem vmul_n_s32_good [Dialect] (N : int32x2_t) (M : int32_t) : Good none True (fun _ => True) (Model.vmul_n_s32 N M) := by
  unfold Model.vmul_n_s32
  good_body

theorem vmul_n_s32_typed [Dialect] : Total (k!"vmul_n_s32", .fn Source.vmul_n_s32) := by
  refine total_fn vmul_n_s32_sig_read fun args h => ?_
  obtain ⟨N0, M0, rfl, tN, tM⟩ := typed2 h
  obtain ⟨N, rfl⟩ := tN
  obtain ⟨M, rfl⟩ := tM
  exact total_vec (called_fn (by kernel_rfl) (vmul_n_s32_source N M)) (vmul_n_s32_good N M) (.inl (written_s32x2_s32_to_s32x2 _ (.head _) N M))

theorem vmul_n_u16_good [Dialect] (N : uint16x4_t) (M : uint16_t) : Good none True (fun _ => True) (Model.vmul_n_u16 N M) := by
  unfold Model.vmul_n_u16
  good_body

theorem vmul_n_u16_typed [Dialect] : Total (k!"vmul_n_u16", .fn Source.vmul_n_u16) := by
  refine total_fn vmul_n_u16_sig_read fun args h => ?_
  obtain ⟨N0, M0, rfl, tN, tM⟩ := typed2 h
  obtain ⟨N, rfl⟩ := tN
  obtain ⟨M, rfl⟩ := tM
  exact total_vec (called_fn (by kernel_rfl) (vmul_n_u16_source N M)) (vmul_n_u16_good N M) (.inl (written_u16x4_u16_to_u16x4 _ (.head _) N M))

theorem vmul_n_u32_good [Dialect] (N : uint32x2_t) (M : uint32_t) : Good none True (fun _ => True) (Model.vmul_n_u32 N M) := by
  unfold Model.vmul_n_u32
  good_body

theorem vmul_n_u32_typed [Dialect] : Total (k!"vmul_n_u32", .fn Source.vmul_n_u32) := by
  refine total_fn vmul_n_u32_sig_read fun args h => ?_
  obtain ⟨N0, M0, rfl, tN, tM⟩ := typed2 h
  obtain ⟨N, rfl⟩ := tN
  obtain ⟨M, rfl⟩ := tM
  exact total_vec (called_fn (by kernel_rfl) (vmul_n_u32_source N M)) (vmul_n_u32_good N M) (.inl (written_u32x2_u32_to_u32x2 _ (.head _) N M))

theorem vmulq_n_s16_good [Dialect] (N : int16x8_t) (M : int16_t) : Good none True (fun _ => True) (Model.vmulq_n_s16 N M) := by
  unfold Model.vmulq_n_s16
  good_body

theorem vmulq_n_s16_typed [Dialect] : Total (k!"vmulq_n_s16", .fn Source.vmulq_n_s16) := by
  refine total_fn vmulq_n_s16_sig_read fun args h => ?_
  obtain ⟨N0, M0, rfl, tN, tM⟩ := typed2 h
  obtain ⟨N, rfl⟩ := tN
  obtain ⟨M, rfl⟩ := tM
  exact total_vec (called_fn (by kernel_rfl) (vmulq_n_s16_source N M)) (vmulq_n_s16_good N M) (.inl (written_s16x8_s16_to_s16x8 _ (.head _) N M))

theorem vmulq_n_s32_good [Dialect] (N : int32x4_t) (M : int32_t) : Good none True (fun _ => True) (Model.vmulq_n_s32 N M) := by
  unfold Model.vmulq_n_s32
  good_body

theorem vmulq_n_s32_typed [Dialect] : Total (k!"vmulq_n_s32", .fn Source.vmulq_n_s32) := by
  refine total_fn vmulq_n_s32_sig_read fun args h => ?_
  obtain ⟨N0, M0, rfl, tN, tM⟩ := typed2 h
  obtain ⟨N, rfl⟩ := tN
  obtain ⟨M, rfl⟩ := tM
  exact total_vec (called_fn (by kernel_rfl) (vmulq_n_s32_source N M)) (vmulq_n_s32_good N M) (.inl (written_s32x4_s32_to_s32x4 _ (.head _) N M))

theorem vmulq_n_u16_good [Dialect] (N : uint16x8_t) (M : uint16_t) : Good none True (fun _ => True) (Model.vmulq_n_u16 N M) := by
  unfold Model.vmulq_n_u16
  good_body

theorem vmulq_n_u16_typed [Dialect] : Total (k!"vmulq_n_u16", .fn Source.vmulq_n_u16) := by
  refine total_fn vmulq_n_u16_sig_read fun args h => ?_
  obtain ⟨N0, M0, rfl, tN, tM⟩ := typed2 h
  obtain ⟨N, rfl⟩ := tN
  obtain ⟨M, rfl⟩ := tM
  exact total_vec (called_fn (by kernel_rfl) (vmulq_n_u16_source N M)) (vmulq_n_u16_good N M) (.inl (written_u16x8_u16_to_u16x8 _ (.head _) N M))

theorem vmulq_n_u32_good [Dialect] (N : uint32x4_t) (M : uint32_t) : Good none True (fun _ => True) (Model.vmulq_n_u32 N M) := by
  unfold Model.vmulq_n_u32
  good_body

theorem vmulq_n_u32_typed [Dialect] : Total (k!"vmulq_n_u32", .fn Source.vmulq_n_u32) := by
  refine total_fn vmulq_n_u32_sig_read fun args h => ?_
  obtain ⟨N0, M0, rfl, tN, tM⟩ := typed2 h
  obtain ⟨N, rfl⟩ := tN
  obtain ⟨M, rfl⟩ := tM
  exact total_vec (called_fn (by kernel_rfl) (vmulq_n_u32_source N M)) (vmulq_n_u32_good N M) (.inl (written_u32x4_u32_to_u32x4 _ (.head _) N M))

theorem vmull_s8_good [Dialect] (a : int8x8_t) (b : int8x8_t) : Good none True (fun _ => True) (Model.vmull_s8 a b) := by
  unfold Model.vmull_s8
  good_body

theorem vmull_s8_typed [Dialect] : Total (k!"vmull_s8", .fn Source.vmull_s8) := by
  refine total_fn vmull_s8_sig_read fun args h => ?_
  obtain ⟨a0, b0, rfl, ta, tb⟩ := typed2 h
  obtain ⟨a, rfl⟩ := ta
  obtain ⟨b, rfl⟩ := tb
  exact total_vec (called_fn (by kernel_rfl) (vmull_s8_source a b)) (vmull_s8_good a b) (.inl (written_s8x8_s8x8_to_s16x8 _ (.tail _ (.head _)) a b))

theorem vmull_s16_good [Dialect] (a : int16x4_t) (b : int16x4_t) : Good none True (fun _ => True) (Model.vmull_s16 a b) := by
  unfold Model.vmull_s16
  good_body

theorem vmull_s16_typed [Dialect] : Total (k!"vmull_s16", .fn Source.vmull_s16) := by
  refine total_fn vmull_s16_sig_read fun args h => ?_
  obtain ⟨a0, b0, rfl, ta, tb⟩ := typed2 h
  obtain ⟨a, rfl⟩ := ta
  obtain ⟨b, rfl⟩ := tb
  exact total_vec (called_fn (by kernel_rfl) (vmull_s16_source a b)) (vmull_s16_good a b) (.inl (written_s16x4_s16x4_to_s32x4 _ (.tail _ (.head _)) a b))

theorem vmull_s32_good [Dialect] (a : int32x2_t) (b : int32x2_t) : Good none True (fun _ => True) (Model.vmull_s32 a b) := by
  unfold Model.vmull_s32
  good_body

theorem vmull_s32_typed [Dialect] : Total (k!"vmull_s32", .fn Source.vmull_s32) := by
  refine total_fn vmull_s32_sig_read fun args h => ?_
  obtain ⟨a0, b0, rfl, ta, tb⟩ := typed2 h
  obtain ⟨a, rfl⟩ := ta
  obtain ⟨b, rfl⟩ := tb
  exact total_vec (called_fn (by kernel_rfl) (vmull_s32_source a b)) (vmull_s32_good a b) (.inl (written_s32x2_s32x2_to_s64x2 _ (.head _) a b))

theorem vmull_u8_good [Dialect] (a : uint8x8_t) (b : uint8x8_t) : Good none True (fun _ => True) (Model.vmull_u8 a b) := by
  unfold Model.vmull_u8
  good_body

theorem vmull_u8_typed [Dialect] : Total (k!"vmull_u8", .fn Source.vmull_u8) := by
  refine total_fn vmull_u8_sig_read fun args h => ?_
  obtain ⟨a0, b0, rfl, ta, tb⟩ := typed2 h
  obtain ⟨a, rfl⟩ := ta
  obtain ⟨b, rfl⟩ := tb
  exact total_vec (called_fn (by kernel_rfl) (vmull_u8_source a b)) (vmull_u8_good a b) (.inl (written_u8x8_u8x8_to_u16x8 _ (.tail _ (.tail _ (.head _))) a b))

theorem vmull_u16_good [Dialect] (a : uint16x4_t) (b : uint16x4_t) : Good none True (fun _ => True) (Model.vmull_u16 a b) := by
  unfold Model.vmull_u16
  good_body

theorem vmull_u16_typed [Dialect] : Total (k!"vmull_u16", .fn Source.vmull_u16) := by
  refine total_fn vmull_u16_sig_read fun args h => ?_
  obtain ⟨a0, b0, rfl, ta, tb⟩ := typed2 h
  obtain ⟨a, rfl⟩ := ta
  obtain ⟨b, rfl⟩ := tb
  exact total_vec (called_fn (by kernel_rfl) (vmull_u16_source a b)) (vmull_u16_good a b) (.inl (written_u16x4_u16x4_to_u32x4 _ (.tail _ (.head _)) a b))

theorem vmull_u32_good [Dialect] (a : uint32x2_t) (b : uint32x2_t) : Good none True (fun _ => True) (Model.vmull_u32 a b) := by
  unfold Model.vmull_u32
  good_body

theorem vmull_u32_typed [Dialect] : Total (k!"vmull_u32", .fn Source.vmull_u32) := by
  refine total_fn vmull_u32_sig_read fun args h => ?_
  obtain ⟨a0, b0, rfl, ta, tb⟩ := typed2 h
  obtain ⟨a, rfl⟩ := ta
  obtain ⟨b, rfl⟩ := tb
  exact total_vec (called_fn (by kernel_rfl) (vmull_u32_source a b)) (vmull_u32_good a b) (.inl (written_u32x2_u32x2_to_u64x2 _ (.head _) a b))

theorem vmull_n_s16_good [Dialect] (N : int16x4_t) (M : int16_t) : Good none True (fun _ => True) (Model.vmull_n_s16 N M) := by
  unfold Model.vmull_n_s16
  good_body

theorem vmull_n_s16_typed [Dialect] : Total (k!"vmull_n_s16", .fn Source.vmull_n_s16) := by
  refine total_fn vmull_n_s16_sig_read fun args h => ?_
  obtain ⟨N0, M0, rfl, tN, tM⟩ := typed2 h
  obtain ⟨N, rfl⟩ := tN
  obtain ⟨M, rfl⟩ := tM
  exact total_vec (called_fn (by kernel_rfl) (vmull_n_s16_source N M)) (vmull_n_s16_good N M) (.inl (written_s16x4_s16_to_s32x4 _ (.head _) N M))

theorem vmull_n_s32_good [Dialect] (N : int32x2_t) (M : int32_t) : Good none True (fun _ => True) (Model.vmull_n_s32 N M) := by
  unfold Model.vmull_n_s32
  good_body

theorem vmull_n_s32_typed [Dialect] : Total (k!"vmull_n_s32", .fn Source.vmull_n_s32) := by
  refine total_fn vmull_n_s32_sig_read fun args h => ?_
  obtain ⟨N0, M0, rfl, tN, tM⟩ := typed2 h
  obtain ⟨N, rfl⟩ := tN
  obtain ⟨M, rfl⟩ := tM
  exact total_vec (called_fn (by kernel_rfl) (vmull_n_s32_source N M)) (vmull_n_s32_good N M) (.inl (written_s32x2_s32_to_s64x2 _ (.head _) N M))

theorem vmull_n_u16_good [Dialect] (N : uint16x4_t) (M : uint16_t) : Good none True (fun _ => True) (Model.vmull_n_u16 N M) := by
  unfold Model.vmull_n_u16
  good_body

theorem vmull_n_u16_typed [Dialect] : Total (k!"vmull_n_u16", .fn Source.vmull_n_u16) := by
  refine total_fn vmull_n_u16_sig_read fun args h => ?_
  obtain ⟨N0, M0, rfl, tN, tM⟩ := typed2 h
  obtain ⟨N, rfl⟩ := tN
  obtain ⟨M, rfl⟩ := tM
  exact total_vec (called_fn (by kernel_rfl) (vmull_n_u16_source N M)) (vmull_n_u16_good N M) (.inl (written_u16x4_u16_to_u32x4 _ (.head _) N M))

theorem vmull_n_u32_good [Dialect] (N : uint32x2_t) (M : uint32_t) : Good none True (fun _ => True) (Model.vmull_n_u32 N M) := by
  unfold Model.vmull_n_u32
  good_body

theorem vmull_n_u32_typed [Dialect] : Total (k!"vmull_n_u32", .fn Source.vmull_n_u32) := by
  refine total_fn vmull_n_u32_sig_read fun args h => ?_
  obtain ⟨N0, M0, rfl, tN, tM⟩ := typed2 h
  obtain ⟨N, rfl⟩ := tN
  obtain ⟨M, rfl⟩ := tM
  exact total_vec (called_fn (by kernel_rfl) (vmull_n_u32_source N M)) (vmull_n_u32_good N M) (.inl (written_u32x2_u32_to_u64x2 _ (.head _) N M))

theorem vqdmull_s16_good [Dialect] (M : int16x4_t) (N : int16x4_t) : Good none True (fun _ => True) (Model.vqdmull_s16 M N) := by
  unfold Model.vqdmull_s16
  good_body

theorem vqdmull_s16_typed [Dialect] : Total (k!"vqdmull_s16", .fn Source.vqdmull_s16) := by
  refine total_fn vqdmull_s16_sig_read fun args h => ?_
  obtain ⟨M0, N0, rfl, tM, tN⟩ := typed2 h
  obtain ⟨M, rfl⟩ := tM
  obtain ⟨N, rfl⟩ := tN
  exact total_vec (called_fn (by kernel_rfl) (vqdmull_s16_source M N)) (vqdmull_s16_good M N) (.inl (written_s16x4_s16x4_to_s32x4 _ (.tail _ (.tail _ (.head _))) M N))

theorem vmlal_s8_good [Dialect] (N : int16x8_t) (M : int8x8_t) (P : int8x8_t) : Good none True (fun _ => True) (Model.vmlal_s8 N M P) := by
  unfold Model.vmlal_s8
  good_body

theorem vmlal_s8_typed [Dialect] : Total (k!"vmlal_s8", .fn Source.vmlal_s8) := by
  refine total_fn vmlal_s8_sig_read fun args h => ?_
  obtain ⟨N0, M0, P0, rfl, tN, tM, tP⟩ := typed3 h
  obtain ⟨N, rfl⟩ := tN
  obtain ⟨M, rfl⟩ := tM
  obtain ⟨P, rfl⟩ := tP
  exact total_vec (called_fn (by kernel_rfl) (vmlal_s8_source N M P)) (vmlal_s8_good N M P) (.inl (written_s16x8_s8x8_s8x8_to_s16x8 _ (.head _) N M P))

theorem vmlal_s16_good [Dialect] (N : int32x4_t) (M : int16x4_t) (P : int16x4_t) : Good none True (fun _ => True) (Model.vmlal_s16 N M P) := by
  unfold Model.vmlal_s16
  good_body

theorem vmlal_s16_typed [Dialect] : Total (k!"vmlal_s16", .fn Source.vmlal_s16) := by
  refine total_fn vmlal_s16_sig_read fun args h => ?_
  obtain ⟨N0, M0, P0, rfl, tN, tM, tP⟩ := typed3 h
  obtain ⟨N, rfl⟩ := tN
  obtain ⟨M, rfl⟩ := tM
  obtain ⟨P, rfl⟩ := tP
  exact total_vec (called_fn (by kernel_rfl) (vmlal_s16_source N M P)) (vmlal_s16_good N M P) (.inl (written_s32x4_s16x4_s16x4_to_s32x4 _ (.head _) N M P))

theorem vmlal_s32_good [Dialect] (N : int64x2_t) (M : int32x2_t) (P : int32x2_t) : Good none True (fun _ => True) (Model.vmlal_s32 N M P) := by
  unfold Model.vmlal_s32
  good_body

theorem vmlal_s32_typed [Dialect] : Total (k!"vmlal_s32", .fn Source.vmlal_s32) := by
  refine total_fn vmlal_s32_sig_read fun args h => ?_
  obtain ⟨N0, M0, P0, rfl, tN, tM, tP⟩ := typed3 h
  obtain ⟨N, rfl⟩ := tN
  obtain ⟨M, rfl⟩ := tM
  obtain ⟨P, rfl⟩ := tP
  exact total_vec (called_fn (by kernel_rfl) (vmlal_s32_source N M P)) (vmlal_s32_good N M P) (.inl (written_s64x2_s32x2_s32x2_to_s64x2 _ (.head _) N M P))

theorem vmlal_u8_good [Dialect] (N : uint16x8_t) (M : uint8x8_t) (P : uint8x8_t) : Good none True (fun _ => True) (Model.vmlal_u8 N M P) := by
  unfold Model.vmlal_u8
  good_body

theorem vmlal_u8_typed [Dialect] : Total (k!"vmlal_u8", .fn Source.vmlal_u8) := by
  refine total_fn vmlal_u8_sig_read fun args h => ?_
  obtain ⟨N0, M0, P0, rfl, tN, tM, tP⟩ := typed3 h
  obtain ⟨N, rfl⟩ := tN
  obtain ⟨M, rfl⟩ := tM
  obtain ⟨P, rfl⟩ := tP
  exact total_vec (called_fn (by kernel_rfl) (vmlal_u8_source N M P)) (vmlal_u8_good N M P) (.inl (written_u16x8_u8x8_u8x8_to_u16x8 _ (.head _) N M P))

theorem vmlal_u16_good [Dialect] (N : uint32x4_t) (M : uint16x4_t) (P : uint16x4_t) : Good none True (fun _ => True) (Model.vmlal_u16 N M P) := by
  unfold Model.vmlal_u16
  good_body

theorem vmlal_u16_typed [Dialect] : Total (k!"vmlal_u16", .fn Source.vmlal_u16) := by
  refine total_fn vmlal_u16_sig_read fun args h => ?_
  obtain ⟨N0, M0, P0, rfl, tN, tM, tP⟩ := typed3 h
  obtain ⟨N, rfl⟩ := tN
  obtain ⟨M, rfl⟩ := tM
  obtain ⟨P, rfl⟩ := tP
  exact total_vec (called_fn (by kernel_rfl) (vmlal_u16_source N M P)) (vmlal_u16_good N M P) (.inl (written_u32x4_u16x4_u16x4_to_u32x4 _ (.head _) N M P))

theorem vmlal_u32_good [Dialect] (N : uint64x2_t) (M : uint32x2_t) (P : uint32x2_t) : Good none True (fun _ => True) (Model.vmlal_u32 N M P) := by
  unfold Model.vmlal_u32
  good_body

theorem vmlal_u32_typed [Dialect] : Total (k!"vmlal_u32", .fn Source.vmlal_u32) := by
  refine total_fn vmlal_u32_sig_read fun args h => ?_
  obtain ⟨N0, M0, P0, rfl, tN, tM, tP⟩ := typed3 h
  obtain ⟨N, rfl⟩ := tN
  obtain ⟨M, rfl⟩ := tM
  obtain ⟨P, rfl⟩ := tP
  exact total_vec (called_fn (by kernel_rfl) (vmlal_u32_source N M P)) (vmlal_u32_good N M P) (.inl (written_u64x2_u32x2_u32x2_to_u64x2 _ (.head _) N M P))

theorem vmlsl_s8_good [Dialect] (N : int16x8_t) (M : int8x8_t) (P : int8x8_t) : Good none True (fun _ => True) (Model.vmlsl_s8 N M P) := by
  unfold Model.vmlsl_s8
  good_body

theorem vmlsl_s8_typed [Dialect] : Total (k!"vmlsl_s8", .fn Source.vmlsl_s8) := by
  refine total_fn vmlsl_s8_sig_read fun args h => ?_
  obtain ⟨N0, M0, P0, rfl, tN, tM, tP⟩ := typed3 h
  obtain ⟨N, rfl⟩ := tN
  obtain ⟨M, rfl⟩ := tM
  obtain ⟨P, rfl⟩ := tP
  exact total_vec (called_fn (by kernel_rfl) (vmlsl_s8_source N M P)) (vmlsl_s8_good N M P) (.inl (written_s16x8_s8x8_s8x8_to_s16x8 _ (.tail _ (.head _)) N M P))

theorem vmlsl_s16_good [Dialect] (N : int32x4_t) (M : int16x4_t) (P : int16x4_t) : Good none True (fun _ => True) (Model.vmlsl_s16 N M P) := by
  unfold Model.vmlsl_s16
  good_body

theorem vmlsl_s16_typed [Dialect] : Total (k!"vmlsl_s16", .fn Source.vmlsl_s16) := by
  refine total_fn vmlsl_s16_sig_read fun args h => ?_
  obtain ⟨N0, M0, P0, rfl, tN, tM, tP⟩ := typed3 h
  obtain ⟨N, rfl⟩ := tN
  obtain ⟨M, rfl⟩ := tM
  obtain ⟨P, rfl⟩ := tP
  exact total_vec (called_fn (by kernel_rfl) (vmlsl_s16_source N M P)) (vmlsl_s16_good N M P) (.inl (written_s32x4_s16x4_s16x4_to_s32x4 _ (.tail _ (.head _)) N M P))

theorem vmlsl_s32_good [Dialect] (N : int64x2_t) (M : int32x2_t) (P : int32x2_t) : Good none True (fun _ => True) (Model.vmlsl_s32 N M P) := by
  unfold Model.vmlsl_s32
  good_body

theorem vmlsl_s32_typed [Dialect] : Total (k!"vmlsl_s32", .fn Source.vmlsl_s32) := by
  refine total_fn vmlsl_s32_sig_read fun args h => ?_
  obtain ⟨N0, M0, P0, rfl, tN, tM, tP⟩ := typed3 h
  obtain ⟨N, rfl⟩ := tN
  obtain ⟨M, rfl⟩ := tM
  obtain ⟨P, rfl⟩ := tP
  exact total_vec (called_fn (by kernel_rfl) (vmlsl_s32_source N M P)) (vmlsl_s32_good N M P) (.inl (written_s64x2_s32x2_s32x2_to_s64x2 _ (.tail _ (.head _)) N M P))

theorem vmlsl_u8_good [Dialect] (N : uint16x8_t) (M : uint8x8_t) (P : uint8x8_t) : Good none True (fun _ => True) (Model.vmlsl_u8 N M P) := by
  unfold Model.vmlsl_u8
  good_body

theorem vmlsl_u8_typed [Dialect] : Total (k!"vmlsl_u8", .fn Source.vmlsl_u8) := by
  refine total_fn vmlsl_u8_sig_read fun args h => ?_
  obtain ⟨N0, M0, P0, rfl, tN, tM, tP⟩ := typed3 h
  obtain ⟨N, rfl⟩ := tN
  obtain ⟨M, rfl⟩ := tM
  obtain ⟨P, rfl⟩ := tP
  exact total_vec (called_fn (by kernel_rfl) (vmlsl_u8_source N M P)) (vmlsl_u8_good N M P) (.inl (written_u16x8_u8x8_u8x8_to_u16x8 _ (.tail _ (.head _)) N M P))

theorem vmlsl_u16_good [Dialect] (N : uint32x4_t) (M : uint16x4_t) (P : uint16x4_t) : Good none True (fun _ => True) (Model.vmlsl_u16 N M P) := by
  unfold Model.vmlsl_u16
  good_body

theorem vmlsl_u16_typed [Dialect] : Total (k!"vmlsl_u16", .fn Source.vmlsl_u16) := by
  refine total_fn vmlsl_u16_sig_read fun args h => ?_
  obtain ⟨N0, M0, P0, rfl, tN, tM, tP⟩ := typed3 h
  obtain ⟨N, rfl⟩ := tN
  obtain ⟨M, rfl⟩ := tM
  obtain ⟨P, rfl⟩ := tP
  exact total_vec (called_fn (by kernel_rfl) (vmlsl_u16_source N M P)) (vmlsl_u16_good N M P) (.inl (written_u32x4_u16x4_u16x4_to_u32x4 _ (.tail _ (.head _)) N M P))

theorem vmlsl_u32_good [Dialect] (N : uint64x2_t) (M : uint32x2_t) (P : uint32x2_t) : Good none True (fun _ => True) (Model.vmlsl_u32 N M P) := by
  unfold Model.vmlsl_u32
  good_body

theorem vmlsl_u32_typed [Dialect] : Total (k!"vmlsl_u32", .fn Source.vmlsl_u32) := by
  refine total_fn vmlsl_u32_sig_read fun args h => ?_
  obtain ⟨N0, M0, P0, rfl, tN, tM, tP⟩ := typed3 h
  obtain ⟨N, rfl⟩ := tN
  obtain ⟨M, rfl⟩ := tM
  obtain ⟨P, rfl⟩ := tP
  exact total_vec (called_fn (by kernel_rfl) (vmlsl_u32_source N M P)) (vmlsl_u32_good N M P) (.inl (written_u64x2_u32x2_u32x2_to_u64x2 _ (.tail _ (.head _)) N M P))

theorem vmlaq_s8_good [Dialect] (N : int8x16_t) (M : int8x16_t) (P : int8x16_t) : Good none True (fun _ => True) (Model.vmlaq_s8 N M P) := by
  unfold Model.vmlaq_s8
  good_body

theorem vmlaq_s8_typed [Dialect] : Total (k!"vmlaq_s8", .fn Source.vmlaq_s8) := by
  refine total_fn vmlaq_s8_sig_read fun args h => ?_
  obtain ⟨N0, M0, P0, rfl, tN, tM, tP⟩ := typed3 h
  obtain ⟨N, rfl⟩ := tN
  obtain ⟨M, rfl⟩ := tM
  obtain ⟨P, rfl⟩ := tP
  exact total_vec (called_fn (by kernel_rfl) (vmlaq_s8_source N M P)) (vmlaq_s8_good N M P) (.inl (written_s8x16_s8x16_s8x16_to_s8x16 _ (.head _) N M P))

theorem vmlaq_s16_good [Dialect] (N : int16x8_t) (M : int16x8_t) (P : int16x8_t) : Good none True (fun _ => True) (Model.vmlaq_s16 N M P) := by
  unfold Model.vmlaq_s16
  good_body

theorem vmlaq_s16_typed [Dialect] : Total (k!"vmlaq_s16", .fn Source.vmlaq_s16) := by
  refine total_fn vmlaq_s16_sig_read fun args h => ?_
  obtain ⟨N0, M0, P0, rfl, tN, tM, tP⟩ := typed3 h
  obtain ⟨N, rfl⟩ := tN
  obtain ⟨M, rfl⟩ := tM
  obtain ⟨P, rfl⟩ := tP
  exact total_vec (called_fn (by kernel_rfl) (vmlaq_s16_source N M P)) (vmlaq_s16_good N M P) (.inl (written_s16x8_s16x8_s16x8_to_s16x8 _ (.head _) N M P))

theorem vmlaq_s32_good [Dialect] (N : int32x4_t) (M : int32x4_t) (P : int32x4_t) : Good none True (fun _ => True) (Model.vmlaq_s32 N M P) := by
  unfold Model.vmlaq_s32
  good_body

theorem vmlaq_s32_typed [Dialect] : Total (k!"vmlaq_s32", .fn Source.vmlaq_s32) := by
  refine total_fn vmlaq_s32_sig_read fun args h => ?_
  obtain ⟨N0, M0, P0, rfl, tN, tM, tP⟩ := typed3 h
  obtain ⟨N, rfl⟩ := tN
  obtain ⟨M, rfl⟩ := tM
  obtain ⟨P, rfl⟩ := tP
  exact total_vec (called_fn (by kernel_rfl) (vmlaq_s32_source N M P)) (vmlaq_s32_good N M P) (.inl (written_s32x4_s32x4_s32x4_to_s32x4 _ (.head _) N M P))

theorem vmlaq_u8_good [Dialect] (N : uint8x16_t) (M : uint8x16_t) (P : uint8x16_t) : Good none True (fun _ => True) (Model.vmlaq_u8 N M P) := by
  unfold Model.vmlaq_u8
  good_body

theorem vmlaq_u8_typed [Dialect] : Total (k!"vmlaq_u8", .fn Source.vmlaq_u8) := by
  refine total_fn vmlaq_u8_sig_read fun args h => ?_
  obtain ⟨N0, M0, P0, rfl, tN, tM, tP⟩ := typed3 h
  obtain ⟨N, rfl⟩ := tN
  obtain ⟨M, rfl⟩ := tM
  obtain ⟨P, rfl⟩ := tP
  exact total_vec (called_fn (by kernel_rfl) (vmlaq_u8_source N M P)) (vmlaq_u8_good N M P) (.inl (written_u8x16_u8x16_u8x16_to_u8x16 _ (.head _) N M P))

theorem vmlaq_u16_good [Dialect] (N : uint16x8_t) (M : uint16x8_t) (P : uint16x8_t) : Good none True (fun _ => True) (Model.vmlaq_u16 N M P) := by
  unfold Model.vmlaq_u16
  good_body

theorem vmlaq_u16_typed [Dialect] : Total (k!"vmlaq_u16", .fn Source.vmlaq_u16) := by
  refine total_fn vmlaq_u16_sig_read fun args h => ?_
  obtain ⟨N0, M0, P0, rfl, tN, tM, tP⟩ := typed3 h
  obtain ⟨N, rfl⟩ := tN
  obtain ⟨M, rfl⟩ := tM
  obtain ⟨P, rfl⟩ := tP
  exact total_vec (called_fn (by kernel_rfl) (vmlaq_u16_source N M P)) (vmlaq_u16_good N M P) (.inl (written_u16x8_u16x8_u16x8_to_u16x8 _ (.head _) N M P))

theorem vmlaq_u32_good [Dialect] (N : uint32x4_t) (M : uint32x4_t) (P : uint32x4_t) : Good none True (fun _ => True) (Model.vmlaq_u32 N M P) := by
  unfold Model.vmlaq_u32
  good_body

theorem vmlaq_u32_typed [Dialect] : Total (k!"vmlaq_u32", .fn Source.vmlaq_u32) := by
  refine total_fn vmlaq_u32_sig_read fun args h => ?_
  obtain ⟨N0, M0, P0, rfl, tN, tM, tP⟩ := typed3 h
  obtain ⟨N, rfl⟩ := tN
  obtain ⟨M, rfl⟩ := tM
  obtain ⟨P, rfl⟩ := tP
  exact total_vec (called_fn (by kernel_rfl) (vmlaq_u32_source N M P)) (vmlaq_u32_good N M P) (.inl (written_u32x4_u32x4_u32x4_to_u32x4 _ (.head _) N M P))

end Verif.Props
