import Verif.Typing
import Verif.ArmLemmas
import Verif.Props.Signatures
import Verif.Props.Outcome
import Verif.Props.TypedBase

/-! # Calls with arguments of the declared types, part 6 (C78)

Generated by `tools/gen_typed.py`. -/

set_option linter.unusedVariables false

namespace Verif.Props
open Verif.Cpp Verif.Arm

theorem vtrn_u8_good [Dialect] (a : uint8x8_t) (b : uint8x8_t) : Good none True (fun _ => True) (Model.vtrn_u8 a b) := by
  unfold Model.vtrn_u8
  good_body

theorem vtrn_u8_typed [Dialect] : Total (k!"vtrn_u8", .fn Source.vtrn_u8) := by
  refine total_fn vtrn_u8_sig_read fun args h => ?_
  obtain ⟨a0, b0, rfl, ta, tb⟩ := typed2 h
  obtain ⟨a, rfl⟩ := ta
  obtain ⟨b, rfl⟩ := tb
  exact total_arr (called_fn (by kernel_rfl) (vtrn_u8_source a b)) (vtrn_u8_good a b) (.inl (written_u8x8_u8x8_to_u8x8x2 _ (.head _) a b))

theorem vtrn_s16_good [Dialect] (a : int16x4_t) (b : int16x4_t) : Good none True (fun _ => True) (Model.vtrn_s16 a b) := by
  unfold Model.vtrn_s16
  good_body

theorem vtrn_s16_typed [Dialect] : Total (k!"vtrn_s16", .fn Source.vtrn_s16) := by
  refine total_fn vtrn_s16_sig_read fun args h => ?_
  obtain ⟨a0, b0, rfl, ta, tb⟩ := typed2 h
  obtain ⟨a, rfl⟩ := ta
  obtain ⟨b, rfl⟩ := tb
  exact total_arr (called_fn (by kernel_rfl) (vtrn_s16_source a b)) (vtrn_s16_good a b) (.inl (written_s16x4_s16x4_to_s16x4x2 _ (.head _) a b))

theorem vtrn_u16_good [Dialect] (a : uint16x4_t) (b : uint16x4_t) : Good none True (fun _ => True) (Model.vtrn_u16 a b) := by
  unfold Model.vtrn_u16
  good_body

theorem vtrn_u16_typed [Dialect] : Total (k!"vtrn_u16", .fn Source.vtrn_u16) := by
  refine total_fn vtrn_u16_sig_read fun args h => ?_
  obtain ⟨a0, b0, rfl, ta, tb⟩ := typed2 h
  obtain ⟨a, rfl⟩ := ta
  obtain ⟨b, rfl⟩ := tb
  exact total_arr (called_fn (by kernel_rfl) (vtrn_u16_source a b)) (vtrn_u16_good a b) (.inl (written_u16x4_u16x4_to_u16x4x2 _ (.head _) a b))

theorem vtrn_s32_good [Dialect] (a : int32x2_t) (b : int32x2_t) : Good none True (fun _ => True) (Model.vtrn_s32 a b) := by
  unfold Model.vtrn_s32
  good_body

theorem vtrn_s32_typed [Dialect] : Total (k!"vtrn_s32", .fn Source.vtrn_s32) := by
  refine total_fn vtrn_s32_sig_read fun args h => ?_
  obtain ⟨a0, b0, rfl, ta, tb⟩ := typed2 h
  obtain ⟨a, rfl⟩ := ta
  obtain ⟨b, rfl⟩ := tb
  exact total_arr (called_fn (by kernel_rfl) (vtrn_s32_source a b)) (vtrn_s32_good a b) (.inl (written_s32x2_s32x2_to_s32x2x2 _ (.head _) a b))

theorem vtrn_u32_good [Dialect] (a : uint32x2_t) (b : uint32x2_t) : Good none True (fun _ => True) (Model.vtrn_u32 a b) := by
  unfold Model.vtrn_u32
  good_body

theorem vtrn_u32_typed [Dialect] : Total (k!"vtrn_u32", .fn Source.vtrn_u32) := by
  refine total_fn vtrn_u32_sig_read fun args h => ?_
  obtain ⟨a0, b0, rfl, ta, tb⟩ := typed2 h
  obtain ⟨a, rfl⟩ := ta
  obtain ⟨b, rfl⟩ := tb
  exact total_arr (called_fn (by kernel_rfl) (vtrn_u32_source a b)) (vtrn_u32_good a b) (.inl (written_u32x2_u32x2_to_u32x2x2 _ (.head _) a b))

theorem vtrnq_u16_good [Dialect] (a : uint16x8_t) (b : uint16x8_t) : Good none True (fun _ => True) (Model.vtrnq_u16 a b) := by
  unfold Model.vtrnq_u16
  good_body

theorem vtrnq_u16_typed [Dialect] : Total (k!"vtrnq_u16", .fn Source.vtrnq_u16) := by
  refine total_fn vtrnq_u16_sig_read fun args h => ?_
  obtain ⟨a0, b0, rfl, ta, tb⟩ := typed2 h
  obtain ⟨a, rfl⟩ := ta
  obtain ⟨b, rfl⟩ := tb
  exact total_arr (called_fn (by kernel_rfl) (vtrnq_u16_source a b)) (vtrnq_u16_good a b) (.inl (written_u16x8_u16x8_to_u16x8x2 _ (.head _) a b))

theorem vtrnq_u32_good [Dialect] (a : uint32x4_t) (b : uint32x4_t) : Good none True (fun _ => True) (Model.vtrnq_u32 a b) := by
  unfold Model.vtrnq_u32
  good_body

theorem vtrnq_u32_typed [Dialect] : Total (k!"vtrnq_u32", .fn Source.vtrnq_u32) := by
  refine total_fn vtrnq_u32_sig_read fun args h => ?_
  obtain ⟨a0, b0, rfl, ta, tb⟩ := typed2 h
  obtain ⟨a, rfl⟩ := ta
  obtain ⟨b, rfl⟩ := tb
  exact total_arr (called_fn (by kernel_rfl) (vtrnq_u32_source a b)) (vtrnq_u32_good a b) (.inl (written_u32x4_u32x4_to_u32x4x2 _ (.head _) a b))

theorem vtrnq_s16_good [Dialect] (a : int16x8_t) (b : int16x8_t) : Good none True (fun _ => True) (Model.vtrnq_s16 a b) := by
  unfold Model.vtrnq_s16
  good_body

theorem vtrnq_s16_typed [Dialect] : Total (k!"vtrnq_s16", .fn Source.vtrnq_s16) := by
  refine total_fn vtrnq_s16_sig_read fun args h => ?_
  obtain ⟨a0, b0, rfl, ta, tb⟩ := typed2 h
  obtain ⟨a, rfl⟩ := ta
  obtain ⟨b, rfl⟩ := tb
  exact total_arr (called_fn (by kernel_rfl) (vtrnq_s16_source a b)) (vtrnq_s16_good a b) (.inl (written_s16x8_s16x8_to_s16x8x2 _ (.head _) a b))

theorem vzip_s16_good [Dialect] (a : int16x4_t) (b : int16x4_t) : Good none True (fun _ => True) (Model.vzip_s16 a b) := by
  unfold Model.vzip_s16
  good_body

theorem vzip_s16_typed [Dialect] : Total (k!"vzip_s16", .fn Source.vzip_s16) := by
  refine total_fn vzip_s16_sig_read fun args h => ?_
  obtain ⟨a0, b0, rfl, ta, tb⟩ := typed2 h
  obtain ⟨a, rfl⟩ := ta
  obtain ⟨b, rfl⟩ := tb
  exact total_arr (called_fn (by kernel_rfl) (vzip_s16_source a b)) (vzip_s16_good a b) (.inl (written_s16x4_s16x4_to_s16x4x2 _ (.tail _ (.head _)) a b))

theorem vzip_s8_good [Dialect] (a : int8x8_t) (b : int8x8_t) : Good none True (fun _ => True) (Model.vzip_s8 a b) := by
  unfold Model.vzip_s8
  good_body

theorem vzip_s8_typed [Dialect] : Total (k!"vzip_s8", .fn Source.vzip_s8) := by
  refine total_fn vzip_s8_sig_read fun args h => ?_
  obtain ⟨a0, b0, rfl, ta, tb⟩ := typed2 h
  obtain ⟨a, rfl⟩ := ta
  obtain ⟨b, rfl⟩ := tb
  exact total_arr (called_fn (by kernel_rfl) (vzip_s8_source a b)) (vzip_s8_good a b) (.inl (written_s8x8_s8x8_to_s8x8x2 _ (.tail _ (.head _)) a b))

theorem vzip_u8_good [Dialect] (a : uint8x8_t) (b : uint8x8_t) : Good none True (fun _ => True) (Model.vzip_u8 a b) := by
  unfold Model.vzip_u8
  good_body

theorem vzip_u8_typed [Dialect] : Total (k!"vzip_u8", .fn Source.vzip_u8) := by
  refine total_fn vzip_u8_sig_read fun args h => ?_
  obtain ⟨a0, b0, rfl, ta, tb⟩ := typed2 h
  obtain ⟨a, rfl⟩ := ta
  obtain ⟨b, rfl⟩ := tb
  exact total_arr (called_fn (by kernel_rfl) (vzip_u8_source a b)) (vzip_u8_good a b) (.inl (written_u8x8_u8x8_to_u8x8x2 _ (.tail _ (.head _)) a b))

theorem vuzp_u8_good [Dialect] (a : uint8x8_t) (b : uint8x8_t) : Good none True (fun _ => True) (Model.vuzp_u8 a b) := by
  unfold Model.vuzp_u8
  good_body

theorem vuzp_u8_typed [Dialect] : Total (k!"vuzp_u8", .fn Source.vuzp_u8) := by
  refine total_fn vuzp_u8_sig_read fun args h => ?_
  obtain ⟨a0, b0, rfl, ta, tb⟩ := typed2 h
  obtain ⟨a, rfl⟩ := ta
  obtain ⟨b, rfl⟩ := tb
  exact total_arr (called_fn (by kernel_rfl) (vuzp_u8_source a b)) (vuzp_u8_good a b) (.inl (written_u8x8_u8x8_to_u8x8x2 _ (.tail _ (.tail _ (.head _))) a b))

theorem vuzp_s8_good [Dialect] (a : int8x8_t) (b : int8x8_t) : Good none True (fun _ => True) (Model.vuzp_s8 a b) := by
  unfold Model.vuzp_s8
  good_body

theorem vuzp_s8_typed [Dialect] : Total (k!"vuzp_s8", .fn Source.vuzp_s8) := by
  refine total_fn vuzp_s8_sig_read fun args h => ?_
  obtain ⟨a0, b0, rfl, ta, tb⟩ := typed2 h
  obtain ⟨a, rfl⟩ := ta
  obtain ⟨b, rfl⟩ := tb
  exact total_arr (called_fn (by kernel_rfl) (vuzp_s8_source a b)) (vuzp_s8_good a b) (.inl (written_s8x8_s8x8_to_s8x8x2 _ (.tail _ (.tail _ (.head _))) a b))

theorem vext_u8_good [Dialect] (a : uint8x8_t) (b : uint8x8_t) (n : Int) : Good (some "vext_u8: param n is not in range [0, 8]\n") True (fun _ => True) (Model.vext_u8 a b n) := by
  unfold Model.vext_u8
  good_body

theorem vext_u8_typed [Dialect] : Total (k!"vext_u8", .fn Source.vext_u8) := by
  refine total_fn vext_u8_sig_read fun args h => ?_
  obtain ⟨a0, b0, n0, rfl, ta, tb, tn⟩ := typed3 h
  obtain ⟨a, rfl⟩ := ta
  obtain ⟨b, rfl⟩ := tb
  obtain ⟨n, rfl, hn⟩ := hasTy_int tn
  exact total_vec (called_fn (by kernel_rfl) (vext_u8_source a b n hn)) (vext_u8_good a b n) (.inl (written_u8x8_u8x8_imm_to_u8x8 _ (.head _) a b n))

theorem vext_u16_good [Dialect] (a : uint16x4_t) (b : uint16x4_t) (n : Int) : Good (some "vext_u16: param n is not in range [0, 4]\n") True (fun _ => True) (Model.vext_u16 a b n) := by
  unfold Model.vext_u16
  good_body

theorem vext_u16_typed [Dialect] : Total (k!"vext_u16", .fn Source.vext_u16) := by
  refine total_fn vext_u16_sig_read fun args h => ?_
  obtain ⟨a0, b0, n0, rfl, ta, tb, tn⟩ := typed3 h
  obtain ⟨a, rfl⟩ := ta
  obtain ⟨b, rfl⟩ := tb
  obtain ⟨n, rfl, hn⟩ := hasTy_int tn
  exact total_vec (called_fn (by kernel_rfl) (vext_u16_source a b n hn)) (vext_u16_good a b n) (.inl (written_u16x4_u16x4_imm_to_u16x4 _ (.head _) a b n))

theorem vext_s16_good [Dialect] (a : int16x4_t) (b : int16x4_t) (n : Int) : Good (some "vext_s16: param n is not in range [0, 4]\n") True (fun _ => True) (Model.vext_s16 a b n) := by
  unfold Model.vext_s16
  good_body

theorem vext_s16_typed [Dialect] : Total (k!"vext_s16", .fn Source.vext_s16) := by
  refine total_fn vext_s16_sig_read fun args h => ?_
  obtain ⟨a0, b0, n0, rfl, ta, tb, tn⟩ := typed3 h
  obtain ⟨a, rfl⟩ := ta
  obtain ⟨b, rfl⟩ := tb
  obtain ⟨n, rfl, hn⟩ := hasTy_int tn
  exact total_vec (called_fn (by kernel_rfl) (vext_s16_source a b n hn)) (vext_s16_good a b n) (.inl (written_s16x4_s16x4_imm_to_s16x4 _ (.head _) a b n))

theorem vextq_u16_good [Dialect] (a : uint16x8_t) (b : uint16x8_t) (n : Int) : Good (some "vextq_u16: param n is not in range [0, 8]\n") True (fun _ => True) (Model.vextq_u16 a b n) := by
  unfold Model.vextq_u16
  good_body

theorem vextq_u16_typed [Dialect] : Total (k!"vextq_u16", .fn Source.vextq_u16) := by
  refine total_fn vextq_u16_sig_read fun args h => ?_
  obtain ⟨a0, b0, n0, rfl, ta, tb, tn⟩ := typed3 h
  obtain ⟨a, rfl⟩ := ta
  obtain ⟨b, rfl⟩ := tb
  obtain ⟨n, rfl, hn⟩ := hasTy_int tn
  exact total_vec (called_fn (by kernel_rfl) (vextq_u16_source a b n hn)) (vextq_u16_good a b n) (.inl (written_u16x8_u16x8_imm_to_u16x8 _ (.head _) a b n))

theorem vqsub_s64_good [Dialect] (N : int64x1_t) (M : int64x1_t) : Good none True (fun _ => True) (Model.vqsub_s64 N M) := by
  unfold Model.vqsub_s64
  good_body

theorem vqsub_s64_typed [Dialect] : Total (k!"vqsub_s64", .fn Source.vqsub_s64) := by
  refine total_fn vqsub_s64_sig_read fun args h => ?_
  obtain ⟨N0, M0, rfl, tN, tM⟩ := typed2 h
  obtain ⟨N, rfl⟩ := tN
  obtain ⟨M, rfl⟩ := tM
  exact total_vec (called_fn (by kernel_rfl) (vqsub_s64_source N M)) (vqsub_s64_good N M) (.inl (written_s64x1_s64x1_to_s64x1 _ (.tail _ (.tail _ (.head _))) N M))

theorem vqsubq_s64_good [Dialect] (N : int64x2_t) (M : int64x2_t) : Good none True (fun _ => True) (Model.vqsubq_s64 N M) := by
  unfold Model.vqsubq_s64
  good_body

theorem vqsubq_s64_typed [Dialect] : Total (k!"vqsubq_s64", .fn Source.vqsubq_s64) := by
  refine total_fn vqsubq_s64_sig_read fun args h => ?_
  obtain ⟨N0, M0, rfl, tN, tM⟩ := typed2 h
  obtain ⟨N, rfl⟩ := tN
  obtain ⟨M, rfl⟩ := tM
  exact total_vec (called_fn (by kernel_rfl) (vqsubq_s64_source N M)) (vqsubq_s64_good N M) (.inl (written_s64x2_s64x2_to_s64x2 _ (.tail _ (.tail _ (.head _))) N M))

theorem vqsub_u64_good [Dialect] (N : uint64x1_t) (M : uint64x1_t) : Good none True (fun _ => True) (Model.vqsub_u64 N M) := by
  unfold Model.vqsub_u64
  good_body

theorem vqsub_u64_typed [Dialect] : Total (k!"vqsub_u64", .fn Source.vqsub_u64) := by
  refine total_fn vqsub_u64_sig_read fun args h => ?_
  obtain ⟨N0, M0, rfl, tN, tM⟩ := typed2 h
  obtain ⟨N, rfl⟩ := tN
  obtain ⟨M, rfl⟩ := tM
  exact total_vec (called_fn (by kernel_rfl) (vqsub_u64_source N M)) (vqsub_u64_good N M) (.inl (written_u64x1_u64x1_to_u64x1 _ (.tail _ (.tail _ (.head _))) N M))

theorem vqsubq_u64_good [Dialect] (N : uint64x2_t) (M : uint64x2_t) : Good none True (fun _ => True) (Model.vqsubq_u64 N M) := by
  unfold Model.vqsubq_u64
  good_body

theorem vqsubq_u64_typed [Dialect] : Total (k!"vqsubq_u64", .fn Source.vqsubq_u64) := by
  refine total_fn vqsubq_u64_sig_read fun args h => ?_
  obtain ⟨N0, M0, rfl, tN, tM⟩ := typed2 h
  obtain ⟨N, rfl⟩ := tN
  obtain ⟨M, rfl⟩ := tM
  exact total_vec (called_fn (by kernel_rfl) (vqsubq_u64_source N M)) (vqsubq_u64_good N M) (.inl (written_u64x2_u64x2_to_u64x2 _ (.tail _ (.tail _ (.head _))) N M))

theorem vrecpsq_f32_good [Dialect] (a : float32x4_t) (b : float32x4_t) : Good none True (fun _ => True) (Model.vrecpsq_f32 a b) := by
  unfold Model.vrecpsq_f32
  good_body

theorem vrecpsq_f32_typed [Dialect] : Total (k!"vrecpsq_f32", .fn Source.vrecpsq_f32) := by
  refine total_fn vrecpsq_f32_sig_read fun args h => ?_
  obtain ⟨a0, b0, rfl, ta, tb⟩ := typed2 h
  obtain ⟨a, rfl⟩ := ta
  obtain ⟨b, rfl⟩ := tb
  exact total_vec (called_fn (by kernel_rfl) (vrecpsq_f32_source a b)) (vrecpsq_f32_good a b) (.inl (written_f32x4_f32x4_to_f32x4 _ (.tail _ (.tail _ (.tail _ (.tail _ (.tail _ (.head _)))))) a b))

theorem vreinterpret_u8_s8_good [Dialect] (a : int8x8_t) : Good none True (fun _ => True) (Model.vreinterpret_u8_s8 a) := by
  unfold Model.vreinterpret_u8_s8
  good_body

theorem vreinterpret_u8_s8_typed [Dialect] : Total (k!"vreinterpret_u8_s8", .fn Source.vreinterpret_u8_s8) := by
  refine total_fn vreinterpret_u8_s8_sig_read fun args h => ?_
  obtain ⟨a0, rfl, ta⟩ := typed1 h
  obtain ⟨a, rfl⟩ := ta
  exact total_vec (called_fn (by kernel_rfl) (vreinterpret_u8_s8_source a)) (vreinterpret_u8_s8_good a) (.inl (written_s8x8_to_u8x8 _ (.head _) a))

theorem vreinterpretq_s16_u16_good [Dialect] (a : uint16x8_t) : Good none True (fun _ => True) (Model.vreinterpretq_s16_u16 a) := by
  unfold Model.vreinterpretq_s16_u16
  good_body

theorem vreinterpretq_s16_u16_typed [Dialect] : Total (k!"vreinterpretq_s16_u16", .fn Source.vreinterpretq_s16_u16) := by
  refine total_fn vreinterpretq_s16_u16_sig_read fun args h => ?_
  obtain ⟨a0, rfl, ta⟩ := typed1 h
  obtain ⟨a, rfl⟩ := ta
  exact total_vec (called_fn (by kernel_rfl) (vreinterpretq_s16_u16_source a)) (vreinterpretq_s16_u16_good a) (.inl (written_u16x8_to_s16x8 _ (.head _) a))

theorem vreinterpretq_u16_s16_good [Dialect] (a : int16x8_t) : Good none True (fun _ => True) (Model.vreinterpretq_u16_s16 a) := by
  unfold Model.vreinterpretq_u16_s16
  good_body

theorem vreinterpretq_u16_s16_typed [Dialect] : Total (k!"vreinterpretq_u16_s16", .fn Source.vreinterpretq_u16_s16) := by
  refine total_fn vreinterpretq_u16_s16_sig_read fun args h => ?_
  obtain ⟨a0, rfl, ta⟩ := typed1 h
  obtain ⟨a, rfl⟩ := ta
  exact total_vec (called_fn (by kernel_rfl) (vreinterpretq_u16_s16_source a)) (vreinterpretq_u16_s16_good a) (.inl (written_s16x8_to_u16x8 _ (.head _) a))

theorem vreinterpret_u16_u8_good [Dialect] (a : uint8x8_t) : Good none True (fun _ => True) (Model.vreinterpret_u16_u8 a) := by
  unfold Model.vreinterpret_u16_u8
  good_body

theorem vreinterpret_u16_u8_typed [Dialect] : Total (k!"vreinterpret_u16_u8", .fn Source.vreinterpret_u16_u8) := by
  refine total_fn vreinterpret_u16_u8_sig_read fun args h => ?_
  obtain ⟨a0, rfl, ta⟩ := typed1 h
  obtain ⟨a, rfl⟩ := ta
  exact total_vec (called_fn (by kernel_rfl) (vreinterpret_u16_u8_source a)) (vreinterpret_u16_u8_good a) (.inl (written_u8x8_to_u16x4 _ (.tail _ (.head _)) a))

theorem vreinterpret_u32_u16_good [Dialect] (a : uint16x4_t) : Good none True (fun _ => True) (Model.vreinterpret_u32_u16 a) := by
  unfold Model.vreinterpret_u32_u16
  good_body

theorem vreinterpret_u32_u16_typed [Dialect] : Total (k!"vreinterpret_u32_u16", .fn Source.vreinterpret_u32_u16) := by
  refine total_fn vreinterpret_u32_u16_sig_read fun args h => ?_
  obtain ⟨a0, rfl, ta⟩ := typed1 h
  obtain ⟨a, rfl⟩ := ta
  exact total_vec (called_fn (by kernel_rfl) (vreinterpret_u32_u16_source a)) (vreinterpret_u32_u16_good a) (.inl (written_u16x4_to_u32x2 _ (.head _) a))

theorem vreinterpret_u8_u32_good [Dialect] (a : uint32x2_t) : Good none True (fun _ => True) (Model.vreinterpret_u8_u32 a) := by
  unfold Model.vreinterpret_u8_u32
  good_body

theorem vreinterpret_u8_u32_typed [Dialect] : Total (k!"vreinterpret_u8_u32", .fn Source.vreinterpret_u8_u32) := by
  refine total_fn vreinterpret_u8_u32_sig_read fun args h => ?_
  obtain ⟨a0, rfl, ta⟩ := typed1 h
  obtain ⟨a, rfl⟩ := ta
  exact total_vec (called_fn (by kernel_rfl) (vreinterpret_u8_u32_source a)) (vreinterpret_u8_u32_good a) (.inl (written_u32x2_to_u8x8 _ (.head _) a))

theorem vreinterpret_u32_u8_good [Dialect] (a : uint8x8_t) : Good none True (fun _ => True) (Model.vreinterpret_u32_u8 a) := by
  unfold Model.vreinterpret_u32_u8
  good_body

theorem vreinterpret_u32_u8_typed [Dialect] : Total (k!"vreinterpret_u32_u8", .fn Source.vreinterpret_u32_u8) := by
  refine total_fn vreinterpret_u32_u8_sig_read fun args h => ?_
  obtain ⟨a0, rfl, ta⟩ := typed1 h
  obtain ⟨a, rfl⟩ := ta
  exact total_vec (called_fn (by kernel_rfl) (vreinterpret_u32_u8_source a)) (vreinterpret_u32_u8_good a) (.inl (written_u8x8_to_u32x2 _ (.head _) a))

theorem vreinterpret_s8_u8_good [Dialect] (a : uint8x8_t) : Good none True (fun _ => True) (Model.vreinterpret_s8_u8 a) := by
  unfold Model.vreinterpret_s8_u8
  good_body

theorem vreinterpret_s8_u8_typed [Dialect] : Total (k!"vreinterpret_s8_u8", .fn Source.vreinterpret_s8_u8) := by
  refine total_fn vreinterpret_s8_u8_sig_read fun args h => ?_
  obtain ⟨a0, rfl, ta⟩ := typed1 h
  obtain ⟨a, rfl⟩ := ta
  exact total_vec (called_fn (by kernel_rfl) (vreinterpret_s8_u8_source a)) (vreinterpret_s8_u8_good a) (.inl (written_u8x8_to_s8x8 _ (.head _) a))

theorem vreinterpret_s32_s16_good [Dialect] (a : int16x4_t) : Good none True (fun _ => True) (Model.vreinterpret_s32_s16 a) := by
  unfold Model.vreinterpret_s32_s16
  good_body

theorem vreinterpret_s32_s16_typed [Dialect] : Total (k!"vreinterpret_s32_s16", .fn Source.vreinterpret_s32_s16) := by
  refine total_fn vreinterpret_s32_s16_sig_read fun args h => ?_
  obtain ⟨a0, rfl, ta⟩ := typed1 h
  obtain ⟨a, rfl⟩ := ta
  exact total_vec (called_fn (by kernel_rfl) (vreinterpret_s32_s16_source a)) (vreinterpret_s32_s16_good a) (.inl (written_s16x4_to_s32x2 _ (.head _) a))

theorem vreinterpret_s16_s32_good [Dialect] (a : int32x2_t) : Good none True (fun _ => True) (Model.vreinterpret_s16_s32 a) := by
  unfold Model.vreinterpret_s16_s32
  good_body

theorem vreinterpret_s16_s32_typed [Dialect] : Total (k!"vreinterpret_s16_s32", .fn Source.vreinterpret_s16_s32) := by
  refine total_fn vreinterpret_s16_s32_sig_read fun args h => ?_
  obtain ⟨a0, rfl, ta⟩ := typed1 h
  obtain ⟨a, rfl⟩ := ta
  exact total_vec (called_fn (by kernel_rfl) (vreinterpret_s16_s32_source a)) (vreinterpret_s16_s32_good a) (.inl (written_s32x2_to_s16x4 _ (.head _) a))

theorem vreinterpretq_u8_s8_good [Dialect] (a : int8x16_t) : Good none True (fun _ => True) (Model.vreinterpretq_u8_s8 a) := by
  unfold Model.vreinterpretq_u8_s8
  good_body

theorem vreinterpretq_u8_s8_typed [Dialect] : Total (k!"vreinterpretq_u8_s8", .fn Source.vreinterpretq_u8_s8) := by
  refine total_fn vreinterpretq_u8_s8_sig_read fun args h => ?_
  obtain ⟨a0, rfl, ta⟩ := typed1 h
  obtain ⟨a, rfl⟩ := ta
  exact total_vec (called_fn (by kernel_rfl) (vreinterpretq_u8_s8_source a)) (vreinterpretq_u8_s8_good a) (.inl (written_s8x16_to_u8x16 _ (.head _) a))

theorem vreinterpretq_u8_s16_good [Dialect] (a : int16x8_t) : Good none True (fun _ => True) (Model.vreinterpretq_u8_s16 a) := by
  unfold Model.vreinterpretq_u8_s16
  good_body

theorem vreinterpretq_u8_s16_typed [Dialect] : Total (k!"vreinterpretq_u8_s16", .fn Source.vreinterpretq_u8_s16) := by
  refine total_fn vreinterpretq_u8_s16_sig_read fun args h => ?_
  obtain ⟨a0, rfl, ta⟩ := typed1 h
  obtain ⟨a, rfl⟩ := ta
  exact total_vec (called_fn (by kernel_rfl) (vreinterpretq_u8_s16_source a)) (vreinterpretq_u8_s16_good a) (.inl (written_s16x8_to_u8x16 _ (.head _) a))

theorem vreinterpretq_u8_s32_good [Dialect] (a : int32x4_t) : Good none True (fun _ => True) (Model.vreinterpretq_u8_s32 a) := by
  unfold Model.vreinterpretq_u8_s32
  good_body

theorem vreinterpretq_u8_s32_typed [Dialect] : Total (k!"vreinterpretq_u8_s32", .fn Source.vreinterpretq_u8_s32) := by
  refine total_fn vreinterpretq_u8_s32_sig_read fun args h => ?_
  obtain ⟨a0, rfl, ta⟩ := typed1 h
  obtain ⟨a, rfl⟩ := ta
  exact total_vec (called_fn (by kernel_rfl) (vreinterpretq_u8_s32_source a)) (vreinterpretq_u8_s32_good a) (.inl (written_s32x4_to_u8x16 _ (.head _) a))

theorem vreinterpretq_u8_f32_good [Dialect] (a : float32x4_t) : Good none True (fun _ => True) (Model.vreinterpretq_u8_f32 a) := by
  unfold Model.vreinterpretq_u8_f32
  good_body

theorem vreinterpretq_u8_f32_typed [Dialect] : Total (k!"vreinterpretq_u8_f32", .fn Source.vreinterpretq_u8_f32) := by
  refine total_fn vreinterpretq_u8_f32_sig_read fun args h => ?_
  obtain ⟨a0, rfl, ta⟩ := typed1 h
  obtain ⟨a, rfl⟩ := ta
  exact total_vec (called_fn (by kernel_rfl) (vreinterpretq_u8_f32_source a)) (vreinterpretq_u8_f32_good a) (.inl (written_f32x4_to_u8x16 _ (.head _) a))

theorem vreinterpretq_u8_u16_good [Dialect] (a : uint16x8_t) : Good none True (fun _ => True) (Model.vreinterpretq_u8_u16 a) := by
  unfold Model.vreinterpretq_u8_u16
  good_body

theorem vreinterpretq_u8_u16_typed [Dialect] : Total (k!"vreinterpretq_u8_u16", .fn Source.vreinterpretq_u8_u16) := by
  refine total_fn vreinterpretq_u8_u16_sig_read fun args h => ?_
  obtain ⟨a0, rfl, ta⟩ := typed1 h
  obtain ⟨a, rfl⟩ := ta
  exact total_vec (called_fn (by kernel_rfl) (vreinterpretq_u8_u16_source a)) (vreinterpretq_u8_u16_good a) (.inl (written_u16x8_to_u8x16 _ (.head _) a))

theorem vreinterpretq_u8_u32_good [Dialect] (a : uint32x4_t) : Good none True (fun _ => True) (Model.vreinterpretq_u8_u32 a) := by
  unfold Model.vreinterpretq_u8_u32
  good_body

theorem vreinterpretq_u8_u32_typed [Dialect] : Total (k!"vreinterpretq_u8_u32", .fn Source.vreinterpretq_u8_u32) := by
  refine total_fn vreinterpretq_u8_u32_sig_read fun args h => ?_
  obtain ⟨a0, rfl, ta⟩ := typed1 h
  obtain ⟨a, rfl⟩ := ta
  exact total_vec (called_fn (by kernel_rfl) (vreinterpretq_u8_u32_source a)) (vreinterpretq_u8_u32_good a) (.inl (written_u32x4_to_u8x16 _ (.head _) a))

theorem vreinterpretq_u8_u64_good [Dialect] (a : uint64x2_t) : Good none True (fun _ => True) (Model.vreinterpretq_u8_u64 a) := by
  unfold Model.vreinterpretq_u8_u64
  good_body

theorem vreinterpretq_u8_u64_typed [Dialect] : Total (k!"vreinterpretq_u8_u64", .fn Source.vreinterpretq_u8_u64) := by
  refine total_fn vreinterpretq_u8_u64_sig_read fun args h => ?_
  obtain ⟨a0, rfl, ta⟩ := typed1 h
  obtain ⟨a, rfl⟩ := ta
  exact total_vec (called_fn (by kernel_rfl) (vreinterpretq_u8_u64_source a)) (vreinterpretq_u8_u64_good a) (.inl (written_u64x2_to_u8x16 _ (.head _) a))

theorem vreinterpretq_u8_s64_good [Dialect] (a : int64x2_t) : Good none True (fun _ => True) (Model.vreinterpretq_u8_s64 a) := by
  unfold Model.vreinterpretq_u8_s64
  good_body

theorem vreinterpretq_u8_s64_typed [Dialect] : Total (k!"vreinterpretq_u8_s64", .fn Source.vreinterpretq_u8_s64) := by
  refine total_fn vreinterpretq_u8_s64_sig_read fun args h => ?_
  obtain ⟨a0, rfl, ta⟩ := typed1 h
  obtain ⟨a, rfl⟩ := ta
  exact total_vec (called_fn (by kernel_rfl) (vreinterpretq_u8_s64_source a)) (vreinterpretq_u8_s64_good a) (.inl (written_s64x2_to_u8x16 _ (.head _) a))

theorem vreinterpretq_u8_f64_good [Dialect] (a : float64x2_t) : Good none True (fun _ => True) (Model.vreinterpretq_u8_f64 a) := by
  unfold Model.vreinterpretq_u8_f64
  good_body

theorem vreinterpretq_u8_f64_typed [Dialect] : Total (k!"vreinterpretq_u8_f64", .fn Source.vreinterpretq_u8_f64) := by
  refine total_fn vreinterpretq_u8_f64_sig_read fun args h => ?_
  obtain ⟨a0, rfl, ta⟩ := typed1 h
  obtain ⟨a, rfl⟩ := ta
  exact total_vec (called_fn (by kernel_rfl) (vreinterpretq_u8_f64_source a)) (vreinterpretq_u8_f64_good a) (.inl (written_f64x2_to_u8x16 _ (.head _) a))

theorem vreinterpretq_u32_s8_good [Dialect] (a : int8x16_t) : Good none True (fun _ => True) (Model.vreinterpretq_u32_s8 a) := by
  unfold Model.vreinterpretq_u32_s8
  good_body

theorem vreinterpretq_u32_s8_typed [Dialect] : Total (k!"vreinterpretq_u32_s8", .fn Source.vreinterpretq_u32_s8) := by
  refine total_fn vreinterpretq_u32_s8_sig_read fun args h => ?_
  obtain ⟨a0, rfl, ta⟩ := typed1 h
  obtain ⟨a, rfl⟩ := ta
  exact total_vec (called_fn (by kernel_rfl) (vreinterpretq_u32_s8_source a)) (vreinterpretq_u32_s8_good a) (.inl (written_s8x16_to_u32x4 _ (.head _) a))

theorem vreinterpretq_u32_s16_good [Dialect] (a : int16x8_t) : Good none True (fun _ => True) (Model.vreinterpretq_u32_s16 a) := by
  unfold Model.vreinterpretq_u32_s16
  good_body

theorem vreinterpretq_u32_s16_typed [Dialect] : Total (k!"vreinterpretq_u32_s16", .fn Source.vreinterpretq_u32_s16) := by
  refine total_fn vreinterpretq_u32_s16_sig_read fun args h => ?_
  obtain ⟨a0, rfl, ta⟩ := typed1 h
  obtain ⟨a, rfl⟩ := ta
  exact total_vec (called_fn (by kernel_rfl) (vreinterpretq_u32_s16_source a)) (vreinterpretq_u32_s16_good a) (.inl (written_s16x8_to_u32x4 _ (.head _) a))

theorem vreinterpretq_u32_s32_good [Dialect] (a : int32x4_t) : Good none True (fun _ => True) (Model.vreinterpretq_u32_s32 a) := by
  unfold Model.vreinterpretq_u32_s32
  good_body

theorem vreinterpretq_u32_s32_typed [Dialect] : Total (k!"vreinterpretq_u32_s32", .fn Source.vreinterpretq_u32_s32) := by
  refine total_fn vreinterpretq_u32_s32_sig_read fun args h => ?_
  obtain ⟨a0, rfl, ta⟩ := typed1 h
  obtain ⟨a, rfl⟩ := ta
  exact total_vec (called_fn (by kernel_rfl) (vreinterpretq_u32_s32_source a)) (vreinterpretq_u32_s32_good a) (.inl (written_s32x4_to_u32x4 _ (.head _) a))

theorem vreinterpretq_u32_f32_good [Dialect] (a : float32x4_t) : Good none True (fun _ => True) (Model.vreinterpretq_u32_f32 a) := by
  unfold Model.vreinterpretq_u32_f32
  good_body

theorem vreinterpretq_u32_f32_typed [Dialect] : Total (k!"vreinterpretq_u32_f32", .fn Source.vreinterpretq_u32_f32) := by
  refine total_fn vreinterpretq_u32_f32_sig_read fun args h => ?_
  obtain ⟨a0, rfl, ta⟩ := typed1 h
  obtain ⟨a, rfl⟩ := ta
  exact total_vec (called_fn (by kernel_rfl) (vreinterpretq_u32_f32_source a)) (vreinterpretq_u32_f32_good a) (.inl (written_f32x4_to_u32x4 _ (.head _) a))

theorem vreinterpretq_u32_u8_good [Dialect] (a : uint8x16_t) : Good none True (fun _ => True) (Model.vreinterpretq_u32_u8 a) := by
  unfold Model.vreinterpretq_u32_u8
  good_body

theorem vreinterpretq_u32_u8_typed [Dialect] : Total (k!"vreinterpretq_u32_u8", .fn Source.vreinterpretq_u32_u8) := by
  refine total_fn vreinterpretq_u32_u8_sig_read fun args h => ?_
  obtain ⟨a0, rfl, ta⟩ := typed1 h
  obtain ⟨a, rfl⟩ := ta
  exact total_vec (called_fn (by kernel_rfl) (vreinterpretq_u32_u8_source a)) (vreinterpretq_u32_u8_good a) (.inl (written_u8x16_to_u32x4 _ (.head _) a))

theorem vreinterpretq_u32_u16_good [Dialect] (a : uint16x8_t) : Good none True (fun _ => True) (Model.vreinterpretq_u32_u16 a) := by
  unfold Model.vreinterpretq_u32_u16
  good_body

theorem vreinterpretq_u32_u16_typed [Dialect] : Total (k!"vreinterpretq_u32_u16", .fn Source.vreinterpretq_u32_u16) := by
  refine total_fn vreinterpretq_u32_u16_sig_read fun args h => ?_
  obtain ⟨a0, rfl, ta⟩ := typed1 h
  obtain ⟨a, rfl⟩ := ta
  exact total_vec (called_fn (by kernel_rfl) (vreinterpretq_u32_u16_source a)) (vreinterpretq_u32_u16_good a) (.inl (written_u16x8_to_u32x4 _ (.tail _ (.head _)) a))

theorem vreinterpretq_u32_u64_good [Dialect] (a : uint64x2_t) : Good none True (fun _ => True) (Model.vreinterpretq_u32_u64 a) := by
  unfold Model.vreinterpretq_u32_u64
  good_body

theorem vreinterpretq_u32_u64_typed [Dialect] : Total (k!"vreinterpretq_u32_u64", .fn Source.vreinterpretq_u32_u64) := by
  refine total_fn vreinterpretq_u32_u64_sig_read fun args h => ?_
  obtain ⟨a0, rfl, ta⟩ := typed1 h
  obtain ⟨a, rfl⟩ := ta
  exact total_vec (called_fn (by kernel_rfl) (vreinterpretq_u32_u64_source a)) (vreinterpretq_u32_u64_good a) (.inl (written_u64x2_to_u32x4 _ (.head _) a))

theorem vreinterpretq_u32_s64_good [Dialect] (a : int64x2_t) : Good none True (fun _ => True) (Model.vreinterpretq_u32_s64 a) := by
  unfold Model.vreinterpretq_u32_s64
  good_body

theorem vreinterpretq_u32_s64_typed [Dialect] : Total (k!"vreinterpretq_u32_s64", .fn Source.vreinterpretq_u32_s64) := by
  refine total_fn vreinterpretq_u32_s64_sig_read fun args h => ?_
  obtain ⟨a0, rfl, ta⟩ := typed1 h
  obtain ⟨a, rfl⟩ := ta
  exact total_vec (called_fn (by kernel_rfl) (vreinterpretq_u32_s64_source a)) (vreinterpretq_u32_s64_good a) (.inl (written_s64x2_to_u32x4 _ (.head _) a))

theorem vreinterpretq_u32_f64_good [Dialect] (a : float64x2_t) : Good none True (fun _ => True) (Model.vreinterpretq_u32_f64 a) := by
  unfold Model.vreinterpretq_u32_f64
  good_body

theorem vreinterpretq_u32_f64_typed [Dialect] : Total (k!"vreinterpretq_u32_f64", .fn Source.vreinterpretq_u32_f64) := by
  refine total_fn vreinterpretq_u32_f64_sig_read fun args h => ?_
  obtain ⟨a0, rfl, ta⟩ := typed1 h
  obtain ⟨a, rfl⟩ := ta
  exact total_vec (called_fn (by kernel_rfl) (vreinterpretq_u32_f64_source a)) (vreinterpretq_u32_f64_good a) (.inl (written_f64x2_to_u32x4 _ (.head _) a))

theorem vqadd_u8_good [Dialect] (a : uint8x8_t) (b : uint8x8_t) : Good none True (fun _ => True) (Model.vqadd_u8 a b) := by
  unfold Model.vqadd_u8
  good_body

theorem vqadd_u8_typed [Dialect] : Total (k!"vqadd_u8", .fn Source.vqadd_u8) := by
  refine total_fn vqadd_u8_sig_read fun args h => ?_
  obtain ⟨a0, b0, rfl, ta, tb⟩ := typed2 h
  obtain ⟨a, rfl⟩ := ta
  obtain ⟨b, rfl⟩ := tb
  exact total_vec (called_fn (by kernel_rfl) (vqadd_u8_source a b)) (vqadd_u8_good a b) (.inl (written_u8x8_u8x8_to_u8x8 _ (.tail _ (.head _)) a b))

theorem vqaddq_u8_good [Dialect] (N : uint8x16_t) (M : uint8x16_t) : Good none True (fun _ => True) (Model.vqaddq_u8 N M) := by
  unfold Model.vqaddq_u8
  good_body

theorem vqaddq_u8_typed [Dialect] : Total (k!"vqaddq_u8", .fn Source.vqaddq_u8) := by
  refine total_fn vqaddq_u8_sig_read fun args h => ?_
  obtain ⟨N0, M0, rfl, tN, tM⟩ := typed2 h
  obtain ⟨N, rfl⟩ := tN
  obtain ⟨M, rfl⟩ := tM
  exact total_vec (called_fn (by kernel_rfl) (vqaddq_u8_source N M)) (vqaddq_u8_good N M) (.inl (written_u8x16_u8x16_to_u8x16 _ (.tail _ (.head _)) N M))

theorem vqsub_s8_good [Dialect] (N : int8x8_t) (M : int8x8_t) : Good none True (fun _ => True) (Model.vqsub_s8 N M) := by
  unfold Model.vqsub_s8
  good_body

theorem vqsub_s8_typed [Dialect] : Total (k!"vqsub_s8", .fn Source.vqsub_s8) := by
  refine total_fn vqsub_s8_sig_read fun args h => ?_
  obtain ⟨N0, M0, rfl, tN, tM⟩ := typed2 h
  obtain ⟨N, rfl⟩ := tN
  obtain ⟨M, rfl⟩ := tM
  exact total_vec (called_fn (by kernel_rfl) (vqsub_s8_source N M)) (vqsub_s8_good N M) (.inl (written_s8x8_s8x8_to_s8x8 _ (.tail _ (.tail _ (.tail _ (.head _)))) N M))

theorem vqsub_s16_good [Dialect] (N : int16x4_t) (M : int16x4_t) : Good none True (fun _ => True) (Model.vqsub_s16 N M) := by
  unfold Model.vqsub_s16
  good_body

theorem vqsub_s16_typed [Dialect] : Total (k!"vqsub_s16", .fn Source.vqsub_s16) := by
  refine total_fn vqsub_s16_sig_read fun args h => ?_
  obtain ⟨N0, M0, rfl, tN, tM⟩ := typed2 h
  obtain ⟨N, rfl⟩ := tN
  obtain ⟨M, rfl⟩ := tM
  exact total_vec (called_fn (by kernel_rfl) (vqsub_s16_source N M)) (vqsub_s16_good N M) (.inl (written_s16x4_s16x4_to_s16x4 _ (.tail _ (.tail _ (.tail _ (.head _)))) N M))

theorem vqsub_s32_good [Dialect] (N : int32x2_t) (M : int32x2_t) : Good none True (fun _ => True) (Model.vqsub_s32 N M) := by
  unfold Model.vqsub_s32
  good_body

theorem vqsub_s32_typed [Dialect] : Total (k!"vqsub_s32", .fn Source.vqsub_s32) := by
  refine total_fn vqsub_s32_sig_read fun args h => ?_
  obtain ⟨N0, M0, rfl, tN, tM⟩ := typed2 h
  obtain ⟨N, rfl⟩ := tN
  obtain ⟨M, rfl⟩ := tM
  exact total_vec (called_fn (by kernel_rfl) (vqsub_s32_source N M)) (vqsub_s32_good N M) (.inl (written_s32x2_s32x2_to_s32x2 _ (.tail _ (.tail _ (.tail _ (.head _)))) N M))

theorem vqsub_u8_good [Dialect] (N : uint8x8_t) (M : uint8x8_t) : Good none True (fun _ => True) (Model.vqsub_u8 N M) := by
  unfold Model.vqsub_u8
  good_body

theorem vqsub_u8_typed [Dialect] : Total (k!"vqsub_u8", .fn Source.vqsub_u8) := by
  refine total_fn vqsub_u8_sig_read fun args h => ?_
  obtain ⟨N0, M0, rfl, tN, tM⟩ := typed2 h
  obtain ⟨N, rfl⟩ := tN
  obtain ⟨M, rfl⟩ := tM
  exact total_vec (called_fn (by kernel_rfl) (vqsub_u8_source N M)) (vqsub_u8_good N M) (.inl (written_u8x8_u8x8_to_u8x8 _ (.tail _ (.tail _ (.tail _ (.tail _ (.head _))))) N M))

theorem vqsub_u16_good [Dialect] (N : uint16x4_t) (M : uint16x4_t) : Good none True (fun _ => True) (Model.vqsub_u16 N M) := by
  unfold Model.vqsub_u16
  good_body

theorem vqsub_u16_typed [Dialect] : Total (k!"vqsub_u16", .fn Source.vqsub_u16) := by
  refine total_fn vqsub_u16_sig_read fun args h => ?_
  obtain ⟨N0, M0, rfl, tN, tM⟩ := typed2 h
  obtain ⟨N, rfl⟩ := tN
  obtain ⟨M, rfl⟩ := tM
  exact total_vec (called_fn (by kernel_rfl) (vqsub_u16_source N M)) (vqsub_u16_good N M) (.inl (written_u16x4_u16x4_to_u16x4 _ (.tail _ (.tail _ (.tail _ (.head _)))) N M))

theorem vqsub_u32_good [Dialect] (N : uint32x2_t) (M : uint32x2_t) : Good none True (fun _ => True) (Model.vqsub_u32 N M) := by
  unfold Model.vqsub_u32
  good_body

theorem vqsub_u32_typed [Dialect] : Total (k!"vqsub_u32", .fn Source.vqsub_u32) := by
  refine total_fn vqsub_u32_sig_read fun args h => ?_
  obtain ⟨N0, M0, rfl, tN, tM⟩ := typed2 h
  obtain ⟨N, rfl⟩ := tN
  obtain ⟨M, rfl⟩ := tM
  exact total_vec (called_fn (by kernel_rfl) (vqsub_u32_source N M)) (vqsub_u32_good N M) (.inl (written_u32x2_u32x2_to_u32x2 _ (.tail _ (.tail _ (.tail _ (.head _)))) N M))

theorem vqsubq_s8_good [Dialect] (N : int8x16_t) (M : int8x16_t) : Good none True (fun _ => True) (Model.vqsubq_s8 N M) := by
  unfold Model.vqsubq_s8
  good_body

theorem vqsubq_s8_typed [Dialect] : Total (k!"vqsubq_s8", .fn Source.vqsubq_s8) := by
  refine total_fn vqsubq_s8_sig_read fun args h => ?_
  obtain ⟨N0, M0, rfl, tN, tM⟩ := typed2 h
  obtain ⟨N, rfl⟩ := tN
  obtain ⟨M, rfl⟩ := tM
  exact total_vec (called_fn (by kernel_rfl) (vqsubq_s8_source N M)) (vqsubq_s8_good N M) (.inl (written_s8x16_s8x16_to_s8x16 _ (.tail _ (.tail _ (.tail _ (.tail _ (.tail _ (.head _)))))) N M))

end Verif.Props
