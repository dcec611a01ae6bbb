import Verif.Typing
import Verif.ArmLemmas
import Verif.Props.Signatures
import Verif.Props.Outcome
import Verif.Props.TypedBase

/-! # Calls with arguments of the declared types, part 7 (C78)

Generated by `tools/gen_typed.py`. -/

set_option linter.unusedVariables false

namespace Verif.Props
open Verif.Cpp Verif.Arm

theorem vqsubq_s16_good [Dialect] (N : int16x8_t) (M : int16x8_t) : Good none True (fun _ => True) (Model.vqsubq_s16 N M) := by
  unfold Model.vqsubq_s16
  good_body

theorem vqsubq_s16_typed [Dialect] : Total (k!"vqsubq_s16", .fn Source.vqsubq_s16) := by
  refine total_fn vqsubq_s16_sig_read fun args h => ?_
  obtain ⟨N0, M0, rfl, tN, tM⟩ := typed2 h
  obtain ⟨N, rfl⟩ := tN
  obtain ⟨M, rfl⟩ := tM
  exact total_vec (called_fn (by kernel_rfl) (vqsubq_s16_source N M)) (vqsubq_s16_good N M) (.inl (written_s16x8_s16x8_to_s16x8 _ (.tail _ (.tail _ (.tail _ (.tail _ (.tail _ (.head _)))))) N M))

theorem vqsubq_s32_good [Dialect] (N : int32x4_t) (M : int32x4_t) : Good none True (fun _ => True) (Model.vqsubq_s32 N M) := by
  unfold Model.vqsubq_s32
  good_body

theorem vqsubq_s32_typed [Dialect] : Total (k!"vqsubq_s32", .fn Source.vqsubq_s32) := by
  refine total_fn vqsubq_s32_sig_read fun args h => ?_
  obtain ⟨N0, M0, rfl, tN, tM⟩ := typed2 h
  obtain ⟨N, rfl⟩ := tN
  obtain ⟨M, rfl⟩ := tM
  exact total_vec (called_fn (by kernel_rfl) (vqsubq_s32_source N M)) (vqsubq_s32_good N M) (.inl (written_s32x4_s32x4_to_s32x4 _ (.tail _ (.tail _ (.tail _ (.tail _ (.tail _ (.head _)))))) N M))

theorem vqsubq_u8_good [Dialect] (N : uint8x16_t) (M : uint8x16_t) : Good none True (fun _ => True) (Model.vqsubq_u8 N M) := by
  unfold Model.vqsubq_u8
  good_body

theorem vqsubq_u8_typed [Dialect] : Total (k!"vqsubq_u8", .fn Source.vqsubq_u8) := by
  refine total_fn vqsubq_u8_sig_read fun args h => ?_
  obtain ⟨N0, M0, rfl, tN, tM⟩ := typed2 h
  obtain ⟨N, rfl⟩ := tN
  obtain ⟨M, rfl⟩ := tM
  exact total_vec (called_fn (by kernel_rfl) (vqsubq_u8_source N M)) (vqsubq_u8_good N M) (.inl (written_u8x16_u8x16_to_u8x16 _ (.tail _ (.tail _ (.tail _ (.tail _ (.head _))))) N M))

theorem vqsubq_u16_good [Dialect] (N : uint16x8_t) (M : uint16x8_t) : Good none True (fun _ => True) (Model.vqsubq_u16 N M) := by
  unfold Model.vqsubq_u16
  good_body

theorem vqsubq_u16_typed [Dialect] : Total (k!"vqsubq_u16", .fn Source.vqsubq_u16) := by
  refine total_fn vqsubq_u16_sig_read fun args h => ?_
  obtain ⟨N0, M0, rfl, tN, tM⟩ := typed2 h
  obtain ⟨N, rfl⟩ := tN
  obtain ⟨M, rfl⟩ := tM
  exact total_vec (called_fn (by kernel_rfl) (vqsubq_u16_source N M)) (vqsubq_u16_good N M) (.inl (written_u16x8_u16x8_to_u16x8 _ (.tail _ (.tail _ (.tail _ (.head _)))) N M))

theorem vqsubq_u32_good [Dialect] (N : uint32x4_t) (M : uint32x4_t) : Good none True (fun _ => True) (Model.vqsubq_u32 N M) := by
  unfold Model.vqsubq_u32
  good_body

theorem vqsubq_u32_typed [Dialect] : Total (k!"vqsubq_u32", .fn Source.vqsubq_u32) := by
  refine total_fn vqsubq_u32_sig_read fun args h => ?_
  obtain ⟨N0, M0, rfl, tN, tM⟩ := typed2 h
  obtain ⟨N, rfl⟩ := tN
  obtain ⟨M, rfl⟩ := tM
  exact total_vec (called_fn (by kernel_rfl) (vqsubq_u32_source N M)) (vqsubq_u32_good N M) (.inl (written_u32x4_u32x4_to_u32x4 _ (.tail _ (.tail _ (.tail _ (.head _)))) N M))

theorem vcgtq_u8_good [Dialect] (N : uint8x16_t) (M : uint8x16_t) : Good none True (fun _ => True) (Model.vcgtq_u8 N M) := by
  unfold Model.vcgtq_u8
  good_body

theorem vcgtq_u8_typed [Dialect] : Total (k!"vcgtq_u8", .fn Source.vcgtq_u8) := by
  refine total_fn vcgtq_u8_sig_read fun args h => ?_
  obtain ⟨N0, M0, rfl, tN, tM⟩ := typed2 h
  obtain ⟨N, rfl⟩ := tN
  obtain ⟨M, rfl⟩ := tM
  exact total_vec (called_fn (by kernel_rfl) (vcgtq_u8_source N M)) (vcgtq_u8_good N M) (.inl (written_u8x16_u8x16_to_u8x16 _ (.tail _ (.tail _ (.tail _ (.tail _ (.tail _ (.tail _ (.head _))))))) N M))

theorem vbslq_u8_good [Dialect] (mask : uint8x16_t) (src1 : uint8x16_t) (src2 : uint8x16_t) : Good none True (fun _ => True) (Model.vbslq_u8 mask src1 src2) := by
  unfold Model.vbslq_u8
  good_body

theorem vbslq_u8_typed [Dialect] : Total (k!"vbslq_u8", .fn Source.vbslq_u8) := by
  refine total_fn vbslq_u8_sig_read fun args h => ?_
  obtain ⟨mask0, src10, src20, rfl, tmask, tsrc1, tsrc2⟩ := typed3 h
  obtain ⟨mask, rfl⟩ := tmask
  obtain ⟨src1, rfl⟩ := tsrc1
  obtain ⟨src2, rfl⟩ := tsrc2
  exact total_vec (called_fn (by kernel_rfl) (vbslq_u8_source mask src1 src2)) (vbslq_u8_good mask src1 src2) (.inl (written_u8x16_u8x16_u8x16_to_u8x16 _ (.tail _ (.head _)) mask src1 src2))

theorem vtbl1_u8_good [Dialect] (a : uint8x8_t) (idx : uint8x8_t) : Good none True (fun _ => True) (Model.vtbl1_u8 a idx) := by
  unfold Model.vtbl1_u8
  good_body

theorem vtbl1_u8_typed [Dialect] : Total (k!"vtbl1_u8", .fn Source.vtbl1_u8) := by
  refine total_fn vtbl1_u8_sig_read fun args h => ?_
  obtain ⟨a0, idx0, rfl, ta, tidx⟩ := typed2 h
  obtain ⟨a, rfl⟩ := ta
  obtain ⟨idx, rfl⟩ := tidx
  exact total_vec (called_fn (by kernel_rfl) (vtbl1_u8_source a idx)) (vtbl1_u8_good a idx) (.inl (written_u8x8_u8x8_to_u8x8 _ (.tail _ (.tail _ (.tail _ (.tail _ (.tail _ (.tail _ (.head _))))))) a idx))

theorem vtbl2_u8_good [Dialect] (a : uint8x8x2_t) (idx : uint8x8_t) : Good none True (fun _ => True) (Model.vtbl2_u8 a idx) := by
  unfold Model.vtbl2_u8
  good_body

theorem vtbl2_u8_typed [Dialect] : Total (k!"vtbl2_u8", .fn Source.vtbl2_u8) := by
  refine total_fn vtbl2_u8_sig_read fun args h => ?_
  obtain ⟨a0, idx0, rfl, ta, tidx⟩ := typed2 h
  obtain ⟨a, rfl⟩ := ta
  obtain ⟨idx, rfl⟩ := tidx
  exact total_vec (called_fn (by kernel_rfl) (vtbl2_u8_source a idx)) (vtbl2_u8_good a idx) (.inl (written_u8x8x2_u8x8_to_u8x8 _ (.head _) a idx))

theorem vtbl4_u8_good [Dialect] (a : uint8x8x4_t) (idx : uint8x8_t) : Good none True (fun _ => True) (Model.vtbl4_u8 a idx) := by
  unfold Model.vtbl4_u8
  good_body

theorem vtbl4_u8_typed [Dialect] : Total (k!"vtbl4_u8", .fn Source.vtbl4_u8) := by
  refine total_fn vtbl4_u8_sig_read fun args h => ?_
  obtain ⟨a0, idx0, rfl, ta, tidx⟩ := typed2 h
  obtain ⟨a, rfl⟩ := ta
  obtain ⟨idx, rfl⟩ := tidx
  exact total_vec (called_fn (by kernel_rfl) (vtbl4_u8_source a idx)) (vtbl4_u8_good a idx) (.inl (written_u8x8x4_u8x8_to_u8x8 _ (.head _) a idx))

theorem vqtbl1_u8_good [Dialect] (t : uint8x16_t) (idx : uint8x8_t) : Good none True (fun _ => True) (Model.vqtbl1_u8 t idx) := by
  unfold Model.vqtbl1_u8
  good_body

theorem vqtbl1_u8_typed [Dialect] : Total (k!"vqtbl1_u8", .fn Source.vqtbl1_u8) := by
  refine total_fn vqtbl1_u8_sig_read fun args h => ?_
  obtain ⟨t0, idx0, rfl, tt, tidx⟩ := typed2 h
  obtain ⟨t, rfl⟩ := tt
  obtain ⟨idx, rfl⟩ := tidx
  exact total_vec (called_fn (by kernel_rfl) (vqtbl1_u8_source t idx)) (vqtbl1_u8_good t idx) (.inl (written_u8x16_u8x8_to_u8x8 _ (.head _) t idx))

theorem vshrn_n_s16_good [Dialect] (a : int16x8_t) (n : Int) : Good (some "vshrn_n_s16: param n not in range [1, 8]\n") True (fun _ => True) (Model.vshrn_n_s16 a n) := by
  unfold Model.vshrn_n_s16
  good_body

theorem vshrn_n_s16_typed [Dialect] : Total (k!"vshrn_n_s16", .fn Source.vshrn_n_s16) := by
  refine total_fn vshrn_n_s16_sig_read fun args h => ?_
  obtain ⟨a0, n0, rfl, ta, tn⟩ := typed2 h
  obtain ⟨a, rfl⟩ := ta
  obtain ⟨n, rfl, hn⟩ := hasTy_int tn
  exact total_vec (called_fn (by kernel_rfl) (vshrn_n_s16_source a n hn)) (vshrn_n_s16_good a n) (.inl (written_s16x8_imm_to_s8x8 _ (.head _) a n))

theorem vshrn_n_s32_good [Dialect] (a : int32x4_t) (n : Int) : Good (some "vshrn_n_s32: param n not in range [1, 8]\n") True (fun _ => True) (Model.vshrn_n_s32 a n) := by
  unfold Model.vshrn_n_s32
  good_body

theorem vshrn_n_s32_typed [Dialect] : Total (k!"vshrn_n_s32", .fn Source.vshrn_n_s32) := by
  refine total_fn vshrn_n_s32_sig_read fun args h => ?_
  obtain ⟨a0, n0, rfl, ta, tn⟩ := typed2 h
  obtain ⟨a, rfl⟩ := ta
  obtain ⟨n, rfl, hn⟩ := hasTy_int tn
  exact total_vec (called_fn (by kernel_rfl) (vshrn_n_s32_source a n hn)) (vshrn_n_s32_good a n) (.inl (written_s32x4_imm_to_s16x4 _ (.head _) a n))

theorem vshrn_n_s64_good [Dialect] (a : int64x2_t) (n : Int) : Good (some "vshrn_n_s64: param n not in range [1, 8]\n") True (fun _ => True) (Model.vshrn_n_s64 a n) := by
  unfold Model.vshrn_n_s64
  good_body

theorem vshrn_n_s64_typed [Dialect] : Total (k!"vshrn_n_s64", .fn Source.vshrn_n_s64) := by
  refine total_fn vshrn_n_s64_sig_read fun args h => ?_
  obtain ⟨a0, n0, rfl, ta, tn⟩ := typed2 h
  obtain ⟨a, rfl⟩ := ta
  obtain ⟨n, rfl, hn⟩ := hasTy_int tn
  exact total_vec (called_fn (by kernel_rfl) (vshrn_n_s64_source a n hn)) (vshrn_n_s64_good a n) (.inl (written_s64x2_imm_to_s32x2 _ (.head _) a n))

theorem vshrn_n_u16_good [Dialect] (a : uint16x8_t) (n : Int) : Good (some "vshrn_n_u16: param n not in range [1, 8]\n") True (fun _ => True) (Model.vshrn_n_u16 a n) := by
  unfold Model.vshrn_n_u16
  good_body

theorem vshrn_n_u16_typed [Dialect] : Total (k!"vshrn_n_u16", .fn Source.vshrn_n_u16) := by
  refine total_fn vshrn_n_u16_sig_read fun args h => ?_
  obtain ⟨a0, n0, rfl, ta, tn⟩ := typed2 h
  obtain ⟨a, rfl⟩ := ta
  obtain ⟨n, rfl, hn⟩ := hasTy_int tn
  exact total_vec (called_fn (by kernel_rfl) (vshrn_n_u16_source a n hn)) (vshrn_n_u16_good a n) (.inl (written_u16x8_imm_to_u8x8 _ (.head _) a n))

theorem vshrn_n_u32_good [Dialect] (a : uint32x4_t) (n : Int) : Good (some "vshrn_n_u32: param n not in range [1, 8]\n") True (fun _ => True) (Model.vshrn_n_u32 a n) := by
  unfold Model.vshrn_n_u32
  good_body

theorem vshrn_n_u32_typed [Dialect] : Total (k!"vshrn_n_u32", .fn Source.vshrn_n_u32) := by
  refine total_fn vshrn_n_u32_sig_read fun args h => ?_
  obtain ⟨a0, n0, rfl, ta, tn⟩ := typed2 h
  obtain ⟨a, rfl⟩ := ta
  obtain ⟨n, rfl, hn⟩ := hasTy_int tn
  exact total_vec (called_fn (by kernel_rfl) (vshrn_n_u32_source a n hn)) (vshrn_n_u32_good a n) (.inl (written_u32x4_imm_to_u16x4 _ (.head _) a n))

theorem vshrn_n_u64_good [Dialect] (a : uint64x2_t) (n : Int) : Good (some "vshrn_n_u64: param n not in range [1, 8]\n") True (fun _ => True) (Model.vshrn_n_u64 a n) := by
  unfold Model.vshrn_n_u64
  good_body

theorem vshrn_n_u64_typed [Dialect] : Total (k!"vshrn_n_u64", .fn Source.vshrn_n_u64) := by
  refine total_fn vshrn_n_u64_sig_read fun args h => ?_
  obtain ⟨a0, n0, rfl, ta, tn⟩ := typed2 h
  obtain ⟨a, rfl⟩ := ta
  obtain ⟨n, rfl, hn⟩ := hasTy_int tn
  exact total_vec (called_fn (by kernel_rfl) (vshrn_n_u64_source a n hn)) (vshrn_n_u64_good a n) (.inl (written_u64x2_imm_to_u32x2 _ (.head _) a n))

theorem vshr_n_u16_good [Dialect] (v : uint16x4_t) (n : Int) : Good (some "vshr_n_u16: param n not in range [1, 8]\n") True (fun _ => True) (Model.vshr_n_u16 v n) := by
  unfold Model.vshr_n_u16
  good_body

theorem vshr_n_u16_typed [Dialect] : Total (k!"vshr_n_u16", .fn Source.vshr_n_u16) := by
  refine total_fn vshr_n_u16_sig_read fun args h => ?_
  obtain ⟨v0, n0, rfl, tv, tn⟩ := typed2 h
  obtain ⟨v, rfl⟩ := tv
  obtain ⟨n, rfl, hn⟩ := hasTy_int tn
  exact total_vec (called_fn (by kernel_rfl) (vshr_n_u16_source v n hn)) (vshr_n_u16_good v n) (.inl (written_u16x4_imm_to_u16x4 _ (.head _) v n))

theorem vqshrun_n_s16_good [Dialect] (v : int16x8_t) (n : Int) : Good (some "vqshrun_n_s16: param n not in range [1, 8]\n") True (fun _ => True) (Model.vqshrun_n_s16 v n) := by
  unfold Model.vqshrun_n_s16
  good_body

theorem vqshrun_n_s16_typed [Dialect] : Total (k!"vqshrun_n_s16", .fn Source.vqshrun_n_s16) := by
  refine total_fn vqshrun_n_s16_sig_read fun args h => ?_
  obtain ⟨v0, n0, rfl, tv, tn⟩ := typed2 h
  obtain ⟨v, rfl⟩ := tv
  obtain ⟨n, rfl, hn⟩ := hasTy_int tn
  exact total_vec (called_fn (by kernel_rfl) (vqshrun_n_s16_source v n hn)) (vqshrun_n_s16_good v n) (.inl (written_s16x8_imm_to_u8x8 _ (.head _) v n))

theorem vqrshrun_n_s16_good [Dialect] (v : int16x8_t) (n : Int) : Good (some "vqrshrun_n_s16: param n not in range [1, 8]\n") True (fun _ => True) (Model.vqrshrun_n_s16 v n) := by
  unfold Model.vqrshrun_n_s16
  good_body

theorem vqrshrun_n_s16_typed [Dialect] : Total (k!"vqrshrun_n_s16", .fn Source.vqrshrun_n_s16) := by
  refine total_fn vqrshrun_n_s16_sig_read fun args h => ?_
  obtain ⟨v0, n0, rfl, tv, tn⟩ := typed2 h
  obtain ⟨v, rfl⟩ := tv
  obtain ⟨n, rfl, hn⟩ := hasTy_int tn
  exact total_vec (called_fn (by kernel_rfl) (vqrshrun_n_s16_source v n hn)) (vqrshrun_n_s16_good v n) (.inl (written_s16x8_imm_to_u8x8 _ (.tail _ (.head _)) v n))

theorem vqshrn_n_s16_good [Dialect] (a : int16x8_t) (n : Int) : Good none True (fun _ => True) (Model.vqshrn_n_s16 a n) := by
  unfold Model.vqshrn_n_s16
  good_body

theorem vqshrn_n_s16_typed [Dialect] : Total (k!"vqshrn_n_s16", .fn Source.vqshrn_n_s16) := by
  refine total_fn vqshrn_n_s16_sig_read fun args h => ?_
  obtain ⟨a0, n0, rfl, ta, tn⟩ := typed2 h
  obtain ⟨a, rfl⟩ := ta
  obtain ⟨n, rfl, hn⟩ := hasTy_int tn
  exact total_vec (called_fn (by kernel_rfl) (vqshrn_n_s16_source a n hn)) (vqshrn_n_s16_good a n) (.inl (written_s16x8_imm_to_s8x8 _ (.tail _ (.head _)) a n))

theorem vqshrn_n_s32_good [Dialect] (a : int32x4_t) (n : Int) : Good none True (fun _ => True) (Model.vqshrn_n_s32 a n) := by
  unfold Model.vqshrn_n_s32
  good_body

theorem vqshrn_n_s32_typed [Dialect] : Total (k!"vqshrn_n_s32", .fn Source.vqshrn_n_s32) := by
  refine total_fn vqshrn_n_s32_sig_read fun args h => ?_
  obtain ⟨a0, n0, rfl, ta, tn⟩ := typed2 h
  obtain ⟨a, rfl⟩ := ta
  obtain ⟨n, rfl, hn⟩ := hasTy_int tn
  exact total_vec (called_fn (by kernel_rfl) (vqshrn_n_s32_source a n hn)) (vqshrn_n_s32_good a n) (.inl (written_s32x4_imm_to_s16x4 _ (.tail _ (.head _)) a n))

theorem vqshrn_n_u16_good [Dialect] (a : uint16x8_t) (n : Int) : Good none True (fun _ => True) (Model.vqshrn_n_u16 a n) := by
  unfold Model.vqshrn_n_u16
  good_body

theorem vqshrn_n_u16_typed [Dialect] : Total (k!"vqshrn_n_u16", .fn Source.vqshrn_n_u16) := by
  refine total_fn vqshrn_n_u16_sig_read fun args h => ?_
  obtain ⟨a0, n0, rfl, ta, tn⟩ := typed2 h
  obtain ⟨a, rfl⟩ := ta
  obtain ⟨n, rfl, hn⟩ := hasTy_int tn
  exact total_vec (called_fn (by kernel_rfl) (vqshrn_n_u16_source a n hn)) (vqshrn_n_u16_good a n) (.inl (written_u16x8_imm_to_u8x8 _ (.tail _ (.tail _ (.head _))) a n))

theorem vqshrn_n_u32_good [Dialect] (a : uint32x4_t) (n : Int) : Good none True (fun _ => True) (Model.vqshrn_n_u32 a n) := by
  unfold Model.vqshrn_n_u32
  good_body

theorem vqshrn_n_u32_typed [Dialect] : Total (k!"vqshrn_n_u32", .fn Source.vqshrn_n_u32) := by
  refine total_fn vqshrn_n_u32_sig_read fun args h => ?_
  obtain ⟨a0, n0, rfl, ta, tn⟩ := typed2 h
  obtain ⟨a, rfl⟩ := ta
  obtain ⟨n, rfl, hn⟩ := hasTy_int tn
  exact total_vec (called_fn (by kernel_rfl) (vqshrn_n_u32_source a n hn)) (vqshrn_n_u32_good a n) (.inl (written_u32x4_imm_to_u16x4 _ (.tail _ (.head _)) a n))

theorem vqshrn_n_u64_good [Dialect] (a : uint64x2_t) (n : Int) : Good none True (fun _ => True) (Model.vqshrn_n_u64 a n) := by
  unfold Model.vqshrn_n_u64
  good_body

theorem vqshrn_n_u64_typed [Dialect] : Total (k!"vqshrn_n_u64", .fn Source.vqshrn_n_u64) := by
  refine total_fn vqshrn_n_u64_sig_read fun args h => ?_
  obtain ⟨a0, n0, rfl, ta, tn⟩ := typed2 h
  obtain ⟨a, rfl⟩ := ta
  obtain ⟨n, rfl, hn⟩ := hasTy_int tn
  exact total_vec (called_fn (by kernel_rfl) (vqshrn_n_u64_source a n hn)) (vqshrn_n_u64_good a n) (.inl (written_u64x2_imm_to_u32x2 _ (.tail _ (.head _)) a n))

theorem vqshrn_n_s64_good [Dialect] (a : int64x2_t) (n : Int) : Good none True (fun _ => True) (Model.vqshrn_n_s64 a n) := by
  unfold Model.vqshrn_n_s64
  good_body

theorem vqshrn_n_s64_typed [Dialect] : Total (k!"vqshrn_n_s64", .fn Source.vqshrn_n_s64) := by
  refine total_fn vqshrn_n_s64_sig_read fun args h => ?_
  obtain ⟨a0, n0, rfl, ta, tn⟩ := typed2 h
  obtain ⟨a, rfl⟩ := ta
  obtain ⟨n, rfl, hn⟩ := hasTy_int tn
  exact total_vec (called_fn (by kernel_rfl) (vqshrn_n_s64_source a n hn)) (vqshrn_n_s64_good a n) (.inl (written_s64x2_imm_to_s32x2 _ (.tail _ (.head _)) a n))

theorem vrshrn_n_u16_good [Dialect] (a : uint16x8_t) (n : Int) : Good none True (fun _ => True) (Model.vrshrn_n_u16 a n) := by
  unfold Model.vrshrn_n_u16
  good_body

theorem vrshrn_n_u16_typed [Dialect] : Total (k!"vrshrn_n_u16", .fn Source.vrshrn_n_u16) := by
  refine total_fn vrshrn_n_u16_sig_read fun args h => ?_
  obtain ⟨a0, n0, rfl, ta, tn⟩ := typed2 h
  obtain ⟨a, rfl⟩ := ta
  obtain ⟨n, rfl, hn⟩ := hasTy_int tn
  exact total_vec (called_fn (by kernel_rfl) (vrshrn_n_u16_source a n hn)) (vrshrn_n_u16_good a n) (.inl (written_u16x8_imm_to_u8x8 _ (.tail _ (.head _)) a n))

theorem vsraq_n_s32_good [Dialect] (a : int32x4_t) (b : int32x4_t) (n : Int) : Good none True (fun _ => True) (Model.vsraq_n_s32 a b n) := by
  unfold Model.vsraq_n_s32
  good_body

theorem vsraq_n_s32_typed [Dialect] : Total (k!"vsraq_n_s32", .fn Source.vsraq_n_s32) := by
  refine total_fn vsraq_n_s32_sig_read fun args h => ?_
  obtain ⟨a0, b0, n0, rfl, ta, tb, tn⟩ := typed3 h
  obtain ⟨a, rfl⟩ := ta
  obtain ⟨b, rfl⟩ := tb
  obtain ⟨n, rfl, hn⟩ := hasTy_int tn
  exact total_vec (called_fn (by kernel_rfl) (vsraq_n_s32_source a b n hn)) (vsraq_n_s32_good a b n) (.inl (written_s32x4_s32x4_imm_to_s32x4 _ (.head _) a b n))

theorem vshlq_n_s32_good [Dialect] (M : int32x4_t) (n : Int) : Good none True (fun _ => True) (Model.vshlq_n_s32 M n) := by
  unfold Model.vshlq_n_s32
  good_body

theorem vshlq_n_s32_typed [Dialect] : Total (k!"vshlq_n_s32", .fn Source.vshlq_n_s32) := by
  refine total_fn vshlq_n_s32_sig_read fun args h => ?_
  obtain ⟨M0, n0, rfl, tM, tn⟩ := typed2 h
  obtain ⟨M, rfl⟩ := tM
  obtain ⟨n, rfl, hn⟩ := hasTy_int tn
  exact total_vec (called_fn (by kernel_rfl) (vshlq_n_s32_source M n hn)) (vshlq_n_s32_good M n) (.inl (written_s32x4_imm_to_s32x4 _ (.head _) M n))

theorem vshll_n_u8_good [Dialect] (a : uint8x8_t) (n : Int) : Good none True (fun _ => True) (Model.vshll_n_u8 a n) := by
  unfold Model.vshll_n_u8
  good_body

theorem vshll_n_u8_typed [Dialect] : Total (k!"vshll_n_u8", .fn Source.vshll_n_u8) := by
  refine total_fn vshll_n_u8_sig_read fun args h => ?_
  obtain ⟨a0, n0, rfl, ta, tn⟩ := typed2 h
  obtain ⟨a, rfl⟩ := ta
  obtain ⟨n, rfl, hn⟩ := hasTy_int tn
  exact total_vec (called_fn (by kernel_rfl) (vshll_n_u8_source a n hn)) (vshll_n_u8_good a n) (.inl (written_u8x8_imm_to_u16x8 _ (.head _) a n))

theorem vqshrun_n_s32_good [Dialect] (v : int32x4_t) (n : Int) : Good (some "vqshrun_n_s32: param n out of range\n") True (fun _ => True) (Model.vqshrun_n_s32 v n) := by
  unfold Model.vqshrun_n_s32
  good_body

theorem vqshrun_n_s32_typed [Dialect] : Total (k!"vqshrun_n_s32", .fn Source.vqshrun_n_s32) := by
  refine total_fn vqshrun_n_s32_sig_read fun args h => ?_
  obtain ⟨v0, n0, rfl, tv, tn⟩ := typed2 h
  obtain ⟨v, rfl⟩ := tv
  obtain ⟨n, rfl, hn⟩ := hasTy_int tn
  exact total_vec (called_fn (by kernel_rfl) (vqshrun_n_s32_source v n hn)) (vqshrun_n_s32_good v n) (.inr (by decide))

theorem vqshrun_n_s64_good [Dialect] (v : int64x2_t) (n : Int) : Good (some "vqshrun_n_s64: param n out of range\n") True (fun _ => True) (Model.vqshrun_n_s64 v n) := by
  unfold Model.vqshrun_n_s64
  good_body

theorem vqshrun_n_s64_typed [Dialect] : Total (k!"vqshrun_n_s64", .fn Source.vqshrun_n_s64) := by
  refine total_fn vqshrun_n_s64_sig_read fun args h => ?_
  obtain ⟨v0, n0, rfl, tv, tn⟩ := typed2 h
  obtain ⟨v, rfl⟩ := tv
  obtain ⟨n, rfl, hn⟩ := hasTy_int tn
  exact total_vec (called_fn (by kernel_rfl) (vqshrun_n_s64_source v n hn)) (vqshrun_n_s64_good v n) (.inr (by decide))

theorem vaddl_u8_good [Dialect] (a : uint8x8_t) (b : uint8x8_t) : Good none True (fun _ => True) (Model.vaddl_u8 a b) := by
  unfold Model.vaddl_u8
  good_body

theorem vaddl_u8_typed [Dialect] : Total (k!"vaddl_u8", .fn Source.vaddl_u8) := by
  refine total_fn vaddl_u8_sig_read fun args h => ?_
  obtain ⟨a0, b0, rfl, ta, tb⟩ := typed2 h
  obtain ⟨a, rfl⟩ := ta
  obtain ⟨b, rfl⟩ := tb
  exact total_vec (called_fn (by kernel_rfl) (vaddl_u8_source a b)) (vaddl_u8_good a b) (.inl (written_u8x8_u8x8_to_u16x8 _ (.head _) a b))

theorem vaddw_s8_good [Dialect] (a : int16x8_t) (b : int8x8_t) : Good none True (fun _ => True) (Model.vaddw_s8 a b) := by
  unfold Model.vaddw_s8
  good_body

theorem vaddw_s8_typed [Dialect] : Total (k!"vaddw_s8", .fn Source.vaddw_s8) := by
  refine total_fn vaddw_s8_sig_read fun args h => ?_
  obtain ⟨a0, b0, rfl, ta, tb⟩ := typed2 h
  obtain ⟨a, rfl⟩ := ta
  obtain ⟨b, rfl⟩ := tb
  exact total_vec (called_fn (by kernel_rfl) (vaddw_s8_source a b)) (vaddw_s8_good a b) (.inl (written_s16x8_s8x8_to_s16x8 _ (.head _) a b))

theorem vaddw_s16_good [Dialect] (a : int32x4_t) (b : int16x4_t) : Good none True (fun _ => True) (Model.vaddw_s16 a b) := by
  unfold Model.vaddw_s16
  good_body

theorem vaddw_s16_typed [Dialect] : Total (k!"vaddw_s16", .fn Source.vaddw_s16) := by
  refine total_fn vaddw_s16_sig_read fun args h => ?_
  obtain ⟨a0, b0, rfl, ta, tb⟩ := typed2 h
  obtain ⟨a, rfl⟩ := ta
  obtain ⟨b, rfl⟩ := tb
  exact total_vec (called_fn (by kernel_rfl) (vaddw_s16_source a b)) (vaddw_s16_good a b) (.inl (written_s32x4_s16x4_to_s32x4 _ (.head _) a b))

theorem vaddw_s32_good [Dialect] (a : int64x2_t) (b : int32x2_t) : Good none True (fun _ => True) (Model.vaddw_s32 a b) := by
  unfold Model.vaddw_s32
  good_body

theorem vaddw_s32_typed [Dialect] : Total (k!"vaddw_s32", .fn Source.vaddw_s32) := by
  refine total_fn vaddw_s32_sig_read fun args h => ?_
  obtain ⟨a0, b0, rfl, ta, tb⟩ := typed2 h
  obtain ⟨a, rfl⟩ := ta
  obtain ⟨b, rfl⟩ := tb
  exact total_vec (called_fn (by kernel_rfl) (vaddw_s32_source a b)) (vaddw_s32_good a b) (.inl (written_s64x2_s32x2_to_s64x2 _ (.head _) a b))

theorem vaddw_u8_good [Dialect] (a : uint16x8_t) (b : uint8x8_t) : Good none True (fun _ => True) (Model.vaddw_u8 a b) := by
  unfold Model.vaddw_u8
  good_body

theorem vaddw_u8_typed [Dialect] : Total (k!"vaddw_u8", .fn Source.vaddw_u8) := by
  refine total_fn vaddw_u8_sig_read fun args h => ?_
  obtain ⟨a0, b0, rfl, ta, tb⟩ := typed2 h
  obtain ⟨a, rfl⟩ := ta
  obtain ⟨b, rfl⟩ := tb
  exact total_vec (called_fn (by kernel_rfl) (vaddw_u8_source a b)) (vaddw_u8_good a b) (.inl (written_u16x8_u8x8_to_u16x8 _ (.head _) a b))

theorem vaddw_u16_good [Dialect] (a : uint32x4_t) (b : uint16x4_t) : Good none True (fun _ => True) (Model.vaddw_u16 a b) := by
  unfold Model.vaddw_u16
  good_body

theorem vaddw_u16_typed [Dialect] : Total (k!"vaddw_u16", .fn Source.vaddw_u16) := by
  refine total_fn vaddw_u16_sig_read fun args h => ?_
  obtain ⟨a0, b0, rfl, ta, tb⟩ := typed2 h
  obtain ⟨a, rfl⟩ := ta
  obtain ⟨b, rfl⟩ := tb
  exact total_vec (called_fn (by kernel_rfl) (vaddw_u16_source a b)) (vaddw_u16_good a b) (.inl (written_u32x4_u16x4_to_u32x4 _ (.head _) a b))

theorem vaddw_u32_good [Dialect] (a : uint64x2_t) (b : uint32x2_t) : Good none True (fun _ => True) (Model.vaddw_u32 a b) := by
  unfold Model.vaddw_u32
  good_body

theorem vaddw_u32_typed [Dialect] : Total (k!"vaddw_u32", .fn Source.vaddw_u32) := by
  refine total_fn vaddw_u32_sig_read fun args h => ?_
  obtain ⟨a0, b0, rfl, ta, tb⟩ := typed2 h
  obtain ⟨a, rfl⟩ := ta
  obtain ⟨b, rfl⟩ := tb
  exact total_vec (called_fn (by kernel_rfl) (vaddw_u32_source a b)) (vaddw_u32_good a b) (.inl (written_u64x2_u32x2_to_u64x2 _ (.head _) a b))

theorem vaddw_high_s8_good [Dialect] (a : int16x8_t) (b : int8x16_t) : Good none True (fun _ => True) (Model.vaddw_high_s8 a b) := by
  unfold Model.vaddw_high_s8
  good_body

theorem vaddw_high_s8_typed [Dialect] : Total (k!"vaddw_high_s8", .fn Source.vaddw_high_s8) := by
  refine total_fn vaddw_high_s8_sig_read fun args h => ?_
  obtain ⟨a0, b0, rfl, ta, tb⟩ := typed2 h
  obtain ⟨a, rfl⟩ := ta
  obtain ⟨b, rfl⟩ := tb
  exact total_vec (called_fn (by kernel_rfl) (vaddw_high_s8_source a b)) (vaddw_high_s8_good a b) (.inl (written_s16x8_s8x16_to_s16x8 _ (.head _) a b))

theorem vaddw_high_s16_good [Dialect] (a : int32x4_t) (b : int16x8_t) : Good none True (fun _ => True) (Model.vaddw_high_s16 a b) := by
  unfold Model.vaddw_high_s16
  good_body

theorem vaddw_high_s16_typed [Dialect] : Total (k!"vaddw_high_s16", .fn Source.vaddw_high_s16) := by
  refine total_fn vaddw_high_s16_sig_read fun args h => ?_
  obtain ⟨a0, b0, rfl, ta, tb⟩ := typed2 h
  obtain ⟨a, rfl⟩ := ta
  obtain ⟨b, rfl⟩ := tb
  exact total_vec (called_fn (by kernel_rfl) (vaddw_high_s16_source a b)) (vaddw_high_s16_good a b) (.inl (written_s32x4_s16x8_to_s32x4 _ (.head _) a b))

theorem vaddw_high_s32_good [Dialect] (a : int64x2_t) (b : int32x4_t) : Good none True (fun _ => True) (Model.vaddw_high_s32 a b) := by
  unfold Model.vaddw_high_s32
  good_body

theorem vaddw_high_s32_typed [Dialect] : Total (k!"vaddw_high_s32", .fn Source.vaddw_high_s32) := by
  refine total_fn vaddw_high_s32_sig_read fun args h => ?_
  obtain ⟨a0, b0, rfl, ta, tb⟩ := typed2 h
  obtain ⟨a, rfl⟩ := ta
  obtain ⟨b, rfl⟩ := tb
  exact total_vec (called_fn (by kernel_rfl) (vaddw_high_s32_source a b)) (vaddw_high_s32_good a b) (.inl (written_s64x2_s32x4_to_s64x2 _ (.head _) a b))

theorem vaddw_high_u8_good [Dialect] (a : uint16x8_t) (b : uint8x16_t) : Good none True (fun _ => True) (Model.vaddw_high_u8 a b) := by
  unfold Model.vaddw_high_u8
  good_body

theorem vaddw_high_u8_typed [Dialect] : Total (k!"vaddw_high_u8", .fn Source.vaddw_high_u8) := by
  refine total_fn vaddw_high_u8_sig_read fun args h => ?_
  obtain ⟨a0, b0, rfl, ta, tb⟩ := typed2 h
  obtain ⟨a, rfl⟩ := ta
  obtain ⟨b, rfl⟩ := tb
  exact total_vec (called_fn (by kernel_rfl) (vaddw_high_u8_source a b)) (vaddw_high_u8_good a b) (.inl (written_u16x8_u8x16_to_u16x8 _ (.head _) a b))

theorem vaddw_high_u16_good [Dialect] (a : uint32x4_t) (b : uint16x8_t) : Good none True (fun _ => True) (Model.vaddw_high_u16 a b) := by
  unfold Model.vaddw_high_u16
  good_body

theorem vaddw_high_u16_typed [Dialect] : Total (k!"vaddw_high_u16", .fn Source.vaddw_high_u16) := by
  refine total_fn vaddw_high_u16_sig_read fun args h => ?_
  obtain ⟨a0, b0, rfl, ta, tb⟩ := typed2 h
  obtain ⟨a, rfl⟩ := ta
  obtain ⟨b, rfl⟩ := tb
  exact total_vec (called_fn (by kernel_rfl) (vaddw_high_u16_source a b)) (vaddw_high_u16_good a b) (.inl (written_u32x4_u16x8_to_u32x4 _ (.head _) a b))

theorem vaddw_high_u32_good [Dialect] (a : uint64x2_t) (b : uint32x4_t) : Good none True (fun _ => True) (Model.vaddw_high_u32 a b) := by
  unfold Model.vaddw_high_u32
  good_body

theorem vaddw_high_u32_typed [Dialect] : Total (k!"vaddw_high_u32", .fn Source.vaddw_high_u32) := by
  refine total_fn vaddw_high_u32_sig_read fun args h => ?_
  obtain ⟨a0, b0, rfl, ta, tb⟩ := typed2 h
  obtain ⟨a, rfl⟩ := ta
  obtain ⟨b, rfl⟩ := tb
  exact total_vec (called_fn (by kernel_rfl) (vaddw_high_u32_source a b)) (vaddw_high_u32_good a b) (.inl (written_u64x2_u32x4_to_u64x2 _ (.head _) a b))

theorem vaddl_high_s8_good [Dialect] (a : int8x16_t) (b : int8x16_t) : Good none True (fun _ => True) (Model.vaddl_high_s8 a b) := by
  unfold Model.vaddl_high_s8
  good_body

theorem vaddl_high_s8_typed [Dialect] : Total (k!"vaddl_high_s8", .fn Source.vaddl_high_s8) := by
  refine total_fn vaddl_high_s8_sig_read fun args h => ?_
  obtain ⟨a0, b0, rfl, ta, tb⟩ := typed2 h
  obtain ⟨a, rfl⟩ := ta
  obtain ⟨b, rfl⟩ := tb
  exact total_vec (called_fn (by kernel_rfl) (vaddl_high_s8_source a b)) (vaddl_high_s8_good a b) (.inl (written_s8x16_s8x16_to_s16x8 _ (.head _) a b))

theorem vaddl_high_s16_good [Dialect] (a : int16x8_t) (b : int16x8_t) : Good none True (fun _ => True) (Model.vaddl_high_s16 a b) := by
  unfold Model.vaddl_high_s16
  good_body

theorem vaddl_high_s16_typed [Dialect] : Total (k!"vaddl_high_s16", .fn Source.vaddl_high_s16) := by
  refine total_fn vaddl_high_s16_sig_read fun args h => ?_
  obtain ⟨a0, b0, rfl, ta, tb⟩ := typed2 h
  obtain ⟨a, rfl⟩ := ta
  obtain ⟨b, rfl⟩ := tb
  exact total_vec (called_fn (by kernel_rfl) (vaddl_high_s16_source a b)) (vaddl_high_s16_good a b) (.inl (written_s16x8_s16x8_to_s32x4 _ (.head _) a b))

theorem vaddl_high_s32_good [Dialect] (a : int32x4_t) (b : int32x4_t) : Good none True (fun _ => True) (Model.vaddl_high_s32 a b) := by
  unfold Model.vaddl_high_s32
  good_body

theorem vaddl_high_s32_typed [Dialect] : Total (k!"vaddl_high_s32", .fn Source.vaddl_high_s32) := by
  refine total_fn vaddl_high_s32_sig_read fun args h => ?_
  obtain ⟨a0, b0, rfl, ta, tb⟩ := typed2 h
  obtain ⟨a, rfl⟩ := ta
  obtain ⟨b, rfl⟩ := tb
  exact total_vec (called_fn (by kernel_rfl) (vaddl_high_s32_source a b)) (vaddl_high_s32_good a b) (.inl (written_s32x4_s32x4_to_s64x2 _ (.head _) a b))

theorem vaddl_high_u8_good [Dialect] (a : uint8x16_t) (b : uint8x16_t) : Good none True (fun _ => True) (Model.vaddl_high_u8 a b) := by
  unfold Model.vaddl_high_u8
  good_body

theorem vaddl_high_u8_typed [Dialect] : Total (k!"vaddl_high_u8", .fn Source.vaddl_high_u8) := by
  refine total_fn vaddl_high_u8_sig_read fun args h => ?_
  obtain ⟨a0, b0, rfl, ta, tb⟩ := typed2 h
  obtain ⟨a, rfl⟩ := ta
  obtain ⟨b, rfl⟩ := tb
  exact total_vec (called_fn (by kernel_rfl) (vaddl_high_u8_source a b)) (vaddl_high_u8_good a b) (.inl (written_u8x16_u8x16_to_u16x8 _ (.head _) a b))

theorem vaddl_high_u16_good [Dialect] (a : uint16x8_t) (b : uint16x8_t) : Good none True (fun _ => True) (Model.vaddl_high_u16 a b) := by
  unfold Model.vaddl_high_u16
  good_body

theorem vaddl_high_u16_typed [Dialect] : Total (k!"vaddl_high_u16", .fn Source.vaddl_high_u16) := by
  refine total_fn vaddl_high_u16_sig_read fun args h => ?_
  obtain ⟨a0, b0, rfl, ta, tb⟩ := typed2 h
  obtain ⟨a, rfl⟩ := ta
  obtain ⟨b, rfl⟩ := tb
  exact total_vec (called_fn (by kernel_rfl) (vaddl_high_u16_source a b)) (vaddl_high_u16_good a b) (.inl (written_u16x8_u16x8_to_u32x4 _ (.head _) a b))

theorem vaddl_high_u32_good [Dialect] (a : uint32x4_t) (b : uint32x4_t) : Good none True (fun _ => True) (Model.vaddl_high_u32 a b) := by
  unfold Model.vaddl_high_u32
  good_body

theorem vaddl_high_u32_typed [Dialect] : Total (k!"vaddl_high_u32", .fn Source.vaddl_high_u32) := by
  refine total_fn vaddl_high_u32_sig_read fun args h => ?_
  obtain ⟨a0, b0, rfl, ta, tb⟩ := typed2 h
  obtain ⟨a, rfl⟩ := ta
  obtain ⟨b, rfl⟩ := tb
  exact total_vec (called_fn (by kernel_rfl) (vaddl_high_u32_source a b)) (vaddl_high_u32_good a b) (.inl (written_u32x4_u32x4_to_u64x2 _ (.head _) a b))

theorem vst1_u8_good [Dialect] (ptr : Ptr .u8) (val : uint8x8_t) : Good none False (Same ptr) (Model.vst1_u8 ptr val) := by
  unfold Model.vst1_u8
  good_store

theorem vst1_u8_typed [Dialect] : Total (k!"vst1_u8", .fn Source.vst1_u8) := by
  refine total_fn vst1_u8_sig_read fun args h => ?_
  obtain ⟨ptr0, val0, rfl, tptr, tval⟩ := typed2 h
  obtain ⟨ptr, rfl⟩ := tptr
  obtain ⟨val, rfl⟩ := tval
  exact total_mem (called_fn (by kernel_rfl) (vst1_u8_source ptr val)) (vst1_u8_good ptr val)

theorem vst1_s8_good [Dialect] (ptr : Ptr .s8) (val : int8x8_t) : Good none False (Same ptr) (Model.vst1_s8 ptr val) := by
  unfold Model.vst1_s8
  good_store

theorem vst1_s8_typed [Dialect] : Total (k!"vst1_s8", .fn Source.vst1_s8) := by
  refine total_fn vst1_s8_sig_read fun args h => ?_
  obtain ⟨ptr0, val0, rfl, tptr, tval⟩ := typed2 h
  obtain ⟨ptr, rfl⟩ := tptr
  obtain ⟨val, rfl⟩ := tval
  exact total_mem (called_fn (by kernel_rfl) (vst1_s8_source ptr val)) (vst1_s8_good ptr val)

theorem vst1_u16_good [Dialect] (ptr : Ptr .u16) (val : uint16x4_t) : Good none False (Same ptr) (Model.vst1_u16 ptr val) := by
  unfold Model.vst1_u16
  good_store

theorem vst1_u16_typed [Dialect] : Total (k!"vst1_u16", .fn Source.vst1_u16) := by
  refine total_fn vst1_u16_sig_read fun args h => ?_
  obtain ⟨ptr0, val0, rfl, tptr, tval⟩ := typed2 h
  obtain ⟨ptr, rfl⟩ := tptr
  obtain ⟨val, rfl⟩ := tval
  exact total_mem (called_fn (by kernel_rfl) (vst1_u16_source ptr val)) (vst1_u16_good ptr val)

theorem vst1_s16_good [Dialect] (ptr : Ptr .s16) (val : int16x4_t) : Good none False (Same ptr) (Model.vst1_s16 ptr val) := by
  unfold Model.vst1_s16
  good_store

theorem vst1_s16_typed [Dialect] : Total (k!"vst1_s16", .fn Source.vst1_s16) := by
  refine total_fn vst1_s16_sig_read fun args h => ?_
  obtain ⟨ptr0, val0, rfl, tptr, tval⟩ := typed2 h
  obtain ⟨ptr, rfl⟩ := tptr
  obtain ⟨val, rfl⟩ := tval
  exact total_mem (called_fn (by kernel_rfl) (vst1_s16_source ptr val)) (vst1_s16_good ptr val)

theorem vst1_u32_good [Dialect] (ptr : Ptr .u32) (val : uint32x2_t) : Good none False (Same ptr) (Model.vst1_u32 ptr val) := by
  unfold Model.vst1_u32
  good_store

theorem vst1_u32_typed [Dialect] : Total (k!"vst1_u32", .fn Source.vst1_u32) := by
  refine total_fn vst1_u32_sig_read fun args h => ?_
  obtain ⟨ptr0, val0, rfl, tptr, tval⟩ := typed2 h
  obtain ⟨ptr, rfl⟩ := tptr
  obtain ⟨val, rfl⟩ := tval
  exact total_mem (called_fn (by kernel_rfl) (vst1_u32_source ptr val)) (vst1_u32_good ptr val)

theorem vst1_s32_good [Dialect] (ptr : Ptr .s32) (val : int32x2_t) : Good none False (Same ptr) (Model.vst1_s32 ptr val) := by
  unfold Model.vst1_s32
  good_store

theorem vst1_s32_typed [Dialect] : Total (k!"vst1_s32", .fn Source.vst1_s32) := by
  refine total_fn vst1_s32_sig_read fun args h => ?_
  obtain ⟨ptr0, val0, rfl, tptr, tval⟩ := typed2 h
  obtain ⟨ptr, rfl⟩ := tptr
  obtain ⟨val, rfl⟩ := tval
  exact total_mem (called_fn (by kernel_rfl) (vst1_s32_source ptr val)) (vst1_s32_good ptr val)

theorem vst1_s64_good [Dialect] (ptr : Ptr .s64) (val : int64x1_t) : Good none False (Same ptr) (Model.vst1_s64 ptr val) := by
  unfold Model.vst1_s64
  good_store

theorem vst1_s64_typed [Dialect] : Total (k!"vst1_s64", .fn Source.vst1_s64) := by
  refine total_fn vst1_s64_sig_read fun args h => ?_
  obtain ⟨ptr0, val0, rfl, tptr, tval⟩ := typed2 h
  obtain ⟨ptr, rfl⟩ := tptr
  obtain ⟨val, rfl⟩ := tval
  exact total_mem (called_fn (by kernel_rfl) (vst1_s64_source ptr val)) (vst1_s64_good ptr val)

end Verif.Props
