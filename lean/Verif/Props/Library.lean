import Verif.Cpp.Library

/-! # The library (generated by `tools/gen_arm.py`) -/

namespace Verif.Props
open Verif.Cpp

theorem library0_defines : ∀ e ∈ library0, e.2.Defines e.1 := by
  unfold library0
  repeat rw [List.forall_mem_cons]
  exact ⟨⟨_, Source.vadd_s8_parse, rfl⟩,
    ⟨_, Source.vadd_s16_parse, rfl⟩,
    ⟨_, Source.vadd_s32_parse, rfl⟩,
    ⟨_, Source.vadd_s64_parse, rfl⟩,
    ⟨_, Source.vadd_u8_parse, rfl⟩,
    ⟨_, Source.vadd_u16_parse, rfl⟩,
    ⟨_, Source.vadd_u32_parse, rfl⟩,
    ⟨_, Source.vadd_u64_parse, rfl⟩,
    ⟨_, Source.vaddq_s8_parse, rfl⟩,
    ⟨_, Source.vaddq_s16_parse, rfl⟩,
    ⟨_, Source.vaddq_s32_parse, rfl⟩,
    ⟨_, Source.vaddq_s64_parse, rfl⟩,
    ⟨_, Source.vaddq_u8_parse, rfl⟩,
    ⟨_, Source.vaddq_u16_parse, rfl⟩,
    ⟨_, Source.vaddq_u32_parse, rfl⟩,
    ⟨_, Source.vaddq_u64_parse, rfl⟩,
    ⟨_, Source.vsub_s8_parse, rfl⟩,
    ⟨_, Source.vsub_s16_parse, rfl⟩,
    ⟨_, Source.vsub_s32_parse, rfl⟩,
    ⟨_, Source.vsub_s64_parse, rfl⟩,
    ⟨_, Source.vsub_u8_parse, rfl⟩,
    ⟨_, Source.vsub_u16_parse, rfl⟩,
    ⟨_, Source.vsub_u32_parse, rfl⟩,
    ⟨_, Source.vsub_u64_parse, rfl⟩,
    ⟨_, Source.vsubq_s8_parse, rfl⟩,
    ⟨_, Source.vsubq_s16_parse, rfl⟩,
    ⟨_, Source.vsubq_s32_parse, rfl⟩,
    ⟨_, Source.vsubq_s64_parse, rfl⟩,
    ⟨_, Source.vsubq_u8_parse, rfl⟩,
    ⟨_, Source.vsubq_u16_parse, rfl⟩,
    ⟨_, Source.vsubq_u32_parse, rfl⟩,
    ⟨_, Source.vsubq_u64_parse, rfl⟩,
    ⟨_, Source.vaddq_f32_parse, rfl⟩,
    ⟨_, Source.vsub_f32_parse, rfl⟩,
    ⟨_, Source.vsub_f32_overload2_parse, rfl⟩,
    ⟨_, Source.vsubq_f32_parse, rfl⟩,
    ⟨_, Source.vmulq_f32_parse, rfl⟩,
    ⟨_, Source.vmul_n_f32_parse, rfl⟩,
    ⟨_, Source.vmul_n_f64_parse, rfl⟩,
    ⟨_, Source.vmulq_n_f32_parse, rfl⟩,
    ⟨_, Source.vmulq_n_f64_parse, rfl⟩,
    ⟨_, Source.vdiv_f32_parse, rfl⟩,
    ⟨_, Source.vdiv_f64_parse, rfl⟩,
    ⟨_, Source.vdivq_f32_parse, rfl⟩,
    ⟨_, Source.vdivq_f64_parse, rfl⟩,
    ⟨_, Source.vmlaq_f32_parse, rfl⟩,
    ⟨_, Source.vmlaq_n_f32_parse, rfl⟩,
    ⟨_, Source.vcvtq_f32_s32_parse, rfl⟩,
    ⟨_, Source.vcvtq_s32_f32_parse, rfl⟩,
    ⟨_, Source.vcvtq_u32_f32_parse, rfl⟩,
    ⟨_, Source.vcvtnq_s32_f32_parse, rfl⟩,
    ⟨_, Source.vcltq_f32_parse, rfl⟩,
    ⟨_, Source.vmaxq_f32_parse, rfl⟩,
    ⟨_, Source.vminq_f32_parse, rfl⟩,
    ⟨_, Source.vpmax_f32_parse, rfl⟩,
    ⟨_, Source.vpmin_f32_parse, rfl⟩,
    ⟨_, Source.vbslq_f32_parse, rfl⟩,
    ⟨_, Source.vld1_u8_parse, rfl⟩,
    ⟨_, Source.vld1_s8_parse, rfl⟩,
    ⟨_, Source.vld1_u16_parse, rfl⟩,
    fun _ h => absurd h List.not_mem_nil⟩

theorem library1_defines : ∀ e ∈ library1, e.2.Defines e.1 := by
  unfold library1
  repeat rw [List.forall_mem_cons]
  exact ⟨⟨_, Source.vld1_s16_parse, rfl⟩,
    ⟨_, Source.vld1_u32_parse, rfl⟩,
    ⟨_, Source.vld1_u64_parse, rfl⟩,
    ⟨_, Source.vld1_s32_parse, rfl⟩,
    ⟨_, Source.vld1_s64_parse, rfl⟩,
    ⟨_, Source.vld1_f32_parse, rfl⟩,
    ⟨_, Source.vld1_f64_parse, rfl⟩,
    ⟨_, Source.vld1q_u8_parse, rfl⟩,
    ⟨_, Source.vld1q_s8_parse, rfl⟩,
    ⟨_, Source.vld1q_u16_parse, rfl⟩,
    ⟨_, Source.vld1q_s16_parse, rfl⟩,
    ⟨_, Source.vld1q_u32_parse, rfl⟩,
    ⟨_, Source.vld1q_s32_parse, rfl⟩,
    ⟨_, Source.vld1q_s64_parse, rfl⟩,
    ⟨_, Source.vld1q_u64_parse, rfl⟩,
    ⟨_, Source.vld1q_f32_parse, rfl⟩,
    ⟨_, Source.vld2_u8_parse, rfl⟩,
    ⟨_, Source.vld2_s8_parse, rfl⟩,
    ⟨_, Source.vld2_u16_parse, rfl⟩,
    ⟨_, Source.vld2_s16_parse, rfl⟩,
    ⟨_, Source.vld2_u32_parse, rfl⟩,
    ⟨_, Source.vld_s32_parse, rfl⟩,
    ⟨_, Source.vld2_f32_parse, rfl⟩,
    ⟨_, Source.vld2q_u8_parse, rfl⟩,
    ⟨_, Source.vld2q_s8_parse, rfl⟩,
    ⟨_, Source.vld2q_u16_parse, rfl⟩,
    ⟨_, Source.vld2q_s16_parse, rfl⟩,
    ⟨_, Source.vld2q_u32_parse, rfl⟩,
    ⟨_, Source.vld2q_s32_parse, rfl⟩,
    ⟨_, Source.vld3_u8_parse, rfl⟩,
    ⟨_, Source.vld3_s8_parse, rfl⟩,
    ⟨_, Source.vld3_u16_parse, rfl⟩,
    ⟨_, Source.vld3_s16_parse, rfl⟩,
    ⟨_, Source.vld3_u32_parse, rfl⟩,
    ⟨_, Source.vld3_s32_parse, rfl⟩,
    ⟨_, Source.vld3_f32_parse, rfl⟩,
    ⟨_, Source.vld3q_u8_parse, rfl⟩,
    ⟨_, Source.vld3q_s8_parse, rfl⟩,
    ⟨_, Source.vld3q_u16_parse, rfl⟩,
    ⟨_, Source.vld3q_s16_parse, rfl⟩,
    ⟨_, Source.vld3q_u32_parse, rfl⟩,
    ⟨_, Source.vld3q_s32_parse, rfl⟩,
    ⟨_, Source.vld4_u8_parse, rfl⟩,
    ⟨_, Source.vld4_s8_parse, rfl⟩,
    ⟨_, Source.vld4_u16_parse, rfl⟩,
    ⟨_, Source.vld4_s16_parse, rfl⟩,
    ⟨_, Source.vld4_u32_parse, rfl⟩,
    ⟨_, Source.vld4_s32_parse, rfl⟩,
    ⟨_, Source.vld4_f32_parse, rfl⟩,
    ⟨_, Source.vld4q_u8_parse, rfl⟩,
    ⟨_, Source.vld4q_s8_parse, rfl⟩,
    ⟨_, Source.vld4q_u16_parse, rfl⟩,
    ⟨_, Source.vld4q_s16_parse, rfl⟩,
    ⟨_, Source.vld4q_u32_parse, rfl⟩,
    ⟨_, Source.vld4q_s32_parse, rfl⟩,
    ⟨_, Source.vld1q_dup_f32_parse, rfl⟩,
    ⟨_, Source.vld1_lane_s8_parse, rfl⟩,
    ⟨_, Source.vld1_lane_u8_parse, rfl⟩,
    ⟨_, Source.vld2_lane_u8_parse, rfl⟩,
    ⟨_, Source.vld3_lane_u8_parse, rfl⟩,
    fun _ h => absurd h List.not_mem_nil⟩

theorem library2_defines : ∀ e ∈ library2, e.2.Defines e.1 := by
  unfold library2
  repeat rw [List.forall_mem_cons]
  exact ⟨⟨_, Source.vld4_lane_u8_parse, rfl⟩,
    ⟨_, Source.vand_s8_parse, rfl⟩,
    ⟨_, Source.vand_s16_parse, rfl⟩,
    ⟨_, Source.vand_s32_parse, rfl⟩,
    ⟨_, Source.vand_s64_parse, rfl⟩,
    ⟨_, Source.vand_u8_parse, rfl⟩,
    ⟨_, Source.vand_u16_parse, rfl⟩,
    ⟨_, Source.vand_u32_parse, rfl⟩,
    ⟨_, Source.vand_u64_parse, rfl⟩,
    ⟨_, Source.vandq_s8_parse, rfl⟩,
    ⟨_, Source.vandq_s16_parse, rfl⟩,
    ⟨_, Source.vandq_s32_parse, rfl⟩,
    ⟨_, Source.vandq_s64_parse, rfl⟩,
    ⟨_, Source.vandq_u8_parse, rfl⟩,
    ⟨_, Source.vandq_u16_parse, rfl⟩,
    ⟨_, Source.vandq_u32_parse, rfl⟩,
    ⟨_, Source.vandq_u64_parse, rfl⟩,
    ⟨_, Source.vorr_s8_parse, rfl⟩,
    ⟨_, Source.vorr_s16_parse, rfl⟩,
    ⟨_, Source.vorr_s32_parse, rfl⟩,
    ⟨_, Source.vorr_s64_parse, rfl⟩,
    ⟨_, Source.vorr_u8_parse, rfl⟩,
    ⟨_, Source.vorr_u16_parse, rfl⟩,
    ⟨_, Source.vorr_u32_parse, rfl⟩,
    ⟨_, Source.vorr_u64_parse, rfl⟩,
    ⟨_, Source.vorrq_s8_parse, rfl⟩,
    ⟨_, Source.vorrq_s16_parse, rfl⟩,
    ⟨_, Source.vorrq_s32_parse, rfl⟩,
    ⟨_, Source.vorrq_s64_parse, rfl⟩,
    ⟨_, Source.vorrq_u8_parse, rfl⟩,
    ⟨_, Source.vorrq_u16_parse, rfl⟩,
    ⟨_, Source.vorrq_u32_parse, rfl⟩,
    ⟨_, Source.vorrq_u64_parse, rfl⟩,
    ⟨_, Source.veor_s8_parse, rfl⟩,
    ⟨_, Source.veor_s16_parse, rfl⟩,
    ⟨_, Source.veor_s32_parse, rfl⟩,
    ⟨_, Source.veor_s64_parse, rfl⟩,
    ⟨_, Source.veor_u8_parse, rfl⟩,
    ⟨_, Source.veor_u16_parse, rfl⟩,
    ⟨_, Source.ver_u32_parse, rfl⟩,
    ⟨_, Source.veor_u64_parse, rfl⟩,
    ⟨_, Source.veorq_s8_parse, rfl⟩,
    ⟨_, Source.veorq_s16_parse, rfl⟩,
    ⟨_, Source.veorq_s32_parse, rfl⟩,
    ⟨_, Source.veorq_s64_parse, rfl⟩,
    ⟨_, Source.veorq_u8_parse, rfl⟩,
    ⟨_, Source.veorq_u16_parse, rfl⟩,
    ⟨_, Source.veorq_u32_parse, rfl⟩,
    ⟨_, Source.veorq_u64_parse, rfl⟩,
    ⟨_, Source.vmvn_s8_parse, rfl⟩,
    ⟨_, Source.vmvn_s16_parse, rfl⟩,
    ⟨_, Source.vmvn_s32_parse, rfl⟩,
    ⟨_, Source.vmvn_u8_parse, rfl⟩,
    ⟨_, Source.vmvn_u16_parse, rfl⟩,
    ⟨_, Source.vmvn_u32_parse, rfl⟩,
    ⟨_, Source.vmvnq_s8_parse, rfl⟩,
    ⟨_, Source.vmvnq_s16_parse, rfl⟩,
    ⟨_, Source.vmvnq_s32_parse, rfl⟩,
    ⟨_, Source.vmvnq_u8_parse, rfl⟩,
    ⟨_, Source.vmvnq_u16_parse, rfl⟩,
    fun _ h => absurd h List.not_mem_nil⟩

theorem library3_defines : ∀ e ∈ library3, e.2.Defines e.1 := by
  unfold library3
  repeat rw [List.forall_mem_cons]
  exact ⟨⟨_, Source.vmvnq_u32_parse, rfl⟩,
    ⟨_, Source.vmaxq_s8_parse, rfl⟩,
    ⟨_, Source.vmaxq_s16_parse, rfl⟩,
    ⟨_, Source.vmaxq_s32_parse, rfl⟩,
    ⟨_, Source.vmaxq_u8_parse, rfl⟩,
    ⟨_, Source.vmaxq_u16_parse, rfl⟩,
    ⟨_, Source.vmaxq_u32_parse, rfl⟩,
    ⟨_, Source.vminq_s8_parse, rfl⟩,
    ⟨_, Source.vminq_s16_parse, rfl⟩,
    ⟨_, Source.vminq_s32_parse, rfl⟩,
    ⟨_, Source.vminq_u8_parse, rfl⟩,
    ⟨_, Source.vminq_u16_parse, rfl⟩,
    ⟨_, Source.vminq_u32_parse, rfl⟩,
    ⟨_, Source.vdup_n_s8_parse, rfl⟩,
    ⟨_, Source.vdup_n_s16_parse, rfl⟩,
    ⟨_, Source.vdup_n_s32_parse, rfl⟩,
    ⟨_, Source.vdup_n_s64_parse, rfl⟩,
    ⟨_, Source.vdup_n_u8_parse, rfl⟩,
    ⟨_, Source.vdup_n_u16_parse, rfl⟩,
    ⟨_, Source.vdup_n_u32_parse, rfl⟩,
    ⟨_, Source.vdup_n_u64_parse, rfl⟩,
    ⟨_, Source.vdupq_n_u8_parse, rfl⟩,
    ⟨_, Source.vdupq_n_s8_parse, rfl⟩,
    ⟨_, Source.vdupq_n_u16_parse, rfl⟩,
    ⟨_, Source.vdupq_n_s16_parse, rfl⟩,
    ⟨_, Source.vdupq_n_u32_parse, rfl⟩,
    ⟨_, Source.vdupq_n_s32_parse, rfl⟩,
    ⟨_, Source.vdupq_n_f32_parse, rfl⟩,
    ⟨_, Source.vmovq_n_f32_parse, rfl⟩,
    ⟨_, Source.vget_low_f32_parse, rfl⟩,
    ⟨_, Source.vget_low_s32_parse, rfl⟩,
    ⟨_, Source.vget_low_u32_parse, rfl⟩,
    ⟨_, Source.vget_low_s16_parse, rfl⟩,
    ⟨_, Source.vget_low_u16_parse, rfl⟩,
    ⟨_, Source.vget_low_s8_parse, rfl⟩,
    ⟨_, Source.vget_low_u8_parse, rfl⟩,
    ⟨_, Source.vget_high_f32_parse, rfl⟩,
    ⟨_, Source.vget_high_s32_parse, rfl⟩,
    ⟨_, Source.vget_high_u32_parse, rfl⟩,
    ⟨_, Source.vget_high_s16_parse, rfl⟩,
    ⟨_, Source.vget_high_u16_parse, rfl⟩,
    ⟨_, Source.vget_high_s8_parse, rfl⟩,
    ⟨_, Source.vget_high_u8_parse, rfl⟩,
    ⟨_, Source.vcombine_u8_parse, rfl⟩,
    ⟨_, Source.vcombine_u16_parse, rfl⟩,
    ⟨_, Source.vcombine_u32_parse, rfl⟩,
    ⟨_, Source.vcombine_s8_parse, rfl⟩,
    ⟨_, Source.vcombine_s16_parse, rfl⟩,
    ⟨_, Source.vcombine_s32_parse, rfl⟩,
    ⟨_, Source.vget_lane_f32_parse, rfl⟩,
    ⟨_, Source.vgetq_lane_u8_parse, rfl⟩,
    ⟨_, Source.vgetq_lane_u16_parse, rfl⟩,
    ⟨_, Source.vgetq_lane_u32_parse, rfl⟩,
    ⟨_, Source.vgetq_lane_u64_parse, rfl⟩,
    ⟨_, Source.vgetq_lane_s8_parse, rfl⟩,
    ⟨_, Source.vgetq_lane_s16_parse, rfl⟩,
    ⟨_, Source.vgetq_lane_s32_parse, rfl⟩,
    ⟨_, Source.vgetq_lane_s64_parse, rfl⟩,
    ⟨_, Source.vgetq_lane_f64_parse, rfl⟩,
    ⟨_, Source.vgetq_lane_f32_parse, rfl⟩,
    fun _ h => absurd h List.not_mem_nil⟩

theorem library4_defines : ∀ e ∈ library4, e.2.Defines e.1 := by
  unfold library4
  repeat rw [List.forall_mem_cons]
  exact ⟨⟨_, Source.vmovn_s32_parse, rfl⟩,
    ⟨_, Source.vmovn_u32_parse, rfl⟩,
    ⟨_, Source.vmovn_u16_parse, rfl⟩,
    ⟨_, Source.vmovl_u8_parse, rfl⟩,
    ⟨_, Source.vmovl_u16_parse, rfl⟩,
    ⟨_, Source.vmovl_u32_parse, rfl⟩,
    ⟨_, Source.vmovl_s8_parse, rfl⟩,
    ⟨_, Source.vmovl_s16_parse, rfl⟩,
    ⟨_, Source.vmovl_s32_parse, rfl⟩,
    ⟨_, Source.vqmovn_u16_parse, rfl⟩,
    ⟨_, Source.vqmovun_s16_parse, rfl⟩,
    ⟨_, Source.vmul_s8_parse, rfl⟩,
    ⟨_, Source.vmul_s16_parse, rfl⟩,
    ⟨_, Source.vmul_s32_parse, rfl⟩,
    ⟨_, Source.vmul_u8_parse, rfl⟩,
    ⟨_, Source.vmul_u16_parse, rfl⟩,
    ⟨_, Source.vmul_u32_parse, rfl⟩,
    ⟨_, Source.vmulq_s8_parse, rfl⟩,
    ⟨_, Source.vmulq_s16_parse, rfl⟩,
    ⟨_, Source.vmulq_s32_parse, rfl⟩,
    ⟨_, Source.vmulq_u8_parse, rfl⟩,
    ⟨_, Source.vmulq_u16_parse, rfl⟩,
    ⟨_, Source.vmulq_u32_parse, rfl⟩,
    ⟨_, Source.vmul_n_s16_parse, rfl⟩,
    ⟨_, Source.vmul_n_s32_parse, rfl⟩,
    ⟨_, Source.vmul_n_u16_parse, rfl⟩,
    ⟨_, Source.vmul_n_u32_parse, rfl⟩,
    ⟨_, Source.vmulq_n_s16_parse, rfl⟩,
    ⟨_, Source.vmulq_n_s32_parse, rfl⟩,
    ⟨_, Source.vmulq_n_u16_parse, rfl⟩,
    ⟨_, Source.vmulq_n_u32_parse, rfl⟩,
    ⟨_, Source.vmull_s8_parse, rfl⟩,
    ⟨_, Source.vmull_s16_parse, rfl⟩,
    ⟨_, Source.vmull_s32_parse, rfl⟩,
    ⟨_, Source.vmull_u8_parse, rfl⟩,
    ⟨_, Source.vmull_u16_parse, rfl⟩,
    ⟨_, Source.vmull_u32_parse, rfl⟩,
    ⟨_, Source.vmull_n_s16_parse, rfl⟩,
    ⟨_, Source.vmull_n_s32_parse, rfl⟩,
    ⟨_, Source.vmull_n_u16_parse, rfl⟩,
    ⟨_, Source.vmull_n_u32_parse, rfl⟩,
    ⟨_, Source.vqdmull_s16_parse, rfl⟩,
    ⟨_, Source.vmlal_s8_parse, rfl⟩,
    ⟨_, Source.vmlal_s16_parse, rfl⟩,
    ⟨_, Source.vmlal_s32_parse, rfl⟩,
    ⟨_, Source.vmlal_u8_parse, rfl⟩,
    ⟨_, Source.vmlal_u16_parse, rfl⟩,
    ⟨_, Source.vmlal_u32_parse, rfl⟩,
    ⟨_, Source.vmlsl_s8_parse, rfl⟩,
    ⟨_, Source.vmlsl_s16_parse, rfl⟩,
    ⟨_, Source.vmlsl_s32_parse, rfl⟩,
    ⟨_, Source.vmlsl_u8_parse, rfl⟩,
    ⟨_, Source.vmlsl_u16_parse, rfl⟩,
    ⟨_, Source.vmlsl_u32_parse, rfl⟩,
    ⟨_, Source.vmlaq_s8_parse, rfl⟩,
    ⟨_, Source.vmlaq_s16_parse, rfl⟩,
    ⟨_, Source.vmlaq_s32_parse, rfl⟩,
    ⟨_, Source.vmlaq_u8_parse, rfl⟩,
    ⟨_, Source.vmlaq_u16_parse, rfl⟩,
    ⟨_, Source.vmlaq_u32_parse, rfl⟩,
    fun _ h => absurd h List.not_mem_nil⟩

theorem library5_defines : ∀ e ∈ library5, e.2.Defines e.1 := by
  unfold library5
  repeat rw [List.forall_mem_cons]
  exact ⟨⟨_, Source.vpaddl_u8_parse, rfl⟩,
    ⟨_, Source.vpaddlq_u8_parse, rfl⟩,
    ⟨_, Source.vpaddlq_u16_parse, rfl⟩,
    ⟨_, Source.vaddhn_high_s16_parse, rfl⟩,
    ⟨_, Source.vaddhn_high_s32_parse, rfl⟩,
    ⟨_, Source.vaddhn_high_s64_parse, rfl⟩,
    ⟨_, Source.vaddhn_high_u16_parse, rfl⟩,
    ⟨_, Source.vaddhn_high_u32_parse, rfl⟩,
    ⟨_, Source.vaddhn_high_u64_parse, rfl⟩,
    ⟨_, Source.vsubhn_s16_parse, rfl⟩,
    ⟨_, Source.vsubn_s32_parse, rfl⟩,
    ⟨_, Source.vsubn_s64_parse, rfl⟩,
    ⟨_, Source.vsubhn_u16_parse, rfl⟩,
    ⟨_, Source.vsubn_u32_parse, rfl⟩,
    ⟨_, Source.vsubn_u64_parse, rfl⟩,
    ⟨_, Source.vrsubhn_s16_parse, rfl⟩,
    ⟨_, Source.vrsubhn_s32_parse, rfl⟩,
    ⟨_, Source.vrsubhn_s64_parse, rfl⟩,
    ⟨_, Source.vrsubhn_u16_parse, rfl⟩,
    ⟨_, Source.vrsubhn_u32_parse, rfl⟩,
    ⟨_, Source.vrsubhn_u64_parse, rfl⟩,
    ⟨_, Source.vhsub_s8_parse, rfl⟩,
    ⟨_, Source.vhsub_s16_parse, rfl⟩,
    ⟨_, Source.vhsub_s32_parse, rfl⟩,
    ⟨_, Source.vhsub_u8_parse, rfl⟩,
    ⟨_, Source.vhsub_u16_parse, rfl⟩,
    ⟨_, Source.vhsub_u32_parse, rfl⟩,
    ⟨_, Source.vhsubq_s8_parse, rfl⟩,
    ⟨_, Source.vhsubq_s16_parse, rfl⟩,
    ⟨_, Source.vhsubq_s32_parse, rfl⟩,
    ⟨_, Source.vhsubq_u8_parse, rfl⟩,
    ⟨_, Source.vhsubq_u16_parse, rfl⟩,
    ⟨_, Source.vhsubq_u32_parse, rfl⟩,
    ⟨_, Source.vrev16_s8_parse, rfl⟩,
    ⟨_, Source.vrev16_u8_parse, rfl⟩,
    ⟨_, Source.vrev16q_s8_parse, rfl⟩,
    ⟨_, Source.vrev16q_u8_parse, rfl⟩,
    ⟨_, Source.vrev32_s8_parse, rfl⟩,
    ⟨_, Source.vrev32_s16_parse, rfl⟩,
    ⟨_, Source.vrev32_u8_parse, rfl⟩,
    ⟨_, Source.vrev32_u16_parse, rfl⟩,
    ⟨_, Source.vrev32q_s8_parse, rfl⟩,
    ⟨_, Source.vrev32q_s16_parse, rfl⟩,
    ⟨_, Source.vrev32q_u8_parse, rfl⟩,
    ⟨_, Source.vrev32q_u16_parse, rfl⟩,
    ⟨_, Source.vrev64_s8_parse, rfl⟩,
    ⟨_, Source.vrev64_s16_parse, rfl⟩,
    ⟨_, Source.vrev64_s32_parse, rfl⟩,
    ⟨_, Source.vrev64_u8_parse, rfl⟩,
    ⟨_, Source.vrev64_u16_parse, rfl⟩,
    ⟨_, Source.vrev64_u32_parse, rfl⟩,
    ⟨_, Source.vrev64_f32_parse, rfl⟩,
    ⟨_, Source.vrev64q_s8_parse, rfl⟩,
    ⟨_, Source.vrev64q_s16_parse, rfl⟩,
    ⟨_, Source.vrev64q_s32_parse, rfl⟩,
    ⟨_, Source.vrev64q_u8_parse, rfl⟩,
    ⟨_, Source.vrev64q_u16_parse, rfl⟩,
    ⟨_, Source.vrev64q_u32_parse, rfl⟩,
    ⟨_, Source.vrev64q_f32_parse, rfl⟩,
    ⟨_, Source.vtrn_s8_parse, rfl⟩,
    fun _ h => absurd h List.not_mem_nil⟩

theorem library6_defines : ∀ e ∈ library6, e.2.Defines e.1 := by
  unfold library6
  repeat rw [List.forall_mem_cons]
  exact ⟨⟨_, Source.vtrn_u8_parse, rfl⟩,
    ⟨_, Source.vtrn_s16_parse, rfl⟩,
    ⟨_, Source.vtrn_u16_parse, rfl⟩,
    ⟨_, Source.vtrn_s32_parse, rfl⟩,
    ⟨_, Source.vtrn_u32_parse, rfl⟩,
    ⟨_, Source.vtrnq_u16_parse, rfl⟩,
    ⟨_, Source.vtrnq_u32_parse, rfl⟩,
    ⟨_, Source.vtrnq_s16_parse, rfl⟩,
    ⟨_, Source.vzip_s16_parse, rfl⟩,
    ⟨_, Source.vzip_s8_parse, rfl⟩,
    ⟨_, Source.vzip_u8_parse, rfl⟩,
    ⟨_, Source.vuzp_u8_parse, rfl⟩,
    ⟨_, Source.vuzp_s8_parse, rfl⟩,
    ⟨_, Source.vext_u8_parse, rfl⟩,
    ⟨_, Source.vext_u16_parse, rfl⟩,
    ⟨_, Source.vext_s16_parse, rfl⟩,
    ⟨_, Source.vextq_u16_parse, rfl⟩,
    ⟨_, Source.vqsub_s64_parse, rfl⟩,
    ⟨_, Source.vqsubq_s64_parse, rfl⟩,
    ⟨_, Source.vqsub_u64_parse, rfl⟩,
    ⟨_, Source.vqsubq_u64_parse, rfl⟩,
    ⟨_, Source.recip_parse, _, .tail _ (.tail _ (.tail _ (.head _))), rfl⟩,
    ⟨_, Source.vrecpsq_f32_parse, rfl⟩,
    ⟨_, Source.vreinterpret_u8_s8_parse, rfl⟩,
    ⟨_, Source.vreinterpretq_s16_u16_parse, rfl⟩,
    ⟨_, Source.vreinterpretq_u16_s16_parse, rfl⟩,
    ⟨_, Source.vreinterpret_u16_u8_parse, rfl⟩,
    ⟨_, Source.vreinterpret_u32_u16_parse, rfl⟩,
    ⟨_, Source.vreinterpret_u8_u32_parse, rfl⟩,
    ⟨_, Source.vreinterpret_u32_u8_parse, rfl⟩,
    ⟨_, Source.vreinterpret_s8_u8_parse, rfl⟩,
    ⟨_, Source.vreinterpret_s32_s16_parse, rfl⟩,
    ⟨_, Source.vreinterpret_s16_s32_parse, rfl⟩,
    ⟨_, Source.vreinterpretq_u8_s8_parse, rfl⟩,
    ⟨_, Source.vreinterpretq_u8_s16_parse, rfl⟩,
    ⟨_, Source.vreinterpretq_u8_s32_parse, rfl⟩,
    ⟨_, Source.vreinterpretq_u8_f32_parse, rfl⟩,
    ⟨_, Source.vreinterpretq_u8_u16_parse, rfl⟩,
    ⟨_, Source.vreinterpretq_u8_u32_parse, rfl⟩,
    ⟨_, Source.vreinterpretq_u8_u64_parse, rfl⟩,
    ⟨_, Source.vreinterpretq_u8_s64_parse, rfl⟩,
    ⟨_, Source.vreinterpretq_u8_f64_parse, rfl⟩,
    ⟨_, Source.vreinterpretq_u32_s8_parse, rfl⟩,
    ⟨_, Source.vreinterpretq_u32_s16_parse, rfl⟩,
    ⟨_, Source.vreinterpretq_u32_s32_parse, rfl⟩,
    ⟨_, Source.vreinterpretq_u32_f32_parse, rfl⟩,
    ⟨_, Source.vreinterpretq_u32_u8_parse, rfl⟩,
    ⟨_, Source.vreinterpretq_u32_u16_parse, rfl⟩,
    ⟨_, Source.vreinterpretq_u32_u64_parse, rfl⟩,
    ⟨_, Source.vreinterpretq_u32_s64_parse, rfl⟩,
    ⟨_, Source.vreinterpretq_u32_f64_parse, rfl⟩,
    ⟨_, Source.vqadd_u8_parse, rfl⟩,
    ⟨_, Source.vqaddq_u8_parse, rfl⟩,
    ⟨_, Source.vqsub_s8_parse, rfl⟩,
    ⟨_, Source.vqsub_s16_parse, rfl⟩,
    ⟨_, Source.vqsub_s32_parse, rfl⟩,
    ⟨_, Source.vqsub_u8_parse, rfl⟩,
    ⟨_, Source.vqsub_u16_parse, rfl⟩,
    ⟨_, Source.vqsub_u32_parse, rfl⟩,
    ⟨_, Source.vqsubq_s8_parse, rfl⟩,
    fun _ h => absurd h List.not_mem_nil⟩

theorem library7_defines : ∀ e ∈ library7, e.2.Defines e.1 := by
  unfold library7
  repeat rw [List.forall_mem_cons]
  exact ⟨⟨_, Source.vqsubq_s16_parse, rfl⟩,
    ⟨_, Source.vqsubq_s32_parse, rfl⟩,
    ⟨_, Source.vqsubq_u8_parse, rfl⟩,
    ⟨_, Source.vqsubq_u16_parse, rfl⟩,
    ⟨_, Source.vqsubq_u32_parse, rfl⟩,
    ⟨_, Source.vcgtq_u8_parse, rfl⟩,
    ⟨_, Source.vbslq_u8_parse, rfl⟩,
    ⟨_, Source.vtbl1_u8_parse, rfl⟩,
    ⟨_, Source.vtbl2_u8_parse, rfl⟩,
    ⟨_, Source.vtbl4_u8_parse, rfl⟩,
    ⟨_, Source.vqtbl1_u8_parse, rfl⟩,
    ⟨_, Source.vshrn_n_s16_parse, rfl⟩,
    ⟨_, Source.vshrn_n_s32_parse, rfl⟩,
    ⟨_, Source.vshrn_n_s64_parse, rfl⟩,
    ⟨_, Source.vshrn_n_u16_parse, rfl⟩,
    ⟨_, Source.vshrn_n_u32_parse, rfl⟩,
    ⟨_, Source.vshrn_n_u64_parse, rfl⟩,
    ⟨_, Source.vshr_n_u16_parse, rfl⟩,
    ⟨_, Source.vqshrun_n_s16_parse, rfl⟩,
    ⟨_, Source.vqrshrun_n_s16_parse, rfl⟩,
    ⟨_, Source.vqshrn_n_s16_parse, rfl⟩,
    ⟨_, Source.vqshrn_n_s32_parse, rfl⟩,
    ⟨_, Source.vqshrn_n_u16_parse, rfl⟩,
    ⟨_, Source.vqshrn_n_u32_parse, rfl⟩,
    ⟨_, Source.vqshrn_n_u64_parse, rfl⟩,
    ⟨_, Source.vqshrn_n_s64_parse, rfl⟩,
    ⟨_, Source.vrshrn_n_u16_parse, rfl⟩,
    ⟨_, Source.vsraq_n_s32_parse, rfl⟩,
    ⟨_, Source.vshlq_n_s32_parse, rfl⟩,
    ⟨_, Source.vshll_n_u8_parse, rfl⟩,
    ⟨_, Source.vqshrun_n_s32_parse, rfl⟩,
    ⟨_, Source.vqshrun_n_s64_parse, rfl⟩,
    ⟨_, Source.vaddl_u8_parse, rfl⟩,
    ⟨_, Source.vaddw_s8_parse, rfl⟩,
    ⟨_, Source.vaddw_s16_parse, rfl⟩,
    ⟨_, Source.vaddw_s32_parse, rfl⟩,
    ⟨_, Source.vaddw_u8_parse, rfl⟩,
    ⟨_, Source.vaddw_u16_parse, rfl⟩,
    ⟨_, Source.vaddw_u32_parse, rfl⟩,
    ⟨_, Source.vaddw_high_s8_parse, rfl⟩,
    ⟨_, Source.vaddw_high_s16_parse, rfl⟩,
    ⟨_, Source.vaddw_high_s32_parse, rfl⟩,
    ⟨_, Source.vaddw_high_u8_parse, rfl⟩,
    ⟨_, Source.vaddw_high_u16_parse, rfl⟩,
    ⟨_, Source.vaddw_high_u32_parse, rfl⟩,
    ⟨_, Source.vaddl_high_s8_parse, rfl⟩,
    ⟨_, Source.vaddl_high_s16_parse, rfl⟩,
    ⟨_, Source.vaddl_high_s32_parse, rfl⟩,
    ⟨_, Source.vaddl_high_u8_parse, rfl⟩,
    ⟨_, Source.vaddl_high_u16_parse, rfl⟩,
    ⟨_, Source.vaddl_high_u32_parse, rfl⟩,
    ⟨_, Source.recip_parse, _, .tail _ (.tail _ (.head _)), rfl⟩,
    ⟨_, Source.RecipEstimate_parse, rfl⟩,
    ⟨_, Source.vst1_u8_parse, rfl⟩,
    ⟨_, Source.vst1_s8_parse, rfl⟩,
    ⟨_, Source.vst1_u16_parse, rfl⟩,
    ⟨_, Source.vst1_s16_parse, rfl⟩,
    ⟨_, Source.vst1_u32_parse, rfl⟩,
    ⟨_, Source.vst1_s32_parse, rfl⟩,
    ⟨_, Source.vst1_s64_parse, rfl⟩,
    fun _ h => absurd h List.not_mem_nil⟩

theorem library8_defines : ∀ e ∈ library8, e.2.Defines e.1 := by
  unfold library8
  repeat rw [List.forall_mem_cons]
  exact ⟨⟨_, Source.vst1_u64_parse, rfl⟩,
    ⟨_, Source.vst1q_u8_parse, rfl⟩,
    ⟨_, Source.vst1q_s8_parse, rfl⟩,
    ⟨_, Source.vst1q_u16_parse, rfl⟩,
    ⟨_, Source.vst1q_s16_parse, rfl⟩,
    ⟨_, Source.vst1q_u32_parse, rfl⟩,
    ⟨_, Source.vst1q_s32_parse, rfl⟩,
    ⟨_, Source.vst1q_s64_parse, rfl⟩,
    ⟨_, Source.vst1q_u64_parse, rfl⟩,
    ⟨_, Source.vst1q_f32_parse, rfl⟩,
    ⟨_, Source.vst2_s8_parse, rfl⟩,
    ⟨_, Source.vst2_s16_parse, rfl⟩,
    ⟨_, Source.vst2_s32_parse, rfl⟩,
    ⟨_, Source.vst2_u8_parse, rfl⟩,
    ⟨_, Source.vst2_u16_parse, rfl⟩,
    ⟨_, Source.vst2_u32_parse, rfl⟩,
    ⟨_, Source.vst2q_s8_parse, rfl⟩,
    ⟨_, Source.vst2q_s16_parse, rfl⟩,
    ⟨_, Source.vst2q_s32_parse, rfl⟩,
    ⟨_, Source.vst2q_u8_parse, rfl⟩,
    ⟨_, Source.vst2q_u16_parse, rfl⟩,
    ⟨_, Source.vst2q_u32_parse, rfl⟩,
    ⟨_, Source.vst3_s8_parse, rfl⟩,
    ⟨_, Source.vst3_s16_parse, rfl⟩,
    ⟨_, Source.vst3_s32_parse, rfl⟩,
    ⟨_, Source.vst3_u8_parse, rfl⟩,
    ⟨_, Source.vst3_u16_parse, rfl⟩,
    ⟨_, Source.vst3_u32_parse, rfl⟩,
    ⟨_, Source.vst3q_s8_parse, rfl⟩,
    ⟨_, Source.vst3q_s16_parse, rfl⟩,
    ⟨_, Source.vst3q_s32_parse, rfl⟩,
    ⟨_, Source.vst3q_u8_parse, rfl⟩,
    ⟨_, Source.vst3q_u16_parse, rfl⟩,
    ⟨_, Source.vst3q_u32_parse, rfl⟩,
    ⟨_, Source.vst4_s8_parse, rfl⟩,
    ⟨_, Source.vst4_s16_parse, rfl⟩,
    ⟨_, Source.vst4_s32_parse, rfl⟩,
    ⟨_, Source.vst4_u8_parse, rfl⟩,
    ⟨_, Source.vst4_u16_parse, rfl⟩,
    ⟨_, Source.vst4_u32_parse, rfl⟩,
    ⟨_, Source.vst4q_s8_parse, rfl⟩,
    ⟨_, Source.vst4q_s16_parse, rfl⟩,
    ⟨_, Source.vst4q_s32_parse, rfl⟩,
    ⟨_, Source.vst4q_u8_parse, rfl⟩,
    ⟨_, Source.vst4q_u16_parse, rfl⟩,
    ⟨_, Source.vst4q_u32_parse, rfl⟩,
    ⟨_, Source.vst4q_lane_f32_parse, rfl⟩,
    ⟨_, Source.vsubl_s8_parse, rfl⟩,
    ⟨_, Source.vsubl_s16_parse, rfl⟩,
    ⟨_, Source.vsubl_s32_parse, rfl⟩,
    ⟨_, Source.vsubl_u8_parse, rfl⟩,
    ⟨_, Source.vsubl_u16_parse, rfl⟩,
    ⟨_, Source.vsubl_u32_parse, rfl⟩,
    ⟨_, Source.vsubw_s8_parse, rfl⟩,
    ⟨_, Source.vsubw_s16_parse, rfl⟩,
    ⟨_, Source.vsubw_s32_parse, rfl⟩,
    ⟨_, Source.vsubw_u8_parse, rfl⟩,
    ⟨_, Source.vsubw_u16_parse, rfl⟩,
    ⟨_, Source.vsubw_u32_parse, rfl⟩,
    fun _ h => absurd h List.not_mem_nil⟩

/-- Each text of the library is the definition of the function under whose name it is listed. -/
theorem library_defines : ∀ e ∈ library, e.2.Defines e.1 := by
  intro e he
  unfold library at he
  simp only [List.mem_append] at he
  rcases he with (((((((he | he) | he) | he) | he) | he) | he) | he) | he
  · exact library0_defines e he
  · exact library1_defines e he
  · exact library2_defines e he
  · exact library3_defines e he
  · exact library4_defines e he
  · exact library5_defines e he
  · exact library6_defines e he
  · exact library7_defines e he
  · exact library8_defines e he

/-- No two texts of the library define the same function. -/
theorem library_distinct : (library.map Prod.fst).Nodup := by decide +kernel

end Verif.Props
