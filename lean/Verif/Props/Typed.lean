import Verif.Typing
import Verif.ArmLemmas
import Verif.Props.Signatures
import Verif.Props.Outcome
import Verif.Props.Typed0
import Verif.Props.Typed1
import Verif.Props.Typed2
import Verif.Props.Typed3
import Verif.Props.Typed4
import Verif.Props.Typed5
import Verif.Props.Typed6
import Verif.Props.Typed7
import Verif.Props.Typed8

/-! # Calls with arguments of the declared types (C78)

Generated by `tools/gen_typed.py`. -/

set_option linter.unusedVariables false

namespace Verif.Props
open Verif.Cpp Verif.Arm


theorem RecipEstimate_good [Dialect] (a : uint32_t) :
    Good none False (fun _ => True) (Model.RecipEstimate (.int .u32 a.toNat) >>= Val.toBits .u32) := by
  unfold Model.RecipEstimate
  good_body

theorem RecipEstimate_typed [Dialect] : Total (k!"RecipEstimate", .fn Source.RecipEstimate) := by
  refine total_fn RecipEstimate_sig_read fun args h => ?_
  obtain ⟨a0, rfl, ta⟩ := typed1 h
  obtain ⟨a, rfl⟩ := ta
  exact total_sc (called_fn (by kernel_rfl) (RecipEstimate_source a)) (RecipEstimate_good a)

theorem FPRecipEstimate_good [Dialect] (a : float32_t) : Good none False (fun _ => True) (Model.FPRecipEstimate a) := by
  rw [FPRecipEstimate_eval]
  exact good_ok _

theorem FPRecipEstimate_typed [Dialect] : Total (k!"FPRecipEstimate", .unit Source.recip) := by
  refine total_unit FPRecipEstimate_sig_read fun args h => ?_
  obtain ⟨a0, rfl, ta⟩ := typed1 h
  obtain ⟨a, rfl⟩ := ta
  exact total_sc (called_unit (by kernel_rfl) (FPRecipEstimate_source a)) (FPRecipEstimate_good a)

theorem vrecpeq_f32_good [Dialect] (a : float32x4_t) : Good none True (fun _ => True) (Model.vrecpeq_f32 a) := by
  rw [vrecpeq_f32_eval]
  exact good_ok _

theorem vrecpeq_f32_typed [Dialect] : Total (k!"vrecpeq_f32", .unit Source.recip) := by
  refine total_unit vrecpeq_f32_sig_read fun args h => ?_
  obtain ⟨a0, rfl, ta⟩ := typed1 h
  obtain ⟨a, rfl⟩ := ta
  exact total_vec (called_unit (by kernel_rfl) (vrecpeq_f32_source a)) (vrecpeq_f32_good a)
    (.inl fun l h => by rw [vrecpeq_f32_eval] at h; cases h)

theorem library0_total [Dialect] : ∀ e ∈ library0, Total e :=
  List.forall_mem_cons.mpr <| .intro vadd_s8_typed <| List.forall_mem_cons.mpr <| .intro vadd_s16_typed <| List.forall_mem_cons.mpr <| .intro vadd_s32_typed <| List.forall_mem_cons.mpr <| .intro vadd_s64_typed <| List.forall_mem_cons.mpr <| .intro vadd_u8_typed <| List.forall_mem_cons.mpr <| .intro vadd_u16_typed <| List.forall_mem_cons.mpr <| .intro vadd_u32_typed <| List.forall_mem_cons.mpr <| .intro vadd_u64_typed <| List.forall_mem_cons.mpr <| .intro vaddq_s8_typed <| List.forall_mem_cons.mpr <| .intro vaddq_s16_typed <| List.forall_mem_cons.mpr <| .intro vaddq_s32_typed <| List.forall_mem_cons.mpr <| .intro vaddq_s64_typed <| List.forall_mem_cons.mpr <| .intro vaddq_u8_typed <| List.forall_mem_cons.mpr <| .intro vaddq_u16_typed <| List.forall_mem_cons.mpr <| .intro vaddq_u32_typed <| List.forall_mem_cons.mpr <| .intro vaddq_u64_typed <| List.forall_mem_cons.mpr <| .intro vsub_s8_typed <| List.forall_mem_cons.mpr <| .intro vsub_s16_typed <| List.forall_mem_cons.mpr <| .intro vsub_s32_typed <| List.forall_mem_cons.mpr <| .intro vsub_s64_typed <| List.forall_mem_cons.mpr <| .intro vsub_u8_typed <| List.forall_mem_cons.mpr <| .intro vsub_u16_typed <| List.forall_mem_cons.mpr <| .intro vsub_u32_typed <| List.forall_mem_cons.mpr <| .intro vsub_u64_typed <| List.forall_mem_cons.mpr <| .intro vsubq_s8_typed <| List.forall_mem_cons.mpr <| .intro vsubq_s16_typed <| List.forall_mem_cons.mpr <| .intro vsubq_s32_typed <| List.forall_mem_cons.mpr <| .intro vsubq_s64_typed <| List.forall_mem_cons.mpr <| .intro vsubq_u8_typed <| List.forall_mem_cons.mpr <| .intro vsubq_u16_typed <| List.forall_mem_cons.mpr <| .intro vsubq_u32_typed <| List.forall_mem_cons.mpr <| .intro vsubq_u64_typed <| List.forall_mem_cons.mpr <| .intro vaddq_f32_typed <| List.forall_mem_cons.mpr <| .intro vsub_f32_typed <| List.forall_mem_cons.mpr <| .intro vsub_f32_overload2_typed <| List.forall_mem_cons.mpr <| .intro vsubq_f32_typed <| List.forall_mem_cons.mpr <| .intro vmulq_f32_typed <| List.forall_mem_cons.mpr <| .intro vmul_n_f32_typed <| List.forall_mem_cons.mpr <| .intro vmul_n_f64_typed <| List.forall_mem_cons.mpr <| .intro vmulq_n_f32_typed <| List.forall_mem_cons.mpr <| .intro vmulq_n_f64_typed <| List.forall_mem_cons.mpr <| .intro vdiv_f32_typed <| List.forall_mem_cons.mpr <| .intro vdiv_f64_typed <| List.forall_mem_cons.mpr <| .intro vdivq_f32_typed <| List.forall_mem_cons.mpr <| .intro vdivq_f64_typed <| List.forall_mem_cons.mpr <| .intro vmlaq_f32_typed <| List.forall_mem_cons.mpr <| .intro vmlaq_n_f32_typed <| List.forall_mem_cons.mpr <| .intro vcvtq_f32_s32_typed <| List.forall_mem_cons.mpr <| .intro vcvtq_s32_f32_typed <| List.forall_mem_cons.mpr <| .intro vcvtq_u32_f32_typed <| List.forall_mem_cons.mpr <| .intro vcvtnq_s32_f32_typed <| List.forall_mem_cons.mpr <| .intro vcltq_f32_typed <| List.forall_mem_cons.mpr <| .intro vmaxq_f32_typed <| List.forall_mem_cons.mpr <| .intro vminq_f32_typed <| List.forall_mem_cons.mpr <| .intro vpmax_f32_typed <| List.forall_mem_cons.mpr <| .intro vpmin_f32_typed <| List.forall_mem_cons.mpr <| .intro vbslq_f32_typed <| List.forall_mem_cons.mpr <| .intro vld1_u8_typed <| List.forall_mem_cons.mpr <| .intro vld1_s8_typed <| List.forall_mem_cons.mpr <| .intro vld1_u16_typed <| List.forall_mem_nil _

theorem library1_total [Dialect] : ∀ e ∈ library1, Total e :=
  List.forall_mem_cons.mpr <| .intro vld1_s16_typed <| List.forall_mem_cons.mpr <| .intro vld1_u32_typed <| List.forall_mem_cons.mpr <| .intro vld1_u64_typed <| List.forall_mem_cons.mpr <| .intro vld1_s32_typed <| List.forall_mem_cons.mpr <| .intro vld1_s64_typed <| List.forall_mem_cons.mpr <| .intro vld1_f32_typed <| List.forall_mem_cons.mpr <| .intro vld1_f64_typed <| List.forall_mem_cons.mpr <| .intro vld1q_u8_typed <| List.forall_mem_cons.mpr <| .intro vld1q_s8_typed <| List.forall_mem_cons.mpr <| .intro vld1q_u16_typed <| List.forall_mem_cons.mpr <| .intro vld1q_s16_typed <| List.forall_mem_cons.mpr <| .intro vld1q_u32_typed <| List.forall_mem_cons.mpr <| .intro vld1q_s32_typed <| List.forall_mem_cons.mpr <| .intro vld1q_s64_typed <| List.forall_mem_cons.mpr <| .intro vld1q_u64_typed <| List.forall_mem_cons.mpr <| .intro vld1q_f32_typed <| List.forall_mem_cons.mpr <| .intro vld2_u8_typed <| List.forall_mem_cons.mpr <| .intro vld2_s8_typed <| List.forall_mem_cons.mpr <| .intro vld2_u16_typed <| List.forall_mem_cons.mpr <| .intro vld2_s16_typed <| List.forall_mem_cons.mpr <| .intro vld2_u32_typed <| List.forall_mem_cons.mpr <| .intro vld_s32_typed <| List.forall_mem_cons.mpr <| .intro vld2_f32_typed <| List.forall_mem_cons.mpr <| .intro vld2q_u8_typed <| List.forall_mem_cons.mpr <| .intro vld2q_s8_typed <| List.forall_mem_cons.mpr <| .intro vld2q_u16_typed <| List.forall_mem_cons.mpr <| .intro vld2q_s16_typed <| List.forall_mem_cons.mpr <| .intro vld2q_u32_typed <| List.forall_mem_cons.mpr <| .intro vld2q_s32_typed <| List.forall_mem_cons.mpr <| .intro vld3_u8_typed <| List.forall_mem_cons.mpr <| .intro vld3_s8_typed <| List.forall_mem_cons.mpr <| .intro vld3_u16_typed <| List.forall_mem_cons.mpr <| .intro vld3_s16_typed <| List.forall_mem_cons.mpr <| .intro vld3_u32_typed <| List.forall_mem_cons.mpr <| .intro vld3_s32_typed <| List.forall_mem_cons.mpr <| .intro vld3_f32_typed <| List.forall_mem_cons.mpr <| .intro vld3q_u8_typed <| List.forall_mem_cons.mpr <| .intro vld3q_s8_typed <| List.forall_mem_cons.mpr <| .intro vld3q_u16_typed <| List.forall_mem_cons.mpr <| .intro vld3q_s16_typed <| List.forall_mem_cons.mpr <| .intro vld3q_u32_typed <| List.forall_mem_cons.mpr <| .intro vld3q_s32_typed <| List.forall_mem_cons.mpr <| .intro vld4_u8_typed <| List.forall_mem_cons.mpr <| .intro vld4_s8_typed <| List.forall_mem_cons.mpr <| .intro vld4_u16_typed <| List.forall_mem_cons.mpr <| .intro vld4_s16_typed <| List.forall_mem_cons.mpr <| .intro vld4_u32_typed <| List.forall_mem_cons.mpr <| .intro vld4_s32_typed <| List.forall_mem_cons.mpr <| .intro vld4_f32_typed <| List.forall_mem_cons.mpr <| .intro vld4q_u8_typed <| List.forall_mem_cons.mpr <| .intro vld4q_s8_typed <| List.forall_mem_cons.mpr <| .intro vld4q_u16_typed <| List.forall_mem_cons.mpr <| .intro vld4q_s16_typed <| List.forall_mem_cons.mpr <| .intro vld4q_u32_typed <| List.forall_mem_cons.mpr <| .intro vld4q_s32_typed <| List.forall_mem_cons.mpr <| .intro vld1q_dup_f32_typed <| List.forall_mem_cons.mpr <| .intro vld1_lane_s8_typed <| List.forall_mem_cons.mpr <| .intro vld1_lane_u8_typed <| List.forall_mem_cons.mpr <| .intro vld2_lane_u8_typed <| List.forall_mem_cons.mpr <| .intro vld3_lane_u8_typed <| List.forall_mem_nil _

theorem library2_total [Dialect] : ∀ e ∈ library2, Total e :=
  List.forall_mem_cons.mpr <| .intro vld4_lane_u8_typed <| List.forall_mem_cons.mpr <| .intro vand_s8_typed <| List.forall_mem_cons.mpr <| .intro vand_s16_typed <| List.forall_mem_cons.mpr <| .intro vand_s32_typed <| List.forall_mem_cons.mpr <| .intro vand_s64_typed <| List.forall_mem_cons.mpr <| .intro vand_u8_typed <| List.forall_mem_cons.mpr <| .intro vand_u16_typed <| List.forall_mem_cons.mpr <| .intro vand_u32_typed <| List.forall_mem_cons.mpr <| .intro vand_u64_typed <| List.forall_mem_cons.mpr <| .intro vandq_s8_typed <| List.forall_mem_cons.mpr <| .intro vandq_s16_typed <| List.forall_mem_cons.mpr <| .intro vandq_s32_typed <| List.forall_mem_cons.mpr <| .intro vandq_s64_typed <| List.forall_mem_cons.mpr <| .intro vandq_u8_typed <| List.forall_mem_cons.mpr <| .intro vandq_u16_typed <| List.forall_mem_cons.mpr <| .intro vandq_u32_typed <| List.forall_mem_cons.mpr <| .intro vandq_u64_typed <| List.forall_mem_cons.mpr <| .intro vorr_s8_typed <| List.forall_mem_cons.mpr <| .intro vorr_s16_typed <| List.forall_mem_cons.mpr <| .intro vorr_s32_typed <| List.forall_mem_cons.mpr <| .intro vorr_s64_typed <| List.forall_mem_cons.mpr <| .intro vorr_u8_typed <| List.forall_mem_cons.mpr <| .intro vorr_u16_typed <| List.forall_mem_cons.mpr <| .intro vorr_u32_typed <| List.forall_mem_cons.mpr <| .intro vorr_u64_typed <| List.forall_mem_cons.mpr <| .intro vorrq_s8_typed <| List.forall_mem_cons.mpr <| .intro vorrq_s16_typed <| List.forall_mem_cons.mpr <| .intro vorrq_s32_typed <| List.forall_mem_cons.mpr <| .intro vorrq_s64_typed <| List.forall_mem_cons.mpr <| .intro vorrq_u8_typed <| List.forall_mem_cons.mpr <| .intro vorrq_u16_typed <| List.forall_mem_cons.mpr <| .intro vorrq_u32_typed <| List.forall_mem_cons.mpr <| .intro vorrq_u64_typed <| List.forall_mem_cons.mpr <| .intro veor_s8_typed <| List.forall_mem_cons.mpr <| .intro veor_s16_typed <| List.forall_mem_cons.mpr <| .intro veor_s32_typed <| List.forall_mem_cons.mpr <| .intro veor_s64_typed <| List.forall_mem_cons.mpr <| .intro veor_u8_typed <| List.forall_mem_cons.mpr <| .intro veor_u16_typed <| List.forall_mem_cons.mpr <| .intro ver_u32_typed <| List.forall_mem_cons.mpr <| .intro veor_u64_typed <| List.forall_mem_cons.mpr <| .intro veorq_s8_typed <| List.forall_mem_cons.mpr <| .intro veorq_s16_typed <| List.forall_mem_cons.mpr <| .intro veorq_s32_typed <| List.forall_mem_cons.mpr <| .intro veorq_s64_typed <| List.forall_mem_cons.mpr <| .intro veorq_u8_typed <| List.forall_mem_cons.mpr <| .intro veorq_u16_typed <| List.forall_mem_cons.mpr <| .intro veorq_u32_typed <| List.forall_mem_cons.mpr <| .intro veorq_u64_typed <| List.forall_mem_cons.mpr <| .intro vmvn_s8_typed <| List.forall_mem_cons.mpr <| .intro vmvn_s16_typed <| List.forall_mem_cons.mpr <| .intro vmvn_s32_typed <| List.forall_mem_cons.mpr <| .intro vmvn_u8_typed <| List.forall_mem_cons.mpr <| .intro vmvn_u16_typed <| List.forall_mem_cons.mpr <| .intro vmvn_u32_typed <| List.forall_mem_cons.mpr <| .intro vmvnq_s8_typed <| List.forall_mem_cons.mpr <| .intro vmvnq_s16_typed <| List.forall_mem_cons.mpr <| .intro vmvnq_s32_typed <| List.forall_mem_cons.mpr <| .intro vmvnq_u8_typed <| List.forall_mem_cons.mpr <| .intro vmvnq_u16_typed <| List.forall_mem_nil _

theorem library3_total [Dialect] : ∀ e ∈ library3, Total e :=
  List.forall_mem_cons.mpr <| .intro vmvnq_u32_typed <| List.forall_mem_cons.mpr <| .intro vmaxq_s8_typed <| List.forall_mem_cons.mpr <| .intro vmaxq_s16_typed <| List.forall_mem_cons.mpr <| .intro vmaxq_s32_typed <| List.forall_mem_cons.mpr <| .intro vmaxq_u8_typed <| List.forall_mem_cons.mpr <| .intro vmaxq_u16_typed <| List.forall_mem_cons.mpr <| .intro vmaxq_u32_typed <| List.forall_mem_cons.mpr <| .intro vminq_s8_typed <| List.forall_mem_cons.mpr <| .intro vminq_s16_typed <| List.forall_mem_cons.mpr <| .intro vminq_s32_typed <| List.forall_mem_cons.mpr <| .intro vminq_u8_typed <| List.forall_mem_cons.mpr <| .intro vminq_u16_typed <| List.forall_mem_cons.mpr <| .intro vminq_u32_typed <| List.forall_mem_cons.mpr <| .intro vdup_n_s8_typed <| List.forall_mem_cons.mpr <| .intro vdup_n_s16_typed <| List.forall_mem_cons.mpr <| .intro vdup_n_s32_typed <| List.forall_mem_cons.mpr <| .intro vdup_n_s64_typed <| List.forall_mem_cons.mpr <| .intro vdup_n_u8_typed <| List.forall_mem_cons.mpr <| .intro vdup_n_u16_typed <| List.forall_mem_cons.mpr <| .intro vdup_n_u32_typed <| List.forall_mem_cons.mpr <| .intro vdup_n_u64_typed <| List.forall_mem_cons.mpr <| .intro vdupq_n_u8_typed <| List.forall_mem_cons.mpr <| .intro vdupq_n_s8_typed <| List.forall_mem_cons.mpr <| .intro vdupq_n_u16_typed <| List.forall_mem_cons.mpr <| .intro vdupq_n_s16_typed <| List.forall_mem_cons.mpr <| .intro vdupq_n_u32_typed <| List.forall_mem_cons.mpr <| .intro vdupq_n_s32_typed <| List.forall_mem_cons.mpr <| .intro vdupq_n_f32_typed <| List.forall_mem_cons.mpr <| .intro vmovq_n_f32_typed <| List.forall_mem_cons.mpr <| .intro vget_low_f32_typed <| List.forall_mem_cons.mpr <| .intro vget_low_s32_typed <| List.forall_mem_cons.mpr <| .intro vget_low_u32_typed <| List.forall_mem_cons.mpr <| .intro vget_low_s16_typed <| List.forall_mem_cons.mpr <| .intro vget_low_u16_typed <| List.forall_mem_cons.mpr <| .intro vget_low_s8_typed <| List.forall_mem_cons.mpr <| .intro vget_low_u8_typed <| List.forall_mem_cons.mpr <| .intro vget_high_f32_typed <| List.forall_mem_cons.mpr <| .intro vget_high_s32_typed <| List.forall_mem_cons.mpr <| .intro vget_high_u32_typed <| List.forall_mem_cons.mpr <| .intro vget_high_s16_typed <| List.forall_mem_cons.mpr <| .intro vget_high_u16_typed <| List.forall_mem_cons.mpr <| .intro vget_high_s8_typed <| List.forall_mem_cons.mpr <| .intro vget_high_u8_typed <| List.forall_mem_cons.mpr <| .intro vcombine_u8_typed <| List.forall_mem_cons.mpr <| .intro vcombine_u16_typed <| List.forall_mem_cons.mpr <| .intro vcombine_u32_typed <| List.forall_mem_cons.mpr <| .intro vcombine_s8_typed <| List.forall_mem_cons.mpr <| .intro vcombine_s16_typed <| List.forall_mem_cons.mpr <| .intro vcombine_s32_typed <| List.forall_mem_cons.mpr <| .intro vget_lane_f32_typed <| List.forall_mem_cons.mpr <| .intro vgetq_lane_u8_typed <| List.forall_mem_cons.mpr <| .intro vgetq_lane_u16_typed <| List.forall_mem_cons.mpr <| .intro vgetq_lane_u32_typed <| List.forall_mem_cons.mpr <| .intro vgetq_lane_u64_typed <| List.forall_mem_cons.mpr <| .intro vgetq_lane_s8_typed <| List.forall_mem_cons.mpr <| .intro vgetq_lane_s16_typed <| List.forall_mem_cons.mpr <| .intro vgetq_lane_s32_typed <| List.forall_mem_cons.mpr <| .intro vgetq_lane_s64_typed <| List.forall_mem_cons.mpr <| .intro vgetq_lane_f64_typed <| List.forall_mem_cons.mpr <| .intro vgetq_lane_f32_typed <| List.forall_mem_nil _

theorem library4_total [Dialect] : ∀ e ∈ library4, Total e :=
  List.forall_mem_cons.mpr <| .intro vmovn_s32_typed <| List.forall_mem_cons.mpr <| .intro vmovn_u32_typed <| List.forall_mem_cons.mpr <| .intro vmovn_u16_typed <| List.forall_mem_cons.mpr <| .intro vmovl_u8_typed <| List.forall_mem_cons.mpr <| .intro vmovl_u16_typed <| List.forall_mem_cons.mpr <| .intro vmovl_u32_typed <| List.forall_mem_cons.mpr <| .intro vmovl_s8_typed <| List.forall_mem_cons.mpr <| .intro vmovl_s16_typed <| List.forall_mem_cons.mpr <| .intro vmovl_s32_typed <| List.forall_mem_cons.mpr <| .intro vqmovn_u16_typed <| List.forall_mem_cons.mpr <| .intro vqmovun_s16_typed <| List.forall_mem_cons.mpr <| .intro vmul_s8_typed <| List.forall_mem_cons.mpr <| .intro vmul_s16_typed <| List.forall_mem_cons.mpr <| .intro vmul_s32_typed <| List.forall_mem_cons.mpr <| .intro vmul_u8_typed <| List.forall_mem_cons.mpr <| .intro vmul_u16_typed <| List.forall_mem_cons.mpr <| .intro vmul_u32_typed <| List.forall_mem_cons.mpr <| .intro vmulq_s8_typed <| List.forall_mem_cons.mpr <| .intro vmulq_s16_typed <| List.forall_mem_cons.mpr <| .intro vmulq_s32_typed <| List.forall_mem_cons.mpr <| .intro vmulq_u8_typed <| List.forall_mem_cons.mpr <| .intro vmulq_u16_typed <| List.forall_mem_cons.mpr <| .intro vmulq_u32_typed <| List.forall_mem_cons.mpr <| .intro vmul_n_s16_typed <| List.forall_mem_cons.mpr <| .intro vmul_n_s32_typed <| List.forall_mem_cons.mpr <| .intro vmul_n_u16_typed <| List.forall_mem_cons.mpr <| .intro vmul_n_u32_typed <| List.forall_mem_cons.mpr <| .intro vmulq_n_s16_typed <| List.forall_mem_cons.mpr <| .intro vmulq_n_s32_typed <| List.forall_mem_cons.mpr <| .intro vmulq_n_u16_typed <| List.forall_mem_cons.mpr <| .intro vmulq_n_u32_typed <| List.forall_mem_cons.mpr <| .intro vmull_s8_typed <| List.forall_mem_cons.mpr <| .intro vmull_s16_typed <| List.forall_mem_cons.mpr <| .intro vmull_s32_typed <| List.forall_mem_cons.mpr <| .intro vmull_u8_typed <| List.forall_mem_cons.mpr <| .intro vmull_u16_typed <| List.forall_mem_cons.mpr <| .intro vmull_u32_typed <| List.forall_mem_cons.mpr <| .intro vmull_n_s16_typed <| List.forall_mem_cons.mpr <| .intro vmull_n_s32_typed <| List.forall_mem_cons.mpr <| .intro vmull_n_u16_typed <| List.forall_mem_cons.mpr <| .intro vmull_n_u32_typed <| List.forall_mem_cons.mpr <| .intro vqdmull_s16_typed <| List.forall_mem_cons.mpr <| .intro vmlal_s8_typed <| List.forall_mem_cons.mpr <| .intro vmlal_s16_typed <| List.forall_mem_cons.mpr <| .intro vmlal_s32_typed <| List.forall_mem_cons.mpr <| .intro vmlal_u8_typed <| List.forall_mem_cons.mpr <| .intro vmlal_u16_typed <| List.forall_mem_cons.mpr <| .intro vmlal_u32_typed <| List.forall_mem_cons.mpr <| .intro vmlsl_s8_typed <| List.forall_mem_cons.mpr <| .intro vmlsl_s16_typed <| List.forall_mem_cons.mpr <| .intro vmlsl_s32_typed <| List.forall_mem_cons.mpr <| .intro vmlsl_u8_typed <| List.forall_mem_cons.mpr <| .intro vmlsl_u16_typed <| List.forall_mem_cons.mpr <| .intro vmlsl_u32_typed <| List.forall_mem_cons.mpr <| .intro vmlaq_s8_typed <| List.forall_mem_cons.mpr <| .intro vmlaq_s16_typed <| List.forall_mem_cons.mpr <| .intro vmlaq_s32_typed <| List.forall_mem_cons.mpr <| .intro vmlaq_u8_typed <| List.forall_mem_cons.mpr <| .intro vmlaq_u16_typed <| List.forall_mem_cons.mpr <| .intro vmlaq_u32_typed <| List.forall_mem_nil _

theorem library5_total [Dialect] : ∀ e ∈ library5, Total e :=
  List.forall_mem_cons.mpr <| .intro vpaddl_u8_typed <| List.forall_mem_cons.mpr <| .intro vpaddlq_u8_typed <| List.forall_mem_cons.mpr <| .intro vpaddlq_u16_typed <| List.forall_mem_cons.mpr <| .intro vaddhn_high_s16_typed <| List.forall_mem_cons.mpr <| .intro vaddhn_high_s32_typed <| List.forall_mem_cons.mpr <| .intro vaddhn_high_s64_typed <| List.forall_mem_cons.mpr <| .intro vaddhn_high_u16_typed <| List.forall_mem_cons.mpr <| .intro vaddhn_high_u32_typed <| List.forall_mem_cons.mpr <| .intro vaddhn_high_u64_typed <| List.forall_mem_cons.mpr <| .intro vsubhn_s16_typed <| List.forall_mem_cons.mpr <| .intro vsubn_s32_typed <| List.forall_mem_cons.mpr <| .intro vsubn_s64_typed <| List.forall_mem_cons.mpr <| .intro vsubhn_u16_typed <| List.forall_mem_cons.mpr <| .intro vsubn_u32_typed <| List.forall_mem_cons.mpr <| .intro vsubn_u64_typed <| List.forall_mem_cons.mpr <| .intro vrsubhn_s16_typed <| List.forall_mem_cons.mpr <| .intro vrsubhn_s32_typed <| List.forall_mem_cons.mpr <| .intro vrsubhn_s64_typed <| List.forall_mem_cons.mpr <| .intro vrsubhn_u16_typed <| List.forall_mem_cons.mpr <| .intro vrsubhn_u32_typed <| List.forall_mem_cons.mpr <| .intro vrsubhn_u64_typed <| List.forall_mem_cons.mpr <| .intro vhsub_s8_typed <| List.forall_mem_cons.mpr <| .intro vhsub_s16_typed <| List.forall_mem_cons.mpr <| .intro vhsub_s32_typed <| List.forall_mem_cons.mpr <| .intro vhsub_u8_typed <| List.forall_mem_cons.mpr <| .intro vhsub_u16_typed <| List.forall_mem_cons.mpr <| .intro vhsub_u32_typed <| List.forall_mem_cons.mpr <| .intro vhsubq_s8_typed <| List.forall_mem_cons.mpr <| .intro vhsubq_s16_typed <| List.forall_mem_cons.mpr <| .intro vhsubq_s32_typed <| List.forall_mem_cons.mpr <| .intro vhsubq_u8_typed <| List.forall_mem_cons.mpr <| .intro vhsubq_u16_typed <| List.forall_mem_cons.mpr <| .intro vhsubq_u32_typed <| List.forall_mem_cons.mpr <| .intro vrev16_s8_typed <| List.forall_mem_cons.mpr <| .intro vrev16_u8_typed <| List.forall_mem_cons.mpr <| .intro vrev16q_s8_typed <| List.forall_mem_cons.mpr <| .intro vrev16q_u8_typed <| List.forall_mem_cons.mpr <| .intro vrev32_s8_typed <| List.forall_mem_cons.mpr <| .intro vrev32_s16_typed <| List.forall_mem_cons.mpr <| .intro vrev32_u8_typed <| List.forall_mem_cons.mpr <| .intro vrev32_u16_typed <| List.forall_mem_cons.mpr <| .intro vrev32q_s8_typed <| List.forall_mem_cons.mpr <| .intro vrev32q_s16_typed <| List.forall_mem_cons.mpr <| .intro vrev32q_u8_typed <| List.forall_mem_cons.mpr <| .intro vrev32q_u16_typed <| List.forall_mem_cons.mpr <| .intro vrev64_s8_typed <| List.forall_mem_cons.mpr <| .intro vrev64_s16_typed <| List.forall_mem_cons.mpr <| .intro vrev64_s32_typed <| List.forall_mem_cons.mpr <| .intro vrev64_u8_typed <| List.forall_mem_cons.mpr <| .intro vrev64_u16_typed <| List.forall_mem_cons.mpr <| .intro vrev64_u32_typed <| List.forall_mem_cons.mpr <| .intro vrev64_f32_typed <| List.forall_mem_cons.mpr <| .intro vrev64q_s8_typed <| List.forall_mem_cons.mpr <| .intro vrev64q_s16_typed <| List.forall_mem_cons.mpr <| .intro vrev64q_s32_typed <| List.forall_mem_cons.mpr <| .intro vrev64q_u8_typed <| List.forall_mem_cons.mpr <| .intro vrev64q_u16_typed <| List.forall_mem_cons.mpr <| .intro vrev64q_u32_typed <| List.forall_mem_cons.mpr <| .intro vrev64q_f32_typed <| List.forall_mem_cons.mpr <| .intro vtrn_s8_typed <| List.forall_mem_nil _

theorem library6_total [Dialect] : ∀ e ∈ library6, Total e :=
  List.forall_mem_cons.mpr <| .intro vtrn_u8_typed <| List.forall_mem_cons.mpr <| .intro vtrn_s16_typed <| List.forall_mem_cons.mpr <| .intro vtrn_u16_typed <| List.forall_mem_cons.mpr <| .intro vtrn_s32_typed <| List.forall_mem_cons.mpr <| .intro vtrn_u32_typed <| List.forall_mem_cons.mpr <| .intro vtrnq_u16_typed <| List.forall_mem_cons.mpr <| .intro vtrnq_u32_typed <| List.forall_mem_cons.mpr <| .intro vtrnq_s16_typed <| List.forall_mem_cons.mpr <| .intro vzip_s16_typed <| List.forall_mem_cons.mpr <| .intro vzip_s8_typed <| List.forall_mem_cons.mpr <| .intro vzip_u8_typed <| List.forall_mem_cons.mpr <| .intro vuzp_u8_typed <| List.forall_mem_cons.mpr <| .intro vuzp_s8_typed <| List.forall_mem_cons.mpr <| .intro vext_u8_typed <| List.forall_mem_cons.mpr <| .intro vext_u16_typed <| List.forall_mem_cons.mpr <| .intro vext_s16_typed <| List.forall_mem_cons.mpr <| .intro vextq_u16_typed <| List.forall_mem_cons.mpr <| .intro vqsub_s64_typed <| List.forall_mem_cons.mpr <| .intro vqsubq_s64_typed <| List.forall_mem_cons.mpr <| .intro vqsub_u64_typed <| List.forall_mem_cons.mpr <| .intro vqsubq_u64_typed <| List.forall_mem_cons.mpr <| .intro vrecpeq_f32_typed <| List.forall_mem_cons.mpr <| .intro vrecpsq_f32_typed <| List.forall_mem_cons.mpr <| .intro vreinterpret_u8_s8_typed <| List.forall_mem_cons.mpr <| .intro vreinterpretq_s16_u16_typed <| List.forall_mem_cons.mpr <| .intro vreinterpretq_u16_s16_typed <| List.forall_mem_cons.mpr <| .intro vreinterpret_u16_u8_typed <| List.forall_mem_cons.mpr <| .intro vreinterpret_u32_u16_typed <| List.forall_mem_cons.mpr <| .intro vreinterpret_u8_u32_typed <| List.forall_mem_cons.mpr <| .intro vreinterpret_u32_u8_typed <| List.forall_mem_cons.mpr <| .intro vreinterpret_s8_u8_typed <| List.forall_mem_cons.mpr <| .intro vreinterpret_s32_s16_typed <| List.forall_mem_cons.mpr <| .intro vreinterpret_s16_s32_typed <| List.forall_mem_cons.mpr <| .intro vreinterpretq_u8_s8_typed <| List.forall_mem_cons.mpr <| .intro vreinterpretq_u8_s16_typed <| List.forall_mem_cons.mpr <| .intro vreinterpretq_u8_s32_typed <| List.forall_mem_cons.mpr <| .intro vreinterpretq_u8_f32_typed <| List.forall_mem_cons.mpr <| .intro vreinterpretq_u8_u16_typed <| List.forall_mem_cons.mpr <| .intro vreinterpretq_u8_u32_typed <| List.forall_mem_cons.mpr <| .intro vreinterpretq_u8_u64_typed <| List.forall_mem_cons.mpr <| .intro vreinterpretq_u8_s64_typed <| List.forall_mem_cons.mpr <| .intro vreinterpretq_u8_f64_typed <| List.forall_mem_cons.mpr <| .intro vreinterpretq_u32_s8_typed <| List.forall_mem_cons.mpr <| .intro vreinterpretq_u32_s16_typed <| List.forall_mem_cons.mpr <| .intro vreinterpretq_u32_s32_typed <| List.forall_mem_cons.mpr <| .intro vreinterpretq_u32_f32_typed <| List.forall_mem_cons.mpr <| .intro vreinterpretq_u32_u8_typed <| List.forall_mem_cons.mpr <| .intro vreinterpretq_u32_u16_typed <| List.forall_mem_cons.mpr <| .intro vreinterpretq_u32_u64_typed <| List.forall_mem_cons.mpr <| .intro vreinterpretq_u32_s64_typed <| List.forall_mem_cons.mpr <| .intro vreinterpretq_u32_f64_typed <| List.forall_mem_cons.mpr <| .intro vqadd_u8_typed <| List.forall_mem_cons.mpr <| .intro vqaddq_u8_typed <| List.forall_mem_cons.mpr <| .intro vqsub_s8_typed <| List.forall_mem_cons.mpr <| .intro vqsub_s16_typed <| List.forall_mem_cons.mpr <| .intro vqsub_s32_typed <| List.forall_mem_cons.mpr <| .intro vqsub_u8_typed <| List.forall_mem_cons.mpr <| .intro vqsub_u16_typed <| List.forall_mem_cons.mpr <| .intro vqsub_u32_typed <| List.forall_mem_cons.mpr <| .intro vqsubq_s8_typed <| List.forall_mem_nil _

theorem library7_total [Dialect] : ∀ e ∈ library7, Total e :=
  List.forall_mem_cons.mpr <| .intro vqsubq_s16_typed <| List.forall_mem_cons.mpr <| .intro vqsubq_s32_typed <| List.forall_mem_cons.mpr <| .intro vqsubq_u8_typed <| List.forall_mem_cons.mpr <| .intro vqsubq_u16_typed <| List.forall_mem_cons.mpr <| .intro vqsubq_u32_typed <| List.forall_mem_cons.mpr <| .intro vcgtq_u8_typed <| List.forall_mem_cons.mpr <| .intro vbslq_u8_typed <| List.forall_mem_cons.mpr <| .intro vtbl1_u8_typed <| List.forall_mem_cons.mpr <| .intro vtbl2_u8_typed <| List.forall_mem_cons.mpr <| .intro vtbl4_u8_typed <| List.forall_mem_cons.mpr <| .intro vqtbl1_u8_typed <| List.forall_mem_cons.mpr <| .intro vshrn_n_s16_typed <| List.forall_mem_cons.mpr <| .intro vshrn_n_s32_typed <| List.forall_mem_cons.mpr <| .intro vshrn_n_s64_typed <| List.forall_mem_cons.mpr <| .intro vshrn_n_u16_typed <| List.forall_mem_cons.mpr <| .intro vshrn_n_u32_typed <| List.forall_mem_cons.mpr <| .intro vshrn_n_u64_typed <| List.forall_mem_cons.mpr <| .intro vshr_n_u16_typed <| List.forall_mem_cons.mpr <| .intro vqshrun_n_s16_typed <| List.forall_mem_cons.mpr <| .intro vqrshrun_n_s16_typed <| List.forall_mem_cons.mpr <| .intro vqshrn_n_s16_typed <| List.forall_mem_cons.mpr <| .intro vqshrn_n_s32_typed <| List.forall_mem_cons.mpr <| .intro vqshrn_n_u16_typed <| List.forall_mem_cons.mpr <| .intro vqshrn_n_u32_typed <| List.forall_mem_cons.mpr <| .intro vqshrn_n_u64_typed <| List.forall_mem_cons.mpr <| .intro vqshrn_n_s64_typed <| List.forall_mem_cons.mpr <| .intro vrshrn_n_u16_typed <| List.forall_mem_cons.mpr <| .intro vsraq_n_s32_typed <| List.forall_mem_cons.mpr <| .intro vshlq_n_s32_typed <| List.forall_mem_cons.mpr <| .intro vshll_n_u8_typed <| List.forall_mem_cons.mpr <| .intro vqshrun_n_s32_typed <| List.forall_mem_cons.mpr <| .intro vqshrun_n_s64_typed <| List.forall_mem_cons.mpr <| .intro vaddl_u8_typed <| List.forall_mem_cons.mpr <| .intro vaddw_s8_typed <| List.forall_mem_cons.mpr <| .intro vaddw_s16_typed <| List.forall_mem_cons.mpr <| .intro vaddw_s32_typed <| List.forall_mem_cons.mpr <| .intro vaddw_u8_typed <| List.forall_mem_cons.mpr <| .intro vaddw_u16_typed <| List.forall_mem_cons.mpr <| .intro vaddw_u32_typed <| List.forall_mem_cons.mpr <| .intro vaddw_high_s8_typed <| List.forall_mem_cons.mpr <| .intro vaddw_high_s16_typed <| List.forall_mem_cons.mpr <| .intro vaddw_high_s32_typed <| List.forall_mem_cons.mpr <| .intro vaddw_high_u8_typed <| List.forall_mem_cons.mpr <| .intro vaddw_high_u16_typed <| List.forall_mem_cons.mpr <| .intro vaddw_high_u32_typed <| List.forall_mem_cons.mpr <| .intro vaddl_high_s8_typed <| List.forall_mem_cons.mpr <| .intro vaddl_high_s16_typed <| List.forall_mem_cons.mpr <| .intro vaddl_high_s32_typed <| List.forall_mem_cons.mpr <| .intro vaddl_high_u8_typed <| List.forall_mem_cons.mpr <| .intro vaddl_high_u16_typed <| List.forall_mem_cons.mpr <| .intro vaddl_high_u32_typed <| List.forall_mem_cons.mpr <| .intro FPRecipEstimate_typed <| List.forall_mem_cons.mpr <| .intro RecipEstimate_typed <| List.forall_mem_cons.mpr <| .intro vst1_u8_typed <| List.forall_mem_cons.mpr <| .intro vst1_s8_typed <| List.forall_mem_cons.mpr <| .intro vst1_u16_typed <| List.forall_mem_cons.mpr <| .intro vst1_s16_typed <| List.forall_mem_cons.mpr <| .intro vst1_u32_typed <| List.forall_mem_cons.mpr <| .intro vst1_s32_typed <| List.forall_mem_cons.mpr <| .intro vst1_s64_typed <| List.forall_mem_nil _

theorem library8_total [Dialect] : ∀ e ∈ library8, Total e :=
  List.forall_mem_cons.mpr <| .intro vst1_u64_typed <| List.forall_mem_cons.mpr <| .intro vst1q_u8_typed <| List.forall_mem_cons.mpr <| .intro vst1q_s8_typed <| List.forall_mem_cons.mpr <| .intro vst1q_u16_typed <| List.forall_mem_cons.mpr <| .intro vst1q_s16_typed <| List.forall_mem_cons.mpr <| .intro vst1q_u32_typed <| List.forall_mem_cons.mpr <| .intro vst1q_s32_typed <| List.forall_mem_cons.mpr <| .intro vst1q_s64_typed <| List.forall_mem_cons.mpr <| .intro vst1q_u64_typed <| List.forall_mem_cons.mpr <| .intro vst1q_f32_typed <| List.forall_mem_cons.mpr <| .intro vst2_s8_typed <| List.forall_mem_cons.mpr <| .intro vst2_s16_typed <| List.forall_mem_cons.mpr <| .intro vst2_s32_typed <| List.forall_mem_cons.mpr <| .intro vst2_u8_typed <| List.forall_mem_cons.mpr <| .intro vst2_u16_typed <| List.forall_mem_cons.mpr <| .intro vst2_u32_typed <| List.forall_mem_cons.mpr <| .intro vst2q_s8_typed <| List.forall_mem_cons.mpr <| .intro vst2q_s16_typed <| List.forall_mem_cons.mpr <| .intro vst2q_s32_typed <| List.forall_mem_cons.mpr <| .intro vst2q_u8_typed <| List.forall_mem_cons.mpr <| .intro vst2q_u16_typed <| List.forall_mem_cons.mpr <| .intro vst2q_u32_typed <| List.forall_mem_cons.mpr <| .intro vst3_s8_typed <| List.forall_mem_cons.mpr <| .intro vst3_s16_typed <| List.forall_mem_cons.mpr <| .intro vst3_s32_typed <| List.forall_mem_cons.mpr <| .intro vst3_u8_typed <| List.forall_mem_cons.mpr <| .intro vst3_u16_typed <| List.forall_mem_cons.mpr <| .intro vst3_u32_typed <| List.forall_mem_cons.mpr <| .intro vst3q_s8_typed <| List.forall_mem_cons.mpr <| .intro vst3q_s16_typed <| List.forall_mem_cons.mpr <| .intro vst3q_s32_typed <| List.forall_mem_cons.mpr <| .intro vst3q_u8_typed <| List.forall_mem_cons.mpr <| .intro vst3q_u16_typed <| List.forall_mem_cons.mpr <| .intro vst3q_u32_typed <| List.forall_mem_cons.mpr <| .intro vst4_s8_typed <| List.forall_mem_cons.mpr <| .intro vst4_s16_typed <| List.forall_mem_cons.mpr <| .intro vst4_s32_typed <| List.forall_mem_cons.mpr <| .intro vst4_u8_typed <| List.forall_mem_cons.mpr <| .intro vst4_u16_typed <| List.forall_mem_cons.mpr <| .intro vst4_u32_typed <| List.forall_mem_cons.mpr <| .intro vst4q_s8_typed <| List.forall_mem_cons.mpr <| .intro vst4q_s16_typed <| List.forall_mem_cons.mpr <| .intro vst4q_s32_typed <| List.forall_mem_cons.mpr <| .intro vst4q_u8_typed <| List.forall_mem_cons.mpr <| .intro vst4q_u16_typed <| List.forall_mem_cons.mpr <| .intro vst4q_u32_typed <| List.forall_mem_cons.mpr <| .intro vst4q_lane_f32_typed <| List.forall_mem_cons.mpr <| .intro vsubl_s8_typed <| List.forall_mem_cons.mpr <| .intro vsubl_s16_typed <| List.forall_mem_cons.mpr <| .intro vsubl_s32_typed <| List.forall_mem_cons.mpr <| .intro vsubl_u8_typed <| List.forall_mem_cons.mpr <| .intro vsubl_u16_typed <| List.forall_mem_cons.mpr <| .intro vsubl_u32_typed <| List.forall_mem_cons.mpr <| .intro vsubw_s8_typed <| List.forall_mem_cons.mpr <| .intro vsubw_s16_typed <| List.forall_mem_cons.mpr <| .intro vsubw_s32_typed <| List.forall_mem_cons.mpr <| .intro vsubw_u8_typed <| List.forall_mem_cons.mpr <| .intro vsubw_u16_typed <| List.forall_mem_cons.mpr <| .intro vsubw_u32_typed <| List.forall_mem_nil _

/-- Every function of `neon_sim.cpp`, called with any arguments of the types in its definition, has exactly one
outcome: a result of the declared type, its message, undefined behaviour, or (four functions) unwritten lanes. -/
theorem call_total [Dialect] : ∀ e ∈ library, ∀ g, e.2.sig e.1 = some g → ∀ args, Typed g.params args →
    ∃ o, (∀ o', Called e.1 args o' ↔ o' = o) ∧ Accepted e.1 g args o := by
  intro e he
  unfold library at he
  simp only [List.mem_append] at he
  rcases he with (((((((he | he) | he) | he) | he) | he) | he) | he) | he
  · exact library0_total e he
  · exact library1_total e he
  · exact library2_total e he
  · exact library3_total e he
  · exact library4_total e he
  · exact library5_total e he
  · exact library6_total e he
  · exact library7_total e he
  · exact library8_total e he

end Verif.Props
