import Verif.Props.ExecLibrary
import Verif.Props.TypeSafe
import Verif.Props.Typed

/-! Properties C96 and C97, continued: every function of the library obeys the static rules, and has the outcome of the model on the
abstract machine (generated by `tools/gen_machlib.py`). -/

namespace Verif.Props
open Verif.Cpp Verif.SpecExec

/-- The type of a parameter in the definition of a function. -/
def paramTy : PTy → Ty
  | .val t => t
  | .ptr _ e => .ptr e

/-- The definition obeys the static rules and has the types of the declaration. -/
def checked (d : Func) (g : Sig) : Bool :=
  funcOk d && SpecType.func d && decide (d.ret = g.ret) && decide (d.params.map (·.1) = g.params.map paramTy)

/-- A definition that obeys the static rules; or a function of a translation unit that obeys them, which returns a value for all
arguments. -/
def Checked (e : Nat × Text) : Prop :=
  match e.2 with
  | .fn s => ∃ d, parse s.toList = some d ∧ ∃ g, e.2.sig e.1 = some g ∧ checked d g = true
  | .unit s => (∃ u, parseUnit s.toList = some u ∧ funcsOk u = true ∧ SpecType.unit u = true ∧ ∃ d, func u.funcs e.1 = some d ∧ d.ret ≠ .void) ∧
      ∀ (_ : Dialect) (g : Sig), e.2.sig e.1 = some g → ∀ args, Cpp.Typed g.params args → ∃ r, RunsIn s e.1 args (.ok r)

theorem FPRecipEstimate_checked : Checked (k!"FPRecipEstimate", .unit Source.recip) := by
  refine ⟨⟨_, Source.recip_parse, by decide +kernel, by decide +kernel, _, rfl, by decide +kernel⟩, fun D g hg args h => ?_⟩
  cases FPRecipEstimate_sig_read.symm.trans hg
  obtain ⟨a0, rfl, ta⟩ := typed1 h
  obtain ⟨a, rfl⟩ := ta
  have := FPRecipEstimate_source a
  rw [FPRecipEstimate_eval] at this
  exact ⟨_, this⟩

theorem vrecpeq_f32_checked : Checked (k!"vrecpeq_f32", .unit Source.recip) := by
  refine ⟨⟨_, Source.recip_parse, by decide +kernel, by decide +kernel, _, rfl, by decide +kernel⟩, fun D g hg args h => ?_⟩
  cases vrecpeq_f32_sig_read.symm.trans hg
  obtain ⟨a0, rfl, ta⟩ := typed1 h
  obtain ⟨a, rfl⟩ := ta
  have := vrecpeq_f32_source a
  rw [vrecpeq_f32_eval] at this
  exact ⟨_, this⟩

theorem library0_checked : ∀ e ∈ library0, Checked e := by
  unfold library0
  repeat rw [List.forall_mem_cons]
  exact ⟨⟨_, Source.vadd_s8_parse, _, vadd_s8_sig_read, by decide +kernel⟩,
    ⟨_, Source.vadd_s16_parse, _, vadd_s16_sig_read, by decide +kernel⟩,
    ⟨_, Source.vadd_s32_parse, _, vadd_s32_sig_read, by decide +kernel⟩,
    ⟨_, Source.vadd_s64_parse, _, vadd_s64_sig_read, by decide +kernel⟩,
    ⟨_, Source.vadd_u8_parse, _, vadd_u8_sig_read, by decide +kernel⟩,
    ⟨_, Source.vadd_u16_parse, _, vadd_u16_sig_read, by decide +kernel⟩,
    ⟨_, Source.vadd_u32_parse, _, vadd_u32_sig_read, by decide +kernel⟩,
    ⟨_, Source.vadd_u64_parse, _, vadd_u64_sig_read, by decide +kernel⟩,
    ⟨_, Source.vaddq_s8_parse, _, vaddq_s8_sig_read, by decide +kernel⟩,
    ⟨_, Source.vaddq_s16_parse, _, vaddq_s16_sig_read, by decide +kernel⟩,
    ⟨_, Source.vaddq_s32_parse, _, vaddq_s32_sig_read, by decide +kernel⟩,
    ⟨_, Source.vaddq_s64_parse, _, vaddq_s64_sig_read, by decide +kernel⟩,
    ⟨_, Source.vaddq_u8_parse, _, vaddq_u8_sig_read, by decide +kernel⟩,
    ⟨_, Source.vaddq_u16_parse, _, vaddq_u16_sig_read, by decide +kernel⟩,
    ⟨_, Source.vaddq_u32_parse, _, vaddq_u32_sig_read, by decide +kernel⟩,
    ⟨_, Source.vaddq_u64_parse, _, vaddq_u64_sig_read, by decide +kernel⟩,
    ⟨_, Source.vsub_s8_parse, _, vsub_s8_sig_read, by decide +kernel⟩,
    ⟨_, Source.vsub_s16_parse, _, vsub_s16_sig_read, by decide +kernel⟩,
    ⟨_, Source.vsub_s32_parse, _, vsub_s32_sig_read, by decide +kernel⟩,
    ⟨_, Source.vsub_s64_parse, _, vsub_s64_sig_read, by decide +kernel⟩,
    ⟨_, Source.vsub_u8_parse, _, vsub_u8_sig_read, by decide +kernel⟩,
    ⟨_, Source.vsub_u16_parse, _, vsub_u16_sig_read, by decide +kernel⟩,
    ⟨_, Source.vsub_u32_parse, _, vsub_u32_sig_read, by decide +kernel⟩,
    ⟨_, Source.vsub_u64_parse, _, vsub_u64_sig_read, by decide +kernel⟩,
    ⟨_, Source.vsubq_s8_parse, _, vsubq_s8_sig_read, by decide +kernel⟩,
    ⟨_, Source.vsubq_s16_parse, _, vsubq_s16_sig_read, by decide +kernel⟩,
    ⟨_, Source.vsubq_s32_parse, _, vsubq_s32_sig_read, by decide +kernel⟩,
    ⟨_, Source.vsubq_s64_parse, _, vsubq_s64_sig_read, by decide +kernel⟩,
    ⟨_, Source.vsubq_u8_parse, _, vsubq_u8_sig_read, by decide +kernel⟩,
    ⟨_, Source.vsubq_u16_parse, _, vsubq_u16_sig_read, by decide +kernel⟩,
    ⟨_, Source.vsubq_u32_parse, _, vsubq_u32_sig_read, by decide +kernel⟩,
    ⟨_, Source.vsubq_u64_parse, _, vsubq_u64_sig_read, by decide +kernel⟩,
    ⟨_, Source.vaddq_f32_parse, _, vaddq_f32_sig_read, by decide +kernel⟩,
    ⟨_, Source.vsub_f32_parse, _, vsub_f32_sig_read, by decide +kernel⟩,
    ⟨_, Source.vsub_f32_overload2_parse, _, vsub_f32_overload2_sig_read, by decide +kernel⟩,
    ⟨_, Source.vsubq_f32_parse, _, vsubq_f32_sig_read, by decide +kernel⟩,
    ⟨_, Source.vmulq_f32_parse, _, vmulq_f32_sig_read, by decide +kernel⟩,
    ⟨_, Source.vmul_n_f32_parse, _, vmul_n_f32_sig_read, by decide +kernel⟩,
    ⟨_, Source.vmul_n_f64_parse, _, vmul_n_f64_sig_read, by decide +kernel⟩,
    ⟨_, Source.vmulq_n_f32_parse, _, vmulq_n_f32_sig_read, by decide +kernel⟩,
    ⟨_, Source.vmulq_n_f64_parse, _, vmulq_n_f64_sig_read, by decide +kernel⟩,
    ⟨_, Source.vdiv_f32_parse, _, vdiv_f32_sig_read, by decide +kernel⟩,
    ⟨_, Source.vdiv_f64_parse, _, vdiv_f64_sig_read, by decide +kernel⟩,
    ⟨_, Source.vdivq_f32_parse, _, vdivq_f32_sig_read, by decide +kernel⟩,
    ⟨_, Source.vdivq_f64_parse, _, vdivq_f64_sig_read, by decide +kernel⟩,
    ⟨_, Source.vmlaq_f32_parse, _, vmlaq_f32_sig_read, by decide +kernel⟩,
    ⟨_, Source.vmlaq_n_f32_parse, _, vmlaq_n_f32_sig_read, by decide +kernel⟩,
    ⟨_, Source.vcvtq_f32_s32_parse, _, vcvtq_f32_s32_sig_read, by decide +kernel⟩,
    ⟨_, Source.vcvtq_s32_f32_parse, _, vcvtq_s32_f32_sig_read, by decide +kernel⟩,
    ⟨_, Source.vcvtq_u32_f32_parse, _, vcvtq_u32_f32_sig_read, by decide +kernel⟩,
    ⟨_, Source.vcvtnq_s32_f32_parse, _, vcvtnq_s32_f32_sig_read, by decide +kernel⟩,
    ⟨_, Source.vcltq_f32_parse, _, vcltq_f32_sig_read, by decide +kernel⟩,
    ⟨_, Source.vmaxq_f32_parse, _, vmaxq_f32_sig_read, by decide +kernel⟩,
    ⟨_, Source.vminq_f32_parse, _, vminq_f32_sig_read, by decide +kernel⟩,
    ⟨_, Source.vpmax_f32_parse, _, vpmax_f32_sig_read, by decide +kernel⟩,
    ⟨_, Source.vpmin_f32_parse, _, vpmin_f32_sig_read, by decide +kernel⟩,
    ⟨_, Source.vbslq_f32_parse, _, vbslq_f32_sig_read, by decide +kernel⟩,
    ⟨_, Source.vld1_u8_parse, _, vld1_u8_sig_read, by decide +kernel⟩,
    ⟨_, Source.vld1_s8_parse, _, vld1_s8_sig_read, by decide +kernel⟩,
    ⟨_, Source.vld1_u16_parse, _, vld1_u16_sig_read, by decide +kernel⟩, fun _ h => absurd h List.not_mem_nil⟩

theorem library1_checked : ∀ e ∈ library1, Checked e := by
  unfold library1
  repeat rw [List.forall_mem_cons]
  exact ⟨⟨_, Source.vld1_s16_parse, _, vld1_s16_sig_read, by decide +kernel⟩,
    ⟨_, Source.vld1_u32_parse, _, vld1_u32_sig_read, by decide +kernel⟩,
    ⟨_, Source.vld1_u64_parse, _, vld1_u64_sig_read, by decide +kernel⟩,
    ⟨_, Source.vld1_s32_parse, _, vld1_s32_sig_read, by decide +kernel⟩,
    ⟨_, Source.vld1_s64_parse, _, vld1_s64_sig_read, by decide +kernel⟩,
    ⟨_, Source.vld1_f32_parse, _, vld1_f32_sig_read, by decide +kernel⟩,
    ⟨_, Source.vld1_f64_parse, _, vld1_f64_sig_read, by decide +kernel⟩,
    ⟨_, Source.vld1q_u8_parse, _, vld1q_u8_sig_read, by decide +kernel⟩,
    ⟨_, Source.vld1q_s8_parse, _, vld1q_s8_sig_read, by decide +kernel⟩,
    ⟨_, Source.vld1q_u16_parse, _, vld1q_u16_sig_read, by decide +kernel⟩,
    ⟨_, Source.vld1q_s16_parse, _, vld1q_s16_sig_read, by decide +kernel⟩,
    ⟨_, Source.vld1q_u32_parse, _, vld1q_u32_sig_read, by decide +kernel⟩,
    ⟨_, Source.vld1q_s32_parse, _, vld1q_s32_sig_read, by decide +kernel⟩,
    ⟨_, Source.vld1q_s64_parse, _, vld1q_s64_sig_read, by decide +kernel⟩,
    ⟨_, Source.vld1q_u64_parse, _, vld1q_u64_sig_read, by decide +kernel⟩,
    ⟨_, Source.vld1q_f32_parse, _, vld1q_f32_sig_read, by decide +kernel⟩,
    ⟨_, Source.vld2_u8_parse, _, vld2_u8_sig_read, by decide +kernel⟩,
    ⟨_, Source.vld2_s8_parse, _, vld2_s8_sig_read, by decide +kernel⟩,
    ⟨_, Source.vld2_u16_parse, _, vld2_u16_sig_read, by decide +kernel⟩,
    ⟨_, Source.vld2_s16_parse, _, vld2_s16_sig_read, by decide +kernel⟩,
    ⟨_, Source.vld2_u32_parse, _, vld2_u32_sig_read, by decide +kernel⟩,
    ⟨_, Source.vld_s32_parse, _, vld_s32_sig_read, by decide +kernel⟩,
    ⟨_, Source.vld2_f32_parse, _, vld2_f32_sig_read, by decide +kernel⟩,
    ⟨_, Source.vld2q_u8_parse, _, vld2q_u8_sig_read, by decide +kernel⟩,
    ⟨_, Source.vld2q_s8_parse, _, vld2q_s8_sig_read, by decide +kernel⟩,
    ⟨_, Source.vld2q_u16_parse, _, vld2q_u16_sig_read, by decide +kernel⟩,
    ⟨_, Source.vld2q_s16_parse, _, vld2q_s16_sig_read, by decide +kernel⟩,
    ⟨_, Source.vld2q_u32_parse, _, vld2q_u32_sig_read, by decide +kernel⟩,
    ⟨_, Source.vld2q_s32_parse, _, vld2q_s32_sig_read, by decide +kernel⟩,
    ⟨_, Source.vld3_u8_parse, _, vld3_u8_sig_read, by decide +kernel⟩,
    ⟨_, Source.vld3_s8_parse, _, vld3_s8_sig_read, by decide +kernel⟩,
    ⟨_, Source.vld3_u16_parse, _, vld3_u16_sig_read, by decide +kernel⟩,
    ⟨_, Source.vld3_s16_parse, _, vld3_s16_sig_read, by decide +kernel⟩,
    ⟨_, Source.vld3_u32_parse, _, vld3_u32_sig_read, by decide +kernel⟩,
    ⟨_, Source.vld3_s32_parse, _, vld3_s32_sig_read, by decide +kernel⟩,
    ⟨_, Source.vld3_f32_parse, _, vld3_f32_sig_read, by decide +kernel⟩,
    ⟨_, Source.vld3q_u8_parse, _, vld3q_u8_sig_read, by decide +kernel⟩,
    ⟨_, Source.vld3q_s8_parse, _, vld3q_s8_sig_read, by decide +kernel⟩,
    ⟨_, Source.vld3q_u16_parse, _, vld3q_u16_sig_read, by decide +kernel⟩,
    ⟨_, Source.vld3q_s16_parse, _, vld3q_s16_sig_read, by decide +kernel⟩,
    ⟨_, Source.vld3q_u32_parse, _, vld3q_u32_sig_read, by decide +kernel⟩,
    ⟨_, Source.vld3q_s32_parse, _, vld3q_s32_sig_read, by decide +kernel⟩,
    ⟨_, Source.vld4_u8_parse, _, vld4_u8_sig_read, by decide +kernel⟩,
    ⟨_, Source.vld4_s8_parse, _, vld4_s8_sig_read, by decide +kernel⟩,
    ⟨_, Source.vld4_u16_parse, _, vld4_u16_sig_read, by decide +kernel⟩,
    ⟨_, Source.vld4_s16_parse, _, vld4_s16_sig_read, by decide +kernel⟩,
    ⟨_, Source.vld4_u32_parse, _, vld4_u32_sig_read, by decide +kernel⟩,
    ⟨_, Source.vld4_s32_parse, _, vld4_s32_sig_read, by decide +kernel⟩,
    ⟨_, Source.vld4_f32_parse, _, vld4_f32_sig_read, by decide +kernel⟩,
    ⟨_, Source.vld4q_u8_parse, _, vld4q_u8_sig_read, by decide +kernel⟩,
    ⟨_, Source.vld4q_s8_parse, _, vld4q_s8_sig_read, by decide +kernel⟩,
    ⟨_, Source.vld4q_u16_parse, _, vld4q_u16_sig_read, by decide +kernel⟩,
    ⟨_, Source.vld4q_s16_parse, _, vld4q_s16_sig_read, by decide +kernel⟩,
    ⟨_, Source.vld4q_u32_parse, _, vld4q_u32_sig_read, by decide +kernel⟩,
    ⟨_, Source.vld4q_s32_parse, _, vld4q_s32_sig_read, by decide +kernel⟩,
    ⟨_, Source.vld1q_dup_f32_parse, _, vld1q_dup_f32_sig_read, by decide +kernel⟩,
    ⟨_, Source.vld1_lane_s8_parse, _, vld1_lane_s8_sig_read, by decide +kernel⟩,
    ⟨_, Source.vld1_lane_u8_parse, _, vld1_lane_u8_sig_read, by decide +kernel⟩,
    ⟨_, Source.vld2_lane_u8_parse, _, vld2_lane_u8_sig_read, by decide +kernel⟩,
    ⟨_, Source.vld3_lane_u8_parse, _, vld3_lane_u8_sig_read, by decide +kernel⟩, fun _ h => absurd h List.not_mem_nil⟩

theorem library2_checked : ∀ e ∈ library2, Checked e := by
  unfold library2
  repeat rw [List.forall_mem_cons]
  exact ⟨⟨_, Source.vld4_lane_u8_parse, _, vld4_lane_u8_sig_read, by decide +kernel⟩,
    ⟨_, Source.vand_s8_parse, _, vand_s8_sig_read, by decide +kernel⟩,
    ⟨_, Source.vand_s16_parse, _, vand_s16_sig_read, by decide +kernel⟩,
    ⟨_, Source.vand_s32_parse, _, vand_s32_sig_read, by decide +kernel⟩,
    ⟨_, Source.vand_s64_parse, _, vand_s64_sig_read, by decide +kernel⟩,
    ⟨_, Source.vand_u8_parse, _, vand_u8_sig_read, by decide +kernel⟩,
    ⟨_, Source.vand_u16_parse, _, vand_u16_sig_read, by decide +kernel⟩,
    ⟨_, Source.vand_u32_parse, _, vand_u32_sig_read, by decide +kernel⟩,
    ⟨_, Source.vand_u64_parse, _, vand_u64_sig_read, by decide +kernel⟩,
    ⟨_, Source.vandq_s8_parse, _, vandq_s8_sig_read, by decide +kernel⟩,
    ⟨_, Source.vandq_s16_parse, _, vandq_s16_sig_read, by decide +kernel⟩,
    ⟨_, Source.vandq_s32_parse, _, vandq_s32_sig_read, by decide +kernel⟩,
    ⟨_, Source.vandq_s64_parse, _, vandq_s64_sig_read, by decide +kernel⟩,
    ⟨_, Source.vandq_u8_parse, _, vandq_u8_sig_read, by decide +kernel⟩,
    ⟨_, Source.vandq_u16_parse, _, vandq_u16_sig_read, by decide +kernel⟩,
    ⟨_, Source.vandq_u32_parse, _, vandq_u32_sig_read, by decide +kernel⟩,
    ⟨_, Source.vandq_u64_parse, _, vandq_u64_sig_read, by decide +kernel⟩,
    ⟨_, Source.vorr_s8_parse, _, vorr_s8_sig_read, by decide +kernel⟩,
    ⟨_, Source.vorr_s16_parse, _, vorr_s16_sig_read, by decide +kernel⟩,
    ⟨_, Source.vorr_s32_parse, _, vorr_s32_sig_read, by decide +kernel⟩,
    ⟨_, Source.vorr_s64_parse, _, vorr_s64_sig_read, by decide +kernel⟩,
    ⟨_, Source.vorr_u8_parse, _, vorr_u8_sig_read, by decide +kernel⟩,
    ⟨_, Source.vorr_u16_parse, _, vorr_u16_sig_read, by decide +kernel⟩,
    ⟨_, Source.vorr_u32_parse, _, vorr_u32_sig_read, by decide +kernel⟩,
    ⟨_, Source.vorr_u64_parse, _, vorr_u64_sig_read, by decide +kernel⟩,
    ⟨_, Source.vorrq_s8_parse, _, vorrq_s8_sig_read, by decide +kernel⟩,
    ⟨_, Source.vorrq_s16_parse, _, vorrq_s16_sig_read, by decide +kernel⟩,
    ⟨_, Source.vorrq_s32_parse, _, vorrq_s32_sig_read, by decide +kernel⟩,
    ⟨_, Source.vorrq_s64_parse, _, vorrq_s64_sig_read, by decide +kernel⟩,
    ⟨_, Source.vorrq_u8_parse, _, vorrq_u8_sig_read, by decide +kernel⟩,
    ⟨_, Source.vorrq_u16_parse, _, vorrq_u16_sig_read, by decide +kernel⟩,
    ⟨_, Source.vorrq_u32_parse, _, vorrq_u32_sig_read, by decide +kernel⟩,
    ⟨_, Source.vorrq_u64_parse, _, vorrq_u64_sig_read, by decide +kernel⟩,
    ⟨_, Source.veor_s8_parse, _, veor_s8_sig_read, by decide +kernel⟩,
    ⟨_, Source.veor_s16_parse, _, veor_s16_sig_read, by decide +kernel⟩,
    ⟨_, Source.veor_s32_parse, _, veor_s32_sig_read, by decide +kernel⟩,
    ⟨_, Source.veor_s64_parse, _, veor_s64_sig_read, by decide +kernel⟩,
    ⟨_, Source.veor_u8_parse, _, veor_u8_sig_read, by decide +kernel⟩,
    ⟨_, Source.veor_u16_parse, _, veor_u16_sig_read, by decide +kernel⟩,
    ⟨_, Source.ver_u32_parse, _, ver_u32_sig_read, by decide +kernel⟩,
    ⟨_, Source.veor_u64_parse, _, veor_u64_sig_read, by decide +kernel⟩,
    ⟨_, Source.veorq_s8_parse, _, veorq_s8_sig_read, by decide +kernel⟩,
    ⟨_, Source.veorq_s16_parse, _, veorq_s16_sig_read, by decide +kernel⟩,
    ⟨_, Source.veorq_s32_parse, _, veorq_s32_sig_read, by decide +kernel⟩,
    ⟨_, Source.veorq_s64_parse, _, veorq_s64_sig_read, by decide +kernel⟩,
    ⟨_, Source.veorq_u8_parse, _, veorq_u8_sig_read, by decide +kernel⟩,
    ⟨_, Source.veorq_u16_parse, _, veorq_u16_sig_read, by decide +kernel⟩,
    ⟨_, Source.veorq_u32_parse, _, veorq_u32_sig_read, by decide +kernel⟩,
    ⟨_, Source.veorq_u64_parse, _, veorq_u64_sig_read, by decide +kernel⟩,
    ⟨_, Source.vmvn_s8_parse, _, vmvn_s8_sig_read, by decide +kernel⟩,
    ⟨_, Source.vmvn_s16_parse, _, vmvn_s16_sig_read, by decide +kernel⟩,
    ⟨_, Source.vmvn_s32_parse, _, vmvn_s32_sig_read, by decide +kernel⟩,
    ⟨_, Source.vmvn_u8_parse, _, vmvn_u8_sig_read, by decide +kernel⟩,
    ⟨_, Source.vmvn_u16_parse, _, vmvn_u16_sig_read, by decide +kernel⟩,
    ⟨_, Source.vmvn_u32_parse, _, vmvn_u32_sig_read, by decide +kernel⟩,
    ⟨_, Source.vmvnq_s8_parse, _, vmvnq_s8_sig_read, by decide +kernel⟩,
    ⟨_, Source.vmvnq_s16_parse, _, vmvnq_s16_sig_read, by decide +kernel⟩,
    ⟨_, Source.vmvnq_s32_parse, _, vmvnq_s32_sig_read, by decide +kernel⟩,
    ⟨_, Source.vmvnq_u8_parse, _, vmvnq_u8_sig_read, by decide +kernel⟩,
    ⟨_, Source.vmvnq_u16_parse, _, vmvnq_u16_sig_read, by decide +kernel⟩, fun _ h => absurd h List.not_mem_nil⟩

theorem library3_checked : ∀ e ∈ library3, Checked e := by
  unfold library3
  repeat rw [List.forall_mem_cons]
  exact ⟨⟨_, Source.vmvnq_u32_parse, _, vmvnq_u32_sig_read, by decide +kernel⟩,
    ⟨_, Source.vmaxq_s8_parse, _, vmaxq_s8_sig_read, by decide +kernel⟩,
    ⟨_, Source.vmaxq_s16_parse, _, vmaxq_s16_sig_read, by decide +kernel⟩,
    ⟨_, Source.vmaxq_s32_parse, _, vmaxq_s32_sig_read, by decide +kernel⟩,
    ⟨_, Source.vmaxq_u8_parse, _, vmaxq_u8_sig_read, by decide +kernel⟩,
    ⟨_, Source.vmaxq_u16_parse, _, vmaxq_u16_sig_read, by decide +kernel⟩,
    ⟨_, Source.vmaxq_u32_parse, _, vmaxq_u32_sig_read, by decide +kernel⟩,
    ⟨_, Source.vminq_s8_parse, _, vminq_s8_sig_read, by decide +kernel⟩,
    ⟨_, Source.vminq_s16_parse, _, vminq_s16_sig_read, by decide +kernel⟩,
    ⟨_, Source.vminq_s32_parse, _, vminq_s32_sig_read, by decide +kernel⟩,
    ⟨_, Source.vminq_u8_parse, _, vminq_u8_sig_read, by decide +kernel⟩,
    ⟨_, Source.vminq_u16_parse, _, vminq_u16_sig_read, by decide +kernel⟩,
    ⟨_, Source.vminq_u32_parse, _, vminq_u32_sig_read, by decide +kernel⟩,
    ⟨_, Source.vdup_n_s8_parse, _, vdup_n_s8_sig_read, by decide +kernel⟩,
    ⟨_, Source.vdup_n_s16_parse, _, vdup_n_s16_sig_read, by decide +kernel⟩,
    ⟨_, Source.vdup_n_s32_parse, _, vdup_n_s32_sig_read, by decide +kernel⟩,
    ⟨_, Source.vdup_n_s64_parse, _, vdup_n_s64_sig_read, by decide +kernel⟩,
    ⟨_, Source.vdup_n_u8_parse, _, vdup_n_u8_sig_read, by decide +kernel⟩,
    ⟨_, Source.vdup_n_u16_parse, _, vdup_n_u16_sig_read, by decide +kernel⟩,
    ⟨_, Source.vdup_n_u32_parse, _, vdup_n_u32_sig_read, by decide +kernel⟩,
    ⟨_, Source.vdup_n_u64_parse, _, vdup_n_u64_sig_read, by decide +kernel⟩,
    ⟨_, Source.vdupq_n_u8_parse, _, vdupq_n_u8_sig_read, by decide +kernel⟩,
    ⟨_, Source.vdupq_n_s8_parse, _, vdupq_n_s8_sig_read, by decide +kernel⟩,
    ⟨_, Source.vdupq_n_u16_parse, _, vdupq_n_u16_sig_read, by decide +kernel⟩,
    ⟨_, Source.vdupq_n_s16_parse, _, vdupq_n_s16_sig_read, by decide +kernel⟩,
    ⟨_, Source.vdupq_n_u32_parse, _, vdupq_n_u32_sig_read, by decide +kernel⟩,
    ⟨_, Source.vdupq_n_s32_parse, _, vdupq_n_s32_sig_read, by decide +kernel⟩,
    ⟨_, Source.vdupq_n_f32_parse, _, vdupq_n_f32_sig_read, by decide +kernel⟩,
    ⟨_, Source.vmovq_n_f32_parse, _, vmovq_n_f32_sig_read, by decide +kernel⟩,
    ⟨_, Source.vget_low_f32_parse, _, vget_low_f32_sig_read, by decide +kernel⟩,
    ⟨_, Source.vget_low_s32_parse, _, vget_low_s32_sig_read, by decide +kernel⟩,
    ⟨_, Source.vget_low_u32_parse, _, vget_low_u32_sig_read, by decide +kernel⟩,
    ⟨_, Source.vget_low_s16_parse, _, vget_low_s16_sig_read, by decide +kernel⟩,
    ⟨_, Source.vget_low_u16_parse, _, vget_low_u16_sig_read, by decide +kernel⟩,
    ⟨_, Source.vget_low_s8_parse, _, vget_low_s8_sig_read, by decide +kernel⟩,
    ⟨_, Source.vget_low_u8_parse, _, vget_low_u8_sig_read, by decide +kernel⟩,
    ⟨_, Source.vget_high_f32_parse, _, vget_high_f32_sig_read, by decide +kernel⟩,
    ⟨_, Source.vget_high_s32_parse, _, vget_high_s32_sig_read, by decide +kernel⟩,
    ⟨_, Source.vget_high_u32_parse, _, vget_high_u32_sig_read, by decide +kernel⟩,
    ⟨_, Source.vget_high_s16_parse, _, vget_high_s16_sig_read, by decide +kernel⟩,
    ⟨_, Source.vget_high_u16_parse, _, vget_high_u16_sig_read, by decide +kernel⟩,
    ⟨_, Source.vget_high_s8_parse, _, vget_high_s8_sig_read, by decide +kernel⟩,
    ⟨_, Source.vget_high_u8_parse, _, vget_high_u8_sig_read, by decide +kernel⟩,
    ⟨_, Source.vcombine_u8_parse, _, vcombine_u8_sig_read, by decide +kernel⟩,
    ⟨_, Source.vcombine_u16_parse, _, vcombine_u16_sig_read, by decide +kernel⟩,
    ⟨_, Source.vcombine_u32_parse, _, vcombine_u32_sig_read, by decide +kernel⟩,
    ⟨_, Source.vcombine_s8_parse, _, vcombine_s8_sig_read, by decide +kernel⟩,
    ⟨_, Source.vcombine_s16_parse, _, vcombine_s16_sig_read, by decide +kernel⟩,
    ⟨_, Source.vcombine_s32_parse, _, vcombine_s32_sig_read, by decide +kernel⟩,
    ⟨_, Source.vget_lane_f32_parse, _, vget_lane_f32_sig_read, by decide +kernel⟩,
    ⟨_, Source.vgetq_lane_u8_parse, _, vgetq_lane_u8_sig_read, by decide +kernel⟩,
    ⟨_, Source.vgetq_lane_u16_parse, _, vgetq_lane_u16_sig_read, by decide +kernel⟩,
    ⟨_, Source.vgetq_lane_u32_parse, _, vgetq_lane_u32_sig_read, by decide +kernel⟩,
    ⟨_, Source.vgetq_lane_u64_parse, _, vgetq_lane_u64_sig_read, by decide +kernel⟩,
    ⟨_, Source.vgetq_lane_s8_parse, _, vgetq_lane_s8_sig_read, by decide +kernel⟩,
    ⟨_, Source.vgetq_lane_s16_parse, _, vgetq_lane_s16_sig_read, by decide +kernel⟩,
    ⟨_, Source.vgetq_lane_s32_parse, _, vgetq_lane_s32_sig_read, by decide +kernel⟩,
    ⟨_, Source.vgetq_lane_s64_parse, _, vgetq_lane_s64_sig_read, by decide +kernel⟩,
    ⟨_, Source.vgetq_lane_f64_parse, _, vgetq_lane_f64_sig_read, by decide +kernel⟩,
    ⟨_, Source.vgetq_lane_f32_parse, _, vgetq_lane_f32_sig_read, by decide +kernel⟩, fun _ h => absurd h List.not_mem_nil⟩

theorem library4_checked : ∀ e ∈ library4, Checked e := by
  unfold library4
  repeat rw [List.forall_mem_cons]
  exact ⟨⟨_, Source.vmovn_s32_parse, _, vmovn_s32_sig_read, by decide +kernel⟩,
    ⟨_, Source.vmovn_u32_parse, _, vmovn_u32_sig_read, by decide +kernel⟩,
    ⟨_, Source.vmovn_u16_parse, _, vmovn_u16_sig_read, by decide +kernel⟩,
    ⟨_, Source.vmovl_u8_parse, _, vmovl_u8_sig_read, by decide +kernel⟩,
    ⟨_, Source.vmovl_u16_parse, _, vmovl_u16_sig_read, by decide +kernel⟩,
    ⟨_, Source.vmovl_u32_parse, _, vmovl_u32_sig_read, by decide +kernel⟩,
    ⟨_, Source.vmovl_s8_parse, _, vmovl_s8_sig_read, by decide +kernel⟩,
    ⟨_, Source.vmovl_s16_parse, _, vmovl_s16_sig_read, by decide +kernel⟩,
    ⟨_, Source.vmovl_s32_parse, _, vmovl_s32_sig_read, by decide +kernel⟩,
    ⟨_, Source.vqmovn_u16_parse, _, vqmovn_u16_sig_read, by decide +kernel⟩,
    ⟨_, Source.vqmovun_s16_parse, _, vqmovun_s16_sig_read, by decide +kernel⟩,
    ⟨_, Source.vmul_s8_parse, _, vmul_s8_sig_read, by decide +kernel⟩,
    ⟨_, Source.vmul_s16_parse, _, vmul_s16_sig_read, by decide +kernel⟩,
    ⟨_, Source.vmul_s32_parse, _, vmul_s32_sig_read, by decide +kernel⟩,
    ⟨_, Source.vmul_u8_parse, _, vmul_u8_sig_read, by decide +kernel⟩,
    ⟨_, Source.vmul_u16_parse, _, vmul_u16_sig_read, by decide +kernel⟩,
    ⟨_, Source.vmul_u32_parse, _, vmul_u32_sig_read, by decide +kernel⟩,
    ⟨_, Source.vmulq_s8_parse, _, vmulq_s8_sig_read, by decide +kernel⟩,
    ⟨_, Source.vmulq_s16_parse, _, vmulq_s16_sig_read, by decide +kernel⟩,
    ⟨_, Source.vmulq_s32_parse, _, vmulq_s32_sig_read, by decide +kernel⟩,
    ⟨_, Source.vmulq_u8_parse, _, vmulq_u8_sig_read, by decide +kernel⟩,
    ⟨_, Source.vmulq_u16_parse, _, vmulq_u16_sig_read, by decide +kernel⟩,
    ⟨_, Source.vmulq_u32_parse, _, vmulq_u32_sig_read, by decide +kernel⟩,
    ⟨_, Source.vmul_n_s16_parse, _, vmul_n_s16_sig_read, by decide +kernel⟩,
    ⟨_, Source.vmul_n_s32_parse, _, vmul_n_s32_sig_read, by decide +kernel⟩,
    ⟨_, Source.vmul_n_u16_parse, _, vmul_n_u16_sig_read, by decide +kernel⟩,
    ⟨_, Source.vmul_n_u32_parse, _, vmul_n_u32_sig_read, by decide +kernel⟩,
    ⟨_, Source.vmulq_n_s16_parse, _, vmulq_n_s16_sig_read, by decide +kernel⟩,
    ⟨_, Source.vmulq_n_s32_parse, _, vmulq_n_s32_sig_read, by decide +kernel⟩,
    ⟨_, Source.vmulq_n_u16_parse, _, vmulq_n_u16_sig_read, by decide +kernel⟩,
    ⟨_, Source.vmulq_n_u32_parse, _, vmulq_n_u32_sig_read, by decide +kernel⟩,
    ⟨_, Source.vmull_s8_parse, _, vmull_s8_sig_read, by decide +kernel⟩,
    ⟨_, Source.vmull_s16_parse, _, vmull_s16_sig_read, by decide +kernel⟩,
    ⟨_, Source.vmull_s32_parse, _, vmull_s32_sig_read, by decide +kernel⟩,
    ⟨_, Source.vmull_u8_parse, _, vmull_u8_sig_read, by decide +kernel⟩,
    ⟨_, Source.vmull_u16_parse, _, vmull_u16_sig_read, by decide +kernel⟩,
    ⟨_, Source.vmull_u32_parse, _, vmull_u32_sig_read, by decide +kernel⟩,
    ⟨_, Source.vmull_n_s16_parse, _, vmull_n_s16_sig_read, by decide +kernel⟩,
    ⟨_, Source.vmull_n_s32_parse, _, vmull_n_s32_sig_read, by decide +kernel⟩,
    ⟨_, Source.vmull_n_u16_parse, _, vmull_n_u16_sig_read, by decide +kernel⟩,
    ⟨_, Source.vmull_n_u32_parse, _, vmull_n_u32_sig_read, by decide +kernel⟩,
    ⟨_, Source.vqdmull_s16_parse, _, vqdmull_s16_sig_read, by decide +kernel⟩,
    ⟨_, Source.vmlal_s8_parse, _, vmlal_s8_sig_read, by decide +kernel⟩,
    ⟨_, Source.vmlal_s16_parse, _, vmlal_s16_sig_read, by decide +kernel⟩,
    ⟨_, Source.vmlal_s32_parse, _, vmlal_s32_sig_read, by decide +kernel⟩,
    ⟨_, Source.vmlal_u8_parse, _, vmlal_u8_sig_read, by decide +kernel⟩,
    ⟨_, Source.vmlal_u16_parse, _, vmlal_u16_sig_read, by decide +kernel⟩,
    ⟨_, Source.vmlal_u32_parse, _, vmlal_u32_sig_read, by decide +kernel⟩,
    ⟨_, Source.vmlsl_s8_parse, _, vmlsl_s8_sig_read, by decide +kernel⟩,
    ⟨_, Source.vmlsl_s16_parse, _, vmlsl_s16_sig_read, by decide +kernel⟩,
    ⟨_, Source.vmlsl_s32_parse, _, vmlsl_s32_sig_read, by decide +kernel⟩,
    ⟨_, Source.vmlsl_u8_parse, _, vmlsl_u8_sig_read, by decide +kernel⟩,
    ⟨_, Source.vmlsl_u16_parse, _, vmlsl_u16_sig_read, by decide +kernel⟩,
    ⟨_, Source.vmlsl_u32_parse, _, vmlsl_u32_sig_read, by decide +kernel⟩,
    ⟨_, Source.vmlaq_s8_parse, _, vmlaq_s8_sig_read, by decide +kernel⟩,
    ⟨_, Source.vmlaq_s16_parse, _, vmlaq_s16_sig_read, by decide +kernel⟩,
    ⟨_, Source.vmlaq_s32_parse, _, vmlaq_s32_sig_read, by decide +kernel⟩,
    ⟨_, Source.vmlaq_u8_parse, _, vmlaq_u8_sig_read, by decide +kernel⟩,
    ⟨_, Source.vmlaq_u16_parse, _, vmlaq_u16_sig_read, by decide +kernel⟩,
    ⟨_, Source.vmlaq_u32_parse, _, vmlaq_u32_sig_read, by decide +kernel⟩, fun _ h => absurd h List.not_mem_nil⟩

theorem library5_checked : ∀ e ∈ library5, Checked e := by
  unfold library5
  repeat rw [List.forall_mem_cons]
  exact ⟨⟨_, Source.vpaddl_u8_parse, _, vpaddl_u8_sig_read, by decide +kernel⟩,
    ⟨_, Source.vpaddlq_u8_parse, _, vpaddlq_u8_sig_read, by decide +kernel⟩,
    ⟨_, Source.vpaddlq_u16_parse, _, vpaddlq_u16_sig_read, by decide +kernel⟩,
    ⟨_, Source.vaddhn_high_s16_parse, _, vaddhn_high_s16_sig_read, by decide +kernel⟩,
    ⟨_, Source.vaddhn_high_s32_parse, _, vaddhn_high_s32_sig_read, by decide +kernel⟩,
    ⟨_, Source.vaddhn_high_s64_parse, _, vaddhn_high_s64_sig_read, by decide +kernel⟩,
    ⟨_, Source.vaddhn_high_u16_parse, _, vaddhn_high_u16_sig_read, by decide +kernel⟩,
    ⟨_, Source.vaddhn_high_u32_parse, _, vaddhn_high_u32_sig_read, by decide +kernel⟩,
    ⟨_, Source.vaddhn_high_u64_parse, _, vaddhn_high_u64_sig_read, by decide +kernel⟩,
    ⟨_, Source.vsubhn_s16_parse, _, vsubhn_s16_sig_read, by decide +kernel⟩,
    ⟨_, Source.vsubn_s32_parse, _, vsubn_s32_sig_read, by decide +kernel⟩,
    ⟨_, Source.vsubn_s64_parse, _, vsubn_s64_sig_read, by decide +kernel⟩,
    ⟨_, Source.vsubhn_u16_parse, _, vsubhn_u16_sig_read, by decide +kernel⟩,
    ⟨_, Source.vsubn_u32_parse, _, vsubn_u32_sig_read, by decide +kernel⟩,
    ⟨_, Source.vsubn_u64_parse, _, vsubn_u64_sig_read, by decide +kernel⟩,
    ⟨_, Source.vrsubhn_s16_parse, _, vrsubhn_s16_sig_read, by decide +kernel⟩,
    ⟨_, Source.vrsubhn_s32_parse, _, vrsubhn_s32_sig_read, by decide +kernel⟩,
    ⟨_, Source.vrsubhn_s64_parse, _, vrsubhn_s64_sig_read, by decide +kernel⟩,
    ⟨_, Source.vrsubhn_u16_parse, _, vrsubhn_u16_sig_read, by decide +kernel⟩,
    ⟨_, Source.vrsubhn_u32_parse, _, vrsubhn_u32_sig_read, by decide +kernel⟩,
    ⟨_, Source.vrsubhn_u64_parse, _, vrsubhn_u64_sig_read, by decide +kernel⟩,
    ⟨_, Source.vhsub_s8_parse, _, vhsub_s8_sig_read, by decide +kernel⟩,
    ⟨_, Source.vhsub_s16_parse, _, vhsub_s16_sig_read, by decide +kernel⟩,
    ⟨_, Source.vhsub_s32_parse, _, vhsub_s32_sig_read, by decide +kernel⟩,
    ⟨_, Source.vhsub_u8_parse, _, vhsub_u8_sig_read, by decide +kernel⟩,
    ⟨_, Source.vhsub_u16_parse, _, vhsub_u16_sig_read, by decide +kernel⟩,
    ⟨_, Source.vhsub_u32_parse, _, vhsub_u32_sig_read, by decide +kernel⟩,
    ⟨_, Source.vhsubq_s8_parse, _, vhsubq_s8_sig_read, by decide +kernel⟩,
    ⟨_, Source.vhsubq_s16_parse, _, vhsubq_s16_sig_read, by decide +kernel⟩,
    ⟨_, Source.vhsubq_s32_parse, _, vhsubq_s32_sig_read, by decide +kernel⟩,
    ⟨_, Source.vhsubq_u8_parse, _, vhsubq_u8_sig_read, by decide +kernel⟩,
    ⟨_, Source.vhsubq_u16_parse, _, vhsubq_u16_sig_read, by decide +kernel⟩,
    ⟨_, Source.vhsubq_u32_parse, _, vhsubq_u32_sig_read, by decide +kernel⟩,
    ⟨_, Source.vrev16_s8_parse, _, vrev16_s8_sig_read, by decide +kernel⟩,
    ⟨_, Source.vrev16_u8_parse, _, vrev16_u8_sig_read, by decide +kernel⟩,
    ⟨_, Source.vrev16q_s8_parse, _, vrev16q_s8_sig_read, by decide +kernel⟩,
    ⟨_, Source.vrev16q_u8_parse, _, vrev16q_u8_sig_read, by decide +kernel⟩,
    ⟨_, Source.vrev32_s8_parse, _, vrev32_s8_sig_read, by decide +kernel⟩,
    ⟨_, Source.vrev32_s16_parse, _, vrev32_s16_sig_read, by decide +kernel⟩,
    ⟨_, Source.vrev32_u8_parse, _, vrev32_u8_sig_read, by decide +kernel⟩,
    ⟨_, Source.vrev32_u16_parse, _, vrev32_u16_sig_read, by decide +kernel⟩,
    ⟨_, Source.vrev32q_s8_parse, _, vrev32q_s8_sig_read, by decide +kernel⟩,
    ⟨_, Source.vrev32q_s16_parse, _, vrev32q_s16_sig_read, by decide +kernel⟩,
    ⟨_, Source.vrev32q_u8_parse, _, vrev32q_u8_sig_read, by decide +kernel⟩,
    ⟨_, Source.vrev32q_u16_parse, _, vrev32q_u16_sig_read, by decide +kernel⟩,
    ⟨_, Source.vrev64_s8_parse, _, vrev64_s8_sig_read, by decide +kernel⟩,
    ⟨_, Source.vrev64_s16_parse, _, vrev64_s16_sig_read, by decide +kernel⟩,
    ⟨_, Source.vrev64_s32_parse, _, vrev64_s32_sig_read, by decide +kernel⟩,
    ⟨_, Source.vrev64_u8_parse, _, vrev64_u8_sig_read, by decide +kernel⟩,
    ⟨_, Source.vrev64_u16_parse, _, vrev64_u16_sig_read, by decide +kernel⟩,
    ⟨_, Source.vrev64_u32_parse, _, vrev64_u32_sig_read, by decide +kernel⟩,
    ⟨_, Source.vrev64_f32_parse, _, vrev64_f32_sig_read, by decide +kernel⟩,
    ⟨_, Source.vrev64q_s8_parse, _, vrev64q_s8_sig_read, by decide +kernel⟩,
    ⟨_, Source.vrev64q_s16_parse, _, vrev64q_s16_sig_read, by decide +kernel⟩,
    ⟨_, Source.vrev64q_s32_parse, _, vrev64q_s32_sig_read, by decide +kernel⟩,
    ⟨_, Source.vrev64q_u8_parse, _, vrev64q_u8_sig_read, by decide +kernel⟩,
    ⟨_, Source.vrev64q_u16_parse, _, vrev64q_u16_sig_read, by decide +kernel⟩,
    ⟨_, Source.vrev64q_u32_parse, _, vrev64q_u32_sig_read, by decide +kernel⟩,
    ⟨_, Source.vrev64q_f32_parse, _, vrev64q_f32_sig_read, by decide +kernel⟩,
    ⟨_, Source.vtrn_s8_parse, _, vtrn_s8_sig_read, by decide +kernel⟩, fun _ h => absurd h List.not_mem_nil⟩

theorem library6_checked : ∀ e ∈ library6, Checked e := by
  unfold library6
  repeat rw [List.forall_mem_cons]
  exact ⟨⟨_, Source.vtrn_u8_parse, _, vtrn_u8_sig_read, by decide +kernel⟩,
    ⟨_, Source.vtrn_s16_parse, _, vtrn_s16_sig_read, by decide +kernel⟩,
    ⟨_, Source.vtrn_u16_parse, _, vtrn_u16_sig_read, by decide +kernel⟩,
    ⟨_, Source.vtrn_s32_parse, _, vtrn_s32_sig_read, by decide +kernel⟩,
    ⟨_, Source.vtrn_u32_parse, _, vtrn_u32_sig_read, by decide +kernel⟩,
    ⟨_, Source.vtrnq_u16_parse, _, vtrnq_u16_sig_read, by decide +kernel⟩,
    ⟨_, Source.vtrnq_u32_parse, _, vtrnq_u32_sig_read, by decide +kernel⟩,
    ⟨_, Source.vtrnq_s16_parse, _, vtrnq_s16_sig_read, by decide +kernel⟩,
    ⟨_, Source.vzip_s16_parse, _, vzip_s16_sig_read, by decide +kernel⟩,
    ⟨_, Source.vzip_s8_parse, _, vzip_s8_sig_read, by decide +kernel⟩,
    ⟨_, Source.vzip_u8_parse, _, vzip_u8_sig_read, by decide +kernel⟩,
    ⟨_, Source.vuzp_u8_parse, _, vuzp_u8_sig_read, by decide +kernel⟩,
    ⟨_, Source.vuzp_s8_parse, _, vuzp_s8_sig_read, by decide +kernel⟩,
    ⟨_, Source.vext_u8_parse, _, vext_u8_sig_read, by decide +kernel⟩,
    ⟨_, Source.vext_u16_parse, _, vext_u16_sig_read, by decide +kernel⟩,
    ⟨_, Source.vext_s16_parse, _, vext_s16_sig_read, by decide +kernel⟩,
    ⟨_, Source.vextq_u16_parse, _, vextq_u16_sig_read, by decide +kernel⟩,
    ⟨_, Source.vqsub_s64_parse, _, vqsub_s64_sig_read, by decide +kernel⟩,
    ⟨_, Source.vqsubq_s64_parse, _, vqsubq_s64_sig_read, by decide +kernel⟩,
    ⟨_, Source.vqsub_u64_parse, _, vqsub_u64_sig_read, by decide +kernel⟩,
    ⟨_, Source.vqsubq_u64_parse, _, vqsubq_u64_sig_read, by decide +kernel⟩,
    vrecpeq_f32_checked,
    ⟨_, Source.vrecpsq_f32_parse, _, vrecpsq_f32_sig_read, by decide +kernel⟩,
    ⟨_, Source.vreinterpret_u8_s8_parse, _, vreinterpret_u8_s8_sig_read, by decide +kernel⟩,
    ⟨_, Source.vreinterpretq_s16_u16_parse, _, vreinterpretq_s16_u16_sig_read, by decide +kernel⟩,
    ⟨_, Source.vreinterpretq_u16_s16_parse, _, vreinterpretq_u16_s16_sig_read, by decide +kernel⟩,
    ⟨_, Source.vreinterpret_u16_u8_parse, _, vreinterpret_u16_u8_sig_read, by decide +kernel⟩,
    ⟨_, Source.vreinterpret_u32_u16_parse, _, vreinterpret_u32_u16_sig_read, by decide +kernel⟩,
    ⟨_, Source.vreinterpret_u8_u32_parse, _, vreinterpret_u8_u32_sig_read, by decide +kernel⟩,
    ⟨_, Source.vreinterpret_u32_u8_parse, _, vreinterpret_u32_u8_sig_read, by decide +kernel⟩,
    ⟨_, Source.vreinterpret_s8_u8_parse, _, vreinterpret_s8_u8_sig_read, by decide +kernel⟩,
    ⟨_, Source.vreinterpret_s32_s16_parse, _, vreinterpret_s32_s16_sig_read, by decide +kernel⟩,
    ⟨_, Source.vreinterpret_s16_s32_parse, _, vreinterpret_s16_s32_sig_read, by decide +kernel⟩,
    ⟨_, Source.vreinterpretq_u8_s8_parse, _, vreinterpretq_u8_s8_sig_read, by decide +kernel⟩,
    ⟨_, Source.vreinterpretq_u8_s16_parse, _, vreinterpretq_u8_s16_sig_read, by decide +kernel⟩,
    ⟨_, Source.vreinterpretq_u8_s32_parse, _, vreinterpretq_u8_s32_sig_read, by decide +kernel⟩,
    ⟨_, Source.vreinterpretq_u8_f32_parse, _, vreinterpretq_u8_f32_sig_read, by decide +kernel⟩,
    ⟨_, Source.vreinterpretq_u8_u16_parse, _, vreinterpretq_u8_u16_sig_read, by decide +kernel⟩,
    ⟨_, Source.vreinterpretq_u8_u32_parse, _, vreinterpretq_u8_u32_sig_read, by decide +kernel⟩,
    ⟨_, Source.vreinterpretq_u8_u64_parse, _, vreinterpretq_u8_u64_sig_read, by decide +kernel⟩,
    ⟨_, Source.vreinterpretq_u8_s64_parse, _, vreinterpretq_u8_s64_sig_read, by decide +kernel⟩,
    ⟨_, Source.vreinterpretq_u8_f64_parse, _, vreinterpretq_u8_f64_sig_read, by decide +kernel⟩,
    ⟨_, Source.vreinterpretq_u32_s8_parse, _, vreinterpretq_u32_s8_sig_read, by decide +kernel⟩,
    ⟨_, Source.vreinterpretq_u32_s16_parse, _, vreinterpretq_u32_s16_sig_read, by decide +kernel⟩,
    ⟨_, Source.vreinterpretq_u32_s32_parse, _, vreinterpretq_u32_s32_sig_read, by decide +kernel⟩,
    ⟨_, Source.vreinterpretq_u32_f32_parse, _, vreinterpretq_u32_f32_sig_read, by decide +kernel⟩,
    ⟨_, Source.vreinterpretq_u32_u8_parse, _, vreinterpretq_u32_u8_sig_read, by decide +kernel⟩,
    ⟨_, Source.vreinterpretq_u32_u16_parse, _, vreinterpretq_u32_u16_sig_read, by decide +kernel⟩,
    ⟨_, Source.vreinterpretq_u32_u64_parse, _, vreinterpretq_u32_u64_sig_read, by decide +kernel⟩,
    ⟨_, Source.vreinterpretq_u32_s64_parse, _, vreinterpretq_u32_s64_sig_read, by decide +kernel⟩,
    ⟨_, Source.vreinterpretq_u32_f64_parse, _, vreinterpretq_u32_f64_sig_read, by decide +kernel⟩,
    ⟨_, Source.vqadd_u8_parse, _, vqadd_u8_sig_read, by decide +kernel⟩,
    ⟨_, Source.vqaddq_u8_parse, _, vqaddq_u8_sig_read, by decide +kernel⟩,
    ⟨_, Source.vqsub_s8_parse, _, vqsub_s8_sig_read, by decide +kernel⟩,
    ⟨_, Source.vqsub_s16_parse, _, vqsub_s16_sig_read, by decide +kernel⟩,
    ⟨_, Source.vqsub_s32_parse, _, vqsub_s32_sig_read, by decide +kernel⟩,
    ⟨_, Source.vqsub_u8_parse, _, vqsub_u8_sig_read, by decide +kernel⟩,
    ⟨_, Source.vqsub_u16_parse, _, vqsub_u16_sig_read, by decide +kernel⟩,
    ⟨_, Source.vqsub_u32_parse, _, vqsub_u32_sig_read, by decide +kernel⟩,
    ⟨_, Source.vqsubq_s8_parse, _, vqsubq_s8_sig_read, by decide +kernel⟩, fun _ h => absurd h List.not_mem_nil⟩

theorem library7_checked : ∀ e ∈ library7, Checked e := by
  unfold library7
  repeat rw [List.forall_mem_cons]
  exact ⟨⟨_, Source.vqsubq_s16_parse, _, vqsubq_s16_sig_read, by decide +kernel⟩,
    ⟨_, Source.vqsubq_s32_parse, _, vqsubq_s32_sig_read, by decide +kernel⟩,
    ⟨_, Source.vqsubq_u8_parse, _, vqsubq_u8_sig_read, by decide +kernel⟩,
    ⟨_, Source.vqsubq_u16_parse, _, vqsubq_u16_sig_read, by decide +kernel⟩,
    ⟨_, Source.vqsubq_u32_parse, _, vqsubq_u32_sig_read, by decide +kernel⟩,
    ⟨_, Source.vcgtq_u8_parse, _, vcgtq_u8_sig_read, by decide +kernel⟩,
    ⟨_, Source.vbslq_u8_parse, _, vbslq_u8_sig_read, by decide +kernel⟩,
    ⟨_, Source.vtbl1_u8_parse, _, vtbl1_u8_sig_read, by decide +kernel⟩,
    ⟨_, Source.vtbl2_u8_parse, _, vtbl2_u8_sig_read, by decide +kernel⟩,
    ⟨_, Source.vtbl4_u8_parse, _, vtbl4_u8_sig_read, by decide +kernel⟩,
    ⟨_, Source.vqtbl1_u8_parse, _, vqtbl1_u8_sig_read, by decide +kernel⟩,
    ⟨_, Source.vshrn_n_s16_parse, _, vshrn_n_s16_sig_read, by decide +kernel⟩,
    ⟨_, Source.vshrn_n_s32_parse, _, vshrn_n_s32_sig_read, by decide +kernel⟩,
    ⟨_, Source.vshrn_n_s64_parse, _, vshrn_n_s64_sig_read, by decide +kernel⟩,
    ⟨_, Source.vshrn_n_u16_parse, _, vshrn_n_u16_sig_read, by decide +kernel⟩,
    ⟨_, Source.vshrn_n_u32_parse, _, vshrn_n_u32_sig_read, by decide +kernel⟩,
    ⟨_, Source.vshrn_n_u64_parse, _, vshrn_n_u64_sig_read, by decide +kernel⟩,
    ⟨_, Source.vshr_n_u16_parse, _, vshr_n_u16_sig_read, by decide +kernel⟩,
    ⟨_, Source.vqshrun_n_s16_parse, _, vqshrun_n_s16_sig_read, by decide +kernel⟩,
    ⟨_, Source.vqrshrun_n_s16_parse, _, vqrshrun_n_s16_sig_read, by decide +kernel⟩,
    ⟨_, Source.vqshrn_n_s16_parse, _, vqshrn_n_s16_sig_read, by decide +kernel⟩,
    ⟨_, Source.vqshrn_n_s32_parse, _, vqshrn_n_s32_sig_read, by decide +kernel⟩,
    ⟨_, Source.vqshrn_n_u16_parse, _, vqshrn_n_u16_sig_read, by decide +kernel⟩,
    ⟨_, Source.vqshrn_n_u32_parse, _, vqshrn_n_u32_sig_read, by decide +kernel⟩,
    ⟨_, Source.vqshrn_n_u64_parse, _, vqshrn_n_u64_sig_read, by decide +kernel⟩,
    ⟨_, Source.vqshrn_n_s64_parse, _, vqshrn_n_s64_sig_read, by decide +kernel⟩,
    ⟨_, Source.vrshrn_n_u16_parse, _, vrshrn_n_u16_sig_read, by decide +kernel⟩,
    ⟨_, Source.vsraq_n_s32_parse, _, vsraq_n_s32_sig_read, by decide +kernel⟩,
    ⟨_, Source.vshlq_n_s32_parse, _, vshlq_n_s32_sig_read, by decide +kernel⟩,
    ⟨_, Source.vshll_n_u8_parse, _, vshll_n_u8_sig_read, by decide +kernel⟩,
    ⟨_, Source.vqshrun_n_s32_parse, _, vqshrun_n_s32_sig_read, by decide +kernel⟩,
    ⟨_, Source.vqshrun_n_s64_parse, _, vqshrun_n_s64_sig_read, by decide +kernel⟩,
    ⟨_, Source.vaddl_u8_parse, _, vaddl_u8_sig_read, by decide +kernel⟩,
    ⟨_, Source.vaddw_s8_parse, _, vaddw_s8_sig_read, by decide +kernel⟩,
    ⟨_, Source.vaddw_s16_parse, _, vaddw_s16_sig_read, by decide +kernel⟩,
    ⟨_, Source.vaddw_s32_parse, _, vaddw_s32_sig_read, by decide +kernel⟩,
    ⟨_, Source.vaddw_u8_parse, _, vaddw_u8_sig_read, by decide +kernel⟩,
    ⟨_, Source.vaddw_u16_parse, _, vaddw_u16_sig_read, by decide +kernel⟩,
    ⟨_, Source.vaddw_u32_parse, _, vaddw_u32_sig_read, by decide +kernel⟩,
    ⟨_, Source.vaddw_high_s8_parse, _, vaddw_high_s8_sig_read, by decide +kernel⟩,
    ⟨_, Source.vaddw_high_s16_parse, _, vaddw_high_s16_sig_read, by decide +kernel⟩,
    ⟨_, Source.vaddw_high_s32_parse, _, vaddw_high_s32_sig_read, by decide +kernel⟩,
    ⟨_, Source.vaddw_high_u8_parse, _, vaddw_high_u8_sig_read, by decide +kernel⟩,
    ⟨_, Source.vaddw_high_u16_parse, _, vaddw_high_u16_sig_read, by decide +kernel⟩,
    ⟨_, Source.vaddw_high_u32_parse, _, vaddw_high_u32_sig_read, by decide +kernel⟩,
    ⟨_, Source.vaddl_high_s8_parse, _, vaddl_high_s8_sig_read, by decide +kernel⟩,
    ⟨_, Source.vaddl_high_s16_parse, _, vaddl_high_s16_sig_read, by decide +kernel⟩,
    ⟨_, Source.vaddl_high_s32_parse, _, vaddl_high_s32_sig_read, by decide +kernel⟩,
    ⟨_, Source.vaddl_high_u8_parse, _, vaddl_high_u8_sig_read, by decide +kernel⟩,
    ⟨_, Source.vaddl_high_u16_parse, _, vaddl_high_u16_sig_read, by decide +kernel⟩,
    ⟨_, Source.vaddl_high_u32_parse, _, vaddl_high_u32_sig_read, by decide +kernel⟩,
    FPRecipEstimate_checked,
    ⟨_, Source.RecipEstimate_parse, _, RecipEstimate_sig_read, by decide +kernel⟩,
    ⟨_, Source.vst1_u8_parse, _, vst1_u8_sig_read, by decide +kernel⟩,
    ⟨_, Source.vst1_s8_parse, _, vst1_s8_sig_read, by decide +kernel⟩,
    ⟨_, Source.vst1_u16_parse, _, vst1_u16_sig_read, by decide +kernel⟩,
    ⟨_, Source.vst1_s16_parse, _, vst1_s16_sig_read, by decide +kernel⟩,
    ⟨_, Source.vst1_u32_parse, _, vst1_u32_sig_read, by decide +kernel⟩,
    ⟨_, Source.vst1_s32_parse, _, vst1_s32_sig_read, by decide +kernel⟩,
    ⟨_, Source.vst1_s64_parse, _, vst1_s64_sig_read, by decide +kernel⟩, fun _ h => absurd h List.not_mem_nil⟩

theorem library8_checked : ∀ e ∈ library8, Checked e := by
  unfold library8
  repeat rw [List.forall_mem_cons]
  exact ⟨⟨_, Source.vst1_u64_parse, _, vst1_u64_sig_read, by decide +kernel⟩,
    ⟨_, Source.vst1q_u8_parse, _, vst1q_u8_sig_read, by decide +kernel⟩,
    ⟨_, Source.vst1q_s8_parse, _, vst1q_s8_sig_read, by decide +kernel⟩,
    ⟨_, Source.vst1q_u16_parse, _, vst1q_u16_sig_read, by decide +kernel⟩,
    ⟨_, Source.vst1q_s16_parse, _, vst1q_s16_sig_read, by decide +kernel⟩,
    ⟨_, Source.vst1q_u32_parse, _, vst1q_u32_sig_read, by decide +kernel⟩,
    ⟨_, Source.vst1q_s32_parse, _, vst1q_s32_sig_read, by decide +kernel⟩,
    ⟨_, Source.vst1q_s64_parse, _, vst1q_s64_sig_read, by decide +kernel⟩,
    ⟨_, Source.vst1q_u64_parse, _, vst1q_u64_sig_read, by decide +kernel⟩,
    ⟨_, Source.vst1q_f32_parse, _, vst1q_f32_sig_read, by decide +kernel⟩,
    ⟨_, Source.vst2_s8_parse, _, vst2_s8_sig_read, by decide +kernel⟩,
    ⟨_, Source.vst2_s16_parse, _, vst2_s16_sig_read, by decide +kernel⟩,
    ⟨_, Source.vst2_s32_parse, _, vst2_s32_sig_read, by decide +kernel⟩,
    ⟨_, Source.vst2_u8_parse, _, vst2_u8_sig_read, by decide +kernel⟩,
    ⟨_, Source.vst2_u16_parse, _, vst2_u16_sig_read, by decide +kernel⟩,
    ⟨_, Source.vst2_u32_parse, _, vst2_u32_sig_read, by decide +kernel⟩,
    ⟨_, Source.vst2q_s8_parse, _, vst2q_s8_sig_read, by decide +kernel⟩,
    ⟨_, Source.vst2q_s16_parse, _, vst2q_s16_sig_read, by decide +kernel⟩,
    ⟨_, Source.vst2q_s32_parse, _, vst2q_s32_sig_read, by decide +kernel⟩,
    ⟨_, Source.vst2q_u8_parse, _, vst2q_u8_sig_read, by decide +kernel⟩,
    ⟨_, Source.vst2q_u16_parse, _, vst2q_u16_sig_read, by decide +kernel⟩,
    ⟨_, Source.vst2q_u32_parse, _, vst2q_u32_sig_read, by decide +kernel⟩,
    ⟨_, Source.vst3_s8_parse, _, vst3_s8_sig_read, by decide +kernel⟩,
    ⟨_, Source.vst3_s16_parse, _, vst3_s16_sig_read, by decide +kernel⟩,
    ⟨_, Source.vst3_s32_parse, _, vst3_s32_sig_read, by decide +kernel⟩,
    ⟨_, Source.vst3_u8_parse, _, vst3_u8_sig_read, by decide +kernel⟩,
    ⟨_, Source.vst3_u16_parse, _, vst3_u16_sig_read, by decide +kernel⟩,
    ⟨_, Source.vst3_u32_parse, _, vst3_u32_sig_read, by decide +kernel⟩,
    ⟨_, Source.vst3q_s8_parse, _, vst3q_s8_sig_read, by decide +kernel⟩,
    ⟨_, Source.vst3q_s16_parse, _, vst3q_s16_sig_read, by decide +kernel⟩,
    ⟨_, Source.vst3q_s32_parse, _, vst3q_s32_sig_read, by decide +kernel⟩,
    ⟨_, Source.vst3q_u8_parse, _, vst3q_u8_sig_read, by decide +kernel⟩,
    ⟨_, Source.vst3q_u16_parse, _, vst3q_u16_sig_read, by decide +kernel⟩,
    ⟨_, Source.vst3q_u32_parse, _, vst3q_u32_sig_read, by decide +kernel⟩,
    ⟨_, Source.vst4_s8_parse, _, vst4_s8_sig_read, by decide +kernel⟩,
    ⟨_, Source.vst4_s16_parse, _, vst4_s16_sig_read, by decide +kernel⟩,
    ⟨_, Source.vst4_s32_parse, _, vst4_s32_sig_read, by decide +kernel⟩,
    ⟨_, Source.vst4_u8_parse, _, vst4_u8_sig_read, by decide +kernel⟩,
    ⟨_, Source.vst4_u16_parse, _, vst4_u16_sig_read, by decide +kernel⟩,
    ⟨_, Source.vst4_u32_parse, _, vst4_u32_sig_read, by decide +kernel⟩,
    ⟨_, Source.vst4q_s8_parse, _, vst4q_s8_sig_read, by decide +kernel⟩,
    ⟨_, Source.vst4q_s16_parse, _, vst4q_s16_sig_read, by decide +kernel⟩,
    ⟨_, Source.vst4q_s32_parse, _, vst4q_s32_sig_read, by decide +kernel⟩,
    ⟨_, Source.vst4q_u8_parse, _, vst4q_u8_sig_read, by decide +kernel⟩,
    ⟨_, Source.vst4q_u16_parse, _, vst4q_u16_sig_read, by decide +kernel⟩,
    ⟨_, Source.vst4q_u32_parse, _, vst4q_u32_sig_read, by decide +kernel⟩,
    ⟨_, Source.vst4q_lane_f32_parse, _, vst4q_lane_f32_sig_read, by decide +kernel⟩,
    ⟨_, Source.vsubl_s8_parse, _, vsubl_s8_sig_read, by decide +kernel⟩,
    ⟨_, Source.vsubl_s16_parse, _, vsubl_s16_sig_read, by decide +kernel⟩,
    ⟨_, Source.vsubl_s32_parse, _, vsubl_s32_sig_read, by decide +kernel⟩,
    ⟨_, Source.vsubl_u8_parse, _, vsubl_u8_sig_read, by decide +kernel⟩,
    ⟨_, Source.vsubl_u16_parse, _, vsubl_u16_sig_read, by decide +kernel⟩,
    ⟨_, Source.vsubl_u32_parse, _, vsubl_u32_sig_read, by decide +kernel⟩,
    ⟨_, Source.vsubw_s8_parse, _, vsubw_s8_sig_read, by decide +kernel⟩,
    ⟨_, Source.vsubw_s16_parse, _, vsubw_s16_sig_read, by decide +kernel⟩,
    ⟨_, Source.vsubw_s32_parse, _, vsubw_s32_sig_read, by decide +kernel⟩,
    ⟨_, Source.vsubw_u8_parse, _, vsubw_u8_sig_read, by decide +kernel⟩,
    ⟨_, Source.vsubw_u16_parse, _, vsubw_u16_sig_read, by decide +kernel⟩,
    ⟨_, Source.vsubw_u32_parse, _, vsubw_u32_sig_read, by decide +kernel⟩, fun _ h => absurd h List.not_mem_nil⟩

/-- Every definition of the library obeys the static rules. -/
theorem library_checked : ∀ e ∈ library, Checked e := by
  intro e he
  unfold library at he
  simp only [List.mem_append] at he
  rcases he with (((((((he | he) | he) | he) | he) | he) | he) | he) | he
  · exact library0_checked e he
  · exact library1_checked e he
  · exact library2_checked e he
  · exact library3_checked e he
  · exact library4_checked e he
  · exact library5_checked e he
  · exact library6_checked e he
  · exact library7_checked e he
  · exact library8_checked e he

/-! ## Arguments -/

theorem hasTy_obj {t : PTy} {o : Obj} (h : HasTy t o) : o.ty = paramTy t ∧ Verif.Props.Typed o ∧ IsArg o := by
  unfold HasTy at h
  split at h
  · obtain ⟨b, rfl⟩ := h
    have := yields_ofBits ‹Elem› b
    exact ⟨rfl, this, _, denotes_bytes this.1 this.2⟩
  · obtain ⟨a, rfl⟩ := h; exact ⟨rfl, trivial, trivial⟩
  · obtain ⟨a, rfl⟩ := h; exact ⟨rfl, trivial, trivial⟩
  · obtain ⟨p, rfl⟩ := h; exact ⟨rfl, trivial, trivial⟩
  · cases h

theorem typed_objs : ∀ {ps : List PTy} {args : List Obj}, Cpp.Typed ps args →
    args.map Obj.ty = ps.map paramTy ∧ (∀ o ∈ args, Verif.Props.Typed o) ∧ ∀ o ∈ args, IsArg o := by
  intro ps
  induction ps with
  | nil =>
    intro args h
    cases args with
    | nil => exact ⟨rfl, fun o h => absurd h List.not_mem_nil, fun o h => absurd h List.not_mem_nil⟩
    | cons => cases h
  | cons p ps ih =>
    intro args h
    cases args with
    | nil => cases h
    | cons o os =>
      have h1 := hasTy_obj h.1
      have h2 := ih h.2
      exact ⟨by rw [List.map_cons, List.map_cons, h1.1, h2.1], List.forall_mem_cons.2 ⟨h1.2.1, h2.2.1⟩,
        List.forall_mem_cons.2 ⟨h1.2.2, h2.2.2⟩⟩

theorem lookup_value {α : Type} {f : Nat} {m : α} : ∀ {l : List (Nat × α)}, l.lookup f = some m → m ∈ l.map Prod.snd := by
  intro l
  induction l with
  | nil => intro h; cases h
  | cons p l ih =>
    intro h
    obtain ⟨k, v⟩ := p
    rw [List.lookup_cons] at h
    split at h
    · cases h; exact List.mem_cons_self ..
    · exact List.mem_cons_of_mem _ (ih h)

theorem message_accepted {f : Nat} {m : String} (h : message f = some m) : m ≠ "ill-formed program" ∧ m ≠ "out of fuel" := by
  have h := lookup_value h
  exact (by decide +kernel : ∀ m ∈ List.map Prod.snd _, m ≠ "ill-formed program" ∧ m ≠ "out of fuel") m h

/-! ## The library -/

/-- On the abstract machine the function `f`, defined by the text, has exactly one outcome when it is called with `args`, the one that
`o` stands for. -/
def Executes [Dialect] (f : Nat) (args : List Obj) (o : C Obj) : Text → Prop
  | .fn s => ∃ g, IsFunction s g ∧ ∀ u, Machine u g args o
  | .unit s => ∃ u g, IsUnit s u ∧ func u.funcs f = some g ∧ Machine u g args o

theorem lookup_of_mem {α : Type} : ∀ {l : List (Nat × α)} {e : Nat × α}, (l.map Prod.fst).Nodup → e ∈ l → l.lookup e.1 = some e.2 := by
  intro l
  induction l with
  | nil => intro e _ h; exact absurd h List.not_mem_nil
  | cons p l ih =>
    intro e hn h
    rw [List.map_cons, List.nodup_cons] at hn
    rw [List.lookup_cons]
    rcases List.mem_cons.1 h with rfl | h
    · rw [beq_self_eq_true]
    · have : (e.1 == p.1) = false := beq_eq_false_iff_ne.2 fun heq => hn.1 (heq ▸ List.mem_map_of_mem h)
      rw [this]
      exact ih hn.2 h

/-- The functions of the library have the outcomes of the model on the abstract machine: every call with arguments of the declared types
has exactly one outcome, or undefined behaviour. -/
theorem library_machine [Dialect] : ∀ e ∈ library, ∀ g, e.2.sig e.1 = some g → ∀ args, Cpp.Typed g.params args →
    ∃ o, (∀ o', Cpp.Called e.1 args o' ↔ o' = o) ∧ Executes e.1 args o e.2 := by
  intro e he g hg args ha
  obtain ⟨o, h1, h2⟩ := call_total e he g hg args ha
  refine ⟨o, h1, ?_⟩
  obtain ⟨ht, hty, harg⟩ := typed_objs ha
  obtain ⟨t, hl, hr⟩ := (h1 o).2 rfl
  have hc := library_checked e he
  have hlook : library.lookup e.1 = some e.2 := lookup_of_mem library_distinct he
  cases hl.symm.trans hlook
  obtain ⟨f, t⟩ := e
  cases t with
  | fn s =>
    obtain ⟨d, hp, g', hg', hd⟩ := hc
    cases hg'.symm.trans hg
    simp only [checked, Bool.and_eq_true, decide_eq_true_eq] at hd
    obtain ⟨⟨⟨hok, hf⟩, hret⟩, hps⟩ := hd
    refine ⟨d, parse_exact hp, fun u => ?_⟩
    obtain ⟨d'', hp', n, hn⟩ := hr
    cases hp.symm.trans hp'
    refine machine_of (run_machine hok harg (hn n (Nat.le_refl n)) ?_ u)
    have hs := function_safe (by simp only [funcOk, Bool.and_eq_true] at hok; exact hok.1.1) hf n (ht.trans hps.symm) hty
    rw [hn n (Nat.le_refl n)] at hs
    cases o with
    | ok r =>
      intro hv
      have h2 : Cpp.Returns g args r := h2
      unfold Cpp.Returns at h2
      rw [← hret, hv] at h2
      obtain ⟨e, p, q, -, rfl, -⟩ := h2
      rfl
    | ub u => exact hs
    | abort m => exact message_accepted h2
    | indet l => trivial
  | unit s =>
    obtain ⟨⟨u, hp, hu, -, d, hd, hv⟩, hall⟩ := hc
    obtain ⟨r, hr'⟩ := hall _ g hg args ha
    cases (h1 (.ok r)).1 ⟨_, hlook, hr'⟩
    rw [funcsOk, Bool.and_eq_true, List.all_eq_true] at hu
    obtain ⟨u', hp', n, hn⟩ := hr'
    cases hp.symm.trans hp'
    refine ⟨u, d, parseUnit_exact hp, hd, ?_⟩
    have hl : lookup f u.funcs = .ok d := by
      rcases lookup_outcome f u.funcs with h | ⟨g', h, h'⟩
      · have := hn n (Nat.le_refl n)
        unfold TransUnit.run at this
        rw [h] at this
        cases this
      · rw [h'.1] at hd
        cases hd
        exact h
    exact machine_of (unit_machine hu.1 hl (hu.2 d (List.mem_of_find?_eq_some hd)) harg (hn n (Nat.le_refl n)) fun h => absurd h hv)

end Verif.Props
