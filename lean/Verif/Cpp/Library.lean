import Verif.Props.SrcLoad
import Verif.Props.SrcStore
import Verif.Props.SrcAdd
import Verif.Props.SrcSub
import Verif.Props.SrcMul
import Verif.Props.SrcMove
import Verif.Props.SrcShift
import Verif.Props.SrcConvert
import Verif.Props.SrcPerm
import Verif.Props.SrcLogic
import Verif.Props.SrcRest
import Verif.Props.SrcRecip
import Verif.Props.SrcClass

/-!
# The definitions of `neon_sim.cpp` by name (generated by `tools/gen_arm.py`)
-/

namespace Verif.Cpp

/-- Where a function is defined: a definition of its own, or one in a group of definitions. -/
inductive Text
  | fn (s : String)
  | unit (s : String)

/-- The name in the source.  Overload resolution is not modelled: the second definition of `vsub_f32` (on
`float64x1_t`) is listed under a name of its own. -/
def sourceName (f : Nat) : Nat := if f == k!"vsub_f32_overload2" then k!"vsub_f32" else f

/-- The text defines the function `f`. -/
def Text.Defines (f : Nat) : Text → Prop
  | .fn s => ∃ d, parse s.toList = some d ∧ d.name = sourceName f
  | .unit s => ∃ u, parseUnit s.toList = some u ∧ ∃ d ∈ u.funcs, d.name = sourceName f

/-- Part 0 of the library. -/
def library0 : List (Nat × Text) := [
  (k!"vadd_s8", .fn Source.vadd_s8),
  (k!"vadd_s16", .fn Source.vadd_s16),
  (k!"vadd_s32", .fn Source.vadd_s32),
  (k!"vadd_s64", .fn Source.vadd_s64),
  (k!"vadd_u8", .fn Source.vadd_u8),
  (k!"vadd_u16", .fn Source.vadd_u16),
  (k!"vadd_u32", .fn Source.vadd_u32),
  (k!"vadd_u64", .fn Source.vadd_u64),
  (k!"vaddq_s8", .fn Source.vaddq_s8),
  (k!"vaddq_s16", .fn Source.vaddq_s16),
  (k!"vaddq_s32", .fn Source.vaddq_s32),
  (k!"vaddq_s64", .fn Source.vaddq_s64),
  (k!"vaddq_u8", .fn Source.vaddq_u8),
  (k!"vaddq_u16", .fn Source.vaddq_u16),
  (k!"vaddq_u32", .fn Source.vaddq_u32),
  (k!"vaddq_u64", .fn Source.vaddq_u64),
  (k!"vsub_s8", .fn Source.vsub_s8),
  (k!"vsub_s16", .fn Source.vsub_s16),
  (k!"vsub_s32", .fn Source.vsub_s32),
  (k!"vsub_s64", .fn Source.vsub_s64),
  (k!"vsub_u8", .fn Source.vsub_u8),
  (k!"vsub_u16", .fn Source.vsub_u16),
  (k!"vsub_u32", .fn Source.vsub_u32),
  (k!"vsub_u64", .fn Source.vsub_u64),
  (k!"vsubq_s8", .fn Source.vsubq_s8),
  (k!"vsubq_s16", .fn Source.vsubq_s16),
  (k!"vsubq_s32", .fn Source.vsubq_s32),
  (k!"vsubq_s64", .fn Source.vsubq_s64),
  (k!"vsubq_u8", .fn Source.vsubq_u8),
  (k!"vsubq_u16", .fn Source.vsubq_u16),
  (k!"vsubq_u32", .fn Source.vsubq_u32),
  (k!"vsubq_u64", .fn Source.vsubq_u64),
  (k!"vaddq_f32", .fn Source.vaddq_f32),
  (k!"vsub_f32", .fn Source.vsub_f32),
  (k!"vsub_f32_overload2", .fn Source.vsub_f32_overload2),
  (k!"vsubq_f32", .fn Source.vsubq_f32),
  (k!"vmulq_f32", .fn Source.vmulq_f32),
  (k!"vmul_n_f32", .fn Source.vmul_n_f32),
  (k!"vmul_n_f64", .fn Source.vmul_n_f64),
  (k!"vmulq_n_f32", .fn Source.vmulq_n_f32),
  (k!"vmulq_n_f64", .fn Source.vmulq_n_f64),
  (k!"vdiv_f32", .fn Source.vdiv_f32),
  (k!"vdiv_f64", .fn Source.vdiv_f64),
  (k!"vdivq_f32", .fn Source.vdivq_f32),
  (k!"vdivq_f64", .fn Source.vdivq_f64),
  (k!"vmlaq_f32", .fn Source.vmlaq_f32),
  (k!"vmlaq_n_f32", .fn Source.vmlaq_n_f32),
  (k!"vcvtq_f32_s32", .fn Source.vcvtq_f32_s32),
  (k!"vcvtq_s32_f32", .fn Source.vcvtq_s32_f32),
  (k!"vcvtq_u32_f32", .fn Source.vcvtq_u32_f32),
  (k!"vcvtnq_s32_f32", .fn Source.vcvtnq_s32_f32),
  (k!"vcltq_f32", .fn Source.vcltq_f32),
  (k!"vmaxq_f32", .fn Source.vmaxq_f32),
  (k!"vminq_f32", .fn Source.vminq_f32),
  (k!"vpmax_f32", .fn Source.vpmax_f32),
  (k!"vpmin_f32", .fn Source.vpmin_f32),
  (k!"vbslq_f32", .fn Source.vbslq_f32),
  (k!"vld1_u8", .fn Source.vld1_u8),
  (k!"vld1_s8", .fn Source.vld1_s8),
  (k!"vld1_u16", .fn Source.vld1_u16)]

/-- Part 1 of the library. -/
def library1 : List (Nat × Text) := [
  (k!"vld1_s16", .fn Source.vld1_s16),
  (k!"vld1_u32", .fn Source.vld1_u32),
  (k!"vld1_u64", .fn Source.vld1_u64),
  (k!"vld1_s32", .fn Source.vld1_s32),
  (k!"vld1_s64", .fn Source.vld1_s64),
  (k!"vld1_f32", .fn Source.vld1_f32),
  (k!"vld1_f64", .fn Source.vld1_f64),
  (k!"vld1q_u8", .fn Source.vld1q_u8),
  (k!"vld1q_s8", .fn Source.vld1q_s8),
  (k!"vld1q_u16", .fn Source.vld1q_u16),
  (k!"vld1q_s16", .fn Source.vld1q_s16),
  (k!"vld1q_u32", .fn Source.vld1q_u32),
  (k!"vld1q_s32", .fn Source.vld1q_s32),
  (k!"vld1q_s64", .fn Source.vld1q_s64),
  (k!"vld1q_u64", .fn Source.vld1q_u64),
  (k!"vld1q_f32", .fn Source.vld1q_f32),
  (k!"vld2_u8", .fn Source.vld2_u8),
  (k!"vld2_s8", .fn Source.vld2_s8),
  (k!"vld2_u16", .fn Source.vld2_u16),
  (k!"vld2_s16", .fn Source.vld2_s16),
  (k!"vld2_u32", .fn Source.vld2_u32),
  (k!"vld_s32", .fn Source.vld_s32),
  (k!"vld2_f32", .fn Source.vld2_f32),
  (k!"vld2q_u8", .fn Source.vld2q_u8),
  (k!"vld2q_s8", .fn Source.vld2q_s8),
  (k!"vld2q_u16", .fn Source.vld2q_u16),
  (k!"vld2q_s16", .fn Source.vld2q_s16),
  (k!"vld2q_u32", .fn Source.vld2q_u32),
  (k!"vld2q_s32", .fn Source.vld2q_s32),
  (k!"vld3_u8", .fn Source.vld3_u8),
  (k!"vld3_s8", .fn Source.vld3_s8),
  (k!"vld3_u16", .fn Source.vld3_u16),
  (k!"vld3_s16", .fn Source.vld3_s16),
  (k!"vld3_u32", .fn Source.vld3_u32),
  (k!"vld3_s32", .fn Source.vld3_s32),
  (k!"vld3_f32", .fn Source.vld3_f32),
  (k!"vld3q_u8", .fn Source.vld3q_u8),
  (k!"vld3q_s8", .fn Source.vld3q_s8),
  (k!"vld3q_u16", .fn Source.vld3q_u16),
  (k!"vld3q_s16", .fn Source.vld3q_s16),
  (k!"vld3q_u32", .fn Source.vld3q_u32),
  (k!"vld3q_s32", .fn Source.vld3q_s32),
  (k!"vld4_u8", .fn Source.vld4_u8),
  (k!"vld4_s8", .fn Source.vld4_s8),
  (k!"vld4_u16", .fn Source.vld4_u16),
  (k!"vld4_s16", .fn Source.vld4_s16),
  (k!"vld4_u32", .fn Source.vld4_u32),
  (k!"vld4_s32", .fn Source.vld4_s32),
  (k!"vld4_f32", .fn Source.vld4_f32),
  (k!"vld4q_u8", .fn Source.vld4q_u8),
  (k!"vld4q_s8", .fn Source.vld4q_s8),
  (k!"vld4q_u16", .fn Source.vld4q_u16),
  (k!"vld4q_s16", .fn Source.vld4q_s16),
  (k!"vld4q_u32", .fn Source.vld4q_u32),
  (k!"vld4q_s32", .fn Source.vld4q_s32),
  (k!"vld1q_dup_f32", .fn Source.vld1q_dup_f32),
  (k!"vld1_lane_s8", .fn Source.vld1_lane_s8),
  (k!"vld1_lane_u8", .fn Source.vld1_lane_u8),
  (k!"vld2_lane_u8", .fn Source.vld2_lane_u8),
  (k!"vld3_lane_u8", .fn Source.vld3_lane_u8)]

/-- Part 2 of the library. -/
def library2 : List (Nat × Text) := [
  (k!"vld4_lane_u8", .fn Source.vld4_lane_u8),
  (k!"vand_s8", .fn Source.vand_s8),
  (k!"vand_s16", .fn Source.vand_s16),
  (k!"vand_s32", .fn Source.vand_s32),
  (k!"vand_s64", .fn Source.vand_s64),
  (k!"vand_u8", .fn Source.vand_u8),
  (k!"vand_u16", .fn Source.vand_u16),
  (k!"vand_u32", .fn Source.vand_u32),
  (k!"vand_u64", .fn Source.vand_u64),
  (k!"vandq_s8", .fn Source.vandq_s8),
  (k!"vandq_s16", .fn Source.vandq_s16),
  (k!"vandq_s32", .fn Source.vandq_s32),
  (k!"vandq_s64", .fn Source.vandq_s64),
  (k!"vandq_u8", .fn Source.vandq_u8),
  (k!"vandq_u16", .fn Source.vandq_u16),
  (k!"vandq_u32", .fn Source.vandq_u32),
  (k!"vandq_u64", .fn Source.vandq_u64),
  (k!"vorr_s8", .fn Source.vorr_s8),
  (k!"vorr_s16", .fn Source.vorr_s16),
  (k!"vorr_s32", .fn Source.vorr_s32),
  (k!"vorr_s64", .fn Source.vorr_s64),
  (k!"vorr_u8", .fn Source.vorr_u8),
  (k!"vorr_u16", .fn Source.vorr_u16),
  (k!"vorr_u32", .fn Source.vorr_u32),
  (k!"vorr_u64", .fn Source.vorr_u64),
  (k!"vorrq_s8", .fn Source.vorrq_s8),
  (k!"vorrq_s16", .fn Source.vorrq_s16),
  (k!"vorrq_s32", .fn Source.vorrq_s32),
  (k!"vorrq_s64", .fn Source.vorrq_s64),
  (k!"vorrq_u8", .fn Source.vorrq_u8),
  (k!"vorrq_u16", .fn Source.vorrq_u16),
  (k!"vorrq_u32", .fn Source.vorrq_u32),
  (k!"vorrq_u64", .fn Source.vorrq_u64),
  (k!"veor_s8", .fn Source.veor_s8),
  (k!"veor_s16", .fn Source.veor_s16),
  (k!"veor_s32", .fn Source.veor_s32),
  (k!"veor_s64", .fn Source.veor_s64),
  (k!"veor_u8", .fn Source.veor_u8),
  (k!"veor_u16", .fn Source.veor_u16),
  (k!"ver_u32", .fn Source.ver_u32),
  (k!"veor_u64", .fn Source.veor_u64),
  (k!"veorq_s8", .fn Source.veorq_s8),
  (k!"veorq_s16", .fn Source.veorq_s16),
  (k!"veorq_s32", .fn Source.veorq_s32),
  (k!"veorq_s64", .fn Source.veorq_s64),
  (k!"veorq_u8", .fn Source.veorq_u8),
  (k!"veorq_u16", .fn Source.veorq_u16),
  (k!"veorq_u32", .fn Source.veorq_u32),
  (k!"veorq_u64", .fn Source.veorq_u64),
  (k!"vmvn_s8", .fn Source.vmvn_s8),
  (k!"vmvn_s16", .fn Source.vmvn_s16),
  (k!"vmvn_s32", .fn Source.vmvn_s32),
  (k!"vmvn_u8", .fn Source.vmvn_u8),
  (k!"vmvn_u16", .fn Source.vmvn_u16),
  (k!"vmvn_u32", .fn Source.vmvn_u32),
  (k!"vmvnq_s8", .fn Source.vmvnq_s8),
  (k!"vmvnq_s16", .fn Source.vmvnq_s16),
  (k!"vmvnq_s32", .fn Source.vmvnq_s32),
  (k!"vmvnq_u8", .fn Source.vmvnq_u8),
  (k!"vmvnq_u16", .fn Source.vmvnq_u16)]

/-- Part 3 of the library. -/
def library3 : List (Nat × Text) := [
  (k!"vmvnq_u32", .fn Source.vmvnq_u32),
  (k!"vmaxq_s8", .fn Source.vmaxq_s8),
  (k!"vmaxq_s16", .fn Source.vmaxq_s16),
  (k!"vmaxq_s32", .fn Source.vmaxq_s32),
  (k!"vmaxq_u8", .fn Source.vmaxq_u8),
  (k!"vmaxq_u16", .fn Source.vmaxq_u16),
  (k!"vmaxq_u32", .fn Source.vmaxq_u32),
  (k!"vminq_s8", .fn Source.vminq_s8),
  (k!"vminq_s16", .fn Source.vminq_s16),
  (k!"vminq_s32", .fn Source.vminq_s32),
  (k!"vminq_u8", .fn Source.vminq_u8),
  (k!"vminq_u16", .fn Source.vminq_u16),
  (k!"vminq_u32", .fn Source.vminq_u32),
  (k!"vdup_n_s8", .fn Source.vdup_n_s8),
  (k!"vdup_n_s16", .fn Source.vdup_n_s16),
  (k!"vdup_n_s32", .fn Source.vdup_n_s32),
  (k!"vdup_n_s64", .fn Source.vdup_n_s64),
  (k!"vdup_n_u8", .fn Source.vdup_n_u8),
  (k!"vdup_n_u16", .fn Source.vdup_n_u16),
  (k!"vdup_n_u32", .fn Source.vdup_n_u32),
  (k!"vdup_n_u64", .fn Source.vdup_n_u64),
  (k!"vdupq_n_u8", .fn Source.vdupq_n_u8),
  (k!"vdupq_n_s8", .fn Source.vdupq_n_s8),
  (k!"vdupq_n_u16", .fn Source.vdupq_n_u16),
  (k!"vdupq_n_s16", .fn Source.vdupq_n_s16),
  (k!"vdupq_n_u32", .fn Source.vdupq_n_u32),
  (k!"vdupq_n_s32", .fn Source.vdupq_n_s32),
  (k!"vdupq_n_f32", .fn Source.vdupq_n_f32),
  (k!"vmovq_n_f32", .fn Source.vmovq_n_f32),
  (k!"vget_low_f32", .fn Source.vget_low_f32),
  (k!"vget_low_s32", .fn Source.vget_low_s32),
  (k!"vget_low_u32", .fn Source.vget_low_u32),
  (k!"vget_low_s16", .fn Source.vget_low_s16),
  (k!"vget_low_u16", .fn Source.vget_low_u16),
  (k!"vget_low_s8", .fn Source.vget_low_s8),
  (k!"vget_low_u8", .fn Source.vget_low_u8),
  (k!"vget_high_f32", .fn Source.vget_high_f32),
  (k!"vget_high_s32", .fn Source.vget_high_s32),
  (k!"vget_high_u32", .fn Source.vget_high_u32),
  (k!"vget_high_s16", .fn Source.vget_high_s16),
  (k!"vget_high_u16", .fn Source.vget_high_u16),
  (k!"vget_high_s8", .fn Source.vget_high_s8),
  (k!"vget_high_u8", .fn Source.vget_high_u8),
  (k!"vcombine_u8", .fn Source.vcombine_u8),
  (k!"vcombine_u16", .fn Source.vcombine_u16),
  (k!"vcombine_u32", .fn Source.vcombine_u32),
  (k!"vcombine_s8", .fn Source.vcombine_s8),
  (k!"vcombine_s16", .fn Source.vcombine_s16),
  (k!"vcombine_s32", .fn Source.vcombine_s32),
  (k!"vget_lane_f32", .fn Source.vget_lane_f32),
  (k!"vgetq_lane_u8", .fn Source.vgetq_lane_u8),
  (k!"vgetq_lane_u16", .fn Source.vgetq_lane_u16),
  (k!"vgetq_lane_u32", .fn Source.vgetq_lane_u32),
  (k!"vgetq_lane_u64", .fn Source.vgetq_lane_u64),
  (k!"vgetq_lane_s8", .fn Source.vgetq_lane_s8),
  (k!"vgetq_lane_s16", .fn Source.vgetq_lane_s16),
  (k!"vgetq_lane_s32", .fn Source.vgetq_lane_s32),
  (k!"vgetq_lane_s64", .fn Source.vgetq_lane_s64),
  (k!"vgetq_lane_f64", .fn Source.vgetq_lane_f64),
  (k!"vgetq_lane_f32", .fn Source.vgetq_lane_f32)]

/-- Part 4 of the library. -/
def library4 : List (Nat × Text) := [
  (k!"vmovn_s32", .fn Source.vmovn_s32),
  (k!"vmovn_u32", .fn Source.vmovn_u32),
  (k!"vmovn_u16", .fn Source.vmovn_u16),
  (k!"vmovl_u8", .fn Source.vmovl_u8),
  (k!"vmovl_u16", .fn Source.vmovl_u16),
  (k!"vmovl_u32", .fn Source.vmovl_u32),
  (k!"vmovl_s8", .fn Source.vmovl_s8),
  (k!"vmovl_s16", .fn Source.vmovl_s16),
  (k!"vmovl_s32", .fn Source.vmovl_s32),
  (k!"vqmovn_u16", .fn Source.vqmovn_u16),
  (k!"vqmovun_s16", .fn Source.vqmovun_s16),
  (k!"vmul_s8", .fn Source.vmul_s8),
  (k!"vmul_s16", .fn Source.vmul_s16),
  (k!"vmul_s32", .fn Source.vmul_s32),
  (k!"vmul_u8", .fn Source.vmul_u8),
  (k!"vmul_u16", .fn Source.vmul_u16),
  (k!"vmul_u32", .fn Source.vmul_u32),
  (k!"vmulq_s8", .fn Source.vmulq_s8),
  (k!"vmulq_s16", .fn Source.vmulq_s16),
  (k!"vmulq_s32", .fn Source.vmulq_s32),
  (k!"vmulq_u8", .fn Source.vmulq_u8),
  (k!"vmulq_u16", .fn Source.vmulq_u16),
  (k!"vmulq_u32", .fn Source.vmulq_u32),
  (k!"vmul_n_s16", .fn Source.vmul_n_s16),
  (k!"vmul_n_s32", .fn Source.vmul_n_s32),
  (k!"vmul_n_u16", .fn Source.vmul_n_u16),
  (k!"vmul_n_u32", .fn Source.vmul_n_u32),
  (k!"vmulq_n_s16", .fn Source.vmulq_n_s16),
  (k!"vmulq_n_s32", .fn Source.vmulq_n_s32),
  (k!"vmulq_n_u16", .fn Source.vmulq_n_u16),
  (k!"vmulq_n_u32", .fn Source.vmulq_n_u32),
  (k!"vmull_s8", .fn Source.vmull_s8),
  (k!"vmull_s16", .fn Source.vmull_s16),
  (k!"vmull_s32", .fn Source.vmull_s32),
  (k!"vmull_u8", .fn Source.vmull_u8),
  (k!"vmull_u16", .fn Source.vmull_u16),
  (k!"vmull_u32", .fn Source.vmull_u32),
  (k!"vmull_n_s16", .fn Source.vmull_n_s16),
  (k!"vmull_n_s32", .fn Source.vmull_n_s32),
  (k!"vmull_n_u16", .fn Source.vmull_n_u16),
  (k!"vmull_n_u32", .fn Source.vmull_n_u32),
  (k!"vqdmull_s16", .fn Source.vqdmull_s16),
  (k!"vmlal_s8", .fn Source.vmlal_s8),
  (k!"vmlal_s16", .fn Source.vmlal_s16),
  (k!"vmlal_s32", .fn Source.vmlal_s32),
  (k!"vmlal_u8", .fn Source.vmlal_u8),
  (k!"vmlal_u16", .fn Source.vmlal_u16),
  (k!"vmlal_u32", .fn Source.vmlal_u32),
  (k!"vmlsl_s8", .fn Source.vmlsl_s8),
  (k!"vmlsl_s16", .fn Source.vmlsl_s16),
  (k!"vmlsl_s32", .fn Source.vmlsl_s32),
  (k!"vmlsl_u8", .fn Source.vmlsl_u8),
  (k!"vmlsl_u16", .fn Source.vmlsl_u16),
  (k!"vmlsl_u32", .fn Source.vmlsl_u32),
  (k!"vmlaq_s8", .fn Source.vmlaq_s8),
  (k!"vmlaq_s16", .fn Source.vmlaq_s16),
  (k!"vmlaq_s32", .fn Source.vmlaq_s32),
  (k!"vmlaq_u8", .fn Source.vmlaq_u8),
  (k!"vmlaq_u16", .fn Source.vmlaq_u16),
  (k!"vmlaq_u32", .fn Source.vmlaq_u32)]

/-- Part 5 of the library. -/
def library5 : List (Nat × Text) := [
  (k!"vpaddl_u8", .fn Source.vpaddl_u8),
  (k!"vpaddlq_u8", .fn Source.vpaddlq_u8),
  (k!"vpaddlq_u16", .fn Source.vpaddlq_u16),
  (k!"vaddhn_high_s16", .fn Source.vaddhn_high_s16),
  (k!"vaddhn_high_s32", .fn Source.vaddhn_high_s32),
  (k!"vaddhn_high_s64", .fn Source.vaddhn_high_s64),
  (k!"vaddhn_high_u16", .fn Source.vaddhn_high_u16),
  (k!"vaddhn_high_u32", .fn Source.vaddhn_high_u32),
  (k!"vaddhn_high_u64", .fn Source.vaddhn_high_u64),
  (k!"vsubhn_s16", .fn Source.vsubhn_s16),
  (k!"vsubn_s32", .fn Source.vsubn_s32),
  (k!"vsubn_s64", .fn Source.vsubn_s64),
  (k!"vsubhn_u16", .fn Source.vsubhn_u16),
  (k!"vsubn_u32", .fn Source.vsubn_u32),
  (k!"vsubn_u64", .fn Source.vsubn_u64),
  (k!"vrsubhn_s16", .fn Source.vrsubhn_s16),
  (k!"vrsubhn_s32", .fn Source.vrsubhn_s32),
  (k!"vrsubhn_s64", .fn Source.vrsubhn_s64),
  (k!"vrsubhn_u16", .fn Source.vrsubhn_u16),
  (k!"vrsubhn_u32", .fn Source.vrsubhn_u32),
  (k!"vrsubhn_u64", .fn Source.vrsubhn_u64),
  (k!"vhsub_s8", .fn Source.vhsub_s8),
  (k!"vhsub_s16", .fn Source.vhsub_s16),
  (k!"vhsub_s32", .fn Source.vhsub_s32),
  (k!"vhsub_u8", .fn Source.vhsub_u8),
  (k!"vhsub_u16", .fn Source.vhsub_u16),
  (k!"vhsub_u32", .fn Source.vhsub_u32),
  (k!"vhsubq_s8", .fn Source.vhsubq_s8),
  (k!"vhsubq_s16", .fn Source.vhsubq_s16),
  (k!"vhsubq_s32", .fn Source.vhsubq_s32),
  (k!"vhsubq_u8", .fn Source.vhsubq_u8),
  (k!"vhsubq_u16", .fn Source.vhsubq_u16),
  (k!"vhsubq_u32", .fn Source.vhsubq_u32),
  (k!"vrev16_s8", .fn Source.vrev16_s8),
  (k!"vrev16_u8", .fn Source.vrev16_u8),
  (k!"vrev16q_s8", .fn Source.vrev16q_s8),
  (k!"vrev16q_u8", .fn Source.vrev16q_u8),
  (k!"vrev32_s8", .fn Source.vrev32_s8),
  (k!"vrev32_s16", .fn Source.vrev32_s16),
  (k!"vrev32_u8", .fn Source.vrev32_u8),
  (k!"vrev32_u16", .fn Source.vrev32_u16),
  (k!"vrev32q_s8", .fn Source.vrev32q_s8),
  (k!"vrev32q_s16", .fn Source.vrev32q_s16),
  (k!"vrev32q_u8", .fn Source.vrev32q_u8),
  (k!"vrev32q_u16", .fn Source.vrev32q_u16),
  (k!"vrev64_s8", .fn Source.vrev64_s8),
  (k!"vrev64_s16", .fn Source.vrev64_s16),
  (k!"vrev64_s32", .fn Source.vrev64_s32),
  (k!"vrev64_u8", .fn Source.vrev64_u8),
  (k!"vrev64_u16", .fn Source.vrev64_u16),
  (k!"vrev64_u32", .fn Source.vrev64_u32),
  (k!"vrev64_f32", .fn Source.vrev64_f32),
  (k!"vrev64q_s8", .fn Source.vrev64q_s8),
  (k!"vrev64q_s16", .fn Source.vrev64q_s16),
  (k!"vrev64q_s32", .fn Source.vrev64q_s32),
  (k!"vrev64q_u8", .fn Source.vrev64q_u8),
  (k!"vrev64q_u16", .fn Source.vrev64q_u16),
  (k!"vrev64q_u32", .fn Source.vrev64q_u32),
  (k!"vrev64q_f32", .fn Source.vrev64q_f32),
  (k!"vtrn_s8", .fn Source.vtrn_s8)]

/-- Part 6 of the library. -/
def library6 : List (Nat × Text) := [
  (k!"vtrn_u8", .fn Source.vtrn_u8),
  (k!"vtrn_s16", .fn Source.vtrn_s16),
  (k!"vtrn_u16", .fn Source.vtrn_u16),
  (k!"vtrn_s32", .fn Source.vtrn_s32),
  (k!"vtrn_u32", .fn Source.vtrn_u32),
  (k!"vtrnq_u16", .fn Source.vtrnq_u16),
  (k!"vtrnq_u32", .fn Source.vtrnq_u32),
  (k!"vtrnq_s16", .fn Source.vtrnq_s16),
  (k!"vzip_s16", .fn Source.vzip_s16),
  (k!"vzip_s8", .fn Source.vzip_s8),
  (k!"vzip_u8", .fn Source.vzip_u8),
  (k!"vuzp_u8", .fn Source.vuzp_u8),
  (k!"vuzp_s8", .fn Source.vuzp_s8),
  (k!"vext_u8", .fn Source.vext_u8),
  (k!"vext_u16", .fn Source.vext_u16),
  (k!"vext_s16", .fn Source.vext_s16),
  (k!"vextq_u16", .fn Source.vextq_u16),
  (k!"vqsub_s64", .fn Source.vqsub_s64),
  (k!"vqsubq_s64", .fn Source.vqsubq_s64),
  (k!"vqsub_u64", .fn Source.vqsub_u64),
  (k!"vqsubq_u64", .fn Source.vqsubq_u64),
  (k!"vrecpeq_f32", .unit Source.recip),
  (k!"vrecpsq_f32", .fn Source.vrecpsq_f32),
  (k!"vreinterpret_u8_s8", .fn Source.vreinterpret_u8_s8),
  (k!"vreinterpretq_s16_u16", .fn Source.vreinterpretq_s16_u16),
  (k!"vreinterpretq_u16_s16", .fn Source.vreinterpretq_u16_s16),
  (k!"vreinterpret_u16_u8", .fn Source.vreinterpret_u16_u8),
  (k!"vreinterpret_u32_u16", .fn Source.vreinterpret_u32_u16),
  (k!"vreinterpret_u8_u32", .fn Source.vreinterpret_u8_u32),
  (k!"vreinterpret_u32_u8", .fn Source.vreinterpret_u32_u8),
  (k!"vreinterpret_s8_u8", .fn Source.vreinterpret_s8_u8),
  (k!"vreinterpret_s32_s16", .fn Source.vreinterpret_s32_s16),
  (k!"vreinterpret_s16_s32", .fn Source.vreinterpret_s16_s32),
  (k!"vreinterpretq_u8_s8", .fn Source.vreinterpretq_u8_s8),
  (k!"vreinterpretq_u8_s16", .fn Source.vreinterpretq_u8_s16),
  (k!"vreinterpretq_u8_s32", .fn Source.vreinterpretq_u8_s32),
  (k!"vreinterpretq_u8_f32", .fn Source.vreinterpretq_u8_f32),
  (k!"vreinterpretq_u8_u16", .fn Source.vreinterpretq_u8_u16),
  (k!"vreinterpretq_u8_u32", .fn Source.vreinterpretq_u8_u32),
  (k!"vreinterpretq_u8_u64", .fn Source.vreinterpretq_u8_u64),
  (k!"vreinterpretq_u8_s64", .fn Source.vreinterpretq_u8_s64),
  (k!"vreinterpretq_u8_f64", .fn Source.vreinterpretq_u8_f64),
  (k!"vreinterpretq_u32_s8", .fn Source.vreinterpretq_u32_s8),
  (k!"vreinterpretq_u32_s16", .fn Source.vreinterpretq_u32_s16),
  (k!"vreinterpretq_u32_s32", .fn Source.vreinterpretq_u32_s32),
  (k!"vreinterpretq_u32_f32", .fn Source.vreinterpretq_u32_f32),
  (k!"vreinterpretq_u32_u8", .fn Source.vreinterpretq_u32_u8),
  (k!"vreinterpretq_u32_u16", .fn Source.vreinterpretq_u32_u16),
  (k!"vreinterpretq_u32_u64", .fn Source.vreinterpretq_u32_u64),
  (k!"vreinterpretq_u32_s64", .fn Source.vreinterpretq_u32_s64),
  (k!"vreinterpretq_u32_f64", .fn Source.vreinterpretq_u32_f64),
  (k!"vqadd_u8", .fn Source.vqadd_u8),
  (k!"vqaddq_u8", .fn Source.vqaddq_u8),
  (k!"vqsub_s8", .fn Source.vqsub_s8),
  (k!"vqsub_s16", .fn Source.vqsub_s16),
  (k!"vqsub_s32", .fn Source.vqsub_s32),
  (k!"vqsub_u8", .fn Source.vqsub_u8),
  (k!"vqsub_u16", .fn Source.vqsub_u16),
  (k!"vqsub_u32", .fn Source.vqsub_u32),
  (k!"vqsubq_s8", .fn Source.vqsubq_s8)]

/-- Part 7 of the library. -/
def library7 : List (Nat × Text) := [
  (k!"vqsubq_s16", .fn Source.vqsubq_s16),
  (k!"vqsubq_s32", .fn Source.vqsubq_s32),
  (k!"vqsubq_u8", .fn Source.vqsubq_u8),
  (k!"vqsubq_u16", .fn Source.vqsubq_u16),
  (k!"vqsubq_u32", .fn Source.vqsubq_u32),
  (k!"vcgtq_u8", .fn Source.vcgtq_u8),
  (k!"vbslq_u8", .fn Source.vbslq_u8),
  (k!"vtbl1_u8", .fn Source.vtbl1_u8),
  (k!"vtbl2_u8", .fn Source.vtbl2_u8),
  (k!"vtbl4_u8", .fn Source.vtbl4_u8),
  (k!"vqtbl1_u8", .fn Source.vqtbl1_u8),
  (k!"vshrn_n_s16", .fn Source.vshrn_n_s16),
  (k!"vshrn_n_s32", .fn Source.vshrn_n_s32),
  (k!"vshrn_n_s64", .fn Source.vshrn_n_s64),
  (k!"vshrn_n_u16", .fn Source.vshrn_n_u16),
  (k!"vshrn_n_u32", .fn Source.vshrn_n_u32),
  (k!"vshrn_n_u64", .fn Source.vshrn_n_u64),
  (k!"vshr_n_u16", .fn Source.vshr_n_u16),
  (k!"vqshrun_n_s16", .fn Source.vqshrun_n_s16),
  (k!"vqrshrun_n_s16", .fn Source.vqrshrun_n_s16),
  (k!"vqshrn_n_s16", .fn Source.vqshrn_n_s16),
  (k!"vqshrn_n_s32", .fn Source.vqshrn_n_s32),
  (k!"vqshrn_n_u16", .fn Source.vqshrn_n_u16),
  (k!"vqshrn_n_u32", .fn Source.vqshrn_n_u32),
  (k!"vqshrn_n_u64", .fn Source.vqshrn_n_u64),
  (k!"vqshrn_n_s64", .fn Source.vqshrn_n_s64),
  (k!"vrshrn_n_u16", .fn Source.vrshrn_n_u16),
  (k!"vsraq_n_s32", .fn Source.vsraq_n_s32),
  (k!"vshlq_n_s32", .fn Source.vshlq_n_s32),
  (k!"vshll_n_u8", .fn Source.vshll_n_u8),
  (k!"vqshrun_n_s32", .fn Source.vqshrun_n_s32),
  (k!"vqshrun_n_s64", .fn Source.vqshrun_n_s64),
  (k!"vaddl_u8", .fn Source.vaddl_u8),
  (k!"vaddw_s8", .fn Source.vaddw_s8),
  (k!"vaddw_s16", .fn Source.vaddw_s16),
  (k!"vaddw_s32", .fn Source.vaddw_s32),
  (k!"vaddw_u8", .fn Source.vaddw_u8),
  (k!"vaddw_u16", .fn Source.vaddw_u16),
  (k!"vaddw_u32", .fn Source.vaddw_u32),
  (k!"vaddw_high_s8", .fn Source.vaddw_high_s8),
  (k!"vaddw_high_s16", .fn Source.vaddw_high_s16),
  (k!"vaddw_high_s32", .fn Source.vaddw_high_s32),
  (k!"vaddw_high_u8", .fn Source.vaddw_high_u8),
  (k!"vaddw_high_u16", .fn Source.vaddw_high_u16),
  (k!"vaddw_high_u32", .fn Source.vaddw_high_u32),
  (k!"vaddl_high_s8", .fn Source.vaddl_high_s8),
  (k!"vaddl_high_s16", .fn Source.vaddl_high_s16),
  (k!"vaddl_high_s32", .fn Source.vaddl_high_s32),
  (k!"vaddl_high_u8", .fn Source.vaddl_high_u8),
  (k!"vaddl_high_u16", .fn Source.vaddl_high_u16),
  (k!"vaddl_high_u32", .fn Source.vaddl_high_u32),
  (k!"FPRecipEstimate", .unit Source.recip),
  (k!"RecipEstimate", .fn Source.RecipEstimate),
  (k!"vst1_u8", .fn Source.vst1_u8),
  (k!"vst1_s8", .fn Source.vst1_s8),
  (k!"vst1_u16", .fn Source.vst1_u16),
  (k!"vst1_s16", .fn Source.vst1_s16),
  (k!"vst1_u32", .fn Source.vst1_u32),
  (k!"vst1_s32", .fn Source.vst1_s32),
  (k!"vst1_s64", .fn Source.vst1_s64)]

/-- Part 8 of the library. -/
def library8 : List (Nat × Text) := [
  (k!"vst1_u64", .fn Source.vst1_u64),
  (k!"vst1q_u8", .fn Source.vst1q_u8),
  (k!"vst1q_s8", .fn Source.vst1q_s8),
  (k!"vst1q_u16", .fn Source.vst1q_u16),
  (k!"vst1q_s16", .fn Source.vst1q_s16),
  (k!"vst1q_u32", .fn Source.vst1q_u32),
  (k!"vst1q_s32", .fn Source.vst1q_s32),
  (k!"vst1q_s64", .fn Source.vst1q_s64),
  (k!"vst1q_u64", .fn Source.vst1q_u64),
  (k!"vst1q_f32", .fn Source.vst1q_f32),
  (k!"vst2_s8", .fn Source.vst2_s8),
  (k!"vst2_s16", .fn Source.vst2_s16),
  (k!"vst2_s32", .fn Source.vst2_s32),
  (k!"vst2_u8", .fn Source.vst2_u8),
  (k!"vst2_u16", .fn Source.vst2_u16),
  (k!"vst2_u32", .fn Source.vst2_u32),
  (k!"vst2q_s8", .fn Source.vst2q_s8),
  (k!"vst2q_s16", .fn Source.vst2q_s16),
  (k!"vst2q_s32", .fn Source.vst2q_s32),
  (k!"vst2q_u8", .fn Source.vst2q_u8),
  (k!"vst2q_u16", .fn Source.vst2q_u16),
  (k!"vst2q_u32", .fn Source.vst2q_u32),
  (k!"vst3_s8", .fn Source.vst3_s8),
  (k!"vst3_s16", .fn Source.vst3_s16),
  (k!"vst3_s32", .fn Source.vst3_s32),
  (k!"vst3_u8", .fn Source.vst3_u8),
  (k!"vst3_u16", .fn Source.vst3_u16),
  (k!"vst3_u32", .fn Source.vst3_u32),
  (k!"vst3q_s8", .fn Source.vst3q_s8),
  (k!"vst3q_s16", .fn Source.vst3q_s16),
  (k!"vst3q_s32", .fn Source.vst3q_s32),
  (k!"vst3q_u8", .fn Source.vst3q_u8),
  (k!"vst3q_u16", .fn Source.vst3q_u16),
  (k!"vst3q_u32", .fn Source.vst3q_u32),
  (k!"vst4_s8", .fn Source.vst4_s8),
  (k!"vst4_s16", .fn Source.vst4_s16),
  (k!"vst4_s32", .fn Source.vst4_s32),
  (k!"vst4_u8", .fn Source.vst4_u8),
  (k!"vst4_u16", .fn Source.vst4_u16),
  (k!"vst4_u32", .fn Source.vst4_u32),
  (k!"vst4q_s8", .fn Source.vst4q_s8),
  (k!"vst4q_s16", .fn Source.vst4q_s16),
  (k!"vst4q_s32", .fn Source.vst4q_s32),
  (k!"vst4q_u8", .fn Source.vst4q_u8),
  (k!"vst4q_u16", .fn Source.vst4q_u16),
  (k!"vst4q_u32", .fn Source.vst4q_u32),
  (k!"vst4q_lane_f32", .fn Source.vst4q_lane_f32),
  (k!"vsubl_s8", .fn Source.vsubl_s8),
  (k!"vsubl_s16", .fn Source.vsubl_s16),
  (k!"vsubl_s32", .fn Source.vsubl_s32),
  (k!"vsubl_u8", .fn Source.vsubl_u8),
  (k!"vsubl_u16", .fn Source.vsubl_u16),
  (k!"vsubl_u32", .fn Source.vsubl_u32),
  (k!"vsubw_s8", .fn Source.vsubw_s8),
  (k!"vsubw_s16", .fn Source.vsubw_s16),
  (k!"vsubw_s32", .fn Source.vsubw_s32),
  (k!"vsubw_u8", .fn Source.vsubw_u8),
  (k!"vsubw_u16", .fn Source.vsubw_u16),
  (k!"vsubw_u32", .fn Source.vsubw_u32)]

/-- The texts of the function definitions of `neon_sim.cpp`. -/
def library : List (Nat × Text) :=
  library0 ++ library1 ++ library2 ++ library3 ++ library4 ++ library5 ++ library6 ++ library7 ++ library8

/-- `Called f args o`: calling the function `f` of `neon_sim.cpp` with the arguments `args` has the
outcome `o`. -/
def Called [Dialect] (f : Nat) (args : List Obj) (o : C Obj) : Prop :=
  ∃ t, library.lookup f = some t ∧
    match t with
    | .fn s => Runs s args o
    | .unit s => RunsIn s f args o

end Verif.Cpp
