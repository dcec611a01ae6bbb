import Verif.ArmLemmas
import Verif.Props.Mul

/-! # The texts have the meaning of the intrinsics: multiplications (generated by `tools/gen_arm.py`) -/

namespace Verif.Arm
open Verif.Cpp Verif.Spec Verif.Props

theorem Mul_called [Dialect] {f : Nat} {args : List Obj} {r : Obj} (h : Mul f args r) :
    Called f args (.ok r) := by
  cases h with
  | vmul_s8 N M =>
    exact called_of (by kernel_rfl) (Props.vmul_s8_source N M) (Props.vmul_s8_spec N M)
  | vmul_s16 N M =>
    exact called_of (by kernel_rfl) (Props.vmul_s16_source N M) (Props.vmul_s16_spec N M)
  | vmul_s32 N M hg =>
    exact called_of (by kernel_rfl) (Props.vmul_s32_source N M) ((Props.vmul_s32_partial N M).trans (if_pos hg))
  | vmul_u8 N M =>
    exact called_of (by kernel_rfl) (Props.vmul_u8_source N M) (Props.vmul_u8_spec N M)
  | vmul_u16 N M hg =>
    exact called_of (by kernel_rfl) (Props.vmul_u16_source N M) ((Props.vmul_u16_partial N M).trans (if_pos hg))
  | vmul_u32 N M =>
    exact called_of (by kernel_rfl) (Props.vmul_u32_source N M) (Props.vmul_u32_spec N M)
  | vmulq_s8 N M =>
    exact called_of (by kernel_rfl) (Props.vmulq_s8_source N M) (Props.vmulq_s8_spec N M)
  | vmulq_s16 N M =>
    exact called_of (by kernel_rfl) (Props.vmulq_s16_source N M) (Props.vmulq_s16_spec N M)
  | vmulq_s32 N M hg =>
    exact called_of (by kernel_rfl) (Props.vmulq_s32_source N M) ((Props.vmulq_s32_partial N M).trans (if_pos hg))
  | vmulq_u8 N M =>
    exact called_of (by kernel_rfl) (Props.vmulq_u8_source N M) (Props.vmulq_u8_spec N M)
  | vmulq_u16 N M hg =>
    exact called_of (by kernel_rfl) (Props.vmulq_u16_source N M) ((Props.vmulq_u16_partial N M).trans (if_pos hg))
  | vmulq_u32 N M =>
    exact called_of (by kernel_rfl) (Props.vmulq_u32_source N M) (Props.vmulq_u32_spec N M)
  | vmul_n_s16 N M =>
    exact called_of (by kernel_rfl) (Props.vmul_n_s16_source N M) (Props.vmul_n_s16_spec N M)
  | vmul_n_s32 N M hg =>
    exact called_of (by kernel_rfl) (Props.vmul_n_s32_source N M) ((Props.vmul_n_s32_partial N M).trans (if_pos hg))
  | vmul_n_u16 N M hg =>
    exact called_of (by kernel_rfl) (Props.vmul_n_u16_source N M) ((Props.vmul_n_u16_partial N M).trans (if_pos hg))
  | vmul_n_u32 N M =>
    exact called_of (by kernel_rfl) (Props.vmul_n_u32_source N M) (Props.vmul_n_u32_spec N M)
  | vmulq_n_s16 N M =>
    exact called_of (by kernel_rfl) (Props.vmulq_n_s16_source N M) (Props.vmulq_n_s16_spec N M)
  | vmulq_n_s32 N M hg =>
    exact called_of (by kernel_rfl) (Props.vmulq_n_s32_source N M) ((Props.vmulq_n_s32_partial N M).trans (if_pos hg))
  | vmulq_n_u16 N M hg =>
    exact called_of (by kernel_rfl) (Props.vmulq_n_u16_source N M) ((Props.vmulq_n_u16_partial N M).trans (if_pos hg))
  | vmulq_n_u32 N M =>
    exact called_of (by kernel_rfl) (Props.vmulq_n_u32_source N M) (Props.vmulq_n_u32_spec N M)
  | vmull_s8 a b =>
    exact called_of (by kernel_rfl) (Props.vmull_s8_source a b) (Props.vmull_s8_spec a b)
  | vmull_s16 a b =>
    exact called_of (by kernel_rfl) (Props.vmull_s16_source a b) (Props.vmull_s16_spec a b)
  | vmull_u8 a b =>
    exact called_of (by kernel_rfl) (Props.vmull_u8_source a b) (Props.vmull_u8_spec a b)
  | vmull_u16 a b hg =>
    exact called_of (by kernel_rfl) (Props.vmull_u16_source a b) ((Props.vmull_u16_partial a b).trans (if_pos hg))
  | vmull_n_s16 N M =>
    exact called_of (by kernel_rfl) (Props.vmull_n_s16_source N M) (Props.vmull_n_s16_spec N M)
  | vmull_n_u16 N M hg =>
    exact called_of (by kernel_rfl) (Props.vmull_n_u16_source N M) ((Props.vmull_n_u16_partial N M).trans (if_pos hg))
  | vqdmull_s16 M N =>
    exact called_of (by kernel_rfl) (Props.vqdmull_s16_source M N) (Props.vqdmull_s16_spec M N)
  | vmlal_s8 N M P =>
    exact called_of (by kernel_rfl) (Props.vmlal_s8_source N M P) (Props.vmlal_s8_spec N M P)
  | vmlal_s16 N M P hg =>
    exact called_of (by kernel_rfl) (Props.vmlal_s16_source N M P) ((Props.vmlal_s16_partial N M P).trans (if_pos hg))
  | vmlal_u8 N M P =>
    exact called_of (by kernel_rfl) (Props.vmlal_u8_source N M P) (Props.vmlal_u8_spec N M P)
  | vmlal_u16 N M P hg =>
    exact called_of (by kernel_rfl) (Props.vmlal_u16_source N M P) ((Props.vmlal_u16_partial N M P).trans (if_pos hg))
  | vmlsl_s8 N M P =>
    exact called_of (by kernel_rfl) (Props.vmlsl_s8_source N M P) (Props.vmlsl_s8_spec N M P)
  | vmlsl_s16 N M P hg =>
    exact called_of (by kernel_rfl) (Props.vmlsl_s16_source N M P) ((Props.vmlsl_s16_partial N M P).trans (if_pos hg))
  | vmlsl_u8 N M P =>
    exact called_of (by kernel_rfl) (Props.vmlsl_u8_source N M P) (Props.vmlsl_u8_spec N M P)
  | vmlsl_u16 N M P hg =>
    exact called_of (by kernel_rfl) (Props.vmlsl_u16_source N M P) ((Props.vmlsl_u16_partial N M P).trans (if_pos hg))
  | vmlaq_s8 N M P =>
    exact called_of (by kernel_rfl) (Props.vmlaq_s8_source N M P) (Props.vmlaq_s8_spec N M P)
  | vmlaq_s16 N M P =>
    exact called_of (by kernel_rfl) (Props.vmlaq_s16_source N M P) (Props.vmlaq_s16_spec N M P)
  | vmlaq_s32 N M P hg =>
    exact called_of (by kernel_rfl) (Props.vmlaq_s32_source N M P) ((Props.vmlaq_s32_partial N M P).trans (if_pos hg))
  | vmlaq_u8 N M P =>
    exact called_of (by kernel_rfl) (Props.vmlaq_u8_source N M P) (Props.vmlaq_u8_spec N M P)
  | vmlaq_u16 N M P hg =>
    exact called_of (by kernel_rfl) (Props.vmlaq_u16_source N M P) ((Props.vmlaq_u16_partial N M P).trans (if_pos hg))
  | vmlaq_u32 N M P =>
    exact called_of (by kernel_rfl) (Props.vmlaq_u32_source N M P) (Props.vmlaq_u32_spec N M P)

end Verif.Arm
