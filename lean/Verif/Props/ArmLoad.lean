import Verif.ArmLemmas
import Verif.Props.Load

/-! # The texts have the meaning of the intrinsics: loads (generated by `tools/gen_arm.py`) -/

namespace Verif.Arm
open Verif.Cpp Verif.Spec Verif.Props

theorem Load_called [Dialect] {f : Nat} {args : List Obj} {r : Obj} (h : Load f args r) :
    Called f args (.ok r) := by
  cases h with
  | vld1_u8 ptr r h =>
    exact called_of (by kernel_rfl) (Props.vld1_u8_source ptr) (((Props.vld1_u8_spec ptr).1 r).2 h)
  | vld1_s8 ptr r h =>
    exact called_of (by kernel_rfl) (Props.vld1_s8_source ptr) (((Props.vld1_s8_spec ptr).1 r).2 h)
  | vld1_u16 ptr r h =>
    exact called_of (by kernel_rfl) (Props.vld1_u16_source ptr) (((Props.vld1_u16_spec ptr).1 r).2 h)
  | vld1_s16 ptr r h =>
    exact called_of (by kernel_rfl) (Props.vld1_s16_source ptr) (((Props.vld1_s16_spec ptr).1 r).2 h)
  | vld1_u32 ptr r h =>
    exact called_of (by kernel_rfl) (Props.vld1_u32_source ptr) (((Props.vld1_u32_spec ptr).1 r).2 h)
  | vld1_u64 ptr r h =>
    exact called_of (by kernel_rfl) (Props.vld1_u64_source ptr) (((Props.vld1_u64_spec ptr).1 r).2 h)
  | vld1_s32 ptr r h =>
    exact called_of (by kernel_rfl) (Props.vld1_s32_source ptr) (((Props.vld1_s32_spec ptr).1 r).2 h)
  | vld1_s64 ptr r h =>
    exact called_of (by kernel_rfl) (Props.vld1_s64_source ptr) (((Props.vld1_s64_spec ptr).1 r).2 h)
  | vld1_f32 ptr r h =>
    exact called_of (by kernel_rfl) (Props.vld1_f32_source ptr) (((Props.vld1_f32_spec ptr).1 r).2 h)
  | vld1_f64 ptr r h =>
    exact called_of (by kernel_rfl) (Props.vld1_f64_source ptr) (((Props.vld1_f64_spec ptr).1 r).2 h)
  | vld1q_u8 ptr r h =>
    exact called_of (by kernel_rfl) (Props.vld1q_u8_source ptr) (((Props.vld1q_u8_spec ptr).1 r).2 h)
  | vld1q_s8 ptr r h =>
    exact called_of (by kernel_rfl) (Props.vld1q_s8_source ptr) (((Props.vld1q_s8_spec ptr).1 r).2 h)
  | vld1q_u16 ptr r h =>
    exact called_of (by kernel_rfl) (Props.vld1q_u16_source ptr) (((Props.vld1q_u16_spec ptr).1 r).2 h)
  | vld1q_s16 ptr r h =>
    exact called_of (by kernel_rfl) (Props.vld1q_s16_source ptr) (((Props.vld1q_s16_spec ptr).1 r).2 h)
  | vld1q_u32 ptr r h =>
    exact called_of (by kernel_rfl) (Props.vld1q_u32_source ptr) (((Props.vld1q_u32_spec ptr).1 r).2 h)
  | vld1q_s32 ptr r h =>
    exact called_of (by kernel_rfl) (Props.vld1q_s32_source ptr) (((Props.vld1q_s32_spec ptr).1 r).2 h)
  | vld1q_s64 ptr r h =>
    exact called_of (by kernel_rfl) (Props.vld1q_s64_source ptr) (((Props.vld1q_s64_spec ptr).1 r).2 h)
  | vld1q_u64 ptr r h =>
    exact called_of (by kernel_rfl) (Props.vld1q_u64_source ptr) (((Props.vld1q_u64_spec ptr).1 r).2 h)
  | vld1q_f32 ptr r h =>
    exact called_of (by kernel_rfl) (Props.vld1q_f32_source ptr) (((Props.vld1q_f32_spec ptr).1 r).2 h)
  | vld2_u8 ptr r h =>
    exact called_of (by kernel_rfl) (Props.vld2_u8_source ptr) (((Props.vld2_u8_spec ptr).1 r).2 h)
  | vld2_s8 ptr r h =>
    exact called_of (by kernel_rfl) (Props.vld2_s8_source ptr) (((Props.vld2_s8_spec ptr).1 r).2 h)
  | vld2_u16 ptr r h =>
    exact called_of (by kernel_rfl) (Props.vld2_u16_source ptr) (((Props.vld2_u16_spec ptr).1 r).2 h)
  | vld2_s16 ptr r h =>
    exact called_of (by kernel_rfl) (Props.vld2_s16_source ptr) (((Props.vld2_s16_spec ptr).1 r).2 h)
  | vld2_u32 ptr r h =>
    exact called_of (by kernel_rfl) (Props.vld2_u32_source ptr) (((Props.vld2_u32_spec ptr).1 r).2 h)
  | vld_s32 ptr r h =>
    exact called_of (by kernel_rfl) (Props.vld_s32_source ptr) (((Props.vld_s32_spec ptr).1 r).2 h)
  | vld2_f32 ptr r h =>
    exact called_of (by kernel_rfl) (Props.vld2_f32_source ptr) (((Props.vld2_f32_spec ptr).1 r).2 h)
  | vld2q_u8 ptr r h =>
    exact called_of (by kernel_rfl) (Props.vld2q_u8_source ptr) (((Props.vld2q_u8_spec ptr).1 r).2 h)
  | vld2q_s8 ptr r h =>
    exact called_of (by kernel_rfl) (Props.vld2q_s8_source ptr) (((Props.vld2q_s8_spec ptr).1 r).2 h)
  | vld2q_u16 ptr r h =>
    exact called_of (by kernel_rfl) (Props.vld2q_u16_source ptr) (((Props.vld2q_u16_spec ptr).1 r).2 h)
  | vld2q_s16 ptr r h =>
    exact called_of (by kernel_rfl) (Props.vld2q_s16_source ptr) (((Props.vld2q_s16_spec ptr).1 r).2 h)
  | vld2q_u32 ptr r h =>
    exact called_of (by kernel_rfl) (Props.vld2q_u32_source ptr) (((Props.vld2q_u32_spec ptr).1 r).2 h)
  | vld2q_s32 ptr r h =>
    exact called_of (by kernel_rfl) (Props.vld2q_s32_source ptr) (((Props.vld2q_s32_spec ptr).1 r).2 h)
  | vld3_u8 ptr r h =>
    exact called_of (by kernel_rfl) (Props.vld3_u8_source ptr) (((Props.vld3_u8_spec ptr).1 r).2 h)
  | vld3_s8 ptr r h =>
    exact called_of (by kernel_rfl) (Props.vld3_s8_source ptr) (((Props.vld3_s8_spec ptr).1 r).2 h)
  | vld3_u16 ptr r h =>
    exact called_of (by kernel_rfl) (Props.vld3_u16_source ptr) (((Props.vld3_u16_spec ptr).1 r).2 h)
  | vld3_s16 ptr r h =>
    exact called_of (by kernel_rfl) (Props.vld3_s16_source ptr) (((Props.vld3_s16_spec ptr).1 r).2 h)
  | vld3_u32 ptr r h =>
    exact called_of (by kernel_rfl) (Props.vld3_u32_source ptr) (((Props.vld3_u32_spec ptr).1 r).2 h)
  | vld3_s32 ptr r h =>
    exact called_of (by kernel_rfl) (Props.vld3_s32_source ptr) (((Props.vld3_s32_spec ptr).1 r).2 h)
  | vld3_f32 ptr r h =>
    exact called_of (by kernel_rfl) (Props.vld3_f32_source ptr) (((Props.vld3_f32_spec ptr).1 r).2 h)
  | vld3q_u8 ptr r h =>
    exact called_of (by kernel_rfl) (Props.vld3q_u8_source ptr) (((Props.vld3q_u8_spec ptr).1 r).2 h)
  | vld3q_s8 ptr r h =>
    exact called_of (by kernel_rfl) (Props.vld3q_s8_source ptr) (((Props.vld3q_s8_spec ptr).1 r).2 h)
  | vld3q_u16 ptr r h =>
    exact called_of (by kernel_rfl) (Props.vld3q_u16_source ptr) (((Props.vld3q_u16_spec ptr).1 r).2 h)
  | vld3q_s16 ptr r h =>
    exact called_of (by kernel_rfl) (Props.vld3q_s16_source ptr) (((Props.vld3q_s16_spec ptr).1 r).2 h)
  | vld3q_u32 ptr r h =>
    exact called_of (by kernel_rfl) (Props.vld3q_u32_source ptr) (((Props.vld3q_u32_spec ptr).1 r).2 h)
  | vld3q_s32 ptr r h =>
    exact called_of (by kernel_rfl) (Props.vld3q_s32_source ptr) (((Props.vld3q_s32_spec ptr).1 r).2 h)
  | vld4_u8 ptr r h =>
    exact called_of (by kernel_rfl) (Props.vld4_u8_source ptr) (((Props.vld4_u8_spec ptr).1 r).2 h)
  | vld4_s8 ptr r h =>
    exact called_of (by kernel_rfl) (Props.vld4_s8_source ptr) (((Props.vld4_s8_spec ptr).1 r).2 h)
  | vld4_u16 ptr r h =>
    exact called_of (by kernel_rfl) (Props.vld4_u16_source ptr) (((Props.vld4_u16_spec ptr).1 r).2 h)
  | vld4_s16 ptr r h =>
    exact called_of (by kernel_rfl) (Props.vld4_s16_source ptr) (((Props.vld4_s16_spec ptr).1 r).2 h)
  | vld4_u32 ptr r h =>
    exact called_of (by kernel_rfl) (Props.vld4_u32_source ptr) (((Props.vld4_u32_spec ptr).1 r).2 h)
  | vld4_s32 ptr r h =>
    exact called_of (by kernel_rfl) (Props.vld4_s32_source ptr) (((Props.vld4_s32_spec ptr).1 r).2 h)
  | vld4_f32 ptr r h =>
    exact called_of (by kernel_rfl) (Props.vld4_f32_source ptr) (((Props.vld4_f32_spec ptr).1 r).2 h)
  | vld4q_u8 ptr r h =>
    exact called_of (by kernel_rfl) (Props.vld4q_u8_source ptr) (((Props.vld4q_u8_spec ptr).1 r).2 h)
  | vld4q_s8 ptr r h =>
    exact called_of (by kernel_rfl) (Props.vld4q_s8_source ptr) (((Props.vld4q_s8_spec ptr).1 r).2 h)
  | vld4q_u16 ptr r h =>
    exact called_of (by kernel_rfl) (Props.vld4q_u16_source ptr) (((Props.vld4q_u16_spec ptr).1 r).2 h)
  | vld4q_s16 ptr r h =>
    exact called_of (by kernel_rfl) (Props.vld4q_s16_source ptr) (((Props.vld4q_s16_spec ptr).1 r).2 h)
  | vld4q_u32 ptr r h =>
    exact called_of (by kernel_rfl) (Props.vld4q_u32_source ptr) (((Props.vld4q_u32_spec ptr).1 r).2 h)
  | vld4q_s32 ptr r h =>
    exact called_of (by kernel_rfl) (Props.vld4q_s32_source ptr) (((Props.vld4q_s32_spec ptr).1 r).2 h)
  | vld1q_dup_f32 ptr x hx =>
    exact called_of (by kernel_rfl) (Props.vld1q_dup_f32_source ptr) ((Props.vld1q_dup_f32_spec ptr).1 x hx)
  | vld1_lane_s8 ptr src lane l hl x hx =>
    exact called_of (by kernel_rfl) (Props.vld1_lane_s8_source ptr src lane (by omega)) (Props.vld1_lane_s8_spec ptr src lane l hl x hx)
  | vld1_lane_u8 ptr src lane l hl x hx =>
    exact called_of (by kernel_rfl) (Props.vld1_lane_u8_source ptr src lane (by omega)) (Props.vld1_lane_u8_spec ptr src lane l hl x hx)
  | vld2_lane_u8 ptr src lane l hl x hx =>
    exact called_of (by kernel_rfl) (Props.vld2_lane_u8_source ptr src lane (by omega)) ((Props.vld2_lane_u8_spec ptr src lane l hl).1 x hx)
  | vld3_lane_u8 ptr src lane l hl x hx =>
    exact called_of (by kernel_rfl) (Props.vld3_lane_u8_source ptr src lane (by omega)) ((Props.vld3_lane_u8_spec ptr src lane l hl).1 x hx)
  | vld4_lane_u8 ptr src lane l hl x hx =>
    exact called_of (by kernel_rfl) (Props.vld4_lane_u8_source ptr src lane (by omega)) ((Props.vld4_lane_u8_spec ptr src lane l hl).1 x hx)

end Verif.Arm
