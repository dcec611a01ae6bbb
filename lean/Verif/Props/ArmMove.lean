import Verif.ArmLemmas
import Verif.Props.FloatSel
import Verif.Props.MaxMin
import Verif.Props.Move

/-! # The texts have the meaning of the intrinsics: moves, lane access and combination (generated by `tools/gen_arm.py`) -/

namespace Verif.Arm
open Verif.Cpp Verif.Spec Verif.Props

theorem Move_called [Dialect] {f : Nat} {args : List Obj} {r : Obj} (h : Move f args r) :
    Called f args (.ok r) := by
  cases h with
  | vcltq_f32 N M =>
    exact called_of (by kernel_rfl) (Props.vcltq_f32_source N M) (Props.vcltq_f32_spec N M)
  | vminq_s8 N M =>
    exact called_of (by kernel_rfl) (Props.vminq_s8_source N M) (Props.vminq_s8_spec N M)
  | vminq_s16 N M =>
    exact called_of (by kernel_rfl) (Props.vminq_s16_source N M) (Props.vminq_s16_spec N M)
  | vminq_s32 N M =>
    exact called_of (by kernel_rfl) (Props.vminq_s32_source N M) (Props.vminq_s32_spec N M)
  | vdup_n_s8 N =>
    exact called_of (by kernel_rfl) (Props.vdup_n_s8_source N) (Props.vdup_n_s8_spec N)
  | vdup_n_s16 N =>
    exact called_of (by kernel_rfl) (Props.vdup_n_s16_source N) (Props.vdup_n_s16_spec N)
  | vdup_n_s32 N =>
    exact called_of (by kernel_rfl) (Props.vdup_n_s32_source N) (Props.vdup_n_s32_spec N)
  | vdup_n_s64 N =>
    exact called_of (by kernel_rfl) (Props.vdup_n_s64_source N) (Props.vdup_n_s64_spec N)
  | vdup_n_u8 N =>
    exact called_of (by kernel_rfl) (Props.vdup_n_u8_source N) (Props.vdup_n_u8_spec N)
  | vdup_n_u16 N =>
    exact called_of (by kernel_rfl) (Props.vdup_n_u16_source N) (Props.vdup_n_u16_spec N)
  | vdup_n_u32 N =>
    exact called_of (by kernel_rfl) (Props.vdup_n_u32_source N) (Props.vdup_n_u32_spec N)
  | vdup_n_u64 N =>
    exact called_of (by kernel_rfl) (Props.vdup_n_u64_source N) (Props.vdup_n_u64_spec N)
  | vdupq_n_u8 value =>
    exact called_of (by kernel_rfl) (Props.vdupq_n_u8_source value) (Props.vdupq_n_u8_spec value)
  | vdupq_n_s8 value =>
    exact called_of (by kernel_rfl) (Props.vdupq_n_s8_source value) (Props.vdupq_n_s8_spec value)
  | vdupq_n_u16 value =>
    exact called_of (by kernel_rfl) (Props.vdupq_n_u16_source value) (Props.vdupq_n_u16_spec value)
  | vdupq_n_s16 value =>
    exact called_of (by kernel_rfl) (Props.vdupq_n_s16_source value) (Props.vdupq_n_s16_spec value)
  | vdupq_n_u32 value =>
    exact called_of (by kernel_rfl) (Props.vdupq_n_u32_source value) (Props.vdupq_n_u32_spec value)
  | vdupq_n_s32 value =>
    exact called_of (by kernel_rfl) (Props.vdupq_n_s32_source value) (Props.vdupq_n_s32_spec value)
  | vdupq_n_f32 value =>
    exact called_of (by kernel_rfl) (Props.vdupq_n_f32_source value) (Props.vdupq_n_f32_spec value)
  | vmovq_n_f32 value =>
    exact called_of (by kernel_rfl) (Props.vmovq_n_f32_source value) (Props.vmovq_n_f32_spec value)
  | vget_low_f32 a =>
    exact called_of (by kernel_rfl) (Props.vget_low_f32_source a) (Props.vget_low_f32_spec a)
  | vget_low_s32 a =>
    exact called_of (by kernel_rfl) (Props.vget_low_s32_source a) (Props.vget_low_s32_spec a)
  | vget_low_u32 a =>
    exact called_of (by kernel_rfl) (Props.vget_low_u32_source a) (Props.vget_low_u32_spec a)
  | vget_low_s16 a =>
    exact called_of (by kernel_rfl) (Props.vget_low_s16_source a) (Props.vget_low_s16_spec a)
  | vget_low_u16 a =>
    exact called_of (by kernel_rfl) (Props.vget_low_u16_source a) (Props.vget_low_u16_spec a)
  | vget_low_s8 a =>
    exact called_of (by kernel_rfl) (Props.vget_low_s8_source a) (Props.vget_low_s8_spec a)
  | vget_low_u8 a =>
    exact called_of (by kernel_rfl) (Props.vget_low_u8_source a) (Props.vget_low_u8_spec a)
  | vget_high_f32 a =>
    exact called_of (by kernel_rfl) (Props.vget_high_f32_source a) (Props.vget_high_f32_spec a)
  | vget_high_s32 a =>
    exact called_of (by kernel_rfl) (Props.vget_high_s32_source a) (Props.vget_high_s32_spec a)
  | vget_high_u32 a =>
    exact called_of (by kernel_rfl) (Props.vget_high_u32_source a) (Props.vget_high_u32_spec a)
  | vget_high_s16 a =>
    exact called_of (by kernel_rfl) (Props.vget_high_s16_source a) (Props.vget_high_s16_spec a)
  | vget_high_u16 a =>
    exact called_of (by kernel_rfl) (Props.vget_high_u16_source a) (Props.vget_high_u16_spec a)
  | vget_high_s8 a =>
    exact called_of (by kernel_rfl) (Props.vget_high_s8_source a) (Props.vget_high_s8_spec a)
  | vget_high_u8 a =>
    exact called_of (by kernel_rfl) (Props.vget_high_u8_source a) (Props.vget_high_u8_spec a)
  | vget_lane_f32 v lane =>
    exact called_of (by kernel_rfl) (Props.vget_lane_f32_source v ((lane.val : Nat) : Int) (by omega)) (Props.vget_lane_f32_spec v lane)
  | vgetq_lane_u8 v lane =>
    exact called_of (by kernel_rfl) (Props.vgetq_lane_u8_source v ((lane.val : Nat) : Int) (by omega)) (Props.vgetq_lane_u8_spec v lane)
  | vgetq_lane_u16 v lane =>
    exact called_of (by kernel_rfl) (Props.vgetq_lane_u16_source v ((lane.val : Nat) : Int) (by omega)) (Props.vgetq_lane_u16_spec v lane)
  | vgetq_lane_u32 v lane =>
    exact called_of (by kernel_rfl) (Props.vgetq_lane_u32_source v ((lane.val : Nat) : Int) (by omega)) (Props.vgetq_lane_u32_spec v lane)
  | vgetq_lane_u64 v lane =>
    exact called_of (by kernel_rfl) (Props.vgetq_lane_u64_source v ((lane.val : Nat) : Int) (by omega)) (Props.vgetq_lane_u64_spec v lane)
  | vgetq_lane_s8 v lane =>
    exact called_of (by kernel_rfl) (Props.vgetq_lane_s8_source v ((lane.val : Nat) : Int) (by omega)) (Props.vgetq_lane_s8_spec v lane)
  | vgetq_lane_s16 v lane =>
    exact called_of (by kernel_rfl) (Props.vgetq_lane_s16_source v ((lane.val : Nat) : Int) (by omega)) (Props.vgetq_lane_s16_spec v lane)
  | vgetq_lane_s32 v lane =>
    exact called_of (by kernel_rfl) (Props.vgetq_lane_s32_source v ((lane.val : Nat) : Int) (by omega)) (Props.vgetq_lane_s32_spec v lane)
  | vgetq_lane_s64 v lane =>
    exact called_of (by kernel_rfl) (Props.vgetq_lane_s64_source v ((lane.val : Nat) : Int) (by omega)) (Props.vgetq_lane_s64_spec v lane)
  | vgetq_lane_f64 v lane =>
    exact called_of (by kernel_rfl) (Props.vgetq_lane_f64_source v ((lane.val : Nat) : Int) (by omega)) (Props.vgetq_lane_f64_spec v lane)
  | vgetq_lane_f32 v lane =>
    exact called_of (by kernel_rfl) (Props.vgetq_lane_f32_source v ((lane.val : Nat) : Int) (by omega)) (Props.vgetq_lane_f32_spec v lane)

end Verif.Arm
