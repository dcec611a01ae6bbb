import Verif.ArmLemmas
import Verif.Props.Store

/-! # The texts have the meaning of the intrinsics: stores (generated by `tools/gen_arm.py`) -/

namespace Verif.Arm
open Verif.Cpp Verif.Spec Verif.Props

theorem Store_called [Dialect] {f : Nat} {args : List Obj} {r : Obj} (h : Store f args r) :
    Called f args (.ok r) := by
  cases h with
  | vst1_u8 ptr val p' hw h =>
    obtain ⟨r, hr, hp⟩ := (Props.vst1_u8_spec ptr val).1 hw
    cases stored_unique h hp
    exact called_of (by kernel_rfl) (Props.vst1_u8_source ptr val) hr
  | vst1_s8 ptr val p' hw h =>
    obtain ⟨r, hr, hp⟩ := (Props.vst1_s8_spec ptr val).1 hw
    cases stored_unique h hp
    exact called_of (by kernel_rfl) (Props.vst1_s8_source ptr val) hr
  | vst1_u16 ptr val p' hw h =>
    obtain ⟨r, hr, hp⟩ := (Props.vst1_u16_spec ptr val).1 hw
    cases stored_unique h hp
    exact called_of (by kernel_rfl) (Props.vst1_u16_source ptr val) hr
  | vst1_s16 ptr val p' hw h =>
    obtain ⟨r, hr, hp⟩ := (Props.vst1_s16_spec ptr val).1 hw
    cases stored_unique h hp
    exact called_of (by kernel_rfl) (Props.vst1_s16_source ptr val) hr
  | vst1_u32 ptr val p' hw h =>
    obtain ⟨r, hr, hp⟩ := (Props.vst1_u32_spec ptr val).1 hw
    cases stored_unique h hp
    exact called_of (by kernel_rfl) (Props.vst1_u32_source ptr val) hr
  | vst1_s32 ptr val p' hw h =>
    obtain ⟨r, hr, hp⟩ := (Props.vst1_s32_spec ptr val).1 hw
    cases stored_unique h hp
    exact called_of (by kernel_rfl) (Props.vst1_s32_source ptr val) hr
  | vst1_s64 ptr val p' hw h =>
    obtain ⟨r, hr, hp⟩ := (Props.vst1_s64_spec ptr val).1 hw
    cases stored_unique h hp
    exact called_of (by kernel_rfl) (Props.vst1_s64_source ptr val) hr
  | vst1_u64 ptr val p' hw h =>
    obtain ⟨r, hr, hp⟩ := (Props.vst1_u64_spec ptr val).1 hw
    cases stored_unique h hp
    exact called_of (by kernel_rfl) (Props.vst1_u64_source ptr val) hr
  | vst1q_u8 ptr val p' hw h =>
    obtain ⟨r, hr, hp⟩ := (Props.vst1q_u8_spec ptr val).1 hw
    cases stored_unique h hp
    exact called_of (by kernel_rfl) (Props.vst1q_u8_source ptr val) hr
  | vst1q_s8 ptr val p' hw h =>
    obtain ⟨r, hr, hp⟩ := (Props.vst1q_s8_spec ptr val).1 hw
    cases stored_unique h hp
    exact called_of (by kernel_rfl) (Props.vst1q_s8_source ptr val) hr
  | vst1q_u16 ptr val p' hw h =>
    obtain ⟨r, hr, hp⟩ := (Props.vst1q_u16_spec ptr val).1 hw
    cases stored_unique h hp
    exact called_of (by kernel_rfl) (Props.vst1q_u16_source ptr val) hr
  | vst1q_s16 ptr val p' hw h =>
    obtain ⟨r, hr, hp⟩ := (Props.vst1q_s16_spec ptr val).1 hw
    cases stored_unique h hp
    exact called_of (by kernel_rfl) (Props.vst1q_s16_source ptr val) hr
  | vst1q_u32 ptr val p' hw h =>
    obtain ⟨r, hr, hp⟩ := (Props.vst1q_u32_spec ptr val).1 hw
    cases stored_unique h hp
    exact called_of (by kernel_rfl) (Props.vst1q_u32_source ptr val) hr
  | vst1q_s32 ptr val p' hw h =>
    obtain ⟨r, hr, hp⟩ := (Props.vst1q_s32_spec ptr val).1 hw
    cases stored_unique h hp
    exact called_of (by kernel_rfl) (Props.vst1q_s32_source ptr val) hr
  | vst1q_s64 ptr val p' hw h =>
    obtain ⟨r, hr, hp⟩ := (Props.vst1q_s64_spec ptr val).1 hw
    cases stored_unique h hp
    exact called_of (by kernel_rfl) (Props.vst1q_s64_source ptr val) hr
  | vst1q_u64 ptr val p' hw h =>
    obtain ⟨r, hr, hp⟩ := (Props.vst1q_u64_spec ptr val).1 hw
    cases stored_unique h hp
    exact called_of (by kernel_rfl) (Props.vst1q_u64_source ptr val) hr
  | vst1q_f32 ptr val p' hw h =>
    obtain ⟨r, hr, hp⟩ := (Props.vst1q_f32_spec ptr val).1 hw
    cases stored_unique h hp
    exact called_of (by kernel_rfl) (Props.vst1q_f32_source ptr val) hr
  | vst2_s8 ptr val p' hw h =>
    obtain ⟨r, hr, hp⟩ := (Props.vst2_s8_spec ptr val).1 hw
    cases stored_unique h hp
    exact called_of (by kernel_rfl) (Props.vst2_s8_source ptr val) hr
  | vst2_s16 ptr val p' hw h =>
    obtain ⟨r, hr, hp⟩ := (Props.vst2_s16_spec ptr val).1 hw
    cases stored_unique h hp
    exact called_of (by kernel_rfl) (Props.vst2_s16_source ptr val) hr
  | vst2_s32 ptr val p' hw h =>
    obtain ⟨r, hr, hp⟩ := (Props.vst2_s32_spec ptr val).1 hw
    cases stored_unique h hp
    exact called_of (by kernel_rfl) (Props.vst2_s32_source ptr val) hr
  | vst2_u8 ptr val p' hw h =>
    obtain ⟨r, hr, hp⟩ := (Props.vst2_u8_spec ptr val).1 hw
    cases stored_unique h hp
    exact called_of (by kernel_rfl) (Props.vst2_u8_source ptr val) hr
  | vst2_u16 ptr val p' hw h =>
    obtain ⟨r, hr, hp⟩ := (Props.vst2_u16_spec ptr val).1 hw
    cases stored_unique h hp
    exact called_of (by kernel_rfl) (Props.vst2_u16_source ptr val) hr
  | vst2_u32 ptr val p' hw h =>
    obtain ⟨r, hr, hp⟩ := (Props.vst2_u32_spec ptr val).1 hw
    cases stored_unique h hp
    exact called_of (by kernel_rfl) (Props.vst2_u32_source ptr val) hr
  | vst2q_s8 ptr val p' hw h =>
    obtain ⟨r, hr, hp⟩ := (Props.vst2q_s8_spec ptr val).1 hw
    cases stored_unique h hp
    exact called_of (by kernel_rfl) (Props.vst2q_s8_source ptr val) hr
  | vst2q_s16 ptr val p' hw h =>
    obtain ⟨r, hr, hp⟩ := (Props.vst2q_s16_spec ptr val).1 hw
    cases stored_unique h hp
    exact called_of (by kernel_rfl) (Props.vst2q_s16_source ptr val) hr
  | vst2q_s32 ptr val p' hw h =>
    obtain ⟨r, hr, hp⟩ := (Props.vst2q_s32_spec ptr val).1 hw
    cases stored_unique h hp
    exact called_of (by kernel_rfl) (Props.vst2q_s32_source ptr val) hr
  | vst2q_u8 ptr val p' hw h =>
    obtain ⟨r, hr, hp⟩ := (Props.vst2q_u8_spec ptr val).1 hw
    cases stored_unique h hp
    exact called_of (by kernel_rfl) (Props.vst2q_u8_source ptr val) hr
  | vst2q_u16 ptr val p' hw h =>
    obtain ⟨r, hr, hp⟩ := (Props.vst2q_u16_spec ptr val).1 hw
    cases stored_unique h hp
    exact called_of (by kernel_rfl) (Props.vst2q_u16_source ptr val) hr
  | vst2q_u32 ptr val p' hw h =>
    obtain ⟨r, hr, hp⟩ := (Props.vst2q_u32_spec ptr val).1 hw
    cases stored_unique h hp
    exact called_of (by kernel_rfl) (Props.vst2q_u32_source ptr val) hr
  | vst3_s8 ptr val p' hw h =>
    obtain ⟨r, hr, hp⟩ := (Props.vst3_s8_spec ptr val).1 hw
    cases stored_unique h hp
    exact called_of (by kernel_rfl) (Props.vst3_s8_source ptr val) hr
  | vst3_s16 ptr val p' hw h =>
    obtain ⟨r, hr, hp⟩ := (Props.vst3_s16_spec ptr val).1 hw
    cases stored_unique h hp
    exact called_of (by kernel_rfl) (Props.vst3_s16_source ptr val) hr
  | vst3_s32 ptr val p' hw h =>
    obtain ⟨r, hr, hp⟩ := (Props.vst3_s32_spec ptr val).1 hw
    cases stored_unique h hp
    exact called_of (by kernel_rfl) (Props.vst3_s32_source ptr val) hr
  | vst3_u8 ptr val p' hw h =>
    obtain ⟨r, hr, hp⟩ := (Props.vst3_u8_spec ptr val).1 hw
    cases stored_unique h hp
    exact called_of (by kernel_rfl) (Props.vst3_u8_source ptr val) hr
  | vst3_u16 ptr val p' hw h =>
    obtain ⟨r, hr, hp⟩ := (Props.vst3_u16_spec ptr val).1 hw
    cases stored_unique h hp
    exact called_of (by kernel_rfl) (Props.vst3_u16_source ptr val) hr
  | vst3_u32 ptr val p' hw h =>
    obtain ⟨r, hr, hp⟩ := (Props.vst3_u32_spec ptr val).1 hw
    cases stored_unique h hp
    exact called_of (by kernel_rfl) (Props.vst3_u32_source ptr val) hr
  | vst3q_s8 ptr val p' hw h =>
    obtain ⟨r, hr, hp⟩ := (Props.vst3q_s8_spec ptr val).1 hw
    cases stored_unique h hp
    exact called_of (by kernel_rfl) (Props.vst3q_s8_source ptr val) hr
  | vst3q_s16 ptr val p' hw h =>
    obtain ⟨r, hr, hp⟩ := (Props.vst3q_s16_spec ptr val).1 hw
    cases stored_unique h hp
    exact called_of (by kernel_rfl) (Props.vst3q_s16_source ptr val) hr
  | vst3q_s32 ptr val p' hw h =>
    obtain ⟨r, hr, hp⟩ := (Props.vst3q_s32_spec ptr val).1 hw
    cases stored_unique h hp
    exact called_of (by kernel_rfl) (Props.vst3q_s32_source ptr val) hr
  | vst3q_u8 ptr val p' hw h =>
    obtain ⟨r, hr, hp⟩ := (Props.vst3q_u8_spec ptr val).1 hw
    cases stored_unique h hp
    exact called_of (by kernel_rfl) (Props.vst3q_u8_source ptr val) hr
  | vst3q_u16 ptr val p' hw h =>
    obtain ⟨r, hr, hp⟩ := (Props.vst3q_u16_spec ptr val).1 hw
    cases stored_unique h hp
    exact called_of (by kernel_rfl) (Props.vst3q_u16_source ptr val) hr
  | vst3q_u32 ptr val p' hw h =>
    obtain ⟨r, hr, hp⟩ := (Props.vst3q_u32_spec ptr val).1 hw
    cases stored_unique h hp
    exact called_of (by kernel_rfl) (Props.vst3q_u32_source ptr val) hr
  | vst4_s8 ptr val p' hw h =>
    obtain ⟨r, hr, hp⟩ := (Props.vst4_s8_spec ptr val).1 hw
    cases stored_unique h hp
    exact called_of (by kernel_rfl) (Props.vst4_s8_source ptr val) hr
  | vst4_s16 ptr val p' hw h =>
    obtain ⟨r, hr, hp⟩ := (Props.vst4_s16_spec ptr val).1 hw
    cases stored_unique h hp
    exact called_of (by kernel_rfl) (Props.vst4_s16_source ptr val) hr
  | vst4_s32 ptr val p' hw h =>
    obtain ⟨r, hr, hp⟩ := (Props.vst4_s32_spec ptr val).1 hw
    cases stored_unique h hp
    exact called_of (by kernel_rfl) (Props.vst4_s32_source ptr val) hr
  | vst4_u16 ptr val p' hw h =>
    obtain ⟨r, hr, hp⟩ := (Props.vst4_u16_spec ptr val).1 hw
    cases stored_unique h hp
    exact called_of (by kernel_rfl) (Props.vst4_u16_source ptr val) hr
  | vst4q_s8 ptr val p' hw h =>
    obtain ⟨r, hr, hp⟩ := (Props.vst4q_s8_spec ptr val).1 hw
    cases stored_unique h hp
    exact called_of (by kernel_rfl) (Props.vst4q_s8_source ptr val) hr
  | vst4q_s16 ptr val p' hw h =>
    obtain ⟨r, hr, hp⟩ := (Props.vst4q_s16_spec ptr val).1 hw
    cases stored_unique h hp
    exact called_of (by kernel_rfl) (Props.vst4q_s16_source ptr val) hr
  | vst4q_s32 ptr val p' hw h =>
    obtain ⟨r, hr, hp⟩ := (Props.vst4q_s32_spec ptr val).1 hw
    cases stored_unique h hp
    exact called_of (by kernel_rfl) (Props.vst4q_s32_source ptr val) hr
  | vst4q_u8 ptr val p' hw h =>
    obtain ⟨r, hr, hp⟩ := (Props.vst4q_u8_spec ptr val).1 hw
    cases stored_unique h hp
    exact called_of (by kernel_rfl) (Props.vst4q_u8_source ptr val) hr
  | vst4q_u16 ptr val p' hw h =>
    obtain ⟨r, hr, hp⟩ := (Props.vst4q_u16_spec ptr val).1 hw
    cases stored_unique h hp
    exact called_of (by kernel_rfl) (Props.vst4q_u16_source ptr val) hr
  | vst4q_u32 ptr val p' hw h =>
    obtain ⟨r, hr, hp⟩ := (Props.vst4q_u32_spec ptr val).1 hw
    cases stored_unique h hp
    exact called_of (by kernel_rfl) (Props.vst4q_u32_source ptr val) hr
  | vst4q_lane_f32 ptr val lane l hl p' hw h =>
    obtain ⟨r, hr, hp⟩ := (Props.vst4q_lane_f32_spec ptr val lane l hl).1 hw
    cases stored_unique h hp
    exact called_of (by kernel_rfl) (Props.vst4q_lane_f32_source ptr val lane (by omega)) hr

end Verif.Arm
