import Verif.ArmLemmas
import Verif.Props.FloatConv
import Verif.Props.Reinterpret

/-! # The texts have the meaning of the intrinsics: conversions and reinterpretation (generated by `tools/gen_arm.py`) -/

namespace Verif.Arm
open Verif.Cpp Verif.Spec Verif.Props

theorem Convert_called [Dialect] {f : Nat} {args : List Obj} {r : Obj} (h : Convert f args r) :
    Called f args (.ok r) := by
  cases h with
  | vcvtq_s32_f32 a n h =>
    exact called_of (by kernel_rfl) (Props.vcvtq_s32_f32_source a) (Props.vcvtq_s32_f32_partial a n h)
  | vcvtq_u32_f32 a n h =>
    exact called_of (by kernel_rfl) (Props.vcvtq_u32_f32_source a) (Props.vcvtq_u32_f32_partial a n h)
  | vcvtnq_s32_f32 a x n h =>
    exact called_of (by kernel_rfl) (Props.vcvtnq_s32_f32_source a) (Props.vcvtnq_s32_f32_partial a x n h)
  | vreinterpret_u8_s8 a r h =>
    obtain ⟨r', hr, hp⟩ := Props.vreinterpret_u8_s8_spec a
    cases regBit_ext (fun b => (h b).trans (hp b).symm)
    exact called_of (by kernel_rfl) (Props.vreinterpret_u8_s8_source a) hr
  | vreinterpretq_s16_u16 a r h =>
    obtain ⟨r', hr, hp⟩ := Props.vreinterpretq_s16_u16_spec a
    cases regBit_ext (fun b => (h b).trans (hp b).symm)
    exact called_of (by kernel_rfl) (Props.vreinterpretq_s16_u16_source a) hr
  | vreinterpretq_u16_s16 a r h =>
    obtain ⟨r', hr, hp⟩ := Props.vreinterpretq_u16_s16_spec a
    cases regBit_ext (fun b => (h b).trans (hp b).symm)
    exact called_of (by kernel_rfl) (Props.vreinterpretq_u16_s16_source a) hr
  | vreinterpret_u16_u8 a r h =>
    obtain ⟨r', hr, hp⟩ := Props.vreinterpret_u16_u8_spec a
    cases regBit_ext (fun b => (h b).trans (hp b).symm)
    exact called_of (by kernel_rfl) (Props.vreinterpret_u16_u8_source a) hr
  | vreinterpret_u32_u16 a r h =>
    obtain ⟨r', hr, hp⟩ := Props.vreinterpret_u32_u16_spec a
    cases regBit_ext (fun b => (h b).trans (hp b).symm)
    exact called_of (by kernel_rfl) (Props.vreinterpret_u32_u16_source a) hr
  | vreinterpret_u8_u32 a r h =>
    obtain ⟨r', hr, hp⟩ := Props.vreinterpret_u8_u32_spec a
    cases regBit_ext (fun b => (h b).trans (hp b).symm)
    exact called_of (by kernel_rfl) (Props.vreinterpret_u8_u32_source a) hr
  | vreinterpret_u32_u8 a r h =>
    obtain ⟨r', hr, hp⟩ := Props.vreinterpret_u32_u8_spec a
    cases regBit_ext (fun b => (h b).trans (hp b).symm)
    exact called_of (by kernel_rfl) (Props.vreinterpret_u32_u8_source a) hr
  | vreinterpret_s8_u8 a r h =>
    obtain ⟨r', hr, hp⟩ := Props.vreinterpret_s8_u8_spec a
    cases regBit_ext (fun b => (h b).trans (hp b).symm)
    exact called_of (by kernel_rfl) (Props.vreinterpret_s8_u8_source a) hr
  | vreinterpret_s32_s16 a r h =>
    obtain ⟨r', hr, hp⟩ := Props.vreinterpret_s32_s16_spec a
    cases regBit_ext (fun b => (h b).trans (hp b).symm)
    exact called_of (by kernel_rfl) (Props.vreinterpret_s32_s16_source a) hr
  | vreinterpret_s16_s32 a r h =>
    obtain ⟨r', hr, hp⟩ := Props.vreinterpret_s16_s32_spec a
    cases regBit_ext (fun b => (h b).trans (hp b).symm)
    exact called_of (by kernel_rfl) (Props.vreinterpret_s16_s32_source a) hr
  | vreinterpretq_u8_s8 a r h =>
    obtain ⟨r', hr, hp⟩ := Props.vreinterpretq_u8_s8_spec a
    cases regBit_ext (fun b => (h b).trans (hp b).symm)
    exact called_of (by kernel_rfl) (Props.vreinterpretq_u8_s8_source a) hr
  | vreinterpretq_u8_s16 a r h =>
    obtain ⟨r', hr, hp⟩ := Props.vreinterpretq_u8_s16_spec a
    cases regBit_ext (fun b => (h b).trans (hp b).symm)
    exact called_of (by kernel_rfl) (Props.vreinterpretq_u8_s16_source a) hr
  | vreinterpretq_u8_s32 a r h =>
    obtain ⟨r', hr, hp⟩ := Props.vreinterpretq_u8_s32_spec a
    cases regBit_ext (fun b => (h b).trans (hp b).symm)
    exact called_of (by kernel_rfl) (Props.vreinterpretq_u8_s32_source a) hr
  | vreinterpretq_u8_f32 a r h =>
    obtain ⟨r', hr, hp⟩ := Props.vreinterpretq_u8_f32_spec a
    cases regBit_ext (fun b => (h b).trans (hp b).symm)
    exact called_of (by kernel_rfl) (Props.vreinterpretq_u8_f32_source a) hr
  | vreinterpretq_u8_u16 a r h =>
    obtain ⟨r', hr, hp⟩ := Props.vreinterpretq_u8_u16_spec a
    cases regBit_ext (fun b => (h b).trans (hp b).symm)
    exact called_of (by kernel_rfl) (Props.vreinterpretq_u8_u16_source a) hr
  | vreinterpretq_u8_u32 a r h =>
    obtain ⟨r', hr, hp⟩ := Props.vreinterpretq_u8_u32_spec a
    cases regBit_ext (fun b => (h b).trans (hp b).symm)
    exact called_of (by kernel_rfl) (Props.vreinterpretq_u8_u32_source a) hr
  | vreinterpretq_u8_u64 a r h =>
    obtain ⟨r', hr, hp⟩ := Props.vreinterpretq_u8_u64_spec a
    cases regBit_ext (fun b => (h b).trans (hp b).symm)
    exact called_of (by kernel_rfl) (Props.vreinterpretq_u8_u64_source a) hr
  | vreinterpretq_u8_s64 a r h =>
    obtain ⟨r', hr, hp⟩ := Props.vreinterpretq_u8_s64_spec a
    cases regBit_ext (fun b => (h b).trans (hp b).symm)
    exact called_of (by kernel_rfl) (Props.vreinterpretq_u8_s64_source a) hr
  | vreinterpretq_u8_f64 a r h =>
    obtain ⟨r', hr, hp⟩ := Props.vreinterpretq_u8_f64_spec a
    cases regBit_ext (fun b => (h b).trans (hp b).symm)
    exact called_of (by kernel_rfl) (Props.vreinterpretq_u8_f64_source a) hr
  | vreinterpretq_u32_s8 a r h =>
    obtain ⟨r', hr, hp⟩ := Props.vreinterpretq_u32_s8_spec a
    cases regBit_ext (fun b => (h b).trans (hp b).symm)
    exact called_of (by kernel_rfl) (Props.vreinterpretq_u32_s8_source a) hr
  | vreinterpretq_u32_s16 a r h =>
    obtain ⟨r', hr, hp⟩ := Props.vreinterpretq_u32_s16_spec a
    cases regBit_ext (fun b => (h b).trans (hp b).symm)
    exact called_of (by kernel_rfl) (Props.vreinterpretq_u32_s16_source a) hr
  | vreinterpretq_u32_s32 a r h =>
    obtain ⟨r', hr, hp⟩ := Props.vreinterpretq_u32_s32_spec a
    cases regBit_ext (fun b => (h b).trans (hp b).symm)
    exact called_of (by kernel_rfl) (Props.vreinterpretq_u32_s32_source a) hr
  | vreinterpretq_u32_f32 a r h =>
    obtain ⟨r', hr, hp⟩ := Props.vreinterpretq_u32_f32_spec a
    cases regBit_ext (fun b => (h b).trans (hp b).symm)
    exact called_of (by kernel_rfl) (Props.vreinterpretq_u32_f32_source a) hr
  | vreinterpretq_u32_u8 a r h =>
    obtain ⟨r', hr, hp⟩ := Props.vreinterpretq_u32_u8_spec a
    cases regBit_ext (fun b => (h b).trans (hp b).symm)
    exact called_of (by kernel_rfl) (Props.vreinterpretq_u32_u8_source a) hr
  | vreinterpretq_u32_u16 a r h =>
    obtain ⟨r', hr, hp⟩ := Props.vreinterpretq_u32_u16_spec a
    cases regBit_ext (fun b => (h b).trans (hp b).symm)
    exact called_of (by kernel_rfl) (Props.vreinterpretq_u32_u16_source a) hr
  | vreinterpretq_u32_u64 a r h =>
    obtain ⟨r', hr, hp⟩ := Props.vreinterpretq_u32_u64_spec a
    cases regBit_ext (fun b => (h b).trans (hp b).symm)
    exact called_of (by kernel_rfl) (Props.vreinterpretq_u32_u64_source a) hr
  | vreinterpretq_u32_s64 a r h =>
    obtain ⟨r', hr, hp⟩ := Props.vreinterpretq_u32_s64_spec a
    cases regBit_ext (fun b => (h b).trans (hp b).symm)
    exact called_of (by kernel_rfl) (Props.vreinterpretq_u32_s64_source a) hr
  | vreinterpretq_u32_f64 a r h =>
    obtain ⟨r', hr, hp⟩ := Props.vreinterpretq_u32_f64_spec a
    cases regBit_ext (fun b => (h b).trans (hp b).symm)
    exact called_of (by kernel_rfl) (Props.vreinterpretq_u32_f64_source a) hr

end Verif.Arm
