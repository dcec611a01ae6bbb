import Verif.ArmLemmas
import Verif.Props.AgreeRecip
import Verif.Props.AgreeFloat
import Verif.Props.Float
import Verif.Props.FloatConv
import Verif.Props.Recip

/-! # The texts have the meaning of the intrinsics: operations whose result is not always determined (NaN payloads, estimates) (generated by `tools/gen_arm.py`) -/

namespace Verif.Arm
open Verif.Cpp Verif.Spec Verif.Props

theorem Float_called [Dialect] {f : Nat} {args : List Obj} {r : Obj} (h : Float f args r) :
    ∃ r, Float f args r ∧ Called f args (.ok r) := by
  cases h with
  | vaddq_f32 a b r h =>
    obtain ⟨r, hr, hp⟩ := Props.vaddq_f32_spec a b
    exact ok_of (by kernel_rfl) (Props.vaddq_f32_source a b) hr (.vaddq_f32 a b r hp)
  | vsub_f32 N M r h =>
    obtain ⟨r, hr, hp⟩ := Props.vsub_f32_spec N M
    exact ok_of (by kernel_rfl) (Props.vsub_f32_source N M) hr (.vsub_f32 N M r hp)
  | vsub_f32_overload2 N M r h =>
    obtain ⟨r, hr, hp⟩ := Props.vsub_f32_overload2_spec N M
    exact ok_of (by kernel_rfl) (Props.vsub_f32_overload2_source N M) hr (.vsub_f32_overload2 N M r hp)
  | vsubq_f32 N M r h =>
    obtain ⟨r, hr, hp⟩ := Props.vsubq_f32_spec N M
    exact ok_of (by kernel_rfl) (Props.vsubq_f32_source N M) hr (.vsubq_f32 N M r hp)
  | vmulq_f32 a b r h =>
    obtain ⟨r, hr, hp⟩ := Props.vmulq_f32_spec a b
    exact ok_of (by kernel_rfl) (Props.vmulq_f32_source a b) hr (.vmulq_f32 a b r hp)
  | vmul_n_f32 N M r h =>
    obtain ⟨r, hr, hp⟩ := Props.vmul_n_f32_spec N M
    exact ok_of (by kernel_rfl) (Props.vmul_n_f32_source N M) hr (.vmul_n_f32 N M r hp)
  | vmul_n_f64 N M r h =>
    obtain ⟨r, hr, hp⟩ := Props.vmul_n_f64_spec N M
    exact ok_of (by kernel_rfl) (Props.vmul_n_f64_source N M) hr (.vmul_n_f64 N M r hp)
  | vmulq_n_f32 N M r h =>
    obtain ⟨r, hr, hp⟩ := Props.vmulq_n_f32_spec N M
    exact ok_of (by kernel_rfl) (Props.vmulq_n_f32_source N M) hr (.vmulq_n_f32 N M r hp)
  | vmulq_n_f64 N M r h =>
    obtain ⟨r, hr, hp⟩ := Props.vmulq_n_f64_spec N M
    exact ok_of (by kernel_rfl) (Props.vmulq_n_f64_source N M) hr (.vmulq_n_f64 N M r hp)
  | vdiv_f32 a b r h =>
    obtain ⟨r, hr, hp⟩ := Props.vdiv_f32_spec a b
    exact ok_of (by kernel_rfl) (Props.vdiv_f32_source a b) hr (.vdiv_f32 a b r hp)
  | vdiv_f64 a b r h =>
    obtain ⟨r, hr, hp⟩ := Props.vdiv_f64_spec a b
    exact ok_of (by kernel_rfl) (Props.vdiv_f64_source a b) hr (.vdiv_f64 a b r hp)
  | vdivq_f32 a b r h =>
    obtain ⟨r, hr, hp⟩ := Props.vdivq_f32_spec a b
    exact ok_of (by kernel_rfl) (Props.vdivq_f32_source a b) hr (.vdivq_f32 a b r hp)
  | vdivq_f64 a b r h =>
    obtain ⟨r, hr, hp⟩ := Props.vdivq_f64_spec a b
    exact ok_of (by kernel_rfl) (Props.vdivq_f64_source a b) hr (.vdivq_f64 a b r hp)
  | vmlaq_f32 N M P r h =>
    obtain ⟨r, hr, hp⟩ := Props.vmlaq_f32_spec N M P
    exact ok_of (by kernel_rfl) (Props.vmlaq_f32_source N M P) hr (.vmlaq_f32 N M P r hp)
  | vmlaq_n_f32 a b c r h =>
    obtain ⟨r, hr, hp⟩ := Props.vmlaq_n_f32_spec a b c
    exact ok_of (by kernel_rfl) (Props.vmlaq_n_f32_source a b c) hr (.vmlaq_n_f32 a b c r hp)
  | vcvtq_f32_s32 a r h =>
    obtain ⟨r, hr, hp⟩ := Props.vcvtq_f32_s32_spec a
    exact ok_of (by kernel_rfl) (Props.vcvtq_f32_s32_source a) hr (.vcvtq_f32_s32 a r hp)
  | vmaxq_f32 N M r hg h =>
    obtain ⟨r, hr, hp⟩ := (Props.vmaxq_f32_right_iff N M).2 hg
    exact ok_of (by kernel_rfl) (Props.vmaxq_f32_source N M) hr (.vmaxq_f32 N M r hg hp)
  | vminq_f32 N M r hg h =>
    obtain ⟨r, hr, hp⟩ := (Props.vminq_f32_right_iff N M).2 hg
    exact ok_of (by kernel_rfl) (Props.vminq_f32_source N M) hr (.vminq_f32 N M r hg hp)
  | vpmax_f32 a b r hg h =>
    obtain ⟨r, hr, hp⟩ := (Props.vpmax_f32_right_iff a b).2 hg
    exact ok_of (by kernel_rfl) (Props.vpmax_f32_source a b) hr (.vpmax_f32 a b r hg hp)
  | vpmin_f32 a b r hg h =>
    obtain ⟨r, hr, hp⟩ := (Props.vpmin_f32_right_iff a b).2 hg
    exact ok_of (by kernel_rfl) (Props.vpmin_f32_source a b) hr (.vpmin_f32 a b r hg hp)
  | vrecpeq_f32 a r h =>
    obtain ⟨r, hr, hp⟩ := Props.vrecpeq_f32_spec a
    exact unit_of (by kernel_rfl) (Props.vrecpeq_f32_source a) hr (.vrecpeq_f32 a r hp)
  | vrecpsq_f32 a b r x y hg h =>
    obtain ⟨r, hr, hp⟩ := Props.vrecpsq_f32_fused_partial a b x y hg
    exact ok_of (by kernel_rfl) (Props.vrecpsq_f32_source a b) hr (.vrecpsq_f32 a b r x y hg hp)

end Verif.Arm
