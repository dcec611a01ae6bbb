import Verif.ArmLemmas
import Verif.Props.Shift

/-! # The texts have the meaning of the intrinsics: shifts (generated by `tools/gen_arm.py`) -/

namespace Verif.Arm
open Verif.Cpp Verif.Spec Verif.Props

theorem Shift_called [Dialect] {f : Nat} {args : List Obj} {r : Obj} (h : Shift f args r) :
    Called f args (.ok r) := by
  cases h with
  | vshrn_n_s16 a n h1 h2 =>
    exact called_of (by kernel_rfl) (Props.vshrn_n_s16_source a n (by omega)) (Props.vshrn_n_s16_spec a n h1 h2)
  | vshrn_n_s32 a n h1 h2 =>
    exact called_of (by kernel_rfl) (Props.vshrn_n_s32_source a n (by omega)) (Props.vshrn_n_s32_spec a n h1 h2)
  | vshrn_n_s64 a n h1 h2 =>
    exact called_of (by kernel_rfl) (Props.vshrn_n_s64_source a n (by omega)) (Props.vshrn_n_s64_spec a n h1 h2)
  | vshrn_n_u16 a n h1 h2 =>
    exact called_of (by kernel_rfl) (Props.vshrn_n_u16_source a n (by omega)) (Props.vshrn_n_u16_spec a n h1 h2)
  | vshrn_n_u32 a n h1 h2 =>
    exact called_of (by kernel_rfl) (Props.vshrn_n_u32_source a n (by omega)) (Props.vshrn_n_u32_spec a n h1 h2)
  | vshrn_n_u64 a n h1 h2 =>
    exact called_of (by kernel_rfl) (Props.vshrn_n_u64_source a n (by omega)) (Props.vshrn_n_u64_spec a n h1 h2)
  | vqshrun_n_s16 v n h1 h2 =>
    exact called_of (by kernel_rfl) (Props.vqshrun_n_s16_source v n (by omega)) (Props.vqshrun_n_s16_spec v n h1 h2)
  | vqrshrun_n_s16 v n h1 h2 =>
    exact called_of (by kernel_rfl) (Props.vqrshrun_n_s16_source v n (by omega)) (Props.vqrshrun_n_s16_spec v n h1 h2)
  | vrshrn_n_u16 a n h1 h2 =>
    exact called_of (by kernel_rfl) (Props.vrshrn_n_u16_source a n (by omega)) (Props.vrshrn_n_u16_spec a n h1 h2)
  | vshlq_n_s32 M n h2 hg =>
    exact called_of (by kernel_rfl) (Props.vshlq_n_s32_source M n (by omega)) ((Props.vshlq_n_s32_partial M n h2).trans (if_pos hg))
  | vshll_n_u8 a n h2 =>
    exact called_of (by kernel_rfl) (Props.vshll_n_u8_source a n (by omega)) (Props.vshll_n_u8_spec a n h2)

end Verif.Arm
