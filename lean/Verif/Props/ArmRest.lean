import Verif.ArmLemmas
import Verif.Props.Perm
import Verif.Props.Shift

/-! # The texts have the meaning of the intrinsics: maximum, minimum and the rest (generated by `tools/gen_arm.py`) -/

namespace Verif.Arm
open Verif.Cpp Verif.Spec Verif.Props

theorem Rest_called [Dialect] {f : Nat} {args : List Obj} {r : Obj} (h : Rest f args r) :
    Called f args (.ok r) := by
  cases h with
  | vrev16_s8 vec =>
    exact called_of (by kernel_rfl) (Props.vrev16_s8_source vec) (Props.vrev16_s8_spec vec)
  | vrev16_u8 vec =>
    exact called_of (by kernel_rfl) (Props.vrev16_u8_source vec) (Props.vrev16_u8_spec vec)
  | vrev16q_s8 vec =>
    exact called_of (by kernel_rfl) (Props.vrev16q_s8_source vec) (Props.vrev16q_s8_spec vec)
  | vrev16q_u8 vec =>
    exact called_of (by kernel_rfl) (Props.vrev16q_u8_source vec) (Props.vrev16q_u8_spec vec)
  | vrev32_s16 vec =>
    exact called_of (by kernel_rfl) (Props.vrev32_s16_source vec) (Props.vrev32_s16_spec vec)
  | vrev32_u8 vec =>
    exact called_of (by kernel_rfl) (Props.vrev32_u8_source vec) (Props.vrev32_u8_spec vec)
  | vrev32_u16 vec =>
    exact called_of (by kernel_rfl) (Props.vrev32_u16_source vec) (Props.vrev32_u16_spec vec)
  | vrev32q_s8 vec =>
    exact called_of (by kernel_rfl) (Props.vrev32q_s8_source vec) (Props.vrev32q_s8_spec vec)
  | vrev32q_s16 vec =>
    exact called_of (by kernel_rfl) (Props.vrev32q_s16_source vec) (Props.vrev32q_s16_spec vec)
  | vrev32q_u8 vec =>
    exact called_of (by kernel_rfl) (Props.vrev32q_u8_source vec) (Props.vrev32q_u8_spec vec)
  | vrev32q_u16 vec =>
    exact called_of (by kernel_rfl) (Props.vrev32q_u16_source vec) (Props.vrev32q_u16_spec vec)
  | vrev64_s8 vec =>
    exact called_of (by kernel_rfl) (Props.vrev64_s8_source vec) (Props.vrev64_s8_spec vec)
  | vrev64_s16 vec =>
    exact called_of (by kernel_rfl) (Props.vrev64_s16_source vec) (Props.vrev64_s16_spec vec)
  | vrev64_s32 vec =>
    exact called_of (by kernel_rfl) (Props.vrev64_s32_source vec) (Props.vrev64_s32_spec vec)
  | vrev64_u8 vec =>
    exact called_of (by kernel_rfl) (Props.vrev64_u8_source vec) (Props.vrev64_u8_spec vec)
  | vrev64_u16 vec =>
    exact called_of (by kernel_rfl) (Props.vrev64_u16_source vec) (Props.vrev64_u16_spec vec)
  | vrev64_u32 vec =>
    exact called_of (by kernel_rfl) (Props.vrev64_u32_source vec) (Props.vrev64_u32_spec vec)
  | vrev64_f32 vec =>
    exact called_of (by kernel_rfl) (Props.vrev64_f32_source vec) (Props.vrev64_f32_spec vec)
  | vrev64q_s32 vec =>
    exact called_of (by kernel_rfl) (Props.vrev64q_s32_source vec) (Props.vrev64q_s32_spec vec)
  | vrev64q_u8 vec =>
    exact called_of (by kernel_rfl) (Props.vrev64q_u8_source vec) (Props.vrev64q_u8_spec vec)
  | vrev64q_u16 vec =>
    exact called_of (by kernel_rfl) (Props.vrev64q_u16_source vec) (Props.vrev64q_u16_spec vec)
  | vrev64q_u32 vec =>
    exact called_of (by kernel_rfl) (Props.vrev64q_u32_source vec) (Props.vrev64q_u32_spec vec)
  | vrev64q_f32 vec =>
    exact called_of (by kernel_rfl) (Props.vrev64q_f32_source vec) (Props.vrev64q_f32_spec vec)
  | vzip_s8 a b =>
    exact called_of (by kernel_rfl) (Props.vzip_s8_source a b) (Props.vzip_s8_spec a b)
  | vzip_u8 a b =>
    exact called_of (by kernel_rfl) (Props.vzip_u8_source a b) (Props.vzip_u8_spec a b)
  | vuzp_u8 a b =>
    exact called_of (by kernel_rfl) (Props.vuzp_u8_source a b) (Props.vuzp_u8_spec a b)
  | vuzp_s8 a b =>
    exact called_of (by kernel_rfl) (Props.vuzp_s8_source a b) (Props.vuzp_s8_spec a b)
  | vqshrn_n_s16 a n h1 h2 =>
    exact called_of (by kernel_rfl) (Props.vqshrn_n_s16_source a n (by omega)) (Props.vqshrn_n_s16_spec a n h1 h2)
  | vqshrn_n_s32 a n h1 h2 =>
    exact called_of (by kernel_rfl) (Props.vqshrn_n_s32_source a n (by omega)) (Props.vqshrn_n_s32_spec a n h1 h2)
  | vqshrn_n_u16 a n h1 h2 =>
    exact called_of (by kernel_rfl) (Props.vqshrn_n_u16_source a n (by omega)) (Props.vqshrn_n_u16_spec a n h1 h2)
  | vqshrn_n_u32 a n h1 h2 =>
    exact called_of (by kernel_rfl) (Props.vqshrn_n_u32_source a n (by omega)) (Props.vqshrn_n_u32_spec a n h1 h2)
  | vqshrn_n_u64 a n h1 h2 =>
    exact called_of (by kernel_rfl) (Props.vqshrn_n_u64_source a n (by omega)) (Props.vqshrn_n_u64_spec a n h1 h2)

end Verif.Arm
