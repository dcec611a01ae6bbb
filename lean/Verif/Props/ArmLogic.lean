import Verif.ArmLemmas
import Verif.Props.Logic
import Verif.Props.Select

/-! # The texts have the meaning of the intrinsics: logic, comparison, selection (generated by `tools/gen_arm.py`) -/

namespace Verif.Arm
open Verif.Cpp Verif.Spec Verif.Props

theorem Logic_called [Dialect] {f : Nat} {args : List Obj} {r : Obj} (h : Logic f args r) :
    Called f args (.ok r) := by
  cases h with
  | vand_s8 a b =>
    exact called_of (by kernel_rfl) (Props.vand_s8_source a b) (Props.vand_s8_spec a b)
  | vand_s16 a b =>
    exact called_of (by kernel_rfl) (Props.vand_s16_source a b) (Props.vand_s16_spec a b)
  | vand_s32 a b =>
    exact called_of (by kernel_rfl) (Props.vand_s32_source a b) (Props.vand_s32_spec a b)
  | vand_s64 a b =>
    exact called_of (by kernel_rfl) (Props.vand_s64_source a b) (Props.vand_s64_spec a b)
  | vand_u8 a b =>
    exact called_of (by kernel_rfl) (Props.vand_u8_source a b) (Props.vand_u8_spec a b)
  | vand_u16 a b =>
    exact called_of (by kernel_rfl) (Props.vand_u16_source a b) (Props.vand_u16_spec a b)
  | vand_u32 a b =>
    exact called_of (by kernel_rfl) (Props.vand_u32_source a b) (Props.vand_u32_spec a b)
  | vand_u64 a b =>
    exact called_of (by kernel_rfl) (Props.vand_u64_source a b) (Props.vand_u64_spec a b)
  | vandq_s8 a b =>
    exact called_of (by kernel_rfl) (Props.vandq_s8_source a b) (Props.vandq_s8_spec a b)
  | vandq_s16 a b =>
    exact called_of (by kernel_rfl) (Props.vandq_s16_source a b) (Props.vandq_s16_spec a b)
  | vandq_s32 a b =>
    exact called_of (by kernel_rfl) (Props.vandq_s32_source a b) (Props.vandq_s32_spec a b)
  | vandq_s64 a b =>
    exact called_of (by kernel_rfl) (Props.vandq_s64_source a b) (Props.vandq_s64_spec a b)
  | vandq_u8 a b =>
    exact called_of (by kernel_rfl) (Props.vandq_u8_source a b) (Props.vandq_u8_spec a b)
  | vandq_u16 a b =>
    exact called_of (by kernel_rfl) (Props.vandq_u16_source a b) (Props.vandq_u16_spec a b)
  | vandq_u32 a b =>
    exact called_of (by kernel_rfl) (Props.vandq_u32_source a b) (Props.vandq_u32_spec a b)
  | vandq_u64 a b =>
    exact called_of (by kernel_rfl) (Props.vandq_u64_source a b) (Props.vandq_u64_spec a b)
  | vorr_s8 a b =>
    exact called_of (by kernel_rfl) (Props.vorr_s8_source a b) (Props.vorr_s8_spec a b)
  | vorr_s16 a b =>
    exact called_of (by kernel_rfl) (Props.vorr_s16_source a b) (Props.vorr_s16_spec a b)
  | vorr_s32 a b =>
    exact called_of (by kernel_rfl) (Props.vorr_s32_source a b) (Props.vorr_s32_spec a b)
  | vorr_s64 a b =>
    exact called_of (by kernel_rfl) (Props.vorr_s64_source a b) (Props.vorr_s64_spec a b)
  | vorr_u8 a b =>
    exact called_of (by kernel_rfl) (Props.vorr_u8_source a b) (Props.vorr_u8_spec a b)
  | vorr_u16 a b =>
    exact called_of (by kernel_rfl) (Props.vorr_u16_source a b) (Props.vorr_u16_spec a b)
  | vorr_u32 a b =>
    exact called_of (by kernel_rfl) (Props.vorr_u32_source a b) (Props.vorr_u32_spec a b)
  | vorr_u64 a b =>
    exact called_of (by kernel_rfl) (Props.vorr_u64_source a b) (Props.vorr_u64_spec a b)
  | vorrq_s8 a b =>
    exact called_of (by kernel_rfl) (Props.vorrq_s8_source a b) (Props.vorrq_s8_spec a b)
  | vorrq_s16 a b =>
    exact called_of (by kernel_rfl) (Props.vorrq_s16_source a b) (Props.vorrq_s16_spec a b)
  | vorrq_s32 a b =>
    exact called_of (by kernel_rfl) (Props.vorrq_s32_source a b) (Props.vorrq_s32_spec a b)
  | vorrq_s64 a b =>
    exact called_of (by kernel_rfl) (Props.vorrq_s64_source a b) (Props.vorrq_s64_spec a b)
  | vorrq_u8 a b =>
    exact called_of (by kernel_rfl) (Props.vorrq_u8_source a b) (Props.vorrq_u8_spec a b)
  | vorrq_u16 a b =>
    exact called_of (by kernel_rfl) (Props.vorrq_u16_source a b) (Props.vorrq_u16_spec a b)
  | vorrq_u32 a b =>
    exact called_of (by kernel_rfl) (Props.vorrq_u32_source a b) (Props.vorrq_u32_spec a b)
  | vorrq_u64 a b =>
    exact called_of (by kernel_rfl) (Props.vorrq_u64_source a b) (Props.vorrq_u64_spec a b)
  | veor_s8 a b =>
    exact called_of (by kernel_rfl) (Props.veor_s8_source a b) (Props.veor_s8_spec a b)
  | veor_s16 a b =>
    exact called_of (by kernel_rfl) (Props.veor_s16_source a b) (Props.veor_s16_spec a b)
  | veor_s32 a b =>
    exact called_of (by kernel_rfl) (Props.veor_s32_source a b) (Props.veor_s32_spec a b)
  | veor_s64 a b =>
    exact called_of (by kernel_rfl) (Props.veor_s64_source a b) (Props.veor_s64_spec a b)
  | veor_u8 a b =>
    exact called_of (by kernel_rfl) (Props.veor_u8_source a b) (Props.veor_u8_spec a b)
  | veor_u16 a b =>
    exact called_of (by kernel_rfl) (Props.veor_u16_source a b) (Props.veor_u16_spec a b)
  | ver_u32 a b =>
    exact called_of (by kernel_rfl) (Props.ver_u32_source a b) (Props.ver_u32_spec a b)
  | veor_u64 a b =>
    exact called_of (by kernel_rfl) (Props.veor_u64_source a b) (Props.veor_u64_spec a b)
  | veorq_s8 a b =>
    exact called_of (by kernel_rfl) (Props.veorq_s8_source a b) (Props.veorq_s8_spec a b)
  | veorq_s16 a b =>
    exact called_of (by kernel_rfl) (Props.veorq_s16_source a b) (Props.veorq_s16_spec a b)
  | veorq_s32 a b =>
    exact called_of (by kernel_rfl) (Props.veorq_s32_source a b) (Props.veorq_s32_spec a b)
  | veorq_s64 a b =>
    exact called_of (by kernel_rfl) (Props.veorq_s64_source a b) (Props.veorq_s64_spec a b)
  | veorq_u8 a b =>
    exact called_of (by kernel_rfl) (Props.veorq_u8_source a b) (Props.veorq_u8_spec a b)
  | veorq_u16 a b =>
    exact called_of (by kernel_rfl) (Props.veorq_u16_source a b) (Props.veorq_u16_spec a b)
  | veorq_u32 a b =>
    exact called_of (by kernel_rfl) (Props.veorq_u32_source a b) (Props.veorq_u32_spec a b)
  | veorq_u64 a b =>
    exact called_of (by kernel_rfl) (Props.veorq_u64_source a b) (Props.veorq_u64_spec a b)
  | vmvn_s8 a =>
    exact called_of (by kernel_rfl) (Props.vmvn_s8_source a) (Props.vmvn_s8_spec a)
  | vmvn_s16 a =>
    exact called_of (by kernel_rfl) (Props.vmvn_s16_source a) (Props.vmvn_s16_spec a)
  | vmvn_s32 a =>
    exact called_of (by kernel_rfl) (Props.vmvn_s32_source a) (Props.vmvn_s32_spec a)
  | vmvn_u8 a =>
    exact called_of (by kernel_rfl) (Props.vmvn_u8_source a) (Props.vmvn_u8_spec a)
  | vmvn_u16 a =>
    exact called_of (by kernel_rfl) (Props.vmvn_u16_source a) (Props.vmvn_u16_spec a)
  | vmvn_u32 a =>
    exact called_of (by kernel_rfl) (Props.vmvn_u32_source a) (Props.vmvn_u32_spec a)
  | vmvnq_s8 a =>
    exact called_of (by kernel_rfl) (Props.vmvnq_s8_source a) (Props.vmvnq_s8_spec a)
  | vmvnq_s16 a =>
    exact called_of (by kernel_rfl) (Props.vmvnq_s16_source a) (Props.vmvnq_s16_spec a)
  | vmvnq_s32 a =>
    exact called_of (by kernel_rfl) (Props.vmvnq_s32_source a) (Props.vmvnq_s32_spec a)
  | vmvnq_u8 a =>
    exact called_of (by kernel_rfl) (Props.vmvnq_u8_source a) (Props.vmvnq_u8_spec a)
  | vmvnq_u16 a =>
    exact called_of (by kernel_rfl) (Props.vmvnq_u16_source a) (Props.vmvnq_u16_spec a)
  | vmvnq_u32 a =>
    exact called_of (by kernel_rfl) (Props.vmvnq_u32_source a) (Props.vmvnq_u32_spec a)
  | vcgtq_u8 N M =>
    exact called_of (by kernel_rfl) (Props.vcgtq_u8_source N M) (Props.vcgtq_u8_spec N M)
  | vbslq_u8 mask src1 src2 =>
    exact called_of (by kernel_rfl) (Props.vbslq_u8_source mask src1 src2) (Props.vbslq_u8_spec mask src1 src2)
  | vtbl1_u8 a idx =>
    exact called_of (by kernel_rfl) (Props.vtbl1_u8_source a idx) (Props.vtbl1_u8_spec a idx)
  | vtbl2_u8 a idx =>
    exact called_of (by kernel_rfl) (Props.vtbl2_u8_source a idx) (Props.vtbl2_u8_spec a idx)
  | vtbl4_u8 a idx =>
    exact called_of (by kernel_rfl) (Props.vtbl4_u8_source a idx) (Props.vtbl4_u8_spec a idx)

end Verif.Arm
