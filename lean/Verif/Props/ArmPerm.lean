import Verif.ArmLemmas
import Verif.Props.Move
import Verif.Props.Perm

/-! # The texts have the meaning of the intrinsics: permutations and table lookups (generated by `tools/gen_arm.py`) -/

namespace Verif.Arm
open Verif.Cpp Verif.Spec Verif.Props

theorem Perm_called [Dialect] {f : Nat} {args : List Obj} {r : Obj} (h : Perm f args r) :
    Called f args (.ok r) := by
  cases h with
  | vcombine_u8 low high =>
    exact called_of (by kernel_rfl) (Props.vcombine_u8_source low high) (Props.vcombine_u8_spec low high)
  | vcombine_u16 low high =>
    exact called_of (by kernel_rfl) (Props.vcombine_u16_source low high) (Props.vcombine_u16_spec low high)
  | vcombine_u32 low high =>
    exact called_of (by kernel_rfl) (Props.vcombine_u32_source low high) (Props.vcombine_u32_spec low high)
  | vcombine_s8 low high =>
    exact called_of (by kernel_rfl) (Props.vcombine_s8_source low high) (Props.vcombine_s8_spec low high)
  | vcombine_s16 low high =>
    exact called_of (by kernel_rfl) (Props.vcombine_s16_source low high) (Props.vcombine_s16_spec low high)
  | vcombine_s32 low high =>
    exact called_of (by kernel_rfl) (Props.vcombine_s32_source low high) (Props.vcombine_s32_spec low high)
  | vmovn_s32 a =>
    exact called_of (by kernel_rfl) (Props.vmovn_s32_source a) (Props.vmovn_s32_spec a)
  | vmovn_u32 a =>
    exact called_of (by kernel_rfl) (Props.vmovn_u32_source a) (Props.vmovn_u32_spec a)
  | vmovn_u16 a =>
    exact called_of (by kernel_rfl) (Props.vmovn_u16_source a) (Props.vmovn_u16_spec a)
  | vmovl_u8 a =>
    exact called_of (by kernel_rfl) (Props.vmovl_u8_source a) (Props.vmovl_u8_spec a)
  | vmovl_u16 a =>
    exact called_of (by kernel_rfl) (Props.vmovl_u16_source a) (Props.vmovl_u16_spec a)
  | vmovl_u32 a =>
    exact called_of (by kernel_rfl) (Props.vmovl_u32_source a) (Props.vmovl_u32_spec a)
  | vmovl_s8 a =>
    exact called_of (by kernel_rfl) (Props.vmovl_s8_source a) (Props.vmovl_s8_spec a)
  | vmovl_s16 a =>
    exact called_of (by kernel_rfl) (Props.vmovl_s16_source a) (Props.vmovl_s16_spec a)
  | vmovl_s32 a =>
    exact called_of (by kernel_rfl) (Props.vmovl_s32_source a) (Props.vmovl_s32_spec a)
  | vqmovn_u16 a =>
    exact called_of (by kernel_rfl) (Props.vqmovn_u16_source a) (Props.vqmovn_u16_spec a)
  | vqmovun_s16 a =>
    exact called_of (by kernel_rfl) (Props.vqmovun_s16_source a) (Props.vqmovun_s16_spec a)
  | vtrn_s8 a b =>
    exact called_of (by kernel_rfl) (Props.vtrn_s8_source a b) (Props.vtrn_s8_spec a b)
  | vtrn_u8 a b =>
    exact called_of (by kernel_rfl) (Props.vtrn_u8_source a b) (Props.vtrn_u8_spec a b)
  | vtrn_s16 a b =>
    exact called_of (by kernel_rfl) (Props.vtrn_s16_source a b) (Props.vtrn_s16_spec a b)
  | vtrn_u16 a b =>
    exact called_of (by kernel_rfl) (Props.vtrn_u16_source a b) (Props.vtrn_u16_spec a b)
  | vtrn_s32 a b =>
    exact called_of (by kernel_rfl) (Props.vtrn_s32_source a b) (Props.vtrn_s32_spec a b)
  | vtrn_u32 a b =>
    exact called_of (by kernel_rfl) (Props.vtrn_u32_source a b) (Props.vtrn_u32_spec a b)
  | vtrnq_u16 a b =>
    exact called_of (by kernel_rfl) (Props.vtrnq_u16_source a b) (Props.vtrnq_u16_spec a b)
  | vtrnq_u32 a b =>
    exact called_of (by kernel_rfl) (Props.vtrnq_u32_source a b) (Props.vtrnq_u32_spec a b)
  | vtrnq_s16 a b =>
    exact called_of (by kernel_rfl) (Props.vtrnq_s16_source a b) (Props.vtrnq_s16_spec a b)
  | vzip_s16 a b =>
    exact called_of (by kernel_rfl) (Props.vzip_s16_source a b) (Props.vzip_s16_spec a b)
  | vext_u8 a b n hn =>
    exact called_of (by kernel_rfl) (Props.vext_u8_source a b n (by omega)) (Props.vext_u8_spec a b n hn)
  | vext_u16 a b n hn =>
    exact called_of (by kernel_rfl) (Props.vext_u16_source a b n (by omega)) (Props.vext_u16_spec a b n hn)
  | vext_s16 a b n hn =>
    exact called_of (by kernel_rfl) (Props.vext_s16_source a b n (by omega)) (Props.vext_s16_spec a b n hn)
  | vextq_u16 a b n hn =>
    exact called_of (by kernel_rfl) (Props.vextq_u16_source a b n (by omega)) (Props.vextq_u16_spec a b n hn)

end Verif.Arm
