import Verif.ArmLemmas
import Verif.Props.AddSub
import Verif.Props.MaxMin
import Verif.Props.Mul
import Verif.Props.NarrowHigh
import Verif.Props.Saturate
import Verif.Props.Widen

/-! # The texts have the meaning of the intrinsics: additions (generated by `tools/gen_arm.py`) -/

namespace Verif.Arm
open Verif.Cpp Verif.Spec Verif.Props

theorem Add_called [Dialect] {f : Nat} {args : List Obj} {r : Obj} (h : Add f args r) :
    Called f args (.ok r) := by
  cases h with
  | vadd_s8 N M =>
    exact called_of (by kernel_rfl) (Props.vadd_s8_source N M) (Props.vadd_s8_spec N M)
  | vadd_s16 N M =>
    exact called_of (by kernel_rfl) (Props.vadd_s16_source N M) (Props.vadd_s16_spec N M)
  | vadd_s32 N M hg =>
    exact called_of (by kernel_rfl) (Props.vadd_s32_source N M) ((Props.vadd_s32_partial N M).trans (if_pos hg))
  | vadd_s64 N M hg =>
    exact called_of (by kernel_rfl) (Props.vadd_s64_source N M) ((Props.vadd_s64_partial N M).trans (if_pos hg))
  | vadd_u8 N M =>
    exact called_of (by kernel_rfl) (Props.vadd_u8_source N M) (Props.vadd_u8_spec N M)
  | vadd_u16 N M =>
    exact called_of (by kernel_rfl) (Props.vadd_u16_source N M) (Props.vadd_u16_spec N M)
  | vadd_u32 N M =>
    exact called_of (by kernel_rfl) (Props.vadd_u32_source N M) (Props.vadd_u32_spec N M)
  | vadd_u64 N M =>
    exact called_of (by kernel_rfl) (Props.vadd_u64_source N M) (Props.vadd_u64_spec N M)
  | vaddq_s8 N M =>
    exact called_of (by kernel_rfl) (Props.vaddq_s8_source N M) (Props.vaddq_s8_spec N M)
  | vaddq_s16 N M =>
    exact called_of (by kernel_rfl) (Props.vaddq_s16_source N M) (Props.vaddq_s16_spec N M)
  | vaddq_s32 N M hg =>
    exact called_of (by kernel_rfl) (Props.vaddq_s32_source N M) ((Props.vaddq_s32_partial N M).trans (if_pos hg))
  | vaddq_s64 N M hg =>
    exact called_of (by kernel_rfl) (Props.vaddq_s64_source N M) ((Props.vaddq_s64_partial N M).trans (if_pos hg))
  | vaddq_u8 N M =>
    exact called_of (by kernel_rfl) (Props.vaddq_u8_source N M) (Props.vaddq_u8_spec N M)
  | vaddq_u16 N M =>
    exact called_of (by kernel_rfl) (Props.vaddq_u16_source N M) (Props.vaddq_u16_spec N M)
  | vaddq_u32 N M =>
    exact called_of (by kernel_rfl) (Props.vaddq_u32_source N M) (Props.vaddq_u32_spec N M)
  | vaddq_u64 N M =>
    exact called_of (by kernel_rfl) (Props.vaddq_u64_source N M) (Props.vaddq_u64_spec N M)
  | vmaxq_s8 N M =>
    exact called_of (by kernel_rfl) (Props.vmaxq_s8_source N M) (Props.vmaxq_s8_spec N M)
  | vmaxq_s16 N M =>
    exact called_of (by kernel_rfl) (Props.vmaxq_s16_source N M) (Props.vmaxq_s16_spec N M)
  | vmaxq_s32 N M =>
    exact called_of (by kernel_rfl) (Props.vmaxq_s32_source N M) (Props.vmaxq_s32_spec N M)
  | vpaddl_u8 a =>
    exact called_of (by kernel_rfl) (Props.vpaddl_u8_source a) (Props.vpaddl_u8_spec a)
  | vpaddlq_u8 a =>
    exact called_of (by kernel_rfl) (Props.vpaddlq_u8_source a) (Props.vpaddlq_u8_spec a)
  | vpaddlq_u16 a =>
    exact called_of (by kernel_rfl) (Props.vpaddlq_u16_source a) (Props.vpaddlq_u16_spec a)
  | vaddhn_high_s16 r a b =>
    exact called_of (by kernel_rfl) (Props.vaddhn_high_s16_source r a b) (Props.vaddhn_high_s16_spec r a b)
  | vaddhn_high_u16 r a b =>
    exact called_of (by kernel_rfl) (Props.vaddhn_high_u16_source r a b) (Props.vaddhn_high_u16_spec r a b)
  | vqadd_u8 a b =>
    exact called_of (by kernel_rfl) (Props.vqadd_u8_source a b) (Props.vqadd_u8_spec a b)
  | vqaddq_u8 N M =>
    exact called_of (by kernel_rfl) (Props.vqaddq_u8_source N M) (Props.vqaddq_u8_spec N M)
  | vaddl_u8 a b =>
    exact called_of (by kernel_rfl) (Props.vaddl_u8_source a b) (Props.vaddl_u8_spec a b)
  | vaddw_s8 a b =>
    exact called_of (by kernel_rfl) (Props.vaddw_s8_source a b) (Props.vaddw_s8_spec a b)
  | vaddw_s16 a b hg =>
    exact called_of (by kernel_rfl) (Props.vaddw_s16_source a b) ((Props.vaddw_s16_partial a b).trans (if_pos hg))
  | vaddw_s32 a b hg =>
    exact called_of (by kernel_rfl) (Props.vaddw_s32_source a b) ((Props.vaddw_s32_partial a b).trans (if_pos hg))
  | vaddw_u8 a b =>
    exact called_of (by kernel_rfl) (Props.vaddw_u8_source a b) (Props.vaddw_u8_spec a b)
  | vaddw_u16 a b =>
    exact called_of (by kernel_rfl) (Props.vaddw_u16_source a b) (Props.vaddw_u16_spec a b)
  | vaddw_u32 a b =>
    exact called_of (by kernel_rfl) (Props.vaddw_u32_source a b) (Props.vaddw_u32_spec a b)
  | vaddw_high_s8 a b =>
    exact called_of (by kernel_rfl) (Props.vaddw_high_s8_source a b) (Props.vaddw_high_s8_spec a b)
  | vaddw_high_s16 a b hg =>
    exact called_of (by kernel_rfl) (Props.vaddw_high_s16_source a b) ((Props.vaddw_high_s16_partial a b).trans (if_pos hg))
  | vaddw_high_s32 a b hg =>
    exact called_of (by kernel_rfl) (Props.vaddw_high_s32_source a b) ((Props.vaddw_high_s32_partial a b).trans (if_pos hg))
  | vaddw_high_u8 a b =>
    exact called_of (by kernel_rfl) (Props.vaddw_high_u8_source a b) (Props.vaddw_high_u8_spec a b)
  | vaddw_high_u16 a b =>
    exact called_of (by kernel_rfl) (Props.vaddw_high_u16_source a b) (Props.vaddw_high_u16_spec a b)
  | vaddw_high_u32 a b =>
    exact called_of (by kernel_rfl) (Props.vaddw_high_u32_source a b) (Props.vaddw_high_u32_spec a b)
  | vaddl_high_s8 a b =>
    exact called_of (by kernel_rfl) (Props.vaddl_high_s8_source a b) (Props.vaddl_high_s8_spec a b)
  | vaddl_high_s16 a b =>
    exact called_of (by kernel_rfl) (Props.vaddl_high_s16_source a b) (Props.vaddl_high_s16_spec a b)
  | vaddl_high_u8 a b =>
    exact called_of (by kernel_rfl) (Props.vaddl_high_u8_source a b) (Props.vaddl_high_u8_spec a b)
  | vaddl_high_u16 a b =>
    exact called_of (by kernel_rfl) (Props.vaddl_high_u16_source a b) (Props.vaddl_high_u16_spec a b)

end Verif.Arm
