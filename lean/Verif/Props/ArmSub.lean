import Verif.ArmLemmas
import Verif.Props.AddSub
import Verif.Props.NarrowHigh
import Verif.Props.Saturate
import Verif.Props.Widen

/-! # The texts have the meaning of the intrinsics: subtractions (generated by `tools/gen_arm.py`) -/

namespace Verif.Arm
open Verif.Cpp Verif.Spec Verif.Props

theorem Sub_called [Dialect] {f : Nat} {args : List Obj} {r : Obj} (h : Sub f args r) :
    Called f args (.ok r) := by
  cases h with
  | vsub_s8 N M =>
    exact called_of (by kernel_rfl) (Props.vsub_s8_source N M) (Props.vsub_s8_spec N M)
  | vsub_s16 N M =>
    exact called_of (by kernel_rfl) (Props.vsub_s16_source N M) (Props.vsub_s16_spec N M)
  | vsub_s32 N M hg =>
    exact called_of (by kernel_rfl) (Props.vsub_s32_source N M) ((Props.vsub_s32_partial N M).trans (if_pos hg))
  | vsub_s64 N M hg =>
    exact called_of (by kernel_rfl) (Props.vsub_s64_source N M) ((Props.vsub_s64_partial N M).trans (if_pos hg))
  | vsub_u8 N M =>
    exact called_of (by kernel_rfl) (Props.vsub_u8_source N M) (Props.vsub_u8_spec N M)
  | vsub_u16 N M =>
    exact called_of (by kernel_rfl) (Props.vsub_u16_source N M) (Props.vsub_u16_spec N M)
  | vsub_u32 N M =>
    exact called_of (by kernel_rfl) (Props.vsub_u32_source N M) (Props.vsub_u32_spec N M)
  | vsub_u64 N M =>
    exact called_of (by kernel_rfl) (Props.vsub_u64_source N M) (Props.vsub_u64_spec N M)
  | vsubq_s8 N M =>
    exact called_of (by kernel_rfl) (Props.vsubq_s8_source N M) (Props.vsubq_s8_spec N M)
  | vsubq_s16 N M =>
    exact called_of (by kernel_rfl) (Props.vsubq_s16_source N M) (Props.vsubq_s16_spec N M)
  | vsubq_s32 N M hg =>
    exact called_of (by kernel_rfl) (Props.vsubq_s32_source N M) ((Props.vsubq_s32_partial N M).trans (if_pos hg))
  | vsubq_s64 N M hg =>
    exact called_of (by kernel_rfl) (Props.vsubq_s64_source N M) ((Props.vsubq_s64_partial N M).trans (if_pos hg))
  | vsubq_u8 N M =>
    exact called_of (by kernel_rfl) (Props.vsubq_u8_source N M) (Props.vsubq_u8_spec N M)
  | vsubq_u16 N M =>
    exact called_of (by kernel_rfl) (Props.vsubq_u16_source N M) (Props.vsubq_u16_spec N M)
  | vsubq_u32 N M =>
    exact called_of (by kernel_rfl) (Props.vsubq_u32_source N M) (Props.vsubq_u32_spec N M)
  | vsubq_u64 N M =>
    exact called_of (by kernel_rfl) (Props.vsubq_u64_source N M) (Props.vsubq_u64_spec N M)
  | vsubhn_s16 N M =>
    exact called_of (by kernel_rfl) (Props.vsubhn_s16_source N M) (Props.vsubhn_s16_spec N M)
  | vsubhn_u16 N M =>
    exact called_of (by kernel_rfl) (Props.vsubhn_u16_source N M) (Props.vsubhn_u16_spec N M)
  | vrsubhn_s16 N M =>
    exact called_of (by kernel_rfl) (Props.vrsubhn_s16_source N M) (Props.vrsubhn_s16_spec N M)
  | vrsubhn_s32 N M hg =>
    exact called_of (by kernel_rfl) (Props.vrsubhn_s32_source N M) ((Props.vrsubhn_s32_partial N M).trans (if_pos hg))
  | vrsubhn_u16 N M =>
    exact called_of (by kernel_rfl) (Props.vrsubhn_u16_source N M) (Props.vrsubhn_u16_spec N M)
  | vrsubhn_u32 N M =>
    exact called_of (by kernel_rfl) (Props.vrsubhn_u32_source N M) (Props.vrsubhn_u32_spec N M)
  | vhsub_s8 N M =>
    exact called_of (by kernel_rfl) (Props.vhsub_s8_source N M) (Props.vhsub_s8_spec N M)
  | vhsub_s16 N M =>
    exact called_of (by kernel_rfl) (Props.vhsub_s16_source N M) (Props.vhsub_s16_spec N M)
  | vhsub_u8 N M =>
    exact called_of (by kernel_rfl) (Props.vhsub_u8_source N M) (Props.vhsub_u8_spec N M)
  | vhsub_u16 N M =>
    exact called_of (by kernel_rfl) (Props.vhsub_u16_source N M) (Props.vhsub_u16_spec N M)
  | vhsubq_s8 N M =>
    exact called_of (by kernel_rfl) (Props.vhsubq_s8_source N M) (Props.vhsubq_s8_spec N M)
  | vhsubq_s16 N M =>
    exact called_of (by kernel_rfl) (Props.vhsubq_s16_source N M) (Props.vhsubq_s16_spec N M)
  | vhsubq_u8 N M =>
    exact called_of (by kernel_rfl) (Props.vhsubq_u8_source N M) (Props.vhsubq_u8_spec N M)
  | vhsubq_u16 N M =>
    exact called_of (by kernel_rfl) (Props.vhsubq_u16_source N M) (Props.vhsubq_u16_spec N M)
  | vqsub_s8 N M =>
    exact called_of (by kernel_rfl) (Props.vqsub_s8_source N M) (Props.vqsub_s8_spec N M)
  | vqsub_s16 N M =>
    exact called_of (by kernel_rfl) (Props.vqsub_s16_source N M) (Props.vqsub_s16_spec N M)
  | vqsub_s32 N M =>
    exact called_of (by kernel_rfl) (Props.vqsub_s32_source N M) (Props.vqsub_s32_spec N M)
  | vqsub_u8 N M =>
    exact called_of (by kernel_rfl) (Props.vqsub_u8_source N M) (Props.vqsub_u8_spec N M)
  | vqsub_u16 N M =>
    exact called_of (by kernel_rfl) (Props.vqsub_u16_source N M) (Props.vqsub_u16_spec N M)
  | vqsub_u32 N M =>
    exact called_of (by kernel_rfl) (Props.vqsub_u32_source N M) (Props.vqsub_u32_spec N M)
  | vqsubq_s8 N M =>
    exact called_of (by kernel_rfl) (Props.vqsubq_s8_source N M) (Props.vqsubq_s8_spec N M)
  | vqsubq_s16 N M =>
    exact called_of (by kernel_rfl) (Props.vqsubq_s16_source N M) (Props.vqsubq_s16_spec N M)
  | vqsubq_s32 N M =>
    exact called_of (by kernel_rfl) (Props.vqsubq_s32_source N M) (Props.vqsubq_s32_spec N M)
  | vqsubq_u8 N M =>
    exact called_of (by kernel_rfl) (Props.vqsubq_u8_source N M) (Props.vqsubq_u8_spec N M)
  | vqsubq_u16 N M =>
    exact called_of (by kernel_rfl) (Props.vqsubq_u16_source N M) (Props.vqsubq_u16_spec N M)
  | vqsubq_u32 N M =>
    exact called_of (by kernel_rfl) (Props.vqsubq_u32_source N M) (Props.vqsubq_u32_spec N M)
  | vsubl_s8 N M =>
    exact called_of (by kernel_rfl) (Props.vsubl_s8_source N M) (Props.vsubl_s8_spec N M)
  | vsubl_s16 N M =>
    exact called_of (by kernel_rfl) (Props.vsubl_s16_source N M) (Props.vsubl_s16_spec N M)
  | vsubl_s32 N M =>
    exact called_of (by kernel_rfl) (Props.vsubl_s32_source N M) (Props.vsubl_s32_spec N M)
  | vsubl_u8 N M =>
    exact called_of (by kernel_rfl) (Props.vsubl_u8_source N M) (Props.vsubl_u8_spec N M)
  | vsubl_u16 N M =>
    exact called_of (by kernel_rfl) (Props.vsubl_u16_source N M) (Props.vsubl_u16_spec N M)
  | vsubl_u32 N M =>
    exact called_of (by kernel_rfl) (Props.vsubl_u32_source N M) (Props.vsubl_u32_spec N M)
  | vsubw_s8 N M =>
    exact called_of (by kernel_rfl) (Props.vsubw_s8_source N M) (Props.vsubw_s8_spec N M)
  | vsubw_s16 N M hg =>
    exact called_of (by kernel_rfl) (Props.vsubw_s16_source N M) ((Props.vsubw_s16_partial N M).trans (if_pos hg))
  | vsubw_s32 N M hg =>
    exact called_of (by kernel_rfl) (Props.vsubw_s32_source N M) ((Props.vsubw_s32_partial N M).trans (if_pos hg))
  | vsubw_u8 N M =>
    exact called_of (by kernel_rfl) (Props.vsubw_u8_source N M) (Props.vsubw_u8_spec N M)
  | vsubw_u16 N M =>
    exact called_of (by kernel_rfl) (Props.vsubw_u16_source N M) (Props.vsubw_u16_spec N M)
  | vsubw_u32 N M =>
    exact called_of (by kernel_rfl) (Props.vsubw_u32_source N M) (Props.vsubw_u32_spec N M)

end Verif.Arm
