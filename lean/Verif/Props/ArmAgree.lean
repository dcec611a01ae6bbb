import Verif.ArmLemmas
import Verif.Props.Agree
import Verif.Props.AgreeFloat
import Verif.Props.AgreeQSub

/-! # The texts have the meaning of the intrinsics: operations that the simulator gets right for some operands only, at exactly those operands (generated by `tools/gen_arm.py`) -/

namespace Verif.Arm
open Verif.Cpp Verif.Spec Verif.Props

theorem Agree_called [Dialect] {f : Nat} {args : List Obj} {r : Obj} (h : Agree f args r) :
    Called f args (.ok r) := by
  cases h with
  | vbslq_f32 mask a b hg =>
    exact called_of (by kernel_rfl) (Props.vbslq_f32_source mask a b) ((Props.vbslq_f32_right_iff mask a b).2 hg)
  | vmaxq_u8 N M hg =>
    exact called_of (by kernel_rfl) (Props.vmaxq_u8_source N M) ((Props.vmaxq_u8_right_iff N M).2 hg)
  | vmaxq_u16 N M hg =>
    exact called_of (by kernel_rfl) (Props.vmaxq_u16_source N M) ((Props.vmaxq_u16_right_iff N M).2 hg)
  | vmaxq_u32 N M hg =>
    exact called_of (by kernel_rfl) (Props.vmaxq_u32_source N M) ((Props.vmaxq_u32_right_iff N M).2 hg)
  | vminq_u8 N M hg =>
    exact called_of (by kernel_rfl) (Props.vminq_u8_source N M) ((Props.vminq_u8_right_iff N M).2 hg)
  | vminq_u16 N M hg =>
    exact called_of (by kernel_rfl) (Props.vminq_u16_source N M) ((Props.vminq_u16_right_iff N M).2 hg)
  | vminq_u32 N M hg =>
    exact called_of (by kernel_rfl) (Props.vminq_u32_source N M) ((Props.vminq_u32_right_iff N M).2 hg)
  | vmull_s32 a b hg =>
    exact called_of (by kernel_rfl) (Props.vmull_s32_source a b) ((Props.vmull_s32_right_iff a b).2 hg)
  | vmull_u32 a b hg =>
    exact called_of (by kernel_rfl) (Props.vmull_u32_source a b) ((Props.vmull_u32_right_iff a b).2 hg)
  | vmull_n_s32 N M hg =>
    exact called_of (by kernel_rfl) (Props.vmull_n_s32_source N M) ((Props.vmull_n_s32_right_iff N M).2 hg)
  | vmull_n_u32 N M hg =>
    exact called_of (by kernel_rfl) (Props.vmull_n_u32_source N M) ((Props.vmull_n_u32_right_iff N M).2 hg)
  | vmlal_s32 N M P hg =>
    exact called_of (by kernel_rfl) (Props.vmlal_s32_source N M P) ((Props.vmlal_s32_right_iff N M P).2 hg)
  | vmlal_u32 N M P hg =>
    exact called_of (by kernel_rfl) (Props.vmlal_u32_source N M P) ((Props.vmlal_u32_right_iff N M P).2 hg)
  | vmlsl_s32 N M P hg =>
    exact called_of (by kernel_rfl) (Props.vmlsl_s32_source N M P) ((Props.vmlsl_s32_right_iff N M P).2 hg)
  | vmlsl_u32 N M P hg =>
    exact called_of (by kernel_rfl) (Props.vmlsl_u32_source N M P) ((Props.vmlsl_u32_right_iff N M P).2 hg)
  | vaddhn_high_s32 r a b hg =>
    exact called_of (by kernel_rfl) (Props.vaddhn_high_s32_source r a b) ((Props.vaddhn_high_s32_right_iff r a b).2 hg)
  | vaddhn_high_s64 r a b hg =>
    exact called_of (by kernel_rfl) (Props.vaddhn_high_s64_source r a b) ((Props.vaddhn_high_s64_right_iff r a b).2 hg)
  | vaddhn_high_u32 r a b hg =>
    exact called_of (by kernel_rfl) (Props.vaddhn_high_u32_source r a b) ((Props.vaddhn_high_u32_right_iff r a b).2 hg)
  | vaddhn_high_u64 r a b hg =>
    exact called_of (by kernel_rfl) (Props.vaddhn_high_u64_source r a b) ((Props.vaddhn_high_u64_right_iff r a b).2 hg)
  | vsubn_s32 N M hg =>
    exact called_of (by kernel_rfl) (Props.vsubn_s32_source N M) ((Props.vsubn_s32_right_iff N M).2 hg)
  | vsubn_s64 N M hg =>
    exact called_of (by kernel_rfl) (Props.vsubn_s64_source N M) ((Props.vsubn_s64_right_iff N M).2 hg)
  | vsubn_u32 N M hg =>
    exact called_of (by kernel_rfl) (Props.vsubn_u32_source N M) ((Props.vsubn_u32_right_iff N M).2 hg)
  | vsubn_u64 N M hg =>
    exact called_of (by kernel_rfl) (Props.vsubn_u64_source N M) ((Props.vsubn_u64_right_iff N M).2 hg)
  | vhsub_s32 N M hg =>
    exact called_of (by kernel_rfl) (Props.vhsub_s32_source N M) ((Props.vhsub_s32_right_iff N M).2 hg)
  | vhsub_u32 N M hg =>
    exact called_of (by kernel_rfl) (Props.vhsub_u32_source N M) ((Props.vhsub_u32_right_iff N M).2 hg)
  | vhsubq_s32 N M hg =>
    exact called_of (by kernel_rfl) (Props.vhsubq_s32_source N M) ((Props.vhsubq_s32_right_iff N M).2 hg)
  | vhsubq_u32 N M hg =>
    exact called_of (by kernel_rfl) (Props.vhsubq_u32_source N M) ((Props.vhsubq_u32_right_iff N M).2 hg)
  | vqsub_s64 N M hg =>
    exact called_of (by kernel_rfl) (Props.vqsub_s64_source N M) ((Props.vqsub_s64_right_iff N M).2 hg)
  | vqsubq_s64 N M hg =>
    exact called_of (by kernel_rfl) (Props.vqsubq_s64_source N M) ((Props.vqsubq_s64_right_iff N M).2 hg)
  | vqsub_u64 N M hg =>
    exact called_of (by kernel_rfl) (Props.vqsub_u64_source N M) ((Props.vqsub_u64_right_iff N M).2 hg)
  | vqsubq_u64 N M hg =>
    exact called_of (by kernel_rfl) (Props.vqsubq_u64_source N M) ((Props.vqsubq_u64_right_iff N M).2 hg)
  | vqtbl1_u8 t idx hg =>
    exact called_of (by kernel_rfl) (Props.vqtbl1_u8_source t idx) ((Props.vqtbl1_u8_right_iff t idx).2 hg)
  | vshr_n_u16 v n h1 h2 hg =>
    exact called_of (by kernel_rfl) (Props.vshr_n_u16_source v n (by omega)) ((Props.vshr_n_u16_right_iff v n h1 h2).2 hg)
  | vqshrn_n_s64 a n h1 h2 hg =>
    exact called_of (by kernel_rfl) (Props.vqshrn_n_s64_source a n (by omega)) ((Props.vqshrn_n_s64_right_iff a n h1 h2).2 hg)
  | vsraq_n_s32 a b n h1 h2 hg =>
    exact called_of (by kernel_rfl) (Props.vsraq_n_s32_source a b n (by omega)) ((Props.vsraq_n_s32_right_iff a b n h1 h2).2 hg)
  | vaddl_high_s32 a b hg =>
    exact called_of (by kernel_rfl) (Props.vaddl_high_s32_source a b) ((Props.vaddl_high_s32_right_iff a b).2 hg)
  | vaddl_high_u32 a b hg =>
    exact called_of (by kernel_rfl) (Props.vaddl_high_u32_source a b) ((Props.vaddl_high_u32_right_iff a b).2 hg)
  | vst4_u8 ptr val p' hg h =>
    obtain ⟨r, hr, hp⟩ := (Props.vst4_u8_right_iff ptr val).2 hg
    cases stored_unique h hp
    exact called_of (by kernel_rfl) (Props.vst4_u8_source ptr val) hr
  | vst4_u32 ptr val p' hg h =>
    obtain ⟨r, hr, hp⟩ := (Props.vst4_u32_right_iff ptr val).2 hg
    cases stored_unique h hp
    exact called_of (by kernel_rfl) (Props.vst4_u32_source ptr val) hr

end Verif.Arm
