import Verif.Fill
import Verif.Model.Add
import Verif.Model.Sub
/-! # Add/subtract and narrow, halving subtraction (C15, C16, C17, C18)

Generated by `tools/gen_props.py`. -/

set_option linter.unusedSimpArgs false
set_option linter.unusedVariables false

namespace Verif.Props
open Verif.Model Verif.Spec

/-- `vaddhn_high_s16` keeps the low register; the upper lanes hold the most significant half of the wrapped sum. -/
theorem vaddhn_high_s16_spec [Dialect] (r : int8x8_t) (a b : int16x8_t) :
    vaddhn_high_s16 r a b = .ok ⟨fun i => if h : i.val < 8 then r[i.val] else high 8 (a[i.val - 8] + b[i.val - 8])⟩ := by
  unfold vaddhn_high_s16
  refine (fill_own2_if (fun j => j.val) (fun i => if h : i.val < 8 then r[i.val] else high 8 (a[i.val - 8] + b[i.val - 8])) 8 8 (fun _ => True) .signedOverflow (by rfl) (by rfl) (fun j => j.isLt) ?_ fun k => ?_).trans (if_pos fun _ => trivial)
  · intro k hk
    have er : r.get (0 + (k : Int) * 1) = .ok (.ofBits _ (r.lane ⟨k, hk⟩)) := Vec.get_at r k hk (by omega)
    simp only [er, ok_bind, Arr.set_at _ _ k (show k < 16 by omega) (show 0 + (k : Int) * 1 = k by omega)]
    csim
    bvnorm
    congr 1
    exact Arr.partial_put_val _ _ _ _ rfl (by rw [dif_pos hk]; rfl)
  · rw [if_pos trivial]
    have hb0 := toInt16 (a.lane k)
    have hb1 := toInt16 (b.lane k)
    simp only [Vec.get_fin, ok_bind, Arr.set_at _ _ (k.val + 8) (show k.val + 8 < 16 by omega) (show ((k.val : Nat) : Int) + 8 = ((k.val + 8 : Nat) : Int) by omega)]
    csim
    bvnorm
    congr 1
    refine Arr.partial_put_val _ _ _ _ (by simp only; omega) ?_
    rw [dif_neg (by simp only; omega)]
    have e : k = ⟨k.val + 8 - 8, by omega⟩ := Fin.ext (by simp only; omega)
    rw [e]
    rfl

/-- `vaddhn_high_s32` keeps the low register; the upper lanes hold bits 4..19 of the sum (the architecture: bits 16..31); overflow is undefined in C++11. -/
theorem vaddhn_high_s32_partial [Dialect] (r : int16x4_t) (a b : int32x4_t) :
    vaddhn_high_s32 r a b =
      if ∀ k : Fin 4, NoOverflow 32 ((a.lane k).toInt + (b.lane k).toInt)
      then .ok ⟨fun i => if h : i.val < 4 then r[i.val] else ((a[i.val - 4] + b[i.val - 4]).sshiftRight 4).setWidth 16⟩
      else .ub .signedOverflow := by
  unfold vaddhn_high_s32
  refine fill_own2_if (fun j => j.val) (fun i => if h : i.val < 4 then r[i.val] else ((a[i.val - 4] + b[i.val - 4]).sshiftRight 4).setWidth 16) 4 4 _ _ (by rfl) (by rfl) (fun j => j.isLt) ?_ fun k => ?_
  · intro k hk
    have er : r.get (0 + (k : Int) * 1) = .ok (.ofBits _ (r.lane ⟨k, hk⟩)) := Vec.get_at r k hk (by omega)
    simp only [er, ok_bind, Arr.set_at _ _ k (show k < 8 by omega) (show 0 + (k : Int) * 1 = k by omega)]
    csim
    bvnorm
    congr 1
    exact Arr.partial_put_val _ _ _ _ rfl (by rw [dif_pos hk]; rfl)
  · have hb0 := toInt32 (a.lane k)
    have hb1 := toInt32 (b.lane k)
    simp only [Vec.get_fin, ok_bind, Arr.set_at _ _ (k.val + 4) (show k.val + 4 < 8 by omega) (show ((k.val : Nat) : Int) + 4 = ((k.val + 4 : Nat) : Int) by omega)]
    csim_ub
    simp only [show (((a.lane k).toInt + (b.lane k).toInt).bmod 4294967296 : Int) = (a.lane k + b.lane k).toInt from (int_add_bmod32 _ _).symm,
        show ((a.lane k + b.lane k).toInt / 16 : Int) = _ from toInt_div_pow (a.lane k + b.lane k) 4]
    simp (disch := decide) only [ofInt_bmod, ofInt_emod, ofInt_toInt_trunc _ _ (show 16 ≤ 32 by decide), ofInt_toNat]
    congr 2
    refine Arr.partial_put_val _ _ _ _ (by simp only; omega) ?_
    rw [dif_neg (by simp only; omega)]
    have e : k = ⟨k.val + 4 - 4, by omega⟩ := Fin.ext (by simp only; omega)
    rw [e]
    rfl

/-- With `-fwrapv`, `vaddhn_high_s32` is defined for all operands. -/
theorem vaddhn_high_s32_wrapv [Dialect] (hd : Dialect.wrapv = true) (r : int16x4_t) (a b : int32x4_t) :
    vaddhn_high_s32 r a b = .ok ⟨fun i => if h : i.val < 4 then r[i.val] else ((a[i.val - 4] + b[i.val - 4]).sshiftRight 4).setWidth 16⟩ := by
  rw [vaddhn_high_s32_partial, if_pos]
  intro i
  simp only [NoOverflow, hd, true_or, and_self]
example := @vaddhn_high_s32_wrapv .wrapping rfl (⟨fun i => BitVec.ofNat 16 (4 + i.val)⟩) (⟨fun i => BitVec.ofNat 32 (3 + i.val)⟩) (⟨fun i => BitVec.ofNat 32 (2 + i.val)⟩)

/-- In C++11 `vaddhn_high_s32` is undefined for some operands. -/
theorem vaddhn_high_s32_ub [Dialect] (hd : Dialect.wrapv = false) :
    ∃ (r : int16x4_t) (a b : int32x4_t), vaddhn_high_s32 r a b = .ub .signedOverflow := by
  refine ⟨⟨fun _ => 0#16⟩, ⟨fun _ => 2147483647#32⟩, ⟨fun _ => 1#32⟩, ?_⟩
  rw [vaddhn_high_s32_partial, if_neg]
  intro h
  have := h 0
  revert this
  simp only [NoOverflow, hd]
  decide
example := @vaddhn_high_s32_ub .strict rfl

/-- `vaddhn_high_s32` does not give the most significant half of the sum. -/
theorem vaddhn_high_s32_wrong [Dialect] :
    ¬ ∀ (r : int16x4_t) (a b : int32x4_t), vaddhn_high_s32 r a b = .ok ⟨fun i => if h : i.val < 4 then r[i.val] else high 16 (a[i.val - 4] + b[i.val - 4])⟩ := by
  intro h
  have h := h (⟨fun _ => 0#16⟩) (⟨fun _ => 65536#32⟩) (⟨fun _ => 0#32⟩)
  rw [vaddhn_high_s32_partial] at h
  split at h
  · have h := congrFun (Vec.mk.inj (C.ok.inj h)) 4
    revert h
    decide
  · cases h

/-- `vaddhn_high_s64` keeps the low register; the upper lanes hold bits 2..33 of the sum (the architecture: bits 32..63); overflow is undefined in C++11. -/
theorem vaddhn_high_s64_partial [Dialect] (r : int32x2_t) (a b : int64x2_t) :
    vaddhn_high_s64 r a b =
      if ∀ k : Fin 2, NoOverflow 64 ((a.lane k).toInt + (b.lane k).toInt)
      then .ok ⟨fun i => if h : i.val < 2 then r[i.val] else ((a[i.val - 2] + b[i.val - 2]).sshiftRight 2).setWidth 32⟩
      else .ub .signedOverflow := by
  unfold vaddhn_high_s64
  refine fill_own2_if (fun j => j.val) (fun i => if h : i.val < 2 then r[i.val] else ((a[i.val - 2] + b[i.val - 2]).sshiftRight 2).setWidth 32) 2 2 _ _ (by rfl) (by rfl) (fun j => j.isLt) ?_ fun k => ?_
  · intro k hk
    have er : r.get (0 + (k : Int) * 1) = .ok (.ofBits _ (r.lane ⟨k, hk⟩)) := Vec.get_at r k hk (by omega)
    simp only [er, ok_bind, Arr.set_at _ _ k (show k < 4 by omega) (show 0 + (k : Int) * 1 = k by omega)]
    csim
    bvnorm
    congr 1
    exact Arr.partial_put_val _ _ _ _ rfl (by rw [dif_pos hk]; rfl)
  · have hb0 := toInt64 (a.lane k)
    have hb1 := toInt64 (b.lane k)
    simp only [Vec.get_fin, ok_bind, Arr.set_at _ _ (k.val + 2) (show k.val + 2 < 4 by omega) (show ((k.val : Nat) : Int) + 2 = ((k.val + 2 : Nat) : Int) by omega)]
    csim_ub
    simp only [show (((a.lane k).toInt + (b.lane k).toInt).bmod 18446744073709551616 : Int) = (a.lane k + b.lane k).toInt from (int_add_bmod64 _ _).symm,
        show ((a.lane k + b.lane k).toInt / 4 : Int) = _ from toInt_div_pow (a.lane k + b.lane k) 2]
    simp (disch := decide) only [ofInt_bmod, ofInt_emod, ofInt_toInt_trunc _ _ (show 32 ≤ 64 by decide), ofInt_toNat]
    congr 2
    refine Arr.partial_put_val _ _ _ _ (by simp only; omega) ?_
    rw [dif_neg (by simp only; omega)]
    have e : k = ⟨k.val + 2 - 2, by omega⟩ := Fin.ext (by simp only; omega)
    rw [e]
    rfl

/-- With `-fwrapv`, `vaddhn_high_s64` is defined for all operands. -/
theorem vaddhn_high_s64_wrapv [Dialect] (hd : Dialect.wrapv = true) (r : int32x2_t) (a b : int64x2_t) :
    vaddhn_high_s64 r a b = .ok ⟨fun i => if h : i.val < 2 then r[i.val] else ((a[i.val - 2] + b[i.val - 2]).sshiftRight 2).setWidth 32⟩ := by
  rw [vaddhn_high_s64_partial, if_pos]
  intro i
  simp only [NoOverflow, hd, true_or, and_self]
example := @vaddhn_high_s64_wrapv .wrapping rfl (⟨fun i => BitVec.ofNat 32 (4 + i.val)⟩) (⟨fun i => BitVec.ofNat 64 (3 + i.val)⟩) (⟨fun i => BitVec.ofNat 64 (2 + i.val)⟩)

/-- In C++11 `vaddhn_high_s64` is undefined for some operands. -/
theorem vaddhn_high_s64_ub [Dialect] (hd : Dialect.wrapv = false) :
    ∃ (r : int32x2_t) (a b : int64x2_t), vaddhn_high_s64 r a b = .ub .signedOverflow := by
  refine ⟨⟨fun _ => 0#32⟩, ⟨fun _ => 9223372036854775807#64⟩, ⟨fun _ => 1#64⟩, ?_⟩
  rw [vaddhn_high_s64_partial, if_neg]
  intro h
  have := h 0
  revert this
  simp only [NoOverflow, hd]
  decide
example := @vaddhn_high_s64_ub .strict rfl

/-- `vaddhn_high_s64` does not give the most significant half of the sum. -/
theorem vaddhn_high_s64_wrong [Dialect] :
    ¬ ∀ (r : int32x2_t) (a b : int64x2_t), vaddhn_high_s64 r a b = .ok ⟨fun i => if h : i.val < 2 then r[i.val] else high 32 (a[i.val - 2] + b[i.val - 2])⟩ := by
  intro h
  have h := h (⟨fun _ => 0#32⟩) (⟨fun _ => 4294967296#64⟩) (⟨fun _ => 0#64⟩)
  rw [vaddhn_high_s64_partial] at h
  split at h
  · have h := congrFun (Vec.mk.inj (C.ok.inj h)) 2
    revert h
    decide
  · cases h

/-- `vaddhn_high_u16` keeps the low register; the upper lanes hold the most significant half of the wrapped sum. -/
theorem vaddhn_high_u16_spec [Dialect] (r : uint8x8_t) (a b : uint16x8_t) :
    vaddhn_high_u16 r a b = .ok ⟨fun i => if h : i.val < 8 then r[i.val] else high 8 (a[i.val - 8] + b[i.val - 8])⟩ := by
  unfold vaddhn_high_u16
  refine (fill_own2_if (fun j => j.val) (fun i => if h : i.val < 8 then r[i.val] else high 8 (a[i.val - 8] + b[i.val - 8])) 8 8 (fun _ => True) .signedOverflow (by rfl) (by rfl) (fun j => j.isLt) ?_ fun k => ?_).trans (if_pos fun _ => trivial)
  · intro k hk
    have er : r.get (0 + (k : Int) * 1) = .ok (.ofBits _ (r.lane ⟨k, hk⟩)) := Vec.get_at r k hk (by omega)
    simp only [er, ok_bind, Arr.set_at _ _ k (show k < 16 by omega) (show 0 + (k : Int) * 1 = k by omega)]
    csim
    bvnorm
    congr 1
    exact Arr.partial_put_val _ _ _ _ rfl (by rw [dif_pos hk]; rfl)
  · rw [if_pos trivial]
    simp only [Vec.get_fin, ok_bind, Arr.set_at _ _ (k.val + 8) (show k.val + 8 < 16 by omega) (show ((k.val : Nat) : Int) + 8 = ((k.val + 8 : Nat) : Int) by omega)]
    csim
    bvnorm
    congr 1
    refine Arr.partial_put_val _ _ _ _ (by simp only; omega) ?_
    rw [dif_neg (by simp only; omega)]
    have e : k = ⟨k.val + 8 - 8, by omega⟩ := Fin.ext (by simp only; omega)
    rw [e]
    rfl

/-- `vaddhn_high_u32` keeps the low register; the upper lanes hold bits 4..19 of the wrapped sum (the architecture: bits 16..31). -/
theorem vaddhn_high_u32_partial [Dialect] (r : uint16x4_t) (a b : uint32x4_t) :
    vaddhn_high_u32 r a b = .ok ⟨fun i => if h : i.val < 4 then r[i.val] else ((a[i.val - 4] + b[i.val - 4]) >>> 4).setWidth 16⟩ := by
  unfold vaddhn_high_u32
  refine (fill_own2_if (fun j => j.val) (fun i => if h : i.val < 4 then r[i.val] else ((a[i.val - 4] + b[i.val - 4]) >>> 4).setWidth 16) 4 4 (fun _ => True) .signedOverflow (by rfl) (by rfl) (fun j => j.isLt) ?_ fun k => ?_).trans (if_pos fun _ => trivial)
  · intro k hk
    have er : r.get (0 + (k : Int) * 1) = .ok (.ofBits _ (r.lane ⟨k, hk⟩)) := Vec.get_at r k hk (by omega)
    simp only [er, ok_bind, Arr.set_at _ _ k (show k < 8 by omega) (show 0 + (k : Int) * 1 = k by omega)]
    csim
    bvnorm
    congr 1
    exact Arr.partial_put_val _ _ _ _ rfl (by rw [dif_pos hk]; rfl)
  · rw [if_pos trivial]
    simp only [Vec.get_fin, ok_bind, Arr.set_at _ _ (k.val + 4) (show k.val + 4 < 8 by omega) (show ((k.val : Nat) : Int) + 4 = ((k.val + 4 : Nat) : Int) by omega)]
    csim
    simp only [show (((a.lane k).toNat + (b.lane k).toNat : Int) % 4294967296) = ((a.lane k + b.lane k).toNat : Int) from (nat_add_mod32 _ _).symm,
        show (((a.lane k + b.lane k).toNat : Int) / 16) = _ from toNat_div_pow (a.lane k + b.lane k) 4]
    simp (disch := decide) only [ofInt_bmod, ofInt_emod, ofInt_toInt_trunc _ _ (show 16 ≤ 32 by decide), ofInt_toNat]
    congr 1
    refine Arr.partial_put_val _ _ _ _ (by simp only; omega) ?_
    rw [dif_neg (by simp only; omega)]
    have e : k = ⟨k.val + 4 - 4, by omega⟩ := Fin.ext (by simp only; omega)
    rw [e]
    rfl

/-- `vaddhn_high_u32` does not give the most significant half of the sum. -/
theorem vaddhn_high_u32_wrong [Dialect] :
    ¬ ∀ (r : uint16x4_t) (a b : uint32x4_t), vaddhn_high_u32 r a b = .ok ⟨fun i => if h : i.val < 4 then r[i.val] else high 16 (a[i.val - 4] + b[i.val - 4])⟩ := by
  intro h
  have h := h (⟨fun _ => 0#16⟩) (⟨fun _ => 65536#32⟩) (⟨fun _ => 0#32⟩)
  rw [vaddhn_high_u32_partial] at h
  have h := congrFun (Vec.mk.inj (C.ok.inj h)) 4
  revert h
  decide

/-- `vaddhn_high_u64` keeps the low register; the upper lanes hold bits 2..33 of the wrapped sum (the architecture: bits 32..63). -/
theorem vaddhn_high_u64_partial [Dialect] (r : uint32x2_t) (a b : uint64x2_t) :
    vaddhn_high_u64 r a b = .ok ⟨fun i => if h : i.val < 2 then r[i.val] else ((a[i.val - 2] + b[i.val - 2]) >>> 2).setWidth 32⟩ := by
  unfold vaddhn_high_u64
  refine (fill_own2_if (fun j => j.val) (fun i => if h : i.val < 2 then r[i.val] else ((a[i.val - 2] + b[i.val - 2]) >>> 2).setWidth 32) 2 2 (fun _ => True) .signedOverflow (by rfl) (by rfl) (fun j => j.isLt) ?_ fun k => ?_).trans (if_pos fun _ => trivial)
  · intro k hk
    have er : r.get (0 + (k : Int) * 1) = .ok (.ofBits _ (r.lane ⟨k, hk⟩)) := Vec.get_at r k hk (by omega)
    simp only [er, ok_bind, Arr.set_at _ _ k (show k < 4 by omega) (show 0 + (k : Int) * 1 = k by omega)]
    csim
    bvnorm
    congr 1
    exact Arr.partial_put_val _ _ _ _ rfl (by rw [dif_pos hk]; rfl)
  · rw [if_pos trivial]
    simp only [Vec.get_fin, ok_bind, Arr.set_at _ _ (k.val + 2) (show k.val + 2 < 4 by omega) (show ((k.val : Nat) : Int) + 2 = ((k.val + 2 : Nat) : Int) by omega)]
    csim
    simp only [show (((a.lane k).toNat + (b.lane k).toNat : Int) % 18446744073709551616) = ((a.lane k + b.lane k).toNat : Int) from (nat_add_mod64 _ _).symm,
        show (((a.lane k + b.lane k).toNat : Int) / 4) = _ from toNat_div_pow (a.lane k + b.lane k) 2]
    simp (disch := decide) only [ofInt_bmod, ofInt_emod, ofInt_toInt_trunc _ _ (show 32 ≤ 64 by decide), ofInt_toNat]
    congr 1
    refine Arr.partial_put_val _ _ _ _ (by simp only; omega) ?_
    rw [dif_neg (by simp only; omega)]
    have e : k = ⟨k.val + 2 - 2, by omega⟩ := Fin.ext (by simp only; omega)
    rw [e]
    rfl

/-- `vaddhn_high_u64` does not give the most significant half of the sum. -/
theorem vaddhn_high_u64_wrong [Dialect] :
    ¬ ∀ (r : uint32x2_t) (a b : uint64x2_t), vaddhn_high_u64 r a b = .ok ⟨fun i => if h : i.val < 2 then r[i.val] else high 32 (a[i.val - 2] + b[i.val - 2])⟩ := by
  intro h
  have h := h (⟨fun _ => 0#32⟩) (⟨fun _ => 4294967296#64⟩) (⟨fun _ => 0#64⟩)
  rw [vaddhn_high_u64_partial] at h
  have h := congrFun (Vec.mk.inj (C.ok.inj h)) 2
  revert h
  decide

/-- `vsubhn_s16` gives the most significant half of the wrapped difference. -/
theorem vsubhn_s16_spec [Dialect] (N M : int16x8_t) :
    vsubhn_s16 N M = .ok ⟨fun i => high 8 (N.lane i - M.lane i)⟩ := by
  unfold vsubhn_s16
  refine fill_ok (by rfl) _ fun i D => ?_
  have hb0 := toInt16 (N.lane i)
  have hb1 := toInt16 (M.lane i)
  csim
  bvnorm

/-- `vsubn_s32` (the only definition for 32-bit lanes, under a wrong name) gives bits 8..23 of the difference, not the most significant half. -/
theorem vsubn_s32_partial [Dialect] (N M : int32x4_t) :
    vsubn_s32 N M =
      if ∀ i : Fin 4, NoOverflow 32 ((N.lane i).toInt - (M.lane i).toInt)
      then .ok ⟨fun i => ((N.lane i - M.lane i).sshiftRight 8).setWidth 16⟩ else .ub .signedOverflow := by
  unfold vsubn_s32
  refine fill_if (by rfl) _ _ _ fun i D => ?_
  have hb0 := toInt32 (N.lane i)
  have hb1 := toInt32 (M.lane i)
  csim_ub
  simp only [← int_sub_bmod32]
  simp only [show ((N.lane i - M.lane i).toInt / 256 : Int) = _ from toInt_div_pow (N.lane i - M.lane i) 8]
  simp (disch := decide) only [ofInt_toInt_trunc _ _ (show 16 ≤ 32 by decide), ofInt_toNat]

/-- With `-fwrapv`, `vsubn_s32` is defined for all operands. -/
theorem vsubn_s32_wrapv [Dialect] (hd : Dialect.wrapv = true) (N M : int32x4_t) :
    vsubn_s32 N M = .ok ⟨fun i => ((N.lane i - M.lane i).sshiftRight 8).setWidth 16⟩ := by
  rw [vsubn_s32_partial, if_pos]
  intro i
  simp only [NoOverflow, hd, true_or, and_self]
example := @vsubn_s32_wrapv .wrapping rfl (⟨fun i => BitVec.ofNat 32 (4 + i.val)⟩) (⟨fun i => BitVec.ofNat 32 (3 + i.val)⟩)

/-- In C++11 `vsubn_s32` is undefined for some operands. -/
theorem vsubn_s32_ub [Dialect] (hd : Dialect.wrapv = false) :
    ∃ (N M : int32x4_t), vsubn_s32 N M = .ub .signedOverflow := by
  refine ⟨⟨fun _ => 2147483648#32⟩, ⟨fun _ => 1#32⟩, ?_⟩
  rw [vsubn_s32_partial, if_neg]
  intro h
  have := h 0
  revert this
  simp only [NoOverflow, hd]
  decide
example := @vsubn_s32_ub .strict rfl

/-- `vsubn_s32` does not give the most significant half of the difference. -/
theorem vsubn_s32_wrong [Dialect] :
    ¬ ∀ (N M : int32x4_t), vsubn_s32 N M = .ok ⟨fun i => high 16 (N.lane i - M.lane i)⟩ := by
  intro h
  have h := h (⟨fun _ => 256#32⟩) (⟨fun _ => 0#32⟩)
  rw [vsubn_s32_partial] at h
  split at h
  · have h := congrFun (Vec.mk.inj (C.ok.inj h)) 0
    revert h
    decide
  · cases h

/-- `vsubn_s64` (the only definition for 64-bit lanes, under a wrong name) gives bits 8..39 of the difference, not the most significant half. -/
theorem vsubn_s64_partial [Dialect] (N M : int64x2_t) :
    vsubn_s64 N M =
      if ∀ i : Fin 2, NoOverflow 64 ((N.lane i).toInt - (M.lane i).toInt)
      then .ok ⟨fun i => ((N.lane i - M.lane i).sshiftRight 8).setWidth 32⟩ else .ub .signedOverflow := by
  unfold vsubn_s64
  refine fill_if (by rfl) _ _ _ fun i D => ?_
  have hb0 := toInt64 (N.lane i)
  have hb1 := toInt64 (M.lane i)
  csim_ub
  simp only [← int_sub_bmod64]
  simp only [show ((N.lane i - M.lane i).toInt / 256 : Int) = _ from toInt_div_pow (N.lane i - M.lane i) 8]
  simp (disch := decide) only [ofInt_toInt_trunc _ _ (show 32 ≤ 64 by decide), ofInt_toNat]

/-- With `-fwrapv`, `vsubn_s64` is defined for all operands. -/
theorem vsubn_s64_wrapv [Dialect] (hd : Dialect.wrapv = true) (N M : int64x2_t) :
    vsubn_s64 N M = .ok ⟨fun i => ((N.lane i - M.lane i).sshiftRight 8).setWidth 32⟩ := by
  rw [vsubn_s64_partial, if_pos]
  intro i
  simp only [NoOverflow, hd, true_or, and_self]
example := @vsubn_s64_wrapv .wrapping rfl (⟨fun i => BitVec.ofNat 64 (4 + i.val)⟩) (⟨fun i => BitVec.ofNat 64 (3 + i.val)⟩)

/-- In C++11 `vsubn_s64` is undefined for some operands. -/
theorem vsubn_s64_ub [Dialect] (hd : Dialect.wrapv = false) :
    ∃ (N M : int64x2_t), vsubn_s64 N M = .ub .signedOverflow := by
  refine ⟨⟨fun _ => 9223372036854775808#64⟩, ⟨fun _ => 1#64⟩, ?_⟩
  rw [vsubn_s64_partial, if_neg]
  intro h
  have := h 0
  revert this
  simp only [NoOverflow, hd]
  decide
example := @vsubn_s64_ub .strict rfl

/-- `vsubn_s64` does not give the most significant half of the difference. -/
theorem vsubn_s64_wrong [Dialect] :
    ¬ ∀ (N M : int64x2_t), vsubn_s64 N M = .ok ⟨fun i => high 32 (N.lane i - M.lane i)⟩ := by
  intro h
  have h := h (⟨fun _ => 256#64⟩) (⟨fun _ => 0#64⟩)
  rw [vsubn_s64_partial] at h
  split at h
  · have h := congrFun (Vec.mk.inj (C.ok.inj h)) 0
    revert h
    decide
  · cases h

/-- `vsubhn_u16` gives the most significant half of the wrapped difference. -/
theorem vsubhn_u16_spec [Dialect] (N M : uint16x8_t) :
    vsubhn_u16 N M = .ok ⟨fun i => high 8 (N.lane i - M.lane i)⟩ := by
  unfold vsubhn_u16
  refine fill_ok (by rfl) _ fun i D => ?_
  csim
  bvnorm

/-- `vsubn_u32` (the only definition for 32-bit lanes, under a wrong name) gives bits 8..23 of the difference, not the most significant half. -/
theorem vsubn_u32_partial [Dialect] (N M : uint32x4_t) :
    vsubn_u32 N M = .ok ⟨fun i => ((N.lane i - M.lane i) >>> 8).setWidth 16⟩ := by
  unfold vsubn_u32
  refine fill_ok (by rfl) _ fun i D => ?_
  csim
  simp only [← nat_sub_mod32]
  simp only [show (((N.lane i - M.lane i).toNat : Int) / 256) = _ from toNat_div_pow (N.lane i - M.lane i) 8]
  simp (disch := decide) only [ofInt_toInt_trunc _ _ (show 16 ≤ 32 by decide), ofInt_toNat]

/-- `vsubn_u32` does not give the most significant half of the difference. -/
theorem vsubn_u32_wrong [Dialect] :
    ¬ ∀ (N M : uint32x4_t), vsubn_u32 N M = .ok ⟨fun i => high 16 (N.lane i - M.lane i)⟩ := by
  intro h
  have h := h (⟨fun _ => 256#32⟩) (⟨fun _ => 0#32⟩)
  rw [vsubn_u32_partial] at h
  have h := congrFun (Vec.mk.inj (C.ok.inj h)) 0
  revert h
  decide

/-- `vsubn_u64` (the only definition for 64-bit lanes, under a wrong name) gives bits 8..39 of the difference, not the most significant half. -/
theorem vsubn_u64_partial [Dialect] (N M : uint64x2_t) :
    vsubn_u64 N M = .ok ⟨fun i => ((N.lane i - M.lane i) >>> 8).setWidth 32⟩ := by
  unfold vsubn_u64
  refine fill_ok (by rfl) _ fun i D => ?_
  csim
  simp only [← nat_sub_mod64]
  simp only [show (((N.lane i - M.lane i).toNat : Int) / 256) = _ from toNat_div_pow (N.lane i - M.lane i) 8]
  simp (disch := decide) only [ofInt_toInt_trunc _ _ (show 32 ≤ 64 by decide), ofInt_toNat]

/-- `vsubn_u64` does not give the most significant half of the difference. -/
theorem vsubn_u64_wrong [Dialect] :
    ¬ ∀ (N M : uint64x2_t), vsubn_u64 N M = .ok ⟨fun i => high 32 (N.lane i - M.lane i)⟩ := by
  intro h
  have h := h (⟨fun _ => 256#64⟩) (⟨fun _ => 0#64⟩)
  rw [vsubn_u64_partial] at h
  have h := congrFun (Vec.mk.inj (C.ok.inj h)) 0
  revert h
  decide

/-- `vrsubhn_s16` gives the most significant half of the rounded wrapped difference. -/
theorem vrsubhn_s16_spec [Dialect] (N M : int16x8_t) :
    vrsubhn_s16 N M = .ok ⟨fun i => high 8 (N.lane i - M.lane i + 128#16)⟩ := by
  unfold vrsubhn_s16
  csim
  refine fill_ok (by rfl) _ fun i D => ?_
  have hb0 := toInt16 (N.lane i)
  have hb1 := toInt16 (M.lane i)
  csim
  bvnorm
  simp only [BitVec.reduceOfInt]

/-- `vrsubhn_s32` gives the most significant half of the difference plus `2^15`; overflow is undefined in C++11. -/
theorem vrsubhn_s32_partial [Dialect] (N M : int32x4_t) :
    vrsubhn_s32 N M =
      if ∀ i : Fin 4, NoOverflow 32 ((N.lane i).toInt - (M.lane i).toInt) ∧ NoOverflow 32 ((N.lane i).toInt - (M.lane i).toInt + 32768)
      then .ok ⟨fun i => high 16 (N.lane i - M.lane i + 32768#32)⟩ else .ub .signedOverflow := by
  unfold vrsubhn_s32
  csim
  refine fill_if (by rfl) _ _ _ fun i D => ?_
  have hb0 := toInt32 (N.lane i)
  have hb1 := toInt32 (M.lane i)
  csim_ub
  simp only [noOverflow32_two]
  bvnorm
  simp only [BitVec.reduceOfInt]

/-- With `-fwrapv`, `vrsubhn_s32` is defined for all operands. -/
theorem vrsubhn_s32_wrapv [Dialect] (hd : Dialect.wrapv = true) (N M : int32x4_t) :
    vrsubhn_s32 N M = .ok ⟨fun i => high 16 (N.lane i - M.lane i + 32768#32)⟩ := by
  rw [vrsubhn_s32_partial, if_pos]
  intro i
  simp only [NoOverflow, hd, true_or, and_self]
example := @vrsubhn_s32_wrapv .wrapping rfl (⟨fun i => BitVec.ofNat 32 (4 + i.val)⟩) (⟨fun i => BitVec.ofNat 32 (3 + i.val)⟩)

/-- In C++11 `vrsubhn_s32` is undefined for some operands. -/
theorem vrsubhn_s32_ub [Dialect] (hd : Dialect.wrapv = false) :
    ∃ (N M : int32x4_t), vrsubhn_s32 N M = .ub .signedOverflow := by
  refine ⟨⟨fun _ => 2147483648#32⟩, ⟨fun _ => 1#32⟩, ?_⟩
  rw [vrsubhn_s32_partial, if_neg]
  intro h
  have := h 0
  revert this
  simp only [NoOverflow, hd]
  decide
example := @vrsubhn_s32_ub .strict rfl

/-- `vrsubhn_s64` gives the most significant half of the difference minus `2^31` (the rounding constant has the wrong sign); overflow is undefined in C++11. -/
theorem vrsubhn_s64_partial [Dialect] (N M : int64x2_t) :
    vrsubhn_s64 N M =
      if ∀ i : Fin 2, NoOverflow 64 ((N.lane i).toInt - (M.lane i).toInt) ∧ NoOverflow 64 ((N.lane i).toInt - (M.lane i).toInt + (-2147483648))
      then .ok ⟨fun i => high 32 (N.lane i - M.lane i + 18446744071562067968#64)⟩ else .ub .signedOverflow := by
  unfold vrsubhn_s64
  csim
  refine fill_if (by rfl) _ _ _ fun i D => ?_
  have hb0 := toInt64 (N.lane i)
  have hb1 := toInt64 (M.lane i)
  csim_ub
  simp only [noOverflow64_two]
  bvnorm
  simp only [BitVec.reduceOfInt]

/-- With `-fwrapv`, `vrsubhn_s64` is defined for all operands. -/
theorem vrsubhn_s64_wrapv [Dialect] (hd : Dialect.wrapv = true) (N M : int64x2_t) :
    vrsubhn_s64 N M = .ok ⟨fun i => high 32 (N.lane i - M.lane i + 18446744071562067968#64)⟩ := by
  rw [vrsubhn_s64_partial, if_pos]
  intro i
  simp only [NoOverflow, hd, true_or, and_self]
example := @vrsubhn_s64_wrapv .wrapping rfl (⟨fun i => BitVec.ofNat 64 (4 + i.val)⟩) (⟨fun i => BitVec.ofNat 64 (3 + i.val)⟩)

/-- In C++11 `vrsubhn_s64` is undefined for some operands. -/
theorem vrsubhn_s64_ub [Dialect] (hd : Dialect.wrapv = false) :
    ∃ (N M : int64x2_t), vrsubhn_s64 N M = .ub .signedOverflow := by
  refine ⟨⟨fun _ => 9223372036854775808#64⟩, ⟨fun _ => 1#64⟩, ?_⟩
  rw [vrsubhn_s64_partial, if_neg]
  intro h
  have := h 0
  revert this
  simp only [NoOverflow, hd]
  decide
example := @vrsubhn_s64_ub .strict rfl

/-- `vrsubhn_s64` does not give the rounded high half, in any dialect. -/
theorem vrsubhn_s64_wrong [Dialect] :
    ¬ ∀ (N M : int64x2_t), vrsubhn_s64 N M = .ok ⟨fun i => high 32 (N.lane i - M.lane i + 2147483648#64)⟩ := by
  intro h
  have h := h (⟨fun _ => 0#64⟩) (⟨fun _ => 0#64⟩)
  rw [vrsubhn_s64_partial] at h
  split at h
  · have h := congrFun (Vec.mk.inj (C.ok.inj h)) 0
    revert h
    decide
  · cases h

/-- `vrsubhn_u16` gives the most significant half of the rounded wrapped difference. -/
theorem vrsubhn_u16_spec [Dialect] (N M : uint16x8_t) :
    vrsubhn_u16 N M = .ok ⟨fun i => high 8 (N.lane i - M.lane i + 128#16)⟩ := by
  unfold vrsubhn_u16
  csim
  refine fill_ok (by rfl) _ fun i D => ?_
  csim
  bvnorm
  simp only [BitVec.reduceOfInt]

/-- `vrsubhn_u32` gives the most significant half of the rounded wrapped difference. -/
theorem vrsubhn_u32_spec [Dialect] (N M : uint32x4_t) :
    vrsubhn_u32 N M = .ok ⟨fun i => high 16 (N.lane i - M.lane i + 32768#32)⟩ := by
  unfold vrsubhn_u32
  csim
  refine fill_ok (by rfl) _ fun i D => ?_
  csim
  bvnorm
  simp only [BitVec.reduceOfInt]

/-- `vrsubhn_u64` adds the rounding constant `0xFFFFFFFF80000000` instead of `0x80000000`. -/
theorem vrsubhn_u64_partial [Dialect] (N M : uint64x2_t) :
    vrsubhn_u64 N M = .ok ⟨fun i => high 32 (N.lane i - M.lane i + 18446744071562067968#64)⟩ := by
  unfold vrsubhn_u64
  csim
  refine fill_ok (by rfl) _ fun i D => ?_
  csim
  bvnorm
  simp only [BitVec.reduceOfInt]

/-- `vrsubhn_u64` does not give the rounded high half. -/
theorem vrsubhn_u64_wrong [Dialect] :
    ¬ ∀ (N M : uint64x2_t), vrsubhn_u64 N M = .ok ⟨fun i => high 32 (N.lane i - M.lane i + 2147483648#64)⟩ := by
  intro h
  have h := h (⟨fun _ => 0#64⟩) (⟨fun _ => 0#64⟩)
  rw [vrsubhn_u64_partial] at h
  have h := congrFun (Vec.mk.inj (C.ok.inj h)) 0
  revert h
  decide

/-- For all operands every lane of `vrsubhn_u64` is one less than the architectural result. -/
theorem vrsubhn_u64_off_by_one [Dialect] (N M : uint64x2_t) :
    vrsubhn_u64 N M = .ok ⟨fun i => high 32 (N.lane i - M.lane i + 2147483648#64) - 1#32⟩ := by
  rw [vrsubhn_u64_partial]
  congr 2
  funext i
  exact off_by_one (N.lane i - M.lane i)

/-- `vhsub_s8` gives `floor((a - b) / 2)` of the exact difference, modulo `2^8`. -/
theorem vhsub_s8_spec [Dialect] (N M : int8x8_t) :
    vhsub_s8 N M = .ok ⟨fun i => BitVec.ofInt 8 (((N.lane i).toInt - (M.lane i).toInt) / 2)⟩ := by
  unfold vhsub_s8
  refine fill_ok (by rfl) _ fun i D => ?_
  have hb0 := toInt8 (N.lane i)
  have hb1 := toInt8 (M.lane i)
  csim

/-- `vhsub_s16` gives `floor((a - b) / 2)` of the exact difference, modulo `2^16`. -/
theorem vhsub_s16_spec [Dialect] (N M : int16x4_t) :
    vhsub_s16 N M = .ok ⟨fun i => BitVec.ofInt 16 (((N.lane i).toInt - (M.lane i).toInt) / 2)⟩ := by
  unfold vhsub_s16
  refine fill_ok (by rfl) _ fun i D => ?_
  have hb0 := toInt16 (N.lane i)
  have hb1 := toInt16 (M.lane i)
  csim

/-- `vhsub_s32` halves the 32-bit `int` difference; overflow is undefined in C++11. -/
theorem vhsub_s32_partial [Dialect] (N M : int32x2_t) :
    vhsub_s32 N M =
      if ∀ i : Fin 2, NoOverflow 32 ((N.lane i).toInt - (M.lane i).toInt)
      then .ok ⟨fun i => (N.lane i - M.lane i).sshiftRight 1⟩ else .ub .signedOverflow := by
  unfold vhsub_s32
  refine fill_if (by rfl) _ _ _ fun i D => ?_
  have hb0 := toInt32 (N.lane i)
  have hb1 := toInt32 (M.lane i)
  csim_ub
  simp only [← int_sub_bmod32]
  simp only [show ((N.lane i - M.lane i).toInt / 2 : Int) = _ from toInt_div_pow (N.lane i - M.lane i) 1]
  simp only [ofInt_toInt_ext, BitVec.signExtend_eq]

/-- With `-fwrapv`, `vhsub_s32` is defined for all operands. -/
theorem vhsub_s32_wrapv [Dialect] (hd : Dialect.wrapv = true) (N M : int32x2_t) :
    vhsub_s32 N M = .ok ⟨fun i => (N.lane i - M.lane i).sshiftRight 1⟩ := by
  rw [vhsub_s32_partial, if_pos]
  intro i
  simp only [NoOverflow, hd, true_or, and_self]
example := @vhsub_s32_wrapv .wrapping rfl (⟨fun i => BitVec.ofNat 32 (4 + i.val)⟩) (⟨fun i => BitVec.ofNat 32 (3 + i.val)⟩)

/-- In C++11 `vhsub_s32` is undefined for some operands. -/
theorem vhsub_s32_ub [Dialect] (hd : Dialect.wrapv = false) :
    ∃ (N M : int32x2_t), vhsub_s32 N M = .ub .signedOverflow := by
  refine ⟨⟨fun _ => 2147483648#32⟩, ⟨fun _ => 1#32⟩, ?_⟩
  rw [vhsub_s32_partial, if_neg]
  intro h
  have := h 0
  revert this
  simp only [NoOverflow, hd]
  decide
example := @vhsub_s32_ub .strict rfl

/-- `vhsub_s32` does not give the halved exact difference, in any dialect. -/
theorem vhsub_s32_wrong [Dialect] :
    ¬ ∀ (N M : int32x2_t), vhsub_s32 N M = .ok ⟨fun i => BitVec.ofInt 32 (((N.lane i).toInt - (M.lane i).toInt) / 2)⟩ := by
  intro h
  have h := h (⟨fun _ => 2147483648#32⟩) (⟨fun _ => 1#32⟩)
  rw [vhsub_s32_partial] at h
  split at h
  · have h := congrFun (Vec.mk.inj (C.ok.inj h)) 0
    revert h
    decide
  · cases h

/-- `vhsub_u8` gives `floor((a - b) / 2)` of the exact difference, modulo `2^8`. -/
theorem vhsub_u8_spec [Dialect] (N M : uint8x8_t) :
    vhsub_u8 N M = .ok ⟨fun i => BitVec.ofInt 8 ((((N.lane i).toNat : Int) - ((M.lane i).toNat : Int)) / 2)⟩ := by
  unfold vhsub_u8
  refine fill_ok (by rfl) _ fun i D => ?_
  csim

/-- `vhsub_u16` gives `floor((a - b) / 2)` of the exact difference, modulo `2^16`. -/
theorem vhsub_u16_spec [Dialect] (N M : uint16x4_t) :
    vhsub_u16 N M = .ok ⟨fun i => BitVec.ofInt 16 ((((N.lane i).toNat : Int) - ((M.lane i).toNat : Int)) / 2)⟩ := by
  unfold vhsub_u16
  refine fill_ok (by rfl) _ fun i D => ?_
  csim

/-- `vhsub_u32` halves the difference modulo `2^32`: the borrow is lost. -/
theorem vhsub_u32_partial [Dialect] (N M : uint32x2_t) :
    vhsub_u32 N M = .ok ⟨fun i => (N.lane i - M.lane i) >>> 1⟩ := by
  unfold vhsub_u32
  refine fill_ok (by rfl) _ fun i D => ?_
  csim
  simp only [← nat_sub_mod32]
  simp only [show (((N.lane i - M.lane i).toNat : Int) / 2) = _ from toNat_div_pow (N.lane i - M.lane i) 1]
  simp only [ofInt_toNat, BitVec.setWidth_eq]

/-- `vhsub_u32` does not give the halved exact difference. -/
theorem vhsub_u32_wrong [Dialect] :
    ¬ ∀ (N M : uint32x2_t), vhsub_u32 N M = .ok ⟨fun i => BitVec.ofInt 32 ((((N.lane i).toNat : Int) - ((M.lane i).toNat : Int)) / 2)⟩ := by
  intro h
  have h := h (⟨fun _ => 0#32⟩) (⟨fun _ => 1#32⟩)
  rw [vhsub_u32_partial] at h
  have h := congrFun (Vec.mk.inj (C.ok.inj h)) 0
  revert h
  decide

/-- `vhsubq_s8` gives `floor((a - b) / 2)` of the exact difference, modulo `2^8`. -/
theorem vhsubq_s8_spec [Dialect] (N M : int8x16_t) :
    vhsubq_s8 N M = .ok ⟨fun i => BitVec.ofInt 8 (((N.lane i).toInt - (M.lane i).toInt) / 2)⟩ := by
  unfold vhsubq_s8
  refine fill_ok (by rfl) _ fun i D => ?_
  have hb0 := toInt8 (N.lane i)
  have hb1 := toInt8 (M.lane i)
  csim

/-- `vhsubq_s16` gives `floor((a - b) / 2)` of the exact difference, modulo `2^16`. -/
theorem vhsubq_s16_spec [Dialect] (N M : int16x8_t) :
    vhsubq_s16 N M = .ok ⟨fun i => BitVec.ofInt 16 (((N.lane i).toInt - (M.lane i).toInt) / 2)⟩ := by
  unfold vhsubq_s16
  refine fill_ok (by rfl) _ fun i D => ?_
  have hb0 := toInt16 (N.lane i)
  have hb1 := toInt16 (M.lane i)
  csim

/-- `vhsubq_s32` halves the 32-bit `int` difference; overflow is undefined in C++11. -/
theorem vhsubq_s32_partial [Dialect] (N M : int32x4_t) :
    vhsubq_s32 N M =
      if ∀ i : Fin 4, NoOverflow 32 ((N.lane i).toInt - (M.lane i).toInt)
      then .ok ⟨fun i => (N.lane i - M.lane i).sshiftRight 1⟩ else .ub .signedOverflow := by
  unfold vhsubq_s32
  refine fill_if (by rfl) _ _ _ fun i D => ?_
  have hb0 := toInt32 (N.lane i)
  have hb1 := toInt32 (M.lane i)
  csim_ub
  simp only [← int_sub_bmod32]
  simp only [show ((N.lane i - M.lane i).toInt / 2 : Int) = _ from toInt_div_pow (N.lane i - M.lane i) 1]
  simp only [ofInt_toInt_ext, BitVec.signExtend_eq]

/-- With `-fwrapv`, `vhsubq_s32` is defined for all operands. -/
theorem vhsubq_s32_wrapv [Dialect] (hd : Dialect.wrapv = true) (N M : int32x4_t) :
    vhsubq_s32 N M = .ok ⟨fun i => (N.lane i - M.lane i).sshiftRight 1⟩ := by
  rw [vhsubq_s32_partial, if_pos]
  intro i
  simp only [NoOverflow, hd, true_or, and_self]
example := @vhsubq_s32_wrapv .wrapping rfl (⟨fun i => BitVec.ofNat 32 (4 + i.val)⟩) (⟨fun i => BitVec.ofNat 32 (3 + i.val)⟩)

/-- In C++11 `vhsubq_s32` is undefined for some operands. -/
theorem vhsubq_s32_ub [Dialect] (hd : Dialect.wrapv = false) :
    ∃ (N M : int32x4_t), vhsubq_s32 N M = .ub .signedOverflow := by
  refine ⟨⟨fun _ => 2147483648#32⟩, ⟨fun _ => 1#32⟩, ?_⟩
  rw [vhsubq_s32_partial, if_neg]
  intro h
  have := h 0
  revert this
  simp only [NoOverflow, hd]
  decide
example := @vhsubq_s32_ub .strict rfl

/-- `vhsubq_s32` does not give the halved exact difference, in any dialect. -/
theorem vhsubq_s32_wrong [Dialect] :
    ¬ ∀ (N M : int32x4_t), vhsubq_s32 N M = .ok ⟨fun i => BitVec.ofInt 32 (((N.lane i).toInt - (M.lane i).toInt) / 2)⟩ := by
  intro h
  have h := h (⟨fun _ => 2147483648#32⟩) (⟨fun _ => 1#32⟩)
  rw [vhsubq_s32_partial] at h
  split at h
  · have h := congrFun (Vec.mk.inj (C.ok.inj h)) 0
    revert h
    decide
  · cases h

/-- `vhsubq_u8` gives `floor((a - b) / 2)` of the exact difference, modulo `2^8`. -/
theorem vhsubq_u8_spec [Dialect] (N M : uint8x16_t) :
    vhsubq_u8 N M = .ok ⟨fun i => BitVec.ofInt 8 ((((N.lane i).toNat : Int) - ((M.lane i).toNat : Int)) / 2)⟩ := by
  unfold vhsubq_u8
  refine fill_ok (by rfl) _ fun i D => ?_
  csim

/-- `vhsubq_u16` gives `floor((a - b) / 2)` of the exact difference, modulo `2^16`. -/
theorem vhsubq_u16_spec [Dialect] (N M : uint16x8_t) :
    vhsubq_u16 N M = .ok ⟨fun i => BitVec.ofInt 16 ((((N.lane i).toNat : Int) - ((M.lane i).toNat : Int)) / 2)⟩ := by
  unfold vhsubq_u16
  refine fill_ok (by rfl) _ fun i D => ?_
  csim

/-- `vhsubq_u32` halves the difference modulo `2^32`: the borrow is lost. -/
theorem vhsubq_u32_partial [Dialect] (N M : uint32x4_t) :
    vhsubq_u32 N M = .ok ⟨fun i => (N.lane i - M.lane i) >>> 1⟩ := by
  unfold vhsubq_u32
  refine fill_ok (by rfl) _ fun i D => ?_
  csim
  simp only [← nat_sub_mod32]
  simp only [show (((N.lane i - M.lane i).toNat : Int) / 2) = _ from toNat_div_pow (N.lane i - M.lane i) 1]
  simp only [ofInt_toNat, BitVec.setWidth_eq]

/-- `vhsubq_u32` does not give the halved exact difference. -/
theorem vhsubq_u32_wrong [Dialect] :
    ¬ ∀ (N M : uint32x4_t), vhsubq_u32 N M = .ok ⟨fun i => BitVec.ofInt 32 ((((N.lane i).toNat : Int) - ((M.lane i).toNat : Int)) / 2)⟩ := by
  intro h
  have h := h (⟨fun _ => 0#32⟩) (⟨fun _ => 1#32⟩)
  rw [vhsubq_u32_partial] at h
  have h := congrFun (Vec.mk.inj (C.ok.inj h)) 0
  revert h
  decide

end Verif.Props
