import Verif.Fill
import Verif.Model.Move
import Verif.Model.Perm
/-! # Broadcast, halves, lane extraction, narrowing and widening moves (C03, C36, C37, C43)

Generated by `tools/gen_props.py`. -/

set_option linter.unusedSimpArgs false
set_option linter.unusedVariables false

namespace Verif.Props
open Verif.Model Verif.Spec

/-- `vdup_n_s8` puts the scalar in every lane. -/
theorem vdup_n_s8_spec (N : int8_t) :
    vdup_n_s8 N = .ok ⟨fun _ => N⟩ := by
  unfold vdup_n_s8
  refine fill_ok (by rfl) _ fun i D => ?_
  simp only [Arr.set_fin, toBits_ofBits, ok_bind, pure_eq]

/-- `vdup_n_s16` puts the scalar in every lane. -/
theorem vdup_n_s16_spec (N : int16_t) :
    vdup_n_s16 N = .ok ⟨fun _ => N⟩ := by
  unfold vdup_n_s16
  refine fill_ok (by rfl) _ fun i D => ?_
  simp only [Arr.set_fin, toBits_ofBits, ok_bind, pure_eq]

/-- `vdup_n_s32` puts the scalar in every lane. -/
theorem vdup_n_s32_spec (N : int32_t) :
    vdup_n_s32 N = .ok ⟨fun _ => N⟩ := by
  unfold vdup_n_s32
  refine fill_ok (by rfl) _ fun i D => ?_
  simp only [Arr.set_fin, toBits_ofBits, ok_bind, pure_eq]

/-- `vdup_n_s64` puts the scalar in every lane. -/
theorem vdup_n_s64_spec (N : int64_t) :
    vdup_n_s64 N = .ok ⟨fun _ => N⟩ := by
  unfold vdup_n_s64
  refine fill_ok (by rfl) _ fun i D => ?_
  simp only [Arr.set_fin, toBits_ofBits, ok_bind, pure_eq]

/-- `vdup_n_u8` puts the scalar in every lane. -/
theorem vdup_n_u8_spec (N : uint8_t) :
    vdup_n_u8 N = .ok ⟨fun _ => N⟩ := by
  unfold vdup_n_u8
  refine fill_ok (by rfl) _ fun i D => ?_
  simp only [Arr.set_fin, toBits_ofBits, ok_bind, pure_eq]

/-- `vdup_n_u16` puts the scalar in every lane. -/
theorem vdup_n_u16_spec (N : uint16_t) :
    vdup_n_u16 N = .ok ⟨fun _ => N⟩ := by
  unfold vdup_n_u16
  refine fill_ok (by rfl) _ fun i D => ?_
  simp only [Arr.set_fin, toBits_ofBits, ok_bind, pure_eq]

/-- `vdup_n_u32` puts the scalar in every lane. -/
theorem vdup_n_u32_spec (N : uint32_t) :
    vdup_n_u32 N = .ok ⟨fun _ => N⟩ := by
  unfold vdup_n_u32
  refine fill_ok (by rfl) _ fun i D => ?_
  simp only [Arr.set_fin, toBits_ofBits, ok_bind, pure_eq]

/-- `vdup_n_u64` puts the scalar in every lane. -/
theorem vdup_n_u64_spec (N : uint64_t) :
    vdup_n_u64 N = .ok ⟨fun _ => N⟩ := by
  unfold vdup_n_u64
  refine fill_ok (by rfl) _ fun i D => ?_
  simp only [Arr.set_fin, toBits_ofBits, ok_bind, pure_eq]

/-- `vdupq_n_u8` puts the scalar in every lane. -/
theorem vdupq_n_u8_spec (value : uint8_t) :
    vdupq_n_u8 value = .ok ⟨fun _ => value⟩ := by
  unfold vdupq_n_u8
  refine fill_ok (by rfl) _ fun i D => ?_
  simp only [Arr.set_fin, toBits_ofBits, ok_bind, pure_eq]

/-- `vdupq_n_s8` puts the scalar in every lane. -/
theorem vdupq_n_s8_spec (value : int8_t) :
    vdupq_n_s8 value = .ok ⟨fun _ => value⟩ := by
  unfold vdupq_n_s8
  refine fill_ok (by rfl) _ fun i D => ?_
  simp only [Arr.set_fin, toBits_ofBits, ok_bind, pure_eq]

/-- `vdupq_n_u16` puts the scalar in every lane. -/
theorem vdupq_n_u16_spec (value : uint16_t) :
    vdupq_n_u16 value = .ok ⟨fun _ => value⟩ := by
  unfold vdupq_n_u16
  refine fill_ok (by rfl) _ fun i D => ?_
  simp only [Arr.set_fin, toBits_ofBits, ok_bind, pure_eq]

/-- `vdupq_n_s16` puts the scalar in every lane. -/
theorem vdupq_n_s16_spec (value : int16_t) :
    vdupq_n_s16 value = .ok ⟨fun _ => value⟩ := by
  unfold vdupq_n_s16
  refine fill_ok (by rfl) _ fun i D => ?_
  simp only [Arr.set_fin, toBits_ofBits, ok_bind, pure_eq]

/-- `vdupq_n_u32` puts the scalar in every lane. -/
theorem vdupq_n_u32_spec (value : uint32_t) :
    vdupq_n_u32 value = .ok ⟨fun _ => value⟩ := by
  unfold vdupq_n_u32
  refine fill_ok (by rfl) _ fun i D => ?_
  simp only [Arr.set_fin, toBits_ofBits, ok_bind, pure_eq]

/-- `vdupq_n_s32` puts the scalar in every lane. -/
theorem vdupq_n_s32_spec (value : int32_t) :
    vdupq_n_s32 value = .ok ⟨fun _ => value⟩ := by
  unfold vdupq_n_s32
  refine fill_ok (by rfl) _ fun i D => ?_
  simp only [Arr.set_fin, toBits_ofBits, ok_bind, pure_eq]

/-- `vdupq_n_f32` puts the scalar in every lane. -/
theorem vdupq_n_f32_spec (value : float32_t) :
    vdupq_n_f32 value = .ok ⟨fun _ => value⟩ := by
  unfold vdupq_n_f32
  refine fill_ok (by rfl) _ fun i D => ?_
  simp only [Arr.set_fin, toBits_ofBits, ok_bind, pure_eq]

/-- `vmovq_n_f32` puts the scalar in every lane. -/
theorem vmovq_n_f32_spec (value : float32_t) :
    vmovq_n_f32 value = .ok ⟨fun _ => value⟩ := by
  unfold vmovq_n_f32
  refine fill_ok (by rfl) _ fun i D => ?_
  simp only [Arr.set_fin, toBits_ofBits, ok_bind, pure_eq]

/-- `vget_low_f32` gives the lower lanes. -/
theorem vget_low_f32_spec (a : float32x4_t) :
    vget_low_f32 a = .ok ⟨fun i => a[i.val]⟩ := by
  unfold vget_low_f32
  refine fill_ok (by rfl) _ fun i D => ?_
  simp (disch := omega) only [Vec.get_eq, Arr.set_fin, toBits_ofBits, ok_bind, pure_eq]
  rfl

/-- `vget_low_s32` gives the lower lanes. -/
theorem vget_low_s32_spec (a : int32x4_t) :
    vget_low_s32 a = .ok ⟨fun i => a[i.val]⟩ := by
  unfold vget_low_s32
  refine fill_ok (by rfl) _ fun i D => ?_
  simp (disch := omega) only [Vec.get_eq, Arr.set_fin, toBits_ofBits, ok_bind, pure_eq]
  rfl

/-- `vget_low_u32` gives the lower lanes. -/
theorem vget_low_u32_spec (a : uint32x4_t) :
    vget_low_u32 a = .ok ⟨fun i => a[i.val]⟩ := by
  unfold vget_low_u32
  refine fill_ok (by rfl) _ fun i D => ?_
  simp (disch := omega) only [Vec.get_eq, Arr.set_fin, toBits_ofBits, ok_bind, pure_eq]
  rfl

/-- `vget_low_s16` gives the lower lanes. -/
theorem vget_low_s16_spec (a : int16x8_t) :
    vget_low_s16 a = .ok ⟨fun i => a[i.val]⟩ := by
  unfold vget_low_s16
  refine fill_ok (by rfl) _ fun i D => ?_
  simp (disch := omega) only [Vec.get_eq, Arr.set_fin, toBits_ofBits, ok_bind, pure_eq]
  rfl

/-- `vget_low_u16` gives the lower lanes. -/
theorem vget_low_u16_spec (a : uint16x8_t) :
    vget_low_u16 a = .ok ⟨fun i => a[i.val]⟩ := by
  unfold vget_low_u16
  refine fill_ok (by rfl) _ fun i D => ?_
  simp (disch := omega) only [Vec.get_eq, Arr.set_fin, toBits_ofBits, ok_bind, pure_eq]
  rfl

/-- `vget_low_s8` gives the lower lanes. -/
theorem vget_low_s8_spec (a : int8x16_t) :
    vget_low_s8 a = .ok ⟨fun i => a[i.val]⟩ := by
  unfold vget_low_s8
  refine fill_ok (by rfl) _ fun i D => ?_
  simp (disch := omega) only [Vec.get_eq, Arr.set_fin, toBits_ofBits, ok_bind, pure_eq]
  rfl

/-- `vget_low_u8` gives the lower lanes. -/
theorem vget_low_u8_spec (a : uint8x16_t) :
    vget_low_u8 a = .ok ⟨fun i => a[i.val]⟩ := by
  unfold vget_low_u8
  refine fill_ok (by rfl) _ fun i D => ?_
  simp (disch := omega) only [Vec.get_eq, Arr.set_fin, toBits_ofBits, ok_bind, pure_eq]
  rfl

/-- `vget_high_f32` gives the upper lanes. -/
theorem vget_high_f32_spec (a : float32x4_t) :
    vget_high_f32 a = .ok ⟨fun i => a[2 + i.val]⟩ := by
  unfold vget_high_f32
  refine fill_ok (by rfl) _ fun i D => ?_
  have ea : a.get (2 + ((i.val : Nat) : Int)) = .ok (.ofBits _ (a.lane ⟨2 + i.val, by omega⟩)) :=
    Vec.get_at a _ (by omega) (by omega)
  simp only [Int.reduceDiv, ea, Arr.set_fin, toBits_ofBits, ok_bind, pure_eq]
  rfl

/-- `vget_high_s32` gives the upper lanes. -/
theorem vget_high_s32_spec (a : int32x4_t) :
    vget_high_s32 a = .ok ⟨fun i => a[2 + i.val]⟩ := by
  unfold vget_high_s32
  refine fill_ok (by rfl) _ fun i D => ?_
  have ea : a.get (2 + ((i.val : Nat) : Int)) = .ok (.ofBits _ (a.lane ⟨2 + i.val, by omega⟩)) :=
    Vec.get_at a _ (by omega) (by omega)
  simp only [Int.reduceDiv, ea, Arr.set_fin, toBits_ofBits, ok_bind, pure_eq]
  rfl

/-- `vget_high_u32` gives the upper lanes. -/
theorem vget_high_u32_spec (a : uint32x4_t) :
    vget_high_u32 a = .ok ⟨fun i => a[2 + i.val]⟩ := by
  unfold vget_high_u32
  refine fill_ok (by rfl) _ fun i D => ?_
  have ea : a.get (2 + ((i.val : Nat) : Int)) = .ok (.ofBits _ (a.lane ⟨2 + i.val, by omega⟩)) :=
    Vec.get_at a _ (by omega) (by omega)
  simp only [Int.reduceDiv, ea, Arr.set_fin, toBits_ofBits, ok_bind, pure_eq]
  rfl

/-- `vget_high_s16` gives the upper lanes. -/
theorem vget_high_s16_spec (a : int16x8_t) :
    vget_high_s16 a = .ok ⟨fun i => a[4 + i.val]⟩ := by
  unfold vget_high_s16
  refine fill_ok (by rfl) _ fun i D => ?_
  have ea : a.get (4 + ((i.val : Nat) : Int)) = .ok (.ofBits _ (a.lane ⟨4 + i.val, by omega⟩)) :=
    Vec.get_at a _ (by omega) (by omega)
  simp only [Int.reduceDiv, ea, Arr.set_fin, toBits_ofBits, ok_bind, pure_eq]
  rfl

/-- `vget_high_u16` gives the upper lanes. -/
theorem vget_high_u16_spec (a : uint16x8_t) :
    vget_high_u16 a = .ok ⟨fun i => a[4 + i.val]⟩ := by
  unfold vget_high_u16
  refine fill_ok (by rfl) _ fun i D => ?_
  have ea : a.get (4 + ((i.val : Nat) : Int)) = .ok (.ofBits _ (a.lane ⟨4 + i.val, by omega⟩)) :=
    Vec.get_at a _ (by omega) (by omega)
  simp only [Int.reduceDiv, ea, Arr.set_fin, toBits_ofBits, ok_bind, pure_eq]
  rfl

/-- `vget_high_s8` gives the upper lanes. -/
theorem vget_high_s8_spec (a : int8x16_t) :
    vget_high_s8 a = .ok ⟨fun i => a[8 + i.val]⟩ := by
  unfold vget_high_s8
  refine fill_ok (by rfl) _ fun i D => ?_
  have ea : a.get (8 + ((i.val : Nat) : Int)) = .ok (.ofBits _ (a.lane ⟨8 + i.val, by omega⟩)) :=
    Vec.get_at a _ (by omega) (by omega)
  simp only [Int.reduceDiv, ea, Arr.set_fin, toBits_ofBits, ok_bind, pure_eq]
  rfl

/-- `vget_high_u8` gives the upper lanes. -/
theorem vget_high_u8_spec (a : uint8x16_t) :
    vget_high_u8 a = .ok ⟨fun i => a[8 + i.val]⟩ := by
  unfold vget_high_u8
  refine fill_ok (by rfl) _ fun i D => ?_
  have ea : a.get (8 + ((i.val : Nat) : Int)) = .ok (.ofBits _ (a.lane ⟨8 + i.val, by omega⟩)) :=
    Vec.get_at a _ (by omega) (by omega)
  simp only [Int.reduceDiv, ea, Arr.set_fin, toBits_ofBits, ok_bind, pure_eq]
  rfl

/-- `vcombine_u8` puts the first operand in the lower lanes and the second in the upper lanes. -/
theorem vcombine_u8_spec (low high : uint8x8_t) :
    vcombine_u8 low high = .ok ⟨fun i => if h : i.val < 8 then low[i.val] else high[i.val - 8]⟩ := by
  unfold vcombine_u8
  refine fill_own2 (fun j => j.val) (fun i => if h : i.val < 8 then low[i.val] else high[i.val - 8]) 8 8 (by rfl) (by rfl) (fun j => j.isLt) ?_ ?_
  · intro k hk
    perm_close
  · intro k hk
    perm_close

/-- The lower half of `vcombine_u8` is its first operand. -/
theorem vcombine_u8_low (low high : uint8x8_t) :
    (vcombine_u8 low high >>= vget_low_u8) = .ok low := by
  rw [vcombine_u8_spec, ok_bind, vget_low_u8_spec]
  congr 1
  ext i : 2
  exact dif_pos i.isLt

/-- The upper half of `vcombine_u8` is its second operand. -/
theorem vcombine_u8_high (low high : uint8x8_t) :
    (vcombine_u8 low high >>= vget_high_u8) = .ok high := by
  rw [vcombine_u8_spec, ok_bind, vget_high_u8_spec]
  congr 1
  ext i : 2
  refine (dif_neg (by simp only; omega)).trans (congrArg high.lane (Fin.ext ?_))
  simp only
  omega

/-- Combining the two halves of a register with `vcombine_u8` gives the register back. -/
theorem vcombine_u8_halves (a : uint8x16_t) :
    (do vcombine_u8 (← vget_low_u8 a) (← vget_high_u8 a)) = .ok a := by
  rw [vget_low_u8_spec, ok_bind, vget_high_u8_spec, ok_bind, vcombine_u8_spec]
  congr 1
  ext i : 2
  simp only
  split
  · rfl
  · refine congrArg a.lane (Fin.ext ?_)
    simp only
    omega

/-- `vcombine_u16` puts the first operand in the lower lanes and the second in the upper lanes. -/
theorem vcombine_u16_spec (low high : uint16x4_t) :
    vcombine_u16 low high = .ok ⟨fun i => if h : i.val < 4 then low[i.val] else high[i.val - 4]⟩ := by
  unfold vcombine_u16
  refine fill_own2 (fun j => j.val) (fun i => if h : i.val < 4 then low[i.val] else high[i.val - 4]) 4 4 (by rfl) (by rfl) (fun j => j.isLt) ?_ ?_
  · intro k hk
    perm_close
  · intro k hk
    perm_close

/-- The lower half of `vcombine_u16` is its first operand. -/
theorem vcombine_u16_low (low high : uint16x4_t) :
    (vcombine_u16 low high >>= vget_low_u16) = .ok low := by
  rw [vcombine_u16_spec, ok_bind, vget_low_u16_spec]
  congr 1
  ext i : 2
  exact dif_pos i.isLt

/-- The upper half of `vcombine_u16` is its second operand. -/
theorem vcombine_u16_high (low high : uint16x4_t) :
    (vcombine_u16 low high >>= vget_high_u16) = .ok high := by
  rw [vcombine_u16_spec, ok_bind, vget_high_u16_spec]
  congr 1
  ext i : 2
  refine (dif_neg (by simp only; omega)).trans (congrArg high.lane (Fin.ext ?_))
  simp only
  omega

/-- Combining the two halves of a register with `vcombine_u16` gives the register back. -/
theorem vcombine_u16_halves (a : uint16x8_t) :
    (do vcombine_u16 (← vget_low_u16 a) (← vget_high_u16 a)) = .ok a := by
  rw [vget_low_u16_spec, ok_bind, vget_high_u16_spec, ok_bind, vcombine_u16_spec]
  congr 1
  ext i : 2
  simp only
  split
  · rfl
  · refine congrArg a.lane (Fin.ext ?_)
    simp only
    omega

/-- `vcombine_u32` puts the first operand in the lower lanes and the second in the upper lanes. -/
theorem vcombine_u32_spec (low high : uint32x2_t) :
    vcombine_u32 low high = .ok ⟨fun i => if h : i.val < 2 then low[i.val] else high[i.val - 2]⟩ := by
  unfold vcombine_u32
  refine fill_own2 (fun j => j.val) (fun i => if h : i.val < 2 then low[i.val] else high[i.val - 2]) 2 2 (by rfl) (by rfl) (fun j => j.isLt) ?_ ?_
  · intro k hk
    perm_close
  · intro k hk
    perm_close

/-- The lower half of `vcombine_u32` is its first operand. -/
theorem vcombine_u32_low (low high : uint32x2_t) :
    (vcombine_u32 low high >>= vget_low_u32) = .ok low := by
  rw [vcombine_u32_spec, ok_bind, vget_low_u32_spec]
  congr 1
  ext i : 2
  exact dif_pos i.isLt

/-- The upper half of `vcombine_u32` is its second operand. -/
theorem vcombine_u32_high (low high : uint32x2_t) :
    (vcombine_u32 low high >>= vget_high_u32) = .ok high := by
  rw [vcombine_u32_spec, ok_bind, vget_high_u32_spec]
  congr 1
  ext i : 2
  refine (dif_neg (by simp only; omega)).trans (congrArg high.lane (Fin.ext ?_))
  simp only
  omega

/-- Combining the two halves of a register with `vcombine_u32` gives the register back. -/
theorem vcombine_u32_halves (a : uint32x4_t) :
    (do vcombine_u32 (← vget_low_u32 a) (← vget_high_u32 a)) = .ok a := by
  rw [vget_low_u32_spec, ok_bind, vget_high_u32_spec, ok_bind, vcombine_u32_spec]
  congr 1
  ext i : 2
  simp only
  split
  · rfl
  · refine congrArg a.lane (Fin.ext ?_)
    simp only
    omega

/-- `vcombine_s8` puts the first operand in the lower lanes and the second in the upper lanes. -/
theorem vcombine_s8_spec (low high : int8x8_t) :
    vcombine_s8 low high = .ok ⟨fun i => if h : i.val < 8 then low[i.val] else high[i.val - 8]⟩ := by
  unfold vcombine_s8
  refine fill_own2 (fun j => j.val) (fun i => if h : i.val < 8 then low[i.val] else high[i.val - 8]) 8 8 (by rfl) (by rfl) (fun j => j.isLt) ?_ ?_
  · intro k hk
    perm_close
  · intro k hk
    perm_close

/-- The lower half of `vcombine_s8` is its first operand. -/
theorem vcombine_s8_low (low high : int8x8_t) :
    (vcombine_s8 low high >>= vget_low_s8) = .ok low := by
  rw [vcombine_s8_spec, ok_bind, vget_low_s8_spec]
  congr 1
  ext i : 2
  exact dif_pos i.isLt

/-- The upper half of `vcombine_s8` is its second operand. -/
theorem vcombine_s8_high (low high : int8x8_t) :
    (vcombine_s8 low high >>= vget_high_s8) = .ok high := by
  rw [vcombine_s8_spec, ok_bind, vget_high_s8_spec]
  congr 1
  ext i : 2
  refine (dif_neg (by simp only; omega)).trans (congrArg high.lane (Fin.ext ?_))
  simp only
  omega

/-- Combining the two halves of a register with `vcombine_s8` gives the register back. -/
theorem vcombine_s8_halves (a : int8x16_t) :
    (do vcombine_s8 (← vget_low_s8 a) (← vget_high_s8 a)) = .ok a := by
  rw [vget_low_s8_spec, ok_bind, vget_high_s8_spec, ok_bind, vcombine_s8_spec]
  congr 1
  ext i : 2
  simp only
  split
  · rfl
  · refine congrArg a.lane (Fin.ext ?_)
    simp only
    omega

/-- `vcombine_s16` puts the first operand in the lower lanes and the second in the upper lanes. -/
theorem vcombine_s16_spec (low high : int16x4_t) :
    vcombine_s16 low high = .ok ⟨fun i => if h : i.val < 4 then low[i.val] else high[i.val - 4]⟩ := by
  unfold vcombine_s16
  refine fill_own2 (fun j => j.val) (fun i => if h : i.val < 4 then low[i.val] else high[i.val - 4]) 4 4 (by rfl) (by rfl) (fun j => j.isLt) ?_ ?_
  · intro k hk
    perm_close
  · intro k hk
    perm_close

/-- The lower half of `vcombine_s16` is its first operand. -/
theorem vcombine_s16_low (low high : int16x4_t) :
    (vcombine_s16 low high >>= vget_low_s16) = .ok low := by
  rw [vcombine_s16_spec, ok_bind, vget_low_s16_spec]
  congr 1
  ext i : 2
  exact dif_pos i.isLt

/-- The upper half of `vcombine_s16` is its second operand. -/
theorem vcombine_s16_high (low high : int16x4_t) :
    (vcombine_s16 low high >>= vget_high_s16) = .ok high := by
  rw [vcombine_s16_spec, ok_bind, vget_high_s16_spec]
  congr 1
  ext i : 2
  refine (dif_neg (by simp only; omega)).trans (congrArg high.lane (Fin.ext ?_))
  simp only
  omega

/-- Combining the two halves of a register with `vcombine_s16` gives the register back. -/
theorem vcombine_s16_halves (a : int16x8_t) :
    (do vcombine_s16 (← vget_low_s16 a) (← vget_high_s16 a)) = .ok a := by
  rw [vget_low_s16_spec, ok_bind, vget_high_s16_spec, ok_bind, vcombine_s16_spec]
  congr 1
  ext i : 2
  simp only
  split
  · rfl
  · refine congrArg a.lane (Fin.ext ?_)
    simp only
    omega

/-- `vcombine_s32` puts the first operand in the lower lanes and the second in the upper lanes. -/
theorem vcombine_s32_spec (low high : int32x2_t) :
    vcombine_s32 low high = .ok ⟨fun i => if h : i.val < 2 then low[i.val] else high[i.val - 2]⟩ := by
  unfold vcombine_s32
  refine fill_own2 (fun j => j.val) (fun i => if h : i.val < 2 then low[i.val] else high[i.val - 2]) 2 2 (by rfl) (by rfl) (fun j => j.isLt) ?_ ?_
  · intro k hk
    perm_close
  · intro k hk
    perm_close

/-- The lower half of `vcombine_s32` is its first operand. -/
theorem vcombine_s32_low (low high : int32x2_t) :
    (vcombine_s32 low high >>= vget_low_s32) = .ok low := by
  rw [vcombine_s32_spec, ok_bind, vget_low_s32_spec]
  congr 1
  ext i : 2
  exact dif_pos i.isLt

/-- The upper half of `vcombine_s32` is its second operand. -/
theorem vcombine_s32_high (low high : int32x2_t) :
    (vcombine_s32 low high >>= vget_high_s32) = .ok high := by
  rw [vcombine_s32_spec, ok_bind, vget_high_s32_spec]
  congr 1
  ext i : 2
  refine (dif_neg (by simp only; omega)).trans (congrArg high.lane (Fin.ext ?_))
  simp only
  omega

/-- Combining the two halves of a register with `vcombine_s32` gives the register back. -/
theorem vcombine_s32_halves (a : int32x4_t) :
    (do vcombine_s32 (← vget_low_s32 a) (← vget_high_s32 a)) = .ok a := by
  rw [vget_low_s32_spec, ok_bind, vget_high_s32_spec, ok_bind, vcombine_s32_spec]
  congr 1
  ext i : 2
  simp only
  split
  · rfl
  · refine congrArg a.lane (Fin.ext ?_)
    simp only
    omega

/-- `vget_lane_f32` returns the lane with the given in-range index. -/
theorem vget_lane_f32_spec (v : float32x2_t) (lane : Fin 2) :
    vget_lane_f32 v ((lane.val : Nat) : Int) = .ok (v.lane lane) := by
  unfold vget_lane_f32
  simp only [Vec.get_fin, toBits_ofBits, ok_bind]

/-- `vget_lane_f32` does not check its index: every out-of-range index reads outside the register (undefined behaviour) instead of aborting. -/
theorem vget_lane_f32_oob (v : float32x2_t) (lane : Int) (h : ¬ (0 ≤ lane ∧ lane < 2)) :
    vget_lane_f32 v lane = .ub .outOfBounds := by
  unfold vget_lane_f32
  rw [Vec.get_oob v (by omega)]
  rfl
example := vget_lane_f32_oob (⟨fun i => BitVec.ofNat 32 (4 + i.val)⟩) (-1) (by decide)

/-- `vgetq_lane_u8` returns the lane with the given in-range index. -/
theorem vgetq_lane_u8_spec (v : uint8x16_t) (lane : Fin 16) :
    vgetq_lane_u8 v ((lane.val : Nat) : Int) = .ok (v.lane lane) := by
  unfold vgetq_lane_u8
  simp only [Vec.get_fin, toBits_ofBits, ok_bind]

/-- `vgetq_lane_u8` does not check its index: every out-of-range index reads outside the register (undefined behaviour) instead of aborting. -/
theorem vgetq_lane_u8_oob (v : uint8x16_t) (lane : Int) (h : ¬ (0 ≤ lane ∧ lane < 16)) :
    vgetq_lane_u8 v lane = .ub .outOfBounds := by
  unfold vgetq_lane_u8
  rw [Vec.get_oob v (by omega)]
  rfl
example := vgetq_lane_u8_oob (⟨fun i => BitVec.ofNat 8 (4 + i.val)⟩) (-1) (by decide)

/-- `vgetq_lane_u16` returns the lane with the given in-range index. -/
theorem vgetq_lane_u16_spec (v : uint16x8_t) (lane : Fin 8) :
    vgetq_lane_u16 v ((lane.val : Nat) : Int) = .ok (v.lane lane) := by
  unfold vgetq_lane_u16
  simp only [Vec.get_fin, toBits_ofBits, ok_bind]

/-- `vgetq_lane_u16` does not check its index: every out-of-range index reads outside the register (undefined behaviour) instead of aborting. -/
theorem vgetq_lane_u16_oob (v : uint16x8_t) (lane : Int) (h : ¬ (0 ≤ lane ∧ lane < 8)) :
    vgetq_lane_u16 v lane = .ub .outOfBounds := by
  unfold vgetq_lane_u16
  rw [Vec.get_oob v (by omega)]
  rfl
example := vgetq_lane_u16_oob (⟨fun i => BitVec.ofNat 16 (4 + i.val)⟩) (-1) (by decide)

/-- `vgetq_lane_u32` returns the lane with the given in-range index. -/
theorem vgetq_lane_u32_spec (v : uint32x4_t) (lane : Fin 4) :
    vgetq_lane_u32 v ((lane.val : Nat) : Int) = .ok (v.lane lane) := by
  unfold vgetq_lane_u32
  simp only [Vec.get_fin, toBits_ofBits, ok_bind]

/-- `vgetq_lane_u32` does not check its index: every out-of-range index reads outside the register (undefined behaviour) instead of aborting. -/
theorem vgetq_lane_u32_oob (v : uint32x4_t) (lane : Int) (h : ¬ (0 ≤ lane ∧ lane < 4)) :
    vgetq_lane_u32 v lane = .ub .outOfBounds := by
  unfold vgetq_lane_u32
  rw [Vec.get_oob v (by omega)]
  rfl
example := vgetq_lane_u32_oob (⟨fun i => BitVec.ofNat 32 (4 + i.val)⟩) (-1) (by decide)

/-- `vgetq_lane_u64` returns the lane with the given in-range index. -/
theorem vgetq_lane_u64_spec (v : uint64x2_t) (lane : Fin 2) :
    vgetq_lane_u64 v ((lane.val : Nat) : Int) = .ok (v.lane lane) := by
  unfold vgetq_lane_u64
  simp only [Vec.get_fin, toBits_ofBits, ok_bind]

/-- `vgetq_lane_u64` does not check its index: every out-of-range index reads outside the register (undefined behaviour) instead of aborting. -/
theorem vgetq_lane_u64_oob (v : uint64x2_t) (lane : Int) (h : ¬ (0 ≤ lane ∧ lane < 2)) :
    vgetq_lane_u64 v lane = .ub .outOfBounds := by
  unfold vgetq_lane_u64
  rw [Vec.get_oob v (by omega)]
  rfl
example := vgetq_lane_u64_oob (⟨fun i => BitVec.ofNat 64 (4 + i.val)⟩) (-1) (by decide)

/-- `vgetq_lane_s8` returns the lane with the given in-range index. -/
theorem vgetq_lane_s8_spec (v : int8x16_t) (lane : Fin 16) :
    vgetq_lane_s8 v ((lane.val : Nat) : Int) = .ok (v.lane lane) := by
  unfold vgetq_lane_s8
  simp only [Vec.get_fin, toBits_ofBits, ok_bind]

/-- `vgetq_lane_s8` does not check its index: every out-of-range index reads outside the register (undefined behaviour) instead of aborting. -/
theorem vgetq_lane_s8_oob (v : int8x16_t) (lane : Int) (h : ¬ (0 ≤ lane ∧ lane < 16)) :
    vgetq_lane_s8 v lane = .ub .outOfBounds := by
  unfold vgetq_lane_s8
  rw [Vec.get_oob v (by omega)]
  rfl
example := vgetq_lane_s8_oob (⟨fun i => BitVec.ofNat 8 (4 + i.val)⟩) (-1) (by decide)

/-- `vgetq_lane_s16` returns the lane with the given in-range index. -/
theorem vgetq_lane_s16_spec (v : int16x8_t) (lane : Fin 8) :
    vgetq_lane_s16 v ((lane.val : Nat) : Int) = .ok (v.lane lane) := by
  unfold vgetq_lane_s16
  simp only [Vec.get_fin, toBits_ofBits, ok_bind]

/-- `vgetq_lane_s16` does not check its index: every out-of-range index reads outside the register (undefined behaviour) instead of aborting. -/
theorem vgetq_lane_s16_oob (v : int16x8_t) (lane : Int) (h : ¬ (0 ≤ lane ∧ lane < 8)) :
    vgetq_lane_s16 v lane = .ub .outOfBounds := by
  unfold vgetq_lane_s16
  rw [Vec.get_oob v (by omega)]
  rfl
example := vgetq_lane_s16_oob (⟨fun i => BitVec.ofNat 16 (4 + i.val)⟩) (-1) (by decide)

/-- `vgetq_lane_s32` returns the lane with the given in-range index. -/
theorem vgetq_lane_s32_spec (v : int32x4_t) (lane : Fin 4) :
    vgetq_lane_s32 v ((lane.val : Nat) : Int) = .ok (v.lane lane) := by
  unfold vgetq_lane_s32
  simp only [Vec.get_fin, toBits_ofBits, ok_bind]

/-- `vgetq_lane_s32` does not check its index: every out-of-range index reads outside the register (undefined behaviour) instead of aborting. -/
theorem vgetq_lane_s32_oob (v : int32x4_t) (lane : Int) (h : ¬ (0 ≤ lane ∧ lane < 4)) :
    vgetq_lane_s32 v lane = .ub .outOfBounds := by
  unfold vgetq_lane_s32
  rw [Vec.get_oob v (by omega)]
  rfl
example := vgetq_lane_s32_oob (⟨fun i => BitVec.ofNat 32 (4 + i.val)⟩) (-1) (by decide)

/-- `vgetq_lane_s64` returns the lane with the given in-range index. -/
theorem vgetq_lane_s64_spec (v : int64x2_t) (lane : Fin 2) :
    vgetq_lane_s64 v ((lane.val : Nat) : Int) = .ok (v.lane lane) := by
  unfold vgetq_lane_s64
  simp only [Vec.get_fin, toBits_ofBits, ok_bind]

/-- `vgetq_lane_s64` does not check its index: every out-of-range index reads outside the register (undefined behaviour) instead of aborting. -/
theorem vgetq_lane_s64_oob (v : int64x2_t) (lane : Int) (h : ¬ (0 ≤ lane ∧ lane < 2)) :
    vgetq_lane_s64 v lane = .ub .outOfBounds := by
  unfold vgetq_lane_s64
  rw [Vec.get_oob v (by omega)]
  rfl
example := vgetq_lane_s64_oob (⟨fun i => BitVec.ofNat 64 (4 + i.val)⟩) (-1) (by decide)

/-- `vgetq_lane_f64` returns the lane with the given in-range index. -/
theorem vgetq_lane_f64_spec (v : float64x2_t) (lane : Fin 2) :
    vgetq_lane_f64 v ((lane.val : Nat) : Int) = .ok (v.lane lane) := by
  unfold vgetq_lane_f64
  simp only [Vec.get_fin, toBits_ofBits, ok_bind]

/-- `vgetq_lane_f64` does not check its index: every out-of-range index reads outside the register (undefined behaviour) instead of aborting. -/
theorem vgetq_lane_f64_oob (v : float64x2_t) (lane : Int) (h : ¬ (0 ≤ lane ∧ lane < 2)) :
    vgetq_lane_f64 v lane = .ub .outOfBounds := by
  unfold vgetq_lane_f64
  rw [Vec.get_oob v (by omega)]
  rfl
example := vgetq_lane_f64_oob (⟨fun i => BitVec.ofNat 64 (4 + i.val)⟩) (-1) (by decide)

/-- `vgetq_lane_f32` returns the lane with the given in-range index. -/
theorem vgetq_lane_f32_spec (v : float32x4_t) (lane : Fin 4) :
    vgetq_lane_f32 v ((lane.val : Nat) : Int) = .ok (v.lane lane) := by
  unfold vgetq_lane_f32
  rw [if_neg (by omega)]
  simp only [Vec.get_fin, toBits_ofBits, ok_bind]

/-- `vgetq_lane_f32` aborts for every out-of-range index. -/
theorem vgetq_lane_f32_abort (v : float32x4_t) (lane : Int) (h : ¬ (0 ≤ lane ∧ lane < 4)) :
    vgetq_lane_f32 v lane = .abort "vgetq_lane_f32: lane should is out of range [0, 3]" := by
  unfold vgetq_lane_f32
  exact if_pos (by omega)
example := vgetq_lane_f32_abort (⟨fun i => BitVec.ofNat 32 (4 + i.val)⟩) (-1) (by decide)

/-- `vmovn_s32` keeps the low half of each lane. -/
theorem vmovn_s32_spec (a : int32x4_t) :
    vmovn_s32 a = .ok ⟨fun i => (a.lane i).setWidth 16⟩ := by
  unfold vmovn_s32
  refine fill_ok (by rfl) _ fun i D => ?_
  csim
  simp only [ofInt_toInt_trunc16, ofInt_toNat]

/-- `vmovn_u32` keeps the low half of each lane. -/
theorem vmovn_u32_spec (a : uint32x4_t) :
    vmovn_u32 a = .ok ⟨fun i => (a.lane i).setWidth 16⟩ := by
  unfold vmovn_u32
  refine fill_ok (by rfl) _ fun i D => ?_
  csim
  simp only [ofInt_toInt_trunc16, ofInt_toNat]

/-- `vmovn_u16` keeps the low half of each lane. -/
theorem vmovn_u16_spec (a : uint16x8_t) :
    vmovn_u16 a = .ok ⟨fun i => (a.lane i).setWidth 8⟩ := by
  unfold vmovn_u16
  refine fill_ok (by rfl) _ fun i D => ?_
  csim
  simp only [ofInt_toInt_trunc16, ofInt_toNat]

/-- `vmovl_u8` zero-extends each lane. -/
theorem vmovl_u8_spec (a : uint8x8_t) :
    vmovl_u8 a = .ok ⟨fun i => (a.lane i).setWidth 16⟩ := by
  unfold vmovl_u8
  refine fill_ok (by rfl) _ fun i D => ?_
  csim
  bvnorm

/-- `vmovl_u8` preserves the value of each lane. -/
theorem vmovl_u8_exact (a : uint8x8_t) :
    ∃ r, vmovl_u8 a = .ok r ∧ ∀ i, ((r.lane i).toNat : Int) = ((a.lane i).toNat : Int) := by
  refine ⟨_, vmovl_u8_spec a, fun i => ?_⟩
  simp only [BitVec.toNat_setWidth, Elem.bits, ITy.bits]
  omega

/-- `vmovl_u16` zero-extends each lane. -/
theorem vmovl_u16_spec (a : uint16x4_t) :
    vmovl_u16 a = .ok ⟨fun i => (a.lane i).setWidth 32⟩ := by
  unfold vmovl_u16
  refine fill_ok (by rfl) _ fun i D => ?_
  csim
  bvnorm

/-- `vmovl_u16` preserves the value of each lane. -/
theorem vmovl_u16_exact (a : uint16x4_t) :
    ∃ r, vmovl_u16 a = .ok r ∧ ∀ i, ((r.lane i).toNat : Int) = ((a.lane i).toNat : Int) := by
  refine ⟨_, vmovl_u16_spec a, fun i => ?_⟩
  simp only [BitVec.toNat_setWidth, Elem.bits, ITy.bits]
  omega

/-- `vmovl_u32` zero-extends each lane. -/
theorem vmovl_u32_spec (a : uint32x2_t) :
    vmovl_u32 a = .ok ⟨fun i => (a.lane i).setWidth 64⟩ := by
  unfold vmovl_u32
  refine fill_ok (by rfl) _ fun i D => ?_
  csim
  bvnorm

/-- `vmovl_u32` preserves the value of each lane. -/
theorem vmovl_u32_exact (a : uint32x2_t) :
    ∃ r, vmovl_u32 a = .ok r ∧ ∀ i, ((r.lane i).toNat : Int) = ((a.lane i).toNat : Int) := by
  refine ⟨_, vmovl_u32_spec a, fun i => ?_⟩
  simp only [BitVec.toNat_setWidth, Elem.bits, ITy.bits]
  omega

/-- `vmovl_s8` sign-extends each lane. -/
theorem vmovl_s8_spec (a : int8x8_t) :
    vmovl_s8 a = .ok ⟨fun i => (a.lane i).signExtend 16⟩ := by
  unfold vmovl_s8
  refine fill_ok (by rfl) _ fun i D => ?_
  csim
  bvnorm

/-- `vmovl_s8` preserves the value of each lane. -/
theorem vmovl_s8_exact (a : int8x8_t) :
    ∃ r, vmovl_s8 a = .ok r ∧ ∀ i, (r.lane i).toInt = (a.lane i).toInt := by
  refine ⟨_, vmovl_s8_spec a, fun i => ?_⟩
  exact BitVec.toInt_signExtend_of_le (by decide)

/-- `vmovl_s16` sign-extends each lane. -/
theorem vmovl_s16_spec (a : int16x4_t) :
    vmovl_s16 a = .ok ⟨fun i => (a.lane i).signExtend 32⟩ := by
  unfold vmovl_s16
  refine fill_ok (by rfl) _ fun i D => ?_
  csim
  bvnorm

/-- `vmovl_s16` preserves the value of each lane. -/
theorem vmovl_s16_exact (a : int16x4_t) :
    ∃ r, vmovl_s16 a = .ok r ∧ ∀ i, (r.lane i).toInt = (a.lane i).toInt := by
  refine ⟨_, vmovl_s16_spec a, fun i => ?_⟩
  exact BitVec.toInt_signExtend_of_le (by decide)

/-- `vmovl_s32` sign-extends each lane. -/
theorem vmovl_s32_spec (a : int32x2_t) :
    vmovl_s32 a = .ok ⟨fun i => (a.lane i).signExtend 64⟩ := by
  unfold vmovl_s32
  refine fill_ok (by rfl) _ fun i D => ?_
  csim
  bvnorm

/-- `vmovl_s32` preserves the value of each lane. -/
theorem vmovl_s32_exact (a : int32x2_t) :
    ∃ r, vmovl_s32 a = .ok r ∧ ∀ i, (r.lane i).toInt = (a.lane i).toInt := by
  refine ⟨_, vmovl_s32_spec a, fun i => ?_⟩
  exact BitVec.toInt_signExtend_of_le (by decide)

/-- `vqmovn_u16` clamps each lane to `[0, 255]`. -/
theorem vqmovn_u16_spec (a : uint16x8_t) :
    vqmovn_u16 a = .ok ⟨fun i => usat 8 ((a.lane i).toNat : Int)⟩ := by
  unfold vqmovn_u16
  refine fill_ok (by rfl) _ fun i D => ?_
  csim
  repeat' split
  all_goals sat_close

/-- `vqmovun_s16` clamps each lane to `[0, 255]`. -/
theorem vqmovun_s16_spec (a : int16x8_t) :
    vqmovun_s16 a = .ok ⟨fun i => usat 8 (a.lane i).toInt⟩ := by
  unfold vqmovun_s16
  refine fill_ok (by rfl) _ fun i D => ?_
  have hb := toInt16 (a.lane i)
  csim
  repeat' split
  all_goals sat_close

/-- `vmovn_s32` after `vmovl_s16` is the identity. -/
theorem vmovn_s32_vmovl_s16 (a : int16x4_t) :
    (vmovl_s16 a >>= vmovn_s32) = .ok a := by
  rw [vmovl_s16_spec, ok_bind, vmovn_s32_spec]
  congr 1
  ext i : 2
  show ((a.lane i).signExtend 32).setWidth 16 = a.lane i
  exact setWidth_signExtend_self _ _ (by decide)

/-- `vmovn_u32` after `vmovl_u16` is the identity. -/
theorem vmovn_u32_vmovl_u16 (a : uint16x4_t) :
    (vmovl_u16 a >>= vmovn_u32) = .ok a := by
  rw [vmovl_u16_spec, ok_bind, vmovn_u32_spec]
  congr 1
  ext i : 2
  show ((a.lane i).setWidth 32).setWidth 16 = a.lane i
  rw [BitVec.setWidth_setWidth_of_le _ (by decide), BitVec.setWidth_eq]

/-- `vmovn_u16` after `vmovl_u8` is the identity. -/
theorem vmovn_u16_vmovl_u8 (a : uint8x8_t) :
    (vmovl_u8 a >>= vmovn_u16) = .ok a := by
  rw [vmovl_u8_spec, ok_bind, vmovn_u16_spec]
  congr 1
  ext i : 2
  show ((a.lane i).setWidth 16).setWidth 8 = a.lane i
  rw [BitVec.setWidth_setWidth_of_le _ (by decide), BitVec.setWidth_eq]

/-- `vqmovn_u16` after `vmovl_u8` is the identity. -/
theorem vqmovn_u16_vmovl_u8 (a : uint8x8_t) :
    (vmovl_u8 a >>= vqmovn_u16) = .ok a := by
  rw [vmovl_u8_spec, ok_bind, vqmovn_u16_spec]
  congr 1
  ext i : 2
  show usat 8 (((a.lane i).setWidth 16).toNat : Int) = a.lane i
  have := (a.lane i).isLt
  rw [BitVec.toNat_setWidth, usat]
  have e : clamp 0 (2 ^ 8 - 1) (((a.lane i).toNat % 2 ^ 16 : Nat) : Int) = ((a.lane i).toNat : Int) := by
    have h2 : (a.lane i).toNat < 256 := this
    rw [Nat.mod_eq_of_lt (by omega)]
    simp only [clamp, Int.reducePow, Int.reduceSub]
    omega
  rw [e, ofInt_toNat, BitVec.setWidth_eq]

end Verif.Props
