import Verif.Fill
import Verif.Model.Add
import Verif.Model.Move
/-! # Integer maximum and minimum (C29, C30)

Generated by `tools/gen_props.py`. -/

set_option linter.unusedSimpArgs false
set_option linter.unusedVariables false

namespace Verif.Props
open Verif.Model Verif.Spec

/-- `vmaxq_s8` gives the larger lane in the signed order. -/
theorem vmaxq_s8_spec [Dialect] (N M : int8x16_t) :
    vmaxq_s8 N M = .ok ⟨fun i => BitVec.ofInt 8 (max (N.lane i).toInt (M.lane i).toInt)⟩ := by
  unfold vmaxq_s8
  refine fill_ok (by rfl) _ fun i D => ?_
  have hb0 := toInt8 (N.lane i)
  have hb1 := toInt8 (M.lane i)
  csim
  split
  all_goals (congr 2; congr 1; omega)

/-- The value of each lane of `vmaxq_s8`. -/
theorem vmaxq_s8_exact [Dialect] (N M : int8x16_t) :
    ∃ r, vmaxq_s8 N M = .ok r ∧ ∀ i, (r.lane i).toInt = max (N.lane i).toInt (M.lane i).toInt := by
  refine ⟨_, vmaxq_s8_spec N M, fun i => ?_⟩
  have hb0 := toInt8 (N.lane i)
  have hb1 := toInt8 (M.lane i)
  show (BitVec.ofInt 8 _).toInt = _
  rw [BitVec.toInt_ofInt]
  exact bmod8 (by omega)

/-- `vmaxq_s16` gives the larger lane in the signed order. -/
theorem vmaxq_s16_spec [Dialect] (N M : int16x8_t) :
    vmaxq_s16 N M = .ok ⟨fun i => BitVec.ofInt 16 (max (N.lane i).toInt (M.lane i).toInt)⟩ := by
  unfold vmaxq_s16
  refine fill_ok (by rfl) _ fun i D => ?_
  have hb0 := toInt16 (N.lane i)
  have hb1 := toInt16 (M.lane i)
  csim
  split
  all_goals (congr 2; congr 1; omega)

/-- The value of each lane of `vmaxq_s16`. -/
theorem vmaxq_s16_exact [Dialect] (N M : int16x8_t) :
    ∃ r, vmaxq_s16 N M = .ok r ∧ ∀ i, (r.lane i).toInt = max (N.lane i).toInt (M.lane i).toInt := by
  refine ⟨_, vmaxq_s16_spec N M, fun i => ?_⟩
  have hb0 := toInt16 (N.lane i)
  have hb1 := toInt16 (M.lane i)
  show (BitVec.ofInt 16 _).toInt = _
  rw [BitVec.toInt_ofInt]
  exact bmod16 (by omega)

/-- `vmaxq_s32` gives the larger lane in the signed order. -/
theorem vmaxq_s32_spec [Dialect] (N M : int32x4_t) :
    vmaxq_s32 N M = .ok ⟨fun i => BitVec.ofInt 32 (max (N.lane i).toInt (M.lane i).toInt)⟩ := by
  unfold vmaxq_s32
  refine fill_ok (by rfl) _ fun i D => ?_
  have hb0 := toInt32 (N.lane i)
  have hb1 := toInt32 (M.lane i)
  csim
  split
  all_goals (congr 2; congr 1; omega)

/-- The value of each lane of `vmaxq_s32`. -/
theorem vmaxq_s32_exact [Dialect] (N M : int32x4_t) :
    ∃ r, vmaxq_s32 N M = .ok r ∧ ∀ i, (r.lane i).toInt = max (N.lane i).toInt (M.lane i).toInt := by
  refine ⟨_, vmaxq_s32_spec N M, fun i => ?_⟩
  have hb0 := toInt32 (N.lane i)
  have hb1 := toInt32 (M.lane i)
  show (BitVec.ofInt 32 _).toInt = _
  rw [BitVec.toInt_ofInt]
  exact bmod32 (by omega)

/-- `vmaxq_u8` is defined on signed lanes and compares in the signed order. -/
theorem vmaxq_u8_partial [Dialect] (N M : int8x16_t) :
    vmaxq_u8 N M = .ok ⟨fun i => BitVec.ofInt 8 (max (N.lane i).toInt (M.lane i).toInt)⟩ := by
  unfold vmaxq_u8
  refine fill_ok (by rfl) _ fun i D => ?_
  have hb0 := toInt8 (N.lane i)
  have hb1 := toInt8 (M.lane i)
  csim
  split
  all_goals (congr 2; congr 1; omega)

/-- `vmaxq_u8` does not give the larger lane in the unsigned order. -/
theorem vmaxq_u8_wrong [Dialect] :
    ¬ ∀ (N M : int8x16_t), vmaxq_u8 N M = .ok ⟨fun i => BitVec.ofNat 8 (max (N.lane i).toNat (M.lane i).toNat)⟩ := by
  intro h
  have h := h (⟨fun _ => 128#8⟩) (⟨fun _ => 1#8⟩)
  rw [vmaxq_u8_partial] at h
  have h := congrFun (Vec.mk.inj (C.ok.inj h)) 0
  revert h
  decide

/-- `vmaxq_u16` is defined on signed lanes and compares in the signed order. -/
theorem vmaxq_u16_partial [Dialect] (N M : int16x8_t) :
    vmaxq_u16 N M = .ok ⟨fun i => BitVec.ofInt 16 (max (N.lane i).toInt (M.lane i).toInt)⟩ := by
  unfold vmaxq_u16
  refine fill_ok (by rfl) _ fun i D => ?_
  have hb0 := toInt16 (N.lane i)
  have hb1 := toInt16 (M.lane i)
  csim
  split
  all_goals (congr 2; congr 1; omega)

/-- `vmaxq_u16` does not give the larger lane in the unsigned order. -/
theorem vmaxq_u16_wrong [Dialect] :
    ¬ ∀ (N M : int16x8_t), vmaxq_u16 N M = .ok ⟨fun i => BitVec.ofNat 16 (max (N.lane i).toNat (M.lane i).toNat)⟩ := by
  intro h
  have h := h (⟨fun _ => 32768#16⟩) (⟨fun _ => 1#16⟩)
  rw [vmaxq_u16_partial] at h
  have h := congrFun (Vec.mk.inj (C.ok.inj h)) 0
  revert h
  decide

/-- `vmaxq_u32` is defined on signed lanes and compares in the signed order. -/
theorem vmaxq_u32_partial [Dialect] (N M : int32x4_t) :
    vmaxq_u32 N M = .ok ⟨fun i => BitVec.ofInt 32 (max (N.lane i).toInt (M.lane i).toInt)⟩ := by
  unfold vmaxq_u32
  refine fill_ok (by rfl) _ fun i D => ?_
  have hb0 := toInt32 (N.lane i)
  have hb1 := toInt32 (M.lane i)
  csim
  split
  all_goals (congr 2; congr 1; omega)

/-- `vmaxq_u32` does not give the larger lane in the unsigned order. -/
theorem vmaxq_u32_wrong [Dialect] :
    ¬ ∀ (N M : int32x4_t), vmaxq_u32 N M = .ok ⟨fun i => BitVec.ofNat 32 (max (N.lane i).toNat (M.lane i).toNat)⟩ := by
  intro h
  have h := h (⟨fun _ => 2147483648#32⟩) (⟨fun _ => 1#32⟩)
  rw [vmaxq_u32_partial] at h
  have h := congrFun (Vec.mk.inj (C.ok.inj h)) 0
  revert h
  decide

/-- `vminq_s8` gives the smaller lane in the signed order. -/
theorem vminq_s8_spec (N M : int8x16_t) :
    vminq_s8 N M = .ok ⟨fun i => BitVec.ofInt 8 (min (N.lane i).toInt (M.lane i).toInt)⟩ := by
  unfold vminq_s8
  refine fill_ok (by rfl) _ fun i D => ?_
  have hb0 := toInt8 (N.lane i)
  have hb1 := toInt8 (M.lane i)
  csim
  split
  all_goals (congr 2; congr 1; omega)

/-- The value of each lane of `vminq_s8`. -/
theorem vminq_s8_exact (N M : int8x16_t) :
    ∃ r, vminq_s8 N M = .ok r ∧ ∀ i, (r.lane i).toInt = min (N.lane i).toInt (M.lane i).toInt := by
  refine ⟨_, vminq_s8_spec N M, fun i => ?_⟩
  have hb0 := toInt8 (N.lane i)
  have hb1 := toInt8 (M.lane i)
  show (BitVec.ofInt 8 _).toInt = _
  rw [BitVec.toInt_ofInt]
  exact bmod8 (by omega)

/-- `vminq_s16` gives the smaller lane in the signed order. -/
theorem vminq_s16_spec (N M : int16x8_t) :
    vminq_s16 N M = .ok ⟨fun i => BitVec.ofInt 16 (min (N.lane i).toInt (M.lane i).toInt)⟩ := by
  unfold vminq_s16
  refine fill_ok (by rfl) _ fun i D => ?_
  have hb0 := toInt16 (N.lane i)
  have hb1 := toInt16 (M.lane i)
  csim
  split
  all_goals (congr 2; congr 1; omega)

/-- The value of each lane of `vminq_s16`. -/
theorem vminq_s16_exact (N M : int16x8_t) :
    ∃ r, vminq_s16 N M = .ok r ∧ ∀ i, (r.lane i).toInt = min (N.lane i).toInt (M.lane i).toInt := by
  refine ⟨_, vminq_s16_spec N M, fun i => ?_⟩
  have hb0 := toInt16 (N.lane i)
  have hb1 := toInt16 (M.lane i)
  show (BitVec.ofInt 16 _).toInt = _
  rw [BitVec.toInt_ofInt]
  exact bmod16 (by omega)

/-- `vminq_s32` gives the smaller lane in the signed order. -/
theorem vminq_s32_spec (N M : int32x4_t) :
    vminq_s32 N M = .ok ⟨fun i => BitVec.ofInt 32 (min (N.lane i).toInt (M.lane i).toInt)⟩ := by
  unfold vminq_s32
  refine fill_ok (by rfl) _ fun i D => ?_
  have hb0 := toInt32 (N.lane i)
  have hb1 := toInt32 (M.lane i)
  csim
  split
  all_goals (congr 2; congr 1; omega)

/-- The value of each lane of `vminq_s32`. -/
theorem vminq_s32_exact (N M : int32x4_t) :
    ∃ r, vminq_s32 N M = .ok r ∧ ∀ i, (r.lane i).toInt = min (N.lane i).toInt (M.lane i).toInt := by
  refine ⟨_, vminq_s32_spec N M, fun i => ?_⟩
  have hb0 := toInt32 (N.lane i)
  have hb1 := toInt32 (M.lane i)
  show (BitVec.ofInt 32 _).toInt = _
  rw [BitVec.toInt_ofInt]
  exact bmod32 (by omega)

/-- `vminq_u8` is defined on signed lanes and compares in the signed order. -/
theorem vminq_u8_partial (N M : int8x16_t) :
    vminq_u8 N M = .ok ⟨fun i => BitVec.ofInt 8 (min (N.lane i).toInt (M.lane i).toInt)⟩ := by
  unfold vminq_u8
  refine fill_ok (by rfl) _ fun i D => ?_
  have hb0 := toInt8 (N.lane i)
  have hb1 := toInt8 (M.lane i)
  csim
  split
  all_goals (congr 2; congr 1; omega)

/-- `vminq_u8` does not give the smaller lane in the unsigned order. -/
theorem vminq_u8_wrong :
    ¬ ∀ (N M : int8x16_t), vminq_u8 N M = .ok ⟨fun i => BitVec.ofNat 8 (min (N.lane i).toNat (M.lane i).toNat)⟩ := by
  intro h
  have h := h (⟨fun _ => 128#8⟩) (⟨fun _ => 1#8⟩)
  rw [vminq_u8_partial] at h
  have h := congrFun (Vec.mk.inj (C.ok.inj h)) 0
  revert h
  decide

/-- `vminq_u16` is defined on signed lanes and compares in the signed order. -/
theorem vminq_u16_partial (N M : int16x8_t) :
    vminq_u16 N M = .ok ⟨fun i => BitVec.ofInt 16 (min (N.lane i).toInt (M.lane i).toInt)⟩ := by
  unfold vminq_u16
  refine fill_ok (by rfl) _ fun i D => ?_
  have hb0 := toInt16 (N.lane i)
  have hb1 := toInt16 (M.lane i)
  csim
  split
  all_goals (congr 2; congr 1; omega)

/-- `vminq_u16` does not give the smaller lane in the unsigned order. -/
theorem vminq_u16_wrong :
    ¬ ∀ (N M : int16x8_t), vminq_u16 N M = .ok ⟨fun i => BitVec.ofNat 16 (min (N.lane i).toNat (M.lane i).toNat)⟩ := by
  intro h
  have h := h (⟨fun _ => 32768#16⟩) (⟨fun _ => 1#16⟩)
  rw [vminq_u16_partial] at h
  have h := congrFun (Vec.mk.inj (C.ok.inj h)) 0
  revert h
  decide

/-- `vminq_u32` is defined on signed lanes and compares in the signed order. -/
theorem vminq_u32_partial (N M : int32x4_t) :
    vminq_u32 N M = .ok ⟨fun i => BitVec.ofInt 32 (min (N.lane i).toInt (M.lane i).toInt)⟩ := by
  unfold vminq_u32
  refine fill_ok (by rfl) _ fun i D => ?_
  have hb0 := toInt32 (N.lane i)
  have hb1 := toInt32 (M.lane i)
  csim
  split
  all_goals (congr 2; congr 1; omega)

/-- `vminq_u32` does not give the smaller lane in the unsigned order. -/
theorem vminq_u32_wrong :
    ¬ ∀ (N M : int32x4_t), vminq_u32 N M = .ok ⟨fun i => BitVec.ofNat 32 (min (N.lane i).toNat (M.lane i).toNat)⟩ := by
  intro h
  have h := h (⟨fun _ => 2147483648#32⟩) (⟨fun _ => 1#32⟩)
  rw [vminq_u32_partial] at h
  have h := congrFun (Vec.mk.inj (C.ok.inj h)) 0
  revert h
  decide

end Verif.Props
