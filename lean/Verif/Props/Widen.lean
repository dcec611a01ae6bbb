import Verif.Fill
import Verif.Model.Add
import Verif.Model.Sub
/-! # Widening addition and subtraction (C13, C14, C22)

Generated by `tools/gen_props.py`. -/

set_option linter.unusedSimpArgs false
set_option linter.unusedVariables false

namespace Verif.Props
open Verif.Model Verif.Spec

/-- `vaddl_u8` gives the sum of the operands, computed in 16 bits after zero extension. -/
theorem vaddl_u8_spec [Dialect] (a b : uint8x8_t) :
    vaddl_u8 a b = .ok ⟨fun i => (a.lane i).setWidth 16 + (b.lane i).setWidth 16⟩ := by
  unfold vaddl_u8
  refine fill_ok (by rfl) _ fun i D => ?_
  csim
  bvnorm

/-- Every lane of `vaddl_u8` is the exact sum; no overflow is possible. -/
theorem vaddl_u8_exact [Dialect] (a b : uint8x8_t) :
    ∃ r, vaddl_u8 a b = .ok r ∧ ∀ i, ((r.lane i).toNat : Int) = ((a.lane i).toNat : Int) + ((b.lane i).toNat : Int) := by
  refine ⟨_, vaddl_u8_spec a b, fun i => ?_⟩
  simp only [BitVec.toNat_add, BitVec.toNat_setWidth, Elem.bits, ITy.bits]
  omega

/-- `vaddl_high_s8` gives the sum of the upper lanes of the operands, computed in 16 bits after sign extension. -/
theorem vaddl_high_s8_spec [Dialect] (a b : int8x16_t) :
    vaddl_high_s8 a b = .ok ⟨fun i => (a[8 + i.val]).signExtend 16 + (b[8 + i.val]).signExtend 16⟩ := by
  unfold vaddl_high_s8
  refine fill_ok (by rfl) _ fun i D => ?_
  have ea : a.get (8 + ((i.val : Nat) : Int)) = .ok (.ofBits _ (a.lane ⟨8 + i.val, by omega⟩)) :=
    Vec.get_at a _ (by omega) (by omega)
  have eb : b.get (8 + ((i.val : Nat) : Int)) = .ok (.ofBits _ (b.lane ⟨8 + i.val, by omega⟩)) :=
    Vec.get_at b _ (by omega) (by omega)
  simp only [Int.reduceDiv, ea, eb]
  have hb0 := toInt8 (a.lane ⟨8 + i.val, by omega⟩)
  have hb1 := toInt8 (b.lane ⟨8 + i.val, by omega⟩)
  csim
  bvnorm
  rfl

/-- Every lane of `vaddl_high_s8` is the exact sum; no overflow is possible. -/
theorem vaddl_high_s8_exact [Dialect] (a b : int8x16_t) :
    ∃ r, vaddl_high_s8 a b = .ok r ∧ ∀ i, (r.lane i).toInt = (a[8 + i.val]).toInt + (b[8 + i.val]).toInt := by
  refine ⟨_, vaddl_high_s8_spec a b, fun i => ?_⟩
  have hb0 := toInt8 (a[8 + i.val])
  have hb1 := toInt8 (b[8 + i.val])
  rw [BitVec.toInt_add, BitVec.toInt_signExtend_of_le (by decide), BitVec.toInt_signExtend_of_le (by decide)]
  exact bmod16 (by omega)

/-- `vaddl_high_s16` gives the sum of the upper lanes of the operands, computed in 32 bits after sign extension. -/
theorem vaddl_high_s16_spec [Dialect] (a b : int16x8_t) :
    vaddl_high_s16 a b = .ok ⟨fun i => (a[4 + i.val]).signExtend 32 + (b[4 + i.val]).signExtend 32⟩ := by
  unfold vaddl_high_s16
  refine fill_ok (by rfl) _ fun i D => ?_
  have ea : a.get (4 + ((i.val : Nat) : Int)) = .ok (.ofBits _ (a.lane ⟨4 + i.val, by omega⟩)) :=
    Vec.get_at a _ (by omega) (by omega)
  have eb : b.get (4 + ((i.val : Nat) : Int)) = .ok (.ofBits _ (b.lane ⟨4 + i.val, by omega⟩)) :=
    Vec.get_at b _ (by omega) (by omega)
  simp only [Int.reduceDiv, ea, eb]
  have hb0 := toInt16 (a.lane ⟨4 + i.val, by omega⟩)
  have hb1 := toInt16 (b.lane ⟨4 + i.val, by omega⟩)
  csim
  bvnorm
  rfl

/-- Every lane of `vaddl_high_s16` is the exact sum; no overflow is possible. -/
theorem vaddl_high_s16_exact [Dialect] (a b : int16x8_t) :
    ∃ r, vaddl_high_s16 a b = .ok r ∧ ∀ i, (r.lane i).toInt = (a[4 + i.val]).toInt + (b[4 + i.val]).toInt := by
  refine ⟨_, vaddl_high_s16_spec a b, fun i => ?_⟩
  have hb0 := toInt16 (a[4 + i.val])
  have hb1 := toInt16 (b[4 + i.val])
  rw [BitVec.toInt_add, BitVec.toInt_signExtend_of_le (by decide), BitVec.toInt_signExtend_of_le (by decide)]
  exact bmod32 (by omega)

/-- `vaddl_high_s32` adds the upper lanes as 32-bit `int` and then sign-extends; in C++11 overflow of the `int` sum is undefined. -/
theorem vaddl_high_s32_partial [Dialect] (a b : int32x4_t) :
    vaddl_high_s32 a b =
      if ∀ i : Fin 2, NoOverflow 32 ((a[2 + i.val]).toInt + (b[2 + i.val]).toInt)
      then .ok ⟨fun i => (a[2 + i.val] + b[2 + i.val]).signExtend 64⟩ else .ub .signedOverflow := by
  unfold vaddl_high_s32
  refine fill_if (by rfl) _ _ _ fun i D => ?_
  have ea : a.get (2 + ((i.val : Nat) : Int)) = .ok (.ofBits _ (a.lane ⟨2 + i.val, by omega⟩)) :=
    Vec.get_at a _ (by omega) (by omega)
  have eb : b.get (2 + ((i.val : Nat) : Int)) = .ok (.ofBits _ (b.lane ⟨2 + i.val, by omega⟩)) :=
    Vec.get_at b _ (by omega) (by omega)
  simp only [Int.reduceDiv, ea, eb]
  have hb0 := toInt32 (a.lane ⟨2 + i.val, by omega⟩)
  have hb1 := toInt32 (b.lane ⟨2 + i.val, by omega⟩)
  csim_ub
  simp only [← int_add_bmod32, ofInt_toInt_ext]
  rfl

/-- With `-fwrapv`, `vaddl_high_s32` is defined for all operands. -/
theorem vaddl_high_s32_wrapv [Dialect] (hd : Dialect.wrapv = true) (a b : int32x4_t) :
    vaddl_high_s32 a b = .ok ⟨fun i => (a[2 + i.val] + b[2 + i.val]).signExtend 64⟩ := by
  rw [vaddl_high_s32_partial, if_pos]
  intro i
  simp only [NoOverflow, hd, true_or, and_self]
example := @vaddl_high_s32_wrapv .wrapping rfl (⟨fun i => BitVec.ofNat 32 (3 + i.val)⟩) (⟨fun i => BitVec.ofNat 32 (2 + i.val)⟩)

/-- In C++11 `vaddl_high_s32` is undefined for some operands. -/
theorem vaddl_high_s32_ub [Dialect] (hd : Dialect.wrapv = false) :
    ∃ (a b : int32x4_t), vaddl_high_s32 a b = .ub .signedOverflow := by
  refine ⟨⟨fun _ => 2147483647#32⟩, ⟨fun _ => 1#32⟩, ?_⟩
  rw [vaddl_high_s32_partial, if_neg]
  intro h
  have := h 0
  revert this
  simp only [NoOverflow, hd]
  decide
example := @vaddl_high_s32_ub .strict rfl

/-- `vaddl_high_s32` does not give the exact sum, in any dialect. -/
theorem vaddl_high_s32_wrong [Dialect] :
    ¬ ∀ (a b : int32x4_t), vaddl_high_s32 a b = .ok ⟨fun i => (a[2 + i.val]).signExtend 64 + (b[2 + i.val]).signExtend 64⟩ := by
  intro h
  have h := h (⟨fun _ => 2147483647#32⟩) (⟨fun _ => 1#32⟩)
  rw [vaddl_high_s32_partial] at h
  split at h
  · have h := congrFun (Vec.mk.inj (C.ok.inj h)) 0
    revert h
    decide
  · cases h

/-- `vaddl_high_u8` gives the sum of the upper lanes of the operands, computed in 16 bits after zero extension. -/
theorem vaddl_high_u8_spec [Dialect] (a b : uint8x16_t) :
    vaddl_high_u8 a b = .ok ⟨fun i => (a[8 + i.val]).setWidth 16 + (b[8 + i.val]).setWidth 16⟩ := by
  unfold vaddl_high_u8
  refine fill_ok (by rfl) _ fun i D => ?_
  have ea : a.get (8 + ((i.val : Nat) : Int)) = .ok (.ofBits _ (a.lane ⟨8 + i.val, by omega⟩)) :=
    Vec.get_at a _ (by omega) (by omega)
  have eb : b.get (8 + ((i.val : Nat) : Int)) = .ok (.ofBits _ (b.lane ⟨8 + i.val, by omega⟩)) :=
    Vec.get_at b _ (by omega) (by omega)
  simp only [Int.reduceDiv, ea, eb]
  csim
  bvnorm
  rfl

/-- Every lane of `vaddl_high_u8` is the exact sum; no overflow is possible. -/
theorem vaddl_high_u8_exact [Dialect] (a b : uint8x16_t) :
    ∃ r, vaddl_high_u8 a b = .ok r ∧ ∀ i, ((r.lane i).toNat : Int) = ((a[8 + i.val]).toNat : Int) + ((b[8 + i.val]).toNat : Int) := by
  refine ⟨_, vaddl_high_u8_spec a b, fun i => ?_⟩
  simp only [BitVec.toNat_add, BitVec.toNat_setWidth, Elem.bits, ITy.bits]
  omega

/-- `vaddl_high_u16` gives the sum of the upper lanes of the operands, computed in 32 bits after zero extension. -/
theorem vaddl_high_u16_spec [Dialect] (a b : uint16x8_t) :
    vaddl_high_u16 a b = .ok ⟨fun i => (a[4 + i.val]).setWidth 32 + (b[4 + i.val]).setWidth 32⟩ := by
  unfold vaddl_high_u16
  refine fill_ok (by rfl) _ fun i D => ?_
  have ea : a.get (4 + ((i.val : Nat) : Int)) = .ok (.ofBits _ (a.lane ⟨4 + i.val, by omega⟩)) :=
    Vec.get_at a _ (by omega) (by omega)
  have eb : b.get (4 + ((i.val : Nat) : Int)) = .ok (.ofBits _ (b.lane ⟨4 + i.val, by omega⟩)) :=
    Vec.get_at b _ (by omega) (by omega)
  simp only [Int.reduceDiv, ea, eb]
  csim
  bvnorm
  rfl

/-- Every lane of `vaddl_high_u16` is the exact sum; no overflow is possible. -/
theorem vaddl_high_u16_exact [Dialect] (a b : uint16x8_t) :
    ∃ r, vaddl_high_u16 a b = .ok r ∧ ∀ i, ((r.lane i).toNat : Int) = ((a[4 + i.val]).toNat : Int) + ((b[4 + i.val]).toNat : Int) := by
  refine ⟨_, vaddl_high_u16_spec a b, fun i => ?_⟩
  simp only [BitVec.toNat_add, BitVec.toNat_setWidth, Elem.bits, ITy.bits]
  omega

/-- `vaddl_high_u32` adds the upper lanes modulo `2^32` and then zero-extends: the carry is lost. -/
theorem vaddl_high_u32_partial [Dialect] (a b : uint32x4_t) :
    vaddl_high_u32 a b = .ok ⟨fun i => (a[2 + i.val] + b[2 + i.val]).setWidth 64⟩ := by
  unfold vaddl_high_u32
  refine fill_ok (by rfl) _ fun i D => ?_
  have ea : a.get (2 + ((i.val : Nat) : Int)) = .ok (.ofBits _ (a.lane ⟨2 + i.val, by omega⟩)) :=
    Vec.get_at a _ (by omega) (by omega)
  have eb : b.get (2 + ((i.val : Nat) : Int)) = .ok (.ofBits _ (b.lane ⟨2 + i.val, by omega⟩)) :=
    Vec.get_at b _ (by omega) (by omega)
  simp only [Int.reduceDiv, ea, eb]
  csim
  simp only [ofInt_toNat, ← nat_add_mod32]
  rfl

/-- `vaddl_high_u32` does not give the exact sum. -/
theorem vaddl_high_u32_wrong [Dialect] :
    ¬ ∀ (a b : uint32x4_t), vaddl_high_u32 a b = .ok ⟨fun i => (a[2 + i.val]).setWidth 64 + (b[2 + i.val]).setWidth 64⟩ := by
  intro h
  have h := h (⟨fun _ => 4294967295#32⟩) (⟨fun _ => 1#32⟩)
  rw [vaddl_high_u32_partial] at h
  have h := congrFun (Vec.mk.inj (C.ok.inj h)) 0
  revert h
  decide

/-- `vsubl_s8` gives the difference of the operands, computed in 16 bits after sign extension. -/
theorem vsubl_s8_spec [Dialect] (N M : int8x8_t) :
    vsubl_s8 N M = .ok ⟨fun i => (N.lane i).signExtend 16 - (M.lane i).signExtend 16⟩ := by
  unfold vsubl_s8
  refine fill_ok (by rfl) _ fun i D => ?_
  have hb0 := toInt8 (N.lane i)
  have hb1 := toInt8 (M.lane i)
  csim
  bvnorm

/-- Every lane of `vsubl_s8` is the exact difference; no overflow is possible. -/
theorem vsubl_s8_exact [Dialect] (N M : int8x8_t) :
    ∃ r, vsubl_s8 N M = .ok r ∧ ∀ i, (r.lane i).toInt = (N.lane i).toInt - (M.lane i).toInt := by
  refine ⟨_, vsubl_s8_spec N M, fun i => ?_⟩
  have hb0 := toInt8 (N.lane i)
  have hb1 := toInt8 (M.lane i)
  rw [BitVec.toInt_sub, BitVec.toInt_signExtend_of_le (by decide), BitVec.toInt_signExtend_of_le (by decide)]
  exact bmod16 (by omega)

/-- `vsubl_s16` gives the difference of the operands, computed in 32 bits after sign extension. -/
theorem vsubl_s16_spec [Dialect] (N M : int16x4_t) :
    vsubl_s16 N M = .ok ⟨fun i => (N.lane i).signExtend 32 - (M.lane i).signExtend 32⟩ := by
  unfold vsubl_s16
  refine fill_ok (by rfl) _ fun i D => ?_
  have hb0 := toInt16 (N.lane i)
  have hb1 := toInt16 (M.lane i)
  csim
  bvnorm

/-- Every lane of `vsubl_s16` is the exact difference; no overflow is possible. -/
theorem vsubl_s16_exact [Dialect] (N M : int16x4_t) :
    ∃ r, vsubl_s16 N M = .ok r ∧ ∀ i, (r.lane i).toInt = (N.lane i).toInt - (M.lane i).toInt := by
  refine ⟨_, vsubl_s16_spec N M, fun i => ?_⟩
  have hb0 := toInt16 (N.lane i)
  have hb1 := toInt16 (M.lane i)
  rw [BitVec.toInt_sub, BitVec.toInt_signExtend_of_le (by decide), BitVec.toInt_signExtend_of_le (by decide)]
  exact bmod32 (by omega)

/-- `vsubl_s32` gives the difference of the operands, computed in 64 bits after sign extension. -/
theorem vsubl_s32_spec [Dialect] (N : int32x4_t) (M : int32x2_t) :
    vsubl_s32 N M = .ok ⟨fun i => (N[i.val]).signExtend 64 - (M.lane i).signExtend 64⟩ := by
  unfold vsubl_s32
  refine fill_ok (by rfl) _ fun i D => ?_
  have ea : N.get ((i.val : Nat) : Int) = .ok (.ofBits _ (N.lane ⟨i.val, by omega⟩)) :=
    Vec.get_at N _ (by omega) rfl
  simp only [ea]
  have hb0 := toInt32 (N.lane ⟨i.val, by omega⟩)
  have hb1 := toInt32 (M.lane i)
  csim
  bvnorm
  rfl

/-- Every lane of `vsubl_s32` is the exact difference; no overflow is possible. -/
theorem vsubl_s32_exact [Dialect] (N : int32x4_t) (M : int32x2_t) :
    ∃ r, vsubl_s32 N M = .ok r ∧ ∀ i, (r.lane i).toInt = (N[i.val]).toInt - (M.lane i).toInt := by
  refine ⟨_, vsubl_s32_spec N M, fun i => ?_⟩
  have hb0 := toInt32 (N[i.val])
  have hb1 := toInt32 (M.lane i)
  rw [BitVec.toInt_sub, BitVec.toInt_signExtend_of_le (by decide), BitVec.toInt_signExtend_of_le (by decide)]
  exact bmod64 (by omega)

/-- `vsubl_u8` gives the difference of the operands, computed in 16 bits after zero extension. -/
theorem vsubl_u8_spec [Dialect] (N M : uint8x8_t) :
    vsubl_u8 N M = .ok ⟨fun i => (N.lane i).setWidth 16 - (M.lane i).setWidth 16⟩ := by
  unfold vsubl_u8
  refine fill_ok (by rfl) _ fun i D => ?_
  csim
  bvnorm

/-- `vsubl_u16` gives the difference of the operands, computed in 32 bits after zero extension. -/
theorem vsubl_u16_spec [Dialect] (N M : uint16x4_t) :
    vsubl_u16 N M = .ok ⟨fun i => (N.lane i).setWidth 32 - (M.lane i).setWidth 32⟩ := by
  unfold vsubl_u16
  refine fill_ok (by rfl) _ fun i D => ?_
  csim
  bvnorm

/-- `vsubl_u32` gives the difference of the operands, computed in 64 bits after zero extension. -/
theorem vsubl_u32_spec [Dialect] (N : uint32x4_t) (M : uint32x2_t) :
    vsubl_u32 N M = .ok ⟨fun i => (N[i.val]).setWidth 64 - (M.lane i).setWidth 64⟩ := by
  unfold vsubl_u32
  refine fill_ok (by rfl) _ fun i D => ?_
  have ea : N.get ((i.val : Nat) : Int) = .ok (.ofBits _ (N.lane ⟨i.val, by omega⟩)) :=
    Vec.get_at N _ (by omega) rfl
  simp only [ea]
  csim
  bvnorm
  rfl

/-- `vaddw_s8` gives the sum modulo `2^16` of the wide lane and the sign-extended narrow lane. -/
theorem vaddw_s8_spec [Dialect] (a : int16x8_t) (b : int8x8_t) :
    vaddw_s8 a b = .ok ⟨fun i => a.lane i + (b.lane i).signExtend 16⟩ := by
  unfold vaddw_s8
  refine fill_ok (by rfl) _ fun i D => ?_
  have hb0 := toInt16 (a.lane i)
  have hb1 := toInt8 (b.lane i)
  csim
  bvnorm

/-- `vaddw_s16` gives the sum modulo `2^32` of the wide lane and the sign-extended narrow lane; overflow is undefined in C++11. -/
theorem vaddw_s16_partial [Dialect] (a : int32x4_t) (b : int16x4_t) :
    vaddw_s16 a b =
      if ∀ i : Fin 4, NoOverflow 32 ((a.lane i).toInt + (b.lane i).toInt)
      then .ok ⟨fun i => a.lane i + (b.lane i).signExtend 32⟩ else .ub .signedOverflow := by
  unfold vaddw_s16
  refine fill_if (by rfl) _ _ _ fun i D => ?_
  have hb0 := toInt32 (a.lane i)
  have hb1 := toInt16 (b.lane i)
  csim_ub
  bvnorm

/-- With `-fwrapv`, `vaddw_s16` is defined for all operands. -/
theorem vaddw_s16_wrapv [Dialect] (hd : Dialect.wrapv = true) (a : int32x4_t) (b : int16x4_t) :
    vaddw_s16 a b = .ok ⟨fun i => a.lane i + (b.lane i).signExtend 32⟩ := by
  rw [vaddw_s16_partial, if_pos]
  intro i
  simp only [NoOverflow, hd, true_or, and_self]
example := @vaddw_s16_wrapv .wrapping rfl (⟨fun i => BitVec.ofNat 32 (3 + i.val)⟩) (⟨fun i => BitVec.ofNat 16 (2 + i.val)⟩)

/-- In C++11 `vaddw_s16` is undefined for some operands. -/
theorem vaddw_s16_ub [Dialect] (hd : Dialect.wrapv = false) :
    ∃ (a : int32x4_t) (b : int16x4_t), vaddw_s16 a b = .ub .signedOverflow := by
  refine ⟨⟨fun _ => 2147483647#32⟩, ⟨fun _ => 1#16⟩, ?_⟩
  rw [vaddw_s16_partial, if_neg]
  intro h
  have := h 0
  revert this
  simp only [NoOverflow, hd]
  decide
example := @vaddw_s16_ub .strict rfl

/-- `vaddw_s32` gives the sum modulo `2^64` of the wide lane and the sign-extended narrow lane; overflow is undefined in C++11. -/
theorem vaddw_s32_partial [Dialect] (a : int64x2_t) (b : int32x2_t) :
    vaddw_s32 a b =
      if ∀ i : Fin 2, NoOverflow 64 ((a.lane i).toInt + (b.lane i).toInt)
      then .ok ⟨fun i => a.lane i + (b.lane i).signExtend 64⟩ else .ub .signedOverflow := by
  unfold vaddw_s32
  refine fill_if (by rfl) _ _ _ fun i D => ?_
  have hb0 := toInt64 (a.lane i)
  have hb1 := toInt32 (b.lane i)
  csim_ub
  bvnorm

/-- With `-fwrapv`, `vaddw_s32` is defined for all operands. -/
theorem vaddw_s32_wrapv [Dialect] (hd : Dialect.wrapv = true) (a : int64x2_t) (b : int32x2_t) :
    vaddw_s32 a b = .ok ⟨fun i => a.lane i + (b.lane i).signExtend 64⟩ := by
  rw [vaddw_s32_partial, if_pos]
  intro i
  simp only [NoOverflow, hd, true_or, and_self]
example := @vaddw_s32_wrapv .wrapping rfl (⟨fun i => BitVec.ofNat 64 (3 + i.val)⟩) (⟨fun i => BitVec.ofNat 32 (2 + i.val)⟩)

/-- In C++11 `vaddw_s32` is undefined for some operands. -/
theorem vaddw_s32_ub [Dialect] (hd : Dialect.wrapv = false) :
    ∃ (a : int64x2_t) (b : int32x2_t), vaddw_s32 a b = .ub .signedOverflow := by
  refine ⟨⟨fun _ => 9223372036854775807#64⟩, ⟨fun _ => 1#32⟩, ?_⟩
  rw [vaddw_s32_partial, if_neg]
  intro h
  have := h 0
  revert this
  simp only [NoOverflow, hd]
  decide
example := @vaddw_s32_ub .strict rfl

/-- `vaddw_u8` gives the sum modulo `2^16` of the wide lane and the zero-extended narrow lane. -/
theorem vaddw_u8_spec [Dialect] (a : uint16x8_t) (b : uint8x8_t) :
    vaddw_u8 a b = .ok ⟨fun i => a.lane i + (b.lane i).setWidth 16⟩ := by
  unfold vaddw_u8
  refine fill_ok (by rfl) _ fun i D => ?_
  csim
  bvnorm

/-- `vaddw_u16` gives the sum modulo `2^32` of the wide lane and the zero-extended narrow lane. -/
theorem vaddw_u16_spec [Dialect] (a : uint32x4_t) (b : uint16x4_t) :
    vaddw_u16 a b = .ok ⟨fun i => a.lane i + (b.lane i).setWidth 32⟩ := by
  unfold vaddw_u16
  refine fill_ok (by rfl) _ fun i D => ?_
  csim
  bvnorm

/-- `vaddw_u32` gives the sum modulo `2^64` of the wide lane and the zero-extended narrow lane. -/
theorem vaddw_u32_spec [Dialect] (a : uint64x2_t) (b : uint32x2_t) :
    vaddw_u32 a b = .ok ⟨fun i => a.lane i + (b.lane i).setWidth 64⟩ := by
  unfold vaddw_u32
  refine fill_ok (by rfl) _ fun i D => ?_
  csim
  bvnorm

/-- `vaddw_high_s8` gives the sum modulo `2^16` of the wide lane and the sign-extended narrow lane. -/
theorem vaddw_high_s8_spec [Dialect] (a : int16x8_t) (b : int8x16_t) :
    vaddw_high_s8 a b = .ok ⟨fun i => a.lane i + (b[8 + i.val]).signExtend 16⟩ := by
  unfold vaddw_high_s8
  refine fill_ok (by rfl) _ fun i D => ?_
  have eb : b.get (8 + ((i.val : Nat) : Int)) = .ok (.ofBits _ (b.lane ⟨8 + i.val, by omega⟩)) :=
    Vec.get_at b _ (by omega) (by omega)
  simp only [Int.reduceDiv, eb]
  have hb0 := toInt16 (a.lane i)
  have hb1 := toInt8 (b.lane ⟨8 + i.val, by omega⟩)
  csim
  bvnorm
  rfl

/-- `vaddw_high_s16` gives the sum modulo `2^32` of the wide lane and the sign-extended narrow lane; overflow is undefined in C++11. -/
theorem vaddw_high_s16_partial [Dialect] (a : int32x4_t) (b : int16x8_t) :
    vaddw_high_s16 a b =
      if ∀ i : Fin 4, NoOverflow 32 ((a.lane i).toInt + (b[4 + i.val]).toInt)
      then .ok ⟨fun i => a.lane i + (b[4 + i.val]).signExtend 32⟩ else .ub .signedOverflow := by
  unfold vaddw_high_s16
  refine fill_if (by rfl) _ _ _ fun i D => ?_
  have eb : b.get (4 + ((i.val : Nat) : Int)) = .ok (.ofBits _ (b.lane ⟨4 + i.val, by omega⟩)) :=
    Vec.get_at b _ (by omega) (by omega)
  simp only [Int.reduceDiv, eb]
  have hb0 := toInt32 (a.lane i)
  have hb1 := toInt16 (b.lane ⟨4 + i.val, by omega⟩)
  csim_ub
  bvnorm
  rfl

/-- With `-fwrapv`, `vaddw_high_s16` is defined for all operands. -/
theorem vaddw_high_s16_wrapv [Dialect] (hd : Dialect.wrapv = true) (a : int32x4_t) (b : int16x8_t) :
    vaddw_high_s16 a b = .ok ⟨fun i => a.lane i + (b[4 + i.val]).signExtend 32⟩ := by
  rw [vaddw_high_s16_partial, if_pos]
  intro i
  simp only [NoOverflow, hd, true_or, and_self]
example := @vaddw_high_s16_wrapv .wrapping rfl (⟨fun i => BitVec.ofNat 32 (3 + i.val)⟩) (⟨fun i => BitVec.ofNat 16 (2 + i.val)⟩)

/-- In C++11 `vaddw_high_s16` is undefined for some operands. -/
theorem vaddw_high_s16_ub [Dialect] (hd : Dialect.wrapv = false) :
    ∃ (a : int32x4_t) (b : int16x8_t), vaddw_high_s16 a b = .ub .signedOverflow := by
  refine ⟨⟨fun _ => 2147483647#32⟩, ⟨fun _ => 1#16⟩, ?_⟩
  rw [vaddw_high_s16_partial, if_neg]
  intro h
  have := h 0
  revert this
  simp only [NoOverflow, hd]
  decide
example := @vaddw_high_s16_ub .strict rfl

/-- `vaddw_high_s32` gives the sum modulo `2^64` of the wide lane and the sign-extended narrow lane; overflow is undefined in C++11. -/
theorem vaddw_high_s32_partial [Dialect] (a : int64x2_t) (b : int32x4_t) :
    vaddw_high_s32 a b =
      if ∀ i : Fin 2, NoOverflow 64 ((a.lane i).toInt + (b[2 + i.val]).toInt)
      then .ok ⟨fun i => a.lane i + (b[2 + i.val]).signExtend 64⟩ else .ub .signedOverflow := by
  unfold vaddw_high_s32
  refine fill_if (by rfl) _ _ _ fun i D => ?_
  have eb : b.get (2 + ((i.val : Nat) : Int)) = .ok (.ofBits _ (b.lane ⟨2 + i.val, by omega⟩)) :=
    Vec.get_at b _ (by omega) (by omega)
  simp only [Int.reduceDiv, eb]
  have hb0 := toInt64 (a.lane i)
  have hb1 := toInt32 (b.lane ⟨2 + i.val, by omega⟩)
  csim_ub
  bvnorm
  rfl

/-- With `-fwrapv`, `vaddw_high_s32` is defined for all operands. -/
theorem vaddw_high_s32_wrapv [Dialect] (hd : Dialect.wrapv = true) (a : int64x2_t) (b : int32x4_t) :
    vaddw_high_s32 a b = .ok ⟨fun i => a.lane i + (b[2 + i.val]).signExtend 64⟩ := by
  rw [vaddw_high_s32_partial, if_pos]
  intro i
  simp only [NoOverflow, hd, true_or, and_self]
example := @vaddw_high_s32_wrapv .wrapping rfl (⟨fun i => BitVec.ofNat 64 (3 + i.val)⟩) (⟨fun i => BitVec.ofNat 32 (2 + i.val)⟩)

/-- In C++11 `vaddw_high_s32` is undefined for some operands. -/
theorem vaddw_high_s32_ub [Dialect] (hd : Dialect.wrapv = false) :
    ∃ (a : int64x2_t) (b : int32x4_t), vaddw_high_s32 a b = .ub .signedOverflow := by
  refine ⟨⟨fun _ => 9223372036854775807#64⟩, ⟨fun _ => 1#32⟩, ?_⟩
  rw [vaddw_high_s32_partial, if_neg]
  intro h
  have := h 0
  revert this
  simp only [NoOverflow, hd]
  decide
example := @vaddw_high_s32_ub .strict rfl

/-- `vaddw_high_u8` gives the sum modulo `2^16` of the wide lane and the zero-extended narrow lane. -/
theorem vaddw_high_u8_spec [Dialect] (a : uint16x8_t) (b : uint8x16_t) :
    vaddw_high_u8 a b = .ok ⟨fun i => a.lane i + (b[8 + i.val]).setWidth 16⟩ := by
  unfold vaddw_high_u8
  refine fill_ok (by rfl) _ fun i D => ?_
  have eb : b.get (8 + ((i.val : Nat) : Int)) = .ok (.ofBits _ (b.lane ⟨8 + i.val, by omega⟩)) :=
    Vec.get_at b _ (by omega) (by omega)
  simp only [Int.reduceDiv, eb]
  csim
  bvnorm
  rfl

/-- `vaddw_high_u16` gives the sum modulo `2^32` of the wide lane and the zero-extended narrow lane. -/
theorem vaddw_high_u16_spec [Dialect] (a : uint32x4_t) (b : uint16x8_t) :
    vaddw_high_u16 a b = .ok ⟨fun i => a.lane i + (b[4 + i.val]).setWidth 32⟩ := by
  unfold vaddw_high_u16
  refine fill_ok (by rfl) _ fun i D => ?_
  have eb : b.get (4 + ((i.val : Nat) : Int)) = .ok (.ofBits _ (b.lane ⟨4 + i.val, by omega⟩)) :=
    Vec.get_at b _ (by omega) (by omega)
  simp only [Int.reduceDiv, eb]
  csim
  bvnorm
  rfl

/-- `vaddw_high_u32` gives the sum modulo `2^64` of the wide lane and the zero-extended narrow lane. -/
theorem vaddw_high_u32_spec [Dialect] (a : uint64x2_t) (b : uint32x4_t) :
    vaddw_high_u32 a b = .ok ⟨fun i => a.lane i + (b[2 + i.val]).setWidth 64⟩ := by
  unfold vaddw_high_u32
  refine fill_ok (by rfl) _ fun i D => ?_
  have eb : b.get (2 + ((i.val : Nat) : Int)) = .ok (.ofBits _ (b.lane ⟨2 + i.val, by omega⟩)) :=
    Vec.get_at b _ (by omega) (by omega)
  simp only [Int.reduceDiv, eb]
  csim
  bvnorm
  rfl

/-- `vsubw_s8` gives the difference modulo `2^16` of the wide lane and the sign-extended narrow lane. -/
theorem vsubw_s8_spec [Dialect] (N : int16x8_t) (M : int8x8_t) :
    vsubw_s8 N M = .ok ⟨fun i => N.lane i - (M.lane i).signExtend 16⟩ := by
  unfold vsubw_s8
  refine fill_ok (by rfl) _ fun i D => ?_
  have hb0 := toInt16 (N.lane i)
  have hb1 := toInt8 (M.lane i)
  csim
  bvnorm

/-- `vsubw_s16` gives the difference modulo `2^32` of the wide lane and the sign-extended narrow lane; overflow is undefined in C++11. -/
theorem vsubw_s16_partial [Dialect] (N : int32x4_t) (M : int16x4_t) :
    vsubw_s16 N M =
      if ∀ i : Fin 4, NoOverflow 32 ((N.lane i).toInt - (M.lane i).toInt)
      then .ok ⟨fun i => N.lane i - (M.lane i).signExtend 32⟩ else .ub .signedOverflow := by
  unfold vsubw_s16
  refine fill_if (by rfl) _ _ _ fun i D => ?_
  have hb0 := toInt32 (N.lane i)
  have hb1 := toInt16 (M.lane i)
  csim_ub
  bvnorm

/-- With `-fwrapv`, `vsubw_s16` is defined for all operands. -/
theorem vsubw_s16_wrapv [Dialect] (hd : Dialect.wrapv = true) (N : int32x4_t) (M : int16x4_t) :
    vsubw_s16 N M = .ok ⟨fun i => N.lane i - (M.lane i).signExtend 32⟩ := by
  rw [vsubw_s16_partial, if_pos]
  intro i
  simp only [NoOverflow, hd, true_or, and_self]
example := @vsubw_s16_wrapv .wrapping rfl (⟨fun i => BitVec.ofNat 32 (4 + i.val)⟩) (⟨fun i => BitVec.ofNat 16 (3 + i.val)⟩)

/-- In C++11 `vsubw_s16` is undefined for some operands. -/
theorem vsubw_s16_ub [Dialect] (hd : Dialect.wrapv = false) :
    ∃ (N : int32x4_t) (M : int16x4_t), vsubw_s16 N M = .ub .signedOverflow := by
  refine ⟨⟨fun _ => 2147483648#32⟩, ⟨fun _ => 1#16⟩, ?_⟩
  rw [vsubw_s16_partial, if_neg]
  intro h
  have := h 0
  revert this
  simp only [NoOverflow, hd]
  decide
example := @vsubw_s16_ub .strict rfl

/-- `vsubw_s32` gives the difference modulo `2^64` of the wide lane and the sign-extended narrow lane; overflow is undefined in C++11. -/
theorem vsubw_s32_partial [Dialect] (N : int64x2_t) (M : int32x2_t) :
    vsubw_s32 N M =
      if ∀ i : Fin 2, NoOverflow 64 ((N.lane i).toInt - (M.lane i).toInt)
      then .ok ⟨fun i => N.lane i - (M.lane i).signExtend 64⟩ else .ub .signedOverflow := by
  unfold vsubw_s32
  refine fill_if (by rfl) _ _ _ fun i D => ?_
  have hb0 := toInt64 (N.lane i)
  have hb1 := toInt32 (M.lane i)
  csim_ub
  bvnorm

/-- With `-fwrapv`, `vsubw_s32` is defined for all operands. -/
theorem vsubw_s32_wrapv [Dialect] (hd : Dialect.wrapv = true) (N : int64x2_t) (M : int32x2_t) :
    vsubw_s32 N M = .ok ⟨fun i => N.lane i - (M.lane i).signExtend 64⟩ := by
  rw [vsubw_s32_partial, if_pos]
  intro i
  simp only [NoOverflow, hd, true_or, and_self]
example := @vsubw_s32_wrapv .wrapping rfl (⟨fun i => BitVec.ofNat 64 (4 + i.val)⟩) (⟨fun i => BitVec.ofNat 32 (3 + i.val)⟩)

/-- In C++11 `vsubw_s32` is undefined for some operands. -/
theorem vsubw_s32_ub [Dialect] (hd : Dialect.wrapv = false) :
    ∃ (N : int64x2_t) (M : int32x2_t), vsubw_s32 N M = .ub .signedOverflow := by
  refine ⟨⟨fun _ => 9223372036854775808#64⟩, ⟨fun _ => 1#32⟩, ?_⟩
  rw [vsubw_s32_partial, if_neg]
  intro h
  have := h 0
  revert this
  simp only [NoOverflow, hd]
  decide
example := @vsubw_s32_ub .strict rfl

/-- `vsubw_u8` gives the difference modulo `2^16` of the wide lane and the zero-extended narrow lane. -/
theorem vsubw_u8_spec [Dialect] (N : uint16x8_t) (M : uint8x8_t) :
    vsubw_u8 N M = .ok ⟨fun i => N.lane i - (M.lane i).setWidth 16⟩ := by
  unfold vsubw_u8
  refine fill_ok (by rfl) _ fun i D => ?_
  csim
  bvnorm

/-- `vsubw_u16` gives the difference modulo `2^32` of the wide lane and the zero-extended narrow lane. -/
theorem vsubw_u16_spec [Dialect] (N : uint32x4_t) (M : uint16x4_t) :
    vsubw_u16 N M = .ok ⟨fun i => N.lane i - (M.lane i).setWidth 32⟩ := by
  unfold vsubw_u16
  refine fill_ok (by rfl) _ fun i D => ?_
  csim
  bvnorm

/-- `vsubw_u32` gives the difference modulo `2^64` of the wide lane and the zero-extended narrow lane. -/
theorem vsubw_u32_spec [Dialect] (N : uint64x2_t) (M : uint32x2_t) :
    vsubw_u32 N M = .ok ⟨fun i => N.lane i - (M.lane i).setWidth 64⟩ := by
  unfold vsubw_u32
  refine fill_ok (by rfl) _ fun i D => ?_
  csim
  bvnorm

end Verif.Props
