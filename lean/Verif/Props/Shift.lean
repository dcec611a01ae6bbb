import Verif.Fill
import Verif.Model.Shift
import Verif.Model.Rest
/-! # Shifts by an immediate (C44 - C51)

Generated by `tools/gen_props.py`. -/

set_option linter.unusedSimpArgs false
set_option linter.unusedVariables false

namespace Verif.Props
open Verif.Model Verif.Spec

/-- `vshrn_n_s16`: each lane shifted right by `n`, low half, for every `n` in `[1, 8]`. -/
theorem vshrn_n_s16_spec [Dialect] (a : int16x8_t) (n : Nat) (h1 : 1 ≤ n) (h2 : n ≤ 8) :
    vshrn_n_s16 a n = .ok ⟨fun i => (((a.lane i).sshiftRight n).setWidth 8)⟩ := by
  unfold vshrn_n_s16
  rw [if_neg (by omega)]
  refine fill_ok (by rfl) _ fun i D => ?_
  csim
  simp only [Int.toNat_natCast, toInt_div_pow]
  rw [ofInt_toInt_trunc _ _ (by decide)]
example := @vshrn_n_s16_spec .strict (⟨fun i => BitVec.ofNat 16 (3 + i.val)⟩) 3 (by decide) (by decide)

/-- `vshrn_n_s16` aborts for every `n` outside `[1, 8]`. -/
theorem vshrn_n_s16_abort [Dialect] (a : int16x8_t) (n : Int) (hn : ¬ (1 ≤ n ∧ n ≤ 8)) :
    ∃ msg, vshrn_n_s16 a n = .abort msg := by
  unfold vshrn_n_s16
  rw [if_pos (by omega)]
  exact ⟨_, rfl⟩
example := @vshrn_n_s16_abort .strict (⟨fun i => BitVec.ofNat 16 (3 + i.val)⟩) (-1) (by decide)

/-- `vshrn_n_s32`: each lane shifted right by `n`, low half, for every `n` in `[1, 16]`. -/
theorem vshrn_n_s32_spec [Dialect] (a : int32x4_t) (n : Nat) (h1 : 1 ≤ n) (h2 : n ≤ 16) :
    vshrn_n_s32 a n = .ok ⟨fun i => (((a.lane i).sshiftRight n).setWidth 16)⟩ := by
  unfold vshrn_n_s32
  rw [if_neg (by omega)]
  refine fill_ok (by rfl) _ fun i D => ?_
  csim
  simp only [Int.toNat_natCast, toInt_div_pow]
  rw [ofInt_toInt_trunc _ _ (by decide)]
example := @vshrn_n_s32_spec .strict (⟨fun i => BitVec.ofNat 32 (3 + i.val)⟩) 3 (by decide) (by decide)

/-- `vshrn_n_s32` aborts for every `n` outside `[1, 16]`. -/
theorem vshrn_n_s32_abort [Dialect] (a : int32x4_t) (n : Int) (hn : ¬ (1 ≤ n ∧ n ≤ 16)) :
    ∃ msg, vshrn_n_s32 a n = .abort msg := by
  unfold vshrn_n_s32
  rw [if_pos (by omega)]
  exact ⟨_, rfl⟩
example := @vshrn_n_s32_abort .strict (⟨fun i => BitVec.ofNat 32 (3 + i.val)⟩) (-1) (by decide)

/-- `vshrn_n_s64`: each lane shifted right by `n`, low half, for every `n` in `[1, 32]`. -/
theorem vshrn_n_s64_spec [Dialect] (a : int64x2_t) (n : Nat) (h1 : 1 ≤ n) (h2 : n ≤ 32) :
    vshrn_n_s64 a n = .ok ⟨fun i => (((a.lane i).sshiftRight n).setWidth 32)⟩ := by
  unfold vshrn_n_s64
  rw [if_neg (by omega)]
  refine fill_ok (by rfl) _ fun i D => ?_
  csim
  simp only [Int.toNat_natCast, toInt_div_pow]
  rw [ofInt_toInt_trunc _ _ (by decide)]
example := @vshrn_n_s64_spec .strict (⟨fun i => BitVec.ofNat 64 (3 + i.val)⟩) 3 (by decide) (by decide)

/-- `vshrn_n_s64` aborts for every `n` outside `[1, 32]`. -/
theorem vshrn_n_s64_abort [Dialect] (a : int64x2_t) (n : Int) (hn : ¬ (1 ≤ n ∧ n ≤ 32)) :
    ∃ msg, vshrn_n_s64 a n = .abort msg := by
  unfold vshrn_n_s64
  rw [if_pos (by omega)]
  exact ⟨_, rfl⟩
example := @vshrn_n_s64_abort .strict (⟨fun i => BitVec.ofNat 64 (3 + i.val)⟩) (-1) (by decide)

/-- `vshrn_n_u16`: each lane shifted right by `n`, low half, for every `n` in `[1, 8]`. -/
theorem vshrn_n_u16_spec [Dialect] (a : uint16x8_t) (n : Nat) (h1 : 1 ≤ n) (h2 : n ≤ 8) :
    vshrn_n_u16 a n = .ok ⟨fun i => (((a.lane i) >>> n).setWidth 8)⟩ := by
  unfold vshrn_n_u16
  rw [if_neg (by omega)]
  refine fill_ok (by rfl) _ fun i D => ?_
  csim
  simp only [Int.toNat_natCast, toNat_div_pow]
  rw [ofInt_toNat]
example := @vshrn_n_u16_spec .strict (⟨fun i => BitVec.ofNat 16 (3 + i.val)⟩) 3 (by decide) (by decide)

/-- `vshrn_n_u16` aborts for every `n` outside `[1, 8]`. -/
theorem vshrn_n_u16_abort [Dialect] (a : uint16x8_t) (n : Int) (hn : ¬ (1 ≤ n ∧ n ≤ 8)) :
    ∃ msg, vshrn_n_u16 a n = .abort msg := by
  unfold vshrn_n_u16
  rw [if_pos (by omega)]
  exact ⟨_, rfl⟩
example := @vshrn_n_u16_abort .strict (⟨fun i => BitVec.ofNat 16 (3 + i.val)⟩) (-1) (by decide)

/-- `vshrn_n_u32`: each lane shifted right by `n`, low half, for every `n` in `[1, 16]`. -/
theorem vshrn_n_u32_spec [Dialect] (a : uint32x4_t) (n : Nat) (h1 : 1 ≤ n) (h2 : n ≤ 16) :
    vshrn_n_u32 a n = .ok ⟨fun i => (((a.lane i) >>> n).setWidth 16)⟩ := by
  unfold vshrn_n_u32
  rw [if_neg (by omega)]
  refine fill_ok (by rfl) _ fun i D => ?_
  csim
  simp only [Int.toNat_natCast, toNat_div_pow]
  rw [ofInt_toNat]
example := @vshrn_n_u32_spec .strict (⟨fun i => BitVec.ofNat 32 (3 + i.val)⟩) 3 (by decide) (by decide)

/-- `vshrn_n_u32` aborts for every `n` outside `[1, 16]`. -/
theorem vshrn_n_u32_abort [Dialect] (a : uint32x4_t) (n : Int) (hn : ¬ (1 ≤ n ∧ n ≤ 16)) :
    ∃ msg, vshrn_n_u32 a n = .abort msg := by
  unfold vshrn_n_u32
  rw [if_pos (by omega)]
  exact ⟨_, rfl⟩
example := @vshrn_n_u32_abort .strict (⟨fun i => BitVec.ofNat 32 (3 + i.val)⟩) (-1) (by decide)

/-- `vshrn_n_u64`: each lane shifted right by `n`, low half, for every `n` in `[1, 32]`. -/
theorem vshrn_n_u64_spec [Dialect] (a : uint64x2_t) (n : Nat) (h1 : 1 ≤ n) (h2 : n ≤ 32) :
    vshrn_n_u64 a n = .ok ⟨fun i => (((a.lane i) >>> n).setWidth 32)⟩ := by
  unfold vshrn_n_u64
  rw [if_neg (by omega)]
  refine fill_ok (by rfl) _ fun i D => ?_
  csim
  simp only [Int.toNat_natCast, toNat_div_pow]
  rw [ofInt_toNat]
example := @vshrn_n_u64_spec .strict (⟨fun i => BitVec.ofNat 64 (3 + i.val)⟩) 3 (by decide) (by decide)

/-- `vshrn_n_u64` aborts for every `n` outside `[1, 32]`. -/
theorem vshrn_n_u64_abort [Dialect] (a : uint64x2_t) (n : Int) (hn : ¬ (1 ≤ n ∧ n ≤ 32)) :
    ∃ msg, vshrn_n_u64 a n = .abort msg := by
  unfold vshrn_n_u64
  rw [if_pos (by omega)]
  exact ⟨_, rfl⟩
example := @vshrn_n_u64_abort .strict (⟨fun i => BitVec.ofNat 64 (3 + i.val)⟩) (-1) (by decide)

/-- `vshr_n_u16`: each lane shifted right by `n`, for every `n` in `[1, 8]`. -/
theorem vshr_n_u16_partial [Dialect] (v : uint16x4_t) (n : Nat) (h1 : 1 ≤ n) (h2 : n ≤ 8) :
    vshr_n_u16 v n = .ok ⟨fun i => (v.lane i) >>> n⟩ := by
  unfold vshr_n_u16
  rw [if_neg (by omega)]
  refine fill_ok (by rfl) _ fun i D => ?_
  csim
  simp only [Int.toNat_natCast, toNat_div_pow]
  rw [ofInt_toNat, BitVec.setWidth_eq]
example := @vshr_n_u16_partial .strict (⟨fun i => BitVec.ofNat 16 (4 + i.val)⟩) 3 (by decide) (by decide)

/-- `vshr_n_u16` aborts for every `n` outside `[1, 8]`. -/
theorem vshr_n_u16_abort [Dialect] (v : uint16x4_t) (n : Int) (hn : ¬ (1 ≤ n ∧ n ≤ 8)) :
    ∃ msg, vshr_n_u16 v n = .abort msg := by
  unfold vshr_n_u16
  rw [if_pos (by omega)]
  exact ⟨_, rfl⟩
example := @vshr_n_u16_abort .strict (⟨fun i => BitVec.ofNat 16 (4 + i.val)⟩) (-1) (by decide)

/-- `vshr_n_u16` rejects the architectural shift counts 9 to 16. -/
theorem vshr_n_u16_wrong [Dialect] (v : uint16x4_t) (n : Nat) (h1 : 9 ≤ n) (h2 : n ≤ 16) :
    vshr_n_u16 v n ≠ .ok ⟨fun i => (v.lane i) >>> n⟩ := by
  obtain ⟨msg, h⟩ := vshr_n_u16_abort v n (by omega)
  rw [h]
  exact fun h => by cases h
example := @vshr_n_u16_wrong .strict (⟨fun i => BitVec.ofNat 16 (4 + i.val)⟩) 9 (by decide) (by decide)

/-- `vqshrun_n_s16`: the shifted lane (rounded down) clamped to `[0, 255]`, for every `n` in `[1, 8]`. -/
theorem vqshrun_n_s16_spec [Dialect] (v : int16x8_t) (n : Nat) (h1 : 1 ≤ n) (h2 : n ≤ 8) :
    vqshrun_n_s16 v n = .ok ⟨fun i => usat 8 ((v.lane i).toInt / 2 ^ n)⟩ := by
  unfold vqshrun_n_s16
  rw [if_neg (by omega)]
  refine fill_ok (by rfl) _ fun i D => ?_
  have hb := toInt16 (v.lane i)
  have hd := div_bound n (show -32768 ≤ (v.lane i).toInt ∧ (v.lane i).toInt ≤ 32767 from hb) (by decide)
  csim
  simp only [Int.toNat_natCast]
  generalize (v.lane i).toInt / 2 ^ n = y at *
  rw [bmod16 (by omega)]
  repeat' split
  all_goals sat_close
example := @vqshrun_n_s16_spec .strict (⟨fun i => BitVec.ofNat 16 (4 + i.val)⟩) 3 (by decide) (by decide)

/-- `vqshrun_n_s16` aborts for every `n` outside `[1, 8]`. -/
theorem vqshrun_n_s16_abort [Dialect] (v : int16x8_t) (n : Int) (hn : ¬ (1 ≤ n ∧ n ≤ 8)) :
    ∃ msg, vqshrun_n_s16 v n = .abort msg := by
  unfold vqshrun_n_s16
  rw [if_pos (by omega)]
  exact ⟨_, rfl⟩
example := @vqshrun_n_s16_abort .strict (⟨fun i => BitVec.ofNat 16 (4 + i.val)⟩) (-1) (by decide)

/-- `vqrshrun_n_s16`: the lane divided by `2^n`, rounded to nearest (half up), clamped to `[0, 255]`, for every `n` in `[1, 8]`. -/
theorem vqrshrun_n_s16_spec [Dialect] (v : int16x8_t) (n : Nat) (h1 : 1 ≤ n) (h2 : n ≤ 8) :
    vqrshrun_n_s16 v n = .ok ⟨fun i => usat 8 (((v.lane i).toInt + 2 ^ (n - 1)) / 2 ^ n)⟩ := by
  unfold vqrshrun_n_s16
  rw [if_neg (by omega)]
  refine fill_ok (by rfl) _ fun i D => ?_
  have hb := toInt16 (v.lane i)
  have hp : (2 : Int) ^ (n - 1) ≤ 2 ^ 7 := two_pow_le (by omega)
  have hp0 := two_pow_pos (n - 1)
  have e1 : (n : Int) - 1 = ((n - 1 : Nat) : Int) := by omega
  have e2 := shl_one (n - 1) (by omega)
  have hd := div_bound' n h1 (show -32768 ≤ (v.lane i).toInt ∧ (v.lane i).toInt ≤ 32767 from hb)
  csim
  simp only [e1, e2]
  csim
  simp only [Int.toNat_natCast]
  generalize ((v.lane i).toInt + 2 ^ (n - 1)) / 2 ^ n = y at *
  rw [bmod16 (by omega)]
  repeat' split
  all_goals sat_close
example := @vqrshrun_n_s16_spec .strict (⟨fun i => BitVec.ofNat 16 (4 + i.val)⟩) 3 (by decide) (by decide)

/-- `vqrshrun_n_s16` aborts for every `n` outside `[1, 8]`. -/
theorem vqrshrun_n_s16_abort [Dialect] (v : int16x8_t) (n : Int) (hn : ¬ (1 ≤ n ∧ n ≤ 8)) :
    ∃ msg, vqrshrun_n_s16 v n = .abort msg := by
  unfold vqrshrun_n_s16
  rw [if_pos (by omega)]
  exact ⟨_, rfl⟩
example := @vqrshrun_n_s16_abort .strict (⟨fun i => BitVec.ofNat 16 (4 + i.val)⟩) (-1) (by decide)

/-- `vqshrun_n_s32` aborts for every `n` outside `[1, 16]`. -/
theorem vqshrun_n_s32_abort [Dialect] (v : int32x4_t) (n : Int) (hn : ¬ (1 ≤ n ∧ n ≤ 16)) :
    ∃ msg, vqshrun_n_s32 v n = .abort msg := by
  unfold vqshrun_n_s32
  rw [if_pos (by omega)]
  exact ⟨_, rfl⟩
example := @vqshrun_n_s32_abort .strict (⟨fun i => BitVec.ofNat 32 (4 + i.val)⟩) (-1) (by decide)

/-- `vqshrun_n_s64` aborts for every `n` outside `[1, 32]`. -/
theorem vqshrun_n_s64_abort [Dialect] (v : int64x2_t) (n : Int) (hn : ¬ (1 ≤ n ∧ n ≤ 32)) :
    ∃ msg, vqshrun_n_s64 v n = .abort msg := by
  unfold vqshrun_n_s64
  rw [if_pos (by omega)]
  exact ⟨_, rfl⟩
example := @vqshrun_n_s64_abort .strict (⟨fun i => BitVec.ofNat 64 (4 + i.val)⟩) (-1) (by decide)

/-- `vqshrn_n_s16`: the shifted lane (rounded down) clamped to the narrow type, for every `n` in `[1, 8]`. -/
theorem vqshrn_n_s16_spec [Dialect] (a : int16x8_t) (n : Nat) (h1 : 1 ≤ n) (h2 : n ≤ 8) :
    vqshrn_n_s16 a n = .ok ⟨fun i => ssat 8 ((a.lane i).toInt / 2 ^ n)⟩ := by
  unfold vqshrn_n_s16
  refine fill_ok (by rfl) _ fun i D => ?_
  have hb := toInt16 (a.lane i)
  have hd := div_bound n (show -32768 ≤ (a.lane i).toInt ∧ (a.lane i).toInt ≤ 32767 by omega) (by decide)
  csim
  simp only [Int.toNat_natCast]
  generalize (a.lane i).toInt / 2 ^ n = y at *
  repeat' split
  all_goals sat_close
example := @vqshrn_n_s16_spec .strict (⟨fun i => BitVec.ofNat 16 (3 + i.val)⟩) 3 (by decide) (by decide)

/-- `vqshrn_n_s32`: the shifted lane (rounded down) clamped to the narrow type, for every `n` in `[1, 16]`. -/
theorem vqshrn_n_s32_spec [Dialect] (a : int32x4_t) (n : Nat) (h1 : 1 ≤ n) (h2 : n ≤ 16) :
    vqshrn_n_s32 a n = .ok ⟨fun i => ssat 16 ((a.lane i).toInt / 2 ^ n)⟩ := by
  unfold vqshrn_n_s32
  refine fill_ok (by rfl) _ fun i D => ?_
  have hb := toInt32 (a.lane i)
  have hd := div_bound n (show -2147483648 ≤ (a.lane i).toInt ∧ (a.lane i).toInt ≤ 2147483647 by omega) (by decide)
  csim
  simp only [Int.toNat_natCast]
  generalize (a.lane i).toInt / 2 ^ n = y at *
  repeat' split
  all_goals sat_close
example := @vqshrn_n_s32_spec .strict (⟨fun i => BitVec.ofNat 32 (3 + i.val)⟩) 3 (by decide) (by decide)

/-- `vqshrn_n_u16`: the shifted lane (rounded down) clamped to the narrow type, for every `n` in `[1, 8]`. -/
theorem vqshrn_n_u16_spec [Dialect] (a : uint16x8_t) (n : Nat) (h1 : 1 ≤ n) (h2 : n ≤ 8) :
    vqshrn_n_u16 a n = .ok ⟨fun i => usat 8 (((a.lane i).toNat : Int) / 2 ^ n)⟩ := by
  unfold vqshrn_n_u16
  refine fill_ok (by rfl) _ fun i D => ?_
  have hb := (a.lane i).isLt
  simp only [Elem.bits, ITy.bits] at hb
  have hd := div_bound_nonneg n (show 0 ≤ ((a.lane i).toNat : Int) ∧ ((a.lane i).toNat : Int) ≤ 65535 by omega)
  csim
  simp only [Int.toNat_natCast]
  generalize ((a.lane i).toNat : Int) / 2 ^ n = y at *
  repeat' split
  all_goals sat_close
example := @vqshrn_n_u16_spec .strict (⟨fun i => BitVec.ofNat 16 (3 + i.val)⟩) 3 (by decide) (by decide)

/-- `vqshrn_n_u32`: the shifted lane (rounded down) clamped to the narrow type, for every `n` in `[1, 16]`. -/
theorem vqshrn_n_u32_spec [Dialect] (a : uint32x4_t) (n : Nat) (h1 : 1 ≤ n) (h2 : n ≤ 16) :
    vqshrn_n_u32 a n = .ok ⟨fun i => usat 16 (((a.lane i).toNat : Int) / 2 ^ n)⟩ := by
  unfold vqshrn_n_u32
  refine fill_ok (by rfl) _ fun i D => ?_
  have hb := (a.lane i).isLt
  simp only [Elem.bits, ITy.bits] at hb
  have hd := div_bound_nonneg n (show 0 ≤ ((a.lane i).toNat : Int) ∧ ((a.lane i).toNat : Int) ≤ 4294967295 by omega)
  csim
  simp only [Int.toNat_natCast]
  generalize ((a.lane i).toNat : Int) / 2 ^ n = y at *
  repeat' split
  all_goals sat_close
example := @vqshrn_n_u32_spec .strict (⟨fun i => BitVec.ofNat 32 (3 + i.val)⟩) 3 (by decide) (by decide)

/-- `vqshrn_n_u64`: the shifted lane (rounded down) clamped to the narrow type, for every `n` in `[1, 32]`. -/
theorem vqshrn_n_u64_spec [Dialect] (a : uint64x2_t) (n : Nat) (h1 : 1 ≤ n) (h2 : n ≤ 32) :
    vqshrn_n_u64 a n = .ok ⟨fun i => usat 32 (((a.lane i).toNat : Int) / 2 ^ n)⟩ := by
  unfold vqshrn_n_u64
  refine fill_ok (by rfl) _ fun i D => ?_
  have hb := (a.lane i).isLt
  simp only [Elem.bits, ITy.bits] at hb
  have hd := div_bound_nonneg n (show 0 ≤ ((a.lane i).toNat : Int) ∧ ((a.lane i).toNat : Int) ≤ 18446744073709551615 by omega)
  csim
  simp only [Int.toNat_natCast]
  generalize ((a.lane i).toNat : Int) / 2 ^ n = y at *
  repeat' split
  all_goals sat_close
example := @vqshrn_n_u64_spec .strict (⟨fun i => BitVec.ofNat 64 (3 + i.val)⟩) 3 (by decide) (by decide)

/-- `vqshrn_n_s64`: the shifted lane is limited from below only, then truncated to 32 bits: it is the clamped value when the shifted lane does not exceed the 32-bit maximum. -/
theorem vqshrn_n_s64_partial [Dialect] (a : int64x2_t) (n : Nat) (h1 : 1 ≤ n) (h2 : n ≤ 32) :
    vqshrn_n_s64 a n = .ok ⟨fun i => BitVec.ofInt 32 (max ((a.lane i).toInt / 2 ^ n) (-2147483648))⟩ := by
  unfold vqshrn_n_s64
  refine fill_ok (by rfl) _ fun i D => ?_
  have hb := toInt64 (a.lane i)
  have hd := div_bound n (show -9223372036854775808 ≤ (a.lane i).toInt ∧ (a.lane i).toInt ≤ 9223372036854775807 by omega) (by decide)
  csim
  simp only [Int.toNat_natCast]
  generalize (a.lane i).toInt / 2 ^ n = y at *
  split
  · rw [Int.max_eq_right (by omega)]
  · rw [Int.max_eq_left (by omega), if_neg (by have := Int.bmod_lt (x := y) (m := 4294967296) (by decide); omega), ofInt_bmod _ _ (by decide)]
example := @vqshrn_n_s64_partial .strict (⟨fun i => BitVec.ofNat 64 (3 + i.val)⟩) 3 (by decide) (by decide)

/-- `vqshrn_n_s64` gives the clamped value when no shifted lane exceeds the 32-bit maximum, in particular always for `n = 32`. -/
theorem vqshrn_n_s64_fits [Dialect] (a : int64x2_t) (n : Nat) (h1 : 1 ≤ n) (h2 : n ≤ 32)
    (h : ∀ i, (a.lane i).toInt / 2 ^ n ≤ 2147483647) :
    vqshrn_n_s64 a n = .ok ⟨fun i => ssat 32 ((a.lane i).toInt / 2 ^ n)⟩ := by
  rw [vqshrn_n_s64_partial a n h1 h2]
  congr 2
  funext i
  have := h i
  simp only [ssat, clamp, Int.reducePow, Int.reduceNeg, Int.reduceSub, Nat.reduceSub]
  congr 1
  omega
example := @vqshrn_n_s64_fits .strict (⟨fun i => BitVec.ofNat 64 (3 + i.val)⟩) 3 (by decide) (by decide) (by decide)

/-- `vqshrn_n_s64` does not clamp large shifted lanes. -/
theorem vqshrn_n_s64_wrong [Dialect] : ¬ ∀ (a : int64x2_t) (n : Nat), 1 ≤ n → n ≤ 32 →
      vqshrn_n_s64 a n = .ok ⟨fun i => ssat 32 ((a.lane i).toInt / 2 ^ n)⟩ := by
  intro h
  have h := h ⟨fun _ => 8589934592#64⟩ 1 (by decide) (by decide)
  rw [vqshrn_n_s64_partial _ 1 (by decide) (by decide)] at h
  have h := congrFun (Vec.mk.inj (C.ok.inj h)) 0
  revert h
  decide

/-- `vrshrn_n_u16`: the low 8 bits of `(lane + 2^(n-1)) >> n`, for every `n` in `[1, 8]`. -/
theorem vrshrn_n_u16_spec [Dialect] (a : uint16x8_t) (n : Nat) (h1 : 1 ≤ n) (h2 : n ≤ 8) :
    vrshrn_n_u16 a n = .ok ⟨fun i => BitVec.ofNat 8 (((a.lane i).toNat + 2 ^ (n - 1)) / 2 ^ n)⟩ := by
  unfold vrshrn_n_u16
  have e1 : (n : Int) - 1 = ((n - 1 : Nat) : Int) := by omega
  have e2 := shl_one (n - 1) (by omega)
  have hp : (2 : Int) ^ (n - 1) ≤ 2 ^ 7 := two_pow_le (by omega)
  have hp0 := two_pow_pos (n - 1)
  rw [sub_i32_i32, mkInt_i32 (by omega), ok_bind, e1, e2, ok_bind, cast_i32_i32, ok_bind]
  refine fill_ok (by rfl) _ fun i D => ?_
  csim
  simp only [Int.toNat_natCast]
  congr 2
example := @vrshrn_n_u16_spec .strict (⟨fun i => BitVec.ofNat 16 (3 + i.val)⟩) 3 (by decide) (by decide)

/-- `vsraq_n_s32` shifts the accumulator too: it gives `(a >> n) + (b >> n)`, for every `n` in `[1, 31]`. -/
theorem vsraq_n_s32_partial [Dialect] (a b : int32x4_t) (n : Nat) (h1 : 1 ≤ n) (h2 : n ≤ 31) :
    vsraq_n_s32 a b n = .ok ⟨fun i => (a.lane i).sshiftRight n + (b.lane i).sshiftRight n⟩ := by
  unfold vsraq_n_s32
  refine fill_ok (by rfl) _ fun i D => ?_
  have ha := toInt32 (a.lane i)
  have hb := toInt32 (b.lane i)
  have hda := half_bound n h1 ha
  have hdb := half_bound n h1 hb
  csim
  simp only [Int.toNat_natCast] at *
  rw [mkInt_i32 (by omega)]
  csim
  simp only [toInt_div_pow, BitVec.ofInt_add]
  rw [BitVec.ofInt_toInt, BitVec.ofInt_toInt]
example := @vsraq_n_s32_partial .strict (⟨fun i => BitVec.ofNat 32 (3 + i.val)⟩) (⟨fun i => BitVec.ofNat 32 (2 + i.val)⟩) 3 (by decide) (by decide)

/-- `vsraq_n_s32` does not add the shifted operand to the unshifted accumulator. -/
theorem vsraq_n_s32_wrong [Dialect] : ¬ ∀ (a b : int32x4_t) (n : Nat), 1 ≤ n → n ≤ 31 →
      vsraq_n_s32 a b n = .ok ⟨fun i => a.lane i + (b.lane i).sshiftRight n⟩ := by
  intro h
  have h := h ⟨fun _ => 1#32⟩ ⟨fun _ => 0#32⟩ 1 (by decide) (by decide)
  rw [vsraq_n_s32_partial _ _ 1 (by decide) (by decide)] at h
  have h := congrFun (Vec.mk.inj (C.ok.inj h)) 0
  revert h
  decide

/-- The architectural shift count 32 is undefined behaviour. -/
theorem vsraq_n_s32_n32 [Dialect] (a b : int32x4_t) :
    vsraq_n_s32 a b 32 = .ub .shiftAmount := by
  unfold vsraq_n_s32
  show (cfor _ _ _ _ _ >>= fun D => Arr.ret D) = _
  rw [cfor_ub 0 (fun _ => Arr.undef) .shiftAmount (by decide) rfl (fun k hk => by omega)]
  · rfl
  · rw [Vec.get_at a (i := 0 + ((0 : Nat) : Int) * 1) 0 (by decide) rfl]
    rfl

/-- `vshlq_n_s32`: the lane times `2^n` modulo `2^32`, for every `n` in `[0, 31]`; in C++11 a negative lane, or a product of `2^32` or more, is undefined behaviour. -/
theorem vshlq_n_s32_partial [Dialect] (M : int32x4_t) (n : Nat) (h2 : n ≤ 31) :
    vshlq_n_s32 M n =
      if ∀ i : Fin 4, Dialect.wrapv = true ∨ (0 ≤ (M.lane i).toInt ∧ (M.lane i).toInt * 2 ^ n < 2 ^ 32)
      then .ok ⟨fun i => M.lane i <<< n⟩ else .ub .shiftOperand := by
  unfold vshlq_n_s32
  refine fill_if (by rfl) _ _ _ fun i D => ?_
  rw [Vec.get_fin, ok_bind, shl_s32 _ n (by omega)]
  split
  · csim
    rw [BitVec.ofInt_toInt]
  · rfl
example := @vshlq_n_s32_partial .strict (⟨fun i => BitVec.ofNat 32 (4 + i.val)⟩) 3 (by decide)

/-- With `-fwrapv`, `vshlq_n_s32` is the lane times `2^n` modulo `2^32` for all lanes. -/
theorem vshlq_n_s32_wrapv [Dialect] (hd : Dialect.wrapv = true) (M : int32x4_t) (n : Nat) (h2 : n ≤ 31) :
    vshlq_n_s32 M n = .ok ⟨fun i => M.lane i <<< n⟩ := by
  rw [vshlq_n_s32_partial M n h2, if_pos fun _ => .inl hd]
example := @vshlq_n_s32_wrapv .wrapping rfl (⟨fun i => BitVec.ofNat 32 (4 + i.val)⟩) 3 (by decide)

/-- In C++11 shifting any register with a negative lane is undefined behaviour. -/
theorem vshlq_n_s32_ub [Dialect] (hd : Dialect.wrapv = false) (M : int32x4_t) (n : Nat) (h2 : n ≤ 31) (i : Fin 4) (hi : (M.lane i).toInt < 0) :
    vshlq_n_s32 M n = .ub .shiftOperand := by
  rw [vshlq_n_s32_partial M n h2, if_neg]
  intro h
  rcases h i with h | h
  · rw [hd] at h
    cases h
  · omega
example := @vshlq_n_s32_ub .strict rfl (⟨fun _ => BitVec.intMin 32⟩) 3 (by decide) 2 (by decide)

/-- `vshll_n_u8`: the widened lane shifted left by `n`, for every `n` in `[0, 7]`. -/
theorem vshll_n_u8_spec [Dialect] (a : uint8x8_t) (n : Nat) (h2 : n ≤ 7) :
    vshll_n_u8 a n = .ok ⟨fun i => (a.lane i).setWidth 16 <<< n⟩ := by
  unfold vshll_n_u8
  refine fill_ok (by rfl) _ fun i D => ?_
  have hx := (a.lane i).isLt
  have hx : (a.lane i).toNat < 256 := hx
  have hp : 2 ^ n ≤ 2 ^ 7 := Nat.pow_le_pow_right (by decide) h2
  have hm : (a.lane i).toNat * 2 ^ n ≤ 255 * 128 := Nat.mul_le_mul (by omega) hp
  simp only [csem]
  rw [shl_u16 _ n (by omega) (by omega)]
  csim
  rw [ofInt_natCast', shl_ofNat]
example := @vshll_n_u8_spec .strict (⟨fun i => BitVec.ofNat 8 (3 + i.val)⟩) 3 (by decide)

/-- `vshll_n_u8` is the exact product of the lane and `2^n`. -/
theorem vshll_n_u8_exact [Dialect] (a : uint8x8_t) (n : Nat) (h2 : n ≤ 7) :
    ∃ r, vshll_n_u8 a n = .ok r ∧ ∀ i, (r.lane i).toNat = (a.lane i).toNat * 2 ^ n := by
  refine ⟨_, vshll_n_u8_spec a n h2, fun i => ?_⟩
  have hx : (a.lane i).toNat < 256 := (a.lane i).isLt
  have hp : 2 ^ n ≤ 2 ^ 7 := Nat.pow_le_pow_right (by decide) h2
  have hm : (a.lane i).toNat * 2 ^ n ≤ 255 * 128 := Nat.mul_le_mul (by omega) hp
  show ((a.lane i).setWidth 16 <<< n).toNat = _
  rw [BitVec.toNat_shiftLeft, BitVec.toNat_setWidth, Nat.shiftLeft_eq]
  rw [Nat.mod_eq_of_lt (a := (a.lane i).toNat) (by omega), Nat.mod_eq_of_lt (by omega)]
example := @vshll_n_u8_exact .strict (⟨fun i => BitVec.ofNat 8 (3 + i.val)⟩) 3 (by decide)

/-- `vqshrun_n_s32` computes the clamped value and drops it: it never returns a defined register, whatever the operands. -/
theorem vqshrun_n_s32_wrong [Dialect] (v : int32x4_t) (n : Int) (r : uint16x4_t) : vqshrun_n_s32 v n ≠ .ok r := by
  unfold vqshrun_n_s32
  split
  · exact fun h => by cases h
  · exact never_ok _ ⟨0, by decide⟩ r

/-- With `-fwrapv` (no overflow in the dropped computation) `vqshrun_n_s32` returns a register none of whose 4 lanes was written, for every `n` in `[1, 16]`. -/
theorem vqshrun_n_s32_partial [Dialect] (hd : Dialect.wrapv = true) (v : int32x4_t) (n : Nat) (h1 : 1 ≤ n) (h2 : n ≤ 16) :
    vqshrun_n_s32 v n = .indet (List.replicate 4 none) := by
  unfold vqshrun_n_s32
  rw [if_neg (by omega)]
  refine (congrArg (· >>= fun _ => Arr.undef.ret) (unit_loop (cnt := 4) (by rfl) fun k hk => ?_)).trans rfl
  have e1 : (n : Int) - 1 = ((n - 1 : Nat) : Int) := by omega
  rw [Vec.get_at v k hk (by omega)]
  have e2 := shl_one (n - 1) (by omega)
  csim
  simp only [e1, e2]
  csim_ub
  simp only [NoOverflow, hd, true_or, if_true]
  repeat' split
  all_goals rfl
example := @vqshrun_n_s32_partial .wrapping rfl (⟨fun i => BitVec.ofNat 32 (4 + i.val)⟩) 3 (by decide) (by decide)

/-- `vqshrun_n_s64` computes the clamped value and drops it: it never returns a defined register, whatever the operands. -/
theorem vqshrun_n_s64_wrong [Dialect] (v : int64x2_t) (n : Int) (r : uint32x2_t) : vqshrun_n_s64 v n ≠ .ok r := by
  unfold vqshrun_n_s64
  split
  · exact fun h => by cases h
  · exact never_ok _ ⟨0, by decide⟩ r

/-- With `-fwrapv` (no overflow in the dropped computation) `vqshrun_n_s64` returns a register none of whose 2 lanes was written, for every `n` in `[1, 32]`. -/
theorem vqshrun_n_s64_partial [Dialect] (hd : Dialect.wrapv = true) (v : int64x2_t) (n : Nat) (h1 : 1 ≤ n) (h2 : n ≤ 32) :
    vqshrun_n_s64 v n = .indet (List.replicate 2 none) := by
  unfold vqshrun_n_s64
  rw [if_neg (by omega)]
  refine (congrArg (· >>= fun _ => Arr.undef.ret) (unit_loop (cnt := 2) (by rfl) fun k hk => ?_)).trans rfl
  have e1 : (n : Int) - 1 = ((n - 1 : Nat) : Int) := by omega
  rw [Vec.get_at v k hk (by omega)]
  have e2 : ∃ d, Val.shl (.int .i32 1) (.int .i32 ((n - 1 : Nat) : Int)) = .ok (.int .i32 d) := by
    by_cases h : n = 32
    · subst h
      exact ⟨_, shl_one_31 _⟩
    · exact ⟨_, shl_one (n - 1) (by omega)⟩
  obtain ⟨d, e2⟩ := e2
  csim
  simp only [e1, e2]
  csim_ub
  simp only [NoOverflow, hd, true_or, if_true]
  repeat' split
  all_goals rfl
example := @vqshrun_n_s64_partial .wrapping rfl (⟨fun i => BitVec.ofNat 64 (4 + i.val)⟩) 3 (by decide) (by decide)

end Verif.Props
