import Verif.Fill
import Verif.Model.Logic
import Verif.Model.Perm

/-! # Integer comparison masks, bitwise select and table lookup (C32, C33, C42) -/

namespace Verif.Props
open Verif.Model Verif.Spec

/-- `vcgtq_u8`: all ones where the first operand is greater (unsigned), zero elsewhere. -/
theorem vcgtq_u8_spec (N M : uint8x16_t) :
    vcgtq_u8 N M = .ok ⟨fun i => mask 8 ((M.lane i).toNat < (N.lane i).toNat)⟩ := by
  unfold vcgtq_u8
  refine fill_ok (by rfl) _ fun i D => ?_
  csim
  unfold mask
  split
  · rw [if_pos (by omega)]; rfl
  · rw [if_neg (by omega)]; rfl

/-! ## Bitwise select -/

/-- The top `k` bits of a byte. -/
def topBits (k : Nat) : BitVec 8 := BitVec.allOnes 8 <<< (8 - k)

theorem select_step (m a b : BitVec 8) (k : Nat) (hk : k < 8) :
    ((m &&& a ||| ~~~ m &&& b) &&& topBits k) +
      (if m &&& BitVec.twoPow 8 (7 - k) = BitVec.twoPow 8 (7 - k) then a &&& BitVec.twoPow 8 (7 - k)
        else b &&& BitVec.twoPow 8 (7 - k)) =
      (m &&& a ||| ~~~ m &&& b) &&& topBits (k + 1) := by
  have e : (if m &&& BitVec.twoPow 8 (7 - k) = BitVec.twoPow 8 (7 - k) then a &&& BitVec.twoPow 8 (7 - k)
        else b &&& BitVec.twoPow 8 (7 - k)) = (m &&& a ||| ~~~ m &&& b) &&& BitVec.twoPow 8 (7 - k) := by
    have h7 : 7 - k < 8 := by omega
    have h0 : ¬ (0#8 = BitVec.twoPow 8 (7 - k)) := by
      intro h
      have := congrArg (fun x => BitVec.getLsbD x (7 - k)) h
      simp [h7] at this
    simp only [BitVec.and_twoPow, BitVec.getLsbD_or, BitVec.getLsbD_and, BitVec.getLsbD_not, h7,
      decide_true, Bool.true_and]
    cases m.getLsbD (7 - k) <;> simp [h0]
  rw [e, BitVec.add_eq_or_of_and_eq_zero]
  · apply BitVec.eq_of_getLsbD_eq
    intro i hi
    simp only [topBits, BitVec.getLsbD_or, BitVec.getLsbD_and, BitVec.getLsbD_shiftLeft,
      BitVec.getLsbD_allOnes, BitVec.getLsbD_twoPow, hi, decide_true, Bool.true_and]
    generalize (m.getLsbD i && a.getLsbD i || (~~~ m).getLsbD i && b.getLsbD i) = c
    cases c
    · simp
    · rw [Bool.eq_iff_iff]
      simp
      omega
  · apply BitVec.eq_of_getLsbD_eq
    intro i hi
    simp only [topBits, BitVec.getLsbD_or, BitVec.getLsbD_and, BitVec.getLsbD_shiftLeft,
      BitVec.getLsbD_allOnes, BitVec.getLsbD_twoPow, hi, decide_true, Bool.true_and]
    generalize (m.getLsbD i && a.getLsbD i || (~~~ m).getLsbD i && b.getLsbD i) = c
    cases c <;> simp
    omega
example := select_step 9 9 9 3 (by decide)

/-- `a & b` on bytes, after promotion to `int`. -/
theorem and_bytes (a b : BitVec 8) :
    (BitVec.ofInt 32 (a.toNat : Int) &&& BitVec.ofInt 32 (b.toNat : Int)).toInt = ((a &&& b).toNat : Int) := by
  have e : BitVec.ofInt 32 (a.toNat : Int) &&& BitVec.ofInt 32 (b.toNat : Int) = (a &&& b).setWidth 32 := by
    rw [ofInt_toNat, ofInt_toNat, BitVec.setWidth_and]
  rw [e, BitVec.toInt_setWidth]
  exact bmod32 (by omega)

theorem arr_get_put {e n} (D : Arr e n) (i : Fin n) (b : BitVec e.bits) :
    (D.put i b).get ((i.val : Nat) : Int) = .ok (.ofBits e b) := by
  unfold Arr.get
  rw [dif_pos (by omega)]
  simp [Arr.put]

theorem arr_put_put {e n} (D : Arr e n) (i : Fin n) (b c : BitVec e.bits) :
    (D.put i b).put i c = D.put i c := by
  funext j
  simp only [Arr.put]
  split <;> rfl

/-- The bit examined in iteration `k` of the inner loop of `vbslq_u8`. -/
theorem select_bit [Dialect] (k : Nat) (hk : k < 8) :
    Val.shl (.int .i32 1) (.int .i32 (7 - k)) = .ok (.int .i32 ((BitVec.twoPow 8 (7 - k)).toNat : Int)) := by
  have e : (7 : Int) - k = ((7 - k : Nat) : Int) := by omega
  rw [e, shl_one _ (by omega), BitVec.toNat_twoPow_of_lt (by omega)]
  simp
example := @select_bit .strict 3 (by decide)

/-- `vbslq_u8` selects each bit by the mask bit. -/
theorem vbslq_u8_spec [Dialect] (mask src1 src2 : uint8x16_t) :
    vbslq_u8 mask src1 src2 =
      .ok ⟨fun i => (mask.lane i &&& src1.lane i) ||| (~~~ mask.lane i &&& src2.lane i)⟩ := by
  unfold vbslq_u8
  refine fill_ok (by rfl) _ fun i D => ?_
  have e0 : D.set ((i.val : Nat) : Int) (vint 0) = .ok (D.put i 0#8) := by rw [Arr.set_fin]; rfl
  rw [e0, ok_bind, cfor_inv 8 (fun k => D.put i
    (((mask.lane i &&& src1.lane i) ||| (~~~ mask.lane i &&& src2.lane i)) &&& topBits k)) (by rfl)]
  · congr 2
    rw [show topBits 8 = BitVec.allOnes 8 from by decide, BitVec.and_allOnes]
  · congr 1
    rw [show topBits 0 = 0#8 from by decide, BitVec.and_zero]
  · intro k hk
    have e := select_bit k hk
    rw [Int.zero_add, Int.mul_one]
    have hs := select_step (mask.lane i) (src1.lane i) (src2.lane i) k hk
    generalize BitVec.twoPow 8 (7 - k) = x at e hs
    generalize ((mask.lane i &&& src1.lane i) ||| (~~~ mask.lane i &&& src2.lane i)) = z at hs ⊢
    csim
    simp only [e]
    csim
    simp only [and_bytes, arr_get_put]
    csim
    simp only [arr_put_put]
    rw [← hs]
    have hx : ((((mask.lane i &&& x).toNat : Int) = x.toNat)) = (mask.lane i &&& x = x) :=
      propext ⟨fun h => BitVec.eq_of_toNat_eq (by omega), fun h => by rw [h]⟩
    simp only [hx]
    split
    · bvnorm
    · bvnorm

/-! ## Table lookup -/

theorem VecArr.get_eq {e n k} (a : VecArr e n k) {j i : Int} (h : (0 ≤ j ∧ j < k) ∧ 0 ≤ i ∧ i < n) :
    a.get j i = .ok (.ofBits e ((a.reg ⟨j.toNat, by omega⟩).lane ⟨i.toNat, by omega⟩)) := by
  unfold VecArr.get
  rw [dif_pos h.1, Vec.get_eq _ h.2]

theorem cOr_ok (a b : Bool) : cOr (.ok a) (.ok b) = .ok (a || b) := by
  cases a <;> rfl

theorem reg_lane_congr {e n k} (a : VecArr e n k) {j j' : Fin k} {i i' : Fin n} (hj : j.val = j'.val)
    (hi : i.val = i'.val) : (a.reg j).lane i = (a.reg j').lane i' := by
  rw [Fin.ext hj, Fin.ext hi]

macro "tbl_close" a:term "," D:term "," i:term : tactic => `(tactic|
  (simp only [Vec.get_fin, ok_bind, Val.ofBits, intOfBits, ITy.signed, Bool.false_eq_true, if_false,
     cast_u8_i32, Val.idx, pure_eq, cOr_ok, lt_i32_i32, gt_i32_i32, Bool.or_eq_true, decide_eq_true_eq]
   repeat' split
   all_goals first
     | (exfalso; omega)
     | (simp only [Arr.set_fin, ok_bind]; rfl)
     | (simp (disch := omega) only [Vec.get_eq, Arr.set_fin, toBits_ofBits, ok_bind]; rfl)
     | (simp (disch := omega) only [VecArr.get_eq, Arr.set_fin, toBits_ofBits, ok_bind]
        refine congrArg (fun b => C.ok (Arr.put $D $i b)) (reg_lane_congr $a ?_ ?_) <;> simp only <;> omega)))

/-- `vtbl1_u8` gives the table byte with the given index, and 0 for an index outside the table. -/
theorem vtbl1_u8_spec (a idx : uint8x8_t) :
    vtbl1_u8 a idx =
      .ok ⟨fun i => if h : (idx.lane i).toNat < 8 then a[(idx.lane i).toNat] else 0#8⟩ := by
  unfold vtbl1_u8
  refine fill_ok (by rfl) _ fun i D => ?_
  tbl_close a, D, i

/-- `vtbl2_u8`: the table is the concatenation of two registers. -/
theorem vtbl2_u8_spec (a : uint8x8x2_t) (idx : uint8x8_t) :
    vtbl2_u8 a idx =
      .ok ⟨fun i => if h : (idx.lane i).toNat < 16
        then a[(idx.lane i).toNat / 8][(idx.lane i).toNat % 8] else 0#8⟩ := by
  unfold vtbl2_u8
  refine fill_ok (by rfl) _ fun i D => ?_
  tbl_close a, D, i

/-- `vtbl4_u8`: the table is the concatenation of four registers. -/
theorem vtbl4_u8_spec (a : uint8x8x4_t) (idx : uint8x8_t) :
    vtbl4_u8 a idx =
      .ok ⟨fun i => if h : (idx.lane i).toNat < 32
        then a[(idx.lane i).toNat / 8][(idx.lane i).toNat % 8] else 0#8⟩ := by
  unfold vtbl4_u8
  refine fill_ok (by rfl) _ fun i D => ?_
  tbl_close a, D, i

/-- `vqtbl1_u8` gives the table byte when every index is in the table; any other index reads
outside the table (undefined behaviour) where the instruction gives 0. -/
theorem vqtbl1_u8_partial (t : uint8x16_t) (idx : uint8x8_t) :
    vqtbl1_u8 t idx =
      if ∀ i : Fin 8, (idx.lane i).toNat < 16
      then .ok ⟨fun i => if h : (idx.lane i).toNat < 16 then t[(idx.lane i).toNat] else 0#8⟩
      else .ub .outOfBounds := by
  unfold vqtbl1_u8
  refine fill_if (by rfl) _ _ _ fun i D => ?_
  by_cases h : (idx.lane i).toNat < 16
  · simp only [Vec.get_fin, ok_bind, if_pos h, dif_pos h]
    simp only [Val.ofBits, intOfBits, Val.idx]
    rw [Vec.get_eq t (by simp [ITy.signed]; omega)]
    simp only [Arr.set_fin, toBits_ofBits, ok_bind]
    rfl
  · simp only [Vec.get_fin, ok_bind, if_neg h]
    simp only [Val.ofBits, intOfBits, Val.idx]
    rw [Vec.get_oob t (by simp [ITy.signed]; omega)]
    rfl

/-- Indices of 16 and above are undefined behaviour, whatever the table and the other indices. -/
theorem vqtbl1_u8_oob (t : uint8x16_t) (idx : uint8x8_t) (i : Fin 8) (h : 16 ≤ (idx.lane i).toNat) :
    vqtbl1_u8 t idx = .ub .outOfBounds := by
  rw [vqtbl1_u8_partial, if_neg]
  intro hh
  have := hh i
  omega
example := vqtbl1_u8_oob ⟨fun i => BitVec.ofNat 8 (4 + i.val)⟩ ⟨fun i => BitVec.ofNat 8 (12 + i.val)⟩ 4 (by decide)

end Verif.Props
