import Verif.Props.Float
import Verif.Model.Move

/-!
# Floating-point maximum and minimum, comparison and select (C31, C32, C33, C34)
-/

namespace Verif.Props
open Verif.Model Verif.Spec Verif.FpOps

/-- The float `a` is less than the float `b` (IEEE-754: never when one of them is a NaN). -/
def Less32 (a b : BitVec 32) : Prop := (decode .b32 a.toNat).Less (decode .b32 b.toNat)
/-- The float is a NaN. -/
def NaN32 (a : BitVec 32) : Prop := decode .b32 a.toNat = .nan

theorem lt_iff32 (a b : BitVec 32) : Fmt.b32.lt a.toNat b.toNat = true ↔ Less32 a b :=
  lt_iff ok32 (lt32 a) (lt32 b)

instance (a b : BitVec 32) : Decidable (Less32 a b) := decidable_of_iff _ (lt_iff32 a b)

theorem lt_eq32 (a b : BitVec 32) : Fmt.b32.lt a.toNat b.toNat = decide (Less32 a b) := by
  rw [Bool.eq_iff_iff, decide_eq_true_eq, lt_iff32]

theorem Less32.not_nan {a b : BitVec 32} (h : Less32 a b) : ¬ NaN32 a ∧ ¬ NaN32 b := by
  unfold Less32 at h
  unfold NaN32
  constructor
  · intro ha; rw [ha] at h; exact h
  · intro hb; rw [hb] at h; revert h; cases decode .b32 a.toNat <;> simp [Datum.Less]

theorem Less32.asymm {a b : BitVec 32} (h : Less32 a b) : ¬ Less32 b a := by
  rw [← lt_iff32] at h ⊢
  unfold Fmt.lt at h ⊢
  simp only [Bool.and_eq_true, decide_eq_true_eq] at h ⊢
  omega

theorem Less32.irrefl (a : BitVec 32) : ¬ Less32 a a := fun h => h.asymm h

theorem Less32.trans {a b c : BitVec 32} (h : Less32 a b) (h' : Less32 b c) : Less32 a c := by
  rw [← lt_iff32] at *
  unfold Fmt.lt at *
  simp only [Bool.and_eq_true, decide_eq_true_eq] at *
  refine ⟨⟨h.1.1, h'.1.2⟩, by omega⟩

/-- Not-less is transitive on numbers. -/
theorem not_less_trans {a b c : BitVec 32} (hb : ¬ NaN32 b) (h : ¬ Less32 a b) (h' : ¬ Less32 b c) :
    ¬ Less32 a c := by
  intro hac
  obtain ⟨ha, hc⟩ := hac.not_nan
  have key : ∀ x : BitVec 32, ¬ NaN32 x → Fmt.b32.isNaN x.toNat = false := by
    intro x hx
    rcases kind ok32 (lt32 x) with ⟨n, i, d⟩ | ⟨n, i, d, e⟩ | ⟨n, i, d, e⟩
    · exact absurd d hx
    · exact n
    · exact n
  rw [← lt_iff32] at *
  unfold Fmt.lt at *
  simp [key a ha, key b hb, key c hc] at *
  omega

theorem nan_7fc00000 : NaN32 0x7fc00000#32 := by
  rcases kind ok32 (lt32 0x7fc00000#32) with ⟨n, i, d⟩ | ⟨n, i, d, e⟩ | ⟨n, i, d, e⟩
  · exact d
  · exact absurd n (by decide +kernel)
  · exact absurd n (by decide +kernel)

theorem not_nan_one : ¬ NaN32 0x3f800000#32 := by
  unfold NaN32
  rcases kind ok32 (lt32 0x3f800000#32) with ⟨n, i, d⟩ | ⟨n, i, d, e⟩ | ⟨n, i, d, e⟩
  · exact absurd n (by decide +kernel)
  · rw [d]; simp
  · rw [d]; simp


/-! ## Comparison -/

/-- `vcltq_f32`: all ones where the first operand is less, zero elsewhere (in particular on NaN). -/
theorem vcltq_f32_spec (N M : float32x4_t) :
    vcltq_f32 N M = .ok ⟨fun i => mask 32 (Less32 (N.lane i) (M.lane i))⟩ := by
  unfold vcltq_f32
  refine fill_ok (by rfl) _ fun i D => ?_
  csim
  simp only [lt_eq32]
  unfold mask
  by_cases h : Less32 (N.lane i) (M.lane i)
  · rw [if_pos (by simpa using h), if_pos h]; rfl
  · rw [if_neg (by simpa using h), if_neg h]; rfl

/-- Comparison with a NaN gives zero. -/
theorem vcltq_f32_nan (N M : float32x4_t) : ∃ r, vcltq_f32 N M = .ok r ∧
    ∀ i, NaN32 (N.lane i) ∨ NaN32 (M.lane i) → r.lane i = 0#32 := by
  refine ⟨_, vcltq_f32_spec N M, fun i h => ?_⟩
  have : ¬ Less32 (N.lane i) (M.lane i) := fun hl => by
    rcases h with h | h
    · exact hl.not_nan.1 h
    · exact hl.not_nan.2 h
  exact if_neg this

/-! ## Maximum and minimum -/

/-- `vmaxq_f32` returns in each lane the first operand if it is greater, otherwise the second. -/
theorem vmaxq_f32_eval (N M : float32x4_t) :
    vmaxq_f32 N M = .ok ⟨fun i => if Less32 (M.lane i) (N.lane i) then N.lane i else M.lane i⟩ := by
  unfold vmaxq_f32
  refine fill_ok (by rfl) _ fun i D => ?_
  csim
  simp only [lt_eq32]
  by_cases h : Less32 (M.lane i) (N.lane i)
  · rw [if_pos (by simpa using h), if_pos h]
  · rw [if_neg (by simpa using h), if_neg h]

/-- Where neither operand is a NaN, `vmaxq_f32` returns one of the operands, and neither operand is greater
than the result.  Missing for the full claim: a NaN operand gives NaN (refuted by `vmaxq_f32_wrong`). -/
theorem vmaxq_f32_partial (N M : float32x4_t) : ∃ r, vmaxq_f32 N M = .ok r ∧ ∀ i,
    ¬ NaN32 (N.lane i) → ¬ NaN32 (M.lane i) →
    (r.lane i = N.lane i ∨ r.lane i = M.lane i) ∧
    ¬ Less32 (r.lane i) (N.lane i) ∧ ¬ Less32 (r.lane i) (M.lane i) := by
  refine ⟨_, vmaxq_f32_eval N M, fun i _ _ => ?_⟩
  simp only
  split
  · rename_i h
    exact ⟨.inl rfl, Less32.irrefl _, h.asymm⟩
  · rename_i h
    exact ⟨.inr rfl, h, Less32.irrefl _⟩

/-- If the second operand is a NaN the result is that NaN; if only the first is, it is the second operand. -/
theorem vmaxq_f32_nan (N M : float32x4_t) : ∃ r, vmaxq_f32 N M = .ok r ∧ ∀ i,
    NaN32 (N.lane i) ∨ NaN32 (M.lane i) → r.lane i = M.lane i := by
  refine ⟨_, vmaxq_f32_eval N M, fun i h => ?_⟩
  have : ¬ Less32 (M.lane i) (N.lane i) := fun hl => by
    rcases h with h | h
    · exact hl.not_nan.2 h
    · exact hl.not_nan.1 h
  exact if_neg this

/-- The NaN clause of the claim is false: `vmaxq_f32(NaN, 1.0f)` is `1.0f`. -/
theorem vmaxq_f32_wrong : ¬ ∀ N M : float32x4_t, ∃ r, vmaxq_f32 N M = .ok r ∧ ∀ i,
    NaN32 (N.lane i) ∨ NaN32 (M.lane i) → NaN32 (r.lane i) := by
  intro h
  obtain ⟨r, e, h⟩ := h ⟨fun _ => 0x7fc00000#32⟩ ⟨fun _ => 0x3f800000#32⟩
  obtain ⟨r', e', h'⟩ := vmaxq_f32_nan ⟨fun _ => 0x7fc00000#32⟩ ⟨fun _ => 0x3f800000#32⟩
  have hr := C.ok.inj (e.symm.trans e')
  subst hr
  have hn := nan_7fc00000
  have := h 0 (.inl hn)
  rw [h' 0 (.inl hn)] at this
  exact not_nan_one this

/-- `vminq_f32` returns in each lane the first operand if it is less, otherwise the second. -/
theorem vminq_f32_eval (N M : float32x4_t) :
    vminq_f32 N M = .ok ⟨fun i => if Less32 (N.lane i) (M.lane i) then N.lane i else M.lane i⟩ := by
  unfold vminq_f32
  refine fill_ok (by rfl) _ fun i D => ?_
  csim
  simp only [lt_eq32]
  by_cases h : Less32 (N.lane i) (M.lane i)
  · rw [if_pos (by simpa using h), if_pos h]
  · rw [if_neg (by simpa using h), if_neg h]

/-- Where neither operand is a NaN, `vminq_f32` returns one of the operands, and neither operand is less
than the result.  Missing for the full claim: a NaN operand gives NaN (refuted by `vminq_f32_wrong`). -/
theorem vminq_f32_partial (N M : float32x4_t) : ∃ r, vminq_f32 N M = .ok r ∧ ∀ i,
    ¬ NaN32 (N.lane i) → ¬ NaN32 (M.lane i) →
    (r.lane i = N.lane i ∨ r.lane i = M.lane i) ∧
    ¬ Less32 (N.lane i) (r.lane i) ∧ ¬ Less32 (M.lane i) (r.lane i) := by
  refine ⟨_, vminq_f32_eval N M, fun i _ _ => ?_⟩
  simp only
  split
  · rename_i h
    exact ⟨.inl rfl, Less32.irrefl _, h.asymm⟩
  · rename_i h
    exact ⟨.inr rfl, h, Less32.irrefl _⟩

/-- If the second operand is a NaN the result is that NaN; if only the first is, it is the second operand. -/
theorem vminq_f32_nan (N M : float32x4_t) : ∃ r, vminq_f32 N M = .ok r ∧ ∀ i,
    NaN32 (N.lane i) ∨ NaN32 (M.lane i) → r.lane i = M.lane i := by
  refine ⟨_, vminq_f32_eval N M, fun i h => ?_⟩
  have : ¬ Less32 (N.lane i) (M.lane i) := fun hl => by
    rcases h with h | h
    · exact hl.not_nan.1 h
    · exact hl.not_nan.2 h
  exact if_neg this

/-- The NaN clause of the claim is false: `vminq_f32(NaN, 1.0f)` is `1.0f`. -/
theorem vminq_f32_wrong : ¬ ∀ N M : float32x4_t, ∃ r, vminq_f32 N M = .ok r ∧ ∀ i,
    NaN32 (N.lane i) ∨ NaN32 (M.lane i) → NaN32 (r.lane i) := by
  intro h
  obtain ⟨r, e, h⟩ := h ⟨fun _ => 0x7fc00000#32⟩ ⟨fun _ => 0x3f800000#32⟩
  obtain ⟨r', e', h'⟩ := vminq_f32_nan ⟨fun _ => 0x7fc00000#32⟩ ⟨fun _ => 0x3f800000#32⟩
  have hr := C.ok.inj (e.symm.trans e')
  subst hr
  have hn := nan_7fc00000
  have := h 0 (.inl hn)
  rw [h' 0 (.inl hn)] at this
  exact not_nan_one this

/-- `vpmax_f32` reduces the two lanes of each operand, preferring the second lane unless the first is greater. -/
theorem vpmax_f32_eval (a b : float32x2_t) :
    vpmax_f32 a b = .ok ⟨fun i =>
      if i = 0 then (if Less32 (a.lane 1) (a.lane 0) then a.lane 0 else a.lane 1)
      else (if Less32 (b.lane 1) (b.lane 0) then b.lane 0 else b.lane 1)⟩ := by
  unfold vpmax_f32
  have a0 : a.get 0 = .ok (.ofBits _ (a.lane 0)) := Vec.get_at a 0 (by omega) rfl
  have a1 : a.get 1 = .ok (.ofBits _ (a.lane 1)) := Vec.get_at a 1 (by omega) rfl
  have b0 : b.get 0 = .ok (.ofBits _ (b.lane 0)) := Vec.get_at b 0 (by omega) rfl
  have b1 : b.get 1 = .ok (.ofBits _ (b.lane 1)) := Vec.get_at b 1 (by omega) rfl
  have s0 : ∀ (r : Arr .f32 2) (x : BitVec 32), r.set 0 (.f32 x) = .ok (r.put 0 x) :=
    fun r x => by rw [Arr.set_at (i := 0) r _ 0 (by omega) rfl]; rfl
  have s1 : ∀ (r : Arr .f32 2) (x : BitVec 32), r.set 1 (.f32 x) = .ok (r.put 1 x) :=
    fun r x => by rw [Arr.set_at (i := 1) r _ 1 (by omega) rfl]; rfl
  simp only [a0, a1, b0, b1]
  csim
  simp only [lt_eq32, decide_eq_true_eq, s0, s1, ok_bind]
  split <;> split <;>
  · refine (Arr.ret_some _ ?_ :)
    funext j
    match j with
    | 0 => rfl
    | 1 => rfl

/-- Without NaNs each result lane is one of the two lanes of its operand, and neither of them is greater.
Missing for the full claim: a NaN operand gives NaN (refuted by `vpmax_f32_wrong`). -/
theorem vpmax_f32_partial (a b : float32x2_t) : ∃ r, vpmax_f32 a b = .ok r ∧
    (¬ NaN32 (a.lane 0) → ¬ NaN32 (a.lane 1) →
      (r.lane 0 = a.lane 0 ∨ r.lane 0 = a.lane 1) ∧ ¬ Less32 (r.lane 0) (a.lane 0) ∧ ¬ Less32 (r.lane 0) (a.lane 1)) ∧
    (¬ NaN32 (b.lane 0) → ¬ NaN32 (b.lane 1) →
      (r.lane 1 = b.lane 0 ∨ r.lane 1 = b.lane 1) ∧ ¬ Less32 (r.lane 1) (b.lane 0) ∧ ¬ Less32 (r.lane 1) (b.lane 1)) := by
  refine ⟨_, vpmax_f32_eval a b, fun _ _ => ?_, fun _ _ => ?_⟩
  · simp only [if_true]
    split
    · rename_i h
      exact ⟨.inl rfl, Less32.irrefl _, h.asymm⟩
    · rename_i h
      exact ⟨.inr rfl, h, Less32.irrefl _⟩
  · simp only [Fin.reduceEq, if_false]
    split
    · rename_i h
      exact ⟨.inl rfl, Less32.irrefl _, h.asymm⟩
    · rename_i h
      exact ⟨.inr rfl, h, Less32.irrefl _⟩

/-- The NaN clause of the claim is false: `vpmax_f32` of the pair `(NaN, 1.0f)` is `1.0f`. -/
theorem vpmax_f32_wrong : ¬ ∀ a b : float32x2_t, ∃ r, vpmax_f32 a b = .ok r ∧
    (NaN32 (a.lane 0) ∨ NaN32 (a.lane 1) → NaN32 (r.lane 0)) := by
  intro h
  obtain ⟨r, e, h⟩ := h ⟨fun i => if i = 0 then 0x7fc00000#32 else 0x3f800000#32⟩ ⟨fun _ => 0#32⟩
  rw [vpmax_f32_eval] at e
  have hr := C.ok.inj e
  subst hr
  have := h (.inl nan_7fc00000)
  simp only [if_true, Fin.reduceEq, if_false] at this
  rw [if_neg (fun hl => hl.not_nan.2 nan_7fc00000)] at this
  exact not_nan_one this

/-- `vpmin_f32` reduces the two lanes of each operand, preferring the second lane unless the first is less. -/
theorem vpmin_f32_eval (a b : float32x2_t) :
    vpmin_f32 a b = .ok ⟨fun i =>
      if i = 0 then (if Less32 (a.lane 0) (a.lane 1) then a.lane 0 else a.lane 1)
      else (if Less32 (b.lane 0) (b.lane 1) then b.lane 0 else b.lane 1)⟩ := by
  unfold vpmin_f32
  have a0 : a.get 0 = .ok (.ofBits _ (a.lane 0)) := Vec.get_at a 0 (by omega) rfl
  have a1 : a.get 1 = .ok (.ofBits _ (a.lane 1)) := Vec.get_at a 1 (by omega) rfl
  have b0 : b.get 0 = .ok (.ofBits _ (b.lane 0)) := Vec.get_at b 0 (by omega) rfl
  have b1 : b.get 1 = .ok (.ofBits _ (b.lane 1)) := Vec.get_at b 1 (by omega) rfl
  have s0 : ∀ (r : Arr .f32 2) (x : BitVec 32), r.set 0 (.f32 x) = .ok (r.put 0 x) :=
    fun r x => by rw [Arr.set_at (i := 0) r _ 0 (by omega) rfl]; rfl
  have s1 : ∀ (r : Arr .f32 2) (x : BitVec 32), r.set 1 (.f32 x) = .ok (r.put 1 x) :=
    fun r x => by rw [Arr.set_at (i := 1) r _ 1 (by omega) rfl]; rfl
  simp only [a0, a1, b0, b1]
  csim
  simp only [lt_eq32, decide_eq_true_eq, s0, s1, ok_bind]
  split <;> split <;>
  · refine (Arr.ret_some _ ?_ :)
    funext j
    match j with
    | 0 => rfl
    | 1 => rfl

/-- Without NaNs each result lane is one of the two lanes of its operand, and neither of them is less.
Missing for the full claim: a NaN operand gives NaN (refuted by `vpmin_f32_wrong`). -/
theorem vpmin_f32_partial (a b : float32x2_t) : ∃ r, vpmin_f32 a b = .ok r ∧
    (¬ NaN32 (a.lane 0) → ¬ NaN32 (a.lane 1) →
      (r.lane 0 = a.lane 0 ∨ r.lane 0 = a.lane 1) ∧ ¬ Less32 (a.lane 0) (r.lane 0) ∧ ¬ Less32 (a.lane 1) (r.lane 0)) ∧
    (¬ NaN32 (b.lane 0) → ¬ NaN32 (b.lane 1) →
      (r.lane 1 = b.lane 0 ∨ r.lane 1 = b.lane 1) ∧ ¬ Less32 (b.lane 0) (r.lane 1) ∧ ¬ Less32 (b.lane 1) (r.lane 1)) := by
  refine ⟨_, vpmin_f32_eval a b, fun _ _ => ?_, fun _ _ => ?_⟩
  · simp only [if_true]
    split
    · rename_i h
      exact ⟨.inl rfl, Less32.irrefl _, h.asymm⟩
    · rename_i h
      exact ⟨.inr rfl, h, Less32.irrefl _⟩
  · simp only [Fin.reduceEq, if_false]
    split
    · rename_i h
      exact ⟨.inl rfl, Less32.irrefl _, h.asymm⟩
    · rename_i h
      exact ⟨.inr rfl, h, Less32.irrefl _⟩

/-- The NaN clause of the claim is false: `vpmin_f32` of the pair `(NaN, 1.0f)` is `1.0f`. -/
theorem vpmin_f32_wrong : ¬ ∀ a b : float32x2_t, ∃ r, vpmin_f32 a b = .ok r ∧
    (NaN32 (a.lane 0) ∨ NaN32 (a.lane 1) → NaN32 (r.lane 0)) := by
  intro h
  obtain ⟨r, e, h⟩ := h ⟨fun i => if i = 0 then 0x7fc00000#32 else 0x3f800000#32⟩ ⟨fun _ => 0#32⟩
  rw [vpmin_f32_eval] at e
  have hr := C.ok.inj e
  subst hr
  have := h (.inl nan_7fc00000)
  simp only [if_true, Fin.reduceEq, if_false] at this
  rw [if_neg (fun hl => hl.not_nan.1 nan_7fc00000)] at this
  exact not_nan_one this

/-! ## Select -/

/-- `vbslq_f32` selects whole lanes: the first source where the mask is not zero. -/
theorem vbslq_f32_eval (mask : uint32x4_t) (a b : float32x4_t) :
    vbslq_f32 mask a b = .ok ⟨fun i => if mask.lane i ≠ 0#32 then a.lane i else b.lane i⟩ := by
  unfold vbslq_f32
  refine fill_ok (by rfl) _ fun i D => ?_
  csim
  by_cases h : mask.lane i = 0#32
  · simp [h]
  · have h' : ¬ (mask.lane i).toNat = 0 := fun hc => h (BitVec.eq_of_toNat_eq (by simpa using hc))
    simp [h, h']

/-- `vbslq_f32` is the bitwise select when every lane of the mask is all ones or zero.  Missing for the
full claim: other masks (refuted by `vbslq_f32_wrong`). -/
theorem vbslq_f32_partial (mask : uint32x4_t) (a b : float32x4_t)
    (hm : ∀ i, mask.lane i = 0#32 ∨ mask.lane i = BitVec.allOnes 32) :
    vbslq_f32 mask a b =
      .ok ⟨fun i => (mask.lane i &&& a.lane i) ||| (~~~ (mask.lane i) &&& b.lane i)⟩ := by
  rw [vbslq_f32_eval]
  congr 2
  funext i
  rcases hm i with h | h
  · rw [if_neg (by simp [h]), h, BitVec.zero_and, BitVec.zero_or,
      show ~~~ (0#32) = BitVec.allOnes 32 from rfl, BitVec.allOnes_and]
  · rw [if_pos (by rw [h]; decide), h, BitVec.allOnes_and,
      show ~~~ (BitVec.allOnes 32) = 0#32 from rfl, BitVec.zero_and, BitVec.or_zero]

/-- The hypothesis of `vbslq_f32_partial` holds for a mixed mask. -/
example : ∀ i, (⟨fun i => if i = 0 then 0#32 else BitVec.allOnes 32⟩ : uint32x4_t).lane i = 0#32 ∨
    (⟨fun i => if i = 0 then 0#32 else BitVec.allOnes 32⟩ : uint32x4_t).lane i = BitVec.allOnes 32 := by
  decide

/-- With mask 1 in a lane, `vbslq_f32` takes all bits of the lane from the first source. -/
theorem vbslq_f32_wrong : ¬ ∀ (mask : uint32x4_t) (a b : float32x4_t), vbslq_f32 mask a b =
    .ok ⟨fun i => (mask.lane i &&& a.lane i) ||| (~~~ (mask.lane i) &&& b.lane i)⟩ := by
  intro h
  have h := h ⟨fun _ => 1#32⟩ ⟨fun _ => 0x3f800000#32⟩ ⟨fun _ => 0x40000000#32⟩
  rw [vbslq_f32_eval] at h
  have := congrFun (Vec.mk.inj (C.ok.inj h)) 0
  revert this
  decide

/-- Selecting with the mask of `vcltq_f32` picks the first source where `N < M` and the second elsewhere. -/
theorem vbslq_f32_vcltq_f32 (N M a b : float32x4_t) :
    (do let m ← vcltq_f32 N M; vbslq_f32 m a b) =
      .ok ⟨fun i => if Less32 (N.lane i) (M.lane i) then a.lane i else b.lane i⟩ := by
  rw [vcltq_f32_spec, ok_bind, vbslq_f32_eval]
  congr 2
  funext i
  by_cases h : Less32 (N.lane i) (M.lane i)
  · have e : mask 32 (Less32 (N.lane i) (M.lane i)) ≠ 0#32 := by unfold mask; rw [if_pos h]; decide
    rw [if_pos h]
    exact if_pos e
  · have e : mask 32 (Less32 (N.lane i) (M.lane i)) = 0#32 := by unfold mask; rw [if_neg h]
    rw [if_neg h]
    exact if_neg (fun hc => hc e)

/-- Compare-and-select computes the minimum. -/
theorem vminq_f32_eq_select (N M : float32x4_t) :
    (do let m ← vcltq_f32 N M; vbslq_f32 m N M) = vminq_f32 N M := by
  rw [vbslq_f32_vcltq_f32, vminq_f32_eval]

/-- Compare-and-select with exchanged comparison computes the maximum. -/
theorem vmaxq_f32_eq_select (N M : float32x4_t) :
    (do let m ← vcltq_f32 M N; vbslq_f32 m N M) = vmaxq_f32 N M := by
  rw [vbslq_f32_vcltq_f32, vmaxq_f32_eval]

/-- On numbers, `vmaxq_f32` is associative up to equality of the result as a number. -/
theorem vmaxq_f32_assoc (x y z : float32x4_t)
    (hx : ∀ i, ¬ NaN32 (x.lane i)) (hy : ∀ i, ¬ NaN32 (y.lane i)) (hz : ∀ i, ¬ NaN32 (z.lane i)) :
    (do let r ← vmaxq_f32 x y; vmaxq_f32 r z) = (do let r ← vmaxq_f32 y z; vmaxq_f32 x r) := by
  simp only [vmaxq_f32_eval, ok_bind]
  congr 2
  funext i
  have hx := hx i
  have hy := hy i
  have hz := hz i
  generalize x.lane i = x at *
  generalize y.lane i = y at *
  generalize z.lane i = z at *
  by_cases h1 : Less32 y x <;> by_cases h2 : Less32 z y <;> simp only [h1, h2, if_true, if_false]
  · rw [if_pos (h2.trans h1)]
  · rw [if_neg (not_less_trans hy h2 h1)]

end Verif.Props
