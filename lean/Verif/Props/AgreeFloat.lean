/-
C80, floating point and stores: for the intrinsics that the simulator gets wrong, exactly which operands
it gets right.
-/
import Verif.Props.Agree
import Verif.Props.FloatSel
import Verif.Props.FloatConv
import Verif.Props.Store

namespace Verif.Props
open Verif.Model Verif.Spec

theorem ok_exists {α : Type} {x : α} {P : α → Prop} : (∃ r, (C.ok x : C α) = .ok r ∧ P r) ↔ P x := by
  constructor
  · rintro ⟨r, h, hp⟩
    cases h
    exact hp
  · exact fun h => ⟨x, rfl, h⟩

theorem bsl_iff (m a b : BitVec 32) :
    (if m ≠ 0#32 then a else b) = (m &&& a) ||| (~~~ m &&& b) ↔
    (m = 0#32 ∨ ∀ j, j < 32 → m.getLsbD j = false → a.getLsbD j = b.getLsbD j) := by
  have key : ∀ j, j < 32 → ((m &&& a) ||| (~~~ m &&& b)).getLsbD j = if m.getLsbD j then a.getLsbD j else b.getLsbD j := by
    intro j hj
    simp only [BitVec.getLsbD_or, BitVec.getLsbD_and, BitVec.getLsbD_not, hj, decide_true, Bool.true_and]
    cases m.getLsbD j <;> simp
  by_cases hm : m = 0#32
  · rw [if_neg (not_not.2 hm)]
    refine iff_of_true (BitVec.eq_of_getLsbD_eq fun j hj => ?_) (.inl hm)
    rw [key j hj, hm]
    simp
  · rw [if_pos hm]
    constructor
    · intro e
      refine .inr fun j hj h => ?_
      have := congrArg (fun x => x.getLsbD j) e
      simp only [key j hj, h] at this
      exact this
    · rintro (h | h)
      · exact absurd h hm
      · refine BitVec.eq_of_getLsbD_eq fun j hj => ?_
        rw [key j hj]
        split
        · rfl
        · rename_i e
          exact h j hj (by simpa using e)

/-- `vbslq_f32` selects bit by bit exactly when, in every lane whose mask is not zero, the two operands
agree in the bits where the mask is zero. -/
theorem vbslq_f32_right_iff (mask : uint32x4_t) (a b : float32x4_t) :
    vbslq_f32 mask a b = .ok ⟨fun i => (mask.lane i &&& a.lane i) ||| (~~~ (mask.lane i) &&& b.lane i)⟩ ↔
    ∀ i : Fin 4, mask.lane i = 0#32 ∨
      ∀ j, j < 32 → (mask.lane i).getLsbD j = false → (a.lane i).getLsbD j = (b.lane i).getLsbD j := by
  rw [vbslq_f32_eval, ok_vec_iff]
  exact forall_congr' fun i => bsl_iff _ _ _
example := (vbslq_f32_right_iff ⟨fun _ => 0x7fffffff#32⟩ ⟨fun _ => 0x3f800000#32⟩ ⟨fun _ => 0x40000000#32⟩).2 (by decide +kernel)
example := (vbslq_f32_right_iff ⟨fun _ => 0x7fffffff#32⟩ ⟨fun _ => 0x3f800000#32⟩ ⟨fun _ => 0xc0000000#32⟩).not.2 (by decide +kernel)

/-! ## Maximum and minimum -/

/-- The architecture's maximum of two floats: a NaN if one of them is; otherwise one of the two, not less
than either, and +0 if they are zeros of different signs. -/
def FMax (x y r : BitVec 32) : Prop :=
  (NaN32 x ∨ NaN32 y → NaN32 r) ∧
  (¬ NaN32 x → ¬ NaN32 y → (r = x ∨ r = y) ∧ ¬ Less32 r x ∧ ¬ Less32 r y) ∧
  ((x = 0x80000000#32 ∧ y = 0x00000000#32) ∨ (x = 0x00000000#32 ∧ y = 0x80000000#32) → r = 0x00000000#32)

/-- The architecture's minimum of two floats: a NaN if one of them is; otherwise one of the two, not more
than either, and -0 if they are zeros of different signs. -/
def FMin (x y r : BitVec 32) : Prop :=
  (NaN32 x ∨ NaN32 y → NaN32 r) ∧
  (¬ NaN32 x → ¬ NaN32 y → (r = x ∨ r = y) ∧ ¬ Less32 x r ∧ ¬ Less32 y r) ∧
  ((x = 0x80000000#32 ∧ y = 0x00000000#32) ∨ (x = 0x00000000#32 ∧ y = 0x80000000#32) → r = 0x80000000#32)

instance (a : BitVec 32) : Decidable (NaN32 a) :=
  decidable_of_iff (Fmt.b32.isNaN a.toNat = true) (by
    unfold NaN32
    rcases FpOps.kind FpOps.ok32 (lt32 a) with ⟨n, i, d⟩ | ⟨n, i, d, e⟩ | ⟨n, i, d, e⟩
    · simp [n, d]
    · simp [n, d]
    · simp [n, d])

theorem fmax_iff (x y : BitVec 32) :
    FMax x y (if Less32 y x then x else y) ↔
    ¬ (NaN32 x ∧ ¬ NaN32 y) ∧ ¬ (x = 0x00000000#32 ∧ y = 0x80000000#32) := by
  have hz : ¬ Less32 0x80000000#32 0x00000000#32 := by decide +kernel
  have hz' : ¬ Less32 0x00000000#32 0x80000000#32 := by decide +kernel
  constructor
  · rintro ⟨h1, -, h3⟩
    refine ⟨fun ⟨hx, hy⟩ => ?_, ?_⟩
    · have := h1 (.inl hx)
      rw [if_neg fun hl => hl.not_nan.2 hx] at this
      exact hy this
    · rintro ⟨rfl, rfl⟩
      have := h3 (.inr ⟨rfl, rfl⟩)
      rw [if_neg hz] at this
      exact absurd this (by decide)
  · rintro ⟨h1, h2⟩
    refine ⟨fun h => ?_, fun hx hy => ?_, ?_⟩
    · have hy : NaN32 y := by
        rcases h with h | h
        · exact Decidable.by_contra fun hy => h1 ⟨h, hy⟩
        · exact h
      rw [if_neg fun hl => hl.not_nan.1 hy]
      exact hy
    · split
      · rename_i h
        exact ⟨.inl rfl, Less32.irrefl _, h.asymm⟩
      · rename_i h
        exact ⟨.inr rfl, h, Less32.irrefl _⟩
    · rintro (⟨rfl, rfl⟩ | h)
      · rw [if_neg hz']
      · exact absurd h h2

theorem fmin_iff (x y : BitVec 32) :
    FMin x y (if Less32 x y then x else y) ↔
    ¬ (NaN32 x ∧ ¬ NaN32 y) ∧ ¬ (x = 0x80000000#32 ∧ y = 0x00000000#32) := by
  have hz : ¬ Less32 0x80000000#32 0x00000000#32 := by decide +kernel
  have hz' : ¬ Less32 0x00000000#32 0x80000000#32 := by decide +kernel
  constructor
  · rintro ⟨h1, -, h3⟩
    refine ⟨fun ⟨hx, hy⟩ => ?_, ?_⟩
    · have := h1 (.inl hx)
      rw [if_neg fun hl => hl.not_nan.1 hx] at this
      exact hy this
    · rintro ⟨rfl, rfl⟩
      have := h3 (.inl ⟨rfl, rfl⟩)
      rw [if_neg hz] at this
      exact absurd this (by decide)
  · rintro ⟨h1, h2⟩
    refine ⟨fun h => ?_, fun hx hy => ?_, ?_⟩
    · have hy : NaN32 y := by
        rcases h with h | h
        · exact Decidable.by_contra fun hy => h1 ⟨h, hy⟩
        · exact h
      rw [if_neg fun hl => hl.not_nan.2 hy]
      exact hy
    · split
      · rename_i h
        exact ⟨.inl rfl, Less32.irrefl _, h.asymm⟩
      · rename_i h
        exact ⟨.inr rfl, h, Less32.irrefl _⟩
    · rintro (h | ⟨rfl, rfl⟩)
      · exact absurd h h2
      · rw [if_neg hz']

/-- `vmaxq_f32` gives the architecture's maximum exactly when no lane has a NaN in the first operand
only, or +0 in the first and -0 in the second. -/
theorem vmaxq_f32_right_iff (N M : float32x4_t) :
    (∃ r, vmaxq_f32 N M = .ok r ∧ ∀ i, FMax (N.lane i) (M.lane i) (r.lane i)) ↔
    ∀ i : Fin 4, ¬ (NaN32 (N.lane i) ∧ ¬ NaN32 (M.lane i)) ∧
      ¬ (N.lane i = 0x00000000#32 ∧ M.lane i = 0x80000000#32) := by
  rw [vmaxq_f32_eval, ok_exists]
  exact forall_congr' fun i => fmax_iff _ _
example := (vmaxq_f32_right_iff ⟨fun _ => 0x3f800000#32⟩ ⟨fun _ => 0x7fc00000#32⟩).2 (by decide +kernel)
example := (vmaxq_f32_right_iff ⟨fun _ => 0x00000000#32⟩ ⟨fun _ => 0x80000000#32⟩).not.2 (by decide +kernel)

/-- `vminq_f32` gives the architecture's minimum exactly when no lane has a NaN in the first operand
only, or -0 in the first and +0 in the second. -/
theorem vminq_f32_right_iff (N M : float32x4_t) :
    (∃ r, vminq_f32 N M = .ok r ∧ ∀ i, FMin (N.lane i) (M.lane i) (r.lane i)) ↔
    ∀ i : Fin 4, ¬ (NaN32 (N.lane i) ∧ ¬ NaN32 (M.lane i)) ∧
      ¬ (N.lane i = 0x80000000#32 ∧ M.lane i = 0x00000000#32) := by
  rw [vminq_f32_eval, ok_exists]
  exact forall_congr' fun i => fmin_iff _ _
example := (vminq_f32_right_iff ⟨fun _ => 0x3f800000#32⟩ ⟨fun _ => 0x7fc00000#32⟩).2 (by decide +kernel)
example := (vminq_f32_right_iff ⟨fun _ => 0x7fc00000#32⟩ ⟨fun _ => 0x3f800000#32⟩).not.2 (by decide +kernel)

/-- `vpmax_f32` gives the architecture's pairwise maximum exactly when neither pair is a NaN followed by
a number, or +0 followed by -0. -/
theorem vpmax_f32_right_iff (a b : float32x2_t) :
    (∃ r, vpmax_f32 a b = .ok r ∧ FMax (a.lane 0) (a.lane 1) (r.lane 0) ∧ FMax (b.lane 0) (b.lane 1) (r.lane 1)) ↔
    ∀ v, v = a ∨ v = b → ¬ (NaN32 (v.lane 0) ∧ ¬ NaN32 (v.lane 1)) ∧
      ¬ (v.lane 0 = 0x00000000#32 ∧ v.lane 1 = 0x80000000#32) := by
  rw [vpmax_f32_eval, ok_exists]
  refine (and_congr (fmax_iff _ _) (fmax_iff _ _)).trans ?_
  exact ⟨fun h v => fun | .inl e => e ▸ h.1 | .inr e => e ▸ h.2, fun h => ⟨h a (.inl rfl), h b (.inr rfl)⟩⟩

/-- `vpmin_f32` gives the architecture's pairwise minimum exactly when neither pair is a NaN followed by
a number, or -0 followed by +0. -/
theorem vpmin_f32_right_iff (a b : float32x2_t) :
    (∃ r, vpmin_f32 a b = .ok r ∧ FMin (a.lane 0) (a.lane 1) (r.lane 0) ∧ FMin (b.lane 0) (b.lane 1) (r.lane 1)) ↔
    ∀ v, v = a ∨ v = b → ¬ (NaN32 (v.lane 0) ∧ ¬ NaN32 (v.lane 1)) ∧
      ¬ (v.lane 0 = 0x80000000#32 ∧ v.lane 1 = 0x00000000#32) := by
  rw [vpmin_f32_eval, ok_exists]
  refine (and_congr (fmin_iff _ _) (fmin_iff _ _)).trans ?_
  exact ⟨fun h v => fun | .inl e => e ▸ h.1 | .inr e => e ▸ h.2, fun h => ⟨h a (.inl rfl), h b (.inr rfl)⟩⟩

/-! ## Float to integer -/

/-- The architecture's conversion to a signed 32-bit integer, rounding by `R`: 0 for a NaN, and the
rounded value limited to the type otherwise. -/
def ToS32 (R : ℚ → Int → Prop) (b r : BitVec 32) : Prop :=
  match decode .b32 b.toNat with
  | .nan => r = 0#32
  | .inf s => r = if s then 0x80000000#32 else 0x7fffffff#32
  | .num _ x => ∃ n, R x n ∧ r = ssat 32 n

/-- The same for an unsigned 32-bit integer. -/
def ToU32 (R : ℚ → Int → Prop) (b r : BitVec 32) : Prop :=
  match decode .b32 b.toNat with
  | .nan => r = 0#32
  | .inf s => r = if s then 0#32 else 0xffffffff#32
  | .num _ x => ∃ n, R x n ∧ r = usat 32 n

theorem ssat_fits {n : Int} (h : -2147483648 ≤ n ∧ n ≤ 2147483647) : BitVec.ofInt 32 n = ssat 32 n := by
  unfold ssat clamp
  congr 1
  norm_num
  omega

theorem usat_fits {n : Int} (h : 0 ≤ n ∧ n ≤ 4294967295) : BitVec.ofInt 32 n = usat 32 n := by
  unfold usat clamp
  congr 1
  norm_num
  omega

/-- `vcvtq_s32_f32` gives the architecture's result exactly when every lane is a number whose truncation
fits in 32 bits; in all other cases it is undefined (`vcvtq_s32_f32_ub`). -/
theorem vcvtq_s32_f32_right_iff (a : float32x4_t) :
    (∃ r, vcvtq_s32_f32 a = .ok r ∧ ∀ i, ToS32 IsTrunc (a.lane i) (r.lane i)) ↔
    ∀ i : Fin 4, ∃ n, TruncsTo (a.lane i) n ∧ -2147483648 ≤ n ∧ n ≤ 2147483647 := by
  constructor
  · rintro ⟨r, h, -⟩
    by_contra hc
    rw [vcvtq_s32_f32_ub a (by
      obtain ⟨i, hi⟩ := not_forall.1 hc
      exact ⟨i, fun n h1 h2 => hi ⟨n, h1, h2⟩⟩)] at h
    cases h
  · intro h
    refine ⟨_, vcvtq_s32_f32_partial a (fun i => (h i).choose) fun i => (h i).choose_spec, fun i => ?_⟩
    obtain ⟨⟨s, x, d, t⟩, hr⟩ := (h i).choose_spec
    unfold ToS32
    rw [d]
    exact ⟨_, t, ssat_fits hr⟩

/-- `vcvtq_u32_f32` gives the architecture's result exactly when every lane is a number whose truncation
fits in 32 bits without sign; in all other cases it is undefined (`vcvtq_u32_f32_ub`). -/
theorem vcvtq_u32_f32_right_iff (a : float32x4_t) :
    (∃ r, vcvtq_u32_f32 a = .ok r ∧ ∀ i, ToU32 IsTrunc (a.lane i) (r.lane i)) ↔
    ∀ i : Fin 4, ∃ n, TruncsTo (a.lane i) n ∧ 0 ≤ n ∧ n ≤ 4294967295 := by
  constructor
  · rintro ⟨r, h, -⟩
    by_contra hc
    rw [vcvtq_u32_f32_ub a (by
      obtain ⟨i, hi⟩ := not_forall.1 hc
      exact ⟨i, fun n h1 h2 => hi ⟨n, h1, h2⟩⟩)] at h
    cases h
  · intro h
    refine ⟨_, vcvtq_u32_f32_partial a (fun i => (h i).choose) fun i => (h i).choose_spec, fun i => ?_⟩
    obtain ⟨⟨s, x, d, t⟩, hr⟩ := (h i).choose_spec
    unfold ToU32
    rw [d]
    exact ⟨_, t, usat_fits hr⟩

/-- A single-precision number of magnitude 2^23 or more is an integer. -/
theorem big_float {b : Nat} {s : Bool} {x : ℚ} (d : decode .b32 b = .num s x) (h : 8388608 ≤ |x|) :
    ∃ m : Int, x = m := by
  have hf : (fracField .b32 b : ℚ) < 8388608 := by
    have : fracField .b32 b < 8388608 := Nat.mod_lt _ (by decide)
    exact_mod_cast this
  have hf0 : (0 : ℚ) ≤ fracField .b32 b := Nat.cast_nonneg _
  have habs : ∀ (t : Bool) (y : ℚ), |withSign t y| = |y| := by
    intro t y
    cases t
    · rfl
    · exact abs_neg y
  unfold decode at d
  have em : emax .b32 = 127 := rfl
  have mb : Fmt.b32.mb = 23 := rfl
  rw [em, mb] at d
  split at d
  · split at d <;> cases d
  split at d
  · simp only [Datum.num.injEq] at d
    have hp : (0 : ℚ) < 2 ^ (1 - 127 : ℤ) := zpow_pos (by norm_num) _
    rw [← d.2, habs, abs_of_nonneg (mul_nonneg (div_nonneg hf0 (by norm_num)) hp.le)] at h
    exfalso
    have : (2 : ℚ) ^ (1 - 127 : ℤ) ≤ 1 := zpow_le_one_of_nonpos₀ (by norm_num) (by norm_num)
    have h2 : (fracField .b32 b : ℚ) / 2 ^ 23 ≤ 1 := by
      rw [div_le_one (by norm_num)]
      exact (le_of_lt hf).trans (by norm_num)
    nlinarith
  · simp only [Datum.num.injEq] at d
    obtain ⟨-, d⟩ := d
    generalize hk : ((expField .b32 b : ℤ) - 127) = k at d
    have hp : (0 : ℚ) < 2 ^ k := zpow_pos (by norm_num) k
    rw [← d, habs, abs_of_nonneg (mul_nonneg (add_nonneg (by norm_num) (div_nonneg hf0 (by norm_num))) hp.le)] at h
    have h23 : 23 ≤ k := by
      by_contra hc
      have h1 : (2 : ℚ) ^ k ≤ 2 ^ (22 : ℤ) := zpow_le_zpow_right₀ (by norm_num) (by omega)
      have h2 : (fracField .b32 b : ℚ) / 2 ^ 23 < 1 := by
        rw [div_lt_one (by norm_num)]
        exact lt_of_lt_of_le hf (by norm_num)
      have h3 : (0 : ℚ) < 2 ^ k := zpow_pos (by norm_num) k
      norm_num at h1
      nlinarith
    obtain ⟨j, rfl⟩ : ∃ j : Nat, k = 23 + j := ⟨(k - 23).toNat, by omega⟩
    have e : (1 + (fracField .b32 b : ℚ) / 2 ^ 23) * 2 ^ ((23 : ℤ) + (j : ℤ)) =
        (((8388608 + fracField .b32 b) * 2 ^ j : ℕ) : ℚ) := by
      rw [zpow_add₀ (by norm_num), zpow_natCast]
      push_cast
      norm_num
      ring
    rw [e] at d
    rw [← d]
    generalize ((8388608 + fracField .b32 b) * 2 ^ j : ℕ) = m
    cases signField .b32 b
    · exact ⟨m, rfl⟩
    · exact ⟨-m, by simp [withSign]⟩

theorem isTrunc_intCast (m : Int) : IsTrunc (m : ℚ) m := by
  unfold IsTrunc
  split <;> constructor <;> linarith

theorem isNearest_int {m n : Int} (h : IsNearest (m : ℚ) n) : n = m := by
  have h := abs_le.1 h.1
  have h1 : ((n - 1 : ℤ) : ℚ) < (m : ℚ) := by push_cast; linarith
  have h2 : ((m - 1 : ℤ) : ℚ) < (n : ℚ) := by push_cast; linarith
  have := Int.cast_lt.1 h1
  have := Int.cast_lt.1 h2
  omega

/-- If the truncation of a float fits in 32 bits and is the nearest integer limited to 32 bits, it is the
nearest integer. -/
theorem nearest_of_ssat {b : Nat} {s : Bool} {x : ℚ} {t n : Int} (d : decode .b32 b = .num s x) (ht : IsTrunc x t)
    (hn : IsNearest x n) (hr : -2147483648 ≤ t ∧ t ≤ 2147483647) (e : BitVec.ofInt 32 t = ssat 32 n) : n = t := by
  by_cases h : -2147483648 ≤ n ∧ n ≤ 2147483647
  · rw [← ssat_fits h] at e
    have e := congrArg BitVec.toInt e
    rw [BitVec.toInt_ofInt, BitVec.toInt_ofInt] at e
    have e1 : (t.bmod 4294967296) = t := bmod_fits hr
    have e2 : (n.bmod 4294967296) = n := bmod_fits h
    exact e2.symm.trans (e.symm.trans e1)
  · have hx : 8388608 ≤ |x| := by
      have h1 := abs_le.1 hn.1
      rw [le_abs]
      rcases lt_or_ge 2147483647 n with h2 | h2
      · have : ((2147483647 : ℤ) : ℚ) < n := Int.cast_lt.2 h2
        left
        norm_num at this
        linarith
      · have : (n : ℚ) < ((-2147483648 : ℤ) : ℚ) := Int.cast_lt.2 (by omega)
        right
        norm_num at this
        linarith
    obtain ⟨m, rfl⟩ := big_float d hx
    rw [isNearest_int hn, isTrunc_unique ht (isTrunc_intCast m)]

/-- `vcvtnq_s32_f32` (which truncates) gives the architecture's result, the nearest integer, exactly when
every lane is a number whose truncation is its nearest integer and fits in 32 bits. -/
theorem vcvtnq_s32_f32_right_iff (a : float32x4_t) :
    (∃ r, vcvtnq_s32_f32 a = .ok r ∧ ∀ i, ToS32 IsNearest (a.lane i) (r.lane i)) ↔
    ∀ i : Fin 4, ∃ s x n, decode .b32 (a.lane i).toNat = .num s x ∧ IsTrunc x n ∧ IsNearest x n ∧
      -2147483648 ≤ n ∧ n ≤ 2147483647 := by
  constructor
  · rintro ⟨r, h, hs⟩ i
    have ht : ∀ i : Fin 4, ∃ n, TruncsTo (a.lane i) n ∧ -2147483648 ≤ n ∧ n ≤ 2147483647 := by
      by_contra hc
      rw [vcvtnq_s32_f32_ub a (by
        obtain ⟨i, hi⟩ := not_forall.1 hc
        exact ⟨i, fun n h1 h2 => hi ⟨n, h1, h2⟩⟩)] at h
      cases h
    rw [vcvtnq_s32_f32_exact a (fun i => (ht i).choose) fun i => (ht i).choose_spec] at h
    cases h
    have hs : ToS32 IsNearest (a.lane i) (BitVec.ofInt 32 (ht i).choose) := hs i
    have hc := (ht i).choose_spec
    generalize (ht i).choose = t at hs hc
    obtain ⟨⟨s, x, d, tr⟩, hr⟩ := hc
    unfold ToS32 at hs
    rw [d] at hs
    obtain ⟨n, hn, e⟩ := hs
    have := nearest_of_ssat d tr hn hr e
    subst this
    exact ⟨s, x, _, d, tr, hn, hr⟩
  · intro h
    choose s x n h using h
    refine ⟨_, vcvtnq_s32_f32_exact a n fun i => ⟨⟨_, _, (h i).1, (h i).2.1⟩, (h i).2.2.2⟩, fun i => ?_⟩
    unfold ToS32
    rw [(h i).1]
    exact ⟨_, (h i).2.2.1, ssat_fits (h i).2.2.2⟩

/-! ## Stores -/

/-- `vst4_u8` stores the interleaved registers exactly when one more element may be written, the
elements `4*i+3` already hold register 3, and the element after the block already holds its last lane. -/
theorem vst4_u8_right_iff (ptr : Ptr .u8) (val : uint8x8x4_t) :
    (∃ p', vst4_u8 ptr val = .ok p' ∧ Stored ptr (interleave val) p') ↔
    Writable ptr 33 ∧ (∀ i : Fin 8, ptr.buf[ptr.off + (4 * i + 3)]? = some (some ((val.reg 3).lane i))) ∧
      ptr.buf[ptr.off + 32]? = some (some ((val.reg 3).lane 7)) := by
  by_cases hw : Writable ptr 33
  · obtain ⟨p', h1, h2, h3, h4, h5, h6, h7⟩ := (vst4_u8_partial ptr val).1 hw
    rw [h1, ok_exists]
    constructor
    · intro h
      refine ⟨hw, fun i => ?_, ?_⟩
      · rw [← h5 i]
        have := h.written ⟨4 * i + 3, by omega⟩
        refine this.trans (congrArg (fun z => some (some z)) ?_)
        exact reg_lane_eq val (by simp only; omega) (by simp only; omega)
      · rw [← h6]
        exact (h.frame _ (.inr (Nat.le_refl _))).symm
    · rintro ⟨-, h8, h9⟩
      refine ⟨h2, h3, fun t => ?_, fun a ha => ?_⟩
      · have ht := t.isLt
        by_cases h : t.val % 4 = 3
        · have := (h5 ⟨t.val / 4, by omega⟩).trans (h8 ⟨t.val / 4, by omega⟩)
          rw [show 4 * (⟨t.val / 4, by omega⟩ : Fin 8).val + 3 = t.val by simp only; omega] at this
          refine this.trans (congrArg (fun z => some (some z)) ?_)
          exact reg_lane_eq val (by simp only; omega) rfl
        · have := h4 ⟨t.val % 4, by omega⟩ ⟨t.val / 4, by omega⟩ (by simpa [Fin.ext_iff] using h)
          rw [show 4 * (⟨t.val / 4, by omega⟩ : Fin 8).val + (⟨t.val % 4, by omega⟩ : Fin 4).val = t.val by simp only; omega] at this
          exact this
      · by_cases h : a = ptr.off + 32
        · rw [h, h6, h9]
        · exact h7 a (by omega)
  · rw [(vst4_u8_partial ptr val).2 hw]
    refine iff_of_false ?_ fun h => hw h.1
    rintro ⟨p', h, -⟩
    cases h
example := (vst4_u8_right_iff ⟨(List.range 40).map fun k => some (BitVec.ofNat 8 (if k = 32 then 7 else k / 4)), 0⟩ ⟨fun j => ⟨fun i => BitVec.ofNat 8 i.val⟩⟩).2 (by decide +kernel)
example := (vst4_u8_right_iff ⟨(List.range 40).map fun k => some (BitVec.ofNat 8 (k / 4)), 0⟩ ⟨fun j => ⟨fun i => BitVec.ofNat 8 i.val⟩⟩).not.2 (by decide +kernel)

/-- `vst4_u32` stores the interleaved registers exactly when registers 2 and 3 are equal and the elements
`4*i+3` already hold register 3. -/
theorem vst4_u32_right_iff (ptr : Ptr .u32) (val : uint32x2x4_t) :
    (∃ p', vst4_u32 ptr val = .ok p' ∧ Stored ptr (interleave val) p') ↔
    ∀ i : Fin 2, (val.reg 2).lane i = (val.reg 3).lane i ∧
      ptr.buf[ptr.off + (4 * i + 3)]? = some (some ((val.reg 3).lane i)) := by
  by_cases hw : Writable ptr 7
  · obtain ⟨p', h1, h2, h3, h4, h5, h6, h7, h8⟩ := (vst4_u32_partial ptr val).1 hw
    rw [h1, ok_exists]
    constructor
    · intro h i
      constructor
      · have := (h.written ⟨4 * i + 2, by omega⟩).symm.trans (h6 i)
        refine Eq.trans ?_ (Option.some.inj (Option.some.inj this))
        exact reg_lane_eq val (by simp only; omega) (by simp only; omega)
      · rw [← h7 i]
        refine (h.written ⟨4 * i + 3, by omega⟩).trans (congrArg (fun z => some (some z)) ?_)
        exact reg_lane_eq val (by simp only; omega) (by simp only; omega)
    · intro h
      refine ⟨h2, h3, fun t => ?_, h8⟩
      have ht := t.isLt
      obtain ⟨i, j, hj, e⟩ : ∃ (i : Fin 2) (j : Nat), j < 4 ∧ t.val = 4 * i.val + j :=
        ⟨⟨t.val / 4, by omega⟩, t.val % 4, by omega, by simp only; omega⟩
      have key : ∀ k : Fin 4, j = k.val → interleave val t = (val.reg k).lane i := fun k hk =>
        reg_lane_eq val (by simp only; omega) (by simp only; omega)
      rw [e]
      match j, hj with
      | 0, _ => exact (h4 i).trans (congrArg (fun z => some (some z)) (key 0 rfl).symm)
      | 1, _ => exact (h5 i).trans (congrArg (fun z => some (some z)) (key 1 rfl).symm)
      | 2, _ => exact (h6 i).trans (congrArg (fun z => some (some z)) ((key 2 rfl).trans (h i).1).symm)
      | 3, _ => exact ((h7 i).trans (h i).2).trans (congrArg (fun z => some (some z)) (key 3 rfl).symm)
  · rw [(vst4_u32_partial ptr val).2 hw]
    refine iff_of_false ?_ fun h => hw ?_
    · rintro ⟨p', h, -⟩
      cases h
    · have := (h 1).2
      have := (List.getElem?_eq_some_iff.1 this).1
      unfold Writable
      simp at this
      omega
example := (vst4_u32_right_iff ⟨(List.range 10).map fun k => some (BitVec.ofNat 32 (k / 4)), 0⟩ ⟨fun j => ⟨fun i => BitVec.ofNat 32 i.val⟩⟩).2 (by decide +kernel)
example := (vst4_u32_right_iff ⟨(List.range 10).map fun k => some (BitVec.ofNat 32 (k / 4)), 0⟩ ⟨fun j => ⟨fun i => BitVec.ofNat 32 (i.val + j.val)⟩⟩).not.2 (by decide +kernel)

end Verif.Props
