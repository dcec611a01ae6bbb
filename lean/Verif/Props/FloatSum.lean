/-
C84: how far a sum or a scalar product accumulated in float lanes can be from the exact one.
-/
import Mathlib.Algebra.BigOperators.Group.List.Basic
import Verif.Props.FloatLaws
import Verif.Props.Kernel

namespace Verif.Spec

/-- The number a datum stands for; zero for the data that are no numbers. -/
def Datum.value : Datum → ℚ
  | .num _ x => x
  | _ => 0

/-- The datum is a number: neither an infinity nor a NaN. -/
def Datum.Finite : Datum → Prop
  | .num _ _ => True
  | _ => False

theorem Datum.Finite.num {d : Datum} (h : d.Finite) : ∃ s, d = .num s d.value := by
  cases d with
  | nan => exact h.elim
  | inf s => exact h.elim
  | num s x => exact ⟨s, rfl⟩

end Verif.Spec

namespace Verif.Props
open Verif.Model Verif.Spec Verif.FpOps

/-- The number in a `float`. -/
def value32 (b : BitVec 32) : ℚ := (datum32 b).value
/-- The `float` is neither an infinity nor a NaN. -/
def Finite32 (b : BitVec 32) : Prop := (datum32 b).Finite

/-- The relative rounding error of `float`. -/
def uF32 : ℚ := 1 / 2 ^ 24
/-- The absolute rounding error of `float` below the normal numbers. -/
def etaF32 : ℚ := 1 / 2 ^ 150

theorem uF32_pos : 0 < uF32 := by norm_num [uF32]
theorem etaF32_pos : 0 < etaF32 := by norm_num [etaF32]

theorem sum_step {a x r : BitVec 32} (h : IsSum .b32 a.toNat x.toNat r.toNat) (ha : Finite32 a) (hx : Finite32 x)
    (ho : |value32 a| + |value32 x| < overflowAt .b32) :
    Finite32 r ∧ |value32 r - (value32 a + value32 x)| ≤ uF32 * (|value32 a| + |value32 x|) := by
  obtain ⟨s, ea⟩ := ha.num
  obtain ⟨t, ex⟩ := hx.num
  have ht : |value32 a + value32 x| ≤ |value32 a| + |value32 x| := abs_add_le _ _
  obtain ⟨q, v, d, hb⟩ := sum_error ok32 h ea ex (lt_of_le_of_lt ht ho)
  have d' : datum32 r = .num q v := d
  have e : value32 r = v := by unfold value32; rw [d']; rfl
  refine ⟨by unfold Finite32; rw [d']; trivial, ?_⟩
  rw [e]
  refine le_trans hb ?_
  have : |value32 a + value32 x| / 2 ^ (Fmt.b32.mb + 1) = uF32 * |value32 a + value32 x| := by
    show _ / (2 : ℚ) ^ 24 = _
    unfold uF32; ring
  exact le_trans (le_of_eq this) (mul_le_mul_of_nonneg_left ht uF32_pos.le)

theorem prod_step {x y p : BitVec 32} (h : IsProd .b32 x.toNat y.toNat p.toNat) (hx : Finite32 x) (hy : Finite32 y)
    (ho : |value32 x * value32 y| < overflowAt .b32) :
    Finite32 p ∧ |value32 p - value32 x * value32 y| ≤ uF32 * |value32 x * value32 y| + etaF32 := by
  obtain ⟨s, ex⟩ := hx.num
  obtain ⟨t, ey⟩ := hy.num
  obtain ⟨q, v, d, hb⟩ := prod_error ok32 h ex ey ho
  have d' : datum32 p = .num q v := d
  have e : value32 p = v := by unfold value32; rw [d']; rfl
  refine ⟨by unfold Finite32; rw [d']; trivial, ?_⟩
  rw [e]
  have hn : 0 ≤ uF32 * |value32 x * value32 y| := mul_nonneg uF32_pos.le (abs_nonneg _)
  rcases hb with hb | hb
  · have : |value32 x * value32 y| / 2 ^ (Fmt.b32.mb + 1) = uF32 * |value32 x * value32 y| := by
      show _ / (2 : ℚ) ^ 24 = _
      unfold uF32; ring
    exact le_trans hb (le_trans (le_of_eq this) (by linarith [etaF32_pos]))
  · have : (1 : ℚ) / 2 ^ (Fmt.b32.unit + 1) = etaF32 := rfl
    exact le_trans hb (by rw [this]; linarith)

theorem below_of_grown {p u A B o : ℚ} (hp : 1 ≤ p) (hu : 0 < u) (hB : 0 ≤ B) (hAB : A ≤ B) (h : p * (1 + u) * B < o) : A < o := by
  have h1 : 1 ≤ p * (1 + u) := by nlinarith
  have h2 : B ≤ p * (1 + u) * B := le_mul_of_one_le_left hB h1
  linarith

/-- Any relation between the accumulator, an operand and the new accumulator that is a rounded sum. -/
theorem fold_sum {α : Type} (f : BitVec 32 → α → BitVec 32) (g : α → BitVec 32)
    (hf : ∀ a x, IsSum .b32 a.toNat (g x).toNat (f a x).toNat) (xs : List α) (acc : BitVec 32)
    (ha : Finite32 acc) (hx : ∀ x ∈ xs, Finite32 (g x))
    (ho : (1 + uF32) ^ xs.length * (|value32 acc| + (xs.map fun x => |value32 (g x)|).sum) < overflowAt .b32) :
    Finite32 (xs.foldl f acc) ∧
    |value32 (xs.foldl f acc) - (value32 acc + (xs.map fun x => value32 (g x)).sum)| ≤
      ((1 + uF32) ^ xs.length - 1) * (|value32 acc| + (xs.map fun x => |value32 (g x)|).sum) := by
  induction xs generalizing acc with
  | nil => exact ⟨ha, by simp⟩
  | cons x xs ih =>
    simp only [List.map_cons, List.sum_cons, List.length_cons, List.foldl_cons] at ho ⊢
    have hS : 0 ≤ (xs.map fun x => |value32 (g x)|).sum :=
      List.sum_nonneg (by intro y hy; obtain ⟨z, -, rfl⟩ := List.mem_map.1 hy; exact abs_nonneg _)
    generalize (xs.map fun x => |value32 (g x)|).sum = S at ho hS ih ⊢
    generalize (xs.map fun x => value32 (g x)).sum = T at ih ⊢
    have hu := uF32_pos
    have hp : 1 ≤ (1 + uF32) ^ xs.length := one_le_pow₀ (by linarith)
    have hA := abs_nonneg (value32 acc)
    have hX := abs_nonneg (value32 (g x))
    rw [pow_succ] at ho ⊢
    have hstep := sum_step (hf acc x) ha (hx x (by simp)) (below_of_grown hp hu (by linarith) (by linarith) ho)
    obtain ⟨hfin, herr⟩ := hstep
    have hmag : |value32 (f acc x)| ≤ (1 + uF32) * (|value32 acc| + |value32 (g x)|) := by
      have h1 := abs_sub_abs_le_abs_sub (value32 (f acc x)) (value32 acc + value32 (g x))
      have h2 := abs_add_le (value32 acc) (value32 (g x))
      linarith
    have hA' : |value32 (f acc x)| + S ≤ (1 + uF32) * (|value32 acc| + (|value32 (g x)| + S)) := by nlinarith
    obtain ⟨h1, h2⟩ := ih (f acc x) hfin (fun y hy => hx y (by simp [hy]))
      (lt_of_le_of_lt (by rw [mul_assoc]; exact mul_le_mul_of_nonneg_left hA' (by linarith)) ho)
    refine ⟨h1, ?_⟩
    have h3 : ((1 + uF32) ^ xs.length - 1) * (|value32 (f acc x)| + S) ≤
        ((1 + uF32) ^ xs.length - 1) * ((1 + uF32) * (|value32 acc| + (|value32 (g x)| + S))) :=
      mul_le_mul_of_nonneg_left hA' (by linarith)
    have h4 := abs_add_le (value32 (xs.foldl f (f acc x)) - (value32 (f acc x) + T))
      (value32 (f acc x) - (value32 acc + value32 (g x)))
    have h5 : value32 (xs.foldl f (f acc x)) - (value32 acc + (value32 (g x) + T)) =
      value32 (xs.foldl f (f acc x)) - (value32 (f acc x) + T) + (value32 (f acc x) - (value32 acc + value32 (g x))) := by ring
    rw [h5]
    nlinarith

/-- The same for scalar products, which round twice at every step. -/
theorem fold_prod {α : Type} (f : BitVec 32 → α → BitVec 32) (g k : α → BitVec 32)
    (hf : ∀ a x, ∃ p : BitVec 32, IsProd .b32 (g x).toNat (k x).toNat p.toNat ∧ IsSum .b32 a.toNat p.toNat (f a x).toNat)
    (xs : List α) (acc : BitVec 32) (ha : Finite32 acc) (hx : ∀ x ∈ xs, Finite32 (g x) ∧ Finite32 (k x))
    (ho : (1 + uF32) ^ xs.length *
      (|value32 acc| + (xs.map fun x => (1 + uF32) * |value32 (g x) * value32 (k x)| + etaF32).sum) < overflowAt .b32) :
    Finite32 (xs.foldl f acc) ∧
    |value32 (xs.foldl f acc) - (value32 acc + (xs.map fun x => value32 (g x) * value32 (k x)).sum)| ≤
      ((1 + uF32) ^ xs.length - 1) *
        (|value32 acc| + (xs.map fun x => (1 + uF32) * |value32 (g x) * value32 (k x)| + etaF32).sum) +
      (xs.map fun x => uF32 * |value32 (g x) * value32 (k x)| + etaF32).sum := by
  induction xs generalizing acc with
  | nil => exact ⟨ha, by simp⟩
  | cons x xs ih =>
    simp only [List.map_cons, List.sum_cons, List.length_cons, List.foldl_cons] at ho ⊢
    have hu := uF32_pos
    have ht := etaF32_pos
    have hS : 0 ≤ (xs.map fun x => (1 + uF32) * |value32 (g x) * value32 (k x)| + etaF32).sum :=
      List.sum_nonneg (by
        intro y hy; obtain ⟨z, -, rfl⟩ := List.mem_map.1 hy
        have := abs_nonneg (value32 (g z) * value32 (k z)); positivity)
    generalize (xs.map fun x => (1 + uF32) * |value32 (g x) * value32 (k x)| + etaF32).sum = S at ho hS ih ⊢
    generalize (xs.map fun x => value32 (g x) * value32 (k x)).sum = T at ih ⊢
    generalize (xs.map fun x => uF32 * |value32 (g x) * value32 (k x)| + etaF32).sum = E at ih ⊢
    have hp : 1 ≤ (1 + uF32) ^ xs.length := one_le_pow₀ (by linarith)
    have hA := abs_nonneg (value32 acc)
    have hX := abs_nonneg (value32 (g x) * value32 (k x))
    obtain ⟨hg, hk⟩ := hx x (by simp)
    obtain ⟨p, hpr, hsm⟩ := hf acc x
    rw [pow_succ] at ho ⊢
    have hw : |value32 acc| + ((1 + uF32) * |value32 (g x) * value32 (k x)| + etaF32) < overflowAt .b32 := by
      have h0 : 0 ≤ (1 + uF32) * |value32 (g x) * value32 (k x)| := by positivity
      exact below_of_grown hp hu (by linarith) (by linarith) ho
    obtain ⟨pfin, perr⟩ := prod_step hpr hg hk (by nlinarith)
    have pmag : |value32 p| ≤ (1 + uF32) * |value32 (g x) * value32 (k x)| + etaF32 := by
      have h1 := abs_sub_abs_le_abs_sub (value32 p) (value32 (g x) * value32 (k x))
      linarith
    obtain ⟨hfin, herr⟩ := sum_step hsm ha pfin (by linarith)
    generalize (1 + uF32) * |value32 (g x) * value32 (k x)| + etaF32 = W at *
    have hmag : |value32 (f acc x)| ≤ (1 + uF32) * (|value32 acc| + |value32 p|) := by
      have h1 := abs_sub_abs_le_abs_sub (value32 (f acc x)) (value32 acc + value32 p)
      have h2 := abs_add_le (value32 acc) (value32 p)
      linarith
    have hA' : |value32 (f acc x)| + S ≤ (1 + uF32) * (|value32 acc| + (W + S)) := by nlinarith
    obtain ⟨h1, h2⟩ := ih (f acc x) hfin (fun y hy => hx y (by simp [hy]))
      (lt_of_le_of_lt (by rw [mul_assoc]; exact mul_le_mul_of_nonneg_left hA' (by linarith)) ho)
    refine ⟨h1, ?_⟩
    have h3 : ((1 + uF32) ^ xs.length - 1) * (|value32 (f acc x)| + S) ≤
        ((1 + uF32) ^ xs.length - 1) * ((1 + uF32) * (|value32 acc| + (W + S))) :=
      mul_le_mul_of_nonneg_left hA' (by linarith)
    have h4 := abs_add_three (value32 (xs.foldl f (f acc x)) - (value32 (f acc x) + T))
      (value32 (f acc x) - (value32 acc + value32 p)) (value32 p - value32 (g x) * value32 (k x))
    have h5 : value32 (xs.foldl f (f acc x)) - (value32 acc + (value32 (g x) * value32 (k x) + T)) =
      value32 (xs.foldl f (f acc x)) - (value32 (f acc x) + T) + (value32 (f acc x) - (value32 acc + value32 p)) +
        (value32 p - value32 (g x) * value32 (k x)) := by ring
    rw [h5]
    have h6 : uF32 * (|value32 acc| + |value32 p|) ≤ uF32 * (|value32 acc| + W) :=
      mul_le_mul_of_nonneg_left (by linarith) hu.le
    nlinarith

variable [Dialect]

/-- A left fold of `vaddq_f32` over any list of registers.  Every lane of the result is a number, and differs from the
exact sum by at most `(1 + 2^-24)^n - 1` times the sum of the magnitudes, if that sum, enlarged by the same factor,
is below the overflow threshold. -/
theorem vaddq_f32_accumulate (acc : float32x4_t) (xs : List float32x4_t) :
    ∃ r, xs.foldlM vaddq_f32 acc = .ok r ∧ ∀ i,
      Finite32 (acc.lane i) → (∀ x ∈ xs, Finite32 (x.lane i)) →
      (1 + 1 / 2 ^ 24) ^ xs.length * (|value32 (acc.lane i)| + (xs.map fun x => |value32 (x.lane i)|).sum) < overflowAt .b32 →
      Finite32 (r.lane i) ∧
      |value32 (r.lane i) - (value32 (acc.lane i) + (xs.map fun x => value32 (x.lane i)).sum)| ≤
        ((1 + 1 / 2 ^ 24) ^ xs.length - 1) * (|value32 (acc.lane i)| + (xs.map fun x => |value32 (x.lane i)|).sum) := by
  have key : ∀ (xs : List float32x4_t) (acc : float32x4_t), xs.foldlM vaddq_f32 acc =
      .ok ⟨fun i => xs.foldl (fun a x => BitVec.ofNat 32 (Fmt.b32.add a.toNat (x.lane i).toNat)) (acc.lane i)⟩ := by
    intro xs
    induction xs with
    | nil => intro acc; rfl
    | cons x xs ih => intro acc; rw [List.foldlM_cons, vaddq_f32_eval, ok_bind, ih]; rfl
  exact ⟨_, key xs acc, fun i ha hx ho => fold_sum _ (fun x : float32x4_t => x.lane i) (fun a x => sum32 a (x.lane i)) xs (acc.lane i) ha hx ho⟩

/-- A left fold of `vmlaq_f32` over any list of pairs of registers. -/
theorem vmlaq_f32_accumulate (acc : float32x4_t) (xs : List (float32x4_t × float32x4_t)) :
    ∃ r, xs.foldlM (fun a x => vmlaq_f32 a x.1 x.2) acc = .ok r ∧ ∀ i,
      Finite32 (acc.lane i) → (∀ x ∈ xs, Finite32 (x.1.lane i) ∧ Finite32 (x.2.lane i)) →
      (1 + 1 / 2 ^ 24) ^ xs.length * (|value32 (acc.lane i)| +
        (xs.map fun x => (1 + 1 / 2 ^ 24) * |value32 (x.1.lane i) * value32 (x.2.lane i)| + 1 / 2 ^ 150).sum) < overflowAt .b32 →
      Finite32 (r.lane i) ∧
      |value32 (r.lane i) - (value32 (acc.lane i) + (xs.map fun x => value32 (x.1.lane i) * value32 (x.2.lane i)).sum)| ≤
        ((1 + 1 / 2 ^ 24) ^ xs.length - 1) * (|value32 (acc.lane i)| +
          (xs.map fun x => (1 + 1 / 2 ^ 24) * |value32 (x.1.lane i) * value32 (x.2.lane i)| + 1 / 2 ^ 150).sum) +
        (xs.map fun x => 1 / 2 ^ 24 * |value32 (x.1.lane i) * value32 (x.2.lane i)| + 1 / 2 ^ 150).sum := by
  have key : ∀ (xs : List (float32x4_t × float32x4_t)) (acc : float32x4_t), xs.foldlM (fun a x => vmlaq_f32 a x.1 x.2) acc =
      .ok ⟨fun i => xs.foldl (fun a x => BitVec.ofNat 32 (Fmt.b32.add a.toNat
        (BitVec.ofNat 32 (Fmt.b32.mul (x.1.lane i).toNat (x.2.lane i).toNat)).toNat)) (acc.lane i)⟩ := by
    intro xs
    induction xs with
    | nil => intro acc; rfl
    | cons x xs ih => intro acc; rw [List.foldlM_cons, vmlaq_f32_eval, ok_bind, ih]; rfl
  exact ⟨_, key xs acc, fun i ha hx ho => fold_prod _ (fun x : float32x4_t × float32x4_t => x.1.lane i) (fun x => x.2.lane i)
    (fun a x => ⟨_, prod32 _ _, sum32 _ _⟩) xs (acc.lane i) ha hx ho⟩

/-- The same for the loop that loads block after block of an array of `4 * m` floats and adds them into an accumulator. -/
theorem sum_loop_f32 (m : Nat) (s : Ptr .f32) (x : Nat → BitVec 32) (hs : ∀ j < 4 * m, Holds s j (x j)) (acc : float32x4_t) :
    ∃ r, fold1 vld1q_f32 vaddq_f32 m s acc = .ok r ∧ ∀ i : Fin 4,
      Finite32 (acc.lane i) → (∀ k < m, Finite32 (x (4 * k + i))) →
      (1 + 1 / 2 ^ 24) ^ m * (|value32 (acc.lane i)| + ((List.range m).map fun k => |value32 (x (4 * k + i))|).sum) < overflowAt .b32 →
      Finite32 (r.lane i) ∧
      |value32 (r.lane i) - (value32 (acc.lane i) + ((List.range m).map fun k => value32 (x (4 * k + i))).sum)| ≤
        ((1 + 1 / 2 ^ 24) ^ m - 1) * (|value32 (acc.lane i)| + ((List.range m).map fun k => |value32 (x (4 * k + i))|).sum) := by
  refine ⟨_, fold1_ok (e := .f32) (e' := .f32) (fun (a : BitVec 32) (x : BitVec 32) => BitVec.ofNat 32 (Fmt.b32.add (a).toNat (x).toNat))
    vld1q_f32_spec (fun a b => vaddq_f32_eval a b) m s x hs acc, fun i ha hx ho => ?_⟩
  have h := fold_sum (fun a (k : Nat) => BitVec.ofNat 32 (Fmt.b32.add a.toNat (x (4 * k + i)).toNat)) (fun k => x (4 * k + i))
    (fun a k => sum32 a _) (List.range m) (acc.lane i) ha (fun k hk => hx k (List.mem_range.1 hk)) (by rw [List.length_range]; exact ho)
  rw [List.length_range] at h
  exact h

/-- The same for the scalar product of two arrays of `4 * m` floats. -/
theorem dot_loop_f32 (m : Nat) (s t : Ptr .f32) (x y : Nat → BitVec 32) (hs : ∀ j < 4 * m, Holds s j (x j))
    (ht : ∀ j < 4 * m, Holds t j (y j)) (acc : float32x4_t) :
    ∃ r, fold2 vld1q_f32 vmlaq_f32 m s t acc = .ok r ∧ ∀ i : Fin 4,
      Finite32 (acc.lane i) → (∀ k < m, Finite32 (x (4 * k + i)) ∧ Finite32 (y (4 * k + i))) →
      (1 + 1 / 2 ^ 24) ^ m * (|value32 (acc.lane i)| + ((List.range m).map fun k =>
        (1 + 1 / 2 ^ 24) * |value32 (x (4 * k + i)) * value32 (y (4 * k + i))| + 1 / 2 ^ 150).sum) < overflowAt .b32 →
      Finite32 (r.lane i) ∧
      |value32 (r.lane i) - (value32 (acc.lane i) +
          ((List.range m).map fun k => value32 (x (4 * k + i)) * value32 (y (4 * k + i))).sum)| ≤
        ((1 + 1 / 2 ^ 24) ^ m - 1) * (|value32 (acc.lane i)| + ((List.range m).map fun k =>
          (1 + 1 / 2 ^ 24) * |value32 (x (4 * k + i)) * value32 (y (4 * k + i))| + 1 / 2 ^ 150).sum) +
        ((List.range m).map fun k => 1 / 2 ^ 24 * |value32 (x (4 * k + i)) * value32 (y (4 * k + i))| + 1 / 2 ^ 150).sum := by
  refine ⟨_, fold2_ok (e := .f32) (e' := .f32) (fun (a : BitVec 32) (x y : BitVec 32) => BitVec.ofNat 32 (Fmt.b32.add (a).toNat
      (BitVec.ofNat 32 (Fmt.b32.mul (x).toNat (y).toNat)).toNat)) vld1q_f32_spec (fun a b c => vmlaq_f32_eval a b c) m s t x y hs ht acc,
    fun i ha hx ho => ?_⟩
  have h := fold_prod (fun a (k : Nat) => BitVec.ofNat 32 (Fmt.b32.add a.toNat
      (BitVec.ofNat 32 (Fmt.b32.mul (x (4 * k + i)).toNat (y (4 * k + i)).toNat)).toNat)) (fun k => x (4 * k + i)) (fun k => y (4 * k + i))
    (fun a k => ⟨_, prod32 _ _, sum32 _ _⟩) (List.range m) (acc.lane i) ha (fun k hk => hx k (List.mem_range.1 hk))
    (by rw [List.length_range]; exact ho)
  rw [List.length_range] at h
  exact h

/-! ## Cases -/

omit [Dialect] in
theorem finite_one32 : Finite32 0x3f800000 := by unfold Finite32; rw [one32]; trivial
omit [Dialect] in
theorem value_one32 : value32 0x3f800000 = 1 := by unfold value32; rw [one32]; rfl
omit [Dialect] in
theorem overflow32 : (1000 : ℚ) < overflowAt .b32 := by
  have : emax .b32 = 127 := by decide +kernel
  unfold overflowAt
  rw [this]
  norm_num

/-- Three ones, accumulated: the hypotheses hold in every lane. -/
example : ∃ r, [(⟨fun _ => 0x3f800000⟩ : float32x4_t), ⟨fun _ => 0x3f800000⟩].foldlM vaddq_f32 ⟨fun _ => 0x3f800000⟩ = .ok r ∧
    |value32 (r.lane 2) - 3| ≤ ((1 + 1 / 2 ^ 24) ^ 2 - 1) * 3 := by
  obtain ⟨r, e, h⟩ := vaddq_f32_accumulate ⟨fun _ => 0x3f800000⟩ [⟨fun _ => 0x3f800000⟩, ⟨fun _ => 0x3f800000⟩]
  refine ⟨r, e, ?_⟩
  have := (h 2 finite_one32 (by intro x hx; simp at hx; rw [hx]; exact finite_one32)
    (by simp only [List.map_cons, List.map_nil, List.sum_cons, List.sum_nil, List.length_cons, List.length_nil, value_one32]
        refine lt_trans ?_ overflow32; norm_num)).2
  simp only [List.map_cons, List.map_nil, List.sum_cons, List.sum_nil, List.length_cons, List.length_nil, value_one32] at this
  norm_num at this ⊢
  exact this

example := sum_loop_f32 3 (demo .f32 12) _ (demo_holds .f32 12)
example := dot_loop_f32 3 (demo .f32 12) (demo .f32 12) _ _ (demo_holds .f32 12) (demo_holds .f32 12)

end Verif.Props
