/-
C92: division by reciprocal refinement, polynomials, matrix products and extrema of float arrays.
-/
import Mathlib.Algebra.BigOperators.Ring.List
import Verif.Props.FloatSum
import Verif.Props.Recip
import Verif.Props.FloatSel

namespace Verif.Props
open Verif.Model Verif.Spec Verif.FpOps

/-! # Numeric programs (client code, not code of the repository) -/

section
variable [Dialect]

/-! ## Division without a division instruction -/

/-- `e = vrecpeq_f32(b); e = vmulq_f32(vrecpsq_f32(b, e), e); e = vmulq_f32(vrecpsq_f32(b, e), e); return vmulq_f32(a, e);` -/
def divide4 (a b : float32x4_t) : C float32x4_t := do
  let e ← vrecpeq_f32 b
  let s ← vrecpsq_f32 b e
  let e ← vmulq_f32 s e
  let s ← vrecpsq_f32 b e
  let e ← vmulq_f32 s e
  vmulq_f32 a e

/-- What `divide4` computes on one lane. -/
def divide1 (a b : BitVec 32) : BitVec 32 :=
  let mul (x y : BitVec 32) : BitVec 32 := BitVec.ofNat 32 (Fmt.b32.mul x.toNat y.toNat)
  let step (x y : BitVec 32) : BitVec 32 := BitVec.ofNat 32 (stepBits x.toNat y.toNat)
  let e := BitVec.ofNat 32 (recipBits b.toNat)
  let e := mul (step b e) e
  let e := mul (step b e) e
  mul a e

theorem divide4_eval (a b : float32x4_t) : divide4 a b = .ok ⟨fun i => divide1 (a.lane i) (b.lane i)⟩ := by
  unfold divide4
  simp only [vrecpeq_f32_eval, vrecpsq_f32_eval, vmulq_f32_eval, ok_bind]
  rfl

/-- The quotient of a number and a normal number below 2^126: relative error at most 2^-19, unless the quotient is near the overflow threshold or so
small that the absolute error 2^-150 counts. -/
theorem divide1_error (a b : BitVec 32) (ha : Finite32 a) (hb : IsNormal .b32 b.toNat) (he : expField .b32 b.toNat ≤ 252)
    (ho : |value32 a / value32 b| * (1 + 1 / 2 ^ 20) < overflowAt .b32) :
    Finite32 (divide1 a b) ∧
    |value32 (divide1 a b) - value32 a / value32 b| ≤ 1 / 2 ^ 19 * |value32 a / value32 b| + 1 / 2 ^ 150 := by
  obtain ⟨e, s, r, s', r', h1, h2, h3, h4, h5, H⟩ := recip_two_steps (⟨fun _ => b⟩ : float32x4_t)
  obtain ⟨e2, h1', H1⟩ := vrecpeq_f32_spec (⟨fun _ => b⟩ : float32x4_t)
  obtain rfl : e2 = e := by rw [h1] at h1'; injection h1' with h; exact h.symm
  have hbf : ∃ sb, decode .b32 b.toNat = .num sb (value32 b) := by
    have : Finite32 b := by
      unfold Finite32 datum32
      rw [decode_normal hb]; trivial
    exact this.num
  obtain ⟨sb, db⟩ := hbf
  have hb0 : value32 b ≠ 0 := normal_ne hb db
  obtain ⟨sw, w, dw, hw⟩ := H 0 sb (value32 b) hb ((H1 0 sb (value32 b) hb db).1.2 he) db
  rw [relErr_recip hb0] at hw
  have hdiv : divide4 ⟨fun _ => a⟩ ⟨fun _ => b⟩ = vmulq_f32 ⟨fun _ => a⟩ r' := by
    unfold divide4
    rw [h1, ok_bind, h2, ok_bind, h3, ok_bind, h4, ok_bind, h5, ok_bind]
  rw [divide4_eval, vmulq_f32_eval] at hdiv
  injection hdiv with hdiv
  have hd : divide1 a b = BitVec.ofNat 32 (Fmt.b32.mul a.toNat (r'.lane 0).toNat) := congrFun (congrArg Vec.lane hdiv) 0
  rw [hd]
  have ew : value32 (r'.lane 0) = w := by
    show (decode .b32 (r'.lane 0).toNat).value = w
    rw [dw]; rfl
  have hq : value32 a * w = value32 a / value32 b + value32 a / value32 b * (value32 b * w - 1) := by field_simp; ring
  generalize value32 a / value32 b = q at *
  have hdel : |q * (value32 b * w - 1)| ≤ |q| * (1 / 2 ^ 20) := by
    rw [abs_mul]; exact mul_le_mul_of_nonneg_left hw (abs_nonneg _)
  have hmag : |value32 a * w| ≤ |q| * (1 + 1 / 2 ^ 20) := by
    rw [hq]
    have := abs_add_le q (q * (value32 b * w - 1))
    linarith
  obtain ⟨hf, herr⟩ := prod_step (prod32 a (r'.lane 0)) ha (by unfold Finite32; rw [show datum32 (r'.lane 0) = .num sw w from dw]; trivial)
    (by rw [ew]; exact lt_of_le_of_lt hmag ho)
  refine ⟨hf, ?_⟩
  rw [ew] at herr
  generalize value32 (BitVec.ofNat 32 (Fmt.b32.mul a.toNat (r'.lane 0).toNat)) = p at *
  have h6 := abs_add_le (p - value32 a * w) (value32 a * w - q)
  rw [show p - value32 a * w + (value32 a * w - q) = p - q by ring] at h6
  have h7 : value32 a * w - q = q * (value32 b * w - 1) := by rw [hq]; ring
  rw [h7] at h6
  have h8 : uF32 * |value32 a * w| ≤ uF32 * (|q| * (1 + 1 / 2 ^ 20)) := mul_le_mul_of_nonneg_left hmag uF32_pos.le
  unfold uF32 etaF32 at *
  have hq0 := abs_nonneg q
  nlinarith

/-- Division of two arrays of any length. -/
theorem divide_array (m : Nat) (s t dst : Ptr .f32) (x y : Nat → BitVec 32) (hx : ∀ j < 4 * m, Holds s j (x j))
    (hy : ∀ j < 4 * m, Holds t j (y j)) (hw : Writable dst (4 * m)) :
    ∃ (q : Nat → BitVec 32) (d' : Ptr .f32), map2 vld1q_f32 divide4 vst1q_f32 m s t dst = .ok d' ∧ Stored dst (fun j : Fin (4 * m) => q j) d' ∧
      ∀ j, Finite32 (x j) → IsNormal .b32 (y j).toNat → expField .b32 (y j).toNat ≤ 252 →
        |value32 (x j) / value32 (y j)| * (1 + 1 / 2 ^ 20) < overflowAt .b32 →
        Finite32 (q j) ∧ |value32 (q j) - value32 (x j) / value32 (y j)| ≤ 1 / 2 ^ 19 * |value32 (x j) / value32 (y j)| + 1 / 2 ^ 150 := by
  obtain ⟨d', h, hS⟩ := map2_stored (e := .f32) (e' := .f32) divide1 vld1q_f32_spec vst1q_f32_spec divide4_eval m s t dst x y hx hy hw
  exact ⟨fun j => divide1 (x j) (y j), d', h, hS, fun j => divide1_error (x j) (y j)⟩

/-! ## Polynomials -/

/-- `p = vdupq_n_f32(0); for (k = n - 1; k >= 0; k--) p = vmlaq_f32(c[k], p, x);` (Horner's rule) -/
def horner4 (x : float32x4_t) : List float32x4_t → C float32x4_t
  | [] => vdupq_n_f32 0
  | c :: cs => do
    let p ← horner4 x cs
    vmlaq_f32 c p x

/-- `c 0 + c 1 * x + c 2 * x^2 + ...` -/
def polyAt (x : ℚ) : List ℚ → ℚ
  | [] => 0
  | c :: cs => c + x * polyAt x cs

omit [Dialect] in
/-- In closed form. -/
theorem polyAt_eq (x : ℚ) (cs : List ℚ) : polyAt x cs = (cs.mapIdx fun k c => c * x ^ k).sum := by
  induction cs with
  | nil => rfl
  | cons c cs ih =>
    rw [polyAt, ih, List.mapIdx_cons, List.sum_cons, pow_zero, mul_one]
    have e : cs.mapIdx (fun k c => c * x ^ (k + 1)) = (cs.mapIdx fun k c => c * x ^ k).map (fun y => x * id y) := by
      refine List.ext_getElem (by simp) fun k h1 h2 => ?_
      simp only [List.getElem_mapIdx, List.getElem_map, pow_succ, id]
      ring
    rw [e, List.sum_map_mul_left, List.map_id]

/-- Horner's rule for a polynomial of any degree.  The computed value differs from the value of the polynomial by at most
`(1 + 2^-24)^(2 n) * (sum of (|c k| + 2^-150) * |x|^k) - (sum of |c k| * |x|^k)`. -/
theorem horner_error (x : float32x4_t) (cs : List float32x4_t) : ∃ r, horner4 x cs = .ok r ∧ ∀ i,
    Finite32 (x.lane i) → (∀ c ∈ cs, Finite32 (c.lane i)) →
    (∀ t, t <:+ cs → (1 + 1 / 2 ^ 24) ^ (2 * t.length) *
      polyAt |value32 (x.lane i)| (t.map fun c => |value32 (c.lane i)| + 1 / 2 ^ 150) < overflowAt .b32) →
    Finite32 (r.lane i) ∧
    |value32 (r.lane i) - polyAt (value32 (x.lane i)) (cs.map fun c => value32 (c.lane i))| ≤
      (1 + 1 / 2 ^ 24) ^ (2 * cs.length) * polyAt |value32 (x.lane i)| (cs.map fun c => |value32 (c.lane i)| + 1 / 2 ^ 150) -
        polyAt |value32 (x.lane i)| (cs.map fun c => |value32 (c.lane i)|) := by
  induction cs with
  | nil =>
    refine ⟨_, vdupq_n_f32_spec 0, fun i _ _ _ => ?_⟩
    have e : datum32 0 = .num false 0 := zero32
    refine ⟨by show (datum32 0).Finite; rw [e]; trivial, ?_⟩
    show |(datum32 0).value - 0| ≤ _
    rw [e]
    simp [Datum.value, polyAt]
  | cons c cs ih =>
    obtain ⟨p, hp, H⟩ := ih
    refine ⟨_, by rw [horner4, hp, ok_bind, vmlaq_f32_eval], fun i hx hc ho => ?_⟩
    obtain ⟨pf, perr⟩ := H i hx (fun d hd => hc d (by simp [hd])) fun t ht => ho t (ht.trans (List.suffix_cons _ _))
    have ho' := ho (c :: cs) (List.suffix_refl _)
    simp only [List.map_cons, polyAt, List.length_cons] at ho' ⊢
    have hcf := hc c (by simp)
    have absle : |polyAt (value32 (x.lane i)) (cs.map fun c => value32 (c.lane i))| ≤
        polyAt |value32 (x.lane i)| (cs.map fun c => |value32 (c.lane i)|) := by
      generalize value32 (x.lane i) = X
      clear * -
      induction cs with
      | nil => simp [polyAt]
      | cons c cs ih =>
        simp only [List.map_cons, polyAt]
        refine le_trans (abs_add_le _ _) ?_
        rw [abs_mul]
        have := mul_le_mul_of_nonneg_left ih (abs_nonneg X)
        linarith
    have hAnn : 0 ≤ polyAt |value32 (x.lane i)| (cs.map fun c => |value32 (c.lane i)|) := le_trans (abs_nonneg _) absle
    have hAle : polyAt |value32 (x.lane i)| (cs.map fun c => |value32 (c.lane i)|) ≤
        polyAt |value32 (x.lane i)| (cs.map fun c => |value32 (c.lane i)| + 1 / 2 ^ 150) := by
      have hX := abs_nonneg (value32 (x.lane i))
      generalize |value32 (x.lane i)| = X at *
      clear * - hX
      induction cs with
      | nil => simp [polyAt]
      | cons c cs ih =>
        simp only [List.map_cons, polyAt]
        have h1 := mul_le_mul_of_nonneg_left ih hX
        have h2 : (0 : ℚ) < 1 / 2 ^ 150 := by positivity
        linarith
    show Finite32 (BitVec.ofNat 32 (Fmt.b32.add (c.lane i).toNat (BitVec.ofNat 32 (Fmt.b32.mul (p.lane i).toNat (x.lane i).toNat)).toNat)) ∧
      |value32 (BitVec.ofNat 32 (Fmt.b32.add (c.lane i).toNat (BitVec.ofNat 32 (Fmt.b32.mul (p.lane i).toNat (x.lane i).toNat)).toNat)) - _| ≤ _
    have hprod := prod32 (p.lane i) (x.lane i)
    have hsum := sum32 (c.lane i) (BitVec.ofNat 32 (Fmt.b32.mul (p.lane i).toNat (x.lane i).toNat))
    generalize BitVec.ofNat 32 (Fmt.b32.mul (p.lane i).toNat (x.lane i).toNat) = m at *
    generalize BitVec.ofNat 32 (Fmt.b32.add (c.lane i).toNat m.toNat) = r at *
    have hu := uF32_pos
    have hη := etaF32_pos
    rw [show (1 : ℚ) / 2 ^ 24 = uF32 from rfl, show (1 : ℚ) / 2 ^ 150 = etaF32 from rfl] at *
    have hT : 1 ≤ (1 + uF32) ^ (2 * cs.length) := one_le_pow₀ (by linarith)
    rw [show 2 * (cs.length + 1) = 2 * cs.length + 2 by ring, pow_add] at *
    generalize (1 + uF32) ^ (2 * cs.length) = T at *
    generalize polyAt (value32 (x.lane i)) (cs.map fun c => value32 (c.lane i)) = Q at *
    generalize polyAt |value32 (x.lane i)| (cs.map fun c => |value32 (c.lane i)|) = A at *
    generalize polyAt |value32 (x.lane i)| (cs.map fun c => |value32 (c.lane i)| + etaF32) = B at *
    have hmul : |value32 (p.lane i) * value32 (x.lane i)| = |value32 (x.lane i)| * |value32 (p.lane i)| := by rw [abs_mul, mul_comm]
    have hX := abs_nonneg (value32 (x.lane i))
    have hC := abs_nonneg (value32 (c.lane i))
    have hP : |value32 (p.lane i)| ≤ T * B := by
      have := abs_sub_abs_le_abs_sub (value32 (p.lane i)) Q
      linarith
    have hXP : |value32 (x.lane i)| * |value32 (p.lane i)| ≤ T * (|value32 (x.lane i)| * B) := by
      have := mul_le_mul_of_nonneg_left hP hX
      linarith
    have hB : 0 ≤ B := le_trans hAnn hAle
    have hXB : 0 ≤ |value32 (x.lane i)| * B := mul_nonneg hX hB
    have hTXB : 0 ≤ T * (|value32 (x.lane i)| * B) := mul_nonneg (by linarith) hXB
    -- what the final bound is made of
    have hbig : (1 + uF32) * (|value32 (c.lane i)| + etaF32) + (1 + uF32) ^ 2 * (T * (|value32 (x.lane i)| * B)) ≤
        T * (1 + uF32) ^ 2 * (|value32 (c.lane i)| + etaF32 + |value32 (x.lane i)| * B) := by
      have h1 : (1 + uF32) * (|value32 (c.lane i)| + etaF32) ≤ T * (1 + uF32) ^ 2 * (|value32 (c.lane i)| + etaF32) := by
        refine mul_le_mul_of_nonneg_right ?_ (by linarith)
        nlinarith
      nlinarith
    have hK1 : T * (|value32 (x.lane i)| * B) ≤ (1 + uF32) * (T * (|value32 (x.lane i)| * B)) := le_mul_of_one_le_left hTXB (by linarith)
    have hK2 : (1 + uF32) * (T * (|value32 (x.lane i)| * B)) ≤ (1 + uF32) ^ 2 * (T * (|value32 (x.lane i)| * B)) :=
      mul_le_mul_of_nonneg_right (by nlinarith) hTXB
    have hK3 : |value32 (c.lane i)| + etaF32 ≤ (1 + uF32) * (|value32 (c.lane i)| + etaF32) := le_mul_of_one_le_left (by linarith) (by linarith)
    have hpo : |value32 (p.lane i) * value32 (x.lane i)| < overflowAt .b32 := by
      rw [hmul]
      refine lt_of_le_of_lt ?_ ho'
      refine le_trans hXP (le_trans ?_ hbig)
      linarith
    obtain ⟨mf, merr⟩ := prod_step hprod pf hx hpo
    rw [hmul] at merr
    have hm : |value32 m| ≤ (1 + uF32) * (T * (|value32 (x.lane i)| * B)) + etaF32 := by
      have := abs_sub_abs_le_abs_sub (value32 m) (value32 (p.lane i) * value32 (x.lane i))
      rw [hmul] at this
      have h8 : uF32 * (|value32 (x.lane i)| * |value32 (p.lane i)|) ≤ uF32 * (T * (|value32 (x.lane i)| * B)) := mul_le_mul_of_nonneg_left hXP hu.le
      linarith
    obtain ⟨rf, rerr⟩ := sum_step hsum hcf mf (by
      refine lt_of_le_of_lt ?_ ho'
      refine le_trans ?_ hbig
      linarith)
    refine ⟨rf, ?_⟩
    have h4 := abs_add_three (value32 r - (value32 (c.lane i) + value32 m)) (value32 m - value32 (p.lane i) * value32 (x.lane i))
      (value32 (x.lane i) * (value32 (p.lane i) - Q))
    rw [show value32 r - (value32 (c.lane i) + value32 m) + (value32 m - value32 (p.lane i) * value32 (x.lane i)) +
      value32 (x.lane i) * (value32 (p.lane i) - Q) = value32 r - (value32 (c.lane i) + value32 (x.lane i) * Q) by ring, abs_mul] at h4
    have h5 := mul_le_mul_of_nonneg_left perr hX
    have h6 : uF32 * |value32 m| ≤ uF32 * ((1 + uF32) * (T * (|value32 (x.lane i)| * B)) + etaF32) := mul_le_mul_of_nonneg_left hm hu.le
    have h7 : uF32 * (|value32 (x.lane i)| * |value32 (p.lane i)|) ≤ uF32 * (T * (|value32 (x.lane i)| * B)) := mul_le_mul_of_nonneg_left hXP hu.le
    nlinarith

/-! ## Matrix times vector -/

/-- `acc = vdupq_n_f32(0); for (k = 0; k < n; k++) acc = vmlaq_n_f32(acc, column[k], x[k]);` -/
def matVec (cols : List (float32x4_t × BitVec 32)) : C float32x4_t := do
  cols.foldlM (fun a c => vmlaq_n_f32 a c.1 c.2) (← vdupq_n_f32 0)

/-- The product of a matrix of four rows and any number of columns and a vector. -/
theorem matVec_error (cols : List (float32x4_t × BitVec 32)) : ∃ r, matVec cols = .ok r ∧ ∀ i,
    (∀ c ∈ cols, Finite32 (c.1.lane i) ∧ Finite32 c.2) →
    (1 + 1 / 2 ^ 24) ^ cols.length *
      (cols.map fun c => (1 + 1 / 2 ^ 24) * |value32 (c.1.lane i) * value32 c.2| + 1 / 2 ^ 150).sum < overflowAt .b32 →
    Finite32 (r.lane i) ∧
    |value32 (r.lane i) - (cols.map fun c => value32 (c.1.lane i) * value32 c.2).sum| ≤
      ((1 + 1 / 2 ^ 24) ^ cols.length - 1) *
        (cols.map fun c => (1 + 1 / 2 ^ 24) * |value32 (c.1.lane i) * value32 c.2| + 1 / 2 ^ 150).sum +
      (cols.map fun c => 1 / 2 ^ 24 * |value32 (c.1.lane i) * value32 c.2| + 1 / 2 ^ 150).sum := by
  have key : ∀ (xs : List (float32x4_t × BitVec 32)) (acc : float32x4_t), xs.foldlM (fun a c => vmlaq_n_f32 a c.1 c.2) acc =
      .ok ⟨fun i => xs.foldl (fun a x => BitVec.ofNat 32 (Fmt.b32.add a.toNat
        (BitVec.ofNat 32 (Fmt.b32.mul (x.1.lane i).toNat x.2.toNat)).toNat)) (acc.lane i)⟩ := by
    intro xs
    induction xs with
    | nil => intro acc; rfl
    | cons x xs ih => intro acc; rw [List.foldlM_cons, vmlaq_n_f32_eval, ok_bind, ih]; rfl
  refine ⟨_, by rw [matVec, vdupq_n_f32_spec, ok_bind, key], fun i hx ho => ?_⟩
  have e : datum32 0 = .num false 0 := zero32
  have e0 : value32 0 = 0 := by show (datum32 0).value = 0; rw [e]; rfl
  have := fold_prod (fun a (x : float32x4_t × BitVec 32) => BitVec.ofNat 32 (Fmt.b32.add a.toNat
        (BitVec.ofNat 32 (Fmt.b32.mul (x.1.lane i).toNat x.2.toNat)).toNat)) (fun x => x.1.lane i) (fun x => x.2)
    (fun a x => ⟨_, prod32 _ _, sum32 _ _⟩) cols 0 (by show (datum32 0).Finite; rw [e]; trivial) hx
  rw [e0, abs_zero, zero_add, zero_add] at this
  exact this ho

/-! ## Extrema -/

omit [Dialect] in
/-- The largest of any list of registers, lane by lane: a fold of `vmaxq_f32`.  No NaN among the lanes. -/
theorem max_accumulate (acc : float32x4_t) (xs : List float32x4_t) : ∃ r, xs.foldlM vmaxq_f32 acc = .ok r ∧ ∀ i,
    ¬ NaN32 (acc.lane i) → (∀ x ∈ xs, ¬ NaN32 (x.lane i)) →
    (r.lane i ∈ (acc :: xs).map fun x => x.lane i) ∧ ∀ x ∈ acc :: xs, ¬ Less32 (r.lane i) (x.lane i) := by
  induction xs generalizing acc with
  | nil => exact ⟨acc, rfl, fun i _ _ => ⟨by simp, fun x hx => by rw [List.mem_singleton.1 hx]; exact Less32.irrefl _⟩⟩
  | cons x xs ih =>
    obtain ⟨r0, h0, H0⟩ := vmaxq_f32_partial acc x
    obtain ⟨r, hr, H⟩ := ih r0
    refine ⟨r, by rw [List.foldlM_cons, h0, ok_bind, hr], fun i ha hx => ?_⟩
    have hxn := hx x (by simp)
    obtain ⟨hsel, hle, hle'⟩ := H0 i ha hxn
    have hn : ¬ NaN32 (r0.lane i) := by rcases hsel with h | h <;> rw [h] <;> assumption
    obtain ⟨hm, hall⟩ := H i hn fun y hy => hx y (by simp [hy])
    have hr0 := hall r0 (by simp)
    refine ⟨?_, fun y hy => ?_⟩
    · simp only [List.map_cons, List.mem_cons] at hm ⊢
      rcases hm with hm | hm
      · rw [hm]; rcases hsel with h | h <;> simp [h]
      · exact Or.inr (Or.inr hm)
    · rcases List.mem_cons.1 hy with rfl | hy
      · exact not_less_trans hn hr0 hle
      · rcases List.mem_cons.1 hy with rfl | hy
        · exact not_less_trans hn hr0 hle'
        · exact hall y (by simp [hy])

omit [Dialect] in
/-- The smallest: a fold of `vminq_f32`. -/
theorem min_accumulate (acc : float32x4_t) (xs : List float32x4_t) : ∃ r, xs.foldlM vminq_f32 acc = .ok r ∧ ∀ i,
    ¬ NaN32 (acc.lane i) → (∀ x ∈ xs, ¬ NaN32 (x.lane i)) →
    (r.lane i ∈ (acc :: xs).map fun x => x.lane i) ∧ ∀ x ∈ acc :: xs, ¬ Less32 (x.lane i) (r.lane i) := by
  induction xs generalizing acc with
  | nil => exact ⟨acc, rfl, fun i _ _ => ⟨by simp, fun x hx => by rw [List.mem_singleton.1 hx]; exact Less32.irrefl _⟩⟩
  | cons x xs ih =>
    obtain ⟨r0, h0, H0⟩ := vminq_f32_partial acc x
    obtain ⟨r, hr, H⟩ := ih r0
    refine ⟨r, by rw [List.foldlM_cons, h0, ok_bind, hr], fun i ha hx => ?_⟩
    have hxn := hx x (by simp)
    obtain ⟨hsel, hle, hle'⟩ := H0 i ha hxn
    have hn : ¬ NaN32 (r0.lane i) := by rcases hsel with h | h <;> rw [h] <;> assumption
    obtain ⟨hm, hall⟩ := H i hn fun y hy => hx y (by simp [hy])
    have hr0 := hall r0 (by simp)
    refine ⟨?_, fun y hy => ?_⟩
    · simp only [List.map_cons, List.mem_cons] at hm ⊢
      rcases hm with hm | hm
      · rw [hm]; rcases hsel with h | h <;> simp [h]
      · exact Or.inr (Or.inr hm)
    · rcases List.mem_cons.1 hy with rfl | hy
      · exact not_less_trans hn hle hr0
      · rcases List.mem_cons.1 hy with rfl | hy
        · exact not_less_trans hn hle' hr0
        · exact hall y (by simp [hy])

/-! ## Concrete cases -/

omit [Dialect] in
/-- The hypotheses of `divide1_error` for 1 / 2. -/
example : Finite32 0x3f800000 ∧ IsNormal .b32 (0x40000000#32).toNat ∧ expField .b32 (0x40000000#32).toNat ≤ 252 ∧
    |value32 0x3f800000 / value32 0x40000000| * (1 + 1 / 2 ^ 20) < overflowAt .b32 := by
  have e2 : value32 0x40000000 = 2 := by
    show (datum32 0x40000000).value = 2
    rw [two32]; rfl
  refine ⟨finite_one32, ?_, by decide +kernel, ?_⟩
  · unfold IsNormal; decide +kernel
  · rw [value_one32, e2]
    refine lt_trans ?_ overflow32
    norm_num [abs_of_pos]

/-- `1 + x + x^2` at `x = 1`. -/
example : ∃ r, horner4 ⟨fun _ => 0x3f800000⟩ [⟨fun _ => 0x3f800000⟩, ⟨fun _ => 0x3f800000⟩, ⟨fun _ => 0x3f800000⟩] = .ok r ∧
    |value32 (r.lane 2) - 3| ≤ (1 + 1 / 2 ^ 24) ^ 6 * (3 + 3 / 2 ^ 150) - 3 := by
  obtain ⟨r, e, h⟩ := horner_error ⟨fun _ => 0x3f800000⟩ [⟨fun _ => 0x3f800000⟩, ⟨fun _ => 0x3f800000⟩, ⟨fun _ => 0x3f800000⟩]
  refine ⟨r, e, ?_⟩
  have := (h 2 finite_one32 (by intro x hx; simp at hx; rw [hx]; exact finite_one32)
    (by
      intro t ht
      have hl := ht.length_le
      have hall : ∀ c ∈ t, c = (⟨fun _ => 0x3f800000⟩ : float32x4_t) := fun c hc => by
        have := ht.subset hc
        simpa using this
      match t, hl, hall with
      | [], _, _ => simp only [List.map_nil, polyAt]; refine lt_trans ?_ overflow32; norm_num
      | [a], _, ha =>
        obtain rfl := ha a (by simp)
        simp only [List.map_cons, List.map_nil, polyAt, value_one32, List.length_cons, List.length_nil]
        refine lt_trans ?_ overflow32; norm_num
      | [a, b], _, ha =>
        obtain rfl := ha a (by simp)
        obtain rfl := ha b (by simp)
        simp only [List.map_cons, List.map_nil, polyAt, value_one32, List.length_cons, List.length_nil]
        refine lt_trans ?_ overflow32; norm_num
      | [a, b, c], _, ha =>
        obtain rfl := ha a (by simp)
        obtain rfl := ha b (by simp)
        obtain rfl := ha c (by simp)
        simp only [List.map_cons, List.map_nil, polyAt, value_one32, List.length_cons, List.length_nil]
        refine lt_trans ?_ overflow32; norm_num)).2
  simp only [List.map_cons, List.map_nil, polyAt, value_one32, List.length_cons, List.length_nil] at this
  norm_num at this ⊢
  exact this

/-- A matrix with the columns (1, 1, 1, 1) and (1, 1, 1, 1) times (1, 1). -/
example : ∃ r, matVec [(⟨fun _ => 0x3f800000⟩, 0x3f800000), (⟨fun _ => 0x3f800000⟩, 0x3f800000)] = .ok r ∧ Finite32 (r.lane 1) := by
  obtain ⟨r, e, h⟩ := matVec_error [(⟨fun _ => 0x3f800000⟩, 0x3f800000), (⟨fun _ => 0x3f800000⟩, 0x3f800000)]
  refine ⟨r, e, (h 1 (by intro x hx; simp at hx; rw [hx]; exact ⟨finite_one32, finite_one32⟩) ?_).1⟩
  simp only [List.map_cons, List.map_nil, List.sum_cons, List.sum_nil, List.length_cons, List.length_nil, value_one32]
  refine lt_trans ?_ overflow32; norm_num

example := divide_array 3 (demo .f32 12) (demo .f32 12) (demo .f32 12) _ _ (demo_holds .f32 12) (demo_holds .f32 12) (demo_writable .f32 12)
omit [Dialect] in
example : ¬ NaN32 0x3f800000 ∧ ¬ NaN32 0x40000000 := by
  unfold NaN32
  have h1 : decode .b32 (BitVec.toNat (0x3f800000 : BitVec 32)) = _ := one32
  have h2 : decode .b32 (BitVec.toNat (0x40000000 : BitVec 32)) = _ := two32
  rw [h1, h2]
  exact ⟨by simp, by simp⟩

end

end Verif.Props
