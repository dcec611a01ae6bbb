import Verif.Fill
import Verif.FpExact
import Verif.Model.Add
import Verif.Model.Sub
import Verif.Model.Mul
import Verif.Model.Rest

/-!
# Floating-point arithmetic (C58)

Lane `i` of the result is the IEEE-754 operation, correctly rounded, on lanes `i` of the operands; no
lane depends on another one.  The relations `IsSum`, `IsDiff`, `IsProd`, `IsQuot` are defined in
`Verif/SpecFloat.lean` over rational numbers.
-/

namespace Verif.Props
open Verif.Model Verif.Spec Verif.FpOps

theorem nat32 {n : Nat} (h : n < 2 ^ Fmt.b32.width) : (BitVec.ofNat 32 n).toNat = n := by
  rw [BitVec.toNat_ofNat]; exact Nat.mod_eq_of_lt h
theorem nat64 {n : Nat} (h : n < 2 ^ Fmt.b64.width) : (BitVec.ofNat 64 n).toNat = n := by
  rw [BitVec.toNat_ofNat]; exact Nat.mod_eq_of_lt h
theorem lt32 (a : BitVec 32) : a.toNat < 2 ^ Fmt.b32.width := a.isLt
theorem lt64 (a : BitVec 64) : a.toNat < 2 ^ Fmt.b64.width := a.isLt

theorem sum32 (a b : BitVec 32) :
    IsSum .b32 a.toNat b.toNat (BitVec.ofNat 32 (Fmt.b32.add a.toNat b.toNat)).toNat := by
  rw [nat32 (add_lt ok32 (lt32 a) (lt32 b))]; exact isSum_add ok32 (lt32 a) (lt32 b)
theorem diff32 (a b : BitVec 32) :
    IsDiff .b32 a.toNat b.toNat (BitVec.ofNat 32 (Fmt.b32.sub a.toNat b.toNat)).toNat := by
  rw [nat32 (sub_lt ok32 (lt32 a) (lt32 b))]; exact isDiff_sub ok32 (lt32 a) (lt32 b)
theorem diff64 (a b : BitVec 64) :
    IsDiff .b64 a.toNat b.toNat (BitVec.ofNat 64 (Fmt.b64.sub a.toNat b.toNat)).toNat := by
  rw [nat64 (sub_lt ok64 (lt64 a) (lt64 b))]; exact isDiff_sub ok64 (lt64 a) (lt64 b)
theorem prod32 (a b : BitVec 32) :
    IsProd .b32 a.toNat b.toNat (BitVec.ofNat 32 (Fmt.b32.mul a.toNat b.toNat)).toNat := by
  rw [nat32 (mul_lt ok32 _ _)]; exact isProd_mul ok32 (lt32 a) (lt32 b)
theorem prod64 (a b : BitVec 64) :
    IsProd .b64 a.toNat b.toNat (BitVec.ofNat 64 (Fmt.b64.mul a.toNat b.toNat)).toNat := by
  rw [nat64 (mul_lt ok64 _ _)]; exact isProd_mul ok64 (lt64 a) (lt64 b)
theorem quot32 (a b : BitVec 32) :
    IsQuot .b32 a.toNat b.toNat (BitVec.ofNat 32 (Fmt.b32.div a.toNat b.toNat)).toNat := by
  rw [nat32 (div_lt ok32 _ _)]; exact isQuot_div ok32 (lt32 a) (lt32 b)
theorem quot64 (a b : BitVec 64) :
    IsQuot .b64 a.toNat b.toNat (BitVec.ofNat 64 (Fmt.b64.div a.toNat b.toNat)).toNat := by
  rw [nat64 (div_lt ok64 _ _)]; exact isQuot_div ok64 (lt64 a) (lt64 b)

variable [Dialect]

/-- `vaddq_f32`, lane by lane, in terms of the model's operation. -/
theorem vaddq_f32_eval (a b : float32x4_t) : vaddq_f32 a b =
    .ok ⟨fun i => BitVec.ofNat 32 (Fmt.b32.add (a.lane i).toNat (b.lane i).toNat)⟩ := by
  unfold vaddq_f32
  refine fill_ok (by rfl) _ fun i D => ?_
  csim

/-- Each lane of `vaddq_f32` is the correctly rounded IEEE-754 sum of the lanes. -/
theorem vaddq_f32_spec (a b : float32x4_t) : ∃ r, vaddq_f32 a b = .ok r ∧
    ∀ i, IsSum .b32 (a.lane i).toNat (b.lane i).toNat (r.lane i).toNat :=
  ⟨_, vaddq_f32_eval a b, fun i => sum32 (a.lane i) (b.lane i)⟩

/-- `vsub_f32`, lane by lane, in terms of the model's operation. -/
theorem vsub_f32_eval (N M : float32x2_t) : vsub_f32 N M =
    .ok ⟨fun i => BitVec.ofNat 32 (Fmt.b32.sub (N.lane i).toNat (M.lane i).toNat)⟩ := by
  unfold vsub_f32
  refine fill_ok (by rfl) _ fun i D => ?_
  csim

/-- Each lane of `vsub_f32` is the correctly rounded IEEE-754 difference of the lanes. -/
theorem vsub_f32_spec (N M : float32x2_t) : ∃ r, vsub_f32 N M = .ok r ∧
    ∀ i, IsDiff .b32 (N.lane i).toNat (M.lane i).toNat (r.lane i).toNat :=
  ⟨_, vsub_f32_eval N M, fun i => diff32 (N.lane i) (M.lane i)⟩

/-- `vsub_f32_overload2`, lane by lane, in terms of the model's operation. -/
theorem vsub_f32_overload2_eval (N M : float64x1_t) : vsub_f32_overload2 N M =
    .ok ⟨fun i => BitVec.ofNat 64 (Fmt.b64.sub (N.lane i).toNat (M.lane i).toNat)⟩ := by
  unfold vsub_f32_overload2
  refine fill_ok (by rfl) _ fun i D => ?_
  csim

/-- Each lane of `vsub_f32_overload2` is the correctly rounded IEEE-754 difference of the lanes. -/
theorem vsub_f32_overload2_spec (N M : float64x1_t) : ∃ r, vsub_f32_overload2 N M = .ok r ∧
    ∀ i, IsDiff .b64 (N.lane i).toNat (M.lane i).toNat (r.lane i).toNat :=
  ⟨_, vsub_f32_overload2_eval N M, fun i => diff64 (N.lane i) (M.lane i)⟩

/-- `vsubq_f32`, lane by lane, in terms of the model's operation. -/
theorem vsubq_f32_eval (N M : float32x4_t) : vsubq_f32 N M =
    .ok ⟨fun i => BitVec.ofNat 32 (Fmt.b32.sub (N.lane i).toNat (M.lane i).toNat)⟩ := by
  unfold vsubq_f32
  refine fill_ok (by rfl) _ fun i D => ?_
  csim

/-- Each lane of `vsubq_f32` is the correctly rounded IEEE-754 difference of the lanes. -/
theorem vsubq_f32_spec (N M : float32x4_t) : ∃ r, vsubq_f32 N M = .ok r ∧
    ∀ i, IsDiff .b32 (N.lane i).toNat (M.lane i).toNat (r.lane i).toNat :=
  ⟨_, vsubq_f32_eval N M, fun i => diff32 (N.lane i) (M.lane i)⟩

/-- `vmulq_f32`, lane by lane, in terms of the model's operation. -/
theorem vmulq_f32_eval (a b : float32x4_t) : vmulq_f32 a b =
    .ok ⟨fun i => BitVec.ofNat 32 (Fmt.b32.mul (a.lane i).toNat (b.lane i).toNat)⟩ := by
  unfold vmulq_f32
  refine fill_ok (by rfl) _ fun i D => ?_
  csim

/-- Each lane of `vmulq_f32` is the correctly rounded IEEE-754 product of the lanes. -/
theorem vmulq_f32_spec (a b : float32x4_t) : ∃ r, vmulq_f32 a b = .ok r ∧
    ∀ i, IsProd .b32 (a.lane i).toNat (b.lane i).toNat (r.lane i).toNat :=
  ⟨_, vmulq_f32_eval a b, fun i => prod32 (a.lane i) (b.lane i)⟩

/-- `vmul_n_f32`, lane by lane, in terms of the model's operation. -/
theorem vmul_n_f32_eval (N : float32x2_t) (M : float32_t) : vmul_n_f32 N M =
    .ok ⟨fun i => BitVec.ofNat 32 (Fmt.b32.mul (N.lane i).toNat M.toNat)⟩ := by
  unfold vmul_n_f32
  refine fill_ok (by rfl) _ fun i D => ?_
  csim

/-- Each lane of `vmul_n_f32` is the correctly rounded IEEE-754 product of the lane and the scalar. -/
theorem vmul_n_f32_spec (N : float32x2_t) (M : float32_t) : ∃ r, vmul_n_f32 N M = .ok r ∧
    ∀ i, IsProd .b32 (N.lane i).toNat M.toNat (r.lane i).toNat :=
  ⟨_, vmul_n_f32_eval N M, fun i => prod32 (N.lane i) M⟩

/-- `vmul_n_f64`, lane by lane, in terms of the model's operation. -/
theorem vmul_n_f64_eval (N : float64x1_t) (M : float64_t) : vmul_n_f64 N M =
    .ok ⟨fun i => BitVec.ofNat 64 (Fmt.b64.mul (N.lane i).toNat M.toNat)⟩ := by
  unfold vmul_n_f64
  refine fill_ok (by rfl) _ fun i D => ?_
  csim

/-- Each lane of `vmul_n_f64` is the correctly rounded IEEE-754 product of the lane and the scalar. -/
theorem vmul_n_f64_spec (N : float64x1_t) (M : float64_t) : ∃ r, vmul_n_f64 N M = .ok r ∧
    ∀ i, IsProd .b64 (N.lane i).toNat M.toNat (r.lane i).toNat :=
  ⟨_, vmul_n_f64_eval N M, fun i => prod64 (N.lane i) M⟩

/-- `vmulq_n_f32`, lane by lane, in terms of the model's operation. -/
theorem vmulq_n_f32_eval (N : float32x4_t) (M : float32_t) : vmulq_n_f32 N M =
    .ok ⟨fun i => BitVec.ofNat 32 (Fmt.b32.mul (N.lane i).toNat M.toNat)⟩ := by
  unfold vmulq_n_f32
  refine fill_ok (by rfl) _ fun i D => ?_
  csim

/-- Each lane of `vmulq_n_f32` is the correctly rounded IEEE-754 product of the lane and the scalar. -/
theorem vmulq_n_f32_spec (N : float32x4_t) (M : float32_t) : ∃ r, vmulq_n_f32 N M = .ok r ∧
    ∀ i, IsProd .b32 (N.lane i).toNat M.toNat (r.lane i).toNat :=
  ⟨_, vmulq_n_f32_eval N M, fun i => prod32 (N.lane i) M⟩

/-- `vmulq_n_f64`, lane by lane, in terms of the model's operation. -/
theorem vmulq_n_f64_eval (N : float64x2_t) (M : float64_t) : vmulq_n_f64 N M =
    .ok ⟨fun i => BitVec.ofNat 64 (Fmt.b64.mul (N.lane i).toNat M.toNat)⟩ := by
  unfold vmulq_n_f64
  refine fill_ok (by rfl) _ fun i D => ?_
  csim

/-- Each lane of `vmulq_n_f64` is the correctly rounded IEEE-754 product of the lane and the scalar. -/
theorem vmulq_n_f64_spec (N : float64x2_t) (M : float64_t) : ∃ r, vmulq_n_f64 N M = .ok r ∧
    ∀ i, IsProd .b64 (N.lane i).toNat M.toNat (r.lane i).toNat :=
  ⟨_, vmulq_n_f64_eval N M, fun i => prod64 (N.lane i) M⟩

/-- `vdiv_f32`, lane by lane, in terms of the model's operation. -/
theorem vdiv_f32_eval (a b : float32x2_t) : vdiv_f32 a b =
    .ok ⟨fun i => BitVec.ofNat 32 (Fmt.b32.div (a.lane i).toNat (b.lane i).toNat)⟩ := by
  unfold vdiv_f32
  refine fill_ok (by rfl) _ fun i D => ?_
  csim

/-- Each lane of `vdiv_f32` is the correctly rounded IEEE-754 quotient of the lanes. -/
theorem vdiv_f32_spec (a b : float32x2_t) : ∃ r, vdiv_f32 a b = .ok r ∧
    ∀ i, IsQuot .b32 (a.lane i).toNat (b.lane i).toNat (r.lane i).toNat :=
  ⟨_, vdiv_f32_eval a b, fun i => quot32 (a.lane i) (b.lane i)⟩

/-- `vdiv_f64`, lane by lane, in terms of the model's operation. -/
theorem vdiv_f64_eval (a b : float64x1_t) : vdiv_f64 a b =
    .ok ⟨fun i => BitVec.ofNat 64 (Fmt.b64.div (a.lane i).toNat (b.lane i).toNat)⟩ := by
  unfold vdiv_f64
  refine fill_ok (by rfl) _ fun i D => ?_
  csim

/-- Each lane of `vdiv_f64` is the correctly rounded IEEE-754 quotient of the lanes. -/
theorem vdiv_f64_spec (a b : float64x1_t) : ∃ r, vdiv_f64 a b = .ok r ∧
    ∀ i, IsQuot .b64 (a.lane i).toNat (b.lane i).toNat (r.lane i).toNat :=
  ⟨_, vdiv_f64_eval a b, fun i => quot64 (a.lane i) (b.lane i)⟩

/-- `vdivq_f32`, lane by lane, in terms of the model's operation. -/
theorem vdivq_f32_eval (a b : float32x4_t) : vdivq_f32 a b =
    .ok ⟨fun i => BitVec.ofNat 32 (Fmt.b32.div (a.lane i).toNat (b.lane i).toNat)⟩ := by
  unfold vdivq_f32
  refine fill_ok (by rfl) _ fun i D => ?_
  csim

/-- Each lane of `vdivq_f32` is the correctly rounded IEEE-754 quotient of the lanes. -/
theorem vdivq_f32_spec (a b : float32x4_t) : ∃ r, vdivq_f32 a b = .ok r ∧
    ∀ i, IsQuot .b32 (a.lane i).toNat (b.lane i).toNat (r.lane i).toNat :=
  ⟨_, vdivq_f32_eval a b, fun i => quot32 (a.lane i) (b.lane i)⟩

/-- `vdivq_f64`, lane by lane, in terms of the model's operation. -/
theorem vdivq_f64_eval (a b : float64x2_t) : vdivq_f64 a b =
    .ok ⟨fun i => BitVec.ofNat 64 (Fmt.b64.div (a.lane i).toNat (b.lane i).toNat)⟩ := by
  unfold vdivq_f64
  refine fill_ok (by rfl) _ fun i D => ?_
  csim

/-- Each lane of `vdivq_f64` is the correctly rounded IEEE-754 quotient of the lanes. -/
theorem vdivq_f64_spec (a b : float64x2_t) : ∃ r, vdivq_f64 a b = .ok r ∧
    ∀ i, IsQuot .b64 (a.lane i).toNat (b.lane i).toNat (r.lane i).toNat :=
  ⟨_, vdivq_f64_eval a b, fun i => quot64 (a.lane i) (b.lane i)⟩

/-- `vmlaq_f32`, lane by lane, in terms of the model's operations. -/
theorem vmlaq_f32_eval (N M P : float32x4_t) : vmlaq_f32 N M P =
    .ok ⟨fun i => BitVec.ofNat 32 (Fmt.b32.add (N.lane i).toNat
      (BitVec.ofNat 32 (Fmt.b32.mul (M.lane i).toNat (P.lane i).toNat)).toNat)⟩ := by
  unfold vmlaq_f32
  refine fill_ok (by rfl) _ fun i D => ?_
  csim

/-- Each lane of `vmlaq_f32` is the rounded sum of the first operand and the rounded product of the other two
(two roundings, as on ARM's non-fused instruction). -/
theorem vmlaq_f32_spec (N M P : float32x4_t) : ∃ r, vmlaq_f32 N M P = .ok r ∧
    ∀ i, ∃ p : BitVec 32, IsProd .b32 (M.lane i).toNat (P.lane i).toNat p.toNat ∧
      IsSum .b32 (N.lane i).toNat p.toNat (r.lane i).toNat :=
  ⟨_, vmlaq_f32_eval N M P, fun i => ⟨_, prod32 (M.lane i) (P.lane i), sum32 _ _⟩⟩

/-- `vmlaq_n_f32`, lane by lane, in terms of the model's operations. -/
theorem vmlaq_n_f32_eval (a b : float32x4_t) (c : float32_t) : vmlaq_n_f32 a b c =
    .ok ⟨fun i => BitVec.ofNat 32 (Fmt.b32.add (a.lane i).toNat
      (BitVec.ofNat 32 (Fmt.b32.mul (b.lane i).toNat c.toNat)).toNat)⟩ := by
  unfold vmlaq_n_f32
  refine fill_ok (by rfl) _ fun i D => ?_
  csim

/-- Each lane of `vmlaq_n_f32` is the rounded sum of the first operand and the rounded product of the other two
(two roundings, as on ARM's non-fused instruction). -/
theorem vmlaq_n_f32_spec (a b : float32x4_t) (c : float32_t) : ∃ r, vmlaq_n_f32 a b c = .ok r ∧
    ∀ i, ∃ p : BitVec 32, IsProd .b32 (b.lane i).toNat c.toNat p.toNat ∧
      IsSum .b32 (a.lane i).toNat p.toNat (r.lane i).toNat :=
  ⟨_, vmlaq_n_f32_eval a b c, fun i => ⟨_, prod32 (b.lane i) c, sum32 _ _⟩⟩

/-! ## The specification is not vacuous

The relations determine the result: two patterns related to the same operands encode the same datum. -/

omit [Dialect] in
/-- `IsSum` is a function of the operands. -/
theorem isSum_unique {f : Fmt} (ok : Ok f) {a b r r' : Nat} (h : IsSum f a b r) (h' : IsSum f a b r') :
    decode f r = decode f r' := by
  unfold IsSum at h h'
  split at h <;> simp_all
  exact rounded_unique ok h h'

omit [Dialect] in
/-- `IsDiff` is a function of the operands. -/
theorem isDiff_unique {f : Fmt} (ok : Ok f) {a b r r' : Nat} (h : IsDiff f a b r) (h' : IsDiff f a b r') :
    decode f r = decode f r' := by
  unfold IsDiff at h h'
  split at h <;> simp_all
  exact rounded_unique ok h h'

omit [Dialect] in
/-- `IsProd` is a function of the operands. -/
theorem isProd_unique {f : Fmt} (ok : Ok f) {a b r r' : Nat} (h : IsProd f a b r) (h' : IsProd f a b r') :
    decode f r = decode f r' := by
  unfold IsProd at h h'
  split at h <;> simp_all
  exact rounded_unique ok h h'

omit [Dialect] in
/-- `IsQuot` is a function of the operands. -/
theorem isQuot_unique {f : Fmt} (ok : Ok f) {a b r r' : Nat} (h : IsQuot f a b r) (h' : IsQuot f a b r') :
    decode f r = decode f r' := by
  unfold IsQuot at h h'
  split at h <;> simp_all
  split at h <;> simp_all
  exact rounded_unique ok h h'

omit [Dialect] in
theorem isSum_comm {f : Fmt} {a b r : Nat} (h : IsSum f a b r) : IsSum f b a r := by
  unfold IsSum at h ⊢
  generalize decode f a = x at *
  generalize decode f b = y at *
  cases x <;> cases y <;> simp only at h ⊢ <;> try exact h
  · rename_i s t
    rw [h]
    by_cases hs : s = t
    · subst hs; simp
    · rw [if_neg hs, if_neg (Ne.symm hs)]
  · rwa [Bool.and_comm, add_comm]

omit [Dialect] in
theorem isProd_comm {f : Fmt} {a b r : Nat} (h : IsProd f a b r) : IsProd f b a r := by
  unfold IsProd at h ⊢
  generalize decode f a = x at *
  generalize decode f b = y at *
  cases x <;> cases y <;> simp only at h ⊢ <;> try exact h
  · rwa [bne_comm]
  · rwa [bne_comm]
  · rwa [bne_comm]
  · rwa [bne_comm, mul_comm]

/-- `vaddq_f32` is commutative, as far as the encoded data are concerned. -/
theorem vaddq_f32_comm (a b : float32x4_t) : ∃ r r', vaddq_f32 a b = .ok r ∧ vaddq_f32 b a = .ok r' ∧
    ∀ i, decode .b32 (r.lane i).toNat = decode .b32 (r'.lane i).toNat := by
  obtain ⟨r, e, h⟩ := vaddq_f32_spec a b
  obtain ⟨r', e', h'⟩ := vaddq_f32_spec b a
  exact ⟨r, r', e, e', fun i => isSum_unique ok32 (h i) (isSum_comm (h' i))⟩

/-- `vmulq_f32` is commutative, as far as the encoded data are concerned. -/
theorem vmulq_f32_comm (a b : float32x4_t) : ∃ r r', vmulq_f32 a b = .ok r ∧ vmulq_f32 b a = .ok r' ∧
    ∀ i, decode .b32 (r.lane i).toNat = decode .b32 (r'.lane i).toNat := by
  obtain ⟨r, e, h⟩ := vmulq_f32_spec a b
  obtain ⟨r', e', h'⟩ := vmulq_f32_spec b a
  exact ⟨r, r', e, e', fun i => isProd_unique ok32 (h i) (isProd_comm (h' i))⟩

/-- Concrete case: `1.0f + 1.0f` is exactly `2.0f`, and `1e30f * 1e30f` overflows to infinity. -/
example : vaddq_f32 ⟨fun _ => 0x3f800000#32⟩ ⟨fun _ => 0x3f800000#32⟩ = .ok ⟨fun _ => 0x40000000#32⟩ ∧
    vmulq_f32 ⟨fun _ => 0x7149f2ca#32⟩ ⟨fun _ => 0x7149f2ca#32⟩ = .ok ⟨fun _ => 0x7f800000#32⟩ := by
  rw [vaddq_f32_eval, vmulq_f32_eval]
  refine ⟨congrArg C.ok ?_, congrArg C.ok ?_⟩ <;> congr 1 <;> funext i
  · show BitVec.ofNat 32 (Fmt.b32.add 0x3f800000 0x3f800000) = _
    decide +kernel
  · show BitVec.ofNat 32 (Fmt.b32.mul 0x7149f2ca 0x7149f2ca) = _
    decide +kernel

end Verif.Props
