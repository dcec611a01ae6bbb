import Verif.Fill
import Verif.Props.AddSub
import Verif.Props.Widen
import Verif.Props.NarrowHigh
import Verif.Props.Mul
/-! # Signed arithmetic is exact whenever it is defined (C69)

If the mathematical result (and every intermediate result) fits the type in which it is computed, the call returns and the
lanes are the mathematical results, whatever the compiler flags; otherwise C++11 makes the call undefined.

Generated by the scripts in `tools/`. -/

set_option linter.unusedSimpArgs false
set_option linter.unusedVariables false

namespace Verif.Props
open Verif.Model Verif.Spec

theorem toInt_fits {w : Nat} {v : Int} (h0 : 0 < w) (h : Fits w v) : (BitVec.ofInt w v).toInt = v := by
  obtain ⟨k, rfl⟩ : ∃ k, w = k + 1 := ⟨w - 1, by omega⟩
  obtain ⟨h1, h2⟩ := h
  rw [Nat.add_sub_cancel] at h1 h2
  rw [BitVec.toInt_ofInt]
  have e : ((2 ^ (k + 1) : Nat) : Int) = 2 ^ k * 2 := by rw [Nat.pow_succ]; push_cast; rfl
  refine Int.bmod_eq_of_le ?_ ?_
  · rw [e]; omega
  · rw [e]; omega

/-- `vsubn_s32` returns whenever every lane fits, and is undefined in C++11 otherwise. -/
theorem vsubn_s32_strict [Dialect] (N M : int32x4_t) :
    ((∀ i : Fin 4, Fits 32 ((N.lane i).toInt - (M.lane i).toInt)) → ∃ r, vsubn_s32 N M = .ok r) ∧
    (Dialect.wrapv = false → (¬ ∀ i : Fin 4, Fits 32 ((N.lane i).toInt - (M.lane i).toInt)) → vsubn_s32 N M = .ub .signedOverflow) := by
  constructor
  · intro h
    rw [vsubn_s32_partial, if_pos fun i => by first | exact Or.inr (h i) | exact ⟨Or.inr (h i).1, Or.inr (h i).2⟩]
    exact ⟨_, rfl⟩
  · intro hd h
    rw [vsubn_s32_partial, if_neg]
    intro h'
    refine h fun i => ?_
    have := h' i
    simpa only [NoOverflow, hd, Bool.false_eq_true, false_or] using this
example := (@vsubn_s32_strict .strict (⟨fun i => BitVec.ofNat 32 (4 + i.val)⟩) (⟨fun i => BitVec.ofNat 32 (3 + i.val)⟩)).1 (by decide +kernel)
example := (@vsubn_s32_strict .strict (⟨fun _ => BitVec.intMax 32⟩) (⟨fun _ => BitVec.intMin 32⟩)).2 rfl (by decide +kernel)

/-- `vsubn_s64` returns whenever every lane fits, and is undefined in C++11 otherwise. -/
theorem vsubn_s64_strict [Dialect] (N M : int64x2_t) :
    ((∀ i : Fin 2, Fits 64 ((N.lane i).toInt - (M.lane i).toInt)) → ∃ r, vsubn_s64 N M = .ok r) ∧
    (Dialect.wrapv = false → (¬ ∀ i : Fin 2, Fits 64 ((N.lane i).toInt - (M.lane i).toInt)) → vsubn_s64 N M = .ub .signedOverflow) := by
  constructor
  · intro h
    rw [vsubn_s64_partial, if_pos fun i => by first | exact Or.inr (h i) | exact ⟨Or.inr (h i).1, Or.inr (h i).2⟩]
    exact ⟨_, rfl⟩
  · intro hd h
    rw [vsubn_s64_partial, if_neg]
    intro h'
    refine h fun i => ?_
    have := h' i
    simpa only [NoOverflow, hd, Bool.false_eq_true, false_or] using this
example := (@vsubn_s64_strict .strict (⟨fun i => BitVec.ofNat 64 (4 + i.val)⟩) (⟨fun i => BitVec.ofNat 64 (3 + i.val)⟩)).1 (by decide +kernel)
example := (@vsubn_s64_strict .strict (⟨fun _ => BitVec.intMax 64⟩) (⟨fun _ => BitVec.intMin 64⟩)).2 rfl (by decide +kernel)

/-- `vrsubhn_s32` returns whenever every lane fits, and is undefined in C++11 otherwise. -/
theorem vrsubhn_s32_strict [Dialect] (N M : int32x4_t) :
    ((∀ i : Fin 4, Fits 32 ((N.lane i).toInt - (M.lane i).toInt) ∧ Fits 32 ((N.lane i).toInt - (M.lane i).toInt + 32768)) → ∃ r, vrsubhn_s32 N M = .ok r) ∧
    (Dialect.wrapv = false → (¬ ∀ i : Fin 4, Fits 32 ((N.lane i).toInt - (M.lane i).toInt) ∧ Fits 32 ((N.lane i).toInt - (M.lane i).toInt + 32768)) → vrsubhn_s32 N M = .ub .signedOverflow) := by
  constructor
  · intro h
    rw [vrsubhn_s32_partial, if_pos fun i => by first | exact Or.inr (h i) | exact ⟨Or.inr (h i).1, Or.inr (h i).2⟩]
    exact ⟨_, rfl⟩
  · intro hd h
    rw [vrsubhn_s32_partial, if_neg]
    intro h'
    refine h fun i => ?_
    have := h' i
    simpa only [NoOverflow, hd, Bool.false_eq_true, false_or] using this
example := (@vrsubhn_s32_strict .strict (⟨fun i => BitVec.ofNat 32 (4 + i.val)⟩) (⟨fun i => BitVec.ofNat 32 (3 + i.val)⟩)).1 (by decide +kernel)
example := (@vrsubhn_s32_strict .strict (⟨fun _ => BitVec.intMax 32⟩) (⟨fun _ => BitVec.intMin 32⟩)).2 rfl (by decide +kernel)

/-- `vrsubhn_s64` returns whenever every lane fits, and is undefined in C++11 otherwise. -/
theorem vrsubhn_s64_strict [Dialect] (N M : int64x2_t) :
    ((∀ i : Fin 2, Fits 64 ((N.lane i).toInt - (M.lane i).toInt) ∧ Fits 64 ((N.lane i).toInt - (M.lane i).toInt + (-2147483648))) → ∃ r, vrsubhn_s64 N M = .ok r) ∧
    (Dialect.wrapv = false → (¬ ∀ i : Fin 2, Fits 64 ((N.lane i).toInt - (M.lane i).toInt) ∧ Fits 64 ((N.lane i).toInt - (M.lane i).toInt + (-2147483648))) → vrsubhn_s64 N M = .ub .signedOverflow) := by
  constructor
  · intro h
    rw [vrsubhn_s64_partial, if_pos fun i => by first | exact Or.inr (h i) | exact ⟨Or.inr (h i).1, Or.inr (h i).2⟩]
    exact ⟨_, rfl⟩
  · intro hd h
    rw [vrsubhn_s64_partial, if_neg]
    intro h'
    refine h fun i => ?_
    have := h' i
    simpa only [NoOverflow, hd, Bool.false_eq_true, false_or] using this
example := (@vrsubhn_s64_strict .strict (⟨fun i => BitVec.ofNat 64 (4 + i.val)⟩) (⟨fun i => BitVec.ofNat 64 (3 + i.val)⟩)).1 (by decide +kernel)
example := (@vrsubhn_s64_strict .strict (⟨fun _ => BitVec.intMax 64⟩) (⟨fun _ => BitVec.intMin 64⟩)).2 rfl (by decide +kernel)

/-- `vhsub_s32` returns whenever every lane fits, and is undefined in C++11 otherwise. -/
theorem vhsub_s32_strict [Dialect] (N M : int32x2_t) :
    ((∀ i : Fin 2, Fits 32 ((N.lane i).toInt - (M.lane i).toInt)) → ∃ r, vhsub_s32 N M = .ok r) ∧
    (Dialect.wrapv = false → (¬ ∀ i : Fin 2, Fits 32 ((N.lane i).toInt - (M.lane i).toInt)) → vhsub_s32 N M = .ub .signedOverflow) := by
  constructor
  · intro h
    rw [vhsub_s32_partial, if_pos fun i => by first | exact Or.inr (h i) | exact ⟨Or.inr (h i).1, Or.inr (h i).2⟩]
    exact ⟨_, rfl⟩
  · intro hd h
    rw [vhsub_s32_partial, if_neg]
    intro h'
    refine h fun i => ?_
    have := h' i
    simpa only [NoOverflow, hd, Bool.false_eq_true, false_or] using this
example := (@vhsub_s32_strict .strict (⟨fun i => BitVec.ofNat 32 (4 + i.val)⟩) (⟨fun i => BitVec.ofNat 32 (3 + i.val)⟩)).1 (by decide +kernel)
example := (@vhsub_s32_strict .strict (⟨fun _ => BitVec.intMax 32⟩) (⟨fun _ => BitVec.intMin 32⟩)).2 rfl (by decide +kernel)

/-- `vhsubq_s32` returns whenever every lane fits, and is undefined in C++11 otherwise. -/
theorem vhsubq_s32_strict [Dialect] (N M : int32x4_t) :
    ((∀ i : Fin 4, Fits 32 ((N.lane i).toInt - (M.lane i).toInt)) → ∃ r, vhsubq_s32 N M = .ok r) ∧
    (Dialect.wrapv = false → (¬ ∀ i : Fin 4, Fits 32 ((N.lane i).toInt - (M.lane i).toInt)) → vhsubq_s32 N M = .ub .signedOverflow) := by
  constructor
  · intro h
    rw [vhsubq_s32_partial, if_pos fun i => by first | exact Or.inr (h i) | exact ⟨Or.inr (h i).1, Or.inr (h i).2⟩]
    exact ⟨_, rfl⟩
  · intro hd h
    rw [vhsubq_s32_partial, if_neg]
    intro h'
    refine h fun i => ?_
    have := h' i
    simpa only [NoOverflow, hd, Bool.false_eq_true, false_or] using this
example := (@vhsubq_s32_strict .strict (⟨fun i => BitVec.ofNat 32 (4 + i.val)⟩) (⟨fun i => BitVec.ofNat 32 (3 + i.val)⟩)).1 (by decide +kernel)
example := (@vhsubq_s32_strict .strict (⟨fun _ => BitVec.intMax 32⟩) (⟨fun _ => BitVec.intMin 32⟩)).2 rfl (by decide +kernel)

/-- `vadd_s32` returns the exact results whenever every lane fits, and is undefined in C++11 otherwise. -/
theorem vadd_s32_strict [Dialect] (N M : int32x2_t) :
    ((∀ i : Fin 2, Fits 32 ((N.lane i).toInt + (M.lane i).toInt)) → ∃ r, vadd_s32 N M = .ok r ∧ ∀ i, (r.lane i).toInt = (N.lane i).toInt + (M.lane i).toInt) ∧
    (Dialect.wrapv = false → (¬ ∀ i : Fin 2, Fits 32 ((N.lane i).toInt + (M.lane i).toInt)) → vadd_s32 N M = .ub .signedOverflow) := by
  constructor
  · intro h
    rw [vadd_s32_partial, if_pos fun i => by first | exact Or.inr (h i) | exact ⟨Or.inr (h i).1, Or.inr (h i).2⟩]
    refine ⟨_, rfl, fun i => ?_⟩
    have e : N.lane i + M.lane i = BitVec.ofInt 32 ((N.lane i).toInt + (M.lane i).toInt) := by bvnorm
    show (N.lane i + M.lane i).toInt = _
    rw [e]
    exact toInt_fits (by decide) (h i)
  · intro hd h
    rw [vadd_s32_partial, if_neg]
    intro h'
    refine h fun i => ?_
    have := h' i
    simpa only [NoOverflow, hd, Bool.false_eq_true, false_or] using this
example := (@vadd_s32_strict .strict (⟨fun i => BitVec.ofNat 32 (4 + i.val)⟩) (⟨fun i => BitVec.ofNat 32 (3 + i.val)⟩)).1 (by decide +kernel)
example := (@vadd_s32_strict .strict (⟨fun _ => BitVec.intMax 32⟩) (⟨fun _ => BitVec.intMax 32⟩)).2 rfl (by decide +kernel)

/-- `vadd_s64` returns the exact results whenever every lane fits, and is undefined in C++11 otherwise. -/
theorem vadd_s64_strict [Dialect] (N M : int64x1_t) :
    ((∀ i : Fin 1, Fits 64 ((N.lane i).toInt + (M.lane i).toInt)) → ∃ r, vadd_s64 N M = .ok r ∧ ∀ i, (r.lane i).toInt = (N.lane i).toInt + (M.lane i).toInt) ∧
    (Dialect.wrapv = false → (¬ ∀ i : Fin 1, Fits 64 ((N.lane i).toInt + (M.lane i).toInt)) → vadd_s64 N M = .ub .signedOverflow) := by
  constructor
  · intro h
    rw [vadd_s64_partial, if_pos fun i => by first | exact Or.inr (h i) | exact ⟨Or.inr (h i).1, Or.inr (h i).2⟩]
    refine ⟨_, rfl, fun i => ?_⟩
    have e : N.lane i + M.lane i = BitVec.ofInt 64 ((N.lane i).toInt + (M.lane i).toInt) := by bvnorm
    show (N.lane i + M.lane i).toInt = _
    rw [e]
    exact toInt_fits (by decide) (h i)
  · intro hd h
    rw [vadd_s64_partial, if_neg]
    intro h'
    refine h fun i => ?_
    have := h' i
    simpa only [NoOverflow, hd, Bool.false_eq_true, false_or] using this
example := (@vadd_s64_strict .strict (⟨fun i => BitVec.ofNat 64 (4 + i.val)⟩) (⟨fun i => BitVec.ofNat 64 (3 + i.val)⟩)).1 (by decide +kernel)
example := (@vadd_s64_strict .strict (⟨fun _ => BitVec.intMax 64⟩) (⟨fun _ => BitVec.intMax 64⟩)).2 rfl (by decide +kernel)

/-- `vaddq_s32` returns the exact results whenever every lane fits, and is undefined in C++11 otherwise. -/
theorem vaddq_s32_strict [Dialect] (N M : int32x4_t) :
    ((∀ i : Fin 4, Fits 32 ((N.lane i).toInt + (M.lane i).toInt)) → ∃ r, vaddq_s32 N M = .ok r ∧ ∀ i, (r.lane i).toInt = (N.lane i).toInt + (M.lane i).toInt) ∧
    (Dialect.wrapv = false → (¬ ∀ i : Fin 4, Fits 32 ((N.lane i).toInt + (M.lane i).toInt)) → vaddq_s32 N M = .ub .signedOverflow) := by
  constructor
  · intro h
    rw [vaddq_s32_partial, if_pos fun i => by first | exact Or.inr (h i) | exact ⟨Or.inr (h i).1, Or.inr (h i).2⟩]
    refine ⟨_, rfl, fun i => ?_⟩
    have e : N.lane i + M.lane i = BitVec.ofInt 32 ((N.lane i).toInt + (M.lane i).toInt) := by bvnorm
    show (N.lane i + M.lane i).toInt = _
    rw [e]
    exact toInt_fits (by decide) (h i)
  · intro hd h
    rw [vaddq_s32_partial, if_neg]
    intro h'
    refine h fun i => ?_
    have := h' i
    simpa only [NoOverflow, hd, Bool.false_eq_true, false_or] using this
example := (@vaddq_s32_strict .strict (⟨fun i => BitVec.ofNat 32 (4 + i.val)⟩) (⟨fun i => BitVec.ofNat 32 (3 + i.val)⟩)).1 (by decide +kernel)
example := (@vaddq_s32_strict .strict (⟨fun _ => BitVec.intMax 32⟩) (⟨fun _ => BitVec.intMax 32⟩)).2 rfl (by decide +kernel)

/-- `vaddq_s64` returns the exact results whenever every lane fits, and is undefined in C++11 otherwise. -/
theorem vaddq_s64_strict [Dialect] (N M : int64x2_t) :
    ((∀ i : Fin 2, Fits 64 ((N.lane i).toInt + (M.lane i).toInt)) → ∃ r, vaddq_s64 N M = .ok r ∧ ∀ i, (r.lane i).toInt = (N.lane i).toInt + (M.lane i).toInt) ∧
    (Dialect.wrapv = false → (¬ ∀ i : Fin 2, Fits 64 ((N.lane i).toInt + (M.lane i).toInt)) → vaddq_s64 N M = .ub .signedOverflow) := by
  constructor
  · intro h
    rw [vaddq_s64_partial, if_pos fun i => by first | exact Or.inr (h i) | exact ⟨Or.inr (h i).1, Or.inr (h i).2⟩]
    refine ⟨_, rfl, fun i => ?_⟩
    have e : N.lane i + M.lane i = BitVec.ofInt 64 ((N.lane i).toInt + (M.lane i).toInt) := by bvnorm
    show (N.lane i + M.lane i).toInt = _
    rw [e]
    exact toInt_fits (by decide) (h i)
  · intro hd h
    rw [vaddq_s64_partial, if_neg]
    intro h'
    refine h fun i => ?_
    have := h' i
    simpa only [NoOverflow, hd, Bool.false_eq_true, false_or] using this
example := (@vaddq_s64_strict .strict (⟨fun i => BitVec.ofNat 64 (4 + i.val)⟩) (⟨fun i => BitVec.ofNat 64 (3 + i.val)⟩)).1 (by decide +kernel)
example := (@vaddq_s64_strict .strict (⟨fun _ => BitVec.intMax 64⟩) (⟨fun _ => BitVec.intMax 64⟩)).2 rfl (by decide +kernel)

/-- `vsub_s32` returns the exact results whenever every lane fits, and is undefined in C++11 otherwise. -/
theorem vsub_s32_strict [Dialect] (N M : int32x2_t) :
    ((∀ i : Fin 2, Fits 32 ((N.lane i).toInt - (M.lane i).toInt)) → ∃ r, vsub_s32 N M = .ok r ∧ ∀ i, (r.lane i).toInt = (N.lane i).toInt - (M.lane i).toInt) ∧
    (Dialect.wrapv = false → (¬ ∀ i : Fin 2, Fits 32 ((N.lane i).toInt - (M.lane i).toInt)) → vsub_s32 N M = .ub .signedOverflow) := by
  constructor
  · intro h
    rw [vsub_s32_partial, if_pos fun i => by first | exact Or.inr (h i) | exact ⟨Or.inr (h i).1, Or.inr (h i).2⟩]
    refine ⟨_, rfl, fun i => ?_⟩
    have e : N.lane i - M.lane i = BitVec.ofInt 32 ((N.lane i).toInt - (M.lane i).toInt) := by bvnorm
    show (N.lane i - M.lane i).toInt = _
    rw [e]
    exact toInt_fits (by decide) (h i)
  · intro hd h
    rw [vsub_s32_partial, if_neg]
    intro h'
    refine h fun i => ?_
    have := h' i
    simpa only [NoOverflow, hd, Bool.false_eq_true, false_or] using this
example := (@vsub_s32_strict .strict (⟨fun i => BitVec.ofNat 32 (4 + i.val)⟩) (⟨fun i => BitVec.ofNat 32 (3 + i.val)⟩)).1 (by decide +kernel)
example := (@vsub_s32_strict .strict (⟨fun _ => BitVec.intMax 32⟩) (⟨fun _ => BitVec.intMin 32⟩)).2 rfl (by decide +kernel)

/-- `vsub_s64` returns the exact results whenever every lane fits, and is undefined in C++11 otherwise. -/
theorem vsub_s64_strict [Dialect] (N M : int64x1_t) :
    ((∀ i : Fin 1, Fits 64 ((N.lane i).toInt - (M.lane i).toInt)) → ∃ r, vsub_s64 N M = .ok r ∧ ∀ i, (r.lane i).toInt = (N.lane i).toInt - (M.lane i).toInt) ∧
    (Dialect.wrapv = false → (¬ ∀ i : Fin 1, Fits 64 ((N.lane i).toInt - (M.lane i).toInt)) → vsub_s64 N M = .ub .signedOverflow) := by
  constructor
  · intro h
    rw [vsub_s64_partial, if_pos fun i => by first | exact Or.inr (h i) | exact ⟨Or.inr (h i).1, Or.inr (h i).2⟩]
    refine ⟨_, rfl, fun i => ?_⟩
    have e : N.lane i - M.lane i = BitVec.ofInt 64 ((N.lane i).toInt - (M.lane i).toInt) := by bvnorm
    show (N.lane i - M.lane i).toInt = _
    rw [e]
    exact toInt_fits (by decide) (h i)
  · intro hd h
    rw [vsub_s64_partial, if_neg]
    intro h'
    refine h fun i => ?_
    have := h' i
    simpa only [NoOverflow, hd, Bool.false_eq_true, false_or] using this
example := (@vsub_s64_strict .strict (⟨fun i => BitVec.ofNat 64 (4 + i.val)⟩) (⟨fun i => BitVec.ofNat 64 (3 + i.val)⟩)).1 (by decide +kernel)
example := (@vsub_s64_strict .strict (⟨fun _ => BitVec.intMax 64⟩) (⟨fun _ => BitVec.intMin 64⟩)).2 rfl (by decide +kernel)

/-- `vsubq_s32` returns the exact results whenever every lane fits, and is undefined in C++11 otherwise. -/
theorem vsubq_s32_strict [Dialect] (N M : int32x4_t) :
    ((∀ i : Fin 4, Fits 32 ((N.lane i).toInt - (M.lane i).toInt)) → ∃ r, vsubq_s32 N M = .ok r ∧ ∀ i, (r.lane i).toInt = (N.lane i).toInt - (M.lane i).toInt) ∧
    (Dialect.wrapv = false → (¬ ∀ i : Fin 4, Fits 32 ((N.lane i).toInt - (M.lane i).toInt)) → vsubq_s32 N M = .ub .signedOverflow) := by
  constructor
  · intro h
    rw [vsubq_s32_partial, if_pos fun i => by first | exact Or.inr (h i) | exact ⟨Or.inr (h i).1, Or.inr (h i).2⟩]
    refine ⟨_, rfl, fun i => ?_⟩
    have e : N.lane i - M.lane i = BitVec.ofInt 32 ((N.lane i).toInt - (M.lane i).toInt) := by bvnorm
    show (N.lane i - M.lane i).toInt = _
    rw [e]
    exact toInt_fits (by decide) (h i)
  · intro hd h
    rw [vsubq_s32_partial, if_neg]
    intro h'
    refine h fun i => ?_
    have := h' i
    simpa only [NoOverflow, hd, Bool.false_eq_true, false_or] using this
example := (@vsubq_s32_strict .strict (⟨fun i => BitVec.ofNat 32 (4 + i.val)⟩) (⟨fun i => BitVec.ofNat 32 (3 + i.val)⟩)).1 (by decide +kernel)
example := (@vsubq_s32_strict .strict (⟨fun _ => BitVec.intMax 32⟩) (⟨fun _ => BitVec.intMin 32⟩)).2 rfl (by decide +kernel)

/-- `vsubq_s64` returns the exact results whenever every lane fits, and is undefined in C++11 otherwise. -/
theorem vsubq_s64_strict [Dialect] (N M : int64x2_t) :
    ((∀ i : Fin 2, Fits 64 ((N.lane i).toInt - (M.lane i).toInt)) → ∃ r, vsubq_s64 N M = .ok r ∧ ∀ i, (r.lane i).toInt = (N.lane i).toInt - (M.lane i).toInt) ∧
    (Dialect.wrapv = false → (¬ ∀ i : Fin 2, Fits 64 ((N.lane i).toInt - (M.lane i).toInt)) → vsubq_s64 N M = .ub .signedOverflow) := by
  constructor
  · intro h
    rw [vsubq_s64_partial, if_pos fun i => by first | exact Or.inr (h i) | exact ⟨Or.inr (h i).1, Or.inr (h i).2⟩]
    refine ⟨_, rfl, fun i => ?_⟩
    have e : N.lane i - M.lane i = BitVec.ofInt 64 ((N.lane i).toInt - (M.lane i).toInt) := by bvnorm
    show (N.lane i - M.lane i).toInt = _
    rw [e]
    exact toInt_fits (by decide) (h i)
  · intro hd h
    rw [vsubq_s64_partial, if_neg]
    intro h'
    refine h fun i => ?_
    have := h' i
    simpa only [NoOverflow, hd, Bool.false_eq_true, false_or] using this
example := (@vsubq_s64_strict .strict (⟨fun i => BitVec.ofNat 64 (4 + i.val)⟩) (⟨fun i => BitVec.ofNat 64 (3 + i.val)⟩)).1 (by decide +kernel)
example := (@vsubq_s64_strict .strict (⟨fun _ => BitVec.intMax 64⟩) (⟨fun _ => BitVec.intMin 64⟩)).2 rfl (by decide +kernel)

/-- `vmul_s32` returns the exact results whenever every lane fits, and is undefined in C++11 otherwise. -/
theorem vmul_s32_strict [Dialect] (N M : int32x2_t) :
    ((∀ i : Fin 2, Fits 32 ((N.lane i).toInt * (M.lane i).toInt)) → ∃ r, vmul_s32 N M = .ok r ∧ ∀ i, (r.lane i).toInt = (N.lane i).toInt * (M.lane i).toInt) ∧
    (Dialect.wrapv = false → (¬ ∀ i : Fin 2, Fits 32 ((N.lane i).toInt * (M.lane i).toInt)) → vmul_s32 N M = .ub .signedOverflow) := by
  constructor
  · intro h
    rw [vmul_s32_partial, if_pos fun i => by first | exact Or.inr (h i) | exact ⟨Or.inr (h i).1, Or.inr (h i).2⟩]
    refine ⟨_, rfl, fun i => ?_⟩
    have e : N.lane i * M.lane i = BitVec.ofInt 32 ((N.lane i).toInt * (M.lane i).toInt) := by bvnorm
    show (N.lane i * M.lane i).toInt = _
    rw [e]
    exact toInt_fits (by decide) (h i)
  · intro hd h
    rw [vmul_s32_partial, if_neg]
    intro h'
    refine h fun i => ?_
    have := h' i
    simpa only [NoOverflow, hd, Bool.false_eq_true, false_or] using this
example := (@vmul_s32_strict .strict (⟨fun i => BitVec.ofNat 32 (4 + i.val)⟩) (⟨fun i => BitVec.ofNat 32 (3 + i.val)⟩)).1 (by decide +kernel)
example := (@vmul_s32_strict .strict (⟨fun _ => BitVec.intMax 32⟩) (⟨fun _ => BitVec.intMax 32⟩)).2 rfl (by decide +kernel)

/-- `vmulq_s32` returns the exact results whenever every lane fits, and is undefined in C++11 otherwise. -/
theorem vmulq_s32_strict [Dialect] (N M : int32x4_t) :
    ((∀ i : Fin 4, Fits 32 ((N.lane i).toInt * (M.lane i).toInt)) → ∃ r, vmulq_s32 N M = .ok r ∧ ∀ i, (r.lane i).toInt = (N.lane i).toInt * (M.lane i).toInt) ∧
    (Dialect.wrapv = false → (¬ ∀ i : Fin 4, Fits 32 ((N.lane i).toInt * (M.lane i).toInt)) → vmulq_s32 N M = .ub .signedOverflow) := by
  constructor
  · intro h
    rw [vmulq_s32_partial, if_pos fun i => by first | exact Or.inr (h i) | exact ⟨Or.inr (h i).1, Or.inr (h i).2⟩]
    refine ⟨_, rfl, fun i => ?_⟩
    have e : N.lane i * M.lane i = BitVec.ofInt 32 ((N.lane i).toInt * (M.lane i).toInt) := by bvnorm
    show (N.lane i * M.lane i).toInt = _
    rw [e]
    exact toInt_fits (by decide) (h i)
  · intro hd h
    rw [vmulq_s32_partial, if_neg]
    intro h'
    refine h fun i => ?_
    have := h' i
    simpa only [NoOverflow, hd, Bool.false_eq_true, false_or] using this
example := (@vmulq_s32_strict .strict (⟨fun i => BitVec.ofNat 32 (4 + i.val)⟩) (⟨fun i => BitVec.ofNat 32 (3 + i.val)⟩)).1 (by decide +kernel)
example := (@vmulq_s32_strict .strict (⟨fun _ => BitVec.intMax 32⟩) (⟨fun _ => BitVec.intMax 32⟩)).2 rfl (by decide +kernel)

/-- `vmul_n_s32` returns the exact results whenever every lane fits, and is undefined in C++11 otherwise. -/
theorem vmul_n_s32_strict [Dialect] (N : int32x2_t) (M : int32_t) :
    ((∀ i : Fin 2, Fits 32 ((N.lane i).toInt * M.toInt)) → ∃ r, vmul_n_s32 N M = .ok r ∧ ∀ i, (r.lane i).toInt = (N.lane i).toInt * M.toInt) ∧
    (Dialect.wrapv = false → (¬ ∀ i : Fin 2, Fits 32 ((N.lane i).toInt * M.toInt)) → vmul_n_s32 N M = .ub .signedOverflow) := by
  constructor
  · intro h
    rw [vmul_n_s32_partial, if_pos fun i => by first | exact Or.inr (h i) | exact ⟨Or.inr (h i).1, Or.inr (h i).2⟩]
    refine ⟨_, rfl, fun i => ?_⟩
    have e : N.lane i * M = BitVec.ofInt 32 ((N.lane i).toInt * M.toInt) := by bvnorm
    show (N.lane i * M).toInt = _
    rw [e]
    exact toInt_fits (by decide) (h i)
  · intro hd h
    rw [vmul_n_s32_partial, if_neg]
    intro h'
    refine h fun i => ?_
    have := h' i
    simpa only [NoOverflow, hd, Bool.false_eq_true, false_or] using this
example := (@vmul_n_s32_strict .strict (⟨fun i => BitVec.ofNat 32 (4 + i.val)⟩) 7).1 (by decide +kernel)
example := (@vmul_n_s32_strict .strict (⟨fun _ => BitVec.intMax 32⟩) 7).2 rfl (by decide +kernel)

/-- `vmulq_n_s32` returns the exact results whenever every lane fits, and is undefined in C++11 otherwise. -/
theorem vmulq_n_s32_strict [Dialect] (N : int32x4_t) (M : int32_t) :
    ((∀ i : Fin 4, Fits 32 ((N.lane i).toInt * M.toInt)) → ∃ r, vmulq_n_s32 N M = .ok r ∧ ∀ i, (r.lane i).toInt = (N.lane i).toInt * M.toInt) ∧
    (Dialect.wrapv = false → (¬ ∀ i : Fin 4, Fits 32 ((N.lane i).toInt * M.toInt)) → vmulq_n_s32 N M = .ub .signedOverflow) := by
  constructor
  · intro h
    rw [vmulq_n_s32_partial, if_pos fun i => by first | exact Or.inr (h i) | exact ⟨Or.inr (h i).1, Or.inr (h i).2⟩]
    refine ⟨_, rfl, fun i => ?_⟩
    have e : N.lane i * M = BitVec.ofInt 32 ((N.lane i).toInt * M.toInt) := by bvnorm
    show (N.lane i * M).toInt = _
    rw [e]
    exact toInt_fits (by decide) (h i)
  · intro hd h
    rw [vmulq_n_s32_partial, if_neg]
    intro h'
    refine h fun i => ?_
    have := h' i
    simpa only [NoOverflow, hd, Bool.false_eq_true, false_or] using this
example := (@vmulq_n_s32_strict .strict (⟨fun i => BitVec.ofNat 32 (4 + i.val)⟩) 7).1 (by decide +kernel)
example := (@vmulq_n_s32_strict .strict (⟨fun _ => BitVec.intMax 32⟩) 7).2 rfl (by decide +kernel)

/-- `vmull_s32` returns the exact results whenever every lane fits, and is undefined in C++11 otherwise. -/
theorem vmull_s32_strict [Dialect] (a b : int32x2_t) :
    ((∀ i : Fin 2, Fits 32 ((a.lane i).toInt * (b.lane i).toInt)) → ∃ r, vmull_s32 a b = .ok r ∧ ∀ i, (r.lane i).toInt = (a.lane i).toInt * (b.lane i).toInt) ∧
    (Dialect.wrapv = false → (¬ ∀ i : Fin 2, Fits 32 ((a.lane i).toInt * (b.lane i).toInt)) → vmull_s32 a b = .ub .signedOverflow) := by
  constructor
  · intro h
    rw [vmull_s32_partial, if_pos fun i => by first | exact Or.inr (h i) | exact ⟨Or.inr (h i).1, Or.inr (h i).2⟩]
    refine ⟨_, rfl, fun i => ?_⟩
    have e : (a.lane i * b.lane i) = BitVec.ofInt 32 ((a.lane i).toInt * (b.lane i).toInt) := by bvnorm
    show ((a.lane i * b.lane i).signExtend 64).toInt = _
    rw [e, BitVec.toInt_signExtend_of_le (by decide)]
    exact toInt_fits (by decide) (h i)
  · intro hd h
    rw [vmull_s32_partial, if_neg]
    intro h'
    refine h fun i => ?_
    have := h' i
    simpa only [NoOverflow, hd, Bool.false_eq_true, false_or] using this
example := (@vmull_s32_strict .strict (⟨fun i => BitVec.ofNat 32 (3 + i.val)⟩) (⟨fun i => BitVec.ofNat 32 (2 + i.val)⟩)).1 (by decide +kernel)
example := (@vmull_s32_strict .strict (⟨fun _ => BitVec.intMax 32⟩) (⟨fun _ => BitVec.intMax 32⟩)).2 rfl (by decide +kernel)

/-- `vmull_n_s32` returns the exact results whenever every lane fits, and is undefined in C++11 otherwise. -/
theorem vmull_n_s32_strict [Dialect] (N : int32x2_t) (M : int32_t) :
    ((∀ i : Fin 2, Fits 32 ((N.lane i).toInt * M.toInt)) → ∃ r, vmull_n_s32 N M = .ok r ∧ ∀ i, (r.lane i).toInt = (N.lane i).toInt * M.toInt) ∧
    (Dialect.wrapv = false → (¬ ∀ i : Fin 2, Fits 32 ((N.lane i).toInt * M.toInt)) → vmull_n_s32 N M = .ub .signedOverflow) := by
  constructor
  · intro h
    rw [vmull_n_s32_partial, if_pos fun i => by first | exact Or.inr (h i) | exact ⟨Or.inr (h i).1, Or.inr (h i).2⟩]
    refine ⟨_, rfl, fun i => ?_⟩
    have e : (N.lane i * M) = BitVec.ofInt 32 ((N.lane i).toInt * M.toInt) := by bvnorm
    show ((N.lane i * M).signExtend 64).toInt = _
    rw [e, BitVec.toInt_signExtend_of_le (by decide)]
    exact toInt_fits (by decide) (h i)
  · intro hd h
    rw [vmull_n_s32_partial, if_neg]
    intro h'
    refine h fun i => ?_
    have := h' i
    simpa only [NoOverflow, hd, Bool.false_eq_true, false_or] using this
example := (@vmull_n_s32_strict .strict (⟨fun i => BitVec.ofNat 32 (4 + i.val)⟩) 7).1 (by decide +kernel)
example := (@vmull_n_s32_strict .strict (⟨fun _ => BitVec.intMax 32⟩) 7).2 rfl (by decide +kernel)

/-- `vmlal_s16` returns the exact results whenever every lane fits, and is undefined in C++11 otherwise. -/
theorem vmlal_s16_strict [Dialect] (N : int32x4_t) (M P : int16x4_t) :
    ((∀ i : Fin 4, Fits 32 ((N.lane i).toInt + (M.lane i).toInt * (P.lane i).toInt)) → ∃ r, vmlal_s16 N M P = .ok r ∧ ∀ i, (r.lane i).toInt = (N.lane i).toInt + (M.lane i).toInt * (P.lane i).toInt) ∧
    (Dialect.wrapv = false → (¬ ∀ i : Fin 4, Fits 32 ((N.lane i).toInt + (M.lane i).toInt * (P.lane i).toInt)) → vmlal_s16 N M P = .ub .signedOverflow) := by
  constructor
  · intro h
    rw [vmlal_s16_partial, if_pos fun i => by first | exact Or.inr (h i) | exact ⟨Or.inr (h i).1, Or.inr (h i).2⟩]
    refine ⟨_, rfl, fun i => ?_⟩
    have e : N.lane i + (M.lane i).signExtend 32 * (P.lane i).signExtend 32 = BitVec.ofInt 32 ((N.lane i).toInt + (M.lane i).toInt * (P.lane i).toInt) := by bvnorm
    show (N.lane i + (M.lane i).signExtend 32 * (P.lane i).signExtend 32).toInt = _
    rw [e]
    exact toInt_fits (by decide) (h i)
  · intro hd h
    rw [vmlal_s16_partial, if_neg]
    intro h'
    refine h fun i => ?_
    have := h' i
    simpa only [NoOverflow, hd, Bool.false_eq_true, false_or] using this
example := (@vmlal_s16_strict .strict (⟨fun i => BitVec.ofNat 32 (4 + i.val)⟩) (⟨fun i => BitVec.ofNat 16 (3 + i.val)⟩) (⟨fun i => BitVec.ofNat 16 (2 + i.val)⟩)).1 (by decide +kernel)
example := (@vmlal_s16_strict .strict (⟨fun _ => BitVec.intMax 32⟩) (⟨fun _ => BitVec.intMax 16⟩) (⟨fun _ => BitVec.intMax 16⟩)).2 rfl (by decide +kernel)

/-- `vmlal_s32` returns the exact results whenever every lane fits, and is undefined in C++11 otherwise. -/
theorem vmlal_s32_strict [Dialect] (N : int64x2_t) (M P : int32x2_t) :
    ((∀ i : Fin 2, Fits 32 ((M.lane i).toInt * (P.lane i).toInt) ∧ Fits 64 ((N.lane i).toInt + (M.lane i * P.lane i).toInt)) → ∃ r, vmlal_s32 N M P = .ok r ∧ ∀ i, (r.lane i).toInt = (N.lane i).toInt + (M.lane i).toInt * (P.lane i).toInt) ∧
    (Dialect.wrapv = false → (¬ ∀ i : Fin 2, Fits 32 ((M.lane i).toInt * (P.lane i).toInt) ∧ Fits 64 ((N.lane i).toInt + (M.lane i * P.lane i).toInt)) → vmlal_s32 N M P = .ub .signedOverflow) := by
  constructor
  · intro h
    rw [vmlal_s32_partial, if_pos fun i => by first | exact Or.inr (h i) | exact ⟨Or.inr (h i).1, Or.inr (h i).2⟩]
    refine ⟨_, rfl, fun i => ?_⟩
    have e : (M.lane i * P.lane i).toInt = (M.lane i).toInt * (P.lane i).toInt := by
      have e' : M.lane i * P.lane i = BitVec.ofInt 32 ((M.lane i).toInt * (P.lane i).toInt) := by bvnorm
      rw [e']; exact toInt_fits (by decide) (h i).1
    have h2 := (h i).2
    rw [e] at h2
    rw [← e]
    have e2 : N.lane i + (M.lane i * P.lane i).signExtend 64 = BitVec.ofInt 64 ((N.lane i).toInt + (M.lane i * P.lane i).toInt) := by bvnorm
    show (N.lane i + (M.lane i * P.lane i).signExtend 64).toInt = _
    rw [e2]
    exact toInt_fits (by decide) (by rw [e]; exact h2)
  · intro hd h
    rw [vmlal_s32_partial, if_neg]
    intro h'
    refine h fun i => ?_
    have := h' i
    simpa only [NoOverflow, hd, Bool.false_eq_true, false_or] using this
example := (@vmlal_s32_strict .strict (⟨fun i => BitVec.ofNat 64 (4 + i.val)⟩) (⟨fun i => BitVec.ofNat 32 (3 + i.val)⟩) (⟨fun i => BitVec.ofNat 32 (2 + i.val)⟩)).1 (by decide +kernel)
example := (@vmlal_s32_strict .strict (⟨fun _ => BitVec.intMax 64⟩) (⟨fun _ => BitVec.intMax 32⟩) (⟨fun _ => BitVec.intMax 32⟩)).2 rfl (by decide +kernel)

/-- `vmlsl_s16` returns the exact results whenever every lane fits, and is undefined in C++11 otherwise. -/
theorem vmlsl_s16_strict [Dialect] (N : int32x4_t) (M P : int16x4_t) :
    ((∀ i : Fin 4, Fits 32 ((N.lane i).toInt - (M.lane i).toInt * (P.lane i).toInt)) → ∃ r, vmlsl_s16 N M P = .ok r ∧ ∀ i, (r.lane i).toInt = (N.lane i).toInt - (M.lane i).toInt * (P.lane i).toInt) ∧
    (Dialect.wrapv = false → (¬ ∀ i : Fin 4, Fits 32 ((N.lane i).toInt - (M.lane i).toInt * (P.lane i).toInt)) → vmlsl_s16 N M P = .ub .signedOverflow) := by
  constructor
  · intro h
    rw [vmlsl_s16_partial, if_pos fun i => by first | exact Or.inr (h i) | exact ⟨Or.inr (h i).1, Or.inr (h i).2⟩]
    refine ⟨_, rfl, fun i => ?_⟩
    have e : N.lane i - (M.lane i).signExtend 32 * (P.lane i).signExtend 32 = BitVec.ofInt 32 ((N.lane i).toInt - (M.lane i).toInt * (P.lane i).toInt) := by bvnorm
    show (N.lane i - (M.lane i).signExtend 32 * (P.lane i).signExtend 32).toInt = _
    rw [e]
    exact toInt_fits (by decide) (h i)
  · intro hd h
    rw [vmlsl_s16_partial, if_neg]
    intro h'
    refine h fun i => ?_
    have := h' i
    simpa only [NoOverflow, hd, Bool.false_eq_true, false_or] using this
example := (@vmlsl_s16_strict .strict (⟨fun i => BitVec.ofNat 32 (4 + i.val)⟩) (⟨fun i => BitVec.ofNat 16 (3 + i.val)⟩) (⟨fun i => BitVec.ofNat 16 (2 + i.val)⟩)).1 (by decide +kernel)
example := (@vmlsl_s16_strict .strict (⟨fun _ => BitVec.intMax 32⟩) (⟨fun _ => BitVec.intMax 16⟩) (⟨fun _ => BitVec.intMin 16⟩)).2 rfl (by decide +kernel)

/-- `vmlsl_s32` returns the exact results whenever every lane fits, and is undefined in C++11 otherwise. -/
theorem vmlsl_s32_strict [Dialect] (N : int64x2_t) (M P : int32x2_t) :
    ((∀ i : Fin 2, Fits 32 ((M.lane i).toInt * (P.lane i).toInt) ∧ Fits 64 ((N.lane i).toInt - (M.lane i * P.lane i).toInt)) → ∃ r, vmlsl_s32 N M P = .ok r ∧ ∀ i, (r.lane i).toInt = (N.lane i).toInt - (M.lane i).toInt * (P.lane i).toInt) ∧
    (Dialect.wrapv = false → (¬ ∀ i : Fin 2, Fits 32 ((M.lane i).toInt * (P.lane i).toInt) ∧ Fits 64 ((N.lane i).toInt - (M.lane i * P.lane i).toInt)) → vmlsl_s32 N M P = .ub .signedOverflow) := by
  constructor
  · intro h
    rw [vmlsl_s32_partial, if_pos fun i => by first | exact Or.inr (h i) | exact ⟨Or.inr (h i).1, Or.inr (h i).2⟩]
    refine ⟨_, rfl, fun i => ?_⟩
    have e : (M.lane i * P.lane i).toInt = (M.lane i).toInt * (P.lane i).toInt := by
      have e' : M.lane i * P.lane i = BitVec.ofInt 32 ((M.lane i).toInt * (P.lane i).toInt) := by bvnorm
      rw [e']; exact toInt_fits (by decide) (h i).1
    have h2 := (h i).2
    rw [e] at h2
    rw [← e]
    have e2 : N.lane i - (M.lane i * P.lane i).signExtend 64 = BitVec.ofInt 64 ((N.lane i).toInt - (M.lane i * P.lane i).toInt) := by bvnorm
    show (N.lane i - (M.lane i * P.lane i).signExtend 64).toInt = _
    rw [e2]
    exact toInt_fits (by decide) (by rw [e]; exact h2)
  · intro hd h
    rw [vmlsl_s32_partial, if_neg]
    intro h'
    refine h fun i => ?_
    have := h' i
    simpa only [NoOverflow, hd, Bool.false_eq_true, false_or] using this
example := (@vmlsl_s32_strict .strict (⟨fun i => BitVec.ofNat 64 (4 + i.val)⟩) (⟨fun i => BitVec.ofNat 32 (3 + i.val)⟩) (⟨fun i => BitVec.ofNat 32 (2 + i.val)⟩)).1 (by decide +kernel)
example := (@vmlsl_s32_strict .strict (⟨fun _ => BitVec.intMax 64⟩) (⟨fun _ => BitVec.intMax 32⟩) (⟨fun _ => BitVec.intMin 32⟩)).2 rfl (by decide +kernel)

/-- `vmlaq_s32` returns the exact results whenever every lane fits, and is undefined in C++11 otherwise. -/
theorem vmlaq_s32_strict [Dialect] (N M P : int32x4_t) :
    ((∀ i : Fin 4, Fits 32 ((M.lane i).toInt * (P.lane i).toInt) ∧ Fits 32 ((N.lane i).toInt + (M.lane i).toInt * (P.lane i).toInt)) → ∃ r, vmlaq_s32 N M P = .ok r ∧ ∀ i, (r.lane i).toInt = (N.lane i).toInt + (M.lane i).toInt * (P.lane i).toInt) ∧
    (Dialect.wrapv = false → (¬ ∀ i : Fin 4, Fits 32 ((M.lane i).toInt * (P.lane i).toInt) ∧ Fits 32 ((N.lane i).toInt + (M.lane i).toInt * (P.lane i).toInt)) → vmlaq_s32 N M P = .ub .signedOverflow) := by
  constructor
  · intro h
    rw [vmlaq_s32_partial, if_pos fun i => by first | exact Or.inr (h i) | exact ⟨Or.inr (h i).1, Or.inr (h i).2⟩]
    refine ⟨_, rfl, fun i => ?_⟩
    have e : N.lane i + M.lane i * P.lane i = BitVec.ofInt 32 ((N.lane i).toInt + (M.lane i).toInt * (P.lane i).toInt) := by bvnorm
    show (N.lane i + M.lane i * P.lane i).toInt = _
    rw [e]
    exact toInt_fits (by decide) (h i).2
  · intro hd h
    rw [vmlaq_s32_partial, if_neg]
    intro h'
    refine h fun i => ?_
    have := h' i
    simpa only [NoOverflow, hd, Bool.false_eq_true, false_or] using this
example := (@vmlaq_s32_strict .strict (⟨fun i => BitVec.ofNat 32 (4 + i.val)⟩) (⟨fun i => BitVec.ofNat 32 (3 + i.val)⟩) (⟨fun i => BitVec.ofNat 32 (2 + i.val)⟩)).1 (by decide +kernel)
example := (@vmlaq_s32_strict .strict (⟨fun _ => BitVec.intMax 32⟩) (⟨fun _ => BitVec.intMax 32⟩) (⟨fun _ => BitVec.intMax 32⟩)).2 rfl (by decide +kernel)

/-- `vaddl_high_s32` returns the exact results whenever every lane fits, and is undefined in C++11 otherwise. -/
theorem vaddl_high_s32_strict [Dialect] (a b : int32x4_t) :
    ((∀ i : Fin 2, Fits 32 ((a[2 + i.val]).toInt + (b[2 + i.val]).toInt)) → ∃ r, vaddl_high_s32 a b = .ok r ∧ ∀ i, (r.lane i).toInt = (a[2 + i.val]).toInt + (b[2 + i.val]).toInt) ∧
    (Dialect.wrapv = false → (¬ ∀ i : Fin 2, Fits 32 ((a[2 + i.val]).toInt + (b[2 + i.val]).toInt)) → vaddl_high_s32 a b = .ub .signedOverflow) := by
  constructor
  · intro h
    rw [vaddl_high_s32_partial, if_pos fun i => by first | exact Or.inr (h i) | exact ⟨Or.inr (h i).1, Or.inr (h i).2⟩]
    refine ⟨_, rfl, fun i => ?_⟩
    have e : (a[2 + i.val] + b[2 + i.val]) = BitVec.ofInt 32 ((a[2 + i.val]).toInt + (b[2 + i.val]).toInt) := by bvnorm
    show ((a[2 + i.val] + b[2 + i.val]).signExtend 64).toInt = _
    rw [e, BitVec.toInt_signExtend_of_le (by decide)]
    exact toInt_fits (by decide) (h i)
  · intro hd h
    rw [vaddl_high_s32_partial, if_neg]
    intro h'
    refine h fun i => ?_
    have := h' i
    simpa only [NoOverflow, hd, Bool.false_eq_true, false_or] using this
example := (@vaddl_high_s32_strict .strict (⟨fun i => BitVec.ofNat 32 (3 + i.val)⟩) (⟨fun i => BitVec.ofNat 32 (2 + i.val)⟩)).1 (by decide +kernel)
example := (@vaddl_high_s32_strict .strict (⟨fun _ => BitVec.intMax 32⟩) (⟨fun _ => BitVec.intMax 32⟩)).2 rfl (by decide +kernel)

/-- `vaddw_s16` returns the exact results whenever every lane fits, and is undefined in C++11 otherwise. -/
theorem vaddw_s16_strict [Dialect] (a : int32x4_t) (b : int16x4_t) :
    ((∀ i : Fin 4, Fits 32 ((a.lane i).toInt + (b.lane i).toInt)) → ∃ r, vaddw_s16 a b = .ok r ∧ ∀ i, (r.lane i).toInt = (a.lane i).toInt + (b.lane i).toInt) ∧
    (Dialect.wrapv = false → (¬ ∀ i : Fin 4, Fits 32 ((a.lane i).toInt + (b.lane i).toInt)) → vaddw_s16 a b = .ub .signedOverflow) := by
  constructor
  · intro h
    rw [vaddw_s16_partial, if_pos fun i => by first | exact Or.inr (h i) | exact ⟨Or.inr (h i).1, Or.inr (h i).2⟩]
    refine ⟨_, rfl, fun i => ?_⟩
    have e : a.lane i + (b.lane i).signExtend 32 = BitVec.ofInt 32 ((a.lane i).toInt + (b.lane i).toInt) := by bvnorm
    show (a.lane i + (b.lane i).signExtend 32).toInt = _
    rw [e]
    exact toInt_fits (by decide) (h i)
  · intro hd h
    rw [vaddw_s16_partial, if_neg]
    intro h'
    refine h fun i => ?_
    have := h' i
    simpa only [NoOverflow, hd, Bool.false_eq_true, false_or] using this
example := (@vaddw_s16_strict .strict (⟨fun i => BitVec.ofNat 32 (3 + i.val)⟩) (⟨fun i => BitVec.ofNat 16 (2 + i.val)⟩)).1 (by decide +kernel)
example := (@vaddw_s16_strict .strict (⟨fun _ => BitVec.intMax 32⟩) (⟨fun _ => BitVec.intMax 16⟩)).2 rfl (by decide +kernel)

/-- `vaddw_s32` returns the exact results whenever every lane fits, and is undefined in C++11 otherwise. -/
theorem vaddw_s32_strict [Dialect] (a : int64x2_t) (b : int32x2_t) :
    ((∀ i : Fin 2, Fits 64 ((a.lane i).toInt + (b.lane i).toInt)) → ∃ r, vaddw_s32 a b = .ok r ∧ ∀ i, (r.lane i).toInt = (a.lane i).toInt + (b.lane i).toInt) ∧
    (Dialect.wrapv = false → (¬ ∀ i : Fin 2, Fits 64 ((a.lane i).toInt + (b.lane i).toInt)) → vaddw_s32 a b = .ub .signedOverflow) := by
  constructor
  · intro h
    rw [vaddw_s32_partial, if_pos fun i => by first | exact Or.inr (h i) | exact ⟨Or.inr (h i).1, Or.inr (h i).2⟩]
    refine ⟨_, rfl, fun i => ?_⟩
    have e : a.lane i + (b.lane i).signExtend 64 = BitVec.ofInt 64 ((a.lane i).toInt + (b.lane i).toInt) := by bvnorm
    show (a.lane i + (b.lane i).signExtend 64).toInt = _
    rw [e]
    exact toInt_fits (by decide) (h i)
  · intro hd h
    rw [vaddw_s32_partial, if_neg]
    intro h'
    refine h fun i => ?_
    have := h' i
    simpa only [NoOverflow, hd, Bool.false_eq_true, false_or] using this
example := (@vaddw_s32_strict .strict (⟨fun i => BitVec.ofNat 64 (3 + i.val)⟩) (⟨fun i => BitVec.ofNat 32 (2 + i.val)⟩)).1 (by decide +kernel)
example := (@vaddw_s32_strict .strict (⟨fun _ => BitVec.intMax 64⟩) (⟨fun _ => BitVec.intMax 32⟩)).2 rfl (by decide +kernel)

/-- `vaddw_high_s16` returns the exact results whenever every lane fits, and is undefined in C++11 otherwise. -/
theorem vaddw_high_s16_strict [Dialect] (a : int32x4_t) (b : int16x8_t) :
    ((∀ i : Fin 4, Fits 32 ((a.lane i).toInt + (b[4 + i.val]).toInt)) → ∃ r, vaddw_high_s16 a b = .ok r ∧ ∀ i, (r.lane i).toInt = (a.lane i).toInt + (b[4 + i.val]).toInt) ∧
    (Dialect.wrapv = false → (¬ ∀ i : Fin 4, Fits 32 ((a.lane i).toInt + (b[4 + i.val]).toInt)) → vaddw_high_s16 a b = .ub .signedOverflow) := by
  constructor
  · intro h
    rw [vaddw_high_s16_partial, if_pos fun i => by first | exact Or.inr (h i) | exact ⟨Or.inr (h i).1, Or.inr (h i).2⟩]
    refine ⟨_, rfl, fun i => ?_⟩
    have e : a.lane i + (b[4 + i.val]).signExtend 32 = BitVec.ofInt 32 ((a.lane i).toInt + (b[4 + i.val]).toInt) := by bvnorm
    show (a.lane i + (b[4 + i.val]).signExtend 32).toInt = _
    rw [e]
    exact toInt_fits (by decide) (h i)
  · intro hd h
    rw [vaddw_high_s16_partial, if_neg]
    intro h'
    refine h fun i => ?_
    have := h' i
    simpa only [NoOverflow, hd, Bool.false_eq_true, false_or] using this
example := (@vaddw_high_s16_strict .strict (⟨fun i => BitVec.ofNat 32 (3 + i.val)⟩) (⟨fun i => BitVec.ofNat 16 (2 + i.val)⟩)).1 (by decide +kernel)
example := (@vaddw_high_s16_strict .strict (⟨fun _ => BitVec.intMax 32⟩) (⟨fun _ => BitVec.intMax 16⟩)).2 rfl (by decide +kernel)

/-- `vaddw_high_s32` returns the exact results whenever every lane fits, and is undefined in C++11 otherwise. -/
theorem vaddw_high_s32_strict [Dialect] (a : int64x2_t) (b : int32x4_t) :
    ((∀ i : Fin 2, Fits 64 ((a.lane i).toInt + (b[2 + i.val]).toInt)) → ∃ r, vaddw_high_s32 a b = .ok r ∧ ∀ i, (r.lane i).toInt = (a.lane i).toInt + (b[2 + i.val]).toInt) ∧
    (Dialect.wrapv = false → (¬ ∀ i : Fin 2, Fits 64 ((a.lane i).toInt + (b[2 + i.val]).toInt)) → vaddw_high_s32 a b = .ub .signedOverflow) := by
  constructor
  · intro h
    rw [vaddw_high_s32_partial, if_pos fun i => by first | exact Or.inr (h i) | exact ⟨Or.inr (h i).1, Or.inr (h i).2⟩]
    refine ⟨_, rfl, fun i => ?_⟩
    have e : a.lane i + (b[2 + i.val]).signExtend 64 = BitVec.ofInt 64 ((a.lane i).toInt + (b[2 + i.val]).toInt) := by bvnorm
    show (a.lane i + (b[2 + i.val]).signExtend 64).toInt = _
    rw [e]
    exact toInt_fits (by decide) (h i)
  · intro hd h
    rw [vaddw_high_s32_partial, if_neg]
    intro h'
    refine h fun i => ?_
    have := h' i
    simpa only [NoOverflow, hd, Bool.false_eq_true, false_or] using this
example := (@vaddw_high_s32_strict .strict (⟨fun i => BitVec.ofNat 64 (3 + i.val)⟩) (⟨fun i => BitVec.ofNat 32 (2 + i.val)⟩)).1 (by decide +kernel)
example := (@vaddw_high_s32_strict .strict (⟨fun _ => BitVec.intMax 64⟩) (⟨fun _ => BitVec.intMax 32⟩)).2 rfl (by decide +kernel)

/-- `vsubw_s16` returns the exact results whenever every lane fits, and is undefined in C++11 otherwise. -/
theorem vsubw_s16_strict [Dialect] (N : int32x4_t) (M : int16x4_t) :
    ((∀ i : Fin 4, Fits 32 ((N.lane i).toInt - (M.lane i).toInt)) → ∃ r, vsubw_s16 N M = .ok r ∧ ∀ i, (r.lane i).toInt = (N.lane i).toInt - (M.lane i).toInt) ∧
    (Dialect.wrapv = false → (¬ ∀ i : Fin 4, Fits 32 ((N.lane i).toInt - (M.lane i).toInt)) → vsubw_s16 N M = .ub .signedOverflow) := by
  constructor
  · intro h
    rw [vsubw_s16_partial, if_pos fun i => by first | exact Or.inr (h i) | exact ⟨Or.inr (h i).1, Or.inr (h i).2⟩]
    refine ⟨_, rfl, fun i => ?_⟩
    have e : N.lane i - (M.lane i).signExtend 32 = BitVec.ofInt 32 ((N.lane i).toInt - (M.lane i).toInt) := by bvnorm
    show (N.lane i - (M.lane i).signExtend 32).toInt = _
    rw [e]
    exact toInt_fits (by decide) (h i)
  · intro hd h
    rw [vsubw_s16_partial, if_neg]
    intro h'
    refine h fun i => ?_
    have := h' i
    simpa only [NoOverflow, hd, Bool.false_eq_true, false_or] using this
example := (@vsubw_s16_strict .strict (⟨fun i => BitVec.ofNat 32 (4 + i.val)⟩) (⟨fun i => BitVec.ofNat 16 (3 + i.val)⟩)).1 (by decide +kernel)
example := (@vsubw_s16_strict .strict (⟨fun _ => BitVec.intMax 32⟩) (⟨fun _ => BitVec.intMin 16⟩)).2 rfl (by decide +kernel)

/-- `vsubw_s32` returns the exact results whenever every lane fits, and is undefined in C++11 otherwise. -/
theorem vsubw_s32_strict [Dialect] (N : int64x2_t) (M : int32x2_t) :
    ((∀ i : Fin 2, Fits 64 ((N.lane i).toInt - (M.lane i).toInt)) → ∃ r, vsubw_s32 N M = .ok r ∧ ∀ i, (r.lane i).toInt = (N.lane i).toInt - (M.lane i).toInt) ∧
    (Dialect.wrapv = false → (¬ ∀ i : Fin 2, Fits 64 ((N.lane i).toInt - (M.lane i).toInt)) → vsubw_s32 N M = .ub .signedOverflow) := by
  constructor
  · intro h
    rw [vsubw_s32_partial, if_pos fun i => by first | exact Or.inr (h i) | exact ⟨Or.inr (h i).1, Or.inr (h i).2⟩]
    refine ⟨_, rfl, fun i => ?_⟩
    have e : N.lane i - (M.lane i).signExtend 64 = BitVec.ofInt 64 ((N.lane i).toInt - (M.lane i).toInt) := by bvnorm
    show (N.lane i - (M.lane i).signExtend 64).toInt = _
    rw [e]
    exact toInt_fits (by decide) (h i)
  · intro hd h
    rw [vsubw_s32_partial, if_neg]
    intro h'
    refine h fun i => ?_
    have := h' i
    simpa only [NoOverflow, hd, Bool.false_eq_true, false_or] using this
example := (@vsubw_s32_strict .strict (⟨fun i => BitVec.ofNat 64 (4 + i.val)⟩) (⟨fun i => BitVec.ofNat 32 (3 + i.val)⟩)).1 (by decide +kernel)
example := (@vsubw_s32_strict .strict (⟨fun _ => BitVec.intMax 64⟩) (⟨fun _ => BitVec.intMin 32⟩)).2 rfl (by decide +kernel)

/-- The hypotheses are met by the largest operands whose sum fits, and fail one above. -/
example : (∀ i : Fin 2, Fits 32 (((⟨fun _ => 2147483646#32⟩ : int32x2_t).lane i).toInt + ((⟨fun _ => 1#32⟩ : int32x2_t).lane i).toInt)) ∧
    ¬ ∀ i : Fin 2, Fits 32 (((⟨fun _ => 2147483647#32⟩ : int32x2_t).lane i).toInt + ((⟨fun _ => 1#32⟩ : int32x2_t).lane i).toInt) := by
  decide +kernel

end Verif.Props
