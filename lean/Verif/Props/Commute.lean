import Verif.Fill
import Verif.Commute
import Verif.Props.AddSub
import Verif.Props.NarrowHigh
import Verif.Props.Saturate
import Verif.Props.Mul
import Verif.Props.MaxMin
import Verif.Props.Logic
import Verif.Props.Perm
import Verif.Props.QSub64
import Verif.Props.FloatSel
import Verif.Props.Float
import Verif.Props.Recip
import Verif.Props.Select
/-! # Lane-wise operations commute with lane permutations (C62)

Each theorem names the operations and the permutations it covers.  Both sides are outcomes: where one side is
undefined (signed overflow in C++11) so is the other.

Generated by the scripts in `tools/`. -/

set_option linter.unusedSimpArgs false
set_option linter.unusedVariables false

namespace Verif.Props
open Verif.Model Verif.Spec

open Verif.FpOps

/-- Reversing the lanes of the operands and then applying a lane-wise operation on `float32x2_t` is the same as applying it first and reversing the result. -/
theorem rev_unary_float32x2 [Dialect] (c : float32_t) :
    ∀ f ∈ [(fun a => vmul_n_f32 a c)],
    ∀ p ∈ [vrev64_f32],
    ∀ a : float32x2_t, (do f (← p a)) = (do p (← f a)) := by
  intro f hf p hp a
  have hf' : LaneWise1 f := by
    simp only [List.mem_cons, List.not_mem_nil, or_false] at hf
    rcases hf with rfl
    · exact .of_ok (fun x => BitVec.ofNat 32 (Fmt.b32.mul (x).toNat c.toNat)) fun a => vmul_n_f32_eval a c
  have hp' : Permutes p := by
    simp only [List.mem_cons, List.not_mem_nil, or_false] at hp
    rcases hp with rfl
    · exact ⟨fun i => ⟨i.val / 2 * 2 + (1 - i.val % 2), by omega⟩, fun i => ⟨i.val / 2 * 2 + (1 - i.val % 2), by omega⟩, fun i => Fin.ext (by dsimp only; omega), fun a => vrev64_f32_spec a⟩
  exact hf'.comm hp' a

/-- Reversing the lanes of the operands and then applying a lane-wise operation on `float32x2_t` is the same as applying it first and reversing the result. -/
theorem rev_binary_float32x2 [Dialect] :
    ∀ f ∈ [vsub_f32, vdiv_f32],
    ∀ p ∈ [vrev64_f32],
    ∀ a b : float32x2_t, (do f (← p a) (← p b)) = (do p (← f a b)) := by
  intro f hf p hp a b
  have hf' : LaneWise f := by
    simp only [List.mem_cons, List.not_mem_nil, or_false] at hf
    rcases hf with rfl | rfl
    · exact .of_ok (fun x y => BitVec.ofNat 32 (Fmt.b32.sub (x).toNat (y).toNat)) fun a b => vsub_f32_eval a b
    · exact .of_ok (fun x y => BitVec.ofNat 32 (Fmt.b32.div (x).toNat (y).toNat)) fun a b => vdiv_f32_eval a b
  have hp' : Permutes p := by
    simp only [List.mem_cons, List.not_mem_nil, or_false] at hp
    rcases hp with rfl
    · exact ⟨fun i => ⟨i.val / 2 * 2 + (1 - i.val % 2), by omega⟩, fun i => ⟨i.val / 2 * 2 + (1 - i.val % 2), by omega⟩, fun i => Fin.ext (by dsimp only; omega), fun a => vrev64_f32_spec a⟩
  exact hf'.comm hp' a b

/-- Reversing the lanes of the operands and then applying a lane-wise operation on `float32x4_t` is the same as applying it first and reversing the result. -/
theorem rev_unary_float32x4 [Dialect] (c : float32_t) :
    ∀ f ∈ [(fun a => vmulq_n_f32 a c)],
    ∀ p ∈ [vrev64q_f32],
    ∀ a : float32x4_t, (do f (← p a)) = (do p (← f a)) := by
  intro f hf p hp a
  have hf' : LaneWise1 f := by
    simp only [List.mem_cons, List.not_mem_nil, or_false] at hf
    rcases hf with rfl
    · exact .of_ok (fun x => BitVec.ofNat 32 (Fmt.b32.mul (x).toNat c.toNat)) fun a => vmulq_n_f32_eval a c
  have hp' : Permutes p := by
    simp only [List.mem_cons, List.not_mem_nil, or_false] at hp
    rcases hp with rfl
    · exact ⟨fun i => ⟨i.val / 2 * 2 + (1 - i.val % 2), by omega⟩, fun i => ⟨i.val / 2 * 2 + (1 - i.val % 2), by omega⟩, fun i => Fin.ext (by dsimp only; omega), fun a => vrev64q_f32_spec a⟩
  exact hf'.comm hp' a

/-- Reversing the lanes of the operands and then applying a lane-wise operation on `float32x4_t` is the same as applying it first and reversing the result. -/
theorem rev_binary_float32x4 [Dialect] (c : float32_t) :
    ∀ f ∈ [vmaxq_f32, vaddq_f32, vsubq_f32, vmulq_f32, (fun a b => vmlaq_n_f32 a b c), vminq_f32, 
      vrecpsq_f32, vdivq_f32],
    ∀ p ∈ [vrev64q_f32],
    ∀ a b : float32x4_t, (do f (← p a) (← p b)) = (do p (← f a b)) := by
  intro f hf p hp a b
  have hf' : LaneWise f := by
    simp only [List.mem_cons, List.not_mem_nil, or_false] at hf
    rcases hf with rfl | rfl | rfl | rfl | rfl | rfl | rfl | rfl
    · exact .of_ok (fun x y => if Less32 (y) (x) then x else y) fun a b => vmaxq_f32_eval a b
    · exact .of_ok (fun x y => BitVec.ofNat 32 (Fmt.b32.add (x).toNat (y).toNat)) fun a b => vaddq_f32_eval a b
    · exact .of_ok (fun x y => BitVec.ofNat 32 (Fmt.b32.sub (x).toNat (y).toNat)) fun a b => vsubq_f32_eval a b
    · exact .of_ok (fun x y => BitVec.ofNat 32 (Fmt.b32.mul (x).toNat (y).toNat)) fun a b => vmulq_f32_eval a b
    · exact .of_ok (fun x y => BitVec.ofNat 32 (Fmt.b32.add (x).toNat (BitVec.ofNat 32 (Fmt.b32.mul (y).toNat c.toNat)).toNat)) fun a b => vmlaq_n_f32_eval a b c
    · exact .of_ok (fun x y => if Less32 (x) (y) then x else y) fun a b => vminq_f32_eval a b
    · exact .of_ok (fun x y => BitVec.ofNat 32 (stepBits (x).toNat (y).toNat)) fun a b => vrecpsq_f32_eval a b
    · exact .of_ok (fun x y => BitVec.ofNat 32 (Fmt.b32.div (x).toNat (y).toNat)) fun a b => vdivq_f32_eval a b
  have hp' : Permutes p := by
    simp only [List.mem_cons, List.not_mem_nil, or_false] at hp
    rcases hp with rfl
    · exact ⟨fun i => ⟨i.val / 2 * 2 + (1 - i.val % 2), by omega⟩, fun i => ⟨i.val / 2 * 2 + (1 - i.val % 2), by omega⟩, fun i => Fin.ext (by dsimp only; omega), fun a => vrev64q_f32_spec a⟩
  exact hf'.comm hp' a b

/-- Reversing the lanes of the operands and then applying a lane-wise operation on `float32x4_t` is the same as applying it first and reversing the result. -/
theorem rev_ternary_float32x4 [Dialect] :
    ∀ f ∈ [vmlaq_f32],
    ∀ p ∈ [vrev64q_f32],
    ∀ a b d : float32x4_t, (do f (← p a) (← p b) (← p d)) = (do p (← f a b d)) := by
  intro f hf p hp a b d
  have hf' : LaneWise3 f := by
    simp only [List.mem_cons, List.not_mem_nil, or_false] at hf
    rcases hf with rfl
    · exact .of_ok (fun x y z => BitVec.ofNat 32 (Fmt.b32.add (x).toNat (BitVec.ofNat 32 (Fmt.b32.mul (y).toNat (z).toNat)).toNat)) fun a b d => vmlaq_f32_eval a b d
  have hp' : Permutes p := by
    simp only [List.mem_cons, List.not_mem_nil, or_false] at hp
    rcases hp with rfl
    · exact ⟨fun i => ⟨i.val / 2 * 2 + (1 - i.val % 2), by omega⟩, fun i => ⟨i.val / 2 * 2 + (1 - i.val % 2), by omega⟩, fun i => Fin.ext (by dsimp only; omega), fun a => vrev64q_f32_spec a⟩
  exact hf'.comm hp' a b d

/-- Reversing the lanes of the operands and then applying a lane-wise operation on `int16x4_t` is the same as applying it first and reversing the result. -/
theorem rev_unary_int16x4 [Dialect] (c : int16_t) :
    ∀ f ∈ [(fun a => vmul_n_s16 a c), vmvn_s16],
    ∀ p ∈ [vrev32_s16, vrev64_s16],
    ∀ a : int16x4_t, (do f (← p a)) = (do p (← f a)) := by
  intro f hf p hp a
  have hf' : LaneWise1 f := by
    simp only [List.mem_cons, List.not_mem_nil, or_false] at hf
    rcases hf with rfl | rfl
    · exact .of_ok (fun x => x * c) fun a => vmul_n_s16_spec a c
    · exact .of_ok (fun x => ~~~ (x)) fun a => vmvn_s16_spec a
  have hp' : Permutes p := by
    simp only [List.mem_cons, List.not_mem_nil, or_false] at hp
    rcases hp with rfl | rfl
    · exact ⟨fun i => ⟨i.val / 2 * 2 + (1 - i.val % 2), by omega⟩, fun i => ⟨i.val / 2 * 2 + (1 - i.val % 2), by omega⟩, fun i => Fin.ext (by dsimp only; omega), fun a => vrev32_s16_spec a⟩
    · exact ⟨fun i => ⟨i.val / 4 * 4 + (3 - i.val % 4), by omega⟩, fun i => ⟨i.val / 4 * 4 + (3 - i.val % 4), by omega⟩, fun i => Fin.ext (by dsimp only; omega), fun a => vrev64_s16_spec a⟩
  exact hf'.comm hp' a

/-- Reversing the lanes of the operands and then applying a lane-wise operation on `int16x4_t` is the same as applying it first and reversing the result. -/
theorem rev_binary_int16x4 [Dialect] :
    ∀ f ∈ [vadd_s16, vsub_s16, vhsub_s16, vqsub_s16, vmul_s16, vand_s16, vorr_s16, veor_s16],
    ∀ p ∈ [vrev32_s16, vrev64_s16],
    ∀ a b : int16x4_t, (do f (← p a) (← p b)) = (do p (← f a b)) := by
  intro f hf p hp a b
  have hf' : LaneWise f := by
    simp only [List.mem_cons, List.not_mem_nil, or_false] at hf
    rcases hf with rfl | rfl | rfl | rfl | rfl | rfl | rfl | rfl
    · exact .of_ok (fun x y => x + y) fun a b => vadd_s16_spec a b
    · exact .of_ok (fun x y => x - y) fun a b => vsub_s16_spec a b
    · exact .of_ok (fun x y => BitVec.ofInt 16 (((x).toInt - (y).toInt) / 2)) fun a b => vhsub_s16_spec a b
    · exact .of_ok (fun x y => ssat 16 ((x).toInt - (y).toInt)) fun a b => vqsub_s16_spec a b
    · exact .of_ok (fun x y => x * y) fun a b => vmul_s16_spec a b
    · exact .of_ok (fun x y => x &&& y) fun a b => vand_s16_spec a b
    · exact .of_ok (fun x y => x ||| y) fun a b => vorr_s16_spec a b
    · exact .of_ok (fun x y => x ^^^ y) fun a b => veor_s16_spec a b
  have hp' : Permutes p := by
    simp only [List.mem_cons, List.not_mem_nil, or_false] at hp
    rcases hp with rfl | rfl
    · exact ⟨fun i => ⟨i.val / 2 * 2 + (1 - i.val % 2), by omega⟩, fun i => ⟨i.val / 2 * 2 + (1 - i.val % 2), by omega⟩, fun i => Fin.ext (by dsimp only; omega), fun a => vrev32_s16_spec a⟩
    · exact ⟨fun i => ⟨i.val / 4 * 4 + (3 - i.val % 4), by omega⟩, fun i => ⟨i.val / 4 * 4 + (3 - i.val % 4), by omega⟩, fun i => Fin.ext (by dsimp only; omega), fun a => vrev64_s16_spec a⟩
  exact hf'.comm hp' a b

/-- Transposing, zipping or unzipping two pairs of operands and then applying a lane-wise operation on `int16x4_t` is the same as applying it first and permuting the results. -/
theorem pair_binary_int16x4 [Dialect] :
    ∀ f ∈ [vadd_s16, vsub_s16, vhsub_s16, vqsub_s16, vmul_s16, vand_s16, vorr_s16, veor_s16],
    ∀ p ∈ [vtrn_s16, vzip_s16],
    ∀ a b c d : int16x4_t,
      (do let x ← p a b; let y ← p c d; let r ← f x[0] y[0]; let s ← f x[1] y[1]; pure (r, s)) =
        (do let u ← f a c; let v ← f b d; let z ← p u v; pure (z[0], z[1])) := by
  intro f hf p hp a b c d
  have hf' : LaneWise f := by
    simp only [List.mem_cons, List.not_mem_nil, or_false] at hf
    rcases hf with rfl | rfl | rfl | rfl | rfl | rfl | rfl | rfl
    · exact .of_ok (fun x y => x + y) fun a b => vadd_s16_spec a b
    · exact .of_ok (fun x y => x - y) fun a b => vsub_s16_spec a b
    · exact .of_ok (fun x y => BitVec.ofInt 16 (((x).toInt - (y).toInt) / 2)) fun a b => vhsub_s16_spec a b
    · exact .of_ok (fun x y => ssat 16 ((x).toInt - (y).toInt)) fun a b => vqsub_s16_spec a b
    · exact .of_ok (fun x y => x * y) fun a b => vmul_s16_spec a b
    · exact .of_ok (fun x y => x &&& y) fun a b => vand_s16_spec a b
    · exact .of_ok (fun x y => x ||| y) fun a b => vorr_s16_spec a b
    · exact .of_ok (fun x y => x ^^^ y) fun a b => veor_s16_spec a b
  have hp' : Permutes2 p := by
    simp only [List.mem_cons, List.not_mem_nil, or_false] at hp
    rcases hp with rfl | rfl
    · exact by
        refine ⟨fun x => if h : x.2.val % 2 = 0 then (0, ⟨x.2.val + x.1.val, by omega⟩) else (1, ⟨x.2.val - 1 + x.1.val, by omega⟩), fun x => if h : x.2.val % 2 = 0 then (0, ⟨x.2.val + x.1.val, by omega⟩) else (1, ⟨x.2.val - 1 + x.1.val, by omega⟩), by rintro ⟨j, i⟩; revert j i; decide, fun a b => ?_⟩
        rw [vtrn_s16_spec]
        refine congrArg C.ok (VecArr.ext (funext fun j => Vec.ext (funext fun i => ?_)))
        by_cases h : i.val % 2 = 0
        · simp only [dif_pos h]; rfl
        · simp only [dif_neg h]; rfl
    · exact by
        refine ⟨fun x => if h : x.2.val % 2 = 0 then (0, ⟨2 * x.1.val + x.2.val / 2, by omega⟩) else (1, ⟨2 * x.1.val + x.2.val / 2, by omega⟩), fun x => (⟨x.2.val / 2, by omega⟩, ⟨2 * (x.2.val % 2) + x.1.val, by omega⟩), by rintro ⟨j, i⟩; revert j i; decide, fun a b => ?_⟩
        rw [vzip_s16_spec]
        refine congrArg C.ok (VecArr.ext (funext fun j => Vec.ext (funext fun i => ?_)))
        by_cases h : i.val % 2 = 0
        · simp only [dif_pos h]; rfl
        · simp only [dif_neg h]; rfl
  exact hf'.comm2 hp' a b c d

/-- Reversing the lanes of the operands and then applying a lane-wise operation on `int16x8_t` is the same as applying it first and reversing the result. -/
theorem rev_unary_int16x8 [Dialect] (c : int16_t) :
    ∀ f ∈ [(fun a => vmulq_n_s16 a c), vmvnq_s16],
    ∀ p ∈ [vrev32q_s16],
    ∀ a : int16x8_t, (do f (← p a)) = (do p (← f a)) := by
  intro f hf p hp a
  have hf' : LaneWise1 f := by
    simp only [List.mem_cons, List.not_mem_nil, or_false] at hf
    rcases hf with rfl | rfl
    · exact .of_ok (fun x => x * c) fun a => vmulq_n_s16_spec a c
    · exact .of_ok (fun x => ~~~ (x)) fun a => vmvnq_s16_spec a
  have hp' : Permutes p := by
    simp only [List.mem_cons, List.not_mem_nil, or_false] at hp
    rcases hp with rfl
    · exact ⟨fun i => ⟨i.val / 2 * 2 + (1 - i.val % 2), by omega⟩, fun i => ⟨i.val / 2 * 2 + (1 - i.val % 2), by omega⟩, fun i => Fin.ext (by dsimp only; omega), fun a => vrev32q_s16_spec a⟩
  exact hf'.comm hp' a

/-- Reversing the lanes of the operands and then applying a lane-wise operation on `int16x8_t` is the same as applying it first and reversing the result. -/
theorem rev_binary_int16x8 [Dialect] :
    ∀ f ∈ [vmaxq_s16, vmaxq_u16, vaddq_s16, vsubq_s16, vhsubq_s16, vqsubq_s16, vmulq_s16, vminq_s16, 
      vminq_u16, vandq_s16, vorrq_s16, veorq_s16],
    ∀ p ∈ [vrev32q_s16],
    ∀ a b : int16x8_t, (do f (← p a) (← p b)) = (do p (← f a b)) := by
  intro f hf p hp a b
  have hf' : LaneWise f := by
    simp only [List.mem_cons, List.not_mem_nil, or_false] at hf
    rcases hf with rfl | rfl | rfl | rfl | rfl | rfl | rfl | rfl | rfl | rfl | rfl | rfl
    · exact .of_ok (fun x y => BitVec.ofInt 16 (max (x).toInt (y).toInt)) fun a b => vmaxq_s16_spec a b
    · exact .of_ok (fun x y => BitVec.ofInt 16 (max (x).toInt (y).toInt)) fun a b => vmaxq_u16_partial a b
    · exact .of_ok (fun x y => x + y) fun a b => vaddq_s16_spec a b
    · exact .of_ok (fun x y => x - y) fun a b => vsubq_s16_spec a b
    · exact .of_ok (fun x y => BitVec.ofInt 16 (((x).toInt - (y).toInt) / 2)) fun a b => vhsubq_s16_spec a b
    · exact .of_ok (fun x y => ssat 16 ((x).toInt - (y).toInt)) fun a b => vqsubq_s16_spec a b
    · exact .of_ok (fun x y => x * y) fun a b => vmulq_s16_spec a b
    · exact .of_ok (fun x y => BitVec.ofInt 16 (min (x).toInt (y).toInt)) fun a b => vminq_s16_spec a b
    · exact .of_ok (fun x y => BitVec.ofInt 16 (min (x).toInt (y).toInt)) fun a b => vminq_u16_partial a b
    · exact .of_ok (fun x y => x &&& y) fun a b => vandq_s16_spec a b
    · exact .of_ok (fun x y => x ||| y) fun a b => vorrq_s16_spec a b
    · exact .of_ok (fun x y => x ^^^ y) fun a b => veorq_s16_spec a b
  have hp' : Permutes p := by
    simp only [List.mem_cons, List.not_mem_nil, or_false] at hp
    rcases hp with rfl
    · exact ⟨fun i => ⟨i.val / 2 * 2 + (1 - i.val % 2), by omega⟩, fun i => ⟨i.val / 2 * 2 + (1 - i.val % 2), by omega⟩, fun i => Fin.ext (by dsimp only; omega), fun a => vrev32q_s16_spec a⟩
  exact hf'.comm hp' a b

/-- Transposing, zipping or unzipping two pairs of operands and then applying a lane-wise operation on `int16x8_t` is the same as applying it first and permuting the results. -/
theorem pair_binary_int16x8 [Dialect] :
    ∀ f ∈ [vmaxq_s16, vmaxq_u16, vaddq_s16, vsubq_s16, vhsubq_s16, vqsubq_s16, vmulq_s16, vminq_s16, 
      vminq_u16, vandq_s16, vorrq_s16, veorq_s16],
    ∀ p ∈ [vtrnq_s16],
    ∀ a b c d : int16x8_t,
      (do let x ← p a b; let y ← p c d; let r ← f x[0] y[0]; let s ← f x[1] y[1]; pure (r, s)) =
        (do let u ← f a c; let v ← f b d; let z ← p u v; pure (z[0], z[1])) := by
  intro f hf p hp a b c d
  have hf' : LaneWise f := by
    simp only [List.mem_cons, List.not_mem_nil, or_false] at hf
    rcases hf with rfl | rfl | rfl | rfl | rfl | rfl | rfl | rfl | rfl | rfl | rfl | rfl
    · exact .of_ok (fun x y => BitVec.ofInt 16 (max (x).toInt (y).toInt)) fun a b => vmaxq_s16_spec a b
    · exact .of_ok (fun x y => BitVec.ofInt 16 (max (x).toInt (y).toInt)) fun a b => vmaxq_u16_partial a b
    · exact .of_ok (fun x y => x + y) fun a b => vaddq_s16_spec a b
    · exact .of_ok (fun x y => x - y) fun a b => vsubq_s16_spec a b
    · exact .of_ok (fun x y => BitVec.ofInt 16 (((x).toInt - (y).toInt) / 2)) fun a b => vhsubq_s16_spec a b
    · exact .of_ok (fun x y => ssat 16 ((x).toInt - (y).toInt)) fun a b => vqsubq_s16_spec a b
    · exact .of_ok (fun x y => x * y) fun a b => vmulq_s16_spec a b
    · exact .of_ok (fun x y => BitVec.ofInt 16 (min (x).toInt (y).toInt)) fun a b => vminq_s16_spec a b
    · exact .of_ok (fun x y => BitVec.ofInt 16 (min (x).toInt (y).toInt)) fun a b => vminq_u16_partial a b
    · exact .of_ok (fun x y => x &&& y) fun a b => vandq_s16_spec a b
    · exact .of_ok (fun x y => x ||| y) fun a b => vorrq_s16_spec a b
    · exact .of_ok (fun x y => x ^^^ y) fun a b => veorq_s16_spec a b
  have hp' : Permutes2 p := by
    simp only [List.mem_cons, List.not_mem_nil, or_false] at hp
    rcases hp with rfl
    · exact by
        refine ⟨fun x => if h : x.2.val % 2 = 0 then (0, ⟨x.2.val + x.1.val, by omega⟩) else (1, ⟨x.2.val - 1 + x.1.val, by omega⟩), fun x => if h : x.2.val % 2 = 0 then (0, ⟨x.2.val + x.1.val, by omega⟩) else (1, ⟨x.2.val - 1 + x.1.val, by omega⟩), by rintro ⟨j, i⟩; revert j i; decide, fun a b => ?_⟩
        rw [vtrnq_s16_spec]
        refine congrArg C.ok (VecArr.ext (funext fun j => Vec.ext (funext fun i => ?_)))
        by_cases h : i.val % 2 = 0
        · simp only [dif_pos h]; rfl
        · simp only [dif_neg h]; rfl
  exact hf'.comm2 hp' a b c d

/-- Reversing the lanes of the operands and then applying a lane-wise operation on `int16x8_t` is the same as applying it first and reversing the result. -/
theorem rev_ternary_int16x8 [Dialect] :
    ∀ f ∈ [vmlaq_s16],
    ∀ p ∈ [vrev32q_s16],
    ∀ a b d : int16x8_t, (do f (← p a) (← p b) (← p d)) = (do p (← f a b d)) := by
  intro f hf p hp a b d
  have hf' : LaneWise3 f := by
    simp only [List.mem_cons, List.not_mem_nil, or_false] at hf
    rcases hf with rfl
    · exact .of_ok (fun x y z => x + y * z) fun a b d => vmlaq_s16_spec a b d
  have hp' : Permutes p := by
    simp only [List.mem_cons, List.not_mem_nil, or_false] at hp
    rcases hp with rfl
    · exact ⟨fun i => ⟨i.val / 2 * 2 + (1 - i.val % 2), by omega⟩, fun i => ⟨i.val / 2 * 2 + (1 - i.val % 2), by omega⟩, fun i => Fin.ext (by dsimp only; omega), fun a => vrev32q_s16_spec a⟩
  exact hf'.comm hp' a b d

/-- Reversing the lanes of the operands and then applying a lane-wise operation on `int32x2_t` is the same as applying it first and reversing the result. -/
theorem rev_unary_int32x2 [Dialect] (c : int32_t) :
    ∀ f ∈ [(fun a => vmul_n_s32 a c), vmvn_s32],
    ∀ p ∈ [vrev64_s32],
    ∀ a : int32x2_t, (do f (← p a)) = (do p (← f a)) := by
  intro f hf p hp a
  have hf' : LaneWise1 f := by
    simp only [List.mem_cons, List.not_mem_nil, or_false] at hf
    rcases hf with rfl | rfl
    · exact ⟨fun x => NoOverflow 32 ((x).toInt * c.toInt), fun _ => inferInstance, fun x => x * c, fun a => vmul_n_s32_partial a c⟩
    · exact .of_ok (fun x => ~~~ (x)) fun a => vmvn_s32_spec a
  have hp' : Permutes p := by
    simp only [List.mem_cons, List.not_mem_nil, or_false] at hp
    rcases hp with rfl
    · exact ⟨fun i => ⟨i.val / 2 * 2 + (1 - i.val % 2), by omega⟩, fun i => ⟨i.val / 2 * 2 + (1 - i.val % 2), by omega⟩, fun i => Fin.ext (by dsimp only; omega), fun a => vrev64_s32_spec a⟩
  exact hf'.comm hp' a

/-- Reversing the lanes of the operands and then applying a lane-wise operation on `int32x2_t` is the same as applying it first and reversing the result. -/
theorem rev_binary_int32x2 [Dialect] :
    ∀ f ∈ [vadd_s32, vsub_s32, vhsub_s32, vqsub_s32, vmul_s32, vand_s32, vorr_s32, veor_s32],
    ∀ p ∈ [vrev64_s32],
    ∀ a b : int32x2_t, (do f (← p a) (← p b)) = (do p (← f a b)) := by
  intro f hf p hp a b
  have hf' : LaneWise f := by
    simp only [List.mem_cons, List.not_mem_nil, or_false] at hf
    rcases hf with rfl | rfl | rfl | rfl | rfl | rfl | rfl | rfl
    · exact ⟨fun x y => NoOverflow 32 ((x).toInt + (y).toInt), fun _ _ => inferInstance, fun x y => x + y, fun a b => vadd_s32_partial a b⟩
    · exact ⟨fun x y => NoOverflow 32 ((x).toInt - (y).toInt), fun _ _ => inferInstance, fun x y => x - y, fun a b => vsub_s32_partial a b⟩
    · exact ⟨fun x y => NoOverflow 32 ((x).toInt - (y).toInt), fun _ _ => inferInstance, fun x y => (x - y).sshiftRight 1, fun a b => vhsub_s32_partial a b⟩
    · exact .of_ok (fun x y => ssat 32 ((x).toInt - (y).toInt)) fun a b => vqsub_s32_spec a b
    · exact ⟨fun x y => NoOverflow 32 ((x).toInt * (y).toInt), fun _ _ => inferInstance, fun x y => x * y, fun a b => vmul_s32_partial a b⟩
    · exact .of_ok (fun x y => x &&& y) fun a b => vand_s32_spec a b
    · exact .of_ok (fun x y => x ||| y) fun a b => vorr_s32_spec a b
    · exact .of_ok (fun x y => x ^^^ y) fun a b => veor_s32_spec a b
  have hp' : Permutes p := by
    simp only [List.mem_cons, List.not_mem_nil, or_false] at hp
    rcases hp with rfl
    · exact ⟨fun i => ⟨i.val / 2 * 2 + (1 - i.val % 2), by omega⟩, fun i => ⟨i.val / 2 * 2 + (1 - i.val % 2), by omega⟩, fun i => Fin.ext (by dsimp only; omega), fun a => vrev64_s32_spec a⟩
  exact hf'.comm hp' a b

/-- Transposing, zipping or unzipping two pairs of operands and then applying a lane-wise operation on `int32x2_t` is the same as applying it first and permuting the results. -/
theorem pair_binary_int32x2 [Dialect] :
    ∀ f ∈ [vadd_s32, vsub_s32, vhsub_s32, vqsub_s32, vmul_s32, vand_s32, vorr_s32, veor_s32],
    ∀ p ∈ [vtrn_s32],
    ∀ a b c d : int32x2_t,
      (do let x ← p a b; let y ← p c d; let r ← f x[0] y[0]; let s ← f x[1] y[1]; pure (r, s)) =
        (do let u ← f a c; let v ← f b d; let z ← p u v; pure (z[0], z[1])) := by
  intro f hf p hp a b c d
  have hf' : LaneWise f := by
    simp only [List.mem_cons, List.not_mem_nil, or_false] at hf
    rcases hf with rfl | rfl | rfl | rfl | rfl | rfl | rfl | rfl
    · exact ⟨fun x y => NoOverflow 32 ((x).toInt + (y).toInt), fun _ _ => inferInstance, fun x y => x + y, fun a b => vadd_s32_partial a b⟩
    · exact ⟨fun x y => NoOverflow 32 ((x).toInt - (y).toInt), fun _ _ => inferInstance, fun x y => x - y, fun a b => vsub_s32_partial a b⟩
    · exact ⟨fun x y => NoOverflow 32 ((x).toInt - (y).toInt), fun _ _ => inferInstance, fun x y => (x - y).sshiftRight 1, fun a b => vhsub_s32_partial a b⟩
    · exact .of_ok (fun x y => ssat 32 ((x).toInt - (y).toInt)) fun a b => vqsub_s32_spec a b
    · exact ⟨fun x y => NoOverflow 32 ((x).toInt * (y).toInt), fun _ _ => inferInstance, fun x y => x * y, fun a b => vmul_s32_partial a b⟩
    · exact .of_ok (fun x y => x &&& y) fun a b => vand_s32_spec a b
    · exact .of_ok (fun x y => x ||| y) fun a b => vorr_s32_spec a b
    · exact .of_ok (fun x y => x ^^^ y) fun a b => veor_s32_spec a b
  have hp' : Permutes2 p := by
    simp only [List.mem_cons, List.not_mem_nil, or_false] at hp
    rcases hp with rfl
    · exact by
        refine ⟨fun x => if h : x.2.val % 2 = 0 then (0, ⟨x.2.val + x.1.val, by omega⟩) else (1, ⟨x.2.val - 1 + x.1.val, by omega⟩), fun x => if h : x.2.val % 2 = 0 then (0, ⟨x.2.val + x.1.val, by omega⟩) else (1, ⟨x.2.val - 1 + x.1.val, by omega⟩), by rintro ⟨j, i⟩; revert j i; decide, fun a b => ?_⟩
        rw [vtrn_s32_spec]
        refine congrArg C.ok (VecArr.ext (funext fun j => Vec.ext (funext fun i => ?_)))
        by_cases h : i.val % 2 = 0
        · simp only [dif_pos h]; rfl
        · simp only [dif_neg h]; rfl
  exact hf'.comm2 hp' a b c d

/-- Reversing the lanes of the operands and then applying a lane-wise operation on `int32x4_t` is the same as applying it first and reversing the result. -/
theorem rev_unary_int32x4 [Dialect] (c : int32_t) :
    ∀ f ∈ [(fun a => vmulq_n_s32 a c), vmvnq_s32],
    ∀ p ∈ [vrev64q_s32],
    ∀ a : int32x4_t, (do f (← p a)) = (do p (← f a)) := by
  intro f hf p hp a
  have hf' : LaneWise1 f := by
    simp only [List.mem_cons, List.not_mem_nil, or_false] at hf
    rcases hf with rfl | rfl
    · exact ⟨fun x => NoOverflow 32 ((x).toInt * c.toInt), fun _ => inferInstance, fun x => x * c, fun a => vmulq_n_s32_partial a c⟩
    · exact .of_ok (fun x => ~~~ (x)) fun a => vmvnq_s32_spec a
  have hp' : Permutes p := by
    simp only [List.mem_cons, List.not_mem_nil, or_false] at hp
    rcases hp with rfl
    · exact ⟨fun i => ⟨i.val / 2 * 2 + (1 - i.val % 2), by omega⟩, fun i => ⟨i.val / 2 * 2 + (1 - i.val % 2), by omega⟩, fun i => Fin.ext (by dsimp only; omega), fun a => vrev64q_s32_spec a⟩
  exact hf'.comm hp' a

/-- Reversing the lanes of the operands and then applying a lane-wise operation on `int32x4_t` is the same as applying it first and reversing the result. -/
theorem rev_binary_int32x4 [Dialect] :
    ∀ f ∈ [vmaxq_s32, vmaxq_u32, vaddq_s32, vsubq_s32, vhsubq_s32, vqsubq_s32, vmulq_s32, vminq_s32, 
      vminq_u32, vandq_s32, vorrq_s32, veorq_s32],
    ∀ p ∈ [vrev64q_s32],
    ∀ a b : int32x4_t, (do f (← p a) (← p b)) = (do p (← f a b)) := by
  intro f hf p hp a b
  have hf' : LaneWise f := by
    simp only [List.mem_cons, List.not_mem_nil, or_false] at hf
    rcases hf with rfl | rfl | rfl | rfl | rfl | rfl | rfl | rfl | rfl | rfl | rfl | rfl
    · exact .of_ok (fun x y => BitVec.ofInt 32 (max (x).toInt (y).toInt)) fun a b => vmaxq_s32_spec a b
    · exact .of_ok (fun x y => BitVec.ofInt 32 (max (x).toInt (y).toInt)) fun a b => vmaxq_u32_partial a b
    · exact ⟨fun x y => NoOverflow 32 ((x).toInt + (y).toInt), fun _ _ => inferInstance, fun x y => x + y, fun a b => vaddq_s32_partial a b⟩
    · exact ⟨fun x y => NoOverflow 32 ((x).toInt - (y).toInt), fun _ _ => inferInstance, fun x y => x - y, fun a b => vsubq_s32_partial a b⟩
    · exact ⟨fun x y => NoOverflow 32 ((x).toInt - (y).toInt), fun _ _ => inferInstance, fun x y => (x - y).sshiftRight 1, fun a b => vhsubq_s32_partial a b⟩
    · exact .of_ok (fun x y => ssat 32 ((x).toInt - (y).toInt)) fun a b => vqsubq_s32_spec a b
    · exact ⟨fun x y => NoOverflow 32 ((x).toInt * (y).toInt), fun _ _ => inferInstance, fun x y => x * y, fun a b => vmulq_s32_partial a b⟩
    · exact .of_ok (fun x y => BitVec.ofInt 32 (min (x).toInt (y).toInt)) fun a b => vminq_s32_spec a b
    · exact .of_ok (fun x y => BitVec.ofInt 32 (min (x).toInt (y).toInt)) fun a b => vminq_u32_partial a b
    · exact .of_ok (fun x y => x &&& y) fun a b => vandq_s32_spec a b
    · exact .of_ok (fun x y => x ||| y) fun a b => vorrq_s32_spec a b
    · exact .of_ok (fun x y => x ^^^ y) fun a b => veorq_s32_spec a b
  have hp' : Permutes p := by
    simp only [List.mem_cons, List.not_mem_nil, or_false] at hp
    rcases hp with rfl
    · exact ⟨fun i => ⟨i.val / 2 * 2 + (1 - i.val % 2), by omega⟩, fun i => ⟨i.val / 2 * 2 + (1 - i.val % 2), by omega⟩, fun i => Fin.ext (by dsimp only; omega), fun a => vrev64q_s32_spec a⟩
  exact hf'.comm hp' a b

/-- Reversing the lanes of the operands and then applying a lane-wise operation on `int32x4_t` is the same as applying it first and reversing the result. -/
theorem rev_ternary_int32x4 [Dialect] :
    ∀ f ∈ [vmlaq_s32],
    ∀ p ∈ [vrev64q_s32],
    ∀ a b d : int32x4_t, (do f (← p a) (← p b) (← p d)) = (do p (← f a b d)) := by
  intro f hf p hp a b d
  have hf' : LaneWise3 f := by
    simp only [List.mem_cons, List.not_mem_nil, or_false] at hf
    rcases hf with rfl
    · exact ⟨fun x y z => NoOverflow 32 ((y).toInt * (z).toInt) ∧ NoOverflow 32 ((x).toInt + (y).toInt * (z).toInt), fun _ _ _ => inferInstance, fun x y z => x + y * z, fun a b d => vmlaq_s32_partial a b d⟩
  have hp' : Permutes p := by
    simp only [List.mem_cons, List.not_mem_nil, or_false] at hp
    rcases hp with rfl
    · exact ⟨fun i => ⟨i.val / 2 * 2 + (1 - i.val % 2), by omega⟩, fun i => ⟨i.val / 2 * 2 + (1 - i.val % 2), by omega⟩, fun i => Fin.ext (by dsimp only; omega), fun a => vrev64q_s32_spec a⟩
  exact hf'.comm hp' a b d

/-- Reversing the lanes of the operands and then applying a lane-wise operation on `int8x16_t` is the same as applying it first and reversing the result. -/
theorem rev_unary_int8x16 [Dialect] :
    ∀ f ∈ [vmvnq_s8],
    ∀ p ∈ [vrev16q_s8, vrev32q_s8],
    ∀ a : int8x16_t, (do f (← p a)) = (do p (← f a)) := by
  intro f hf p hp a
  have hf' : LaneWise1 f := by
    simp only [List.mem_cons, List.not_mem_nil, or_false] at hf
    rcases hf with rfl
    · exact .of_ok (fun x => ~~~ (x)) fun a => vmvnq_s8_spec a
  have hp' : Permutes p := by
    simp only [List.mem_cons, List.not_mem_nil, or_false] at hp
    rcases hp with rfl | rfl
    · exact ⟨fun i => ⟨i.val / 2 * 2 + (1 - i.val % 2), by omega⟩, fun i => ⟨i.val / 2 * 2 + (1 - i.val % 2), by omega⟩, fun i => Fin.ext (by dsimp only; omega), fun a => vrev16q_s8_spec a⟩
    · exact ⟨fun i => ⟨i.val / 4 * 4 + (3 - i.val % 4), by omega⟩, fun i => ⟨i.val / 4 * 4 + (3 - i.val % 4), by omega⟩, fun i => Fin.ext (by dsimp only; omega), fun a => vrev32q_s8_spec a⟩
  exact hf'.comm hp' a

/-- Reversing the lanes of the operands and then applying a lane-wise operation on `int8x16_t` is the same as applying it first and reversing the result. -/
theorem rev_binary_int8x16 [Dialect] :
    ∀ f ∈ [vmaxq_s8, vmaxq_u8, vaddq_s8, vsubq_s8, vhsubq_s8, vqsubq_s8, vmulq_s8, vminq_s8, vminq_u8, 
      vandq_s8, vorrq_s8, veorq_s8],
    ∀ p ∈ [vrev16q_s8, vrev32q_s8],
    ∀ a b : int8x16_t, (do f (← p a) (← p b)) = (do p (← f a b)) := by
  intro f hf p hp a b
  have hf' : LaneWise f := by
    simp only [List.mem_cons, List.not_mem_nil, or_false] at hf
    rcases hf with rfl | rfl | rfl | rfl | rfl | rfl | rfl | rfl | rfl | rfl | rfl | rfl
    · exact .of_ok (fun x y => BitVec.ofInt 8 (max (x).toInt (y).toInt)) fun a b => vmaxq_s8_spec a b
    · exact .of_ok (fun x y => BitVec.ofInt 8 (max (x).toInt (y).toInt)) fun a b => vmaxq_u8_partial a b
    · exact .of_ok (fun x y => x + y) fun a b => vaddq_s8_spec a b
    · exact .of_ok (fun x y => x - y) fun a b => vsubq_s8_spec a b
    · exact .of_ok (fun x y => BitVec.ofInt 8 (((x).toInt - (y).toInt) / 2)) fun a b => vhsubq_s8_spec a b
    · exact .of_ok (fun x y => ssat 8 ((x).toInt - (y).toInt)) fun a b => vqsubq_s8_spec a b
    · exact .of_ok (fun x y => x * y) fun a b => vmulq_s8_spec a b
    · exact .of_ok (fun x y => BitVec.ofInt 8 (min (x).toInt (y).toInt)) fun a b => vminq_s8_spec a b
    · exact .of_ok (fun x y => BitVec.ofInt 8 (min (x).toInt (y).toInt)) fun a b => vminq_u8_partial a b
    · exact .of_ok (fun x y => x &&& y) fun a b => vandq_s8_spec a b
    · exact .of_ok (fun x y => x ||| y) fun a b => vorrq_s8_spec a b
    · exact .of_ok (fun x y => x ^^^ y) fun a b => veorq_s8_spec a b
  have hp' : Permutes p := by
    simp only [List.mem_cons, List.not_mem_nil, or_false] at hp
    rcases hp with rfl | rfl
    · exact ⟨fun i => ⟨i.val / 2 * 2 + (1 - i.val % 2), by omega⟩, fun i => ⟨i.val / 2 * 2 + (1 - i.val % 2), by omega⟩, fun i => Fin.ext (by dsimp only; omega), fun a => vrev16q_s8_spec a⟩
    · exact ⟨fun i => ⟨i.val / 4 * 4 + (3 - i.val % 4), by omega⟩, fun i => ⟨i.val / 4 * 4 + (3 - i.val % 4), by omega⟩, fun i => Fin.ext (by dsimp only; omega), fun a => vrev32q_s8_spec a⟩
  exact hf'.comm hp' a b

/-- Reversing the lanes of the operands and then applying a lane-wise operation on `int8x16_t` is the same as applying it first and reversing the result. -/
theorem rev_ternary_int8x16 [Dialect] :
    ∀ f ∈ [vmlaq_s8],
    ∀ p ∈ [vrev16q_s8, vrev32q_s8],
    ∀ a b d : int8x16_t, (do f (← p a) (← p b) (← p d)) = (do p (← f a b d)) := by
  intro f hf p hp a b d
  have hf' : LaneWise3 f := by
    simp only [List.mem_cons, List.not_mem_nil, or_false] at hf
    rcases hf with rfl
    · exact .of_ok (fun x y z => x + y * z) fun a b d => vmlaq_s8_spec a b d
  have hp' : Permutes p := by
    simp only [List.mem_cons, List.not_mem_nil, or_false] at hp
    rcases hp with rfl | rfl
    · exact ⟨fun i => ⟨i.val / 2 * 2 + (1 - i.val % 2), by omega⟩, fun i => ⟨i.val / 2 * 2 + (1 - i.val % 2), by omega⟩, fun i => Fin.ext (by dsimp only; omega), fun a => vrev16q_s8_spec a⟩
    · exact ⟨fun i => ⟨i.val / 4 * 4 + (3 - i.val % 4), by omega⟩, fun i => ⟨i.val / 4 * 4 + (3 - i.val % 4), by omega⟩, fun i => Fin.ext (by dsimp only; omega), fun a => vrev32q_s8_spec a⟩
  exact hf'.comm hp' a b d

/-- Reversing the lanes of the operands and then applying a lane-wise operation on `int8x8_t` is the same as applying it first and reversing the result. -/
theorem rev_unary_int8x8 [Dialect] :
    ∀ f ∈ [vmvn_s8],
    ∀ p ∈ [vrev16_s8, vrev64_s8],
    ∀ a : int8x8_t, (do f (← p a)) = (do p (← f a)) := by
  intro f hf p hp a
  have hf' : LaneWise1 f := by
    simp only [List.mem_cons, List.not_mem_nil, or_false] at hf
    rcases hf with rfl
    · exact .of_ok (fun x => ~~~ (x)) fun a => vmvn_s8_spec a
  have hp' : Permutes p := by
    simp only [List.mem_cons, List.not_mem_nil, or_false] at hp
    rcases hp with rfl | rfl
    · exact ⟨fun i => ⟨i.val / 2 * 2 + (1 - i.val % 2), by omega⟩, fun i => ⟨i.val / 2 * 2 + (1 - i.val % 2), by omega⟩, fun i => Fin.ext (by dsimp only; omega), fun a => vrev16_s8_spec a⟩
    · exact ⟨fun i => ⟨i.val / 8 * 8 + (7 - i.val % 8), by omega⟩, fun i => ⟨i.val / 8 * 8 + (7 - i.val % 8), by omega⟩, fun i => Fin.ext (by dsimp only; omega), fun a => vrev64_s8_spec a⟩
  exact hf'.comm hp' a

/-- Reversing the lanes of the operands and then applying a lane-wise operation on `int8x8_t` is the same as applying it first and reversing the result. -/
theorem rev_binary_int8x8 [Dialect] :
    ∀ f ∈ [vadd_s8, vsub_s8, vhsub_s8, vqsub_s8, vmul_s8, vand_s8, vorr_s8, veor_s8],
    ∀ p ∈ [vrev16_s8, vrev64_s8],
    ∀ a b : int8x8_t, (do f (← p a) (← p b)) = (do p (← f a b)) := by
  intro f hf p hp a b
  have hf' : LaneWise f := by
    simp only [List.mem_cons, List.not_mem_nil, or_false] at hf
    rcases hf with rfl | rfl | rfl | rfl | rfl | rfl | rfl | rfl
    · exact .of_ok (fun x y => x + y) fun a b => vadd_s8_spec a b
    · exact .of_ok (fun x y => x - y) fun a b => vsub_s8_spec a b
    · exact .of_ok (fun x y => BitVec.ofInt 8 (((x).toInt - (y).toInt) / 2)) fun a b => vhsub_s8_spec a b
    · exact .of_ok (fun x y => ssat 8 ((x).toInt - (y).toInt)) fun a b => vqsub_s8_spec a b
    · exact .of_ok (fun x y => x * y) fun a b => vmul_s8_spec a b
    · exact .of_ok (fun x y => x &&& y) fun a b => vand_s8_spec a b
    · exact .of_ok (fun x y => x ||| y) fun a b => vorr_s8_spec a b
    · exact .of_ok (fun x y => x ^^^ y) fun a b => veor_s8_spec a b
  have hp' : Permutes p := by
    simp only [List.mem_cons, List.not_mem_nil, or_false] at hp
    rcases hp with rfl | rfl
    · exact ⟨fun i => ⟨i.val / 2 * 2 + (1 - i.val % 2), by omega⟩, fun i => ⟨i.val / 2 * 2 + (1 - i.val % 2), by omega⟩, fun i => Fin.ext (by dsimp only; omega), fun a => vrev16_s8_spec a⟩
    · exact ⟨fun i => ⟨i.val / 8 * 8 + (7 - i.val % 8), by omega⟩, fun i => ⟨i.val / 8 * 8 + (7 - i.val % 8), by omega⟩, fun i => Fin.ext (by dsimp only; omega), fun a => vrev64_s8_spec a⟩
  exact hf'.comm hp' a b

/-- Transposing, zipping or unzipping two pairs of operands and then applying a lane-wise operation on `int8x8_t` is the same as applying it first and permuting the results. -/
theorem pair_binary_int8x8 [Dialect] :
    ∀ f ∈ [vadd_s8, vsub_s8, vhsub_s8, vqsub_s8, vmul_s8, vand_s8, vorr_s8, veor_s8],
    ∀ p ∈ [vtrn_s8, vzip_s8, vuzp_s8],
    ∀ a b c d : int8x8_t,
      (do let x ← p a b; let y ← p c d; let r ← f x[0] y[0]; let s ← f x[1] y[1]; pure (r, s)) =
        (do let u ← f a c; let v ← f b d; let z ← p u v; pure (z[0], z[1])) := by
  intro f hf p hp a b c d
  have hf' : LaneWise f := by
    simp only [List.mem_cons, List.not_mem_nil, or_false] at hf
    rcases hf with rfl | rfl | rfl | rfl | rfl | rfl | rfl | rfl
    · exact .of_ok (fun x y => x + y) fun a b => vadd_s8_spec a b
    · exact .of_ok (fun x y => x - y) fun a b => vsub_s8_spec a b
    · exact .of_ok (fun x y => BitVec.ofInt 8 (((x).toInt - (y).toInt) / 2)) fun a b => vhsub_s8_spec a b
    · exact .of_ok (fun x y => ssat 8 ((x).toInt - (y).toInt)) fun a b => vqsub_s8_spec a b
    · exact .of_ok (fun x y => x * y) fun a b => vmul_s8_spec a b
    · exact .of_ok (fun x y => x &&& y) fun a b => vand_s8_spec a b
    · exact .of_ok (fun x y => x ||| y) fun a b => vorr_s8_spec a b
    · exact .of_ok (fun x y => x ^^^ y) fun a b => veor_s8_spec a b
  have hp' : Permutes2 p := by
    simp only [List.mem_cons, List.not_mem_nil, or_false] at hp
    rcases hp with rfl | rfl | rfl
    · exact by
        refine ⟨fun x => if h : x.2.val % 2 = 0 then (0, ⟨x.2.val + x.1.val, by omega⟩) else (1, ⟨x.2.val - 1 + x.1.val, by omega⟩), fun x => if h : x.2.val % 2 = 0 then (0, ⟨x.2.val + x.1.val, by omega⟩) else (1, ⟨x.2.val - 1 + x.1.val, by omega⟩), by rintro ⟨j, i⟩; revert j i; decide, fun a b => ?_⟩
        rw [vtrn_s8_spec]
        refine congrArg C.ok (VecArr.ext (funext fun j => Vec.ext (funext fun i => ?_)))
        by_cases h : i.val % 2 = 0
        · simp only [dif_pos h]; rfl
        · simp only [dif_neg h]; rfl
    · exact by
        refine ⟨fun x => if h : x.2.val % 2 = 0 then (0, ⟨4 * x.1.val + x.2.val / 2, by omega⟩) else (1, ⟨4 * x.1.val + x.2.val / 2, by omega⟩), fun x => (⟨x.2.val / 4, by omega⟩, ⟨2 * (x.2.val % 4) + x.1.val, by omega⟩), by rintro ⟨j, i⟩; revert j i; decide, fun a b => ?_⟩
        rw [vzip_s8_spec]
        refine congrArg C.ok (VecArr.ext (funext fun j => Vec.ext (funext fun i => ?_)))
        by_cases h : i.val % 2 = 0
        · simp only [dif_pos h]; rfl
        · simp only [dif_neg h]; rfl
    · exact by
        refine ⟨fun x => if h : 2 * x.2.val + x.1.val < 8 then (0, ⟨2 * x.2.val + x.1.val, by omega⟩) else (1, ⟨2 * x.2.val + x.1.val - 8, by omega⟩), fun x => (⟨(x.1.val * 8 + x.2.val) % 2, by omega⟩, ⟨(x.1.val * 8 + x.2.val) / 2, by omega⟩), by rintro ⟨j, i⟩; revert j i; decide, fun a b => ?_⟩
        rw [vuzp_s8_spec]
        refine congrArg C.ok (VecArr.ext (funext fun j => Vec.ext (funext fun i => ?_)))
        by_cases h : 2 * i.val + j.val < 8
        · simp only [dif_pos h]; rfl
        · simp only [dif_neg h]; rfl
  exact hf'.comm2 hp' a b c d

/-- Reversing the lanes of the operands and then applying a lane-wise operation on `uint16x4_t` is the same as applying it first and reversing the result. -/
theorem rev_unary_uint16x4 [Dialect] (c : uint16_t) :
    ∀ f ∈ [(fun a => vmul_n_u16 a c), vmvn_u16],
    ∀ p ∈ [vrev32_u16, vrev64_u16],
    ∀ a : uint16x4_t, (do f (← p a)) = (do p (← f a)) := by
  intro f hf p hp a
  have hf' : LaneWise1 f := by
    simp only [List.mem_cons, List.not_mem_nil, or_false] at hf
    rcases hf with rfl | rfl
    · exact ⟨fun x => NoOverflow 32 (((x).toNat : Int) * (c.toNat : Int)), fun _ => inferInstance, fun x => x * c, fun a => vmul_n_u16_partial a c⟩
    · exact .of_ok (fun x => ~~~ (x)) fun a => vmvn_u16_spec a
  have hp' : Permutes p := by
    simp only [List.mem_cons, List.not_mem_nil, or_false] at hp
    rcases hp with rfl | rfl
    · exact ⟨fun i => ⟨i.val / 2 * 2 + (1 - i.val % 2), by omega⟩, fun i => ⟨i.val / 2 * 2 + (1 - i.val % 2), by omega⟩, fun i => Fin.ext (by dsimp only; omega), fun a => vrev32_u16_spec a⟩
    · exact ⟨fun i => ⟨i.val / 4 * 4 + (3 - i.val % 4), by omega⟩, fun i => ⟨i.val / 4 * 4 + (3 - i.val % 4), by omega⟩, fun i => Fin.ext (by dsimp only; omega), fun a => vrev64_u16_spec a⟩
  exact hf'.comm hp' a

/-- Reversing the lanes of the operands and then applying a lane-wise operation on `uint16x4_t` is the same as applying it first and reversing the result. -/
theorem rev_binary_uint16x4 [Dialect] :
    ∀ f ∈ [vadd_u16, vsub_u16, vhsub_u16, vqsub_u16, vmul_u16, vand_u16, vorr_u16, veor_u16],
    ∀ p ∈ [vrev32_u16, vrev64_u16],
    ∀ a b : uint16x4_t, (do f (← p a) (← p b)) = (do p (← f a b)) := by
  intro f hf p hp a b
  have hf' : LaneWise f := by
    simp only [List.mem_cons, List.not_mem_nil, or_false] at hf
    rcases hf with rfl | rfl | rfl | rfl | rfl | rfl | rfl | rfl
    · exact .of_ok (fun x y => x + y) fun a b => vadd_u16_spec a b
    · exact .of_ok (fun x y => x - y) fun a b => vsub_u16_spec a b
    · exact .of_ok (fun x y => BitVec.ofInt 16 ((((x).toNat : Int) - ((y).toNat : Int)) / 2)) fun a b => vhsub_u16_spec a b
    · exact .of_ok (fun x y => usat 16 (((x).toNat : Int) - ((y).toNat : Int))) fun a b => vqsub_u16_spec a b
    · exact ⟨fun x y => NoOverflow 32 (((x).toNat : Int) * ((y).toNat : Int)), fun _ _ => inferInstance, fun x y => x * y, fun a b => vmul_u16_partial a b⟩
    · exact .of_ok (fun x y => x &&& y) fun a b => vand_u16_spec a b
    · exact .of_ok (fun x y => x ||| y) fun a b => vorr_u16_spec a b
    · exact .of_ok (fun x y => x ^^^ y) fun a b => veor_u16_spec a b
  have hp' : Permutes p := by
    simp only [List.mem_cons, List.not_mem_nil, or_false] at hp
    rcases hp with rfl | rfl
    · exact ⟨fun i => ⟨i.val / 2 * 2 + (1 - i.val % 2), by omega⟩, fun i => ⟨i.val / 2 * 2 + (1 - i.val % 2), by omega⟩, fun i => Fin.ext (by dsimp only; omega), fun a => vrev32_u16_spec a⟩
    · exact ⟨fun i => ⟨i.val / 4 * 4 + (3 - i.val % 4), by omega⟩, fun i => ⟨i.val / 4 * 4 + (3 - i.val % 4), by omega⟩, fun i => Fin.ext (by dsimp only; omega), fun a => vrev64_u16_spec a⟩
  exact hf'.comm hp' a b

/-- Transposing, zipping or unzipping two pairs of operands and then applying a lane-wise operation on `uint16x4_t` is the same as applying it first and permuting the results. -/
theorem pair_binary_uint16x4 [Dialect] :
    ∀ f ∈ [vadd_u16, vsub_u16, vhsub_u16, vqsub_u16, vmul_u16, vand_u16, vorr_u16, veor_u16],
    ∀ p ∈ [vtrn_u16],
    ∀ a b c d : uint16x4_t,
      (do let x ← p a b; let y ← p c d; let r ← f x[0] y[0]; let s ← f x[1] y[1]; pure (r, s)) =
        (do let u ← f a c; let v ← f b d; let z ← p u v; pure (z[0], z[1])) := by
  intro f hf p hp a b c d
  have hf' : LaneWise f := by
    simp only [List.mem_cons, List.not_mem_nil, or_false] at hf
    rcases hf with rfl | rfl | rfl | rfl | rfl | rfl | rfl | rfl
    · exact .of_ok (fun x y => x + y) fun a b => vadd_u16_spec a b
    · exact .of_ok (fun x y => x - y) fun a b => vsub_u16_spec a b
    · exact .of_ok (fun x y => BitVec.ofInt 16 ((((x).toNat : Int) - ((y).toNat : Int)) / 2)) fun a b => vhsub_u16_spec a b
    · exact .of_ok (fun x y => usat 16 (((x).toNat : Int) - ((y).toNat : Int))) fun a b => vqsub_u16_spec a b
    · exact ⟨fun x y => NoOverflow 32 (((x).toNat : Int) * ((y).toNat : Int)), fun _ _ => inferInstance, fun x y => x * y, fun a b => vmul_u16_partial a b⟩
    · exact .of_ok (fun x y => x &&& y) fun a b => vand_u16_spec a b
    · exact .of_ok (fun x y => x ||| y) fun a b => vorr_u16_spec a b
    · exact .of_ok (fun x y => x ^^^ y) fun a b => veor_u16_spec a b
  have hp' : Permutes2 p := by
    simp only [List.mem_cons, List.not_mem_nil, or_false] at hp
    rcases hp with rfl
    · exact by
        refine ⟨fun x => if h : x.2.val % 2 = 0 then (0, ⟨x.2.val + x.1.val, by omega⟩) else (1, ⟨x.2.val - 1 + x.1.val, by omega⟩), fun x => if h : x.2.val % 2 = 0 then (0, ⟨x.2.val + x.1.val, by omega⟩) else (1, ⟨x.2.val - 1 + x.1.val, by omega⟩), by rintro ⟨j, i⟩; revert j i; decide, fun a b => ?_⟩
        rw [vtrn_u16_spec]
        refine congrArg C.ok (VecArr.ext (funext fun j => Vec.ext (funext fun i => ?_)))
        by_cases h : i.val % 2 = 0
        · simp only [dif_pos h]; rfl
        · simp only [dif_neg h]; rfl
  exact hf'.comm2 hp' a b c d

/-- Reversing the lanes of the operands and then applying a lane-wise operation on `uint16x8_t` is the same as applying it first and reversing the result. -/
theorem rev_unary_uint16x8 [Dialect] (c : uint16_t) :
    ∀ f ∈ [(fun a => vmulq_n_u16 a c), vmvnq_u16],
    ∀ p ∈ [vrev32q_u16, vrev64q_u16],
    ∀ a : uint16x8_t, (do f (← p a)) = (do p (← f a)) := by
  intro f hf p hp a
  have hf' : LaneWise1 f := by
    simp only [List.mem_cons, List.not_mem_nil, or_false] at hf
    rcases hf with rfl | rfl
    · exact ⟨fun x => NoOverflow 32 (((x).toNat : Int) * (c.toNat : Int)), fun _ => inferInstance, fun x => x * c, fun a => vmulq_n_u16_partial a c⟩
    · exact .of_ok (fun x => ~~~ (x)) fun a => vmvnq_u16_spec a
  have hp' : Permutes p := by
    simp only [List.mem_cons, List.not_mem_nil, or_false] at hp
    rcases hp with rfl | rfl
    · exact ⟨fun i => ⟨i.val / 2 * 2 + (1 - i.val % 2), by omega⟩, fun i => ⟨i.val / 2 * 2 + (1 - i.val % 2), by omega⟩, fun i => Fin.ext (by dsimp only; omega), fun a => vrev32q_u16_spec a⟩
    · exact ⟨fun i => ⟨i.val / 4 * 4 + (3 - i.val % 4), by omega⟩, fun i => ⟨i.val / 4 * 4 + (3 - i.val % 4), by omega⟩, fun i => Fin.ext (by dsimp only; omega), fun a => vrev64q_u16_spec a⟩
  exact hf'.comm hp' a

/-- Reversing the lanes of the operands and then applying a lane-wise operation on `uint16x8_t` is the same as applying it first and reversing the result. -/
theorem rev_binary_uint16x8 [Dialect] :
    ∀ f ∈ [vaddq_u16, vsubq_u16, vhsubq_u16, vqsubq_u16, vmulq_u16, vandq_u16, vorrq_u16, veorq_u16],
    ∀ p ∈ [vrev32q_u16, vrev64q_u16],
    ∀ a b : uint16x8_t, (do f (← p a) (← p b)) = (do p (← f a b)) := by
  intro f hf p hp a b
  have hf' : LaneWise f := by
    simp only [List.mem_cons, List.not_mem_nil, or_false] at hf
    rcases hf with rfl | rfl | rfl | rfl | rfl | rfl | rfl | rfl
    · exact .of_ok (fun x y => x + y) fun a b => vaddq_u16_spec a b
    · exact .of_ok (fun x y => x - y) fun a b => vsubq_u16_spec a b
    · exact .of_ok (fun x y => BitVec.ofInt 16 ((((x).toNat : Int) - ((y).toNat : Int)) / 2)) fun a b => vhsubq_u16_spec a b
    · exact .of_ok (fun x y => usat 16 (((x).toNat : Int) - ((y).toNat : Int))) fun a b => vqsubq_u16_spec a b
    · exact ⟨fun x y => NoOverflow 32 (((x).toNat : Int) * ((y).toNat : Int)), fun _ _ => inferInstance, fun x y => x * y, fun a b => vmulq_u16_partial a b⟩
    · exact .of_ok (fun x y => x &&& y) fun a b => vandq_u16_spec a b
    · exact .of_ok (fun x y => x ||| y) fun a b => vorrq_u16_spec a b
    · exact .of_ok (fun x y => x ^^^ y) fun a b => veorq_u16_spec a b
  have hp' : Permutes p := by
    simp only [List.mem_cons, List.not_mem_nil, or_false] at hp
    rcases hp with rfl | rfl
    · exact ⟨fun i => ⟨i.val / 2 * 2 + (1 - i.val % 2), by omega⟩, fun i => ⟨i.val / 2 * 2 + (1 - i.val % 2), by omega⟩, fun i => Fin.ext (by dsimp only; omega), fun a => vrev32q_u16_spec a⟩
    · exact ⟨fun i => ⟨i.val / 4 * 4 + (3 - i.val % 4), by omega⟩, fun i => ⟨i.val / 4 * 4 + (3 - i.val % 4), by omega⟩, fun i => Fin.ext (by dsimp only; omega), fun a => vrev64q_u16_spec a⟩
  exact hf'.comm hp' a b

/-- Transposing, zipping or unzipping two pairs of operands and then applying a lane-wise operation on `uint16x8_t` is the same as applying it first and permuting the results. -/
theorem pair_binary_uint16x8 [Dialect] :
    ∀ f ∈ [vaddq_u16, vsubq_u16, vhsubq_u16, vqsubq_u16, vmulq_u16, vandq_u16, vorrq_u16, veorq_u16],
    ∀ p ∈ [vtrnq_u16],
    ∀ a b c d : uint16x8_t,
      (do let x ← p a b; let y ← p c d; let r ← f x[0] y[0]; let s ← f x[1] y[1]; pure (r, s)) =
        (do let u ← f a c; let v ← f b d; let z ← p u v; pure (z[0], z[1])) := by
  intro f hf p hp a b c d
  have hf' : LaneWise f := by
    simp only [List.mem_cons, List.not_mem_nil, or_false] at hf
    rcases hf with rfl | rfl | rfl | rfl | rfl | rfl | rfl | rfl
    · exact .of_ok (fun x y => x + y) fun a b => vaddq_u16_spec a b
    · exact .of_ok (fun x y => x - y) fun a b => vsubq_u16_spec a b
    · exact .of_ok (fun x y => BitVec.ofInt 16 ((((x).toNat : Int) - ((y).toNat : Int)) / 2)) fun a b => vhsubq_u16_spec a b
    · exact .of_ok (fun x y => usat 16 (((x).toNat : Int) - ((y).toNat : Int))) fun a b => vqsubq_u16_spec a b
    · exact ⟨fun x y => NoOverflow 32 (((x).toNat : Int) * ((y).toNat : Int)), fun _ _ => inferInstance, fun x y => x * y, fun a b => vmulq_u16_partial a b⟩
    · exact .of_ok (fun x y => x &&& y) fun a b => vandq_u16_spec a b
    · exact .of_ok (fun x y => x ||| y) fun a b => vorrq_u16_spec a b
    · exact .of_ok (fun x y => x ^^^ y) fun a b => veorq_u16_spec a b
  have hp' : Permutes2 p := by
    simp only [List.mem_cons, List.not_mem_nil, or_false] at hp
    rcases hp with rfl
    · exact by
        refine ⟨fun x => if h : x.2.val % 2 = 0 then (0, ⟨x.2.val + x.1.val, by omega⟩) else (1, ⟨x.2.val - 1 + x.1.val, by omega⟩), fun x => if h : x.2.val % 2 = 0 then (0, ⟨x.2.val + x.1.val, by omega⟩) else (1, ⟨x.2.val - 1 + x.1.val, by omega⟩), by rintro ⟨j, i⟩; revert j i; decide, fun a b => ?_⟩
        rw [vtrnq_u16_spec]
        refine congrArg C.ok (VecArr.ext (funext fun j => Vec.ext (funext fun i => ?_)))
        by_cases h : i.val % 2 = 0
        · simp only [dif_pos h]; rfl
        · simp only [dif_neg h]; rfl
  exact hf'.comm2 hp' a b c d

/-- Reversing the lanes of the operands and then applying a lane-wise operation on `uint16x8_t` is the same as applying it first and reversing the result. -/
theorem rev_ternary_uint16x8 [Dialect] :
    ∀ f ∈ [vmlaq_u16],
    ∀ p ∈ [vrev32q_u16, vrev64q_u16],
    ∀ a b d : uint16x8_t, (do f (← p a) (← p b) (← p d)) = (do p (← f a b d)) := by
  intro f hf p hp a b d
  have hf' : LaneWise3 f := by
    simp only [List.mem_cons, List.not_mem_nil, or_false] at hf
    rcases hf with rfl
    · exact ⟨fun x y z => NoOverflow 32 (((y).toNat : Int) * ((z).toNat : Int)) ∧ NoOverflow 32 (((x).toNat : Int) + ((y).toNat : Int) * ((z).toNat : Int)), fun _ _ _ => inferInstance, fun x y z => x + y * z, fun a b d => vmlaq_u16_partial a b d⟩
  have hp' : Permutes p := by
    simp only [List.mem_cons, List.not_mem_nil, or_false] at hp
    rcases hp with rfl | rfl
    · exact ⟨fun i => ⟨i.val / 2 * 2 + (1 - i.val % 2), by omega⟩, fun i => ⟨i.val / 2 * 2 + (1 - i.val % 2), by omega⟩, fun i => Fin.ext (by dsimp only; omega), fun a => vrev32q_u16_spec a⟩
    · exact ⟨fun i => ⟨i.val / 4 * 4 + (3 - i.val % 4), by omega⟩, fun i => ⟨i.val / 4 * 4 + (3 - i.val % 4), by omega⟩, fun i => Fin.ext (by dsimp only; omega), fun a => vrev64q_u16_spec a⟩
  exact hf'.comm hp' a b d

/-- Reversing the lanes of the operands and then applying a lane-wise operation on `uint32x2_t` is the same as applying it first and reversing the result. -/
theorem rev_unary_uint32x2 [Dialect] (c : uint32_t) :
    ∀ f ∈ [(fun a => vmul_n_u32 a c), vmvn_u32],
    ∀ p ∈ [vrev64_u32],
    ∀ a : uint32x2_t, (do f (← p a)) = (do p (← f a)) := by
  intro f hf p hp a
  have hf' : LaneWise1 f := by
    simp only [List.mem_cons, List.not_mem_nil, or_false] at hf
    rcases hf with rfl | rfl
    · exact .of_ok (fun x => x * c) fun a => vmul_n_u32_spec a c
    · exact .of_ok (fun x => ~~~ (x)) fun a => vmvn_u32_spec a
  have hp' : Permutes p := by
    simp only [List.mem_cons, List.not_mem_nil, or_false] at hp
    rcases hp with rfl
    · exact ⟨fun i => ⟨i.val / 2 * 2 + (1 - i.val % 2), by omega⟩, fun i => ⟨i.val / 2 * 2 + (1 - i.val % 2), by omega⟩, fun i => Fin.ext (by dsimp only; omega), fun a => vrev64_u32_spec a⟩
  exact hf'.comm hp' a

/-- Reversing the lanes of the operands and then applying a lane-wise operation on `uint32x2_t` is the same as applying it first and reversing the result. -/
theorem rev_binary_uint32x2 [Dialect] :
    ∀ f ∈ [vadd_u32, vsub_u32, vhsub_u32, vqsub_u32, vmul_u32, vand_u32, vorr_u32, ver_u32],
    ∀ p ∈ [vrev64_u32],
    ∀ a b : uint32x2_t, (do f (← p a) (← p b)) = (do p (← f a b)) := by
  intro f hf p hp a b
  have hf' : LaneWise f := by
    simp only [List.mem_cons, List.not_mem_nil, or_false] at hf
    rcases hf with rfl | rfl | rfl | rfl | rfl | rfl | rfl | rfl
    · exact .of_ok (fun x y => x + y) fun a b => vadd_u32_spec a b
    · exact .of_ok (fun x y => x - y) fun a b => vsub_u32_spec a b
    · exact .of_ok (fun x y => (x - y) >>> 1) fun a b => vhsub_u32_partial a b
    · exact .of_ok (fun x y => usat 32 (((x).toNat : Int) - ((y).toNat : Int))) fun a b => vqsub_u32_spec a b
    · exact .of_ok (fun x y => x * y) fun a b => vmul_u32_spec a b
    · exact .of_ok (fun x y => x &&& y) fun a b => vand_u32_spec a b
    · exact .of_ok (fun x y => x ||| y) fun a b => vorr_u32_spec a b
    · exact .of_ok (fun x y => x ^^^ y) fun a b => ver_u32_spec a b
  have hp' : Permutes p := by
    simp only [List.mem_cons, List.not_mem_nil, or_false] at hp
    rcases hp with rfl
    · exact ⟨fun i => ⟨i.val / 2 * 2 + (1 - i.val % 2), by omega⟩, fun i => ⟨i.val / 2 * 2 + (1 - i.val % 2), by omega⟩, fun i => Fin.ext (by dsimp only; omega), fun a => vrev64_u32_spec a⟩
  exact hf'.comm hp' a b

/-- Transposing, zipping or unzipping two pairs of operands and then applying a lane-wise operation on `uint32x2_t` is the same as applying it first and permuting the results. -/
theorem pair_binary_uint32x2 [Dialect] :
    ∀ f ∈ [vadd_u32, vsub_u32, vhsub_u32, vqsub_u32, vmul_u32, vand_u32, vorr_u32, ver_u32],
    ∀ p ∈ [vtrn_u32],
    ∀ a b c d : uint32x2_t,
      (do let x ← p a b; let y ← p c d; let r ← f x[0] y[0]; let s ← f x[1] y[1]; pure (r, s)) =
        (do let u ← f a c; let v ← f b d; let z ← p u v; pure (z[0], z[1])) := by
  intro f hf p hp a b c d
  have hf' : LaneWise f := by
    simp only [List.mem_cons, List.not_mem_nil, or_false] at hf
    rcases hf with rfl | rfl | rfl | rfl | rfl | rfl | rfl | rfl
    · exact .of_ok (fun x y => x + y) fun a b => vadd_u32_spec a b
    · exact .of_ok (fun x y => x - y) fun a b => vsub_u32_spec a b
    · exact .of_ok (fun x y => (x - y) >>> 1) fun a b => vhsub_u32_partial a b
    · exact .of_ok (fun x y => usat 32 (((x).toNat : Int) - ((y).toNat : Int))) fun a b => vqsub_u32_spec a b
    · exact .of_ok (fun x y => x * y) fun a b => vmul_u32_spec a b
    · exact .of_ok (fun x y => x &&& y) fun a b => vand_u32_spec a b
    · exact .of_ok (fun x y => x ||| y) fun a b => vorr_u32_spec a b
    · exact .of_ok (fun x y => x ^^^ y) fun a b => ver_u32_spec a b
  have hp' : Permutes2 p := by
    simp only [List.mem_cons, List.not_mem_nil, or_false] at hp
    rcases hp with rfl
    · exact by
        refine ⟨fun x => if h : x.2.val % 2 = 0 then (0, ⟨x.2.val + x.1.val, by omega⟩) else (1, ⟨x.2.val - 1 + x.1.val, by omega⟩), fun x => if h : x.2.val % 2 = 0 then (0, ⟨x.2.val + x.1.val, by omega⟩) else (1, ⟨x.2.val - 1 + x.1.val, by omega⟩), by rintro ⟨j, i⟩; revert j i; decide, fun a b => ?_⟩
        rw [vtrn_u32_spec]
        refine congrArg C.ok (VecArr.ext (funext fun j => Vec.ext (funext fun i => ?_)))
        by_cases h : i.val % 2 = 0
        · simp only [dif_pos h]; rfl
        · simp only [dif_neg h]; rfl
  exact hf'.comm2 hp' a b c d

/-- Reversing the lanes of the operands and then applying a lane-wise operation on `uint32x4_t` is the same as applying it first and reversing the result. -/
theorem rev_unary_uint32x4 [Dialect] (c : uint32_t) :
    ∀ f ∈ [(fun a => vmulq_n_u32 a c), vmvnq_u32],
    ∀ p ∈ [vrev64q_u32],
    ∀ a : uint32x4_t, (do f (← p a)) = (do p (← f a)) := by
  intro f hf p hp a
  have hf' : LaneWise1 f := by
    simp only [List.mem_cons, List.not_mem_nil, or_false] at hf
    rcases hf with rfl | rfl
    · exact .of_ok (fun x => x * c) fun a => vmulq_n_u32_spec a c
    · exact .of_ok (fun x => ~~~ (x)) fun a => vmvnq_u32_spec a
  have hp' : Permutes p := by
    simp only [List.mem_cons, List.not_mem_nil, or_false] at hp
    rcases hp with rfl
    · exact ⟨fun i => ⟨i.val / 2 * 2 + (1 - i.val % 2), by omega⟩, fun i => ⟨i.val / 2 * 2 + (1 - i.val % 2), by omega⟩, fun i => Fin.ext (by dsimp only; omega), fun a => vrev64q_u32_spec a⟩
  exact hf'.comm hp' a

/-- Reversing the lanes of the operands and then applying a lane-wise operation on `uint32x4_t` is the same as applying it first and reversing the result. -/
theorem rev_binary_uint32x4 [Dialect] :
    ∀ f ∈ [vaddq_u32, vsubq_u32, vhsubq_u32, vqsubq_u32, vmulq_u32, vandq_u32, vorrq_u32, veorq_u32],
    ∀ p ∈ [vrev64q_u32],
    ∀ a b : uint32x4_t, (do f (← p a) (← p b)) = (do p (← f a b)) := by
  intro f hf p hp a b
  have hf' : LaneWise f := by
    simp only [List.mem_cons, List.not_mem_nil, or_false] at hf
    rcases hf with rfl | rfl | rfl | rfl | rfl | rfl | rfl | rfl
    · exact .of_ok (fun x y => x + y) fun a b => vaddq_u32_spec a b
    · exact .of_ok (fun x y => x - y) fun a b => vsubq_u32_spec a b
    · exact .of_ok (fun x y => (x - y) >>> 1) fun a b => vhsubq_u32_partial a b
    · exact .of_ok (fun x y => usat 32 (((x).toNat : Int) - ((y).toNat : Int))) fun a b => vqsubq_u32_spec a b
    · exact .of_ok (fun x y => x * y) fun a b => vmulq_u32_spec a b
    · exact .of_ok (fun x y => x &&& y) fun a b => vandq_u32_spec a b
    · exact .of_ok (fun x y => x ||| y) fun a b => vorrq_u32_spec a b
    · exact .of_ok (fun x y => x ^^^ y) fun a b => veorq_u32_spec a b
  have hp' : Permutes p := by
    simp only [List.mem_cons, List.not_mem_nil, or_false] at hp
    rcases hp with rfl
    · exact ⟨fun i => ⟨i.val / 2 * 2 + (1 - i.val % 2), by omega⟩, fun i => ⟨i.val / 2 * 2 + (1 - i.val % 2), by omega⟩, fun i => Fin.ext (by dsimp only; omega), fun a => vrev64q_u32_spec a⟩
  exact hf'.comm hp' a b

/-- Transposing, zipping or unzipping two pairs of operands and then applying a lane-wise operation on `uint32x4_t` is the same as applying it first and permuting the results. -/
theorem pair_binary_uint32x4 [Dialect] :
    ∀ f ∈ [vaddq_u32, vsubq_u32, vhsubq_u32, vqsubq_u32, vmulq_u32, vandq_u32, vorrq_u32, veorq_u32],
    ∀ p ∈ [vtrnq_u32],
    ∀ a b c d : uint32x4_t,
      (do let x ← p a b; let y ← p c d; let r ← f x[0] y[0]; let s ← f x[1] y[1]; pure (r, s)) =
        (do let u ← f a c; let v ← f b d; let z ← p u v; pure (z[0], z[1])) := by
  intro f hf p hp a b c d
  have hf' : LaneWise f := by
    simp only [List.mem_cons, List.not_mem_nil, or_false] at hf
    rcases hf with rfl | rfl | rfl | rfl | rfl | rfl | rfl | rfl
    · exact .of_ok (fun x y => x + y) fun a b => vaddq_u32_spec a b
    · exact .of_ok (fun x y => x - y) fun a b => vsubq_u32_spec a b
    · exact .of_ok (fun x y => (x - y) >>> 1) fun a b => vhsubq_u32_partial a b
    · exact .of_ok (fun x y => usat 32 (((x).toNat : Int) - ((y).toNat : Int))) fun a b => vqsubq_u32_spec a b
    · exact .of_ok (fun x y => x * y) fun a b => vmulq_u32_spec a b
    · exact .of_ok (fun x y => x &&& y) fun a b => vandq_u32_spec a b
    · exact .of_ok (fun x y => x ||| y) fun a b => vorrq_u32_spec a b
    · exact .of_ok (fun x y => x ^^^ y) fun a b => veorq_u32_spec a b
  have hp' : Permutes2 p := by
    simp only [List.mem_cons, List.not_mem_nil, or_false] at hp
    rcases hp with rfl
    · exact by
        refine ⟨fun x => if h : x.2.val % 2 = 0 then (0, ⟨x.2.val + x.1.val, by omega⟩) else (1, ⟨x.2.val - 1 + x.1.val, by omega⟩), fun x => if h : x.2.val % 2 = 0 then (0, ⟨x.2.val + x.1.val, by omega⟩) else (1, ⟨x.2.val - 1 + x.1.val, by omega⟩), by rintro ⟨j, i⟩; revert j i; decide, fun a b => ?_⟩
        rw [vtrnq_u32_spec]
        refine congrArg C.ok (VecArr.ext (funext fun j => Vec.ext (funext fun i => ?_)))
        by_cases h : i.val % 2 = 0
        · simp only [dif_pos h]; rfl
        · simp only [dif_neg h]; rfl
  exact hf'.comm2 hp' a b c d

/-- Reversing the lanes of the operands and then applying a lane-wise operation on `uint32x4_t` is the same as applying it first and reversing the result. -/
theorem rev_ternary_uint32x4 [Dialect] :
    ∀ f ∈ [vmlaq_u32],
    ∀ p ∈ [vrev64q_u32],
    ∀ a b d : uint32x4_t, (do f (← p a) (← p b) (← p d)) = (do p (← f a b d)) := by
  intro f hf p hp a b d
  have hf' : LaneWise3 f := by
    simp only [List.mem_cons, List.not_mem_nil, or_false] at hf
    rcases hf with rfl
    · exact .of_ok (fun x y z => x + y * z) fun a b d => vmlaq_u32_spec a b d
  have hp' : Permutes p := by
    simp only [List.mem_cons, List.not_mem_nil, or_false] at hp
    rcases hp with rfl
    · exact ⟨fun i => ⟨i.val / 2 * 2 + (1 - i.val % 2), by omega⟩, fun i => ⟨i.val / 2 * 2 + (1 - i.val % 2), by omega⟩, fun i => Fin.ext (by dsimp only; omega), fun a => vrev64q_u32_spec a⟩
  exact hf'.comm hp' a b d

/-- Reversing the lanes of the operands and then applying a lane-wise operation on `uint8x16_t` is the same as applying it first and reversing the result. -/
theorem rev_unary_uint8x16 [Dialect] :
    ∀ f ∈ [vmvnq_u8],
    ∀ p ∈ [vrev16q_u8, vrev32q_u8, vrev64q_u8],
    ∀ a : uint8x16_t, (do f (← p a)) = (do p (← f a)) := by
  intro f hf p hp a
  have hf' : LaneWise1 f := by
    simp only [List.mem_cons, List.not_mem_nil, or_false] at hf
    rcases hf with rfl
    · exact .of_ok (fun x => ~~~ (x)) fun a => vmvnq_u8_spec a
  have hp' : Permutes p := by
    simp only [List.mem_cons, List.not_mem_nil, or_false] at hp
    rcases hp with rfl | rfl | rfl
    · exact ⟨fun i => ⟨i.val / 2 * 2 + (1 - i.val % 2), by omega⟩, fun i => ⟨i.val / 2 * 2 + (1 - i.val % 2), by omega⟩, fun i => Fin.ext (by dsimp only; omega), fun a => vrev16q_u8_spec a⟩
    · exact ⟨fun i => ⟨i.val / 4 * 4 + (3 - i.val % 4), by omega⟩, fun i => ⟨i.val / 4 * 4 + (3 - i.val % 4), by omega⟩, fun i => Fin.ext (by dsimp only; omega), fun a => vrev32q_u8_spec a⟩
    · exact ⟨fun i => ⟨i.val / 8 * 8 + (7 - i.val % 8), by omega⟩, fun i => ⟨i.val / 8 * 8 + (7 - i.val % 8), by omega⟩, fun i => Fin.ext (by dsimp only; omega), fun a => vrev64q_u8_spec a⟩
  exact hf'.comm hp' a

/-- Reversing the lanes of the operands and then applying a lane-wise operation on `uint8x16_t` is the same as applying it first and reversing the result. -/
theorem rev_binary_uint8x16 [Dialect] :
    ∀ f ∈ [vaddq_u8, vqaddq_u8, vsubq_u8, vhsubq_u8, vqsubq_u8, vmulq_u8, vcgtq_u8, vandq_u8, vorrq_u8, 
      veorq_u8],
    ∀ p ∈ [vrev16q_u8, vrev32q_u8, vrev64q_u8],
    ∀ a b : uint8x16_t, (do f (← p a) (← p b)) = (do p (← f a b)) := by
  intro f hf p hp a b
  have hf' : LaneWise f := by
    simp only [List.mem_cons, List.not_mem_nil, or_false] at hf
    rcases hf with rfl | rfl | rfl | rfl | rfl | rfl | rfl | rfl | rfl | rfl
    · exact .of_ok (fun x y => x + y) fun a b => vaddq_u8_spec a b
    · exact .of_ok (fun x y => usat 8 (((x).toNat : Int) + ((y).toNat : Int))) fun a b => vqaddq_u8_spec a b
    · exact .of_ok (fun x y => x - y) fun a b => vsubq_u8_spec a b
    · exact .of_ok (fun x y => BitVec.ofInt 8 ((((x).toNat : Int) - ((y).toNat : Int)) / 2)) fun a b => vhsubq_u8_spec a b
    · exact .of_ok (fun x y => usat 8 (((x).toNat : Int) - ((y).toNat : Int))) fun a b => vqsubq_u8_spec a b
    · exact .of_ok (fun x y => x * y) fun a b => vmulq_u8_spec a b
    · exact .of_ok (fun x y => mask 8 ((y).toNat < (x).toNat)) fun a b => vcgtq_u8_spec a b
    · exact .of_ok (fun x y => x &&& y) fun a b => vandq_u8_spec a b
    · exact .of_ok (fun x y => x ||| y) fun a b => vorrq_u8_spec a b
    · exact .of_ok (fun x y => x ^^^ y) fun a b => veorq_u8_spec a b
  have hp' : Permutes p := by
    simp only [List.mem_cons, List.not_mem_nil, or_false] at hp
    rcases hp with rfl | rfl | rfl
    · exact ⟨fun i => ⟨i.val / 2 * 2 + (1 - i.val % 2), by omega⟩, fun i => ⟨i.val / 2 * 2 + (1 - i.val % 2), by omega⟩, fun i => Fin.ext (by dsimp only; omega), fun a => vrev16q_u8_spec a⟩
    · exact ⟨fun i => ⟨i.val / 4 * 4 + (3 - i.val % 4), by omega⟩, fun i => ⟨i.val / 4 * 4 + (3 - i.val % 4), by omega⟩, fun i => Fin.ext (by dsimp only; omega), fun a => vrev32q_u8_spec a⟩
    · exact ⟨fun i => ⟨i.val / 8 * 8 + (7 - i.val % 8), by omega⟩, fun i => ⟨i.val / 8 * 8 + (7 - i.val % 8), by omega⟩, fun i => Fin.ext (by dsimp only; omega), fun a => vrev64q_u8_spec a⟩
  exact hf'.comm hp' a b

/-- Reversing the lanes of the operands and then applying a lane-wise operation on `uint8x16_t` is the same as applying it first and reversing the result. -/
theorem rev_ternary_uint8x16 [Dialect] :
    ∀ f ∈ [vmlaq_u8, vbslq_u8],
    ∀ p ∈ [vrev16q_u8, vrev32q_u8, vrev64q_u8],
    ∀ a b d : uint8x16_t, (do f (← p a) (← p b) (← p d)) = (do p (← f a b d)) := by
  intro f hf p hp a b d
  have hf' : LaneWise3 f := by
    simp only [List.mem_cons, List.not_mem_nil, or_false] at hf
    rcases hf with rfl | rfl
    · exact .of_ok (fun x y z => x + y * z) fun a b d => vmlaq_u8_spec a b d
    · exact .of_ok (fun x y z => (x &&& y) ||| (~~~ x &&& z)) fun a b d => vbslq_u8_spec a b d
  have hp' : Permutes p := by
    simp only [List.mem_cons, List.not_mem_nil, or_false] at hp
    rcases hp with rfl | rfl | rfl
    · exact ⟨fun i => ⟨i.val / 2 * 2 + (1 - i.val % 2), by omega⟩, fun i => ⟨i.val / 2 * 2 + (1 - i.val % 2), by omega⟩, fun i => Fin.ext (by dsimp only; omega), fun a => vrev16q_u8_spec a⟩
    · exact ⟨fun i => ⟨i.val / 4 * 4 + (3 - i.val % 4), by omega⟩, fun i => ⟨i.val / 4 * 4 + (3 - i.val % 4), by omega⟩, fun i => Fin.ext (by dsimp only; omega), fun a => vrev32q_u8_spec a⟩
    · exact ⟨fun i => ⟨i.val / 8 * 8 + (7 - i.val % 8), by omega⟩, fun i => ⟨i.val / 8 * 8 + (7 - i.val % 8), by omega⟩, fun i => Fin.ext (by dsimp only; omega), fun a => vrev64q_u8_spec a⟩
  exact hf'.comm hp' a b d

/-- Reversing the lanes of the operands and then applying a lane-wise operation on `uint8x8_t` is the same as applying it first and reversing the result. -/
theorem rev_unary_uint8x8 [Dialect] :
    ∀ f ∈ [vmvn_u8],
    ∀ p ∈ [vrev16_u8, vrev32_u8, vrev64_u8],
    ∀ a : uint8x8_t, (do f (← p a)) = (do p (← f a)) := by
  intro f hf p hp a
  have hf' : LaneWise1 f := by
    simp only [List.mem_cons, List.not_mem_nil, or_false] at hf
    rcases hf with rfl
    · exact .of_ok (fun x => ~~~ (x)) fun a => vmvn_u8_spec a
  have hp' : Permutes p := by
    simp only [List.mem_cons, List.not_mem_nil, or_false] at hp
    rcases hp with rfl | rfl | rfl
    · exact ⟨fun i => ⟨i.val / 2 * 2 + (1 - i.val % 2), by omega⟩, fun i => ⟨i.val / 2 * 2 + (1 - i.val % 2), by omega⟩, fun i => Fin.ext (by dsimp only; omega), fun a => vrev16_u8_spec a⟩
    · exact ⟨fun i => ⟨i.val / 4 * 4 + (3 - i.val % 4), by omega⟩, fun i => ⟨i.val / 4 * 4 + (3 - i.val % 4), by omega⟩, fun i => Fin.ext (by dsimp only; omega), fun a => vrev32_u8_spec a⟩
    · exact ⟨fun i => ⟨i.val / 8 * 8 + (7 - i.val % 8), by omega⟩, fun i => ⟨i.val / 8 * 8 + (7 - i.val % 8), by omega⟩, fun i => Fin.ext (by dsimp only; omega), fun a => vrev64_u8_spec a⟩
  exact hf'.comm hp' a

/-- Reversing the lanes of the operands and then applying a lane-wise operation on `uint8x8_t` is the same as applying it first and reversing the result. -/
theorem rev_binary_uint8x8 [Dialect] :
    ∀ f ∈ [vadd_u8, vqadd_u8, vsub_u8, vhsub_u8, vqsub_u8, vmul_u8, vand_u8, vorr_u8, veor_u8],
    ∀ p ∈ [vrev16_u8, vrev32_u8, vrev64_u8],
    ∀ a b : uint8x8_t, (do f (← p a) (← p b)) = (do p (← f a b)) := by
  intro f hf p hp a b
  have hf' : LaneWise f := by
    simp only [List.mem_cons, List.not_mem_nil, or_false] at hf
    rcases hf with rfl | rfl | rfl | rfl | rfl | rfl | rfl | rfl | rfl
    · exact .of_ok (fun x y => x + y) fun a b => vadd_u8_spec a b
    · exact .of_ok (fun x y => usat 8 (((x).toNat : Int) + ((y).toNat : Int))) fun a b => vqadd_u8_spec a b
    · exact .of_ok (fun x y => x - y) fun a b => vsub_u8_spec a b
    · exact .of_ok (fun x y => BitVec.ofInt 8 ((((x).toNat : Int) - ((y).toNat : Int)) / 2)) fun a b => vhsub_u8_spec a b
    · exact .of_ok (fun x y => usat 8 (((x).toNat : Int) - ((y).toNat : Int))) fun a b => vqsub_u8_spec a b
    · exact .of_ok (fun x y => x * y) fun a b => vmul_u8_spec a b
    · exact .of_ok (fun x y => x &&& y) fun a b => vand_u8_spec a b
    · exact .of_ok (fun x y => x ||| y) fun a b => vorr_u8_spec a b
    · exact .of_ok (fun x y => x ^^^ y) fun a b => veor_u8_spec a b
  have hp' : Permutes p := by
    simp only [List.mem_cons, List.not_mem_nil, or_false] at hp
    rcases hp with rfl | rfl | rfl
    · exact ⟨fun i => ⟨i.val / 2 * 2 + (1 - i.val % 2), by omega⟩, fun i => ⟨i.val / 2 * 2 + (1 - i.val % 2), by omega⟩, fun i => Fin.ext (by dsimp only; omega), fun a => vrev16_u8_spec a⟩
    · exact ⟨fun i => ⟨i.val / 4 * 4 + (3 - i.val % 4), by omega⟩, fun i => ⟨i.val / 4 * 4 + (3 - i.val % 4), by omega⟩, fun i => Fin.ext (by dsimp only; omega), fun a => vrev32_u8_spec a⟩
    · exact ⟨fun i => ⟨i.val / 8 * 8 + (7 - i.val % 8), by omega⟩, fun i => ⟨i.val / 8 * 8 + (7 - i.val % 8), by omega⟩, fun i => Fin.ext (by dsimp only; omega), fun a => vrev64_u8_spec a⟩
  exact hf'.comm hp' a b

/-- Transposing, zipping or unzipping two pairs of operands and then applying a lane-wise operation on `uint8x8_t` is the same as applying it first and permuting the results. -/
theorem pair_binary_uint8x8 [Dialect] :
    ∀ f ∈ [vadd_u8, vqadd_u8, vsub_u8, vhsub_u8, vqsub_u8, vmul_u8, vand_u8, vorr_u8, veor_u8],
    ∀ p ∈ [vtrn_u8, vzip_u8, vuzp_u8],
    ∀ a b c d : uint8x8_t,
      (do let x ← p a b; let y ← p c d; let r ← f x[0] y[0]; let s ← f x[1] y[1]; pure (r, s)) =
        (do let u ← f a c; let v ← f b d; let z ← p u v; pure (z[0], z[1])) := by
  intro f hf p hp a b c d
  have hf' : LaneWise f := by
    simp only [List.mem_cons, List.not_mem_nil, or_false] at hf
    rcases hf with rfl | rfl | rfl | rfl | rfl | rfl | rfl | rfl | rfl
    · exact .of_ok (fun x y => x + y) fun a b => vadd_u8_spec a b
    · exact .of_ok (fun x y => usat 8 (((x).toNat : Int) + ((y).toNat : Int))) fun a b => vqadd_u8_spec a b
    · exact .of_ok (fun x y => x - y) fun a b => vsub_u8_spec a b
    · exact .of_ok (fun x y => BitVec.ofInt 8 ((((x).toNat : Int) - ((y).toNat : Int)) / 2)) fun a b => vhsub_u8_spec a b
    · exact .of_ok (fun x y => usat 8 (((x).toNat : Int) - ((y).toNat : Int))) fun a b => vqsub_u8_spec a b
    · exact .of_ok (fun x y => x * y) fun a b => vmul_u8_spec a b
    · exact .of_ok (fun x y => x &&& y) fun a b => vand_u8_spec a b
    · exact .of_ok (fun x y => x ||| y) fun a b => vorr_u8_spec a b
    · exact .of_ok (fun x y => x ^^^ y) fun a b => veor_u8_spec a b
  have hp' : Permutes2 p := by
    simp only [List.mem_cons, List.not_mem_nil, or_false] at hp
    rcases hp with rfl | rfl | rfl
    · exact by
        refine ⟨fun x => if h : x.2.val % 2 = 0 then (0, ⟨x.2.val + x.1.val, by omega⟩) else (1, ⟨x.2.val - 1 + x.1.val, by omega⟩), fun x => if h : x.2.val % 2 = 0 then (0, ⟨x.2.val + x.1.val, by omega⟩) else (1, ⟨x.2.val - 1 + x.1.val, by omega⟩), by rintro ⟨j, i⟩; revert j i; decide, fun a b => ?_⟩
        rw [vtrn_u8_spec]
        refine congrArg C.ok (VecArr.ext (funext fun j => Vec.ext (funext fun i => ?_)))
        by_cases h : i.val % 2 = 0
        · simp only [dif_pos h]; rfl
        · simp only [dif_neg h]; rfl
    · exact by
        refine ⟨fun x => if h : x.2.val % 2 = 0 then (0, ⟨4 * x.1.val + x.2.val / 2, by omega⟩) else (1, ⟨4 * x.1.val + x.2.val / 2, by omega⟩), fun x => (⟨x.2.val / 4, by omega⟩, ⟨2 * (x.2.val % 4) + x.1.val, by omega⟩), by rintro ⟨j, i⟩; revert j i; decide, fun a b => ?_⟩
        rw [vzip_u8_spec]
        refine congrArg C.ok (VecArr.ext (funext fun j => Vec.ext (funext fun i => ?_)))
        by_cases h : i.val % 2 = 0
        · simp only [dif_pos h]; rfl
        · simp only [dif_neg h]; rfl
    · exact by
        refine ⟨fun x => if h : 2 * x.2.val + x.1.val < 8 then (0, ⟨2 * x.2.val + x.1.val, by omega⟩) else (1, ⟨2 * x.2.val + x.1.val - 8, by omega⟩), fun x => (⟨(x.1.val * 8 + x.2.val) % 2, by omega⟩, ⟨(x.1.val * 8 + x.2.val) / 2, by omega⟩), by rintro ⟨j, i⟩; revert j i; decide, fun a b => ?_⟩
        rw [vuzp_u8_spec]
        refine congrArg C.ok (VecArr.ext (funext fun j => Vec.ext (funext fun i => ?_)))
        by_cases h : 2 * i.val + j.val < 8
        · simp only [dif_pos h]; rfl
        · simp only [dif_neg h]; rfl
  exact hf'.comm2 hp' a b c d

end Verif.Props
