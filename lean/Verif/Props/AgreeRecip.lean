/-
C80: operands on which `vrecpsq_f32`, which rounds twice where the architecture rounds once, gives the
architecture's result.
-/
import Verif.Props.Recip

namespace Verif.Props
open Verif.Model Verif.Spec Verif.FpOps

/-- `vrecpsq_f32` gives the architecture's `2 - a * b`, rounded once, whenever the lanes are numbers whose
product is a float.  The operands on which rounding twice happens to give the same are not characterised. -/
theorem vrecpsq_f32_fused_partial [Dialect] (a b : float32x4_t) (x y : Fin 4 → ℚ)
    (h : ∀ i, (∃ s, decode .b32 (a.lane i).toNat = .num s (x i)) ∧ (∃ s, decode .b32 (b.lane i).toNat = .num s (y i)) ∧
      ∃ (q : BitVec 32) (s : Bool), decode .b32 q.toNat = .num s (x i * y i)) :
    ∃ r, vrecpsq_f32 a b = .ok r ∧ ∀ i, Rounded .b32 false (2 - x i * y i) (r.lane i).toNat := by
  obtain ⟨r, hr, hp⟩ := vrecpsq_f32_partial a b
  refine ⟨r, hr, fun i => ?_⟩
  obtain ⟨p, h1, h2⟩ := hp i
  obtain ⟨⟨s, da⟩, ⟨t, db⟩, q, u, dq⟩ := h i
  obtain ⟨w, dp⟩ : ∃ w, decode .b32 p = .num w (x i * y i) := by
    unfold IsProd at h1
    rw [da, db] at h1
    by_cases h0 : x i * y i = 0
    · simp only [Rounded, if_pos h0] at h1
      exact ⟨_, h0 ▸ h1⟩
    · exact ⟨_, rounded_exact ok32 h1 dq h0⟩
  unfold IsDiff at h2
  rw [decode_two32, dp] at h2
  exact h2

/-- Such operands: 2 and 2, whose product 4 is a float. -/
example [Dialect] := vrecpsq_f32_fused_partial ⟨fun _ => 0x40000000#32⟩ ⟨fun _ => 0x40000000#32⟩ (fun _ => 2) (fun _ => 2)
  fun _ => ⟨⟨false, decode_two32⟩, ⟨false, decode_two32⟩, 0x40800000#32, false, by
    rw [show (0x40800000#32).toNat = 0x40800000 from rfl]
    unfold decode
    rw [if_neg (by decide), if_neg (by decide)]
    norm_num [signField, fracField, expField, withSign, emax, Fmt.b32]
    decide⟩

end Verif.Props
