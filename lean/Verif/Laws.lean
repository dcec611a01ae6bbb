import Verif.Fill

/-! # Lemmas for the laws relating several intrinsics -/

namespace Verif
open Spec

theorem ok_vec {e n} {f g : Fin n → BitVec e.bits} (h : ∀ i, f i = g i) :
    (C.ok ⟨f⟩ : C (Vec e n)) = .ok ⟨g⟩ := by rw [funext h]

theorem ok_vec' {e n} {f : Fin n → BitVec e.bits} {a : Vec e n} (h : ∀ i, f i = a.lane i) :
    (C.ok ⟨f⟩ : C (Vec e n)) = .ok a := by rw [funext h]

theorem toInt_max {w : Nat} (a b : BitVec w) :
    (BitVec.ofInt w (max a.toInt b.toInt)).toInt = max a.toInt b.toInt := by
  rcases Int.le_total a.toInt b.toInt with h | h
  · rw [Int.max_eq_right h, BitVec.ofInt_toInt]
  · rw [Int.max_eq_left h, BitVec.ofInt_toInt]

theorem toInt_min {w : Nat} (a b : BitVec w) :
    (BitVec.ofInt w (min a.toInt b.toInt)).toInt = min a.toInt b.toInt := by
  rcases Int.le_total a.toInt b.toInt with h | h
  · rw [Int.min_eq_left h, BitVec.ofInt_toInt]
  · rw [Int.min_eq_right h, BitVec.ofInt_toInt]

theorem clamp_bounds {lo hi : Int} (h : lo ≤ hi) (v : Int) : lo ≤ clamp lo hi v ∧ clamp lo hi v ≤ hi := by
  unfold clamp; omega

theorem usat_toNat' {w : Nat} (v : Int) : ((usat w v).toNat : Int) = clamp 0 (2 ^ w - 1) v := by
  unfold usat
  have p : (0 : Int) < 2 ^ w := two_pow_pos w
  have h := clamp_bounds (lo := 0) (hi := 2 ^ w - 1) (by omega) v
  rw [BitVec.toNat_ofInt, Int.toNat_of_nonneg (Int.emod_nonneg _ (by push_cast; omega)), Int.emod_eq_of_lt h.1]
  push_cast
  omega

theorem ssat_toInt' {w : Nat} (hw : 0 < w) (v : Int) :
    (ssat w v).toInt = clamp (-2 ^ (w - 1)) (2 ^ (w - 1) - 1) v := by
  unfold ssat
  have p : (0 : Int) < 2 ^ (w - 1) := two_pow_pos _
  have h := clamp_bounds (lo := -2 ^ (w - 1)) (hi := 2 ^ (w - 1) - 1) (by omega) v
  rw [BitVec.toInt_ofInt]
  have e : (2 : Int) ^ w = 2 ^ (w - 1) * 2 := by
    obtain ⟨k, rfl⟩ : ∃ k, w = k + 1 := ⟨w - 1, by omega⟩
    rw [Nat.add_sub_cancel]; exact Int.pow_succ 2 k
  apply Int.bmod_eq_of_le
  · push_cast; omega
  · push_cast; omega

theorem if_congr' {α} {p q : Prop} [Decidable p] [Decidable q] {x y : α} (h : p ↔ q) :
    (if p then x else y) = if q then x else y := by
  by_cases hp : p
  · rw [if_pos hp, if_pos (h.mp hp)]
  · rw [if_neg hp, if_neg fun hq => hp (h.mpr hq)]

section
variable {w : Nat} (a b c : BitVec w)

theorem eq_of_val {x y : BitVec w} (h : (x.toNat : Int) = y.toNat) : x = y :=
  BitVec.eq_of_toNat_eq (Int.ofNat_inj.mp h)

theorem usat_add_lt {a b : BitVec w} (h : a.toNat + b.toNat < 2 ^ w) : usat w ((a.toNat : Int) + b.toNat) = a + b := by
  apply eq_of_val
  have : ((a.toNat : Int) + b.toNat) < 2 ^ w := by exact_mod_cast h
  rw [usat_toNat', BitVec.toNat_add_of_lt h, clamp]
  push_cast
  omega

theorem usat_sub_le {a b : BitVec w} (h : b.toNat ≤ a.toNat) : usat w ((a.toNat : Int) - b.toNat) = a - b := by
  apply eq_of_val
  have h1 : (a.toNat : Int) < 2 ^ w := by exact_mod_cast a.isLt
  rw [usat_toNat', BitVec.toNat_sub_of_le (by exact h), clamp]
  omega

theorem usat_zero_iff : usat w ((a.toNat : Int) - b.toNat) = 0#w ↔ a.toNat ≤ b.toNat := by
  have p : (0 : Int) < 2 ^ w := two_pow_pos w
  have h1 : (a.toNat : Int) < 2 ^ w := by exact_mod_cast a.isLt
  rw [← BitVec.toNat_inj, ← Int.ofNat_inj, usat_toNat', BitVec.toNat_ofNat, Nat.zero_mod, clamp]
  omega

theorem usat_self_sub : usat w ((a.toNat : Int) - a.toNat) = 0#w := (usat_zero_iff a a).mpr (Nat.le_refl _)

theorem usat_sub_add : (usat w ((a.toNat : Int) - b.toNat) + b).toNat = max a.toNat b.toNat := by
  have h1 : (a.toNat : Int) < 2 ^ w := by exact_mod_cast a.isLt
  have h2 : (b.toNat : Int) < 2 ^ w := by exact_mod_cast b.isLt
  have h3 := usat_toNat' (w := w) ((a.toNat : Int) - b.toNat)
  rw [clamp] at h3
  have h4 : (usat w ((a.toNat : Int) - b.toNat)).toNat + b.toNat < 2 ^ w := by
    apply Int.ofNat_lt.mp
    push_cast
    omega
  rw [BitVec.toNat_add_of_lt h4]
  omega

theorem uqadd_qsub : (usat w ((usat w ((a.toNat : Int) - b.toNat)).toNat + (b.toNat : Int))).toNat = max a.toNat b.toNat := by
  have h1 : (a.toNat : Int) < 2 ^ w := by exact_mod_cast a.isLt
  have h2 : (b.toNat : Int) < 2 ^ w := by exact_mod_cast b.isLt
  apply Int.ofNat_inj.mp
  rw [usat_toNat', usat_toNat', clamp, clamp]
  omega

theorem uqadd_assoc : usat w (((usat w ((a.toNat : Int) + b.toNat)).toNat : Int) + c.toNat) =
    usat w ((a.toNat : Int) + (usat w ((b.toNat : Int) + c.toNat)).toNat) := by
  have h1 : (a.toNat : Int) < 2 ^ w := by exact_mod_cast a.isLt
  have h2 : (b.toNat : Int) < 2 ^ w := by exact_mod_cast b.isLt
  have h3 : (c.toNat : Int) < 2 ^ w := by exact_mod_cast c.isLt
  apply eq_of_val
  simp only [usat_toNat', clamp]
  omega

theorem usat_mono {x y : Int} (h : x ≤ y) : (usat w x).toNat ≤ (usat w y).toNat := by
  apply Int.ofNat_le.mp
  simp only [usat_toNat', clamp]
  omega

theorem ssat_mono (hw : 0 < w) {x y : Int} (h : x ≤ y) : (ssat w x).toInt ≤ (ssat w y).toInt := by
  simp only [ssat_toInt' hw, clamp]
  omega

theorem ssat_self_sub (hw : 0 < w) : ssat w (a.toInt - a.toInt) = 0#w := by
  have p : (0 : Int) < 2 ^ (w - 1) := two_pow_pos _
  apply BitVec.eq_of_toInt_eq
  rw [ssat_toInt' hw, BitVec.toInt_zero, clamp]
  omega
end

end Verif
