/-
C80: the operands on which the saturating subtractions of 64-bit lanes, which compute in double, are right.
-/
import Verif.Props.Agree
import Verif.Props.QSub64

namespace Verif.Props
open Verif.Model Verif.Spec

/-- `vqsub_s64` gives the saturated difference exactly when, in every lane, the difference computed in double is not
2^63 (for which the conversion back is undefined) and its truncation saturates to the same value. -/
theorem vqsub_s64_right_iff [Dialect] (N M : int64x1_t) :
    vqsub_s64 N M = .ok ⟨fun i => ssat 64 ((N.lane i).toInt - (M.lane i).toInt)⟩ ↔
    ∀ i : Fin 1, ∃ v n, DoubleDiff (N.lane i).toInt (M.lane i).toInt v ∧ v ≠ 2 ^ 63 ∧ IsTrunc v n ∧ ssat 64 n = ssat 64 ((N.lane i).toInt - (M.lane i).toInt) := by
  classical
  choose v hv using fun i => doubleDiff_exists (N.lane i).toInt (M.lane i).toInt (vqsub_s64_bnd (N.lane i)) (vqsub_s64_bnd (M.lane i))
  choose n hn using fun i => exists_isTrunc (v i)
  rw [vqsub_s64_eval N M v n fun i => ⟨hv i, hn i⟩, if_ok_iff, ok_vec_iff, ← forall_and]
  refine forall_congr' fun i => ⟨fun h => ⟨v i, n i, hv i, h.1, hn i, h.2⟩, ?_⟩
  rintro ⟨w, m, h1, h2, h3, h4⟩
  obtain rfl := h1.unique (hv i)
  exact ⟨h2, isTrunc_unique h3 (hn i) ▸ h4⟩
example [Dialect] := (vqsub_s64_right_iff ⟨fun _ => 100#64⟩ ⟨fun _ => 7#64⟩).1 (vqsub_s64_partial _ _ (by decide +kernel))
example [Dialect] := (vqsub_s64_right_iff ⟨fun _ => 9007199254740993#64⟩ ⟨fun _ => 0#64⟩).not.1 (by
  rw [vqsub_s64_wrong, ok_vec_iff]
  decide +kernel)

/-- `vqsubq_s64` gives the saturated difference exactly when, in every lane, the difference computed in double is not
2^63 (for which the conversion back is undefined) and its truncation saturates to the same value. -/
theorem vqsubq_s64_right_iff [Dialect] (N M : int64x2_t) :
    vqsubq_s64 N M = .ok ⟨fun i => ssat 64 ((N.lane i).toInt - (M.lane i).toInt)⟩ ↔
    ∀ i : Fin 2, ∃ v n, DoubleDiff (N.lane i).toInt (M.lane i).toInt v ∧ v ≠ 2 ^ 63 ∧ IsTrunc v n ∧ ssat 64 n = ssat 64 ((N.lane i).toInt - (M.lane i).toInt) := by
  classical
  choose v hv using fun i => doubleDiff_exists (N.lane i).toInt (M.lane i).toInt (vqsubq_s64_bnd (N.lane i)) (vqsubq_s64_bnd (M.lane i))
  choose n hn using fun i => exists_isTrunc (v i)
  rw [vqsubq_s64_eval N M v n fun i => ⟨hv i, hn i⟩, if_ok_iff, ok_vec_iff, ← forall_and]
  refine forall_congr' fun i => ⟨fun h => ⟨v i, n i, hv i, h.1, hn i, h.2⟩, ?_⟩
  rintro ⟨w, m, h1, h2, h3, h4⟩
  obtain rfl := h1.unique (hv i)
  exact ⟨h2, isTrunc_unique h3 (hn i) ▸ h4⟩
example [Dialect] := (vqsubq_s64_right_iff ⟨fun _ => 100#64⟩ ⟨fun _ => 7#64⟩).1 (vqsubq_s64_partial _ _ (by decide +kernel))
example [Dialect] := (vqsubq_s64_right_iff ⟨fun _ => 9007199254740993#64⟩ ⟨fun _ => 0#64⟩).not.1 (by
  rw [vqsubq_s64_wrong, ok_vec_iff]
  decide +kernel)

/-- `vqsub_u64` gives the saturated difference exactly when, in every lane, the difference computed in double is not
2^64 (for which the conversion back is undefined) and its truncation saturates to the same value. -/
theorem vqsub_u64_right_iff [Dialect] (N M : uint64x1_t) :
    vqsub_u64 N M = .ok ⟨fun i => usat 64 (((N.lane i).toNat : ℤ) - ((M.lane i).toNat : ℤ))⟩ ↔
    ∀ i : Fin 1, ∃ v n, DoubleDiff ((N.lane i).toNat : ℤ) ((M.lane i).toNat : ℤ) v ∧ v ≠ 2 ^ 64 ∧ IsTrunc v n ∧ usat 64 n = usat 64 (((N.lane i).toNat : ℤ) - ((M.lane i).toNat : ℤ)) := by
  classical
  choose v hv using fun i => doubleDiff_exists ((N.lane i).toNat : ℤ) ((M.lane i).toNat : ℤ) (vqsub_u64_bnd (N.lane i)) (vqsub_u64_bnd (M.lane i))
  choose n hn using fun i => exists_isTrunc (v i)
  rw [vqsub_u64_eval N M v n fun i => ⟨hv i, hn i⟩, if_ok_iff, ok_vec_iff, ← forall_and]
  refine forall_congr' fun i => ⟨fun h => ⟨v i, n i, hv i, h.1, hn i, h.2⟩, ?_⟩
  rintro ⟨w, m, h1, h2, h3, h4⟩
  obtain rfl := h1.unique (hv i)
  exact ⟨h2, isTrunc_unique h3 (hn i) ▸ h4⟩
example [Dialect] := (vqsub_u64_right_iff ⟨fun _ => 100#64⟩ ⟨fun _ => 7#64⟩).1 (vqsub_u64_partial _ _ (by decide +kernel))
example [Dialect] := (vqsub_u64_right_iff ⟨fun _ => 9007199254740993#64⟩ ⟨fun _ => 0#64⟩).not.1 (by
  rw [vqsub_u64_wrong, ok_vec_iff]
  decide +kernel)

/-- `vqsubq_u64` gives the saturated difference exactly when, in every lane, the difference computed in double is not
2^64 (for which the conversion back is undefined) and its truncation saturates to the same value. -/
theorem vqsubq_u64_right_iff [Dialect] (N M : uint64x2_t) :
    vqsubq_u64 N M = .ok ⟨fun i => usat 64 (((N.lane i).toNat : ℤ) - ((M.lane i).toNat : ℤ))⟩ ↔
    ∀ i : Fin 2, ∃ v n, DoubleDiff ((N.lane i).toNat : ℤ) ((M.lane i).toNat : ℤ) v ∧ v ≠ 2 ^ 64 ∧ IsTrunc v n ∧ usat 64 n = usat 64 (((N.lane i).toNat : ℤ) - ((M.lane i).toNat : ℤ)) := by
  classical
  choose v hv using fun i => doubleDiff_exists ((N.lane i).toNat : ℤ) ((M.lane i).toNat : ℤ) (vqsubq_u64_bnd (N.lane i)) (vqsubq_u64_bnd (M.lane i))
  choose n hn using fun i => exists_isTrunc (v i)
  rw [vqsubq_u64_eval N M v n fun i => ⟨hv i, hn i⟩, if_ok_iff, ok_vec_iff, ← forall_and]
  refine forall_congr' fun i => ⟨fun h => ⟨v i, n i, hv i, h.1, hn i, h.2⟩, ?_⟩
  rintro ⟨w, m, h1, h2, h3, h4⟩
  obtain rfl := h1.unique (hv i)
  exact ⟨h2, isTrunc_unique h3 (hn i) ▸ h4⟩
example [Dialect] := (vqsubq_u64_right_iff ⟨fun _ => 100#64⟩ ⟨fun _ => 7#64⟩).1 (vqsubq_u64_partial _ _ (by decide +kernel))
example [Dialect] := (vqsubq_u64_right_iff ⟨fun _ => 9007199254740993#64⟩ ⟨fun _ => 0#64⟩).not.1 (by
  rw [vqsubq_u64_wrong, ok_vec_iff]
  decide +kernel)

end Verif.Props
