import Verif.SpecUtest
import Mathlib.Data.List.FinRange

/-! The random order of the test runner (C99). -/

namespace Verif.Props
open Utest SpecUtest

theorem shuffle_amount (seed : BitVec 32) : ¬ 32 ≤ ((seed >>> 28) + 4#32).toNat := by
  have h : (seed >>> 28).toNat < 16 := by
    rw [BitVec.toNat_ushiftRight, Nat.shiftRight_eq_div_pow]
    have := seed.isLt
    omega
  rw [BitVec.toNat_add]
  simp only [BitVec.toNat_ofNat]
  omega

theorem shuffle_index {k : Nat} (h : k + 2 < 2 ^ 32) : BitVec.ofNat 32 (k + 2) ≠ 0 := by
  intro e
  have := congrArg BitVec.toNat e
  simp only [BitVec.toNat_ofNat] at this
  rw [Nat.mod_eq_of_lt h] at this
  simp at this

/-- The random number is an index below `index`. -/
theorem shuffle_next {k : Nat} (h : k + 2 < 2 ^ 32) (x : BitVec 32) : (x % BitVec.ofNat 32 (k + 2)).toNat < k + 2 := by
  rw [BitVec.toNat_umod, BitVec.toNat_ofNat, Nat.mod_eq_of_lt h]
  exact Nat.mod_lt _ (by omega)

/-- The shuffle is defined, and what it makes of the array has the same elements. -/
theorem shuffle_perm {α : Type} (k : Nat) : ∀ (ts : List α) (seed : BitVec 32), k ≤ ts.length → ts.length < 2 ^ 32 →
    ∃ ts', shuffle k ts seed = .ok ts' ∧ ts'.Perm ts := by
  induction k using Nat.strongRecOn with
  | _ k ih =>
    intro ts seed hk hn
    match k, ih, hk with
    | 0, _, _ => exact ⟨ts, rfl, .refl _⟩
    | 1, _, _ => exact ⟨ts, rfl, .refl _⟩
    | k + 2, ih, hk =>
      have hk' : k + 2 < 2 ^ 32 := by omega
      unfold shuffle
      simp only [if_neg (shuffle_amount seed), if_neg (shuffle_index hk')]
      generalize hx : (((seed >>> ((seed >>> 28) + 4#32)) ^^^ seed) * 277803737#32) = x
      have hnext := shuffle_next hk' ((x >>> 22) ^^^ x)
      generalize ((x >>> 22 ^^^ x) % BitVec.ofNat 32 (k + 2)).toNat = next at hnext
      have h1 : k + 2 - 1 < ts.length := by omega
      have h2 : next < ts.length := by omega
      rw [List.getElem?_eq_getElem h1, List.getElem?_eq_getElem h2]
      obtain ⟨ts', h, hp⟩ := ih (k + 1) (by omega) ((ts.set (k + 2 - 1) ts[next]).set next ts[k + 2 - 1]) (seed * 747796405#32 + 2891336453#32)
        (by simp; omega) (by simpa using hn)
      exact ⟨ts', h, hp.trans (List.set_set_perm h1 h2)⟩

/-- The shuffle moves elements without looking at them. -/
theorem shuffle_map {α β : Type} (g : α → β) (k : Nat) : ∀ (ts : List α) (seed : BitVec 32) (ts' : List α),
    shuffle k ts seed = .ok ts' → shuffle k (ts.map g) seed = .ok (ts'.map g) := by
  induction k using Nat.strongRecOn with
  | _ k ih =>
    intro ts seed ts' h
    match k, ih, h with
    | 0, _, h => simp [shuffle] at h ⊢; rw [h]
    | 1, _, h => simp [shuffle] at h ⊢; rw [h]
    | k + 2, ih, h =>
      unfold shuffle at h ⊢
      simp only [if_neg (shuffle_amount seed)] at h ⊢
      split at h
      · simp at h
      · rename_i hn
        simp only [if_neg hn]
        split at h
        · rename_i a b ha hb
          simp only [List.getElem?_map, ha, hb, Option.map_some]
          rw [← List.map_set, ← List.map_set]
          exact ih (k + 1) (by omega) _ _ _ h
        · simp at h

/-- The random order is a permutation of the tests that depends on the seed and on their number only. -/
theorem shuffle_order : ∃ order : BitVec 32 → (n : Nat) → List (Fin n),
    (∀ seed n, n < 2 ^ 32 → (order seed n).Perm (List.finRange n)) ∧
    ∀ (α : Type) (ts : List α) (seed : BitVec 32), ts.length < 2 ^ 32 →
      shuffle ts.length ts seed = .ok ((order seed ts.length).map ts.get) := by
  refine ⟨fun seed n => match shuffle n (List.finRange n) seed with | .ok l => l | _ => [], ?_, ?_⟩
  · intro seed n hn
    obtain ⟨ts', h, hp⟩ := shuffle_perm n (List.finRange n) seed (by simp) (by simpa using hn)
    simp only [h]; exact hp
  · intro α ts seed hn
    obtain ⟨ts', h, -⟩ := shuffle_perm ts.length (List.finRange ts.length) seed (by simp) (by simpa using hn)
    simp only [h]
    have := shuffle_map ts.get _ _ _ _ h
    rw [← List.ofFn_eq_map, List.ofFn_get] at this
    exact this

/-- With 2^32 tests or a multiple of it the shuffle divides by zero. -/
theorem shuffle_huge_wrong {α : Type} (ts : List α) (seed : BitVec 32) : shuffle (2 ^ 32) ts seed = .ub .divByZero := by
  rw [show (2 ^ 32 : Nat) = 4294967294 + 2 from rfl]
  unfold shuffle
  simp only [if_neg (shuffle_amount seed)]
  rw [if_pos (by decide)]

/-- The order of `--random-order=1` for five tests. -/
example : shuffle 5 ["a", "b", "c", "d", "e"] 1 = .ok ["b", "d", "c", "e", "a"] := by decide +kernel

end Verif.Props
