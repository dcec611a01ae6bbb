import Verif.Fill

/-! # Register images and `memcpy` between registers -/

namespace Verif
open Verif.Spec

theorem imageOf_testBit {w : Nat} (hw : 0 < w) (n : Nat) (a : Fin n → BitVec w) (b : Nat) :
    (imageOf n a).testBit b = if h : b / w < n then (a ⟨b / w, h⟩).getLsbD (b % w) else false := by
  induction n generalizing b with
  | zero => simp [imageOf]
  | succ n ih =>
    rw [imageOf, Nat.add_comm, Nat.testBit_two_pow_mul_add _ (a 0).isLt]
    by_cases hb : b < w
    · have h0 : b / w = 0 := Nat.div_eq_of_lt hb
      have h1 : b % w = b := Nat.mod_eq_of_lt hb
      rw [if_pos hb, dif_pos (by omega), h1]
      have : (⟨b / w, by omega⟩ : Fin (n + 1)) = 0 := Fin.ext h0
      rw [this]
      rfl
    · have e1 : b / w = (b - w) / w + 1 := by
        rw [Nat.div_eq_sub_div hw (by omega)]
      have e2 : b % w = (b - w) % w := Nat.mod_eq_sub_mod (by omega)
      rw [if_neg hb, ih, e2]
      by_cases h : (b - w) / w < n
      · rw [dif_pos h, dif_pos (by omega)]
        congr 2
        exact Fin.ext e1.symm
      · rw [dif_neg h, dif_neg (by omega)]

theorem elem_bits_pos (e : Elem) : 0 < e.bits := by
  rcases e with t | _ | _
  · cases t <;> decide
  · decide
  · decide

theorem imageOf_regBit {e : Elem} {n : Nat} (a : Vec e n) (b : Nat) :
    (imageOf n a.lane).testBit b = regBit a b :=
  imageOf_testBit (elem_bits_pos e) n a.lane b

/-- Copying a whole register. -/
theorem memcpy_all {e e' : Elem} {n m : Nat} (a : Vec e n) (bytes : Nat)
    (h1 : bytes * 8 = n * e.bits) (h2 : bytes * 8 = m * e'.bits) :
    ∃ r : Vec e' m, (memcpyVec Arr.undef a bytes >>= fun r => r.ret) = .ok r ∧
      ∀ b, regBit r b = regBit a b := by
  refine ⟨⟨fun i => BitVec.ofNat e'.bits (imageOf n a.lane / 2 ^ (i.val * e'.bits))⟩, ?_, ?_⟩
  · unfold memcpyVec
    rw [if_pos (by omega)]
    refine (Arr.ret_some _ ?_ :)
    funext i
    rw [if_pos]
    rw [h2]
    exact Nat.mul_le_mul_right _ i.isLt
  · intro b
    have hp := elem_bits_pos e'
    rw [← imageOf_regBit a b]
    unfold regBit
    split
    · rw [BitVec.getLsbD_ofNat, Nat.testBit_div_two_pow]
      have := Nat.mod_lt b hp
      simp only [this, decide_true, Bool.true_and]
      congr 1
      rw [Nat.mul_comm]
      exact Nat.mod_add_div b e'.bits
    · rename_i h
      rw [imageOf_regBit, regBit, dif_neg]
      intro h'
      apply h
      rw [Nat.div_lt_iff_lt_mul hp, ← h2, h1]
      exact (Nat.div_lt_iff_lt_mul (elem_bits_pos e)).1 h'

/-- A register is determined by its image. -/
theorem regBit_inj {e : Elem} {n : Nat} {a b : Vec e n} (h : ∀ k, regBit a k = regBit b k) : a = b := by
  ext i : 2
  apply BitVec.eq_of_getLsbD_eq
  intro k hk
  have := h (i.val * e.bits + k)
  have hd : (i.val * e.bits + k) / e.bits = i.val := by
    rw [Nat.mul_comm, Nat.mul_add_div (elem_bits_pos e), Nat.div_eq_of_lt hk, Nat.add_zero]
  have hm : (i.val * e.bits + k) % e.bits = k := by
    rw [Nat.mul_comm, Nat.mul_add_mod, Nat.mod_eq_of_lt hk]
  unfold regBit at this
  rw [dif_pos (by omega), dif_pos (by omega), hm] at this
  have hf : (⟨(i.val * e.bits + k) / e.bits, by omega⟩ : Fin n) = i := Fin.ext hd
  rwa [hf] at this

end Verif
