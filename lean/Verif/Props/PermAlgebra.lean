/-
C86: how the lane permutations compose.
-/
import Verif.Props.Perm
import Verif.Props.Select
import Verif.Props.Move

namespace Verif.Props
open Verif.Model

/-! ## Windows

`vext(a, b, k)` is the window of the concatenation of `a` and `b` that starts at lane `k`. -/

/-- Lane `j` of the concatenation of `a` and `b`. -/
def concat {e : Elem} {n : Nat} (a b : Vec e n) (j : Nat) : BitVec e.bits :=
  if h : j < n then a.lane ⟨j, h⟩ else if h : j - n < n then b.lane ⟨j - n, h⟩ else 0

/-- What C41 says of an extraction: the window of the concatenated operands that starts at lane `k`. -/
def IsWindow {e : Elem} {n : Nat} (f : Vec e n → Vec e n → Int → C (Vec e n)) : Prop :=
  ∀ (a b : Vec e n) (k : Nat), k < n → f a b k = .ok ⟨fun i => concat a b (i.val + k)⟩

macro "window_close" : tactic => `(tactic|
  (simp only [concat]
   repeat' split
   all_goals first
     | rfl
     | (exfalso; omega)
     | (refine congrArg (Vec.lane _) (Fin.ext ?_); simp only; omega)))

section
variable {e : Elem} {n : Nat} {f : Vec e n → Vec e n → Int → C (Vec e n)} (hf : IsWindow f)
include hf

theorem window_zero (a b : Vec e n) (hn : 0 < n) : f a b 0 = .ok a := by
  rw [show (0 : Int) = ((0 : Nat) : Int) from rfl, hf a b 0 hn]
  congr 1
  ext i : 2
  have hi := i.isLt
  window_close

theorem window_low (a b c : Vec e n) (k m : Nat) (h : k + m < n) :
    (do let s ← f a b k; let t ← f b c k; f s t m) = f a b ((k + m : Nat) : Int) := by
  rw [hf a b k (by omega), ok_bind, hf b c k (by omega), ok_bind, hf _ _ m (by omega), hf a b (k + m) h]
  congr 1
  ext i : 2
  have hi := i.isLt
  window_close

theorem window_high (a b c : Vec e n) (k m : Nat) (hk : k < n) (hm : m < n) (h : n ≤ k + m) :
    (do let s ← f a b k; let t ← f b c k; f s t m) = f b c ((k + m - n : Nat) : Int) := by
  rw [hf a b k hk, ok_bind, hf b c k hk, ok_bind, hf _ _ m hm, hf b c (k + m - n) (by omega)]
  congr 1
  ext i : 2
  have hi := i.isLt
  window_close

theorem window_rotate (a : Vec e n) (k m : Nat) (hk : k < n) (hm : m < n) :
    (do let s ← f a a k; f s s m) = f a a (((k + m) % n : Nat) : Int) := by
  have e0 : f a a k = .ok _ := hf a a k hk
  by_cases h : k + m < n
  · have := window_low hf a a a k m (by omega)
    rw [e0, ok_bind, ok_bind] at this
    rw [e0, ok_bind, this, Nat.mod_eq_of_lt h]
  · have := window_high hf a a a k m hk hm (by omega)
    rw [e0, ok_bind, ok_bind] at this
    rw [e0, ok_bind, this]
    rw [show (k + m) % n = k + m - n from by
        rw [Nat.mod_eq_sub_mod (by omega)]; exact Nat.mod_eq_of_lt (by omega)]

theorem window_swap (a b : Vec e n) (k : Nat) (h0 : 0 < k) (hk : k < n) :
    (do let s ← f a b k; let t ← f b a k; f s t ((n - k : Nat) : Int)) = .ok b := by
  have := window_high hf a b a k (n - k) hk (by omega) (by omega)
  rw [this, show k + (n - k) - n = 0 by omega]
  exact window_zero hf b a (by omega)

end

theorem vext_u8_window : IsWindow vext_u8 := by
  intro a b k hk
  rw [vext_u8_spec a b k (by omega)]
  congr 1
  ext i : 2
  have hi := i.isLt
  simp only [GetElem.getElem]
  window_close

/-- Window 0 of `vext_u8` is the first operand. -/
theorem vext_u8_zero (a b : uint8x8_t) : vext_u8 a b 0 = .ok a := window_zero vext_u8_window a b (by decide)
/-- Windows of windows of a stream of registers are windows: the offsets add up, within a register ... -/
theorem vext_u8_low (a b c : uint8x8_t) (k m : Nat) (h : k + m < 8) :
    (do let s ← vext_u8 a b k; let t ← vext_u8 b c k; vext_u8 s t m) = vext_u8 a b ((k + m : Nat) : Int) := window_low vext_u8_window a b c k m h
/-- ... and across a register. -/
theorem vext_u8_high (a b c : uint8x8_t) (k m : Nat) (hk : k < 8) (hm : m < 8) (h : 8 ≤ k + m) :
    (do let s ← vext_u8 a b k; let t ← vext_u8 b c k; vext_u8 s t m) = vext_u8 b c ((k + m - 8 : Nat) : Int) :=
  window_high vext_u8_window a b c k m hk hm h
/-- With equal operands `vext_u8` rotates, and rotations add up modulo 8. -/
theorem vext_u8_rotate (a : uint8x8_t) (k m : Nat) (hk : k < 8) (hm : m < 8) :
    (do let s ← vext_u8 a a k; vext_u8 s s m) = vext_u8 a a (((k + m) % 8 : Nat) : Int) :=
  window_rotate vext_u8_window a k m hk hm
/-- The complementary window of exchanged operands gives back the second operand. -/
theorem vext_u8_swap (a b : uint8x8_t) (k : Nat) (h0 : 0 < k) (hk : k < 8) :
    (do let s ← vext_u8 a b k; let t ← vext_u8 b a k; vext_u8 s t ((8 - k : Nat) : Int)) = .ok b := window_swap vext_u8_window a b k h0 hk
example (a : uint8x8_t) := vext_u8_rotate a 3 2 (by decide) (by decide)
example (a b c : uint8x8_t) := vext_u8_low a b c 1 2 (by decide)
example (a b c : uint8x8_t) := vext_u8_high a b c 3 2 (by decide) (by decide)

theorem vext_u16_window : IsWindow vext_u16 := by
  intro a b k hk
  rw [vext_u16_spec a b k (by omega)]
  congr 1
  ext i : 2
  have hi := i.isLt
  simp only [GetElem.getElem]
  window_close

/-- Window 0 of `vext_u16` is the first operand. -/
theorem vext_u16_zero (a b : uint16x4_t) : vext_u16 a b 0 = .ok a := window_zero vext_u16_window a b (by decide)
/-- Windows of windows of a stream of registers are windows: the offsets add up, within a register ... -/
theorem vext_u16_low (a b c : uint16x4_t) (k m : Nat) (h : k + m < 4) :
    (do let s ← vext_u16 a b k; let t ← vext_u16 b c k; vext_u16 s t m) = vext_u16 a b ((k + m : Nat) : Int) := window_low vext_u16_window a b c k m h
/-- ... and across a register. -/
theorem vext_u16_high (a b c : uint16x4_t) (k m : Nat) (hk : k < 4) (hm : m < 4) (h : 4 ≤ k + m) :
    (do let s ← vext_u16 a b k; let t ← vext_u16 b c k; vext_u16 s t m) = vext_u16 b c ((k + m - 4 : Nat) : Int) :=
  window_high vext_u16_window a b c k m hk hm h
/-- With equal operands `vext_u16` rotates, and rotations add up modulo 4. -/
theorem vext_u16_rotate (a : uint16x4_t) (k m : Nat) (hk : k < 4) (hm : m < 4) :
    (do let s ← vext_u16 a a k; vext_u16 s s m) = vext_u16 a a (((k + m) % 4 : Nat) : Int) :=
  window_rotate vext_u16_window a k m hk hm
/-- The complementary window of exchanged operands gives back the second operand. -/
theorem vext_u16_swap (a b : uint16x4_t) (k : Nat) (h0 : 0 < k) (hk : k < 4) :
    (do let s ← vext_u16 a b k; let t ← vext_u16 b a k; vext_u16 s t ((4 - k : Nat) : Int)) = .ok b := window_swap vext_u16_window a b k h0 hk
example (a : uint16x4_t) := vext_u16_rotate a 3 2 (by decide) (by decide)
example (a b c : uint16x4_t) := vext_u16_low a b c 1 2 (by decide)
example (a b c : uint16x4_t) := vext_u16_high a b c 3 2 (by decide) (by decide)

theorem vext_s16_window : IsWindow vext_s16 := by
  intro a b k hk
  rw [vext_s16_spec a b k (by omega)]
  congr 1
  ext i : 2
  have hi := i.isLt
  simp only [GetElem.getElem]
  window_close

/-- Window 0 of `vext_s16` is the first operand. -/
theorem vext_s16_zero (a b : int16x4_t) : vext_s16 a b 0 = .ok a := window_zero vext_s16_window a b (by decide)
/-- Windows of windows of a stream of registers are windows: the offsets add up, within a register ... -/
theorem vext_s16_low (a b c : int16x4_t) (k m : Nat) (h : k + m < 4) :
    (do let s ← vext_s16 a b k; let t ← vext_s16 b c k; vext_s16 s t m) = vext_s16 a b ((k + m : Nat) : Int) := window_low vext_s16_window a b c k m h
/-- ... and across a register. -/
theorem vext_s16_high (a b c : int16x4_t) (k m : Nat) (hk : k < 4) (hm : m < 4) (h : 4 ≤ k + m) :
    (do let s ← vext_s16 a b k; let t ← vext_s16 b c k; vext_s16 s t m) = vext_s16 b c ((k + m - 4 : Nat) : Int) :=
  window_high vext_s16_window a b c k m hk hm h
/-- With equal operands `vext_s16` rotates, and rotations add up modulo 4. -/
theorem vext_s16_rotate (a : int16x4_t) (k m : Nat) (hk : k < 4) (hm : m < 4) :
    (do let s ← vext_s16 a a k; vext_s16 s s m) = vext_s16 a a (((k + m) % 4 : Nat) : Int) :=
  window_rotate vext_s16_window a k m hk hm
/-- The complementary window of exchanged operands gives back the second operand. -/
theorem vext_s16_swap (a b : int16x4_t) (k : Nat) (h0 : 0 < k) (hk : k < 4) :
    (do let s ← vext_s16 a b k; let t ← vext_s16 b a k; vext_s16 s t ((4 - k : Nat) : Int)) = .ok b := window_swap vext_s16_window a b k h0 hk
example (a : int16x4_t) := vext_s16_rotate a 3 2 (by decide) (by decide)
example (a b c : int16x4_t) := vext_s16_low a b c 1 2 (by decide)
example (a b c : int16x4_t) := vext_s16_high a b c 3 2 (by decide) (by decide)

theorem vextq_u16_window : IsWindow vextq_u16 := by
  intro a b k hk
  rw [vextq_u16_spec a b k (by omega)]
  congr 1
  ext i : 2
  have hi := i.isLt
  simp only [GetElem.getElem]
  window_close

/-- Window 0 of `vextq_u16` is the first operand. -/
theorem vextq_u16_zero (a b : uint16x8_t) : vextq_u16 a b 0 = .ok a := window_zero vextq_u16_window a b (by decide)
/-- Windows of windows of a stream of registers are windows: the offsets add up, within a register ... -/
theorem vextq_u16_low (a b c : uint16x8_t) (k m : Nat) (h : k + m < 8) :
    (do let s ← vextq_u16 a b k; let t ← vextq_u16 b c k; vextq_u16 s t m) = vextq_u16 a b ((k + m : Nat) : Int) := window_low vextq_u16_window a b c k m h
/-- ... and across a register. -/
theorem vextq_u16_high (a b c : uint16x8_t) (k m : Nat) (hk : k < 8) (hm : m < 8) (h : 8 ≤ k + m) :
    (do let s ← vextq_u16 a b k; let t ← vextq_u16 b c k; vextq_u16 s t m) = vextq_u16 b c ((k + m - 8 : Nat) : Int) :=
  window_high vextq_u16_window a b c k m hk hm h
/-- With equal operands `vextq_u16` rotates, and rotations add up modulo 8. -/
theorem vextq_u16_rotate (a : uint16x8_t) (k m : Nat) (hk : k < 8) (hm : m < 8) :
    (do let s ← vextq_u16 a a k; vextq_u16 s s m) = vextq_u16 a a (((k + m) % 8 : Nat) : Int) :=
  window_rotate vextq_u16_window a k m hk hm
/-- The complementary window of exchanged operands gives back the second operand. -/
theorem vextq_u16_swap (a b : uint16x8_t) (k : Nat) (h0 : 0 < k) (hk : k < 8) :
    (do let s ← vextq_u16 a b k; let t ← vextq_u16 b a k; vextq_u16 s t ((8 - k : Nat) : Int)) = .ok b := window_swap vextq_u16_window a b k h0 hk
example (a : uint16x8_t) := vextq_u16_rotate a 3 2 (by decide) (by decide)
example (a b c : uint16x8_t) := vextq_u16_low a b c 1 2 (by decide)
example (a b c : uint16x8_t) := vextq_u16_high a b c 3 2 (by decide) (by decide)

/-! ## Shuffles

Interleaving the two halves of `2 n` lanes again and again gives back the first order. -/

variable [Dialect]

/-- `vzip_u8` has order 4. -/
theorem vzip_u8_order (a b : uint8x8_t) :
    (do let r1 ← vzip_u8 a b; let r2 ← vzip_u8 r1[0] r1[1]; let r3 ← vzip_u8 r2[0] r2[1]; vzip_u8 r3[0] r3[1]) = .ok ⟨fun j => if j.val = 0 then a else b⟩ := by
  simp only [vzip_u8_spec, ok_bind]
  congr 1
  ext j i : 4
  obtain ⟨j, hj⟩ := j
  have hj : j = 0 ∨ j = 1 := by omega
  rcases hj with rfl | rfl
  · perm_dite
  · perm_dite

/-- `vzip_s8` has order 4. -/
theorem vzip_s8_order (a b : int8x8_t) :
    (do let r1 ← vzip_s8 a b; let r2 ← vzip_s8 r1[0] r1[1]; let r3 ← vzip_s8 r2[0] r2[1]; vzip_s8 r3[0] r3[1]) = .ok ⟨fun j => if j.val = 0 then a else b⟩ := by
  simp only [vzip_s8_spec, ok_bind]
  congr 1
  ext j i : 4
  obtain ⟨j, hj⟩ := j
  have hj : j = 0 ∨ j = 1 := by omega
  rcases hj with rfl | rfl
  · perm_dite
  · perm_dite

omit [Dialect] in
/-- `vzip_s16` has order 3. -/
theorem vzip_s16_order (a b : int16x4_t) :
    (do let r1 ← vzip_s16 a b; let r2 ← vzip_s16 r1[0] r1[1]; vzip_s16 r2[0] r2[1]) = .ok ⟨fun j => if j.val = 0 then a else b⟩ := by
  simp only [vzip_s16_spec, ok_bind]
  congr 1
  ext j i : 4
  obtain ⟨j, hj⟩ := j
  have hj : j = 0 ∨ j = 1 := by omega
  rcases hj with rfl | rfl
  · perm_dite
  · perm_dite

/-- `vuzp_u8` has order 4. -/
theorem vuzp_u8_order (a b : uint8x8_t) :
    (do let r1 ← vuzp_u8 a b; let r2 ← vuzp_u8 r1[0] r1[1]; let r3 ← vuzp_u8 r2[0] r2[1]; vuzp_u8 r3[0] r3[1]) = .ok ⟨fun j => if j.val = 0 then a else b⟩ := by
  simp only [vuzp_u8_spec, ok_bind]
  congr 1
  ext j i : 4
  obtain ⟨j, hj⟩ := j
  have hj : j = 0 ∨ j = 1 := by omega
  rcases hj with rfl | rfl
  · perm_dite
  · perm_dite

/-- `vuzp_s8` has order 4. -/
theorem vuzp_s8_order (a b : int8x8_t) :
    (do let r1 ← vuzp_s8 a b; let r2 ← vuzp_s8 r1[0] r1[1]; let r3 ← vuzp_s8 r2[0] r2[1]; vuzp_s8 r3[0] r3[1]) = .ok ⟨fun j => if j.val = 0 then a else b⟩ := by
  simp only [vuzp_s8_spec, ok_bind]
  congr 1
  ext j i : 4
  obtain ⟨j, hj⟩ := j
  have hj : j = 0 ∨ j = 1 := by omega
  rcases hj with rfl | rfl
  · perm_dite
  · perm_dite

/-- Reversals of blocks of different sizes commute. -/
theorem vrev16_u8_vrev32_u8_comm (a : uint8x8_t) : (vrev16_u8 a >>= vrev32_u8) = (vrev32_u8 a >>= vrev16_u8) := by
  rw [vrev16_u8_spec, ok_bind, vrev32_u8_spec, vrev32_u8_spec, ok_bind, vrev16_u8_spec]
  congr 1
  ext i : 2
  have hi := i.isLt
  refine congrArg a.lane (Fin.ext ?_)
  simp only
  omega

/-- Reversals of blocks of different sizes commute. -/
theorem vrev16_u8_vrev64_u8_comm (a : uint8x8_t) : (vrev16_u8 a >>= vrev64_u8) = (vrev64_u8 a >>= vrev16_u8) := by
  rw [vrev16_u8_spec, ok_bind, vrev64_u8_spec, vrev64_u8_spec, ok_bind, vrev16_u8_spec]
  congr 1
  ext i : 2
  have hi := i.isLt
  refine congrArg a.lane (Fin.ext ?_)
  simp only
  omega

/-- Reversals of blocks of different sizes commute. -/
theorem vrev32_u8_vrev64_u8_comm (a : uint8x8_t) : (vrev32_u8 a >>= vrev64_u8) = (vrev64_u8 a >>= vrev32_u8) := by
  rw [vrev32_u8_spec, ok_bind, vrev64_u8_spec, vrev64_u8_spec, ok_bind, vrev32_u8_spec]
  congr 1
  ext i : 2
  have hi := i.isLt
  refine congrArg a.lane (Fin.ext ?_)
  simp only
  omega

/-- Reversals of blocks of different sizes commute. -/
theorem vrev32_u16_vrev64_u16_comm (a : uint16x4_t) : (vrev32_u16 a >>= vrev64_u16) = (vrev64_u16 a >>= vrev32_u16) := by
  rw [vrev32_u16_spec, ok_bind, vrev64_u16_spec, vrev64_u16_spec, ok_bind, vrev32_u16_spec]
  congr 1
  ext i : 2
  have hi := i.isLt
  refine congrArg a.lane (Fin.ext ?_)
  simp only
  omega

/-- Reversals of blocks of different sizes commute. -/
theorem vrev32_s16_vrev64_s16_comm (a : int16x4_t) : (vrev32_s16 a >>= vrev64_s16) = (vrev64_s16 a >>= vrev32_s16) := by
  rw [vrev32_s16_spec, ok_bind, vrev64_s16_spec, vrev64_s16_spec, ok_bind, vrev32_s16_spec]
  congr 1
  ext i : 2
  have hi := i.isLt
  refine congrArg a.lane (Fin.ext ?_)
  simp only
  omega

/-- Reversals of blocks of different sizes commute. -/
theorem vrev16_s8_vrev64_s8_comm (a : int8x8_t) : (vrev16_s8 a >>= vrev64_s8) = (vrev64_s8 a >>= vrev16_s8) := by
  rw [vrev16_s8_spec, ok_bind, vrev64_s8_spec, vrev64_s8_spec, ok_bind, vrev16_s8_spec]
  congr 1
  ext i : 2
  have hi := i.isLt
  refine congrArg a.lane (Fin.ext ?_)
  simp only
  omega

/-- Reversals of blocks of different sizes commute. -/
theorem vrev16q_u8_vrev32q_u8_comm (a : uint8x16_t) : (vrev16q_u8 a >>= vrev32q_u8) = (vrev32q_u8 a >>= vrev16q_u8) := by
  rw [vrev16q_u8_spec, ok_bind, vrev32q_u8_spec, vrev32q_u8_spec, ok_bind, vrev16q_u8_spec]
  congr 1
  ext i : 2
  have hi := i.isLt
  refine congrArg a.lane (Fin.ext ?_)
  simp only
  omega

/-- Reversals of blocks of different sizes commute. -/
theorem vrev16q_u8_vrev64q_u8_comm (a : uint8x16_t) : (vrev16q_u8 a >>= vrev64q_u8) = (vrev64q_u8 a >>= vrev16q_u8) := by
  rw [vrev16q_u8_spec, ok_bind, vrev64q_u8_spec, vrev64q_u8_spec, ok_bind, vrev16q_u8_spec]
  congr 1
  ext i : 2
  have hi := i.isLt
  refine congrArg a.lane (Fin.ext ?_)
  simp only
  omega

/-- Reversals of blocks of different sizes commute. -/
theorem vrev32q_u8_vrev64q_u8_comm (a : uint8x16_t) : (vrev32q_u8 a >>= vrev64q_u8) = (vrev64q_u8 a >>= vrev32q_u8) := by
  rw [vrev32q_u8_spec, ok_bind, vrev64q_u8_spec, vrev64q_u8_spec, ok_bind, vrev32q_u8_spec]
  congr 1
  ext i : 2
  have hi := i.isLt
  refine congrArg a.lane (Fin.ext ?_)
  simp only
  omega

/-- Reversals of blocks of different sizes commute. -/
theorem vrev32q_u16_vrev64q_u16_comm (a : uint16x8_t) : (vrev32q_u16 a >>= vrev64q_u16) = (vrev64q_u16 a >>= vrev32q_u16) := by
  rw [vrev32q_u16_spec, ok_bind, vrev64q_u16_spec, vrev64q_u16_spec, ok_bind, vrev32q_u16_spec]
  congr 1
  ext i : 2
  have hi := i.isLt
  refine congrArg a.lane (Fin.ext ?_)
  simp only
  omega

/-- Reversals of blocks of different sizes commute. -/
theorem vrev16q_s8_vrev32q_s8_comm (a : int8x16_t) : (vrev16q_s8 a >>= vrev32q_s8) = (vrev32q_s8 a >>= vrev16q_s8) := by
  rw [vrev16q_s8_spec, ok_bind, vrev32q_s8_spec, vrev32q_s8_spec, ok_bind, vrev16q_s8_spec]
  congr 1
  ext i : 2
  have hi := i.isLt
  refine congrArg a.lane (Fin.ext ?_)
  simp only
  omega

/-! ## Table lookup -/

omit [Dialect] in
/-- Looking up in a looked-up table is looking up with looked-up indices. -/
theorem vtbl1_u8_assoc (a i j : uint8x8_t) (hj : ∀ k, (j.lane k).toNat < 8) :
    (do let t ← vtbl1_u8 a i; vtbl1_u8 t j) = (do let t ← vtbl1_u8 i j; vtbl1_u8 a t) := by
  simp only [vtbl1_u8_spec, ok_bind]
  congr 1
  ext k : 2
  simp only [GetElem.getElem, dif_pos (hj k)]

omit [Dialect] in
/-- The indices 0, ..., 7 look up the table itself. -/
theorem vtbl1_u8_id (a i : uint8x8_t) (hi : ∀ k, (i.lane k).toNat = k.val) : vtbl1_u8 a i = .ok a := by
  rw [vtbl1_u8_spec]
  congr 1
  ext k : 2
  have hk := k.isLt
  simp only [GetElem.getElem, hi k]
  rw [dif_pos hk]

omit [Dialect] in
/-- A permutation of indices followed by its inverse is the identity. -/
theorem vtbl1_u8_inverse (a i j : uint8x8_t) (hj : ∀ k, ∃ h : (j.lane k).toNat < 8, (i.lane ⟨_, h⟩).toNat = k.val) :
    (do let t ← vtbl1_u8 a i; vtbl1_u8 t j) = .ok a := by
  rw [vtbl1_u8_assoc a i j fun k => (hj k).1, vtbl1_u8_spec, ok_bind]
  refine vtbl1_u8_id _ _ fun k => ?_
  obtain ⟨h, e⟩ := hj k
  simp only [GetElem.getElem, dif_pos h]
  exact e

/-- `vrev64_u8` is a table lookup with descending indices. -/
theorem vtbl1_u8_vrev64_u8 (a i : uint8x8_t) (hi : ∀ k, (i.lane k).toNat = 7 - k.val) : vtbl1_u8 a i = vrev64_u8 a := by
  rw [vtbl1_u8_spec, vrev64_u8_spec]
  congr 1
  ext k : 2
  have hk := k.isLt
  simp only [GetElem.getElem, hi k]
  rw [dif_pos (by omega)]
  exact congrArg a.lane (Fin.ext (by simp only; omega))

omit [Dialect] in
/-- A window of two registers is a lookup in the table of both. -/
theorem vtbl2_u8_vext_u8 (t : uint8x8x2_t) (i : uint8x8_t) (n : Nat) (hn : n ≤ 8) (hi : ∀ k, (i.lane k).toNat = k.val + n) :
    vtbl2_u8 t i = vext_u8 t[0] t[1] n := by
  rw [vtbl2_u8_spec, vext_u8_spec _ _ n hn]
  congr 1
  ext k : 2
  have hk := k.isLt
  have h0 : ∀ (j l : Nat) (hj : j < 2) (hl : l < 8) (j' l' : Nat) (hj' : j' < 2) (hl' : l' < 8), j = j' → l = l' →
      (t.reg ⟨j, hj⟩).lane ⟨l, hl⟩ = (t.reg ⟨j', hj'⟩).lane ⟨l', hl'⟩ := by intros; subst_vars; rfl
  simp only [GetElem.getElem, hi k]
  rw [dif_pos (by omega)]
  split
  · exact h0 _ _ _ _ _ _ _ _ (by omega) (by omega)
  · exact h0 _ _ _ _ _ _ _ _ (by omega) (by omega)

omit [Dialect] in
/-- A table of two registers gives what the table of the first gives, for its indices. -/
theorem vtbl2_u8_vtbl1_u8 (t : uint8x8x2_t) (i : uint8x8_t) (hi : ∀ k, (i.lane k).toNat < 8) :
    vtbl2_u8 t i = vtbl1_u8 t[0] i := by
  rw [vtbl2_u8_spec, vtbl1_u8_spec]
  congr 1
  ext k : 2
  have h0 : ∀ (j l : Nat) (hj : j < 2) (hl : l < 8) (j' l' : Nat) (hj' : j' < 2) (hl' : l' < 8), j = j' → l = l' →
      (t.reg ⟨j, hj⟩).lane ⟨l, hl⟩ = (t.reg ⟨j', hj'⟩).lane ⟨l', hl'⟩ := by intros; subst_vars; rfl
  have h := hi k
  simp only [GetElem.getElem]
  rw [dif_pos (by omega), dif_pos h]
  exact h0 _ _ _ _ _ _ _ _ (by omega) (by omega)

omit [Dialect] in
/-- A table of four registers is two tables of two, the second with indices lowered by 16. -/
theorem vtbl4_u8_vtbl2_u8 (t : uint8x8x4_t) (lo hi : uint8x8x2_t) (i i' : uint8x8_t)
    (hl : ∀ j : Fin 2, lo.reg j = t.reg ⟨j.val, by omega⟩) (hh : ∀ j : Fin 2, hi.reg j = t.reg ⟨j.val + 2, by omega⟩)
    (hi' : ∀ k, i'.lane k = i.lane k - 16) :
    ∃ x y r, vtbl2_u8 lo i = .ok x ∧ vtbl2_u8 hi i' = .ok y ∧ vtbl4_u8 t i = .ok r ∧ ∀ k, r.lane k = x.lane k ||| y.lane k := by
  refine ⟨_, _, _, vtbl2_u8_spec lo i, vtbl2_u8_spec hi i', vtbl4_u8_spec t i, fun k => ?_⟩
  have h0 : ∀ (j l : Nat) (hj : j < 4) (hl : l < 8) (j' l' : Nat) (hj' : j' < 4) (hl' : l' < 8), j = j' → l = l' →
      (t.reg ⟨j, hj⟩).lane ⟨l, hl⟩ = (t.reg ⟨j', hj'⟩).lane ⟨l', hl'⟩ := by intros; subst_vars; rfl
  have hb := (i.lane k).isLt
  have hb : (i.lane k).toNat < 256 := hb
  have e : (i'.lane k).toNat = ((i.lane k).toNat + 240) % 256 := by
    rw [hi' k]
    show (i.lane k - 16#8).toNat = _
    rw [BitVec.toNat_sub]
    show (256 - 16 + (i.lane k).toNat) % 256 = _
    omega
  simp only [GetElem.getElem, e, hl, hh]
  by_cases h1 : (i.lane k).toNat < 16
  · rw [dif_pos (by omega), dif_pos h1, dif_neg (by omega)]
    refine Eq.trans ?_ BitVec.or_zero.symm
    exact h0 _ _ _ _ _ _ _ _ rfl rfl
  · by_cases h2 : (i.lane k).toNat < 32
    · rw [dif_pos h2, dif_neg h1, dif_pos (by omega)]
      refine Eq.trans ?_ BitVec.zero_or.symm
      exact h0 _ _ _ _ _ _ _ _ (by omega) (by omega)
    · rw [dif_neg h2, dif_neg h1, dif_neg (by omega)]
      rfl

/-- The indices 0 to 7, and descending. -/
example (a : uint8x8_t) : vtbl1_u8 a ⟨fun k => BitVec.ofNat 8 k.val⟩ = .ok a := vtbl1_u8_id a _ (by decide)
example (a : uint8x8_t) : vtbl1_u8 a ⟨fun k => BitVec.ofNat 8 (7 - k.val)⟩ = vrev64_u8 a := vtbl1_u8_vrev64_u8 a _ (by decide)
example (a : uint8x8_t) := vtbl1_u8_inverse a ⟨fun k => BitVec.ofNat 8 (7 - k.val)⟩ ⟨fun k => BitVec.ofNat 8 (7 - k.val)⟩ (by decide)
example (t : uint8x8x2_t) := vtbl2_u8_vext_u8 t ⟨fun k => BitVec.ofNat 8 (k.val + 3)⟩ 3 (by decide) (by decide)

/-! ## Halves -/

omit [Dialect] in
/-- The window in the middle of two registers consists of the high half of the first and the low half of the second. -/
theorem vextq_u16_halves (a b : uint16x8_t) :
    vextq_u16 a b 4 = (do let h ← vget_high_u16 a; let l ← vget_low_u16 b; vcombine_u16 h l) := by
  simp only [vget_high_u16_spec, vget_low_u16_spec, vcombine_u16_spec, ok_bind]
  rw [show (4 : Int) = ((4 : Nat) : Int) from rfl, vextq_u16_spec a b 4 (by decide)]
  congr 1
  ext i : 2
  have hi := i.isLt
  perm_dite

end Verif.Props
