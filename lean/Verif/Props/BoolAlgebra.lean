/-
C85: the bitwise intrinsics form a Boolean algebra.  Generated by `tools/gen_algebra.py`.
-/
import Verif.Props.Logic
import Verif.Props.Select

namespace Verif.Props
open Verif.Model
variable [Dialect]

theorem getLsbD_ones {w j : Nat} (h : j < w) : (-1 : BitVec w).getLsbD j = true := by
  rw [show (-1 : BitVec w) = BitVec.allOnes w from BitVec.neg_one_eq_allOnes, BitVec.getLsbD_allOnes]; exact decide_eq_true h

/-- Equality of bit strings, bit by bit. -/
macro "bit_ext" : tactic => `(tactic| (
  apply BitVec.eq_of_getLsbD_eq
  intro j hj
  simp only [getLsbD_ones hj, BitVec.getLsbD_and, BitVec.getLsbD_or, BitVec.getLsbD_xor, BitVec.getLsbD_not, BitVec.getLsbD_zero, hj, decide_true, Bool.true_and]
  try grind))

theorem vec_ok {e : Elem} {n : Nat} {f g : Fin n → BitVec e.bits} (h : ∀ i, f i = g i) :
    (C.ok ⟨f⟩ : C (Vec e n)) = .ok ⟨g⟩ := by rw [funext h]
theorem vec_ok' {e : Elem} {n : Nat} {f : Fin n → BitVec e.bits} {a : Vec e n} (h : ∀ i, f i = a.lane i) :
    (C.ok ⟨f⟩ : C (Vec e n)) = .ok a := by rw [funext h]

/-- Commutative. -/
theorem vand_s8_comm (a b : int8x8_t) :
    vand_s8 a b =
      vand_s8 b a := by
  simp only [vand_s8_spec, ok_bind]
  exact vec_ok fun i => BitVec.and_comm _ _

/-- Associative. -/
theorem vand_s8_assoc (a b c : int8x8_t) :
    (do let t ← vand_s8 a b; vand_s8 t c) =
      (do let t ← vand_s8 b c; vand_s8 a t) := by
  simp only [vand_s8_spec, ok_bind]
  exact vec_ok fun i => BitVec.and_assoc _ _ _

/-- Commutative. -/
theorem vorr_s8_comm (a b : int8x8_t) :
    vorr_s8 a b =
      vorr_s8 b a := by
  simp only [vorr_s8_spec, ok_bind]
  exact vec_ok fun i => BitVec.or_comm _ _

/-- Associative. -/
theorem vorr_s8_assoc (a b c : int8x8_t) :
    (do let t ← vorr_s8 a b; vorr_s8 t c) =
      (do let t ← vorr_s8 b c; vorr_s8 a t) := by
  simp only [vorr_s8_spec, ok_bind]
  exact vec_ok fun i => BitVec.or_assoc _ _ _

/-- Commutative. -/
theorem veor_s8_comm (a b : int8x8_t) :
    veor_s8 a b =
      veor_s8 b a := by
  simp only [veor_s8_spec, ok_bind]
  exact vec_ok fun i => BitVec.xor_comm _ _

/-- Associative. -/
theorem veor_s8_assoc (a b c : int8x8_t) :
    (do let t ← veor_s8 a b; veor_s8 t c) =
      (do let t ← veor_s8 b c; veor_s8 a t) := by
  simp only [veor_s8_spec, ok_bind]
  exact vec_ok fun i => BitVec.xor_assoc _ _ _

/-- Idempotent. -/
theorem vand_s8_self (a : int8x8_t) :
    vand_s8 a a =
      .ok a := by
  simp only [vand_s8_spec, ok_bind]
  exact vec_ok' fun i => BitVec.and_self

/-- Idempotent. -/
theorem vorr_s8_self (a : int8x8_t) :
    vorr_s8 a a =
      .ok a := by
  simp only [vorr_s8_spec, ok_bind]
  exact vec_ok' fun i => BitVec.or_self

/-- A register exclusive-or itself is zero. -/
theorem veor_s8_self (a : int8x8_t) :
    veor_s8 a a =
      .ok ⟨fun _ => 0⟩ := by
  simp only [veor_s8_spec, ok_bind]
  exact vec_ok fun i => BitVec.xor_self

/-- Zero annihilates. -/
theorem vand_s8_zero (a : int8x8_t) :
    vand_s8 a ⟨fun _ => 0⟩ =
      .ok ⟨fun _ => 0⟩ := by
  simp only [vand_s8_spec, ok_bind]
  exact vec_ok fun i => BitVec.and_zero

/-- All ones are neutral. -/
theorem vand_s8_ones (a : int8x8_t) :
    vand_s8 a ⟨fun _ => -1⟩ =
      .ok a := by
  simp only [vand_s8_spec, ok_bind]
  exact vec_ok' fun i => by bit_ext

/-- Zero is neutral. -/
theorem vorr_s8_zero (a : int8x8_t) :
    vorr_s8 a ⟨fun _ => 0⟩ =
      .ok a := by
  simp only [vorr_s8_spec, ok_bind]
  exact vec_ok' fun i => BitVec.or_zero

/-- All ones absorb. -/
theorem vorr_s8_ones (a : int8x8_t) :
    vorr_s8 a ⟨fun _ => -1⟩ =
      .ok ⟨fun _ => -1⟩ := by
  simp only [vorr_s8_spec, ok_bind]
  exact vec_ok fun i => by bit_ext

/-- Zero is neutral. -/
theorem veor_s8_zero (a : int8x8_t) :
    veor_s8 a ⟨fun _ => 0⟩ =
      .ok a := by
  simp only [veor_s8_spec, ok_bind]
  exact vec_ok' fun i => BitVec.xor_zero

/-- Absorption. -/
theorem vand_s8_vorr_s8_absorb (a b : int8x8_t) :
    (do let t ← vorr_s8 a b; vand_s8 a t) =
      .ok a := by
  simp only [vand_s8_spec, vorr_s8_spec, ok_bind]
  exact vec_ok' fun i => by bit_ext

/-- Absorption. -/
theorem vorr_s8_vand_s8_absorb (a b : int8x8_t) :
    (do let t ← vand_s8 a b; vorr_s8 a t) =
      .ok a := by
  simp only [vorr_s8_spec, vand_s8_spec, ok_bind]
  exact vec_ok' fun i => by bit_ext

/-- Distributive. -/
theorem vand_s8_vorr_s8_distrib (a b c : int8x8_t) :
    (do let t ← vorr_s8 b c; vand_s8 a t) =
      (do let t ← vand_s8 a b; let u ← vand_s8 a c; vorr_s8 t u) := by
  simp only [vand_s8_spec, vorr_s8_spec, ok_bind]
  exact vec_ok fun i => by bit_ext

/-- Distributive. -/
theorem vorr_s8_vand_s8_distrib (a b c : int8x8_t) :
    (do let t ← vand_s8 b c; vorr_s8 a t) =
      (do let t ← vorr_s8 a b; let u ← vorr_s8 a c; vand_s8 t u) := by
  simp only [vorr_s8_spec, vand_s8_spec, ok_bind]
  exact vec_ok fun i => by bit_ext

/-- Distributive. -/
theorem vand_s8_veor_s8_distrib (a b c : int8x8_t) :
    (do let t ← veor_s8 b c; vand_s8 a t) =
      (do let t ← vand_s8 a b; let u ← vand_s8 a c; veor_s8 t u) := by
  simp only [vand_s8_spec, veor_s8_spec, ok_bind]
  exact vec_ok fun i => by bit_ext

/-- Complement. -/
theorem vand_s8_vmvn_s8 (a : int8x8_t) :
    (do let t ← vmvn_s8 a; vand_s8 a t) =
      .ok ⟨fun _ => 0⟩ := by
  simp only [vand_s8_spec, vmvn_s8_spec, ok_bind]
  exact vec_ok fun i => by bit_ext

/-- Complement. -/
theorem vorr_s8_vmvn_s8 (a : int8x8_t) :
    (do let t ← vmvn_s8 a; vorr_s8 a t) =
      .ok ⟨fun _ => -1⟩ := by
  simp only [vorr_s8_spec, vmvn_s8_spec, ok_bind]
  exact vec_ok fun i => by bit_ext

/-- Exclusive or is the union without the intersection. -/
theorem veor_s8_vand_s8_vorr_s8 (a b : int8x8_t) :
    veor_s8 a b =
      (do let t ← vorr_s8 a b; let u ← vand_s8 a b; let v ← vmvn_s8 u; vand_s8 t v) := by
  simp only [veor_s8_spec, vand_s8_spec, vorr_s8_spec, vmvn_s8_spec, ok_bind]
  exact vec_ok fun i => by bit_ext

/-- Exclusive or with all ones is the complement. -/
theorem veor_s8_vmvn_s8 (a : int8x8_t) :
    veor_s8 a ⟨fun _ => -1⟩ =
      vmvn_s8 a := by
  simp only [veor_s8_spec, vmvn_s8_spec, ok_bind]
  exact vec_ok fun i => by bit_ext

/-- Commutative. -/
theorem vand_s16_comm (a b : int16x4_t) :
    vand_s16 a b =
      vand_s16 b a := by
  simp only [vand_s16_spec, ok_bind]
  exact vec_ok fun i => BitVec.and_comm _ _

/-- Associative. -/
theorem vand_s16_assoc (a b c : int16x4_t) :
    (do let t ← vand_s16 a b; vand_s16 t c) =
      (do let t ← vand_s16 b c; vand_s16 a t) := by
  simp only [vand_s16_spec, ok_bind]
  exact vec_ok fun i => BitVec.and_assoc _ _ _

/-- Commutative. -/
theorem vorr_s16_comm (a b : int16x4_t) :
    vorr_s16 a b =
      vorr_s16 b a := by
  simp only [vorr_s16_spec, ok_bind]
  exact vec_ok fun i => BitVec.or_comm _ _

/-- Associative. -/
theorem vorr_s16_assoc (a b c : int16x4_t) :
    (do let t ← vorr_s16 a b; vorr_s16 t c) =
      (do let t ← vorr_s16 b c; vorr_s16 a t) := by
  simp only [vorr_s16_spec, ok_bind]
  exact vec_ok fun i => BitVec.or_assoc _ _ _

/-- Commutative. -/
theorem veor_s16_comm (a b : int16x4_t) :
    veor_s16 a b =
      veor_s16 b a := by
  simp only [veor_s16_spec, ok_bind]
  exact vec_ok fun i => BitVec.xor_comm _ _

/-- Associative. -/
theorem veor_s16_assoc (a b c : int16x4_t) :
    (do let t ← veor_s16 a b; veor_s16 t c) =
      (do let t ← veor_s16 b c; veor_s16 a t) := by
  simp only [veor_s16_spec, ok_bind]
  exact vec_ok fun i => BitVec.xor_assoc _ _ _

/-- Idempotent. -/
theorem vand_s16_self (a : int16x4_t) :
    vand_s16 a a =
      .ok a := by
  simp only [vand_s16_spec, ok_bind]
  exact vec_ok' fun i => BitVec.and_self

/-- Idempotent. -/
theorem vorr_s16_self (a : int16x4_t) :
    vorr_s16 a a =
      .ok a := by
  simp only [vorr_s16_spec, ok_bind]
  exact vec_ok' fun i => BitVec.or_self

/-- A register exclusive-or itself is zero. -/
theorem veor_s16_self (a : int16x4_t) :
    veor_s16 a a =
      .ok ⟨fun _ => 0⟩ := by
  simp only [veor_s16_spec, ok_bind]
  exact vec_ok fun i => BitVec.xor_self

/-- Zero annihilates. -/
theorem vand_s16_zero (a : int16x4_t) :
    vand_s16 a ⟨fun _ => 0⟩ =
      .ok ⟨fun _ => 0⟩ := by
  simp only [vand_s16_spec, ok_bind]
  exact vec_ok fun i => BitVec.and_zero

/-- All ones are neutral. -/
theorem vand_s16_ones (a : int16x4_t) :
    vand_s16 a ⟨fun _ => -1⟩ =
      .ok a := by
  simp only [vand_s16_spec, ok_bind]
  exact vec_ok' fun i => by bit_ext

/-- Zero is neutral. -/
theorem vorr_s16_zero (a : int16x4_t) :
    vorr_s16 a ⟨fun _ => 0⟩ =
      .ok a := by
  simp only [vorr_s16_spec, ok_bind]
  exact vec_ok' fun i => BitVec.or_zero

/-- All ones absorb. -/
theorem vorr_s16_ones (a : int16x4_t) :
    vorr_s16 a ⟨fun _ => -1⟩ =
      .ok ⟨fun _ => -1⟩ := by
  simp only [vorr_s16_spec, ok_bind]
  exact vec_ok fun i => by bit_ext

/-- Zero is neutral. -/
theorem veor_s16_zero (a : int16x4_t) :
    veor_s16 a ⟨fun _ => 0⟩ =
      .ok a := by
  simp only [veor_s16_spec, ok_bind]
  exact vec_ok' fun i => BitVec.xor_zero

/-- Absorption. -/
theorem vand_s16_vorr_s16_absorb (a b : int16x4_t) :
    (do let t ← vorr_s16 a b; vand_s16 a t) =
      .ok a := by
  simp only [vand_s16_spec, vorr_s16_spec, ok_bind]
  exact vec_ok' fun i => by bit_ext

/-- Absorption. -/
theorem vorr_s16_vand_s16_absorb (a b : int16x4_t) :
    (do let t ← vand_s16 a b; vorr_s16 a t) =
      .ok a := by
  simp only [vorr_s16_spec, vand_s16_spec, ok_bind]
  exact vec_ok' fun i => by bit_ext

/-- Distributive. -/
theorem vand_s16_vorr_s16_distrib (a b c : int16x4_t) :
    (do let t ← vorr_s16 b c; vand_s16 a t) =
      (do let t ← vand_s16 a b; let u ← vand_s16 a c; vorr_s16 t u) := by
  simp only [vand_s16_spec, vorr_s16_spec, ok_bind]
  exact vec_ok fun i => by bit_ext

/-- Distributive. -/
theorem vorr_s16_vand_s16_distrib (a b c : int16x4_t) :
    (do let t ← vand_s16 b c; vorr_s16 a t) =
      (do let t ← vorr_s16 a b; let u ← vorr_s16 a c; vand_s16 t u) := by
  simp only [vorr_s16_spec, vand_s16_spec, ok_bind]
  exact vec_ok fun i => by bit_ext

/-- Distributive. -/
theorem vand_s16_veor_s16_distrib (a b c : int16x4_t) :
    (do let t ← veor_s16 b c; vand_s16 a t) =
      (do let t ← vand_s16 a b; let u ← vand_s16 a c; veor_s16 t u) := by
  simp only [vand_s16_spec, veor_s16_spec, ok_bind]
  exact vec_ok fun i => by bit_ext

/-- Complement. -/
theorem vand_s16_vmvn_s16 (a : int16x4_t) :
    (do let t ← vmvn_s16 a; vand_s16 a t) =
      .ok ⟨fun _ => 0⟩ := by
  simp only [vand_s16_spec, vmvn_s16_spec, ok_bind]
  exact vec_ok fun i => by bit_ext

/-- Complement. -/
theorem vorr_s16_vmvn_s16 (a : int16x4_t) :
    (do let t ← vmvn_s16 a; vorr_s16 a t) =
      .ok ⟨fun _ => -1⟩ := by
  simp only [vorr_s16_spec, vmvn_s16_spec, ok_bind]
  exact vec_ok fun i => by bit_ext

/-- Exclusive or is the union without the intersection. -/
theorem veor_s16_vand_s16_vorr_s16 (a b : int16x4_t) :
    veor_s16 a b =
      (do let t ← vorr_s16 a b; let u ← vand_s16 a b; let v ← vmvn_s16 u; vand_s16 t v) := by
  simp only [veor_s16_spec, vand_s16_spec, vorr_s16_spec, vmvn_s16_spec, ok_bind]
  exact vec_ok fun i => by bit_ext

/-- Exclusive or with all ones is the complement. -/
theorem veor_s16_vmvn_s16 (a : int16x4_t) :
    veor_s16 a ⟨fun _ => -1⟩ =
      vmvn_s16 a := by
  simp only [veor_s16_spec, vmvn_s16_spec, ok_bind]
  exact vec_ok fun i => by bit_ext

/-- Commutative. -/
theorem vand_s32_comm (a b : int32x2_t) :
    vand_s32 a b =
      vand_s32 b a := by
  simp only [vand_s32_spec, ok_bind]
  exact vec_ok fun i => BitVec.and_comm _ _

/-- Associative. -/
theorem vand_s32_assoc (a b c : int32x2_t) :
    (do let t ← vand_s32 a b; vand_s32 t c) =
      (do let t ← vand_s32 b c; vand_s32 a t) := by
  simp only [vand_s32_spec, ok_bind]
  exact vec_ok fun i => BitVec.and_assoc _ _ _

/-- Commutative. -/
theorem vorr_s32_comm (a b : int32x2_t) :
    vorr_s32 a b =
      vorr_s32 b a := by
  simp only [vorr_s32_spec, ok_bind]
  exact vec_ok fun i => BitVec.or_comm _ _

/-- Associative. -/
theorem vorr_s32_assoc (a b c : int32x2_t) :
    (do let t ← vorr_s32 a b; vorr_s32 t c) =
      (do let t ← vorr_s32 b c; vorr_s32 a t) := by
  simp only [vorr_s32_spec, ok_bind]
  exact vec_ok fun i => BitVec.or_assoc _ _ _

/-- Commutative. -/
theorem veor_s32_comm (a b : int32x2_t) :
    veor_s32 a b =
      veor_s32 b a := by
  simp only [veor_s32_spec, ok_bind]
  exact vec_ok fun i => BitVec.xor_comm _ _

/-- Associative. -/
theorem veor_s32_assoc (a b c : int32x2_t) :
    (do let t ← veor_s32 a b; veor_s32 t c) =
      (do let t ← veor_s32 b c; veor_s32 a t) := by
  simp only [veor_s32_spec, ok_bind]
  exact vec_ok fun i => BitVec.xor_assoc _ _ _

/-- Idempotent. -/
theorem vand_s32_self (a : int32x2_t) :
    vand_s32 a a =
      .ok a := by
  simp only [vand_s32_spec, ok_bind]
  exact vec_ok' fun i => BitVec.and_self

/-- Idempotent. -/
theorem vorr_s32_self (a : int32x2_t) :
    vorr_s32 a a =
      .ok a := by
  simp only [vorr_s32_spec, ok_bind]
  exact vec_ok' fun i => BitVec.or_self

/-- A register exclusive-or itself is zero. -/
theorem veor_s32_self (a : int32x2_t) :
    veor_s32 a a =
      .ok ⟨fun _ => 0⟩ := by
  simp only [veor_s32_spec, ok_bind]
  exact vec_ok fun i => BitVec.xor_self

/-- Zero annihilates. -/
theorem vand_s32_zero (a : int32x2_t) :
    vand_s32 a ⟨fun _ => 0⟩ =
      .ok ⟨fun _ => 0⟩ := by
  simp only [vand_s32_spec, ok_bind]
  exact vec_ok fun i => BitVec.and_zero

/-- All ones are neutral. -/
theorem vand_s32_ones (a : int32x2_t) :
    vand_s32 a ⟨fun _ => -1⟩ =
      .ok a := by
  simp only [vand_s32_spec, ok_bind]
  exact vec_ok' fun i => by bit_ext

/-- Zero is neutral. -/
theorem vorr_s32_zero (a : int32x2_t) :
    vorr_s32 a ⟨fun _ => 0⟩ =
      .ok a := by
  simp only [vorr_s32_spec, ok_bind]
  exact vec_ok' fun i => BitVec.or_zero

/-- All ones absorb. -/
theorem vorr_s32_ones (a : int32x2_t) :
    vorr_s32 a ⟨fun _ => -1⟩ =
      .ok ⟨fun _ => -1⟩ := by
  simp only [vorr_s32_spec, ok_bind]
  exact vec_ok fun i => by bit_ext

/-- Zero is neutral. -/
theorem veor_s32_zero (a : int32x2_t) :
    veor_s32 a ⟨fun _ => 0⟩ =
      .ok a := by
  simp only [veor_s32_spec, ok_bind]
  exact vec_ok' fun i => BitVec.xor_zero

/-- Absorption. -/
theorem vand_s32_vorr_s32_absorb (a b : int32x2_t) :
    (do let t ← vorr_s32 a b; vand_s32 a t) =
      .ok a := by
  simp only [vand_s32_spec, vorr_s32_spec, ok_bind]
  exact vec_ok' fun i => by bit_ext

/-- Absorption. -/
theorem vorr_s32_vand_s32_absorb (a b : int32x2_t) :
    (do let t ← vand_s32 a b; vorr_s32 a t) =
      .ok a := by
  simp only [vorr_s32_spec, vand_s32_spec, ok_bind]
  exact vec_ok' fun i => by bit_ext

/-- Distributive. -/
theorem vand_s32_vorr_s32_distrib (a b c : int32x2_t) :
    (do let t ← vorr_s32 b c; vand_s32 a t) =
      (do let t ← vand_s32 a b; let u ← vand_s32 a c; vorr_s32 t u) := by
  simp only [vand_s32_spec, vorr_s32_spec, ok_bind]
  exact vec_ok fun i => by bit_ext

/-- Distributive. -/
theorem vorr_s32_vand_s32_distrib (a b c : int32x2_t) :
    (do let t ← vand_s32 b c; vorr_s32 a t) =
      (do let t ← vorr_s32 a b; let u ← vorr_s32 a c; vand_s32 t u) := by
  simp only [vorr_s32_spec, vand_s32_spec, ok_bind]
  exact vec_ok fun i => by bit_ext

/-- Distributive. -/
theorem vand_s32_veor_s32_distrib (a b c : int32x2_t) :
    (do let t ← veor_s32 b c; vand_s32 a t) =
      (do let t ← vand_s32 a b; let u ← vand_s32 a c; veor_s32 t u) := by
  simp only [vand_s32_spec, veor_s32_spec, ok_bind]
  exact vec_ok fun i => by bit_ext

/-- Complement. -/
theorem vand_s32_vmvn_s32 (a : int32x2_t) :
    (do let t ← vmvn_s32 a; vand_s32 a t) =
      .ok ⟨fun _ => 0⟩ := by
  simp only [vand_s32_spec, vmvn_s32_spec, ok_bind]
  exact vec_ok fun i => by bit_ext

/-- Complement. -/
theorem vorr_s32_vmvn_s32 (a : int32x2_t) :
    (do let t ← vmvn_s32 a; vorr_s32 a t) =
      .ok ⟨fun _ => -1⟩ := by
  simp only [vorr_s32_spec, vmvn_s32_spec, ok_bind]
  exact vec_ok fun i => by bit_ext

/-- Exclusive or is the union without the intersection. -/
theorem veor_s32_vand_s32_vorr_s32 (a b : int32x2_t) :
    veor_s32 a b =
      (do let t ← vorr_s32 a b; let u ← vand_s32 a b; let v ← vmvn_s32 u; vand_s32 t v) := by
  simp only [veor_s32_spec, vand_s32_spec, vorr_s32_spec, vmvn_s32_spec, ok_bind]
  exact vec_ok fun i => by bit_ext

/-- Exclusive or with all ones is the complement. -/
theorem veor_s32_vmvn_s32 (a : int32x2_t) :
    veor_s32 a ⟨fun _ => -1⟩ =
      vmvn_s32 a := by
  simp only [veor_s32_spec, vmvn_s32_spec, ok_bind]
  exact vec_ok fun i => by bit_ext

/-- Commutative. -/
theorem vand_s64_comm (a b : int64x1_t) :
    vand_s64 a b =
      vand_s64 b a := by
  simp only [vand_s64_spec, ok_bind]
  exact vec_ok fun i => BitVec.and_comm _ _

/-- Associative. -/
theorem vand_s64_assoc (a b c : int64x1_t) :
    (do let t ← vand_s64 a b; vand_s64 t c) =
      (do let t ← vand_s64 b c; vand_s64 a t) := by
  simp only [vand_s64_spec, ok_bind]
  exact vec_ok fun i => BitVec.and_assoc _ _ _

/-- Commutative. -/
theorem vorr_s64_comm (a b : int64x1_t) :
    vorr_s64 a b =
      vorr_s64 b a := by
  simp only [vorr_s64_spec, ok_bind]
  exact vec_ok fun i => BitVec.or_comm _ _

/-- Associative. -/
theorem vorr_s64_assoc (a b c : int64x1_t) :
    (do let t ← vorr_s64 a b; vorr_s64 t c) =
      (do let t ← vorr_s64 b c; vorr_s64 a t) := by
  simp only [vorr_s64_spec, ok_bind]
  exact vec_ok fun i => BitVec.or_assoc _ _ _

/-- Commutative. -/
theorem veor_s64_comm (a b : int64x1_t) :
    veor_s64 a b =
      veor_s64 b a := by
  simp only [veor_s64_spec, ok_bind]
  exact vec_ok fun i => BitVec.xor_comm _ _

/-- Associative. -/
theorem veor_s64_assoc (a b c : int64x1_t) :
    (do let t ← veor_s64 a b; veor_s64 t c) =
      (do let t ← veor_s64 b c; veor_s64 a t) := by
  simp only [veor_s64_spec, ok_bind]
  exact vec_ok fun i => BitVec.xor_assoc _ _ _

/-- Idempotent. -/
theorem vand_s64_self (a : int64x1_t) :
    vand_s64 a a =
      .ok a := by
  simp only [vand_s64_spec, ok_bind]
  exact vec_ok' fun i => BitVec.and_self

/-- Idempotent. -/
theorem vorr_s64_self (a : int64x1_t) :
    vorr_s64 a a =
      .ok a := by
  simp only [vorr_s64_spec, ok_bind]
  exact vec_ok' fun i => BitVec.or_self

/-- A register exclusive-or itself is zero. -/
theorem veor_s64_self (a : int64x1_t) :
    veor_s64 a a =
      .ok ⟨fun _ => 0⟩ := by
  simp only [veor_s64_spec, ok_bind]
  exact vec_ok fun i => BitVec.xor_self

/-- Zero annihilates. -/
theorem vand_s64_zero (a : int64x1_t) :
    vand_s64 a ⟨fun _ => 0⟩ =
      .ok ⟨fun _ => 0⟩ := by
  simp only [vand_s64_spec, ok_bind]
  exact vec_ok fun i => BitVec.and_zero

/-- All ones are neutral. -/
theorem vand_s64_ones (a : int64x1_t) :
    vand_s64 a ⟨fun _ => -1⟩ =
      .ok a := by
  simp only [vand_s64_spec, ok_bind]
  exact vec_ok' fun i => by bit_ext

/-- Zero is neutral. -/
theorem vorr_s64_zero (a : int64x1_t) :
    vorr_s64 a ⟨fun _ => 0⟩ =
      .ok a := by
  simp only [vorr_s64_spec, ok_bind]
  exact vec_ok' fun i => BitVec.or_zero

/-- All ones absorb. -/
theorem vorr_s64_ones (a : int64x1_t) :
    vorr_s64 a ⟨fun _ => -1⟩ =
      .ok ⟨fun _ => -1⟩ := by
  simp only [vorr_s64_spec, ok_bind]
  exact vec_ok fun i => by bit_ext

/-- Zero is neutral. -/
theorem veor_s64_zero (a : int64x1_t) :
    veor_s64 a ⟨fun _ => 0⟩ =
      .ok a := by
  simp only [veor_s64_spec, ok_bind]
  exact vec_ok' fun i => BitVec.xor_zero

/-- Absorption. -/
theorem vand_s64_vorr_s64_absorb (a b : int64x1_t) :
    (do let t ← vorr_s64 a b; vand_s64 a t) =
      .ok a := by
  simp only [vand_s64_spec, vorr_s64_spec, ok_bind]
  exact vec_ok' fun i => by bit_ext

/-- Absorption. -/
theorem vorr_s64_vand_s64_absorb (a b : int64x1_t) :
    (do let t ← vand_s64 a b; vorr_s64 a t) =
      .ok a := by
  simp only [vorr_s64_spec, vand_s64_spec, ok_bind]
  exact vec_ok' fun i => by bit_ext

/-- Distributive. -/
theorem vand_s64_vorr_s64_distrib (a b c : int64x1_t) :
    (do let t ← vorr_s64 b c; vand_s64 a t) =
      (do let t ← vand_s64 a b; let u ← vand_s64 a c; vorr_s64 t u) := by
  simp only [vand_s64_spec, vorr_s64_spec, ok_bind]
  exact vec_ok fun i => by bit_ext

/-- Distributive. -/
theorem vorr_s64_vand_s64_distrib (a b c : int64x1_t) :
    (do let t ← vand_s64 b c; vorr_s64 a t) =
      (do let t ← vorr_s64 a b; let u ← vorr_s64 a c; vand_s64 t u) := by
  simp only [vorr_s64_spec, vand_s64_spec, ok_bind]
  exact vec_ok fun i => by bit_ext

/-- Distributive. -/
theorem vand_s64_veor_s64_distrib (a b c : int64x1_t) :
    (do let t ← veor_s64 b c; vand_s64 a t) =
      (do let t ← vand_s64 a b; let u ← vand_s64 a c; veor_s64 t u) := by
  simp only [vand_s64_spec, veor_s64_spec, ok_bind]
  exact vec_ok fun i => by bit_ext

/-- Commutative. -/
theorem vand_u8_comm (a b : uint8x8_t) :
    vand_u8 a b =
      vand_u8 b a := by
  simp only [vand_u8_spec, ok_bind]
  exact vec_ok fun i => BitVec.and_comm _ _

/-- Associative. -/
theorem vand_u8_assoc (a b c : uint8x8_t) :
    (do let t ← vand_u8 a b; vand_u8 t c) =
      (do let t ← vand_u8 b c; vand_u8 a t) := by
  simp only [vand_u8_spec, ok_bind]
  exact vec_ok fun i => BitVec.and_assoc _ _ _

/-- Commutative. -/
theorem vorr_u8_comm (a b : uint8x8_t) :
    vorr_u8 a b =
      vorr_u8 b a := by
  simp only [vorr_u8_spec, ok_bind]
  exact vec_ok fun i => BitVec.or_comm _ _

/-- Associative. -/
theorem vorr_u8_assoc (a b c : uint8x8_t) :
    (do let t ← vorr_u8 a b; vorr_u8 t c) =
      (do let t ← vorr_u8 b c; vorr_u8 a t) := by
  simp only [vorr_u8_spec, ok_bind]
  exact vec_ok fun i => BitVec.or_assoc _ _ _

/-- Commutative. -/
theorem veor_u8_comm (a b : uint8x8_t) :
    veor_u8 a b =
      veor_u8 b a := by
  simp only [veor_u8_spec, ok_bind]
  exact vec_ok fun i => BitVec.xor_comm _ _

/-- Associative. -/
theorem veor_u8_assoc (a b c : uint8x8_t) :
    (do let t ← veor_u8 a b; veor_u8 t c) =
      (do let t ← veor_u8 b c; veor_u8 a t) := by
  simp only [veor_u8_spec, ok_bind]
  exact vec_ok fun i => BitVec.xor_assoc _ _ _

/-- Idempotent. -/
theorem vand_u8_self (a : uint8x8_t) :
    vand_u8 a a =
      .ok a := by
  simp only [vand_u8_spec, ok_bind]
  exact vec_ok' fun i => BitVec.and_self

/-- Idempotent. -/
theorem vorr_u8_self (a : uint8x8_t) :
    vorr_u8 a a =
      .ok a := by
  simp only [vorr_u8_spec, ok_bind]
  exact vec_ok' fun i => BitVec.or_self

/-- A register exclusive-or itself is zero. -/
theorem veor_u8_self (a : uint8x8_t) :
    veor_u8 a a =
      .ok ⟨fun _ => 0⟩ := by
  simp only [veor_u8_spec, ok_bind]
  exact vec_ok fun i => BitVec.xor_self

/-- Zero annihilates. -/
theorem vand_u8_zero (a : uint8x8_t) :
    vand_u8 a ⟨fun _ => 0⟩ =
      .ok ⟨fun _ => 0⟩ := by
  simp only [vand_u8_spec, ok_bind]
  exact vec_ok fun i => BitVec.and_zero

/-- All ones are neutral. -/
theorem vand_u8_ones (a : uint8x8_t) :
    vand_u8 a ⟨fun _ => -1⟩ =
      .ok a := by
  simp only [vand_u8_spec, ok_bind]
  exact vec_ok' fun i => by bit_ext

/-- Zero is neutral. -/
theorem vorr_u8_zero (a : uint8x8_t) :
    vorr_u8 a ⟨fun _ => 0⟩ =
      .ok a := by
  simp only [vorr_u8_spec, ok_bind]
  exact vec_ok' fun i => BitVec.or_zero

/-- All ones absorb. -/
theorem vorr_u8_ones (a : uint8x8_t) :
    vorr_u8 a ⟨fun _ => -1⟩ =
      .ok ⟨fun _ => -1⟩ := by
  simp only [vorr_u8_spec, ok_bind]
  exact vec_ok fun i => by bit_ext

/-- Zero is neutral. -/
theorem veor_u8_zero (a : uint8x8_t) :
    veor_u8 a ⟨fun _ => 0⟩ =
      .ok a := by
  simp only [veor_u8_spec, ok_bind]
  exact vec_ok' fun i => BitVec.xor_zero

/-- Absorption. -/
theorem vand_u8_vorr_u8_absorb (a b : uint8x8_t) :
    (do let t ← vorr_u8 a b; vand_u8 a t) =
      .ok a := by
  simp only [vand_u8_spec, vorr_u8_spec, ok_bind]
  exact vec_ok' fun i => by bit_ext

/-- Absorption. -/
theorem vorr_u8_vand_u8_absorb (a b : uint8x8_t) :
    (do let t ← vand_u8 a b; vorr_u8 a t) =
      .ok a := by
  simp only [vorr_u8_spec, vand_u8_spec, ok_bind]
  exact vec_ok' fun i => by bit_ext

/-- Distributive. -/
theorem vand_u8_vorr_u8_distrib (a b c : uint8x8_t) :
    (do let t ← vorr_u8 b c; vand_u8 a t) =
      (do let t ← vand_u8 a b; let u ← vand_u8 a c; vorr_u8 t u) := by
  simp only [vand_u8_spec, vorr_u8_spec, ok_bind]
  exact vec_ok fun i => by bit_ext

/-- Distributive. -/
theorem vorr_u8_vand_u8_distrib (a b c : uint8x8_t) :
    (do let t ← vand_u8 b c; vorr_u8 a t) =
      (do let t ← vorr_u8 a b; let u ← vorr_u8 a c; vand_u8 t u) := by
  simp only [vorr_u8_spec, vand_u8_spec, ok_bind]
  exact vec_ok fun i => by bit_ext

/-- Distributive. -/
theorem vand_u8_veor_u8_distrib (a b c : uint8x8_t) :
    (do let t ← veor_u8 b c; vand_u8 a t) =
      (do let t ← vand_u8 a b; let u ← vand_u8 a c; veor_u8 t u) := by
  simp only [vand_u8_spec, veor_u8_spec, ok_bind]
  exact vec_ok fun i => by bit_ext

/-- Complement. -/
theorem vand_u8_vmvn_u8 (a : uint8x8_t) :
    (do let t ← vmvn_u8 a; vand_u8 a t) =
      .ok ⟨fun _ => 0⟩ := by
  simp only [vand_u8_spec, vmvn_u8_spec, ok_bind]
  exact vec_ok fun i => by bit_ext

/-- Complement. -/
theorem vorr_u8_vmvn_u8 (a : uint8x8_t) :
    (do let t ← vmvn_u8 a; vorr_u8 a t) =
      .ok ⟨fun _ => -1⟩ := by
  simp only [vorr_u8_spec, vmvn_u8_spec, ok_bind]
  exact vec_ok fun i => by bit_ext

/-- Exclusive or is the union without the intersection. -/
theorem veor_u8_vand_u8_vorr_u8 (a b : uint8x8_t) :
    veor_u8 a b =
      (do let t ← vorr_u8 a b; let u ← vand_u8 a b; let v ← vmvn_u8 u; vand_u8 t v) := by
  simp only [veor_u8_spec, vand_u8_spec, vorr_u8_spec, vmvn_u8_spec, ok_bind]
  exact vec_ok fun i => by bit_ext

/-- Exclusive or with all ones is the complement. -/
theorem veor_u8_vmvn_u8 (a : uint8x8_t) :
    veor_u8 a ⟨fun _ => -1⟩ =
      vmvn_u8 a := by
  simp only [veor_u8_spec, vmvn_u8_spec, ok_bind]
  exact vec_ok fun i => by bit_ext

/-- Commutative. -/
theorem vand_u16_comm (a b : uint16x4_t) :
    vand_u16 a b =
      vand_u16 b a := by
  simp only [vand_u16_spec, ok_bind]
  exact vec_ok fun i => BitVec.and_comm _ _

/-- Associative. -/
theorem vand_u16_assoc (a b c : uint16x4_t) :
    (do let t ← vand_u16 a b; vand_u16 t c) =
      (do let t ← vand_u16 b c; vand_u16 a t) := by
  simp only [vand_u16_spec, ok_bind]
  exact vec_ok fun i => BitVec.and_assoc _ _ _

/-- Commutative. -/
theorem vorr_u16_comm (a b : uint16x4_t) :
    vorr_u16 a b =
      vorr_u16 b a := by
  simp only [vorr_u16_spec, ok_bind]
  exact vec_ok fun i => BitVec.or_comm _ _

/-- Associative. -/
theorem vorr_u16_assoc (a b c : uint16x4_t) :
    (do let t ← vorr_u16 a b; vorr_u16 t c) =
      (do let t ← vorr_u16 b c; vorr_u16 a t) := by
  simp only [vorr_u16_spec, ok_bind]
  exact vec_ok fun i => BitVec.or_assoc _ _ _

/-- Commutative. -/
theorem veor_u16_comm (a b : uint16x4_t) :
    veor_u16 a b =
      veor_u16 b a := by
  simp only [veor_u16_spec, ok_bind]
  exact vec_ok fun i => BitVec.xor_comm _ _

/-- Associative. -/
theorem veor_u16_assoc (a b c : uint16x4_t) :
    (do let t ← veor_u16 a b; veor_u16 t c) =
      (do let t ← veor_u16 b c; veor_u16 a t) := by
  simp only [veor_u16_spec, ok_bind]
  exact vec_ok fun i => BitVec.xor_assoc _ _ _

/-- Idempotent. -/
theorem vand_u16_self (a : uint16x4_t) :
    vand_u16 a a =
      .ok a := by
  simp only [vand_u16_spec, ok_bind]
  exact vec_ok' fun i => BitVec.and_self

/-- Idempotent. -/
theorem vorr_u16_self (a : uint16x4_t) :
    vorr_u16 a a =
      .ok a := by
  simp only [vorr_u16_spec, ok_bind]
  exact vec_ok' fun i => BitVec.or_self

/-- A register exclusive-or itself is zero. -/
theorem veor_u16_self (a : uint16x4_t) :
    veor_u16 a a =
      .ok ⟨fun _ => 0⟩ := by
  simp only [veor_u16_spec, ok_bind]
  exact vec_ok fun i => BitVec.xor_self

/-- Zero annihilates. -/
theorem vand_u16_zero (a : uint16x4_t) :
    vand_u16 a ⟨fun _ => 0⟩ =
      .ok ⟨fun _ => 0⟩ := by
  simp only [vand_u16_spec, ok_bind]
  exact vec_ok fun i => BitVec.and_zero

/-- All ones are neutral. -/
theorem vand_u16_ones (a : uint16x4_t) :
    vand_u16 a ⟨fun _ => -1⟩ =
      .ok a := by
  simp only [vand_u16_spec, ok_bind]
  exact vec_ok' fun i => by bit_ext

/-- Zero is neutral. -/
theorem vorr_u16_zero (a : uint16x4_t) :
    vorr_u16 a ⟨fun _ => 0⟩ =
      .ok a := by
  simp only [vorr_u16_spec, ok_bind]
  exact vec_ok' fun i => BitVec.or_zero

/-- All ones absorb. -/
theorem vorr_u16_ones (a : uint16x4_t) :
    vorr_u16 a ⟨fun _ => -1⟩ =
      .ok ⟨fun _ => -1⟩ := by
  simp only [vorr_u16_spec, ok_bind]
  exact vec_ok fun i => by bit_ext

/-- Zero is neutral. -/
theorem veor_u16_zero (a : uint16x4_t) :
    veor_u16 a ⟨fun _ => 0⟩ =
      .ok a := by
  simp only [veor_u16_spec, ok_bind]
  exact vec_ok' fun i => BitVec.xor_zero

/-- Absorption. -/
theorem vand_u16_vorr_u16_absorb (a b : uint16x4_t) :
    (do let t ← vorr_u16 a b; vand_u16 a t) =
      .ok a := by
  simp only [vand_u16_spec, vorr_u16_spec, ok_bind]
  exact vec_ok' fun i => by bit_ext

/-- Absorption. -/
theorem vorr_u16_vand_u16_absorb (a b : uint16x4_t) :
    (do let t ← vand_u16 a b; vorr_u16 a t) =
      .ok a := by
  simp only [vorr_u16_spec, vand_u16_spec, ok_bind]
  exact vec_ok' fun i => by bit_ext

/-- Distributive. -/
theorem vand_u16_vorr_u16_distrib (a b c : uint16x4_t) :
    (do let t ← vorr_u16 b c; vand_u16 a t) =
      (do let t ← vand_u16 a b; let u ← vand_u16 a c; vorr_u16 t u) := by
  simp only [vand_u16_spec, vorr_u16_spec, ok_bind]
  exact vec_ok fun i => by bit_ext

/-- Distributive. -/
theorem vorr_u16_vand_u16_distrib (a b c : uint16x4_t) :
    (do let t ← vand_u16 b c; vorr_u16 a t) =
      (do let t ← vorr_u16 a b; let u ← vorr_u16 a c; vand_u16 t u) := by
  simp only [vorr_u16_spec, vand_u16_spec, ok_bind]
  exact vec_ok fun i => by bit_ext

/-- Distributive. -/
theorem vand_u16_veor_u16_distrib (a b c : uint16x4_t) :
    (do let t ← veor_u16 b c; vand_u16 a t) =
      (do let t ← vand_u16 a b; let u ← vand_u16 a c; veor_u16 t u) := by
  simp only [vand_u16_spec, veor_u16_spec, ok_bind]
  exact vec_ok fun i => by bit_ext

/-- Complement. -/
theorem vand_u16_vmvn_u16 (a : uint16x4_t) :
    (do let t ← vmvn_u16 a; vand_u16 a t) =
      .ok ⟨fun _ => 0⟩ := by
  simp only [vand_u16_spec, vmvn_u16_spec, ok_bind]
  exact vec_ok fun i => by bit_ext

/-- Complement. -/
theorem vorr_u16_vmvn_u16 (a : uint16x4_t) :
    (do let t ← vmvn_u16 a; vorr_u16 a t) =
      .ok ⟨fun _ => -1⟩ := by
  simp only [vorr_u16_spec, vmvn_u16_spec, ok_bind]
  exact vec_ok fun i => by bit_ext

/-- Exclusive or is the union without the intersection. -/
theorem veor_u16_vand_u16_vorr_u16 (a b : uint16x4_t) :
    veor_u16 a b =
      (do let t ← vorr_u16 a b; let u ← vand_u16 a b; let v ← vmvn_u16 u; vand_u16 t v) := by
  simp only [veor_u16_spec, vand_u16_spec, vorr_u16_spec, vmvn_u16_spec, ok_bind]
  exact vec_ok fun i => by bit_ext

/-- Exclusive or with all ones is the complement. -/
theorem veor_u16_vmvn_u16 (a : uint16x4_t) :
    veor_u16 a ⟨fun _ => -1⟩ =
      vmvn_u16 a := by
  simp only [veor_u16_spec, vmvn_u16_spec, ok_bind]
  exact vec_ok fun i => by bit_ext

/-- Commutative. -/
theorem vand_u32_comm (a b : uint32x2_t) :
    vand_u32 a b =
      vand_u32 b a := by
  simp only [vand_u32_spec, ok_bind]
  exact vec_ok fun i => BitVec.and_comm _ _

/-- Associative. -/
theorem vand_u32_assoc (a b c : uint32x2_t) :
    (do let t ← vand_u32 a b; vand_u32 t c) =
      (do let t ← vand_u32 b c; vand_u32 a t) := by
  simp only [vand_u32_spec, ok_bind]
  exact vec_ok fun i => BitVec.and_assoc _ _ _

/-- Commutative. -/
theorem vorr_u32_comm (a b : uint32x2_t) :
    vorr_u32 a b =
      vorr_u32 b a := by
  simp only [vorr_u32_spec, ok_bind]
  exact vec_ok fun i => BitVec.or_comm _ _

/-- Associative. -/
theorem vorr_u32_assoc (a b c : uint32x2_t) :
    (do let t ← vorr_u32 a b; vorr_u32 t c) =
      (do let t ← vorr_u32 b c; vorr_u32 a t) := by
  simp only [vorr_u32_spec, ok_bind]
  exact vec_ok fun i => BitVec.or_assoc _ _ _

/-- Idempotent. -/
theorem vand_u32_self (a : uint32x2_t) :
    vand_u32 a a =
      .ok a := by
  simp only [vand_u32_spec, ok_bind]
  exact vec_ok' fun i => BitVec.and_self

/-- Idempotent. -/
theorem vorr_u32_self (a : uint32x2_t) :
    vorr_u32 a a =
      .ok a := by
  simp only [vorr_u32_spec, ok_bind]
  exact vec_ok' fun i => BitVec.or_self

/-- Zero annihilates. -/
theorem vand_u32_zero (a : uint32x2_t) :
    vand_u32 a ⟨fun _ => 0⟩ =
      .ok ⟨fun _ => 0⟩ := by
  simp only [vand_u32_spec, ok_bind]
  exact vec_ok fun i => BitVec.and_zero

/-- All ones are neutral. -/
theorem vand_u32_ones (a : uint32x2_t) :
    vand_u32 a ⟨fun _ => -1⟩ =
      .ok a := by
  simp only [vand_u32_spec, ok_bind]
  exact vec_ok' fun i => by bit_ext

/-- Zero is neutral. -/
theorem vorr_u32_zero (a : uint32x2_t) :
    vorr_u32 a ⟨fun _ => 0⟩ =
      .ok a := by
  simp only [vorr_u32_spec, ok_bind]
  exact vec_ok' fun i => BitVec.or_zero

/-- All ones absorb. -/
theorem vorr_u32_ones (a : uint32x2_t) :
    vorr_u32 a ⟨fun _ => -1⟩ =
      .ok ⟨fun _ => -1⟩ := by
  simp only [vorr_u32_spec, ok_bind]
  exact vec_ok fun i => by bit_ext

/-- Absorption. -/
theorem vand_u32_vorr_u32_absorb (a b : uint32x2_t) :
    (do let t ← vorr_u32 a b; vand_u32 a t) =
      .ok a := by
  simp only [vand_u32_spec, vorr_u32_spec, ok_bind]
  exact vec_ok' fun i => by bit_ext

/-- Absorption. -/
theorem vorr_u32_vand_u32_absorb (a b : uint32x2_t) :
    (do let t ← vand_u32 a b; vorr_u32 a t) =
      .ok a := by
  simp only [vorr_u32_spec, vand_u32_spec, ok_bind]
  exact vec_ok' fun i => by bit_ext

/-- Distributive. -/
theorem vand_u32_vorr_u32_distrib (a b c : uint32x2_t) :
    (do let t ← vorr_u32 b c; vand_u32 a t) =
      (do let t ← vand_u32 a b; let u ← vand_u32 a c; vorr_u32 t u) := by
  simp only [vand_u32_spec, vorr_u32_spec, ok_bind]
  exact vec_ok fun i => by bit_ext

/-- Distributive. -/
theorem vorr_u32_vand_u32_distrib (a b c : uint32x2_t) :
    (do let t ← vand_u32 b c; vorr_u32 a t) =
      (do let t ← vorr_u32 a b; let u ← vorr_u32 a c; vand_u32 t u) := by
  simp only [vorr_u32_spec, vand_u32_spec, ok_bind]
  exact vec_ok fun i => by bit_ext

/-- Complement. -/
theorem vand_u32_vmvn_u32 (a : uint32x2_t) :
    (do let t ← vmvn_u32 a; vand_u32 a t) =
      .ok ⟨fun _ => 0⟩ := by
  simp only [vand_u32_spec, vmvn_u32_spec, ok_bind]
  exact vec_ok fun i => by bit_ext

/-- Complement. -/
theorem vorr_u32_vmvn_u32 (a : uint32x2_t) :
    (do let t ← vmvn_u32 a; vorr_u32 a t) =
      .ok ⟨fun _ => -1⟩ := by
  simp only [vorr_u32_spec, vmvn_u32_spec, ok_bind]
  exact vec_ok fun i => by bit_ext

/-- Commutative. -/
theorem vand_u64_comm (a b : uint64x1_t) :
    vand_u64 a b =
      vand_u64 b a := by
  simp only [vand_u64_spec, ok_bind]
  exact vec_ok fun i => BitVec.and_comm _ _

/-- Associative. -/
theorem vand_u64_assoc (a b c : uint64x1_t) :
    (do let t ← vand_u64 a b; vand_u64 t c) =
      (do let t ← vand_u64 b c; vand_u64 a t) := by
  simp only [vand_u64_spec, ok_bind]
  exact vec_ok fun i => BitVec.and_assoc _ _ _

/-- Commutative. -/
theorem vorr_u64_comm (a b : uint64x1_t) :
    vorr_u64 a b =
      vorr_u64 b a := by
  simp only [vorr_u64_spec, ok_bind]
  exact vec_ok fun i => BitVec.or_comm _ _

/-- Associative. -/
theorem vorr_u64_assoc (a b c : uint64x1_t) :
    (do let t ← vorr_u64 a b; vorr_u64 t c) =
      (do let t ← vorr_u64 b c; vorr_u64 a t) := by
  simp only [vorr_u64_spec, ok_bind]
  exact vec_ok fun i => BitVec.or_assoc _ _ _

/-- Commutative. -/
theorem veor_u64_comm (a b : uint64x1_t) :
    veor_u64 a b =
      veor_u64 b a := by
  simp only [veor_u64_spec, ok_bind]
  exact vec_ok fun i => BitVec.xor_comm _ _

/-- Associative. -/
theorem veor_u64_assoc (a b c : uint64x1_t) :
    (do let t ← veor_u64 a b; veor_u64 t c) =
      (do let t ← veor_u64 b c; veor_u64 a t) := by
  simp only [veor_u64_spec, ok_bind]
  exact vec_ok fun i => BitVec.xor_assoc _ _ _

/-- Idempotent. -/
theorem vand_u64_self (a : uint64x1_t) :
    vand_u64 a a =
      .ok a := by
  simp only [vand_u64_spec, ok_bind]
  exact vec_ok' fun i => BitVec.and_self

/-- Idempotent. -/
theorem vorr_u64_self (a : uint64x1_t) :
    vorr_u64 a a =
      .ok a := by
  simp only [vorr_u64_spec, ok_bind]
  exact vec_ok' fun i => BitVec.or_self

/-- A register exclusive-or itself is zero. -/
theorem veor_u64_self (a : uint64x1_t) :
    veor_u64 a a =
      .ok ⟨fun _ => 0⟩ := by
  simp only [veor_u64_spec, ok_bind]
  exact vec_ok fun i => BitVec.xor_self

/-- Zero annihilates. -/
theorem vand_u64_zero (a : uint64x1_t) :
    vand_u64 a ⟨fun _ => 0⟩ =
      .ok ⟨fun _ => 0⟩ := by
  simp only [vand_u64_spec, ok_bind]
  exact vec_ok fun i => BitVec.and_zero

/-- All ones are neutral. -/
theorem vand_u64_ones (a : uint64x1_t) :
    vand_u64 a ⟨fun _ => -1⟩ =
      .ok a := by
  simp only [vand_u64_spec, ok_bind]
  exact vec_ok' fun i => by bit_ext

/-- Zero is neutral. -/
theorem vorr_u64_zero (a : uint64x1_t) :
    vorr_u64 a ⟨fun _ => 0⟩ =
      .ok a := by
  simp only [vorr_u64_spec, ok_bind]
  exact vec_ok' fun i => BitVec.or_zero

/-- All ones absorb. -/
theorem vorr_u64_ones (a : uint64x1_t) :
    vorr_u64 a ⟨fun _ => -1⟩ =
      .ok ⟨fun _ => -1⟩ := by
  simp only [vorr_u64_spec, ok_bind]
  exact vec_ok fun i => by bit_ext

/-- Zero is neutral. -/
theorem veor_u64_zero (a : uint64x1_t) :
    veor_u64 a ⟨fun _ => 0⟩ =
      .ok a := by
  simp only [veor_u64_spec, ok_bind]
  exact vec_ok' fun i => BitVec.xor_zero

/-- Absorption. -/
theorem vand_u64_vorr_u64_absorb (a b : uint64x1_t) :
    (do let t ← vorr_u64 a b; vand_u64 a t) =
      .ok a := by
  simp only [vand_u64_spec, vorr_u64_spec, ok_bind]
  exact vec_ok' fun i => by bit_ext

/-- Absorption. -/
theorem vorr_u64_vand_u64_absorb (a b : uint64x1_t) :
    (do let t ← vand_u64 a b; vorr_u64 a t) =
      .ok a := by
  simp only [vorr_u64_spec, vand_u64_spec, ok_bind]
  exact vec_ok' fun i => by bit_ext

/-- Distributive. -/
theorem vand_u64_vorr_u64_distrib (a b c : uint64x1_t) :
    (do let t ← vorr_u64 b c; vand_u64 a t) =
      (do let t ← vand_u64 a b; let u ← vand_u64 a c; vorr_u64 t u) := by
  simp only [vand_u64_spec, vorr_u64_spec, ok_bind]
  exact vec_ok fun i => by bit_ext

/-- Distributive. -/
theorem vorr_u64_vand_u64_distrib (a b c : uint64x1_t) :
    (do let t ← vand_u64 b c; vorr_u64 a t) =
      (do let t ← vorr_u64 a b; let u ← vorr_u64 a c; vand_u64 t u) := by
  simp only [vorr_u64_spec, vand_u64_spec, ok_bind]
  exact vec_ok fun i => by bit_ext

/-- Distributive. -/
theorem vand_u64_veor_u64_distrib (a b c : uint64x1_t) :
    (do let t ← veor_u64 b c; vand_u64 a t) =
      (do let t ← vand_u64 a b; let u ← vand_u64 a c; veor_u64 t u) := by
  simp only [vand_u64_spec, veor_u64_spec, ok_bind]
  exact vec_ok fun i => by bit_ext

/-- Commutative. -/
theorem vandq_s8_comm (a b : int8x16_t) :
    vandq_s8 a b =
      vandq_s8 b a := by
  simp only [vandq_s8_spec, ok_bind]
  exact vec_ok fun i => BitVec.and_comm _ _

/-- Associative. -/
theorem vandq_s8_assoc (a b c : int8x16_t) :
    (do let t ← vandq_s8 a b; vandq_s8 t c) =
      (do let t ← vandq_s8 b c; vandq_s8 a t) := by
  simp only [vandq_s8_spec, ok_bind]
  exact vec_ok fun i => BitVec.and_assoc _ _ _

/-- Commutative. -/
theorem vorrq_s8_comm (a b : int8x16_t) :
    vorrq_s8 a b =
      vorrq_s8 b a := by
  simp only [vorrq_s8_spec, ok_bind]
  exact vec_ok fun i => BitVec.or_comm _ _

/-- Associative. -/
theorem vorrq_s8_assoc (a b c : int8x16_t) :
    (do let t ← vorrq_s8 a b; vorrq_s8 t c) =
      (do let t ← vorrq_s8 b c; vorrq_s8 a t) := by
  simp only [vorrq_s8_spec, ok_bind]
  exact vec_ok fun i => BitVec.or_assoc _ _ _

/-- Commutative. -/
theorem veorq_s8_comm (a b : int8x16_t) :
    veorq_s8 a b =
      veorq_s8 b a := by
  simp only [veorq_s8_spec, ok_bind]
  exact vec_ok fun i => BitVec.xor_comm _ _

/-- Associative. -/
theorem veorq_s8_assoc (a b c : int8x16_t) :
    (do let t ← veorq_s8 a b; veorq_s8 t c) =
      (do let t ← veorq_s8 b c; veorq_s8 a t) := by
  simp only [veorq_s8_spec, ok_bind]
  exact vec_ok fun i => BitVec.xor_assoc _ _ _

/-- Idempotent. -/
theorem vandq_s8_self (a : int8x16_t) :
    vandq_s8 a a =
      .ok a := by
  simp only [vandq_s8_spec, ok_bind]
  exact vec_ok' fun i => BitVec.and_self

/-- Idempotent. -/
theorem vorrq_s8_self (a : int8x16_t) :
    vorrq_s8 a a =
      .ok a := by
  simp only [vorrq_s8_spec, ok_bind]
  exact vec_ok' fun i => BitVec.or_self

/-- A register exclusive-or itself is zero. -/
theorem veorq_s8_self (a : int8x16_t) :
    veorq_s8 a a =
      .ok ⟨fun _ => 0⟩ := by
  simp only [veorq_s8_spec, ok_bind]
  exact vec_ok fun i => BitVec.xor_self

/-- Zero annihilates. -/
theorem vandq_s8_zero (a : int8x16_t) :
    vandq_s8 a ⟨fun _ => 0⟩ =
      .ok ⟨fun _ => 0⟩ := by
  simp only [vandq_s8_spec, ok_bind]
  exact vec_ok fun i => BitVec.and_zero

/-- All ones are neutral. -/
theorem vandq_s8_ones (a : int8x16_t) :
    vandq_s8 a ⟨fun _ => -1⟩ =
      .ok a := by
  simp only [vandq_s8_spec, ok_bind]
  exact vec_ok' fun i => by bit_ext

/-- Zero is neutral. -/
theorem vorrq_s8_zero (a : int8x16_t) :
    vorrq_s8 a ⟨fun _ => 0⟩ =
      .ok a := by
  simp only [vorrq_s8_spec, ok_bind]
  exact vec_ok' fun i => BitVec.or_zero

/-- All ones absorb. -/
theorem vorrq_s8_ones (a : int8x16_t) :
    vorrq_s8 a ⟨fun _ => -1⟩ =
      .ok ⟨fun _ => -1⟩ := by
  simp only [vorrq_s8_spec, ok_bind]
  exact vec_ok fun i => by bit_ext

/-- Zero is neutral. -/
theorem veorq_s8_zero (a : int8x16_t) :
    veorq_s8 a ⟨fun _ => 0⟩ =
      .ok a := by
  simp only [veorq_s8_spec, ok_bind]
  exact vec_ok' fun i => BitVec.xor_zero

/-- Absorption. -/
theorem vandq_s8_vorrq_s8_absorb (a b : int8x16_t) :
    (do let t ← vorrq_s8 a b; vandq_s8 a t) =
      .ok a := by
  simp only [vandq_s8_spec, vorrq_s8_spec, ok_bind]
  exact vec_ok' fun i => by bit_ext

/-- Absorption. -/
theorem vorrq_s8_vandq_s8_absorb (a b : int8x16_t) :
    (do let t ← vandq_s8 a b; vorrq_s8 a t) =
      .ok a := by
  simp only [vorrq_s8_spec, vandq_s8_spec, ok_bind]
  exact vec_ok' fun i => by bit_ext

/-- Distributive. -/
theorem vandq_s8_vorrq_s8_distrib (a b c : int8x16_t) :
    (do let t ← vorrq_s8 b c; vandq_s8 a t) =
      (do let t ← vandq_s8 a b; let u ← vandq_s8 a c; vorrq_s8 t u) := by
  simp only [vandq_s8_spec, vorrq_s8_spec, ok_bind]
  exact vec_ok fun i => by bit_ext

/-- Distributive. -/
theorem vorrq_s8_vandq_s8_distrib (a b c : int8x16_t) :
    (do let t ← vandq_s8 b c; vorrq_s8 a t) =
      (do let t ← vorrq_s8 a b; let u ← vorrq_s8 a c; vandq_s8 t u) := by
  simp only [vorrq_s8_spec, vandq_s8_spec, ok_bind]
  exact vec_ok fun i => by bit_ext

/-- Distributive. -/
theorem vandq_s8_veorq_s8_distrib (a b c : int8x16_t) :
    (do let t ← veorq_s8 b c; vandq_s8 a t) =
      (do let t ← vandq_s8 a b; let u ← vandq_s8 a c; veorq_s8 t u) := by
  simp only [vandq_s8_spec, veorq_s8_spec, ok_bind]
  exact vec_ok fun i => by bit_ext

/-- Complement. -/
theorem vandq_s8_vmvnq_s8 (a : int8x16_t) :
    (do let t ← vmvnq_s8 a; vandq_s8 a t) =
      .ok ⟨fun _ => 0⟩ := by
  simp only [vandq_s8_spec, vmvnq_s8_spec, ok_bind]
  exact vec_ok fun i => by bit_ext

/-- Complement. -/
theorem vorrq_s8_vmvnq_s8 (a : int8x16_t) :
    (do let t ← vmvnq_s8 a; vorrq_s8 a t) =
      .ok ⟨fun _ => -1⟩ := by
  simp only [vorrq_s8_spec, vmvnq_s8_spec, ok_bind]
  exact vec_ok fun i => by bit_ext

/-- Exclusive or is the union without the intersection. -/
theorem veorq_s8_vandq_s8_vorrq_s8 (a b : int8x16_t) :
    veorq_s8 a b =
      (do let t ← vorrq_s8 a b; let u ← vandq_s8 a b; let v ← vmvnq_s8 u; vandq_s8 t v) := by
  simp only [veorq_s8_spec, vandq_s8_spec, vorrq_s8_spec, vmvnq_s8_spec, ok_bind]
  exact vec_ok fun i => by bit_ext

/-- Exclusive or with all ones is the complement. -/
theorem veorq_s8_vmvnq_s8 (a : int8x16_t) :
    veorq_s8 a ⟨fun _ => -1⟩ =
      vmvnq_s8 a := by
  simp only [veorq_s8_spec, vmvnq_s8_spec, ok_bind]
  exact vec_ok fun i => by bit_ext

/-- Commutative. -/
theorem vandq_s16_comm (a b : int16x8_t) :
    vandq_s16 a b =
      vandq_s16 b a := by
  simp only [vandq_s16_spec, ok_bind]
  exact vec_ok fun i => BitVec.and_comm _ _

/-- Associative. -/
theorem vandq_s16_assoc (a b c : int16x8_t) :
    (do let t ← vandq_s16 a b; vandq_s16 t c) =
      (do let t ← vandq_s16 b c; vandq_s16 a t) := by
  simp only [vandq_s16_spec, ok_bind]
  exact vec_ok fun i => BitVec.and_assoc _ _ _

/-- Commutative. -/
theorem vorrq_s16_comm (a b : int16x8_t) :
    vorrq_s16 a b =
      vorrq_s16 b a := by
  simp only [vorrq_s16_spec, ok_bind]
  exact vec_ok fun i => BitVec.or_comm _ _

/-- Associative. -/
theorem vorrq_s16_assoc (a b c : int16x8_t) :
    (do let t ← vorrq_s16 a b; vorrq_s16 t c) =
      (do let t ← vorrq_s16 b c; vorrq_s16 a t) := by
  simp only [vorrq_s16_spec, ok_bind]
  exact vec_ok fun i => BitVec.or_assoc _ _ _

/-- Commutative. -/
theorem veorq_s16_comm (a b : int16x8_t) :
    veorq_s16 a b =
      veorq_s16 b a := by
  simp only [veorq_s16_spec, ok_bind]
  exact vec_ok fun i => BitVec.xor_comm _ _

/-- Associative. -/
theorem veorq_s16_assoc (a b c : int16x8_t) :
    (do let t ← veorq_s16 a b; veorq_s16 t c) =
      (do let t ← veorq_s16 b c; veorq_s16 a t) := by
  simp only [veorq_s16_spec, ok_bind]
  exact vec_ok fun i => BitVec.xor_assoc _ _ _

/-- Idempotent. -/
theorem vandq_s16_self (a : int16x8_t) :
    vandq_s16 a a =
      .ok a := by
  simp only [vandq_s16_spec, ok_bind]
  exact vec_ok' fun i => BitVec.and_self

/-- Idempotent. -/
theorem vorrq_s16_self (a : int16x8_t) :
    vorrq_s16 a a =
      .ok a := by
  simp only [vorrq_s16_spec, ok_bind]
  exact vec_ok' fun i => BitVec.or_self

/-- A register exclusive-or itself is zero. -/
theorem veorq_s16_self (a : int16x8_t) :
    veorq_s16 a a =
      .ok ⟨fun _ => 0⟩ := by
  simp only [veorq_s16_spec, ok_bind]
  exact vec_ok fun i => BitVec.xor_self

/-- Zero annihilates. -/
theorem vandq_s16_zero (a : int16x8_t) :
    vandq_s16 a ⟨fun _ => 0⟩ =
      .ok ⟨fun _ => 0⟩ := by
  simp only [vandq_s16_spec, ok_bind]
  exact vec_ok fun i => BitVec.and_zero

/-- All ones are neutral. -/
theorem vandq_s16_ones (a : int16x8_t) :
    vandq_s16 a ⟨fun _ => -1⟩ =
      .ok a := by
  simp only [vandq_s16_spec, ok_bind]
  exact vec_ok' fun i => by bit_ext

/-- Zero is neutral. -/
theorem vorrq_s16_zero (a : int16x8_t) :
    vorrq_s16 a ⟨fun _ => 0⟩ =
      .ok a := by
  simp only [vorrq_s16_spec, ok_bind]
  exact vec_ok' fun i => BitVec.or_zero

/-- All ones absorb. -/
theorem vorrq_s16_ones (a : int16x8_t) :
    vorrq_s16 a ⟨fun _ => -1⟩ =
      .ok ⟨fun _ => -1⟩ := by
  simp only [vorrq_s16_spec, ok_bind]
  exact vec_ok fun i => by bit_ext

/-- Zero is neutral. -/
theorem veorq_s16_zero (a : int16x8_t) :
    veorq_s16 a ⟨fun _ => 0⟩ =
      .ok a := by
  simp only [veorq_s16_spec, ok_bind]
  exact vec_ok' fun i => BitVec.xor_zero

/-- Absorption. -/
theorem vandq_s16_vorrq_s16_absorb (a b : int16x8_t) :
    (do let t ← vorrq_s16 a b; vandq_s16 a t) =
      .ok a := by
  simp only [vandq_s16_spec, vorrq_s16_spec, ok_bind]
  exact vec_ok' fun i => by bit_ext

/-- Absorption. -/
theorem vorrq_s16_vandq_s16_absorb (a b : int16x8_t) :
    (do let t ← vandq_s16 a b; vorrq_s16 a t) =
      .ok a := by
  simp only [vorrq_s16_spec, vandq_s16_spec, ok_bind]
  exact vec_ok' fun i => by bit_ext

/-- Distributive. -/
theorem vandq_s16_vorrq_s16_distrib (a b c : int16x8_t) :
    (do let t ← vorrq_s16 b c; vandq_s16 a t) =
      (do let t ← vandq_s16 a b; let u ← vandq_s16 a c; vorrq_s16 t u) := by
  simp only [vandq_s16_spec, vorrq_s16_spec, ok_bind]
  exact vec_ok fun i => by bit_ext

/-- Distributive. -/
theorem vorrq_s16_vandq_s16_distrib (a b c : int16x8_t) :
    (do let t ← vandq_s16 b c; vorrq_s16 a t) =
      (do let t ← vorrq_s16 a b; let u ← vorrq_s16 a c; vandq_s16 t u) := by
  simp only [vorrq_s16_spec, vandq_s16_spec, ok_bind]
  exact vec_ok fun i => by bit_ext

/-- Distributive. -/
theorem vandq_s16_veorq_s16_distrib (a b c : int16x8_t) :
    (do let t ← veorq_s16 b c; vandq_s16 a t) =
      (do let t ← vandq_s16 a b; let u ← vandq_s16 a c; veorq_s16 t u) := by
  simp only [vandq_s16_spec, veorq_s16_spec, ok_bind]
  exact vec_ok fun i => by bit_ext

/-- Complement. -/
theorem vandq_s16_vmvnq_s16 (a : int16x8_t) :
    (do let t ← vmvnq_s16 a; vandq_s16 a t) =
      .ok ⟨fun _ => 0⟩ := by
  simp only [vandq_s16_spec, vmvnq_s16_spec, ok_bind]
  exact vec_ok fun i => by bit_ext

/-- Complement. -/
theorem vorrq_s16_vmvnq_s16 (a : int16x8_t) :
    (do let t ← vmvnq_s16 a; vorrq_s16 a t) =
      .ok ⟨fun _ => -1⟩ := by
  simp only [vorrq_s16_spec, vmvnq_s16_spec, ok_bind]
  exact vec_ok fun i => by bit_ext

/-- Exclusive or is the union without the intersection. -/
theorem veorq_s16_vandq_s16_vorrq_s16 (a b : int16x8_t) :
    veorq_s16 a b =
      (do let t ← vorrq_s16 a b; let u ← vandq_s16 a b; let v ← vmvnq_s16 u; vandq_s16 t v) := by
  simp only [veorq_s16_spec, vandq_s16_spec, vorrq_s16_spec, vmvnq_s16_spec, ok_bind]
  exact vec_ok fun i => by bit_ext

/-- Exclusive or with all ones is the complement. -/
theorem veorq_s16_vmvnq_s16 (a : int16x8_t) :
    veorq_s16 a ⟨fun _ => -1⟩ =
      vmvnq_s16 a := by
  simp only [veorq_s16_spec, vmvnq_s16_spec, ok_bind]
  exact vec_ok fun i => by bit_ext

/-- Commutative. -/
theorem vandq_s32_comm (a b : int32x4_t) :
    vandq_s32 a b =
      vandq_s32 b a := by
  simp only [vandq_s32_spec, ok_bind]
  exact vec_ok fun i => BitVec.and_comm _ _

/-- Associative. -/
theorem vandq_s32_assoc (a b c : int32x4_t) :
    (do let t ← vandq_s32 a b; vandq_s32 t c) =
      (do let t ← vandq_s32 b c; vandq_s32 a t) := by
  simp only [vandq_s32_spec, ok_bind]
  exact vec_ok fun i => BitVec.and_assoc _ _ _

/-- Commutative. -/
theorem vorrq_s32_comm (a b : int32x4_t) :
    vorrq_s32 a b =
      vorrq_s32 b a := by
  simp only [vorrq_s32_spec, ok_bind]
  exact vec_ok fun i => BitVec.or_comm _ _

/-- Associative. -/
theorem vorrq_s32_assoc (a b c : int32x4_t) :
    (do let t ← vorrq_s32 a b; vorrq_s32 t c) =
      (do let t ← vorrq_s32 b c; vorrq_s32 a t) := by
  simp only [vorrq_s32_spec, ok_bind]
  exact vec_ok fun i => BitVec.or_assoc _ _ _

/-- Commutative. -/
theorem veorq_s32_comm (a b : int32x4_t) :
    veorq_s32 a b =
      veorq_s32 b a := by
  simp only [veorq_s32_spec, ok_bind]
  exact vec_ok fun i => BitVec.xor_comm _ _

/-- Associative. -/
theorem veorq_s32_assoc (a b c : int32x4_t) :
    (do let t ← veorq_s32 a b; veorq_s32 t c) =
      (do let t ← veorq_s32 b c; veorq_s32 a t) := by
  simp only [veorq_s32_spec, ok_bind]
  exact vec_ok fun i => BitVec.xor_assoc _ _ _

/-- Idempotent. -/
theorem vandq_s32_self (a : int32x4_t) :
    vandq_s32 a a =
      .ok a := by
  simp only [vandq_s32_spec, ok_bind]
  exact vec_ok' fun i => BitVec.and_self

/-- Idempotent. -/
theorem vorrq_s32_self (a : int32x4_t) :
    vorrq_s32 a a =
      .ok a := by
  simp only [vorrq_s32_spec, ok_bind]
  exact vec_ok' fun i => BitVec.or_self

/-- A register exclusive-or itself is zero. -/
theorem veorq_s32_self (a : int32x4_t) :
    veorq_s32 a a =
      .ok ⟨fun _ => 0⟩ := by
  simp only [veorq_s32_spec, ok_bind]
  exact vec_ok fun i => BitVec.xor_self

/-- Zero annihilates. -/
theorem vandq_s32_zero (a : int32x4_t) :
    vandq_s32 a ⟨fun _ => 0⟩ =
      .ok ⟨fun _ => 0⟩ := by
  simp only [vandq_s32_spec, ok_bind]
  exact vec_ok fun i => BitVec.and_zero

/-- All ones are neutral. -/
theorem vandq_s32_ones (a : int32x4_t) :
    vandq_s32 a ⟨fun _ => -1⟩ =
      .ok a := by
  simp only [vandq_s32_spec, ok_bind]
  exact vec_ok' fun i => by bit_ext

/-- Zero is neutral. -/
theorem vorrq_s32_zero (a : int32x4_t) :
    vorrq_s32 a ⟨fun _ => 0⟩ =
      .ok a := by
  simp only [vorrq_s32_spec, ok_bind]
  exact vec_ok' fun i => BitVec.or_zero

/-- All ones absorb. -/
theorem vorrq_s32_ones (a : int32x4_t) :
    vorrq_s32 a ⟨fun _ => -1⟩ =
      .ok ⟨fun _ => -1⟩ := by
  simp only [vorrq_s32_spec, ok_bind]
  exact vec_ok fun i => by bit_ext

/-- Zero is neutral. -/
theorem veorq_s32_zero (a : int32x4_t) :
    veorq_s32 a ⟨fun _ => 0⟩ =
      .ok a := by
  simp only [veorq_s32_spec, ok_bind]
  exact vec_ok' fun i => BitVec.xor_zero

/-- Absorption. -/
theorem vandq_s32_vorrq_s32_absorb (a b : int32x4_t) :
    (do let t ← vorrq_s32 a b; vandq_s32 a t) =
      .ok a := by
  simp only [vandq_s32_spec, vorrq_s32_spec, ok_bind]
  exact vec_ok' fun i => by bit_ext

/-- Absorption. -/
theorem vorrq_s32_vandq_s32_absorb (a b : int32x4_t) :
    (do let t ← vandq_s32 a b; vorrq_s32 a t) =
      .ok a := by
  simp only [vorrq_s32_spec, vandq_s32_spec, ok_bind]
  exact vec_ok' fun i => by bit_ext

/-- Distributive. -/
theorem vandq_s32_vorrq_s32_distrib (a b c : int32x4_t) :
    (do let t ← vorrq_s32 b c; vandq_s32 a t) =
      (do let t ← vandq_s32 a b; let u ← vandq_s32 a c; vorrq_s32 t u) := by
  simp only [vandq_s32_spec, vorrq_s32_spec, ok_bind]
  exact vec_ok fun i => by bit_ext

/-- Distributive. -/
theorem vorrq_s32_vandq_s32_distrib (a b c : int32x4_t) :
    (do let t ← vandq_s32 b c; vorrq_s32 a t) =
      (do let t ← vorrq_s32 a b; let u ← vorrq_s32 a c; vandq_s32 t u) := by
  simp only [vorrq_s32_spec, vandq_s32_spec, ok_bind]
  exact vec_ok fun i => by bit_ext

/-- Distributive. -/
theorem vandq_s32_veorq_s32_distrib (a b c : int32x4_t) :
    (do let t ← veorq_s32 b c; vandq_s32 a t) =
      (do let t ← vandq_s32 a b; let u ← vandq_s32 a c; veorq_s32 t u) := by
  simp only [vandq_s32_spec, veorq_s32_spec, ok_bind]
  exact vec_ok fun i => by bit_ext

/-- Complement. -/
theorem vandq_s32_vmvnq_s32 (a : int32x4_t) :
    (do let t ← vmvnq_s32 a; vandq_s32 a t) =
      .ok ⟨fun _ => 0⟩ := by
  simp only [vandq_s32_spec, vmvnq_s32_spec, ok_bind]
  exact vec_ok fun i => by bit_ext

/-- Complement. -/
theorem vorrq_s32_vmvnq_s32 (a : int32x4_t) :
    (do let t ← vmvnq_s32 a; vorrq_s32 a t) =
      .ok ⟨fun _ => -1⟩ := by
  simp only [vorrq_s32_spec, vmvnq_s32_spec, ok_bind]
  exact vec_ok fun i => by bit_ext

/-- Exclusive or is the union without the intersection. -/
theorem veorq_s32_vandq_s32_vorrq_s32 (a b : int32x4_t) :
    veorq_s32 a b =
      (do let t ← vorrq_s32 a b; let u ← vandq_s32 a b; let v ← vmvnq_s32 u; vandq_s32 t v) := by
  simp only [veorq_s32_spec, vandq_s32_spec, vorrq_s32_spec, vmvnq_s32_spec, ok_bind]
  exact vec_ok fun i => by bit_ext

/-- Exclusive or with all ones is the complement. -/
theorem veorq_s32_vmvnq_s32 (a : int32x4_t) :
    veorq_s32 a ⟨fun _ => -1⟩ =
      vmvnq_s32 a := by
  simp only [veorq_s32_spec, vmvnq_s32_spec, ok_bind]
  exact vec_ok fun i => by bit_ext

/-- Commutative. -/
theorem vandq_s64_comm (a b : int64x2_t) :
    vandq_s64 a b =
      vandq_s64 b a := by
  simp only [vandq_s64_spec, ok_bind]
  exact vec_ok fun i => BitVec.and_comm _ _

/-- Associative. -/
theorem vandq_s64_assoc (a b c : int64x2_t) :
    (do let t ← vandq_s64 a b; vandq_s64 t c) =
      (do let t ← vandq_s64 b c; vandq_s64 a t) := by
  simp only [vandq_s64_spec, ok_bind]
  exact vec_ok fun i => BitVec.and_assoc _ _ _

/-- Commutative. -/
theorem vorrq_s64_comm (a b : int64x2_t) :
    vorrq_s64 a b =
      vorrq_s64 b a := by
  simp only [vorrq_s64_spec, ok_bind]
  exact vec_ok fun i => BitVec.or_comm _ _

/-- Associative. -/
theorem vorrq_s64_assoc (a b c : int64x2_t) :
    (do let t ← vorrq_s64 a b; vorrq_s64 t c) =
      (do let t ← vorrq_s64 b c; vorrq_s64 a t) := by
  simp only [vorrq_s64_spec, ok_bind]
  exact vec_ok fun i => BitVec.or_assoc _ _ _

/-- Commutative. -/
theorem veorq_s64_comm (a b : int64x2_t) :
    veorq_s64 a b =
      veorq_s64 b a := by
  simp only [veorq_s64_spec, ok_bind]
  exact vec_ok fun i => BitVec.xor_comm _ _

/-- Associative. -/
theorem veorq_s64_assoc (a b c : int64x2_t) :
    (do let t ← veorq_s64 a b; veorq_s64 t c) =
      (do let t ← veorq_s64 b c; veorq_s64 a t) := by
  simp only [veorq_s64_spec, ok_bind]
  exact vec_ok fun i => BitVec.xor_assoc _ _ _

/-- Idempotent. -/
theorem vandq_s64_self (a : int64x2_t) :
    vandq_s64 a a =
      .ok a := by
  simp only [vandq_s64_spec, ok_bind]
  exact vec_ok' fun i => BitVec.and_self

/-- Idempotent. -/
theorem vorrq_s64_self (a : int64x2_t) :
    vorrq_s64 a a =
      .ok a := by
  simp only [vorrq_s64_spec, ok_bind]
  exact vec_ok' fun i => BitVec.or_self

/-- A register exclusive-or itself is zero. -/
theorem veorq_s64_self (a : int64x2_t) :
    veorq_s64 a a =
      .ok ⟨fun _ => 0⟩ := by
  simp only [veorq_s64_spec, ok_bind]
  exact vec_ok fun i => BitVec.xor_self

/-- Zero annihilates. -/
theorem vandq_s64_zero (a : int64x2_t) :
    vandq_s64 a ⟨fun _ => 0⟩ =
      .ok ⟨fun _ => 0⟩ := by
  simp only [vandq_s64_spec, ok_bind]
  exact vec_ok fun i => BitVec.and_zero

/-- All ones are neutral. -/
theorem vandq_s64_ones (a : int64x2_t) :
    vandq_s64 a ⟨fun _ => -1⟩ =
      .ok a := by
  simp only [vandq_s64_spec, ok_bind]
  exact vec_ok' fun i => by bit_ext

/-- Zero is neutral. -/
theorem vorrq_s64_zero (a : int64x2_t) :
    vorrq_s64 a ⟨fun _ => 0⟩ =
      .ok a := by
  simp only [vorrq_s64_spec, ok_bind]
  exact vec_ok' fun i => BitVec.or_zero

/-- All ones absorb. -/
theorem vorrq_s64_ones (a : int64x2_t) :
    vorrq_s64 a ⟨fun _ => -1⟩ =
      .ok ⟨fun _ => -1⟩ := by
  simp only [vorrq_s64_spec, ok_bind]
  exact vec_ok fun i => by bit_ext

/-- Zero is neutral. -/
theorem veorq_s64_zero (a : int64x2_t) :
    veorq_s64 a ⟨fun _ => 0⟩ =
      .ok a := by
  simp only [veorq_s64_spec, ok_bind]
  exact vec_ok' fun i => BitVec.xor_zero

/-- Absorption. -/
theorem vandq_s64_vorrq_s64_absorb (a b : int64x2_t) :
    (do let t ← vorrq_s64 a b; vandq_s64 a t) =
      .ok a := by
  simp only [vandq_s64_spec, vorrq_s64_spec, ok_bind]
  exact vec_ok' fun i => by bit_ext

/-- Absorption. -/
theorem vorrq_s64_vandq_s64_absorb (a b : int64x2_t) :
    (do let t ← vandq_s64 a b; vorrq_s64 a t) =
      .ok a := by
  simp only [vorrq_s64_spec, vandq_s64_spec, ok_bind]
  exact vec_ok' fun i => by bit_ext

/-- Distributive. -/
theorem vandq_s64_vorrq_s64_distrib (a b c : int64x2_t) :
    (do let t ← vorrq_s64 b c; vandq_s64 a t) =
      (do let t ← vandq_s64 a b; let u ← vandq_s64 a c; vorrq_s64 t u) := by
  simp only [vandq_s64_spec, vorrq_s64_spec, ok_bind]
  exact vec_ok fun i => by bit_ext

/-- Distributive. -/
theorem vorrq_s64_vandq_s64_distrib (a b c : int64x2_t) :
    (do let t ← vandq_s64 b c; vorrq_s64 a t) =
      (do let t ← vorrq_s64 a b; let u ← vorrq_s64 a c; vandq_s64 t u) := by
  simp only [vorrq_s64_spec, vandq_s64_spec, ok_bind]
  exact vec_ok fun i => by bit_ext

/-- Distributive. -/
theorem vandq_s64_veorq_s64_distrib (a b c : int64x2_t) :
    (do let t ← veorq_s64 b c; vandq_s64 a t) =
      (do let t ← vandq_s64 a b; let u ← vandq_s64 a c; veorq_s64 t u) := by
  simp only [vandq_s64_spec, veorq_s64_spec, ok_bind]
  exact vec_ok fun i => by bit_ext

/-- Commutative. -/
theorem vandq_u8_comm (a b : uint8x16_t) :
    vandq_u8 a b =
      vandq_u8 b a := by
  simp only [vandq_u8_spec, ok_bind]
  exact vec_ok fun i => BitVec.and_comm _ _

/-- Associative. -/
theorem vandq_u8_assoc (a b c : uint8x16_t) :
    (do let t ← vandq_u8 a b; vandq_u8 t c) =
      (do let t ← vandq_u8 b c; vandq_u8 a t) := by
  simp only [vandq_u8_spec, ok_bind]
  exact vec_ok fun i => BitVec.and_assoc _ _ _

/-- Commutative. -/
theorem vorrq_u8_comm (a b : uint8x16_t) :
    vorrq_u8 a b =
      vorrq_u8 b a := by
  simp only [vorrq_u8_spec, ok_bind]
  exact vec_ok fun i => BitVec.or_comm _ _

/-- Associative. -/
theorem vorrq_u8_assoc (a b c : uint8x16_t) :
    (do let t ← vorrq_u8 a b; vorrq_u8 t c) =
      (do let t ← vorrq_u8 b c; vorrq_u8 a t) := by
  simp only [vorrq_u8_spec, ok_bind]
  exact vec_ok fun i => BitVec.or_assoc _ _ _

/-- Commutative. -/
theorem veorq_u8_comm (a b : uint8x16_t) :
    veorq_u8 a b =
      veorq_u8 b a := by
  simp only [veorq_u8_spec, ok_bind]
  exact vec_ok fun i => BitVec.xor_comm _ _

/-- Associative. -/
theorem veorq_u8_assoc (a b c : uint8x16_t) :
    (do let t ← veorq_u8 a b; veorq_u8 t c) =
      (do let t ← veorq_u8 b c; veorq_u8 a t) := by
  simp only [veorq_u8_spec, ok_bind]
  exact vec_ok fun i => BitVec.xor_assoc _ _ _

/-- Idempotent. -/
theorem vandq_u8_self (a : uint8x16_t) :
    vandq_u8 a a =
      .ok a := by
  simp only [vandq_u8_spec, ok_bind]
  exact vec_ok' fun i => BitVec.and_self

/-- Idempotent. -/
theorem vorrq_u8_self (a : uint8x16_t) :
    vorrq_u8 a a =
      .ok a := by
  simp only [vorrq_u8_spec, ok_bind]
  exact vec_ok' fun i => BitVec.or_self

/-- A register exclusive-or itself is zero. -/
theorem veorq_u8_self (a : uint8x16_t) :
    veorq_u8 a a =
      .ok ⟨fun _ => 0⟩ := by
  simp only [veorq_u8_spec, ok_bind]
  exact vec_ok fun i => BitVec.xor_self

/-- Zero annihilates. -/
theorem vandq_u8_zero (a : uint8x16_t) :
    vandq_u8 a ⟨fun _ => 0⟩ =
      .ok ⟨fun _ => 0⟩ := by
  simp only [vandq_u8_spec, ok_bind]
  exact vec_ok fun i => BitVec.and_zero

/-- All ones are neutral. -/
theorem vandq_u8_ones (a : uint8x16_t) :
    vandq_u8 a ⟨fun _ => -1⟩ =
      .ok a := by
  simp only [vandq_u8_spec, ok_bind]
  exact vec_ok' fun i => by bit_ext

/-- Zero is neutral. -/
theorem vorrq_u8_zero (a : uint8x16_t) :
    vorrq_u8 a ⟨fun _ => 0⟩ =
      .ok a := by
  simp only [vorrq_u8_spec, ok_bind]
  exact vec_ok' fun i => BitVec.or_zero

/-- All ones absorb. -/
theorem vorrq_u8_ones (a : uint8x16_t) :
    vorrq_u8 a ⟨fun _ => -1⟩ =
      .ok ⟨fun _ => -1⟩ := by
  simp only [vorrq_u8_spec, ok_bind]
  exact vec_ok fun i => by bit_ext

/-- Zero is neutral. -/
theorem veorq_u8_zero (a : uint8x16_t) :
    veorq_u8 a ⟨fun _ => 0⟩ =
      .ok a := by
  simp only [veorq_u8_spec, ok_bind]
  exact vec_ok' fun i => BitVec.xor_zero

/-- Absorption. -/
theorem vandq_u8_vorrq_u8_absorb (a b : uint8x16_t) :
    (do let t ← vorrq_u8 a b; vandq_u8 a t) =
      .ok a := by
  simp only [vandq_u8_spec, vorrq_u8_spec, ok_bind]
  exact vec_ok' fun i => by bit_ext

/-- Absorption. -/
theorem vorrq_u8_vandq_u8_absorb (a b : uint8x16_t) :
    (do let t ← vandq_u8 a b; vorrq_u8 a t) =
      .ok a := by
  simp only [vorrq_u8_spec, vandq_u8_spec, ok_bind]
  exact vec_ok' fun i => by bit_ext

/-- Distributive. -/
theorem vandq_u8_vorrq_u8_distrib (a b c : uint8x16_t) :
    (do let t ← vorrq_u8 b c; vandq_u8 a t) =
      (do let t ← vandq_u8 a b; let u ← vandq_u8 a c; vorrq_u8 t u) := by
  simp only [vandq_u8_spec, vorrq_u8_spec, ok_bind]
  exact vec_ok fun i => by bit_ext

/-- Distributive. -/
theorem vorrq_u8_vandq_u8_distrib (a b c : uint8x16_t) :
    (do let t ← vandq_u8 b c; vorrq_u8 a t) =
      (do let t ← vorrq_u8 a b; let u ← vorrq_u8 a c; vandq_u8 t u) := by
  simp only [vorrq_u8_spec, vandq_u8_spec, ok_bind]
  exact vec_ok fun i => by bit_ext

/-- Distributive. -/
theorem vandq_u8_veorq_u8_distrib (a b c : uint8x16_t) :
    (do let t ← veorq_u8 b c; vandq_u8 a t) =
      (do let t ← vandq_u8 a b; let u ← vandq_u8 a c; veorq_u8 t u) := by
  simp only [vandq_u8_spec, veorq_u8_spec, ok_bind]
  exact vec_ok fun i => by bit_ext

/-- Complement. -/
theorem vandq_u8_vmvnq_u8 (a : uint8x16_t) :
    (do let t ← vmvnq_u8 a; vandq_u8 a t) =
      .ok ⟨fun _ => 0⟩ := by
  simp only [vandq_u8_spec, vmvnq_u8_spec, ok_bind]
  exact vec_ok fun i => by bit_ext

/-- Complement. -/
theorem vorrq_u8_vmvnq_u8 (a : uint8x16_t) :
    (do let t ← vmvnq_u8 a; vorrq_u8 a t) =
      .ok ⟨fun _ => -1⟩ := by
  simp only [vorrq_u8_spec, vmvnq_u8_spec, ok_bind]
  exact vec_ok fun i => by bit_ext

/-- Exclusive or is the union without the intersection. -/
theorem veorq_u8_vandq_u8_vorrq_u8 (a b : uint8x16_t) :
    veorq_u8 a b =
      (do let t ← vorrq_u8 a b; let u ← vandq_u8 a b; let v ← vmvnq_u8 u; vandq_u8 t v) := by
  simp only [veorq_u8_spec, vandq_u8_spec, vorrq_u8_spec, vmvnq_u8_spec, ok_bind]
  exact vec_ok fun i => by bit_ext

/-- Exclusive or with all ones is the complement. -/
theorem veorq_u8_vmvnq_u8 (a : uint8x16_t) :
    veorq_u8 a ⟨fun _ => -1⟩ =
      vmvnq_u8 a := by
  simp only [veorq_u8_spec, vmvnq_u8_spec, ok_bind]
  exact vec_ok fun i => by bit_ext

/-- Commutative. -/
theorem vandq_u16_comm (a b : uint16x8_t) :
    vandq_u16 a b =
      vandq_u16 b a := by
  simp only [vandq_u16_spec, ok_bind]
  exact vec_ok fun i => BitVec.and_comm _ _

/-- Associative. -/
theorem vandq_u16_assoc (a b c : uint16x8_t) :
    (do let t ← vandq_u16 a b; vandq_u16 t c) =
      (do let t ← vandq_u16 b c; vandq_u16 a t) := by
  simp only [vandq_u16_spec, ok_bind]
  exact vec_ok fun i => BitVec.and_assoc _ _ _

/-- Commutative. -/
theorem vorrq_u16_comm (a b : uint16x8_t) :
    vorrq_u16 a b =
      vorrq_u16 b a := by
  simp only [vorrq_u16_spec, ok_bind]
  exact vec_ok fun i => BitVec.or_comm _ _

/-- Associative. -/
theorem vorrq_u16_assoc (a b c : uint16x8_t) :
    (do let t ← vorrq_u16 a b; vorrq_u16 t c) =
      (do let t ← vorrq_u16 b c; vorrq_u16 a t) := by
  simp only [vorrq_u16_spec, ok_bind]
  exact vec_ok fun i => BitVec.or_assoc _ _ _

/-- Commutative. -/
theorem veorq_u16_comm (a b : uint16x8_t) :
    veorq_u16 a b =
      veorq_u16 b a := by
  simp only [veorq_u16_spec, ok_bind]
  exact vec_ok fun i => BitVec.xor_comm _ _

/-- Associative. -/
theorem veorq_u16_assoc (a b c : uint16x8_t) :
    (do let t ← veorq_u16 a b; veorq_u16 t c) =
      (do let t ← veorq_u16 b c; veorq_u16 a t) := by
  simp only [veorq_u16_spec, ok_bind]
  exact vec_ok fun i => BitVec.xor_assoc _ _ _

/-- Idempotent. -/
theorem vandq_u16_self (a : uint16x8_t) :
    vandq_u16 a a =
      .ok a := by
  simp only [vandq_u16_spec, ok_bind]
  exact vec_ok' fun i => BitVec.and_self

/-- Idempotent. -/
theorem vorrq_u16_self (a : uint16x8_t) :
    vorrq_u16 a a =
      .ok a := by
  simp only [vorrq_u16_spec, ok_bind]
  exact vec_ok' fun i => BitVec.or_self

/-- A register exclusive-or itself is zero. -/
theorem veorq_u16_self (a : uint16x8_t) :
    veorq_u16 a a =
      .ok ⟨fun _ => 0⟩ := by
  simp only [veorq_u16_spec, ok_bind]
  exact vec_ok fun i => BitVec.xor_self

/-- Zero annihilates. -/
theorem vandq_u16_zero (a : uint16x8_t) :
    vandq_u16 a ⟨fun _ => 0⟩ =
      .ok ⟨fun _ => 0⟩ := by
  simp only [vandq_u16_spec, ok_bind]
  exact vec_ok fun i => BitVec.and_zero

/-- All ones are neutral. -/
theorem vandq_u16_ones (a : uint16x8_t) :
    vandq_u16 a ⟨fun _ => -1⟩ =
      .ok a := by
  simp only [vandq_u16_spec, ok_bind]
  exact vec_ok' fun i => by bit_ext

/-- Zero is neutral. -/
theorem vorrq_u16_zero (a : uint16x8_t) :
    vorrq_u16 a ⟨fun _ => 0⟩ =
      .ok a := by
  simp only [vorrq_u16_spec, ok_bind]
  exact vec_ok' fun i => BitVec.or_zero

/-- All ones absorb. -/
theorem vorrq_u16_ones (a : uint16x8_t) :
    vorrq_u16 a ⟨fun _ => -1⟩ =
      .ok ⟨fun _ => -1⟩ := by
  simp only [vorrq_u16_spec, ok_bind]
  exact vec_ok fun i => by bit_ext

/-- Zero is neutral. -/
theorem veorq_u16_zero (a : uint16x8_t) :
    veorq_u16 a ⟨fun _ => 0⟩ =
      .ok a := by
  simp only [veorq_u16_spec, ok_bind]
  exact vec_ok' fun i => BitVec.xor_zero

/-- Absorption. -/
theorem vandq_u16_vorrq_u16_absorb (a b : uint16x8_t) :
    (do let t ← vorrq_u16 a b; vandq_u16 a t) =
      .ok a := by
  simp only [vandq_u16_spec, vorrq_u16_spec, ok_bind]
  exact vec_ok' fun i => by bit_ext

/-- Absorption. -/
theorem vorrq_u16_vandq_u16_absorb (a b : uint16x8_t) :
    (do let t ← vandq_u16 a b; vorrq_u16 a t) =
      .ok a := by
  simp only [vorrq_u16_spec, vandq_u16_spec, ok_bind]
  exact vec_ok' fun i => by bit_ext

/-- Distributive. -/
theorem vandq_u16_vorrq_u16_distrib (a b c : uint16x8_t) :
    (do let t ← vorrq_u16 b c; vandq_u16 a t) =
      (do let t ← vandq_u16 a b; let u ← vandq_u16 a c; vorrq_u16 t u) := by
  simp only [vandq_u16_spec, vorrq_u16_spec, ok_bind]
  exact vec_ok fun i => by bit_ext

/-- Distributive. -/
theorem vorrq_u16_vandq_u16_distrib (a b c : uint16x8_t) :
    (do let t ← vandq_u16 b c; vorrq_u16 a t) =
      (do let t ← vorrq_u16 a b; let u ← vorrq_u16 a c; vandq_u16 t u) := by
  simp only [vorrq_u16_spec, vandq_u16_spec, ok_bind]
  exact vec_ok fun i => by bit_ext

/-- Distributive. -/
theorem vandq_u16_veorq_u16_distrib (a b c : uint16x8_t) :
    (do let t ← veorq_u16 b c; vandq_u16 a t) =
      (do let t ← vandq_u16 a b; let u ← vandq_u16 a c; veorq_u16 t u) := by
  simp only [vandq_u16_spec, veorq_u16_spec, ok_bind]
  exact vec_ok fun i => by bit_ext

/-- Complement. -/
theorem vandq_u16_vmvnq_u16 (a : uint16x8_t) :
    (do let t ← vmvnq_u16 a; vandq_u16 a t) =
      .ok ⟨fun _ => 0⟩ := by
  simp only [vandq_u16_spec, vmvnq_u16_spec, ok_bind]
  exact vec_ok fun i => by bit_ext

/-- Complement. -/
theorem vorrq_u16_vmvnq_u16 (a : uint16x8_t) :
    (do let t ← vmvnq_u16 a; vorrq_u16 a t) =
      .ok ⟨fun _ => -1⟩ := by
  simp only [vorrq_u16_spec, vmvnq_u16_spec, ok_bind]
  exact vec_ok fun i => by bit_ext

/-- Exclusive or is the union without the intersection. -/
theorem veorq_u16_vandq_u16_vorrq_u16 (a b : uint16x8_t) :
    veorq_u16 a b =
      (do let t ← vorrq_u16 a b; let u ← vandq_u16 a b; let v ← vmvnq_u16 u; vandq_u16 t v) := by
  simp only [veorq_u16_spec, vandq_u16_spec, vorrq_u16_spec, vmvnq_u16_spec, ok_bind]
  exact vec_ok fun i => by bit_ext

/-- Exclusive or with all ones is the complement. -/
theorem veorq_u16_vmvnq_u16 (a : uint16x8_t) :
    veorq_u16 a ⟨fun _ => -1⟩ =
      vmvnq_u16 a := by
  simp only [veorq_u16_spec, vmvnq_u16_spec, ok_bind]
  exact vec_ok fun i => by bit_ext

/-- Commutative. -/
theorem vandq_u32_comm (a b : uint32x4_t) :
    vandq_u32 a b =
      vandq_u32 b a := by
  simp only [vandq_u32_spec, ok_bind]
  exact vec_ok fun i => BitVec.and_comm _ _

/-- Associative. -/
theorem vandq_u32_assoc (a b c : uint32x4_t) :
    (do let t ← vandq_u32 a b; vandq_u32 t c) =
      (do let t ← vandq_u32 b c; vandq_u32 a t) := by
  simp only [vandq_u32_spec, ok_bind]
  exact vec_ok fun i => BitVec.and_assoc _ _ _

/-- Commutative. -/
theorem vorrq_u32_comm (a b : uint32x4_t) :
    vorrq_u32 a b =
      vorrq_u32 b a := by
  simp only [vorrq_u32_spec, ok_bind]
  exact vec_ok fun i => BitVec.or_comm _ _

/-- Associative. -/
theorem vorrq_u32_assoc (a b c : uint32x4_t) :
    (do let t ← vorrq_u32 a b; vorrq_u32 t c) =
      (do let t ← vorrq_u32 b c; vorrq_u32 a t) := by
  simp only [vorrq_u32_spec, ok_bind]
  exact vec_ok fun i => BitVec.or_assoc _ _ _

/-- Commutative. -/
theorem veorq_u32_comm (a b : uint32x4_t) :
    veorq_u32 a b =
      veorq_u32 b a := by
  simp only [veorq_u32_spec, ok_bind]
  exact vec_ok fun i => BitVec.xor_comm _ _

/-- Associative. -/
theorem veorq_u32_assoc (a b c : uint32x4_t) :
    (do let t ← veorq_u32 a b; veorq_u32 t c) =
      (do let t ← veorq_u32 b c; veorq_u32 a t) := by
  simp only [veorq_u32_spec, ok_bind]
  exact vec_ok fun i => BitVec.xor_assoc _ _ _

/-- Idempotent. -/
theorem vandq_u32_self (a : uint32x4_t) :
    vandq_u32 a a =
      .ok a := by
  simp only [vandq_u32_spec, ok_bind]
  exact vec_ok' fun i => BitVec.and_self

/-- Idempotent. -/
theorem vorrq_u32_self (a : uint32x4_t) :
    vorrq_u32 a a =
      .ok a := by
  simp only [vorrq_u32_spec, ok_bind]
  exact vec_ok' fun i => BitVec.or_self

/-- A register exclusive-or itself is zero. -/
theorem veorq_u32_self (a : uint32x4_t) :
    veorq_u32 a a =
      .ok ⟨fun _ => 0⟩ := by
  simp only [veorq_u32_spec, ok_bind]
  exact vec_ok fun i => BitVec.xor_self

/-- Zero annihilates. -/
theorem vandq_u32_zero (a : uint32x4_t) :
    vandq_u32 a ⟨fun _ => 0⟩ =
      .ok ⟨fun _ => 0⟩ := by
  simp only [vandq_u32_spec, ok_bind]
  exact vec_ok fun i => BitVec.and_zero

/-- All ones are neutral. -/
theorem vandq_u32_ones (a : uint32x4_t) :
    vandq_u32 a ⟨fun _ => -1⟩ =
      .ok a := by
  simp only [vandq_u32_spec, ok_bind]
  exact vec_ok' fun i => by bit_ext

/-- Zero is neutral. -/
theorem vorrq_u32_zero (a : uint32x4_t) :
    vorrq_u32 a ⟨fun _ => 0⟩ =
      .ok a := by
  simp only [vorrq_u32_spec, ok_bind]
  exact vec_ok' fun i => BitVec.or_zero

/-- All ones absorb. -/
theorem vorrq_u32_ones (a : uint32x4_t) :
    vorrq_u32 a ⟨fun _ => -1⟩ =
      .ok ⟨fun _ => -1⟩ := by
  simp only [vorrq_u32_spec, ok_bind]
  exact vec_ok fun i => by bit_ext

/-- Zero is neutral. -/
theorem veorq_u32_zero (a : uint32x4_t) :
    veorq_u32 a ⟨fun _ => 0⟩ =
      .ok a := by
  simp only [veorq_u32_spec, ok_bind]
  exact vec_ok' fun i => BitVec.xor_zero

/-- Absorption. -/
theorem vandq_u32_vorrq_u32_absorb (a b : uint32x4_t) :
    (do let t ← vorrq_u32 a b; vandq_u32 a t) =
      .ok a := by
  simp only [vandq_u32_spec, vorrq_u32_spec, ok_bind]
  exact vec_ok' fun i => by bit_ext

/-- Absorption. -/
theorem vorrq_u32_vandq_u32_absorb (a b : uint32x4_t) :
    (do let t ← vandq_u32 a b; vorrq_u32 a t) =
      .ok a := by
  simp only [vorrq_u32_spec, vandq_u32_spec, ok_bind]
  exact vec_ok' fun i => by bit_ext

/-- Distributive. -/
theorem vandq_u32_vorrq_u32_distrib (a b c : uint32x4_t) :
    (do let t ← vorrq_u32 b c; vandq_u32 a t) =
      (do let t ← vandq_u32 a b; let u ← vandq_u32 a c; vorrq_u32 t u) := by
  simp only [vandq_u32_spec, vorrq_u32_spec, ok_bind]
  exact vec_ok fun i => by bit_ext

/-- Distributive. -/
theorem vorrq_u32_vandq_u32_distrib (a b c : uint32x4_t) :
    (do let t ← vandq_u32 b c; vorrq_u32 a t) =
      (do let t ← vorrq_u32 a b; let u ← vorrq_u32 a c; vandq_u32 t u) := by
  simp only [vorrq_u32_spec, vandq_u32_spec, ok_bind]
  exact vec_ok fun i => by bit_ext

/-- Distributive. -/
theorem vandq_u32_veorq_u32_distrib (a b c : uint32x4_t) :
    (do let t ← veorq_u32 b c; vandq_u32 a t) =
      (do let t ← vandq_u32 a b; let u ← vandq_u32 a c; veorq_u32 t u) := by
  simp only [vandq_u32_spec, veorq_u32_spec, ok_bind]
  exact vec_ok fun i => by bit_ext

/-- Complement. -/
theorem vandq_u32_vmvnq_u32 (a : uint32x4_t) :
    (do let t ← vmvnq_u32 a; vandq_u32 a t) =
      .ok ⟨fun _ => 0⟩ := by
  simp only [vandq_u32_spec, vmvnq_u32_spec, ok_bind]
  exact vec_ok fun i => by bit_ext

/-- Complement. -/
theorem vorrq_u32_vmvnq_u32 (a : uint32x4_t) :
    (do let t ← vmvnq_u32 a; vorrq_u32 a t) =
      .ok ⟨fun _ => -1⟩ := by
  simp only [vorrq_u32_spec, vmvnq_u32_spec, ok_bind]
  exact vec_ok fun i => by bit_ext

/-- Exclusive or is the union without the intersection. -/
theorem veorq_u32_vandq_u32_vorrq_u32 (a b : uint32x4_t) :
    veorq_u32 a b =
      (do let t ← vorrq_u32 a b; let u ← vandq_u32 a b; let v ← vmvnq_u32 u; vandq_u32 t v) := by
  simp only [veorq_u32_spec, vandq_u32_spec, vorrq_u32_spec, vmvnq_u32_spec, ok_bind]
  exact vec_ok fun i => by bit_ext

/-- Exclusive or with all ones is the complement. -/
theorem veorq_u32_vmvnq_u32 (a : uint32x4_t) :
    veorq_u32 a ⟨fun _ => -1⟩ =
      vmvnq_u32 a := by
  simp only [veorq_u32_spec, vmvnq_u32_spec, ok_bind]
  exact vec_ok fun i => by bit_ext

/-- Commutative. -/
theorem vandq_u64_comm (a b : uint64x2_t) :
    vandq_u64 a b =
      vandq_u64 b a := by
  simp only [vandq_u64_spec, ok_bind]
  exact vec_ok fun i => BitVec.and_comm _ _

/-- Associative. -/
theorem vandq_u64_assoc (a b c : uint64x2_t) :
    (do let t ← vandq_u64 a b; vandq_u64 t c) =
      (do let t ← vandq_u64 b c; vandq_u64 a t) := by
  simp only [vandq_u64_spec, ok_bind]
  exact vec_ok fun i => BitVec.and_assoc _ _ _

/-- Commutative. -/
theorem vorrq_u64_comm (a b : uint64x2_t) :
    vorrq_u64 a b =
      vorrq_u64 b a := by
  simp only [vorrq_u64_spec, ok_bind]
  exact vec_ok fun i => BitVec.or_comm _ _

/-- Associative. -/
theorem vorrq_u64_assoc (a b c : uint64x2_t) :
    (do let t ← vorrq_u64 a b; vorrq_u64 t c) =
      (do let t ← vorrq_u64 b c; vorrq_u64 a t) := by
  simp only [vorrq_u64_spec, ok_bind]
  exact vec_ok fun i => BitVec.or_assoc _ _ _

/-- Commutative. -/
theorem veorq_u64_comm (a b : uint64x2_t) :
    veorq_u64 a b =
      veorq_u64 b a := by
  simp only [veorq_u64_spec, ok_bind]
  exact vec_ok fun i => BitVec.xor_comm _ _

/-- Associative. -/
theorem veorq_u64_assoc (a b c : uint64x2_t) :
    (do let t ← veorq_u64 a b; veorq_u64 t c) =
      (do let t ← veorq_u64 b c; veorq_u64 a t) := by
  simp only [veorq_u64_spec, ok_bind]
  exact vec_ok fun i => BitVec.xor_assoc _ _ _

/-- Idempotent. -/
theorem vandq_u64_self (a : uint64x2_t) :
    vandq_u64 a a =
      .ok a := by
  simp only [vandq_u64_spec, ok_bind]
  exact vec_ok' fun i => BitVec.and_self

/-- Idempotent. -/
theorem vorrq_u64_self (a : uint64x2_t) :
    vorrq_u64 a a =
      .ok a := by
  simp only [vorrq_u64_spec, ok_bind]
  exact vec_ok' fun i => BitVec.or_self

/-- A register exclusive-or itself is zero. -/
theorem veorq_u64_self (a : uint64x2_t) :
    veorq_u64 a a =
      .ok ⟨fun _ => 0⟩ := by
  simp only [veorq_u64_spec, ok_bind]
  exact vec_ok fun i => BitVec.xor_self

/-- Zero annihilates. -/
theorem vandq_u64_zero (a : uint64x2_t) :
    vandq_u64 a ⟨fun _ => 0⟩ =
      .ok ⟨fun _ => 0⟩ := by
  simp only [vandq_u64_spec, ok_bind]
  exact vec_ok fun i => BitVec.and_zero

/-- All ones are neutral. -/
theorem vandq_u64_ones (a : uint64x2_t) :
    vandq_u64 a ⟨fun _ => -1⟩ =
      .ok a := by
  simp only [vandq_u64_spec, ok_bind]
  exact vec_ok' fun i => by bit_ext

/-- Zero is neutral. -/
theorem vorrq_u64_zero (a : uint64x2_t) :
    vorrq_u64 a ⟨fun _ => 0⟩ =
      .ok a := by
  simp only [vorrq_u64_spec, ok_bind]
  exact vec_ok' fun i => BitVec.or_zero

/-- All ones absorb. -/
theorem vorrq_u64_ones (a : uint64x2_t) :
    vorrq_u64 a ⟨fun _ => -1⟩ =
      .ok ⟨fun _ => -1⟩ := by
  simp only [vorrq_u64_spec, ok_bind]
  exact vec_ok fun i => by bit_ext

/-- Zero is neutral. -/
theorem veorq_u64_zero (a : uint64x2_t) :
    veorq_u64 a ⟨fun _ => 0⟩ =
      .ok a := by
  simp only [veorq_u64_spec, ok_bind]
  exact vec_ok' fun i => BitVec.xor_zero

/-- Absorption. -/
theorem vandq_u64_vorrq_u64_absorb (a b : uint64x2_t) :
    (do let t ← vorrq_u64 a b; vandq_u64 a t) =
      .ok a := by
  simp only [vandq_u64_spec, vorrq_u64_spec, ok_bind]
  exact vec_ok' fun i => by bit_ext

/-- Absorption. -/
theorem vorrq_u64_vandq_u64_absorb (a b : uint64x2_t) :
    (do let t ← vandq_u64 a b; vorrq_u64 a t) =
      .ok a := by
  simp only [vorrq_u64_spec, vandq_u64_spec, ok_bind]
  exact vec_ok' fun i => by bit_ext

/-- Distributive. -/
theorem vandq_u64_vorrq_u64_distrib (a b c : uint64x2_t) :
    (do let t ← vorrq_u64 b c; vandq_u64 a t) =
      (do let t ← vandq_u64 a b; let u ← vandq_u64 a c; vorrq_u64 t u) := by
  simp only [vandq_u64_spec, vorrq_u64_spec, ok_bind]
  exact vec_ok fun i => by bit_ext

/-- Distributive. -/
theorem vorrq_u64_vandq_u64_distrib (a b c : uint64x2_t) :
    (do let t ← vandq_u64 b c; vorrq_u64 a t) =
      (do let t ← vorrq_u64 a b; let u ← vorrq_u64 a c; vandq_u64 t u) := by
  simp only [vorrq_u64_spec, vandq_u64_spec, ok_bind]
  exact vec_ok fun i => by bit_ext

/-- Distributive. -/
theorem vandq_u64_veorq_u64_distrib (a b c : uint64x2_t) :
    (do let t ← veorq_u64 b c; vandq_u64 a t) =
      (do let t ← vandq_u64 a b; let u ← vandq_u64 a c; veorq_u64 t u) := by
  simp only [vandq_u64_spec, veorq_u64_spec, ok_bind]
  exact vec_ok fun i => by bit_ext

/-- Selection is made of the others. -/
theorem vbslq_u8_vandq_vorrq (m a b : uint8x16_t) :
    vbslq_u8 m a b = (do let t ← vandq_u8 m a; let n ← vmvnq_u8 m; let u ← vandq_u8 n b; vorrq_u8 t u) := by
  simp only [vbslq_u8_spec, vandq_u8_spec, vmvnq_u8_spec, vorrq_u8_spec, ok_bind]
/-- Exchanging the operands is complementing the mask. -/
theorem vbslq_u8_mvn (m a b : uint8x16_t) :
    (do let n ← vmvnq_u8 m; vbslq_u8 n a b) = vbslq_u8 m b a := by
  simp only [vbslq_u8_spec, vmvnq_u8_spec, ok_bind]
  exact vec_ok fun i => by bit_ext
/-- Selecting between equal operands is that operand, whatever the mask. -/
theorem vbslq_u8_self (m a : uint8x16_t) : vbslq_u8 m a a = .ok a := by
  simp only [vbslq_u8_spec]
  exact vec_ok' fun i => by bit_ext
/-- The exclusive-or form of selection. -/
theorem vbslq_u8_veorq (m a b : uint8x16_t) :
    vbslq_u8 m a b = (do let t ← veorq_u8 a b; let u ← vandq_u8 t m; veorq_u8 u b) := by
  simp only [vbslq_u8_spec, vandq_u8_spec, veorq_u8_spec, ok_bind]
  exact vec_ok fun i => by bit_ext

end Verif.Props
