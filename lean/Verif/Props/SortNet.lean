/-
C88: sorting registers lane by lane with minimum and maximum.
-/
import Verif.Props.MaxMin
import Verif.Props.Pipeline

namespace Verif.Props
open Verif.Model

/-! # Sorting any number of registers, lane by lane (C88)

Client programs (not code of the repository). -/

/-- `for (k = 0; k < n; k++) { lo = min(x, v[k]); x = max(x, v[k]); v[k] = lo; } v[n] = x;` -/
def sift {e : Elem} {n : Nat} (lo hi : Vec e n → Vec e n → C (Vec e n)) (x : Vec e n) : List (Vec e n) → C (List (Vec e n))
  | [] => pure [x]
  | y :: ys => do
    let l ← lo x y
    let h ← hi x y
    let rest ← sift lo hi h ys
    pure (l :: rest)

/-- Every register is sifted into those before it. -/
def sortRegs {e : Elem} {n : Nat} (lo hi : Vec e n → Vec e n → C (Vec e n)) : List (Vec e n) → C (List (Vec e n))
  | [] => pure []
  | x :: xs => do sift lo hi x (← sortRegs lo hi xs)

/-- The registers of `r` hold in every lane the same elements as those of `xs`, in ascending order of `key`. -/
def SortedLanes {e : Elem} {n : Nat} (key : BitVec e.bits → Int) (xs r : List (Vec e n)) : Prop :=
  ∀ i, (r.map fun v => v.lane i).Pairwise (fun x y => key x ≤ key y) ∧
    (r.map fun v => v.lane i).Perm (xs.map fun v => v.lane i)

section
variable {e : Elem} {n : Nat} {lo hi : Vec e n → Vec e n → C (Vec e n)} (key : BitVec e.bits → Int)
  (hl : ∀ a b, lo a b = .ok ⟨fun i => if key (a.lane i) ≤ key (b.lane i) then a.lane i else b.lane i⟩)
  (hh : ∀ a b, hi a b = .ok ⟨fun i => if key (a.lane i) ≤ key (b.lane i) then b.lane i else a.lane i⟩)
include hl hh

theorem sift_spec (x : Vec e n) (ys : List (Vec e n)) : ∃ r, sift lo hi x ys = .ok r ∧ ∀ i,
    (r.map fun v => v.lane i).Perm (x.lane i :: ys.map fun v => v.lane i) ∧
    ((ys.map fun v => v.lane i).Pairwise (fun x y => key x ≤ key y) → (r.map fun v => v.lane i).Pairwise (fun x y => key x ≤ key y)) := by
  induction ys generalizing x with
  | nil => exact ⟨[x], rfl, fun i => ⟨List.Perm.refl _, fun _ => by simp⟩⟩
  | cons y ys ih =>
    obtain ⟨r, e, h⟩ := ih ⟨fun i => if key (x.lane i) ≤ key (y.lane i) then y.lane i else x.lane i⟩
    refine ⟨⟨fun i => if key (x.lane i) ≤ key (y.lane i) then x.lane i else y.lane i⟩ :: r, ?_, fun i => ?_⟩
    · unfold sift
      rw [hl, ok_bind, hh, ok_bind, e]
      rfl
    · obtain ⟨hp, hs⟩ := h i
      simp only [List.map_cons]
      by_cases c : key (x.lane i) ≤ key (y.lane i)
      · simp only [if_pos c] at hp hs ⊢
        refine ⟨hp.cons _, fun hsort => ?_⟩
        rw [List.pairwise_cons] at hsort ⊢
        refine ⟨fun z hz => ?_, hs hsort.2⟩
        have := hp.subset hz
        rcases List.mem_cons.1 this with rfl | hm
        · exact c
        · exact le_trans c (hsort.1 z hm)
      · simp only [if_neg c] at hp hs ⊢
        refine ⟨(hp.cons _).trans (List.Perm.swap _ _ _), fun hsort => ?_⟩
        rw [List.pairwise_cons] at hsort ⊢
        refine ⟨fun z hz => ?_, hs hsort.2⟩
        have := hp.subset hz
        rcases List.mem_cons.1 this with rfl | hm
        · exact le_of_lt (not_le.1 c)
        · exact hsort.1 z hm

/-- Any number of registers. -/
theorem sortRegs_spec (xs : List (Vec e n)) : ∃ r, sortRegs lo hi xs = .ok r ∧ SortedLanes key xs r := by
  induction xs with
  | nil => exact ⟨[], rfl, fun i => ⟨List.Pairwise.nil, List.Perm.refl _⟩⟩
  | cons x xs ih =>
    obtain ⟨s, es, hs⟩ := ih
    obtain ⟨r, er, hr⟩ := sift_spec key hl hh x s
    refine ⟨r, by unfold sortRegs; rw [es, ok_bind, er], fun i => ⟨(hr i).2 (hs i).1, ?_⟩⟩
    exact (hr i).1.trans ((hs i).2.cons _)

end

theorem ofInt_min {w : Nat} (x y : BitVec w) :
    BitVec.ofInt w (min x.toInt y.toInt) = if x.toInt ≤ y.toInt then x else y := by
  split
  · rename_i h; rw [min_eq_left h, BitVec.ofInt_toInt]
  · rename_i h; rw [min_eq_right (le_of_lt (not_le.1 h)), BitVec.ofInt_toInt]

theorem ofInt_max {w : Nat} (x y : BitVec w) :
    BitVec.ofInt w (max x.toInt y.toInt) = if x.toInt ≤ y.toInt then y else x := by
  split
  · rename_i h; rw [max_eq_right h, BitVec.ofInt_toInt]
  · rename_i h; rw [max_eq_left (le_of_lt (not_le.1 h)), BitVec.ofInt_toInt]

variable [Dialect]

/-- Any number of `int8x16_t`, sorted with `vminq_s8` and `vmaxq_s8`. -/
theorem sort_s8 (xs : List int8x16_t) : ∃ r, sortRegs vminq_s8 vmaxq_s8 xs = .ok r ∧ SortedLanes BitVec.toInt xs r :=
  sortRegs_spec _ (fun a b => by rw [vminq_s8_spec]; exact congrArg C.ok (Vec.ext (funext fun i => ofInt_min _ _)))
    (fun a b => by rw [vmaxq_s8_spec]; exact congrArg C.ok (Vec.ext (funext fun i => ofInt_max _ _))) xs

/-- Any number of `int16x8_t`. -/
theorem sort_s16 (xs : List int16x8_t) : ∃ r, sortRegs vminq_s16 vmaxq_s16 xs = .ok r ∧ SortedLanes BitVec.toInt xs r :=
  sortRegs_spec _ (fun a b => by rw [vminq_s16_spec]; exact congrArg C.ok (Vec.ext (funext fun i => ofInt_min _ _)))
    (fun a b => by rw [vmaxq_s16_spec]; exact congrArg C.ok (Vec.ext (funext fun i => ofInt_max _ _))) xs

/-- Any number of `int32x4_t`. -/
theorem sort_s32 (xs : List int32x4_t) : ∃ r, sortRegs vminq_s32 vmaxq_s32 xs = .ok r ∧ SortedLanes BitVec.toInt xs r :=
  sortRegs_spec _ (fun a b => by rw [vminq_s32_spec]; exact congrArg C.ok (Vec.ext (funext fun i => ofInt_min _ _)))
    (fun a b => by rw [vmaxq_s32_spec]; exact congrArg C.ok (Vec.ext (funext fun i => ofInt_max _ _))) xs

/-- Any number of `uint8x16_t`, with minimum and maximum made of saturating subtraction (`vminq_u8` and `vmaxq_u8` of the
library compare signed bytes). -/
theorem sort_u8 (xs : List uint8x16_t) :
    ∃ r, sortRegs minU8 maxU8 xs = .ok r ∧ SortedLanes (fun b => (b.toNat : Int)) xs r := by
  refine sortRegs_spec (e := .u8) (fun b => (b.toNat : Int)) (fun a b => ?_) (fun a b => ?_) xs
  · obtain ⟨r, e, h⟩ := minU8_spec a b
    rw [e]
    refine congrArg C.ok (Vec.ext (funext fun i => BitVec.eq_of_toNat_eq ?_))
    have := h i
    show (r.lane i).toNat = (if _ then a.lane i else b.lane i : BitVec 8).toNat
    rw [this]
    split <;> omega
  · obtain ⟨r, e, h⟩ := maxU8_spec a b
    rw [e]
    refine congrArg C.ok (Vec.ext (funext fun i => BitVec.eq_of_toNat_eq ?_))
    have := h i
    show (r.lane i).toNat = (if _ then b.lane i else a.lane i : BitVec 8).toNat
    rw [this]
    split <;> omega

/-- With `vmaxq_u8` and `vminq_u8` of the library unsigned bytes come out in the order of signed ones: their operands
are declared as `int8x16_t`, and 200 sorts before 100. -/
theorem sort_u8_wrong : ¬ ∀ xs : List int8x16_t, ∃ r, sortRegs vminq_u8 vmaxq_u8 xs = .ok r ∧
    SortedLanes (fun b => (b.toNat : Int)) xs r := by
  intro h
  obtain ⟨r, e, hs⟩ := h [⟨fun _ => 100#8⟩, ⟨fun _ => 200#8⟩]
  have e2 : sortRegs vminq_u8 vmaxq_u8 [⟨fun _ => 100#8⟩, ⟨fun _ => 200#8⟩] = .ok [⟨fun _ => 200#8⟩, ⟨fun _ => 100#8⟩] := by
    unfold sortRegs sortRegs sortRegs
    simp only [sift, vminq_u8_partial, vmaxq_u8_partial, ok_bind, pure_eq]
    rfl
  rw [e2] at e
  injection e with e
  have := (hs 0).1
  rw [← e] at this
  simp at this
  exact absurd this (by decide)

/-- Three registers whose lanes are in descending order. -/
example : ∃ r, sortRegs vminq_s32 vmaxq_s32 [⟨fun i => BitVec.ofNat 32 (i.val + 20)⟩, ⟨fun i => BitVec.ofNat 32 (i.val + 10)⟩, ⟨fun _ => -1⟩] = .ok r ∧
    r.map (fun v => v.lane 2) = [-1, 12, 22] := by
  refine ⟨[⟨fun _ => -1⟩, ⟨fun i => BitVec.ofNat 32 (i.val + 10)⟩, ⟨fun i => BitVec.ofNat 32 (i.val + 20)⟩], ?_, by rfl⟩
  unfold sortRegs sortRegs sortRegs sortRegs
  simp only [sift, vminq_s32_spec, vmaxq_s32_spec, ok_bind, pure_eq]
  refine congrArg C.ok ?_
  refine congr (congrArg List.cons ?_) (congr (congrArg List.cons ?_) (congr (congrArg List.cons ?_) rfl)) <;>
    exact Vec.ext (funext fun i => match i with | 0 | 1 | 2 | 3 => rfl)

end Verif.Props
