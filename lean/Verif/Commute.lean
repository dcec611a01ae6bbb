import Verif.Laws

/-! # Lane-wise operations and lane permutations

`LaneWise f`: lane `i` of the result depends on lanes `i` of the operands only, and the call is undefined
exactly when some lane is.  `Permutes p`: the result holds the lanes of the operand in another order.  The
commutation theorems of `Verif/Props/Commute.lean` are stated without these definitions. -/

namespace Verif

variable {e : Elem} {n : Nat}

def LaneWise (f : Vec e n → Vec e n → C (Vec e n)) : Prop :=
  ∃ (P : BitVec e.bits → BitVec e.bits → Prop) (_ : ∀ x y, Decidable (P x y)) (g : BitVec e.bits → BitVec e.bits → BitVec e.bits),
    ∀ a b, f a b = if ∀ i, P (a.lane i) (b.lane i) then .ok ⟨fun i => g (a.lane i) (b.lane i)⟩ else .ub .signedOverflow

def LaneWise1 (f : Vec e n → C (Vec e n)) : Prop :=
  ∃ (P : BitVec e.bits → Prop) (_ : ∀ x, Decidable (P x)) (g : BitVec e.bits → BitVec e.bits),
    ∀ a, f a = if ∀ i, P (a.lane i) then .ok ⟨fun i => g (a.lane i)⟩ else .ub .signedOverflow

def LaneWise3 (f : Vec e n → Vec e n → Vec e n → C (Vec e n)) : Prop :=
  ∃ (P : BitVec e.bits → BitVec e.bits → BitVec e.bits → Prop) (_ : ∀ x y z, Decidable (P x y z))
    (g : BitVec e.bits → BitVec e.bits → BitVec e.bits → BitVec e.bits),
    ∀ a b c, f a b c = if ∀ i, P (a.lane i) (b.lane i) (c.lane i)
      then .ok ⟨fun i => g (a.lane i) (b.lane i) (c.lane i)⟩ else .ub .signedOverflow

def Permutes (p : Vec e n → C (Vec e n)) : Prop :=
  ∃ s t : Fin n → Fin n, (∀ i, s (t i) = i) ∧ ∀ a, p a = .ok ⟨fun i => a.lane (s i)⟩

/-- Two operands permuted together: lane `i` of register `j` of the result is lane `(s (j, i)).2` of operand
`(s (j, i)).1`. -/
def Permutes2 (p : Vec e n → Vec e n → C (VecArr e n 2)) : Prop :=
  ∃ s t : Fin 2 × Fin n → Fin 2 × Fin n, (∀ x, s (t x) = x) ∧
    ∀ a b, p a b = .ok ⟨fun j => ⟨fun i => (if (s (j, i)).1 = 0 then a else b).lane (s (j, i)).2⟩⟩

theorem LaneWise.of_ok {f : Vec e n → Vec e n → C (Vec e n)} (g : BitVec e.bits → BitVec e.bits → BitVec e.bits)
    (h : ∀ a b, f a b = .ok ⟨fun i => g (a.lane i) (b.lane i)⟩) : LaneWise f :=
  ⟨fun _ _ => True, fun _ _ => inferInstance, g, fun a b => by rw [h, if_pos fun _ => trivial]⟩

theorem LaneWise1.of_ok {f : Vec e n → C (Vec e n)} (g : BitVec e.bits → BitVec e.bits)
    (h : ∀ a, f a = .ok ⟨fun i => g (a.lane i)⟩) : LaneWise1 f :=
  ⟨fun _ => True, fun _ => inferInstance, g, fun a => by rw [h, if_pos fun _ => trivial]⟩

theorem LaneWise3.of_ok {f : Vec e n → Vec e n → Vec e n → C (Vec e n)}
    (g : BitVec e.bits → BitVec e.bits → BitVec e.bits → BitVec e.bits)
    (h : ∀ a b c, f a b c = .ok ⟨fun i => g (a.lane i) (b.lane i) (c.lane i)⟩) : LaneWise3 f :=
  ⟨fun _ _ _ => True, fun _ _ _ => inferInstance, g, fun a b c => by rw [h, if_pos fun _ => trivial]⟩

theorem LaneWise3.comm {f : Vec e n → Vec e n → Vec e n → C (Vec e n)} (hf : LaneWise3 f) {p : Vec e n → C (Vec e n)}
    (hp : Permutes p) (a b c : Vec e n) : (do f (← p a) (← p b) (← p c)) = (do p (← f a b c)) := by
  obtain ⟨P, _, g, hf⟩ := hf
  obtain ⟨s, t, hs, hp⟩ := hp
  simp only [hp, hf, ok_bind]
  by_cases h : ∀ i, P (a.lane i) (b.lane i) (c.lane i)
  · rw [if_pos h, ok_bind, if_pos fun i => h (s i)]
  · rw [if_neg h, if_neg]
    · rfl
    · intro h'
      refine h fun i => ?_
      have := h' (t i)
      rwa [hs i] at this

theorem LaneWise.comm {f : Vec e n → Vec e n → C (Vec e n)} (hf : LaneWise f) {p : Vec e n → C (Vec e n)}
    (hp : Permutes p) (a b : Vec e n) : (do f (← p a) (← p b)) = (do p (← f a b)) := by
  obtain ⟨P, _, g, hf⟩ := hf
  obtain ⟨s, t, hs, hp⟩ := hp
  simp only [hp, hf, ok_bind]
  by_cases h : ∀ i, P (a.lane i) (b.lane i)
  · rw [if_pos h, ok_bind, if_pos fun i => h (s i)]
  · rw [if_neg h, if_neg]
    · rfl
    · intro h'
      refine h fun i => ?_
      have := h' (t i)
      rwa [hs i] at this

theorem LaneWise1.comm {f : Vec e n → C (Vec e n)} (hf : LaneWise1 f) {p : Vec e n → C (Vec e n)}
    (hp : Permutes p) (a : Vec e n) : (do f (← p a)) = (do p (← f a)) := by
  obtain ⟨P, _, g, hf⟩ := hf
  obtain ⟨s, t, hs, hp⟩ := hp
  simp only [hp, hf, ok_bind]
  by_cases h : ∀ i, P (a.lane i)
  · rw [if_pos h, ok_bind, if_pos fun i => h (s i)]
  · rw [if_neg h, if_neg]
    · rfl
    · intro h'
      refine h fun i => ?_
      have := h' (t i)
      rwa [hs i] at this

theorem fin2_ne {j : Fin 2} (h : j ≠ 0) : j = 1 := by
  match j with
  | 0 => exact absurd rfl h
  | 1 => rfl

theorem sel (g : BitVec e.bits → BitVec e.bits → BitVec e.bits) (a b c d : Vec e n) (q : Fin 2) (i : Fin n) :
    g ((if q = 0 then a else b).lane i) ((if q = 0 then c else d).lane i) =
      (if q = 0 then ⟨fun i => g (a.lane i) (c.lane i)⟩ else ⟨fun i => g (b.lane i) (d.lane i)⟩ : Vec e n).lane i := by
  by_cases h : q = 0
  · simp only [if_pos h]
  · simp only [if_neg h]

theorem LaneWise.comm2 {f : Vec e n → Vec e n → C (Vec e n)} (hf : LaneWise f) {p : Vec e n → Vec e n → C (VecArr e n 2)}
    (hp : Permutes2 p) (a b c d : Vec e n) :
    (do let x ← p a b; let y ← p c d; let r ← f x[0] y[0]; let s ← f x[1] y[1]; pure (r, s)) =
      (do let u ← f a c; let v ← f b d; let z ← p u v; pure (z[0], z[1])) := by
  obtain ⟨P, _, g, hf⟩ := hf
  obtain ⟨s, t, hs, hp⟩ := hp
  simp only [hp, hf, ok_bind]
  show (do
      let r ← (if ∀ i, P ((if (s (0, i)).1 = 0 then a else b).lane (s (0, i)).2) ((if (s (0, i)).1 = 0 then c else d).lane (s (0, i)).2)
        then C.ok (Vec.mk fun i => g ((if (s (0, i)).1 = 0 then a else b).lane (s (0, i)).2) ((if (s (0, i)).1 = 0 then c else d).lane (s (0, i)).2))
        else .ub .signedOverflow : C (Vec e n))
      let s ← (if ∀ i, P ((if (s (1, i)).1 = 0 then a else b).lane (s (1, i)).2) ((if (s (1, i)).1 = 0 then c else d).lane (s (1, i)).2)
        then C.ok (Vec.mk fun i => g ((if (s (1, i)).1 = 0 then a else b).lane (s (1, i)).2) ((if (s (1, i)).1 = 0 then c else d).lane (s (1, i)).2))
        else .ub .signedOverflow : C (Vec e n))
      pure (r, s)) = _
  by_cases h : (∀ i, P (a.lane i) (c.lane i)) ∧ ∀ i, P (b.lane i) (d.lane i)
  · have h' : ∀ x : Fin 2 × Fin n, P ((if (s x).1 = 0 then a else b).lane (s x).2) ((if (s x).1 = 0 then c else d).lane (s x).2) := by
      intro x
      split
      · exact h.1 _
      · exact h.2 _
    rw [if_pos fun i => h' (0, i), if_pos fun i => h' (1, i), if_pos h.1, if_pos h.2]
    simp only [ok_bind, pure_eq]
    refine congrArg C.ok (Prod.ext (Vec.ext (funext fun i => ?_)) (Vec.ext (funext fun i => ?_)))
    · exact sel g a b c d (s (0, i)).1 _
    · exact sel g a b c d (s (1, i)).1 _
  · have lhs : ¬ ((∀ i, P ((if (s (0, i)).1 = 0 then a else b).lane (s (0, i)).2) ((if (s (0, i)).1 = 0 then c else d).lane (s (0, i)).2)) ∧
        ∀ i, P ((if (s (1, i)).1 = 0 then a else b).lane (s (1, i)).2) ((if (s (1, i)).1 = 0 then c else d).lane (s (1, i)).2)) := by
      intro ⟨h0, h1⟩
      have h' : ∀ x : Fin 2 × Fin n, P ((if (s x).1 = 0 then a else b).lane (s x).2) ((if (s x).1 = 0 then c else d).lane (s x).2) := by
        intro ⟨j, i⟩
        by_cases hj : j = 0
        · subst hj; exact h0 i
        · rw [fin2_ne hj]; exact h1 i
      refine h ⟨fun i => ?_, fun i => ?_⟩
      · have := h' (t (0, i))
        rwa [hs] at this
      · have := h' (t (1, i))
        rwa [hs] at this
    have ub : ∀ (A B : Prop) [Decidable A] [Decidable B] (x y : Vec e n) {β} (k : Vec e n → Vec e n → C β), ¬ (A ∧ B) →
        ((if A then C.ok x else .ub .signedOverflow) >>= fun u => (if B then C.ok y else .ub .signedOverflow) >>= fun v => k u v) = .ub .signedOverflow := by
      intro A B _ _ x y β k hn
      by_cases hA : A
      · rw [if_pos hA, if_neg fun hB => hn ⟨hA, hB⟩]; rfl
      · rw [if_neg hA]; rfl
    rw [ub _ _ _ _ _ lhs, ub _ _ _ _ _ h]

end Verif
