import Lean.Elab.Tactic.Basic
import Verif.Arm
import Verif.Cpp.Library

/-!
# Calls to the library: tools for the proofs
-/

namespace Verif.Arm
open Verif.Cpp

open Lean Elab Tactic Meta in
/-- Close the goal `a = b` by reflexivity, checked by the kernel only. -/
elab "kernel_rfl" : tactic => liftMetaTactic fun g => do
  let t ← instantiateMVars (← g.getType)
  let some (α, a, _) := t.eq? | throwError "not an equation"
  g.assign (mkApp2 (mkConst ``Eq.refl [← getLevel α]) α a)
  return []

theorem called_fn [Dialect] {f : Nat} {t : String} {args : List Obj} {o : C Obj}
    (hl : library.lookup f = some (.fn t)) (h : Runs t args o) : Called f args o :=
  ⟨_, hl, h⟩

theorem called_unit [Dialect] {f : Nat} {t : String} {args : List Obj} {o : C Obj}
    (hl : library.lookup f = some (.unit t)) (h : RunsIn t f args o) : Called f args o :=
  ⟨_, hl, h⟩

theorem called_of [Dialect] {α : Type} {f : Nat} {t : String} {args : List Obj} {g : α → Obj} {c : C α} {r : α}
    (hl : library.lookup f = some (.fn t)) (h : Runs t args (g <$> c)) (hc : c = .ok r) :
    Called f args (.ok (g r)) := by
  subst hc
  exact called_fn hl h

/-- The bits determine the register. -/
theorem regBit_ext {e : Elem} {n : Nat} {a b : Vec e n} (h : ∀ i, Spec.regBit a i = Spec.regBit b i) : a = b := by
  apply Vec.ext
  funext i
  apply BitVec.eq_of_getLsbD_eq
  intro j hj
  have := h (i * e.bits + j)
  have hd : (i * e.bits + j) / e.bits = i := by
    rw [Nat.mul_comm, Nat.mul_add_div (by omega), Nat.div_eq_of_lt hj, Nat.add_zero]
  have hm : (i * e.bits + j) % e.bits = j := by
    rw [Nat.mul_comm, Nat.mul_add_mod, Nat.mod_eq_of_lt hj]
  simpa only [Spec.regBit, hd, hm, i.isLt, dite_true] using this

/-- The effect of a store is determined. -/
theorem stored_unique {e : Elem} {n : Nat} {p q q' : Ptr e} {x : Fin n → BitVec e.bits}
    (h : Spec.Stored p x q) (h' : Spec.Stored p x q') : q = q' := by
  apply Ptr.ext
  · apply List.ext_getElem?
    intro a
    by_cases ha : a < p.off ∨ p.off + n ≤ a
    · rw [h.frame a ha, h'.frame a ha]
    · have := h.written ⟨a - p.off, by omega⟩
      have h2 := h'.written ⟨a - p.off, by omega⟩
      rw [show p.off + (a - p.off) = a by omega] at this h2
      rw [this, h2]
  · rw [h.off, h'.off]

theorem ok_of [Dialect] {α : Type} {f : Nat} {t : String} {args : List Obj} {g : α → Obj} {c : C α} {r : α}
    {R : Nat → List Obj → Obj → Prop}
    (hl : library.lookup f = some (.fn t)) (h : Runs t args (g <$> c)) (hc : c = .ok r) (hm : R f args (g r)) :
    ∃ r, R f args r ∧ Called f args (.ok r) := by
  subst hc
  exact ⟨g r, hm, called_fn hl h⟩

theorem unit_of [Dialect] {α : Type} {f : Nat} {t : String} {args : List Obj} {g : α → Obj} {c : C α} {r : α}
    {R : Nat → List Obj → Obj → Prop}
    (hl : library.lookup f = some (.unit t)) (h : RunsIn t f args (g <$> c)) (hc : c = .ok r) (hm : R f args (g r)) :
    ∃ r, R f args r ∧ Called f args (.ok r) := by
  subst hc
  exact ⟨g r, hm, called_unit hl h⟩

end Verif.Arm
