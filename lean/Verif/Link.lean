import Verif.Cpp.Header

/-!
# Finding declarations by name

A search tree over the declarations of a list, used to decide by evaluation which functions are declared.
-/

namespace Verif.Cpp

inductive Tree
  | leaf
  | node (l : Tree) (g : Sig) (r : Tree)

/-- Scatters the names, so that the trees are flat. -/
def key (n : Nat) : Nat := n * 2654435761 % 4294967291

def Tree.find : Tree → Nat → Option Sig
  | .leaf, _ => none
  | .node l g r, n =>
    bif Nat.beq n g.name then some g else bif Nat.ble (key g.name) (key n) then r.find n else l.find n

/-- Add a declaration unless one of the same name is there. -/
def Tree.insert : Tree → Sig → Tree
  | .leaf, s => .node .leaf s .leaf
  | .node l g r, s =>
    bif Nat.beq s.name g.name then .node l g r
    else bif Nat.ble (key g.name) (key s.name) then .node l g (r.insert s) else .node (l.insert s) g r

theorem find_insert (t : Tree) (s : Sig) (n : Nat) :
    (t.insert s).find n = if n = s.name ∧ t.find n = none then some s else t.find n := by
  induction t with
  | leaf =>
    simp only [Tree.insert, Tree.find, Bool.cond_eq_ite, Nat.beq_eq, ite_self, and_true]
  | node l g r ihl ihr =>
    simp only [Tree.insert, Bool.cond_eq_ite, Nat.beq_eq, Nat.ble_eq]
    by_cases h : s.name = g.name
    · rw [if_pos h]
      by_cases hn : n = s.name
      · simp only [Tree.find, Bool.cond_eq_ite, Nat.beq_eq, hn, h, if_true, reduceCtorEq, and_false, if_false]
      · simp only [hn, false_and, if_false]
    · rw [if_neg h]
      by_cases h' : key g.name ≤ key s.name
      · rw [if_pos h']
        simp only [Tree.find, ihr, Bool.cond_eq_ite, Nat.beq_eq, Nat.ble_eq]
        by_cases h1 : n = g.name
        · simp only [h1, if_true, reduceCtorEq, and_false, if_false]
        · by_cases h2 : key g.name ≤ key n
          · simp only [h1, if_false, h2, if_true]
          · have : n ≠ s.name := fun e => by subst e; omega
            simp only [h1, if_false, h2, this, false_and]
      · rw [if_neg h']
        simp only [Tree.find, ihl, Bool.cond_eq_ite, Nat.beq_eq, Nat.ble_eq]
        by_cases h1 : n = g.name
        · simp only [h1, if_true, reduceCtorEq, and_false, if_false]
        · by_cases h2 : key g.name ≤ key n
          · have : n ≠ s.name := fun e => by subst e; omega
            simp only [h1, if_false, h2, if_true, this, false_and]
          · simp only [h1, if_false, h2]

def Tree.ofList (l : List Sig) : Tree := l.foldl Tree.insert .leaf

theorem find_foldl (l : List Sig) : ∀ (t : Tree) (n : Nat) (x : Sig), (l.foldl Tree.insert t).find n = some x →
    t.find n = some x ∨ x ∈ l := by
  induction l with
  | nil => exact fun t n x h => .inl h
  | cons g l ih =>
    intro t n x h
    rcases ih _ n x h with h | h
    · rw [find_insert] at h
      split at h
      · cases h; exact .inr (List.mem_cons_self ..)
      · exact .inl h
    · exact .inr (List.mem_cons_of_mem _ h)

/-- What is found is in the list. -/
theorem find_mem {l : List Sig} {n : Nat} {x : Sig} (h : (Tree.ofList l).find n = some x) : x ∈ l :=
  (find_foldl l .leaf n x h).resolve_left (by simp [Tree.find])

/-- No two declarations of the same name differ. -/
def consistent (t : Tree) (l : List Sig) : Bool := l.all fun g => decide (t.find g.name = some g)

theorem find_of_mem {t : Tree} {l : List Sig} (hc : consistent t l = true) {g : Sig} (hg : g ∈ l) : t.find g.name = some g :=
  of_decide_eq_true (List.all_eq_true.mp hc g hg)

/-- The list without repetitions of a name. -/
def keep : Tree → List Sig → List Sig
  | _, [] => []
  | t, g :: gs =>
    match t.find g.name with
    | some _ => keep t gs
    | none => g :: keep (t.insert g) gs

theorem keep_names (l : List Sig) : ∀ (t : Tree), (∀ x ∈ keep t l, t.find x.name = none ∧ x ∈ l) ∧
    (keep t l).Pairwise (fun a b => a.name ≠ b.name) ∧ ∀ x ∈ l, t.find x.name = none → ∃ y ∈ keep t l, y.name = x.name := by
  induction l with
  | nil => exact fun t => ⟨by simp [keep], by simp [keep], by simp⟩
  | cons g l ih =>
    intro t
    unfold keep
    cases hg : t.find g.name with
    | some y =>
      obtain ⟨h1, h2, h3⟩ := ih t
      refine ⟨fun x hx => ⟨(h1 x hx).1, List.mem_cons_of_mem _ (h1 x hx).2⟩, h2, fun x hx hn => ?_⟩
      rcases List.mem_cons.mp hx with rfl | hx
      · rw [hg] at hn; cases hn
      · exact h3 x hx hn
    | none =>
      obtain ⟨h1, h2, h3⟩ := ih (t.insert g)
      have hnone : ∀ x, (t.insert g).find x = none → t.find x = none ∧ x ≠ g.name := by
        intro x hx
        rw [find_insert] at hx
        split at hx
        · cases hx
        · rename_i h
          exact ⟨hx, fun e => h ⟨e, hx⟩⟩
      refine ⟨fun x hx => ?_, List.pairwise_cons.mpr ⟨fun x hx => ?_, h2⟩, fun x hx hn => ?_⟩
      · rcases List.mem_cons.mp hx with rfl | hx
        · exact ⟨hg, List.mem_cons_self ..⟩
        · exact ⟨(hnone _ (h1 x hx).1).1, List.mem_cons_of_mem _ (h1 x hx).2⟩
      · exact fun e => (hnone _ (h1 x hx).1).2 e.symm
      · by_cases e : x.name = g.name
        · exact ⟨g, List.mem_cons_self .., e.symm⟩
        · rcases List.mem_cons.mp hx with rfl | hx
          · exact absurd rfl e
          · obtain ⟨y, hy, hxy⟩ := h3 x hx (by rw [find_insert, if_neg (fun h => e h.1)]; exact hn)
            exact ⟨y, List.mem_cons_of_mem _ hy, hxy⟩

/-- No two declarations have the same name and parameters. -/
def noClash : List Sig → Bool
  | [] => true
  | a :: l => (l.all fun b => bif Nat.beq a.name b.name then !decide (a.params = b.params) else true) && noClash l

theorem pairwise_of_noClash (l : List Sig) (h : noClash l = true) :
    l.Pairwise fun a b => ¬ (a.name = b.name ∧ a.params = b.params) := by
  induction l with
  | nil => exact .nil
  | cons a l ih =>
    simp only [noClash, Bool.and_eq_true, List.all_eq_true] at h
    refine List.pairwise_cons.mpr ⟨fun b hb ⟨h1, h2⟩ => ?_, ih h.2⟩
    have := h.1 b hb
    simp [h1, h2, Bool.cond_eq_ite] at this

end Verif.Cpp
