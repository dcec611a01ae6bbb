import Verif.Core

/-!
# Specification vocabulary for memory

What it means for the elements of a buffer to be there, and for a buffer to have
received a block of elements and to be otherwise untouched.
-/

namespace Verif.Spec

/-- Element `k` after the pointer exists, is initialised, and its representation is `x`. -/
def Holds {e : Elem} (p : Ptr e) (k : Nat) (x : BitVec e.bits) : Prop :=
  p.buf[p.off + k]? = some (some x)

instance {e : Elem} (p : Ptr e) (k : Nat) (x : BitVec e.bits) : Decidable (Holds p k x) := by
  unfold Holds; infer_instance

/-- Element `k` after the pointer exists and is initialised. -/
def Readable {e : Elem} (p : Ptr e) (k : Nat) : Prop := ∃ x, Holds p k x

/-- The `n` elements from the pointer on exist (initialised or not). -/
def Writable {e : Elem} (p : Ptr e) (n : Nat) : Prop := p.off + n ≤ p.buf.length

instance {e : Elem} (p : Ptr e) (n : Nat) : Decidable (Writable p n) := by
  unfold Writable; infer_instance

/-- `p'` is `p` after the block `x` was written through the pointer: the pointer and the size of the
buffer are the same, the block is there, and every element outside the block is what it was. -/
structure Stored {e : Elem} {n : Nat} (p : Ptr e) (x : Fin n → BitVec e.bits) (p' : Ptr e) : Prop where
  off : p'.off = p.off
  size : p'.buf.length = p.buf.length
  written : ∀ i : Fin n, p'.buf[p.off + i]? = some (some (x i))
  frame : ∀ a, a < p.off ∨ p.off + n ≤ a → p'.buf[a]? = p.buf[a]?

/-- The lanes of `k` registers of `n` lanes, interleaved: lane 0 of every register, then lane 1 of
every register, and so on. -/
def interleave {e : Elem} {n k : Nat} (v : VecArr e n k) (t : Fin (n * k)) : BitVec e.bits :=
  (v.reg ⟨t.val % k, Nat.mod_lt _ (by
      rcases Nat.eq_zero_or_pos k with h | h
      · subst h; exact absurd t.isLt (by simp)
      · exact h)⟩).lane
    ⟨t.val / k, Nat.div_lt_of_lt_mul (Nat.lt_of_lt_of_eq t.isLt (Nat.mul_comm n k))⟩

/-- Outcome of a contiguous load: it completes with `r` exactly when element `i` is there and is lane
`i` of `r`, for every lane, and is undefined when an element is missing or uninitialised. -/
def Loads {e : Elem} {n : Nat} (p : Ptr e) (c : C (Vec e n)) : Prop :=
  (∀ r, c = .ok r ↔ ∀ i : Fin n, Holds p i (r.lane i)) ∧
  ((∃ i : Fin n, ¬ Readable p i) → ∃ u, c = .ub u)

/-- Outcome of a de-interleaving load of `k` registers: lane `i` of register `j` is element
`k * i + j`. -/
def LoadsK {e : Elem} {n k : Nat} (p : Ptr e) (c : C (VecArr e n k)) : Prop :=
  (∀ r, c = .ok r ↔ ∀ (j : Fin k) (i : Fin n), Holds p (k * i + j) ((r.reg j).lane i)) ∧
  ((∃ (j : Fin k) (i : Fin n), ¬ Readable p (k * i + j)) → ∃ u, c = .ub u)

/-- Outcome of a store of the block `x`: exactly the block is written if there is room for it,
undefined behaviour if there is not. -/
def Stores {e : Elem} {n : Nat} (p : Ptr e) (x : Fin n → BitVec e.bits) (c : C (Ptr e)) : Prop :=
  (Writable p n → ∃ p', c = .ok p' ∧ Stored p x p') ∧ (¬ Writable p n → c = .ub .outOfBounds)

end Verif.Spec
