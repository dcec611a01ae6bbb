import Verif.Typing
import Verif.ArmLemmas
import Verif.Props.Signatures
import Verif.Props.Outcome
import Verif.Props.Program

/-! # Calls with arguments of the declared types (C78): general facts -/

namespace Verif.Props
open Verif.Cpp Verif.Arm

/-- Every call of the function with arguments of the types in its definition has exactly one outcome, and a
caller has to expect it. -/
def Total [Dialect] (e : Nat × Text) : Prop :=
  ∀ g, e.2.sig e.1 = some g → ∀ args, Typed g.params args →
    ∃ o, (∀ o', Called e.1 args o' ↔ o' = o) ∧ Accepted e.1 g args o

theorem total_of [Dialect] {f : Nat} {g : Sig} {args : List Obj} {o : C Obj} (h : Called f args o) (ha : Accepted f g args o) :
    ∃ o, (∀ o', Called f args o' ↔ o' = o) ∧ Accepted f g args o :=
  ⟨o, fun _ => ⟨fun h' => called_unique h' h, fun e => e ▸ h⟩, ha⟩

theorem total_fn [Dialect] {f : Nat} {t : String} {g : Sig} (hs : definedSig headerType t.toList = some g)
    (h : ∀ args, Typed g.params args → ∃ o, (∀ o', Called f args o' ↔ o' = o) ∧ Accepted f g args o) : Total (f, .fn t) := by
  intro g' hg'
  cases hs.symm.trans hg'
  exact h

theorem total_unit [Dialect] {f : Nat} {t : String} {g : Sig} (hs : findSig headerType f (tokenize t.toList) = some g)
    (h : ∀ args, Typed g.params args → ∃ o, (∀ o', Called f args o' ↔ o' = o) ∧ Accepted f g args o) : Total (f, .unit t) := by
  intro g' hg'
  cases hs.symm.trans hg'
  exact h

variable [Dialect] {f : Nat} {x : Nat} {ps : List PTy} {args : List Obj} {e : Elem} {n k : Nat}

theorem total_vec {c : C (Vec e n)} {w : Prop} (h : Called f args (Obj.ofVec <$> c)) (hg : Good (message f) w (fun _ => True) c)
    (hw : (∀ l, c ≠ .indet l) ∨ f ∈ unwritten) :
    ∃ o, (∀ o', Called f args o' ↔ o' = o) ∧ Accepted f ⟨x, .vec e n, ps⟩ args o :=
  total_of h (accepted_of hg hw fun a _ => ⟨a, rfl⟩)

theorem total_arr {c : C (VecArr e n k)} {w : Prop} (h : Called f args (Obj.ofVecArr <$> c)) (hg : Good (message f) w (fun _ => True) c)
    (hw : (∀ l, c ≠ .indet l) ∨ f ∈ unwritten) :
    ∃ o, (∀ o', Called f args o' ↔ o' = o) ∧ Accepted f ⟨x, .arr e n k, ps⟩ args o :=
  total_of h (accepted_of hg hw fun a _ => ⟨a, rfl⟩)

theorem total_sc {c : C (BitVec e.bits)} (h : Called f args (Obj.ofScalar e <$> c)) (hg : Good (message f) False (fun _ => True) c) :
    ∃ o, (∀ o', Called f args o' ↔ o' = o) ∧ Accepted f ⟨x, .sc e, ps⟩ args o :=
  total_of h (accepted_of hg (.inl hg.not_indet) fun a _ => ⟨a, rfl⟩)

theorem total_mem {p : Ptr e} {c : C (Ptr e)} (h : Called f (.ofPtr p :: args) (Obj.ofPtr <$> c)) (hg : Good (message f) False (Same p) c) :
    ∃ o, (∀ o', Called f (.ofPtr p :: args) o' ↔ o' = o) ∧ Accepted f ⟨x, .void, ps⟩ (.ofPtr p :: args) o :=
  total_of h (accepted_of hg (.inl hg.not_indet) fun a ha => ⟨e, p, a, rfl, rfl, ha.1, ha.2⟩)

end Verif.Props
