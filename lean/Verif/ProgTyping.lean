import Verif.Machine
import Verif.Typing
import Verif.Props.Signatures

/-!
# Types of programs

When a C++ compiler accepts a program over the intrinsics: every call names a function that is defined in
`neon_sim.cpp` and passes arguments of the types of its parameters, and no variable is used before it has a value.
-/

namespace Verif.Machine
open Verif.Cpp

/-- Type of a variable: a value, or a pointer into a buffer with elements of a type. -/
inductive VTy
  | val (t : Ty)
  | ptr (e : Elem)

/-- The variables that have a value, with their types. -/
abbrev Ctx := Nat → Option VTy

/-- The element types and sizes of the buffers. -/
abbrev Layout := Nat → Elem × Nat

/-- A variable gets a value. -/
def Ctx.set (Γ : Ctx) (x : Nat) (t : VTy) : Ctx := fun y => if y = x then some t else Γ y

/-- The cell holds something of the type. -/
def Cell.HasTy (L : Layout) : VTy → Cell → Prop
  | .val t, .val o => Cpp.HasTy (.val t) o
  | .ptr e, .ptr b _ => (L b).1 = e
  | _, _ => False

/-- The state has the layout, and its variables have the types. -/
structure State.Fits (L : Layout) (Γ : Ctx) (s : State) : Prop where
  mem : ∀ b, (s.mem b).1 = (L b).1 ∧ (s.mem b).2.length = (L b).2
  var : ∀ x t, Γ x = some t → (s.var x).HasTy L t

/-- The argument can be passed for a parameter of the type. -/
def Arg.HasTy (Γ : Ctx) : Arg → PTy → Prop
  | .var x, .val t => Γ x = some (.val t)
  | .var x, .ptr _ e => Γ x = some (.ptr e)
  | .reg x j, t => ∃ e n k, Γ x = some (.val (.arr e n k)) ∧ j < k ∧ t = .val (.vec e n)
  | .const o, .val t => Cpp.HasTy (.val t) o
  | .const _, .ptr _ _ => False

/-- The arguments can be passed for the parameters. -/
def ArgsTyped (Γ : Ctx) : List Arg → List PTy → Prop
  | [], [] => True
  | a :: as, t :: ts => a.HasTy Γ t ∧ ArgsTyped Γ as ts
  | _, _ => False

/-- `HasType L Γ p Δ`: the program `p` is accepted where the variables of `Γ` have values, and after it those of
`Δ` have.  The user's own code keeps the layout of the memory and gives the variables values of their types. -/
inductive HasType (L : Layout) : Ctx → Prog → Ctx → Prop
  | skip {Γ} : HasType L Γ .skip Γ
  | call {Γ x f args t g} : (f, t) ∈ library → t.sig f = some g → g.ret ≠ .void → ArgsTyped Γ args g.params →
      HasType L Γ (.call x f args) (Γ.set x (.val g.ret))
  | store {Γ f p args t g} : (f, t) ∈ library → t.sig f = some g → g.ret = .void → ArgsTyped Γ (.var p :: args) g.params →
      HasType L Γ (.store f p args) Γ
  | glue {Γ Δ h} : (∀ s : State, s.Fits L Γ → (h s).Fits L Δ) → HasType L Γ (.glue h) Δ
  | seq {Γ Δ Ε p q} : HasType L Γ p Δ → HasType L Δ q Ε → HasType L Γ (.seq p q) Ε
  | cond {Γ Δ c p q} : HasType L Γ p Δ → HasType L Γ q Δ → HasType L Γ (.cond c p q) Δ
  | loop {Γ n p} : HasType L Γ p Γ → HasType L Γ (.loop n p) Γ
  /-- variables may be forgotten -/
  | forget {Γ Γ' Δ Δ' p} : HasType L Γ p Δ → (∀ x t, Γ x = some t → Γ' x = some t) → (∀ x t, Δ' x = some t → Δ x = some t) →
      HasType L Γ' p Δ'

/-- The functions that a program calls. -/
def Prog.calls : Prog → List Nat
  | .skip | .glue _ => []
  | .call _ f _ | .store f _ _ => [f]
  | .seq p q | .cond _ p q => p.calls ++ q.calls
  | .loop _ p => p.calls

/-- The outcome is one to be expected of a program that calls the functions `fs`. -/
def Expected (L : Layout) (Δ : Ctx) (fs : List Nat) : C State → Prop
  | .ok s => s.Fits L Δ
  | .abort m => ∃ f ∈ fs, message f = some m
  | .ub _ => True
  | .indet _ => ∃ f ∈ fs, f ∈ unwritten

end Verif.Machine
