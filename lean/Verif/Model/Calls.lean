import Verif.Cpp.Header

/-!
Which calls of functions of `neon_sim.h` a C++ compiler accepts: the types of expressions that are made of calls, by the rules of
C++11 for implicit conversions of arguments ([over.match], [conv.array], [conv.ptr], [conv.qual], [conv.integral] to [conv.fpint]),
written by hand for the types of the header.  Simplifications: no overloads (the functions have C linkage, so a name has one
declaration; C65), no `volatile`, no types other than these as arguments.
-/

namespace Verif.Calls
open Verif.Cpp

/-- The type of an expression that may be the argument of a call, with the literal `0` apart, which is also a null pointer
(`neon_sim.h:465-3407`). -/
inductive Arg
  | void
  | scalar (e : Elem)
  | vec (e : Elem) (n : Nat)
  | arr (e : Elem) (n k : Nat)
  /-- `e*` or `e const*` -/
  | ptr (const : Bool) (e : Elem)
  /-- `e[n]` or `e const[n]` -/
  | array (const : Bool) (e : Elem) (n : Nat)
  /-- the literal `0` -/
  | zero
  /-- `nullptr` -/
  | null
  deriving DecidableEq, Repr

/-- The argument is implicitly converted to the parameter (`neon_sim.h:465-3407`). -/
def converts : Arg → PTy → Bool
  | .scalar _, .val (.sc _) => true
  | .zero, .val (.sc _) => true
  | .vec e n, .val t => t == .vec e n
  | .arr e n k, .val t => t == .arr e n k
  | .ptr c e, .ptr c' e' => e == e' && (!c || c')
  | .array c e _, .ptr c' e' => e == e' && (!c || c')
  | .zero, .ptr _ _ => true
  | .null, .ptr _ _ => true
  | _, _ => false

/-- The type of a call whose function returns the type; a function of the header returns no pointer (`neon_sim.h:465-3407`). -/
def result : Ty → Option Arg
  | .void => some .void
  | .sc e => some (.scalar e)
  | .vec e n => some (.vec e n)
  | .arr e n k => some (.arr e n k)
  | _ => none

/-- Expressions made of calls (`neon_sim.h:465-3407`). -/
inductive Ex
  | leaf (t : Arg)
  | call (f : Nat) (args : List Ex)

/-- All arguments are converted, one to each parameter (`neon_sim.h:465-3407`). -/
def convertsAll : List Arg → List PTy → Bool
  | [], [] => true
  | a :: as, p :: ps => converts a p && convertsAll as ps
  | _, _ => false

mutual
/-- The type of an expression, with the declarations; `none` is an error of the compiler (`neon_sim.h:465-3407`). -/
def check (decls : List Sig) : Ex → Option Arg
  | .leaf t => some t
  | .call f args => do
    let ts ← checkAll decls args
    let g ← decls.find? fun g => g.name == f
    if convertsAll ts g.params then result g.ret else none
/-- The types of the arguments (`neon_sim.h:465-3407`). -/
def checkAll (decls : List Sig) : List Ex → Option (List Arg)
  | [] => some []
  | x :: xs => do
    let t ← check decls x
    let ts ← checkAll decls xs
    some (t :: ts)
end

end Verif.Calls
