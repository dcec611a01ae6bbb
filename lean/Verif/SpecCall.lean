import Verif.SpecExec
import Verif.Cpp.Sem

/-!
# Calls of the model and calls of the abstract machine

The bytes that stand for the objects of the model, and when an outcome of the model is an outcome of the abstract machine.
-/

namespace Verif.SpecExec
open Verif.Cpp

/-- The `n` bytes of a number, the least significant one first. -/
def bytes : Nat → Nat → List Byte
  | 0, _ => []
  | n + 1, v => BitVec.ofNat 8 v :: bytes n (v / 256)

/-- The bit pattern of a value. -/
def code : Val → Nat
  | .int t z => (BitVec.ofInt t.bits z).toNat
  | .f32 b => b.toNat
  | .f64 b => b.toNat

/-- The storage of one element. -/
def cell (n : Nat) : Option Nat → Block
  | none => raw n
  | some v => (bytes n v).map some

/-- The storage of a list of elements. -/
def flat (n : Nat) (L : List (Option Nat)) : Block := (L.map (cell n)).flatten

/-- The elements of a register. -/
def lanesOf {e : Elem} {n : Nat} (r : Arr e n) : List (Option Nat) := List.ofFn fun i => (r i).map BitVec.toNat

/-- The elements of an object as bit patterns, `none` being an uninitialised one. -/
def patterns : Obj → List (Option Nat)
  | .sc _ v => [v.map code]
  | .vec _ _ r => lanesOf r
  | .arr _ _ _ r => (List.ofFn fun j => lanesOf (r j)).flatten
  | .ptr _ p => p.buf.map (·.map BitVec.toNat)
  | .cells _ _ r => lanesOf r
  | .obj _ => []

/-- The type of its elements. -/
def elemOf : Obj → Elem
  | .sc e _ | .vec e _ _ | .arr e _ _ _ | .ptr e _ | .cells e _ _ => e
  | .obj _ => .f32

/-- The bytes of an object (of the buffer, for a pointer). -/
def image (o : Obj) : Block := flat (size (elemOf o)) (patterns o)

/-- The argument as the abstract machine sees it. -/
def argOf : Obj → Arg
  | .ptr e p => .pointer e (image (.ptr e p)) p.off
  | o => .object o.ty (image o)

/-- The object can be an argument: an integer is a value of its type. -/
def IsArg : Obj → Prop
  | .sc e (some v) => ∃ bs, Denotes e bs v
  | .obj _ => False
  | _ => True

/-- The object is a pointer. -/
def isPointer : Obj → Bool
  | .ptr .. => true
  | _ => false

/-- `Shows args r r'`: the outcome `r` of the model stands for the outcome `r'` of the abstract machine. -/
inductive Shows (args : List Obj) : C Obj → C Effect → Prop
  /-- The returned object, every byte of which is initialised. -/
  | value (o) : isPointer o = false → none ∉ image o → Shows args (.ok o) (.ok (.value o.ty (image o)))
  /-- A returned register with indeterminate bytes. -/
  | indet (l e b t) : isRegister t = true → b = flat (size e) l → none ∈ b → Shows args (.indet l) (.ok (.value t b))
  /-- The memory behind the first pointer. -/
  | void (i e p q μ) : (∀ o ∈ args.take i, isPointer o = false) → args[i]? = some (.ptr e p) → q.off = p.off →
      μ[i]? = some (image (.ptr e q)) → Shows args (.ok (.ptr e q)) (.ok (.void μ))
  | undefined (ub) : Shows args (.ub ub) (.ub ub)
  | abort (m) : Shows args (.abort m) (.abort m)

/-- The model accepts the program: the outcome is not one of those by which it rejects it. -/
def Accepted (t : Ty) : C Obj → Prop
  | .ok o => t = .void → isPointer o = true
  | .ub u => u ≠ .illTyped
  | .abort m => m ≠ "ill-formed program" ∧ m ≠ "out of fuel"
  | .indet _ => True

end Verif.SpecExec
