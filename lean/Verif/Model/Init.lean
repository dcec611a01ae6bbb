import Verif.Types

/-!
Initializer lists of the register types of `neon_sim.h`, by the rules of C++11 for aggregates ([dcl.init.aggr], [dcl.init.list],
with CWG 1467), written by hand.  All scalars in such a type have one type, `e`.  Simplifications: a string literal does not occur as
an initializer of lanes of `int8_t` or `uint8_t`; narrowing is an error, as the standard says (GCC only warns if the value is not constant).
-/

namespace Verif.Init

/-- The form of a type: `neon_sim.h:21-117` are `struct { T val[n]; }` and `neon_sim.h:122-463` are `struct { VT val[k]; }`. -/
inductive Shape
  | scalar
  | array (n : Nat) (t : Shape)
  | struct (t : Shape)
  deriving DecidableEq, Repr

/-- `neon_sim.h:21-117` -/
abbrev vec (n : Nat) : Shape := .struct (.array n .scalar)
/-- `neon_sim.h:122-463` -/
abbrev vecs (n k : Nat) : Shape := .struct (.array k (vec n))

/-- What stands between the braces of an initializer: a scalar expression with its value, which is constant or not, an expression of
a class type of the header, with its lanes in the order of memory, or a list in braces. -/
inductive Clause
  | expr (const : Bool) (v : Val)
  | object (e : Elem) (t : Shape) (lanes : List (BitVec e.bits))
  | braces (l : List Clause)

/-- [dcl.init.list] paragraph 7: the scalar of type `e` initialized with the value, unless that narrows (`neon_sim.h:22`, `int8_t val[8]`). -/
def scalarInit : (e : Elem) → Bool → Val → Option (BitVec e.bits)
  | .int t, c, .int s v => if (t.lo ≤ s.lo ∧ s.hi ≤ t.hi) ∨ (c = true ∧ t.lo ≤ v ∧ v ≤ t.hi) then some (BitVec.ofInt t.bits v) else none
  | .int _, _, _ => none
  | .f32, c, .int _ v => if c = true ∧ Fmt.b32.fix (Fmt.b32.ofInt v) = v * 2 ^ Fmt.b32.unit ∧ Fmt.b32.isInf (Fmt.b32.ofInt v) = false then
      some (BitVec.ofNat 32 (Fmt.b32.ofInt v)) else none
  | .f32, _, .f32 b => some b
  | .f32, c, .f64 b => if c = true ∧ Fmt.b32.isInf (Fmt.b64.convert .b32 b.toNat) = false then some (Val.toF32 (.f64 b)) else none
  | .f64, c, .int _ v => if c = true ∧ Fmt.b64.fix (Fmt.b64.ofInt v) = v * 2 ^ Fmt.b64.unit ∧ Fmt.b64.isInf (Fmt.b64.ofInt v) = false then
      some (BitVec.ofNat 64 (Fmt.b64.ofInt v)) else none
  | .f64, _, .f32 b => some (Val.toF64 (.f32 b))
  | .f64, _, .f64 b => some b

/-- The elements of an array, from the clauses that are left (`neon_sim.h:22`). -/
def times {α β : Type} (f : List β → Option (List α × List β)) : Nat → List β → Option (List α × List β)
  | 0, cs => some ([], cs)
  | n + 1, cs => do
    let (a, cs) ← f cs
    let (b, cs) ← times f n cs
    some (a ++ b, cs)

/-- All clauses have been used (`neon_sim.h:21`). -/
def whole {α β : Type} : Option (List α × List β) → Option (List α)
  | some (a, []) => some a
  | _ => none

/-- [dcl.init.aggr]: a subobject takes its initializers from the clauses: it is zero if there are none left; a list in braces, or an
expression of its type, initializes it alone; otherwise the braces around its elements are elided (`neon_sim.h:21-463`). -/
def fill (e : Elem) : Shape → List Clause → Option (List (BitVec e.bits) × List Clause)
  | .scalar, [] => some ([0], [])
  | .scalar, .expr c v :: cs => (scalarInit e c v).map fun b => ([b], cs)
  | .scalar, .braces [] :: cs => some ([0], cs)
  | .scalar, .braces [.expr c v] :: cs => (scalarInit e c v).map fun b => ([b], cs)
  | .scalar, _ => none
  | .array n t, .braces l :: cs => (whole (times (fill e t) n l)).map fun a => (a, cs)
  | .array n t, cs => times (fill e t) n cs
  | .struct t, .braces [.object e' t' lanes] :: cs =>
    if h : e' = e ∧ t' = .struct t then some (h.1 ▸ lanes, cs) else (whole (fill e t [.object e' t' lanes])).map fun a => (a, cs)
  | .struct t, .braces l :: cs => (whole (fill e t l)).map fun a => (a, cs)
  | .struct t, .object e' t' lanes :: cs =>
    if h : e' = e ∧ t' = .struct t then some (h.1 ▸ lanes, cs) else fill e t (.object e' t' lanes :: cs)
  | .struct t, cs => fill e t cs

/-- `T a = c;` for a class type: the initializer is a list in braces or an object of the type (`neon_sim.h:21-463`); `none` is an error of the
compiler. -/
def declare (e : Elem) (t : Shape) : Clause → Option (List (BitVec e.bits))
  | .expr _ _ => none
  | .object e' t' lanes => if h : e' = e ∧ t' = t then some (h.1 ▸ lanes) else none
  | .braces l => whole (fill e t [.braces l])

/-- The lanes of a register in the order of memory (`neon_sim.h:21-117`). -/
def lanes {e n} (v : Vec e n) : List (BitVec e.bits) := List.ofFn v.lane
/-- The lanes of an array of registers in the order of memory (`neon_sim.h:122-463`). -/
def lanesArr {e n k} (v : VecArr e n k) : List (BitVec e.bits) := (List.ofFn fun j => lanes (v.reg j)).flatten

/-- `VT a = c;` (`neon_sim.h:21-117`) -/
def declareVec (e : Elem) (n : Nat) (c : Clause) : Option (Vec e n) :=
  (declare e (vec n) c).map fun l => ⟨fun i => l.getD i 0⟩
/-- `VTxK a = c;` (`neon_sim.h:122-463`) -/
def declareArr (e : Elem) (n k : Nat) (c : Clause) : Option (VecArr e n k) :=
  (declare e (vecs n k) c).map fun l => ⟨fun j => ⟨fun i => l.getD (j * n + i) 0⟩⟩

/-- An expression whose value is a register (`neon_sim.h:21-117`). -/
def ofVec {e n} (v : Vec e n) : Clause := .object e (vec n) (lanes v)
/-- An expression whose value is an array of registers (`neon_sim.h:122-463`). -/
def ofArr {e n k} (v : VecArr e n k) : Clause := .object e (vecs n k) (lanesArr v)

end Verif.Init
