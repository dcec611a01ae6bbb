import Verif.Arm
import Verif.Cpp.Library

/-!
# Programs that call the intrinsics

A program is C++ code of a user of the library: calls to intrinsics with
arguments taken from variables, with constants, and the user's own scalar code between them
(`glue`), in sequence, under conditions and in loops.  Its variables hold
registers, register arrays and scalars, or point into buffers; several pointers
may point into the same buffer.

`Exec` runs a program on the simulator: a call runs the text of the definition in
`neon_sim.cpp`.  `Ensures` says, from the architecture's meaning of the intrinsics
alone (`Arm.Means`), that the program is defined and ends in a given set of states.
-/

namespace Verif.Machine
open Verif.Cpp

/-- The elements of a buffer, `none` for an uninitialised one. -/
abbrev Contents (e : Elem) := List (Option (BitVec e.bits))

/-- What a variable holds. -/
inductive Cell
  | val (o : Obj)
  /-- pointer to element `off` of the buffer `buf` -/
  | ptr (buf off : Nat)

/-- The buffers, each with the type of its elements, and the variables. -/
structure State where
  mem : Nat → (e : Elem) × Contents e
  var : Nat → Cell

/-- Assign to a variable. -/
def State.set (s : State) (x : Nat) (c : Cell) : State :=
  { s with var := fun y => if y = x then c else s.var y }

/-- Replace the contents of a buffer. -/
def State.put (s : State) (b : Nat) (m : (e : Elem) × Contents e) : State :=
  { s with mem := fun c => if c = b then m else s.mem c }

/-- Argument of a call: a variable, a register of a register array, or a constant. -/
inductive Arg
  | var (x : Nat)
  /-- `x.val[j]` -/
  | reg (x j : Nat)
  | const (o : Obj)

/-- Integer constant. -/
abbrev Arg.imm (n : Int) : Arg := .const (.ofInt n)

/-- The value of an argument; a pointer is passed with the buffer it points into. -/
def State.arg (s : State) : Arg → Obj
  | .var x =>
    match s.var x with
    | .val o => o
    | .ptr b off => .ptr (s.mem b).1 ⟨(s.mem b).2, off⟩
  | .reg x j =>
    match s.var x with
    | .val (.arr e n k r) => if h : j < k then .vec e n (r ⟨j, h⟩) else .arr e n k r
    | .val o => o
    | .ptr b off => .ptr (s.mem b).1 ⟨(s.mem b).2, off⟩
  | .const o => o

/-- Programs. -/
inductive Prog
  | skip
  /-- `x = f(args);` -/
  | call (x f : Nat) (args : List Arg)
  /-- `f(p, args);` for a function that writes through the pointer `p` -/
  | store (f p : Nat) (args : List Arg)
  /-- the user's own code -/
  | glue (g : State → State)
  | seq (a b : Prog)
  | cond (c : State → Bool) (a b : Prog)
  /-- a loop whose number of iterations is known on entry -/
  | loop (n : State → Nat) (a : Prog)

/-- The state after `x = f(args)` returned the object `r`. -/
def State.assign (s : State) (x : Nat) (r : Obj) : State := s.set x (.val r)

/-- The state after a call through the pointer `p` left the memory `r` behind. -/
def State.written (s : State) (p : Nat) (r : Obj) : State :=
  match s.var p, r with
  | .ptr b _, .ptr e q => s.put b ⟨e, q.buf⟩
  | _, _ => s

/-- `o` is what remains of an outcome `a` when execution goes on with `k`: if it was normal
completion, what `k` gives, otherwise the same outcome. -/
def Then {α : Type} (a : C α) (k : α → C State → Prop) (o : C State) : Prop :=
  match a with
  | .ok x => k x o
  | .abort m => o = .abort m
  | .ub u => o = .ub u
  | .indet l => o = .indet l

/-- `n` iterations of a step on the simulator. -/
def Iter (k : State → C State → Prop) : Nat → State → C State → Prop
  | 0, s, o => o = .ok s
  | n + 1, s, o => ∃ a, k s a ∧ Then a (Iter k n) o

/-- `Exec p s o`: running the program `p` in the state `s` on the simulator has the outcome `o`. -/
def Exec [Dialect] : Prog → State → C State → Prop
  | .skip, s, o => o = .ok s
  | .call x f args, s, o =>
    ∃ a, Called f (args.map s.arg) a ∧ Then a (fun r o => o = .ok (s.assign x r)) o
  | .store f p args, s, o =>
    ∃ a, Called f (s.arg (.var p) :: args.map s.arg) a ∧ Then a (fun r o => o = .ok (s.written p r)) o
  | .glue g, s, o => o = .ok (g s)
  | .seq p q, s, o => ∃ a, Exec p s a ∧ Then a (Exec q) o
  | .cond c p q, s, o => if c s then Exec p s o else Exec q s o
  | .loop n p, s, o => Iter (Exec p) (n s) s o

/-- `n` iterations of a step on the architecture. -/
def repeated (k : (State → Prop) → State → Prop) : Nat → (State → Prop) → State → Prop
  | 0, Q, s => Q s
  | n + 1, Q, s => k (repeated k n Q) s

/-- `Ensures p Q s`: by the architecture's meaning of the intrinsics, every execution of `p` from `s`
is defined and ends in a state that satisfies `Q`.  A call is defined if the intrinsic may return
something, and then it may return anything that its meaning allows. -/
def Ensures [Dialect] : Prog → (State → Prop) → State → Prop
  | .skip, Q, s => Q s
  | .call x f args, Q, s =>
    (∃ r, Arm.Means f (args.map s.arg) r) ∧ ∀ r, Arm.Means f (args.map s.arg) r → Q (s.assign x r)
  | .store f p args, Q, s =>
    (∃ r, Arm.Means f (s.arg (.var p) :: args.map s.arg) r) ∧
    ∀ r, Arm.Means f (s.arg (.var p) :: args.map s.arg) r → Q (s.written p r)
  | .glue g, Q, s => Q (g s)
  | .seq p q, Q, s => Ensures p (Ensures q Q) s
  | .cond c p q, Q, s => if c s then Ensures p Q s else Ensures q Q s
  | .loop n p, Q, s => repeated (Ensures p) (n s) Q s

end Verif.Machine
