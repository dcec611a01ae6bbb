import Lean.Elab.Command
import Verif.Cpp.Command

/-!
# The header: preprocessing, type definitions and declarations

`neon_sim.h` is read in pieces of whole lines.  A piece is preprocessed line by line
(`#define`, `#if`, `#ifdef`, `#endif`; `#include` and `#pragma once` are skipped: `<stdint.h>` is
built in as `scalar`), tokenised, and parsed as a sequence of type definitions, function declarations
and the braces of `extern "C"`.  Types are looked up among those that the header has defined so far.
-/

namespace Verif.Cpp

/-- Types of parameters in a declaration.  `const` of the pointed-to type belongs to the type of the function,
`const` of the parameter itself does not. -/
inductive PTy
  | val (t : Ty)
  | ptr (const : Bool) (e : Elem)
  deriving DecidableEq, Repr

/-- The name and type of a function. -/
structure Sig where
  name : Nat
  ret : Ty
  params : List PTy
  deriving DecidableEq, Repr

/-- The lines of a text, each with its final line break. -/
def splitLines : List Char → List (List Char)
  | [] => []
  | c :: cs =>
    if c.toNat == 10 then [c] :: splitLines cs
    else match splitLines cs with
      | [] => [[c, '\n']]
      | l :: ls => (c :: l) :: ls

/-- State of the preprocessor and the types defined so far. -/
structure HState where
  /-- macros defined as 1 -/
  macros : List Nat
  /-- the enclosing conditionals, innermost first: whether their text is used -/
  conds : List Bool
  types : List (Nat × Ty)
  deriving DecidableEq, Repr

/-- Compilation as C++ starts with `__cplusplus` defined and without `__fp16` (no compiler defines it as a macro). -/
def HState.init : HState := ⟨[k!"__cplusplus"], [], []⟩

/-- Preprocess lines. -/
def preprocess : HState → List (List Tok) → Option (HState × List Tok)
  | s, [] => some (s, [])
  | s, l :: ls =>
    let used := s.conds.all id
    match l with
    | .op k!"#" :: .id k!"pragma" :: _ => preprocess s ls
    | .op k!"#" :: .id k!"include" :: _ => preprocess s ls
    | [.op k!"#", .id k!"define", .id x, .num 1] => preprocess (if used then { s with macros := x :: s.macros } else s) ls
    | [.op k!"#", .id k!"ifdef", .id x] => preprocess { s with conds := s.macros.contains x :: s.conds } ls
    | [.op k!"#", .id k!"if", .id x] => preprocess { s with conds := s.macros.contains x :: s.conds } ls
    | [.op k!"#", .id k!"endif"] =>
      match s.conds with
      | _ :: cs => preprocess { s with conds := cs } ls
      | [] => none
    | .op k!"#" :: _ => none
    | l => (preprocess s ls).map fun (s, ts) => (s, if used then l ++ ts else ts)

/-- The type with a name: built in, or defined in the header. -/
def HState.type (s : HState) (x : Nat) : Option Ty :=
  if x == k!"void" then some .void
  else match s.types.lookup x with
    | some t => some t
    | none =>
      if x == k!"float32_t" || x == k!"float64_t" then none  -- not built in
      else (scalar x).map .sc

/-- Parameters of a declaration up to the closing parenthesis. -/
def sigParams (ty : Nat → Option Ty) : Nat → List Tok → Option (List PTy × List Tok)
  | 0, _ => none
  | f + 1, ts =>
    let more (p : PTy) (ts : List Tok) : Option (List PTy × List Tok) :=
      match ts with
      | .op k!")" :: ts => some ([p], ts)
      | .op k!"," :: ts => (sigParams ty f ts).map fun (ps, ts) => (p :: ps, ts)
      | .op k!"=" :: .num _ :: .op k!")" :: ts => some ([p], ts)
      | _ => none
    match ts with
    | .op k!")" :: ts => some ([], ts)
    | .id t :: .id k!"const" :: .op k!"*" :: .id _ :: ts =>
      match ty t with
      | some (.sc e) => more (.ptr true e) ts
      | _ => none
    | .id t :: .op k!"*" :: .id _ :: ts =>
      match ty t with
      | some (.sc e) => more (.ptr false e) ts
      | _ => none
    | .id k!"const" :: .id t :: .id _ :: ts
    | .id t :: .id _ :: ts =>
      match ty t with
      | some t => more (.val t) ts
      | none => none
    | _ => none

/-- The beginning of a declaration or definition of a function, up to the closing parenthesis. -/
def sig (ty : Nat → Option Ty) : List Tok → Option (Sig × List Tok)
  | .id t :: .id f :: .op k!"(" :: ts =>
    match ty t, sigParams ty 20 ts with
    | some t, some (ps, ts) => some (⟨f, t, ps⟩, ts)
    | _, _ => none
  | _ => none

/-- Register types from the type of the elements and their number; arrays of registers. -/
def arrayOf : Ty → Nat → Option Ty
  | .sc e, n => some (.vec e n)
  | .vec e n, k => some (.arr e n k)
  | _, _ => none

/-- Type definitions and declarations. -/
def decls : Nat → HState → List Tok → Option (HState × List Sig)
  | 0, _, _ => none
  | f + 1, s, ts =>
    match ts with
    | [] => some (s, [])
    | .id k!"extern" :: .str [67] :: .op k!"{" :: ts => decls f s ts
    | [.op k!"}"] => some (s, [])
    | .id k!"typedef" :: .id k!"struct" :: .id x :: .op k!"{" :: .id t :: .id k!"val" :: .op k!"[" :: .num n :: .op k!"]" ::
        .op k!";" :: .op k!"}" :: .id y :: .op k!";" :: ts =>
      match (s.type t).bind (arrayOf · n) with
      | some t => if x == y then decls f { s with types := (x, t) :: s.types } ts else none
      | none => none
    | .id k!"typedef" :: .id t :: .id x :: .op k!";" :: ts =>
      match s.type t with
      | some t => decls f { s with types := (x, t) :: s.types } ts
      | none => none
    | ts =>
      match sig s.type ts with
      | some (g, .op k!";" :: ts) => (decls f s ts).map fun (s, gs) => (s, g :: gs)
      | _ => none

/-- Read a piece of the header. -/
def piece (s : HState) (text : List Char) : Option (HState × List Sig) :=
  match preprocess s ((splitLines text).map tokenize) with
  | some (s, ts) => decls 1000 s ts
  | none => none

/-- Read the header, given in pieces. -/
def readHeader (s : HState) : List String → Option (HState × List Sig)
  | [] => some (s, [])
  | t :: ts =>
    match piece s t.toList with
    | some (s, gs) => (readHeader s ts).map fun (s, gs') => (s, gs ++ gs')
    | none => none

theorem readHeader_cons {s s' s'' : HState} {t : String} {ts : List String} {gs gs' : List Sig}
    (h : piece s t.toList = some (s', gs)) (h' : readHeader s' ts = some (s'', gs')) :
    readHeader s (t :: ts) = some (s'', gs ++ gs') := by
  simp only [readHeader, h, h', Option.map_some]

/-- The name and type of the function that a text defines. -/
def definedSig (ty : Nat → Option Ty) (text : List Char) : Option Sig :=
  match sig ty (tokenize (text.takeWhile (·.toNat != 123) ++ ['{', '\n'])) with
  | some (g, [.op k!"{"]) => some g
  | _ => none

/-- The definition of a function named `f` in a translation unit. -/
def findSig (ty : Nat → Option Ty) (f : Nat) : List Tok → Option Sig
  | [] => none
  | t :: ts =>
    match sig ty (t :: ts) with
    | some (g, .op k!"{" :: _) => if g.name == f then some g else findSig ty f ts
    | _ => findSig ty f ts

open Lean Elab Command

deriving instance ToExpr for PTy
deriving instance ToExpr for Sig
deriving instance ToExpr for HState

/-- `cpp_header x "text" …` defines the pieces `x0`, `x1`, …, what they declare, `x0_sigs`, …, and the list
`x_pieces`, and proves with the kernel that reading the pieces gives those declarations. -/
elab "cpp_header " x:ident ss:str* : command => do
  let mut s := HState.init
  let ns ← getCurrNamespace
  let mk (n : Name) (type value : Lean.Expr) : CommandElabM Unit := liftCoreM do
    addDecl <| .defnDecl { name := ns ++ n, levelParams := [], type, value, hints := .abbrev, safety := .safe }
    enableRealizationsForConst (ns ++ n)
  let st (i : Nat) := x.getId.appendAfter s!"{i}_state"
  mk (st 0) (mkConst ``HState) (toExpr s)
  let mut i := 0
  let mut parts : Array (Ident × Ident) := #[]
  for t in ss do
    let some (s', gs) := piece s t.getString.toList | throwErrorAt t "not in the subset"
    let tx := mkIdentFrom x (x.getId.appendAfter s!"{i}")
    let sg := mkIdentFrom x (x.getId.appendAfter s!"{i}_sigs")
    let thm := mkIdentFrom x (x.getId.appendAfter s!"{i}_read")
    elabCommand (← `(def $tx : String := $t))
    mk (st (i + 1)) (mkConst ``HState) (toExpr s')
    mk sg.getId (mkApp (mkConst ``List [.zero]) (mkConst ``Sig)) (toExpr gs)
    let a := mkIdentFrom x (st i)
    let b := mkIdentFrom x (st (i + 1))
    elabCommand (← `(set_option maxRecDepth 100000 in
      theorem $thm : piece $a ($tx).toList = some ($b, $sg) := by
        have h : ($tx).toList = _ := String.toList_ofList
        rw [h]
        decide +kernel))
    s := s'
    i := i + 1
    parts := parts.push (tx, sg)
  let pieces := mkIdentFrom x (x.getId.appendAfter "_pieces")
  let texts := parts.map (·.1)
  elabCommand (← `(def $pieces : List String := [$texts,*]))

/-- Evaluate a statement about the text `x` with the kernel. -/
macro "read_text " x:ident : tactic =>
  `(tactic| (have h : ($x).toList = _ := String.toList_ofList; rw [h]; decide +kernel))

/-- Define the signature `f_sig` and prove that it is the one in the text `src`. -/
def addSig (ty x src : Ident) (inUnit : Bool) : CommandElabM Unit := do
  let nm ← liftCoreM <| realizeGlobalConstNoOverload src
  let some (.lit (.strVal text)) := (← getConstInfo nm).value? | throwErrorAt x "no text"
  let f := nameOf x.getId.toString.toList
  let fn := Syntax.mkNumLit (toString f)
  let some g := (if inUnit then findSig typeOf f (tokenize text.toList) else definedSig typeOf text.toList)
    | throwErrorAt x "no signature"
  let ns ← getCurrNamespace
  let sg := mkIdentFrom x (x.getId.appendAfter "_sig")
  let thm := mkIdentFrom x (x.getId.appendAfter "_sig_read")
  liftCoreM do
    addDecl <| .defnDecl {
      name := ns ++ sg.getId, levelParams := [], type := mkConst ``Sig, value := toExpr g
      hints := .abbrev, safety := .safe }
    enableRealizationsForConst (ns ++ sg.getId)
  let lhs ← if inUnit then `(findSig $ty $fn (tokenize ($src).toList)) else `(definedSig $ty ($src).toList)
  elabCommand (← `(theorem $thm : $lhs = some $sg := by read_text $src))

/-- `cpp_sig ty f`: the signature `f_sig` of the function defined by the text `Source.f`, and the theorem `f_sig_read` that
it is the one in the text, with the type names `ty`. -/
elab "cpp_sig " ty:ident x:ident : command => addSig ty x (mkIdent (`Source ++ x.getId)) false

/-- `cpp_unit_sig ty u f`: the same for a function of the translation unit `Source.u`. -/
elab "cpp_unit_sig " ty:ident u:ident x:ident : command => addSig ty x (mkIdent (`Source ++ u.getId)) true

end Verif.Cpp
