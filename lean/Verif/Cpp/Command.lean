import Lean.Elab.Command
import Lean.Meta.Eval
import Verif.Cpp.Lemmas

/-!
# The command `cpp_source`

`cpp_source f "text"` defines the string `f` (the text of a function definition
in `neon_sim.cpp`) and the syntax tree `f_ast`, and proves with the kernel that
parsing the text gives the tree.
-/

namespace Verif.Cpp

open Lean Elab Command

deriving instance ToExpr for ITy
deriving instance ToExpr for Elem
deriving instance ToExpr for BinOp
deriving instance ToExpr for Expr
deriving instance ToExpr for Ty
deriving instance ToExpr for Stmt
deriving instance ToExpr for Func
deriving instance ToExpr for Struct
deriving instance ToExpr for TransUnit

/-- `cpp_source f "text"` -/
elab doc:(docComment)? "cpp_source " x:ident s:str : command => do
  let some f := parse s.getString.toList | throwErrorAt s "not in the C++ subset"
  let ast := mkIdentFrom x (x.getId.appendAfter "_ast")
  let thm := mkIdentFrom x (x.getId.appendAfter "_parse")
  elabCommand (← `($[$doc:docComment]? def $x : String := $s))
  let nm := (← getCurrNamespace) ++ ast.getId
  liftCoreM do
    addDecl <| .defnDecl {
      name := nm, levelParams := [], type := mkConst ``Func, value := toExpr f
      hints := .abbrev, safety := .safe }
    enableRealizationsForConst nm
  elabCommand (← `(set_option maxRecDepth 100000 in
    theorem $thm : parse ($x).toList = some $ast := by
      have h : ($x).toList = _ := String.toList_ofList
      rw [h]
      decide +kernel))

/-- `cpp_unit u "text"`: the same for a translation unit -/
elab doc:(docComment)? "cpp_unit " x:ident s:str : command => do
  let some f := parseUnit s.getString.toList | throwErrorAt s "not in the C++ subset"
  let ast := mkIdentFrom x (x.getId.appendAfter "_ast")
  let thm := mkIdentFrom x (x.getId.appendAfter "_parse")
  elabCommand (← `($[$doc:docComment]? def $x : String := $s))
  let nm := (← getCurrNamespace) ++ ast.getId
  liftCoreM do
    addDecl <| .defnDecl {
      name := nm, levelParams := [], type := mkConst ``TransUnit, value := toExpr f
      hints := .abbrev, safety := .safe }
    enableRealizationsForConst nm
  elabCommand (← `(set_option maxRecDepth 100000 in
    theorem $thm : parseUnit ($x).toList = some $ast := by
      have h : ($x).toList = _ := String.toList_ofList
      rw [h]
      decide +kernel))

end Verif.Cpp
