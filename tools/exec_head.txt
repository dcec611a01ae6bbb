import Verif.Props.Library
import Verif.Props.ExecText
import Verif.Props.Grammar
import Verif.Props.ExecDetS

/-! Property C96, continued: the functions of the library on the abstract machine (generated by `tools/gen_execlib.py`). -/

namespace Verif.Props
open Verif.Cpp Verif.SpecExec

/-- The functions of a translation unit meet the requirements of `unit_machine`. -/
def funcsOk (u : TransUnit) : Bool := unitOk u && u.funcs.all funcOk

/-- The requirements of `run_machine` and `unit_machine`. -/
def WellFormed : Text → Prop
  | .fn s => ∃ d, parse s.toList = some d ∧ funcOk d = true
  | .unit s => ∃ u, parseUnit s.toList = some u ∧ funcsOk u = true

