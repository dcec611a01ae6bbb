import Verif.Props.ExecLibrary
import Verif.Props.TypeSafe
import Verif.Props.Typed

/-! Properties C96 and C97, continued: every function of the library obeys the static rules, and has the outcome of the model on the
abstract machine (generated by `tools/gen_machlib.py`). -/

namespace Verif.Props
open Verif.Cpp Verif.SpecExec

/-- The type of a parameter in the definition of a function. -/
def paramTy : PTy → Ty
  | .val t => t
  | .ptr _ e => .ptr e

/-- The definition obeys the static rules and has the types of the declaration. -/
def checked (d : Func) (g : Sig) : Bool :=
  funcOk d && SpecType.func d && decide (d.ret = g.ret) && decide (d.params.map (·.1) = g.params.map paramTy)

/-- A definition that obeys the static rules; or a function of a translation unit that obeys them, which returns a value for all
arguments. -/
def Checked (e : Nat × Text) : Prop :=
  match e.2 with
  | .fn s => ∃ d, parse s.toList = some d ∧ ∃ g, e.2.sig e.1 = some g ∧ checked d g = true
  | .unit s => (∃ u, parseUnit s.toList = some u ∧ funcsOk u = true ∧ SpecType.unit u = true ∧ ∃ d, func u.funcs e.1 = some d ∧ d.ret ≠ .void) ∧
      ∀ (_ : Dialect) (g : Sig), e.2.sig e.1 = some g → ∀ args, Cpp.Typed g.params args → ∃ r, RunsIn s e.1 args (.ok r)

theorem FPRecipEstimate_checked : Checked (k!"FPRecipEstimate", .unit Source.recip) := by
  refine ⟨⟨_, Source.recip_parse, by decide +kernel, by decide +kernel, _, rfl, by decide +kernel⟩, fun D g hg args h => ?_⟩
  cases FPRecipEstimate_sig_read.symm.trans hg
  obtain ⟨a0, rfl, ta⟩ := typed1 h
  obtain ⟨a, rfl⟩ := ta
  have := FPRecipEstimate_source a
  rw [FPRecipEstimate_eval] at this
  exact ⟨_, this⟩

theorem vrecpeq_f32_checked : Checked (k!"vrecpeq_f32", .unit Source.recip) := by
  refine ⟨⟨_, Source.recip_parse, by decide +kernel, by decide +kernel, _, rfl, by decide +kernel⟩, fun D g hg args h => ?_⟩
  cases vrecpeq_f32_sig_read.symm.trans hg
  obtain ⟨a0, rfl, ta⟩ := typed1 h
  obtain ⟨a, rfl⟩ := ta
  have := vrecpeq_f32_source a
  rw [vrecpeq_f32_eval] at this
  exact ⟨_, this⟩

