import Verif.Props.Lexer
import Verif.Props.StmtComplete
import Verif.Props.Library

/-!
# Property C95: the texts of the functions are read as C++ reads them

The lexer and the parser that the kernel runs on the source texts are checked against the lexical grammar (`SpecLex`) and the
grammar of the subset (`SpecGrammar`).  Both are relations, and both are unambiguous: a text has at most one tree, and it is
the one that the model interprets.
-/

namespace Verif.Props
open Verif Cpp SpecLex SpecGrammar
open scoped Verif.Cpp Verif.SpecGrammar Verif.SpecLex

/-- The characters of a text, with a line break at the end. -/
def Characters (text : String) : List Nat := text.toList.map Char.toNat ++ c!"\n"

/-- The text is a function definition with the given tree, and has no other tree. -/
def IsFunction (text : String) (f : Func) : Prop :=
  (∃ ts, Lexes (Characters text) ts ∧ Function ts f) ∧ ∀ ts g, Lexes (Characters text) ts → Function ts g → g = f

/-- The text is a translation unit with the given tree, and has no other tree. -/
def IsUnit (text : String) (u : TransUnit) : Prop :=
  (∃ ts, Lexes (Characters text) ts ∧ Definitions ts u) ∧ ∀ ts v, Lexes (Characters text) ts → Definitions ts v → v = u

theorem not_function {f : Func} : ¬ Function [.op 0] f := by
  intro h
  obtain ⟨t, ty, x, v, e, _⟩ := function_head h
  cases e

theorem not_definitions {u : TransUnit} : ¬ Definitions [.op 0] u := by
  intro h
  obtain ⟨N, hN⟩ := unit_complete h
  have := hN (N + 1) (N + 1) (by omega) (by omega)
  simp [unit, func] at this

/-- A text that the model reads as a function definition is one for C++, with the same tree and no other. -/
theorem parse_exact {text : String} {f : Func} (h : parse text.toList = some f) : IsFunction text f := by
  have h1 := parse_derives h
  rcases tokenize_sound text.toList with h2 | h2
  · rw [h2] at h1
    exact absurd h1 not_function
  · exact ⟨⟨_, h2, h1⟩, fun ts g h3 h4 => function_unique (by rwa [lexes_unique h3 h2] at h4) h1⟩

/-- The same for a translation unit. -/
theorem parseUnit_exact {text : String} {u : TransUnit} (h : parseUnit text.toList = some u) : IsUnit text u := by
  have h1 := parseUnit_derives h
  rcases tokenize_sound text.toList with h2 | h2
  · rw [h2] at h1
    exact absurd h1 not_definitions
  · exact ⟨⟨_, h2, h1⟩, fun ts v h3 h4 => definitions_unique (by rwa [lexes_unique h3 h2] at h4) h1⟩

/-- The text defines the function `f` for C++. -/
def DefinesFunction (f : Nat) : Text → Prop
  | .fn s => ∃ d, IsFunction s d ∧ d.name = sourceName f
  | .unit s => ∃ u, IsUnit s u ∧ ∃ d ∈ u.funcs, d.name = sourceName f

/-- Every text of the library defines its function, and is read in one way only. -/
theorem library_grammar : ∀ e ∈ library, DefinesFunction e.1 e.2 := by
  intro e he
  have h := library_defines e he
  rcases e with ⟨f, s | s⟩
  · obtain ⟨d, h1, h2⟩ := h
    exact ⟨d, parse_exact h1, h2⟩
  · obtain ⟨u, h1, h2⟩ := h
    exact ⟨u, parseUnit_exact h1, h2⟩

/-! Examples: operators of the same level group from the left, and an `else` belongs to the nearest `if`. -/

/-- `a - b - c` -/
def chain : List Tok := [.id 97, p!"-", .id 98, p!"-", .id 99]
theorem chain_left : Derives 0 chain (.bin .sub (.bin .sub (.var 97) (.var 98)) (.var 99)) :=
  (expr_exact _ _).mp ⟨10, by decide +kernel⟩
theorem chain_only {a : Expr} (h : Derives 0 chain a) : a = .bin .sub (.bin .sub (.var 97) (.var 98)) (.var 99) :=
  derives_unique h chain_left

/-- `void f(int a) { if (a) if (a) ; else a = 1; }` -/
def dangling : String := "void f(int a) { if (a) if (a) ; else a = 1; }"
theorem dangling_else : IsFunction dangling
    ⟨.void, k!"f", [(.sc .s32, k!"a")],
      .seq (.ite (.var k!"a") (.ite (.var k!"a") .skip (.assign (.var k!"a") (.num .i32 1))) .skip) .skip⟩ := by
  refine parse_exact ?_
  have h : dangling.toList = _ := String.toList_ofList
  rw [h]
  decide +kernel

/-- Octal literals, and operators outside the subset, are not read at all. -/
theorem not_read : parse "int f(int a) { return 010; }".toList = none ∧ parse "int f(int a) { a -= 1; return a; }".toList = none := by
  constructor
  · have h : "int f(int a) { return 010; }".toList = _ := String.toList_ofList
    rw [h]
    decide +kernel
  · have h : "int f(int a) { a -= 1; return a; }".toList = _ := String.toList_ofList
    rw [h]
    decide +kernel

end Verif.Props
