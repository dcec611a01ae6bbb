import Verif.Props.TypeSafe

/-! Property C97, continued: definitions that obey the static rules and definitions that do not. -/

namespace Verif.Props
open Verif.Cpp

/-- The definition in the text obeys the static rules. -/
def obeys (text : String) : Option Bool := (parse text.toList).map SpecType.func

example : obeys "int f(int a, int b) { if (a < b) { return a % b; } return b; }" = some true := by decide +kernel
/- `%` on a float, -/
example : obeys "int f(float a, int b) { return a % b; }" = some false := by decide +kernel
/- a subscript that is a float, -/
example : obeys "int8_t f(int8x8_t v, float b) { return v.val[b]; }" = some false := by decide +kernel
example : obeys "int8_t f(int8x8_t v, int b) { return v.val[b]; }" = some true := by decide +kernel
/- a path without `return`, -/
example : obeys "int f(int a, int b) { if (a < b) { return a; } }" = some false := by decide +kernel
/- a path that ends with `abort`, -/
example : obeys "int f(int a, int b) { if (a < b) { abort(); } else { return b; } }" = some true := by decide +kernel
/- `std::min` of two types, -/
example : obeys "int f(int a, int8_t b) { return std::min(a, b); }" = some false := by decide +kernel
example : obeys "int f(int a, int8_t b) { return std::min<int>(a, b); }" = some true := by decide +kernel
/- a variable out of its scope, -/
example : obeys "int f(int a) { for (int i = 0; i < a; i++) { a = a + i; } return i; }" = some false := by decide +kernel
/- a register of another type as the result, -/
example : obeys "int8x8_t f(int16x4_t a) { return a; }" = some false := by decide +kernel
/- and an undeclared variable. -/
example : obeys "int f(int a) { return b; }" = some false := by decide +kernel

/-- The rules are not void: an expression that the interpreter rejects. -/
theorem float_mod_rejected [Dialect] : ∃ g, parse "int f(float a, int b) { return a % b; }".toList = some g ∧
    run 9 g [.sc .f32 (some (.f32 0x3f800000#32)), .sc (.int .i32) (some (.int .i32 2))] = illFormed := by
  refine ⟨_, rfl, ?_⟩
  rfl

end Verif.Props
