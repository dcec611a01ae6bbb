import Verif.Model.UtestCompare

/-!
The checks of `tests/utest.h` whose arguments have side effects, written by hand.  An argument is a function of the state of the program, which it may
change; a macro evaluates it wherever its text has it.  `flip` chooses the order in which the arguments of a call, or the operands of `-`,
are evaluated, which C++ leaves open.  Simplification: `n` of `EXPECT_STRNEQ` has no side effects.
-/

namespace Verif.Utest

/-- An expression: its value, and the state after it (the argument `x` of `tests/utest.h:609`). -/
abbrev Expr (W α : Type) := W → W × α

/-- Two expressions whose order is not specified (`tests/utest.h:642`, `691`). -/
def both {W α β : Type} (flip : Bool) (x : Expr W α) (y : Expr W β) (w : W) : W × α × β :=
  if flip then
    let (w, b) := y w
    let (w, a) := x w
    (w, a, b)
  else
    let (w, a) := x w
    let (w, b) := y w
    (w, a, b)

/-- `tests/utest.h:642` and `654`: `UTEST_NULL == x || UTEST_NULL == y || 0 != cmp(x, y)`; `cmp` of a null pointer is undefined. -/
def strFailsE {W : Type} (flip want : Bool) (cmp : Str → Str → C Int) (x y : Expr W (Option Str)) (w : W) : C (W × Bool) :=
  let (w, a) := x w
  if a = none then .ok (w, true)
  else
    let (w, b) := y w
    if b = none then .ok (w, true)
    else
      match both flip x y w with
      | (w, some a, some b) => do
        let r ← cmp a b
        .ok (w, if want then r != 0 else r == 0)
      | _ => .ub .outOfBounds

/-- What a check prints to the file, if there is one, and to standard output (`tests/utest.h:376-380`). -/
structure Texts where
  file : Str
  out : Str
  deriving DecidableEq

/-- `UTEST_PRINTF(format, x)` (`tests/utest.h:376-380`): the argument is evaluated for the file, if there is one (`file`), and again for standard
output. -/
def printE {W α : Type} (file : Bool) (format : α → C Str) (x : Expr W α) (w : W) : C (W × Texts) :=
  if file then do
    let (w, a) := x w
    let s ← format a
    let (w, b) := x w
    let t ← format b
    .ok (w, ⟨s, t⟩)
  else do
    let (w, b) := x w
    let t ← format b
    .ok (w, ⟨[], t⟩)

/-- Two lines of a message (`tests/utest.h:644-645`). -/
def Texts.append (s t : Texts) : Texts := ⟨s.file ++ t.file, s.out ++ t.out⟩

/-- A text without arguments (`tests/utest.h:613`). -/
def printed (file : Bool) (s : Str) : Texts := ⟨if file then s else [], s⟩

/-- `tests/utest.h:641-650`: the body of a check of strings.  No text if it passes, else the two lines after `Failure`. -/
def strCheckE {W : Type} (file flip want : Bool) (cmp : Str → Str → C Int) (sh : Option Str → C Str) (x y : Expr W (Option Str)) (w : W) :
    C (W × Option Texts) := do
  let (w, fails) ← strFailsE flip want cmp x y w
  if fails then
    let (w, s) ← printE file (fun a => do .ok ("  Expected : \"".toList ++ (← sh a) ++ "\"\n".toList)) x w
    let (w, t) ← printE file (fun b => do .ok ("    Actual : \"".toList ++ (← sh b) ++ "\"\n".toList)) y w
    .ok (w, some (s.append t))
  else .ok (w, none)

/-- `EXPECT_STREQ` (`tests/utest.h:640-650`) and `ASSERT_STREQ` (`820-831`) -/
def streqE {W : Type} (file flip : Bool) (x y : Expr W (Option Str)) (w : W) : C (W × Option Texts) :=
  strCheckE file flip true strcmp showS x y w
/-- `EXPECT_STRNE` (`tests/utest.h:652-662`) and `ASSERT_STRNE` (`833-844`) -/
def strneE {W : Type} (file flip : Bool) (x y : Expr W (Option Str)) (w : W) : C (W × Option Texts) :=
  strCheckE file flip false strcmp showS x y w
/-- `EXPECT_STRNEQ` (`tests/utest.h:664-674`) and `ASSERT_STRNEQ` (`846-857`) -/
def strneqE {W : Type} (file flip : Bool) (n : BitVec 64) (x y : Expr W (Option Str)) (w : W) : C (W × Option Texts) :=
  strCheckE file flip true (strncmp n) (showN n) x y w
/-- `EXPECT_STRNNE` (`tests/utest.h:676-686`) and `ASSERT_STRNNE` (`859-870`) -/
def strnneE {W : Type} (file flip : Bool) (n : BitVec 64) (x y : Expr W (Option Str)) (w : W) : C (W × Option Texts) :=
  strCheckE file flip false (strncmp n) (showN n) x y w

/-- `EXPECT_TRUE` (`tests/utest.h:609-619`), `EXPECT_FALSE` (`621-631`), `ASSERT_TRUE` (`787-798`), `ASSERT_FALSE` (`800-811`) -/
def truthE {W : Type} (file want : Bool) (x : Expr W Bool) (w : W) : C (W × Option Texts) := do
  let (w, b) := x w
  if b = want then .ok (w, none)
  else
    let s := printed file ("  Expected : ".toList ++ (toString want).toList ++ ['\n'])
    let (w, t) ← printE file (fun b => .ok ("    Actual : ".toList ++ (toString b).toList ++ ['\n'])) x w
    .ok (w, some (s.append t))

/-- `EXPECT_NEAR` (`tests/utest.h:688-701`) and `ASSERT_NEAR` (`872-885`) of arguments converted to `double` -/
def nearE {W : Type} (file flip : Bool) (x y epsilon : Expr W (BitVec 64)) (w : W) : C (W × Option Texts) := do
  let (w, a, b) := both flip x y w
  let (w, e) := epsilon w
  if nearFails a b e then
    let (w, s) ← printE file (fun a => .ok ("  Expected : ".toList ++ fixed a ++ ['\n'])) x w
    let (w, t) ← printE file (fun b => .ok ("    Actual : ".toList ++ fixed b ++ ['\n'])) y w
    .ok (w, some (s.append t))
  else .ok (w, none)

/-- `UTEST_EXPECT(x, y, cond)` (`tests/utest.h:577-594`) and `UTEST_ASSERT` (`752-770`) -/
def compareE {W : Type} (file : Bool) (c : Cond) (xt yt : Str) (x y : Expr W Val) (w : W) : C (W × Option Texts) := do
  let (w, a) := x w
  let (w, b) := y w
  .ok (w, (← COMPARE c xt yt a b).map (printed file))

end Verif.Utest
