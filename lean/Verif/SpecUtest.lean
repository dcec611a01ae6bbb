import Verif.Model.Utest

/-!
What the options and the report of the project's test runner promise (`tests/utest.h`, the text of `--help`), for C98 to C101.
-/

namespace Verif.SpecUtest
open Utest

/-- A pattern describes a name: `*` stands for any sequence of characters, every other character for itself. -/
inductive Glob : Str → Str → Prop
  | nil : Glob [] []
  | char (c : Char) {p s : Str} : c ≠ '*' → Glob p s → Glob (c :: p) (c :: s)
  | star (u : Str) {p s : Str} : Glob p s → Glob ('*' :: p) (u ++ s)

/-- A string of C: no character of it is the terminator. -/
def IsString (s : Str) : Prop := NUL ∉ s

/-- The test with this name is run when the filter is `f`. -/
def Selected (f name : Str) : Prop := utest_should_filter_test (some f) name = .ok 0

/-- The test with this name is left out when the filter is `f`. -/
def LeftOut (f name : Str) : Prop := utest_should_filter_test (some f) name = .ok 1

/-! ## Options -/

/-- The argument begins with the option. -/
def Is (option : String) (arg : Str) : Bool := option.toList.isPrefixOf arg

/-- The text after `option` in the last argument that begins with it. -/
def lastValue (option : String) (args : List Str) : Option Str :=
  ((args.filter (Is option)).getLast?).map (·.drop option.length)

/-- No argument asks for the help or the list of tests. -/
def RunsTests (args : List Str) : Prop := ∀ a ∈ args, Is "--help" a = false ∧ Is "--list-tests" a = false

/-- The filter of a command line, if there is one. -/
def filterOf (args : List Str) : Option Str := lastValue "--filter=" args

/-- The test with this name is run. -/
def chosen (args : List Str) (name : Str) : Bool :=
  match filterOf args with
  | none => true
  | some f => utest_should_filter_test (some f) name == .ok 0

/-- A random order is wanted. -/
def randomOrder (args : List Str) : Bool := args.any (Is "--random-order")

/-- The seed given in the last argument that asks for a random order, if it gives one. -/
def givenSeed (args : List Str) : Option (BitVec 32) :=
  match (args.filter (Is "--random-order")).getLast? with
  | none => none
  | some a => if Is "--random-order=" a then some ((strtoul (a.drop "--random-order=".length)).setWidth 32) else none

/-- The order of the tests: that of their registration, or one of the orders, that of the given seed if there is one. -/
def InOrder {W : Type} (order : BitVec 32 → (n : Nat) → List (Fin n)) (args : List Str) (tests ts : List (Test W)) : Prop :=
  if randomOrder args then
    ∃ seed, (∀ s, givenSeed args = some s → seed = s) ∧ ts = (order seed tests.length).map tests.get
  else ts = tests

/-- How often the clock is read for a seed before the first test. -/
def seedReads (args : List Str) : Nat := (args.filter fun a => Is "--random-order" a && !Is "--random-order=" a).length

/-- Times are shown in mixed units. -/
def mixedUnits (args : List Str) : Bool := args.any (Is "--enable-mixed-units")

/-- A report is written to a file: it begins empty. -/
def hasFile (env : Env) : Bool :=
  match lastValue "--output=" env.args with
  | none => false
  | some path => env.opens path

/-! ## A run of tests -/

inductive Verdict
  | passed | failed | skipped
  deriving DecidableEq, Repr

/-- What a call of a test function comes to: a verdict, what the test printed, the message about an exception, and the state after it. -/
inductive Finish {W : Type} : Ended W → Verdict → Str → Str → W → Prop
  | failed (says : Str) (w : W) : Finish (.returns 1 says w) .failed says [] w
  | skipped (says : Str) (w : W) : Finish (.returns 2 says w) .skipped says [] w
  | passed (r : Int) (says : Str) (w : W) : r ≠ 1 → r ≠ 2 → Finish (.returns r says w) .passed says [] w
  | exception (what says : Str) (w : W) :
      Finish (.throws (some what) says w) .failed says (" Exception : ".toList ++ what ++ ['\n']) w
  | unknown (says : Str) (w : W) : Finish (.throws none says w) .failed says " Exception : Unknown\n".toList w

/-- A test that was run: its name, its verdict, what was printed, and the nanoseconds it took. -/
structure Done where
  name : Str
  verdict : Verdict
  says : Str
  exception : Str
  ns : Int

/-- The tests are run one after the other, each once; `k` readings of the clock came before. -/
inductive Runs {W : Type} (clock : Nat → Int) : List (Test W) → Nat → W → List Done → W → Prop
  | nil (k : Nat) (w : W) : Runs clock [] k w [] w
  | cons {t : Test W} {ts : List (Test W)} {k : Nat} {w w' w'' : W} {i : Nat} {v : Verdict} {says exc : Str}
      {ds : List Done} : t.index = some i → Finish (t.func i w) v says exc w' → Runs clock ts (k + 2) w' ds w'' →
      Runs clock (t :: ts) k w (⟨t.name, v, says, exc, clock (k + 1) - clock k⟩ :: ds) w''

/-- The process dies in one of the tests, after those before it were run. -/
def Dies {W : Type} (clock : Nat → Int) (ts : List (Test W)) (k : Nat) (w : W) : Prop :=
  ∃ pre t post ds w' i, ts = pre ++ t :: post ∧ Runs clock pre k w ds w' ∧ t.index = some i ∧ t.func i w' = .dies

/-- The clock counts nanoseconds in a signed number of 64 bits; with mixed units, no test takes 10000 seconds. -/
def Timely (env : Env) : Prop :=
  (∀ i, 0 ≤ env.clock i ∧ env.clock i < 2 ^ 63) ∧
  (mixedUnits env.args = true → ∀ i, env.clock (i + 1) - env.clock i < 10000 * 1000 ^ 3)

/-- The value of `main` for a number of failed tests. -/
def exitCode (failed : Nat) : Int := if failed < 2 ^ 31 then failed else failed - 2 ^ 32

/-- What the process that started the program sees of the value of `main`. -/
def status (code : Int) : Int := code % 256

/-! ## The report -/

def count (v : Verdict) (ds : List Done) : Nat := (ds.filter (·.verdict = v)).length

/-- A time as it is shown: nanoseconds, or with mixed units a number below 10000 of the smallest unit that has it so. -/
inductive Shown : Bool → Int → Str → Prop
  | plain (ns : Int) : Shown false ns ((toString ns).toList ++ "ns".toList)
  | ns (ns : Int) : ns < 10000 → Shown true ns ((toString ns).toList ++ "ns".toList)
  | us (ns : Int) : 10000 ≤ ns → ns < 10000 * 1000 → Shown true ns ((toString (ns / 1000)).toList ++ "us".toList)
  | ms (ns : Int) : 10000 * 1000 ≤ ns → ns < 10000 * 1000 ^ 2 → Shown true ns ((toString (ns / 1000 ^ 2)).toList ++ "ms".toList)
  | s (ns : Int) : 10000 * 1000 ^ 2 ≤ ns → ns < 10000 * 1000 ^ 3 → Shown true ns ((toString (ns / 1000 ^ 3)).toList ++ "s".toList)

def colourOf (c : Colours) : Verdict → Str
  | .passed => c.green | .failed => c.red | .skipped => c.yellow
def wordOf : Verdict → String
  | .passed => "[       OK ]" | .failed => "[  FAILED  ]" | .skipped => "[  SKIPPED ]"

/-- The coloured mark at the beginning of a line. -/
def mark (c : Colours) (colour : Str) (word : String) : Str := colour ++ word.toList ++ c.reset

/-- The lines about one test. -/
inductive Lines (c : Colours) (mixed : Bool) : Done → Str → Prop
  | mk (d : Done) (time : Str) : Shown mixed d.ns time →
      Lines c mixed d (mark c c.green "[ RUN      ]" ++ [' '] ++ d.name ++ ['\n'] ++ d.says ++ d.exception ++
        mark c (colourOf c d.verdict) (wordOf d.verdict) ++ [' '] ++ d.name ++ " (".toList ++ time ++ ")\n".toList)

/-- The lines about all tests, in order. -/
inductive AllLines (c : Colours) (mixed : Bool) : List Done → Str → Prop
  | nil : AllLines c mixed [] []
  | cons {d : Done} {ds : List Done} {s s' : Str} : Lines c mixed d s → AllLines c mixed ds s' → AllLines c mixed (d :: ds) (s ++ s')

/-- The list of the tests with a verdict: nothing if there is none. -/
def listing (c : Colours) (v : Verdict) (ds : List Done) : Str :=
  if count v ds = 0 then [] else
    mark c (colourOf c v) (wordOf v) ++ [' '] ++ (toString (count v ds)).toList ++ " tests, listed below:\n".toList ++
      (ds.filter (·.verdict = v)).flatMap fun d => mark c (colourOf c v) (wordOf v) ++ [' '] ++ d.name ++ ['\n']

/-- What is printed on standard output. -/
inductive Report (c : Colours) (mixed : Bool) (ds : List Done) : Str → Prop
  | mk (lines : Str) : AllLines c mixed ds lines →
      Report c mixed ds (mark c c.green "[==========]" ++ " Running ".toList ++ (toString ds.length).toList ++ " test cases.\n".toList ++
        lines ++
        mark c c.green "[==========]" ++ [' '] ++ (toString ds.length).toList ++ " test cases ran.\n".toList ++
        mark c c.green "[  PASSED  ]" ++ [' '] ++ (toString (count .passed ds)).toList ++ " tests.\n".toList ++
        listing c .skipped ds ++ listing c .failed ds)

/-- What is written to the file. -/
def xml (ds : List Done) : Str :=
  "<?xml version=\"1.0\" encoding=\"UTF-8\"?>\n<testsuites tests=\"".toList ++ (toString ds.length).toList ++
  "\" name=\"All\">\n<testsuite name=\"Tests\" tests=\"".toList ++ (toString ds.length).toList ++ "\">\n".toList ++
  (ds.flatMap fun d => "<testcase name=\"".toList ++ d.name ++ "\">".toList ++ d.says ++ "</testcase>\n".toList) ++
  "</testsuite>\n</testsuites>\n".toList

/-! ## Checks -/

/-- How the statements of a test end: at the last one, at an `ASSERT` that fails, at `UTEST_SKIP`, or by an exception. -/
inductive How
  | finished | asserted | skipped | threw (what : Option Str)
  deriving DecidableEq

/-- A check that was executed: whether it held, and where it is. -/
structure Checked where
  holds : Bool
  place : Str

/-- An execution of the statements of a test: the checks that were executed, how it ended, and the state after it.  A check holds if the
expression has the value that is wanted when it is first evaluated. -/
inductive Exec {W : Type} : List (Stmt W) → W → List Checked → How → W → Prop
  | nil (w : W) : Exec [] w [] .finished w
  | holds {fatal want : Bool} {place : Str} {x : W → W × Bool} {rest : List (Stmt W)} {w w' : W} {cs : List Checked} {h : How} :
      (x w).2 = want → Exec rest (x w).1 cs h w' → Exec (.check fatal want place x :: rest) w (⟨true, place⟩ :: cs) h w'
  | fails {want : Bool} {place : Str} {x : W → W × Bool} {rest : List (Stmt W)} {w w' : W} {cs : List Checked} {h : How} :
      (x w).2 ≠ want → Exec rest (x (x w).1).1 cs h w' → Exec (.check false want place x :: rest) w (⟨false, place⟩ :: cs) h w'
  | asserts {want : Bool} {place : Str} {x : W → W × Bool} {rest : List (Stmt W)} {w : W} :
      (x w).2 ≠ want → Exec (.check true want place x :: rest) w [⟨false, place⟩] .asserted (x (x w).1).1
  | compares {fatal : Bool} {place : Str} {m : W → Str} {x : W → W × Bool} {rest : List (Stmt W)} {w w' : W} {cs : List Checked} {h : How} :
      (x w).2 = true → Exec rest (x w).1 cs h w' → Exec (.compare fatal place m x :: rest) w (⟨true, place⟩ :: cs) h w'
  | differs {place : Str} {m : W → Str} {x : W → W × Bool} {rest : List (Stmt W)} {w w' : W} {cs : List Checked} {h : How} :
      (x w).2 = false → Exec rest (x w).1 cs h w' → Exec (.compare false place m x :: rest) w (⟨false, place⟩ :: cs) h w'
  | rejects {place : Str} {m : W → Str} {x : W → W × Bool} {rest : List (Stmt W)} {w : W} :
      (x w).2 = false → Exec (.compare true place m x :: rest) w [⟨false, place⟩] .asserted (x w).1
  | skip {msg : Str} {rest : List (Stmt W)} {w : W} : Exec (.skip msg :: rest) w [] .skipped w
  | code {f : W → W × Option (Option Str)} {rest : List (Stmt W)} {w w' : W} {cs : List Checked} {h : How} :
      (f w).2 = none → Exec rest (f w).1 cs h w' → Exec (.code f :: rest) w cs h w'
  | throw {f : W → W × Option (Option Str)} {rest : List (Stmt W)} {w : W} {what : Option Str} :
      (f w).2 = some what → Exec (.code f :: rest) w [] (.threw what) (f w).1

/-- Every check that was executed held. -/
def AllHold (cs : List Checked) : Prop := ∀ c ∈ cs, c.holds = true

/-- The text has a message for each failed check, in their order, that begins with the place of the check, and then the end `s`. -/
inductive Messages : List Checked → Str → Str → Prop
  | nil (s : Str) : Messages [] s s
  | holds {p : Str} {cs : List Checked} {s text : Str} : Messages cs s text → Messages (⟨true, p⟩ :: cs) s text
  | fails {p : Str} {cs : List Checked} {s text : Str} (m : Str) : Messages cs s text →
      Messages (⟨false, p⟩ :: cs) s (p ++ ": Failure\n".toList ++ m ++ text)

end Verif.SpecUtest
