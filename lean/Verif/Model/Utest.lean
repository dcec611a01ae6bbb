import Verif.Core
import Verif.Fp

/-!
The test runner of the project (`tests/utest.h`), written by hand: the filter of test names, the options, the random order, the
loop over the tests and the report, the registration of tests and the checks.

Strings are lists of characters; the array of a C string has its terminator behind them.  Simplifications: allocations and
`printf` do not fail; the tests do not register tests or exit the process in an orderly way; what a test prints is only what it prints
with `UTEST_PRINTF`.
-/

namespace Verif.Utest

abbrev Str := List Char

/-- `'\0'` -/
abbrev NUL : Char := Char.ofNat 0

/-- The reads `*filter_cur`, `*testcase_cur`, `argv[index][i]` (`tests/utest.h:1072-1122`): `p[i]` for a pointer to the characters of the string `s`, which end with a `'\0'`. -/
def rd (s : Str) (i : Nat) : C Char :=
  if h : i < s.length then .ok s[i] else if i = s.length then .ok NUL else .ub .outOfBounds

theorem rd_le {s : Str} {i : Nat} {c : Char} (h : rd s i = .ok c) : i ≤ s.length := by
  unfold rd at h; split at h
  · omega
  · split at h
    · omega
    · simp at h

/-! ## The filter -/

/-- `tests/utest.h:1080-1098`: the inner loop of `utest_should_filter_test`; `w` is `filter_wildcard`, `i` is `filter_cur`, `j` is
`testcase_cur`.  The positions when it ends. -/
def filterInner (filter testcase : Str) (w i j : Nat) : C (Nat × Nat) :=
  match rd filter i with
  | .ok a =>
    if a = NUL then .ok (i, j) else
    match _h : rd testcase j with
    | .ok b =>
      if b = NUL then .ok (i, j)
      else if a = '*' then .ok (i, j)
      else filterInner filter testcase w ((if a ≠ b then w else i) + 1) (j + 1)
    | .ub u => .ub u | .abort m => .abort m | .indet l => .indet l
  | .ub u => .ub u | .abort m => .abort m | .indet l => .indet l
termination_by testcase.length + 1 - j
decreasing_by have := rd_le _h; omega

theorem filterInner_progress {f t : Str} {w i j i' j' : Nat} (h : filterInner f t w i j = .ok (i', j')) :
    i' = i ∧ j' = j ∨ j < j' := by
  fun_induction filterInner f t w i j with
  | case1 => simp_all
  | case2 => simp_all
  | case3 => simp_all
  | case4 i j a h1 h2 b h3 h4 h5 ih =>
    rcases ih h with ⟨_, h'⟩ | h' <;> omega
  | _ => simp_all

/-- `tests/utest.h:1072-1118`: the outer loop, and what follows it (1120-1128). -/
def filterOuter (filter testcase : Str) (i j : Nat) : C Int :=
  match _hi : rd filter i with
  | .ok a =>
    match _hj : rd testcase j with
    | .ok b =>
      if a ≠ NUL ∧ b ≠ NUL then
        if a = '*' then
          match _hr : filterInner filter testcase i (i + 1) j with
          | .ok (i', j') =>
            match rd filter i' with
            | .ok a' =>
              match rd testcase j' with
              | .ok b' =>
                if a' = NUL ∧ b' = NUL then .ok 0
                else if b' = NUL then .ok 1
                else filterOuter filter testcase i' j'
              | .ub u => .ub u | .abort m => .abort m | .indet l => .indet l
            | .ub u => .ub u | .abort m => .abort m | .indet l => .indet l
          | .ub u => .ub u | .abort m => .abort m | .indet l => .indet l
        else if b ≠ a then .ok 1
        else filterOuter filter testcase (i + 1) (j + 1)
      else if a ≠ NUL then .ok 1
      else if b ≠ NUL then
        if i = 0 then .ok 1
        else do
          let p ← rd filter (i - 1)
          if p ≠ '*' then .ok 1 else .ok 0
      else .ok 0
    | .ub u => .ub u | .abort m => .abort m | .indet l => .indet l
  | .ub u => .ub u | .abort m => .abort m | .indet l => .indet l
termination_by (testcase.length + 1 - j, filter.length + 1 - i)
decreasing_by
  · have h1 := rd_le _hi
    have h2 := rd_le _hj
    rcases filterInner_progress _hr with ⟨e1, e2⟩ | h3
    · subst e1 e2; apply Prod.Lex.right; omega
    · apply Prod.Lex.left; omega
  · have h2 := rd_le _hj
    apply Prod.Lex.left; omega

/-- `tests/utest.h:1065-1129`: `int utest_should_filter_test(const char *filter, const char *testcase)`; a null pointer is `none`.
1 when the test is left out. -/
def utest_should_filter_test (filter : Option Str) (testcase : Str) : C Int :=
  match filter with
  | some f => filterOuter f testcase 0 0
  | none => .ok 0

/-! ## Tests and what they do -/

/-- How the call at `tests/utest.h:1297` ends: it returns with the value of `*utest_result`, an exception leaves it (with its message, if it is
a `std::exception`), or the process dies in it (`abort`).  `says` is what it printed with `UTEST_PRINTF`. -/
inductive Ended (W : Type)
  | returns (result : Int) (says : Str) (w : W)
  | throws (what : Option Str) (says : Str) (w : W)
  | dies

/-- `tests/utest.h:344-348`: `struct utest_test_state_s`.  The test function works on a state `W` of the program that is the user's. -/
structure Test (W : Type) where
  func : Nat → W → Ended W
  /-- none if the initializer of the test did not set it -/
  index : Option Nat
  name : Str

/-- What surrounds a call of `utest_main` (`tests/utest.h:1144`): the arguments after the program name, whether standard output is a terminal, whether `fopen`
succeeds, the readings of the clock in nanoseconds. -/
structure Env where
  args : List Str
  tty : Bool
  opens : Str → Bool
  clock : Nat → Int

/-! ## Options -/

/-- `tests/utest.h:541`: `strncmp(x, y, n)` from position `i` on. -/
def strncmpFrom (x y : Str) : Nat → Nat → C Int
  | 0, _ => .ok 0
  | n + 1, i => do
    let a ← rd x i
    let b ← rd y i
    if a ≠ b then .ok ((a.toNat : Int) - b.toNat)
    else if a = NUL then .ok 0
    else strncmpFrom x y n (i + 1)

/-- `tests/utest.h:1181`, `1197` and so on: `0 == UTEST_STRNCMP(arg, option, strlen(option))` -/
def isOption (arg option : Str) : C Bool := do
  let r ← strncmpFrom arg option option.length 0
  .ok (r == 0)

/-- `isspace` in the C locale, for `strtoul` (`tests/utest.h:1217`) -/
def isSpace (c : Char) : Bool := c == ' ' || 9 ≤ c.toNat && c.toNat ≤ 13

/-- `isdigit`, for `strtoul` (`tests/utest.h:1217`) -/
def isDigit (c : Char) : Bool := '0'.toNat ≤ c.toNat && c.toNat ≤ '9'.toNat

/-- The number that a sequence of digits denotes, for `strtoul` (`tests/utest.h:1217`). -/
def decimal (s : Str) : Nat := s.foldl (fun n c => 10 * n + (c.toNat - '0'.toNat)) 0

/-- `tests/utest.h:1217`: `strtoul(s, NULL, 10)` -/
def strtoul (s : Str) : BitVec 64 :=
  let s := s.dropWhile isSpace
  let minus := s.head? == some '-'
  let s := if s.head? == some '-' || s.head? == some '+' then s.tail else s
  let n := decimal (s.takeWhile isDigit)
  if 2 ^ 64 ≤ n then BitVec.allOnes 64
  else if minus then -BitVec.ofNat 64 n else BitVec.ofNat 64 n

/-- `tests/utest.h:1152-1157`: the variables that the options set, the contents of `utest_state.output`, and the number of readings of
the clock so far. -/
structure Opts where
  filter : Option Str := none
  output : Option Str := none
  mixed : Bool := false
  random : Bool := false
  seed : BitVec 32 := 0
  ticks : Nat := 0

/-- `tests/utest.h:1182-1197`: the message of `--help`. -/
def helpText : Str := ("utest.h - the single file unit testing solution for C/C++!\nCommand line Options:\n" ++
  "  --help                  Show this message and exit.\n" ++
  "  --filter=<filter>       Filter the test cases to run (EG. MyTest*.a would run MyTestCase.a but not MyTestCase.b).\n" ++
  "  --list-tests            List testnames, one per line. Output names can be passed to --filter.\n" ++
  "  --output=<output>       Output an xunit XML file to the file specified in <output>.\n" ++
  "  --enable-mixed-units    Enable the per-test output to contain mixed units (s/ms/us/ns).\n" ++
  "  --random-order[=<seed>] Randomize the order that the tests are ran in. If the optional <seed> argument is not provided, " ++
  "then a random starting seed is used.\n").toList

/-- `tests/utest.h:1228-1229`: the seed made from the time. -/
def timeSeed (ns : Int) : BitVec 32 := BitVec.ofInt 32 (ns / 2 ^ 32) * 31 + BitVec.ofInt 32 ns

/-- What the loop over the arguments (`tests/utest.h:1170-1232`) comes to: the options, or the end of `utest_main` with what it printed. -/
inductive Parsed
  | go (o : Opts)
  | stop (code : Int) (out : Str) (file : Option Str)

/-- `tests/utest.h:1170-1232`: the loop over the arguments. -/
def parseArgs {W : Type} (env : Env) (tests : List (Test W)) : List Str → Opts → C Parsed
  | [], o => .ok (.go o)
  | a :: as, o => do
    if ← isOption a "--help".toList then
      .ok (.stop 0 helpText o.output)
    else if ← isOption a "--filter=".toList then
      parseArgs env tests as { o with filter := some (a.drop 9) }
    else if ← isOption a "--output=".toList then
      parseArgs env tests as { o with output := if env.opens (a.drop 9) then some [] else none }
    else if ← isOption a "--list-tests".toList then
      let names := tests.flatMap fun t => t.name ++ ['\n']
      .ok (.stop 0 names (o.output.map (· ++ names)))
    else if ← isOption a "--enable-mixed-units".toList then
      parseArgs env tests as { o with mixed := true }
    else if ← isOption a "--random-order=".toList then
      parseArgs env tests as { o with seed := (strtoul (a.drop 15)).setWidth 32, random := true }
    else if ← isOption a "--random-order".toList then
      parseArgs env tests as { o with seed := timeSeed (env.clock o.ticks), random := true, ticks := o.ticks + 1 }
    else parseArgs env tests as o

/-! ## The random order -/

/-- `tests/utest.h:1237-1253`: the loop of the shuffle, for the values `index`, `index - 1`, ... of its variable. -/
def shuffle {α : Type} : Nat → List α → BitVec 32 → C (List α)
  | 0, ts, _ => .ok ts
  | 1, ts, _ => .ok ts
  | k + 2, ts, seed =>
    let index := k + 2
    let amount := (seed >>> 28) + 4#32
    if 32 ≤ amount.toNat then .ub .shiftAmount else
    let word := ((seed >>> amount) ^^^ seed) * 277803737#32
    let n := BitVec.ofNat 32 index
    if n = 0 then .ub .divByZero else
    let next := (((word >>> 22) ^^^ word) % n).toNat
    match ts[index - 1]?, ts[next]? with
    | some copy, some b => shuffle (k + 1) ((ts.set (index - 1) b).set next copy) (seed * 747796405#32 + 2891336453#32)
    | _, _ => .ub .outOfBounds

/-! ## Running the tests -/

/-- `tests/utest.h:1159-1168`: the colours, empty unless standard output is a terminal. -/
structure Colours where
  reset : Str := []
  green : Str := []
  red : Str := []
  yellow : Str := []

/-- `tests/utest.h:1161-1168`: `colours` -/
def colours (tty : Bool) : Colours :=
  if tty then ⟨"\x1b[0m".toList, "\x1b[32m".toList, "\x1b[31m".toList, "\x1b[33m".toList⟩ else {}

/-- A number in decimal: `UTEST_PRIu64`, `UTEST_PRId64` (`tests/utest.h:1263-1383`) -/
def num (n : Int) : Str := (toString n).toList

/-- `tests/utest.h:1146-1155`: the variables that the loop over the tests changes. -/
structure Run (W : Type) where
  failed : BitVec 64 := 0
  skipped : BitVec 64 := 0
  failedCases : List Nat := []
  skippedCases : List Nat := []
  out : Str
  file : Option Str
  ticks : Nat
  world : W

/-- The loop over the tests (`tests/utest.h:1276-1365`) goes on, or the process has died in a test. -/
inductive Step (W : Type)
  | next (r : Run W)
  | died

/-- `tests/utest.h:1341-1349`: the loop over the units; `rest` are the units from `units[unit_index]` on.  The time in the unit it stops at,
and the unit, a null pointer if there is none. -/
def units (time : Int) : List Str → Int × Option Str
  | [] => (time, none)
  | u :: rest => if 10000 > time then (time, some u) else units (Int.tdiv time 1000) rest

/-- `tests/utest.h:1337-1349`: the time and its unit as they are printed. -/
def showTime (mixed : Bool) (ns : Int) : C Str :=
  if mixed then
    match units ns ["ns".toList, "us".toList, "ms".toList, "s".toList] with
    | (t, some u) => .ok (num t ++ u)
    | (_, none) => .ub .outOfBounds  -- `%s` of a null pointer
  else .ok (num ns ++ "ns".toList)

/-- `tests/utest.h:1296-1304`: `try`, the call of the test and `catch`: `result`, what the test printed, what the handler prints, and the
state; `none` if the process died. -/
def called {W : Type} : Ended W → Option (Int × Str × Str × W)
  | .returns result says w => some (result, says, [], w)
  | .throws (some what) says w => some (1, says, " Exception : ".toList ++ what ++ ['\n'], w)
  | .throws none says w => some (1, says, " Exception : Unknown\n".toList, w)
  | .dies => none

/-- `tests/utest.h:1297`: the call of the test, which reads its index. -/
def call {W : Type} (t : Test W) (w : W) : C (Ended W) :=
  match t.index with
  | none => .ub .indeterminateRead
  | some i => .ok (t.func i w)

/-- `tests/utest.h:1309`: `ns = utest_ns() - ns`, in `utest_int64_t` -/
def elapsed (before after : Int) : C Int :=
  if after - before < -2 ^ 63 ∨ 2 ^ 63 ≤ after - before then .ub .signedOverflow else .ok (after - before)

/-- `tests/utest.h:1315-1334`: recording a failed or a skipped test. -/
def record {W : Type} (result : Int) (index : Nat) (r : Run W) : Run W :=
  if result = 1 then { r with failedCases := r.failedCases ++ [index], failed := r.failed + 1 }
  else if result = 2 then { r with skippedCases := r.skippedCases ++ [index], skipped := r.skipped + 1 }
  else r

/-- `tests/utest.h:1351-1363`: the colour and the word of the line after a test. -/
def verdict (c : Colours) (result : Int) : Str :=
  if result = 1 then c.red ++ "[  FAILED  ]".toList
  else if result = 2 then c.yellow ++ "[  SKIPPED ]".toList
  else c.green ++ "[       OK ]".toList

/-- `tests/utest.h:1277-1364`: one execution of the body of the loop over the tests. -/
def runIndex {W : Type} (env : Env) (o : Opts) (tests : List (Test W)) (index : Nat) (r : Run W) : C (Step W) :=
  let c := colours env.tty
  match tests[index]? with
  | none => .ub .outOfBounds
  | some t => do
    if (← utest_should_filter_test o.filter t.name) ≠ 0 then
      .ok (.next r)
    else
      let out := r.out ++ c.green ++ "[ RUN      ]".toList ++ c.reset ++ [' '] ++ t.name ++ ['\n']
      let file := r.file.map (· ++ "<testcase name=\"".toList ++ t.name ++ "\">".toList)
      match called (← call t r.world) with
      | none => .ok .died
      | some (result, says, exception, w) =>
        let ns ← elapsed (env.clock r.ticks) (env.clock (r.ticks + 1))
        let time ← showTime o.mixed ns
        .ok (.next (record result index
          { r with
            file := file.map (· ++ says ++ "</testcase>\n".toList)
            ticks := r.ticks + 2
            world := w
            out := out ++ says ++ exception ++ verdict c result ++ c.reset ++ [' '] ++ t.name ++ " (".toList ++ time ++ ")\n".toList }))

/-- `tests/utest.h:1276`: the loop over the tests, for the given indices. -/
def runAll {W : Type} (env : Env) (o : Opts) (tests : List (Test W)) : List Nat → Run W → C (Step W)
  | [], r => .ok (.next r)
  | i :: is, r => do
    match ← runIndex env o tests i r with
    | .next r => runAll env o tests is r
    | .died => .ok .died

/-- `tests/utest.h:1255-1261`: the number of tests that are not left out, in `ran_tests`. -/
def countTests {W : Type} (o : Opts) (tests : List (Test W)) : List Nat → BitVec 64 → C (BitVec 64)
  | [], n => .ok n
  | i :: is, n =>
    match tests[i]? with
    | none => .ub .outOfBounds
    | some t => do
      if (← utest_should_filter_test o.filter t.name) ≠ 0 then countTests o tests is n
      else countTests o tests is (n + 1)

/-- `tests/utest.h:1375-1378` and `1384-1387`: the lines for the tests with the given indices. -/
def listCases {W : Type} (mark : Str) (tests : List (Test W)) : List Nat → C Str
  | [] => .ok []
  | i :: is =>
    match tests[i]? with
    | none => .ub .outOfBounds
    | some t => do
      let rest ← listCases mark tests is
      .ok (mark ++ [' '] ++ t.name ++ ['\n'] ++ rest)

/-- How `utest_main` (`tests/utest.h:1144-1408`) ends: with its value and what it printed on standard output and in the file, or by the death of the process. -/
inductive Outcome (W : Type)
  | exits (code : Int) (out : Str) (file : Option Str) (w : W)
  | died

/-- `tests/utest.h:1263-1264`: the first line. -/
def firstLine (c : Colours) (ran : BitVec 64) : Str :=
  c.green ++ "[==========]".toList ++ c.reset ++ " Running ".toList ++ num ran.toNat ++ " test cases.\n".toList

/-- `tests/utest.h:1266-1274`: the beginning of the file. -/
def fileHead (ran : BitVec 64) : Str :=
  "<?xml version=\"1.0\" encoding=\"UTF-8\"?>\n<testsuites tests=\"".toList ++ num ran.toNat ++
  "\" name=\"All\">\n<testsuite name=\"Tests\" tests=\"".toList ++ num ran.toNat ++ "\">\n".toList

/-- `tests/utest.h:1367-1370`: the two lines after the tests. -/
def summary (c : Colours) (ran failed skipped : BitVec 64) : Str :=
  c.green ++ "[==========]".toList ++ c.reset ++ [' '] ++ num ran.toNat ++ " test cases ran.\n".toList ++
  c.green ++ "[  PASSED  ]".toList ++ c.reset ++ [' '] ++ num (ran - failed - skipped).toNat ++ " tests.\n".toList

/-- `tests/utest.h:1372-1379` and `1381-1388`: the tests that were skipped, or that failed, if there are any. -/
def listed {W : Type} (mark : Str) (tests : List (Test W)) (n : BitVec 64) (cases : List Nat) : C Str :=
  if n ≠ 0 then do
    let names ← listCases mark tests cases
    .ok (mark ++ [' '] ++ num n.toNat ++ " tests, listed below:\n".toList ++ names)
  else .ok []

/-- `tests/utest.h:1144-1408`: `int utest_main(int argc, const char *const argv[])`, with the registered tests. -/
def utest_main {W : Type} (env : Env) (tests : List (Test W)) (w : W) : C (Outcome W) := do
  let c := colours env.tty
  match ← parseArgs env tests env.args {} with
  | .stop code out file => .ok (.exits code out file w)
  | .go o =>
    let tests ← if o.random then shuffle tests.length tests o.seed else .ok tests
    let ran ← countTests o tests (List.range tests.length) 0
    let r : Run W := { out := firstLine c ran, file := o.output.map (· ++ fileHead ran), ticks := o.ticks, world := w }
    match ← runAll env o tests (List.range tests.length) r with
    | .died => .ok .died
    | .next r =>
      let skipped ← listed (c.yellow ++ "[  SKIPPED ]".toList ++ c.reset) tests r.skipped r.skippedCases
      let failed ← listed (c.red ++ "[  FAILED  ]".toList ++ c.reset) tests r.failed r.failedCases
      .ok (.exits (r.failed.setWidth 32).toInt (r.out ++ summary c ran r.failed r.skipped ++ skipped ++ failed)
        (r.file.map (· ++ "</testsuite>\n</testsuites>\n".toList)) r.world)

/-! ## Registration -/

/-- `tests/utest.h:394`: `snprintf(name, size, "%s", s)` into a buffer of `size` characters: what the buffer then holds. -/
def snprintf (size : Nat) (s : Str) : Str := s.take (size - 1)

/-- `tests/utest.h:919-935`: the initializer that registers a test of `UTEST`; `part` is `SET.NAME`. -/
def register {W : Type} (part : Str) (func : Nat → W → Ended W) (tests : List (Test W)) : List (Test W) :=
  tests ++ [⟨func, some 0, snprintf (part.length + 1) part⟩]

/-- `tests/utest.h:974-987`: the initializer that registers a test of `UTEST_F`.  It leaves the index as `realloc` made it. -/
def registerF {W : Type} (part : Str) (func : Nat → W → Ended W) (tests : List (Test W)) : List (Test W) :=
  tests ++ [⟨func, none, snprintf (part.length + 1) part⟩]

/-- `tests/utest.h:1014-1033`: the initializer that registers a test of `UTEST_I` for each of the indices below `n`. -/
def registerI {W : Type} (part : Str) (func : Nat → W → Ended W) (n : Nat) (tests : List (Test W)) : List (Test W) :=
  (List.range n).foldl (fun ts i => ts ++ [⟨func, some i, snprintf (part.length + 32) (part ++ ['/'] ++ num i)⟩]) tests

/-! ## Checks -/

/-- A statement of a test, with the macros of `tests/utest.h:544-905`.  An expression may change the state of the program. -/
inductive Stmt (W : Type)
  /-- `EXPECT_TRUE` (609), `EXPECT_FALSE` (621), `ASSERT_TRUE` (787), `ASSERT_FALSE` (800): `want` is what `x` should be, `fatal` says that
  a failure ends the test, `place` is the file and the line -/
  | check (fatal want : Bool) (place : Str) (x : W → W × Bool)
  /-- `UTEST_EXPECT` (578, `EXPECT_EQ` and the like) and `UTEST_ASSERT` (752): `x` evaluates the operands and compares them; `message`
  is the text with the two values -/
  | compare (fatal : Bool) (place : Str) (message : W → Str) (x : W → W × Bool)
  /-- `UTEST_SKIP(msg)` (544) -/
  | skip (msg : Str)
  /-- any other statement, which may throw an exception -/
  | code (f : W → W × Option (Option Str))

/-- `tests/utest.h:612-614`: the message of a failure of `EXPECT_TRUE` and the like. -/
def failText (place : Str) (want actual : Bool) : Str :=
  place ++ ": Failure\n  Expected : ".toList ++ (toString want).toList ++ "\n    Actual : ".toList ++ (toString actual).toList ++ ['\n']

/-- `tests/utest.h:544-905`: the statements of a test, with the value of `*utest_result`, what has been printed, and the state of the program.
Simplification: a failed check evaluates its argument once for its message, as without an XML file. -/
def runStmts {W : Type} : List (Stmt W) → Int → Str → W → Ended W
  | [], result, says, w => .returns result says w
  | .check fatal want place x :: rest, result, says, w =>
    let (w, b) := x w
    if b = want then runStmts rest result says w
    else
      let (w, b) := x w  -- the macro evaluates its argument again for the message (and once more if there is a file: `UtestArgs.lean`)
      let says := says ++ failText place want b
      if fatal then .returns 1 says w else runStmts rest 1 says w
  | .compare fatal place message x :: rest, result, says, w =>
    let (w, b) := x w
    if b then runStmts rest result says w
    else
      let says := says ++ place ++ ": Failure\n".toList ++ message w
      if fatal then .returns 1 says w else runStmts rest 1 says w
  | .skip msg :: _, _, says, w => .returns 2 (says ++ "   Skipped : '".toList ++ msg ++ "'\n".toList) w
  | .code f :: rest, result, says, w =>
    match f w with
    | (w, none) => runStmts rest result says w
    | (w, some what) => .throws what says w

/-- `tests/utest.h:915-918`: the function of a test that `UTEST` defines. -/
def utest {W : Type} (body : List (Stmt W)) (_index : Nat) (w : W) : Ended W := runStmts body 0 [] w

/-- `tests/utest.h:962-973` (`UTEST_F`) and `1003-1013` (`UTEST_I`): a test with a fixture, which is part of the state; `setup` and `teardown` may
depend on the index. -/
def utestFixture {W : Type} (setup : Nat → List (Stmt W)) (body : List (Stmt W)) (teardown : Nat → List (Stmt W)) (index : Nat) (w : W) :
    Ended W :=
  match runStmts (setup index) 0 [] w with
  | .returns result says w =>
    if result ≠ 0 then .returns result says w
    else
      match runStmts body result says w with
      | .returns result says w => runStmts (teardown index) result says w
      | e => e
  | e => e

/-! ## Comparing doubles -/

/-- `tests/utest.h:1039-1048`: `double utest_fabs(double d)`, on the bits of the number. -/
def utest_fabs (d : BitVec 64) : BitVec 64 := d &&& 0x7fffffffffffffff#64

/-- `tests/utest.h:1052-1061`: `int utest_isnan(double d)` -/
def utest_isnan (d : BitVec 64) : Int := if (d &&& 0x7fffffffffffffff#64) > 0x7ff0000000000000#64 then 1 else 0

/-- `tests/utest.h:688-701` (`EXPECT_NEAR`) and `872-885` (`ASSERT_NEAR`): the check fails. -/
def nearFails (x y epsilon : BitVec 64) : Bool :=
  let diff := utest_fabs (BitVec.ofNat 64 (Fmt.b64.sub x.toNat y.toNat))
  Fmt.b64.lt epsilon.toNat diff.toNat || utest_isnan diff != 0

end Verif.Utest
