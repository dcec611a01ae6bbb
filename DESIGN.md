# Formal model of neon_sim in Lean 4

neon_sim is a C++11 software simulation of the ARM NEON intrinsics: `neon_sim.h`
declares register structs and about two thousand functions, `neon_sim.cpp`
defines 541 of them (540 distinct names).  There is no concurrency, no I/O except the diagnostic
printed before `abort()`, and no persistent state: the observable effects of an
intrinsic are its return value, the memory it stores to, `abort()`, and
undefined behaviour (UB).  The properties in `properties.jsonl` range over all
operand values, all lane/shift arguments, all buffers and offsets, and all
finite histories of store calls.

## 1. Model

* **Shallow embedding, one Lean definition per C++ function.**  Every function
  body of `neon_sim.cpp` is translated statement by statement into a Lean
  definition with the same name, in a monad `C` whose outcomes are
  `ok value`, `abort message`, `ub kind` and `indet` (returned a register with
  a lane that was never written).  Each definition's comment gives the file and
  lines and the original signature.
* **Translation** is done by `tools/translate.py`; its output under
  `lean/Verif/Model/` is committed and is what the theorems are about.  The
  script is not trusted: see the next point.
* **The model is proved to run as the source text does** (`Verif/Cpp`, `Props/Src*.lean`, C75).
  `Verif/Cpp/Syntax.lean` is a lexer and parser, written in Lean, for the C++ subset
  `neon_sim.cpp` is written in; `Verif/Cpp/Sem.lean` is an interpreter of the syntax trees, in
  which every expression, index and loop counter is a C++ integer with overflow.  The text of every
  definition of `neon_sim.cpp` is a string literal in `Props/Src*.lean`, and for each function `f`
  the theorem `f_source` says: the text parses, and for all arguments its execution ends
  (with a fuel of 1000 loop iterations) with exactly the outcome of the model's `f`.
  The syntax tree is computed from the text at elaboration time, and the kernel then checks that
  the parser gives it (`f_parse`).  `float_parts`, its constructor with the two calls of
  `int32_to_binary`, and the functions that use it are one translation unit
  (`Props/SrcClass.lean`), with classes and calls.
  `tools/check_source.py` compares the texts with `/repo/neon_sim.cpp` line by line and
  reports the lines that are in no text: comments, includes and `#if`/`#endif` lines.
* **C++ integer semantics are modelled, not assumed away** (`Verif/Core.lean`):
  integer promotion, the usual arithmetic conversions, wrap-around of unsigned
  arithmetic, UB of signed overflow, implicit narrowing conversions
  (modulo 2^w, the GCC/Clang definition), right shift of negative numbers
  (arithmetic), shift-amount UB, left shift of negative operands UB (C++11).
  The class `Dialect` has one Boolean, `wrapv`: `false` is the C++11 rule (signed
  overflow is UB), `true` is GCC/Clang's `-fwrapv`.  Theorems are stated for
  every dialect unless they say otherwise.
* **Memory**: a pointer argument is a buffer (list of elements, each possibly
  uninitialised) plus an offset.  Reads and writes outside the buffer, and
  reads of uninitialised elements, are UB.  Store functions return the updated
  buffer.
* **Local result registers** start uninitialised, lane by lane.
* **Floats** are bit patterns; arithmetic is a concrete IEEE-754 binary32 /
  binary64 model with round-to-nearest-even written with integers
  (`Verif/Fp.lean`).

### Simplifications (also stated at the definitions)

* Loop counters and index expressions of `Verif/Model` are mathematical integers (that
  the C++ ones never overflow is part of the `f_source` theorems), `int`
  parameters (`n`, `lane`) range over all integers (a superset of C `int`).
  Where an `int` parameter enters arithmetic on lanes it is converted
  to the C type first.
* A pointer points into one buffer of elements of its own type; type punning
  through pointers and alignment are not modelled.  Only `memcpy` in
  `vreinterpret*` reinterprets memory; that is modelled at the byte level for a
  little-endian machine.
* Which NaN an operation gives (its sign and payload) is an unknown function of the operation and its operands
  (`nanChoice` in `Verif/Fp.lean`, an opaque constant: no proof can use its values, so the theorems hold for every choice); copying
  a float keeps its bits; the floating-point environment is the
  default one; `FLT_EVAL_METHOD` is 0 and there is no contraction to FMA.
* On the abstract machine (`Verif/SpecExec.lean`): operands, and the arguments of a call inside a program, are evaluated in any order
  (no expression has a side effect, so it decides only which of two undefined operations is met; outcomes that differ in it alone are
  `Alike`); storage of dead objects is not reused; two
  pointer arguments do not point into one block; the source of `memcpy` is initialised; formats have no conversion or
  one `%s`.
* `fprintf(stderr, ...); abort();` is modelled by the outcome
  `abort message`, with `__FUNCTION__` substituted.
* Not modelled: the 1422 functions that are declared but have no definition
  (only their declarations are read, C65), the `tests/` directory (except the
  comparison functions of `tests/test_util.hpp`, C81, the stream operators of
  `tests/neon_helper.hpp`, C82, the test runner `tests/utest.h`, C98 to C103, C105, C109 and C110, and the tests
  `tests/test_*.cpp`, C104), the CMake build.
* Of the test runner: the filter, the options, the shuffle, the loop over the tests, the report, the registration and the checks are
  modelled by hand, for the C++ build on a POSIX system.  `printf`, `realloc` and `snprintf` do not fail; whether `fopen` succeeds, what the clock reads and
  whether the output is a terminal are parameters; tests are arbitrary functions on a state of the user's program, that may return,
  throw or kill the process, but not register tests or call `exit`.  Arguments of checks with side effects are modelled apart (`Model/UtestArgs`, C105); `runStmts` and C98 to C104 have no file
  open while the tests run when they count evaluations, and the checks of strings there have arguments without side effects.  Not modelled: comparisons of `long double` and pointers, the branches for other systems than Linux; the clock `utest_ns` is modelled apart (C110).

### Modules

| module | content |
|---|---|
| `Fp`, `Core`, `Types`, `Mem`, `Image` | semantics of the C++ subset: floats, integers, loops, registers, pointers, byte images |
| `Model/*` | the translated functions of `neon_sim.cpp`, one definition per function |
| `Tables` | evaluation rules of the C++ operators at each type |
| `Cpp/Header`, `Cpp/HeaderText`, `Props/Signatures` | preprocessor and parser for the header, its text, the signatures declared and defined (C65) |
| `Spec`, `SpecMem`, `SpecFloat` | the specification vocabulary; independent of the model |
| `Attr`, `Bv`, `Lemmas`, `Fill`, `FpRound`, `FpOps`, `FpExact`, `FpMono`, `FpStep`, `Laws`, `Commute`, `Sat`, `Link`, `Kernel` | lemmas |
| `Conformance` | runs of the model on the operands of the project's own tests, compared with the results those tests expect (tests of the model, not proofs) |
| `Cpp/*` | parser and interpreter of the C++ subset, rewrite rules, the commands `cpp_source` and `cpp_unit` |
| `Cpp/Library` | the table of all texts by function name, and what a call runs |
| `Arm` | specification: the meaning of 530 intrinsics in the architecture, one rule each, over lanes and memory elements |
| `Machine` | client programs: syntax, execution on the simulator (`Exec`), what the architecture ensures (`Ensures`) |
| `Props/Arm*`, `Props/Library`, `ArmLemmas` | every rule of `Arm` holds of the text of the intrinsic; the texts define the names they are listed under |
| `Props/Program`, `Props/Client` | programs run as the architecture says; verified client programs |
| `Typing`, `ProgTyping` | when arguments have the declared types, when a compiler accepts a program, which outcomes a caller has to expect |
| `Props/Typed*`, `Props/ProgTotal` | calls and programs of the right types have exactly one outcome |
| `Props/Agree`, `Props/AgreeFloat`, `Props/AgreeQSub`, `Props/AgreeRecip` | the operands on which the defective intrinsics are right, exactly |
| `Model/TestUtil`, `Props/TestUtil` | the comparison functions of the project's tests (C81) |
| `Props/HistoryAll` | histories of all stores, with the elements they really write (C09, C74) |
| `Model/Helper`, `Props/Helper` | the stream operators of the project's tests (C82) |
| `FpError`, `FpLaws`, `Props/FloatLaws` | rounding error and laws of float arithmetic (C83) |
| `Props/FloatSum` | accumulated rounding error of sums and scalar products (C84) |
| `Props/BoolAlgebra`, `Props/PermAlgebra`, `Props/ConvLaws` | Boolean laws (C85), composition of permutations (C86), conversion round trips (C87) |
| `Props/SortNet`, `Props/Stream`, `Props/Bytes`, `Props/FloatPrograms` | client programs over the model: sorting (C88), prefix sums, filters, blending (C89, C90), byte arrays (C91), numeric programs (C92). The programs are not code of the repository |
| `SpecCpp`, `Props/CppRules` | the integer rules of C++11 as relations; the operators of `Core` obey them (C93) |
| `SpecLex`, `Props/Lexer` | the tokens of C++11 as a relation; the lexer finds them, and there is one way only (C95) |
| `SpecGrammar`, `Props/Parser`, `Props/StmtParser`, `Props/StmtComplete`, `Props/Grammar` | the grammar of the subset as relations; the parser accepts what the grammar derives, with the same tree, and the grammar is unambiguous (C95) |
| `Props/Interp`, `Props/InterpTypes`, `Props/LibraryTypes` | the interpreter: steps, types, scopes (C94) |
| `SpecExec`, `SpecCall`, `Props/Exec*`, `Props/MachineLibrary` | the abstract machine of C++ for the subset as relations over bytes; the interpreter runs as it does, and it has one outcome only, or undefined behaviour, in every order of evaluation of operands (C96). `ExecOps`, `ExecMem`, `ExecExpr`, `ExecStore`, `ExecStmt`, `ExecCalls`, `ExecText`: the interpreter is sound; `ExecDet`, `ExecDetS`: the machine is deterministic up to the kind of undefined behaviour; `ExecLibrary`, `MachineLibrary`: the functions of the file; `ExecExamples`: calls byte by byte |
| `SpecType`, `Props/TypeSafe`, `Props/TypeUnit`, `Props/TypeExamples` | the static rules of the subset; functions that obey them are never rejected (C97) |
| `Model/Utest`, `Model/UtestText`, `SpecUtest` | the test runner of the project (`tests/utest.h`); patterns, orders, reports and executions of tests as they should be |
| `Props/UtestFilter`, `Props/UtestOrder`, `Props/UtestOptions`, `Props/UtestMain`, `Props/UtestChecks`, `Props/UtestNear`, `Props/UtestText`, `SpecNumeral`, `Props/UtestCompare`, `Model/UtestArgs`, `Props/UtestArgs` | the filter (C98), the order (C99), the report (C100), the checks (C101), strings and exceptions (C102), comparisons of numbers (C103), evaluations of the arguments (C105) |
| `Model/Ostream`, `SpecOstream`, `Props/Ostream` | the default text of floating-point numbers in streams, and of the messages of `almostEqual` (C106) |
| `Model/Init`, `Props/Init` | initializer lists of registers and arrays of registers (C107) |
| `Model/Calls`, `Props/Calls` | which expressions made of calls the compiler accepts (C108) |
| `Model/UtestScope`, `Props/UtestScope` | the checks of the test runner and the names of a test's variables (C109) |
| `Model/UtestClock`, `Props/UtestClock` | the clock of the test runner, the times it measures and the seeds it makes (C110) |
| `Props/Transpose`, `Props/TransposeImage` | transposition of byte matrices in registers and in memory (C111) |
| `Props/Mirror` | reversing byte arrays (C112) |
| `Model/TestSuite`, `Props/TestSuite` | the 46 tests of the project, generated from their text by `tools/gen_suite.py`; the test program reports success (C104) |
| `Props/*` | the theorems that answer the properties |
| `Props/Src*` | the text of `neon_sim.cpp` and its equivalence with `Model/*` |

`tools/` holds the scripts that wrote the repetitive theorem modules, the
manifest and the mutants.  Nothing in `tools/` is trusted or needed to build.

## 2. Trusted base

* Lean 4.33.0's kernel, and Mathlib only as far as its theorems are checked by that kernel.
* Axioms: `propext`, `Classical.choice`, `Quot.sound`, and no others.  No `sorry`,
  `admit`, `native_decide` or `bv_decide`.  Most integer theorems use `propext`
  and `Quot.sound`, and `Classical.choice` through `omega`/`simp`; every float
  theorem uses all three.  `decide +kernel` is evaluated by the kernel itself.
* That `Verif/SpecLex.lean`, `Verif/SpecGrammar.lean` and `Verif/SpecExec.lean` (900 lines of relations, with
  `Verif/SpecCpp.lean` for integers and `Verif/SpecFloat.lean` for floats) give the lexical rules, the grammar and the
  execution of the subset of C++.  The lexer, the parser and the interpreter of `Verif/Cpp` are not trusted: they are proved to
  follow these rules, the grammar to be unambiguous (C95) and the machine to have one outcome or undefined behaviour (C96).  Type names are read by `typeOf`, which agrees with the
  type definitions of the header (`header_types`).  It is also trusted that the texts in `Props/Src*.lean` are those of the file (`tools/check_source.py`).
  That the definitions in `Verif/Model` say what the C++ says is then a theorem, not an assumption.
  Both are also tested by `Verif/Conformance.lean` and by the defects the
  proofs found, each of which was confirmed by reading the C++ again (section 4).
* That `Verif/Core.lean`, `Verif/Mem.lean`, `Verif/Image.lean` and `Verif/Fp.lean` say what C++11 as compiled by GCC or
  Clang for a 64-bit little-endian machine (`int` 32 bits, `long` 64 bits, IEEE-754 `float` and `double`)
  says, under the simplifications listed above.  For the integer operators of `Core` this is reduced to
  `Verif/SpecCpp.lean`, 60 lines of relations that follow the clauses of the standard (C93).
* For C76 and C77: that the rules of `Verif/Arm.lean` say what the Arm architecture says for the
  arguments they cover.  In a program the user's own scalar code is an arbitrary function on the state (`glue`),
  a pointer that is passed points into one buffer of the element type, and the call names the definition it means
  (the second of the two overloads of `vsub_f32` has the name `vsub_f32_overload2` there).
* That the hand-written models of the code around the library say what its text says: `Model/TestUtil` and `Model/Helper` (`tests/test_util.hpp`, `tests/neon_helper.hpp`),
  `Model/Utest*` (`tests/utest.h`), `Model/Ostream` (the stream operators of the C++ library), `Model/Init` and `Model/Calls` (the rules of C++11 for initializer
  lists and implicit conversions).  No theorem connects these to the text, as C75 does for `neon_sim.cpp`; each definition cites its lines.
  `Model/TestSuite` is generated from the texts of the tests, and the declarations in C65 and C108 are read from the text of the header by a parser in Lean.
* That the specification modules say what the English properties say.

Floating point: round to nearest even, no contraction of `a*b+c` to a fused
operation, `FLT_EVAL_METHOD == 0`, the NaN of an operation a function of the operation and
the operands (nothing else is assumed of it: a theorem about a NaN result says only that it is a NaN).

## 3. Plan per property

Specifications live in `Verif/Spec.lean`, written only with `Int`, `BitVec` and
lane indices, without reference to the model.  Theorems that answer the
properties are in `Verif/Props/`; helper lemmas are elsewhere.

General proof method: for each function one *exact characterisation* theorem
(for all inputs: result lane i = spec of lane i, or the exact condition under
which UB / abort happens).  Loops are handled by one invariant lemma (after i
iterations exactly lanes `< i` are written and have the specified value);
lane arithmetic by `omega`/`BitVec` lemmas on the C conversion functions.

| property | modelled | proof |
|---|---|---|
| C01 C02 C03 C04 | load functions on buffer+offset | loop invariant, strided reads |
| C05 C37 | lane index checks of every function with a `lane` parameter | case split on the check; functions without a check are proved to have UB (property false of them) |
| C06 C07 C10 | store functions | invariant on the written prefix, frame; vst4_u8 and vst4_u32 refuted |
| C08 | composition of C01/C02 with C06/C07 | list extensionality |
| C09 | inductive language of store calls, executed in sequence | induction on the history |
| C11–C18, C20, C22–C28 | arithmetic functions with C promotion rules | per-lane lemma + fill invariant; refutations with witnesses where the code is wrong |
| C19 C21 | saturating ops; 64-bit ones through the binary64 model | clamp lemmas; exactness below 2^53, refutation above |
| C29–C34 | max/min, compare, select; float order on decoded values | order lemmas; refutation for NaN and bitwise masks |
| C35 C36 C38–C43 | bitwise, halves, permutations, table lookups | unrolling of permutation loops, `BitVec` extensionality |
| C44–C51 | shifts | per-lane lemmas, abort characterisation for every `n` |
| C52 | vreinterpret through byte images | byte-list round trip |
| C53–C55 | conversions with the float model | rounding lemma: nearest, ties to even |
| C56 C57 C66 | RecipEstimate/FPRecipEstimate/vrecps | table of 256 (finite, kernel-checked) + exponent arithmetic |
| C58 | float lanewise arithmetic | fill invariant + correctness of the rounding function w.r.t. rational values |
| C59 C60 | every register-only function | collected from the exact characterisations |
| C61–C64 | cross-function laws | from the characterisations |
| C67 | loops over memory built from a load, any lane-wise intrinsic and a store (`Verif/Kernel.lean`) | induction on the number of blocks, once, for an arbitrary operation; then instantiated with the characterisation of each intrinsic |
| C68 | programs written with the modelled intrinsics (`Props/Pipeline.lean`) | C67's induction, lane arithmetic by `omega` |
| C69 C70 | signed arithmetic in both dialects | from the exact conditions of `_partial` |
| C71 | 64-bit saturating subtraction through binary64 | error bound of rounding, monotonicity |
| C72 C73 | float model | rounding error analysis over the rationals |
| C74 | as C09; the elements that each call really writes | induction on the history, value of the last call that writes the element |
| C75 | the text of every definition, parsed and interpreted (`Verif/Cpp`) | symbolic execution of the syntax tree by rewriting; one simulation lemma between the interpreter's loops and the model's |
| C76 | `Arm.Means` (one rule per intrinsic), programs over it (`Machine`), execution of the texts | each rule from the theorem on the model and the source theorem of C75; induction on the program |
| C77 | client programs in `Props/Client.lean` | weakest preconditions from `Arm.Means` with loop invariants, then C76 |
| C78 | `HasTy`, `Typed`, `Accepted` (`Typing`) over the signatures read from the texts | the source theorems of C75 reduce a call to the model; `Good` (a predicate closed under the operations of `Core`) bounds the outcomes of every model function; C60 for unwritten lanes |
| C79 | typing rules for programs (`ProgTyping`) | induction on the typing derivation, inner induction on loop iterations, C78 for calls |
| C80 | model functions against the lane formulas of the architecture | the exact evaluation theorems (`_partial`, `_eval`) reduce each call to its lanes; the lane equation is solved over integers or bits |
| C81 | `tests/test_util.hpp`: the nine overloads of `almostEqual`, written by hand; a loop with an early return, the message as the values it prints | the loop returns what the first iteration that does not pass returns; the lane condition by exactness of the `double` difference of small integers, and by rounding lemmas for floats |
| C82 | `tests/neon_helper.hpp`: the 80 stream operators, generated from their text by `tools/gen_helper.py`; a stream is the text written so far, the text of floats is a parameter | the loop by an invariant (the joined prefix); decimal text is injective and has no separator in it, so joined words can be split again |
| C83 | the float intrinsics of C58; error bounds, identities, monotonicity, Sterbenz | from the IEEE relation of `SpecFloat` alone (nearest, ties to even): the error from the closed form of rounding, identities because the exact result is representable, monotonicity from uniqueness of the nearest number |
| C84 | a left fold of `vaddq_f32`/`vmlaq_f32` over any list, and the loops of C67 | induction over the list: one step multiplies the magnitude by at most 1+2^-24 and adds 2^-24 of it to the error |
| C85 | the bitwise intrinsics, from their specs | lane by lane, bit by bit |
| C86 | windows as slices of a concatenation; shuffles; lookups | generic over the lane type for `vext`; index arithmetic otherwise |
| C87 | `vcvtq_f32_s32`, `vcvtq_s32_f32` | nearest multiple of 128 bounds the error; monotonicity with the two patterns around 2^31 gives the exact limit of definedness; floats from 2^23 on are integers |
| C88 | insertion of a register into a list by `min`/`max` | induction on the list, for any key that min and max order; then the specifications of `vminq`/`vmaxq` |
| C89 | `scan8`, loop with a carried value | `carryBlocks_stored` reduces the loop to one without a carried value; sums by lanes |
| C90 | `fir8`, `blend8`, loops | induction on the taps; bounds that exclude wrap-around |
| C91 | `lut8`, byte order, threshold, fill, move in one buffer | invariant of the eight lookups; `blocks_stored_frame` for overlapping regions |
| C92 | `divide4`, `horner4`, `matVec`, folds | error of the refined reciprocal times the rounding of the product; induction on the coefficients with the absolute polynomial |
| C93 | the operators of `Core` on integers | the relations of `SpecCpp` have exactly one solution, the model's; cases on the types, two's complement by `BitVec.toInt` |
| C94 | the interpreter `Cpp/Sem` | induction on the steps: a run with fewer steps is equal or out of steps; typing invariant of environments by induction on statements; literals checked by evaluation |
| C95 | the lexer and parser `Cpp/Syntax` | soundness by induction on the fuel, with the rest of the tokens; completeness by induction on derivations, with what can follow each phrase; uniqueness from both; the library by its parse theorems |
| C96 | the interpreter against the abstract machine (`SpecExec`) | simulation: an environment of the interpreter and names with blocks of bytes; soundness by induction on expressions, statements and fuel, with the frame of every block a statement does not name; determinism of the machine by induction on derivations; the functions of the file by C78 and C97 |
| C97 | the static rules (`SpecType`) | typing invariant: the scope is the shape of the environment; induction on expressions and statements, and on the depth of calls; the functions of the file by kernel evaluation of the rules |
| C98 | `utest_should_filter_test` | the two loops as recursive functions on positions; soundness by induction on the positions, with the part of the pattern matched so far; exactness for the usual patterns |
| C99 | `utest_main`: options, shuffle, loop | the loop over the arguments as a fold; the shuffle swaps, so it is a permutation, and it commutes with renaming, so it depends on the number of tests only; the loop over the tests by induction on the indices |
| C100 | `utest_main`: counters, lines, file | invariant of the loop: the text printed so far is the report of the tests run so far, the lists are the indices of those that failed and were skipped |
| C101 | the check macros, fixtures, registration, `EXPECT_NEAR` | executions of a test as a relation, total and deterministic; induction on it; `EXPECT_NEAR` from the rules of IEEE-754 subtraction and comparison |
| C102 | the checks of strings and exceptions, the messages of comparisons | `strncmp` by induction on the number of characters left; `printf` of a format without arguments by induction on the format |
| C103 | the comparisons of numbers and the texts of numbers | the usual arithmetic conversions (C93) and the comparisons of IEEE numbers; numerals by induction on the digits; `%f` by rounding to an integer number of millionths |
| C104 | the bodies of the 46 tests as programs of the model, their registration in any order, `utest_main` | each body evaluated by the kernel, in both dialects; the report by C99 to C101 for every permutation of the tests and every environment |
| C105 | the macros with arguments that change the state; `UTEST_PRINTF` with and without a file; the order of arguments is a parameter | a record of the evaluations as part of the state; equality with the model without side effects if the values are constant |
| C106 | `os << x` for `float` and `double` with the default flags (`%g`), by hand; it is the parameter of C82 | exact arithmetic: the power of ten by logarithms, the digits by rounding to nearest even, uniqueness of numerals; reading a text back gives bounds on the number |
| C107 | aggregate initialization of `struct { T val[n]; }` and `struct { VT val[k]; }` by the rules of C++11: brace elision, zero fill, narrowing; `none` is an error of the compiler | induction over the number of subobjects, each taking its clauses from the list; floating-point constants by the rounding theorems |
| C108 | implicit conversions of arguments and the type of nested calls, against the declarations read from the header; `none` is an error of the compiler | equivalence with typing rules written from the standard by mutual recursion on expressions; facts about all declarations by evaluation in the kernel, lifted to all expressions |
| C109 | the variables that the check macros declare and the scopes in which the texts of the arguments stand; arguments are trees of names, values and any operations | induction over the argument: a declaration of a name that does not occur changes nothing; captures refuted for all values |
| C110 | `utest_ns` on Linux, with the reading of the system as parameter, in the arithmetic of `Core`; the seed made from it | linear arithmetic over all readings, overflow at each multiplication |
| C111 | a client program over the model of `vtrn`, `vreinterpret`, `vld1` and `vst1` | bits of the registers through the three stages; induction over the rows and columns of blocks with an invariant about the cells written so far |
| C112 | a client program over the model of `vrev64_u8`, `vld1_u8` and `vst1_u8` | induction over the blocks, filled from the end |
| C65 | the text of `neon_sim.h`, preprocessed and parsed; the signatures in the texts of the definitions | refuted by a witness; the sets of mismatches and of missing functions are proved exact by evaluation, with search trees proved correct |

Where the property is false of the code the negation is proved with a concrete
witness, and what does hold is proved in a theorem with the suffix `_partial`.

How to read the theorem names: `f_spec` full statement for the function `f`; `f_partial` what is
true when the property is not (its hypothesis or its conclusion is
the exact truth about the code); `f_wrong` the property refuted by a witness; `f_ub` undefined behaviour for a witness or
a class of operands; `f_wrapv` the full statement when signed overflow wraps;
`f_right_iff` the operands for which the result is the architecture's; `f_strict` exactness in every dialect together with undefinedness in C++11;
`f_abort`, `f_oob`, `f_unreadable` behaviour for bad arguments; law names
(`_comm`, `_assoc`, `_mono`, ...) say the law.

## 4. Defects of the code found by the model

Each was first noticed as an unprovable theorem, then confirmed in the C++, and is proved in the
theorems named `_wrong`, `_ub`, `_oob`, `_abort` or `_partial` of the function.

1. `vst4_u8` stores the fourth register at `ptr[4*i+4]` instead of `4*i+3`; `vst4_u32` writes `ptr[4*i+2]` twice and never `4*i+3`.
2. `vaddhn_high_s32/u32` shift by 4 and `vaddhn_high_s64/u64` by 2, instead of 16 and 32.
3. `vaddl_high_s32` overflows (undefined) and `vaddl_high_u32` wraps: the addition is done in 32 bits.
4. `vsubhn_s32/s64/u32/u64` are defined under the names `vsubn_*` and shift by 8.
5. `vhsub(q)_u32` wraps before halving; `vhsub(q)_s32` overflows (undefined).
6. `vqsub(q)_s64/u64` compute in `double`: imprecise above 2^53, and `INT64_MAX - 0`, `UINT64_MAX - 0` convert an out-of-range double (undefined).
7. `vrsubhn_s64/u64` use a wrong rounding constant; `vrsubhn_s32` overflows (undefined).
8. 16-bit unsigned products overflow `int` after promotion (undefined); `vmull_u32` wraps, `vmull_s32` overflows (undefined).
9. Signed 32/64-bit `vadd`, `vsub`, `vmul`, `vmla`, `vaddw`, `vsubw` overflow (undefined) where NEON wraps.
10. `vqshrun_n_s32/s64` never assign the result.
11. `vsraq_n_s32` computes `(a >> n) + (b >> n)`; `n = 32` is undefined.
12. `vshr_n_u16` aborts for the legal shifts 9 to 16.
13. `vqtbl1_u8` reads outside the table for an index of 16 or more.
14. `vrev32_s8` reads outside its operand for every call.
15. `vrev64q_s8/s16` leave the upper half uninitialised.
16. `vqshrn_n_s64` truncates to 32 bits before clamping.
17. `vcvtnq_s32_f32` truncates instead of rounding to nearest; `vcvtq_s32/u32_f32` are undefined out of range.
18. `vbslq_f32` selects whole lanes by `mask != 0`.
19. `vmaxq/vminq` of unsigned lanes compare as signed numbers; float max/min treat NaN asymmetrically.
20. `vext_u8` and `vextq_u16` accept `n = 8`; some messages name another function or range.
21. No range check of the shift in `vrshrn_n_u16`, `vshlq_n_s32`, `vshll_n_u8`, `vsraq_n_s32`, `vqshrn_n_*`; `vshlq_n_s32` of a negative lane is undefined in C++11.
22. No lane check in `vld1_lane_*`, `vget_lane_f32`, `vgetq_lane_*` (other than f32), `vst4q_lane_f32`.
23. `vrecpeq_f32` gives normal numbers for NaN, infinities and zeros, and NaN or infinity for exponent field 254; accurate for exponent fields 1 to 252.
24. `vrecpsq_f32` of infinity and zero gives NaN instead of 2.0.
25. 1422 declared functions have no definition and 18 definitions match no declaration.
26. Test runner, filter: `*` at the end of a pattern does not match the empty rest, and the text after a `*` is compared without going back, so `*ab` leaves out `aab` and `abab`.
27. Test runner, report: the exit status is the number of failures, of which the system keeps 8 bits; the XML file has no verdicts; `--enable-mixed-units` reads past the units for a test of 10^13 ns; the shuffle divides by zero for 2^32 tests.
28. Test runner, checks: `UTEST_SKIP` hides earlier failures; a failing `EXPECT_TRUE` evaluates its argument twice; an exception skips the tear-down of a fixture; `UTEST_F` leaves the index uninitialised, and it is read; `EXPECT_NEAR` rejects equal infinities and accepts everything with a NaN tolerance.
29. Test runner, messages: a failing check of strings prints a null pointer with `%s`; the text of the arguments of `EXPECT_EQ` and the like is the format of a `printf`, so `EXPECT_EQ(a % b, c)` is undefined when it fails; `EXPECT_STRNEQ` casts the length to `int` for its message.
30. Test runner, comparisons: `EXPECT_LT(-1, 1u)` fails and `EXPECT_EQ(-1, 4294967295u)` passes, because the arguments are compared after the usual arithmetic conversions; `EXPECT_EQ(16777217, 16777216.0f)` passes; the message of a failure shows six places only, so `EXPECT_EQ(1e-7, 2e-7)` reports `0.000000 vs 0.000000`.
31. Test runner, arguments: the checks of strings evaluate their arguments twice when they pass, and judge the second values, so `EXPECT_STREQ(next(), "a")` takes two elements; a failing `EXPECT_TRUE`, `EXPECT_NEAR` or `EXPECT_STREQ` evaluates them again for standard output and once more for the XML file.
32. Printed float registers: the stream operators leave the precision at six digits, so registers that differ can be printed alike (1000000 and 1000001 are both `1e+06`), and a message of `almostEqual` can show a difference and a tolerance as equal.
33. `README.md` lists "same-length-different-type conversion" as a feature; the register types are distinct structures without conversions, so `int8x8_t a = b;` with `uint8x8_t b` is rejected, with every flag (`init_other_wrong`).
34. The check macros of `tests/utest.h` declare `xEval`, `yEval`, `diff` and `exception_caught` around the texts of their arguments: `EXPECT_EQ(1, xEval)` and `EXPECT_NEAR(a, b, diff)` pass whatever these variables of the test hold (`scope_compare_wrong`, `scope_near_wrong`), and `EXPECT_NEAR(diff, b, e)` reads an uninitialised variable (`scope_near_self_wrong`).
35. The test runner measures times with the clock of the day (`CLOCK_REALTIME`): the time of a test is negative when that clock is set back (`test_time_wrong`). Built as strict C++11, `clock() * 1000000000` overflows after 2 hours and 33 minutes of processor time (`clock_ansi_wrong`).

## 5. Tests of the theorems against wrong programs

`seeded/LOG.jsonl` has one line per edit of the model in a scratch copy
(`tools/mutate.py` writes most of the edits, the rest are by hand): the definition edited, the edit, the claim it breaks, the theorems that
stopped proving, and what was tightened.  Edits that change nothing observable
(for example a dead clamp branch) are marked as equivalent.
