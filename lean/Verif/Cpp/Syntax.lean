import Verif.Core

/-!
# The C++ subset of `neon_sim.cpp`: tokens, syntax trees and a parser

The parser turns the text of a function definition into a syntax tree.  It is a
total function evaluated by the kernel, so `parse text = some tree` is a
theorem.  Identifiers are numbers: the characters as base-256 digits (injective).
-/

namespace Verif.Cpp

/-! ## Tokens -/

/-- The number of an identifier. -/
def nameOf (cs : List Char) : Nat := cs.foldl (fun n c => n * 256 + c.toNat) 0

inductive Tok
  /-- identifier or keyword -/
  | id (n : Nat)
  /-- decimal literal -/
  | num (n : Nat)
  /-- hexadecimal literal -/
  | hex (n : Nat)
  /-- literal `n.0` -/
  | dbl (n : Nat)
  /-- string literal -/
  | str (cs : List Nat)
  /-- character literal -/
  | chr (c : Nat)
  /-- punctuation, its one or two characters as base-256 digits -/
  | op (n : Nat)
  deriving DecidableEq, Repr

/-- What the characters read since the last complete token are. -/
inductive Mode
  /-- nothing or white space -/
  | none
  | id (n : Nat)
  /-- `0` -/
  | zero
  | num (n : Nat)
  /-- `n.` -/
  | point (n : Nat)
  /-- `n.0` -/
  | dbl (n : Nat)
  /-- `0x` -/
  | ox
  | hex (n : Nat)
  | str (cs : List Nat)
  /-- a string up to and including a backslash -/
  | esc (cs : List Nat)
  /-- `'` -/
  | quote
  /-- `'c` -/
  | chr (c : Nat)
  /-- a complete string or character literal -/
  | lit (t : Tok)
  /-- comment -/
  | line
  | op (c : Nat)
  /-- `<<` or `>>` -/
  | shift (c : Nat)
  /-- not in the subset -/
  | err

structure Lex where
  /-- complete tokens, last first -/
  toks : List Tok
  mode : Mode

def isAlpha (c : Nat) : Bool :=
  (97 ≤ c && c ≤ 122) || (65 ≤ c && c ≤ 90) || c == 95
def isDigit (c : Nat) : Bool := 48 ≤ c && c ≤ 57
def hexDigit (c : Nat) : Option Nat :=
  if 48 ≤ c && c ≤ 57 then some (c - 48)
  else if 97 ≤ c && c ≤ 102 then some (c - 87)
  else if 65 ≤ c && c ≤ 70 then some (c - 55)
  else .none
def isSpace (c : Nat) : Bool := c == 32 || c == 10 || c == 9 || c == 13
/-- Punctuation of C++: `! # % & ( ) * + , - . / : ; < = > ? [ ] ^ { | } ~` -/
def isPunct (c : Nat) : Bool :=
  c == 33 || c == 35 || (37 ≤ c && c ≤ 38) || (40 ≤ c && c ≤ 47) || (58 ≤ c && c ≤ 63) ||
  c == 91 || (93 ≤ c && c ≤ 94) || (123 ≤ c && c ≤ 126)

/-- First character of a token. -/
def Lex.start (ts : List Tok) (c : Nat) : Lex :=
  if isSpace c then ⟨ts, .none⟩
  else if isAlpha c then ⟨ts, .id c⟩
  else if isPunct c then ⟨ts, .op c⟩
  else if c == 48 then ⟨ts, .zero⟩
  else if isDigit c then ⟨ts, .num (c - 48)⟩
  else if c == 34 then ⟨ts, .str []⟩
  else if c == 39 then ⟨ts, .quote⟩
  else ⟨ts, .err⟩

/-- First character after a number. -/
def Lex.afterNum (ts : List Tok) (t : Tok) (c : Nat) : Lex :=
  if isAlpha c || isDigit c || c == 46 then ⟨ts, .err⟩ else Lex.start (t :: ts) c

/-- `<=  >=  ==  !=  &&  ||  <<  >>  ++  +=  ::` -/
def isPair (c d : Nat) : Bool :=
  (d == 61 && (c == 60 || c == 62 || c == 61 || c == 33 || c == 43)) ||
  (c == d && (c == 38 || c == 124 || c == 60 || c == 62 || c == 43 || c == 58))

/-- Beginnings of tokens of C++ that are not in the subset: `-=  *=  /=  %=  &=  |=  ^=  --  ##  ->  ..  .*  /*
<:  <%  %:  :>  %>` and a point before a digit. -/
def isOther (c d : Nat) : Bool :=
  (d == 61 && (c == 45 || c == 42 || c == 47 || c == 37 || c == 38 || c == 124 || c == 94)) ||
  (c == d && (c == 45 || c == 35 || c == 46)) ||
  (c == 45 && d == 62) || (c == 46 && d == 42) || (c == 47 && d == 42) ||
  (c == 60 && (d == 58 || d == 37)) || (c == 37 && (d == 58 || d == 62)) || (c == 58 && d == 62) ||
  (c == 46 && isDigit d)

/-- One character. -/
def Lex.step (s : Lex) (c : Nat) : Lex :=
  match s.mode with
  | .none => Lex.start s.toks c
  | .id n =>
    if isAlpha c || isDigit c then ⟨s.toks, .id (n * 256 + c)⟩
    else if c == 34 || c == 39 then ⟨s.toks, .err⟩  -- prefix of a literal
    else Lex.start (.id n :: s.toks) c
  | .op p =>
    if isPair p c then
      if p == c && (p == 60 || p == 62) then ⟨s.toks, .shift p⟩ else ⟨.op (p * 256 + c) :: s.toks, .none⟩
    else if p == 47 && c == 47 then ⟨s.toks, .line⟩  -- `//`
    else if isOther p c then ⟨s.toks, .err⟩
    else Lex.start (.op p :: s.toks) c
  | .shift p => if c == 61 then ⟨s.toks, .err⟩ else Lex.start (.op (p * 256 + p) :: s.toks) c
  | .line => if c == 10 then ⟨s.toks, .none⟩ else if c == 92 then ⟨s.toks, .err⟩ else s
  | .zero =>
    if c == 120 then ⟨s.toks, .ox⟩
    else if c == 46 then ⟨s.toks, .point 0⟩
    else Lex.afterNum s.toks (.num 0) c  -- no octal literals
  | .num n =>
    if isDigit c then ⟨s.toks, .num (n * 10 + (c - 48))⟩
    else if c == 46 then ⟨s.toks, .point n⟩
    else Lex.afterNum s.toks (.num n) c
  | .point n => if c == 48 then ⟨s.toks, .dbl n⟩ else ⟨s.toks, .err⟩
  | .dbl n => Lex.afterNum s.toks (.dbl n) c
  | .ox =>
    match hexDigit c with
    | some d => ⟨s.toks, .hex d⟩
    | .none => ⟨s.toks, .err⟩
  | .hex n =>
    match hexDigit c with
    | some d => ⟨s.toks, .hex (n * 16 + d)⟩
    | .none =>
      if n % 16 == 14 && (c == 43 || c == 45) then ⟨s.toks, .err⟩  -- `0xe+1` is one token
      else Lex.afterNum s.toks (.hex n) c
  | .str cs =>
    if c == 34 then ⟨s.toks, .lit (.str cs.reverse)⟩
    else if c == 92 then ⟨s.toks, .esc cs⟩
    else if c == 10 || 127 < c then ⟨s.toks, .err⟩
    else ⟨s.toks, .str (c :: cs)⟩
  | .esc cs =>
    if c == 110 then ⟨s.toks, .str (10 :: cs)⟩  -- `\n`
    else if c == 34 || c == 92 then ⟨s.toks, .str (c :: cs)⟩
    else ⟨s.toks, .err⟩
  | .quote => if c == 39 || c == 92 || c == 10 || 127 < c then ⟨s.toks, .err⟩ else ⟨s.toks, .chr c⟩
  | .chr d => if c == 39 then ⟨s.toks, .lit (.chr d)⟩ else ⟨s.toks, .err⟩  -- one character only
  | .lit t => if isAlpha c then ⟨s.toks, .err⟩ else Lex.start (t :: s.toks) c
  | .err => s

/-- The tokens of a text, with a line break added at its end; `[.op 0]` if it is not in the subset. -/
def tokenize (cs : List Char) : List Tok :=
  let s := (cs.foldl (fun (s : Lex) c => s.step c.toNat) ⟨[], .none⟩).step 10
  match s.mode with
  | .none => s.toks.reverse
  | _ => [.op 0]

/-! ## Syntax trees -/

inductive BinOp
  | add | sub | mul | div | mod | shl | shr | and | or | xor | lt | gt | le | ge | eq | land | lor
  deriving DecidableEq, Repr

inductive Expr
  /-- integer literal with its type -/
  | num (t : ITy) (n : Int)
  /-- literal `n.0` of type `double` -/
  | dbl (n : Nat)
  /-- variable of scalar type -/
  | var (x : Nat)
  /-- `x.val[i]` -/
  | lane (x : Nat) (i : Expr)
  /-- `x.val[j].val[i]` -/
  | lane2 (x : Nat) (j i : Expr)
  /-- `x[i]` -/
  | elem (x : Nat) (i : Expr)
  | bin (o : BinOp) (a b : Expr)
  /-- `~a` -/
  | compl (a : Expr)
  /-- `!a` -/
  | not (a : Expr)
  /-- `(T)a` -/
  | cast (e : Elem) (a : Expr)
  /-- `std::min<T>(a, b)` -/
  | stdMin (e : Option Elem) (a b : Expr)
  /-- `std::max<T>(a, b)` -/
  | stdMax (e : Option Elem) (a b : Expr)
  /-- `c ? a : b` -/
  | ite (c a b : Expr)
  deriving DecidableEq, Repr

/-- Types of variables, parameters and results. -/
inductive Ty
  | void
  | sc (e : Elem)
  | vec (e : Elem) (n : Nat)
  | arr (e : Elem) (n k : Nat)
  | ptr (e : Elem)
  /-- `T[n]`, or a `std::string` of `n` characters -/
  | cells (e : Elem) (n : Nat)
  /-- a class -/
  | cls (c : Nat)
  deriving DecidableEq, Repr

inductive Stmt
  | skip
  | seq (a b : Stmt)
  /-- `{ s }` -/
  | block (s : Stmt)
  /-- `T x;` or `T x = e;` -/
  | decl (t : Ty) (x : Nat) (e : Option Expr)
  /-- `l = e;` -/
  | assign (l e : Expr)
  /-- `for (init; c; inc) body` -/
  | loop (init : Stmt) (c : Expr) (inc body : Stmt)
  | ite (c : Expr) (a b : Stmt)
  | ret (e : Expr)
  /-- `fprintf(stderr, fmt);` or `fprintf(stderr, fmt, __FUNCTION__);` -/
  | fprintf (fmt : List Nat)
  /-- `abort();` -/
  | abort
  /-- `memcpy(&dst.val, &src.val, sizeof(e) * n);` -/
  | memcpy (dst src : Nat) (e : Elem) (n : Nat)
  /-- `memcpy(&dst, &src, sizeof(e));` of scalars -/
  | memcpySc (dst src : Nat) (e : Elem)
  /-- `f(args);` -/
  | call (f : Nat) (args : List Expr)
  /-- `T x = f(args);` -/
  | declCall (t : Ty) (x f : Nat) (args : List Expr)
  /-- `l = f(args);` -/
  | assignCall (l : Expr) (f : Nat) (args : List Expr)
  /-- `c x{args};` -/
  | construct (c x : Nat) (args : List Expr)
  /-- `return e(x);` for an object `x` of class type -/
  | retConv (e : Elem) (x : Nat)
  deriving DecidableEq, Repr

structure Func where
  ret : Ty
  name : Nat
  params : List (Ty × Nat)
  body : Stmt
  deriving DecidableEq, Repr

/-- A class: its members with the value they are filled with. -/
structure Struct where
  name : Nat
  members : List (Nat × Ty × Option Int)
  deriving DecidableEq, Repr

/-- A translation unit. -/
structure TransUnit where
  structs : List Struct
  funcs : List Func
  /-- constructors, named by their class -/
  ctors : List Func
  /-- conversion functions, named by their class -/
  convs : List Func
  deriving DecidableEq, Repr

/-! ## Types and macros -/

/-- `k!"abc"`: the number of the identifier `abc`. -/
scoped macro:max "k!" noWs s:str : term => do
  let v := s.getString.toList.foldl (fun n c => n * 256 + c.toNat) 0
  return Lean.Syntax.mkNumLit (toString v)

/-- Scalar types (`neon_sim.h:13-14` and `<stdint.h>`).  `size_t` is 64 bits wide. -/
def scalar (x : Nat) : Option Elem :=
  if x == k!"int" then some .s32
  else if x == k!"size_t" then some .u64
  else if x == k!"uint8_t" then some .u8
  else if x == k!"int8_t" then some .s8
  else if x == k!"uint16_t" then some .u16
  else if x == k!"int16_t" then some .s16
  else if x == k!"uint32_t" then some .u32
  else if x == k!"int32_t" then some .s32
  else if x == k!"uint64_t" then some .u64
  else if x == k!"int64_t" then some .s64
  else if x == k!"float32_t" then some .f32
  else if x == k!"float" then some .f32
  else if x == k!"float64_t" then some .f64
  else if x == k!"double" then some .f64
  else none

/-- Digits of a base-256 number, last character first. -/
def chars : Nat → Nat → List Nat
  | 0, _ => []
  | f + 1, x => if x == 0 then [] else x % 256 :: chars f (x / 256)

/-- `x<decimal>` at the end of a reversed name: the number and what precedes the `x`. -/
def count : Nat → Nat → List Nat → Option (Nat × List Nat)
  | w, k, c :: cs =>
    if isDigit c then count (w * 10) (k + w * (c - 48)) cs
    else if c == 120 && w != 1 then some (k, cs) else none
  | _, _, [] => none

/-- A scalar type from its reversed name without the `_t`. -/
def base (r : List Nat) : Option Elem :=
  scalar (r.reverse.foldl (fun n c => n * 256 + c) 0 * 65536 + k!"_t")

/-- Register types `<base>x<lanes>_t` and register array types
`<base>x<lanes>x<registers>_t` (`neon_sim.h:17-463`). -/
def vecTy (x : Nat) : Option Ty :=
  if x % 65536 == k!"_t" then
    match count 1 0 (chars 20 (x / 65536)) with
    | some (a, r) =>
      match count 1 0 r with
      | some (b, r) => (base r).map fun e => .arr e b a
      | none => (base r).map fun e => .vec e a
    | none => none
  else none

/-- The type with the given name. -/
def typeOf (x : Nat) : Option Ty :=
  if x == k!"void" then some .void
  else match scalar x with
    | some e => some (.sc e)
    | none => vecTy x

/-- The name of the member `m` of the object `x`: the identifier `x.m`. -/
def member (x m : Nat) : Nat := (chars 64 m).reverse.foldl (fun n c => n * 256 + c) (x * 256 + 46)

/-- Limits of `<stdint.h>` and `<limits.h>` with their types. -/
def limit (x : Nat) : Option Expr :=
  if x == k!"INT8_MAX" then some (.num .i32 127)
  else if x == k!"INT8_MIN" then some (.num .i32 (-128))
  else if x == k!"INT16_MAX" then some (.num .i32 32767)
  else if x == k!"INT16_MIN" then some (.num .i32 (-32768))
  else if x == k!"INT32_MAX" then some (.num .i32 2147483647)
  else if x == k!"INT32_MIN" then some (.num .i32 (-2147483648))
  else if x == k!"INT64_MAX" then some (.num .i64 9223372036854775807)
  else if x == k!"INT64_MIN" then some (.num .i64 (-9223372036854775808))
  else if x == k!"UINT8_MAX" then some (.num .i32 255)
  else if x == k!"UINT16_MAX" then some (.num .i32 65535)
  else if x == k!"UINT32_MAX" then some (.num .u32 4294967295)
  else if x == k!"UINT64_MAX" then some (.num .u64 18446744073709551615)
  else none

/-! ## Parser -/

/-- The keywords of C++11 and the alternative names of operators. -/
def keywords : List Nat :=
  [k!"alignas", k!"alignof", k!"asm", k!"auto", k!"bool", k!"break", k!"case", k!"catch", k!"char",
   k!"char16_t", k!"char32_t", k!"class", k!"const", k!"constexpr", k!"const_cast", k!"continue", k!"decltype",
   k!"default", k!"delete", k!"do", k!"double", k!"dynamic_cast", k!"else", k!"enum", k!"explicit", k!"export",
   k!"extern", k!"false", k!"float", k!"for", k!"friend", k!"goto", k!"if", k!"inline", k!"int", k!"long",
   k!"mutable", k!"namespace", k!"new", k!"noexcept", k!"nullptr", k!"operator", k!"private", k!"protected",
   k!"public", k!"register", k!"reinterpret_cast", k!"return", k!"short", k!"signed", k!"sizeof", k!"static",
   k!"static_assert", k!"static_cast", k!"struct", k!"switch", k!"template", k!"this", k!"thread_local",
   k!"throw", k!"true", k!"try", k!"typedef", k!"typeid", k!"typename", k!"union", k!"unsigned", k!"using",
   k!"virtual", k!"void", k!"volatile", k!"wchar_t", k!"while", k!"and", k!"and_eq", k!"bitand", k!"bitor",
   k!"compl", k!"not", k!"not_eq", k!"or", k!"or_eq", k!"xor", k!"xor_eq"]

/-- A name that a variable or function can have. -/
def ident (x : Nat) : Bool := !keywords.elem x && (scalar x).isNone

/-- Precedence (C++ order) and meaning of a binary operator. -/
def binOp (o : Nat) : Option (Nat × BinOp) :=
  if o == k!"||" then some (1, .lor)
  else if o == k!"&&" then some (2, .land)
  else if o == k!"|" then some (3, .or)
  else if o == k!"^" then some (4, .xor)
  else if o == k!"&" then some (5, .and)
  else if o == k!"==" then some (6, .eq)
  else if o == k!"<" then some (7, .lt)
  else if o == k!">" then some (7, .gt)
  else if o == k!"<=" then some (7, .le)
  else if o == k!">=" then some (7, .ge)
  else if o == k!"<<" then some (8, .shl)
  else if o == k!">>" then some (8, .shr)
  else if o == k!"+" then some (9, .add)
  else if o == k!"-" then some (9, .sub)
  else if o == k!"*" then some (10, .mul)
  else if o == k!"/" then some (10, .div)
  else if o == k!"%" then some (10, .mod)
  else none

/-- Type of a literal: the first of `int`, `long` (decimal) or `int`, `unsigned`,
`long`, `unsigned long` (hexadecimal) that holds it. -/
def decimal (n : Nat) : Option Expr :=
  if n ≤ 2147483647 then some (.num .i32 n) else if n ≤ 9223372036854775807 then some (.num .i64 n) else none
@[inherit_doc decimal]
def hexadecimal (n : Nat) : Option Expr :=
  if n ≤ 2147483647 then some (.num .i32 n) else if n ≤ 4294967295 then some (.num .u32 n)
  else if n ≤ 9223372036854775807 then some (.num .i64 n)
  else if n ≤ 18446744073709551615 then some (.num .u64 n) else none

/-- Which expression to parse: `cond` a conditional expression, `bin p` binary
operators of precedence at least `p`, `rest p a` the same after its first
operand `a`, `unary` a cast, `~`, `!` or primary expression. -/
inductive Want
  | cond | bin (p : Nat) | rest (p : Nat) (a : Expr) | unary

/-- Two arguments `a, b)`. -/
def twoArgs (pe : Want → List Tok → Option (Expr × List Tok)) (ts : List Tok) :
    Option (Expr × Expr × List Tok) :=
  match pe .cond ts with
  | some (a, .op k!"," :: ts) =>
    match pe .cond ts with
    | some (b, .op k!")" :: ts) => some (a, b, ts)
    | _ => none
  | _ => none

/-- `min` or `max` (the name `f`) of two arguments. -/
def minMax (pe : Want → List Tok → Option (Expr × List Tok)) (f : Nat) (e : Option Elem) (ts : List Tok) :
    Option (Expr × List Tok) :=
  match twoArgs pe ts with
  | some (a, b, ts) =>
    if f == k!"min" then some (.stdMin e a b, ts)
    else if f == k!"max" then some (.stdMax e a b, ts) else none
  | none => none

/-- Primary expressions that do not begin with a keyword or the name of a type; `pe` parses subexpressions. -/
def simple (pe : Want → List Tok → Option (Expr × List Tok)) : List Tok → Option (Expr × List Tok)
  | .num k :: ts => (decimal k).map (·, ts)
  | .hex k :: ts => (hexadecimal k).map (·, ts)
  | .dbl k :: ts => some (.dbl k, ts)
  | .op k!"(" :: ts =>
    match pe .cond ts with
    | some (a, .op k!")" :: ts) => some (a, ts)
    | _ => none
  | .id k!"std" :: .op k!"::" :: .id f :: ts =>
    match ts with
    | .op k!"(" :: ts => minMax pe f none ts
    | .op k!"<" :: .id t :: .op k!">" :: .op k!"(" :: ts =>
      match scalar t with
      | some e => minMax pe f (some e) ts
      | none => none
    | _ => none
  | .id x :: .op k!"." :: .id k!"val" :: .op k!"[" :: ts =>
    match pe .cond ts with
    | some (i, .op k!"]" :: .op k!"." :: .id k!"val" :: .op k!"[" :: ts) =>
      match pe .cond ts with
      | some (k, .op k!"]" :: ts) => some (.lane2 x i k, ts)
      | _ => none
    | some (i, .op k!"]" :: ts) => some (.lane x i, ts)
    | _ => none
  | .chr c :: ts => some (.num .i8 c, ts)  -- type `char`, signed
  | .id x :: .op k!"." :: .id m :: ts => some (.var (member x m), ts)
  | .id x :: .op k!"[" :: ts =>
    match pe .cond ts with
    | some (i, .op k!"]" :: ts) => some (.elem x i, ts)
    | _ => none
  | .id x :: ts =>
    match limit x with
    | some e => some (e, ts)
    | none => some (.var x, ts)
  | _ => none

/-- Primary expressions. -/
def primary (pe : Want → List Tok → Option (Expr × List Tok)) (ts : List Tok) : Option (Expr × List Tok) :=
  match ts with
  | .id x :: _ => if ident x then simple pe ts else none
  | _ => simple pe ts

/-- Expressions; the first argument bounds the recursion. -/
def expr : Nat → Want → List Tok → Option (Expr × List Tok)
  | 0, _, _ => none
  | f + 1, .cond, ts =>
    match expr f (.bin 1) ts with
    | some (c, .op k!"?" :: ts) =>
      match expr f .cond ts with
      | some (a, .op k!":" :: ts) =>
        match expr f .cond ts with
        | some (b, ts) => some (.ite c a b, ts)
        | none => none
      | _ => none
    | r => r
  | f + 1, .bin p, ts =>
    match expr f .unary ts with
    | some (a, ts) => expr f (.rest p a) ts
    | none => none
  | f + 1, .rest p a, ts =>
    match ts with
    | .op o :: ts' =>
      match binOp o with
      | some (q, op) =>
        if p ≤ q then
          match expr f (.bin (q + 1)) ts' with
          | some (b, ts) => expr f (.rest p (.bin op a b)) ts
          | none => none
        else some (a, ts)
      | none => some (a, ts)
    | _ => some (a, ts)
  | f + 1, .unary, ts =>
    match ts with
    | .op k!"~" :: ts => (expr f .unary ts).map fun (a, ts) => (.compl a, ts)
    | .op k!"!" :: ts => (expr f .unary ts).map fun (a, ts) => (.not a, ts)
    | .op k!"(" :: .id t :: .op k!")" :: ts' =>
      match scalar t with
      | some e => (expr f .unary ts').map fun (a, ts) => (.cast e a, ts)
      | none => primary (expr f) ts
    | _ => primary (expr f) ts

/-- A conditional expression. -/
def cond (n : Nat) (ts : List Tok) : Option (Expr × List Tok) := expr n .cond ts

/-- Arguments up to the token `close`. -/
def arguments (n close : Nat) : Nat → List Tok → Option (List Expr × List Tok)
  | 0, _ => none
  | f + 1, ts =>
    match cond n ts with
    | some (e, .op o :: ts) =>
      if o == close then some ([e], ts)
      else if o == k!"," then (arguments n close f ts).map fun (es, ts) => (e :: es, ts)
      else none
    | _ => none

/-- `T x;` or `T x = e;` or `T x = f(args);` -/
def decl (n : Nat) (ts : List Tok) : Option (Stmt × List Tok) :=
  match ts with
  | .id t :: .id x :: .op k!";" :: ts =>
    if ident x then (typeOf t).map fun t => (.decl t x none, ts) else none
  | .id t :: .id x :: .op k!"=" :: .id g :: .op k!"(" :: ts =>
    if !(ident x && ident g) then none else
    match arguments n k!")" n ts with
    | some (es, .op k!";" :: ts) => (typeOf t).map fun t => (.declCall t x g es, ts)
    | _ => none
  | .id t :: .id x :: .op k!"=" :: ts =>
    if !ident x then none else
    match cond n ts with
    | some (e, .op k!";" :: ts) => (typeOf t).map fun t => (.decl t x (some e), ts)
    | _ => none
  | _ => none

/-- `l = e` or `l = f(args)` or `l += e` or `x++`, without what follows. -/
def assignment (n : Nat) (ts : List Tok) : Option (Stmt × List Tok) :=
  match ts with
  | .id x :: .op k!"++" :: ts =>
    if ident x && (limit x).isNone then some (.assign (.var x) (.bin .add (.var x) (.num .i32 1)), ts) else none
  | _ =>
    match expr n (.bin 1) ts with
    | some (l, .op k!"=" :: .id g :: .op k!"(" :: ts) =>
      if ident g then (arguments n k!")" n ts).map fun (es, ts) => (.assignCall l g es, ts) else none
    | some (l, .op k!"=" :: ts) => (cond n ts).map fun (e, ts) => (.assign l e, ts)
    | some (l, .op k!"+=" :: ts) => (cond n ts).map fun (e, ts) => (.assign l (.bin .add l e), ts)
    | _ => none

/-- A format without conversion specifications (`%`, character 37). -/
def plain (m : List Nat) : Bool := !m.contains 37
/-- A format with one conversion specification, `%s`. -/
def named : List Nat → Bool
  | [] => false
  | c :: cs => if c = 37 then cs.head? = some 115 && plain cs.tail else named cs

/-- Statements up to a closing brace (`many`) or one statement. -/
def stmt (n : Nat) : Nat → Bool → List Tok → Option (Stmt × List Tok)
  | 0, _, _ => none
  | f + 1, true, ts =>
    match ts with
    | .op k!"}" :: ts => some (.skip, ts)
    | _ =>
      match stmt n f false ts with
      | some (a, ts) => (stmt n f true ts).map fun (b, ts) => (.seq a b, ts)
      | none => none
  | f + 1, false, ts =>
    match ts with
    | .op k!";" :: ts => some (.skip, ts)
    | .op k!"{" :: ts => (stmt n f true ts).map fun (a, ts) => (.block a, ts)
    | .id k!"return" :: .id t :: .op k!"(" :: .id x :: .op k!")" :: .op k!";" :: ts =>
      if ident x then (scalar t).map fun e => (.retConv e x, ts) else none
    | .id k!"return" :: ts =>
      match cond n ts with
      | some (e, .op k!";" :: ts) => some (.ret e, ts)
      | _ => none
    | .id k!"for" :: .op k!"(" :: ts =>
      match decl n ts with
      | some (i, ts) =>
        match cond n ts with
        | some (c, .op k!";" :: ts) =>
          match assignment n ts with
          | some (s, .op k!")" :: ts) => (stmt n f false ts).map fun (b, ts) => (.loop i c s b, ts)
          | _ => none
        | _ => none
      | none => none
    | .id k!"if" :: .op k!"(" :: ts =>
      match cond n ts with
      | some (c, .op k!")" :: ts) =>
        match stmt n f false ts with
        | some (a, .id k!"else" :: ts) => (stmt n f false ts).map fun (b, ts) => (.ite c a b, ts)
        | some (a, ts) => some (.ite c a .skip, ts)
        | none => none
      | _ => none
    | .id k!"fprintf" :: .op k!"(" :: .id k!"stderr" :: .op k!"," :: .str m :: .op k!"," ::
        .id k!"__FUNCTION__" :: .op k!")" :: .op k!";" :: ts => if named m then some (.fprintf m, ts) else none
    | .id k!"fprintf" :: .op k!"(" :: .id k!"stderr" :: .op k!"," :: .str m :: .op k!")" ::
        .op k!";" :: ts => if plain m then some (.fprintf m, ts) else none
    | .id k!"abort" :: .op k!"(" :: .op k!")" :: .op k!";" :: ts => some (.abort, ts)
    | .id k!"memcpy" :: .op k!"(" :: .op k!"&" :: .id d :: .op k!"." :: .id k!"val" :: .op k!"," ::
        .op k!"&" :: .id s :: .op k!"." :: .id k!"val" :: .op k!"," :: .id k!"sizeof" :: .op k!"(" ::
        .id t :: .op k!")" :: .op k!"*" :: .num k :: .op k!")" :: .op k!";" :: ts =>
      if ident d && ident s then (scalar t).map fun e => (.memcpy d s e k, ts) else none
    | .id k!"memcpy" :: .op k!"(" :: .op k!"&" :: .id d :: .op k!"," :: .op k!"&" :: .id s :: .op k!"," ::
        .id k!"sizeof" :: .op k!"(" :: .id t :: .op k!")" :: .op k!")" :: .op k!";" :: ts =>
      if ident d && ident s then (scalar t).map fun e => (.memcpySc d s e, ts) else none
    | .id k!"const" :: ts => decl n ts
    | .id c :: .id x :: .op k!"{" :: ts =>
      if !(ident c && ident x) then none else
      match arguments n k!"}" n ts with
      | some (es, .op k!";" :: ts) => some (.construct c x es, ts)
      | _ => none
    | .id g :: .op k!"(" :: ts =>
      if !ident g then none else
      match arguments n k!")" n ts with
      | some (es, .op k!";" :: ts) => some (.call g es, ts)
      | _ => none
    | .id x :: .id y :: ts => decl n (.id x :: .id y :: ts)
    | _ =>
      match assignment n ts with
      | some (s, .op k!";" :: ts) => some (s, ts)
      | _ => none

/-- A parameter.  `const` is ignored. -/
def param (ts : List Tok) : Option ((Ty × Nat) × List Tok) :=
  let ptr (t x : Nat) (ts : List Tok) : Option ((Ty × Nat) × List Tok) :=
    if ident x then (scalar t).map fun e => ((.ptr e, x), ts) else none
  let val (t x : Nat) (ts : List Tok) : Option ((Ty × Nat) × List Tok) :=
    if ident x then (typeOf t).map fun t => ((t, x), ts) else none
  match ts with
  | .id k!"const" :: .id t :: .op k!"*" :: .id x :: ts => ptr t x ts
  | .id t :: .id k!"const" :: .op k!"*" :: .id x :: ts => ptr t x ts
  | .id t :: .op k!"*" :: .id x :: ts => ptr t x ts
  | .id k!"const" :: .id t :: .id x :: ts => val t x ts
  | .id t :: .id x :: ts => val t x ts
  | _ => none

/-- One or more parameters up to the closing parenthesis.  A default argument of the last one is ignored. -/
def someParams : Nat → List Tok → Option (List (Ty × Nat) × List Tok)
  | 0, _ => none
  | f + 1, ts =>
    match param ts with
    | some (p, .op k!")" :: ts) => some ([p], ts)
    | some (p, .op k!"=" :: .num _ :: .op k!")" :: ts) => some ([p], ts)
    | some (p, .op k!"," :: ts) => (someParams f ts).map fun (ps, ts) => (p :: ps, ts)
    | _ => none

/-- Parameters up to the closing parenthesis. -/
def params (n : Nat) (ts : List Tok) : Option (List (Ty × Nat) × List Tok) :=
  match ts with
  | .op k!")" :: ts => some ([], ts)
  | _ => someParams n ts

/-- A function definition. -/
def func (n : Nat) (ts : List Tok) : Option (Func × List Tok) :=
  match ts with
  | .id t :: .id f :: .op k!"(" :: ts =>
    if !ident f then none else
    match typeOf t, params n ts with
    | some t, some (ps, .op k!"{" :: ts) => (stmt n n true ts).map fun (b, ts) => (⟨t, f, ps, b⟩, ts)
    | _, _ => none
  | _ => none

/-- The syntax tree of the text of a function definition. -/
def parse (text : List Char) : Option Func :=
  match func 200 (tokenize text) with
  | some (f, []) => some f
  | _ => none

/-! ## Classes and translation units -/

/-- Skip a declaration. -/
def skipDecl : List Tok → Option (List Tok)
  | .op k!";" :: ts => some ts
  | _ :: ts => skipDecl ts
  | [] => none

/-- Members of a class and the functions defined in it, up to `};`.  Declarations of
constructors and conversion functions (`explicit`) and access specifiers are skipped. -/
def members (n : Nat) : Nat → List Tok → Option (List (Nat × Ty × Option Int) × List Func × List Tok)
  | 0, _ => none
  | f + 1, ts =>
    let more (m : Nat × Ty × Option Int) (ts : List Tok) :=
      (members n f ts).map fun (ms, fs, ts) => (m :: ms, fs, ts)
    match ts with
    | .op k!"}" :: .op k!";" :: ts => some ([], [], ts)
    | .id k!"explicit" :: ts =>
      match skipDecl ts with
      | some ts => members n f ts
      | none => none
    | .id k!"private" :: .op k!":" :: ts => members n f ts
    | .id k!"std" :: .op k!"::" :: .id k!"string" :: .id x :: .op k!"=" ::
        .id k!"std" :: .op k!"::" :: .id k!"string" :: .op k!"(" :: .num k :: .op k!"," :: .chr c :: .op k!")" ::
        .op k!";" :: ts => if ident x then more (x, .cells .s8 k, some c) ts else none
    | .id t :: .id x :: .op k!"[" :: .num k :: .op k!"]" :: .op k!";" :: ts =>
      if !ident x then none else
      match scalar t with
      | some e => more (x, .cells e k, none) ts
      | none => none
    | .id t :: .id x :: .op k!";" :: ts =>
      if !ident x then none else
      match scalar t with
      | some e => more (x, .sc e, none) ts
      | none => none
    | ts =>
      match func n ts with
      | some (g, ts) => (members n f ts).map fun (ms, fs, ts) => (ms, g :: fs, ts)
      | none => none

/-- The definitions of a translation unit. -/
def unit (n : Nat) : Nat → List Tok → Option TransUnit
  | 0, _ => none
  | f + 1, ts =>
    match ts with
    | [] => some ⟨[], [], [], []⟩
    | .id k!"struct" :: .id c :: .op k!"{" :: ts =>
      if !ident c then none else
      match members n n ts with
      | some (ms, fs, ts) => (unit n f ts).map fun u => { u with structs := ⟨c, ms⟩ :: u.structs, funcs := fs ++ u.funcs }
      | none => none
    | .id c :: .op k!"::" :: .id k!"operator" :: .id t :: .op k!"(" :: .op k!")" :: .id k!"const" :: .op k!"{" :: ts =>
      if !ident c then none else
      match scalar t, stmt n n true ts with
      | some e, some (b, ts) => (unit n f ts).map fun u => { u with convs := ⟨.sc e, c, [], b⟩ :: u.convs }
      | _, _ => none
    | .id c :: .op k!"::" :: .id c' :: .op k!"(" :: ts =>
      if !(ident c && c == c') then none else
      match params n ts with
      | some (ps, .op k!"{" :: ts) =>
        match stmt n n true ts with
        | some (b, ts) => (unit n f ts).map fun u => { u with ctors := ⟨.void, c, ps, b⟩ :: u.ctors }
        | none => none
      | _ => none
    | ts =>
      match func n ts with
      | some (g, ts) => (unit n f ts).map fun u => { u with funcs := g :: u.funcs }
      | none => none

/-- The definitions in the text of a translation unit. -/
def parseUnit (text : List Char) : Option TransUnit := unit 200 200 (tokenize text)

end Verif.Cpp
