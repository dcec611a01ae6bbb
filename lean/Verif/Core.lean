import Verif.Fp

/-!
# C++ semantics used by the model

Values, integer promotions, arithmetic with undefined behaviour, registers,
local (possibly uninitialised) registers, pointers and counted loops.
-/

namespace Verif

/-! ## Outcomes -/

/-- Kinds of undefined behaviour. -/
inductive UB
  | signedOverflow | outOfBounds | shiftAmount | shiftOperand
  | indeterminateRead | floatToInt | divByZero
  /-- an operator applied to values of types it does not have: not well-formed C++, so no program does it -/
  | illTyped
  deriving DecidableEq, Repr

/-- Outcome of running a piece of C++ code. -/
inductive C (α : Type)
  /-- normal completion -/
  | ok (a : α)
  /-- `fprintf(stderr, msg); abort();` -/
  | abort (msg : String)
  /-- undefined behaviour -/
  | ub (u : UB)
  /-- returned a register of which some lane was never written; the list gives
  the lanes (as unsigned bit patterns), `none` being an indeterminate one.
  Simplification: execution does not continue after this outcome. -/
  | indet (lanes : List (Option Nat))
  deriving DecidableEq, Repr

namespace C
@[reducible] def bind' {α β} (x : C α) (k : α → C β) : C β :=
  match x with
  | ok a => k a
  | abort m => abort m
  | ub u => ub u
  | indet l => indet l
instance : Monad C where
  pure := ok
  bind := bind'
end C

/-- Compiler dialect.  `wrapv = false`: the C++11 rules, signed overflow is
undefined.  `wrapv = true`: GCC/Clang with `-fwrapv`, signed arithmetic and left
shifts wrap. -/
class Dialect where
  wrapv : Bool

/-- The C++11 dialect. -/
abbrev Dialect.strict : Dialect := ⟨false⟩
/-- GCC/Clang with `-fwrapv`. -/
abbrev Dialect.wrapping : Dialect := ⟨true⟩

/-- `a && b` with short-circuit evaluation. -/
def cAnd (a b : C Bool) : C Bool := do
  if ← a then b else .ok false
/-- `a || b` with short-circuit evaluation. -/
def cOr (a b : C Bool) : C Bool := do
  if ← a then .ok true else b

/-! ## Types -/

/-- Integer types of an LP64 machine: `int8_t` ... `uint64_t`; `int` is `i32`,
`unsigned` is `u32`, `long` is `i64`, `unsigned long` is `u64`. -/
inductive ITy
  | i8 | u8 | i16 | u16 | i32 | u32 | i64 | u64
  deriving DecidableEq, Repr

namespace ITy
@[reducible] def bits : ITy → Nat
  | i8 | u8 => 8
  | i16 | u16 => 16
  | i32 | u32 => 32
  | i64 | u64 => 64
def signed : ITy → Bool
  | i8 | i16 | i32 | i64 => true
  | u8 | u16 | u32 | u64 => false
/-- Smallest value. -/
def lo : ITy → Int
  | i8 => -128
  | i16 => -32768
  | i32 => -2147483648
  | i64 => -9223372036854775808
  | u8 | u16 | u32 | u64 => 0
/-- Largest value. -/
def hi : ITy → Int
  | i8 => 127
  | u8 => 255
  | i16 => 32767
  | u16 => 65535
  | i32 => 2147483647
  | u32 => 4294967295
  | i64 => 9223372036854775807
  | u64 => 18446744073709551615
/-- Reduction modulo `2^bits` into the range of the type. -/
def wrap (t : ITy) (v : Int) : Int :=
  if t.signed then v.bmod (2 ^ t.bits) else v % 2 ^ t.bits
/-- Integer promotion. -/
def promote : ITy → ITy
  | i8 | u8 | i16 | u16 | i32 => i32
  | u32 => u32
  | i64 => i64
  | u64 => u64
/-- Usual arithmetic conversions. -/
def uac (s t : ITy) : ITy :=
  match s.promote, t.promote with
  | u64, _ | _, u64 => u64
  | i64, _ | _, i64 => i64
  | u32, _ | _, u32 => u32
  | _, _ => i32
/-- Conversion of a value of type `s` to type `t`: unchanged when every value of
`s` is a value of `t`, otherwise modulo `2^bits` (implementation-defined for
signed targets in C++11; this is what GCC and Clang define). -/
def conv (s t : ITy) (v : Int) : Int :=
  if t.lo ≤ s.lo ∧ s.hi ≤ t.hi then v else t.wrap v
end ITy

/-- Lane and buffer element types. -/
inductive Elem
  | int (t : ITy)
  | f32
  | f64
  deriving DecidableEq, Repr

namespace Elem
@[reducible] def bits : Elem → Nat
  | int t => t.bits
  | f32 => 32
  | f64 => 64
abbrev s8 : Elem := .int .i8
abbrev u8 : Elem := .int .u8
abbrev s16 : Elem := .int .i16
abbrev u16 : Elem := .int .u16
abbrev s32 : Elem := .int .i32
abbrev u32 : Elem := .int .u32
abbrev s64 : Elem := .int .i64
abbrev u64 : Elem := .int .u64
end Elem

/-! ## Values and expressions -/

/-- The value of a C++ expression together with its type. -/
inductive Val
  | int (t : ITy) (v : Int)
  | f32 (b : BitVec 32)
  | f64 (b : BitVec 64)
  deriving DecidableEq, Repr

/-- Result of integer arithmetic in type `t`: unsigned wraps, signed overflow is
undefined (or wraps, depending on the dialect). -/
def mkInt [Dialect] (t : ITy) (v : Int) : C Val :=
  if t.lo ≤ v ∧ v ≤ t.hi then .ok (.int t v)
  else if t.signed = true ∧ Dialect.wrapv = false then .ub .signedOverflow
  else .ok (.int t (t.wrap v))

/-- Result `v` of a division in type `t` with the quotient `q`: undefined when the quotient does not fit, in every
dialect (the machine's division traps). -/
def mkQuot (t : ITy) (q v : Int) : C Val :=
  if t.lo ≤ q ∧ q ≤ t.hi then .ok (.int t v) else .ub .signedOverflow

/-- Value of an integer object of type `t` with the given representation. -/
def intOfBits (t : ITy) (b : BitVec t.bits) : Int :=
  if t.signed then b.toInt else (b.toNat : Int)

/-- Conversion of a truncated floating-point value to an integer type:
undefined when it does not fit. -/
def truncTo (t : ITy) : Option Int → C Int
  | some v => if t.lo ≤ v ∧ v ≤ t.hi then .ok v else .ub .floatToInt
  | none => .ub .floatToInt

namespace Val

/-- lvalue-to-rvalue conversion of an object representation. -/
def ofBits : (e : Elem) → BitVec e.bits → Val
  | .int t, b => .int t (intOfBits t b)
  | .f32, b => .f32 b
  | .f64, b => .f64 b

/-- Conversion to `float`. -/
def toF32 : Val → BitVec 32
  | int _ v => BitVec.ofNat 32 (Fmt.b32.ofInt v)
  | f32 b => b
  | f64 b => BitVec.ofNat 32 (Fmt.b64.convert .b32 b.toNat)

/-- Conversion to `double`. -/
def toF64 : Val → BitVec 64
  | int _ v => BitVec.ofNat 64 (Fmt.b64.ofInt v)
  | f32 b => BitVec.ofNat 64 (Fmt.b32.convert .b64 b.toNat)
  | f64 b => b

/-- Representation of the value after implicit conversion to the element type
(what an assignment `x = v` stores). -/
def toBits : (e : Elem) → Val → C (BitVec e.bits)
  | .int t, int _ v => .ok (BitVec.ofInt t.bits v)
  | .int t, f32 b => do
    let v ← truncTo t (Fmt.b32.trunc b.toNat)
    .ok (BitVec.ofInt t.bits v)
  | .int t, f64 b => do
    let v ← truncTo t (Fmt.b64.trunc b.toNat)
    .ok (BitVec.ofInt t.bits v)
  | .f32, v => .ok v.toF32
  | .f64, v => .ok v.toF64

/-- Cast or initialisation `(T)v`. -/
def cast : Elem → Val → C Val
  | .int t, int s v => .ok (int t (s.conv t v))
  | .int t, f32 b => do
    let v ← truncTo t (Fmt.b32.trunc b.toNat)
    .ok (int t v)
  | .int t, f64 b => do
    let v ← truncTo t (Fmt.b64.trunc b.toNat)
    .ok (int t v)
  | .f32, v => .ok (f32 v.toF32)
  | .f64, v => .ok (f64 v.toF64)

/-- Binary arithmetic: usual arithmetic conversions, then the operation. -/
def arith (iop : ITy → Int → Int → C Val) (fop : Fmt → Nat → Nat → Nat) :
    Val → Val → C Val
  | int s x, int t y =>
    iop (s.uac t) (s.conv (s.uac t) x) (t.conv (s.uac t) y)
  | f64 x, y => .ok (f64 (BitVec.ofNat 64 (fop .b64 x.toNat y.toF64.toNat)))
  | x, f64 y => .ok (f64 (BitVec.ofNat 64 (fop .b64 x.toF64.toNat y.toNat)))
  | f32 x, y => .ok (f32 (BitVec.ofNat 32 (fop .b32 x.toNat y.toF32.toNat)))
  | x, f32 y => .ok (f32 (BitVec.ofNat 32 (fop .b32 x.toF32.toNat y.toNat)))

section
variable [Dialect]
/-- `x + y` -/
def add : Val → Val → C Val := arith (fun t x y => mkInt t (x + y)) Fmt.add
/-- `x - y` -/
def sub : Val → Val → C Val := arith (fun t x y => mkInt t (x - y)) Fmt.sub
/-- `x * y` -/
def mul : Val → Val → C Val := arith (fun t x y => mkInt t (x * y)) Fmt.mul
/-- `x / y` -/
def div : Val → Val → C Val :=
  arith (fun t x y => if y = 0 then .ub .divByZero else mkQuot t (Int.tdiv x y) (Int.tdiv x y)) Fmt.div

/-- `x >> y` -/
def shr : Val → Val → C Val
  | int s x, int _ y =>
    if 0 ≤ y ∧ y < (s.promote.bits : Int) then
      .ok (int s.promote (x / 2 ^ y.toNat))
    else .ub .shiftAmount
  | _, _ => .ub .illTyped

/-- `x << y`: C++11 with CWG 1457 (a signed result must fit the corresponding
unsigned type, a negative operand is undefined). -/
def shl : Val → Val → C Val
  | int s x, int _ y =>
    if 0 ≤ y ∧ y < (s.promote.bits : Int) then
      if s.promote.signed = true ∧ Dialect.wrapv = false ∧
          (x < 0 ∨ 2 ^ s.promote.bits ≤ x * 2 ^ y.toNat) then .ub .shiftOperand
      else .ok (int s.promote (s.promote.wrap (x * 2 ^ y.toNat)))
    else .ub .shiftAmount
  | _, _ => .ub .illTyped
end

/-- Bitwise operation after the usual arithmetic conversions. -/
def bitop (op : (w : Nat) → BitVec w → BitVec w → BitVec w) : Val → Val → C Val
  | int s x, int t y =>
    .ok (int (s.uac t) (intOfBits (s.uac t)
      (op _ (BitVec.ofInt (s.uac t).bits x) (BitVec.ofInt (s.uac t).bits y))))
  | _, _ => .ub .illTyped
/-- `x & y` -/
def and : Val → Val → C Val := bitop fun _ a b => a &&& b
/-- `x | y` -/
def or : Val → Val → C Val := bitop fun _ a b => a ||| b
/-- `x ^ y` -/
def xor : Val → Val → C Val := bitop fun _ a b => a ^^^ b
/-- `~x` -/
def not : Val → C Val
  | int s x => .ok (int s.promote (intOfBits s.promote (~~~ BitVec.ofInt s.promote.bits x)))
  | _ => .ub .illTyped

/-- Comparison after the usual arithmetic conversions. -/
def cmp (iop : Int → Int → Bool) (fop : Fmt → Nat → Nat → Bool) : Val → Val → Bool
  | int s x, int t y => iop (s.conv (s.uac t) x) (t.conv (s.uac t) y)
  | f64 x, y => fop .b64 x.toNat y.toF64.toNat
  | x, f64 y => fop .b64 x.toF64.toNat y.toNat
  | f32 x, y => fop .b32 x.toNat y.toF32.toNat
  | x, f32 y => fop .b32 x.toF32.toNat y.toNat
/-- `x < y` -/
def lt : Val → Val → Bool := cmp (fun a b => decide (a < b)) Fmt.lt
/-- `x > y` -/
def gt : Val → Val → Bool := cmp (fun a b => decide (b < a)) (fun f a b => f.lt b a)
/-- `x == y` -/
def eq : Val → Val → Bool := cmp (fun a b => decide (a = b)) Fmt.eq
/-- Contextual conversion to `bool`. -/
def truth : Val → Bool
  | int _ v => decide (v ≠ 0)
  | f32 b => !Fmt.b32.eq b.toNat 0
  | f64 b => !Fmt.b64.eq b.toNat 0

/-- `std::min<T>(x, y)`: `y < x ? y : x` -/
def stdMin (e : Elem) (x y : Val) : C Val := do
  let x ← cast e x
  let y ← cast e y
  if lt y x then .ok y else .ok x
/-- `std::max<T>(x, y)`: `x < y ? y : x` -/
def stdMax (e : Elem) (x y : Val) : C Val := do
  let x ← cast e x
  let y ← cast e y
  if lt x y then .ok y else .ok x

/-- The value is an integer. -/
def isInt : Val → Bool
  | int _ _ => true
  | _ => false
/-- Value used as an array index. -/
def idx : Val → Int
  | int _ v => v
  | _ => -1  -- ill-formed in C++
end Val

/-- An `int` or literal used as a value. -/
abbrev vint (v : Int) : Val := .int .i32 v

/-! ## Registers -/

/-- `struct { T val[n]; }` with every lane initialised. -/
@[ext] structure Vec (e : Elem) (n : Nat) where
  lane : Fin n → BitVec e.bits

instance {e n} : GetElem (Vec e n) Nat (BitVec e.bits) (fun _ i => i < n) where
  getElem a i h := a.lane ⟨i, h⟩

/-- `struct { VT val[k]; }` -/
@[ext] structure VecArr (e : Elem) (n k : Nat) where
  reg : Fin k → Vec e n

instance {e n k} : GetElem (VecArr e n k) Nat (Vec e n) (fun _ i => i < k) where
  getElem a i h := a.reg ⟨i, h⟩

/-- `a.val[i]` -/
def Vec.get {e n} (a : Vec e n) (i : Int) : C Val :=
  if h : 0 ≤ i ∧ i < n then .ok (.ofBits e (a.lane ⟨i.toNat, by omega⟩))
  else .ub .outOfBounds

/-- `a.val[j].val[i]` -/
def VecArr.get {e n k} (a : VecArr e n k) (j i : Int) : C Val :=
  if h : 0 ≤ j ∧ j < k then (a.reg ⟨j.toNat, by omega⟩).get i
  else .ub .outOfBounds

/-- A local variable of register type; lanes start uninitialised. -/
def Arr (e : Elem) (n : Nat) := Fin n → Option (BitVec e.bits)

namespace Arr
variable {e : Elem} {n : Nat}
/-- `VT r;` -/
def undef : Arr e n := fun _ => none
/-- `VT r = a;` -/
def ofVec (a : Vec e n) : Arr e n := fun i => some (a.lane i)
/-- `r.val[i]` as an rvalue -/
def get (r : Arr e n) (i : Int) : C Val :=
  if h : 0 ≤ i ∧ i < n then
    match r ⟨i.toNat, by omega⟩ with
    | some b => .ok (.ofBits e b)
    | none => .ub .indeterminateRead
  else .ub .outOfBounds
/-- Write the representation of one lane. -/
def put (r : Arr e n) (i : Fin n) (b : BitVec e.bits) : Arr e n :=
  fun j => if j = i then some b else r j
/-- `r.val[i] = v;` -/
def set (r : Arr e n) (i : Int) (v : Val) : C (Arr e n) :=
  if h : 0 ≤ i ∧ i < n then do
    let b ← v.toBits e
    .ok (r.put ⟨i.toNat, by omega⟩ b)
  else .ub .outOfBounds
/-- `return r;` -/
def ret (r : Arr e n) : C (Vec e n) :=
  if h : ∀ i, (r i).isSome then .ok ⟨fun i => (r i).get (h i)⟩
  else .indet (List.ofFn fun i => (r i).map BitVec.toNat)
end Arr

/-- A local variable of register-array type. -/
def Arr2 (e : Elem) (n k : Nat) := Fin k → Arr e n

namespace Arr2
variable {e : Elem} {n k : Nat}
/-- `VTxK r;` -/
def undef : Arr2 e n k := fun _ _ => none
/-- Write the representation of one lane of one register. -/
def put (r : Arr2 e n k) (j : Fin k) (i : Fin n) (b : BitVec e.bits) : Arr2 e n k :=
  fun j' i' => if j' = j ∧ i' = i then some b else r j' i'
/-- `r.val[j].val[i] = v;` -/
def set (r : Arr2 e n k) (j i : Int) (v : Val) : C (Arr2 e n k) :=
  if h : (0 ≤ j ∧ j < k) ∧ 0 ≤ i ∧ i < n then do
    let b ← v.toBits e
    .ok (r.put ⟨j.toNat, by omega⟩ ⟨i.toNat, by omega⟩ b)
  else .ub .outOfBounds
/-- `return r;` -/
def ret (r : Arr2 e n k) : C (VecArr e n k) :=
  if h : ∀ j i, (r j i).isSome then .ok ⟨fun j => ⟨fun i => (r j i).get (h j i)⟩⟩
  else .indet ((List.ofFn fun j => List.ofFn fun i => (r j i).map BitVec.toNat).flatten)
end Arr2

/-! ## Pointers -/

/-- A pointer into a buffer of elements, some of which may be uninitialised.
Simplification: the buffer has the pointer's element type. -/
@[ext] structure Ptr (e : Elem) where
  buf : List (Option (BitVec e.bits))
  off : Nat

namespace Ptr
variable {e : Elem}
/-- `ptr[i]` as an rvalue -/
def get (p : Ptr e) (i : Int) : C Val :=
  if 0 ≤ p.off + i then
    match p.buf[(p.off + i).toNat]? with
    | some (some b) => .ok (.ofBits e b)
    | some none => .ub .indeterminateRead
    | none => .ub .outOfBounds
  else .ub .outOfBounds
/-- `ptr[i] = v;` -/
def set (p : Ptr e) (i : Int) (v : Val) : C (Ptr e) :=
  if 0 ≤ p.off + i ∧ p.off + i < p.buf.length then do
    let b ← v.toBits e
    .ok { p with buf := p.buf.set (p.off + i).toNat (some b) }
  else .ub .outOfBounds
end Ptr

/-! ## Loops -/

/-- `n` iterations. -/
def iter {σ : Type} (body : Nat → σ → C σ) : Nat → σ → C σ
  | 0, s => .ok s
  | n + 1, s => do
    let s ← iter body n s
    body n s

/-- `for (int i = lo; i < hi; i += step) s = body(i, s);` with `step > 0`, as the
iteration of the body `ceil((hi - lo) / step)` times.  `cfor_unfold` (in
`Verif/Lemmas.lean`) proves the C unfolding of the loop. -/
def cfor {σ : Type} (lo hi step : Int) (s : σ) (body : Int → σ → C σ) : C σ :=
  iter (fun k => body (lo + k * step)) ((hi - lo + step - 1) / step).toNat s

/-! ## `memcpy` between registers -/

/-- The little-endian byte image of `n` lanes of width `w`, as one number. -/
def imageOf {w : Nat} : (n : Nat) → (Fin n → BitVec w) → Nat
  | 0, _ => 0
  | n + 1, a => (a 0).toNat + 2 ^ w * imageOf n (fun i => a i.succ)

/-- `memcpy(&r.val, &a.val, bytes);` where `r` is a local register.
Simplification: the lanes of `r` that are only partly covered do not occur
(every call copies the whole register); bytes outside either object are out of
bounds. -/
def memcpyVec {e e' : Elem} {n m : Nat} (r : Arr e' m) (a : Vec e n) (bytes : Nat) :
    C (Arr e' m) :=
  if bytes * 8 ≤ n * e.bits ∧ bytes * 8 ≤ m * e'.bits then
    .ok fun i =>
      if (i.val + 1) * e'.bits ≤ bytes * 8 then
        some (BitVec.ofNat e'.bits (imageOf n a.lane / 2 ^ (i.val * e'.bits)))
      else r i
  else .ub .outOfBounds

end Verif
