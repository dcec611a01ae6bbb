import Verif.Cpp.Syntax

/-!
# Tokens of C++11

The lexical rules of the standard ([lex.pptoken], [lex.comment], [lex.name], [lex.literal]) as relations on texts, for
the tokens of the subset.  A text is the list of its character codes.  Only the type `Tok` of `Cpp/Syntax` is used.
Trigraphs and line splices are not part of it (a backslash occurs in no comment and only before `n`, `"` and `\` in a
string).
-/

namespace Verif.SpecLex
open Verif.Cpp (Tok)

/-- `c!"abc"`: the character codes. -/
scoped macro:max "c!" noWs s:str : term => do
  let cs := s.getString.toList.toArray.map fun c => Lean.Syntax.mkNumLit (toString c.toNat)
  `([$cs,*])

def Letter (c : Nat) : Prop := (97 ≤ c ∧ c ≤ 122) ∨ (65 ≤ c ∧ c ≤ 90) ∨ c = 95
def Digit (c : Nat) : Prop := 48 ≤ c ∧ c ≤ 57
def Space (c : Nat) : Prop := c = 32 ∨ c = 9 ∨ c = 10 ∨ c = 13

/-- [lex.operators]: all operators and punctuators, `#` and `##`. -/
def punctuators : List (List Nat) :=
  [c!"{", c!"}", c!"[", c!"]", c!"#", c!"##", c!"(", c!")", c!"<:", c!":>", c!"<%", c!"%>", c!"%:", c!"%:%:", c!";",
   c!":", c!"...", c!"?", c!"::", c!".", c!".*", c!"+", c!"-", c!"*", c!"/", c!"%", c!"^", c!"&", c!"|", c!"~", c!"!",
   c!"=", c!"<", c!">", c!"+=", c!"-=", c!"*=", c!"/=", c!"%=", c!"^=", c!"&=", c!"|=", c!"<<", c!">>", c!">>=",
   c!"<<=", c!"==", c!"!=", c!"<=", c!">=", c!"&&", c!"||", c!"++", c!"--", c!",", c!"->*", c!"->"]

/-- [lex.ppnumber] -/
inductive Number : List Nat → Prop
  | digit (d) : Digit d → Number [d]
  | point (d) : Digit d → Number [46, d]
  | more (l c) : Number l → Digit c ∨ Letter c ∨ c = 46 → Number (l ++ [c])
  | exp (l e s) : Number l → e = 101 ∨ e = 69 → s = 43 ∨ s = 45 → Number (l ++ [e, s])

/-- Between the quotes `q` of a literal. -/
inductive Body (q : Nat) : List Nat → Prop
  | nil : Body q []
  | char (c l) : c ≠ q → c ≠ 92 → c ≠ 10 → Body q l → Body q (c :: l)
  | esc (c l) : c ≠ 10 → Body q l → Body q (92 :: c :: l)

/-- [lex.name] -/
def Name : List Nat → Prop
  | c :: l => Letter c ∧ ∀ d ∈ l, Letter d ∨ Digit d
  | [] => False

/-- [lex.pptoken]: the texts that are a token of C++ or the beginning of a comment.  What begins with a name directly
before a quotation mark is a literal with a prefix, or a raw string. -/
inductive Munch : List Nat → Prop
  | name (l) : Name l → Munch l
  | number (l) : Number l → Munch l
  | punct (l) : l ∈ punctuators → Munch l
  | comment (l) : l = c!"//" ∨ l = c!"/*" → Munch l
  | literal (q l s) : q = 34 ∨ q = 39 → Body q l → s = [] ∨ Name s → Munch (q :: l ++ q :: s)
  | prefixed (p q l) : Name p → q = 34 ∨ q = 39 → Munch (p ++ q :: l)

/-- A number from its digits. -/
def value (base : Nat) (ds : List Nat) : Nat := ds.foldl (fun n d => n * base + d) 0

/-- Digits and their values. -/
inductive Digits : List Nat → List Nat → Prop
  | nil : Digits [] []
  | cons (d l ds) : d < 10 → Digits l ds → Digits ((48 + d) :: l) (d :: ds)

/-- Hexadecimal digits and their values. -/
inductive HexDigits : List Nat → List Nat → Prop
  | nil : HexDigits [] []
  | digit (d l ds) : d < 10 → HexDigits l ds → HexDigits ((48 + d) :: l) (d :: ds)
  | lower (d l ds) : d < 6 → HexDigits l ds → HexDigits ((97 + d) :: l) ((10 + d) :: ds)
  | upper (d l ds) : d < 6 → HexDigits l ds → HexDigits ((65 + d) :: l) ((10 + d) :: ds)

/-- The characters that the text between the quotes of a string denotes. -/
inductive Chars : List Nat → List Nat → Prop
  | nil : Chars [] []
  | char (c l cs) : c ≠ 34 → c ≠ 92 → c ≠ 10 → c < 128 → Chars l cs → Chars (c :: l) (c :: cs)
  | newline (l cs) : Chars l cs → Chars (92 :: 110 :: l) (10 :: cs)
  | quote (l cs) : Chars l cs → Chars (92 :: 34 :: l) (34 :: cs)
  | backslash (l cs) : Chars l cs → Chars (92 :: 92 :: l) (92 :: cs)

/-- A decimal number, without leading zeros. -/
def Decimal (l : List Nat) (n : Nat) : Prop :=
  ∃ d ds, Digits l (d :: ds) ∧ (d = 0 → ds = []) ∧ n = value 10 (d :: ds)

/-- The token that a text is.  Names and operators are numbers: their characters as base-256 digits. -/
inductive Lexeme : List Nat → Tok → Prop
  | name (l) : Name l → Lexeme l (.id (value 256 l))
  | decimal (l n) : Decimal l n → Lexeme l (.num n)
  | hex (l d ds) : HexDigits l (d :: ds) → Lexeme (c!"0x" ++ l) (.hex (value 16 (d :: ds)))
  | real (l n) : Decimal l n → Lexeme (l ++ c!".0") (.dbl n)
  | string (l cs) : Chars l cs → Lexeme (c!"\"" ++ l ++ c!"\"") (.str cs)
  | char (c) : c ≠ 39 → c ≠ 92 → c ≠ 10 → c < 128 → Lexeme (c!"'" ++ [c] ++ c!"'") (.chr c)
  | punct (l) : l ∈ punctuators → Lexeme l (.op (value 256 l))

/-- The tokens of a text: white space and comments are left out, and every token is the longest possible. -/
inductive Lexes : List Nat → List Tok → Prop
  | nil : Lexes [] []
  | space (c cs ts) : Space c → Lexes cs ts → Lexes (c :: cs) ts
  | comment (l cs ts) : 10 ∉ l → 92 ∉ l → Lexes cs ts → Lexes (c!"//" ++ l ++ 10 :: cs) ts
  | token (l t cs ts) : Lexeme l t → (∀ l', l' <+: l ++ cs → Munch l' → l'.length ≤ l.length) → Lexes cs ts →
      Lexes (l ++ cs) (t :: ts)

end Verif.SpecLex
