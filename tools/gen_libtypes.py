#!/usr/bin/env python3
"""Verif/Props/LibraryTypes.lean from Verif/Props/Library.lean: the literals of every function of the library fit their types."""
import re
lib = open('/verif/lean/Verif/Props/Library.lean').read()
out = '''import Verif.Props.Library
import Verif.Props.InterpTypes

/-! Property C94, continued: the types of the functions of the library (generated by `tools/gen_libtypes.py`). -/

namespace Verif.Props
open Verif.Cpp

/-- The integer literals in the text of a function are values of their types. -/
def TextFits : Text → Prop
  | .fn s => ∃ d, parse s.toList = some d ∧ litsF d = true
  | .unit s => ∃ u, parseUnit s.toList = some u ∧ litsU u = true

'''
parts = re.findall(r"theorem library(\d+)_defines .*?\n\n", lib, re.S)
for m in re.finditer(r"theorem library(\d+)_defines .*?\n\n", lib, re.S):
    s = m.group(0).replace("_defines", "_fits").replace("e.2.Defines e.1", "TextFits e.2")
    s = re.sub(r"⟨_, (Source\.\w+_parse), _, [^⟩]*⟩", r"⟨_, \1, rfl⟩", s)
    out += s
out += '''/-- The integer literals of the library are values of their types. -/
theorem library_fits : ∀ e ∈ library, TextFits e.2 := by
  intro e he
  unfold library at he
  simp only [List.mem_append] at he
  rcases he with (((((((he | he) | he) | he) | he) | he) | he) | he) | he
''' + "".join(f"  · exact library{i}_fits e he\n" for i in range(9)) + '''
theorem text_mem {f : Nat} {t : Text} : ∀ {l : List (Nat × Text)}, l.lookup f = some t → (f, t) ∈ l
  | [], h => by cases h
  | (g, s) :: l, h => by
    rw [List.lookup_cons] at h
    split at h
    · rename_i e
      cases h
      rw [eq_of_beq e]
      exact List.mem_cons_self ..
    · exact List.mem_cons_of_mem _ (text_mem h)

/-- What a call of a function of the library returns is an object of the type that its definition declares, and every
number in it is a value of that type. -/
theorem called_types [Dialect] (f : Nat) (args : List Obj) (ha : ∀ o ∈ args, Typed o) (o : Obj) (h : Called f args (.ok o)) :
    ∃ t, library.lookup f = some t ∧
      match t with
      | .fn s => ∃ d, parse s.toList = some d ∧ (d.ret ≠ .void → o.ty = d.ret ∧ Typed o)
      | .unit s => ∃ u, parseUnit s.toList = some u ∧ ∃ d ∈ u.funcs, d.name = f ∧ (d.ret ≠ .void → o.ty = d.ret ∧ Typed o) := by
  obtain ⟨t, ht, h⟩ := h
  refine ⟨t, ht, ?_⟩
  have hfit := library_fits _ (text_mem ht)
  cases t with
  | fn s =>
    obtain ⟨d, hd, hl⟩ := hfit
    obtain ⟨d', hd', n, hn⟩ := h
    rw [hd] at hd'
    cases hd'
    exact ⟨d, hd, fun hv => function_types d hl hv n args ha o (hn n (Nat.le_refl _))⟩
  | unit s =>
    obtain ⟨u, hu, hl⟩ := hfit
    obtain ⟨u', hu', n, hn⟩ := h
    rw [hu] at hu'
    cases hu'
    exact ⟨u, hu, unit_function_types u hl f n args ha o (hn n (Nat.le_refl _))⟩

/-- The arguments that the theorems on the library use are typed. -/
theorem arguments_typed {e : Elem} {n k : Nat} (a : Vec e n) (r : VecArr e n k) (b : BitVec e.bits) (p : Ptr e) (i : Int)
    (hi : -2147483648 ≤ i ∧ i ≤ 2147483647) :
    Typed (.ofVec a) ∧ Typed (.ofVecArr r) ∧ Typed (.ofScalar e b) ∧ Typed (.ofPtr p) ∧ Typed (.ofInt i) :=
  ⟨trivial, trivial, yields_ofBits e b, trivial, rfl, inRange_int hi.1 hi.2⟩

end Verif.Props
'''
open('/verif/lean/Verif/Props/LibraryTypes.lean', 'w').write(out)
