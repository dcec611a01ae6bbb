#!/usr/bin/env python3
"""Writes Verif/Props/BoolAlgebra.lean (C85): the bitwise intrinsics form a Boolean algebra."""
import re
T = {"s8": ("int8x8_t", 8), "s16": ("int16x4_t", 16), "s32": ("int32x2_t", 32), "s64": ("int64x1_t", 64),
     "u8": ("uint8x8_t", 8), "u16": ("uint16x4_t", 16), "u32": ("uint32x2_t", 32), "u64": ("uint64x1_t", 64)}
def q(t):
    m = re.match(r"(u?int\d+x)(\d+)_t", t)
    return f"{m[1]}{int(m[2])*2}_t"
defined = set(re.findall(r"theorem (v\w+)_spec", open("/verif/lean/Verif/Props/Logic.lean").read()))
O = ['''/-
C85: the bitwise intrinsics form a Boolean algebra.  Generated by `tools/gen_algebra.py`.
-/
import Verif.Props.Logic
import Verif.Props.Select

namespace Verif.Props
open Verif.Model
variable [Dialect]

theorem vec_ok {e : Elem} {n : Nat} {f g : Fin n → BitVec e.bits} (h : ∀ i, f i = g i) :
    (C.ok ⟨f⟩ : C (Vec e n)) = .ok ⟨g⟩ := by rw [funext h]
theorem vec_ok' {e : Elem} {n : Nat} {f : Fin n → BitVec e.bits} {a : Vec e n} (h : ∀ i, f i = a.lane i) :
    (C.ok ⟨f⟩ : C (Vec e n)) = .ok a := by rw [funext h]
''']
for Q in ("", "q"):
    for s, (ty, w) in T.items():
        if Q: ty = q(ty)
        A, R, X, N = (f"v{o}{Q}_{s}" for o in ("and", "orr", "eor", "mvn"))
        def th(doc, name, args, lhs, rhs, fs, proof, vec="vec_ok"):
            if any(f not in defined for f in fs): return
            O.append(f"/-- {doc} -/\ntheorem {name} ({args} : {ty}) :\n    {lhs} =\n      {rhs} := by\n  simp only [{', '.join(f + '_spec' for f in fs)}, ok_bind]\n  exact {vec} fun i => {proof}\n")
        for f, op, L in ((A, "&&&", "and"), (R, "|||", "or"), (X, "^^^", "xor")):
            th("Commutative.", f"{f}_comm", "a b", f"{f} a b", f"{f} b a", [f], f"BitVec.{L}_comm _ _")
            th("Associative.", f"{f}_assoc", "a b c", f"(do let t ← {f} a b; {f} t c)", f"(do let t ← {f} b c; {f} a t)", [f], f"BitVec.{L}_assoc _ _ _")
        for f, L in ((A, "and"), (R, "or")):
            th("Idempotent.", f"{f}_self", "a", f"{f} a a", ".ok a", [f], f"BitVec.{L}_self", "vec_ok'")
        th("A register exclusive-or itself is zero.", f"{X}_self", "a", f"{X} a a", ".ok ⟨fun _ => 0⟩", [X], "BitVec.xor_self")
        z = "⟨fun _ => 0⟩"; o = "⟨fun _ => -1⟩"
        th("Zero annihilates.", f"{A}_zero", "a", f"{A} a {z}", f".ok {z}", [A], "BitVec.and_zero")
        th("All ones are neutral.", f"{A}_ones", "a", f"{A} a {o}", ".ok a", [A], "by bit_ext", "vec_ok'")
        th("Zero is neutral.", f"{R}_zero", "a", f"{R} a {z}", ".ok a", [R], "BitVec.or_zero", "vec_ok'")
        th("All ones absorb.", f"{R}_ones", "a", f"{R} a {o}", f".ok {o}", [R], "by bit_ext")
        th("Zero is neutral.", f"{X}_zero", "a", f"{X} a {z}", ".ok a", [X], "BitVec.xor_zero", "vec_ok'")
        th("Absorption.", f"{A}_{R}_absorb", "a b", f"(do let t ← {R} a b; {A} a t)", ".ok a", [A, R], "by bit_ext", "vec_ok'")
        th("Absorption.", f"{R}_{A}_absorb", "a b", f"(do let t ← {A} a b; {R} a t)", ".ok a", [R, A], "by bit_ext", "vec_ok'")
        for f, g in ((A, R), (R, A), (A, X)):
            th("Distributive.", f"{f}_{g}_distrib", "a b c", f"(do let t ← {g} b c; {f} a t)", f"(do let t ← {f} a b; let u ← {f} a c; {g} t u)", [f, g], "by bit_ext")
        th("Complement.", f"{A}_{N}", "a", f"(do let t ← {N} a; {A} a t)", f".ok {z}", [A, N], "by bit_ext")
        th("Complement.", f"{R}_{N}", "a", f"(do let t ← {N} a; {R} a t)", f".ok {o}", [R, N], "by bit_ext")
        th("Exclusive or is the union without the intersection.", f"{X}_{A}_{R}", "a b", f"{X} a b",
           f"(do let t ← {R} a b; let u ← {A} a b; let v ← {N} u; {A} t v)", [X, A, R, N], "by bit_ext")
        th("Exclusive or with all ones is the complement.", f"{X}_{N}", "a", f"{X} a {o}", f"{N} a", [X, N], "by bit_ext")
ty = "uint8x16_t"
O.append(f'''/-- Selection is made of the others. -/
theorem vbslq_u8_vandq_vorrq (m a b : {ty}) :
    vbslq_u8 m a b = (do let t ← vandq_u8 m a; let n ← vmvnq_u8 m; let u ← vandq_u8 n b; vorrq_u8 t u) := by
  simp only [vbslq_u8_spec, vandq_u8_spec, vmvnq_u8_spec, vorrq_u8_spec, ok_bind]
/-- Exchanging the operands is complementing the mask. -/
theorem vbslq_u8_mvn (m a b : {ty}) :
    (do let n ← vmvnq_u8 m; vbslq_u8 n a b) = vbslq_u8 m b a := by
  simp only [vbslq_u8_spec, vmvnq_u8_spec, ok_bind]
  exact vec_ok fun i => by bit_ext
/-- Selecting between equal operands is that operand, whatever the mask. -/
theorem vbslq_u8_self (m a : {ty}) : vbslq_u8 m a a = .ok a := by
  simp only [vbslq_u8_spec]
  exact vec_ok' fun i => by bit_ext
/-- The exclusive-or form of selection. -/
theorem vbslq_u8_veorq (m a b : {ty}) :
    vbslq_u8 m a b = (do let t ← veorq_u8 a b; let u ← vandq_u8 t m; veorq_u8 u b) := by
  simp only [vbslq_u8_spec, vandq_u8_spec, veorq_u8_spec, ok_bind]
  exact vec_ok fun i => by bit_ext

end Verif.Props''')
s = "\n".join(O) + "\n"
s = s.replace("variable [Dialect]\n", '''variable [Dialect]

theorem getLsbD_ones {w j : Nat} (h : j < w) : (-1 : BitVec w).getLsbD j = true := by
  rw [show (-1 : BitVec w) = BitVec.allOnes w from BitVec.neg_one_eq_allOnes, BitVec.getLsbD_allOnes]; exact decide_eq_true h

/-- Equality of bit strings, bit by bit. -/
macro "bit_ext" : tactic => `(tactic| (
  apply BitVec.eq_of_getLsbD_eq
  intro j hj
  simp only [getLsbD_ones hj, BitVec.getLsbD_and, BitVec.getLsbD_or, BitVec.getLsbD_xor, BitVec.getLsbD_not, BitVec.getLsbD_zero, hj, decide_true, Bool.true_and]
  try grind))
''', 1)
open("/verif/lean/Verif/Props/BoolAlgebra.lean", "w").write(s)
