#!/usr/bin/env python3
"""The repository's own tests as programs of the model -> lean/Verif/Model/TestSuite.lean"""
import glob, re, struct, os
VT = re.compile(r"^(u?int|float)(\d+)x(\d+)(?:x(\d+))?_t$")
def num(t, s):
    s = s.strip()
    if t.startswith("float"): return "0x%08x" % struct.unpack("<I", struct.pack("<f", float(s)))[0]
    return f"({int(s)})" if s.startswith("-") else s
out = ["""import Verif.Model.Add
import Verif.Model.Sub
import Verif.Model.Mul
import Verif.Model.Move
import Verif.Model.Convert
import Verif.Model.Perm
import Verif.Model.Rest
import Verif.Model.Logic
import Verif.Model.Shift
import Verif.Model.Load
import Verif.Model.Store
import Verif.Model.Recip
import Verif.Model.TestUtil
import Verif.Model.UtestCompare

/-! The tests of the repository (`tests/test_*.cpp`) as programs of the model: each calls the intrinsics, compares with `almostEqual`
(`tests/test_util.hpp`) and checks with the macros of `tests/utest.h`.  Generated by `tools/gen_suite.py`.  Simplification: the calls
of `almostEqual` of a test, which change nothing, come before its checks. -/

namespace Verif.TestSuite
open Verif.Model Verif.Utest

/-- A register from the list of its lanes (`tests/test_vadd.cpp:5`). -/
def vec {e n} (l : List Int) : Vec e n := ⟨fun i => BitVec.ofInt _ (l.getD i 0)⟩
/-- A pointer to the start of an array (`tests/test_vld.cpp:5`). -/
def arr {e} (l : List Int) : Ptr e := ⟨l.map fun v => some (BitVec.ofInt _ v), 0⟩
/-- The elements of a `std::vector<float>` (`tests/test_vst.cpp:6`). -/
def elements (p : Ptr .f32) : C (List (BitVec 32)) := p.buf.mapM fun | some b => .ok b | none => .ub .indeterminateRead

/-- `EXPECT_TRUE(almostEqual(...))` at a place of the sources, when `almostEqual` gave `r` (`tests/utest.h:609-619`). -/
def expectTrue (place : String) (r : Option Report) : Stmt Unit := .check false true place.toList fun w => (w, r.isNone)
/-- `EXPECT_EQ(expected, actual)` of two `float`s (`tests/utest.h:633`). -/
def expectEq (place : String) (x y : BitVec 32) : C (Stmt Unit) := do
  .ok (textStmt false place.toList (← COMPARE .eq "expected".toList "actual".toList (.f32 x) (.f32 y)))

variable [Dialect]
"""]
n = 0; names = []
for p in sorted(glob.glob("/repo/tests/test_*.cpp")):
    t = open(p).read(); t = re.sub(r"//[^\n]*", "", t); base = os.path.basename(p)
    for m in re.finditer(r"TEST\((\w+), (\w+)\)\s*\{(.*?)\n\}", t, re.S):
        body = m[3]; S = []; C = []; places = [t[:m.start(3) + x.start()].count("\n") + 1 for x in re.finditer("EXPECT_", body)]; blocks = re.findall(r"\n    \{(.*?)\n    \}", body, re.S) or [body]
        for bi, b in enumerate(blocks):
            L, ty, checks, tup = [], {}, [], {}
            def ex(s):
                s = s.strip()
                c = re.match(r"^(\w+)\((.*)\)$", s)
                if c:
                    a, d, cur = [], 0, ""
                    for ch in c[2]:
                        if ch == "," and d == 0: a.append(cur); cur = ""; continue
                        d += ch == "("; d -= ch == ")"; cur += ch
                    a.append(cur)
                    def fl(x):
                        x = x.strip()
                        if re.match(r"^-?\d+\.\d+$", x): return num("float", x) + "#32"
                        if re.match(r"^-?\d+$", x): return f"({x})" if "_n_" not in c[1] or not re.match(r"v(dup|mov)", c[1]) else f"(BitVec.ofInt _ ({x}))"
                        r = ex(x)
                        return f"(← {r})" if "(" in x and not x.endswith(".data()") else r
                    return c[1] + " " + " ".join(fl(x) for x in a)
                v = re.match(r"^(\w+)\.val\[(\d)\]$", s)
                if v: return f"({v[1]}.reg {v[2]})"
                return s.replace(".data()", "").replace("&", "")
            for st in [x.strip() for x in b.split(";") if x.strip()]:
                st = re.sub(r"\s+", " ", st)
                if mm := re.match(r"EXPECT_TRUE\(almostEqual\((\w+), (\w+)\)\)$", st): checks.append((mm[1], mm[2]))
                elif mm := re.match(r"EXPECT_EQ\((\w+), (\w+)\)$", st): checks.append((mm[1], mm[2], "eq"))
                elif mm := re.match(r"std::vector<float> (\w+) = \{(.*)\}$", st):
                    ty[mm[1]] = "arr"; L.append(f"let {mm[1]} : Ptr .f32 := arr [{', '.join(num('float', x) for x in mm[2].split(','))}]")
                elif mm := re.match(r"std::vector<float> (\w+)\((\d)\)$", st):
                    ty[mm[1]] = "arr"; L.append(f"let {mm[1]} : Ptr .f32 := arr [{', '.join(['0'] * int(mm[2]))}]")
                elif mm := re.match(r"(uint8_t|float) (\w+)\[\d?\] = \{(.*)\}$", st):
                    k = {"uint8_t": ".u8", "float": ".f32"}[mm[1]]
                    L.append(f"let {mm[2]} : Ptr {k} := arr [{', '.join(num(mm[1], x) for x in mm[3].split(','))}]")
                elif mm := re.match(r"(\w+) = ?$", st): raise Exception(st)
                elif mm := re.match(r"(\w+)\.val\[(\d)\] = (\w+)\{(.*)\}$", st):
                    tup.setdefault(mm[1], {})[int(mm[2])] = f"vec [{', '.join(num(mm[3], x) for x in mm[4].split(','))}]"
                    if len(tup[mm[1]]) == 2: L.append(f"let {mm[1]} : {ty[mm[1]]} := ⟨fun j => if j = 0 then {tup[mm[1]][0]} else {tup[mm[1]][1]}⟩")
                elif mm := re.match(r"(\w+x\w+_t) (\w+)$", st): ty[mm[2]] = mm[1]
                elif mm := re.match(r"(\w+) (\w+) = \{(.*)\}$", st):
                    ty[mm[2]] = mm[1]
                    if VT.match(mm[1])[4]: L.append(f"let {mm[2]} : {mm[1]} := ⟨fun j => [{mm[3].strip()}].getD j {mm[3].split(',')[0].strip()}⟩")
                    else: L.append(f"let {mm[2]} : {mm[1]} := vec [{', '.join(num(mm[1], x) for x in mm[3].split(','))}]")
                elif mm := re.match(r"(float|float32_t|int16_t) (\w+) = (-?[\d.]+)$", st):
                    ty[mm[2]] = mm[1]; w = 16 if mm[1] == "int16_t" else 32
                    if mm[2] == "val": L.append(f"let val : Ptr .f32 := arr [{num(mm[1], mm[3])}]")
                    else: L.append(f"let {mm[2]} : BitVec {w} := {num(mm[1], mm[3])}#{w}")
                elif mm := re.match(r"(\w+) (\w+) = (.*)$", st):
                    ty[mm[2]] = mm[1]; e = ex(mm[3])
                    L.append(f"let {mm[2]} {'←' if '(' in mm[3] else ':='} {e}")
                elif mm := re.match(r"(vst\w+)\((\w+)\.data\(\), (.*)\)$", st):
                    L.append(f"let {mm[2]} ← {mm[1]} {mm[2]} {' '.join(x.strip() for x in mm[3].split(','))}")
                else: raise Exception(st)
            for c in checks:
                k = len(C); pl = f'"tests/{base}:{places[k]}"'; C.append(f"c{k}")
                if len(c) == 3: L.append(f"let c{k} ← expectEq {pl} {c[0]} {c[1]}"); continue
                t0 = ty[c[0]]
                if t0 == "arr": e = f"almostEqual_vec (← elements {c[0]}) (← elements {c[1]}) 0#64"
                else:
                    v = VT.match(t0); o = {"uint": "u", "int": "s", "float": "f"}[v[1]] + v[2] + "x" + v[3]
                    e = f"almostEqual_{o}x{v[4]} {c[0]} {c[1]}" if v[4] else f"almostEqual_{o} {c[0]} {c[1]} 0#64"
                L.append(f"let c{k} := expectTrue {pl} (← {e})")
            S += L
        lo, hi = t[:m.start()].count("\n") + 1, t[:m.end()].count("\n") + 1
        S.append(f"pure [{', '.join(C)}]")
        names.append((m[1], m[2]))
        out.append(f"/-- `tests/{base}:{lo}-{hi}`: `TEST({m[1]}, {m[2]})` -/\ndef test_{m[1]}_{m[2]} : C (List (Stmt Unit)) := do\n  " + "\n  ".join(S) + "\n"); n += 1
out.append("/-- All tests, with their names (`tests/utest.h:921`). -/\ndef suite : List (Str × C (List (Stmt Unit))) := [\n  " + ",\n  ".join(f'("{a}.{b}".toList, test_{a}_{b})' for a, b in names) + "]\n")
out.append("""/-- The function of a test (`tests/utest.h:915-918`): if its code does not end, or has undefined behaviour, the process counts as dead. -/
def run (body : C (List (Stmt Unit))) (index : Nat) (w : Unit) : Ended Unit :=
  match body with
  | .ok stmts => utest stmts index w
  | _ => .dies

/-- The initializers of the tests run in the given order (`tests/utest.h:919-935`). -/
def registered (cases : List (Str × C (List (Stmt Unit)))) : List (Test Unit) :=
  cases.foldl (fun tests c => register c.1 (run c.2) tests) []
""")
out.append("end Verif.TestSuite")
open("/verif/lean/Verif/Model/TestSuite.lean", "w").write("\n".join(out) + "\n")
print(n, "tests")
