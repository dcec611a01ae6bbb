#!/usr/bin/env python3
"""The repository's own tests, run on the model -> lean/Verif/Conformance.lean"""
import glob, re, struct, os
VT = re.compile(r"^(u?int|float)(\d+)x(\d+)(?:x(\d+))?_t$")
def num(t, s):
    s = s.strip()
    if t.startswith("float"): return "0x%08x" % struct.unpack("<I", struct.pack("<f", float(s)))[0]
    return f"({int(s)})" if s.startswith("-") else s
out = ["""import Verif.Model.Add
import Verif.Model.Sub
import Verif.Model.Mul
import Verif.Model.Move
import Verif.Model.Convert
import Verif.Model.Perm
import Verif.Model.Rest
import Verif.Model.Logic
import Verif.Model.Shift
import Verif.Model.Load
import Verif.Model.Store
import Verif.Model.Recip

/-! The tests of the repository (`tests/test_*.cpp`) run on the model.

These examples are not proofs of any property: they check that the model gives the results that the authors of the
code expect of it.  `almostEqual` with its default tolerance 0 is bitwise equality here (no test has a NaN or a
signed zero).  Generated by `tools/gen_conf.py`. -/

namespace Verif.Conformance
open Verif.Model

/-- Standard C++11 overflow rules. -/
local instance : Dialect := ⟨false⟩

/-- A register from the list of its lanes. -/
def vec {e n} (l : List Int) : Vec e n := ⟨fun i => BitVec.ofInt _ (l.getD i 0)⟩
/-- A pointer to the start of an array. -/
def arr {e} (l : List Int) : Ptr e := ⟨l.map fun v => some (BitVec.ofInt _ v), 0⟩
def same {e n} (a b : Vec e n) : Bool := (List.finRange n).all fun i => a.lane i == b.lane i
def same2 {e n k} (a b : VecArr e n k) : Bool := (List.finRange k).all fun j => same (a.reg j) (b.reg j)
def pass : C Bool → Bool
  | .ok b => b
  | _ => false
"""]
n = 0
for p in sorted(glob.glob("/repo/tests/test_*.cpp")):
    t = open(p).read(); t = re.sub(r"//[^\n]*", "", t)
    for m in re.finditer(r"TEST\((\w+), (\w+)\)\s*\{(.*?)\n\}", t, re.S):
        body = m[3]; blocks = re.findall(r"\n    \{(.*?)\n    \}", body, re.S) or [body]
        for bi, b in enumerate(blocks):
            L, ty, checks, tup = [], {}, [], {}
            def ex(s):
                s = s.strip()
                c = re.match(r"^(\w+)\((.*)\)$", s)
                if c:
                    a, d, cur = [], 0, ""
                    for ch in c[2]:
                        if ch == "," and d == 0: a.append(cur); cur = ""; continue
                        d += ch == "("; d -= ch == ")"; cur += ch
                    a.append(cur)
                    def fl(x):
                        x = x.strip()
                        if re.match(r"^-?\d+\.\d+$", x): return num("float", x) + "#32"
                        if re.match(r"^-?\d+$", x): return f"({x})" if "_n_" not in c[1] or not re.match(r"v(dup|mov)", c[1]) else f"(BitVec.ofInt _ ({x}))"
                        r = ex(x)
                        return f"(← {r})" if "(" in x and not x.endswith(".data()") else r
                    return c[1] + " " + " ".join(fl(x) for x in a)
                v = re.match(r"^(\w+)\.val\[(\d)\]$", s)
                if v: return f"({v[1]}.reg {v[2]})"
                return s.replace(".data()", "").replace("&", "")
            for st in [x.strip() for x in b.split(";") if x.strip()]:
                st = re.sub(r"\s+", " ", st)
                if mm := re.match(r"EXPECT_TRUE\(almostEqual\((\w+), (\w+)\)\)$", st): checks.append((mm[1], mm[2]))
                elif mm := re.match(r"EXPECT_EQ\((\w+), (\w+)\)$", st): checks.append((mm[1], mm[2], "eq"))
                elif mm := re.match(r"std::vector<float> (\w+) = \{(.*)\}$", st):
                    ty[mm[1]] = "arr"; L.append(f"let {mm[1]} : Ptr .f32 := arr [{', '.join(num('float', x) for x in mm[2].split(','))}]")
                elif mm := re.match(r"std::vector<float> (\w+)\((\d)\)$", st):
                    ty[mm[1]] = "arr"; L.append(f"let {mm[1]} : Ptr .f32 := arr [{', '.join(['0'] * int(mm[2]))}]")
                elif mm := re.match(r"(uint8_t|float) (\w+)\[\d?\] = \{(.*)\}$", st):
                    k = {"uint8_t": ".u8", "float": ".f32"}[mm[1]]
                    L.append(f"let {mm[2]} : Ptr {k} := arr [{', '.join(num(mm[1], x) for x in mm[3].split(','))}]")
                elif mm := re.match(r"(\w+) = ?$", st): raise Exception(st)
                elif mm := re.match(r"(\w+)\.val\[(\d)\] = (\w+)\{(.*)\}$", st):
                    tup.setdefault(mm[1], {})[int(mm[2])] = f"vec [{', '.join(num(mm[3], x) for x in mm[4].split(','))}]"
                    if len(tup[mm[1]]) == 2: L.append(f"let {mm[1]} : {ty[mm[1]]} := ⟨fun j => if j = 0 then {tup[mm[1]][0]} else {tup[mm[1]][1]}⟩")
                elif mm := re.match(r"(\w+x\w+_t) (\w+)$", st): ty[mm[2]] = mm[1]
                elif mm := re.match(r"(\w+) (\w+) = \{(.*)\}$", st):
                    ty[mm[2]] = mm[1]
                    if VT.match(mm[1])[4]: L.append(f"let {mm[2]} : {mm[1]} := ⟨fun j => [{mm[3].strip()}].getD j {mm[3].split(',')[0].strip()}⟩")
                    else: L.append(f"let {mm[2]} : {mm[1]} := vec [{', '.join(num(mm[1], x) for x in mm[3].split(','))}]")
                elif mm := re.match(r"(float|float32_t|int16_t) (\w+) = (-?[\d.]+)$", st):
                    ty[mm[2]] = mm[1]; w = 16 if mm[1] == "int16_t" else 32
                    if mm[2] == "val": L.append(f"let val : Ptr .f32 := arr [{num(mm[1], mm[3])}]")
                    else: L.append(f"let {mm[2]} : BitVec {w} := {num(mm[1], mm[3])}#{w}")
                elif mm := re.match(r"(\w+) (\w+) = (.*)$", st):
                    ty[mm[2]] = mm[1]; e = ex(mm[3])
                    L.append(f"let {mm[2]} {'←' if '(' in mm[3] else ':='} {e}")
                elif mm := re.match(r"(vst\w+)\((\w+)\.data\(\), (.*)\)$", st):
                    L.append(f"let {mm[2]} ← {mm[1]} {mm[2]} {' '.join(x.strip() for x in mm[3].split(','))}")
                else: raise Exception(st)
            def chk(c):
                if len(c) == 3: return f"{c[0]} == {c[1]}"
                t0 = ty[c[0]]
                if t0 == "arr": return f"{c[0]}.buf == {c[1]}.buf"
                return f"same2 {c[0]} {c[1]}" if VT.match(t0)[4] else f"same {c[0]} {c[1]}"
            L.append("pure (" + " && ".join(chk(c) for c in checks) + ")")
            out.append(f"/-- `tests/{os.path.basename(p)}`: `TEST({m[1]}, {m[2]})`" + (f", part {bi+1}" if len(blocks) > 1 else "") + " -/\nexample : pass (do\n    " + "\n    ".join(L) + ") = true := by decide +kernel\n"); n += 1
out.append("end Verif.Conformance")
open("/verif/lean/Verif/Conformance.lean", "w").write("\n".join(out) + "\n")
print(n, "tests")
