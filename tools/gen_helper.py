#!/usr/bin/env python3
"""Writes Verif/Model/Helper.lean (the stream operators of tests/neon_helper.hpp) and Verif/Props/Helper.lean (what they write)."""
import re
T = open("/repo/tests/neon_helper.hpp").read()
ROOT = "/verif/lean/Verif"
EL = {"uint8": "u8", "int8": "s8", "uint16": "u16", "int16": "s16", "uint32": "u32", "int32": "s32", "uint64": "u64", "int64": "s64", "float32": "f32", "float64": "f64"}
V = re.compile(r"static std::ostream& operator<<\(std::ostream& os, const (\w+?)x(\d+)_t& v_data\)\n\{\n    for \(int i = 0; i < (\d+); i\+\+\)\n    \{\n        if \(i > 0\) os << \"(.*?)\";\n        os << (\(int\))?v_data\[i\];\n    \}\n    return os;\n\}")
A = re.compile(r"static std::ostream& operator<<\(std::ostream& os, const (\w+?)x(\d+)x(\d)_t& v_data\)\n\{\n    return os << ([^;]*);\n\}")
line = lambda p: T.count("\n", 0, p) + 1
defs, vs, ars = [], [], []
for m in V.finditer(T):
    e, n, hi, sep, cast = EL[m[1]], int(m[2]), m[3], m[4], m[5]
    get = "(← Val.cast .s32 (← v_data.get i))" if cast else "(← v_data.get i)"
    defs.append(f"/-- `tests/neon_helper.hpp:{line(m.start())}-{line(m.end())}`: `operator<<(std::ostream& os, const {m[1]}x{n}_t& v_data)` -/\n"
      f"def put_{e}x{n} (os : Stream) (v_data : {m[1]}x{n}_t) : C Stream :=\n  cfor 0 {hi} 1 os fun i os => do\n    let os := if i > 0 then os.puts \"{sep}\" else os\n    pure (os.put {get})\n")
    vs.append((e, n, f"{m[1]}x{n}_t"))
for m in A.finditer(T):
    e, n, k = EL[m[1]], int(m[2]), int(m[3])
    L = []
    for it in re.split(r"\s*<<\s*", m[4]):
        r = re.fullmatch(r"v_data\.val\[(\d)\]", it)
        L.append(f"  let os ← put_{e}x{n} os (v_data.reg {r[1]})" if r else "  let os := os.endl" if it == "std::endl" else 1/0)
    L[-1] = L[-1].replace("let os ← ", "")
    defs.append(f"/-- `tests/neon_helper.hpp:{line(m.start())}-{line(m.end())}`: `operator<<(std::ostream& os, const {m[1]}x{n}x{k}_t& v_data)` -/\n"
      f"def put_{e}x{n}x{k} (os : Stream) (v_data : {m[1]}x{n}x{k}_t) : C Stream := do\n" + "\n".join(L) + "\n")
    ars.append((e, n, k, f"{m[1]}x{n}x{k}_t"))
assert len(vs) + len(ars) == T.count("operator<<("), (len(vs), len(ars), T.count("operator<<("))
open(ROOT + "/Model/Helper.lean", "w").write('''import Verif.Types

/-!
The stream operators of `tests/neon_helper.hpp`, generated by `tools/gen_helper.py`.

The header is for Arm compilers: there `v_data[i]` is lane `i` of a vector type of the compiler.  Simplification: the
registers are those of the simulator, with the same lanes.  The state of the stream is the text written; the flags are
the default ones (decimal, no field width).  How floats are written is a parameter (`FloatText`).
-/

namespace Verif.Model

/-- The text a stream has been given so far. -/
abbrev Stream := List Char

/-- How the stream writes a `float` and a `double`. -/
class FloatText where
  f32 : BitVec 32 → List Char
  f64 : BitVec 64 → List Char

/-- An integer in decimal. -/
def decimal (v : Int) : List Char :=
  if v < 0 then '-' :: Nat.toDigits 10 v.natAbs else Nat.toDigits 10 v.natAbs

/-- `os << s` for a string literal. -/
def Stream.puts (os : Stream) (s : String) : Stream := os ++ s.toList

/-- `os << std::endl`; that the stream is flushed is not modelled. -/
def Stream.endl (os : Stream) : Stream := os ++ ['\\n']

/-- `os << v` for an arithmetic `v`: `signed char` and `unsigned char` are written as characters. -/
def Stream.put [FloatText] (os : Stream) : Val → Stream
  | .int .i8 v | .int .u8 v => os ++ [Char.ofNat (v % 256).toNat]
  | .int _ v => os ++ decimal v
  | .f32 b => os ++ FloatText.f32 b
  | .f64 b => os ++ FloatText.f64 b

variable [FloatText]

''' + "\n".join(defs) + "\nend Verif.Model\n")
def word(e): return {"f32": "FloatText.f32 (%s)", "f64": "FloatText.f64 (%s)"}.get(e, "text ((%s).toNat : Int)" if e[0] == "u" else "text (%s).toInt")
def val(e, x): return f"((({x}).toNat : Nat) : Int)" if e[0] == "u" else f"({x}).toInt"
def bits(e): return "BitVec.eq_of_toNat_eq (Int.ofNat.inj %s)" if e[0] == "u" else "BitVec.eq_of_toInt_eq %s"
O = [open("/verif/tools/helper_head.txt").read()]
for e, n, t in vs:
    lane = word(e) % "v.lane i"
    O.append(f"/-- Printing `{t}`: the lanes in order, separated by \", \". -/\ntheorem put_{e}x{n}_spec (os : Stream) (v : {t}) :\n    put_{e}x{n} os v = .ok (os ++ commas (List.ofFn fun i => {lane})) := by\n"
      f"  refine cfor_join (by rfl) (fun i => {lane}) fun i os => ?_\n" + (f"  rw [Vec.get_fin]\n  rfl\n" if e[0] == "f" else "  rw [Vec.get_fin, ← decimal_eq_text]\n  rfl\n"))
    if e[0] != "f":
        O.append(f"/-- The text determines the `{t}`. -/\ntheorem put_{e}x{n}_injective (os : Stream) (v w : {t}) (h : put_{e}x{n} os v = put_{e}x{n} os w) : v = w := by\n"
          f"  rw [put_{e}x{n}_spec, put_{e}x{n}_spec] at h\n  have h := vals_of_commas (f := fun i => {val(e, 'v.lane i')}) (g := fun i => {val(e, 'w.lane i')}) (ok_append h)\n"
          f"  exact Vec.ext (funext fun i => {bits(e) % '(congrFun h i)'})\n")
for e, n, k, t in ars:
    lane = word(e) % "(v.reg j).lane i"
    O.append(f"/-- Printing `{t}`: the registers in order, one per line. -/\ntheorem put_{e}x{n}x{k}_spec (os : Stream) (v : {t}) :\n    put_{e}x{n}x{k} os v = .ok (os ++ lines (List.ofFn fun j : Fin {k} => commas (List.ofFn fun i : Fin {n} => {lane}))) := by\n"
      f"  simp only [put_{e}x{n}x{k}, put_{e}x{n}_spec, ok_bind, Stream.endl]\n  exact congrArg C.ok (lines{k} os fun j : Fin {k} => commas (List.ofFn fun i : Fin {n} => {lane}))\n")
    if e[0] != "f":
        O.append(f"/-- The text determines the `{t}`. -/\ntheorem put_{e}x{n}x{k}_injective (os : Stream) (v w : {t}) (h : put_{e}x{n}x{k} os v = put_{e}x{n}x{k} os w) : v = w := by\n"
          f"  rw [put_{e}x{n}x{k}_spec, put_{e}x{n}x{k}_spec] at h\n  have h := vals_of_lines (f := fun j i => {val(e, '(v.reg j).lane i')}) (g := fun j i => {val(e, '(w.reg j).lane i')}) (ok_append h)\n"
          f"  exact VecArr.ext (funext fun j => Vec.ext (funext fun i => {bits(e) % '(congrFun (congrFun h j) i)'}))\n")
O.append("""/-! ## Cases -/

/-- A use of the printers where floats are not looked at. -/
@[reducible] def noFloats : FloatText := ⟨fun _ => [], fun _ => []⟩

example : @put_s8x8 noFloats "v: ".toList ⟨fun i => BitVec.ofInt 8 (i.val * 40 - 128)⟩ =
    .ok "v: -128, -88, -48, -8, 32, 72, 112, -104".toList := by decide +kernel
example : @put_u64x2x2 noFloats [] ⟨fun j => ⟨fun i => BitVec.ofInt 64 (j.val - i.val)⟩⟩ =
    .ok "0, 18446744073709551615\\n1, 0".toList := by decide +kernel
/-- Why the code casts bytes to `int`: without the cast a byte is written as a character. -/
example : @Stream.put noFloats [] (.int .u8 65) = "A".toList ∧
    @put_u8x8 noFloats [] ⟨fun _ => 65⟩ = .ok "65, 65, 65, 65, 65, 65, 65, 65".toList := by decide +kernel
""")
O.append("end Verif.Props")
open(ROOT + "/Props/Helper.lean", "w").write("\n".join(O) + "\n")
print(len(vs), len(ars))
