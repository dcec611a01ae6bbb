#!/usr/bin/env python3
"""Compares the texts of Verif/Props/Src*.lean with neon_sim.cpp: every text must be an exact run of lines of the file,
and what remains of the file must be blank lines, comments, includes, and code disabled by `#if __fp16`."""
import re, glob, sys
cpp = open("/repo/neon_sim.cpp").read()
lines = cpp.split("\n")
used = [False] * len(lines)
bad = n = 0
for p in sorted(glob.glob("/verif/lean/Verif/Props/Src*.lean")):
    for m in re.finditer(r'/-- `neon_sim.cpp:(\d+)-(\d+)` -/\ncpp_(source|unit) Source\.(\w+) "((?:[^"\\]|\\.)*)"', open(p).read()):
        a, b, kind, name, text = int(m[1]), int(m[2]), m[3], m[4], m[5]
        text = re.sub(r'\\(.)', r'\1', text)
        n += 1
        if "\n".join(lines[a-1:b]) + "\n" != text:
            bad += 1; print("differs:", p, name)
        for i in range(a - 1, b):
            if used[i] == kind: bad += 1; print("used twice:", name, i + 1)
            used[i] = kind
off, rest = 0, []
for i, l in enumerate(lines):
    if re.match(r"#if(def)? __fp16", l): off = 1
    if off:
        assert not used[i], i
        if l.startswith("#endif"): off = 0
        continue
    if used[i] or not l.strip() or l.strip().startswith("//") or l.startswith("#include"): continue
    rest.append((i + 1, l))
h = open("/verif/lean/Verif/Cpp/HeaderText.lean").read().split("cpp_header header")[1]
hs = "".join(re.sub(r'\\(.)', r'\1', m[1]) for m in re.finditer(r'"((?:[^"\\]|\\.)*)"', h, re.S))
if hs != open("/repo/neon_sim.h").read(): bad += 1; print("the header differs")
print(n, "texts,", bad, "problems; remaining lines:")
for i, l in rest: print(i, l)
sys.exit(bad != 0)
