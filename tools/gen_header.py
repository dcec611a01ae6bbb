#!/usr/bin/env python3
"""neon_sim.h in pieces -> Cpp/HeaderText.lean"""
t = open("/repo/neon_sim.h").read()
lines = t.split("\n")
pieces, cur, size = [], [], 0
for i, l in enumerate(lines):
    cur.append(l + ("\n" if i + 1 < len(lines) else "")); size += len(l) + 1
    if size > 1800 and (not l.strip()) and not cur[0].startswith("{"):
        pieces.append("".join(cur)); cur, size = [], 0
if cur: pieces.append("".join(cur))
assert "".join(pieces) == t
def lit(s): return '"' + s.replace("\\", "\\\\").replace('"', '\\"') + '"'
o = ["""import Verif.Cpp.Header

/-! `neon_sim.h`, in pieces (generated by `tools/gen_header.py`, compared with the file by `tools/check_source.py`). -/

namespace Verif.Cpp

cpp_header header
"""]
o.append("\n".join(lit(p) for p in pieces))
o.append("\n\nend Verif.Cpp\n")
open("/verif/lean/Verif/Cpp/HeaderText.lean", "w").write("".join(o))
print(len(pieces))
