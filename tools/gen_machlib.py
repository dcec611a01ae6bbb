#!/usr/bin/env python3
"""Verif/Props/MachineLibrary.lean from Verif/Props/Library.lean: the functions of the library obey the static rules."""
import re, glob
lib = open('/verif/lean/Verif/Props/Library.lean').read()
names = open('/verif/lean/Verif/Cpp/Library.lean').read()
sig = {}
for f in sorted(glob.glob('/verif/lean/Verif/Props/Typed*.lean')):
    for m in re.finditer(r'Total \((k!"\w+"), \.fn Source\.(\w+)\) := by\n  refine total_fn (\w+)', open(f).read()):
        sig[m.group(1), m.group(2)] = m.group(3)
out = open('/verif/tools/machlib_head.txt').read()
for m in re.finditer(r"def (library\d+) : .*? := \[\n(.*?)\]\n", names, re.S):
    es = re.findall(r'\((k!"\w+"), \.(fn|unit) Source\.(\w+)\)', m.group(2))
    out += f"theorem {m.group(1)}_checked : ∀ e ∈ {m.group(1)}, Checked e := by\n  unfold {m.group(1)}\n  repeat rw [List.forall_mem_cons]\n  exact ⟨"
    ps = [f"⟨_, Source.{s}_parse, _, {sig[k, s]}, by decide +kernel⟩" if t == "fn" else f"{k[3:-1]}_checked" for k, t, s in es]
    out += ",\n    ".join(ps) + ", fun _ h => absurd h List.not_mem_nil⟩\n\n"
out += open('/verif/tools/machlib_tail.txt').read()
open('/verif/lean/Verif/Props/MachineLibrary.lean', 'w').write(out)
