#!/usr/bin/env python3
"""Verif/Props/ExecLibrary.lean from Verif/Props/Library.lean: the functions of the library on the abstract machine."""
import re
lib = open('/verif/lean/Verif/Props/Library.lean').read()
out = open('/verif/tools/exec_head.txt').read()
for m in re.finditer(r"theorem library(\d+)_defines .*?\n\n", lib, re.S):
    s = m.group(0).replace("_defines", "_wellFormed").replace("e.2.Defines e.1", "WellFormed e.2")
    s = re.sub(r"⟨_, (Source\.\w+_parse), _, [^⟩]*⟩", r"⟨_, \1, by decide +kernel⟩", s)
    out += s
out += open('/verif/tools/exec_tail.txt').read()
open('/verif/lean/Verif/Props/ExecLibrary.lean', 'w').write(out)
