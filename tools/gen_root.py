#!/usr/bin/env python3
"""Writes Verif.lean: imports of the model and of every property module."""
import glob, os
ms = ["Verif.Model", "Verif.Conformance"] + sorted("Verif.Props." + os.path.basename(p)[:-5] for p in glob.glob("/verif/lean/Verif/Props/*.lean"))
open("/verif/lean/Verif.lean", "w").write("".join(f"import {m}\n" for m in ms))
