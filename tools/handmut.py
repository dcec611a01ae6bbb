#!/usr/bin/env python3
"""Hand-made edits: handmut.py FILE, with FILE a Python list of dicts
{file, def, old, new, edit, claim, mods, [nth], [note], [tightened]}; each is applied alone to a scratch copy (/tmp/mut/lean), the modules are
built and one line per edit is appended to seeded/hand.jsonl."""
import json, os, re, subprocess, sys
sys.path.insert(0, os.path.dirname(os.path.abspath(__file__)))
import mutate as M
M.sync()
title = {json.loads(l)["id"]: json.loads(l)["title"] for l in open("/verif/properties.jsonl")}
dry = "--dry" in sys.argv
for e in eval(open(sys.argv[1]).read()):
    p = f"{M.SRC}/{e['file']}"; q = f"{M.DST}/{e['file']}"; t = open(p).read()
    pos = -1
    for _ in range(e.get("nth", 0) + 1):
        pos = t.find(e["old"], pos + 1)
    assert pos >= 0, e
    if "within" in e:
        a = t.index(e["within"]); pos = t.index(e["old"], a)
    if e.get("all"): new = t.replace(e["old"], e["new"])
    else: new = t[:pos] + e["new"] + t[pos + len(e["old"]):]
    open(q, "w").write(new)
    try:
        r = subprocess.run(["timeout", str(e.get("timeout", 3000)), "lake", "build"] + [f"Verif.{m}" for m in e["mods"]], cwd=M.DST, capture_output=True, text=True)
        log = r.stdout + r.stderr
    finally:
        open(q, "w").write(t)
    failed, bad = set(), []
    for f, ls in M.failures(log).items():
        th = M.theorems(f"{M.SRC}/{f}") if f != e["file"] else M.theorems(q)
        for l in ls:
            c = [x for x in th if x[0] <= l <= x[3]]
            n = c[-1][1] if c else "?"
            failed.add(f"{f[6:-5].replace('/', '.')}: {n}" if n in ("example", "?") else f"Verif.Props.{n}" if "/Props/" in f else f"{f[6:-5].replace('/', '.')}: {n}")
    F = sorted(failed)
    print(e["def"], "|", e["edit"], "|", len(F), F[:6], "rc", r.returncode, flush=True)
    if not F and r.returncode != 0: print(log[-600:])
    if dry: continue
    o = {"definition": f"Verif.{e['def']} ({e['file'].replace('lean/', '')})", "edit": e["edit"] + f": `{e['old'].strip()[:120]}` -> `{e['new'].strip()[:120]}`",
         "claim": e["claim"] if " " in e["claim"] else "; ".join(f"{i} {title[i]}" for i in e["claim"].split(",")), "failed": F, "tightened": e.get("tightened", [])}
    if e.get("note"): o["note"] = e["note"]
    open("/verif/seeded/hand.jsonl", "a").write(json.dumps(o, ensure_ascii=False) + "\n")
