#!/usr/bin/env python3
"""Writes seeded/LOG.jsonl from the results of mutate.py (/tmp/mut/batch_*.json), of srcmut.py (/tmp/mut/src_*.json) and of the hand-made edits (seeded/hand.jsonl)."""
import json, glob, re, os
man = json.load(open("/verif/MANIFEST.json"))["claims"]
title = {json.loads(l)["id"]: json.loads(l)["title"] for l in open("/verif/properties.jsonl")}
by = {}
for c in man:
    for t in c["theorems"]: by.setdefault(t, []).append(c["property"])
def claims(ts, d):
    ids = sorted({i for t in ts for i in by.get("Verif.Props." + t, [])})
    if not ids: ids = sorted({i for t, q in by.items() if re.fullmatch(rf"Verif\.Props\.{d}_(spec|partial|wrapv|wrong|exact)", t) for i in q})
    return ids
def why(r):
    d, k, f = r["def"], r["kind"], r["from"]
    if d in ("vqshrun_n_s32", "vqshrun_n_s64"): return "no theorem fails because the edit is in a value the code never stores: the result is indeterminate before and after (C47)"
    if re.match(r"vqsubq?_u", d): return "no theorem fails because the edit does not change the function: it is in the branch for a difference above the maximum, which unsigned operands never reach, or in the bound of the clamp to 0"
    if k.startswith("cast"): return "no theorem fails because the edit does not change the function: the usual arithmetic conversions or the conversion on assignment give the same lane bits"
    if k == "lane index constant": return "no theorem fails because the edit does not change the function: the register has one lane"
    if "stride" in k: return "no theorem fails because the edit does not change the function: the loop runs for i = 0 only"
    if d == "vqshrn_n_s64" and k == "constant plus one": return "no theorem fails because the edit does not change the function: the shifted value is converted to int32_t before the comparison with the bound (C48), so the bound is never reached"
    if re.match(r"vq(add|sub|movn|r?shrun_n)", d) and k.startswith("constant"): return "no theorem fails because the edit does not change the function: it moves the comparison of the clamp by one, and at the boundary both branches give the same value"
    return None
out = []
for p in sorted(glob.glob("/tmp/mut/batch_*.json"), key=lambda p: [int(x) for x in re.findall(r"\d+", p)]):
    for r in json.load(open(p))["results"]:
        if p.endswith("batch_0_2.json") and re.match(r"vqsubq?_[su]64", r["def"]): continue   # repeated in batch_0_3
        cl = claims(r["failed"], r["def"])
        e = {"definition": f"Verif.Model.{r['def']} (Verif/Model/{r['file']})", "edit": f"{r['kind']}: `{r['from'].strip()}` -> `{r['to'].strip()}`",
             "claim": "; ".join(f"{i} {title[i]}" for i in cl), "failed": ["Verif.Props." + t for t in r["failed"]], "tightened": []}
        if not r["failed"]:
            w = why(r)
            if w is None: print("unexplained", p, r)
            e["claim"] = "none: the edited program still satisfies " + e["claim"]; e["note"] = w
        if r.get("note"): e["note"] = r["note"]
        out.append(e)
for p in sorted(glob.glob("/tmp/mut/src_*.json")):
    for r in json.load(open(p)):
        e = {**r, "claim": f"C75 {title['C75']}", "tightened": []}
        if not r["failed"]:
            w = ("sizeof is the same for the signed and the unsigned type" if "sizeof(" in r["edit"] else "the offset is 0" if re.search(r"[+-] 0\]", r["edit"]) else None)
            if w is None: print("unexplained", p, r)
            e["claim"] = "none: the edited text still satisfies " + e["claim"]; e["note"] = f"no theorem fails because the edit does not change the function: {w}"
        out.append(e)
if os.path.exists("/verif/seeded/hand.jsonl"):
    out += [json.loads(l) for l in open("/verif/seeded/hand.jsonl")]
with open("/verif/seeded/LOG.jsonl", "w") as f:
    for e in out: f.write(json.dumps(e, ensure_ascii=False) + "\n")
print(len(out), "entries", sum(not e["failed"] for e in out), "without failure", sum(not e["claim"] for e in out), "without claim")
