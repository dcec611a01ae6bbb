#!/usr/bin/env python3
"""Mutation testing of the source theorems (C75): srcmut.py SEED [MODULE ...].  In a scratch copy (/tmp/mut/lean) one edit is made
to the C++ text of every function of the modules Verif/Props/Src*.lean, the modules are built, and one line per edit is written to
/tmp/mut/src_SEED_MODULE.json: the theorem on the edited text must fail, as the model has not changed."""
import json, os, random, re, subprocess, sys
sys.path.insert(0, os.path.dirname(os.path.abspath(__file__)))
import mutate as M
RULES = [
 ("loop bound one short", r"i < (\d+);", lambda m: f"i < {int(m[1])-1};"),
 ("loop bound one more", r"i < (\d+);", lambda m: f"i < {int(m[1])+1};"),
 ("loop starts one late", r"int i = 0;", "int i = 1;"),
 ("plus for minus", r" - ", " + "), ("minus for plus", r" \+ ", " - "), ("plus for times", r" \* ", " + "),
 ("or for and", r" & ", " | "), ("and for or", r" \| ", " & "), ("or for xor", r" \^ ", " | "),
 ("shift direction", r" >> ", " << "), ("shift direction", r" << ", " >> "),
 ("max for min", r"std::min", "std::max"), ("min for max", r"std::max", "std::min"),
 ("comparison reversed", r" > ", " < "), ("comparison weakened", r"(n|lane|idx) < (\d)", lambda m: f"{m[1]} <= {m[2]}"),
 ("constant plus one", r"(?<=[-+*&] )(\d+)\b(?!\])", lambda m: str(int(m[1]) + 1)),
 ("index off by one", r"\.val\[i\]", ".val[i + 1]"), ("index constant", r"\.val\[i\]", ".val[0]"),
 ("index off by one", r"ptr\[(i[^\]]*|\d \* i[^\]]*|i\*\d[^\]]*)\]", lambda m: f"ptr[{m[1]} + 1]"),
 ("index offset", r"\[i ?\+ ?(\d)\]", lambda m: f"[i + {int(m[1])+1}]"),
 ("index stride", r"(\d)( ?\* ?)i", lambda m: f"{int(m[1])+1}{m[2]}i"),
 ("register of the tuple", r"\.val\[0\]\.val", ".val[1].val"), ("register of the tuple", r"\.val\[1\]\.val", ".val[0].val"), ("register of the tuple", r"\.val\[2\]\.val", ".val[1].val"),
 ("wrong operand", r"\bb\.val", "a.val"), ("wrong operand", r"\bM\.val", "N.val"), ("wrong operand", r"= N\.val", "= M.val"), ("wrong operand", r"= a\.val", "= b.val"), ("wrong operand", r"\bP\.val", "N.val"),
 ("cast narrower", r"\(u?int(16|32|64)_t\)", lambda m: m[0].replace(m[1], str(int(m[1])//2))),
 ("signedness of a cast", r"\((u?)int(\d+)_t\)", lambda m: f"({'' if m[1] else 'u'}int{m[2]}_t)"),
 ("range check", r"> (\d+)\)", lambda m: f"> {int(m[1])+1})"), ("range check", r"< (\d) \|\|", lambda m: f"< {int(m[1])+1} ||"),
 ("message changed", r"not in range \[", "outside range ["),
 ("copied bytes", r"\* (\d+)\);", lambda m: f"* {int(m[1])-1});"),
 ("dropped statement", r"\n {8}\w+(\.val)?\[.*?;", ""),
 ("element type of the memcpy", r"sizeof\((u?)int(\d+)_t\)", lambda m: f"sizeof({m[1]}int{64 if m[2] == '8' else 8}_t)"),
 ("constant of the limits", r"numeric_limits<(u?)int(\d+)_t>::max", lambda m: f"numeric_limits<{m[1]}int{m[2]}_t>::min"),
]
BLOCK = re.compile(r'^cpp_source Source\.(\w+) "(.*?)\n"\n\n(?=theorem)', re.M | re.S)
def mutants(text):
    head = text.index("{")
    out, seen = [], set()
    for kind, rx, rep in RULES:
        for m in re.finditer(rx, text[head:]):
            new = text[:head] + text[head:head + m.start()] + (rep if isinstance(rep, str) else rep(m)) + text[head + m.end():]
            if new != text and new not in seen:
                seen.add(new); a = text.rfind("\n", 0, head + m.start()) + 1; b = text.find("\n", head + m.end()); 
                line = text[a:b].strip(); d = len(text) - len(new)
                out.append((kind, line, new[a:b - d].strip(), new))
    return out
def main():
    seed = int(sys.argv[1]); mods = sys.argv[2:] or "Shift Convert Perm Move Rest Mul Logic Add Sub Load Store".split()
    M.sync()
    for mod in mods:
        p, q = f"{M.SRC}/Verif/Props/Src{mod}.lean", f"{M.DST}/Verif/Props/Src{mod}.lean"
        t = open(p).read(); done = {}
        def sub(m):
            ms = mutants(m[2])
            if not ms: return m[0]
            rnd = random.Random(m[1]); rnd.shuffle(ms)
            if seed >= len(ms): return m[0]
            kind, a, b, new = ms[seed]
            done[m[1]] = (kind, a, b)
            return f'cpp_source Source.{m[1]} "{new}\n"\n\n'
        new = BLOCK.sub(sub, t)
        open(q, "w").write(new)
        try:
            r = subprocess.run(["timeout", "3000", "lake", "build", f"Verif.Props.Src{mod}"], cwd=M.DST, capture_output=True, text=True)
            th = M.theorems(q)
        finally: open(q, "w").write(t)
        log = r.stdout + r.stderr
        failed = set()
        for f, ls in M.failures(log).items():
            for l in ls:
                c = [x for x in th if x[0] <= l <= x[3]]
                if c: failed.add(c[-1][1])
        bad = [f for f in done if not any(f"{f}_source" in x for x in failed)]
        res = [{"definition": f"Source.{f} (Verif/Props/Src{mod}.lean)", "edit": f"{k}: `{a}` -> `{b}`" , "failed": [] if f in bad else [f"Verif.Props.{f}_source"]} for f, (k, a, b) in done.items()]
        json.dump(res, open(f"/tmp/mut/src_{seed}_{mod}.json", "w"), ensure_ascii=False)
        print(mod, "edited", len(done), "not failed", len(bad), "rc", r.returncode, flush=True)
        for f in bad: print("  ", f, done[f], flush=True)
        if r.returncode and not failed: print(log[-800:])
main()
