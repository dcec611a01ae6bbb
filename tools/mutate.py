#!/usr/bin/env python3
"""Mutation testing of the theorems in a scratch copy (default /tmp/mut/lean).

usage: mutate.py FROM TO [STAGE ...]  for each k in the range apply the k-th mutant of every model function at once, build the per-function
                              theorem modules, and write the result to /tmp/mut/batch_k_stage.json
Every function gets at most one edit per batch and a failed theorem is attributed to the edited functions
its statement mentions."""
import glob, json, os, random, re, shutil, subprocess, sys
SRC, DST = "/verif/lean", os.environ.get("MUT_DST", "/tmp/mut/lean")
SKIP = {"Laws", "Commute", "Outcome", "Link", "Kernel", "Pipeline", "Strict", "Program", "Client", "Library", "Signatures", "SrcClass", "Typed", "TypedBase"} | {f"Typed{i}" for i in range(9)} | {"Arm" + g for g in "Load Store Add Sub Mul Move Shift Convert Perm Logic Rest Float".split()} | {"Src" + g for g in "Load Store Add Sub Mul Move Shift Convert Perm Logic Rest Recip".split()}   # derived from the other modules, or independent of the model
LEAN = "(?<![\\w.])"
# (kind, regex, replacement)
RULES = [
 ("loop bound one short", r"cfor 0 (\d+) 1", lambda m: f"cfor 0 {int(m[1])-1} 1"),
 ("loop starts one late", r"cfor 0 (\d+) 1", lambda m: f"cfor 1 {m[1]} 1"),
 ("add for sub", r"Val\.sub", "Val.add"), ("sub for add", r"Val\.add", "Val.sub"), ("add for mul", r"Val\.mul", "Val.add"),
 ("or for and", r"Val\.and", "Val.or"), ("xor for or", r"Val\.or", "Val.xor"), ("or for xor", r"Val\.xor", "Val.or"),
 ("and for or", r"Val\.or", "Val.and"),
 ("left shift for right shift", r"Val\.shr", "Val.shl"), ("right shift for left shift", r"Val\.shl", "Val.shr"),
 ("max for min", r"Val\.stdMin", "Val.stdMax"), ("min for max", r"Val\.stdMax", "Val.stdMin"),
 ("comparison reversed", r"Val\.lt", "Val.gt"), ("comparison reversed", r"Val\.gt", "Val.lt"), ("less-than for equal", r"Val\.eq", "Val.lt"),
 ("complement dropped", r"\(← Val\.not (\([^()]*\)|\w+)\)", lambda m: m[1] if not m[1].startswith("(") else "(" + m[1][1:-1] + ")"),
 ("multiply for divide", r"Val\.div", "Val.mul"),
 ("constant plus one", r"vint (\d+)", lambda m: f"vint {int(m[1])+1}"),
 ("constant minus one", r"vint (\d+)", lambda m: f"vint {int(m[1])-1}" if int(m[1]) > 0 else None),
 ("constant plus one", r"vint \((-\d+)\)", lambda m: f"vint ({int(m[1])+1})"),
 ("constant minus one", r"\.int \.(i64|u64|u32) (\d+)", lambda m: f".int .{m[1]} {int(m[2])-1}"),
 ("wrong operand", LEAN + r"b\.get", "a.get"), ("wrong operand", LEAN + r"M\.get", "N.get"), ("wrong operand", LEAN + r"N\.get", "M.get"),
 ("wrong operand", LEAN + r"a\.get", "b.get"), ("wrong operand", LEAN + r"P\.get", "N.get"), ("wrong operand", LEAN + r"high\.get", "low.get"),
 ("wrong operand", LEAN + r"low\.get", "high.get"), ("wrong operand", LEAN + r"ptr\.get", "src.get"),
 ("lane index off by one", r"\.get i\)", ".get (i + 1))"), ("lane index constant", r"\.get i\)", ".get 0)"),
 ("source index without offset", r"\.get \((.*?) \+ (\d+)\)\)", lambda m: f".get ({m[1]}))"),
 ("source index offset plus one", r"\.get \((.*?) \+ (\d+)\)\)", lambda m: f".get ({m[1]} + {int(m[2])+1}))"),
 ("source stride dropped", r"\.get (\d )?\(2 \* i\)", lambda m: f".get {m[1] or ''}i"),
 ("destination index without offset", r"\.set (\d )?\((\(?.*?\)?) \+ (\d+)\) \(", lambda m: f".set {m[1] or ''}{m[2]} ("),
 ("destination index off by one", r"\.set i \(", ".set (i + 1) ("),
 ("destination stride wrong", r"\.set (\d )?\((\d) \* i\)", lambda m: f".set {m[1] or ''}({int(m[2])+1} * i)"),
 ("stride wrong", r"\((\d) \* i\)", lambda m: f"({int(m[1])+1} * i)"),
 ("index offset changed", r"\(([2-4]) \* i\) \+ (\d)", lambda m: f"({m[1]} * i) + {(int(m[2])+1) % int(m[1])}"),
 ("index expression changed", r"\((\d+) - i\)", lambda m: f"({int(m[1])-1} - i)"),
 ("index expression changed", r"i - (\d+)", lambda m: f"i - {int(m[1])-1}"),
 ("index expression changed", r"i \+ (\d+)\)", lambda m: f"i + {int(m[1])-1})"),
 ("register of the pair swapped", r"\.set 0 ", ".set 1 "), ("register of the pair swapped", r"\.set 1 ", ".set 0 "),
 ("register of the tuple wrong", r"val\.get 0 ", "val.get 1 "), ("register of the tuple wrong", r"val\.get 1 ", "val.get 0 "),
 ("register of the tuple wrong", r"val\.get 2 ", "val.get 1 "), ("register of the tuple wrong", r"val\.get 3 ", "val.get 2 "),
 ("cast to the wrong type", r"Val\.cast \.s64", "Val.cast .s32"), ("cast to the wrong type", r"Val\.cast \.u64", "Val.cast .u32"),
 ("cast to the wrong type", r"Val\.cast \.s32", "Val.cast .s16"), ("cast to the wrong type", r"Val\.cast \.u32", "Val.cast .u16"),
 ("cast to the wrong type", r"Val\.cast \.s16", "Val.cast .s8"), ("cast to the wrong type", r"Val\.cast \.u16", "Val.cast .u8"),
 ("cast to the wrong type", r"Val\.cast \.f64", "Val.cast .f32"), ("cast to the wrong type", r"Val\.cast \.u8", "Val.cast .s8"),
 ("cast to the wrong signedness", r"Val\.cast \.s(8|16|32|64)", lambda m: f"Val.cast .u{m[1]}"),
 ("cast to the wrong signedness", r"Val\.cast \.u(8|16|32|64)", lambda m: f"Val.cast .s{m[1]}"),
 ("assignment dropped", r"\n[^\n]*← (\w+)\.set [^\n]*", ""),
 ("range check too wide", r"≤ (\d+)\b", lambda m: f"≤ {int(m[1])+1}"), ("range check too narrow", r"≤ (\d+)\b", lambda m: f"≤ {int(m[1])-1}"),
 ("range check too wide", r"≥ (\d+)\b", lambda m: f"≥ ({int(m[1])}-1)"), ("range check too narrow", r"≥ (\d+)\b", lambda m: f"≥ {int(m[1])+1}"),
 ("range check dropped", r"if ¬\(.*?\) then \.abort", lambda m: 'if False then .abort'),
 ("branch condition changed", r"if i = lane", "if i = lane + 1"),
 ("branch condition changed", r"if i < (\d+)", lambda m: f"if i < {int(m[1])-1}"), ("branch condition changed", r"if i \+ n < (\d+)", lambda m: f"if i + n < {int(m[1])+1}"),
 ("copy too short", r"\((\d+) \* (\d+)\)", lambda m: f"({m[1]} * {int(m[2])-1})"),
 ("copy half the register", r"\((\d+) \* (\d+)\)", lambda m: f"({m[1]} * {int(m[2])//2})"),
 ("copy too long", r"\((\d+) \* (\d+)\)", lambda m: f"({m[1]} * {int(m[2])+1})"),
 ("lane index off by one", r"\.get lane", ".get (lane + 1)"), ("lane index off by one", r"\.get lane", ".get (lane - 1)"),
]
def defs():
    out = []
    for p in sorted(glob.glob(f"{SRC}/Verif/Model/*.lean")):
        t = open(p).read()
        if p.endswith("Recip.lean"): continue
        for m in re.finditer(r"(?ms)^def (\S+).*?(?=^/--|^end |^def |\Z)", t):
            out.append((os.path.basename(p), m[1], m[0]))
    return out
def mutants(text):
    head, body = text.split(":=", 1)
    L, seen = [], set()
    for kind, rx, rep in RULES:
        for m in re.finditer(rx, body, re.M):
            r = rep(m) if callable(rep) else m.expand(rep) if rep else rep
            if r is None or r == m[0]: continue
            new = body[:m.start()] + r + body[m.end():]
            if new in seen or re.sub(r" \+ 0\b|[()]", "", new) == re.sub(r" \+ 0\b|[()]", "", body): continue
            seen.add(new)
            L.append((kind, m[0].strip(), r.strip(), head + ":=" + new))
    random.Random(text.split()[1]).shuffle(L)
    return L
def theorems(path):
    """[(first line, last line, name, statement)]"""
    t = open(path).read(); ls = t.split("\n"); out = []
    for m in re.finditer(r"(?ms)^(?:@\[.*?\] )?(?:private )?(?:theorem|lemma|def) (\S+)(.*?):=|^(example)\b(.*?):=", t):
        n = t.count("\n", 0, m.start()) + 1
        if n > 1 and ls[n - 2].rstrip().endswith("-/"):  # errors of a declaration may be reported at its comment
            while not ls[n - 2].startswith("/-"): n -= 1
            n -= 1
        out.append([n, m[1] or "example", m[2] or m[4]])
    for i, o in enumerate(out): o.append(out[i+1][0] - 1 if i + 1 < len(out) else len(ls))
    return out
def build(mods):
    r = subprocess.run(["lake", "build"] + mods, cwd=DST, capture_output=True, text=True)
    return r.stdout + r.stderr
def failures(log):
    F = {}
    for m in re.finditer(r"(?m)^error: (Verif/\S+\.lean):(\d+):\d+", log): F.setdefault(m[1], set()).add(int(m[2]))
    return F
def run(edits, tag, mods=None):
    """edits: {name: (file, old, new, kind, a, b)}"""
    bad = []
    while True:
        files = {}
        for n, (f, old, new, *_) in edits.items():
            t = files.setdefault(f, open(f"{SRC}/Verif/Model/{f}").read())
            assert t.count(old) == 1, n
            files[f] = t.replace(old, new)
        for p in glob.glob(f"{SRC}/Verif/Model/*.lean"):
            f = os.path.basename(p); t = files.get(f, open(p).read()); q = f"{DST}/Verif/Model/{f}"
            if open(q).read() != t: open(q, "w").write(t)
        log = build([f"Verif.Model.{os.path.basename(p)[:-5]}" for p in glob.glob(f"{SRC}/Verif/Model/*.lean")])
        fl = failures(log)
        if not fl: break
        for p, lines in fl.items():
            t = open(f"{DST}/{p}").read()
            ds = [(t.count("\n", 0, m.start()) + 1, m[1]) for m in re.finditer(r"(?m)^def (\S+)", t)]
            for l in lines:
                n = [d for s, d in ds if s <= l][-1]
                if n in edits: bad.append((n, edits.pop(n)[3:]))
    mods = mods or [os.path.basename(p)[:-5] for p in glob.glob(f"{DST}/Verif/Props/*.lean") if os.path.basename(p)[:-5] not in SKIP]
    log = build([f"Verif.Props.{m}" for m in mods])
    open(f"/tmp/mut/log_{tag}.txt", "w").write(log)
    failed = []
    for p, lines in failures(log).items():
        th = theorems(f"{DST}/{p}")
        for l in lines:
            c = [x for x in th if x[0] <= l <= x[3]]
            if c: failed.append((p, c[-1][1], c[-1][2]))
            else: failed.append((p, "?", ""))
    res = []
    for n, (f, old, new, kind, a, b) in edits.items():
        hit = sorted({t for p, t, s in failed if re.search(rf"(?<![\w.]){re.escape(n)}(?!\w)", s) and t != "example"})
        res.append({"def": n, "file": f, "kind": kind, "from": a, "to": b, "failed": hit})
    json.dump({"results": res, "invalid": bad, "nfailed": len(failed)}, open(f"/tmp/mut/batch_{tag}.json", "w"), indent=1)
    return res, bad
def sync():
    for p in glob.glob(f"{SRC}/Verif/**/*.lean", recursive=True):
        q = p.replace(SRC, DST); os.makedirs(os.path.dirname(q), exist_ok=True)
        if not os.path.exists(q) or open(p).read() != open(q).read(): shutil.copy(p, q)
# theorem modules that import other theorem modules are built in a later stage, with the imported ones' functions unedited
STAGE = {"Store": 2, "FloatConv": 2, "FloatSel": 2, "Recip": 2, "QSub64": 3}
def stage(name):
    for m, s in STAGE.items():
        if re.search(rf"(?m)^theorem {name}_(spec|partial|eval|exact) ", open(f"{SRC}/Verif/Props/{m}.lean").read()): return s
    return 1
if __name__ == "__main__":
  sync()
  if sys.argv[1] == "only":   # mutate.py only K NAME,... MODULE,...: the K-th mutants of these functions, built against these modules
    k, names, mods = int(sys.argv[2]), sys.argv[3].split(","), sys.argv[4].split(",")
    E = {n: (f, t, M[k][3], *M[k][:3]) for f, n, t in defs() if n in names for M in [mutants(t)]}
    res, bad = run(E, f"{k}_9", mods)
    print("killed", sum(bool(r["failed"]) for r in res), "survived", [r["def"] for r in res if not r["failed"]], "invalid", len(bad), flush=True)
    sys.exit()
  for k in range(int(sys.argv[1]), int(sys.argv[2])):
   for st in map(int, sys.argv[3:] or (1, 2, 3)):
    E = {}
    for f, n, t in defs():
        if stage(n) != st: continue
        M = mutants(t)
        if k < len(M): E[n] = (f, t, M[k][3], *M[k][:3])
    print(k, st, len(E), "mutants", flush=True)
    if not E: continue
    mods = [os.path.basename(p)[:-5] for p in glob.glob(f"{DST}/Verif/Props/*.lean") if os.path.basename(p)[:-5] not in SKIP | {"History"}]
    res, bad = run(E, f"{k}_{st}", [m for m in mods if STAGE.get(m, 1) == st])
    print("killed", sum(bool(r["failed"]) for r in res), "survived", [r["def"] for r in res if not r["failed"]], "invalid", len(bad), flush=True)
