#!/usr/bin/env python3
"""Helpers for generating the per-function characterisation theorems (Verif/Props/)."""
import json, re, os, subprocess, sys
OUT = "/verif/lean/Verif/Props"
subprocess.run(["python3", "/verif/tools/translate.py"], check=True, stdout=subprocess.DEVNULL)
TAB = {r[0]: r for r in json.load(open("/tmp/functable.json"))}
EL = {f"{u}int{w}_t": f"{'u' if u else 's'}{w}" for u in ("", "u") for w in (8, 16, 32, 64)}
EL.update({"float32_t": "f32", "float": "f32", "float64_t": "f64"})
VT = re.compile(r"^(u?int|float)(\d+)x(\d+)(?:x(\d+))?_t$")
class F:
    def __init__(s, name):
        r = TAB[name]; s.name = name; s.ret = r[3]; s.g = r[6]; s.ps = []
        for p in [x for x in r[5].split(",") if x.strip()]:
            t = p.replace("*", " * ").split(); ptr = "*" in t
            t = [x for x in t if x not in ("const", "*")]
            s.ps.append((t[0], t[1], ptr))
        m = VT.match(s.ret); s.n = int(m.group(3)) if m else None
        s.el = ({"int": "s", "uint": "u", "float": "f"}[m.group(1)] + m.group(2)) if m else None
        s.w = int(m.group(2)) if m else None
    def pv(s, x):
        for t, y, ptr in s.ps:
            if y == x:
                m = VT.match(t)
                if m and m.group(4): return ({"int": "s", "uint": "u", "float": "f"}[m.group(1)], int(m.group(2)), int(m.group(3)))
                if m: return ({"int": "s", "uint": "u", "float": "f"}[m.group(1)], int(m.group(2)), int(m.group(3)))
                return (EL[t][0], int(EL[t][1:]), None)
    def binders(s):
        out, i = [], 0
        ps = [(x, ("Ptr ." + EL[t]) if ptr else ("Int" if t == "int" else {"float": "float32_t"}.get(t, t))) for t, x, ptr in s.ps]
        while i < len(ps):
            j = i
            while j + 1 < len(ps) and ps[j+1][1] == ps[i][1]: j += 1
            out.append(f"({' '.join(p[0] for p in ps[i:j+1])} : {ps[i][1]})"); i = j + 1
        return " ".join(out)
    def call(s): return s.name + "".join(" " + x for _, x, _ in s.ps)

def _dialect():
    import glob
    D = {}
    for p in glob.glob("/verif/lean/Verif/Model/*.lean"):
        for d in re.split(r"(?m)^(?=def )", open(p).read())[1:]:
            D[d.split()[1]] = d
    use = {n for n, d in D.items() if re.search(r"Val\.(add|sub|mul|div|shr|shl)\b", d)}
    while True:
        new = {n for n, d in D.items() if n not in use and any(t in use for t in re.findall(r"\w+", d.split(":=", 1)[1]))}
        if not new: return use
        use |= new
DIALECT = _dialect()
def needs_dialect(t):
    return "NoOverflow" in t or "Dialect." in t or any(x in DIALECT for x in re.findall(r"\w+", t))
class Mod:
    def __init__(s, name, imports, doc):
        s.name, s.L, s.thms = name, [], []
        s.L.append("\n".join(["import Verif.Fill"] + [f"import Verif.{i}" for i in imports]))
        s.L.append(f"/-! {doc}\n\nGenerated by the scripts in `tools/`. -/\n\nset_option linter.unusedSimpArgs false\nset_option linter.unusedVariables false\n\nnamespace Verif.Props\nopen Verif.Model Verif.Spec\n")
    def raw(s, t): s.L.append(t.strip("\n") + "\n")
    def thm(s, name, doc, stmt, proof):
        s.thms.append(name)
        if needs_dialect(stmt): stmt = "[Dialect] " + stmt
        s.L.append(f"/-- {doc} -/\ntheorem {name} {stmt} := by\n" + "\n".join("  " + l for l in proof.strip("\n").split("\n")) + "\n")
    def save(s):
        os.makedirs(OUT, exist_ok=True)
        with open(f"{OUT}/{s.name}.lean", "w") as h: h.write("\n".join(s.L) + "\nend Verif.Props\n")

def val(f, x, idx="i"):
    """Int value of lane idx of parameter x"""
    k, w, n = f.pv(x)
    t = x if n is None else f"({x}.lane {idx})"
    return f"{t}.toInt" if k == "s" else f"({t}.toNat : Int)"
def ln(f, x, idx="i"):
    return x if f.pv(x)[2] is None else f"{x}.lane {idx}"
def bounds(f, xs, idx=None):
    L = []
    for j, x in enumerate(xs):
        k, w, n = f.pv(x)
        if k == "s": L.append(f"have hb{j} := toInt{w} ({ln(f, x, (idx or {}).get(x, 'i'))})")
    return L
def mulb(f, x, y):
    k, w, n = f.pv(x); k2, w2, _ = f.pv(y)
    assert (k, w) == (k2, w2)
    if w == 64: return []
    return [f"have hm := {'s' if k=='s' else 'u'}mul{w} ({ln(f, x)}) ({ln(f, y)})"]
def lanewise(m, f, spec, doc, ub=None, pre=(), name=None, kind="signedOverflow", close="bvnorm"):
    """ub: condition string per lane (i free) or None"""
    if ub is None:
        m.thm(name or f.name + "_spec", doc, f"{f.binders()} :\n    {f.call()} = .ok ⟨fun i => {spec}⟩",
              f"unfold {f.name}\nrefine fill_ok (by rfl) _ fun i D => ?_\n" + "\n".join(list(pre) + ["csim"] + ([close] if close else [])))
    else:
        m.thm(name or f.name + "_partial", doc, f"{f.binders()} :\n    {f.call()} =\n      if ∀ i : Fin {f.n}, {ub}\n      then .ok ⟨fun i => {spec}⟩ else .ub .{kind}",
              f"unfold {f.name}\nrefine fill_if (by rfl) _ _ _ fun i D => ?_\n" + "\n".join(list(pre) + ["csim_ub"] + ([close] if close else [])))
        wrapv(m, f, spec)
def wrapv(m, f, spec):
    m.thm(f.name + "_wrapv", f"With `-fwrapv`, `{f.name}` is defined for all operands.",
          f"(hd : Dialect.wrapv = true) {f.binders()} :\n    {f.call()} = .ok ⟨fun i => {spec}⟩",
          f"rw [{f.name}_partial, if_pos]\nintro i\nsimp only [NoOverflow, hd, true_or, and_self]")
def vec(f, x, lit):
    k, w, n = f.pv(x)
    return f"{lit}#{w}" if n is None else f"⟨fun _ => {lit}#{w}⟩"
def ub_witness(m, f, lits, doc, w, nm=None):
    """strict C++: witness with UB. lits: param -> literal"""
    args = [vec(f, x, lits[x]) for _, x, _ in f.ps]
    b = f.binders()
    ex = " ".join(x for _, x, _ in f.ps)
    m.thm((nm or f.name) + "_ub", doc, f"(hd : Dialect.wrapv = false) :\n    ∃ {b.replace(') (', ') (')}, {f.call()} = .ub .signedOverflow".replace("∃ (", "∃ (",1),
          f"refine ⟨{', '.join(args)}, ?_⟩\nrw [{f.name}_partial, if_neg]\nintro h\nhave := h 0\nrevert this\nsimp only [NoOverflow, hd]\ndecide")
