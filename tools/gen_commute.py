#!/usr/bin/env python3
"""Generates Verif/Props/Commute.lean: lane-wise operations commute with lane permutations (C62)."""
import sys; sys.path.insert(0, '/verif/tools')
from genlib import *
import glob
ST = {}
for p in glob.glob(OUT + "/*.lean"):
    if p.endswith(("Commute.lean", "Laws.lean", "Outcome.lean")): continue
    for mm in re.finditer(r"(?ms)^theorem ([A-Za-z0-9_.]+)(.*?) :=(?= by$|$| \S)", open(p).read()):
        ST[mm.group(1)] = re.sub(r"\s+", " ", mm.group(2)).strip()
def lanes(body, ps):
    for x, v in zip(ps, ("x", "y", "z")): body = body.replace(f"{x}.lane i", v)
    return None if re.search(r"\bi\b|\.lane|\b(" + "|".join(ps) + r")\b", body) else body
KINDS = {1: {}, 2: {}, 3: {}}
for n in TAB:
    try: f = F(n)
    except Exception: continue
    ts = [t for t, _, ptr in f.ps]
    if f.n is None or any(p for _, _, p in f.ps) or not VT.match(f.ret) or VT.match(f.ret).group(4): continue
    k = sum(t == f.ret for t in ts)          # register operands come first, scalars after
    if k == 0 or any(t != f.ret for t in ts[:k]) or any(t not in EL for t in ts[k:]): continue
    for suf in ("_spec", "_partial", "_eval"):
        s = ST.get(n + suf)
        mc = s and re.search(rf"\b{n}((?: \w+)+) = (.*)$", s)
        if not mc or "(h" in s: continue
        s, ps = mc.group(2).strip(), mc.group(1).split()
        if len(ps) != len(ts): continue
        m1 = re.fullmatch(r"\.ok ⟨fun i => (.*)⟩", s)
        m2 = re.fullmatch(r"if ∀ i : Fin \d+, (.*) then \.ok ⟨fun i => (.*)⟩ else \.ub \.signedOverflow", s)
        def conv(t):
            t = lanes(t, ps[:k])
            if t is not None and len(ps) > k: t = re.sub(rf"\b{ps[k]}\b", "c", t)
            return t
        if m1: cond, body = None, conv(m1.group(1))
        elif m2: cond, body = conv(m2.group(1)), conv(m2.group(2))
        else: continue
        if body is None or (m2 and cond is None): continue
        X = " ".join("xyz"[:k]); A = " ".join(("a", "b", "d")[:k]); U = " ".join("_" * k)
        sc = " c" if len(ps) > k else ""
        pf = (f"⟨fun {X} => {cond}, fun {U} => inferInstance, fun {X} => {body}, fun {A} => {n}{suf} {A}{sc}⟩" if cond else f".of_ok (fun {X} => {body}) fun {A} => {n}{suf} {A}{sc}")
        name = n if not sc else f"(fun {A} => {n} {A} c)"
        KINDS[k].setdefault(f.ret, []).append((name, pf, EL[ts[k]] if sc else None))
        break
PERM = {}
for n in TAB:
    if re.match(r"vrev(16|32|64)q?_", n) and n + "_spec" in ST:
        f = F(n); e = re.search(r"vec\[(.*)\]⟩", ST[n + "_spec"]).group(1)
        s = f"fun i => ⟨{e}, by omega⟩"
        PERM.setdefault(f.ret, []).append((n, f"⟨{s}, {s}, fun i => Fin.ext (by dsimp only; omega), fun a => {n}_spec a⟩"))
PERM2 = {}
for n in TAB:
    mm = re.match(r"v(trn|zip|uzp)q?_", n)
    if mm and n + "_spec" in ST:
        f = F(n); k = mm.group(1); t = f.ps[0][0]; nn = int(VT.match(t).group(3)); h = nn // 2
        c, ex, ey, inv = {"trn": ("x.2.val % 2 = 0", "x.2.val + x.1.val", "x.2.val - 1 + x.1.val", None),
              "zip": ("x.2.val % 2 = 0", f"{h} * x.1.val + x.2.val / 2", f"{h} * x.1.val + x.2.val / 2", (f"x.2.val / {h}", f"2 * (x.2.val % {h}) + x.1.val")),
              "uzp": (f"2 * x.2.val + x.1.val < {nn}", "2 * x.2.val + x.1.val", f"2 * x.2.val + x.1.val - {nn}", (f"(x.1.val * {nn} + x.2.val) % 2", f"(x.1.val * {nn} + x.2.val) / 2"))}[k]
        s = f"fun x => if h : {c} then (0, ⟨{ex}, by omega⟩) else (1, ⟨{ey}, by omega⟩)"
        ti = s if inv is None else f"fun x => (⟨{inv[0]}, by omega⟩, ⟨{inv[1]}, by omega⟩)"
        cj = c.replace("x.2", "i").replace("x.1", "j")
        PERM2.setdefault(t, []).append((n, f"""by
    refine ⟨{s}, {ti}, by rintro ⟨j, i⟩; revert j i; decide, fun a b => ?_⟩
    rw [{n}_spec]
    refine congrArg C.ok (VecArr.ext (funext fun j => Vec.ext (funext fun i => ?_)))
    by_cases h : {cj}
    · simp only [dif_pos h]; rfl
    · simp only [dif_neg h]; rfl"""))
def mem(lst, prop, var, h):
    k = len(lst)
    pat = " | ".join(["rfl"] * k)
    out = f"have {h}' : {prop} {var} := by\n  simp only [List.mem_cons, List.not_mem_nil, or_false] at {h}\n  rcases {h} with {pat}\n"
    return out + "\n".join(f"  · exact {pf}".replace("\n", "\n  ") for _, pf in lst)
def wrap(ns):
    out, cur = [], ""
    for x in ns:
        if len(cur) + len(x) > 96: out.append(cur); cur = ""
        cur += x + ", "
    out.append(cur[:-2]); return "\n      ".join(out)
m = Mod("Commute", ["Commute", "Props.AddSub", "Props.NarrowHigh", "Props.Saturate", "Props.Mul", "Props.MaxMin", "Props.Logic", "Props.Perm", "Props.QSub64", "Props.FloatSel", "Props.Float", "Props.Recip", "Props.Select"],
  "# Lane-wise operations commute with lane permutations (C62)\n\nEach theorem names the operations and the permutations it covers.  Both sides are outcomes: where one side is\nundefined (signed overflow in C++11) so is the other.")
m.raw("open Verif.FpOps")
tot = 0
ELT = {v: k for k, v in EL.items() if k != "float"}
for t in sorted(set().union(*KINDS.values())):
    R, Z = PERM.get(t, []), PERM2.get(t, [])
    s = t.replace("_t", "")
    for k, kind, cls, vs in ((1, "unary", "LaneWise1", ["a"]), (2, "binary", "LaneWise", ["a", "b"]), (3, "ternary", "LaneWise3", ["a", "b", "d"])):
        L = KINDS[k].get(t, [])
        cs = sorted({c for _, _, c in L if c}); assert len(cs) <= 1
        cb = f"(c : {ELT[cs[0]]}) " if cs else ""
        L = [(n, pf) for n, pf, _ in L]
        if L and R:
            tot += len(L) * len(R)
            m.thm(f"rev_{kind}_{s}", f"Reversing the lanes of the operands and then applying a lane-wise operation on `{t}` is the same as applying it first and reversing the result.",
              f"{cb}:\n    ∀ f ∈ [{wrap([n for n, _ in L])}],\n    ∀ p ∈ [{wrap([n for n, _ in R])}],\n    ∀ {' '.join(vs)} : {t}, (do f {' '.join(f'(← p {v})' for v in vs)}) = (do p (← f {' '.join(vs)}))",
              f"intro f hf p hp {' '.join(vs)}\n" + mem(L, cls, "f", "hf") + "\n" + mem(R, "Permutes", "p", "hp") + f"\nexact hf'.comm hp' {' '.join(vs)}")
        if k == 2 and L and Z:
            tot += len(L) * len(Z)
            m.thm(f"pair_binary_{s}", f"Transposing, zipping or unzipping two pairs of operands and then applying a lane-wise operation on `{t}` is the same as applying it first and permuting the results.",
              f":\n    ∀ f ∈ [{wrap([n for n, _ in L])}],\n    ∀ p ∈ [{wrap([n for n, _ in Z])}],\n    ∀ a b c d : {t},\n      (do let x ← p a b; let y ← p c d; let r ← f x[0] y[0]; let s ← f x[1] y[1]; pure (r, s)) =\n        (do let u ← f a c; let v ← f b d; let z ← p u v; pure (z[0], z[1]))",
              "intro f hf p hp a b c d\n" + mem(L, "LaneWise", "f", "hf") + "\n" + mem(Z, "Permutes2", "p", "hp") + "\nexact hf'.comm2 hp' a b c d")
m.save()
print(tot, "pairs", {k: {t: [x[0] for x in v] for t, v in d.items()} for k, d in KINDS.items()})
