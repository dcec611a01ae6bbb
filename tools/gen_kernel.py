#!/usr/bin/env python3
"""Generates Verif/Props/Kernel.lean: loops over buffers of any length (C67)."""
import sys; sys.path.insert(0, '/verif/tools')
from genlib import *
import glob
ST, WHERE = {}, {}
for p in glob.glob(OUT + "/*.lean"):
    mod = os.path.basename(p)[:-5]
    if mod in ("Commute", "Laws", "Outcome", "Kernel", "Link", "History"): continue
    for mm in re.finditer(r"(?ms)^theorem ([A-Za-z0-9_.]+)(.*?) :=(?= by$|$| \S)", open(p).read()):
        ST[mm.group(1)] = re.sub(r"\s+", " ", mm.group(2)).strip(); WHERE[mm.group(1)] = mod
def lanes(body, ps):
    for x, v in zip(ps, ("x", "y")): body = body.replace(f"{x}.lane i", v)
    return None if re.search(r"\bi\b|\.lane|\b(" + "|".join(ps) + r")\b", body) else body
G, mods = {}, set()
def bits(t): return "BitVec " + VT.match(t).group(2)
def sfx(t): m = VT.match(t); return ("q" if int(m[2]) * int(m[3]) == 128 else "") + "_" + {"int": "s", "uint": "u", "float": "f"}[m[1]] + m[2]
for n in TAB:
    try: f = F(n)
    except Exception: continue
    ts = [t for t, _, ptr in f.ps]; k = len(ts)
    if f.n is None or any(p for _, _, p in f.ps) or VT.match(f.ret).group(4) or k not in (1, 2): continue
    if any(not VT.match(t) or VT.match(t).group(4) for t in ts) or len(set(ts)) != 1 or int(VT.match(ts[0])[3]) != f.n: continue
    if "vld1" + sfx(ts[0]) not in TAB or "vst1" + sfx(f.ret) not in TAB: print("no load/store", n); continue
    for suf in ("_spec", "_partial", "_eval"):
        s = ST.get(n + suf)
        mc = s and re.search(rf"\b{n}((?: \w+)+) = (.*)$", s)
        if not mc or "(h" in s: continue
        s, ps = mc.group(2).strip(), mc.group(1).split()
        if len(ps) != len(ts): continue
        m1 = re.fullmatch(r"\.ok ⟨fun i => (.*)⟩", s)
        m2 = re.fullmatch(r"if ∀ i : Fin \d+, (.*) then \.ok ⟨fun i => (.*)⟩ else \.ub \.signedOverflow", s)
        if m1: cond, body = None, lanes(m1.group(1), ps)
        elif m2: cond, body = lanes(m2.group(1), ps), lanes(m2.group(2), ps)
        else: continue
        if body is None or (m2 and cond is None): continue
        mods.add(WHERE[n + suf])
        G.setdefault((ts[0], f.ret, k), {}).setdefault(bool(m2), []).append((n, n + suf, cond, body))
        break
    else: print("no form", n)
m = Mod("Kernel", ["Kernel", "Props.Load", "Props.Store"] + ["Props." + x for x in sorted(mods)],
  "# Loops over buffers of any length (C67)\n\nEach theorem lists intrinsics with the operation they perform on one element and says that the loop\nload - intrinsic - store over `m` blocks performs that operation on every element of the buffers, for every `m`.\n`map1`, `map2` and `update2` (the destination is also the first operand) are the loops; see `Verif/Kernel.lean`.")
m.raw("open Verif.FpOps\nset_option maxRecDepth 4000")
tot = 0
for (t, r, k), d in sorted(G.items()):
    e, e2, w = "." + sfx(t).split("_")[1], "." + sfx(r).split("_")[1], VT.match(t).group(3)
    ld, st = "vld1" + sfx(t), "vst1" + sfx(r)
    nm = t[:-2] + ("" if t == r else "_" + r[:-2])
    for ub, L in sorted(d.items()):
        tot += len(L)
        V = " ".join("xy"[:k]); fty = " → ".join([t] * k) + f" → C {r}"; gty = " → ".join([bits(t)] * k + [bits(r)]); pty = " → ".join([bits(t)] * k + ["Prop"])
        if not ub:
            ty = f"List (({fty}) × ({gty}))"
            ls = ",\n       ".join(f"({n}, fun {V} => {b})" for n, _, _, b in L)
            gg = "fg.2"
        else:
            ty = f"List (({fty}) × ({pty}) × ({gty}))"
            ls = ",\n       ".join(f"({n}, fun {V} => {c}, fun {V} => {b})" for n, _, c, b in L)
            gg = "fg.2.2"
        xs = "(x j)" if k == 1 else "(x j) (y j)"
        def concl(call):
            dst = "dst" if "dst" in call else "s"
            if ub: return f"Maps {dst} ({w} * m) (fun j => fg.2.1 {xs}) (fun j => {gg} {xs}) ({call})"
            return f"∃ p, {call} = .ok p ∧ Stored {dst} (fun j : Fin ({w} * m) => {gg} {xs}) p"
        hx = f"(∀ j < {w} * m, Holds s j (x j))"
        if k == 1:
            q = f"∀ (m : Nat) (s : Ptr {e}) (dst : Ptr {e2}) (x : Nat → {bits(t)}), {hx} → Writable dst ({w} * m) →\n      " + concl(f"map1 {ld} fg.1 {st} m s dst")
        else:
            q = (f"∀ (m : Nat) (s t : Ptr {e}) (x y : Nat → {bits(t)}), {hx} → (∀ j < {w} * m, Holds t j (y j)) →\n      "
                 f"(∀ dst : Ptr {e2}, Writable dst ({w} * m) →\n        " + concl(f"map2 {ld} fg.1 {st} m s t dst") + ")")
            if t == r: q += f" ∧\n      (Writable s ({w} * m) →\n        " + concl(f"update2 {ld} fg.1 {st} m t s") + ")"
        pf = "intro fg hfg\nsimp only [List.mem_cons, List.not_mem_nil, or_false] at hfg\nrcases hfg with " + " | ".join(["rfl"] * len(L)) + "\n"
        for n, th, c, b in L:
            a = f"(e := {e})" + (f" (e' := {e2})")
            P = f"(fun ({V} : {bits(t)}) => {c}) " if ub else ""
            cl = "maps" if ub else "stored"
            AB = "a" if k == 1 else "a b"
            fx = f"(fun {AB} => by dsimp only; rw [{th}])" if ub else f"(fun {AB} => {th} {AB})"
            if k == 1: pf += f"· exact fun m s dst x hx hw => map1_{cl} {a} {P}(fun ({V} : {bits(t)}) => {b}) {ld}_spec {st}_spec {fx} m s dst x hx hw\n"
            else:
                one = f"fun dst hw => map2_{cl} {a} {P}(fun ({V} : {bits(t)}) => {b}) {ld}_spec {st}_spec {fx} m s t dst x y hx hy hw"
                if t == r: pf += f"· exact fun m s t x y hx hy => ⟨{one},\n    fun hw => update2_{cl} (e := {e}) {P}(fun ({V} : {bits(t)}) => {b}) {ld}_spec {st}_spec {fx} m t s x y hx hy hw⟩\n"
                else: pf += f"· exact fun m s t x y hx hy => {one}\n"
        kind = ("unary", "binary")[k - 1]
        m.thm(f"stream_{kind}_{nm}" + ("_checked" if ub else ""),
          f"The loop over `{t}` registers of any number of blocks applies the listed operation to every element" + (", and is undefined if some element overflows" if ub else "") + ".",
          f": ∀ fg ∈\n      ([{ls}] :\n       {ty}),\n    {q}", pf)
# accumulation loops
A = {}
for n in TAB:
    try: f = F(n)
    except Exception: continue
    ts = [t for t, _, ptr in f.ps]; k = len(ts)
    if f.n is None or any(p for _, _, p in f.ps) or VT.match(f.ret).group(4) or k not in (2, 3): continue
    if any(not VT.match(t) or VT.match(t).group(4) for t in ts) or ts[0] != f.ret or len(set(ts[1:])) != 1 or int(VT.match(ts[1])[3]) != f.n: continue
    if "vld1" + sfx(ts[1]) not in TAB: continue
    for suf in ("_spec", "_eval"):
        s = ST.get(n + suf)
        mc = s and re.search(rf"\b{n}((?: \w+)+) = (.*)$", s)
        if not mc or "(h" in s: continue
        s, ps = mc.group(2).strip(), mc.group(1).split()
        m1 = re.fullmatch(r"\.ok ⟨fun i => (.*)⟩", s)
        if not m1: continue
        body = m1.group(1)
        for q, v in zip(ps, ("a", "x", "y")): body = re.sub(rf"\b{q}\.lane i\b", "@" + v, body)
        body = body.replace("@", "")
        if ".lane" in body or "[" in body or re.search(r"\bi\b", body): continue
        assert WHERE[n + suf] in mods, n
        A.setdefault((ts[1], f.ret, k), []).append((n, n + suf, body)); break
    else: print("no fold", n)
for (t, r, k), L in sorted(A.items()):
    e, w = "." + sfx(t).split("_")[1], VT.match(t).group(3); e2 = "." + sfx(r).split("_")[1]
    ld = "vld1" + sfx(t); nm = r[:-2] + ("" if t == r else "_" + t[:-2])
    tot += len(L)
    fty = " → ".join([r] + [t] * (k - 1)) + f" → C {r}"; gty = " → ".join([bits(r)] + [bits(t)] * (k - 1) + [bits(r)])
    V = " ".join("axy"[:k])
    ls = ",\n       ".join(f"({n}, fun {V} => {b})" for n, _, b in L)
    if k == 2:
        q = f"∀ (m : Nat) (s : Ptr {e}) (x : Nat → {bits(t)}), (∀ j < {w} * m, Holds s j (x j)) → ∀ acc : {r},\n      fold1 {ld} fg.1 m s acc =\n        .ok ⟨fun j => (List.range m).foldl (fun a k => fg.2 a (x ({w} * k + j))) (acc.lane j)⟩"
    else:
        q = f"∀ (m : Nat) (s t : Ptr {e}) (x y : Nat → {bits(t)}), (∀ j < {w} * m, Holds s j (x j)) → (∀ j < {w} * m, Holds t j (y j)) →\n      ∀ acc : {r}, fold2 {ld} fg.1 m s t acc =\n        .ok ⟨fun j => (List.range m).foldl (fun a k => fg.2 a (x ({w} * k + j)) (y ({w} * k + j))) (acc.lane j)⟩"
    pf = "intro fg hfg\nsimp only [List.mem_cons, List.not_mem_nil, or_false] at hfg\nrcases hfg with " + " | ".join(["rfl"] * len(L)) + "\n"
    for n, th, b in L:
        G_ = f"(fun (a : {bits(r)}) ({V[2:]} : {bits(t)}) => {b})"
        if k == 2: pf += f"· exact fun m s x hx acc => fold1_ok (e := {e}) (e' := {e2}) {G_} {ld}_spec (fun a b => {th} a b) m s x hx acc\n"
        else: pf += f"· exact fun m s t x y hx hy acc => fold2_ok (e := {e}) (e' := {e2}) {G_} {ld}_spec (fun a b c => {th} a b c) m s t x y hx hy acc\n"
    m.thm(f"fold_{('unary', 'binary')[k - 2]}_{nm}", f"The accumulation loop over any number of blocks of `{t}` folds the listed operation over every {w}-th element, lane by lane.",
      f": ∀ fg ∈\n      ([{ls}] :\n       List (({fty}) × ({gty}))),\n    {q}", pf)
m.raw("""/-- For every number of blocks there are buffers that meet the hypotheses, with distinct neighbours. -/
example (m : Nat) : (∀ j < 16 * m, Holds (⟨(List.range (16 * m)).map fun j => some (BitVec.ofNat 8 j), 0⟩ : Ptr .u8) j (BitVec.ofNat 8 j)) ∧
    Writable (⟨(List.range (16 * m)).map fun j => some (BitVec.ofNat 8 j), 0⟩ : Ptr .u8) (16 * m) := by
  constructor
  · intro j hj
    unfold Holds
    simp only [Nat.zero_add, List.getElem?_map, List.getElem?_range hj, Option.map_some]
  · unfold Writable
    simp only [Nat.zero_add, List.length_map, List.length_range, Nat.le_refl]""")
m.save()
print(tot, len(m.thms))
