#!/usr/bin/env python3
"""Inserts after theorems with hypotheses a line `example := ...` that applies the theorem to concrete operands meeting the hypotheses.
Run after the generators that write the property modules; lines it inserted before are replaced."""
import re, glob, os, sys, json
MODS = ["AddSub", "Mul", "NarrowHigh", "Widen", "Shift", "Laws", "Outcome", "Perm", "Move", "Load", "Store", "Strict", "Select"]
W = {"8": 8, "16": 16, "32": 32, "64": 64}
def split(head):
    """binders and statement of a theorem head"""
    out, d, cur = [], 0, ""
    for k, c in enumerate(head):
        if d == 0 and c == ":": return out, head[k+1:]
        if c in "([{": d += 1
        cur += c
        if c in ")]}":
            d -= 1
            if d == 0: out.append(cur.strip()); cur = ""
    raise ValueError(head)
def vec(t, val):
    m = re.fullmatch(r"(u?int|float)(\d+)x(\d+)(?:x(\d))?_t", t)
    w = m[2]
    if m[4]: return f"⟨fun j => ⟨fun i => BitVec.ofNat {w} ({val} + 40 * j.val + i.val)⟩⟩"
    if val == "min": return f"⟨fun _ => BitVec.intMin {w}⟩"
    if val == "max": return f"⟨fun _ => BitVec.intMax {w}⟩"
    return f"⟨fun i => BitVec.ofNat {w} ({val} + i.val)⟩"
def args(name, bs, over=False):
    """concrete arguments for the binders"""
    L = []; inst = ".wrapping" if any("wrapv = true" in b for b in bs) else ".strict"
    hyps = " ".join(b for b in bs if re.match(r"\((h\w*) :", b))
    nv = 0
    for b in bs:
        if b.startswith("[Dialect]"): L.append(inst); continue
        m = re.match(r"([({\[])(.*?) : (.*)[)}\]]$", b, re.S)
        if not m or m[1] != "(": raise ValueError(b)
        ns, t = m[2].split(), m[3].strip()
        for n in ns:
            if re.match(r"h\w*$", n):
                if "wrapv" in t: L.append("rfl")
                elif re.search(r"∀ \w+ : Fin \d+, Readable", t): L.append("(by intro i; exact ⟨_, rfl⟩)" if False else "(fun i => ⟨BitVec.ofNat _ (3 * i.val), by revert i; decide⟩)")
                elif "¬ Readable" in t: L.append("(by rintro ⟨x, hx⟩; cases hx)")
                else: L.append("(by decide)")
            elif re.fullmatch(r"(u?int|float)\d+x\d+(x\d)?_t", t):
                v = {"a": 3, "a'": 7, "b": 2, "b'": 2, "c": 5}.get(n, 4 - min(nv, 3)); nv += 1
                if "toInt < 0" in hyps: v = "min"
                if over: v = over[nv - 1] if nv <= len(over) else over[-1]
                L.append("(" + vec(t, v) + ")")
            elif re.fullmatch(r"(u?int|float)\d+_t", t): L.append("7"); nv += 1
            elif t == "Nat": L.append("9" if f"9 ≤ {n}" in hyps else "3")
            elif t == "Int": L.append("(-1)" if re.search(rf"¬ \(\d ≤ {n}", hyps) else "2")
            elif t.startswith("Fin "): L.append("2")
            elif t.startswith("Ptr"):
                if "Readable ptr 0" in hyps: L.append("⟨[none], 0⟩")
                elif "Readable" in hyps: L.append("⟨(List.range 64).map fun k => some (BitVec.ofNat _ (3 * k)), 0⟩")
                elif "Holds" in hyps: L.append("⟨[some 9], 0⟩")
                elif "+ 32 = " in hyps: L.append("⟨List.replicate 33 none, 1⟩")
                elif "+ 8 = " in hyps: L.append("⟨List.replicate 9 none, 1⟩")
                else: L.append("⟨List.replicate 66 none, 1⟩")
            elif t.startswith("BitVec"): L.append("9")
            else: raise ValueError(f"{n} : {t}")
    return " ".join(L), "@" if any(b.startswith("[Dialect]") for b in bs) else ""
SPECIAL = {
    "vst4_u8_vld4_u8_wrong": "example := vst4_u8_vld4_u8_wrong ⟨List.replicate 34 (some 5), 1⟩ ⟨fun j => ⟨fun i => BitVec.ofNat 8 (4 + 40 * j.val + i.val)⟩⟩ (by decide) _ (ok_of (by decide +kernel)).choose_spec 2",
    "vst4_u32_vld4_u32_wrong": "example := vst4_u32_vld4_u32_wrong ⟨List.replicate 34 (some 5), 1⟩ ⟨fun j => ⟨fun i => BitVec.ofNat 32 (4 + 40 * j.val + i.val)⟩⟩ (by decide) _ (ok_of (by decide +kernel)).choose_spec 1",
    "vmlaq_u16_factor_partial": "example := @vmlaq_u16_factor_partial .strict ⟨fun i => BitVec.ofNat 16 (4 + i.val)⟩ ⟨fun i => BitVec.ofNat 16 (300 + i.val)⟩ ⟨fun i => BitVec.ofNat 16 (200 + i.val)⟩ _ rfl",
    "vqtbl1_u8_oob": "example := vqtbl1_u8_oob ⟨fun i => BitVec.ofNat 8 (4 + i.val)⟩ ⟨fun i => BitVec.ofNat 8 (12 + i.val)⟩ 4 (by decide)",
}
def one(mod, name, head):
    if name in SPECIAL: return [SPECIAL[name]]
    bs, stmt = split(head)
    hyp = any(re.match(r"\(h\w* :", b) for b in bs)
    if mod == "Strict":
        # small operands, and operands that overflow
        a, at = args(name, bs)
        ov = ["max", "min"] if re.search("sub|mls", name) else ["max", "max"]
        if "mlsl" in name: ov = ["max", "max", "min"]
        if re.search("mla", name): ov = ["max", "max", "max"]
        o, _ = args(name, bs, ov)
        return [f"example := ({at}{name} {a}).1 (by decide +kernel)", f"example := ({at}{name} {o}).2 rfl (by decide +kernel)"]
    if not hyp: return []
    a, at = args(name, bs)
    return [f"example := {at}{name} {a}"]
def main():
    for mod in (sys.argv[1:] or MODS):
        p = f"/verif/lean/Verif/Props/{mod}.lean"
        s = re.sub(r"(?m)^example := .*\n", "", open(p).read())
        chunks = re.split(r"(?m)^(?=theorem |/--|/-!|example|def |instance |end |section|private |namespace |open |variable |set_option |noncomputable |@\[)", s)
        out, n, bad = [], 0, []
        for k, c in enumerate(chunks):
            m = re.match(r"(?s)theorem ([\w.']+)(.*?)\s:=[ \n]", c)
            if m:
                try: L = one(mod, m[1], m[2])
                except ValueError as e: L = []; bad.append((m[1], str(e)[:80]))
                if L:
                    c = c.rstrip("\n") + "\n" + "\n".join(L) + "\n\n"; n += len(L)
            out.append(c)
        open(p, "w").write("".join(out))
        print(mod, n, "examples", bad[:5], len(bad))
main()

def kernel():
    """the loop theorems of Kernel.lean, on the buffer `demo`"""
    path = "/verif/lean/Verif/Props/Kernel.lean"
    ls = [l for l in open(path).read().split("\n") if not l.startswith("example := ")]
    out = []; k = 0; n = 0
    while k < len(ls):
        out.append(ls[k])
        m = re.match(r"theorem ((?:stream|fold)_\w+)( \[Dialect\])?", ls[k])
        if m:
            head = ""
            while ls[k] != "":
                head += ls[k] + "\n"; k += 1
                if k < len(ls): out.append(ls[k])
            out.pop()
            f = ("@" + m[1] + " .strict") if m[2] else m[1]
            b = re.search(r"∀ \(m : Nat\) \((s|s t) : Ptr \.(\w+)\)(?: \(dst : Ptr \.(\w+)\))?.*?j < (\d+) \* m", head)
            if b:
                w = int(b[4]) * 3; d = f"(demo .{b[2]} {w})"; h = f"(demo_holds .{b[2]} {w})"
                if b[1] == "s t": e = f"{f} _ (.head _) 3 {d} {d} _ _ {h} {h}"
                elif b[3]: e = f"{f} _ (.head _) 3 {d} (demo .{b[3]} {w}) _ {h} (demo_writable .{b[3]} {w})"
                else: e = f"{f} _ (.head _) 3 {d} _ {h}"
                out.append("example := " + e); n += 1
            else: print("no example", m[1])
            out.append("")
        k += 1
    open(path, "w").write("\n".join(out))
    print("Kernel", n, "examples")
kernel()
