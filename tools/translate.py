#!/usr/bin/env python3
"""Translates the function bodies of /repo/neon_sim.cpp into Lean definitions
under /verif/lean/Verif/Model/ (one definition per C++ function).

Usage: translate.py [cpp [outdir]]

The float_parts / RecipEstimate / FPRecipEstimate / vrecpeq_f32 group is
written by hand in Verif/Model/Recip.lean and skipped here.
"""
import re, sys, os, json

CPP = sys.argv[1] if len(sys.argv) > 1 else "/repo/neon_sim.cpp"
OUT = sys.argv[2] if len(sys.argv) > 2 else "/verif/lean/Verif/Model"
SKIP = {"RecipEstimate", "FPRecipEstimate", "vrecpeq_f32"}

src = open(CPP).read()
# --- preprocessor: comments out, #if __fp16 regions out, __aarch64__ kept
lines = src.split("\n")
out, stack = [], []
for l in lines:
    t = l.strip()
    if t.startswith("#if"):
        stack.append("__aarch64__" in t)
        out.append(""); continue
    if t.startswith("#endif"):
        stack.pop(); out.append(""); continue
    if t.startswith("#"):
        out.append(""); continue
    if all(stack):
        out.append(re.sub(r"//.*", "", l))
    else:
        out.append("")
text = "\n".join(out)

TOK = re.compile(r'\s+|(?P<str>"(?:\\.|[^"])*")|(?P<chr>\'(?:\\.|[^\'])\')|(?P<num>0x[0-9A-Fa-f]+|\d+\.\d+|\d+)|(?P<id>[A-Za-z_][\w]*(?:::\w+)*)|(?P<op><<|>>|<=|>=|==|!=|&&|\|\||\+\+|--|\+=|-=|[-+*/%&|^~!<>=?:;,.(){}\[\]])')
def tokenize(s, base=0):
    toks, pos = [], 0
    while pos < len(s):
        m = TOK.match(s, pos)
        assert m, s[pos:pos+40]
        if m.lastgroup:
            toks.append((m.lastgroup, m.group(), s.count("\n", 0, pos) + 1 + base))
        pos = m.end()
    return toks

INT = {f"{u}int{w}_t": f"{'u' if u else 'i'}{w}" for u in ("", "u") for w in (8, 16, 32, 64)}
INT["int"] = "i32"
EL = {f"{u}int{w}_t": f"{'u' if u else 's'}{w}" for u in ("", "u") for w in (8, 16, 32, 64)}
EL.update({"int": "s32", "float32_t": "f32", "float": "f32", "float64_t": "f64", "double": "f64"})
VT = re.compile(r"^(u?int|float)(\d+)x(\d+)(?:x(\d+))?_t$")
def vt(t):
    m = VT.match(t)
    if not m: return None
    e = {"int": "s", "uint": "u", "float": "f"}[m.group(1)] + m.group(2)
    return e, int(m.group(3)), int(m.group(4)) if m.group(4) else None
def istype(t): return t in EL or vt(t) or t in ("size_t", "void")

MACRO = {}
for w in (8, 16, 32):
    MACRO[f"INT{w}_MAX"] = ("i32", 2**(w-1)-1); MACRO[f"INT{w}_MIN"] = ("i32", -2**(w-1))
MACRO["INT64_MAX"] = ("i64", 2**63-1); MACRO["INT64_MIN"] = ("i64", -2**63)
MACRO["UINT8_MAX"] = ("i32", 255); MACRO["UINT16_MAX"] = ("i32", 65535)
MACRO["UINT32_MAX"] = ("u32", 2**32-1); MACRO["UINT64_MAX"] = ("u64", 2**64-1)

# ---------------------------------------------------------------- parser
class P:
    def __init__(s, toks): s.t, s.i = toks, 0
    def pk(s, k=0): return s.t[s.i+k][1] if s.i+k < len(s.t) else None
    def kind(s, k=0): return s.t[s.i+k][0]
    def nx(s): s.i += 1; return s.t[s.i-1][1]
    def ex(s, v):
        assert s.pk() == v, (v, s.t[max(0,s.i-5):s.i+5]); s.i += 1
    # expressions, precedence climbing
    BIN = [["||"], ["&&"], ["|"], ["^"], ["&"], ["==", "!="], ["<", ">", "<=", ">="], ["<<", ">>"], ["+", "-"], ["*", "/", "%"]]
    def expr(s):
        c = s.bin(0)
        if s.pk() == "?":
            s.nx(); a = s.expr(); s.ex(":"); b = s.expr()
            return ("?:", c, a, b)
        return c
    def bin(s, lv):
        if lv == len(s.BIN): return s.un()
        a = s.bin(lv+1)
        while s.pk() in s.BIN[lv]:
            o = s.nx(); b = s.bin(lv+1); a = ("bin", o, a, b)
        return a
    def un(s):
        if s.pk() == "(" and s.pk(1) in EL and s.pk(2) == ")":
            s.nx(); t = s.nx(); s.nx()
            return ("cast", t, s.un())
        if s.pk() in ("~", "!", "-"):
            o = s.nx(); return ("un", o, s.un())
        return s.post()
    def post(s):
        k, v = s.kind(), s.nx()
        if v == "(":
            e = s.expr(); s.ex(")")
        elif k == "num":
            e = ("num", v)
        elif k == "id" and v in ("std::min", "std::max"):
            T = None
            if s.pk() == "<":
                s.nx(); T = s.nx(); s.ex(">")
            s.ex("("); a = s.expr(); s.ex(","); b = s.expr(); s.ex(")")
            e = ("std", v[5:], T, a, b)
        elif k == "id":
            assert s.pk() != "(", v
            e = ("id", v)
        else: assert False, (k, v, s.t[s.i-5:s.i+3])
        while s.pk() in (".", "["):
            if s.nx() == ".": e = ("mem", e, s.nx())
            else:
                ix = s.expr(); s.ex("]"); e = ("idx", e, ix)
        return e
    # statements
    def block(s):
        s.ex("{"); r = []
        while s.pk() != "}":
            st = s.stmt()
            if st: r.append(st)
        s.nx(); return r
    def body(s): return s.block() if s.pk() == "{" else [s.stmt()]
    def stmt(s):
        v = s.pk()
        if v == ";": s.nx(); return None
        if v == "return":
            s.nx(); e = s.expr(); s.ex(";"); return ("return", e)
        if v == "for":
            s.nx(); s.ex("("); ty = s.nx(); assert ty in ("int", "size_t"); x = s.nx(); s.ex("="); lo = s.expr(); s.ex(";")
            assert s.nx() == x; s.ex("<"); hi = s.expr(); s.ex(";"); assert s.nx() == x
            if s.nx() == "++": st = ("num", "1")
            else: st = s.expr()
            s.ex(")"); return ("for", x, lo, hi, st, s.body())
        if v == "if":
            s.nx(); s.ex("("); c = s.expr(); s.ex(")"); a = s.body(); b = []
            if s.pk() == "else": s.nx(); b = s.body()
            return ("if", c, a, b)
        if v == "fprintf":
            while s.nx() != ";": pass
            args = []
            j = s.i-1
            while s.t[j][1] != "fprintf":
                if s.t[j][0] == "str": args.append(s.t[j][1])
                j -= 1
            return ("fprintf", args[0])
        if v == "abort":
            s.nx(); s.ex("("); s.ex(")"); s.ex(";"); return ("abort",)
        if v == "memcpy":
            tk = []
            while s.pk() != ";": tk.append(s.nx())
            s.nx()
            m = re.match(r"memcpy\(&(\w+)\.val,&(\w+)\.val,sizeof\((\w+)\)\*(\d+)\)$", "".join(tk)); assert m, tk
            return ("memcpy", m.group(1), m.group(2), m.group(3), int(m.group(4)))
        const = False
        if v == "const": s.nx(); const = True; v = s.pk()
        if istype(v) and s.kind(1) == "id":
            ty = s.nx(); x = s.nx(); e = None
            if s.pk() == "=": s.nx(); e = s.expr()
            s.ex(";"); return ("decl", ty, x, e)
        lhs = s.post(); o = s.nx(); e = s.expr(); s.ex(";")
        assert o in ("=", "+="), o
        return ("assign", lhs, o, e)

# ---------------------------------------------------------------- find functions
FN = re.compile(r"^(?P<ret>\w+)\s+(?P<name>\w+)\((?P<params>[^()]*)\)\s*\n\{", re.M)
funcs = []
for m in FN.finditer(text):
    start = text.count("\n", 0, m.start()) + 1
    d, j = 0, text.index("{", m.start())
    b0 = j
    while True:
        if text[j] == "{": d += 1
        if text[j] == "}":
            d -= 1
            if d == 0: break
        j += 1
    end = text.count("\n", 0, j) + 1
    funcs.append((start, end, m.group("ret"), m.group("name"), m.group("params").strip(), text[b0:j+1]))

def params(ps):
    r = []
    for p in [x for x in ps.split(",") if x.strip()]:
        t = p.replace("*", " * ").split()
        ptr = "*" in t
        t = [x for x in t if x not in ("const", "*")]
        r.append((t[0], t[1], ptr))
    return r

# ---------------------------------------------------------------- emitter
KW = {"from", "in", "at", "end"}
def lit(v): return f"({v})" if v < 0 else str(v)
class Em:
    def __init__(s, fn):
        s.start, s.end, s.ret, s.name, ps, body = fn
        s.ps = params(ps); s.v = {}
        for t, x, ptr in s.ps:
            if ptr: s.v[x] = ("ptr", EL[t])
            elif vt(t): e, n, k = vt(t); s.v[x] = ("vec", e, n, k)
            elif t == "int": s.v[x] = ("idx",)
            else: s.v[x] = ("scal", EL[t])
        s.body = P(tokenize(body)).block()
        s.sig = f"{s.ret} {s.name}({ps})"
    # is expression a pure index expression?
    def pure(s, e):
        if e[0] == "num": return "." not in e[1] and not e[1].startswith("0x")
        if e[0] == "id": return s.v.get(e[1], ("?",))[0] == "idx"
        if e[0] == "bin" and e[1] in ("+", "-", "*", "/", "%"): return s.pure(e[2]) and s.pure(e[3])
        return False
    def hasidx(s, e):
        if e[0] == "id": return s.v.get(e[1], ("?",))[0] == "idx"
        return e[0] == "bin" and (s.hasidx(e[2]) or s.hasidx(e[3]))
    def ix(s, e):
        """index expression (Lean Int)"""
        if e[0] == "num": return e[1]
        if e[0] == "id":
            k = s.v[e[1]][0]
            if k == "idx": return e[1]
            if k == "val": return f"{e[1]}.idx"
        if e[0] == "bin":
            a, b = s.ix(e[2]), s.ix(e[3])
            if e[2][0] == "bin": a = f"({a})" if e[1] in "*/%" or True else a
            if e[3][0] == "bin": b = f"({b})"
            return f"{a} {e[1]} {b}"
        if e[0] == "idx": return f"(← {s.rd(e)}).idx"
        assert False, e
    def ixp(s, e):
        r = s.ix(e)
        return r if re.match(r"^\w+(\.idx)?$", r) or r.startswith("(←") else f"({r})"
    def rd(s, e):
        """read of an lvalue: returns a monadic Lean term"""
        assert e[0] == "idx"
        b, i = e[1], e[2]
        if b[0] == "id":
            assert s.v[b[1]][0] == "ptr"
            return f"{b[1]}.get {s.ixp(i)}"
        assert b[0] == "mem" and b[2] == "val"
        b = b[1]
        if b[0] == "id": return f"{b[1]}.get {s.ixp(i)}"
        assert b[0] == "idx" and b[1][0] == "mem" and b[1][1][0] == "id", b
        return f"{b[1][1][1]}.get {s.ixp(b[2])} {s.ixp(i)}"
    def val(s, e):
        """value expression: pure Lean term of type Val possibly containing (← ..)"""
        if e[0] == "num":
            if "." in e[1]:
                import struct
                b = struct.unpack("<Q", struct.pack("<d", float(e[1])))[0]
                return f"(.f64 0x{b:016X}#64)"
            n = int(e[1], 0)
            if n < 2**31: return f"(vint {n})"
            assert e[1].startswith("0x") and n < 2**32
            return f"(.int .u32 {n})"
        if e[0] == "id":
            if e[1] in MACRO:
                t, n = MACRO[e[1]]
                return f"(.int .{t} {lit(n)})" if t != "i32" else f"(vint {lit(n)})"
            k = s.v[e[1]]
            if k[0] == "idx": return f"(vint {e[1]})"
            if k[0] == "val": return e[1]
            if k[0] == "scal": return f"(.ofBits .{k[1]} {e[1]})"
            assert False, e
        if e[0] == "idx": return f"(← {s.rd(e)})"
        if e[0] == "cast": return f"(← Val.cast .{EL[e[1]]} {s.val(e[2])})"
        if e[0] == "un":
            assert e[1] == "~"; return f"(← Val.not {s.val(e[2])})"
        if e[0] == "bin":
            f = {"+": "add", "-": "sub", "*": "mul", "/": "div", "<<": "shl", ">>": "shr", "&": "and", "|": "or", "^": "xor"}[e[1]]
            return f"(← Val.{f} {s.val(e[2])} {s.val(e[3])})"
        if e[0] == "std":
            T = EL[e[2]] if e[2] else "s32"
            if not e[2]: assert s.sty(e[3]) == s.sty(e[4]) == "i32", (s.name, e)
            return f"(← Val.std{e[1].capitalize()} .{T} {s.val(e[3])} {s.val(e[4])})"
        if e[0] == "?:":
            return f"(← if {s.cond(e[1])} then do pure {s.val(e[2])} else do pure {s.val(e[3])})"
        assert False, e
    def sty(s, e):
        """static integer type, only what std::min/max deduction needs"""
        R = {"i32": 0, "u32": 1, "i64": 2, "u64": 3}
        pr = lambda t: t if t in R else "i32"
        if e[0] == "num": return "i32"
        if e[0] == "id" and e[1] in MACRO: return MACRO[e[1]][0]
        if e[0] == "id": return "i32"
        if e[0] == "bin" and e[1] in (">>", "<<"): return pr(s.sty(e[2]))
        if e[0] == "bin": return max(pr(s.sty(e[2])), pr(s.sty(e[3])), key=R.get)
        if e[0] == "idx":
            k = s.v[e[1][1][1]][1]; return ("i" if k[0] == "s" else "u") + k[1:]
        if e[0] == "std": return INT[e[2]] if e[2] else s.sty(e[3])
        assert False, e
    def cond(s, e):
        if e[0] == "bin" and e[1] in ("&&", "||"):
            a, b = s.cond(e[2]), s.cond(e[3])
            if s.cpure(e[2]) and s.cpure(e[3]):
                return f"({a} {'∧' if e[1]=='&&' else '∨'} {b})"
            return f"(← {'cAnd' if e[1]=='&&' else 'cOr'} (do pure ({a})) (do pure ({b})))"
        if e[0] == "un" and e[1] == "!":
            return f"¬{s.cond(e[2])}"
        if e[0] == "bin" and e[1] in ("<", ">", "<=", ">=", "=="):
            if s.pure(e[2]) and s.pure(e[3]):
                o = {"<=": "≤", ">=": "≥", "==": "="}.get(e[1], e[1])
                return f"{s.ix(e[2])} {o} {s.ix(e[3])}"
            f = {"<": "lt", ">": "gt", "==": "eq"}[e[1]]
            return f"Val.{f} {s.val(e[2])} {s.val(e[3])}"
        return f"Val.truth {s.val(e)}"
    def cpure(s, e):
        if e[0] == "bin" and e[1] in ("&&", "||"): return s.cpure(e[2]) and s.cpure(e[3])
        if e[0] == "bin": return s.pure(e[2]) and s.pure(e[3])
        return False
    # variables assigned by a statement list (declared outside)
    def mods(s, sts):
        r, loc = [], set()
        def add(x):
            if x not in loc and x not in r: r.append(x)
        for st in sts:
            if st[0] == "decl": loc.add(st[2])
            elif st[0] == "assign":
                b = st[1]
                while b[0] in ("idx", "mem"): b = b[1]
                add(b[1])
            elif st[0] == "memcpy": add(st[1])
            elif st[0] == "for":
                for x in s.mods(st[5]): add(x)
            elif st[0] == "if":
                for x in s.mods(st[2]) + s.mods(st[3]): add(x)
        return r
    def tup(s, xs): return xs[0] if len(xs) == 1 else "(" + ", ".join(xs) + ")"
    def stmts(s, sts, ind, tail):
        """emit statements; `tail` is the list of variables to return (None: function level)"""
        L, pad = [], "  " * ind
        for n, st in enumerate(sts):
            k = st[0]
            if k == "decl":
                _, ty, x, e = st
                v = vt(ty)
                if v:
                    el, ln, kk = v
                    if e is None:
                        if kk: s.v[x] = ("arr2", el, ln, kk); L.append(f"{pad}let {x} : Arr2 .{el} {ln} {kk} := Arr2.undef")
                        else: s.v[x] = ("arr", el, ln); L.append(f"{pad}let {x} : Arr .{el} {ln} := Arr.undef")
                    else: assert False
                elif ty == "int" and s.pure(e):
                    s.v[x] = ("idx",); L.append(f"{pad}let {x} : Int := {s.ix(e)}")
                else:
                    L.append(f"{pad}let {x} ← Val.cast .{EL[ty]} {s.val(e)}")
                    s.v[x] = ("val", EL[ty])
            elif k == "assign":
                _, lhs, o, e = st
                if o == "+=": e = ("bin", "+", lhs, e)
                if lhs[0] == "id":
                    x = lhs[1]; assert s.v[x][0] == "val"
                    L.append(f"{pad}let {x} ← Val.cast .{s.v[x][1]} {s.val(e)}")
                    continue
                b, i = lhs[1], lhs[2]
                if b[0] == "id": x = b[1]; ixs = [i]; assert s.v[x][0] == "ptr"
                elif b[1][0] == "id": x = b[1][1]; ixs = [i]
                else: x = b[1][1][1][1]; ixs = [b[1][2], i]
                L.append(f"{pad}let {x} ← {x}.set {' '.join(map(s.ixp, ixs))} {s.val(e)}")
            elif k == "memcpy":
                w = int(re.search(r"\d+", st[3]).group()) // 8
                L.append(f"{pad}let {st[1]} ← memcpyVec {st[1]} {st[2]} ({w} * {st[4]})")
            elif k == "for":
                _, x, lo, hi, step, bd = st
                ms = s.mods(bd); t = s.tup(ms)
                L.append(f"{pad}let {t} ← cfor {s.ixp(lo)} {s.ixp(hi)} {s.ixp(step)} {t} fun {x} {t} => do")
                s.v[x] = ("idx",)
                L += s.stmts(bd, ind+1, ms)
            elif k == "if":
                _, c, a, b = st
                if a[0][0] == "fprintf":
                    assert a[1][0] == "abort" and not b
                    msg = a[0][1].replace("%s", s.cname())
                    L.append(f"{pad}if {s.cond(c)} then .abort {msg} else do")
                    L += s.stmts(sts[n+1:], ind+1, tail)
                    return L
                if a[0][0] == "return":
                    assert False
                ms = s.mods(a + b); t = s.tup(ms)
                L.append(f"{pad}let {t} ←")
                L += s.ifs(st, ind+1, ms)
            elif k == "return":
                e = st[1]
                if e[0] == "id" and s.v[e[1]][0] in ("arr", "arr2"): L.append(f"{pad}{e[1]}.ret")
                elif e[0] == "id" and s.v[e[1]][0] == "vec": L.append(f"{pad}pure {e[1]}")
                else: L.append(f"{pad}Val.toBits .{EL[s.ret]} {s.val(e)}")
                assert n == len(sts)-1
                return L
            else: assert False, st
        if tail is not None: L.append(f"{pad}pure {s.tup(tail)}")
        elif s.ret == "void":
            x = [x for t, x, p in s.ps if p][0]; L.append(f"{pad}pure {x}")
        return L
    def ifs(s, st, ind, ms):
        _, c, a, b = st
        pad = "  " * ind
        L = [f"{pad}if {s.cond(c)} then do"]
        sv = dict(s.v); L += s.stmts(a, ind+1, ms); s.v = sv
        L.append(f"{pad}else do")
        sv = dict(s.v)
        L += s.stmts(b, ind+1, ms)
        s.v = sv
        return L
    def cname(s): return s.name
    def emit(s, leanname):
        tm = {"int": "Int"}
        ps = []
        for t, x, ptr in s.ps:
            ty = f"Ptr .{EL[t]}" if ptr else ("Int" if t == "int" else {"float":"float32_t"}.get(t, t))
            ps.append((x, ty))
        out = []
        i = 0
        while i < len(ps):
            j = i
            while j+1 < len(ps) and ps[j+1][1] == ps[i][1]: j += 1
            out.append(f"({' '.join(p[0] for p in ps[i:j+1])} : {ps[i][1]})"); i = j+1
        if s.ret == "void": rt = "Ptr ." + [EL[t] for t, x, p in s.ps if p][0]
        else: rt = {"float": "float32_t"}.get(s.ret, s.ret)
        if rt.startswith("Ptr"): rt = f"({rt})"
        body = s.stmts(s.body, 1, None)
        return f"/-- `neon_sim.cpp:{s.start}-{s.end}`: `{s.sig}` -/\ndef {leanname} {' '.join(out)} : C {rt} := do\n" + "\n".join(body) + "\n"

# ---------------------------------------------------------------- modules
GROUPS = [  # (module, last line of the group)
    ("Load", 735), ("Store", 1210), ("Add", 1787), ("Sub", 2696), ("Mul", 3270), ("Move", 3752),
    ("Shift", 4004), ("Convert", 4257), ("Perm", 4824), ("Logic", 5542), ("Rest", 10**9)]
def main():
    names = {}
    mods = {}
    table = []
    for f in funcs:
        if f[3] in SKIP or f[3].startswith("float_parts"): continue
        em = Em(f)
        ln = f[3]
        if ln in names: ln = ln + "_overload2"
        names[ln] = f
        txt = em.emit(ln)
        g = next(m for m, last in GROUPS if f[0] <= last)
        mods.setdefault(g, []).append((ln, f, txt))
        table.append((ln, f[0], f[1], f[2], f[3], f[4], g))
    os.makedirs(OUT, exist_ok=True)
    for g, fs in mods.items():
        with open(f"{OUT}/{g}.lean", "w") as h:
            h.write("import Verif.Types\n\n/-! Generated from `neon_sim.cpp` by `tools/translate.py`. -/\n\nset_option linter.unusedVariables false\n\nnamespace Verif.Model\n\nvariable [Dialect]\n\n")
            h.write("\n".join(t for _, _, t in fs))
            h.write("\nend Verif.Model\n")
    json.dump(table, open("/tmp/functable.json", "w"))
    print({g: len(fs) for g, fs in mods.items()}, sum(len(f) for f in mods.values()))
HDR = "/repo/neon_sim.h"
def types():
    h = open(os.path.join(os.path.dirname(OUT), "Types.lean"), "w")
    h.write("import Verif.Core\n\n/-! # Scalar and register types of `neon_sim.h` (generated by `tools/translate.py`).\n`float16` types are not modelled. -/\n\nnamespace Verif\n\n")
    for n in ("int8", "uint8", "int16", "uint16", "int32", "uint32", "int64", "uint64", "float32", "float64"):
        h.write(f"abbrev {n}_t := BitVec (Elem.bits .{EL[n+'_t']})\n")
    h.write("\n")
    t = open(HDR).read()
    for m in re.finditer(r"(?:typedef )?struct (\w+)\s*\{\s*(\w+) val\[(\d+)\];\s*\}\s*(\w*);", t):
        n, el, k = m.group(1), m.group(2), m.group(3)
        if "float16" in n or "poly" in n: continue
        a, b = t.count("\n", 0, m.start()) + 1, t.count("\n", 0, m.end()) + 1
        v = vt(n)
        if v[2] is None: assert EL[el] == v[0] and int(k) == v[1]
        else: assert vt(el) == (v[0], v[1], None) and int(k) == v[2], n
        h.write(f"/-- `neon_sim.h:{a}-{b}` -/\nabbrev {n} := " + (f"Vec .{v[0]} {v[1]}" if v[2] is None else f"VecArr .{v[0]} {v[1]} {v[2]}") + "\n")
    h.write("\nend Verif\n")
if __name__ == "__main__":
    main(); types()
