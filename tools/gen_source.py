#!/usr/bin/env python3
"""Writes Verif/Props/Src*.lean: the text of every function of neon_sim.cpp and the theorem that running the text is running the model."""
import re, sys, os
sys.argv = [sys.argv[0]]
sys.path.insert(0, "/verif/tools")
import translate as T
RAW = open("/repo/neon_sim.cpp").read().split("\n")
def num(x):
    n = 0
    for c in x: n = n * 256 + ord(c)
    return n
def lit(s): return '"' + s.replace("\\", "\\\\").replace('"', '\\"') + '"'
INTTY = {"int": "i32", "size_t": "u64"}
def ops(e):
    """number of operations of an expression"""
    return (e[0] == "bin") + sum(ops(a) for a in e[1:] if isinstance(a, tuple))
class G:
    def __init__(s, fn, ln):
        s.em = T.Em(fn); s.ln = ln; s.fn = fn
        s.env = []            # innermost first: (name, lean object)
        for t, x, ptr in s.em.ps:
            s.env.insert(0, (x, s.param(t, x, ptr)))
    def param(s, t, x, ptr):
        if ptr: return f".ptr .{T.EL[t]} {x}"
        v = T.vt(t)
        if v and v[2]: return f".arr .{v[0]} {v[1]} {v[2]} (ofRegs {x})"
        if v: return f".vec .{v[0]} {v[1]} (Arr.ofVec {x})"
        if t == "int": return f".sc .s32 (some (vint {x}))"
        return f".sc .{T.EL[t]} (some (.ofBits .{T.EL[t]} {x}))"
    def arg(s, t, x, ptr):
        if ptr: return f".ofPtr {x}"
        v = T.vt(t)
        if v and v[2]: return f".ofVecArr {x}"
        if v: return f".ofVec {x}"
        if t == "int": return f".ofInt {x}"
        return f".ofScalar .{T.EL[t]} {x}"
    def local(s, ty, x):
        v = T.vt(ty)
        if v and v[2]: return f".arr .{v[0]} {v[1]} {v[2]} Arr2.undef"
        if v: return f".vec .{v[0]} {v[1]} Arr.undef"
        return None
    def out(s, env, ms):
        """the variables in scope as a function of the loop state ms"""
        L = []
        for x, o in env:
            L.append(f"({num(x)}, {o})")
        pat = ms[0] if len(ms) == 1 else "(" + ", ".join(ms) + ")"
        return f"(fun {pat} => [{', '.join(L)}])"
    def prove(s, sts, env, ind, again=False):
        """proof of a statement list in an environment"""
        pad = "  " * ind
        L = [pad + ("try cpp_simp" if again else "cpp_simp")]
        first = True
        for n, st in enumerate(sts):
            if st[0] == "decl":
                o = s.local(st[1], st[2])
                if o is None:
                    if st[1] == "int" and s.em.pure(st[3]): o = f".sc .s32 (some (vint ({s.em.ix(st[3])})))"; s.em.v[st[2]] = ("idx",)
                    else:
                        o = f".sc .{T.EL[st[1]]} (some {st[2]})"
                        for _ in range(ops(st[3])): L.append(pad + "cpp_bind t")
                        L.append(pad + f"cpp_bind {st[2]}")
                env = [(st[2], o)] + env
            elif st[0] == "assign" and any(q[0] == "for" for q in sts[n:]):
                L.append(pad + f"cpp_bind {st[1][1][1][1]}")
            elif st[0] == "for":
                ms = s.em.mods(st[5])
                for m in ms:
                    env = [(x, re.sub(r"^(\.(?:vec \S+ \d+|arr \S+ \d+ \d+|ptr \S+)) .*$", lambda q: f"{q[1]} {m}", o) if x == m else o) for x, o in env]
                L.append(pad + f"cpp_loop {s.out(env, ms)}")
                s.em.v[st[1]] = ("idx",)
                inner = s.body(st, env, ind + 1, ms)
                L += [pad + "· " + inner[0].strip()] + inner[1:]
                rest = s.tail(sts[n+1:], env, ind + 1, ms)
                L += [pad + "· " + rest[0].strip()] + rest[1:]
                return L
            elif st[0] == "if" and st[2][0][0] == "fprintf":
                L += [pad + "cpp_check"]
                rest = s.prove(sts[n+1:], env, ind + 1, True)
                L += [pad + "· " + rest[0].strip()] + rest[1:]
                return L
        return L
    def body(s, st, env, ind, ms):
        pad = "  " * ind
        pat = ms[0] if len(ms) == 1 else "⟨" + ", ".join(ms) + "⟩"
        L = [pad + f"rintro {st[1]} {pat} h1 h2"]
        if any(q[0] == "for" for q in st[5]):
            return L + s.prove(st[5], [(st[1], f".sc .s32 (some (.int .i32 {st[1]}))")] + env, ind)
        if re.fullmatch("vtbl[24]_u8", s.ln): return L + [pad + "cpp_byte idx"]
        return L + [pad + "cpp_body"]
    def tail(s, sts, env, ind, ms):
        pad = "  " * ind
        pat = ms[0] if len(ms) == 1 else "⟨" + ", ".join(ms) + "⟩"
        return [pad + f"rintro {pat}"] + s.prove(sts, env, ind)
    def emit(s):
        st, en, ret, name, ps, _ = s.fn
        text = "\n".join(RAW[st-1:en]) + "\n"
        out = []; hyps = []
        for t, x, ptr in s.em.ps:
            ty = f"Ptr .{T.EL[t]}" if ptr else ("Int" if t == "int" else {"float": "float32_t"}.get(t, t))
            out.append(f"({x} : {ty})")
            if t == "int" and not ptr: hyps.append(f"(h{x} : -2147483648 ≤ {x} ∧ {x} ≤ 2147483647)")
        args = ", ".join(s.arg(*p) for p in s.em.ps)
        v = T.vt(ret)
        wrap = "Obj.ofPtr" if ret == "void" else "Obj.ofVecArr" if v and v[2] else "Obj.ofVec" if v else f"Obj.ofScalar .{T.EL[ret]}"
        proof = s.prove(s.em.body, list(s.env), 1)
        head = f'/-- `neon_sim.cpp:{st}-{en}` -/\ncpp_source {s.ln} {lit(text)}\n\n'
        thm = (f"theorem Props.{s.ln}_source [Dialect] {' '.join(out + hyps)} :\n    Runs Source.{s.ln} [{args}] ({wrap} <$> Model.{s.ln} {' '.join(x for _, x, _ in s.em.ps)}) := by\n"
               f"  refine ⟨_, Source.{s.ln}_parse, 1000, fun fuel hf => ?_⟩\n  simp only [Source.{s.ln}_ast, Model.{s.ln}]\n" + "\n".join(proof) + "\n")
        return head.replace("cpp_source ", "cpp_source Source."), thm
def main(only=None):
    names, mods = set(), {}
    for f in T.funcs:
        if f[3] in T.SKIP or f[3].startswith("float_parts"): continue
        ln = f[3]
        if ln in names: ln += "_overload2"
        names.add(ln)
        if only and not re.fullmatch(only, ln): continue
        g = next(m for m, last in T.GROUPS if f[0] <= last)
        mods.setdefault(g, []).append(G(f, ln).emit())
    for g, fs in mods.items():
        p = f"/verif/lean/Verif/Props/Src{g}.lean" if not only else f"/tmp/Src{g}.lean"
        with open(p, "w") as h:
            h.write(f"import Verif.Cpp.Command\nimport Verif.Model.{g}\n\n/-! Source text of the functions in `Verif/Model/{g}.lean`, and the theorem that running it is running the model.\nGenerated by `tools/gen_source.py`. -/\n\nset_option linter.unusedVariables false\nset_option linter.unusedSimpArgs false\nset_option maxHeartbeats 1000000\n\nopen Verif.Cpp\n\nnamespace Verif\n\n")
            for a, b in fs: h.write(a + b + "\n")
            h.write("end Verif\n")
        print(g, len(fs))
if __name__ == "__main__":
    main(os.environ.get("ONLY"))
