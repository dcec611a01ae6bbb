#!/usr/bin/env python3
"""Generates Verif/Props/Laws.lean: laws relating several intrinsics (C29, C61, C63, C64)."""
import sys; sys.path.insert(0, '/verif/tools')
import genlib
from genlib import *
import glob
PROPS = {t for p in glob.glob(OUT + "/*.lean") for t in re.findall(r"(?m)^theorem ([A-Za-z0-9_.]+)", open(p).read())}
def full(n): return n + "_spec" in PROPS
def th(n): return n + ("_spec" if full(n) else "_partial")

def maxmin(m):
    for w in (8, 16, 32):
        X, N = f"vmaxq_s{w}", f"vminq_s{w}"; t = f"int{w}x{128//w}_t"
        sp = f"{X}_spec, {N}_spec, ok_bind"
        fin = f"intro i\ntry simp only [toInt_max, toInt_min]\nrefine congrArg (BitVec.ofInt {w}) ?_\nomega"
        fin1 = f"intro i\ntry simp only [toInt_max, toInt_min]\nrefine Eq.trans (congrArg (BitVec.ofInt {w}) ?_) BitVec.ofInt_toInt\nomega"
        for f, g in ((X, N), (N, X)):
            m.thm(f + "_comm", f"`{f}` is commutative.", f"(a b : {t}) : {f} a b = {f} b a", f"simp only [{sp}]\nrefine ok_vec ?_\n" + fin)
            m.thm(f + "_assoc", f"`{f}` is associative.", f"(a b c : {t}) :\n    (do {f} (← {f} a b) c) = (do {f} a (← {f} b c))", f"simp only [{sp}]\nrefine ok_vec ?_\n" + fin)
            m.thm(f + "_self", f"`{f}` is idempotent.", f"(a : {t}) : {f} a a = .ok a", f"simp only [{sp}]\nrefine ok_vec' ?_\n" + fin1)
            m.thm(f + "_absorb", f"`{f}` absorbs `{g}`.", f"(a b : {t}) : (do {f} a (← {g} a b)) = .ok a", f"simp only [{sp}]\nrefine ok_vec' ?_\n" + fin1)
            m.thm(f + "_distrib", f"`{f}` distributes over `{g}`.", f"(a b c : {t}) :\n    (do {f} a (← {g} b c)) = (do {g} (← {f} a b) (← {f} a c))", f"simp only [{sp}]\nrefine ok_vec ?_\n" + fin)

def factor(m):
    def law(name, rhs, proof, doc=None, hyp="", suf="_factor"):
        f = F(name)
        m.thm(name + suf, doc or f"`{name}` computes `{rhs}`.", f"{hyp}{f.binders()} :\n    {f.call()} = (do {rhs})", proof)
    sx = "BitVec.toInt_signExtend_of_le"
    W = {8: 16, 16: 32, 32: 64}
    for k in "su":
        for w in (8, 16, 32):
            W2 = W[w]; q = f"{k}{W2}"; mv = f"vmovl_{k}{w}"; hi = f"vget_high_{k}{w}"
            add, sub, mul = f"vaddq_{q}", f"vsubq_{q}", f"vmulq_{q}"
            nosat = f"rw [if_pos]\nintro i\nright\nhave h0 := toInt{w} (XX)\nhave h1 := toInt{w} (YY)\nunfold Fits\nsimp (disch := decide) only [{sx}]\nomega"
            def close(lhs, rest):
                return f"simp (disch := decide) only [{th(lhs)}, {', '.join(rest)}, ok_bind, {sx}]"
            # addl
            for nm, X, Y in ((f"vaddl_{k}{w}", "(← %s a)" % mv, "(← %s b)" % mv), (f"vaddl_high_{k}{w}", f"(← {mv} (← {hi} a))", f"(← {mv} (← {hi} b))")):
                if nm not in TAB: continue
                if nm == "vaddl_high_s32" or nm == "vaddl_high_u32":
                    ff = "0x7fffffff" if k == "s" else "0xffffffff"
                    hd = "(hd : Dialect.wrapv = true) " if k == "s" else ""
                    m.thm(nm + "_factor_wrong", f"`{nm}` does not factor through the widening moves: the carry is lost.", f"{hd}:\n    ¬ ∀ a b, {nm} a b = (do {add} {X} {Y})",
                          f"intro h\nhave h := h ⟨fun _ => {ff}#32⟩ ⟨fun _ => 1#32⟩\nsimp only [{th(nm) if k == 'u' else nm + '_wrapv hd'}, {th(mv)}, {th(hi)}, ok_bind, {th(add) if k == 'u' else add + '_wrapv hd'}] at h\nhave h := congrFun (Vec.mk.inj (C.ok.inj h)) 0\nrevert h\ndecide")
                    continue
                rest = [th(mv), th(hi) if "high" in nm else th(mv), th(add)]
                p = close(nm, rest)
                if not full(add):
                    p = f"simp only [{th(nm)}, {', '.join(rest)}, ok_bind]\n" + nosat.replace("XX", "a[%d + i.val]" % (64//w)).replace("YY", "b[%d + i.val]" % (64//w)) if "high" in nm else p
                law(nm, f"{add} {X} {Y}", p)
            for nm, X in ((f"vaddw_{k}{w}", f"(← {mv} b)"), (f"vaddw_high_{k}{w}", f"(← {mv} (← {hi} b))")):
                if nm not in TAB: continue
                law(nm, f"{add} a {X}", close(nm, [th(mv), th(add)] + ([th(hi)] if "high" in nm else [])))
            nm = f"vsubw_{k}{w}"
            if nm in TAB: law(nm, f"{sub} N (← {mv} M)", close(nm, [th(mv), th(sub)]))
            nm = f"vsubl_{k}{w}"
            if nm in TAB and w < 32:
                rest = [th(mv), th(sub)]
                law(nm, f"{sub} (← {mv} N) (← {mv} M)", close(nm, rest) if full(sub) else f"simp only [{th(nm)}, {', '.join(rest)}, ok_bind]\n" + nosat.replace("XX", "N.lane i").replace("YY", "M.lane i"))
            elif nm in TAB:
                lo = f"vget_low_{k}{w}"; rest = [th(mv), th(lo), th(sub)]
                law(nm, f"{sub} (← {mv} (← {lo} N)) (← {mv} M)", (close(nm, rest) if full(sub) else f"simp only [{th(nm)}, {', '.join(rest)}, ok_bind]\n" + nosat.replace("XX", "N[i.val]").replace("YY", "M.lane i")),
                    doc=f"`{nm}` takes its first operand from the low half of a 128-bit register (its declaration and definition differ there) and computes `{sub} (vmovl (vget_low N)) (vmovl M)`.")
            # mul
            nm = f"vmull_{k}{w}"; rest = [th(mv), th(mul)] if mul in TAB else None
            if w == 8:
                p = close(nm, rest)
                if k == "u":
                    p = f"simp only [{th(nm)}, {', '.join(rest)}, ok_bind]\nrw [if_pos]\nintro i\nright\nhave h0 := umul8 (a.lane i) (b.lane i)\nunfold Fits\nsimp only [BitVec.toNat_setWidth]\nhave e1 : (a.lane i).toNat % 2 ^ 16 = (a.lane i).toNat := by omega\nhave e2 : (b.lane i).toNat % 2 ^ 16 = (b.lane i).toNat := by omega\nrw [e1, e2]\nomega"
                law(nm, f"{mul} (← {mv} a) (← {mv} b)", p)
            elif (k, w) == ("s", 16):
                law(nm, f"{mul} (← {mv} a) (← {mv} b)", f"simp only [{th(nm)}, {', '.join(rest)}, ok_bind]\nrw [if_pos]\nintro i\nright\nhave h0 := smul16 (a.lane i) (b.lane i)\nunfold Fits\nsimp (disch := decide) only [{sx}]\nomega")
            elif (k, w) == ("u", 16):
                law(nm, f"{mul} (← {mv} a) (← {mv} b)", f"simp only [vmull_u16_wrapv hd, {', '.join(rest)}, ok_bind]", hyp="(hd : Dialect.wrapv = true) ", suf="_factor_wrapv", doc="With `-fwrapv`, `vmull_u16` computes `vmulq_u32 (vmovl a) (vmovl b)`.")
                f = F(nm)
                m.thm("vmull_u16_factor_partial", "When every product is below `2^31`, `vmull_u16` computes `vmulq_u32 (vmovl a) (vmovl b)`; otherwise it is undefined in C++11 (`vmull_u16_partial`).",
                      f"{f.binders()} (h : ∀ i, (a.lane i).toNat * (b.lane i).toNat < 2 ^ 31) :\n    {f.call()} = (do {mul} (← {mv} a) (← {mv} b))",
                      f"rw [vmull_u16_partial, if_pos]\n· simp only [{', '.join(rest)}, ok_bind]\n· intro i\n  right\n  have := h i\n  unfold Fits\n  have e : ((a.lane i).toNat : Int) * ((b.lane i).toNat : Int) = (((a.lane i).toNat * (b.lane i).toNat : Nat) : Int) := by simp\n  rw [e]\n  generalize (a.lane i).toNat * (b.lane i).toNat = z at *\n  omega")
            # mlal / mlsl
            for nm, ad in ((f"vmlal_{k}{w}", add), (f"vmlsl_{k}{w}", sub)):
                ml = f"vmull_{k}{w}"
                rest = [th(ml), th(ad)]
                if w == 8: p = close(nm, rest)
                elif (k, w) == ("s", 16):
                    p = f"simp only [{th(nm)}, {', '.join(rest)}, ok_bind, toInt_smull16]"
                elif (k, w) == ("u", 16):
                    p = f"simp only [{th(nm)}, {', '.join(rest)}, ok_bind, ite_bind, ub_bind]"
                elif (k, w) == ("u", 32):
                    p = f"simp only [{th(nm)}, {', '.join(rest)}, ok_bind]"
                else:
                    p = f"simp (disch := decide) only [{th(nm)}, {', '.join(rest)}, ok_bind, ite_bind, ub_bind, {sx}, ite_ite_and, forall_and]"
                law(nm, f"{ad} N (← {ml} M P)", p)

def ring(m):
    for q in ("", "q"):
        for k in "us":
            for w in (8, 16, 32, 64):
                n = (128 if q else 64) // w; t = f"{'u' if k=='u' else ''}int{w}x{n}_t"
                A, S, M = (f"v{o}{q}_{k}{w}" for o in ("add", "sub", "mul"))
                D = f"vdup{q}_n_{k}{w}"
                def both(name, doc, binders, lhs, rhs, used, lane, one=False):
                    part = [u for u in used if not full(u)]
                    sp = ", ".join((th(u) if full(u) else u + "_wrapv hd") for u in used)
                    m.thm(name, doc + (" (with `-fwrapv`)" if part else "") + ".", ("(hd : Dialect.wrapv = true) " if part else "") + f"{binders} :\n    {lhs} = {rhs}",
                          f"simp only [{sp}, ok_bind]\nrefine {'ok_vec' + (chr(39) if one else '')} fun i => ?_\n{lane}")
                # commutativity of + and * needs no dialect: both sides are undefined together
                def comm(f, lem, ilem):
                    m.thm(f + "_comm", f"`{f}` is commutative (both sides are undefined for the same operands)." if not full(f) else f"`{f}` is commutative.", f"(a b : {t}) : {f} a b = {f} b a",
                          f"simp only [{th(f)}]\n" + (f"exact ok_vec fun i => {lem} _ _" if full(f) else f"simp only [{ilem} (BitVec.toInt (a.lane _)), {ilem} ((BitVec.toNat (a.lane _) : Nat) : Int), {lem} (a.lane _)]"))
                comm(A, "BitVec.add_comm", "Int.add_comm")
                both(A + "_assoc", f"`{A}` is associative", f"(a b c : {t})", f"(do {A} (← {A} a b) c)", f"(do {A} a (← {A} b c))", [A], "exact BitVec.add_assoc _ _ _")
                both(S + "_" + A, f"`{S}` undoes `{A}`", f"(a b : {t})", f"(do {S} (← {A} a b) b)", ".ok a", [A, S], "exact BitVec.add_sub_cancel _ _", one=True)
                both(A + "_" + S, f"`{A}` undoes `{S}`", f"(a b : {t})", f"(do {A} (← {S} a b) b)", ".ok a", [A, S], "exact BitVec.sub_add_cancel _ _", one=True)
                if D in TAB:
                    m.thm(A + "_zero", f"Zero is neutral for `{A}`.", f"(a : {t}) : (do {A} a (← {D} 0#{w})) = .ok a",
                          f"simp only [{th(D)}, {th(A)}, ok_bind]\n" + ("" if full(A) else f"rw [if_pos fun i => .inr (by have := toInt{w} (a.lane i); unfold Fits; simp only [BitVec.toInt_zero]; omega)]\n") + "exact ok_vec' fun i => BitVec.add_zero _")
                    m.thm(S + "_self", f"`{S}` of a register with itself is zero.", f"(a : {t}) : {S} a a = {D} 0#{w}",
                          f"simp only [{th(D)}, {th(S)}]\n" + ("" if full(S) else "rw [if_pos fun i => .inr (by unfold Fits; omega)]\n") + "exact ok_vec fun i => BitVec.sub_self _")
                if M in TAB:
                    comm(M, "BitVec.mul_comm", "Int.mul_comm")
                    both(M + "_assoc", f"`{M}` is associative", f"(a b c : {t})", f"(do {M} (← {M} a b) c)", f"(do {M} a (← {M} b c))", [M], "exact BitVec.mul_assoc _ _ _")
                    both(M + "_" + A, f"`{M}` distributes over `{A}`", f"(a b c : {t})", f"(do {M} a (← {A} b c))", f"(do {A} (← {M} a b) (← {M} a c))", [A, M], "exact BitVec.mul_add")
                    both(M + "_" + S, f"`{M}` distributes over `{S}`", f"(a b c : {t})", f"(do {M} a (← {S} b c))", f"(do {S} (← {M} a b) (← {M} a c))", [S, M], "exact mul_sub' _ _ _")
                    if D in TAB:
                        bnd = {"s": f"have := toInt{w} (a.lane i); unfold Fits; rw [show (1#{w}).toInt = 1 from rfl]; omega", "u": f"have : (a.lane i).toNat < 65536 := (a.lane i).isLt; unfold Fits; rw [show (1#{w}).toNat = 1 from rfl]; omega"}[k]
                        m.thm(M + "_one", f"One is neutral for `{M}`.", f"(a : {t}) : (do {M} a (← {D} 1#{w})) = .ok a",
                              f"simp only [{th(D)}, {th(M)}, ok_bind]\n" + ("" if full(M) else f"rw [if_pos fun i => .inr (by {bnd})]\n") + "exact ok_vec' fun i => BitVec.mul_one _")
                    L = f"vmla{q}_{k}{w}"
                    if L in TAB:
                        if full(L): p = f"simp only [{th(L)}, {th(A)}, {th(M)}, ok_bind]"
                        elif k == "u": p = None
                        if not full(L) and k == "s":
                            p = f"""simp only [{th(L)}, {th(A)}, {th(M)}, ok_bind, ite_bind, ub_bind]
by_cases h : ∀ i : Fin {n}, NoOverflow 32 ((M.lane i).toInt * (P.lane i).toInt)
· rw [if_pos h]
  refine if_congr' ⟨fun g i => ?_, fun g i => ⟨h i, ?_⟩⟩
  · rw [mla_add (h i)]
    exact (g i).2
  · have := g i
    rwa [mla_add (h i)] at this
· rw [if_neg h, if_neg fun g => h fun i => (g i).1]"""
                        f = F(L)
                        if p is None:
                            m.thm(L + "_factor_wrapv", f"With `-fwrapv`, `{L}` is `{A}` of the accumulator and `{M}`.", f"(hd : Dialect.wrapv = true) {f.binders()} :\n    {f.call()} = (do {A} N (← {M} M P))",
                                  f"simp only [{L}_wrapv hd, {th(A)}, {M}_wrapv hd, ok_bind]")
                            m.thm(L + "_factor_partial", f"Whenever `{L}` is defined, it is `{A}` of the accumulator and `{M}` (it is undefined for more operands: the sum is formed in `int`).", f"{f.binders()} (r : {f.ret}) (h : {f.call()} = .ok r) :\n    (do {A} N (← {M} M P)) = .ok r",
                                  f"rw [{th(L)}] at h\nsplit at h\n· rename_i g\n  rw [{th(M)}, if_pos fun i => (g i).1, ok_bind, {th(A)}, ← h]\n· cases h")
                            continue
                        m.thm(L + "_factor", f"`{L}` is `{A}` of the accumulator and `{M}`, with the same undefined cases.", f"{f.binders()} :\n    {f.call()} = (do {A} N (← {M} M P))", p)

def sat(m):
    for q in ("", "q"):
        for k in "us":
            for w in (8, 16, 32):
                n = (128 if q else 64) // w; t = f"{'u' if k=='u' else ''}int{w}x{n}_t"
                S, A, sub, add, D = f"vqsub{q}_{k}{w}", f"vqadd{q}_{k}{w}", f"vsub{q}_{k}{w}", f"vadd{q}_{k}{w}", f"vdup{q}_n_{k}{w}"
                V = (lambda x: f"(({x}).toNat : Int)") if k == "u" else (lambda x: f"({x}).toInt")
                nv = (lambda x: f"({x}).toNat") if k == "u" else (lambda x: f"({x}).toInt")
                for f, o in ((S, "-"),) + (((A, "+"),) if A in TAB else ()):
                    verb = "difference" if o == "-" else "sum"
                    # monotone
                    c2, d2 = ("b'", "b") if o == "-" else ("b", "b'")
                    m.thm(f + "_mono", f"`{f}` is monotone in its first operand and {'antitone' if o == '-' else 'monotone'} in its second.",
                          f"(a a' b b' : {t}) (ha : ∀ i, {nv('a.lane i')} ≤ {nv(chr(97)+chr(39)+'.lane i')})\n    (hb : ∀ i, {nv(c2 + '.lane i')} ≤ {nv(d2 + '.lane i')}) :\n    ∃ r r', {f} a b = .ok r ∧ {f} a' b' = .ok r' ∧ ∀ i, {nv('r.lane i')} ≤ {nv(chr(114)+chr(39)+'.lane i')}",
                          f"refine ⟨_, _, {th(f)} a b, {th(f)} a' b', fun i => ?_⟩\nhave h1 := ha i\nhave h2 := hb i\n" + ("exact usat_mono (by omega)" if k == "u" else "exact ssat_mono (by decide) (by omega)"))
                    g = sub if o == "-" else add
                    cond = (f"{nv('b.lane i')} ≤ {nv('a.lane i')}" if o == "-" else f"{nv('a.lane i')} + {nv('b.lane i')} < 2 ^ {w}") if k == "u" else f"Fits {w} ({nv('a.lane i')} {o} {nv('b.lane i')})"
                    pr = f"rw [{th(f)}, {th(g)}]\n"
                    if not full(g): pr += "rw [if_pos fun i => .inr (h i)]\n"
                    pr += "exact ok_vec fun i => " + ({"-": "usat_sub_le", "+": "usat_add_lt"}[o] if k == "u" else "ssat_sub_fits") + " (h i)"
                    m.thm(f + "_eq_" + g, f"When no lane overflows, `{f}` and `{g}` agree.", f"(a b : {t}) (h : ∀ i, {cond}) :\n    {f} a b = {g} a b", pr)
                m.thm(S + "_self", f"`{S}` of a register with itself is zero.", f"(a : {t}) : {S} a a = .ok ⟨fun _ => 0#{w}⟩",
                      f"rw [{th(S)}]\nexact ok_vec fun i => " + ("usat_self_sub _" if k == "u" else "ssat_self_sub _ (by decide)"))
                if k == "u":
                    m.thm(S + "_eq_zero_iff", f"`{S}` gives zero in exactly the lanes where the first operand does not exceed the second.", f"(a b : {t}) :\n    ∃ r, {S} a b = .ok r ∧ ∀ i, r.lane i = 0#{w} ↔ (a.lane i).toNat ≤ (b.lane i).toNat",
                          f"exact ⟨_, {th(S)} a b, fun i => usat_zero_iff _ _⟩")
                    m.thm(S + "_all_zero_iff", f"`{S}` gives the zero register exactly when no lane of the first operand exceeds that of the second.", f"(a b : {t}) :\n    {S} a b = .ok ⟨fun _ => 0#{w}⟩ ↔ ∀ i, (a.lane i).toNat ≤ (b.lane i).toNat",
                          f"obtain ⟨r, hr, h⟩ := {S}_eq_zero_iff a b\nrw [hr]\nconstructor\n· intro e i\n  rw [← h i, C.ok.inj e]\n· intro g\n  exact congrArg _ (Vec.ext (funext fun i => (h i).mpr (g i)))")
                    m.thm(S + "_" + add, f"Adding the second operand back to `{S}` gives the larger of the two.", f"(a b : {t}) :\n    ∃ r, (do {add} (← {S} a b) b) = .ok r ∧ ∀ i, (r.lane i).toNat = max (a.lane i).toNat (b.lane i).toNat",
                          f"exact ⟨_, by rw [{th(S)}, ok_bind, {th(add)}], fun i => usat_sub_add _ _⟩")
                if A in TAB:
                    m.thm(A + "_comm", f"`{A}` is commutative.", f"(a b : {t}) : {A} a b = {A} b a", f"simp only [{th(A)}]\nexact ok_vec fun i => by rw [Int.add_comm]")
                    m.thm(A + "_assoc", f"`{A}` is associative.", f"(a b c : {t}) :\n    (do {A} (← {A} a b) c) = (do {A} a (← {A} b c))", f"simp only [{th(A)}, ok_bind]\nexact ok_vec fun i => uqadd_assoc _ _ _")
                    m.thm(A + "_" + S, f"`{A}` of `{S}` and its second operand gives the larger operand.", f"(a b : {t}) :\n    ∃ r, (do {A} (← {S} a b) b) = .ok r ∧ ∀ i, (r.lane i).toNat = max (a.lane i).toNat (b.lane i).toNat",
                          f"exact ⟨_, by rw [{th(S)}, ok_bind, {th(A)}], fun i => uqadd_qsub _ _⟩")

def main():
    m = Mod("Laws", ["Laws", "Props.AddSub", "Props.Widen", "Props.Mul", "Props.MaxMin", "Props.Move", "Props.Saturate"], "# Laws relating several intrinsics (C29, C61, C63, C64)\n\nBoth sides of an equation are the outcomes of calls: the equation says that they return the same register, or\nare undefined in the same cases.")
    m.raw("""
theorem toInt_smull16 (a b : BitVec 16) : (a.signExtend 32 * b.signExtend 32).toInt = a.toInt * b.toInt := by
  have := smul16 a b
  rw [BitVec.toInt_mul, BitVec.toInt_signExtend_of_le (by decide), BitVec.toInt_signExtend_of_le (by decide)]
  exact bmod32 (by omega)
theorem mul_sub' {w : Nat} (a b c : BitVec w) : a * (b - c) = a * b - a * c := by
  rw [BitVec.sub_eq_add_neg, BitVec.mul_add, BitVec.mul_neg, ← BitVec.sub_eq_add_neg]
theorem mla_add [Dialect] {a b c : BitVec 32} (h : NoOverflow 32 (b.toInt * c.toInt)) :
    NoOverflow 32 (a.toInt + (b * c).toInt) = NoOverflow 32 (a.toInt + b.toInt * c.toInt) := by
  rcases h with h | h
  · simp only [NoOverflow, h, true_or]
  · rw [fits32] at h
    rw [BitVec.toInt_mul, show (2 : Nat) ^ 32 = 4294967296 from rfl, bmod32 h]
theorem ssat_sub_fits {w : Nat} {a b : BitVec w} (h : Fits w (a.toInt - b.toInt)) : ssat w (a.toInt - b.toInt) = a - b := by
  have e : clamp (-2 ^ (w - 1)) (2 ^ (w - 1) - 1) (a.toInt - b.toInt) = a.toInt - b.toInt := by
    unfold Fits at h; unfold clamp; omega
  rw [ssat, e, ofInt_sub, BitVec.ofInt_toInt, BitVec.ofInt_toInt]
""")
    maxmin(m); factor(m); ring(m); sat(m)
    m.save()
main()
