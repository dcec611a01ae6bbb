#!/usr/bin/env python3
"""Generates Verif/Props/*.lean (the per-function theorems)."""
import sys; sys.path.insert(0, '/verif/tools')
from genlib import *

def wrong(m, f, lits, spec, doc, nm=None, i="0", proof=None, thm=None, pre=""):
    """the stated spec does not hold for all operands"""
    args = [vec(f, x, lits[x]) for _, x, _ in f.ps]
    st = f"¬ ∀ {f.binders()}, {f.call()} = .ok ⟨fun i => {spec}⟩"
    xs = " ".join(f"({a})" for a in args)
    p = f"intro h\nhave h := h {xs}\nrw [{thm or f.name + '_partial'}] at h\n"
    m.thm((nm or f.name) + "_wrong", doc, ":\n    " + st, p + (proof or "have h := congrFun (Vec.mk.inj (C.ok.inj h)) 0\nrevert h\ndecide"))
WRONG_IF = "split at h\n· have h := congrFun (Vec.mk.inj (C.ok.inj h)) 0\n  revert h\n  decide\n· cases h"

# ---------------------------------------------------------------- C11, C12
def addsub():
    m = Mod("AddSub", ["Model.Add", "Model.Sub"], "# Wrapping addition and subtraction (C11, C12)")
    for op, sym, verb in (("add", "+", "sum"), ("sub", "-", "difference")):
        for q in ("", "q"):
            for el in ("s8", "s16", "s32", "s64", "u8", "u16", "u32", "u64"):
                f = F(f"v{op}{q}_{el}"); N, M = f.ps[0][1], f.ps[1][1]; w = el[1:]
                spec = f"{ln(f,N)} {sym} {ln(f,M)}"
                if f.name in ("vadd_s64", "vadd_u64"):
                    n0, m0 = val(f, N, "0"), val(f, M, "0")
                    pr = f"""unfold {f.name}
have eN : N.get 0 = .ok (.ofBits _ (N.lane 0)) := Vec.get_at N 0 (by omega) rfl
have eM : M.get 0 = .ok (.ofBits _ (M.lane 0)) := Vec.get_at M 0 (by omega) rfl
simp only [eN, eM, ok_bind, pure_eq]
"""
                    if el == "u64":
                        m.thm(f.name + "_spec", f"`{f.name}` gives the lane-wise {verb} modulo `2^{w}`, for all operands.",
                              f"{f.binders()} :\n    {f.call()} = .ok ⟨fun i => {spec}⟩",
                              pr + "simp only [bind_assoc, fill_single]\ncsim\nbvnorm\ncongr 2\nfunext i\nrw [Subsingleton.elim i 0]")
                    else:
                        m.thm(f.name + "_partial", f"`{f.name}` gives the lane-wise {verb} modulo `2^{w}`; in C++11 a lane whose exact {verb} overflows is undefined behaviour.",
                              f"{f.binders()} :\n    {f.call()} =\n      if ∀ i : Fin {f.n}, NoOverflow {w} ({val(f,N)} {sym} {val(f,M)})\n      then .ok ⟨fun i => {spec}⟩ else .ub .signedOverflow",
                              pr + f"simp only [bind_assoc, fill_single]\ncsim_ub\nbvnorm\nhave e : (∀ i, NoOverflow {w} ({val(f,N)} {sym} {val(f,M)})) ↔ NoOverflow {w} ({n0} {sym} {m0}) :=\n  ⟨fun h => h 0, fun h i => by rw [Subsingleton.elim i 0]; exact h⟩\nsimp only [e]\ncongr 3\nfunext i\nrw [Subsingleton.elim i 0]")
                        wrapv(m, f, spec)
                        ub_witness(m, f, {N: str(2**63-1), M: '1'}, f"In C++11 `{f.name}` is undefined for some operands.", w)
                    continue
                if el in ("s32", "s64"):
                    lanewise(m, f, spec, f"`{f.name}` gives the lane-wise {verb} modulo `2^{w}`; in C++11 a lane whose exact {verb} overflows is undefined behaviour.",
                             ub=f"NoOverflow {w} ({val(f,N)} {sym} {val(f,M)})", pre=bounds(f, [N, M]))
                    mx = 2**(int(w)-1)
                    ub_witness(m, f, {N: str(mx-1) if op == 'add' else str(mx), M: '1'}, f"In C++11 `{f.name}` is undefined for some operands.", w)
                else:
                    lanewise(m, f, spec, f"`{f.name}` gives the lane-wise {verb} modulo `2^{w}`, for all operands.", pre=bounds(f, [N, M]))
    m.save()


def ext(f, x, w, idx="i"):
    k, v, n = f.pv(x)
    t = x if n is None else (f"({x}.lane {idx})" if "[" not in idx else f"{x}{idx}")
    return f"{t}.{'signExtend' if k == 's' else 'setWidth'} {w}"
def getat(x, k, v="i"):
    """read at a shifted index"""
    return f"have e{x} : {x}.get ({k} + ((i.val : Nat) : Int)) = .ok (.ofBits _ ({x}.lane ⟨{k} + i.val, by omega⟩)) :=\n  Vec.get_at {x} _ (by omega) (by omega)"
def exact(m, f, rhs, doc, sim, signed=None, name=None):
    """∃ r, call = ok r ∧ ∀ i, value of lane = exact integer"""
    signed = (f.el[0] == "s") if signed is None else signed
    lhs = "(r.lane i).toInt" if signed else "((r.lane i).toNat : Int)"
    m.thm(name or f.name + "_exact", doc, f"{f.binders()} :\n    ∃ r, {f.call()} = .ok r ∧ ∀ i, {lhs} = {rhs}",
          f"refine ⟨_, {f.name}_spec{''.join(' ' + x for _, x, _ in f.ps)}, fun i => ?_⟩\n" + sim)
def high_idx(f, x, n): return f"({x}[{n} + i.val])"

# ---------------------------------------------------------------- C13, C14, C22
def widen():
    m = Mod("Widen", ["Model.Add", "Model.Sub"], "# Widening addition and subtraction (C13, C14, C22)")
    W = {8: 16, 16: 32, 32: 64}
    def sx(k): return "signExtend" if k == "s" else "setWidth"
    def L(x, h, i="i"): return f"{x}.lane {i}" if not h else f"{x}[{h} + i.val]"
    def V(k, x, h): return f"({L(x,h)}).toInt" if k == "s" else f"(({L(x,h)}).toNat : Int)"
    # vaddl, vaddl_high, vsubl
    for name in ("vaddl_u8", "vaddl_high_s8", "vaddl_high_s16", "vaddl_high_s32", "vaddl_high_u8", "vaddl_high_u16", "vaddl_high_u32",
                 "vsubl_s8", "vsubl_s16", "vsubl_s32", "vsubl_u8", "vsubl_u16", "vsubl_u32"):
        f = F(name); a, b = f.ps[0][1], f.ps[1][1]; k, w, n = f.pv(b); W2 = W[w]
        h = n // 2 if "high" in name else 0
        sym, verb = ("+", "sum") if "add" in name else ("-", "difference")
        na = f.pv(a)[2]
        A = L(a, h) if na == n else f"{a}[i.val]"
        VA = f"({A}).toInt" if k == "s" else f"(({A}).toNat : Int)"
        pre = []
        if h:
            for x in (a, b): pre.append(getat(x, h))
            pre.append("simp only [Int.reduceDiv, ea, eb]")
        elif na != n:
            pre.append(f"have ea : {a}.get ((i.val : Nat) : Int) = .ok (.ofBits _ ({a}.lane ⟨i.val, by omega⟩)) :=\n  Vec.get_at {a} _ (by omega) rfl")
            pre.append("simp only [ea]")
        la = f"{a}.lane ⟨{h} + i.val, by omega⟩" if h else (f"{a}.lane i" if na == n else f"{a}.lane ⟨i.val, by omega⟩")
        lb = f"{b}.lane ⟨{h} + i.val, by omega⟩" if h else f"{b}.lane i"
        if k == "s": pre += [f"have hb0 := toInt{w} ({la})", f"have hb1 := toInt{w} ({lb})"]
        fin = "csim\nbvnorm" + ("\nrfl" if (h or na != n) else "")
        if name in ("vaddl_high_s32", "vaddl_high_u32"):
            if k == "u":
                spec = f"({A} {sym} {L(b,h)}).setWidth 64"
                lanewise(m, f, spec, f"`{name}` adds the upper lanes modulo `2^32` and then zero-extends: the carry is lost.", name=name + "_partial", pre=pre, close="simp only [ofInt_toNat, ← nat_add_mod32]\nrfl")
                wrong(m, f, {a: "4294967295", b: "1"}, f"({A}).setWidth 64 {sym} ({L(b,h)}).setWidth 64", f"`{name}` does not give the exact sum.")
            else:
                spec = f"({A} {sym} {L(b,h)}).signExtend 64"
                lanewise(m, f, spec, f"`{name}` adds the upper lanes as 32-bit `int` and then sign-extends; in C++11 overflow of the `int` sum is undefined.",
                         ub=f"NoOverflow 32 ({VA} {sym} {V(k,b,h)})", pre=pre, close="simp only [← int_add_bmod32, ofInt_toInt_ext]\nrfl")
                ub_witness(m, f, {a: "2147483647", b: "1"}, f"In C++11 `{name}` is undefined for some operands.", 32)
                wrong(m, f, {a: "2147483647", b: "1"}, f"({A}).signExtend 64 {sym} ({L(b,h)}).signExtend 64", f"`{name}` does not give the exact sum, in any dialect.", proof=WRONG_IF)
            continue
        spec = f"({A}).{sx(k)} {W2} {sym} ({L(b,h)}).{sx(k)} {W2}"
        hl = "the upper lanes of " if h else ""
        lanewise(m, f, spec, f"`{name}` gives the {verb} of {hl}the operands, computed in {W2} bits after {'sign' if k=='s' else 'zero'} extension.", pre=pre, close=None)
        m.L[-1] = m.L[-1].replace("\n  csim\n", "\n  " + fin.replace("\n", "\n  ") + "\n")
        if "subl_u" in name: continue
        if k == "u": sim = "simp only [BitVec.toNat_add, BitVec.toNat_setWidth, Elem.bits, ITy.bits]\nomega"
        else: sim = (f"have hb0 := toInt{w} ({A})\nhave hb1 := toInt{w} ({L(b,h)})\n" +
                     f"rw [BitVec.toInt_{'add' if sym=='+' else 'sub'}, BitVec.toInt_signExtend_of_le (by decide), BitVec.toInt_signExtend_of_le (by decide)]\nexact bmod{W2} (by omega)")
        exact(m, f, f"{VA} {sym} {V(k,b,h)}", f"Every lane of `{name}` is the exact {verb}; no overflow is possible.", sim)
    # vaddw, vaddw_high, vsubw
    for base in ("vaddw", "vaddw_high", "vsubw"):
        for el in ("s8", "s16", "s32", "u8", "u16", "u32"):
            name = f"{base}_{el}"; f = F(name); a, b = f.ps[0][1], f.ps[1][1]; k, w, n = f.pv(b); W2 = W[w]
            h = n // 2 if "high" in name else 0
            sym, verb = ("+", "sum") if "add" in name else ("-", "difference")
            pre = [getat(b, h), f"simp only [Int.reduceDiv, e{b}]"] if h else []
            lb = f"{b}.lane ⟨{h} + i.val, by omega⟩" if h else f"{b}.lane i"
            if k == "s": pre += [f"have hb0 := toInt{W2} ({a}.lane i)", f"have hb1 := toInt{w} ({lb})"]
            spec = f"{a}.lane i {sym} ({L(b,h)}).{sx(k)} {W2}"
            cl = "bvnorm" + ("\nrfl" if h else "")
            if k == "s" and w > 8:
                lanewise(m, f, spec, f"`{name}` gives the {verb} modulo `2^{W2}` of the wide lane and the sign-extended narrow lane; overflow is undefined in C++11.",
                         ub=f"NoOverflow {W2} (({a}.lane i).toInt {sym} {V(k,b,h)})", pre=pre, close=cl)
                lit = {"+": (2**(W2-1)-1, 1), "-": (2**(W2-1), 1)}[sym]
                ub_witness(m, f, {a: str(lit[0]), b: str(lit[1])}, f"In C++11 `{name}` is undefined for some operands.", W2)
            else:
                lanewise(m, f, spec, f"`{name}` gives the {verb} modulo `2^{W2}` of the wide lane and the {'sign' if k=='s' else 'zero'}-extended narrow lane.", pre=pre, close=cl)
    m.save()


# ---------------------------------------------------------------- C15, C16, C17, C18
def narrow():
    m = Mod("NarrowHigh", ["Model.Add", "Model.Sub"], "# Add/subtract and narrow, halving subtraction (C15, C16, C17, C18)")
    for el in ("s16", "s32", "s64", "u16", "u32", "u64"):
        k, W = el[0], int(el[1:]); w = W // 2
        # vaddhn_high
        f = F(f"vaddhn_high_{el}"); h = f.n // 2
        sh = {16: 8, 32: 4, 64: 2}[W]
        hi = f"high {w} (a[i.val - {h}] + b[i.val - {h}])"
        if W == 16: act = hi
        elif k == "s": act = f"((a[i.val - {h}] + b[i.val - {h}]).sshiftRight {sh}).setWidth {w}"
        else: act = f"((a[i.val - {h}] + b[i.val - {h}]) >>> {sh}).setWidth {w}"
        mk = lambda z: f"if h : i.val < {h} then r[i.val] else {z}"
        stp1 = f"""intro k hk
have er : r.get (0 + (k : Int) * 1) = .ok (.ofBits _ (r.lane ⟨k, hk⟩)) := Vec.get_at r k hk (by omega)
simp only [er, ok_bind, Arr.set_at _ _ k (show k < {2*h} by omega) (show 0 + (k : Int) * 1 = k by omega)]
csim
bvnorm
congr 1
exact Arr.partial_put_val _ _ _ _ rfl (by rw [dif_pos hk]; rfl)"""
        def stp2(ub):
            bn = {("s",16): "bvnorm", ("u",16): "bvnorm"}.get((k, W))
            if bn is None:
                if k == "s": bn = f"simp only [show (((a.lane k).toInt + (b.lane k).toInt).bmod {2**W} : Int) = (a.lane k + b.lane k).toInt from (int_add_bmod{W} _ _).symm,\n    show ((a.lane k + b.lane k).toInt / {2**sh} : Int) = _ from toInt_div_pow (a.lane k + b.lane k) {sh}]"
                else: bn = f"simp only [show (((a.lane k).toNat + (b.lane k).toNat : Int) % {2**W}) = ((a.lane k + b.lane k).toNat : Int) from (nat_add_mod{W} _ _).symm,\n    show (((a.lane k + b.lane k).toNat : Int) / {2**sh}) = _ from toNat_div_pow (a.lane k + b.lane k) {sh}]"
                bn += f"\nsimp (disch := decide) only [ofInt_bmod, ofInt_emod, ofInt_toInt_trunc _ _ (show {w} ≤ {W} by decide), ofInt_toNat]"
            bd = f"have hb0 := toInt{W} (a.lane k)\nhave hb1 := toInt{W} (b.lane k)\n" if k == "s" else ""
            fin = f"""refine Arr.partial_put_val _ _ _ _ (by simp only; omega) ?_
rw [dif_neg (by simp only; omega)]
have e : k = ⟨k.val + {h} - {h}, by omega⟩ := Fin.ext (by simp only; omega)
rw [e]
rfl"""
            return f"""{bd}simp only [Vec.get_fin, ok_bind, Arr.set_at _ _ (k.val + {h}) (show k.val + {h} < {2*h} by omega) (show ((k.val : Nat) : Int) + {h} = ((k.val + {h} : Nat) : Int) by omega)]
{'csim_ub' if ub else 'csim'}
{bn}
{'congr 2' if ub else 'congr 1'}
{fin}"""
        ub = k == "s" and W > 16
        cond = f"NoOverflow {W} ((a.lane k).toInt + (b.lane k).toInt)"
        own = "(fun j => j.val)"
        res = f".ok ⟨fun i => {mk(act)}⟩"
        if ub:
            m.thm(f.name + "_partial", f"`{f.name}` keeps the low register; the upper lanes hold bits {sh}..{sh+w-1} of the sum (the architecture: bits {w}..{W-1}); overflow is undefined in C++11.",
                  f"{f.binders()} :\n    {f.call()} =\n      if ∀ k : Fin {h}, {cond}\n      then {res}\n      else .ub .signedOverflow",
                  f"unfold {f.name}\nrefine fill_own2_if {own} (fun i => {mk(act)}) {h} {h} _ _ (by rfl) (by rfl) (fun j => j.isLt) ?_ fun k => ?_\n· " + stp1.replace("\n", "\n  ") + "\n· " + stp2(True).replace("\n", "\n  "))
            wrapv(m, f, mk(act))
            ub_witness(m, f, {"r": "0", "a": str(2**(W-1)-1), "b": "1"}, f"In C++11 `{f.name}` is undefined for some operands.", W)
        else:
            full = W == 16
            m.thm(f.name + ("_spec" if full else "_partial"), f"`{f.name}` keeps the low register; the upper lanes hold " + (f"the most significant half of the wrapped sum." if full else f"bits {sh}..{sh+w-1} of the wrapped sum (the architecture: bits {w}..{W-1})."),
                  f"{f.binders()} :\n    {f.call()} = {res}",
                  f"unfold {f.name}\nrefine (fill_own2_if {own} (fun i => {mk(act)}) {h} {h} (fun _ => True) .signedOverflow (by rfl) (by rfl) (fun j => j.isLt) ?_ fun k => ?_).trans (if_pos fun _ => trivial)\n· " + stp1.replace("\n", "\n  ") + "\n· rw [if_pos trivial]\n  " + stp2(False).replace("\n", "\n  "))
        if W > 16:
            wrong(m, f, {"r": "0", "a": str(2**w), "b": "0"}, mk(hi), f"`{f.name}` does not give the most significant half of the sum.", i=str(h),
                  proof=(WRONG_IF if ub else "have h := congrFun (Vec.mk.inj (C.ok.inj h)) 0\nrevert h\ndecide").replace(" 0\n", f" {h}\n"))
    for el in ("s16", "s32", "s64", "u16", "u32", "u64"):
        k, W = el[0], int(el[1:]); w = W // 2
        f = F(f"vsubhn_{el}" if W == 16 else f"vsubn_{el}")
        pre = bounds(f, ["N", "M"])
        hi = f"high {w} (N.lane i - M.lane i)"
        if W == 16:
            lanewise(m, f, hi, f"`{f.name}` gives the most significant half of the wrapped difference.", pre=pre)
        else:
            tail = f"simp (disch := decide) only [ofInt_toInt_trunc _ _ (show {w} ≤ {W} by decide), ofInt_toNat]"
            if k == "s":
                act = f"((N.lane i - M.lane i).sshiftRight 8).setWidth {w}"
                cl = f"simp only [← int_sub_bmod{W}]\nsimp only [show ((N.lane i - M.lane i).toInt / 256 : Int) = _ from toInt_div_pow (N.lane i - M.lane i) 8]\n" + tail
                lanewise(m, f, act, f"`{f.name}` (the only definition for {W}-bit lanes, under a wrong name) gives bits 8..{8+w-1} of the difference, not the most significant half.", ub=f"NoOverflow {W} ({val(f,'N')} - {val(f,'M')})", pre=pre, close=cl)
                ub_witness(m, f, {"N": str(2**(W-1)), "M": "1"}, f"In C++11 `{f.name}` is undefined for some operands.", W)
                wrong(m, f, {"N": "256", "M": "0"}, hi, f"`{f.name}` does not give the most significant half of the difference.", proof=WRONG_IF)
            else:
                act = f"((N.lane i - M.lane i) >>> 8).setWidth {w}"
                cl = f"simp only [← nat_sub_mod{W}]\nsimp only [show (((N.lane i - M.lane i).toNat : Int) / 256) = _ from toNat_div_pow (N.lane i - M.lane i) 8]\n" + tail
                lanewise(m, f, act, f"`{f.name}` (the only definition for {W}-bit lanes, under a wrong name) gives bits 8..{8+w-1} of the difference, not the most significant half.", name=f.name + "_partial", pre=pre, close=cl)
                wrong(m, f, {"N": "256", "M": "0"}, hi, f"`{f.name}` does not give the most significant half of the difference.")
    # vrsubhn
    for el in ("s16", "s32", "s64", "u16", "u32", "u64"):
        k, W = el[0], int(el[1:]); w = W // 2
        f = F(f"vrsubhn_{el}")
        pre = bounds(f, ["N", "M"])
        hi = f"high {w} (N.lane i - M.lane i + {2**(w-1)}#{W})"
        pro = f"unfold {f.name}\ncsim\n"
        if W == 16 or el == "u32":
            m.thm(f.name + "_spec", f"`{f.name}` gives the most significant half of the rounded wrapped difference.",
                  f"{f.binders()} :\n    {f.call()} = .ok ⟨fun i => {hi}⟩",
                  pro + "refine fill_ok (by rfl) _ fun i D => ?_\n" + "\n".join(pre + ["csim", "bvnorm", "simp only [BitVec.reduceOfInt]"]))
        elif k == "s":
            dl = 2**(w-1) if W == 32 else -2**31
            act = hi if W == 32 else f"high {w} (N.lane i - M.lane i + {2**64-2**31}#{W})"
            c1 = f"{val(f,'N')} - {val(f,'M')}"
            c2 = f"{c1} + {dl}" if dl > 0 else f"{c1} + ({dl})"
            P = f"NoOverflow {W} ({c1}) ∧ NoOverflow {W} ({c2})"
            m.thm(f.name + "_partial", f"`{f.name}` gives the most significant half of the difference " + (f"plus `2^{w-1}`" if W == 32 else "minus `2^31` (the rounding constant has the wrong sign)") + "; overflow is undefined in C++11.",
                  f"{f.binders()} :\n    {f.call()} =\n      if ∀ i : Fin {f.n}, {P}\n      then .ok ⟨fun i => {act}⟩ else .ub .signedOverflow",
                  pro + f"refine fill_if (by rfl) _ _ _ fun i D => ?_\n" + "\n".join(pre + ["csim_ub", f"simp only [noOverflow{W}_two]", "bvnorm", "simp only [BitVec.reduceOfInt]"]))
            wrapv(m, f, act)
            ub_witness(m, f, {"N": str(2**(W-1)), "M": "1"}, f"In C++11 `{f.name}` is undefined for some operands.", W)
            if W == 64:
                wrong(m, f, {"N": "0", "M": "0"}, hi, f"`{f.name}` does not give the rounded high half, in any dialect.", proof=WRONG_IF)
        else:
            act = f"high {w} (N.lane i - M.lane i + {2**64-2**31}#{W})"
            m.thm(f.name + "_partial", f"`{f.name}` adds the rounding constant `0xFFFFFFFF80000000` instead of `0x80000000`.",
                  f"{f.binders()} :\n    {f.call()} = .ok ⟨fun i => {act}⟩",
                  pro + "refine fill_ok (by rfl) _ fun i D => ?_\n" + "\n".join(pre + ["csim", "bvnorm", "simp only [BitVec.reduceOfInt]"]))
            wrong(m, f, {"N": "0", "M": "0"}, hi, f"`{f.name}` does not give the rounded high half.")
            m.thm(f.name + "_off_by_one", f"For all operands every lane of `{f.name}` is one less than the architectural result.",
                  f"{f.binders()} :\n    {f.call()} = .ok ⟨fun i => {hi} - 1#32⟩",
                  f"rw [{f.name}_partial]\ncongr 2\nfunext i\nexact off_by_one (N.lane i - M.lane i)")
    # vhsub
    for q in ("", "q"):
        for el in ("s8", "s16", "s32", "u8", "u16", "u32"):
            k, w = el[0], int(el[1:]); f = F(f"vhsub{q}_{el}"); pre = bounds(f, ["N", "M"])
            sp = f"BitVec.ofInt {w} (({val(f,'N')} - {val(f,'M')}) / 2)"
            if w < 32:
                lanewise(m, f, sp, f"`{f.name}` gives `floor((a - b) / 2)` of the exact difference, modulo `2^{w}`.", pre=pre, close=None)
            elif k == "s":
                lanewise(m, f, "(N.lane i - M.lane i).sshiftRight 1", f"`{f.name}` halves the 32-bit `int` difference; overflow is undefined in C++11.", ub=f"NoOverflow 32 ({val(f,'N')} - {val(f,'M')})", pre=pre,
                         close="simp only [← int_sub_bmod32]\nsimp only [show ((N.lane i - M.lane i).toInt / 2 : Int) = _ from toInt_div_pow (N.lane i - M.lane i) 1]\nsimp only [ofInt_toInt_ext, BitVec.signExtend_eq]")
                ub_witness(m, f, {"N": str(2**31), "M": "1"}, f"In C++11 `{f.name}` is undefined for some operands.", 32)
                wrong(m, f, {"N": str(2**31), "M": "1"}, sp, f"`{f.name}` does not give the halved exact difference, in any dialect.", proof=WRONG_IF)
            else:
                lanewise(m, f, "(N.lane i - M.lane i) >>> 1", f"`{f.name}` halves the difference modulo `2^32`: the borrow is lost.", name=f.name + "_partial", pre=pre,
                         close="simp only [← nat_sub_mod32]\nsimp only [show (((N.lane i - M.lane i).toNat : Int) / 2) = _ from toNat_div_pow (N.lane i - M.lane i) 1]\nsimp only [ofInt_toNat, BitVec.setWidth_eq]")
                wrong(m, f, {"N": "0", "M": "1"}, sp, f"`{f.name}` does not give the halved exact difference.")
    m.save()


# ---------------------------------------------------------------- C19, C20
SAT = "split <;> csim <;> (congr 2; simp only [ssat, usat, clamp, Int.reducePow, Int.reduceNeg, Int.reduceSub, Nat.reduceSub]; congr 1; omega)"
def saturate():
    m = Mod("Saturate", ["Model.Add", "Model.Sub"], "# Saturating addition and subtraction (C19, C20)")
    for name in ("vqadd_u8", "vqaddq_u8"):
        f = F(name); a, b = f.ps[0][1], f.ps[1][1]
        lanewise(m, f, f"usat 8 ({val(f,a)} + {val(f,b)})", f"`{name}` gives the exact sum clamped to `[0, 255]`.", close="repeat' split\nall_goals sat_close")
    for q in ("", "q"):
        for el in ("s8", "s16", "s32", "u8", "u16", "u32"):
            f = F(f"vqsub{q}_{el}"); k, w = el[0], int(el[1:])
            lanewise(m, f, f"{'s' if k=='s' else 'u'}sat {w} ({val(f,'N')} - {val(f,'M')})", f"`{f.name}` gives the exact difference clamped to the range of `{'u' if k=='u' else ''}int{w}_t`.", pre=bounds(f, ["N", "M"]), close="repeat' split\nall_goals sat_close")
    m.save()

# ---------------------------------------------------------------- C23 .. C28
def mul():
    m = Mod("Mul", ["Model.Mul", "Model.Add"], "# Multiplication (C23, C24, C25, C26, C27, C28)")
    def pr(f, x, y): return f"{val(f,x)} * {val(f,y)}"
    for name in ["vmul_" + e for e in ("s8","s16","s32","u8","u16","u32")] + ["vmulq_" + e for e in ("s8","s16","s32","u8","u16","u32")] + \
            ["vmul_n_" + e for e in ("s16","s32","u16","u32")] + ["vmulq_n_" + e for e in ("s16","s32","u16","u32")]:
        f = F(name); k, w = f.el[0], f.w
        pre = bounds(f, ["N", "M"]) + mulb(f, "N", "M")
        spec = f"{ln(f,'N')} * {ln(f,'M')}"
        if f.el in ("s32", "u16"):
            lanewise(m, f, spec, f"`{name}` gives the product modulo `2^{w}`; the multiplication is done in `int`, so in C++11 a product that does not fit 32 bits is undefined.",
                     ub=f"NoOverflow 32 ({pr(f,'N','M')})", pre=pre)
            ub_witness(m, f, {"N": "65535" , "M": "65535"}, f"In C++11 `{name}` is undefined for some operands.", 32)
        else:
            lanewise(m, f, spec, f"`{name}` gives the product modulo `2^{w}`, for all operands.", pre=pre)
    W = {8: 16, 16: 32, 32: 64}
    for name in ["vmull_" + e for e in ("s8","s16","s32","u8","u16","u32")] + ["vmull_n_" + e for e in ("s16","s32","u16","u32")]:
        f = F(name); a, b = f.ps[0][1], f.ps[1][1]; k, w, _ = f.pv(a); W2 = W[w]
        pre = bounds(f, [a, b]) + mulb(f, a, b)
        sx = "signExtend" if k == "s" else "setWidth"
        full = f"({ln(f,a)}).{sx} {W2} * ({ln(f,b)}).{sx} {W2}"
        if k + str(w) == "u16":
            lanewise(m, f, full, f"`{name}` gives the exact product when it fits `int`; in C++11 a larger product is undefined.", ub=f"NoOverflow 32 ({pr(f,a,b)})", pre=pre)
            ub_witness(m, f, {a: "65535", b: "65535"}, f"In C++11 `{name}` is undefined for some operands.", 32)
        elif k + str(w) == "u32":
            lanewise(m, f, f"({ln(f,a)} * {ln(f,b)}).setWidth 64", f"`{name}` multiplies modulo `2^32` and then zero-extends: the upper half of the product is lost.", name=name + "_partial", pre=pre,
                     close="simp only [← nat_mul_mod32, ofInt_toNat]")
            wrong(m, f, {a: "65536", b: "65536"}, full, f"`{name}` does not give the exact product.")
        elif k + str(w) == "s32":
            lanewise(m, f, f"({ln(f,a)} * {ln(f,b)}).signExtend 64", f"`{name}` multiplies in 32-bit `int` and then sign-extends; overflow of `int` is undefined in C++11.", ub=f"NoOverflow 32 ({pr(f,a,b)})", pre=pre,
                     close="simp only [← int_mul_bmod32, ofInt_toInt_ext]")
            ub_witness(m, f, {a: "65536", b: "65536"}, f"In C++11 `{name}` is undefined for some operands.", 32)
            wrong(m, f, {a: "65536", b: "65536"}, full, f"`{name}` does not give the exact product, in any dialect.", proof=WRONG_IF)
        else:
            lanewise(m, f, full, f"`{name}` gives the product computed in {W2} bits after {'sign' if k=='s' else 'zero'} extension.", pre=pre)
            if k == "u": sim = f"have hm := umul{w} ({ln(f,a)}) ({ln(f,b)})\nhave e : {full} = BitVec.ofInt {W2} ({pr(f,a,b)}) := by bvnorm\nshow (({full}).toNat : Int) = _\nrw [e, BitVec.toNat_ofInt]\nomega"
            else: sim = f"have hm := smul{w} ({ln(f,a)}) ({ln(f,b)})\nhave e : {full} = BitVec.ofInt {W2} ({pr(f,a,b)}) := by bvnorm\nshow ({full}).toInt = _\nrw [e, BitVec.toInt_ofInt]\nexact bmod{W2} (by omega)"
            exact(m, f, pr(f, a, b), f"Every lane of `{name}` is the exact product.", sim)
    # vqdmull
    f = F("vqdmull_s16")
    lanewise(m, f, f"ssat 32 (2 * ({pr(f,'M','N')}))", "`vqdmull_s16` gives the doubled exact product clamped to `int32_t`.", pre=bounds(f, ["M", "N"]) + mulb(f, "M", "N"), close=None)
    m.L[-1] = m.L[-1].replace("\n  csim\n", r"""
  by_cases hN : (N.lane i).toInt = -32768
  · by_cases hM : (M.lane i).toInt = -32768
    · csim
      simp only [hN, hM, decide_true, if_true, reduceIte]
      rfl
    · have hm' : -1073741823 ≤ (M.lane i).toInt * (N.lane i).toInt ∧
          (M.lane i).toInt * (N.lane i).toInt ≤ 1073741823 := by rw [hN]; omega
      csim
      simp only [hN, hM, decide_true, decide_false, if_true, reduceIte, Bool.false_eq_true]
      rw [hN] at hm'
      congr 2
      simp only [ssat, clamp, Int.reducePow, Int.reduceNeg, Int.reduceSub, Nat.reduceSub]
      congr 1
      omega
  · have hm' : (M.lane i).toInt * (N.lane i).toInt ≤ 1073741823 := by
      by_cases hM : (M.lane i).toInt = -32768
      · rw [hM]; omega
      · have := mul_bound (x := (M.lane i).toInt) (y := (N.lane i).toInt) (A := 32767) (B := 32767)
          (by omega) (by omega)
        omega
    csim
    simp only [hN, decide_false, reduceIte, Bool.false_eq_true]
    congr 2
    simp only [ssat, clamp, Int.reducePow, Int.reduceNeg, Int.reduceSub, Nat.reduceSub]
    congr 1
    omega
""")
    m.thm("vqdmull_s16_saturates_iff", "`vqdmull_s16` saturates only for `(-32768) * (-32768)`: a lane differs from the doubled exact product exactly there.",
          "(M N : int16x4_t) :\n    ∃ r, vqdmull_s16 M N = .ok r ∧ ∀ i, (r.lane i).toInt ≠ 2 * ((M.lane i).toInt * (N.lane i).toInt) ↔\n      (M.lane i).toInt = -32768 ∧ (N.lane i).toInt = -32768",
          """refine ⟨_, vqdmull_s16_spec M N, fun i => ?_⟩
have hb0 := toInt16 (M.lane i)
have hb1 := toInt16 (N.lane i)
have hm := smul16 (M.lane i) (N.lane i)
by_cases h : (M.lane i).toInt = -32768 ∧ (N.lane i).toInt = -32768
· simp only [h, ssat]
  decide
· have hm' : (M.lane i).toInt * (N.lane i).toInt ≤ 1073741823 := by
    by_cases hM : (M.lane i).toInt = -32768
    · rw [hM]; omega
    · by_cases hN : (N.lane i).toInt = -32768
      · rw [hN]; omega
      · have := mul_bound (x := (M.lane i).toInt) (y := (N.lane i).toInt) (A := 32767) (B := 32767)
          (by omega) (by omega)
        omega
  have e : clamp (-2 ^ (32 - 1)) (2 ^ (32 - 1) - 1) (2 * ((M.lane i).toInt * (N.lane i).toInt))
      = 2 * ((M.lane i).toInt * (N.lane i).toInt) := by
    simp only [clamp, Int.reducePow, Int.reduceNeg, Int.reduceSub, Nat.reduceSub]
    omega
  simp only [ssat, h, iff_false, ne_eq, Decidable.not_not]
  rw [e, BitVec.toInt_ofInt]
  exact bmod32 (by omega)""")
    # vmlal / vmlsl
    for base, sym, verb in (("vmlal", "+", "sum"), ("vmlsl", "-", "difference")):
        for el in ("s8", "s16", "s32", "u8", "u16", "u32"):
            name = f"{base}_{el}"; f = F(name); k, w = el[0], int(el[1:]); W2 = W[w]
            sx = "signExtend" if k == "s" else "setWidth"
            pre = bounds(f, ["N", "M", "P"]) + mulb(f, "M", "P")
            full = f"N.lane i {sym} (M.lane i).{sx} {W2} * (P.lane i).{sx} {W2}"
            P_ = pr(f, "M", "P"); nv = val(f, "N")
            if el in ("s8", "u8"):
                lanewise(m, f, full, f"`{name}` gives the {verb} of the accumulator and the exact product, modulo `2^{W2}`.", pre=pre)
            elif el == "s16":
                lanewise(m, f, full, f"`{name}` gives the {verb} of the accumulator and the exact product modulo `2^32`; overflow of the {verb} is undefined in C++11.", ub=f"NoOverflow 32 ({nv} {sym} {P_})", pre=pre)
                ub_witness(m, f, {"N": "2147483647" if sym == "+" else "2147483648", "M": "1", "P": "1"}, f"In C++11 `{name}` is undefined for some operands.", 32)
            elif el == "u16":
                lanewise(m, f, full, f"`{name}` gives the {verb} of the accumulator and the product modulo `2^32`; the product is computed in `int`, so in C++11 a product above `2^31 - 1` is undefined.", ub=f"NoOverflow 32 ({P_})", pre=pre)
                ub_witness(m, f, {"N": "0", "M": "65535", "P": "65535"}, f"In C++11 `{name}` is undefined for some operands.", 32)
            elif el == "u32":
                lanewise(m, f, f"N.lane i {sym} (M.lane i * P.lane i).setWidth 64", f"`{name}` uses the product modulo `2^32`: its upper half is lost.", name=name + "_partial", pre=pre,
                         close="simp (disch := decide) only [← nat_mul_mod32, ofInt_emod, ofInt_sub, BitVec.ofInt_add, ofInt_toNat, BitVec.setWidth_eq]")
                wrong(m, f, {"N": "0", "M": "65536", "P": "65536"}, full, f"`{name}` does not use the exact product.")
            else:
                lanewise(m, f, f"N.lane i {sym} (M.lane i * P.lane i).signExtend 64", f"`{name}` multiplies in 32-bit `int`; overflow of the product or of the {verb} is undefined in C++11.",
                         ub=f"NoOverflow 32 ({P_}) ∧ NoOverflow 64 ({nv} {sym} (M.lane i * P.lane i).toInt)", pre=pre,
                         close="simp only [← int_mul_bmod32]\nsimp (disch := decide) only [ofInt_bmod, ofInt_sub, BitVec.ofInt_add, ofInt_toInt_ext, BitVec.signExtend_eq]")
                ub_witness(m, f, {"N": "0", "M": "65536", "P": "65536"}, f"In C++11 `{name}` is undefined for some operands.", 32)
                wrong(m, f, {"N": "0", "M": "65536", "P": "65536"}, full, f"`{name}` does not use the exact product, in any dialect.", proof=WRONG_IF)
    for el in ("s8", "s16", "s32", "u8", "u16", "u32"):
        name = f"vmlaq_{el}"; f = F(name); k, w = el[0], int(el[1:])
        pre = bounds(f, ["N", "M", "P"]) + mulb(f, "M", "P"); P_ = pr(f, "M", "P"); nv = val(f, "N")
        spec = "N.lane i + M.lane i * P.lane i"
        if el in ("s32", "u16"):
            c2 = f"NoOverflow 32 ({nv} + {P_})" 
            if el == "s32":
                cl = "simp only [noOverflow32_two']\nbvnorm"
            else: cl = "simp only [noOverflow32_two']\nbvnorm"
            lanewise(m, f, spec, f"`{name}` gives accumulator plus product modulo `2^{w}`; the arithmetic is done in `int`, so overflow of product or sum is undefined in C++11.", ub=f"NoOverflow 32 ({P_}) ∧ {c2}", pre=pre, close=cl)
            ub_witness(m, f, {"N": "0", "M": "65535", "P": "65535"}, f"In C++11 `{name}` is undefined for some operands.", 32)
        else:
            lanewise(m, f, spec, f"`{name}` gives accumulator plus product modulo `2^{w}`, for all operands.", pre=pre)
    for name in ("vpaddl_u8", "vpaddlq_u8", "vpaddlq_u16"):
        f = F(name); W2 = f.w
        pre = ["have e0 : a.get (2 * ((i.val : Nat) : Int)) = .ok (.ofBits _ (a.lane ⟨2 * i.val, by omega⟩)) :=\n  Vec.get_at a _ (by omega) (by omega)",
               "have e1 : a.get (2 * ((i.val : Nat) : Int) + 1) = .ok (.ofBits _ (a.lane ⟨2 * i.val + 1, by omega⟩)) :=\n  Vec.get_at a _ (by omega) (by omega)",
               "simp only [e0, e1]"]
        spec = f"(a[2 * i.val]).setWidth {W2} + (a[2 * i.val + 1]).setWidth {W2}"
        lanewise(m, f, spec, f"`{name}` adds adjacent lanes after zero extension.", pre=pre, close="bvnorm\nrfl")
        exact(m, f, "((a[2 * i.val]).toNat : Int) + (a[2 * i.val + 1]).toNat", f"Every lane of `{name}` is the exact sum of two adjacent lanes.", "simp only [BitVec.toNat_add, BitVec.toNat_setWidth, Elem.bits, ITy.bits]\nomega")
    m.save()

# ---------------------------------------------------------------- C29, C30
def maxmin():
    m = Mod("MaxMin", ["Model.Add", "Model.Move"], "# Integer maximum and minimum (C29, C30)")
    for op in ("max", "min"):
        for el in ("s8", "s16", "s32", "u8", "u16", "u32"):
            f = F(f"v{op}q_{el}"); w = f.w
            sp = f"BitVec.ofInt {w} ({op} {val(f,'N')} {val(f,'M')})"
            cl = "split\nall_goals (congr 2; congr 1; omega)"
            if el[0] == "s":
                lanewise(m, f, sp, f"`{f.name}` gives the {'larger' if op=='max' else 'smaller'} lane in the signed order.", pre=bounds(f, ["N", "M"]), close=cl)
                exact(m, f, f"{op} {val(f,'N')} {val(f,'M')}", f"The value of each lane of `{f.name}`.", "\n".join(bounds(f, ["N", "M"])) + f"\nshow (BitVec.ofInt {w} _).toInt = _\nrw [BitVec.toInt_ofInt]\nexact bmod{w} (by omega)")
            else:
                lanewise(m, f, sp, f"`{f.name}` is defined on signed lanes and compares in the signed order.", pre=bounds(f, ["N", "M"]), close=cl, name=f.name + "_partial")
                wrong(m, f, {"N": str(2**(w-1)), "M": "1"}, f"BitVec.ofNat {w} ({op} (N.lane i).toNat (M.lane i).toNat)", f"`{f.name}` does not give the {'larger' if op=='max' else 'smaller'} lane in the unsigned order.")
    m.save()


def copy_pre(*reads): return ["simp (disch := omega) only [Vec.get_eq, Vec.get_fin, Arr.set_fin, toBits_ofBits, ok_bind, pure_eq]"]
# ---------------------------------------------------------------- C03, C36, C37, C43
def move():
    m = Mod("Move", ["Model.Move", "Model.Perm"], "# Broadcast, halves, lane extraction, narrowing and widening moves (C03, C36, C37, C43)")
    for name in [f"vdup_n_{e}" for e in ("s8","s16","s32","s64","u8","u16","u32","u64")] + [f"vdupq_n_{e}" for e in ("u8","s8","u16","s16","u32","s32","f32")] + ["vmovq_n_f32"]:
        f = F(name); x = f.ps[0][1]
        m.thm(name + "_spec", f"`{name}` puts the scalar in every lane.", f"{f.binders()} :\n    {f.call()} = .ok ⟨fun _ => {x}⟩",
              f"unfold {name}\nrefine fill_ok (by rfl) _ fun i D => ?_\nsimp only [Arr.set_fin, toBits_ofBits, ok_bind, pure_eq]")
    for name in [f"vget_low_{e}" for e in ("f32","s32","u32","s16","u16","s8","u8")]:
        f = F(name)
        m.thm(name + "_spec", f"`{name}` gives the lower lanes.", f"{f.binders()} :\n    {f.call()} = .ok ⟨fun i => a[i.val]⟩",
              f"unfold {name}\nrefine fill_ok (by rfl) _ fun i D => ?_\nsimp (disch := omega) only [Vec.get_eq, Arr.set_fin, toBits_ofBits, ok_bind, pure_eq]\nrfl")
    for name in [f"vget_high_{e}" for e in ("f32","s32","u32","s16","u16","s8","u8")]:
        f = F(name); n = f.n
        m.thm(name + "_spec", f"`{name}` gives the upper lanes.", f"{f.binders()} :\n    {f.call()} = .ok ⟨fun i => a[{n} + i.val]⟩",
              f"unfold {name}\nrefine fill_ok (by rfl) _ fun i D => ?_\n{getat('a', n)}\nsimp only [Int.reduceDiv, ea, Arr.set_fin, toBits_ofBits, ok_bind, pure_eq]\nrfl")
    for name in [f"vcombine_{e}" for e in ("u8","u16","u32","s8","s16","s32")]:
        f = F(name); h = f.n // 2
        sp = f"if h : i.val < {h} then low[i.val] else high[i.val - {h}]"
        m.thm(name + "_spec", f"`{name}` puts the first operand in the lower lanes and the second in the upper lanes.", f"{f.binders()} :\n    {f.call()} = .ok ⟨fun i => {sp}⟩",
              f"unfold {name}\nrefine fill_own2 (fun j => j.val) (fun i => {sp}) {h} {h} (by rfl) (by rfl) (fun j => j.isLt) ?_ ?_\n· intro k hk\n  perm_close\n· intro k hk\n  perm_close")
        el = name.split("_")[1]
        m.thm(name + "_low", f"The lower half of `{name}` is its first operand.", f"{f.binders()} :\n    ({f.call()} >>= vget_low_{el}) = .ok low",
              f"rw [{name}_spec, ok_bind, vget_low_{el}_spec]\ncongr 1\next i : 2\nexact dif_pos i.isLt")
        m.thm(name + "_high", f"The upper half of `{name}` is its second operand.", f"{f.binders()} :\n    ({f.call()} >>= vget_high_{el}) = .ok high",
              f"rw [{name}_spec, ok_bind, vget_high_{el}_spec]\ncongr 1\next i : 2\nrefine (dif_neg (by simp only; omega)).trans (congrArg high.lane (Fin.ext ?_))\nsimp only\nomega")
        T = f.ret
        m.thm(name + "_halves", f"Combining the two halves of a register with `{name}` gives the register back.", f"(a : {T}) :\n    (do {name} (← vget_low_{el} a) (← vget_high_{el} a)) = .ok a",
              f"rw [vget_low_{el}_spec, ok_bind, vget_high_{el}_spec, ok_bind, {name}_spec]\ncongr 1\next i : 2\nsimp only\nsplit\n· rfl\n· refine congrArg a.lane (Fin.ext ?_)\n  simp only\n  omega")
    for name in ["vget_lane_f32"] + [f"vgetq_lane_{e}" for e in ("u8","u16","u32","u64","s8","s16","s32","s64","f64")]:
        f = F(name); n = f.pv("v")[2]
        m.thm(name + "_spec", f"`{name}` returns the lane with the given in-range index.", f"(v : {f.ps[0][0]}) (lane : Fin {n}) :\n    {name} v ((lane.val : Nat) : Int) = .ok (v.lane lane)",
              f"unfold {name}\nsimp only [Vec.get_fin, toBits_ofBits, ok_bind]")
        m.thm(name + "_oob", f"`{name}` does not check its index: every out-of-range index reads outside the register (undefined behaviour) instead of aborting.",
              f"(v : {f.ps[0][0]}) (lane : Int) (h : ¬ (0 ≤ lane ∧ lane < {n})) :\n    {name} v lane = .ub .outOfBounds",
              f"unfold {name}\nrw [Vec.get_oob v (by omega)]\nrfl")
    m.thm("vgetq_lane_f32_spec", "`vgetq_lane_f32` returns the lane with the given in-range index.", "(v : float32x4_t) (lane : Fin 4) :\n    vgetq_lane_f32 v ((lane.val : Nat) : Int) = .ok (v.lane lane)",
          "unfold vgetq_lane_f32\nrw [if_neg (by omega)]\nsimp only [Vec.get_fin, toBits_ofBits, ok_bind]")
    m.thm("vgetq_lane_f32_abort", "`vgetq_lane_f32` aborts for every out-of-range index.", "(v : float32x4_t) (lane : Int) (h : ¬ (0 ≤ lane ∧ lane < 4)) :\n    vgetq_lane_f32 v lane = .abort \"vgetq_lane_f32: lane should is out of range [0, 3]\"",
          "unfold vgetq_lane_f32\nexact if_pos (by omega)")
    for name in ("vmovn_s32", "vmovn_u32", "vmovn_u16"):
        f = F(name)
        lanewise(m, f, f"(a.lane i).setWidth {f.w}", f"`{name}` keeps the low half of each lane.", close=f"simp only [ofInt_toInt_trunc16, ofInt_toNat]" )
    for name in [f"vmovl_{e}" for e in ("u8","u16","u32","s8","s16","s32")]:
        f = F(name); k = name[6]
        lanewise(m, f, ext(f, "a", f.w), f"`{name}` {'sign' if k=='s' else 'zero'}-extends each lane.", close="bvnorm")
        v = "(r.lane i).toInt" if k == "s" else "(r.lane i).toNat"
        exact(m, f, val(f, "a"), f"`{name}` preserves the value of each lane.", ("exact BitVec.toInt_signExtend_of_le (by decide)" if k == "s" else "simp only [BitVec.toNat_setWidth, Elem.bits, ITy.bits]\nomega"))
    lanewise(m, F("vqmovn_u16"), "usat 8 ((a.lane i).toNat : Int)", "`vqmovn_u16` clamps each lane to `[0, 255]`.", close="repeat' split\nall_goals sat_close")
    lanewise(m, F("vqmovun_s16"), "usat 8 (a.lane i).toInt", "`vqmovun_s16` clamps each lane to `[0, 255]`.", pre=["have hb := toInt16 (a.lane i)"], close="repeat' split\nall_goals sat_close")
    for nv, lv, sat in (("vmovn_s32", "vmovl_s16", 0), ("vmovn_u32", "vmovl_u16", 0), ("vmovn_u16", "vmovl_u8", 0), ("vqmovn_u16", "vmovl_u8", 1)):
        f = F(lv)
        if sat: pr = "show usat 8 (((a.lane i).setWidth 16).toNat : Int) = a.lane i\nhave := (a.lane i).isLt\nrw [BitVec.toNat_setWidth, usat]\nhave e : clamp 0 (2 ^ 8 - 1) (((a.lane i).toNat % 2 ^ 16 : Nat) : Int) = ((a.lane i).toNat : Int) := by\n  have h2 : (a.lane i).toNat < 256 := this\n  rw [Nat.mod_eq_of_lt (by omega)]\n  simp only [clamp, Int.reducePow, Int.reduceSub]\n  omega\nrw [e, ofInt_toNat, BitVec.setWidth_eq]"
        elif lv[6] == "s": pr = f"show ((a.lane i).signExtend {f.w}).setWidth {f.w//2} = a.lane i\nexact setWidth_signExtend_self _ _ (by decide)"
        else: pr = f"show ((a.lane i).setWidth {f.w}).setWidth {f.w//2} = a.lane i\nrw [BitVec.setWidth_setWidth_of_le _ (by decide), BitVec.setWidth_eq]"
        m.thm(f"{nv}_{lv}", f"`{nv}` after `{lv}` is the identity.", f"(a : {f.ps[0][0]}) :\n    ({lv} a >>= {nv}) = .ok a", f"rw [{lv}_spec, ok_bind, {nv}_spec]\ncongr 1\next i : 2\n" + pr)
    m.save()

# ---------------------------------------------------------------- C35
def logic():
    m = Mod("Logic", ["Model.Logic"], "# Bitwise logic (C35)")
    for base, sym in (("vand", "&&&"), ("vorr", "|||"), ("veor", "^^^")):
        for q in ("", "q"):
            for el in ("s8","s16","s32","s64","u8","u16","u32","u64"):
                name = f"{base}{q}_{el}"
                if name == "veor_u32": name = "ver_u32"
                f = F(name)
                lanewise(m, f, f"a.lane i {sym} b.lane i", f"`{name}` acts bit by bit.", close="bitnorm")
    for q in ("", "q"):
        for el in ("s8","s16","s32","u8","u16","u32"):
            f = F(f"vmvn{q}_{el}")
            lanewise(m, f, "~~~ (a.lane i)", f"`{f.name}` complements every bit.", close="bitnorm")
            n = f.name
            m.thm(n + "_involutive", f"`{n}` undoes itself.", f"(a : {f.ret}) :\n    ({n} a >>= {n}) = .ok a", f"rw [{n}_spec, ok_bind, {n}_spec]\ncongr 1\next i : 2\nexact BitVec.not_not")
            for x, y in (("vand", "vorr"), ("vorr", "vand")):
                m.thm(f"{n}_{x}", f"De Morgan: `{n}` of `{x}{q}_{el}` is `{y}{q}_{el}` of the complements.", f"(a b : {f.ret}) :\n    ({x}{q}_{el} a b >>= {n}) = (do {y}{q}_{el} (← {n} a) (← {n} b))",
                      f"rw [{x}{q}_{el}_spec, ok_bind, {n}_spec, {n}_spec, {n}_spec, ok_bind, ok_bind, {y}{q}_{el}_spec]\ncongr 1\next i : 2\nexact BitVec.not_{'and' if x=='vand' else 'or'}")
    for q in ("", "q"):
        for el in ("s8","s16","s32","s64","u8","u16","u32","u64"):
            n = f"veor{q}_{el}" if f"veor{q}_{el}" != "veor_u32" else "ver_u32"
            f = F(n)
            m.thm(n + "_cancel", f"`{n}` with the same operand twice gives the original register.", f"(a b : {f.ret}) :\n    (do {n} (← {n} a b) b) = .ok a", f"rw [{n}_spec, ok_bind, {n}_spec]\ncongr 1\next i : 2\nshow (a.lane i ^^^ b.lane i) ^^^ b.lane i = _\nrw [BitVec.xor_assoc, BitVec.xor_self, BitVec.xor_zero]")
    m.save()

# ---------------------------------------------------------------- C38, C39, C40, C41
def perm():
    m = Mod("Perm", ["Model.Perm", "Model.Rest"], "# Lane permutations (C38, C39, C40, C41)")
    for name in [n for n in TAB if n.startswith("vrev")]:
        f = F(name); n, w = f.n, f.w
        c = int(re.match(r"vrev(\d+)", name).group(1)) // w
        sp = f"vec[i.val / {c} * {c} + ({c-1} - i.val % {c})]"
        if name == "vrev32_s8":
            m.thm(name + "_partial", "`vrev32_s8` runs over 16 lanes of an 8-lane register: it has undefined behaviour on every input.", f"{f.binders()} :\n    {f.call()} = .ub .outOfBounds",
                  f"unfold vrev32_s8\nshow (cfor _ _ _ _ _ >>= fun D => Arr.ret D) = _\nrw [cfor_ub 2 (Arr.partial (fun j => j.val / {c}) fun i => {sp}) .outOfBounds (by decide) (Arr.partial_zero _ _)]\n· rfl\n· intro k hk\n  perm_close\n· rw [Vec.get_oob vec (by decide)]\n  rfl")
            m.thm(name + "_wrong", "`vrev32_s8` never returns a register.", f": ¬ ∃ (vec r : int8x8_t), vrev32_s8 vec = .ok r", "rintro ⟨v, r, h⟩\nrw [vrev32_s8_partial] at h\ncases h")
            continue
        if name in ("vrev64q_s8", "vrev64q_s16"):
            h = n // 2
            m.thm(name + "_partial", f"`{name}` reverses the lower block only and returns a register whose upper {h} lanes were never written.",
                  f"{f.binders()} :\n    {f.call()} = .indet (List.ofFn fun i : Fin {n} => if i.val < {h} then some (vec[{h-1} - i.val]).toNat else none)",
                  f"unfold {name}\nrefine (fill_own_indet (fun j => j.val / {h}) (fun i => vec[{h-1} - i.val]) 1 (by rfl) ⟨⟨{h}, by omega⟩, by decide⟩ fun k hk => ?_).trans ?_\n· perm_close\n· congr 2\n  funext j\n  have : (j.val / {h} < 1) = (j.val < {h}) := propext (by omega)\n  simp only [this]")
            m.thm(name + "_wrong", f"`{name}` never returns a fully written register.", f": ¬ ∃ vec r : {f.ret}, {name} vec = .ok r", f"rintro ⟨v, r, h⟩\nrw [{name}_partial] at h\ncases h")
            continue
        m.thm(name + "_spec", f"`{name}` reverses the {c} lanes of each block.", f"{f.binders()} :\n    {f.call()} = .ok ⟨fun i => {sp}⟩",
              f"unfold {name}\nrefine fill_own (fun j => j.val / {c}) (fun i => {sp}) {n//c} (by rfl) (fun j => by omega) fun k hk => ?_\nperm_close")
        m.thm(name + "_involutive", f"`{name}` undoes itself.", f"{f.binders()} :\n    ({f.call()} >>= {name}) = .ok vec",
              f"rw [{name}_spec, ok_bind, {name}_spec]\ncongr 1\next i : 2\nrefine congrArg vec.lane (Fin.ext ?_)\nsimp only\nomega")
    for name in [n for n in TAB if n.startswith("vtrn")]:
        f = F(name); n = f.n
        sp = f"if h : i.val % 2 = 0 then a[i.val + j.val] else b[i.val - 1 + j.val]"
        m.thm(name + "_spec", f"`{name}`: register 0 holds the even lanes of both operands, register 1 the odd lanes, alternating between first and second operand.",
              f"{f.binders()} :\n    {f.call()} = .ok ⟨fun j => ⟨fun i => {sp}⟩⟩",
              f"unfold {name}\nrefine fill2_own2 (fun j i => {n//2} * j.val + i.val / 2) (fun j i => {sp}) {n//2} {n//2} (by rfl) (by rfl) (fun j i => by omega) ?_ ?_\n· intro k hk\n  perm2_close\n· intro k hk\n  perm2_close")
        m.thm(name + "_involutive", f"Applying `{name}` to the two registers it returned gives the operands back.",
              f"{f.binders()} :\n    (do let r ← {f.call()}; {name} r[0] r[1]) = .ok ⟨fun j => if j.val = 0 then a else b⟩",
              f"""rw [{name}_spec, ok_bind, {name}_spec]
congr 1
ext j i : 4
by_cases hj : j.val = 0 <;> by_cases hi : i.val % 2 = 0
"""); m.L[-1] = m.L[-1].replace("by_cases hj : j.val = 0 <;> by_cases hi : i.val % 2 = 0", "obtain ⟨j, hj⟩ := j\n  have hj : j = 0 ∨ j = 1 := by omega\n  rcases hj with rfl | rfl\n  · perm_dite\n  · perm_dite")
    for name in ("vzip_s16", "vzip_s8", "vzip_u8"):
        f = F(name); n = f.n
        sp = f"if h : i.val % 2 = 0 then a[{n//2} * j.val + i.val / 2] else b[{n//2} * j.val + i.val / 2]"
        two = name == "vzip_s16"
        if two: pr = f"unfold {name}\nrefine fill2_own2 (fun j i => {n//2} * j.val + i.val / 2) (fun j i => {sp}) {n//2} {n//2} (by rfl) (by rfl) (fun j i => by omega) ?_ ?_\n· intro k hk\n  perm2_close\n· intro k hk\n  perm2_close"
        else: pr = f"unfold {name}\nrefine fill2_own (fun j i => i.val) (fun j i => {sp}) {n} (by rfl) (fun j i => by omega) fun k hk => ?_\nsplit\n· perm2_close\n· perm2_close"
        m.thm(name + "_spec", f"`{name}` interleaves its operands; register 0 holds the first {n} lanes of the interleaving, register 1 the last {n}.",
              f"{f.binders()} :\n    {f.call()} = .ok ⟨fun j => ⟨fun i => {sp}⟩⟩", pr)
    for name in ("vuzp_u8", "vuzp_s8"):
        f = F(name); n = f.n
        sp = f"if h : 2 * i.val + j.val < {n} then a[2 * i.val + j.val] else b[2 * i.val + j.val - {n}]"
        m.thm(name + "_spec", f"`{name}` de-interleaves the lanes of its concatenated operands: register 0 holds those with even index, register 1 those with odd index.",
              f"{f.binders()} :\n    {f.call()} = .ok ⟨fun j => ⟨fun i => {sp}⟩⟩",
              f"unfold {name}\nrefine fill2_own2 (fun j i => i.val) (fun j i => {sp}) {n//2} {n//2} (by rfl) (by rfl) (fun j i => by omega) ?_ ?_\n· intro k hk\n  perm2_close\n· intro k hk\n  perm2_close")
        z = name.replace("uzp", "zip")
        pr = f"""rw [{{0}}_spec, ok_bind, {{1}}_spec]
congr 1
ext j i : 4
obtain ⟨j, hj⟩ := j
have hj : j = 0 ∨ j = 1 := by omega
rcases hj with rfl | rfl
· perm_dite
· perm_dite"""
        m.thm(f"{name}_{z}", f"`{name}` undoes `{z}`.", f"{f.binders()} :\n    (do let r ← {z} a b; {name} r[0] r[1]) = .ok ⟨fun j => if j.val = 0 then a else b⟩", pr.format(z, name))
        m.thm(f"{z}_{name}", f"`{z}` undoes `{name}`.", f"{f.binders()} :\n    (do let r ← {name} a b; {z} r[0] r[1]) = .ok ⟨fun j => if j.val = 0 then a else b⟩", pr.format(name, z))
    for name, mx in (("vext_u8", 8), ("vext_u16", 3), ("vext_s16", 3), ("vextq_u16", 8)):
        f = F(name); n = f.n
        sp = f"if h : i.val + n < {n} then a[i.val + n] else b[i.val + n - {n}]"
        m.thm(name + "_spec", f"`{name}`: lanes `n .. n + {n-1}` of the concatenation of the operands, for every accepted `n`.",
              f"(a b : {f.ret}) (n : Nat) (hn : n ≤ {mx}) :\n    {name} a b n = .ok ⟨fun i => {sp}⟩",
              f"unfold {name}\nsimp only []\nrw [if_neg (by omega)]\nrefine fill_own2 (fun j => j.val) (fun i => {sp}) ({n} - n) n (by omega) (by omega) (fun j => by omega) ?_ ?_\n· intro k hk\n  perm_close\n· intro k hk\n  perm_close")
        m.thm(name + "_abort", f"`{name}` aborts for every other `n`.",
              f"(a b : {f.ret}) (n : Int) (hn : ¬ (0 ≤ n ∧ n ≤ {mx})) :\n    ∃ msg, {name} a b n = .abort msg", f"unfold {name}\nsimp only []\nrw [if_pos (by omega)]\nexact ⟨_, rfl⟩")
    m.save()

# ---------------------------------------------------------------- C44 .. C51
def shift():
    m = Mod("Shift", ["Model.Shift", "Model.Rest"], "# Shifts by an immediate (C44 - C51)")
    def body(f, pre="", close="", checked=True):
        return f"unfold {f.name}\n" + ("rw [if_neg (by omega)]\n" if checked else "") + "refine fill_ok (by rfl) _ fun i D => ?_\n" + pre + ("\n" if pre else "") + "csim\n" + close
    def abort(f, hi):
        x = f.ps[0][1]
        m.thm(f.name + "_abort", f"`{f.name}` aborts for every `n` outside `[1, {hi}]`.", f"({x} : {f.ps[0][0]}) (n : Int) (hn : ¬ (1 ≤ n ∧ n ≤ {hi})) :\n    ∃ msg, {f.name} {x} n = .abort msg",
              f"unfold {f.name}\nrw [if_pos (by omega)]\nexact ⟨_, rfl⟩")
    def rng(hi, lo=1): return f"(n : Nat) (h1 : {lo} ≤ n) (h2 : n ≤ {hi})"
    for name in ("vshrn_n_s16", "vshrn_n_s32", "vshrn_n_s64", "vshrn_n_u16", "vshrn_n_u32", "vshrn_n_u64", "vshr_n_u16"):
        f = F(name); x = f.ps[0][1]; k, w, n = f.pv(x); hi = 8 if name == "vshr_n_u16" else w // 2
        if k == "s": sp = f"((({x}.lane i).sshiftRight n).setWidth {w//2})"; cl = f"simp only [Int.toNat_natCast, toInt_div_pow]\nrw [ofInt_toInt_trunc _ _ (by decide)]"
        elif name == "vshr_n_u16": sp = f"({x}.lane i) >>> n"; cl = "simp only [Int.toNat_natCast, toNat_div_pow]\nrw [ofInt_toNat, BitVec.setWidth_eq]"
        else: sp = f"((({x}.lane i) >>> n).setWidth {w//2})"; cl = "simp only [Int.toNat_natCast, toNat_div_pow]\nrw [ofInt_toNat]"
        m.thm(name + ("_partial" if name == "vshr_n_u16" else "_spec"), f"`{name}`: each lane shifted right by `n`" + ("" if name == "vshr_n_u16" else ", low half") + f", for every `n` in `[1, {hi}]`.",
              f"({x} : {f.ps[0][0]}) {rng(hi)} :\n    {name} {x} n = .ok ⟨fun i => {sp}⟩", body(f, close=cl))
        abort(f, hi)
    m.thm("vshr_n_u16_wrong", "`vshr_n_u16` rejects the architectural shift counts 9 to 16.", "(v : uint16x4_t) (n : Nat) (h1 : 9 ≤ n) (h2 : n ≤ 16) :\n    vshr_n_u16 v n ≠ .ok ⟨fun i => (v.lane i) >>> n⟩",
          "obtain ⟨msg, h⟩ := vshr_n_u16_abort v n (by omega)\nrw [h]\nexact fun h => by cases h")
    f = F("vqshrun_n_s16")
    m.thm("vqshrun_n_s16_spec", "`vqshrun_n_s16`: the shifted lane (rounded down) clamped to `[0, 255]`, for every `n` in `[1, 8]`.", f"(v : int16x8_t) {rng(8)} :\n    vqshrun_n_s16 v n = .ok ⟨fun i => usat 8 ((v.lane i).toInt / 2 ^ n)⟩",
          body(f, "have hb := toInt16 (v.lane i)\nhave hd := div_bound n (show -32768 ≤ (v.lane i).toInt ∧ (v.lane i).toInt ≤ 32767 from hb) (by decide)", "simp only [Int.toNat_natCast]\ngeneralize (v.lane i).toInt / 2 ^ n = y at *\nrw [bmod16 (by omega)]\nrepeat' split\nall_goals sat_close"))
    abort(f, 8)
    f = F("vqrshrun_n_s16")
    m.thm("vqrshrun_n_s16_spec", "`vqrshrun_n_s16`: the lane divided by `2^n`, rounded to nearest (half up), clamped to `[0, 255]`, for every `n` in `[1, 8]`.", f"(v : int16x8_t) {rng(8)} :\n    vqrshrun_n_s16 v n = .ok ⟨fun i => usat 8 (((v.lane i).toInt + 2 ^ (n - 1)) / 2 ^ n)⟩",
          body(f, "have hb := toInt16 (v.lane i)\nhave hp : (2 : Int) ^ (n - 1) ≤ 2 ^ 7 := two_pow_le (by omega)\nhave hp0 := two_pow_pos (n - 1)\nhave e1 : (n : Int) - 1 = ((n - 1 : Nat) : Int) := by omega\nhave e2 := shl_one (n - 1) (by omega)\nhave hd := div_bound' n h1 (show -32768 ≤ (v.lane i).toInt ∧ (v.lane i).toInt ≤ 32767 from hb)",
          "simp only [e1, e2]\ncsim\nsimp only [Int.toNat_natCast]\ngeneralize ((v.lane i).toInt + 2 ^ (n - 1)) / 2 ^ n = y at *\nrw [bmod16 (by omega)]\nrepeat' split\nall_goals sat_close"))
    abort(f, 8)
    for name in ("vqshrun_n_s32", "vqshrun_n_s64"):
        f = F(name); hi = f.w
        abort(f, hi)
    for name in ("vqshrn_n_s16", "vqshrn_n_s32", "vqshrn_n_u16", "vqshrn_n_u32", "vqshrn_n_u64", "vqshrn_n_s64"):
        f = F(name); k, w, n = f.pv("a"); v = val(f, "a")
        pre = (f"have hb := toInt{w} (a.lane i)\n" if k == "s" else f"have hb := (a.lane i).isLt\nsimp only [Elem.bits, ITy.bits] at hb\n") + f"have hd := div_bound{'' if k=='s' else '_nonneg'} n (show {-2**(w-1) if k=='s' else 0} ≤ {v} ∧ {v} ≤ {2**(w-1)-1 if k=='s' else 2**w-1} by omega)" + (" (by decide)" if k == "s" else "")
        cl = f"simp only [Int.toNat_natCast]\ngeneralize {v} / 2 ^ n = y at *\n"
        sat = f"{k}sat".replace("ssat", "ssat") + f" {w//2}"
        if name == "vqshrn_n_s64":
            m.thm(name + "_partial", "`vqshrn_n_s64`: the shifted lane is limited from below only, then truncated to 32 bits: it is the clamped value when the shifted lane does not exceed the 32-bit maximum.",
              f"(a : int64x2_t) {rng(32)} :\n    vqshrn_n_s64 a n = .ok ⟨fun i => BitVec.ofInt 32 (max ((a.lane i).toInt / 2 ^ n) (-2147483648))⟩", body(f, pre, cl + "split\n· rw [Int.max_eq_right (by omega)]\n· rw [Int.max_eq_left (by omega), if_neg (by have := Int.bmod_lt (x := y) (m := 4294967296) (by decide); omega), ofInt_bmod _ _ (by decide)]", checked=False))
            continue
        m.thm(name + "_spec", f"`{name}`: the shifted lane (rounded down) clamped to the narrow type, for every `n` in `[1, {w//2}]`.", f"(a : {f.ps[0][0]}) {rng(w//2)} :\n    {name} a n = .ok ⟨fun i => {sat} ({v} / 2 ^ n)⟩",
              body(f, pre, cl + "repeat' split\nall_goals sat_close", checked=False))
    m.thm("vqshrn_n_s64_fits", "`vqshrn_n_s64` gives the clamped value when no shifted lane exceeds the 32-bit maximum, in particular always for `n = 32`.", f"(a : int64x2_t) {rng(32)}\n    (h : ∀ i, (a.lane i).toInt / 2 ^ n ≤ 2147483647) :\n    vqshrn_n_s64 a n = .ok ⟨fun i => ssat 32 ((a.lane i).toInt / 2 ^ n)⟩",
          "rw [vqshrn_n_s64_partial a n h1 h2]\ncongr 2\nfunext i\nhave := h i\nsimp only [ssat, clamp, Int.reducePow, Int.reduceNeg, Int.reduceSub, Nat.reduceSub]\ncongr 1\nomega")
    m.thm("vqshrn_n_s64_wrong", "`vqshrn_n_s64` does not clamp large shifted lanes.", ": ¬ ∀ (a : int64x2_t) (n : Nat), 1 ≤ n → n ≤ 32 →\n      vqshrn_n_s64 a n = .ok ⟨fun i => ssat 32 ((a.lane i).toInt / 2 ^ n)⟩",
          "intro h\nhave h := h ⟨fun _ => 8589934592#64⟩ 1 (by decide) (by decide)\nrw [vqshrn_n_s64_partial _ 1 (by decide) (by decide)] at h\nhave h := congrFun (Vec.mk.inj (C.ok.inj h)) 0\nrevert h\ndecide")
    m.thm("vrshrn_n_u16_spec", "`vrshrn_n_u16`: the low 8 bits of `(lane + 2^(n-1)) >> n`, for every `n` in `[1, 8]`.", f"(a : uint16x8_t) {rng(8)} :\n    vrshrn_n_u16 a n = .ok ⟨fun i => BitVec.ofNat 8 (((a.lane i).toNat + 2 ^ (n - 1)) / 2 ^ n)⟩",
          "unfold vrshrn_n_u16\nhave e1 : (n : Int) - 1 = ((n - 1 : Nat) : Int) := by omega\nhave e2 := shl_one (n - 1) (by omega)\nhave hp : (2 : Int) ^ (n - 1) ≤ 2 ^ 7 := two_pow_le (by omega)\nhave hp0 := two_pow_pos (n - 1)\nrw [sub_i32_i32, mkInt_i32 (by omega), ok_bind, e1, e2, ok_bind, cast_i32_i32, ok_bind]\nrefine fill_ok (by rfl) _ fun i D => ?_\ncsim\nsimp only [Int.toNat_natCast]\ncongr 2")
    m.thm("vsraq_n_s32_partial", "`vsraq_n_s32` shifts the accumulator too: it gives `(a >> n) + (b >> n)`, for every `n` in `[1, 31]`.", f"(a b : int32x4_t) {rng(31)} :\n    vsraq_n_s32 a b n = .ok ⟨fun i => (a.lane i).sshiftRight n + (b.lane i).sshiftRight n⟩",
          "unfold vsraq_n_s32\nrefine fill_ok (by rfl) _ fun i D => ?_\nhave ha := toInt32 (a.lane i)\nhave hb := toInt32 (b.lane i)\nhave hda := half_bound n h1 ha\nhave hdb := half_bound n h1 hb\ncsim\nsimp only [Int.toNat_natCast] at *\nrw [mkInt_i32 (by omega)]\ncsim\nsimp only [toInt_div_pow, BitVec.ofInt_add]\nrw [BitVec.ofInt_toInt, BitVec.ofInt_toInt]")
    m.thm("vsraq_n_s32_wrong", "`vsraq_n_s32` does not add the shifted operand to the unshifted accumulator.", ": ¬ ∀ (a b : int32x4_t) (n : Nat), 1 ≤ n → n ≤ 31 →\n      vsraq_n_s32 a b n = .ok ⟨fun i => a.lane i + (b.lane i).sshiftRight n⟩",
          "intro h\nhave h := h ⟨fun _ => 1#32⟩ ⟨fun _ => 0#32⟩ 1 (by decide) (by decide)\nrw [vsraq_n_s32_partial _ _ 1 (by decide) (by decide)] at h\nhave h := congrFun (Vec.mk.inj (C.ok.inj h)) 0\nrevert h\ndecide")
    m.thm("vsraq_n_s32_n32", "The architectural shift count 32 is undefined behaviour.", "(a b : int32x4_t) :\n    vsraq_n_s32 a b 32 = .ub .shiftAmount", "unfold vsraq_n_s32\nshow (cfor _ _ _ _ _ >>= fun D => Arr.ret D) = _\nrw [cfor_ub 0 (fun _ => Arr.undef) .shiftAmount (by decide) rfl (fun k hk => by omega)]\n· rfl\n· rw [Vec.get_at a (i := 0 + ((0 : Nat) : Int) * 1) 0 (by decide) rfl]\n  rfl")
    m.thm("vshlq_n_s32_partial", "`vshlq_n_s32`: the lane times `2^n` modulo `2^32`, for every `n` in `[0, 31]`; in C++11 a negative lane, or a product of `2^32` or more, is undefined behaviour.", "(M : int32x4_t) (n : Nat) (h2 : n ≤ 31) :\n    vshlq_n_s32 M n =\n      if ∀ i : Fin 4, Dialect.wrapv = true ∨ (0 ≤ (M.lane i).toInt ∧ (M.lane i).toInt * 2 ^ n < 2 ^ 32)\n      then .ok ⟨fun i => M.lane i <<< n⟩ else .ub .shiftOperand",
          "unfold vshlq_n_s32\nrefine fill_if (by rfl) _ _ _ fun i D => ?_\nrw [Vec.get_fin, ok_bind, shl_s32 _ n (by omega)]\nsplit\n· csim\n  rw [BitVec.ofInt_toInt]\n· rfl")
    m.thm("vshlq_n_s32_wrapv", "With `-fwrapv`, `vshlq_n_s32` is the lane times `2^n` modulo `2^32` for all lanes.", "(hd : Dialect.wrapv = true) (M : int32x4_t) (n : Nat) (h2 : n ≤ 31) :\n    vshlq_n_s32 M n = .ok ⟨fun i => M.lane i <<< n⟩", "rw [vshlq_n_s32_partial M n h2, if_pos fun _ => .inl hd]")
    m.thm("vshlq_n_s32_ub", "In C++11 shifting any register with a negative lane is undefined behaviour.", "(hd : Dialect.wrapv = false) (M : int32x4_t) (n : Nat) (h2 : n ≤ 31) (i : Fin 4) (hi : (M.lane i).toInt < 0) :\n    vshlq_n_s32 M n = .ub .shiftOperand", "rw [vshlq_n_s32_partial M n h2, if_neg]\nintro h\nrcases h i with h | h\n· rw [hd] at h\n  cases h\n· omega")
    m.thm("vshll_n_u8_spec", "`vshll_n_u8`: the widened lane shifted left by `n`, for every `n` in `[0, 7]`.", "(a : uint8x8_t) (n : Nat) (h2 : n ≤ 7) :\n    vshll_n_u8 a n = .ok ⟨fun i => (a.lane i).setWidth 16 <<< n⟩",
          "unfold vshll_n_u8\nrefine fill_ok (by rfl) _ fun i D => ?_\nhave hx := (a.lane i).isLt\nhave hx : (a.lane i).toNat < 256 := hx\nhave hp : 2 ^ n ≤ 2 ^ 7 := Nat.pow_le_pow_right (by decide) h2\nhave hm : (a.lane i).toNat * 2 ^ n ≤ 255 * 128 := Nat.mul_le_mul (by omega) hp\nsimp only [csem]\nrw [shl_u16 _ n (by omega) (by omega)]\ncsim\nrw [ofInt_natCast', shl_ofNat]")
    m.thm("vshll_n_u8_exact", "`vshll_n_u8` is the exact product of the lane and `2^n`.", "(a : uint8x8_t) (n : Nat) (h2 : n ≤ 7) :\n    ∃ r, vshll_n_u8 a n = .ok r ∧ ∀ i, (r.lane i).toNat = (a.lane i).toNat * 2 ^ n",
          "refine ⟨_, vshll_n_u8_spec a n h2, fun i => ?_⟩\nhave hx : (a.lane i).toNat < 256 := (a.lane i).isLt\nhave hp : 2 ^ n ≤ 2 ^ 7 := Nat.pow_le_pow_right (by decide) h2\nhave hm : (a.lane i).toNat * 2 ^ n ≤ 255 * 128 := Nat.mul_le_mul (by omega) hp\nshow ((a.lane i).setWidth 16 <<< n).toNat = _\nrw [BitVec.toNat_shiftLeft, BitVec.toNat_setWidth, Nat.shiftLeft_eq]\nrw [Nat.mod_eq_of_lt (a := (a.lane i).toNat) (by omega), Nat.mod_eq_of_lt (by omega)]")
    for name, w, nn in (("vqshrun_n_s32", 32, 4), ("vqshrun_n_s64", 64, 2)):
        f = F(name)
        m.thm(name + "_wrong", f"`{name}` computes the clamped value and drops it: it never returns a defined register, whatever the operands.", f"(v : {f.ps[0][0]}) (n : Int) (r : {f.ret}) : {name} v n ≠ .ok r",
              f"unfold {name}\nsplit\n· exact fun h => by cases h\n· exact never_ok _ ⟨0, by decide⟩ r")
        m.thm(name + "_partial", f"With `-fwrapv` (no overflow in the dropped computation) `{name}` returns a register none of whose {nn} lanes was written, for every `n` in `[1, {w//2}]`.", f"(hd : Dialect.wrapv = true) (v : {f.ps[0][0]}) (n : Nat) (h1 : 1 ≤ n) (h2 : n ≤ {w//2}) :\n    {name} v n = .indet (List.replicate {nn} none)",
              f"unfold {name}\nrw [if_neg (by omega)]\nrefine (congrArg (· >>= fun _ => Arr.undef.ret) (unit_loop (cnt := {nn}) (by rfl) fun k hk => ?_)).trans rfl\nhave e1 : (n : Int) - 1 = ((n - 1 : Nat) : Int) := by omega\nrw [Vec.get_at v k hk (by omega)]\n" + (r"""have e2 := shl_one (n - 1) (by omega)
csim
simp only [e1, e2]
csim_ub
simp only [NoOverflow, hd, true_or, if_true]
repeat' split
all_goals rfl""" if w == 32 else r"""have e2 : ∃ d, Val.shl (.int .i32 1) (.int .i32 ((n - 1 : Nat) : Int)) = .ok (.int .i32 d) := by
  by_cases h : n = 32
  · subst h
    exact ⟨_, shl_one_31 _⟩
  · exact ⟨_, shl_one (n - 1) (by omega)⟩
obtain ⟨d, e2⟩ := e2
csim
simp only [e1, e2]
csim_ub
simp only [NoOverflow, hd, true_or, if_true]
repeat' split
all_goals rfl"""))
    m.save()

# ---------------------------------------------------------------- C52
def reinterpret():
    m = Mod("Reinterpret", ["Image", "Model.Convert"], "# Reinterpretation of registers (C52)")
    names = [n for n in TAB if n.startswith("vreinterpret")]
    for name in names:
        f = F(name)
        m.thm(name + "_spec", f"`{name}` keeps every bit of the register.", f"(a : {f.ps[0][0]}) :\n    ∃ r, {name} a = .ok r ∧ ∀ b, regBit r b = regBit a b",
              f"unfold {name}\nexact memcpy_all a _ (by rfl) (by rfl)")
    for name in names:
        q, d, s = re.match(r"vreinterpret(q?)_(\w+)_(\w+)", name).groups()
        back = f"vreinterpret{q}_{s}_{d}"
        if back in TAB:
            m.thm(f"{back}_{name}", f"`{back}` undoes `{name}`.", f"(a : {F(name).ps[0][0]}) :\n    ({name} a >>= {back}) = .ok a",
                  f"obtain ⟨r, e, h⟩ := {name}_spec a\nobtain ⟨r', e', h'⟩ := {back}_spec r\nrw [e, ok_bind, e', regBit_inj fun b => (h' b).trans (h b)]")
    m.save()

# ---------------------------------------------------------------- C01-C05
LDST = re.compile(r"^v(ld|st)([1234])?(q?)_([suf]\d+)$")
def mem_names(kind):
    return [(n, int(LDST.match(n).group(2) or 2)) for n in TAB if LDST.match(n) and LDST.match(n).group(1) == kind]
VLD1F64 = """have e : vld1_f64 ptr = ptr.get 0 >>= fun v => v.toBits .f64 >>= fun b => .ok ⟨fun _ => b⟩ := by
  show (ptr.get 0 >>= fun v => (Arr.undef : Arr .f64 1).set 0 v >>= fun D => D.ret) = _
  simp only [fill_single]
have hok : ∀ x, Holds ptr 0 x → vld1_f64 ptr = .ok ⟨fun _ => x⟩ := by
  intro x hx
  rw [e, Ptr.get_holds (i := 0) rfl hx, ok_bind, toBits_ofBits]
  rfl
have hub : ¬ Readable ptr 0 → ∃ u, vld1_f64 ptr = .ub u := by
  intro h
  obtain ⟨u, hu⟩ := Ptr.get_not (p := ptr) (i := 0) rfl h
  exact ⟨u, by rw [e, hu]; rfl⟩
refine ⟨fun r => ⟨fun h i => ?_, fun h => ?_⟩, fun ⟨i, hi⟩ => hub (by rwa [Subsingleton.elim i 0] at hi)⟩
· rw [Subsingleton.elim i 0]
  by_cases hr : Readable ptr 0
  · obtain ⟨x, hx⟩ := hr
    rw [hok x hx] at h
    cases h
    exact hx
  · obtain ⟨u, hu⟩ := hub hr
    rw [hu] at h
    cases h
· rw [hok _ (h 0)]
  congr 1
  ext i
  rw [Subsingleton.elim i 0]"""
def load():
    m = Mod("Load", ["Mem", "Model.Load"], "# Loads (C01 to C05)")
    for n, k in mem_names("ld"):
        f = F(n)
        if k == 1:
            m.thm(n + "_spec", f"`{n}` loads the {f.n} consecutive elements at the pointer; it is undefined if one of them is missing or uninitialised.",
                  f"{f.binders()} : Loads ptr ({f.call()})", "exact load1 ptr rfl" if n != "vld1_f64" else VLD1F64)
        else:
            m.thm(n + "_spec", f"`{n}` de-interleaves the {k*f.n} elements at the pointer into {k} registers; it is undefined if one of them is missing or uninitialised.",
                  f"{f.binders()} : LoadsK ptr ({f.call()})", f"exact load{k} ptr rfl")
    m.raw("""
/-- A buffer of five elements, the last one uninitialised; the pointer is at the second. -/
def demoBuf : Ptr .u16 := ⟨[some 7, some 10, some 20, some 30, some 40, none], 1⟩
example : vld1_u16 demoBuf = .ok ⟨fun i => [10#16, 20#16, 30#16, 40#16][i]⟩ :=
  ((vld1_u16_spec demoBuf).1 _).2 (by decide)
example : ∃ u, vld1q_u16 demoBuf = .ub u :=
  (vld1q_u16_spec demoBuf).2 ⟨4, by rintro ⟨x, hx⟩; cases hx⟩
""")
    m.thm("vld1q_dup_f32_spec", "`vld1q_dup_f32` copies the element at the pointer to every lane; it is undefined if the element is missing or uninitialised.",
          "(ptr : Ptr .f32) :\n    (∀ x, Holds ptr 0 x → vld1q_dup_f32 ptr = .ok ⟨fun _ => x⟩) ∧\n    (¬ Readable ptr 0 → ∃ u, vld1q_dup_f32 ptr = .ub u)",
          "exact ⟨fun x hx => ((loadDup ptr rfl).1 ⟨fun _ => x⟩).2 fun _ => hx, fun h => (loadDup ptr rfl).2 ⟨0, h⟩⟩")
    for el in ("s8", "u8"):
        n = f"vld1_lane_{el}"; f = F(n)
        pre = f"""unfold {n}
show (cfor 0 8 1 Arr.undef _ >>= fun D => ptr.get 0 >>= fun v => D.set lane v >>= fun D => D.ret) = _
rw [cfor_one 8 8 rfl]
have e := iter_inv (body := fun (k : Nat) (r : Arr .{el} 8) => (do let r ← r.set (k : Int) (← src.get (k : Int)); pure r : C (Arr .{el} 8)))
  (Arr.upto src.lane) (n := 8) fun k hk => by
    rw [← Arr.upto_put src.lane k hk, Vec.get_at src k hk rfl]
    exact Arr.set_copy (Arr.upto src.lane k) ⟨k, hk⟩ (src.lane ⟨k, hk⟩)
rw [Arr.upto_zero] at e
rw [e, ok_bind]
"""
        m.thm(n + "_spec", f"`{n}` replaces lane `lane` by the element at the pointer and keeps every other lane, for a lane index in `[0, 7]`.",
              f"{f.binders()} (l : Fin 8) (hl : lane = l.val) (x : BitVec 8)\n    (hx : Holds ptr 0 x) :\n    {f.call()} = .ok ⟨fun i => if i = l then x else src.lane i⟩",
              pre + """rw [Ptr.get_holds (i := 0) rfl hx, ok_bind, hl, Arr.set_copy, ok_bind]
apply Arr.ret_some
funext i
simp only [Arr.put, Arr.upto]
split
· rfl
· rw [if_pos i.isLt]""")
        m.thm(n + "_unreadable", f"`{n}` is undefined when the element at the pointer is missing or uninitialised.",
              f"{f.binders()} (hx : ¬ Readable ptr 0) :\n    ∃ u, {f.call()} = .ub u",
              "obtain ⟨u, hu⟩ := Ptr.get_not (p := ptr) (i := 0) rfl hx\nrefine ⟨u, ?_⟩\n" + pre + "rw [hu]\nrfl")
        m.thm(n + "_oob", f"`{n}` does not reject an out-of-range lane index: it has undefined behaviour (it writes outside the register).",
              f"{f.binders()} (hl : ¬ (0 ≤ lane ∧ lane < 8)) :\n    ∃ u, {f.call()} = .ub u",
              "by_cases hx : Readable ptr 0\n· obtain ⟨x, hx⟩ := hx\n  refine ⟨.outOfBounds, ?_⟩\n" + "\n".join("  " + l for l in pre.strip("\n").split("\n")) +
              f"\n  rw [Ptr.get_holds (i := 0) rfl hx, ok_bind]\n  unfold Arr.set\n  rw [dif_neg (by simpa using hl)]\n  rfl\n· exact {n}_unreadable ptr src lane hx")
    m.raw("""
example : vld1_lane_u8 ⟨[some 9], 0⟩ ⟨fun i => BitVec.ofNat 8 i⟩ 3 = .ok ⟨fun i => if i = 3 then 9#8 else BitVec.ofNat 8 i⟩ :=
  vld1_lane_u8_spec _ _ 3 3 rfl 9#8 rfl
""")
    for k in (2, 3, 4):
        n = f"vld{k}_lane_u8"; f = F(n)
        m.thm(n + "_spec", f"`{n}` replaces lane `lane` of register `j` by element `j` at the pointer and keeps every other lane, for a lane index in `[0, 7]`; it is undefined when one of the {k} elements is missing or uninitialised.",
              f"{f.binders()} (l : Fin 8) (hl : lane = l.val) :\n    (∀ x : Fin {k} → BitVec 8, (∀ j : Fin {k}, Holds ptr j (x j)) →\n      {f.call()} = .ok ⟨fun j => ⟨fun i => if i = l then x j else (src.reg j).lane i⟩⟩) ∧\n    ((∃ j : Fin {k}, ¬ Readable ptr j) → ∃ u, {f.call()} = .ub u)",
              f"""have hg : ¬ ¬ (lane ≥ 0 ∧ lane ≤ 7) := by have := l.isLt; omega
unfold {n}
simp only [if_neg hg]
exact laneK ptr src l hl rfl rfl""")
        m.thm(n + "_abort", f"`{n}` aborts with a diagnostic, before any memory access, on every out-of-range lane index.",
              f"{f.binders()} (hl : ¬ (0 ≤ lane ∧ lane ≤ 7)) :\n    {f.call()} = .abort \"only support [0, 7] for param lane\\n\"",
              f"exact if_pos (by omega)")
    m.raw("""
example : vld2_lane_u8 ⟨[some 9, some 8], 0⟩ ⟨fun j => ⟨fun i => BitVec.ofNat 8 (8 * j + i)⟩⟩ 7 =
    .ok ⟨fun j => ⟨fun i => if i = 7 then [9#8, 8#8][j] else BitVec.ofNat 8 (8 * j + i)⟩⟩ :=
  (vld2_lane_u8_spec _ _ 7 7 rfl).1 (fun j => [9#8, 8#8][j]) (by decide)
""")
    m.save()

# ---------------------------------------------------------------- C06-C08, C10
def store():
    m = Mod("Store", ["Props.Load", "Model.Store"], "# Stores and round trips (C06 to C08, C10)")
    for n, k in mem_names("st"):
        f = F(n); N = f.pv("val")[2]
        if n in ("vst4_u8", "vst4_u32"): continue
        ld = {"vst2_s32": "vld_s32"}.get(n, n.replace("vst", "vld"))
        if k == 1:
            m.thm(n + "_spec", f"`{n}` writes the {N} lanes to the {N} consecutive elements at the pointer and changes no other element; it is undefined if there is no room for them.",
                  f"{f.binders()} : Stores ptr val.lane ({f.call()})", "exact store1 ptr val (by decide) rfl")
            m.thm(f"{n}_{ld}", f"`{ld}` gives back what `{n}` stored.",
                  f"{f.binders()} (h : Writable ptr {N}) :\n    ({f.call()} >>= fun p => {ld} p) = .ok val",
                  f"exact store_load1 ({n}_spec ptr val) {ld}_spec h")
            m.thm(f"{ld}_{n}", f"Storing what was loaded leaves the buffer as it was.",
                  f"(ptr : Ptr .{EL[f.ps[0][0]]}) (h : ∀ i : Fin {N}, Readable ptr i) :\n    ({ld} ptr >>= fun v => {n} ptr v) = .ok ptr",
                  f"exact load_store1 (by decide) ({ld}_spec ptr) (fun v => {n}_spec ptr v) h")
        else:
            m.thm(n + "_spec", f"`{n}` writes lane `i` of register `j` to element `{k}*i+j`, for the {k*N} elements at the pointer, and changes no other element; it is undefined if there is no room for them.",
                  f"{f.binders()} : Stores ptr (interleave val) ({f.call()})", f"exact store{k} ptr val (by decide) rfl")
            m.thm(f"{n}_{ld}", f"`{ld}` gives back what `{n}` stored.",
                  f"{f.binders()} (h : Writable ptr {N*k}) :\n    ({f.call()} >>= fun p => {ld} p) = .ok val",
                  f"exact store_loadK ({n}_spec ptr val) {ld}_spec h")
            m.thm(f"{ld}_{n}", f"Storing what was loaded leaves the buffer as it was.",
                  f"(ptr : Ptr .{EL[f.ps[0][0]]}) (h : ∀ t : Fin {N*k}, Readable ptr t) :\n    ({ld} ptr >>= fun v => {n} ptr v) = .ok ptr",
                  f"exact load_storeK (by decide) ({ld}_spec ptr) (fun v => {n}_spec ptr v) h")
    m.raw("""
example : Writable demoBuf 5 ∧ ¬ Writable demoBuf 6 := by decide
example : ∀ i : Fin 4, Readable demoBuf i := by
  intro i
  exact ⟨[10#16, 20#16, 30#16, 40#16][i], by revert i; decide⟩
example : vst1_u16 demoBuf ⟨fun i => BitVec.ofNat 16 (100 + i)⟩ =
    .ok ⟨[some 7, some 100, some 101, some 102, some 103, none], 1⟩ := by rfl
""")
    # vst4_u8
    m.raw("""
/-- What `vst4_u8` has written after `k` iterations. -/
def vst4_u8_w (val : uint8x8x4_t) (k : Nat) (t : Nat) : Option (BitVec 8) :=
  if h : t < 4 * k ∧ k ≤ 8 then
    if h3 : t % 4 = 3 then none else some ((val.reg ⟨t % 4, by omega⟩).lane ⟨t / 4, by omega⟩)
  else if h : t = 4 * k ∧ 0 < k ∧ k ≤ 8 then some ((val.reg 3).lane ⟨k - 1, by omega⟩) else none
""")
    f = F("vst4_u8")
    m.thm("vst4_u8_partial", "`vst4_u8` writes registers 0, 1 and 2 correctly.  Register 3 is lost except for its last lane, which is written one element past the 32 elements of the block; elements `4*i+3` are not written.  A buffer with room for exactly 32 elements is undefined behaviour.",
          f"""{f.binders()} :
    (Writable ptr 33 → ∃ p', {f.call()} = .ok p' ∧ p'.off = ptr.off ∧ p'.buf.length = ptr.buf.length ∧
      (∀ (j : Fin 4) (i : Fin 8), j ≠ 3 → p'.buf[ptr.off + (4 * i + j)]? = some (some ((val.reg j).lane i))) ∧
      (∀ i : Fin 8, p'.buf[ptr.off + (4 * i + 3)]? = ptr.buf[ptr.off + (4 * i + 3)]?) ∧
      p'.buf[ptr.off + 32]? = some (some ((val.reg 3).lane 7)) ∧
      ∀ a, a < ptr.off ∨ ptr.off + 33 ≤ a → p'.buf[a]? = ptr.buf[a]?) ∧
    (¬ Writable ptr 33 → {f.call()} = .ub .outOfBounds)""",
          """have hs : ∀ k : Nat, k < 8 → ∀ body, body = (fun (i : Int) (ptr : Ptr .u8) => (do
      let ptr ← ptr.set ((4 * i) + 0) (← val.get 0 i)
      let ptr ← ptr.set ((4 * i) + 1) (← val.get 1 i)
      let ptr ← ptr.set ((4 * i) + 2) (← val.get 2 i)
      let ptr ← ptr.set ((4 * i) + 4) (← val.get 3 i)
      pure ptr : C (Ptr .u8))) → body (k : Int) (ptr.updO (vst4_u8_w val k)) =
      if Writable ptr (4 * (k + 1) + 1) then .ok (ptr.updO (vst4_u8_w val (k + 1))) else .ub .outOfBounds := by
  intro k hk body hb
  subst hb
  simp only [VecArr.get_at val 0 k (j' := 0) (by decide) hk rfl rfl, VecArr.get_at val 1 k (j' := 1) (by decide) hk rfl rfl,
    VecArr.get_at val 2 k (j' := 2) (by decide) hk rfl rfl, VecArr.get_at val 3 k (j' := 3) (by decide) hk rfl rfl, ok_bind]
  rw [Ptr.updO_set ptr _ (4 * k) _ (by simp)]
  by_cases h1 : ¬ Writable ptr (4 * k + 1)
  · rw [if_neg h1, if_neg (by unfold Writable at *; omega)]; rfl
  replace h1 := Decidable.not_not.1 h1
  rw [if_pos h1, ok_bind, Ptr.updO_set ptr _ (4 * k + 1) _ (by simp)]
  by_cases h2 : ¬ Writable ptr (4 * k + 1 + 1)
  · rw [if_neg h2, if_neg (by unfold Writable at *; omega)]; rfl
  replace h2 := Decidable.not_not.1 h2
  rw [if_pos h2, ok_bind, Ptr.updO_set ptr _ (4 * k + 2) _ (by simp)]
  by_cases h3 : ¬ Writable ptr (4 * k + 2 + 1)
  · rw [if_neg h3, if_neg (by unfold Writable at *; omega)]; rfl
  replace h3 := Decidable.not_not.1 h3
  rw [if_pos h3, ok_bind]
  show Ptr.set _ _ _ = _
  rw [Ptr.updO_set ptr _ (4 * k + 4) _ (by simp)]
  by_cases h4 : ¬ Writable ptr (4 * k + 4 + 1)
  · rw [if_neg h4, if_neg (by unfold Writable at *; omega)]
  replace h4 := Decidable.not_not.1 h4
  rw [if_pos h4, if_pos (by unfold Writable at *; omega)]
  congr 2
  funext t
  unfold vst4_u8_w
  repeat' split
  all_goals first
    | rfl
    | (exfalso; omega)
    | exact congrArg some (reg_lane_eq val (by first | rfl | (simp only; omega)) (by simp only; omega))
have e0 : ptr.updO (vst4_u8_w val 0) = ptr := by
  rw [show vst4_u8_w val 0 = fun _ => none from ?_, Ptr.updO_none]
  funext t
  unfold vst4_u8_w
  rw [dif_neg (by omega), dif_neg (by omega)]
constructor
· intro hw
  refine ⟨ptr.updO (vst4_u8_w val 8), ?_, rfl, by simp [Ptr.updO], ?_, ?_, ?_, ?_⟩
  · refine cfor_inv 8 (fun k => ptr.updO (vst4_u8_w val k)) rfl e0 fun k hk => ?_
    rw [Int.mul_one, Int.zero_add]
    exact (hs k hk _ rfl).trans (if_pos (by unfold Writable at *; omega))
  · intro j i hj
    have hj3 : j.val ≠ 3 := fun h => hj (Fin.ext h)
    refine Ptr.updO_written ptr _ _ _ ?_ (by unfold Writable at *; omega)
    unfold vst4_u8_w
    rw [dif_pos (by omega), dif_neg (by omega)]
    have e1 : (4 * i.val + j.val) % 4 = j.val := by omega
    have e2 : (4 * i.val + j.val) / 4 = i.val := by omega
    simp only [e1, e2]
  · intro i
    refine Ptr.updO_frame ptr _ _ (.inr ?_)
    rw [Nat.add_sub_cancel_left]
    unfold vst4_u8_w
    rw [dif_pos (by omega), dif_pos (by omega)]
  · refine Ptr.updO_written ptr _ _ _ ?_ (by unfold Writable at *; omega)
    unfold vst4_u8_w
    rw [dif_neg (by omega), dif_pos (by omega)]
    rfl
  · intro a ha
    refine Ptr.updO_frame ptr _ _ ?_
    by_cases h : a < ptr.off
    · exact .inl h
    · refine .inr ?_
      unfold vst4_u8_w
      rw [dif_neg (by omega), dif_neg (by omega)]
· intro hw
  unfold vst4_u8
  rw [cfor_one 8 8 rfl]
  have e := iter_or (body := fun k => (fun (i : Int) (ptr : Ptr .u8) => (do
      let ptr ← ptr.set ((4 * i) + 0) (← val.get 0 i)
      let ptr ← ptr.set ((4 * i) + 1) (← val.get 1 i)
      let ptr ← ptr.set ((4 * i) + 2) (← val.get 2 i)
      let ptr ← ptr.set ((4 * i) + 4) (← val.get 3 i)
      pure ptr : C (Ptr .u8))) (k : Int)) (fun k => ptr.updO (vst4_u8_w val k))
    (fun k => Writable ptr (4 * (k + 1) + 1)) (· = .ub .outOfBounds) (fun x g hx => by rw [hx]; rfl) (n := 8)
    (fun k hk hr => (hs k hk _ rfl).trans (if_pos hr))
    (fun k hk hr => (hs k hk _ rfl).trans (if_neg hr))
    (fun hall => hw (hall 7 (by decide)))
  rw [e0] at e
  exact e""")
    m.thm("vst4_u8_wrong", "`vst4_u8` is undefined on every buffer whose last 32 elements are the block to write.",
          f"{f.binders()} (h : ptr.off + 32 = ptr.buf.length) :\n    {f.call()} = .ub .outOfBounds",
          "exact (vst4_u8_partial ptr val).2 (by unfold Writable; omega)")
    m.thm("vst4_u8_vld4_u8_wrong", "`vld4_u8` does not give back what `vst4_u8` stored, even when there is room for the element written past the block: register 3 is what the buffer held before.",
          f"{f.binders()} (h : Writable ptr 33) (r : uint8x8x4_t)\n    (hr : ({f.call()} >>= fun p => vld4_u8 p) = .ok r) (i : Fin 8) :\n    Holds ptr (4 * i + 3) ((r.reg 3).lane i)",
          """obtain ⟨p', h1, ho, _, _, h3, _⟩ := (vst4_u8_partial ptr val).1 h
rw [h1, ok_bind] at hr
have := ((vld4_u8_spec p').1 r).1 hr 3 i
unfold Holds at *
rw [ho] at this
exact (h3 i).symm.trans this""")
    f = F("vst4_u32")
    m.raw("""
/-- What `vst4_u32` has written after `k` iterations. -/
def vst4_u32_w (val : uint32x2x4_t) (k : Nat) (t : Nat) : Option (BitVec 32) :=
  if h : t < 4 * k ∧ k ≤ 2 then
    if h3 : t % 4 = 3 then none
    else if t % 4 = 2 then some ((val.reg 3).lane ⟨t / 4, by omega⟩)
    else some ((val.reg ⟨t % 4, by omega⟩).lane ⟨t / 4, by omega⟩)
  else none
""")
    m.thm("vst4_u32_partial", "`vst4_u32` writes registers 0 and 1 correctly.  Elements `4*i+2` receive register 3 instead of register 2, register 2 is lost, and elements `4*i+3` are not written.",
          f"""{f.binders()} :
    (Writable ptr 7 → ∃ p', {f.call()} = .ok p' ∧ p'.off = ptr.off ∧ p'.buf.length = ptr.buf.length ∧
      (∀ i : Fin 2, p'.buf[ptr.off + (4 * i)]? = some (some ((val.reg 0).lane i))) ∧
      (∀ i : Fin 2, p'.buf[ptr.off + (4 * i + 1)]? = some (some ((val.reg 1).lane i))) ∧
      (∀ i : Fin 2, p'.buf[ptr.off + (4 * i + 2)]? = some (some ((val.reg 3).lane i))) ∧
      (∀ i : Fin 2, p'.buf[ptr.off + (4 * i + 3)]? = ptr.buf[ptr.off + (4 * i + 3)]?) ∧
      ∀ a, a < ptr.off ∨ ptr.off + 8 ≤ a → p'.buf[a]? = ptr.buf[a]?) ∧
    (¬ Writable ptr 7 → {f.call()} = .ub .outOfBounds)""",
          """have hs : ∀ k : Nat, k < 2 → ∀ body, body = (fun (i : Int) (ptr : Ptr .u32) => (do
      let ptr ← ptr.set ((4 * i) + 0) (← val.get 0 i)
      let ptr ← ptr.set ((4 * i) + 1) (← val.get 1 i)
      let ptr ← ptr.set ((4 * i) + 2) (← val.get 2 i)
      let ptr ← ptr.set ((4 * i) + 2) (← val.get 3 i)
      pure ptr : C (Ptr .u32))) → body (k : Int) (ptr.updO (vst4_u32_w val k)) =
      if Writable ptr (4 * k + 3) then .ok (ptr.updO (vst4_u32_w val (k + 1))) else .ub .outOfBounds := by
  intro k hk body hb
  subst hb
  simp only [VecArr.get_at val 0 k (j' := 0) (by decide) hk rfl rfl, VecArr.get_at val 1 k (j' := 1) (by decide) hk rfl rfl,
    VecArr.get_at val 2 k (j' := 2) (by decide) hk rfl rfl, VecArr.get_at val 3 k (j' := 3) (by decide) hk rfl rfl, ok_bind]
  rw [Ptr.updO_set ptr _ (4 * k) _ (by simp)]
  by_cases h1 : ¬ Writable ptr (4 * k + 1)
  · rw [if_neg h1, if_neg (by unfold Writable at *; omega)]; rfl
  replace h1 := Decidable.not_not.1 h1
  rw [if_pos h1, ok_bind, Ptr.updO_set ptr _ (4 * k + 1) _ (by simp)]
  by_cases h2 : ¬ Writable ptr (4 * k + 1 + 1)
  · rw [if_neg h2, if_neg (by unfold Writable at *; omega)]; rfl
  replace h2 := Decidable.not_not.1 h2
  rw [if_pos h2, ok_bind, Ptr.updO_set ptr _ (4 * k + 2) _ (by simp)]
  by_cases h3 : ¬ Writable ptr (4 * k + 2 + 1)
  · rw [if_neg h3, if_neg (by unfold Writable at *; omega)]; rfl
  replace h3 := Decidable.not_not.1 h3
  rw [if_pos h3, ok_bind]
  show Ptr.set _ _ _ = _
  rw [Ptr.updO_set ptr _ (4 * k + 2) _ (by simp), if_pos h3, if_pos (by unfold Writable at *; omega)]
  congr 2
  funext t
  unfold vst4_u32_w
  repeat' split
  all_goals first
    | rfl
    | (exfalso; omega)
    | exact congrArg some (reg_lane_eq val (by first | rfl | (simp only; omega)) (by simp only; omega))
have e0 : ptr.updO (vst4_u32_w val 0) = ptr := by
  rw [show vst4_u32_w val 0 = fun _ => none from ?_, Ptr.updO_none]
  funext t
  unfold vst4_u32_w
  rw [dif_neg (by omega)]
constructor
· intro hw
  refine ⟨ptr.updO (vst4_u32_w val 2), ?_, rfl, by simp [Ptr.updO], ?_, ?_, ?_, ?_, ?_⟩
  · refine cfor_inv 2 (fun k => ptr.updO (vst4_u32_w val k)) rfl e0 fun k hk => ?_
    rw [Int.mul_one, Int.zero_add]
    exact (hs k hk _ rfl).trans (if_pos (by unfold Writable at *; omega))
  · intro i
    refine Ptr.updO_written ptr _ _ _ ?_ (by unfold Writable at *; omega)
    unfold vst4_u32_w
    rw [dif_pos (by omega), dif_neg (by omega), if_neg (by omega)]
    have e1 : (4 * i.val) % 4 = 0 := by omega
    have e2 : (4 * i.val) / 4 = i.val := by omega
    simp only [e1, e2]
    rfl
  · intro i
    refine Ptr.updO_written ptr _ _ _ ?_ (by unfold Writable at *; omega)
    unfold vst4_u32_w
    rw [dif_pos (by omega), dif_neg (by omega), if_neg (by omega)]
    have e1 : (4 * i.val + 1) % 4 = 1 := by omega
    have e2 : (4 * i.val + 1) / 4 = i.val := by omega
    simp only [e1, e2]
    rfl
  · intro i
    refine Ptr.updO_written ptr _ _ _ ?_ (by unfold Writable at *; omega)
    unfold vst4_u32_w
    rw [dif_pos (by omega), dif_neg (by omega), if_pos (by omega)]
    have e2 : (4 * i.val + 2) / 4 = i.val := by omega
    simp only [e2]
  · intro i
    refine Ptr.updO_frame ptr _ _ (.inr ?_)
    rw [Nat.add_sub_cancel_left]
    unfold vst4_u32_w
    rw [dif_pos (by omega), dif_pos (by omega)]
  · intro a ha
    refine Ptr.updO_frame ptr _ _ ?_
    by_cases h : a < ptr.off
    · exact .inl h
    · refine .inr ?_
      unfold vst4_u32_w
      rw [dif_neg (by omega)]
· intro hw
  unfold vst4_u32
  rw [cfor_one 2 2 rfl]
  have e := iter_or (body := fun k => (fun (i : Int) (ptr : Ptr .u32) => (do
      let ptr ← ptr.set ((4 * i) + 0) (← val.get 0 i)
      let ptr ← ptr.set ((4 * i) + 1) (← val.get 1 i)
      let ptr ← ptr.set ((4 * i) + 2) (← val.get 2 i)
      let ptr ← ptr.set ((4 * i) + 2) (← val.get 3 i)
      pure ptr : C (Ptr .u32))) (k : Int)) (fun k => ptr.updO (vst4_u32_w val k))
    (fun k => Writable ptr (4 * k + 3)) (· = .ub .outOfBounds) (fun x g hx => by rw [hx]; rfl) (n := 2)
    (fun k hk hr => (hs k hk _ rfl).trans (if_pos hr))
    (fun k hk hr => (hs k hk _ rfl).trans (if_neg hr))
    (fun hall => hw (hall 1 (by decide)))
  rw [e0] at e
  exact e""")
    m.thm("vst4_u32_vld4_u32_wrong", "`vld4_u32` does not give back what `vst4_u32` stored: register 2 is the stored register 3, and register 3 is what the buffer held before.",
          f"{f.binders()} (h : Writable ptr 8) (r : uint32x2x4_t)\n    (hr : ({f.call()} >>= fun p => vld4_u32 p) = .ok r) (i : Fin 2) :\n    (r.reg 2).lane i = (val.reg 3).lane i ∧ Holds ptr (4 * i + 3) ((r.reg 3).lane i)",
          """obtain ⟨p', h1, ho, _, _, _, h2, h3, _⟩ := (vst4_u32_partial ptr val).1 (by unfold Writable at *; omega)
rw [h1, ok_bind] at hr
have e2 := ((vld4_u32_spec p').1 r).1 hr 2 i
have e3 := ((vld4_u32_spec p').1 r).1 hr 3 i
unfold Holds at *
rw [ho] at e2 e3
have e2' := (h2 i).symm.trans e2
refine ⟨?_, (h3 i).symm.trans e3⟩
simpa using e2'.symm""")
    f = F("vst4q_lane_f32")
    pre = ""
    m.thm("vst4q_lane_f32_spec", "`vst4q_lane_f32` writes lane `lane` of the four registers to the four consecutive elements at the pointer and changes no other element, for a lane index in `[0, 3]`.",
          f"{f.binders()} (l : Fin 4) (hl : lane = l.val) :\n    Stores ptr (fun j : Fin 4 => (val.reg j).lane l) ({f.call()})",
          """subst hl
have key := store_loop (hi := 4) (body := fun i p => do
      let p ← p.set i (← val.get i (l.val : Int))
      pure p) ptr 4 1 (by decide) rfl (fun t => (val.reg t).lane l)
  (fun t => if h : t < 4 then (val.reg ⟨t, h⟩).lane l else 0)
  (fun i => dif_pos i.isLt) (fun k hk => by
    simp only [VecArr.get_at val k l.val hk l.isLt rfl rfl, ok_bind]
    rw [Nat.one_mul]
    exact (Ptr.upd_set ptr _ k _ rfl (by rw [dif_pos hk])).trans (by rw [Nat.one_mul]))
exact key""")
    m.thm("vst4q_lane_f32_oob", "`vst4q_lane_f32` does not reject an out-of-range lane index: it has undefined behaviour (it reads outside the register).",
          f"{f.binders()} (hl : ¬ (0 ≤ lane ∧ lane < 4)) :\n    {f.call()} = .ub .outOfBounds",
          """refine cfor_ub 0 (fun _ => ptr) .outOfBounds (by decide) rfl (fun k hk => by omega) ?_
have e : val.get ((0 : Int) + ((0 : Nat) : Int) * 1) lane = .ub .outOfBounds := by
  unfold VecArr.get
  rw [dif_pos (by decide)]
  exact Vec.get_oob _ (by simpa using hl)
simp only [e]
rfl""")
    m.raw("""
example : vst4q_lane_f32 ⟨[none, none, none, none, none], 1⟩ ⟨fun j => ⟨fun i => BitVec.ofNat 32 (10 * j + i)⟩⟩ 2 =
    .ok ⟨[none, some 2, some 12, some 22, some 32], 1⟩ := by rfl
""")
    m.save()

# ---------------------------------------------------------------- C09
def history():
    m = Mod("History", ["Props.Store"], "# Histories of stores (C09)")
    names = mem_names("st")
    L = ["/-- A call of a store intrinsic on some pointer: which one, and its operands. -/\ninductive StoreCall : Elem → Type"]
    for n, k in names:
        f = F(n); el = EL[f.ps[0][0]]
        L.append(f"  | {n} (val : {f.ps[1][0]}) : StoreCall .{el}")
    L.append("  | vst4q_lane_f32 (val : float32x4x4_t) (lane : Int) : StoreCall .f32\n")
    L.append("namespace StoreCall\n")
    L.append("/-- Executing the call on a pointer. -/\ndef exec : {e : Elem} → StoreCall e → Ptr e → C (Ptr e)")
    for n, k in names: L.append(f"  | _, .{n} val, p => Model.{n} p val")
    L.append("  | _, .vst4q_lane_f32 val lane, p => Model.vst4q_lane_f32 p val lane\n")
    L.append("/-- Number of consecutive elements the intrinsic is specified to write: lanes times registers. -/\n@[reducible] def size : {e : Elem} → StoreCall e → Nat")
    for n, k in names:
        f = F(n); N = f.pv("val")[2]; L.append(f"  | _, .{n} _ => " + (f"{N}" if k == 1 else f"{N} * {k}"))
    L.append("  | _, .vst4q_lane_f32 _ _ => 4\n")
    L.append("/-- The block of elements the intrinsic is specified to write: the lanes, interleaved. -/\ndef block : {e : Elem} → (c : StoreCall e) → Fin c.size → BitVec e.bits")
    for n, k in names:
        f = F(n); L.append(f"  | _, .{n} val, t => " + ("val.lane t" if k == 1 else f"interleave val t"))
    L.append("  | _, .vst4q_lane_f32 val lane, t => (val.reg t).lane (Fin.ofNat 4 lane.toNat)\n")
    L.append("""/-- The calls that meet their specification: not `vst4_u8` or `vst4_u32`, and no out-of-range lane. -/
def Sound : {e : Elem} → StoreCall e → Prop
  | _, .vst4_u8 _ => False
  | _, .vst4_u32 _ => False
  | _, .vst4q_lane_f32 _ lane => 0 ≤ lane ∧ lane < 4
  | _, _ => True

theorem stores : {e : Elem} → (c : StoreCall e) → c.Sound → (p : Ptr e) → Stores p c.block (c.exec p)""")
    for n, k in names:
        if n in ("vst4_u8", "vst4_u32"): L.append(f"  | _, .{n} _, h, _ => h.elim")
        else: L.append(f"  | _, .{n} val, _, p => {n}_spec p val")
    L.append("""  | _, .vst4q_lane_f32 val lane, h, p => by
    have e : lane = (Fin.ofNat 4 lane.toNat).val := by
      simp only [Fin.ofNat]
      obtain ⟨h1, h2⟩ := h
      omega
    exact vst4q_lane_f32_spec p val lane _ e

end StoreCall
""")
    m.raw("\n".join(L))
    m.raw("""
/-- A buffer of elements, initialised or not. -/
abbrev Buffer (e : Elem) := List (Option (BitVec e.bits))

/-- Running a sequence of store calls, each through a pointer to some element of one buffer. -/
def runStores {e : Elem} : List (Nat × StoreCall e) → Buffer e → C (Buffer e)
  | [], b => .ok b
  | (o, c) :: cs, b => do
    let p ← c.exec ⟨b, o⟩
    runStores cs p.buf

/-- What the last call whose block covers element `a` put there, if any call covers it. -/
def lastWrite {e : Elem} (a : Nat) : List (Nat × StoreCall e) → Option (BitVec e.bits)
  | [] => none
  | (o, c) :: cs =>
    match lastWrite a cs with
    | some x => some x
    | none => if h : o ≤ a ∧ a < o + c.size then some (c.block ⟨a - o, by omega⟩) else none

theorem vst4_u32_frame {p p' : Ptr .u32} {val} (h : vst4_u32 p val = .ok p') :
    p'.buf.length = p.buf.length ∧ ∀ a, ¬ (p.off ≤ a ∧ a < p.off + 8) → p'.buf[a]? = p.buf[a]? := by
  by_cases hw : Writable p 7
  · obtain ⟨q, h1, _, h2, _, _, _, _, h3⟩ := (vst4_u32_partial p val).1 hw
    rw [h1] at h
    cases h
    exact ⟨h2, fun a ha => h3 a (by omega)⟩
  · rw [(vst4_u32_partial p val).2 hw] at h
    cases h

theorem exec_frame {e : Elem} (c : StoreCall e) (hc : ∀ v, ¬ HEq c (StoreCall.vst4_u8 v)) {p p' : Ptr e}
    (h : c.exec p = .ok p') :
    p'.buf.length = p.buf.length ∧ ∀ a, ¬ (p.off ≤ a ∧ a < p.off + c.size) → p'.buf[a]? = p.buf[a]? := by
  have main : c.Sound → p'.buf.length = p.buf.length ∧
      ∀ a, ¬ (p.off ≤ a ∧ a < p.off + c.size) → p'.buf[a]? = p.buf[a]? := fun hs => by
    have st := c.stores hs p
    by_cases hw : Writable p c.size
    · obtain ⟨q, h1, h2⟩ := st.1 hw
      rw [h1] at h
      cases h
      exact ⟨h2.size, fun a ha => h2.frame a (by omega)⟩
    · rw [st.2 hw] at h
      cases h
  cases c with
  | vst4_u8 v => exact absurd HEq.rfl (hc v)
  | vst4_u32 v => exact vst4_u32_frame h
  | vst4q_lane_f32 val lane =>
    by_cases hl : 0 ≤ lane ∧ lane < 4
    · exact main hl
    · have : Model.vst4q_lane_f32 p val lane = .ok p' := h
      rw [vst4q_lane_f32_oob p val lane hl] at this
      cases this
  | _ => exact main trivial
""")
    m.thm("stores_frame_partial", "After any sequence of store calls to any pointers into a buffer, the buffer has its original length and every element outside the blocks of the calls is unchanged.  `vst4_u8` is excluded: it writes past its block.",
          """{e : Elem} (cs : List (Nat × StoreCall e))
    (hc : ∀ o c, (o, c) ∈ cs → ∀ v, ¬ HEq c (StoreCall.vst4_u8 v)) (b b' : Buffer e)
    (h : runStores cs b = .ok b') :
    b'.length = b.length ∧
    ∀ a, (∀ o c, (o, c) ∈ cs → ¬ (o ≤ a ∧ a < o + c.size)) → b'[a]? = b[a]?""",
          """induction cs generalizing b with
| nil => cases h; exact ⟨rfl, fun _ _ => rfl⟩
| cons x cs ih =>
  obtain ⟨o, c⟩ := x
  rw [runStores] at h
  cases hx : c.exec ⟨b, o⟩ with
  | ok p =>
    rw [hx, ok_bind] at h
    obtain ⟨f1, f2⟩ := exec_frame c (hc o c (by simp)) hx
    obtain ⟨i1, i2⟩ := ih (fun o c hm => hc o c (by simp [hm])) p.buf h
    exact ⟨i1.trans f1, fun a ha => (i2 a fun o c hm => ha o c (by simp [hm])).trans (f2 a (ha o c (by simp)))⟩
  | abort m => rw [hx] at h; cases h
  | ub u => rw [hx] at h; cases h
  | indet l => rw [hx] at h; cases h""")
    m.thm("stores_frame_vst4_u8_wrong", "A single `vst4_u8` call can change an element outside its block.",
          """(v : uint8x8x4_t) (b : Buffer .u8) (h : b.length = 33) :
    ∃ b', runStores [(0, .vst4_u8 v)] b = .ok b' ∧ b'[32]? = some (some ((v.reg 3).lane 7)) ∧
      ¬ (0 ≤ 32 ∧ 32 < 0 + (StoreCall.vst4_u8 v).size)""",
          """obtain ⟨p', h1, _, _, _, _, h2, _⟩ := (vst4_u8_partial ⟨b, 0⟩ v).1 (by unfold Writable; simp [h])
refine ⟨p'.buf, ?_, by simpa using h2, by simp [StoreCall.size]⟩
show (vst4_u8 ⟨b, 0⟩ v >>= fun p => C.ok p.buf) = _
rw [h1]
rfl""")
    m.thm("stores_last_write_partial", "After any sequence of store calls to any pointers into a buffer, every element holds what the last call covering it put there, or its original contents if no call covers it.  The defective `vst4_u8` and `vst4_u32`, and out-of-range lanes, are excluded.",
          """{e : Elem} (cs : List (Nat × StoreCall e)) (hc : ∀ o c, (o, c) ∈ cs → c.Sound) (b b' : Buffer e)
    (h : runStores cs b = .ok b') (a : Nat) :
    b'[a]? = match lastWrite a cs with | some x => some (some x) | none => b[a]?""",
          """induction cs generalizing b with
| nil => cases h; rfl
| cons x cs ih =>
  obtain ⟨o, c⟩ := x
  rw [runStores] at h
  have st := c.stores (hc o c (by simp)) ⟨b, o⟩
  by_cases hw : Writable (⟨b, o⟩ : Ptr e) c.size
  · obtain ⟨p, h1, h2⟩ := st.1 hw
    rw [h1, ok_bind] at h
    rw [ih (fun o c hm => hc o c (by simp [hm])) p.buf h, lastWrite]
    cases lastWrite a cs with
    | some x => rfl
    | none =>
      by_cases hm : o ≤ a ∧ a < o + c.size
      · simp only [dif_pos hm]
        have := h2.written ⟨a - o, by omega⟩
        simp only at this
        rwa [show o + (a - o) = a by omega] at this
      · simp only [dif_neg hm]
        exact h2.frame a (by simp only; omega)
  · rw [st.2 hw] at h
    cases h""")
    m.thm("stores_defined_partial", "A sequence of store calls completes exactly when every block lies in the buffer; otherwise it is undefined behaviour.  Same exclusions.",
          """{e : Elem} (cs : List (Nat × StoreCall e)) (hc : ∀ o c, (o, c) ∈ cs → c.Sound) (b : Buffer e) :
    ((∀ o c, (o, c) ∈ cs → o + c.size ≤ b.length) → ∃ b', runStores cs b = .ok b') ∧
    ((∃ o c, (o, c) ∈ cs ∧ ¬ o + c.size ≤ b.length) → runStores cs b = .ub .outOfBounds)""",
          """induction cs generalizing b with
| nil => exact ⟨fun _ => ⟨b, rfl⟩, by rintro ⟨o, c, hm, _⟩; simp at hm⟩
| cons x cs ih =>
  obtain ⟨o, c⟩ := x
  have st := c.stores (hc o c (by simp)) ⟨b, o⟩
  by_cases hw : Writable (⟨b, o⟩ : Ptr e) c.size
  · obtain ⟨p, h1, h2⟩ := st.1 hw
    obtain ⟨i1, i2⟩ := ih (fun o c hm => hc o c (by simp [hm])) p.buf
    have hlen : p.buf.length = b.length := h2.size
    rw [hlen] at i1 i2
    constructor
    · intro h
      rw [runStores, h1, ok_bind]
      exact i1 fun o c hm => h o c (by simp [hm])
    · rintro ⟨o', c', hm, hn⟩
      rw [runStores, h1, ok_bind]
      rcases List.mem_cons.1 hm with he | hm
      · cases he
        exact absurd hw hn
      · exact i2 ⟨o', c', hm, hn⟩
  · refine ⟨fun h => absurd (h o c (by simp)) hw, fun _ => ?_⟩
    rw [runStores, st.2 hw]
    rfl""")
    m.raw("""
/-- A history with overlapping blocks of different intrinsics that meets the hypotheses. -/
def demoHistory : List (Nat × StoreCall .u16) :=
  [(0, .vst1_u16 ⟨fun _ => 1⟩), (2, .vst2_u16 ⟨fun j => ⟨fun i => BitVec.ofNat 16 (10 * j + i)⟩⟩), (1, .vst1_u16 ⟨fun _ => 5⟩)]
example : ∀ o c, (o, c) ∈ demoHistory → c.Sound := by
  intro o c h
  simp only [demoHistory, List.mem_cons, Prod.mk.injEq, List.not_mem_nil, or_false] at h
  rcases h with ⟨_, rfl⟩ | ⟨_, rfl⟩ | ⟨_, rfl⟩ <;> trivial
example : ∃ b', runStores demoHistory (List.replicate 11 none) = .ok b' ∧
    b'.map (·.map BitVec.toNat) = [some 1, some 5, some 5, some 5, some 5, some 11, some 2, some 12, some 3, some 13, none] :=
  ⟨_, rfl, rfl⟩
""")
    m.save()

ALL = ["addsub", "widen", "narrow", "saturate", "mul", "maxmin", "move", "logic", "perm", "shift", "reinterpret", "load", "store", "history"]
if __name__ == "__main__":
    for k in (sys.argv[1:] or ALL): globals()[k]()
