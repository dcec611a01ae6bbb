#!/usr/bin/env python3
"""Outcome theorems (C59, C60): which intrinsics are total, and that no unwritten lane is returned -> Props/Outcome.lean"""
from genlib import *
import glob
ST = {}
for p in glob.glob(OUT + "/*.lean"):
    if p.endswith("Outcome.lean"): continue
    for mm in re.finditer(r"(?ms)^theorem ([A-Za-z0-9_.]+)(.*?) :=(?= by$|$| \S)", open(p).read()):
        ST[mm.group(1)] = re.sub(r"\s+", " ", mm.group(2)).strip()
L = ["""import Verif.Sat
import Verif.Mem
import Verif.Props.AddSub
import Verif.Props.Widen
import Verif.Props.NarrowHigh
import Verif.Props.Saturate
import Verif.Props.QSub64
import Verif.Props.Mul
import Verif.Props.MaxMin
import Verif.Props.FloatSel
import Verif.Props.Select
import Verif.Props.Logic
import Verif.Props.Move
import Verif.Props.Perm
import Verif.Props.Shift
import Verif.Props.Reinterpret
import Verif.Props.FloatConv
import Verif.Props.Recip
import Verif.Props.Float
import Verif.Props.Load
import Verif.Props.Store

/-! Which calls are defined for every operand (C59), and that no register with an unwritten lane is returned (C60).
The functions are listed by signature.

Generated by `tools/gen_outcome.py`. -/

set_option linter.unusedVariables false

namespace Verif.Props
open Verif.Model Verif.Spec

theorem sat_of_ok {α} {c : C α} {a : α} (h : c = .ok a) : Sat (fun _ => True) c := by rw [h]; trivial
theorem sat_of_ex {α} {c : C α} {P : α → Prop} (h : ∃ a, c = .ok a ∧ P a) : Sat (fun _ => True) c := by
  obtain ⟨a, h, _⟩ := h; rw [h]; trivial
theorem sat_of_abort {α} {c : C α} (h : ∃ m, c = .abort m) : Sat (fun _ => True) c := by obtain ⟨m, h⟩ := h; rw [h]; trivial
theorem sat_of_ub {α} {c : C α} (h : ∃ m, c = .ub m) : Sat (fun _ => True) c := by obtain ⟨m, h⟩ := h; rw [h]; trivial
theorem sat_of_if {α} {c : C α} {a : α} {P : Prop} [Decidable P] {u} (h : c = if P then .ok a else .ub u) :
    Sat (fun _ => True) c := by rw [h]; exact Sat.ite trivial trivial
"""]
def has(n): return n in ST
total, wrapv, never, sat = {}, {}, {}, {}   # name -> proof
NEG = {}
REG = []
for n in TAB:
    f = F(n)
    ptr = any(p for _, _, p in f.ps); imm = any(t == "int" for t, _, _ in f.ps)
    args = " ".join(x for _, x, _ in f.ps)
    ok = None
    for s in ("_spec", "_eval", "_partial"):
        t = ST.get(n + s)
        if t and re.search(rf"(?:^|: ){n}((?: \w+)*) = \.ok ", t) and "(h" not in t: ok = n + s; break
    if not ptr and not imm:
        REG.append(n)
        if ok:
            total[n] = f"⟨_, {ok} {args}⟩"; sat[n] = f"sat_of_ok ({ok} {args})"
        elif re.search(rf": ∃ r, {n}((?: \w+)*) = \.ok r ∧", ST.get(n + "_spec", "")) and "(h" not in ST[n + "_spec"]:
            total[n] = f"(({n}_spec {args}).imp fun _ h => h.1)"; sat[n] = f"sat_of_ex ({n}_spec {args})"
        elif has(n + "_wrapv"):
            wrapv[n] = f"⟨_, {n}_wrapv hd {args}⟩"; sat[n] = f"sat_of_if ({n}_partial {args})"
            assert re.search(r"= if .* then \.ok .* else \.ub", ST[n + "_partial"]), n
            b = re.search(r"∃ (.*), " + n, ST[n + "_ub"])
            NEG[n] = ("hd", f"fun h => by\n  obtain ⟨{', '.join(x for _, x, _ in f.ps)}, hu⟩ := {n}_ub hd\n  obtain ⟨r, hr⟩ := h {args}\n  rw [hu] at hr\n  cases hr")
        elif n == "vqtbl1_u8":
            sat[n] = f"sat_of_if ({n}_partial {args})"
            NEG[n] = ("", f"fun h => by\n  obtain ⟨r, hr⟩ := h ⟨fun _ => 0#8⟩ ⟨fun _ => 16#8⟩\n  rw [vqtbl1_u8_oob _ _ 0 (by decide)] at hr\n  cases hr")
        elif n.startswith("vqsub"):
            w = f.n; k = f.el[0]
            sat[n] = f"""by
  classical
  choose v hv using fun i => doubleDiff_exists {'(N.lane i).toInt (M.lane i).toInt' if k=='s' else '((N.lane i).toNat : ℤ) ((M.lane i).toNat : ℤ)'} ({n}_bnd (N.lane i)) ({n}_bnd (M.lane i))
  choose n hn using fun i => exists_isTrunc (v i)
  have h := {n}_eval N M v n fun i => ⟨hv i, hn i⟩
  rw [h]
  split
  · exact True.intro
  · exact True.intro"""
            big = "9223372036854775807" if k == "s" else "18446744073709551615"
            NEG[n] = ("", f"fun h => by\n  obtain ⟨r, hr⟩ := h ⟨fun _ => {big}#64⟩ ⟨fun _ => 0#64⟩\n  rw [{n}_maxzero] at hr\n  cases hr")
        elif n.startswith("vcvt"):
            sat[n] = f"by unfold {n}; exact sat_fill rfl fun i D => by sat_body"
            NEG[n] = ("", f"fun h => by\n  obtain ⟨r, hr⟩ := h ⟨fun _ => 0x7fc00000#32⟩\n  rw [{n}_nan] at hr\n  cases hr")
        elif n == "vrev32_s8":
            sat[n] = f"sat_of_ub ⟨_, vrev32_s8_partial {args}⟩"; never[n] = f"⟨_, vrev32_s8_partial {args}⟩"
        elif n.startswith("vrev64q_s"): pass
        else: raise Exception(n)
    elif imm and not ptr:
        i = [x for t, x, _ in f.ps if t == "int"][0]
        if n in ("vqshrun_n_s32", "vqshrun_n_s64"): continue
        pre = " ".join(x for t, x, _ in f.ps if t != "int")
        if has(n + "_abort") and "_lane" not in n:
            st = ST[n + "_abort"]; m = re.search(rf"¬ \((\d+) ≤ {i} ∧ {i} ≤ (\d+)\)", st); lo, hi = m.groups()
            th = n + ("_spec" if has(n + "_spec") else "_partial")
            hyps = "(by omega) (by omega)" if lo == "1" else "(by omega)"
            sat[n] = f"""by
  by_cases h : {lo} ≤ {i} ∧ {i} ≤ {hi}
  · obtain ⟨k, rfl⟩ : ∃ k : Nat, {i} = k := ⟨{i}.toNat, by omega⟩
    exact sat_of_ok ({th} {pre} k {hyps})
  · exact sat_of_abort ({n}_abort {args} h)"""
        elif has(n + "_abort") or has(n + "_oob"):
            t = "_abort" if has(n + "_abort") else "_oob"
            m = re.search(rf"¬ \(0 ≤ {i} ∧ {i} < (\d+)\)", ST[n + t]); hi = m.group(1)
            sat[n] = f"""by
  by_cases h : 0 ≤ {i} ∧ {i} < {hi}
  · obtain ⟨k, hk⟩ : ∃ k : Fin {hi}, {i} = (k.val : Int) := ⟨⟨{i}.toNat, by omega⟩, by simp only; omega⟩
    rw [hk]
    exact sat_of_ok ({n}_spec {pre} k)
  · exact sat_of_{'abort' if t == '_abort' else 'ub'} ⟨_, {n}{t} {args} h⟩"""
        else:
            sat[n] = f"by unfold {n}; " + ("refine Sat.bindT (by sat_body) fun d1 => Sat.bindT (by sat_body) fun d2 => Sat.bindT (by sat_body) fun d3 => ?_; " if n == "vrshrn_n_u16" else "") + "exact sat_fill rfl fun i D => by sat_body"
    else:
        t = ST[n + ("_spec" if has(n + "_spec") else "_partial")]
        if n in ("vst4_u8", "vst4_u32"):
            k = re.search(r"Writable ptr (\d+)", t).group(1)
            sat[n] = f"""by
  by_cases h : Writable ptr {k}
  · obtain ⟨p', hp, _⟩ := ({n}_partial {args}).1 h
    exact sat_of_ok hp
  · exact sat_of_ub ⟨_, ({n}_partial {args}).2 h⟩"""
        elif "lane" in n and n.startswith("vld"):
            k = int(n[3]); hi = 8
            inner = (f"""    by_cases hr : ∃ j : Fin {k}, ¬ Readable ptr j
    · exact sat_of_ub (({n}_spec ptr src _ l rfl).2 hr)
    · have : ∀ j : Fin {k}, Readable ptr j := fun j => Classical.byContradiction fun hn => hr ⟨j, hn⟩
      exact sat_of_ok (({n}_spec ptr src _ l rfl).1 _ fun j => Classical.choose_spec (this j))""" if k > 1 else
f"""    by_cases hr : Readable ptr 0
    · exact sat_of_ok ({n}_spec ptr src _ l rfl _ (Classical.choose_spec hr))
    · exact sat_of_ub ({n}_unreadable ptr src _ hr)""")
            hb = "0 ≤ lane ∧ lane ≤ 7" if k > 1 else "0 ≤ lane ∧ lane < 8"
            out = f"sat_of_abort ⟨_, {n}_abort {args} h⟩" if k > 1 else f"sat_of_ub ({n}_oob {args} h)"
            sat[n] = f"""by
  by_cases h : {hb}
  · obtain ⟨l, rfl⟩ : ∃ l : Fin 8, lane = (l.val : Int) := ⟨⟨lane.toNat, by omega⟩, by simp only; omega⟩
{inner}
  · exact {out}"""
        elif n == "vst4q_lane_f32":
            sat[n] = f"""by
  by_cases h : 0 ≤ lane ∧ lane < 4
  · obtain ⟨l, rfl⟩ : ∃ l : Fin 4, lane = (l.val : Int) := ⟨⟨lane.toNat, by omega⟩, by simp only; omega⟩
    exact Stores.sat ({n}_spec ptr val _ l rfl)
  · exact sat_of_ub ⟨_, {n}_oob {args} h⟩"""
        elif n == "vld1q_dup_f32":
            sat[n] = f"""by
  by_cases h : Readable ptr 0
  · exact sat_of_ok (({n}_spec ptr).1 _ (Classical.choose_spec h))
  · exact sat_of_ub (({n}_spec ptr).2 h)"""
        else:
            k = re.search(r": (Loads|LoadsK|Stores) ", t).group(1)
            sat[n] = f"{k}.sat ({n}_spec {args})"
TAB_EXTRA = {"vrecpeq_f32"}
missing = [n for n in REG if n not in total and n not in wrapv and n not in NEG and n not in never and not n.startswith("vrev64q_s")]
assert not missing, missing
def sig(n):
    f = F(n)
    return tuple((t, p) for t, _, p in f.ps), f.ret
def groups(d):
    g = {}
    for n in d: g.setdefault(sig(n), []).append(n)
    return g
def ty(t, p): return ("Ptr ." + EL[t]) if p else ("Int" if t == "int" else {"float": "float32_t"}.get(t, t))
def label(s):
    ps, r = s
    def a(t, p): return ("p" if p else "") + t.replace("_t", "").replace("uint", "u").replace("int", "s").replace("float", "f") if t != "int" else "imm"
    L2 = []
    for t, p in ps: L2.append(a(t, p))
    return "_".join(L2) + "_to_" + (a(r, False) if r != "void" else "mem")
STATS = {}
def emit(kind, d, doc, concl, hyp=""):
    for s, ns in sorted(groups(d).items(), key=str):
        ps, r = s
        nm = f"{kind}_{label(s)}"
        dial = "[Dialect] " if hyp or any(n in DIALECT for n in ns) else ""
        vs = [f"x{i}" for i in range(len(ps))]
        # binder
        b = " ".join(f"({v} : {ty(t, p)})" for v, (t, p) in zip(vs, ps))
        STATS.setdefault(kind, []).append(nm)
        lst, cur = [], "     "
        for n in ns:
            if len(cur) + len(n) > 108: lst.append(cur); cur = "     "
            cur += " " + n + ("," if n != ns[-1] else "")
        lst.append(cur)
        L.append(f"/-- {doc} -/\ntheorem {nm} {dial}{hyp}:\n    ∀ f ∈ [\n" + "\n".join(lst) + f"],\n    ∀ {b}, {concl(' '.join(['f'] + vs))} := by")
        L.append("  intro f hf " + " ".join(vs))
        L.append("  simp only [List.mem_cons, List.not_mem_nil, or_false] at hf")
        L.append("  rcases hf with " + " | ".join(["rfl"] * len(ns)))
        for n in ns:
            f = F(n)
            pr = d[n]
            if "by" in pr.split("\n")[0] or "\n" in pr:
                # rename parameters
                for (t, x, p), v in zip(f.ps, vs): pr = re.sub(rf"(?<![\w.])(?<!: ){x}(?![\w'])", v, pr) if x not in ("h",) else pr
            else:
                for (t, x, p), v in zip(f.ps, vs): pr = re.sub(rf"(?<![\w.]){x}(?![\w'])", v, pr)
            if kind.startswith("written"): pr = "Sat.not_indet (Q := fun _ => True) (" + pr + ")"
            lines = pr.split("\n")
            L.append("  · exact " + lines[0])
            L.extend("    " + l for l in lines[1:])
            if kind.startswith("written"): L[-1] += " _"
        L.append("")
if __name__ == "__main__":
    # aux facts for the negative list
    L.append("/-- Converting a NaN to an integer is undefined. -/")
    for n in ("vcvtq_s32_f32", "vcvtq_u32_f32", "vcvtnq_s32_f32"):
        if L[-1].startswith("theorem"): L.append("")
        L.append(f"theorem {n}_nan : {n} ⟨fun _ => 0x7fc00000#32⟩ = .ub .floatToInt :=\n  {n}_ub _ ⟨0, fun n h => absurd h (not_truncsTo_nan n)⟩")
    L.append("")
    for n in ("vqsub_s64", "vqsubq_s64", "vqsub_u64", "vqsubq_u64"):
        big = "9223372036854775807" if "s64" in n else "18446744073709551615"
        bits, dec = ("0x43e0000000000000", "decode_43e0") if "s64" in n else ("0x43f0000000000000", "decode_43f0")
        L.append(f"/-- Subtracting zero from the largest value is undefined: it rounds up when converted to double. -/\ntheorem {n}_maxzero [Dialect] : {n} ⟨fun _ => {big}#64⟩ ⟨fun _ => 0#64⟩ = .ub .floatToInt :=\n  {n}_ub _ _ ⟨0, doubleDiff_eval {bits} (by decide +kernel) {dec}⟩\n")
    emit("defined", total, "These functions return normally for every operand.", lambda c: f"∃ r, {c} = .ok r")
    emit("defined_wrapv", wrapv, "With `-fwrapv` these functions return normally for every operand.", lambda c: f"∃ r, {c} = .ok r", "(hd : Dialect.wrapv = true) ")
    emit("never_defined", never, "Undefined behaviour for every operand.", lambda c: f"∃ u, {c} = .ub u")
    for strict in (True, False):
        d = {n: p for n, (h, p) in NEG.items() if bool(h) == strict}
        for s, ns in sorted(groups(d).items(), key=str):
            ps, r = s; nm = f"not_defined_{'strict_' if strict else ''}{label(s)}"
            vs = [f"x{i}" for i in range(len(ps))]
            b = " ".join(f"({v} : {ty(t, p)})" for v, (t, p) in zip(vs, ps))
            STATS.setdefault("not_defined", []).append(nm)
            h = "[Dialect] (hd : Dialect.wrapv = false) " if strict else "[Dialect] " if any(n in DIALECT for n in ns) else ""
            L.append(f"/-- Each of these functions has undefined behaviour for some operands{' (standard C++ overflow rules)' if strict else ''}. -/\ntheorem {nm} {h}:\n    ∀ f ∈ [{', '.join(ns)}],\n    ¬ ∀ {b}, ∃ r, {' '.join(['f'] + vs)} = .ok r := by\n  intro f hf\n  simp only [List.mem_cons, List.not_mem_nil, or_false] at hf\n  rcases hf with " + " | ".join(["rfl"] * len(ns)))
            for n in ns:
                ls = d[n].split("\n")
                L.append("  · exact " + ls[0]); L.extend("    " + l for l in ls[1:])
            L.append("")
    emit("written", sat, "These functions never return a register with an unwritten lane.", lambda c: f"∀ l, {c} ≠ .indet l")
    L.append("""/-- The reciprocal estimate returns normally for every operand. -/
theorem defined_vrecpeq_f32 [Dialect] (a : float32x4_t) : ∃ r, vrecpeq_f32 a = .ok r := ⟨_, vrecpeq_f32_eval a⟩

/-- The reciprocal estimate never returns a register with an unwritten lane. -/
theorem written_vrecpeq_f32 [Dialect] (a : float32x4_t) : ∀ l, vrecpeq_f32 a ≠ .indet l := by
  intro l
  rw [vrecpeq_f32_eval]
  exact fun h => by cases h
""")
    # `written` has one more binder
    txt = "\n".join(L)
    txt = re.sub(r"(theorem written_(?:.|\n)*?)  intro f hf ([x\d ]+)\n", lambda m: m.group(1) + f"  intro f hf {m.group(2)} l\n", txt)
    open(OUT + "/Outcome.lean", "w").write(txt + "\nend Verif.Props\n")
    print({k: len(v) for k, v in STATS.items()}, len(REG), len(total), len(wrapv), len(NEG), len(never), len(sat), len(TAB))
