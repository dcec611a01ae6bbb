#!/usr/bin/env python3
"""Generates Verif/Props/Strict.lean: signed arithmetic is exact whenever it is defined (C69)."""
import sys; sys.path.insert(0, '/verif/tools')
from genlib import *
import glob
ST, WHERE = {}, {}
for p in glob.glob(OUT + "/*.lean"):
    mod = os.path.basename(p)[:-5]
    if mod in ("AddSub", "Widen", "NarrowHigh", "Mul", "Saturate"):
        for mm in re.finditer(r"(?ms)^theorem ([A-Za-z0-9_.]+)(.*?) :=(?= by$|$| \S)", open(p).read()):
            ST[mm.group(1)] = re.sub(r"\s+", " ", mm.group(2)).strip(); WHERE[mm.group(1)] = mod
m = Mod("Strict", ["Props.AddSub", "Props.Widen", "Props.NarrowHigh", "Props.Mul"],
  "# Signed arithmetic is exact whenever it is defined (C69)\n\nIf the mathematical result (and every intermediate result) fits the type in which it is computed, the call returns and the\nlanes are the mathematical results, whatever the compiler flags; otherwise C++11 makes the call undefined.")
m.raw("""theorem toInt_fits {w : Nat} {v : Int} (h0 : 0 < w) (h : Fits w v) : (BitVec.ofInt w v).toInt = v := by
  obtain ⟨k, rfl⟩ : ∃ k, w = k + 1 := ⟨w - 1, by omega⟩
  obtain ⟨h1, h2⟩ := h
  rw [Nat.add_sub_cancel] at h1 h2
  rw [BitVec.toInt_ofInt]
  have e : ((2 ^ (k + 1) : Nat) : Int) = 2 ^ k * 2 := by rw [Nat.pow_succ]; push_cast; rfl
  refine Int.bmod_eq_of_le ?_ ?_
  · rw [e]; omega
  · rw [e]; omega""")
n_ = 0
for th, s in ST.items():
    if not th.endswith("_partial"): continue
    n = th[:-8]
    mm = re.search(rf"\b{n}((?: \w+)+) = if ∀ (\w) : Fin (\d+), (.*) then \.ok ⟨fun i => (.*)⟩ else \.ub \.signedOverflow$", s)
    if not mm or mm.group(2) != "i": continue
    f = F(n); conds = re.split(r" ∧ (?=NoOverflow)", mm.group(4)); k, body = mm.group(3), mm.group(5)
    conds = [re.fullmatch(r"NoOverflow (\d+) \((.*)\)", c).groups() for c in conds]
    fits = " ∧ ".join(f"Fits {w} ({e})" for w, e in conds)
    if re.match(r"v(hsub|subn|rsubhn|addhn)", n): exact = None
    elif f.el[0] == "s":
        W, E = conds[-1]
        if n in ("vmlal_s32", "vmlsl_s32"):
            E = f"(N.lane i).toInt {'+' if 'mlal' in n else '-'} (M.lane i).toInt * (P.lane i).toInt"
        exact = f"(r.lane i).toInt = {E}"
    else: continue   # unsigned operands promoted to int: C23/C24
    args = " ".join(x for _, x, _ in f.ps)
    n_ += 1
    b = f.binders()
    ok = f"∃ r, {n} {args} = .ok r" + (f" ∧ ∀ i, {exact}" if exact else "")
    pos = f"rw [{th}, if_pos fun i => by first | exact Or.inr (h i) | exact ⟨Or.inr (h i).1, Or.inr (h i).2⟩]\n"
    if exact:
        w = f.w
        if n in ("vmlal_s32", "vmlsl_s32"):
            op = "+" if "mlal" in n else "-"
            fin = (f"  have e : (M.lane i * P.lane i).toInt = (M.lane i).toInt * (P.lane i).toInt := by\n    have e' : M.lane i * P.lane i = BitVec.ofInt 32 ((M.lane i).toInt * (P.lane i).toInt) := by bvnorm\n    rw [e']; exact toInt_fits (by decide) (h i).1\n"
                   f"  have h2 := (h i).2\n  rw [e] at h2\n  rw [← e]\n  have e2 : {body} = BitVec.ofInt 64 ((N.lane i).toInt {op} (M.lane i * P.lane i).toInt) := by bvnorm\n"
                   f"  show ({body}).toInt = _\n  rw [e2]\n  exact toInt_fits (by decide) (by rw [e]; exact h2)")
        elif W != str(w):   # computed in a narrower type, then widened
            fin = (f"  have e : ({body.split(').signExtend')[0].lstrip('(')}) = BitVec.ofInt {W} ({E}) := by bvnorm\n  show ({body}).toInt = _\n  rw [e, BitVec.toInt_signExtend_of_le (by decide)]\n  exact toInt_fits (by decide) (h i)" if ".signExtend" in body
                   else f"  sorry -- {body}")
        else:
            fin = f"  have e : {body} = BitVec.ofInt {w} ({E}) := by bvnorm\n  show ({body}).toInt = _\n  rw [e]\n  exact toInt_fits (by decide) {'(h i)' if len(conds) == 1 else '(h i).2'}"
        pf = "constructor\n· intro h\n  " + pos + "  refine ⟨_, rfl, fun i => ?_⟩\n" + fin + "\n"
    else: pf = "constructor\n· intro h\n  " + pos + "  exact ⟨_, rfl⟩\n"
    pf += f"· intro hd h\n  rw [{th}, if_neg]\n  intro h'\n  refine h fun i => ?_\n  have := h' i\n  simpa only [NoOverflow, hd, Bool.false_eq_true, false_or] using this"
    m.thm(n + "_strict", f"`{n}` returns " + ("the exact results " if exact else "") + "whenever every lane fits, and is undefined in C++11 otherwise.",
       f"{b} :\n    ((∀ i : Fin {k}, {fits}) → {ok}) ∧\n    (Dialect.wrapv = false → (¬ ∀ i : Fin {k}, {fits}) → {n} {args} = .ub .signedOverflow)", pf)
m.raw("""/-- The hypotheses are met by the largest operands whose sum fits, and fail one above. -/
example : (∀ i : Fin 2, Fits 32 (((⟨fun _ => 2147483646#32⟩ : int32x2_t).lane i).toInt + ((⟨fun _ => 1#32⟩ : int32x2_t).lane i).toInt)) ∧
    ¬ ∀ i : Fin 2, Fits 32 (((⟨fun _ => 2147483647#32⟩ : int32x2_t).lane i).toInt + ((⟨fun _ => 1#32⟩ : int32x2_t).lane i).toInt) := by
  decide +kernel""")
m.save()
print(n_)
