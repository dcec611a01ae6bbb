#!/usr/bin/env python3
"""Writes Verif/Props/FloatLaws.lean: laws of the float intrinsics (C83)."""
F = [("vaddq_f32", "float32x4_t", 0, 32, "sum"),
     ("vsub_f32", "float32x2_t", 0, 32, "diff"), ("vsub_f32_overload2", "float64x1_t", 0, 64, "diff"), ("vsubq_f32", "float32x4_t", 0, 32, "diff"),
     ("vmulq_f32", "float32x4_t", 0, 32, "prod"), ("vmul_n_f32", "float32x2_t", "float32_t", 32, "prod"), ("vmul_n_f64", "float64x1_t", "float64_t", 64, "prod"),
     ("vmulq_n_f32", "float32x4_t", "float32_t", 32, "prod"), ("vmulq_n_f64", "float64x2_t", "float64_t", 64, "prod"),
     ("vdiv_f32", "float32x2_t", 0, 32, "quot"), ("vdiv_f64", "float64x1_t", 0, 64, "quot"), ("vdivq_f32", "float32x4_t", 0, 32, "quot"), ("vdivq_f64", "float64x2_t", 0, 64, "quot")]
OP = {"sum": "+", "diff": "-", "prod": "*", "quot": "/"}
O = ['''/-
C83: laws of float arithmetic.  Generated by `tools/gen_floatlaws.py`.
-/
import Verif.Props.Float
import Verif.FpLaws

namespace Verif.Props
open Verif.Model Verif.Spec Verif.FpOps

/-- The datum in a `float`. -/
def datum32 (b : BitVec 32) : Datum := decode .b32 b.toNat
/-- The datum in a `double`. -/
def datum64 (b : BitVec 64) : Datum := decode .b64 b.toNat

theorem one32 : datum32 0x3f800000 = .num false 1 := by
  have h : expField .b32 0x3f800000 = 127 ∧ fracField .b32 0x3f800000 = 0 ∧ signField .b32 0x3f800000 = false ∧ emax .b32 = 127 := by
    refine ⟨by decide +kernel, by decide +kernel, by decide +kernel, by decide +kernel⟩
  show decode .b32 0x3f800000 = _
  unfold decode
  rw [h.1, h.2.1, h.2.2.1, h.2.2.2]
  norm_num [withSign]
theorem two32 : datum32 0x40000000 = .num false 2 := by
  have h : expField .b32 0x40000000 = 128 ∧ fracField .b32 0x40000000 = 0 ∧ signField .b32 0x40000000 = false ∧ emax .b32 = 127 := by
    refine ⟨by decide +kernel, by decide +kernel, by decide +kernel, by decide +kernel⟩
  show decode .b32 0x40000000 = _
  unfold decode
  rw [h.1, h.2.1, h.2.2.1, h.2.2.2]
  norm_num [withSign]
theorem one64 : datum64 0x3ff0000000000000 = .num false 1 := by
  have h : expField .b64 0x3ff0000000000000 = 1023 ∧ fracField .b64 0x3ff0000000000000 = 0 ∧ signField .b64 0x3ff0000000000000 = false ∧
      emax .b64 = 1023 := by
    refine ⟨by decide +kernel, by decide +kernel, by decide +kernel, by decide +kernel⟩
  show decode .b64 0x3ff0000000000000 = _
  unfold decode
  rw [h.1, h.2.1, h.2.2.1, h.2.2.2]
  norm_num [withSign]
theorem zero32 : datum32 0 = .num false 0 := by
  have h : expField .b32 0 = 0 ∧ fracField .b32 0 = 0 ∧ signField .b32 0 = false := by
    refine ⟨by decide +kernel, by decide +kernel, by decide +kernel⟩
  show decode .b32 0 = _
  unfold decode
  rw [h.1, h.2.1, h.2.2]
  norm_num [withSign]

variable [Dialect]
''']
for n, ty, sc, w, k in F:
    ok, wide, D, fm = f"ok{w}", f"wide{w}", f"datum{w}", f".b{w}"
    tb = sc or ty
    B = "b" if sc else "b.lane i"; B2 = "b'" if sc else "b'.lane i"
    op = OP[k]
    u, sub = (24, 150) if w == 32 else (53, 1075)
    lim = 2 ** u
    sp = f"{n}_spec"
    def th(doc, name, args, stmt, proof): O.append(f"/-- {doc} -/\ntheorem {n}_{name} {args} :\n    {stmt} := by\n  {proof}\n")
    one = f"∃ r, {n} a b = .ok r ∧ ∀ i"
    ab = f"(a : {ty}) (b : {tb})"
    get = f"obtain ⟨r, e, h⟩ := {sp} a b\n  refine ⟨r, e, fun i => ?_⟩\n  "
    hy = " (y ≠ 0) →" if k == "quot" else ""
    if k in ("sum", "diff"):
        bound = f"|v - (x {op} y)| ≤ |x {op} y| / 2 ^ {u}"
    else:
        bound = f"(|v - x {op} y| ≤ |x {op} y| / 2 ^ {u} ∨ |v - x {op} y| ≤ 1 / 2 ^ {sub})"
    nz = "y ≠ 0 → " if k == "quot" else ""
    th(f"A result without overflow has a relative error of at most 2^-{u}" + ("." if k in ("sum", "diff") else f", or an absolute error of at most 2^-{sub}."), "error", ab,
       f"{one} s t x y, {D} (a.lane i) = .num s x → {D} ({B}) = .num t y → {nz}|x {op} y| < overflowAt {fm} →\n      ∃ q v, {D} (r.lane i) = .num q v ∧ {bound}",
       f"obtain ⟨r, e, h⟩ := {sp} a b\n  exact ⟨r, e, fun i s t x y ha hb {'hy ' if k == 'quot' else ''}ho => {k}_error {ok} (h i) ha hb {'hy ' if k == 'quot' else ''}ho⟩")
    if k in ("sum", "diff"):
        th("A zero as second operand changes nothing but the sign of a zero.", "zero", ab,
           f"{one} t, {D} ({B}) = .num t 0 → (∀ s, {D} (a.lane i) ≠ .num s 0) → {D} (r.lane i) = {D} (a.lane i)",
           f"obtain ⟨r, e, h⟩ := {sp} a b\n  exact ⟨r, e, fun i t hz ha => {k}_zero {ok} (h i) hz ha⟩")
    if k in ("prod", "quot"):
        th("One as second operand changes nothing.", "one", ab,
           f"{one}, {D} ({B}) = .num false 1 → {D} (r.lane i) = {D} (a.lane i)",
           f"obtain ⟨r, e, h⟩ := {sp} a b\n  exact ⟨r, e, fun i ho => {k}_one {ok} (h i) ho⟩")
    if k != "quot":
        th(f"Integers whose result is at most 2^{u} are computed exactly.", "int", ab,
           f"{one} s t (m n : ℤ), {D} (a.lane i) = .num s m → {D} ({B}) = .num t n → (m {op} n).natAbs ≤ {lim} →\n      ∃ q, {D} (r.lane i) = .num q ((m {op} n : ℤ) : ℚ)",
           f"obtain ⟨r, e, h⟩ := {sp} a b\n  exact ⟨r, e, fun i s t m n ha hb hn => {k}_int {ok} {wide} (h i) ha hb (by simpa using hn)⟩")
    if k == "sum":
        th("Addition is monotone, infinities included.", "mono", f"(a a' b : {ty})",
           f"∃ r r', {n} a b = .ok r ∧ {n} a' b = .ok r' ∧ ∀ i, ({D} (a.lane i)).AtMost ({D} (a'.lane i)) →\n      {D} (r.lane i) ≠ .nan → {D} (r'.lane i) ≠ .nan → ({D} (r.lane i)).AtMost ({D} (r'.lane i))",
           f"obtain ⟨r, e, h⟩ := {sp} a b\n  obtain ⟨r', e', h'⟩ := {sp} a' b\n  exact ⟨r, r', e, e', fun i hle hr hr' => sum_mono {ok} (h i) (h' i) hle hr hr'⟩")
        th("Adding a number to itself is multiplying it by two.", "double", f"(a two : {ty}) (h2 : ∀ i, {D} (two.lane i) = .num false 2)",
           f"∃ r r', {n} a a = .ok r ∧ vmulq_f32 a two = .ok r' ∧ ∀ i, {D} (r.lane i) = {D} (r'.lane i)",
           f"obtain ⟨r, e, h⟩ := {sp} a a\n  obtain ⟨r', e', h'⟩ := vmulq_f32_spec a two\n  exact ⟨r, r', e, e', fun i => sum_self {ok} (h i) (h' i) (h2 i)⟩")
    if k == "diff":
        th("A number minus itself is `+0`.", "self", f"(a : {ty})",
           f"∃ r, {n} a a = .ok r ∧ ∀ i s x, {D} (a.lane i) = .num s x → {D} (r.lane i) = .num false 0",
           f"obtain ⟨r, e, h⟩ := {sp} a a\n  exact ⟨r, e, fun i s x ha => diff_self (h i) ha⟩")
        th("Exchanging the operands changes the sign, unless they are equal.", "antisymm", f"(a b : {ty})",
           f"∃ r r', {n} a b = .ok r ∧ {n} b a = .ok r' ∧ ∀ i, ¬ ({D} (a.lane i)).Equal ({D} (b.lane i)) →\n      {D} (r'.lane i) = ({D} (r.lane i)).opposite",
           f"obtain ⟨r, e, h⟩ := {sp} a b\n  obtain ⟨r', e', h'⟩ := {sp} b a\n  exact ⟨r, r', e, e', fun i hne => diff_antisymm {ok} (h i) (h' i) hne⟩")
        th("The difference of numbers within a factor of two of each other is exact (Sterbenz).", "exact", ab,
           f"{one} s t x y, {D} (a.lane i) = .num s x → {D} ({B}) = .num t y → y ≤ 2 * x → x ≤ 2 * y → ∃ q, {D} (r.lane i) = .num q (x - y)",
           f"obtain ⟨r, e, h⟩ := {sp} a b\n  exact ⟨r, e, fun i s t x y ha hb h1 h2 => diff_exact {ok} (h i) ha hb h1 h2⟩")
        th("A larger number subtracted does not give a larger result.", "mono", f"(a b b' : {ty})",
           f"∃ r r', {n} a b = .ok r ∧ {n} a b' = .ok r' ∧ ∀ i s t t' x y y', {D} (a.lane i) = .num s x → {D} (b.lane i) = .num t y →\n      {D} (b'.lane i) = .num t' y' → y ≤ y' → ({D} (r'.lane i)).AtMost ({D} (r.lane i))",
           f"obtain ⟨r, e, h⟩ := {sp} a b\n  obtain ⟨r', e', h'⟩ := {sp} a b'\n  exact ⟨r, r', e, e', fun i s t t' x y y' ha hb hb' hle => diff_mono {ok} (h i) (h' i) ha hb hb' hle⟩")
    if k in ("prod", "quot"):
        c = "0 ≤ y" if k == "prod" else "0 < y"
        th("Monotone in the first operand" + (" when the second is not negative." if k == "prod" else " when the second is positive."), "mono", f"(a a' : {ty}) (b : {tb})",
           f"∃ r r', {n} a b = .ok r ∧ {n} a' b = .ok r' ∧ ∀ i s s' t x x' y, {D} (a.lane i) = .num s x → {D} (a'.lane i) = .num s' x' →\n      {D} ({B}) = .num t y → x ≤ x' → {c} → ({D} (r.lane i)).AtMost ({D} (r'.lane i))",
           f"obtain ⟨r, e, h⟩ := {sp} a b\n  obtain ⟨r', e', h'⟩ := {sp} a' b\n  exact ⟨r, r', e, e', fun i s s' t x x' y ha ha' hb hle hy => {k}_mono {ok} (h i) (h' i) ha ha' hb hle hy⟩")
    if k == "quot":
        th("A nonzero number divided by itself is one.", "self", f"(a : {ty})",
           f"∃ r, {n} a a = .ok r ∧ ∀ i s x, {D} (a.lane i) = .num s x → x ≠ 0 → {D} (r.lane i) = .num false 1",
           f"obtain ⟨r, e, h⟩ := {sp} a a\n  exact ⟨r, e, fun i s x ha hx => quot_self {ok} (h i) ha hx one{w}⟩")
O.append('''/-! ## Cases -/

example := vaddq_f32_double ⟨fun _ => 0x3f800000⟩ ⟨fun _ => 0x40000000⟩ fun _ => two32
example : ∃ r, vsubq_f32 ⟨fun _ => 0x40000000⟩ ⟨fun _ => 0x3f800000⟩ = .ok r ∧ ∃ q, datum32 (r.lane 0) = .num q (2 - 1) := by
  obtain ⟨r, e, h⟩ := vsubq_f32_exact ⟨fun _ => 0x40000000⟩ ⟨fun _ => 0x3f800000⟩
  exact ⟨r, e, h 0 _ _ _ _ two32 one32 (by norm_num) (by norm_num)⟩
example : ∃ r, vdivq_f64 ⟨fun _ => 0x3ff0000000000000⟩ ⟨fun _ => 0x3ff0000000000000⟩ = .ok r ∧ datum64 (r.lane 1) = .num false 1 := by
  obtain ⟨r, e, h⟩ := vdivq_f64_one ⟨fun _ => 0x3ff0000000000000⟩ ⟨fun _ => 0x3ff0000000000000⟩
  exact ⟨r, e, (h 1 one64).trans one64⟩

end Verif.Props''')
open("/verif/lean/Verif/Props/FloatLaws.lean", "w").write("\n".join(O) + "\n")
