"""Appends the theorems of Props/Agree.lean to its hand-written lemmas (tools/agree_head.txt)."""
import os
here = os.path.dirname(os.path.abspath(__file__))
out = open(here + '/agree_head.txt').read()

def lanes(bits, k):
    return f"⟨fun i => BitVec.ofInt {bits} ({k} + (i.val : Int))⟩"

# operands for which the condition holds, and operands for which it does not
CASES = {
  'vaddl_high_s32': ((32, 5, -7), (32, 2147483640, 30)), 'vaddl_high_u32': ((32, 5, 7), (32, -20, 30)),
  'vmull_s32': ((32, 46000, -46000), (32, 65536, 65536)), 'vmull_u32': ((32, 65000, 65000), (32, 65536, 65536)),
  'vhsub_s32': ((32, -5, 9), (32, -2147483648, 1)), 'vhsubq_s32': ((32, -5, 9), (32, -2147483648, 1)),
  'vhsub_u32': ((32, 9, 4), (32, 4, 9)), 'vhsubq_u32': ((32, 9, 4), (32, 4, 9)),
}
for op in ('max', 'min'):
    for w in (8, 16, 32):
        CASES[f'v{op}q_u{w}'] = ((w, 3, 2**(w-1) - 20), (w, 3, -20))
for w in (32, 64):
    for t in 'su':
        CASES[f'vsubn_{t}{w}'] = ((w, 200, 99), (w, 70000, 1))

def examples(name):
    if name in CASES:
        r = [f"{lanes(b, x)} {lanes(b, y)}" for b, x, y in CASES[name]]
    elif name.startswith('vmull_n'):
        r = [f"{lanes(32, 1000)} 77#32", f"{lanes(32, 65536)} 65536#32"]
    elif name.startswith('vml'):
        r = [f"{lanes(64, -3)} {lanes(32, 1000)} {lanes(32, 77)}", f"{lanes(64, -3)} {lanes(32, 65536)} {lanes(32, 65536)}"]
    elif name.startswith('vaddhn'):
        w = int(name[-2:])
        r = [f"{lanes(w // 2, 9)} {lanes(w, k)} {lanes(w, -k if k == 8 else k)}" for k in (8, 70000)]
        if w == 32: r[0] = f"{lanes(16, 9)} ⟨fun i => BitVec.ofInt 32 (8 + (i.val : Int))⟩ ⟨fun i => BitVec.ofInt 32 (-(i.val : Int))⟩"
        else: r[0] = f"{lanes(32, 9)} ⟨fun i => BitVec.ofInt 64 (2 + (i.val : Int))⟩ ⟨fun i => BitVec.ofInt 64 (-(i.val : Int))⟩"
    elif name == 'vsraq_n_s32':
        r = [f"⟨fun i => if i = 0 then 0#32 else -1#32⟩ {lanes(32, 500)} 3 (by decide) (by decide)", f"{lanes(32, 1)} {lanes(32, 500)} 3 (by decide) (by decide)"]
    elif name == 'vshr_n_u16':
        r = [f"{lanes(16, 500)} {k} (by decide) (by decide)" for k in (8, 9)]
    elif name == 'vqshrn_n_s64':
        r = [f"{lanes(64, k)} 5 (by decide) (by decide)" for k in (-2**62, 2**62)]
    elif name == 'vqtbl1_u8':
        r = [f"{lanes(8, 100)} {lanes(8, k)}" for k in (8, 9)]
    g, b = r
    return f"example := (@{name}_right_iff .strict {g}).2 (by decide +kernel)\nexample := (@{name}_right_iff .strict {b}).not.2 (by decide +kernel)\n"

def thm(doc, name, binders, call, rhs, cond, proof):
    global out
    out += f"\n/-- {doc} -/\ntheorem {name}_right_iff [Dialect] {binders} :\n    {call} = .ok {rhs} ↔\n    {cond} := by\n{proof}" + examples(name)

def S(doc, name, binders, call, lane, fits, lem):
    n = 4 if name == 'vhsubq_s32' else 2
    thm(doc, name, binders, call, f"⟨fun i => {lane}⟩", f"∀ i : Fin {n}, Fits 32 ({fits})", f"""  rw [{name}_partial, if_ok_iff, ok_vec_iff]
  constructor
  · exact fun h i => fits32.2 (({lem} _ _).1 (h.2 i))
  · exact fun h => ⟨fun i => .inr (h i), fun i => ({lem} _ _).2 (fits32.1 (h i))⟩
""")

def U(doc, name, binders, call, lane, cond, lem, n=2):
    thm(doc, name, binders, call, f"⟨fun i => {lane}⟩", f"∀ i : Fin {n}, {cond}", f"""  rw [{name}_partial, ok_vec_iff]
  exact forall_congr' fun i => {lem} _ _
""")

S("`vaddl_high_s32` gives the 64-bit sums exactly when the sums fit in 32 bits.", 'vaddl_high_s32', '(a b : int32x4_t)', 'vaddl_high_s32 a b',
  '(a[2 + i.val]).signExtend 64 + (b[2 + i.val]).signExtend 64', '(a[2 + i.val]).toInt + (b[2 + i.val]).toInt', 'signExtend_add_iff')
U("`vaddl_high_u32` gives the 64-bit sums exactly when the sums are below 2^32.", 'vaddl_high_u32', '(a b : uint32x4_t)', 'vaddl_high_u32 a b',
  '(a[2 + i.val]).setWidth 64 + (b[2 + i.val]).setWidth 64', '(a[2 + i.val]).toNat + (b[2 + i.val]).toNat < 4294967296', 'setWidth_add_iff')
S("`vmull_s32` gives the 64-bit products exactly when the products fit in 32 bits.", 'vmull_s32', '(a b : int32x2_t)', 'vmull_s32 a b',
  '(a.lane i).signExtend 64 * (b.lane i).signExtend 64', '(a.lane i).toInt * (b.lane i).toInt', 'signExtend_mul_iff')
U("`vmull_u32` gives the 64-bit products exactly when the products are below 2^32.", 'vmull_u32', '(a b : uint32x2_t)', 'vmull_u32 a b',
  '(a.lane i).setWidth 64 * (b.lane i).setWidth 64', '(a.lane i).toNat * (b.lane i).toNat < 4294967296', 'setWidth_mul_iff')
S("`vmull_n_s32` gives the 64-bit products exactly when the products fit in 32 bits.", 'vmull_n_s32', '(N : int32x2_t) (M : int32_t)', 'vmull_n_s32 N M',
  '(N.lane i).signExtend 64 * (M).signExtend 64', '(N.lane i).toInt * M.toInt', 'signExtend_mul_iff')
U("`vmull_n_u32` gives the 64-bit products exactly when the products are below 2^32.", 'vmull_n_u32', '(N : uint32x2_t) (M : uint32_t)', 'vmull_n_u32 N M',
  '(N.lane i).setWidth 64 * (M).setWidth 64', '(N.lane i).toNat * M.toNat < 4294967296', 'setWidth_mul_iff')
for f, op, inj in (('vmlal', '+', 'BitVec.add_right_inj'), ('vmlsl', '-', 'sub_right_inj_bv')):
    thm(f"`{f}_s32` accumulates the 64-bit products exactly when the products fit in 32 bits and the accumulation is not a signed overflow.",
        f'{f}_s32', '(N : int64x2_t) (M P : int32x2_t)', f'{f}_s32 N M P',
        f'⟨fun i => N.lane i {op} (M.lane i).signExtend 64 * (P.lane i).signExtend 64⟩',
        f'∀ i : Fin 2, Fits 32 ((M.lane i).toInt * (P.lane i).toInt) ∧\n      NoOverflow 64 ((N.lane i).toInt {op} (M.lane i).toInt * (P.lane i).toInt)', f"""  rw [{f}_s32_partial, if_ok_iff, ok_vec_iff]
  constructor
  · intro h i
    have f1 := (signExtend_mul_iff _ _).1 (({inj} _).1 (h.2 i))
    have e := toInt_mul_fits f1
    exact ⟨fits32.2 f1, e ▸ (h.1 i).2⟩
  · intro h
    refine ⟨fun i => ⟨.inr (h i).1, ?_⟩, fun i => ?_⟩
    · rw [toInt_mul_fits (fits32.1 (h i).1)]
      exact (h i).2
    · exact congrArg (N.lane i {op} ·) ((signExtend_mul_iff _ _).2 (fits32.1 (h i).1))
""")
    thm(f"`{f}_u32` accumulates the 64-bit products exactly when the products are below 2^32.",
        f'{f}_u32', '(N : uint64x2_t) (M P : uint32x2_t)', f'{f}_u32 N M P',
        f'⟨fun i => N.lane i {op} (M.lane i).setWidth 64 * (P.lane i).setWidth 64⟩',
        '∀ i : Fin 2, (M.lane i).toNat * (P.lane i).toNat < 4294967296', f"""  rw [{f}_u32_partial, ok_vec_iff]
  exact forall_congr' fun i => ({inj} _).trans (setWidth_mul_iff _ _)
""")
for q, n in (('', 2), ('q', 4)):
    S(f"`vhsub{q}_s32` halves the exact differences exactly when the differences fit in 32 bits.", f'vhsub{q}_s32', f'(N M : int32x{n}_t)', f'vhsub{q}_s32 N M',
      'BitVec.ofInt 32 (((N.lane i).toInt - (M.lane i).toInt) / 2)', '(N.lane i).toInt - (M.lane i).toInt', 'sshiftRight_sub_iff')
    U(f"`vhsub{q}_u32` halves the exact differences exactly when no difference is negative.", f'vhsub{q}_u32', f'(N M : uint32x{n}_t)', f'vhsub{q}_u32 N M',
      'BitVec.ofInt 32 ((((N.lane i).toNat : Int) - ((M.lane i).toNat : Int)) / 2)', '(M.lane i).toNat ≤ (N.lane i).toNat', 'ushiftRight_sub_iff', n)
for op, word in (('max', 'larger'), ('min', 'smaller')):
    for w in (8, 16, 32):
        n = 128 // w
        U(f"`v{op}q_u{w}` gives the {word} unsigned lane exactly when the two lanes are on the same side of 2^{w - 1}.", f'v{op}q_u{w}',
          f'(N M : int{w}x{n}_t)', f'v{op}q_u{w} N M', f'BitVec.ofNat {w} ({op} (N.lane i).toNat (M.lane i).toNat)',
          f'((N.lane i).toNat < {2**(w-1)} ↔ (M.lane i).toNat < {2**(w-1)})', f'{op}_sign_iff{w}', n)
for w, h, n in ((32, 16, 4), (64, 32, 2)):
    bits = lambda s, d: f'∀ j, j < {h} → ({d}).getLsbD ({s} + j) = ({d}).getLsbD ({h} + j)'
    d = 'N.lane i - M.lane i'
    thm(f"`vsubn_u{w}` gives the high halves of the differences exactly when bits 8 to {7+h} of each difference equal bits {h} to {w-1}.",
        f'vsubn_u{w}', f'(N M : uint{w}x{n}_t)', f'vsubn_u{w} N M', f'⟨fun i => high {h} ({d})⟩', f'∀ i : Fin {n}, {bits(8, d)}',
        f"""  rw [vsubn_u{w}_partial, ok_vec_iff]
  exact forall_congr' fun i => narrow_iff 8 _
""")
    thm(f"`vsubn_s{w}` gives the high halves of the differences exactly when no difference is a signed overflow and bits 8 to {7+h} of each difference equal bits {h} to {w-1}.",
        f'vsubn_s{w}', f'(N M : int{w}x{n}_t)', f'vsubn_s{w} N M', f'⟨fun i => high {h} ({d})⟩',
        f'∀ i : Fin {n}, NoOverflow {w} ((N.lane i).toInt - (M.lane i).toInt) ∧\n      {bits(8, d)}',
        f"""  rw [vsubn_s{w}_partial, if_ok_iff, ok_vec_iff, ← forall_and]
  exact forall_congr' fun i => and_congr_right fun _ => narrow_s_iff 8 (by decide) _
""")
    s = 4 if w == 32 else 2
    d = 'a.lane k + b.lane k'
    rhs = f'⟨fun i => if h : i.val < {n} then r[i.val] else high {h} (a[i.val - {n}] + b[i.val - {n}])⟩'
    thm(f"`vaddhn_high_u{w}` gives the high halves of the sums in its upper lanes exactly when bits {s} to {s+h-1} of each sum equal bits {h} to {w-1}.",
        f'vaddhn_high_u{w}', f'(r : uint{h}x{n}_t) (a b : uint{w}x{n}_t)', f'vaddhn_high_u{w} r a b', rhs, f'∀ k : Fin {n}, {bits(s, d)}',
        f"""  rw [vaddhn_high_u{w}_partial, ok_vec_iff]
  constructor
  · intro e k
    have := e ⟨{n} + k.val, by omega⟩
    rw [dif_neg (by simp), dif_neg (by simp)] at this
    simp only [Nat.add_sub_cancel_left] at this
    exact (narrow_iff {s} _).1 this
  · intro e i
    by_cases hi : i.val < {n}
    · rw [dif_pos hi, dif_pos hi]
    · rw [dif_neg hi, dif_neg hi]
      exact (narrow_iff {s} _).2 (e ⟨i.val - {n}, by omega⟩)
""")
    thm(f"`vaddhn_high_s{w}` gives the high halves of the sums in its upper lanes exactly when no sum is a signed overflow and bits {s} to {s+h-1} of each sum equal bits {h} to {w-1}.",
        f'vaddhn_high_s{w}', f'(r : int{h}x{n}_t) (a b : int{w}x{n}_t)', f'vaddhn_high_s{w} r a b', rhs,
        f'∀ k : Fin {n}, NoOverflow {w} ((a.lane k).toInt + (b.lane k).toInt) ∧\n      {bits(s, d)}',
        f"""  rw [vaddhn_high_s{w}_partial, if_ok_iff, ok_vec_iff, forall_and]
  refine and_congr_right fun _ => ⟨?_, ?_⟩
  · intro e k
    have := e ⟨{n} + k.val, by omega⟩
    rw [dif_neg (by simp), dif_neg (by simp)] at this
    simp only [Nat.add_sub_cancel_left] at this
    exact (narrow_s_iff {s} (by decide) _).1 this
  · intro e i
    by_cases hi : i.val < {n}
    · rw [dif_pos hi, dif_pos hi]
    · rw [dif_neg hi, dif_neg hi]
      exact (narrow_s_iff {s} (by decide) _).2 (e ⟨i.val - {n}, by omega⟩)
""")
for t, r in (('s', 'if_ok_iff, '), ('u', '')):
    i = 'i' if t == 's' else 'ui'
    ty = 'int64x2_t' if t == 's' else 'uint64x2_t'
    last = '.2' if t == 's' else ''
    out += f"""
/-- `vrsubhn_{t}64` is right for no operands. -/
theorem vrsubhn_{t}64_never_right [Dialect] (N M : {ty}) :
    vrsubhn_{t}64 N M ≠ .ok ⟨fun i => high 32 (N.lane i - M.lane i + 2147483648#64)⟩ := by
  intro h
  rw [vrsubhn_{t}64_partial, {r}ok_vec_iff] at h
  exact rsubhn_ne _ (h{last} 0)
"""
thm("`vsraq_n_s32` (which also shifts the accumulator) is right exactly when every lane of the accumulator is 0 or -1.", 'vsraq_n_s32',
    '(a b : int32x4_t) (n : Nat) (h1 : 1 ≤ n) (h2 : n ≤ 31)', 'vsraq_n_s32 a b n', '⟨fun i => a.lane i + (b.lane i).sshiftRight n⟩',
    '∀ i : Fin 4, a.lane i = 0#32 ∨ a.lane i = BitVec.allOnes 32', """  rw [vsraq_n_s32_partial a b n h1 h2, ok_vec_iff]
  exact forall_congr' fun i => sra_iff _ _ n h1
""")
thm("`vshr_n_u16` is right exactly for the shifts up to 8, of the shifts up to 16 that the intrinsic has.", 'vshr_n_u16',
    '(v : uint16x4_t) (n : Nat) (h1 : 1 ≤ n) (h2 : n ≤ 16)', 'vshr_n_u16 v n', '⟨fun i => (v.lane i) >>> n⟩', 'n ≤ 8', """  constructor
  · intro h
    by_contra hn
    exact vshr_n_u16_wrong v n (by omega) h2 h
  · exact vshr_n_u16_partial v n h1
""")
thm("`vqshrn_n_s64` saturates correctly exactly when no shifted lane is above 2^31-1, except for shifted lanes whose low 32 bits happen to be 0x7fffffff.", 'vqshrn_n_s64',
    '(a : int64x2_t) (n : Nat) (h1 : 1 ≤ n) (h2 : n ≤ 32)', 'vqshrn_n_s64 a n', '⟨fun i => ssat 32 ((a.lane i).toInt / 2 ^ n)⟩',
    '∀ i : Fin 2, (a.lane i).toInt / 2 ^ n ≤ 2147483647 ∨ (a.lane i).toInt / 2 ^ n % 4294967296 = 2147483647', """  rw [vqshrn_n_s64_partial a n h1 h2, ok_vec_iff]
  refine forall_congr' fun i => ssat_iff _
""")
thm("`vqtbl1_u8` gives the table entries, and 0 for an index of 16 or more, exactly when there is no such index.", 'vqtbl1_u8',
    '(t : uint8x16_t) (idx : uint8x8_t)', 'vqtbl1_u8 t idx', '⟨fun i => if h : (idx.lane i).toNat < 16 then t[(idx.lane i).toNat] else 0#8⟩',
    '∀ i : Fin 8, (idx.lane i).toNat < 16', """  rw [vqtbl1_u8_partial, if_ok_iff]
  exact and_iff_left rfl
""")
out += "\nend Verif.Props\n"
open(here + '/../lean/Verif/Props/Agree.lean', 'w').write(out)
