#!/usr/bin/env python3
"""Generate lean/Verif/Props/Typed*.lean: calls with arguments of the declared types (C78)."""
import re, glob
ROOT = '/verif/lean/Verif'
lib = re.findall(r'\(k!"(\w+)", \.(fn|unit) Source\.(\w+)\)', open(ROOT + '/Cpp/Library.lean').read())
parts = re.findall(r'def library(\d+) : List \(Nat × Text\) := \[(.*?)\]\n', open(ROOT + '/Cpp/Library.lean').read(), re.S)
src = {}
for p in glob.glob(ROOT + '/Props/Src*.lean'):
    for m in re.finditer(r'^theorem (?:Props\.)?(\w+)_source( \[Dialect\])?(.*?):=', open(p).read(), re.M | re.S):
        src[m[1]] = re.sub(r'\s+', ' ', m[3]).strip()
model = {}
for p in glob.glob(ROOT + '/Model/*.lean'):
    for m in re.finditer(r'^def ([\w.]+)( \[Dialect\])? ?(.*?) : C (\S+|\(.*?\)) := (.*?)(?=\n\n|\Z)', open(p).read(), re.M | re.S):
        model[m[1]] = (m[4], m[5])
written = {}
s = open(ROOT + '/Props/Outcome.lean').read()
for m in re.finditer(r'^theorem (written_\w+)( \[Dialect\])? :\s+∀ f ∈ \[(.*?)\],\s+∀ (.*?), ∀ l', s, re.M | re.S):
    fs = [x.strip() for x in m[3].split(',')]
    for i, f in enumerate(fs): written[f] = (m[1], i)
UNWRITTEN = ['vrev64q_s8', 'vrev64q_s16', 'vqshrun_n_s32', 'vqshrun_n_s64']
MANUAL = {'RecipEstimate', 'FPRecipEstimate', 'vrecpeq_f32'}

def mem(i): return '(.head _)' if i == 0 else f'(.tail _ {mem(i-1)})'

def one(f, kind, text):
    b = src[f]
    binds = re.findall(r'\((\w+(?: \w+)*) : ([^()]*)\)', b.split(' : Runs')[0].split(' : RunsIn')[0])
    vs = [(v, t) for (ns, t) in binds for v in ns.split()]
    m = re.search(r'Runs Source\.\w+ \[(.*?)\] \((.*?) <\$> Model\.(\w+)(.*?)\)$', b)
    args = [a.strip() for a in re.split(r', (?=\.)', m[1])]
    mk, fn, app = m[2], m[3], m[4].strip()
    ret, body = model[fn]
    msg = re.search(r'\.abort ("(?:[^"\\]|\\.)*")', body)
    ms = f'(some {msg[1]})' if msg else 'none'
    out = []
    names = [a.split()[-1] for a in args]
    ints = [a.split()[-1] for a in args if a.startswith('.ofInt')]
    params = ' '.join(f'({v} : {t})' for v, t in vs if '≤' not in t)
    ptr = mk == 'Obj.ofPtr'
    vec = mk in ('Obj.ofVec', 'Obj.ofVecArr')
    w = 'True' if vec else 'False'
    P = f'(Same {names[0]})' if ptr else '(fun _ => True)'
    out.append(f'theorem {f}_good [Dialect] {params} : Good {ms} {w} {P} (Model.{fn} {app}) := by\n'
               f'  unfold Model.{fn}\n  {"good_store" if ptr else "good_body"}')
    pats = ', '.join(f'{n}0' for n in names)
    hs = ', '.join(f't{n}' for n in names)
    pf = []
    for a in args:
        n = a.split()[-1]
        if a.startswith('.ofInt'): pf.append(f'  obtain ⟨{n}, rfl, h{n}⟩ := hasTy_int t{n}')
        else: pf.append(f'  obtain ⟨{n}, rfl⟩ := t{n}')
    srcargs = ' '.join(v for v, t in vs)
    lem = {'Obj.ofVec': 'vec', 'Obj.ofVecArr': 'arr', 'Obj.ofPtr': 'mem'}.get(mk, 'sc')
    good = f'({f}_good {app})'
    if vec:
        if f in UNWRITTEN: good += ' (.inr (by decide))'
        else:
            wn, i = written[fn]
            good += f' (.inl ({wn} _ {mem(i)} {app}))'
    out.append(f'theorem {f}_typed [Dialect] : Total (k!"{f}", .{kind} Source.{text}) := by\n'
               f'  refine total_fn {f}_sig_read fun args h => ?_\n'
               f'  obtain ⟨{pats}, rfl, {hs}⟩ := typed{len(args)} h\n' + '\n'.join(pf) +
               f'\n  exact total_{lem} (called_fn (by kernel_rfl) ({f}_source {srcargs})) {good}')
    return out

HEAD = """import Verif.Typing
import Verif.ArmLemmas
import Verif.Props.Signatures
import Verif.Props.Outcome%s

/-! # Calls with arguments of the declared types%s (C78)

Generated by `tools/gen_typed.py`. -/

set_option linter.unusedVariables false

namespace Verif.Props
open Verif.Cpp Verif.Arm

"""
def gen():
    for i, body in parts:
        es = re.findall(r'\(k!"(\w+)", \.(fn|unit) Source\.(\w+)\)', body)
        o = []
        for e in es:
            if e[0] in MANUAL: continue
            o += one(*e)
        open(f'{ROOT}/Props/Typed{i}.lean', 'w').write((HEAD % ('\nimport Verif.Props.TypedBase', f', part {i}')) + '\n\n'.join(o) + '\n\nend Verif.Props\n')
gen()
o = [(HEAD % (''.join(f'\nimport Verif.Props.Typed{i}' for i, _ in parts), ''))]
o.append("""theorem RecipEstimate_good [Dialect] (a : uint32_t) :
    Good none False (fun _ => True) (Model.RecipEstimate (.int .u32 a.toNat) >>= Val.toBits .u32) := by
  unfold Model.RecipEstimate
  good_body

theorem RecipEstimate_typed [Dialect] : Total (k!"RecipEstimate", .fn Source.RecipEstimate) := by
  refine total_fn RecipEstimate_sig_read fun args h => ?_
  obtain ⟨a0, rfl, ta⟩ := typed1 h
  obtain ⟨a, rfl⟩ := ta
  exact total_sc (called_fn (by kernel_rfl) (RecipEstimate_source a)) (RecipEstimate_good a)

theorem FPRecipEstimate_good [Dialect] (a : float32_t) : Good none False (fun _ => True) (Model.FPRecipEstimate a) := by
  rw [FPRecipEstimate_eval]
  exact good_ok _

theorem FPRecipEstimate_typed [Dialect] : Total (k!"FPRecipEstimate", .unit Source.recip) := by
  refine total_unit FPRecipEstimate_sig_read fun args h => ?_
  obtain ⟨a0, rfl, ta⟩ := typed1 h
  obtain ⟨a, rfl⟩ := ta
  exact total_sc (called_unit (by kernel_rfl) (FPRecipEstimate_source a)) (FPRecipEstimate_good a)

theorem vrecpeq_f32_good [Dialect] (a : float32x4_t) : Good none True (fun _ => True) (Model.vrecpeq_f32 a) := by
  rw [vrecpeq_f32_eval]
  exact good_ok _

theorem vrecpeq_f32_typed [Dialect] : Total (k!"vrecpeq_f32", .unit Source.recip) := by
  refine total_unit vrecpeq_f32_sig_read fun args h => ?_
  obtain ⟨a0, rfl, ta⟩ := typed1 h
  obtain ⟨a, rfl⟩ := ta
  exact total_vec (called_unit (by kernel_rfl) (vrecpeq_f32_source a)) (vrecpeq_f32_good a)
    (.inl fun l h => by rw [vrecpeq_f32_eval] at h; cases h)
""")
for i, body in parts:
    es = re.findall(r'\(k!"(\w+)", \.(fn|unit) Source\.(\w+)\)', body)
    o.append(f"theorem library{i}_total [Dialect] : ∀ e ∈ library{i}, Total e :=\n  " +
      " <| ".join(f"List.forall_mem_cons.mpr <| .intro {e[0]}_typed" for e in es) + " <| List.forall_mem_nil _\n")
o.append("""/-- Every function of `neon_sim.cpp`, called with any arguments of the types in its definition, has exactly one
outcome: a result of the declared type, its message, undefined behaviour, or (four functions) unwritten lanes. -/
theorem call_total [Dialect] : ∀ e ∈ library, ∀ g, e.2.sig e.1 = some g → ∀ args, Typed g.params args →
    ∃ o, (∀ o', Called e.1 args o' ↔ o' = o) ∧ Accepted e.1 g args o := by
  intro e he
  unfold library at he
  simp only [List.mem_append] at he
  rcases he with (((((((he | he) | he) | he) | he) | he) | he) | he) | he
""" + '\n'.join(f'  · exact library{i}_total e he' for i, _ in parts) + '\n\nend Verif.Props\n')
open(f'{ROOT}/Props/Typed.lean', 'w').write('\n'.join(o))
