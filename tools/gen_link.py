#!/usr/bin/env python3
"""Theorems about the declarations of neon_sim.h and the definitions of neon_sim.cpp -> Props/Link.lean"""
import re
TAIL = r"""/-- The header declares no function twice with different types, as C linkage requires. -/
theorem header_check : consistent (Tree.ofList declared) declared = true := by decide +kernel

theorem header_consistent : ∀ g ∈ declared, ∀ g' ∈ declared, g.name = g'.name → g = g' := by
  intro g hg g' hg' h
  have h1 := find_of_mem header_check hg
  rw [h, find_of_mem header_check hg'] at h1
  exact (Option.some.inj h1).symm

theorem declared_iff (g : Sig) : g ∈ declared ↔ (Tree.ofList declared).find g.name = some g :=
  ⟨find_of_mem header_check, find_mem⟩

theorem defined_check : (defined.all fun g => decide ((Tree.ofList declared).find g.name = some g) != decide (g ∈ strays)) = true := by
  decide +kernel

/-- A definition implements a declared function, same name and same type, exactly when it is not a stray. -/
theorem defined_declared : ∀ g ∈ defined, g ∈ declared ↔ g ∉ strays := by
  intro g hg
  have := List.all_eq_true.mp defined_check g hg
  rw [declared_iff]
  by_cases h1 : (Tree.ofList declared).find g.name = some g <;> by_cases h2 : g ∈ strays <;> simp_all

/-- No function is defined twice with the same parameter types. -/
theorem defined_distinct : defined.Pairwise fun a b => ¬ (a.name = b.name ∧ a.params = b.params) :=
  pairwise_of_noClash _ (by decide +kernel)

/-- The declared functions, each once. -/
noncomputable def declaredOnce : List Sig := keep .leaf declared

theorem declaredOnce_spec : declaredOnce.Nodup ∧ ∀ g, g ∈ declaredOnce ↔ g ∈ declared := by
  obtain ⟨h1, h2, h3⟩ := keep_names declared .leaf
  refine ⟨h2.imp (fun h e => h (congrArg Sig.name e)), fun g => ⟨fun h => (h1 g h).2, fun h => ?_⟩⟩
  obtain ⟨y, hy, e⟩ := h3 g h rfl
  rwa [header_consistent g h y (h1 y hy).2 e.symm]

/-- The declared functions without a definition. -/
noncomputable def missing : List Sig := declaredOnce.filter fun g => (Tree.ofList defined).find g.name != some g

theorem found_check : (defined.all fun g => decide ((Tree.ofList defined).find g.name = some g) || decide (g ∈ strays)) = true := by
  decide +kernel

/-- Exactly these declared functions cannot be linked. -/
theorem missing_spec (g : Sig) : g ∈ missing ↔ g ∈ declared ∧ g ∉ defined := by
  simp only [missing, List.mem_filter, declaredOnce_spec.2, bne_iff_ne]
  refine ⟨fun h => ⟨h.1, fun hd => h.2 ?_⟩, fun h => ⟨h.1, fun hf => h.2 (find_mem hf)⟩⟩
  have := List.all_eq_true.mp found_check g hd
  have hs := (defined_declared g hd).mp h.1
  simpa [hs] using this

/-- How many: 1422 of the 1944 declared functions have no definition. -/
theorem link_counts : declaredOnce.length = 1944 ∧ defined.length = 539 ∧ strays.length = 17 ∧ missing.length = 1422 := by
  decide +kernel

/-- The claim that every declared function is defined is false: of the 1944 declared functions 1422 have no definition, for
instance `vld1q_f64`. -/
theorem link_coverage_wrong : ¬ ∀ g ∈ declared, g ∈ defined := by
  intro h
  have h1 : (⟨k!"vld1q_f64", .vec .f64 2, [.ptr true .f64]⟩ : Sig) ∈ declared := by
    rw [declared_iff]; decide +kernel
  exact absurd (h _ h1) (by decide +kernel)
"""
lib = re.findall(r'\(k!"(\w+)", \.(fn|unit) Source\.(\w+)\)', open("/verif/lean/Verif/Cpp/Library.lean").read())
np = len(re.findall(r'"((?:[^"\\]|\\.)*)"', open("/verif/lean/Verif/Cpp/HeaderText.lean").read().split("cpp_header header")[1], re.S))
parts = re.findall(r"def library(\d+) : List", open("/verif/lean/Verif/Cpp/Library.lean").read())
STRAYS = "vld_s32 vmaxq_u8 vmaxq_u16 vmaxq_u32 vsub_f32_overload2 vsubn_s32 vsubn_s64 vsubn_u32 vsubn_u64 vsubl_s32 vsubl_u32 vminq_u8 vminq_u16 vminq_u32 RecipEstimate FPRecipEstimate ver_u32".split()
o = ["""import Verif.Cpp.HeaderText
import Verif.Cpp.Library

/-! # Which functions of the header can be linked (C65)

Generated by `tools/gen_link.py`.  `neon_sim.h` is read from its text, as are the signatures of the definitions in
`neon_sim.cpp`. -/

namespace Verif.Props
open Verif.Cpp

/-- The declarations of the header, with repetitions. -/
noncomputable def declared : List Sig := """ + " ++ (".join(f"header{i}_sigs" for i in range(np)) + " ++ []" + ")" * (np - 1) + f"""

/-- The types that the header defines. -/
noncomputable def headerTypes : List (Nat × Ty) := header{np}_state.types

/-- Reading the text of the header gives these types and declarations; every conditional is closed. -/
theorem header_read : readHeader .init header_pieces = some (⟨header{np}_state.macros, [], headerTypes⟩, declared) :=
  """ + "\n  (".join(f"readHeader_cons header{i}_read" for i in range(np)) + " rfl" + ")" * (np - 1) + f"""

/-- The type names of the header mean what the semantics of the source texts takes them to mean: `typeOf` reads the element
type, the number of lanes and the number of registers off the name. -/
theorem header_types : ∀ p ∈ headerTypes, typeOf p.1 = some p.2 := by
  have h : (headerTypes.all fun p => decide (typeOf p.1 = some p.2)) = true := by decide +kernel
  exact fun p hp => of_decide_eq_true (List.all_eq_true.mp h p hp)

/-- Every register is 64 or 128 bits wide, and every register array has two to four registers. -/
theorem header_widths : ∀ p ∈ headerTypes, match p.2 with
    | .sc e => e = .f32 ∨ e = .f64
    | .vec e n => e.bits * n = 64 ∨ e.bits * n = 128
    | .arr e n k => (e.bits * n = 64 ∨ e.bits * n = 128) ∧ 2 ≤ k ∧ k ≤ 4
    | _ => False := by
  have h : (headerTypes.all fun p => match p.2 with
    | .sc e => decide (e = .f32 ∨ e = .f64)
    | .vec e n => decide (e.bits * n = 64 ∨ e.bits * n = 128)
    | .arr e n k => decide ((e.bits * n = 64 ∨ e.bits * n = 128) ∧ 2 ≤ k ∧ k ≤ 4)
    | _ => false) = true := by decide +kernel
  intro p hp
  have := List.all_eq_true.mp h p hp
  rcases p with ⟨x, t⟩
  cases t <;> simp_all

/-- The type names of the header. -/
noncomputable def headerType : Nat → Option Ty := header{np}_state.type

/-- What a text defines under a name: the signature of a function, with the types of the header. -/
noncomputable def _root_.Verif.Cpp.Text.sig (f : Nat) : Text → Option Sig
  | .fn s => definedSig headerType s.toList
  | .unit s => findSig headerType f (tokenize s.toList)

theorem cons_eq {{a b : Option Sig}} {{l l' : List (Option Sig)}} (h : a = b) (h' : l = l') : a :: l = b :: l' := by rw [h, h']

set_option maxRecDepth 100000

noncomputable section
"""]
parts = re.findall(r"def library(\d+) [^\n]*\[(.*?)\]\n", open("/verif/lean/Verif/Cpp/Library.lean").read(), re.S)
def sg(n): return n + "_sig"
o = o[:1]
for name, kind, src in lib:
    o.append(f"cpp_sig headerType {name}" if kind == "fn" else f"cpp_unit_sig headerType {src} {name}")
o.append("")
chunks = []
for i, body in parts:
    es = re.findall(r'\(k!"(\w+)", \.(fn|unit) Source\.(\w+)\)', body)
    chunks.append([e[0] for e in es])
    o.append(f"noncomputable def defined{i} : List Sig := [" + ", ".join(sg(e[0]) for e in es) + "]\n")
    o.append(f"theorem defined{i}_read : library{i}.map (fun e => e.2.sig e.1) = defined{i}.map some :=\n  " +
      " <| ".join(f"cons_eq {sg(e[0])}_read" for e in es) + " <| rfl\n")
assert sum(chunks, []) == [l[0] for l in lib]
o.append("/-- The functions defined in `neon_sim.cpp`, with their types. -/\nnoncomputable def defined : List Sig :=\n  " + " ++ ".join(f"defined{i}" for i, _ in parts) + "\n")
o.append("""/-- These are the signatures in the texts of the definitions. -/
theorem defined_read : library.map (fun e => e.2.sig e.1) = defined.map some := by
  simp only [library, defined, List.map_append, """ + ", ".join(f"defined{i}_read" for i, _ in parts) + """]
""")
o.append("/-- The definitions that no declaration of the header matches. -/\nnoncomputable def strays : List Sig := [" + ", ".join(sg(s) for s in STRAYS) + "]\n")
o.append(open("/verif/tools/link_tail.lean").read() if False else TAIL)
o[0] = o[0].replace("# Which functions of the header can be linked (C65)", "# The signatures of the header and of the definitions (C65)").replace("Generated by", "Generated by")
cut = o.index(next(x for x in o if x.startswith("/-- The definitions that no")))
open("/verif/lean/Verif/Props/Signatures.lean", "w").write("\n".join(o[:cut]) + "\nend\n\nend Verif.Props\n")
open("/verif/lean/Verif/Props/Link.lean", "w").write("""import Verif.Link
import Verif.Props.Signatures

/-! # Which functions of the header can be linked (C65)

Generated by `tools/gen_link.py`. -/

namespace Verif.Props
open Verif.Cpp

set_option maxRecDepth 100000

""" + "\n".join(o[cut:]) + "\nend Verif.Props\n")
