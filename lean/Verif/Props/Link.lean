import Verif.Link
import Verif.Props.Signatures

/-! # Which functions of the header can be linked (C65)

Generated by `tools/gen_link.py`. -/

namespace Verif.Props
open Verif.Cpp

set_option maxRecDepth 100000

/-- The definitions that no declaration of the header matches. -/
noncomputable def strays : List Sig := [vld_s32_sig, vmaxq_u8_sig, vmaxq_u16_sig, vmaxq_u32_sig, vsub_f32_overload2_sig, vsubn_s32_sig, vsubn_s64_sig, vsubn_u32_sig, vsubn_u64_sig, vsubl_s32_sig, vsubl_u32_sig, vminq_u8_sig, vminq_u16_sig, vminq_u32_sig, RecipEstimate_sig, FPRecipEstimate_sig, ver_u32_sig]

/-- The header declares no function twice with different types, as C linkage requires. -/
theorem header_check : consistent (Tree.ofList declared) declared = true := by decide +kernel

theorem header_consistent : ∀ g ∈ declared, ∀ g' ∈ declared, g.name = g'.name → g = g' := by
  intro g hg g' hg' h
  have h1 := find_of_mem header_check hg
  rw [h, find_of_mem header_check hg'] at h1
  exact (Option.some.inj h1).symm

theorem declared_iff (g : Sig) : g ∈ declared ↔ (Tree.ofList declared).find g.name = some g :=
  ⟨find_of_mem header_check, find_mem⟩

theorem defined_check : (defined.all fun g => decide ((Tree.ofList declared).find g.name = some g) != decide (g ∈ strays)) = true := by
  decide +kernel

/-- A definition implements a declared function, same name and same type, exactly when it is not a stray. -/
theorem defined_declared : ∀ g ∈ defined, g ∈ declared ↔ g ∉ strays := by
  intro g hg
  have := List.all_eq_true.mp defined_check g hg
  rw [declared_iff]
  by_cases h1 : (Tree.ofList declared).find g.name = some g <;> by_cases h2 : g ∈ strays <;> simp_all

/-- No function is defined twice with the same parameter types. -/
theorem defined_distinct : defined.Pairwise fun a b => ¬ (a.name = b.name ∧ a.params = b.params) :=
  pairwise_of_noClash _ (by decide +kernel)

/-- The declared functions, each once. -/
noncomputable def declaredOnce : List Sig := keep .leaf declared

theorem declaredOnce_spec : declaredOnce.Nodup ∧ ∀ g, g ∈ declaredOnce ↔ g ∈ declared := by
  obtain ⟨h1, h2, h3⟩ := keep_names declared .leaf
  refine ⟨h2.imp (fun h e => h (congrArg Sig.name e)), fun g => ⟨fun h => (h1 g h).2, fun h => ?_⟩⟩
  obtain ⟨y, hy, e⟩ := h3 g h rfl
  rwa [header_consistent g h y (h1 y hy).2 e.symm]

/-- The declared functions without a definition. -/
noncomputable def missing : List Sig := declaredOnce.filter fun g => (Tree.ofList defined).find g.name != some g

theorem found_check : (defined.all fun g => decide ((Tree.ofList defined).find g.name = some g) || decide (g ∈ strays)) = true := by
  decide +kernel

/-- Exactly these declared functions cannot be linked. -/
theorem missing_spec (g : Sig) : g ∈ missing ↔ g ∈ declared ∧ g ∉ defined := by
  simp only [missing, List.mem_filter, declaredOnce_spec.2, bne_iff_ne]
  refine ⟨fun h => ⟨h.1, fun hd => h.2 ?_⟩, fun h => ⟨h.1, fun hf => h.2 (find_mem hf)⟩⟩
  have := List.all_eq_true.mp found_check g hd
  have hs := (defined_declared g hd).mp h.1
  simpa [hs] using this

/-- How many: 1422 of the 1944 declared functions have no definition. -/
theorem link_counts : declaredOnce.length = 1944 ∧ defined.length = 539 ∧ strays.length = 17 ∧ missing.length = 1422 := by
  decide +kernel

/-- The claim that every declared function is defined is false: of the 1944 declared functions 1422 have no definition, for
instance `vld1q_f64`. -/
theorem link_coverage_wrong : ¬ ∀ g ∈ declared, g ∈ defined := by
  intro h
  have h1 : (⟨k!"vld1q_f64", .vec .f64 2, [.ptr true .f64]⟩ : Sig) ∈ declared := by
    rw [declared_iff]; decide +kernel
  exact absurd (h _ h1) (by decide +kernel)

end Verif.Props
