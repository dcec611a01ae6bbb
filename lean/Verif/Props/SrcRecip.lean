import Verif.Cpp.Command
import Verif.Model.Recip

/-! Source text of `RecipEstimate`, general facts about `Runs`, and concrete runs.

`float_parts`, `FPRecipEstimate` and `vrecpeq_f32` are in `SrcClass.lean`. -/

open Verif.Cpp

namespace Verif

/-- `neon_sim.cpp:4286-4291` -/
cpp_source Source.RecipEstimate "uint32_t RecipEstimate(uint32_t a)
{
    a = a * 2 + 1;
    uint32_t b = (1 << 19) / a;
    return (b + 1) / 2;
}
"

theorem cast_toBits_u32 (v : Val) : (Val.cast .u32 v >>= Val.toBits .u32) = Val.toBits .u32 v := by
  cases v with
  | int s v =>
    show C.ok (BitVec.ofInt 32 (s.conv .u32 v)) = C.ok (BitVec.ofInt 32 v)
    congr 1
    unfold ITy.conv
    split
    · rfl
    · apply BitVec.eq_of_toNat_eq
      simp [BitVec.toNat_ofInt, ITy.wrap, ITy.signed, ITy.bits]
  | f32 b => exact bind_assoc ..
  | f64 b => exact bind_assoc ..

theorem Props.RecipEstimate_source [Dialect] (a : uint32_t) :
    Runs Source.RecipEstimate [.ofScalar .u32 a]
      (Obj.ofScalar .u32 <$> (Model.RecipEstimate (.int .u32 a.toNat) >>= Val.toBits .u32)) := by
  refine ⟨_, Source.RecipEstimate_parse, 1000, fun fuel hf => ?_⟩
  simp only [Source.RecipEstimate_ast, Model.RecipEstimate]
  cpp_simp
  iterate 8 refine bind_congr' fun _ => ?_
  rw [← bind_assoc, cast_toBits_u32]

/-! ## General facts -/

/-- The outcome of a text is unique. -/
theorem Props.runs_unique [Dialect] {text : String} {args : List Obj} {r s : C Obj}
    (hr : Runs text args r) (hs : Runs text args s) : r = s := by
  obtain ⟨f, hf, n, hn⟩ := hr
  obtain ⟨g, hg, m, hm⟩ := hs
  cases hf.symm.trans hg
  exact (hn (n + m) (by omega)).symm.trans (hm (n + m) (by omega))

/-! ## Concrete runs -/

/-- A text in the subset that is not in `neon_sim.cpp`: a loop that never ends has no outcome. -/
cpp_source Source.spin "void spin(uint8_t* p)
{
    for (int i = 0; i < 1; i += 0)
    {
        p[0] = 0;
    }
}
"
/-- A text whose loop reads past the end of the register. -/
cpp_source Source.oops "uint8x8_t oops(uint8x8_t a)
{
    uint8x8_t r;
    for (int i = 0; i < 9; i++)
    {
        r.val[i] = a.val[i];
    }
    return r;
}
"
/-- A text that leaves a lane unwritten. -/
cpp_source Source.hole "uint8x8_t hole(uint8x8_t a)
{
    uint8x8_t r;
    for (int i = 1; i < 8; i++)
    {
        r.val[i] = a.val[i];
    }
    return r;
}
"

section
local instance : Dialect := .strict

example : run 20 Source.oops_ast [.ofVec (⟨fun _ => 1#8⟩ : uint8x8_t)] = .ub .outOfBounds := by
  rfl
example : ∃ l, run 20 Source.hole_ast [.ofVec (⟨fun _ => 1#8⟩ : uint8x8_t)] = .indet l := ⟨_, rfl⟩
example : run 20 Source.RecipEstimate_ast [.ofScalar .u32 256#32] = .ok (.ofScalar .u32 511#32) := by
  rfl
example : run 20 Source.spin_ast [.ofPtr (e := .u8) ⟨[some 1#8], 0⟩] = outOfFuel := by
  rfl
end

end Verif
