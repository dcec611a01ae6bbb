import Verif.Cpp.Command
import Verif.Model.Mul

/-! Source text of the functions in `Verif/Model/Mul.lean`, and the theorem that running it is running the model.
Generated by `tools/gen_source.py`. -/

set_option linter.unusedVariables false
set_option linter.unusedSimpArgs false
set_option maxHeartbeats 1000000

open Verif.Cpp

namespace Verif

/-- `neon_sim.cpp:2698-2706` -/
cpp_source Source.vmul_s8 "int8x8_t vmul_s8(int8x8_t N, int8x8_t M)
{
    int8x8_t D;
    for (int i = 0; i < 8; i++)
    {
        D.val[i] = N.val[i] * M.val[i];
    }
    return D;
}
"

theorem Props.vmul_s8_source [Dialect] (N : int8x8_t) (M : int8x8_t) :
    Runs Source.vmul_s8 [.ofVec N, .ofVec M] (Obj.ofVec <$> Model.vmul_s8 N M) := by
  refine ⟨_, Source.vmul_s8_parse, 1000, fun fuel hf => ?_⟩
  simp only [Source.vmul_s8_ast, Model.vmul_s8]
  cpp_simp
  cpp_loop (fun D => [(68, .vec .s8 8 D), (77, .vec .s8 8 (Arr.ofVec M)), (78, .vec .s8 8 (Arr.ofVec N))])
  · rintro i D h1 h2
    cpp_body
  · rintro D
    cpp_simp

/-- `neon_sim.cpp:2708-2716` -/
cpp_source Source.vmul_s16 "int16x4_t vmul_s16(int16x4_t N, int16x4_t M)
{
    int16x4_t D;
    for (int i = 0; i < 4; i++)
    {
        D.val[i] = N.val[i] * M.val[i];
    }
    return D;
}
"

theorem Props.vmul_s16_source [Dialect] (N : int16x4_t) (M : int16x4_t) :
    Runs Source.vmul_s16 [.ofVec N, .ofVec M] (Obj.ofVec <$> Model.vmul_s16 N M) := by
  refine ⟨_, Source.vmul_s16_parse, 1000, fun fuel hf => ?_⟩
  simp only [Source.vmul_s16_ast, Model.vmul_s16]
  cpp_simp
  cpp_loop (fun D => [(68, .vec .s16 4 D), (77, .vec .s16 4 (Arr.ofVec M)), (78, .vec .s16 4 (Arr.ofVec N))])
  · rintro i D h1 h2
    cpp_body
  · rintro D
    cpp_simp

/-- `neon_sim.cpp:2718-2726` -/
cpp_source Source.vmul_s32 "int32x2_t vmul_s32(int32x2_t N, int32x2_t M)
{
    int32x2_t D;
    for (int i = 0; i < 2; i++)
    {
        D.val[i] = N.val[i] * M.val[i];
    }
    return D;
}
"

theorem Props.vmul_s32_source [Dialect] (N : int32x2_t) (M : int32x2_t) :
    Runs Source.vmul_s32 [.ofVec N, .ofVec M] (Obj.ofVec <$> Model.vmul_s32 N M) := by
  refine ⟨_, Source.vmul_s32_parse, 1000, fun fuel hf => ?_⟩
  simp only [Source.vmul_s32_ast, Model.vmul_s32]
  cpp_simp
  cpp_loop (fun D => [(68, .vec .s32 2 D), (77, .vec .s32 2 (Arr.ofVec M)), (78, .vec .s32 2 (Arr.ofVec N))])
  · rintro i D h1 h2
    cpp_body
  · rintro D
    cpp_simp

/-- `neon_sim.cpp:2728-2736` -/
cpp_source Source.vmul_u8 "uint8x8_t vmul_u8(uint8x8_t N, uint8x8_t M)
{
    uint8x8_t D;
    for (int i = 0; i < 8; i++)
    {
        D.val[i] = N.val[i] * M.val[i];
    }
    return D;
}
"

theorem Props.vmul_u8_source [Dialect] (N : uint8x8_t) (M : uint8x8_t) :
    Runs Source.vmul_u8 [.ofVec N, .ofVec M] (Obj.ofVec <$> Model.vmul_u8 N M) := by
  refine ⟨_, Source.vmul_u8_parse, 1000, fun fuel hf => ?_⟩
  simp only [Source.vmul_u8_ast, Model.vmul_u8]
  cpp_simp
  cpp_loop (fun D => [(68, .vec .u8 8 D), (77, .vec .u8 8 (Arr.ofVec M)), (78, .vec .u8 8 (Arr.ofVec N))])
  · rintro i D h1 h2
    cpp_body
  · rintro D
    cpp_simp

/-- `neon_sim.cpp:2738-2746` -/
cpp_source Source.vmul_u16 "uint16x4_t vmul_u16(uint16x4_t N, uint16x4_t M)
{
    uint16x4_t D;
    for (int i = 0; i < 4; i++)
    {
        D.val[i] = N.val[i] * M.val[i];
    }
    return D;
}
"

theorem Props.vmul_u16_source [Dialect] (N : uint16x4_t) (M : uint16x4_t) :
    Runs Source.vmul_u16 [.ofVec N, .ofVec M] (Obj.ofVec <$> Model.vmul_u16 N M) := by
  refine ⟨_, Source.vmul_u16_parse, 1000, fun fuel hf => ?_⟩
  simp only [Source.vmul_u16_ast, Model.vmul_u16]
  cpp_simp
  cpp_loop (fun D => [(68, .vec .u16 4 D), (77, .vec .u16 4 (Arr.ofVec M)), (78, .vec .u16 4 (Arr.ofVec N))])
  · rintro i D h1 h2
    cpp_body
  · rintro D
    cpp_simp

/-- `neon_sim.cpp:2748-2756` -/
cpp_source Source.vmul_u32 "uint32x2_t vmul_u32(uint32x2_t N, uint32x2_t M)
{
    uint32x2_t D;
    for (int i = 0; i < 2; i++)
    {
        D.val[i] = N.val[i] * M.val[i];
    }
    return D;
}
"

theorem Props.vmul_u32_source [Dialect] (N : uint32x2_t) (M : uint32x2_t) :
    Runs Source.vmul_u32 [.ofVec N, .ofVec M] (Obj.ofVec <$> Model.vmul_u32 N M) := by
  refine ⟨_, Source.vmul_u32_parse, 1000, fun fuel hf => ?_⟩
  simp only [Source.vmul_u32_ast, Model.vmul_u32]
  cpp_simp
  cpp_loop (fun D => [(68, .vec .u32 2 D), (77, .vec .u32 2 (Arr.ofVec M)), (78, .vec .u32 2 (Arr.ofVec N))])
  · rintro i D h1 h2
    cpp_body
  · rintro D
    cpp_simp

/-- `neon_sim.cpp:2759-2767` -/
cpp_source Source.vmulq_s8 "int8x16_t vmulq_s8(int8x16_t N, int8x16_t M)
{
    int8x16_t D;
    for (int i = 0; i < 16; i++)
    {
        D.val[i] = N.val[i] * M.val[i];
    }
    return D;
}
"

theorem Props.vmulq_s8_source [Dialect] (N : int8x16_t) (M : int8x16_t) :
    Runs Source.vmulq_s8 [.ofVec N, .ofVec M] (Obj.ofVec <$> Model.vmulq_s8 N M) := by
  refine ⟨_, Source.vmulq_s8_parse, 1000, fun fuel hf => ?_⟩
  simp only [Source.vmulq_s8_ast, Model.vmulq_s8]
  cpp_simp
  cpp_loop (fun D => [(68, .vec .s8 16 D), (77, .vec .s8 16 (Arr.ofVec M)), (78, .vec .s8 16 (Arr.ofVec N))])
  · rintro i D h1 h2
    cpp_body
  · rintro D
    cpp_simp

/-- `neon_sim.cpp:2768-2776` -/
cpp_source Source.vmulq_s16 "int16x8_t vmulq_s16(int16x8_t N, int16x8_t M)
{
    int16x8_t D;
    for (int i = 0; i < 8; i++)
    {
        D.val[i] = N.val[i] * M.val[i];
    }
    return D;
}
"

theorem Props.vmulq_s16_source [Dialect] (N : int16x8_t) (M : int16x8_t) :
    Runs Source.vmulq_s16 [.ofVec N, .ofVec M] (Obj.ofVec <$> Model.vmulq_s16 N M) := by
  refine ⟨_, Source.vmulq_s16_parse, 1000, fun fuel hf => ?_⟩
  simp only [Source.vmulq_s16_ast, Model.vmulq_s16]
  cpp_simp
  cpp_loop (fun D => [(68, .vec .s16 8 D), (77, .vec .s16 8 (Arr.ofVec M)), (78, .vec .s16 8 (Arr.ofVec N))])
  · rintro i D h1 h2
    cpp_body
  · rintro D
    cpp_simp

/-- `neon_sim.cpp:2777-2785` -/
cpp_source Source.vmulq_s32 "int32x4_t vmulq_s32(int32x4_t N, int32x4_t M)
{
    int32x4_t D;
    for (int i = 0; i < 4; i++)
    {
        D.val[i] = N.val[i] * M.val[i];
    }
    return D;
}
"

theorem Props.vmulq_s32_source [Dialect] (N : int32x4_t) (M : int32x4_t) :
    Runs Source.vmulq_s32 [.ofVec N, .ofVec M] (Obj.ofVec <$> Model.vmulq_s32 N M) := by
  refine ⟨_, Source.vmulq_s32_parse, 1000, fun fuel hf => ?_⟩
  simp only [Source.vmulq_s32_ast, Model.vmulq_s32]
  cpp_simp
  cpp_loop (fun D => [(68, .vec .s32 4 D), (77, .vec .s32 4 (Arr.ofVec M)), (78, .vec .s32 4 (Arr.ofVec N))])
  · rintro i D h1 h2
    cpp_body
  · rintro D
    cpp_simp

/-- `neon_sim.cpp:2786-2794` -/
cpp_source Source.vmulq_u8 "uint8x16_t vmulq_u8(uint8x16_t N, uint8x16_t M)
{
    uint8x16_t D;
    for (int i = 0; i < 16; i++)
    {
        D.val[i] = N.val[i] * M.val[i];
    }
    return D;
}
"

theorem Props.vmulq_u8_source [Dialect] (N : uint8x16_t) (M : uint8x16_t) :
    Runs Source.vmulq_u8 [.ofVec N, .ofVec M] (Obj.ofVec <$> Model.vmulq_u8 N M) := by
  refine ⟨_, Source.vmulq_u8_parse, 1000, fun fuel hf => ?_⟩
  simp only [Source.vmulq_u8_ast, Model.vmulq_u8]
  cpp_simp
  cpp_loop (fun D => [(68, .vec .u8 16 D), (77, .vec .u8 16 (Arr.ofVec M)), (78, .vec .u8 16 (Arr.ofVec N))])
  · rintro i D h1 h2
    cpp_body
  · rintro D
    cpp_simp

/-- `neon_sim.cpp:2795-2803` -/
cpp_source Source.vmulq_u16 "uint16x8_t vmulq_u16(uint16x8_t N, uint16x8_t M)
{
    uint16x8_t D;
    for (int i = 0; i < 8; i++)
    {
        D.val[i] = N.val[i] * M.val[i];
    }
    return D;
}
"

theorem Props.vmulq_u16_source [Dialect] (N : uint16x8_t) (M : uint16x8_t) :
    Runs Source.vmulq_u16 [.ofVec N, .ofVec M] (Obj.ofVec <$> Model.vmulq_u16 N M) := by
  refine ⟨_, Source.vmulq_u16_parse, 1000, fun fuel hf => ?_⟩
  simp only [Source.vmulq_u16_ast, Model.vmulq_u16]
  cpp_simp
  cpp_loop (fun D => [(68, .vec .u16 8 D), (77, .vec .u16 8 (Arr.ofVec M)), (78, .vec .u16 8 (Arr.ofVec N))])
  · rintro i D h1 h2
    cpp_body
  · rintro D
    cpp_simp

/-- `neon_sim.cpp:2804-2812` -/
cpp_source Source.vmulq_u32 "uint32x4_t vmulq_u32(uint32x4_t N, uint32x4_t M)
{
    uint32x4_t D;
    for (int i = 0; i < 4; i++)
    {
        D.val[i] = N.val[i] * M.val[i];
    }
    return D;
}
"

theorem Props.vmulq_u32_source [Dialect] (N : uint32x4_t) (M : uint32x4_t) :
    Runs Source.vmulq_u32 [.ofVec N, .ofVec M] (Obj.ofVec <$> Model.vmulq_u32 N M) := by
  refine ⟨_, Source.vmulq_u32_parse, 1000, fun fuel hf => ?_⟩
  simp only [Source.vmulq_u32_ast, Model.vmulq_u32]
  cpp_simp
  cpp_loop (fun D => [(68, .vec .u32 4 D), (77, .vec .u32 4 (Arr.ofVec M)), (78, .vec .u32 4 (Arr.ofVec N))])
  · rintro i D h1 h2
    cpp_body
  · rintro D
    cpp_simp

/-- `neon_sim.cpp:2814-2822` -/
cpp_source Source.vmulq_f32 "float32x4_t vmulq_f32(float32x4_t a, float32x4_t b)
{
    float32x4_t r;
    for (int i = 0; i < 4; i++)
    {
        r.val[i] =  a.val[i] * b.val[i];
    }
    return r;
}
"

theorem Props.vmulq_f32_source [Dialect] (a : float32x4_t) (b : float32x4_t) :
    Runs Source.vmulq_f32 [.ofVec a, .ofVec b] (Obj.ofVec <$> Model.vmulq_f32 a b) := by
  refine ⟨_, Source.vmulq_f32_parse, 1000, fun fuel hf => ?_⟩
  simp only [Source.vmulq_f32_ast, Model.vmulq_f32]
  cpp_simp
  cpp_loop (fun r => [(114, .vec .f32 4 r), (98, .vec .f32 4 (Arr.ofVec b)), (97, .vec .f32 4 (Arr.ofVec a))])
  · rintro i r h1 h2
    cpp_body
  · rintro r
    cpp_simp

/-- `neon_sim.cpp:2825-2833` -/
cpp_source Source.vmul_n_s16 "int16x4_t vmul_n_s16(int16x4_t N, int16_t M)
{
    int16x4_t D;
    for (int i = 0; i < 4; i++)
    {
        D.val[i] = N.val[i] * M;
    }
    return D;
}
"

theorem Props.vmul_n_s16_source [Dialect] (N : int16x4_t) (M : int16_t) :
    Runs Source.vmul_n_s16 [.ofVec N, .ofScalar .s16 M] (Obj.ofVec <$> Model.vmul_n_s16 N M) := by
  refine ⟨_, Source.vmul_n_s16_parse, 1000, fun fuel hf => ?_⟩
  simp only [Source.vmul_n_s16_ast, Model.vmul_n_s16]
  cpp_simp
  cpp_loop (fun D => [(68, .vec .s16 4 D), (77, .sc .s16 (some (.ofBits .s16 M))), (78, .vec .s16 4 (Arr.ofVec N))])
  · rintro i D h1 h2
    cpp_body
  · rintro D
    cpp_simp

/-- `neon_sim.cpp:2835-2843` -/
cpp_source Source.vmul_n_s32 "int32x2_t vmul_n_s32(int32x2_t N, int32_t M)
{
    int32x2_t D;
    for (int i = 0; i < 2; i++)
    {
        D.val[i] = N.val[i] * M;
    }
    return D;
}
"

theorem Props.vmul_n_s32_source [Dialect] (N : int32x2_t) (M : int32_t) :
    Runs Source.vmul_n_s32 [.ofVec N, .ofScalar .s32 M] (Obj.ofVec <$> Model.vmul_n_s32 N M) := by
  refine ⟨_, Source.vmul_n_s32_parse, 1000, fun fuel hf => ?_⟩
  simp only [Source.vmul_n_s32_ast, Model.vmul_n_s32]
  cpp_simp
  cpp_loop (fun D => [(68, .vec .s32 2 D), (77, .sc .s32 (some (.ofBits .s32 M))), (78, .vec .s32 2 (Arr.ofVec N))])
  · rintro i D h1 h2
    cpp_body
  · rintro D
    cpp_simp

/-- `neon_sim.cpp:2845-2853` -/
cpp_source Source.vmul_n_u16 "uint16x4_t vmul_n_u16(uint16x4_t N, uint16_t M)
{
    uint16x4_t D;
    for (int i = 0; i < 4; i++)
    {
        D.val[i] = N.val[i] * M;
    }
    return D;
}
"

theorem Props.vmul_n_u16_source [Dialect] (N : uint16x4_t) (M : uint16_t) :
    Runs Source.vmul_n_u16 [.ofVec N, .ofScalar .u16 M] (Obj.ofVec <$> Model.vmul_n_u16 N M) := by
  refine ⟨_, Source.vmul_n_u16_parse, 1000, fun fuel hf => ?_⟩
  simp only [Source.vmul_n_u16_ast, Model.vmul_n_u16]
  cpp_simp
  cpp_loop (fun D => [(68, .vec .u16 4 D), (77, .sc .u16 (some (.ofBits .u16 M))), (78, .vec .u16 4 (Arr.ofVec N))])
  · rintro i D h1 h2
    cpp_body
  · rintro D
    cpp_simp

/-- `neon_sim.cpp:2855-2863` -/
cpp_source Source.vmul_n_u32 "uint32x2_t vmul_n_u32(uint32x2_t N, uint32_t M)
{
    uint32x2_t D;
    for (int i = 0; i < 2; i++)
    {
        D.val[i] = N.val[i] * M;
    }
    return D;
}
"

theorem Props.vmul_n_u32_source [Dialect] (N : uint32x2_t) (M : uint32_t) :
    Runs Source.vmul_n_u32 [.ofVec N, .ofScalar .u32 M] (Obj.ofVec <$> Model.vmul_n_u32 N M) := by
  refine ⟨_, Source.vmul_n_u32_parse, 1000, fun fuel hf => ?_⟩
  simp only [Source.vmul_n_u32_ast, Model.vmul_n_u32]
  cpp_simp
  cpp_loop (fun D => [(68, .vec .u32 2 D), (77, .sc .u32 (some (.ofBits .u32 M))), (78, .vec .u32 2 (Arr.ofVec N))])
  · rintro i D h1 h2
    cpp_body
  · rintro D
    cpp_simp

/-- `neon_sim.cpp:2865-2873` -/
cpp_source Source.vmul_n_f32 "float32x2_t vmul_n_f32(float32x2_t N, float32_t M)
{
    float32x2_t D;
    for (int i = 0; i < 2; i++)
    {
        D.val[i] = N.val[i] * M;
    }
    return D;
}
"

theorem Props.vmul_n_f32_source [Dialect] (N : float32x2_t) (M : float32_t) :
    Runs Source.vmul_n_f32 [.ofVec N, .ofScalar .f32 M] (Obj.ofVec <$> Model.vmul_n_f32 N M) := by
  refine ⟨_, Source.vmul_n_f32_parse, 1000, fun fuel hf => ?_⟩
  simp only [Source.vmul_n_f32_ast, Model.vmul_n_f32]
  cpp_simp
  cpp_loop (fun D => [(68, .vec .f32 2 D), (77, .sc .f32 (some (.ofBits .f32 M))), (78, .vec .f32 2 (Arr.ofVec N))])
  · rintro i D h1 h2
    cpp_body
  · rintro D
    cpp_simp

/-- `neon_sim.cpp:2876-2884` -/
cpp_source Source.vmul_n_f64 "float64x1_t vmul_n_f64(float64x1_t N, float64_t M)
{
    float64x1_t D;
    for (int i = 0; i < 1; i++)
    {
        D.val[i] = N.val[i] * M;
    }
    return D;
}
"

theorem Props.vmul_n_f64_source [Dialect] (N : float64x1_t) (M : float64_t) :
    Runs Source.vmul_n_f64 [.ofVec N, .ofScalar .f64 M] (Obj.ofVec <$> Model.vmul_n_f64 N M) := by
  refine ⟨_, Source.vmul_n_f64_parse, 1000, fun fuel hf => ?_⟩
  simp only [Source.vmul_n_f64_ast, Model.vmul_n_f64]
  cpp_simp
  cpp_loop (fun D => [(68, .vec .f64 1 D), (77, .sc .f64 (some (.ofBits .f64 M))), (78, .vec .f64 1 (Arr.ofVec N))])
  · rintro i D h1 h2
    cpp_body
  · rintro D
    cpp_simp

/-- `neon_sim.cpp:2888-2896` -/
cpp_source Source.vmulq_n_s16 "int16x8_t vmulq_n_s16(int16x8_t N, int16_t M)
{
    int16x8_t D;
    for (int i = 0; i < 8; i++)
    {
        D.val[i] = N.val[i] * M;
    }
    return D;
}
"

theorem Props.vmulq_n_s16_source [Dialect] (N : int16x8_t) (M : int16_t) :
    Runs Source.vmulq_n_s16 [.ofVec N, .ofScalar .s16 M] (Obj.ofVec <$> Model.vmulq_n_s16 N M) := by
  refine ⟨_, Source.vmulq_n_s16_parse, 1000, fun fuel hf => ?_⟩
  simp only [Source.vmulq_n_s16_ast, Model.vmulq_n_s16]
  cpp_simp
  cpp_loop (fun D => [(68, .vec .s16 8 D), (77, .sc .s16 (some (.ofBits .s16 M))), (78, .vec .s16 8 (Arr.ofVec N))])
  · rintro i D h1 h2
    cpp_body
  · rintro D
    cpp_simp

/-- `neon_sim.cpp:2898-2906` -/
cpp_source Source.vmulq_n_s32 "int32x4_t vmulq_n_s32(int32x4_t N, int32_t M)
{
    int32x4_t D;
    for (int i = 0; i < 4; i++)
    {
        D.val[i] = N.val[i] * M;
    }
    return D;
}
"

theorem Props.vmulq_n_s32_source [Dialect] (N : int32x4_t) (M : int32_t) :
    Runs Source.vmulq_n_s32 [.ofVec N, .ofScalar .s32 M] (Obj.ofVec <$> Model.vmulq_n_s32 N M) := by
  refine ⟨_, Source.vmulq_n_s32_parse, 1000, fun fuel hf => ?_⟩
  simp only [Source.vmulq_n_s32_ast, Model.vmulq_n_s32]
  cpp_simp
  cpp_loop (fun D => [(68, .vec .s32 4 D), (77, .sc .s32 (some (.ofBits .s32 M))), (78, .vec .s32 4 (Arr.ofVec N))])
  · rintro i D h1 h2
    cpp_body
  · rintro D
    cpp_simp

/-- `neon_sim.cpp:2908-2916` -/
cpp_source Source.vmulq_n_u16 "uint16x8_t vmulq_n_u16(uint16x8_t N, uint16_t M)
{
    uint16x8_t D;
    for (int i = 0; i < 8; i++)
    {
        D.val[i] = N.val[i] * M;
    }
    return D;
}
"

theorem Props.vmulq_n_u16_source [Dialect] (N : uint16x8_t) (M : uint16_t) :
    Runs Source.vmulq_n_u16 [.ofVec N, .ofScalar .u16 M] (Obj.ofVec <$> Model.vmulq_n_u16 N M) := by
  refine ⟨_, Source.vmulq_n_u16_parse, 1000, fun fuel hf => ?_⟩
  simp only [Source.vmulq_n_u16_ast, Model.vmulq_n_u16]
  cpp_simp
  cpp_loop (fun D => [(68, .vec .u16 8 D), (77, .sc .u16 (some (.ofBits .u16 M))), (78, .vec .u16 8 (Arr.ofVec N))])
  · rintro i D h1 h2
    cpp_body
  · rintro D
    cpp_simp

/-- `neon_sim.cpp:2918-2926` -/
cpp_source Source.vmulq_n_u32 "uint32x4_t vmulq_n_u32(uint32x4_t N, uint32_t M)
{
    uint32x4_t D;
    for (int i = 0; i < 4; i++)
    {
        D.val[i] = N.val[i] * M;
    }
    return D;
}
"

theorem Props.vmulq_n_u32_source [Dialect] (N : uint32x4_t) (M : uint32_t) :
    Runs Source.vmulq_n_u32 [.ofVec N, .ofScalar .u32 M] (Obj.ofVec <$> Model.vmulq_n_u32 N M) := by
  refine ⟨_, Source.vmulq_n_u32_parse, 1000, fun fuel hf => ?_⟩
  simp only [Source.vmulq_n_u32_ast, Model.vmulq_n_u32]
  cpp_simp
  cpp_loop (fun D => [(68, .vec .u32 4 D), (77, .sc .u32 (some (.ofBits .u32 M))), (78, .vec .u32 4 (Arr.ofVec N))])
  · rintro i D h1 h2
    cpp_body
  · rintro D
    cpp_simp

/-- `neon_sim.cpp:2928-2936` -/
cpp_source Source.vmulq_n_f32 "float32x4_t vmulq_n_f32(float32x4_t N, float32_t M)
{
    float32x4_t D;
    for (int i = 0; i < 4; i++)
    {
        D.val[i] = N.val[i] * M;
    }
    return D;
}
"

theorem Props.vmulq_n_f32_source [Dialect] (N : float32x4_t) (M : float32_t) :
    Runs Source.vmulq_n_f32 [.ofVec N, .ofScalar .f32 M] (Obj.ofVec <$> Model.vmulq_n_f32 N M) := by
  refine ⟨_, Source.vmulq_n_f32_parse, 1000, fun fuel hf => ?_⟩
  simp only [Source.vmulq_n_f32_ast, Model.vmulq_n_f32]
  cpp_simp
  cpp_loop (fun D => [(68, .vec .f32 4 D), (77, .sc .f32 (some (.ofBits .f32 M))), (78, .vec .f32 4 (Arr.ofVec N))])
  · rintro i D h1 h2
    cpp_body
  · rintro D
    cpp_simp

/-- `neon_sim.cpp:2939-2947` -/
cpp_source Source.vmulq_n_f64 "float64x2_t vmulq_n_f64(float64x2_t N, float64_t M)
{
    float64x2_t D;
    for (int i = 0; i < 2; i++)
    {
        D.val[i] = N.val[i] * M;
    }
    return D;
}
"

theorem Props.vmulq_n_f64_source [Dialect] (N : float64x2_t) (M : float64_t) :
    Runs Source.vmulq_n_f64 [.ofVec N, .ofScalar .f64 M] (Obj.ofVec <$> Model.vmulq_n_f64 N M) := by
  refine ⟨_, Source.vmulq_n_f64_parse, 1000, fun fuel hf => ?_⟩
  simp only [Source.vmulq_n_f64_ast, Model.vmulq_n_f64]
  cpp_simp
  cpp_loop (fun D => [(68, .vec .f64 2 D), (77, .sc .f64 (some (.ofBits .f64 M))), (78, .vec .f64 2 (Arr.ofVec N))])
  · rintro i D h1 h2
    cpp_body
  · rintro D
    cpp_simp

/-- `neon_sim.cpp:2951-2959` -/
cpp_source Source.vmull_u8 "uint16x8_t vmull_u8(uint8x8_t a, uint8x8_t b)
{
    uint16x8_t r;
    for (int i = 0; i < 8; i++)
    {
        r.val[i] =  a.val[i] * b.val[i];
    }
    return r;
}
"

theorem Props.vmull_u8_source [Dialect] (a : uint8x8_t) (b : uint8x8_t) :
    Runs Source.vmull_u8 [.ofVec a, .ofVec b] (Obj.ofVec <$> Model.vmull_u8 a b) := by
  refine ⟨_, Source.vmull_u8_parse, 1000, fun fuel hf => ?_⟩
  simp only [Source.vmull_u8_ast, Model.vmull_u8]
  cpp_simp
  cpp_loop (fun r => [(114, .vec .u16 8 r), (98, .vec .u8 8 (Arr.ofVec b)), (97, .vec .u8 8 (Arr.ofVec a))])
  · rintro i r h1 h2
    cpp_body
  · rintro r
    cpp_simp

/-- `neon_sim.cpp:2960-2968` -/
cpp_source Source.vmull_u16 "uint32x4_t vmull_u16(uint16x4_t a, uint16x4_t b)
{
    uint32x4_t r;
    for (int i = 0; i < 4; i++)
    {
        r.val[i] =  a.val[i] * b.val[i];
    }
    return r;
}
"

theorem Props.vmull_u16_source [Dialect] (a : uint16x4_t) (b : uint16x4_t) :
    Runs Source.vmull_u16 [.ofVec a, .ofVec b] (Obj.ofVec <$> Model.vmull_u16 a b) := by
  refine ⟨_, Source.vmull_u16_parse, 1000, fun fuel hf => ?_⟩
  simp only [Source.vmull_u16_ast, Model.vmull_u16]
  cpp_simp
  cpp_loop (fun r => [(114, .vec .u32 4 r), (98, .vec .u16 4 (Arr.ofVec b)), (97, .vec .u16 4 (Arr.ofVec a))])
  · rintro i r h1 h2
    cpp_body
  · rintro r
    cpp_simp

/-- `neon_sim.cpp:2969-2977` -/
cpp_source Source.vmull_u32 "uint64x2_t vmull_u32(uint32x2_t a, uint32x2_t b)
{
    uint64x2_t r;
    for (int i = 0; i < 2; i++)
    {
        r.val[i] =  a.val[i] * b.val[i];
    }
    return r;
}
"

theorem Props.vmull_u32_source [Dialect] (a : uint32x2_t) (b : uint32x2_t) :
    Runs Source.vmull_u32 [.ofVec a, .ofVec b] (Obj.ofVec <$> Model.vmull_u32 a b) := by
  refine ⟨_, Source.vmull_u32_parse, 1000, fun fuel hf => ?_⟩
  simp only [Source.vmull_u32_ast, Model.vmull_u32]
  cpp_simp
  cpp_loop (fun r => [(114, .vec .u64 2 r), (98, .vec .u32 2 (Arr.ofVec b)), (97, .vec .u32 2 (Arr.ofVec a))])
  · rintro i r h1 h2
    cpp_body
  · rintro r
    cpp_simp

/-- `neon_sim.cpp:2979-2987` -/
cpp_source Source.vmull_s8 "int16x8_t vmull_s8(int8x8_t a, int8x8_t b)
{
    int16x8_t r;
    for (int i = 0; i < 8; i++)
    {
        r.val[i] =  a.val[i] * b.val[i];
    }
    return r;
}
"

theorem Props.vmull_s8_source [Dialect] (a : int8x8_t) (b : int8x8_t) :
    Runs Source.vmull_s8 [.ofVec a, .ofVec b] (Obj.ofVec <$> Model.vmull_s8 a b) := by
  refine ⟨_, Source.vmull_s8_parse, 1000, fun fuel hf => ?_⟩
  simp only [Source.vmull_s8_ast, Model.vmull_s8]
  cpp_simp
  cpp_loop (fun r => [(114, .vec .s16 8 r), (98, .vec .s8 8 (Arr.ofVec b)), (97, .vec .s8 8 (Arr.ofVec a))])
  · rintro i r h1 h2
    cpp_body
  · rintro r
    cpp_simp

/-- `neon_sim.cpp:2988-2996` -/
cpp_source Source.vmull_s16 "int32x4_t vmull_s16(int16x4_t a, int16x4_t b)
{
    int32x4_t r;
    for (int i = 0; i < 4; i++)
    {
        r.val[i] =  a.val[i] * b.val[i];
    }
    return r;
}
"

theorem Props.vmull_s16_source [Dialect] (a : int16x4_t) (b : int16x4_t) :
    Runs Source.vmull_s16 [.ofVec a, .ofVec b] (Obj.ofVec <$> Model.vmull_s16 a b) := by
  refine ⟨_, Source.vmull_s16_parse, 1000, fun fuel hf => ?_⟩
  simp only [Source.vmull_s16_ast, Model.vmull_s16]
  cpp_simp
  cpp_loop (fun r => [(114, .vec .s32 4 r), (98, .vec .s16 4 (Arr.ofVec b)), (97, .vec .s16 4 (Arr.ofVec a))])
  · rintro i r h1 h2
    cpp_body
  · rintro r
    cpp_simp

/-- `neon_sim.cpp:2997-3005` -/
cpp_source Source.vmull_s32 "int64x2_t vmull_s32(int32x2_t a, int32x2_t b)
{
    int64x2_t r;
    for (int i = 0; i < 2; i++)
    {
        r.val[i] =  a.val[i] * b.val[i];
    }
    return r;
}
"

theorem Props.vmull_s32_source [Dialect] (a : int32x2_t) (b : int32x2_t) :
    Runs Source.vmull_s32 [.ofVec a, .ofVec b] (Obj.ofVec <$> Model.vmull_s32 a b) := by
  refine ⟨_, Source.vmull_s32_parse, 1000, fun fuel hf => ?_⟩
  simp only [Source.vmull_s32_ast, Model.vmull_s32]
  cpp_simp
  cpp_loop (fun r => [(114, .vec .s64 2 r), (98, .vec .s32 2 (Arr.ofVec b)), (97, .vec .s32 2 (Arr.ofVec a))])
  · rintro i r h1 h2
    cpp_body
  · rintro r
    cpp_simp

/-- `neon_sim.cpp:3008-3016` -/
cpp_source Source.vmull_n_s16 "int32x4_t vmull_n_s16(int16x4_t N, int16_t M)
{
    int32x4_t D;
    for (int i = 0; i < 4; i++)
    {
        D.val[i] = N.val[i] * M;
    }
    return D;
}
"

theorem Props.vmull_n_s16_source [Dialect] (N : int16x4_t) (M : int16_t) :
    Runs Source.vmull_n_s16 [.ofVec N, .ofScalar .s16 M] (Obj.ofVec <$> Model.vmull_n_s16 N M) := by
  refine ⟨_, Source.vmull_n_s16_parse, 1000, fun fuel hf => ?_⟩
  simp only [Source.vmull_n_s16_ast, Model.vmull_n_s16]
  cpp_simp
  cpp_loop (fun D => [(68, .vec .s32 4 D), (77, .sc .s16 (some (.ofBits .s16 M))), (78, .vec .s16 4 (Arr.ofVec N))])
  · rintro i D h1 h2
    cpp_body
  · rintro D
    cpp_simp

/-- `neon_sim.cpp:3018-3026` -/
cpp_source Source.vmull_n_s32 "int64x2_t vmull_n_s32(int32x2_t N, int32_t M)
{
    int64x2_t D;
    for (int i = 0; i < 2; i++)
    {
        D.val[i] = N.val[i] * M;
    }
    return D;
}
"

theorem Props.vmull_n_s32_source [Dialect] (N : int32x2_t) (M : int32_t) :
    Runs Source.vmull_n_s32 [.ofVec N, .ofScalar .s32 M] (Obj.ofVec <$> Model.vmull_n_s32 N M) := by
  refine ⟨_, Source.vmull_n_s32_parse, 1000, fun fuel hf => ?_⟩
  simp only [Source.vmull_n_s32_ast, Model.vmull_n_s32]
  cpp_simp
  cpp_loop (fun D => [(68, .vec .s64 2 D), (77, .sc .s32 (some (.ofBits .s32 M))), (78, .vec .s32 2 (Arr.ofVec N))])
  · rintro i D h1 h2
    cpp_body
  · rintro D
    cpp_simp

/-- `neon_sim.cpp:3028-3036` -/
cpp_source Source.vmull_n_u16 "uint32x4_t vmull_n_u16(uint16x4_t N, uint16_t M)
{
    uint32x4_t D;
    for (int i = 0; i < 4; i++)
    {
        D.val[i] = N.val[i] * M;
    }
    return D;
}
"

theorem Props.vmull_n_u16_source [Dialect] (N : uint16x4_t) (M : uint16_t) :
    Runs Source.vmull_n_u16 [.ofVec N, .ofScalar .u16 M] (Obj.ofVec <$> Model.vmull_n_u16 N M) := by
  refine ⟨_, Source.vmull_n_u16_parse, 1000, fun fuel hf => ?_⟩
  simp only [Source.vmull_n_u16_ast, Model.vmull_n_u16]
  cpp_simp
  cpp_loop (fun D => [(68, .vec .u32 4 D), (77, .sc .u16 (some (.ofBits .u16 M))), (78, .vec .u16 4 (Arr.ofVec N))])
  · rintro i D h1 h2
    cpp_body
  · rintro D
    cpp_simp

/-- `neon_sim.cpp:3038-3046` -/
cpp_source Source.vmull_n_u32 "uint64x2_t vmull_n_u32(uint32x2_t N, uint32_t M)
{
    uint64x2_t D;
    for (int i = 0; i < 2; i++)
    {
        D.val[i] = N.val[i] * M;
    }
    return D;
}
"

theorem Props.vmull_n_u32_source [Dialect] (N : uint32x2_t) (M : uint32_t) :
    Runs Source.vmull_n_u32 [.ofVec N, .ofScalar .u32 M] (Obj.ofVec <$> Model.vmull_n_u32 N M) := by
  refine ⟨_, Source.vmull_n_u32_parse, 1000, fun fuel hf => ?_⟩
  simp only [Source.vmull_n_u32_ast, Model.vmull_n_u32]
  cpp_simp
  cpp_loop (fun D => [(68, .vec .u64 2 D), (77, .sc .u32 (some (.ofBits .u32 M))), (78, .vec .u32 2 (Arr.ofVec N))])
  · rintro i D h1 h2
    cpp_body
  · rintro D
    cpp_simp

/-- `neon_sim.cpp:3049-3065` -/
cpp_source Source.vqdmull_s16 "int32x4_t vqdmull_s16(int16x4_t M, int16x4_t N)
{
    int32x4_t D;
    for (int i = 0; i < 4; i++)
    {
        // saturating
        if (N.val[i] == INT16_MIN && M.val[i] == INT16_MIN)
        {
            D.val[i] = INT32_MAX;
        }
        else
        { // most cases
            D.val[i] = (M.val[i] * N.val[i]) * 2;
        }
    }
    return D;
}
"

theorem Props.vqdmull_s16_source [Dialect] (M : int16x4_t) (N : int16x4_t) :
    Runs Source.vqdmull_s16 [.ofVec M, .ofVec N] (Obj.ofVec <$> Model.vqdmull_s16 M N) := by
  refine ⟨_, Source.vqdmull_s16_parse, 1000, fun fuel hf => ?_⟩
  simp only [Source.vqdmull_s16_ast, Model.vqdmull_s16]
  cpp_simp
  cpp_loop (fun D => [(68, .vec .s32 4 D), (78, .vec .s16 4 (Arr.ofVec N)), (77, .vec .s16 4 (Arr.ofVec M))])
  · rintro i D h1 h2
    cpp_body
  · rintro D
    cpp_simp

/-- `neon_sim.cpp:3068-3076` -/
cpp_source Source.vmlal_s8 "int16x8_t vmlal_s8(int16x8_t N, int8x8_t M, int8x8_t P)
{
    int16x8_t D;
    for (int i = 0; i < 8; i++)
    {
        D.val[i] = N.val[i] + (M.val[i] * P.val[i]);
    }
    return D;
}
"

theorem Props.vmlal_s8_source [Dialect] (N : int16x8_t) (M : int8x8_t) (P : int8x8_t) :
    Runs Source.vmlal_s8 [.ofVec N, .ofVec M, .ofVec P] (Obj.ofVec <$> Model.vmlal_s8 N M P) := by
  refine ⟨_, Source.vmlal_s8_parse, 1000, fun fuel hf => ?_⟩
  simp only [Source.vmlal_s8_ast, Model.vmlal_s8]
  cpp_simp
  cpp_loop (fun D => [(68, .vec .s16 8 D), (80, .vec .s8 8 (Arr.ofVec P)), (77, .vec .s8 8 (Arr.ofVec M)), (78, .vec .s16 8 (Arr.ofVec N))])
  · rintro i D h1 h2
    cpp_body
  · rintro D
    cpp_simp

/-- `neon_sim.cpp:3078-3086` -/
cpp_source Source.vmlal_s16 "int32x4_t vmlal_s16(int32x4_t N, int16x4_t M, int16x4_t P)
{
    int32x4_t D;
    for (int i = 0; i < 4; i++)
    {
        D.val[i] = N.val[i] + (M.val[i] * P.val[i]);
    }
    return D;
}
"

theorem Props.vmlal_s16_source [Dialect] (N : int32x4_t) (M : int16x4_t) (P : int16x4_t) :
    Runs Source.vmlal_s16 [.ofVec N, .ofVec M, .ofVec P] (Obj.ofVec <$> Model.vmlal_s16 N M P) := by
  refine ⟨_, Source.vmlal_s16_parse, 1000, fun fuel hf => ?_⟩
  simp only [Source.vmlal_s16_ast, Model.vmlal_s16]
  cpp_simp
  cpp_loop (fun D => [(68, .vec .s32 4 D), (80, .vec .s16 4 (Arr.ofVec P)), (77, .vec .s16 4 (Arr.ofVec M)), (78, .vec .s32 4 (Arr.ofVec N))])
  · rintro i D h1 h2
    cpp_body
  · rintro D
    cpp_simp

/-- `neon_sim.cpp:3088-3096` -/
cpp_source Source.vmlal_s32 "int64x2_t vmlal_s32(int64x2_t N, int32x2_t M, int32x2_t P)
{
    int64x2_t D;
    for (int i = 0; i < 2; i++)
    {
        D.val[i] = N.val[i] + (M.val[i] * P.val[i]);
    }
    return D;
}
"

theorem Props.vmlal_s32_source [Dialect] (N : int64x2_t) (M : int32x2_t) (P : int32x2_t) :
    Runs Source.vmlal_s32 [.ofVec N, .ofVec M, .ofVec P] (Obj.ofVec <$> Model.vmlal_s32 N M P) := by
  refine ⟨_, Source.vmlal_s32_parse, 1000, fun fuel hf => ?_⟩
  simp only [Source.vmlal_s32_ast, Model.vmlal_s32]
  cpp_simp
  cpp_loop (fun D => [(68, .vec .s64 2 D), (80, .vec .s32 2 (Arr.ofVec P)), (77, .vec .s32 2 (Arr.ofVec M)), (78, .vec .s64 2 (Arr.ofVec N))])
  · rintro i D h1 h2
    cpp_body
  · rintro D
    cpp_simp

/-- `neon_sim.cpp:3098-3106` -/
cpp_source Source.vmlal_u8 "uint16x8_t vmlal_u8(uint16x8_t N, uint8x8_t M, uint8x8_t P)
{
    uint16x8_t D;
    for (int i = 0; i < 8; i++)
    {
        D.val[i] = N.val[i] + (M.val[i] * P.val[i]);
    }
    return D;
}
"

theorem Props.vmlal_u8_source [Dialect] (N : uint16x8_t) (M : uint8x8_t) (P : uint8x8_t) :
    Runs Source.vmlal_u8 [.ofVec N, .ofVec M, .ofVec P] (Obj.ofVec <$> Model.vmlal_u8 N M P) := by
  refine ⟨_, Source.vmlal_u8_parse, 1000, fun fuel hf => ?_⟩
  simp only [Source.vmlal_u8_ast, Model.vmlal_u8]
  cpp_simp
  cpp_loop (fun D => [(68, .vec .u16 8 D), (80, .vec .u8 8 (Arr.ofVec P)), (77, .vec .u8 8 (Arr.ofVec M)), (78, .vec .u16 8 (Arr.ofVec N))])
  · rintro i D h1 h2
    cpp_body
  · rintro D
    cpp_simp

/-- `neon_sim.cpp:3108-3116` -/
cpp_source Source.vmlal_u16 "uint32x4_t vmlal_u16(uint32x4_t N, uint16x4_t M, uint16x4_t P)
{
    uint32x4_t D;
    for (int i = 0; i < 4; i++)
    {
        D.val[i] = N.val[i] + (M.val[i] * P.val[i]);
    }
    return D;
}
"

theorem Props.vmlal_u16_source [Dialect] (N : uint32x4_t) (M : uint16x4_t) (P : uint16x4_t) :
    Runs Source.vmlal_u16 [.ofVec N, .ofVec M, .ofVec P] (Obj.ofVec <$> Model.vmlal_u16 N M P) := by
  refine ⟨_, Source.vmlal_u16_parse, 1000, fun fuel hf => ?_⟩
  simp only [Source.vmlal_u16_ast, Model.vmlal_u16]
  cpp_simp
  cpp_loop (fun D => [(68, .vec .u32 4 D), (80, .vec .u16 4 (Arr.ofVec P)), (77, .vec .u16 4 (Arr.ofVec M)), (78, .vec .u32 4 (Arr.ofVec N))])
  · rintro i D h1 h2
    cpp_body
  · rintro D
    cpp_simp

/-- `neon_sim.cpp:3118-3126` -/
cpp_source Source.vmlal_u32 "uint64x2_t vmlal_u32(uint64x2_t N, uint32x2_t M, uint32x2_t P)
{
    uint64x2_t D;
    for (int i = 0; i < 2; i++)
    {
        D.val[i] = N.val[i] + (M.val[i] * P.val[i]);
    }
    return D;
}
"

theorem Props.vmlal_u32_source [Dialect] (N : uint64x2_t) (M : uint32x2_t) (P : uint32x2_t) :
    Runs Source.vmlal_u32 [.ofVec N, .ofVec M, .ofVec P] (Obj.ofVec <$> Model.vmlal_u32 N M P) := by
  refine ⟨_, Source.vmlal_u32_parse, 1000, fun fuel hf => ?_⟩
  simp only [Source.vmlal_u32_ast, Model.vmlal_u32]
  cpp_simp
  cpp_loop (fun D => [(68, .vec .u64 2 D), (80, .vec .u32 2 (Arr.ofVec P)), (77, .vec .u32 2 (Arr.ofVec M)), (78, .vec .u64 2 (Arr.ofVec N))])
  · rintro i D h1 h2
    cpp_body
  · rintro D
    cpp_simp

/-- `neon_sim.cpp:3129-3137` -/
cpp_source Source.vmlsl_s8 "int16x8_t vmlsl_s8(int16x8_t N, int8x8_t M, int8x8_t P)
{
    int16x8_t D;
    for (int i = 0; i < 8; i++)
    {
        D.val[i] = N.val[i] - (M.val[i] * P.val[i]);
    }
    return D;
}
"

theorem Props.vmlsl_s8_source [Dialect] (N : int16x8_t) (M : int8x8_t) (P : int8x8_t) :
    Runs Source.vmlsl_s8 [.ofVec N, .ofVec M, .ofVec P] (Obj.ofVec <$> Model.vmlsl_s8 N M P) := by
  refine ⟨_, Source.vmlsl_s8_parse, 1000, fun fuel hf => ?_⟩
  simp only [Source.vmlsl_s8_ast, Model.vmlsl_s8]
  cpp_simp
  cpp_loop (fun D => [(68, .vec .s16 8 D), (80, .vec .s8 8 (Arr.ofVec P)), (77, .vec .s8 8 (Arr.ofVec M)), (78, .vec .s16 8 (Arr.ofVec N))])
  · rintro i D h1 h2
    cpp_body
  · rintro D
    cpp_simp

/-- `neon_sim.cpp:3139-3147` -/
cpp_source Source.vmlsl_s16 "int32x4_t vmlsl_s16(int32x4_t N, int16x4_t M, int16x4_t P)
{
    int32x4_t D;
    for (int i = 0; i < 4; i++)
    {
        D.val[i] = N.val[i] - (M.val[i] * P.val[i]);
    }
    return D;
}
"

theorem Props.vmlsl_s16_source [Dialect] (N : int32x4_t) (M : int16x4_t) (P : int16x4_t) :
    Runs Source.vmlsl_s16 [.ofVec N, .ofVec M, .ofVec P] (Obj.ofVec <$> Model.vmlsl_s16 N M P) := by
  refine ⟨_, Source.vmlsl_s16_parse, 1000, fun fuel hf => ?_⟩
  simp only [Source.vmlsl_s16_ast, Model.vmlsl_s16]
  cpp_simp
  cpp_loop (fun D => [(68, .vec .s32 4 D), (80, .vec .s16 4 (Arr.ofVec P)), (77, .vec .s16 4 (Arr.ofVec M)), (78, .vec .s32 4 (Arr.ofVec N))])
  · rintro i D h1 h2
    cpp_body
  · rintro D
    cpp_simp

/-- `neon_sim.cpp:3149-3157` -/
cpp_source Source.vmlsl_s32 "int64x2_t vmlsl_s32(int64x2_t N, int32x2_t M, int32x2_t P)
{
    int64x2_t D;
    for (int i = 0; i < 2; i++)
    {
        D.val[i] = N.val[i] - (M.val[i] * P.val[i]);
    }
    return D;
}
"

theorem Props.vmlsl_s32_source [Dialect] (N : int64x2_t) (M : int32x2_t) (P : int32x2_t) :
    Runs Source.vmlsl_s32 [.ofVec N, .ofVec M, .ofVec P] (Obj.ofVec <$> Model.vmlsl_s32 N M P) := by
  refine ⟨_, Source.vmlsl_s32_parse, 1000, fun fuel hf => ?_⟩
  simp only [Source.vmlsl_s32_ast, Model.vmlsl_s32]
  cpp_simp
  cpp_loop (fun D => [(68, .vec .s64 2 D), (80, .vec .s32 2 (Arr.ofVec P)), (77, .vec .s32 2 (Arr.ofVec M)), (78, .vec .s64 2 (Arr.ofVec N))])
  · rintro i D h1 h2
    cpp_body
  · rintro D
    cpp_simp

/-- `neon_sim.cpp:3159-3167` -/
cpp_source Source.vmlsl_u8 "uint16x8_t vmlsl_u8(uint16x8_t N, uint8x8_t M, uint8x8_t P)
{
    uint16x8_t D;
    for (int i = 0; i < 8; i++)
    {
        D.val[i] = N.val[i] - (M.val[i] * P.val[i]);
    }
    return D;
}
"

theorem Props.vmlsl_u8_source [Dialect] (N : uint16x8_t) (M : uint8x8_t) (P : uint8x8_t) :
    Runs Source.vmlsl_u8 [.ofVec N, .ofVec M, .ofVec P] (Obj.ofVec <$> Model.vmlsl_u8 N M P) := by
  refine ⟨_, Source.vmlsl_u8_parse, 1000, fun fuel hf => ?_⟩
  simp only [Source.vmlsl_u8_ast, Model.vmlsl_u8]
  cpp_simp
  cpp_loop (fun D => [(68, .vec .u16 8 D), (80, .vec .u8 8 (Arr.ofVec P)), (77, .vec .u8 8 (Arr.ofVec M)), (78, .vec .u16 8 (Arr.ofVec N))])
  · rintro i D h1 h2
    cpp_body
  · rintro D
    cpp_simp

/-- `neon_sim.cpp:3169-3177` -/
cpp_source Source.vmlsl_u16 "uint32x4_t vmlsl_u16(uint32x4_t N, uint16x4_t M, uint16x4_t P)
{
    uint32x4_t D;
    for (int i = 0; i < 4; i++)
    {
        D.val[i] = N.val[i] - (M.val[i] * P.val[i]);
    }
    return D;
}
"

theorem Props.vmlsl_u16_source [Dialect] (N : uint32x4_t) (M : uint16x4_t) (P : uint16x4_t) :
    Runs Source.vmlsl_u16 [.ofVec N, .ofVec M, .ofVec P] (Obj.ofVec <$> Model.vmlsl_u16 N M P) := by
  refine ⟨_, Source.vmlsl_u16_parse, 1000, fun fuel hf => ?_⟩
  simp only [Source.vmlsl_u16_ast, Model.vmlsl_u16]
  cpp_simp
  cpp_loop (fun D => [(68, .vec .u32 4 D), (80, .vec .u16 4 (Arr.ofVec P)), (77, .vec .u16 4 (Arr.ofVec M)), (78, .vec .u32 4 (Arr.ofVec N))])
  · rintro i D h1 h2
    cpp_body
  · rintro D
    cpp_simp

/-- `neon_sim.cpp:3179-3187` -/
cpp_source Source.vmlsl_u32 "uint64x2_t vmlsl_u32(uint64x2_t N, uint32x2_t M, uint32x2_t P)
{
    uint64x2_t D;
    for (int i = 0; i < 2; i++)
    {
        D.val[i] = N.val[i] - (M.val[i] * P.val[i]);
    }
    return D;
}
"

theorem Props.vmlsl_u32_source [Dialect] (N : uint64x2_t) (M : uint32x2_t) (P : uint32x2_t) :
    Runs Source.vmlsl_u32 [.ofVec N, .ofVec M, .ofVec P] (Obj.ofVec <$> Model.vmlsl_u32 N M P) := by
  refine ⟨_, Source.vmlsl_u32_parse, 1000, fun fuel hf => ?_⟩
  simp only [Source.vmlsl_u32_ast, Model.vmlsl_u32]
  cpp_simp
  cpp_loop (fun D => [(68, .vec .u64 2 D), (80, .vec .u32 2 (Arr.ofVec P)), (77, .vec .u32 2 (Arr.ofVec M)), (78, .vec .u64 2 (Arr.ofVec N))])
  · rintro i D h1 h2
    cpp_body
  · rintro D
    cpp_simp

/-- `neon_sim.cpp:3190-3198` -/
cpp_source Source.vmlaq_s8 "int8x16_t vmlaq_s8(int8x16_t N, int8x16_t M, int8x16_t P)
{
    int8x16_t D;
    for (int i = 0; i < 16; i++)
    {
        D.val[i] = N.val[i] + M.val[i] * P.val[i];
    }
    return D;
}
"

theorem Props.vmlaq_s8_source [Dialect] (N : int8x16_t) (M : int8x16_t) (P : int8x16_t) :
    Runs Source.vmlaq_s8 [.ofVec N, .ofVec M, .ofVec P] (Obj.ofVec <$> Model.vmlaq_s8 N M P) := by
  refine ⟨_, Source.vmlaq_s8_parse, 1000, fun fuel hf => ?_⟩
  simp only [Source.vmlaq_s8_ast, Model.vmlaq_s8]
  cpp_simp
  cpp_loop (fun D => [(68, .vec .s8 16 D), (80, .vec .s8 16 (Arr.ofVec P)), (77, .vec .s8 16 (Arr.ofVec M)), (78, .vec .s8 16 (Arr.ofVec N))])
  · rintro i D h1 h2
    cpp_body
  · rintro D
    cpp_simp

/-- `neon_sim.cpp:3200-3208` -/
cpp_source Source.vmlaq_s16 "int16x8_t vmlaq_s16(int16x8_t N, int16x8_t M, int16x8_t P)
{
    int16x8_t D;
    for (int i = 0; i < 8; i++)
    {
        D.val[i] = N.val[i] + M.val[i] * P.val[i];
    }
    return D;
}
"

theorem Props.vmlaq_s16_source [Dialect] (N : int16x8_t) (M : int16x8_t) (P : int16x8_t) :
    Runs Source.vmlaq_s16 [.ofVec N, .ofVec M, .ofVec P] (Obj.ofVec <$> Model.vmlaq_s16 N M P) := by
  refine ⟨_, Source.vmlaq_s16_parse, 1000, fun fuel hf => ?_⟩
  simp only [Source.vmlaq_s16_ast, Model.vmlaq_s16]
  cpp_simp
  cpp_loop (fun D => [(68, .vec .s16 8 D), (80, .vec .s16 8 (Arr.ofVec P)), (77, .vec .s16 8 (Arr.ofVec M)), (78, .vec .s16 8 (Arr.ofVec N))])
  · rintro i D h1 h2
    cpp_body
  · rintro D
    cpp_simp

/-- `neon_sim.cpp:3210-3218` -/
cpp_source Source.vmlaq_s32 "int32x4_t vmlaq_s32(int32x4_t N, int32x4_t M, int32x4_t P)
{
    int32x4_t D;
    for (int i = 0; i < 4; i++)
    {
        D.val[i] = N.val[i] + M.val[i] * P.val[i];
    }
    return D;
}
"

theorem Props.vmlaq_s32_source [Dialect] (N : int32x4_t) (M : int32x4_t) (P : int32x4_t) :
    Runs Source.vmlaq_s32 [.ofVec N, .ofVec M, .ofVec P] (Obj.ofVec <$> Model.vmlaq_s32 N M P) := by
  refine ⟨_, Source.vmlaq_s32_parse, 1000, fun fuel hf => ?_⟩
  simp only [Source.vmlaq_s32_ast, Model.vmlaq_s32]
  cpp_simp
  cpp_loop (fun D => [(68, .vec .s32 4 D), (80, .vec .s32 4 (Arr.ofVec P)), (77, .vec .s32 4 (Arr.ofVec M)), (78, .vec .s32 4 (Arr.ofVec N))])
  · rintro i D h1 h2
    cpp_body
  · rintro D
    cpp_simp

/-- `neon_sim.cpp:3220-3228` -/
cpp_source Source.vmlaq_u8 "uint8x16_t vmlaq_u8(uint8x16_t N, uint8x16_t M, uint8x16_t P)
{
    uint8x16_t D;
    for (int i = 0; i < 16; i++)
    {
        D.val[i] = N.val[i] + M.val[i] * P.val[i];
    }
    return D;
}
"

theorem Props.vmlaq_u8_source [Dialect] (N : uint8x16_t) (M : uint8x16_t) (P : uint8x16_t) :
    Runs Source.vmlaq_u8 [.ofVec N, .ofVec M, .ofVec P] (Obj.ofVec <$> Model.vmlaq_u8 N M P) := by
  refine ⟨_, Source.vmlaq_u8_parse, 1000, fun fuel hf => ?_⟩
  simp only [Source.vmlaq_u8_ast, Model.vmlaq_u8]
  cpp_simp
  cpp_loop (fun D => [(68, .vec .u8 16 D), (80, .vec .u8 16 (Arr.ofVec P)), (77, .vec .u8 16 (Arr.ofVec M)), (78, .vec .u8 16 (Arr.ofVec N))])
  · rintro i D h1 h2
    cpp_body
  · rintro D
    cpp_simp

/-- `neon_sim.cpp:3230-3238` -/
cpp_source Source.vmlaq_u16 "uint16x8_t vmlaq_u16(uint16x8_t N, uint16x8_t M, uint16x8_t P)
{
    uint16x8_t D;
    for (int i = 0; i < 8; i++)
    {
        D.val[i] = N.val[i] + M.val[i] * P.val[i];
    }
    return D;
}
"

theorem Props.vmlaq_u16_source [Dialect] (N : uint16x8_t) (M : uint16x8_t) (P : uint16x8_t) :
    Runs Source.vmlaq_u16 [.ofVec N, .ofVec M, .ofVec P] (Obj.ofVec <$> Model.vmlaq_u16 N M P) := by
  refine ⟨_, Source.vmlaq_u16_parse, 1000, fun fuel hf => ?_⟩
  simp only [Source.vmlaq_u16_ast, Model.vmlaq_u16]
  cpp_simp
  cpp_loop (fun D => [(68, .vec .u16 8 D), (80, .vec .u16 8 (Arr.ofVec P)), (77, .vec .u16 8 (Arr.ofVec M)), (78, .vec .u16 8 (Arr.ofVec N))])
  · rintro i D h1 h2
    cpp_body
  · rintro D
    cpp_simp

/-- `neon_sim.cpp:3240-3248` -/
cpp_source Source.vmlaq_u32 "uint32x4_t vmlaq_u32(uint32x4_t N, uint32x4_t M, uint32x4_t P)
{
    uint32x4_t D;
    for (int i = 0; i < 4; i++)
    {
        D.val[i] = N.val[i] + M.val[i] * P.val[i];
    }
    return D;
}
"

theorem Props.vmlaq_u32_source [Dialect] (N : uint32x4_t) (M : uint32x4_t) (P : uint32x4_t) :
    Runs Source.vmlaq_u32 [.ofVec N, .ofVec M, .ofVec P] (Obj.ofVec <$> Model.vmlaq_u32 N M P) := by
  refine ⟨_, Source.vmlaq_u32_parse, 1000, fun fuel hf => ?_⟩
  simp only [Source.vmlaq_u32_ast, Model.vmlaq_u32]
  cpp_simp
  cpp_loop (fun D => [(68, .vec .u32 4 D), (80, .vec .u32 4 (Arr.ofVec P)), (77, .vec .u32 4 (Arr.ofVec M)), (78, .vec .u32 4 (Arr.ofVec N))])
  · rintro i D h1 h2
    cpp_body
  · rintro D
    cpp_simp

/-- `neon_sim.cpp:3250-3258` -/
cpp_source Source.vmlaq_f32 "float32x4_t vmlaq_f32(float32x4_t N, float32x4_t M, float32x4_t P)
{
    float32x4_t D;
    for (int i = 0; i < 4; i++)
    {
        D.val[i] = N.val[i] + M.val[i] * P.val[i];
    }
    return D;
}
"

theorem Props.vmlaq_f32_source [Dialect] (N : float32x4_t) (M : float32x4_t) (P : float32x4_t) :
    Runs Source.vmlaq_f32 [.ofVec N, .ofVec M, .ofVec P] (Obj.ofVec <$> Model.vmlaq_f32 N M P) := by
  refine ⟨_, Source.vmlaq_f32_parse, 1000, fun fuel hf => ?_⟩
  simp only [Source.vmlaq_f32_ast, Model.vmlaq_f32]
  cpp_simp
  cpp_loop (fun D => [(68, .vec .f32 4 D), (80, .vec .f32 4 (Arr.ofVec P)), (77, .vec .f32 4 (Arr.ofVec M)), (78, .vec .f32 4 (Arr.ofVec N))])
  · rintro i D h1 h2
    cpp_body
  · rintro D
    cpp_simp

/-- `neon_sim.cpp:3261-3269` -/
cpp_source Source.vmlaq_n_f32 "float32x4_t vmlaq_n_f32(float32x4_t a, float32x4_t b, float32_t c)
{
    float32x4_t D;
    for (int i = 0; i < 4; i++)
    {
        D.val[i] = a.val[i] + b.val[i] * c;
    }
    return D;
}
"

theorem Props.vmlaq_n_f32_source [Dialect] (a : float32x4_t) (b : float32x4_t) (c : float32_t) :
    Runs Source.vmlaq_n_f32 [.ofVec a, .ofVec b, .ofScalar .f32 c] (Obj.ofVec <$> Model.vmlaq_n_f32 a b c) := by
  refine ⟨_, Source.vmlaq_n_f32_parse, 1000, fun fuel hf => ?_⟩
  simp only [Source.vmlaq_n_f32_ast, Model.vmlaq_n_f32]
  cpp_simp
  cpp_loop (fun D => [(68, .vec .f32 4 D), (99, .sc .f32 (some (.ofBits .f32 c))), (98, .vec .f32 4 (Arr.ofVec b)), (97, .vec .f32 4 (Arr.ofVec a))])
  · rintro i D h1 h2
    cpp_body
  · rintro D
    cpp_simp

end Verif
