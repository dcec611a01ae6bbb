import Verif.Cpp.Command
import Verif.Model.Sub

/-! Source text of the functions in `Verif/Model/Sub.lean`, and the theorem that running it is running the model.
Generated by `tools/gen_source.py`. -/

set_option linter.unusedVariables false
set_option linter.unusedSimpArgs false
set_option maxHeartbeats 1000000

open Verif.Cpp

namespace Verif

/-- `neon_sim.cpp:1789-1797` -/
cpp_source Source.vsub_s8 "int8x8_t vsub_s8(int8x8_t N, int8x8_t M)
{
    int8x8_t D;
    for (size_t i = 0; i < 8; i++)
    {
        D.val[i] = N.val[i] - M.val[i];
    }
    return D;
}
"

theorem Props.vsub_s8_source [Dialect] (N : int8x8_t) (M : int8x8_t) :
    Runs Source.vsub_s8 [.ofVec N, .ofVec M] (Obj.ofVec <$> Model.vsub_s8 N M) := by
  refine ⟨_, Source.vsub_s8_parse, 1000, fun fuel hf => ?_⟩
  simp only [Source.vsub_s8_ast, Model.vsub_s8]
  cpp_simp
  cpp_loop (fun D => [(68, .vec .s8 8 D), (77, .vec .s8 8 (Arr.ofVec M)), (78, .vec .s8 8 (Arr.ofVec N))])
  · rintro i D h1 h2
    cpp_body
  · rintro D
    cpp_simp

/-- `neon_sim.cpp:1798-1806` -/
cpp_source Source.vsub_s16 "int16x4_t vsub_s16(int16x4_t N, int16x4_t M)
{
    int16x4_t D;
    for (size_t i = 0; i < 4; i++)
    {
        D.val[i] = N.val[i] - M.val[i];
    }
    return D;
}
"

theorem Props.vsub_s16_source [Dialect] (N : int16x4_t) (M : int16x4_t) :
    Runs Source.vsub_s16 [.ofVec N, .ofVec M] (Obj.ofVec <$> Model.vsub_s16 N M) := by
  refine ⟨_, Source.vsub_s16_parse, 1000, fun fuel hf => ?_⟩
  simp only [Source.vsub_s16_ast, Model.vsub_s16]
  cpp_simp
  cpp_loop (fun D => [(68, .vec .s16 4 D), (77, .vec .s16 4 (Arr.ofVec M)), (78, .vec .s16 4 (Arr.ofVec N))])
  · rintro i D h1 h2
    cpp_body
  · rintro D
    cpp_simp

/-- `neon_sim.cpp:1807-1815` -/
cpp_source Source.vsub_s32 "int32x2_t vsub_s32(int32x2_t N, int32x2_t M)
{
    int32x2_t D;
    for (size_t i = 0; i < 2; i++)
    {
        D.val[i] = N.val[i] - M.val[i];
    }
    return D;
}
"

theorem Props.vsub_s32_source [Dialect] (N : int32x2_t) (M : int32x2_t) :
    Runs Source.vsub_s32 [.ofVec N, .ofVec M] (Obj.ofVec <$> Model.vsub_s32 N M) := by
  refine ⟨_, Source.vsub_s32_parse, 1000, fun fuel hf => ?_⟩
  simp only [Source.vsub_s32_ast, Model.vsub_s32]
  cpp_simp
  cpp_loop (fun D => [(68, .vec .s32 2 D), (77, .vec .s32 2 (Arr.ofVec M)), (78, .vec .s32 2 (Arr.ofVec N))])
  · rintro i D h1 h2
    cpp_body
  · rintro D
    cpp_simp

/-- `neon_sim.cpp:1816-1824` -/
cpp_source Source.vsub_s64 "int64x1_t vsub_s64(int64x1_t N, int64x1_t M)
{
    int64x1_t D;
    for (size_t i = 0; i < 1; i++)
    {
        D.val[i] = N.val[i] - M.val[i];
    }
    return D;
}
"

theorem Props.vsub_s64_source [Dialect] (N : int64x1_t) (M : int64x1_t) :
    Runs Source.vsub_s64 [.ofVec N, .ofVec M] (Obj.ofVec <$> Model.vsub_s64 N M) := by
  refine ⟨_, Source.vsub_s64_parse, 1000, fun fuel hf => ?_⟩
  simp only [Source.vsub_s64_ast, Model.vsub_s64]
  cpp_simp
  cpp_loop (fun D => [(68, .vec .s64 1 D), (77, .vec .s64 1 (Arr.ofVec M)), (78, .vec .s64 1 (Arr.ofVec N))])
  · rintro i D h1 h2
    cpp_body
  · rintro D
    cpp_simp

/-- `neon_sim.cpp:1825-1833` -/
cpp_source Source.vsub_u8 "uint8x8_t vsub_u8(uint8x8_t N, uint8x8_t M)
{
    uint8x8_t D;
    for (size_t i = 0; i < 8; i++)
    {
        D.val[i] = N.val[i] - M.val[i];
    }
    return D;
}
"

theorem Props.vsub_u8_source [Dialect] (N : uint8x8_t) (M : uint8x8_t) :
    Runs Source.vsub_u8 [.ofVec N, .ofVec M] (Obj.ofVec <$> Model.vsub_u8 N M) := by
  refine ⟨_, Source.vsub_u8_parse, 1000, fun fuel hf => ?_⟩
  simp only [Source.vsub_u8_ast, Model.vsub_u8]
  cpp_simp
  cpp_loop (fun D => [(68, .vec .u8 8 D), (77, .vec .u8 8 (Arr.ofVec M)), (78, .vec .u8 8 (Arr.ofVec N))])
  · rintro i D h1 h2
    cpp_body
  · rintro D
    cpp_simp

/-- `neon_sim.cpp:1834-1842` -/
cpp_source Source.vsub_u16 "uint16x4_t vsub_u16(uint16x4_t N, uint16x4_t M)
{
    uint16x4_t D;
    for (size_t i = 0; i < 4; i++)
    {
        D.val[i] = N.val[i] - M.val[i];
    }
    return D;
}
"

theorem Props.vsub_u16_source [Dialect] (N : uint16x4_t) (M : uint16x4_t) :
    Runs Source.vsub_u16 [.ofVec N, .ofVec M] (Obj.ofVec <$> Model.vsub_u16 N M) := by
  refine ⟨_, Source.vsub_u16_parse, 1000, fun fuel hf => ?_⟩
  simp only [Source.vsub_u16_ast, Model.vsub_u16]
  cpp_simp
  cpp_loop (fun D => [(68, .vec .u16 4 D), (77, .vec .u16 4 (Arr.ofVec M)), (78, .vec .u16 4 (Arr.ofVec N))])
  · rintro i D h1 h2
    cpp_body
  · rintro D
    cpp_simp

/-- `neon_sim.cpp:1843-1851` -/
cpp_source Source.vsub_u32 "uint32x2_t vsub_u32(uint32x2_t N, uint32x2_t M)
{
    uint32x2_t D;
    for (size_t i = 0; i < 2; i++)
    {
        D.val[i] = N.val[i] - M.val[i];
    }
    return D;
}
"

theorem Props.vsub_u32_source [Dialect] (N : uint32x2_t) (M : uint32x2_t) :
    Runs Source.vsub_u32 [.ofVec N, .ofVec M] (Obj.ofVec <$> Model.vsub_u32 N M) := by
  refine ⟨_, Source.vsub_u32_parse, 1000, fun fuel hf => ?_⟩
  simp only [Source.vsub_u32_ast, Model.vsub_u32]
  cpp_simp
  cpp_loop (fun D => [(68, .vec .u32 2 D), (77, .vec .u32 2 (Arr.ofVec M)), (78, .vec .u32 2 (Arr.ofVec N))])
  · rintro i D h1 h2
    cpp_body
  · rintro D
    cpp_simp

/-- `neon_sim.cpp:1852-1860` -/
cpp_source Source.vsub_u64 "uint64x1_t vsub_u64(uint64x1_t N, uint64x1_t M)
{
    uint64x1_t D;
    for (size_t i = 0; i < 1; i++)
    {
        D.val[i] = N.val[i] - M.val[i];
    }
    return D;
}
"

theorem Props.vsub_u64_source [Dialect] (N : uint64x1_t) (M : uint64x1_t) :
    Runs Source.vsub_u64 [.ofVec N, .ofVec M] (Obj.ofVec <$> Model.vsub_u64 N M) := by
  refine ⟨_, Source.vsub_u64_parse, 1000, fun fuel hf => ?_⟩
  simp only [Source.vsub_u64_ast, Model.vsub_u64]
  cpp_simp
  cpp_loop (fun D => [(68, .vec .u64 1 D), (77, .vec .u64 1 (Arr.ofVec M)), (78, .vec .u64 1 (Arr.ofVec N))])
  · rintro i D h1 h2
    cpp_body
  · rintro D
    cpp_simp

/-- `neon_sim.cpp:1862-1870` -/
cpp_source Source.vsub_f32 "float32x2_t vsub_f32(float32x2_t N, float32x2_t M)
{
    float32x2_t D;
    for (size_t i = 0; i < 2; i++)
    {
        D.val[i] = N.val[i] - M.val[i];
    }
    return D;
}
"

theorem Props.vsub_f32_source [Dialect] (N : float32x2_t) (M : float32x2_t) :
    Runs Source.vsub_f32 [.ofVec N, .ofVec M] (Obj.ofVec <$> Model.vsub_f32 N M) := by
  refine ⟨_, Source.vsub_f32_parse, 1000, fun fuel hf => ?_⟩
  simp only [Source.vsub_f32_ast, Model.vsub_f32]
  cpp_simp
  cpp_loop (fun D => [(68, .vec .f32 2 D), (77, .vec .f32 2 (Arr.ofVec M)), (78, .vec .f32 2 (Arr.ofVec N))])
  · rintro i D h1 h2
    cpp_body
  · rintro D
    cpp_simp

/-- `neon_sim.cpp:1872-1880` -/
cpp_source Source.vsub_f32_overload2 "float64x1_t vsub_f32(float64x1_t N, float64x1_t M)
{
    float64x1_t D;
    for (size_t i = 0; i < 1; i++)
    {
        D.val[i] = N.val[i] - M.val[i];
    }
    return D;
}
"

theorem Props.vsub_f32_overload2_source [Dialect] (N : float64x1_t) (M : float64x1_t) :
    Runs Source.vsub_f32_overload2 [.ofVec N, .ofVec M] (Obj.ofVec <$> Model.vsub_f32_overload2 N M) := by
  refine ⟨_, Source.vsub_f32_overload2_parse, 1000, fun fuel hf => ?_⟩
  simp only [Source.vsub_f32_overload2_ast, Model.vsub_f32_overload2]
  cpp_simp
  cpp_loop (fun D => [(68, .vec .f64 1 D), (77, .vec .f64 1 (Arr.ofVec M)), (78, .vec .f64 1 (Arr.ofVec N))])
  · rintro i D h1 h2
    cpp_body
  · rintro D
    cpp_simp

/-- `neon_sim.cpp:1883-1891` -/
cpp_source Source.vsubq_s8 "int8x16_t vsubq_s8(int8x16_t N, int8x16_t M)
{
    int8x16_t D;
    for (size_t i = 0; i < 16; i++)
    {
        D.val[i] = N.val[i] - M.val[i];
    }
    return D;
}
"

theorem Props.vsubq_s8_source [Dialect] (N : int8x16_t) (M : int8x16_t) :
    Runs Source.vsubq_s8 [.ofVec N, .ofVec M] (Obj.ofVec <$> Model.vsubq_s8 N M) := by
  refine ⟨_, Source.vsubq_s8_parse, 1000, fun fuel hf => ?_⟩
  simp only [Source.vsubq_s8_ast, Model.vsubq_s8]
  cpp_simp
  cpp_loop (fun D => [(68, .vec .s8 16 D), (77, .vec .s8 16 (Arr.ofVec M)), (78, .vec .s8 16 (Arr.ofVec N))])
  · rintro i D h1 h2
    cpp_body
  · rintro D
    cpp_simp

/-- `neon_sim.cpp:1892-1900` -/
cpp_source Source.vsubq_s16 "int16x8_t vsubq_s16(int16x8_t N, int16x8_t M)
{
    int16x8_t D;
    for (size_t i = 0; i < 8; i++)
    {
        D.val[i] = N.val[i] - M.val[i];
    }
    return D;
}
"

theorem Props.vsubq_s16_source [Dialect] (N : int16x8_t) (M : int16x8_t) :
    Runs Source.vsubq_s16 [.ofVec N, .ofVec M] (Obj.ofVec <$> Model.vsubq_s16 N M) := by
  refine ⟨_, Source.vsubq_s16_parse, 1000, fun fuel hf => ?_⟩
  simp only [Source.vsubq_s16_ast, Model.vsubq_s16]
  cpp_simp
  cpp_loop (fun D => [(68, .vec .s16 8 D), (77, .vec .s16 8 (Arr.ofVec M)), (78, .vec .s16 8 (Arr.ofVec N))])
  · rintro i D h1 h2
    cpp_body
  · rintro D
    cpp_simp

/-- `neon_sim.cpp:1901-1909` -/
cpp_source Source.vsubq_s32 "int32x4_t vsubq_s32(int32x4_t N, int32x4_t M)
{
    int32x4_t D;
    for (size_t i = 0; i < 4; i++)
    {
        D.val[i] = N.val[i] - M.val[i];
    }
    return D;
}
"

theorem Props.vsubq_s32_source [Dialect] (N : int32x4_t) (M : int32x4_t) :
    Runs Source.vsubq_s32 [.ofVec N, .ofVec M] (Obj.ofVec <$> Model.vsubq_s32 N M) := by
  refine ⟨_, Source.vsubq_s32_parse, 1000, fun fuel hf => ?_⟩
  simp only [Source.vsubq_s32_ast, Model.vsubq_s32]
  cpp_simp
  cpp_loop (fun D => [(68, .vec .s32 4 D), (77, .vec .s32 4 (Arr.ofVec M)), (78, .vec .s32 4 (Arr.ofVec N))])
  · rintro i D h1 h2
    cpp_body
  · rintro D
    cpp_simp

/-- `neon_sim.cpp:1910-1918` -/
cpp_source Source.vsubq_s64 "int64x2_t vsubq_s64(int64x2_t N, int64x2_t M)
{
    int64x2_t D;
    for (size_t i = 0; i < 2; i++)
    {
        D.val[i] = N.val[i] - M.val[i];
    }
    return D;
}
"

theorem Props.vsubq_s64_source [Dialect] (N : int64x2_t) (M : int64x2_t) :
    Runs Source.vsubq_s64 [.ofVec N, .ofVec M] (Obj.ofVec <$> Model.vsubq_s64 N M) := by
  refine ⟨_, Source.vsubq_s64_parse, 1000, fun fuel hf => ?_⟩
  simp only [Source.vsubq_s64_ast, Model.vsubq_s64]
  cpp_simp
  cpp_loop (fun D => [(68, .vec .s64 2 D), (77, .vec .s64 2 (Arr.ofVec M)), (78, .vec .s64 2 (Arr.ofVec N))])
  · rintro i D h1 h2
    cpp_body
  · rintro D
    cpp_simp

/-- `neon_sim.cpp:1919-1927` -/
cpp_source Source.vsubq_u8 "uint8x16_t vsubq_u8(uint8x16_t N, uint8x16_t M)
{
    uint8x16_t D;
    for (size_t i = 0; i < 16; i++)
    {
        D.val[i] = N.val[i] - M.val[i];
    }
    return D;
}
"

theorem Props.vsubq_u8_source [Dialect] (N : uint8x16_t) (M : uint8x16_t) :
    Runs Source.vsubq_u8 [.ofVec N, .ofVec M] (Obj.ofVec <$> Model.vsubq_u8 N M) := by
  refine ⟨_, Source.vsubq_u8_parse, 1000, fun fuel hf => ?_⟩
  simp only [Source.vsubq_u8_ast, Model.vsubq_u8]
  cpp_simp
  cpp_loop (fun D => [(68, .vec .u8 16 D), (77, .vec .u8 16 (Arr.ofVec M)), (78, .vec .u8 16 (Arr.ofVec N))])
  · rintro i D h1 h2
    cpp_body
  · rintro D
    cpp_simp

/-- `neon_sim.cpp:1928-1936` -/
cpp_source Source.vsubq_u16 "uint16x8_t vsubq_u16(uint16x8_t N, uint16x8_t M)
{
    uint16x8_t D;
    for (size_t i = 0; i < 8; i++)
    {
        D.val[i] = N.val[i] - M.val[i];
    }
    return D;
}
"

theorem Props.vsubq_u16_source [Dialect] (N : uint16x8_t) (M : uint16x8_t) :
    Runs Source.vsubq_u16 [.ofVec N, .ofVec M] (Obj.ofVec <$> Model.vsubq_u16 N M) := by
  refine ⟨_, Source.vsubq_u16_parse, 1000, fun fuel hf => ?_⟩
  simp only [Source.vsubq_u16_ast, Model.vsubq_u16]
  cpp_simp
  cpp_loop (fun D => [(68, .vec .u16 8 D), (77, .vec .u16 8 (Arr.ofVec M)), (78, .vec .u16 8 (Arr.ofVec N))])
  · rintro i D h1 h2
    cpp_body
  · rintro D
    cpp_simp

/-- `neon_sim.cpp:1937-1945` -/
cpp_source Source.vsubq_u32 "uint32x4_t vsubq_u32(uint32x4_t N, uint32x4_t M)
{
    uint32x4_t D;
    for (size_t i = 0; i < 4; i++)
    {
        D.val[i] = N.val[i] - M.val[i];
    }
    return D;
}
"

theorem Props.vsubq_u32_source [Dialect] (N : uint32x4_t) (M : uint32x4_t) :
    Runs Source.vsubq_u32 [.ofVec N, .ofVec M] (Obj.ofVec <$> Model.vsubq_u32 N M) := by
  refine ⟨_, Source.vsubq_u32_parse, 1000, fun fuel hf => ?_⟩
  simp only [Source.vsubq_u32_ast, Model.vsubq_u32]
  cpp_simp
  cpp_loop (fun D => [(68, .vec .u32 4 D), (77, .vec .u32 4 (Arr.ofVec M)), (78, .vec .u32 4 (Arr.ofVec N))])
  · rintro i D h1 h2
    cpp_body
  · rintro D
    cpp_simp

/-- `neon_sim.cpp:1946-1954` -/
cpp_source Source.vsubq_u64 "uint64x2_t vsubq_u64(uint64x2_t N, uint64x2_t M)
{
    uint64x2_t D;
    for (size_t i = 0; i < 2; i++)
    {
        D.val[i] = N.val[i] - M.val[i];
    }
    return D;
}
"

theorem Props.vsubq_u64_source [Dialect] (N : uint64x2_t) (M : uint64x2_t) :
    Runs Source.vsubq_u64 [.ofVec N, .ofVec M] (Obj.ofVec <$> Model.vsubq_u64 N M) := by
  refine ⟨_, Source.vsubq_u64_parse, 1000, fun fuel hf => ?_⟩
  simp only [Source.vsubq_u64_ast, Model.vsubq_u64]
  cpp_simp
  cpp_loop (fun D => [(68, .vec .u64 2 D), (77, .vec .u64 2 (Arr.ofVec M)), (78, .vec .u64 2 (Arr.ofVec N))])
  · rintro i D h1 h2
    cpp_body
  · rintro D
    cpp_simp

/-- `neon_sim.cpp:1956-1964` -/
cpp_source Source.vsubq_f32 "float32x4_t vsubq_f32(float32x4_t N, float32x4_t M)
{
    float32x4_t D;
    for (size_t i = 0; i < 4; i++)
    {
        D.val[i] = N.val[i] - M.val[i];
    }
    return D;
}
"

theorem Props.vsubq_f32_source [Dialect] (N : float32x4_t) (M : float32x4_t) :
    Runs Source.vsubq_f32 [.ofVec N, .ofVec M] (Obj.ofVec <$> Model.vsubq_f32 N M) := by
  refine ⟨_, Source.vsubq_f32_parse, 1000, fun fuel hf => ?_⟩
  simp only [Source.vsubq_f32_ast, Model.vsubq_f32]
  cpp_simp
  cpp_loop (fun D => [(68, .vec .f32 4 D), (77, .vec .f32 4 (Arr.ofVec M)), (78, .vec .f32 4 (Arr.ofVec N))])
  · rintro i D h1 h2
    cpp_body
  · rintro D
    cpp_simp

/-- `neon_sim.cpp:1967-1975` -/
cpp_source Source.vsubhn_s16 "int8x8_t vsubhn_s16(int16x8_t N, int16x8_t M)
{
    int8x8_t D;
    for (size_t i = 0; i < 8; i++)
    {
        D.val[i] = (N.val[i] - M.val[i]) >> 8;
    }
    return D;
}
"

theorem Props.vsubhn_s16_source [Dialect] (N : int16x8_t) (M : int16x8_t) :
    Runs Source.vsubhn_s16 [.ofVec N, .ofVec M] (Obj.ofVec <$> Model.vsubhn_s16 N M) := by
  refine ⟨_, Source.vsubhn_s16_parse, 1000, fun fuel hf => ?_⟩
  simp only [Source.vsubhn_s16_ast, Model.vsubhn_s16]
  cpp_simp
  cpp_loop (fun D => [(68, .vec .s8 8 D), (77, .vec .s16 8 (Arr.ofVec M)), (78, .vec .s16 8 (Arr.ofVec N))])
  · rintro i D h1 h2
    cpp_body
  · rintro D
    cpp_simp

/-- `neon_sim.cpp:1977-1985` -/
cpp_source Source.vsubn_s32 "int16x4_t vsubn_s32(int32x4_t N, int32x4_t M)
{
    int16x4_t D;
    for (size_t i = 0; i < 4; i++)
    {
        D.val[i] = (N.val[i] - M.val[i]) >> 8;
    }
    return D;
}
"

theorem Props.vsubn_s32_source [Dialect] (N : int32x4_t) (M : int32x4_t) :
    Runs Source.vsubn_s32 [.ofVec N, .ofVec M] (Obj.ofVec <$> Model.vsubn_s32 N M) := by
  refine ⟨_, Source.vsubn_s32_parse, 1000, fun fuel hf => ?_⟩
  simp only [Source.vsubn_s32_ast, Model.vsubn_s32]
  cpp_simp
  cpp_loop (fun D => [(68, .vec .s16 4 D), (77, .vec .s32 4 (Arr.ofVec M)), (78, .vec .s32 4 (Arr.ofVec N))])
  · rintro i D h1 h2
    cpp_body
  · rintro D
    cpp_simp

/-- `neon_sim.cpp:1987-1995` -/
cpp_source Source.vsubn_s64 "int32x2_t vsubn_s64(int64x2_t N, int64x2_t M)
{
    int32x2_t D;
    for (size_t i = 0; i < 2; i++)
    {
        D.val[i] = (N.val[i] - M.val[i]) >> 8;
    }
    return D;
}
"

theorem Props.vsubn_s64_source [Dialect] (N : int64x2_t) (M : int64x2_t) :
    Runs Source.vsubn_s64 [.ofVec N, .ofVec M] (Obj.ofVec <$> Model.vsubn_s64 N M) := by
  refine ⟨_, Source.vsubn_s64_parse, 1000, fun fuel hf => ?_⟩
  simp only [Source.vsubn_s64_ast, Model.vsubn_s64]
  cpp_simp
  cpp_loop (fun D => [(68, .vec .s32 2 D), (77, .vec .s64 2 (Arr.ofVec M)), (78, .vec .s64 2 (Arr.ofVec N))])
  · rintro i D h1 h2
    cpp_body
  · rintro D
    cpp_simp

/-- `neon_sim.cpp:1997-2005` -/
cpp_source Source.vsubhn_u16 "uint8x8_t vsubhn_u16(uint16x8_t N, uint16x8_t M)
{
    uint8x8_t D;
    for (size_t i = 0; i < 8; i++)
    {
        D.val[i] = (N.val[i] - M.val[i]) >> 8;
    }
    return D;
}
"

theorem Props.vsubhn_u16_source [Dialect] (N : uint16x8_t) (M : uint16x8_t) :
    Runs Source.vsubhn_u16 [.ofVec N, .ofVec M] (Obj.ofVec <$> Model.vsubhn_u16 N M) := by
  refine ⟨_, Source.vsubhn_u16_parse, 1000, fun fuel hf => ?_⟩
  simp only [Source.vsubhn_u16_ast, Model.vsubhn_u16]
  cpp_simp
  cpp_loop (fun D => [(68, .vec .u8 8 D), (77, .vec .u16 8 (Arr.ofVec M)), (78, .vec .u16 8 (Arr.ofVec N))])
  · rintro i D h1 h2
    cpp_body
  · rintro D
    cpp_simp

/-- `neon_sim.cpp:2007-2015` -/
cpp_source Source.vsubn_u32 "uint16x4_t vsubn_u32(uint32x4_t N, uint32x4_t M)
{
    uint16x4_t D;
    for (size_t i = 0; i < 4; i++)
    {
        D.val[i] = (N.val[i] - M.val[i]) >> 8;
    }
    return D;
}
"

theorem Props.vsubn_u32_source [Dialect] (N : uint32x4_t) (M : uint32x4_t) :
    Runs Source.vsubn_u32 [.ofVec N, .ofVec M] (Obj.ofVec <$> Model.vsubn_u32 N M) := by
  refine ⟨_, Source.vsubn_u32_parse, 1000, fun fuel hf => ?_⟩
  simp only [Source.vsubn_u32_ast, Model.vsubn_u32]
  cpp_simp
  cpp_loop (fun D => [(68, .vec .u16 4 D), (77, .vec .u32 4 (Arr.ofVec M)), (78, .vec .u32 4 (Arr.ofVec N))])
  · rintro i D h1 h2
    cpp_body
  · rintro D
    cpp_simp

/-- `neon_sim.cpp:2017-2025` -/
cpp_source Source.vsubn_u64 "uint32x2_t vsubn_u64(uint64x2_t N, uint64x2_t M)
{
    uint32x2_t D;
    for (size_t i = 0; i < 2; i++)
    {
        D.val[i] = (N.val[i] - M.val[i]) >> 8;
    }
    return D;
}
"

theorem Props.vsubn_u64_source [Dialect] (N : uint64x2_t) (M : uint64x2_t) :
    Runs Source.vsubn_u64 [.ofVec N, .ofVec M] (Obj.ofVec <$> Model.vsubn_u64 N M) := by
  refine ⟨_, Source.vsubn_u64_parse, 1000, fun fuel hf => ?_⟩
  simp only [Source.vsubn_u64_ast, Model.vsubn_u64]
  cpp_simp
  cpp_loop (fun D => [(68, .vec .u32 2 D), (77, .vec .u64 2 (Arr.ofVec M)), (78, .vec .u64 2 (Arr.ofVec N))])
  · rintro i D h1 h2
    cpp_body
  · rintro D
    cpp_simp

/-- `neon_sim.cpp:2027-2036` -/
cpp_source Source.vhsub_s8 "int8x8_t vhsub_s8(int8x8_t N, int8x8_t M)
{
    int8x8_t D;
    for (int i = 0; i < 8; i++)
    {
        //D.val[i] = (N.val[i] - M.val[i]) / 2; //not ok: result differs with `>>1`. 说明，移位和除法，是不一样的！
        D.val[i] = (N.val[i] - M.val[i]) >> 1; //ok
    }
    return D;
}
"

theorem Props.vhsub_s8_source [Dialect] (N : int8x8_t) (M : int8x8_t) :
    Runs Source.vhsub_s8 [.ofVec N, .ofVec M] (Obj.ofVec <$> Model.vhsub_s8 N M) := by
  refine ⟨_, Source.vhsub_s8_parse, 1000, fun fuel hf => ?_⟩
  simp only [Source.vhsub_s8_ast, Model.vhsub_s8]
  cpp_simp
  cpp_loop (fun D => [(68, .vec .s8 8 D), (77, .vec .s8 8 (Arr.ofVec M)), (78, .vec .s8 8 (Arr.ofVec N))])
  · rintro i D h1 h2
    cpp_body
  · rintro D
    cpp_simp

/-- `neon_sim.cpp:2038-2046` -/
cpp_source Source.vhsub_s16 "int16x4_t vhsub_s16(int16x4_t N, int16x4_t M)
{
    int16x4_t D;
    for (int i = 0; i < 4; i++)
    {
        D.val[i] = (N.val[i] - M.val[i]) >> 1;
    }
    return D;
}
"

theorem Props.vhsub_s16_source [Dialect] (N : int16x4_t) (M : int16x4_t) :
    Runs Source.vhsub_s16 [.ofVec N, .ofVec M] (Obj.ofVec <$> Model.vhsub_s16 N M) := by
  refine ⟨_, Source.vhsub_s16_parse, 1000, fun fuel hf => ?_⟩
  simp only [Source.vhsub_s16_ast, Model.vhsub_s16]
  cpp_simp
  cpp_loop (fun D => [(68, .vec .s16 4 D), (77, .vec .s16 4 (Arr.ofVec M)), (78, .vec .s16 4 (Arr.ofVec N))])
  · rintro i D h1 h2
    cpp_body
  · rintro D
    cpp_simp

/-- `neon_sim.cpp:2048-2056` -/
cpp_source Source.vhsub_s32 "int32x2_t vhsub_s32(int32x2_t N, int32x2_t M)
{
    int32x2_t D;
    for (int i = 0; i < 2; i++)
    {
        D.val[i] = (N.val[i] - M.val[i]) >> 1;
    }
    return D;
}
"

theorem Props.vhsub_s32_source [Dialect] (N : int32x2_t) (M : int32x2_t) :
    Runs Source.vhsub_s32 [.ofVec N, .ofVec M] (Obj.ofVec <$> Model.vhsub_s32 N M) := by
  refine ⟨_, Source.vhsub_s32_parse, 1000, fun fuel hf => ?_⟩
  simp only [Source.vhsub_s32_ast, Model.vhsub_s32]
  cpp_simp
  cpp_loop (fun D => [(68, .vec .s32 2 D), (77, .vec .s32 2 (Arr.ofVec M)), (78, .vec .s32 2 (Arr.ofVec N))])
  · rintro i D h1 h2
    cpp_body
  · rintro D
    cpp_simp

/-- `neon_sim.cpp:2058-2066` -/
cpp_source Source.vhsub_u8 "uint8x8_t vhsub_u8(uint8x8_t N, uint8x8_t M)
{
    uint8x8_t D;
    for (int i = 0; i < 8; i++)
    {
        D.val[i] = (N.val[i] - M.val[i]) >> 1;
    }
    return D;
}
"

theorem Props.vhsub_u8_source [Dialect] (N : uint8x8_t) (M : uint8x8_t) :
    Runs Source.vhsub_u8 [.ofVec N, .ofVec M] (Obj.ofVec <$> Model.vhsub_u8 N M) := by
  refine ⟨_, Source.vhsub_u8_parse, 1000, fun fuel hf => ?_⟩
  simp only [Source.vhsub_u8_ast, Model.vhsub_u8]
  cpp_simp
  cpp_loop (fun D => [(68, .vec .u8 8 D), (77, .vec .u8 8 (Arr.ofVec M)), (78, .vec .u8 8 (Arr.ofVec N))])
  · rintro i D h1 h2
    cpp_body
  · rintro D
    cpp_simp

/-- `neon_sim.cpp:2068-2076` -/
cpp_source Source.vhsub_u16 "uint16x4_t vhsub_u16(uint16x4_t N, uint16x4_t M)
{
    uint16x4_t D;
    for (int i = 0; i < 4; i++)
    {
        D.val[i] = (N.val[i] - M.val[i]) >> 1;
    }
    return D;
}
"

theorem Props.vhsub_u16_source [Dialect] (N : uint16x4_t) (M : uint16x4_t) :
    Runs Source.vhsub_u16 [.ofVec N, .ofVec M] (Obj.ofVec <$> Model.vhsub_u16 N M) := by
  refine ⟨_, Source.vhsub_u16_parse, 1000, fun fuel hf => ?_⟩
  simp only [Source.vhsub_u16_ast, Model.vhsub_u16]
  cpp_simp
  cpp_loop (fun D => [(68, .vec .u16 4 D), (77, .vec .u16 4 (Arr.ofVec M)), (78, .vec .u16 4 (Arr.ofVec N))])
  · rintro i D h1 h2
    cpp_body
  · rintro D
    cpp_simp

/-- `neon_sim.cpp:2078-2086` -/
cpp_source Source.vhsub_u32 "uint32x2_t vhsub_u32(uint32x2_t N, uint32x2_t M)
{
    uint32x2_t D;
    for (int i = 0; i < 2; i++)
    {
        D.val[i] = (N.val[i] - M.val[i]) >> 1;
    }
    return D;
}
"

theorem Props.vhsub_u32_source [Dialect] (N : uint32x2_t) (M : uint32x2_t) :
    Runs Source.vhsub_u32 [.ofVec N, .ofVec M] (Obj.ofVec <$> Model.vhsub_u32 N M) := by
  refine ⟨_, Source.vhsub_u32_parse, 1000, fun fuel hf => ?_⟩
  simp only [Source.vhsub_u32_ast, Model.vhsub_u32]
  cpp_simp
  cpp_loop (fun D => [(68, .vec .u32 2 D), (77, .vec .u32 2 (Arr.ofVec M)), (78, .vec .u32 2 (Arr.ofVec N))])
  · rintro i D h1 h2
    cpp_body
  · rintro D
    cpp_simp

/-- `neon_sim.cpp:2089-2097` -/
cpp_source Source.vhsubq_s8 "int8x16_t vhsubq_s8(int8x16_t N, int8x16_t M)
{
    int8x16_t D;
    for (int i = 0; i < 16; i++)
    {
        D.val[i] = (N.val[i] - M.val[i]) >> 1;
    }
    return D;
}
"

theorem Props.vhsubq_s8_source [Dialect] (N : int8x16_t) (M : int8x16_t) :
    Runs Source.vhsubq_s8 [.ofVec N, .ofVec M] (Obj.ofVec <$> Model.vhsubq_s8 N M) := by
  refine ⟨_, Source.vhsubq_s8_parse, 1000, fun fuel hf => ?_⟩
  simp only [Source.vhsubq_s8_ast, Model.vhsubq_s8]
  cpp_simp
  cpp_loop (fun D => [(68, .vec .s8 16 D), (77, .vec .s8 16 (Arr.ofVec M)), (78, .vec .s8 16 (Arr.ofVec N))])
  · rintro i D h1 h2
    cpp_body
  · rintro D
    cpp_simp

/-- `neon_sim.cpp:2099-2107` -/
cpp_source Source.vhsubq_s16 "int16x8_t vhsubq_s16(int16x8_t N, int16x8_t M)
{
    int16x8_t D;
    for (int i = 0; i < 8; i++)
    {
        D.val[i] = (N.val[i] - M.val[i]) >> 1;
    }
    return D;
}
"

theorem Props.vhsubq_s16_source [Dialect] (N : int16x8_t) (M : int16x8_t) :
    Runs Source.vhsubq_s16 [.ofVec N, .ofVec M] (Obj.ofVec <$> Model.vhsubq_s16 N M) := by
  refine ⟨_, Source.vhsubq_s16_parse, 1000, fun fuel hf => ?_⟩
  simp only [Source.vhsubq_s16_ast, Model.vhsubq_s16]
  cpp_simp
  cpp_loop (fun D => [(68, .vec .s16 8 D), (77, .vec .s16 8 (Arr.ofVec M)), (78, .vec .s16 8 (Arr.ofVec N))])
  · rintro i D h1 h2
    cpp_body
  · rintro D
    cpp_simp

/-- `neon_sim.cpp:2109-2117` -/
cpp_source Source.vhsubq_s32 "int32x4_t vhsubq_s32(int32x4_t N, int32x4_t M)
{
    int32x4_t D;
    for (int i = 0; i < 4; i++)
    {
        D.val[i] = (N.val[i] - M.val[i]) >> 1;
    }
    return D;
}
"

theorem Props.vhsubq_s32_source [Dialect] (N : int32x4_t) (M : int32x4_t) :
    Runs Source.vhsubq_s32 [.ofVec N, .ofVec M] (Obj.ofVec <$> Model.vhsubq_s32 N M) := by
  refine ⟨_, Source.vhsubq_s32_parse, 1000, fun fuel hf => ?_⟩
  simp only [Source.vhsubq_s32_ast, Model.vhsubq_s32]
  cpp_simp
  cpp_loop (fun D => [(68, .vec .s32 4 D), (77, .vec .s32 4 (Arr.ofVec M)), (78, .vec .s32 4 (Arr.ofVec N))])
  · rintro i D h1 h2
    cpp_body
  · rintro D
    cpp_simp

/-- `neon_sim.cpp:2119-2127` -/
cpp_source Source.vhsubq_u8 "uint8x16_t vhsubq_u8(uint8x16_t N, uint8x16_t M)
{
    uint8x16_t D;
    for (int i = 0; i < 16; i++)
    {
        D.val[i] = (N.val[i] - M.val[i]) >> 1;
    }
    return D;
}
"

theorem Props.vhsubq_u8_source [Dialect] (N : uint8x16_t) (M : uint8x16_t) :
    Runs Source.vhsubq_u8 [.ofVec N, .ofVec M] (Obj.ofVec <$> Model.vhsubq_u8 N M) := by
  refine ⟨_, Source.vhsubq_u8_parse, 1000, fun fuel hf => ?_⟩
  simp only [Source.vhsubq_u8_ast, Model.vhsubq_u8]
  cpp_simp
  cpp_loop (fun D => [(68, .vec .u8 16 D), (77, .vec .u8 16 (Arr.ofVec M)), (78, .vec .u8 16 (Arr.ofVec N))])
  · rintro i D h1 h2
    cpp_body
  · rintro D
    cpp_simp

/-- `neon_sim.cpp:2129-2137` -/
cpp_source Source.vhsubq_u16 "uint16x8_t vhsubq_u16(uint16x8_t N, uint16x8_t M)
{
    uint16x8_t D;
    for (int i = 0; i < 8; i++)
    {
        D.val[i] = (N.val[i] - M.val[i]) >> 1;
    }
    return D;
}
"

theorem Props.vhsubq_u16_source [Dialect] (N : uint16x8_t) (M : uint16x8_t) :
    Runs Source.vhsubq_u16 [.ofVec N, .ofVec M] (Obj.ofVec <$> Model.vhsubq_u16 N M) := by
  refine ⟨_, Source.vhsubq_u16_parse, 1000, fun fuel hf => ?_⟩
  simp only [Source.vhsubq_u16_ast, Model.vhsubq_u16]
  cpp_simp
  cpp_loop (fun D => [(68, .vec .u16 8 D), (77, .vec .u16 8 (Arr.ofVec M)), (78, .vec .u16 8 (Arr.ofVec N))])
  · rintro i D h1 h2
    cpp_body
  · rintro D
    cpp_simp

/-- `neon_sim.cpp:2139-2147` -/
cpp_source Source.vhsubq_u32 "uint32x4_t vhsubq_u32(uint32x4_t N, uint32x4_t M)
{
    uint32x4_t D;
    for (int i = 0; i < 4; i++)
    {
        D.val[i] = (N.val[i] - M.val[i]) >> 1;
    }
    return D;
}
"

theorem Props.vhsubq_u32_source [Dialect] (N : uint32x4_t) (M : uint32x4_t) :
    Runs Source.vhsubq_u32 [.ofVec N, .ofVec M] (Obj.ofVec <$> Model.vhsubq_u32 N M) := by
  refine ⟨_, Source.vhsubq_u32_parse, 1000, fun fuel hf => ?_⟩
  simp only [Source.vhsubq_u32_ast, Model.vhsubq_u32]
  cpp_simp
  cpp_loop (fun D => [(68, .vec .u32 4 D), (77, .vec .u32 4 (Arr.ofVec M)), (78, .vec .u32 4 (Arr.ofVec N))])
  · rintro i D h1 h2
    cpp_body
  · rintro D
    cpp_simp

/-- `neon_sim.cpp:2150-2170` -/
cpp_source Source.vqsub_s8 "int8x8_t vqsub_s8(int8x8_t N, int8x8_t M)
{
    int8x8_t D;
    for (size_t i = 0; i < 8; i++)
    {
        int16_t temp = (int16_t)N.val[i] - (int16_t)M.val[i];
        if (temp > INT8_MAX)
        {
            D.val[i] = INT8_MAX;
        }
        else if (temp < INT8_MIN)
        {
            D.val[i] = INT8_MIN;
        }
        else
        {
            D.val[i] = temp;
        }
    }
    return D;
}
"

theorem Props.vqsub_s8_source [Dialect] (N : int8x8_t) (M : int8x8_t) :
    Runs Source.vqsub_s8 [.ofVec N, .ofVec M] (Obj.ofVec <$> Model.vqsub_s8 N M) := by
  refine ⟨_, Source.vqsub_s8_parse, 1000, fun fuel hf => ?_⟩
  simp only [Source.vqsub_s8_ast, Model.vqsub_s8]
  cpp_simp
  cpp_loop (fun D => [(68, .vec .s8 8 D), (77, .vec .s8 8 (Arr.ofVec M)), (78, .vec .s8 8 (Arr.ofVec N))])
  · rintro i D h1 h2
    cpp_body
  · rintro D
    cpp_simp

/-- `neon_sim.cpp:2172-2192` -/
cpp_source Source.vqsub_s16 "int16x4_t vqsub_s16(int16x4_t N, int16x4_t M)
{
    int16x4_t D;
    for (size_t i = 0; i < 4; i++)
    {
        int32_t temp = (int32_t)N.val[i] - (int32_t)M.val[i];
        if (temp > INT16_MAX)
        {
            D.val[i] = INT16_MAX;
        }
        else if (temp < INT16_MIN)
        {
            D.val[i] = INT16_MIN;
        }
        else
        {
            D.val[i] = temp;
        }
    }
    return D;
}
"

theorem Props.vqsub_s16_source [Dialect] (N : int16x4_t) (M : int16x4_t) :
    Runs Source.vqsub_s16 [.ofVec N, .ofVec M] (Obj.ofVec <$> Model.vqsub_s16 N M) := by
  refine ⟨_, Source.vqsub_s16_parse, 1000, fun fuel hf => ?_⟩
  simp only [Source.vqsub_s16_ast, Model.vqsub_s16]
  cpp_simp
  cpp_loop (fun D => [(68, .vec .s16 4 D), (77, .vec .s16 4 (Arr.ofVec M)), (78, .vec .s16 4 (Arr.ofVec N))])
  · rintro i D h1 h2
    cpp_body
  · rintro D
    cpp_simp

/-- `neon_sim.cpp:2194-2214` -/
cpp_source Source.vqsub_s32 "int32x2_t vqsub_s32(int32x2_t N, int32x2_t M)
{
    int32x2_t D;
    for (size_t i = 0; i < 2; i++)
    {
        int64_t temp = (int64_t)N.val[i] - (int64_t)M.val[i];
        if (temp > INT32_MAX)
        {
            D.val[i] = INT32_MAX;
        }
        else if (temp < INT32_MIN)
        {
            D.val[i] = INT32_MIN;
        }
        else
        {
            D.val[i] = temp;
        }
    }
    return D;
}
"

theorem Props.vqsub_s32_source [Dialect] (N : int32x2_t) (M : int32x2_t) :
    Runs Source.vqsub_s32 [.ofVec N, .ofVec M] (Obj.ofVec <$> Model.vqsub_s32 N M) := by
  refine ⟨_, Source.vqsub_s32_parse, 1000, fun fuel hf => ?_⟩
  simp only [Source.vqsub_s32_ast, Model.vqsub_s32]
  cpp_simp
  cpp_loop (fun D => [(68, .vec .s32 2 D), (77, .vec .s32 2 (Arr.ofVec M)), (78, .vec .s32 2 (Arr.ofVec N))])
  · rintro i D h1 h2
    cpp_body
  · rintro D
    cpp_simp

/-- `neon_sim.cpp:2216-2236` -/
cpp_source Source.vqsub_s64 "int64x1_t vqsub_s64(int64x1_t N, int64x1_t M)
{
    int64x1_t D;
    for (size_t i = 0; i < 1; i++)
    {
        double temp = (double)N.val[i] - (double)M.val[i];
        if (temp > (double)(INT64_MAX))
        {
            D.val[i] = INT64_MAX;
        }
        else if (temp < INT64_MIN)
        {
            D.val[i] = INT64_MIN;
        }
        else
        {
            D.val[i] = temp;
        }
    }
    return D;
}
"

theorem Props.vqsub_s64_source [Dialect] (N : int64x1_t) (M : int64x1_t) :
    Runs Source.vqsub_s64 [.ofVec N, .ofVec M] (Obj.ofVec <$> Model.vqsub_s64 N M) := by
  refine ⟨_, Source.vqsub_s64_parse, 1000, fun fuel hf => ?_⟩
  simp only [Source.vqsub_s64_ast, Model.vqsub_s64]
  cpp_simp
  cpp_loop (fun D => [(68, .vec .s64 1 D), (77, .vec .s64 1 (Arr.ofVec M)), (78, .vec .s64 1 (Arr.ofVec N))])
  · rintro i D h1 h2
    cpp_body
  · rintro D
    cpp_simp

/-- `neon_sim.cpp:2239-2247` -/
cpp_source Source.vsubl_s8 "int16x8_t vsubl_s8(int8x8_t N, int8x8_t M)
{
    int16x8_t D;
    for (size_t i = 0; i < 8; i++)
    {
        D.val[i] = (int16_t)(N.val[i]) - (int16_t)(M.val[i]);
    }
    return D;
}
"

theorem Props.vsubl_s8_source [Dialect] (N : int8x8_t) (M : int8x8_t) :
    Runs Source.vsubl_s8 [.ofVec N, .ofVec M] (Obj.ofVec <$> Model.vsubl_s8 N M) := by
  refine ⟨_, Source.vsubl_s8_parse, 1000, fun fuel hf => ?_⟩
  simp only [Source.vsubl_s8_ast, Model.vsubl_s8]
  cpp_simp
  cpp_loop (fun D => [(68, .vec .s16 8 D), (77, .vec .s8 8 (Arr.ofVec M)), (78, .vec .s8 8 (Arr.ofVec N))])
  · rintro i D h1 h2
    cpp_body
  · rintro D
    cpp_simp

/-- `neon_sim.cpp:2249-2257` -/
cpp_source Source.vsubl_s16 "int32x4_t vsubl_s16(int16x4_t N, int16x4_t M)
{
    int32x4_t D;
    for (size_t i = 0; i < 4; i++)
    {
        D.val[i] = (int32_t)(N.val[i]) - (int32_t)(M.val[i]);
    }
    return D;
}
"

theorem Props.vsubl_s16_source [Dialect] (N : int16x4_t) (M : int16x4_t) :
    Runs Source.vsubl_s16 [.ofVec N, .ofVec M] (Obj.ofVec <$> Model.vsubl_s16 N M) := by
  refine ⟨_, Source.vsubl_s16_parse, 1000, fun fuel hf => ?_⟩
  simp only [Source.vsubl_s16_ast, Model.vsubl_s16]
  cpp_simp
  cpp_loop (fun D => [(68, .vec .s32 4 D), (77, .vec .s16 4 (Arr.ofVec M)), (78, .vec .s16 4 (Arr.ofVec N))])
  · rintro i D h1 h2
    cpp_body
  · rintro D
    cpp_simp

/-- `neon_sim.cpp:2259-2267` -/
cpp_source Source.vsubl_s32 "int64x2_t vsubl_s32(int32x4_t N, int32x2_t M)
{
    int64x2_t D;
    for (size_t i = 0; i < 2; i++)
    {
        D.val[i] = (int64_t)(N.val[i]) - (int64_t)(M.val[i]);
    }
    return D;
}
"

theorem Props.vsubl_s32_source [Dialect] (N : int32x4_t) (M : int32x2_t) :
    Runs Source.vsubl_s32 [.ofVec N, .ofVec M] (Obj.ofVec <$> Model.vsubl_s32 N M) := by
  refine ⟨_, Source.vsubl_s32_parse, 1000, fun fuel hf => ?_⟩
  simp only [Source.vsubl_s32_ast, Model.vsubl_s32]
  cpp_simp
  cpp_loop (fun D => [(68, .vec .s64 2 D), (77, .vec .s32 2 (Arr.ofVec M)), (78, .vec .s32 4 (Arr.ofVec N))])
  · rintro i D h1 h2
    cpp_body
  · rintro D
    cpp_simp

/-- `neon_sim.cpp:2269-2277` -/
cpp_source Source.vsubl_u8 "uint16x8_t vsubl_u8(uint8x8_t N, uint8x8_t M)
{
    uint16x8_t D;
    for (size_t i = 0; i < 8; i++)
    {
        D.val[i] = (uint16_t)(N.val[i]) - (uint16_t)(M.val[i]);
    }
    return D;
}
"

theorem Props.vsubl_u8_source [Dialect] (N : uint8x8_t) (M : uint8x8_t) :
    Runs Source.vsubl_u8 [.ofVec N, .ofVec M] (Obj.ofVec <$> Model.vsubl_u8 N M) := by
  refine ⟨_, Source.vsubl_u8_parse, 1000, fun fuel hf => ?_⟩
  simp only [Source.vsubl_u8_ast, Model.vsubl_u8]
  cpp_simp
  cpp_loop (fun D => [(68, .vec .u16 8 D), (77, .vec .u8 8 (Arr.ofVec M)), (78, .vec .u8 8 (Arr.ofVec N))])
  · rintro i D h1 h2
    cpp_body
  · rintro D
    cpp_simp

/-- `neon_sim.cpp:2279-2287` -/
cpp_source Source.vsubl_u16 "uint32x4_t vsubl_u16(uint16x4_t N, uint16x4_t M)
{
    uint32x4_t D;
    for (size_t i = 0; i < 4; i++)
    {
        D.val[i] = (uint32_t)(N.val[i]) - (uint32_t)(M.val[i]);
    }
    return D;
}
"

theorem Props.vsubl_u16_source [Dialect] (N : uint16x4_t) (M : uint16x4_t) :
    Runs Source.vsubl_u16 [.ofVec N, .ofVec M] (Obj.ofVec <$> Model.vsubl_u16 N M) := by
  refine ⟨_, Source.vsubl_u16_parse, 1000, fun fuel hf => ?_⟩
  simp only [Source.vsubl_u16_ast, Model.vsubl_u16]
  cpp_simp
  cpp_loop (fun D => [(68, .vec .u32 4 D), (77, .vec .u16 4 (Arr.ofVec M)), (78, .vec .u16 4 (Arr.ofVec N))])
  · rintro i D h1 h2
    cpp_body
  · rintro D
    cpp_simp

/-- `neon_sim.cpp:2289-2297` -/
cpp_source Source.vsubl_u32 "uint64x2_t vsubl_u32(uint32x4_t N, uint32x2_t M)
{
    uint64x2_t D;
    for (size_t i = 0; i < 2; i++)
    {
        D.val[i] = (uint64_t)(N.val[i]) - (uint64_t)(M.val[i]);
    }
    return D;
}
"

theorem Props.vsubl_u32_source [Dialect] (N : uint32x4_t) (M : uint32x2_t) :
    Runs Source.vsubl_u32 [.ofVec N, .ofVec M] (Obj.ofVec <$> Model.vsubl_u32 N M) := by
  refine ⟨_, Source.vsubl_u32_parse, 1000, fun fuel hf => ?_⟩
  simp only [Source.vsubl_u32_ast, Model.vsubl_u32]
  cpp_simp
  cpp_loop (fun D => [(68, .vec .u64 2 D), (77, .vec .u32 2 (Arr.ofVec M)), (78, .vec .u32 4 (Arr.ofVec N))])
  · rintro i D h1 h2
    cpp_body
  · rintro D
    cpp_simp

/-- `neon_sim.cpp:2300-2308` -/
cpp_source Source.vsubw_s8 "int16x8_t vsubw_s8(int16x8_t N, int8x8_t M)
{
    int16x8_t D;
    for (size_t i = 0; i < 8; i++)
    {
        D.val[i] = N.val[i] - (int16_t)(M.val[i]);
    }
    return D;
}
"

theorem Props.vsubw_s8_source [Dialect] (N : int16x8_t) (M : int8x8_t) :
    Runs Source.vsubw_s8 [.ofVec N, .ofVec M] (Obj.ofVec <$> Model.vsubw_s8 N M) := by
  refine ⟨_, Source.vsubw_s8_parse, 1000, fun fuel hf => ?_⟩
  simp only [Source.vsubw_s8_ast, Model.vsubw_s8]
  cpp_simp
  cpp_loop (fun D => [(68, .vec .s16 8 D), (77, .vec .s8 8 (Arr.ofVec M)), (78, .vec .s16 8 (Arr.ofVec N))])
  · rintro i D h1 h2
    cpp_body
  · rintro D
    cpp_simp

/-- `neon_sim.cpp:2310-2318` -/
cpp_source Source.vsubw_s16 "int32x4_t vsubw_s16(int32x4_t N, int16x4_t M)
{
    int32x4_t D;
    for (size_t i = 0; i < 4; i++)
    {
        D.val[i] = N.val[i] - (int32_t)(M.val[i]);
    }
    return D;
}
"

theorem Props.vsubw_s16_source [Dialect] (N : int32x4_t) (M : int16x4_t) :
    Runs Source.vsubw_s16 [.ofVec N, .ofVec M] (Obj.ofVec <$> Model.vsubw_s16 N M) := by
  refine ⟨_, Source.vsubw_s16_parse, 1000, fun fuel hf => ?_⟩
  simp only [Source.vsubw_s16_ast, Model.vsubw_s16]
  cpp_simp
  cpp_loop (fun D => [(68, .vec .s32 4 D), (77, .vec .s16 4 (Arr.ofVec M)), (78, .vec .s32 4 (Arr.ofVec N))])
  · rintro i D h1 h2
    cpp_body
  · rintro D
    cpp_simp

/-- `neon_sim.cpp:2320-2328` -/
cpp_source Source.vsubw_s32 "int64x2_t vsubw_s32(int64x2_t N, int32x2_t M)
{
    int64x2_t D;
    for (size_t i = 0; i < 2; i++)
    {
        D.val[i] = N.val[i] - (int64_t)(M.val[i]);
    }
    return D;
}
"

theorem Props.vsubw_s32_source [Dialect] (N : int64x2_t) (M : int32x2_t) :
    Runs Source.vsubw_s32 [.ofVec N, .ofVec M] (Obj.ofVec <$> Model.vsubw_s32 N M) := by
  refine ⟨_, Source.vsubw_s32_parse, 1000, fun fuel hf => ?_⟩
  simp only [Source.vsubw_s32_ast, Model.vsubw_s32]
  cpp_simp
  cpp_loop (fun D => [(68, .vec .s64 2 D), (77, .vec .s32 2 (Arr.ofVec M)), (78, .vec .s64 2 (Arr.ofVec N))])
  · rintro i D h1 h2
    cpp_body
  · rintro D
    cpp_simp

/-- `neon_sim.cpp:2330-2338` -/
cpp_source Source.vsubw_u8 "uint16x8_t vsubw_u8(uint16x8_t N, uint8x8_t M)
{
    uint16x8_t D;
    for (size_t i = 0; i < 8; i++)
    {
        D.val[i] = N.val[i] - (uint16_t)(M.val[i]);
    }
    return D;
}
"

theorem Props.vsubw_u8_source [Dialect] (N : uint16x8_t) (M : uint8x8_t) :
    Runs Source.vsubw_u8 [.ofVec N, .ofVec M] (Obj.ofVec <$> Model.vsubw_u8 N M) := by
  refine ⟨_, Source.vsubw_u8_parse, 1000, fun fuel hf => ?_⟩
  simp only [Source.vsubw_u8_ast, Model.vsubw_u8]
  cpp_simp
  cpp_loop (fun D => [(68, .vec .u16 8 D), (77, .vec .u8 8 (Arr.ofVec M)), (78, .vec .u16 8 (Arr.ofVec N))])
  · rintro i D h1 h2
    cpp_body
  · rintro D
    cpp_simp

/-- `neon_sim.cpp:2340-2348` -/
cpp_source Source.vsubw_u16 "uint32x4_t vsubw_u16(uint32x4_t N, uint16x4_t M)
{
    uint32x4_t D;
    for (size_t i = 0; i < 4; i++)
    {
        D.val[i] = N.val[i] - (uint32_t)(M.val[i]);
    }
    return D;
}
"

theorem Props.vsubw_u16_source [Dialect] (N : uint32x4_t) (M : uint16x4_t) :
    Runs Source.vsubw_u16 [.ofVec N, .ofVec M] (Obj.ofVec <$> Model.vsubw_u16 N M) := by
  refine ⟨_, Source.vsubw_u16_parse, 1000, fun fuel hf => ?_⟩
  simp only [Source.vsubw_u16_ast, Model.vsubw_u16]
  cpp_simp
  cpp_loop (fun D => [(68, .vec .u32 4 D), (77, .vec .u16 4 (Arr.ofVec M)), (78, .vec .u32 4 (Arr.ofVec N))])
  · rintro i D h1 h2
    cpp_body
  · rintro D
    cpp_simp

/-- `neon_sim.cpp:2350-2358` -/
cpp_source Source.vsubw_u32 "uint64x2_t vsubw_u32(uint64x2_t N, uint32x2_t M)
{
    uint64x2_t D;
    for (size_t i = 0; i < 2; i++)
    {
        D.val[i] = N.val[i] - (uint64_t)(M.val[i]);
    }
    return D;
}
"

theorem Props.vsubw_u32_source [Dialect] (N : uint64x2_t) (M : uint32x2_t) :
    Runs Source.vsubw_u32 [.ofVec N, .ofVec M] (Obj.ofVec <$> Model.vsubw_u32 N M) := by
  refine ⟨_, Source.vsubw_u32_parse, 1000, fun fuel hf => ?_⟩
  simp only [Source.vsubw_u32_ast, Model.vsubw_u32]
  cpp_simp
  cpp_loop (fun D => [(68, .vec .u64 2 D), (77, .vec .u32 2 (Arr.ofVec M)), (78, .vec .u64 2 (Arr.ofVec N))])
  · rintro i D h1 h2
    cpp_body
  · rintro D
    cpp_simp

/-- `neon_sim.cpp:2360-2380` -/
cpp_source Source.vqsub_u8 "uint8x8_t vqsub_u8(uint8x8_t N, uint8x8_t M)
{
    uint8x8_t D;
    for (size_t i = 0; i < 8; i++)
    {
        int16_t temp = (int16_t)N.val[i] - (int16_t)M.val[i];
        if (temp > UINT8_MAX)
        {
            D.val[i] = UINT8_MAX;
        }
        else if (temp < 0)
        {
            D.val[i] = 0;
        }
        else
        {
            D.val[i] = temp;
        }
    }
    return D;
}
"

theorem Props.vqsub_u8_source [Dialect] (N : uint8x8_t) (M : uint8x8_t) :
    Runs Source.vqsub_u8 [.ofVec N, .ofVec M] (Obj.ofVec <$> Model.vqsub_u8 N M) := by
  refine ⟨_, Source.vqsub_u8_parse, 1000, fun fuel hf => ?_⟩
  simp only [Source.vqsub_u8_ast, Model.vqsub_u8]
  cpp_simp
  cpp_loop (fun D => [(68, .vec .u8 8 D), (77, .vec .u8 8 (Arr.ofVec M)), (78, .vec .u8 8 (Arr.ofVec N))])
  · rintro i D h1 h2
    cpp_body
  · rintro D
    cpp_simp

/-- `neon_sim.cpp:2382-2402` -/
cpp_source Source.vqsub_u16 "uint16x4_t vqsub_u16(uint16x4_t N, uint16x4_t M)
{
    uint16x4_t D;
    for (size_t i = 0; i < 4; i++)
    {
        int32_t temp = (int32_t)N.val[i] - (int32_t)M.val[i];
        if (temp > UINT16_MAX)
        {
            D.val[i] = UINT16_MAX;
        }
        else if (temp < 0)
        {
            D.val[i] = 0;
        }
        else
        {
            D.val[i] = temp;
        }
    }
    return D;
}
"

theorem Props.vqsub_u16_source [Dialect] (N : uint16x4_t) (M : uint16x4_t) :
    Runs Source.vqsub_u16 [.ofVec N, .ofVec M] (Obj.ofVec <$> Model.vqsub_u16 N M) := by
  refine ⟨_, Source.vqsub_u16_parse, 1000, fun fuel hf => ?_⟩
  simp only [Source.vqsub_u16_ast, Model.vqsub_u16]
  cpp_simp
  cpp_loop (fun D => [(68, .vec .u16 4 D), (77, .vec .u16 4 (Arr.ofVec M)), (78, .vec .u16 4 (Arr.ofVec N))])
  · rintro i D h1 h2
    cpp_body
  · rintro D
    cpp_simp

/-- `neon_sim.cpp:2404-2424` -/
cpp_source Source.vqsub_u32 "uint32x2_t vqsub_u32(uint32x2_t N, uint32x2_t M)
{
    uint32x2_t D;
    for (size_t i = 0; i < 2; i++)
    {
        int64_t temp = (int64_t)N.val[i] - (int64_t)M.val[i];
        if (temp > UINT32_MAX)
        {
            D.val[i] = UINT32_MAX;
        }
        else if (temp < 0)
        {
            D.val[i] = 0;
        }
        else
        {
            D.val[i] = temp;
        }
    }
    return D;
}
"

theorem Props.vqsub_u32_source [Dialect] (N : uint32x2_t) (M : uint32x2_t) :
    Runs Source.vqsub_u32 [.ofVec N, .ofVec M] (Obj.ofVec <$> Model.vqsub_u32 N M) := by
  refine ⟨_, Source.vqsub_u32_parse, 1000, fun fuel hf => ?_⟩
  simp only [Source.vqsub_u32_ast, Model.vqsub_u32]
  cpp_simp
  cpp_loop (fun D => [(68, .vec .u32 2 D), (77, .vec .u32 2 (Arr.ofVec M)), (78, .vec .u32 2 (Arr.ofVec N))])
  · rintro i D h1 h2
    cpp_body
  · rintro D
    cpp_simp

/-- `neon_sim.cpp:2426-2446` -/
cpp_source Source.vqsub_u64 "uint64x1_t vqsub_u64(uint64x1_t N, uint64x1_t M)
{
    uint64x1_t D;
    for (size_t i = 0; i < 1; i++)
    {
        double temp = (double)N.val[i] - (double)M.val[i];
        if (temp > (double)(UINT64_MAX))
        {
            D.val[i] = UINT64_MAX;
        }
        else if (temp < 0)
        {
            D.val[i] = 0;
        }
        else
        {
            D.val[i] = temp;
        }
    }
    return D;
}
"

theorem Props.vqsub_u64_source [Dialect] (N : uint64x1_t) (M : uint64x1_t) :
    Runs Source.vqsub_u64 [.ofVec N, .ofVec M] (Obj.ofVec <$> Model.vqsub_u64 N M) := by
  refine ⟨_, Source.vqsub_u64_parse, 1000, fun fuel hf => ?_⟩
  simp only [Source.vqsub_u64_ast, Model.vqsub_u64]
  cpp_simp
  cpp_loop (fun D => [(68, .vec .u64 1 D), (77, .vec .u64 1 (Arr.ofVec M)), (78, .vec .u64 1 (Arr.ofVec N))])
  · rintro i D h1 h2
    cpp_body
  · rintro D
    cpp_simp

/-- `neon_sim.cpp:2449-2469` -/
cpp_source Source.vqsubq_s8 "int8x16_t vqsubq_s8(int8x16_t N, int8x16_t M)
{
    int8x16_t D;
    for (size_t i = 0; i < 16; i++)
    {
        int16_t temp = (int16_t)N.val[i] - (int16_t)M.val[i];
        if (temp > INT8_MAX)
        {
            D.val[i] = INT8_MAX;
        }
        else if (temp < INT8_MIN)
        {
            D.val[i] = INT8_MIN;
        }
        else
        {
            D.val[i] = temp;
        }
    }
    return D;
}
"

theorem Props.vqsubq_s8_source [Dialect] (N : int8x16_t) (M : int8x16_t) :
    Runs Source.vqsubq_s8 [.ofVec N, .ofVec M] (Obj.ofVec <$> Model.vqsubq_s8 N M) := by
  refine ⟨_, Source.vqsubq_s8_parse, 1000, fun fuel hf => ?_⟩
  simp only [Source.vqsubq_s8_ast, Model.vqsubq_s8]
  cpp_simp
  cpp_loop (fun D => [(68, .vec .s8 16 D), (77, .vec .s8 16 (Arr.ofVec M)), (78, .vec .s8 16 (Arr.ofVec N))])
  · rintro i D h1 h2
    cpp_body
  · rintro D
    cpp_simp

/-- `neon_sim.cpp:2471-2491` -/
cpp_source Source.vqsubq_s16 "int16x8_t vqsubq_s16(int16x8_t N, int16x8_t M)
{
    int16x8_t D;
    for (size_t i = 0; i < 8; i++)
    {
        int32_t temp = (int32_t)N.val[i] - (int32_t)M.val[i];
        if (temp > INT16_MAX)
        {
            D.val[i] = INT16_MAX;
        }
        else if (temp < INT16_MIN)
        {
            D.val[i] = INT16_MIN;
        }
        else
        {
            D.val[i] = temp;
        }
    }
    return D;
}
"

theorem Props.vqsubq_s16_source [Dialect] (N : int16x8_t) (M : int16x8_t) :
    Runs Source.vqsubq_s16 [.ofVec N, .ofVec M] (Obj.ofVec <$> Model.vqsubq_s16 N M) := by
  refine ⟨_, Source.vqsubq_s16_parse, 1000, fun fuel hf => ?_⟩
  simp only [Source.vqsubq_s16_ast, Model.vqsubq_s16]
  cpp_simp
  cpp_loop (fun D => [(68, .vec .s16 8 D), (77, .vec .s16 8 (Arr.ofVec M)), (78, .vec .s16 8 (Arr.ofVec N))])
  · rintro i D h1 h2
    cpp_body
  · rintro D
    cpp_simp

/-- `neon_sim.cpp:2493-2513` -/
cpp_source Source.vqsubq_s32 "int32x4_t vqsubq_s32(int32x4_t N, int32x4_t M)
{
    int32x4_t D;
    for (size_t i = 0; i < 4; i++)
    {
        int64_t temp = (int64_t)N.val[i] - (int64_t)M.val[i];
        if (temp > INT32_MAX)
        {
            D.val[i] = INT32_MAX;
        }
        else if (temp < INT32_MIN)
        {
            D.val[i] = INT32_MIN;
        }
        else
        {
            D.val[i] = temp;
        }
    }
    return D;
}
"

theorem Props.vqsubq_s32_source [Dialect] (N : int32x4_t) (M : int32x4_t) :
    Runs Source.vqsubq_s32 [.ofVec N, .ofVec M] (Obj.ofVec <$> Model.vqsubq_s32 N M) := by
  refine ⟨_, Source.vqsubq_s32_parse, 1000, fun fuel hf => ?_⟩
  simp only [Source.vqsubq_s32_ast, Model.vqsubq_s32]
  cpp_simp
  cpp_loop (fun D => [(68, .vec .s32 4 D), (77, .vec .s32 4 (Arr.ofVec M)), (78, .vec .s32 4 (Arr.ofVec N))])
  · rintro i D h1 h2
    cpp_body
  · rintro D
    cpp_simp

/-- `neon_sim.cpp:2515-2535` -/
cpp_source Source.vqsubq_s64 "int64x2_t vqsubq_s64(int64x2_t N, int64x2_t M)
{
    int64x2_t D;
    for (size_t i = 0; i < 2; i++)
    {
        double temp = (double)N.val[i] - (double)M.val[i];
        if (temp > (double)(INT64_MAX))
        {
            D.val[i] = INT64_MAX;
        }
        else if (temp < INT64_MIN)
        {
            D.val[i] = INT64_MIN;
        }
        else
        {
            D.val[i] = temp;
        }
    }
    return D;
}
"

theorem Props.vqsubq_s64_source [Dialect] (N : int64x2_t) (M : int64x2_t) :
    Runs Source.vqsubq_s64 [.ofVec N, .ofVec M] (Obj.ofVec <$> Model.vqsubq_s64 N M) := by
  refine ⟨_, Source.vqsubq_s64_parse, 1000, fun fuel hf => ?_⟩
  simp only [Source.vqsubq_s64_ast, Model.vqsubq_s64]
  cpp_simp
  cpp_loop (fun D => [(68, .vec .s64 2 D), (77, .vec .s64 2 (Arr.ofVec M)), (78, .vec .s64 2 (Arr.ofVec N))])
  · rintro i D h1 h2
    cpp_body
  · rintro D
    cpp_simp

/-- `neon_sim.cpp:2537-2557` -/
cpp_source Source.vqsubq_u8 "uint8x16_t vqsubq_u8(uint8x16_t N, uint8x16_t M)
{
    uint8x16_t D;
    for (size_t i = 0; i < 16; i++)
    {
        int16_t temp = (int16_t)N.val[i] - (int16_t)M.val[i];
        if (temp > UINT8_MAX)
        {
            D.val[i] = UINT8_MAX;
        }
        else if (temp < 0)
        {
            D.val[i] = 0;
        }
        else
        {
            D.val[i] = temp;
        }
    }
    return D;
}
"

theorem Props.vqsubq_u8_source [Dialect] (N : uint8x16_t) (M : uint8x16_t) :
    Runs Source.vqsubq_u8 [.ofVec N, .ofVec M] (Obj.ofVec <$> Model.vqsubq_u8 N M) := by
  refine ⟨_, Source.vqsubq_u8_parse, 1000, fun fuel hf => ?_⟩
  simp only [Source.vqsubq_u8_ast, Model.vqsubq_u8]
  cpp_simp
  cpp_loop (fun D => [(68, .vec .u8 16 D), (77, .vec .u8 16 (Arr.ofVec M)), (78, .vec .u8 16 (Arr.ofVec N))])
  · rintro i D h1 h2
    cpp_body
  · rintro D
    cpp_simp

/-- `neon_sim.cpp:2559-2579` -/
cpp_source Source.vqsubq_u16 "uint16x8_t vqsubq_u16(uint16x8_t N, uint16x8_t M)
{
    uint16x8_t D;
    for (size_t i = 0; i < 8; i++)
    {
        int32_t temp = (int32_t)N.val[i] - (int32_t)M.val[i];
        if (temp > UINT16_MAX)
        {
            D.val[i] = UINT16_MAX;
        }
        else if (temp < 0)
        {
            D.val[i] = 0;
        }
        else
        {
            D.val[i] = temp;
        }
    }
    return D;
}
"

theorem Props.vqsubq_u16_source [Dialect] (N : uint16x8_t) (M : uint16x8_t) :
    Runs Source.vqsubq_u16 [.ofVec N, .ofVec M] (Obj.ofVec <$> Model.vqsubq_u16 N M) := by
  refine ⟨_, Source.vqsubq_u16_parse, 1000, fun fuel hf => ?_⟩
  simp only [Source.vqsubq_u16_ast, Model.vqsubq_u16]
  cpp_simp
  cpp_loop (fun D => [(68, .vec .u16 8 D), (77, .vec .u16 8 (Arr.ofVec M)), (78, .vec .u16 8 (Arr.ofVec N))])
  · rintro i D h1 h2
    cpp_body
  · rintro D
    cpp_simp

/-- `neon_sim.cpp:2581-2601` -/
cpp_source Source.vqsubq_u32 "uint32x4_t vqsubq_u32(uint32x4_t N, uint32x4_t M)
{
    uint32x4_t D;
    for (size_t i = 0; i < 4; i++)
    {
        int64_t temp = (int64_t)N.val[i] - (int64_t)M.val[i];
        if (temp > UINT32_MAX)
        {
            D.val[i] = UINT32_MAX;
        }
        else if (temp < 0)
        {
            D.val[i] = 0;
        }
        else
        {
            D.val[i] = temp;
        }
    }
    return D;
}
"

theorem Props.vqsubq_u32_source [Dialect] (N : uint32x4_t) (M : uint32x4_t) :
    Runs Source.vqsubq_u32 [.ofVec N, .ofVec M] (Obj.ofVec <$> Model.vqsubq_u32 N M) := by
  refine ⟨_, Source.vqsubq_u32_parse, 1000, fun fuel hf => ?_⟩
  simp only [Source.vqsubq_u32_ast, Model.vqsubq_u32]
  cpp_simp
  cpp_loop (fun D => [(68, .vec .u32 4 D), (77, .vec .u32 4 (Arr.ofVec M)), (78, .vec .u32 4 (Arr.ofVec N))])
  · rintro i D h1 h2
    cpp_body
  · rintro D
    cpp_simp

/-- `neon_sim.cpp:2603-2623` -/
cpp_source Source.vqsubq_u64 "uint64x2_t vqsubq_u64(uint64x2_t N, uint64x2_t M)
{
    uint64x2_t D;
    for (size_t i = 0; i < 2; i++)
    {
        double temp = (double)N.val[i] - (double)M.val[i];
        if (temp > (double)(UINT64_MAX))
        {
            D.val[i] = UINT64_MAX;
        }
        else if (temp < 0)
        {
            D.val[i] = 0;
        }
        else
        {
            D.val[i] = temp;
        }
    }
    return D;
}
"

theorem Props.vqsubq_u64_source [Dialect] (N : uint64x2_t) (M : uint64x2_t) :
    Runs Source.vqsubq_u64 [.ofVec N, .ofVec M] (Obj.ofVec <$> Model.vqsubq_u64 N M) := by
  refine ⟨_, Source.vqsubq_u64_parse, 1000, fun fuel hf => ?_⟩
  simp only [Source.vqsubq_u64_ast, Model.vqsubq_u64]
  cpp_simp
  cpp_loop (fun D => [(68, .vec .u64 2 D), (77, .vec .u64 2 (Arr.ofVec M)), (78, .vec .u64 2 (Arr.ofVec N))])
  · rintro i D h1 h2
    cpp_body
  · rintro D
    cpp_simp

/-- `neon_sim.cpp:2625-2635` -/
cpp_source Source.vrsubhn_s16 "int8x8_t vrsubhn_s16(int16x8_t N, int16x8_t M)
{
    int8x8_t D;
    const int16_t shift = 8;
    const int16_t delta = (1 << (shift - 1));
    for (int i = 0; i < 8; i++)
    {
        D.val[i] = (N.val[i] - M.val[i] + delta) >> shift;
    }
    return D;
}
"

theorem Props.vrsubhn_s16_source [Dialect] (N : int16x8_t) (M : int16x8_t) :
    Runs Source.vrsubhn_s16 [.ofVec N, .ofVec M] (Obj.ofVec <$> Model.vrsubhn_s16 N M) := by
  refine ⟨_, Source.vrsubhn_s16_parse, 1000, fun fuel hf => ?_⟩
  simp only [Source.vrsubhn_s16_ast, Model.vrsubhn_s16]
  cpp_simp
  cpp_bind shift
  cpp_bind t
  cpp_bind t
  cpp_bind delta
  cpp_loop (fun D => [(431198336097, .sc .s16 (some delta)), (495672977012, .sc .s16 (some shift)), (68, .vec .s8 8 D), (77, .vec .s16 8 (Arr.ofVec M)), (78, .vec .s16 8 (Arr.ofVec N))])
  · rintro i D h1 h2
    cpp_body
  · rintro D
    cpp_simp

/-- `neon_sim.cpp:2637-2647` -/
cpp_source Source.vrsubhn_s32 "int16x4_t vrsubhn_s32(int32x4_t N, int32x4_t M)
{
    int16x4_t D;
    const int32_t shift = 16;
    const int32_t delta = (1 << (shift - 1));
    for (int i = 0; i < 4; i++)
    {
        D.val[i] = (N.val[i] - M.val[i] + delta) >> shift;
    }
    return D;
}
"

theorem Props.vrsubhn_s32_source [Dialect] (N : int32x4_t) (M : int32x4_t) :
    Runs Source.vrsubhn_s32 [.ofVec N, .ofVec M] (Obj.ofVec <$> Model.vrsubhn_s32 N M) := by
  refine ⟨_, Source.vrsubhn_s32_parse, 1000, fun fuel hf => ?_⟩
  simp only [Source.vrsubhn_s32_ast, Model.vrsubhn_s32]
  cpp_simp
  cpp_bind shift
  cpp_bind t
  cpp_bind t
  cpp_bind delta
  cpp_loop (fun D => [(431198336097, .sc .s32 (some delta)), (495672977012, .sc .s32 (some shift)), (68, .vec .s16 4 D), (77, .vec .s32 4 (Arr.ofVec M)), (78, .vec .s32 4 (Arr.ofVec N))])
  · rintro i D h1 h2
    cpp_body
  · rintro D
    cpp_simp

/-- `neon_sim.cpp:2649-2659` -/
cpp_source Source.vrsubhn_s64 "int32x2_t vrsubhn_s64(int64x2_t N, int64x2_t M)
{
    int32x2_t D;
    const int64_t shift = 32;
    const int64_t delta = (1 << (shift - 1));
    for (int i = 0; i < 2; i++)
    {
        D.val[i] = (N.val[i] - M.val[i] + delta) >> shift;
    }
    return D;
}
"

theorem Props.vrsubhn_s64_source [Dialect] (N : int64x2_t) (M : int64x2_t) :
    Runs Source.vrsubhn_s64 [.ofVec N, .ofVec M] (Obj.ofVec <$> Model.vrsubhn_s64 N M) := by
  refine ⟨_, Source.vrsubhn_s64_parse, 1000, fun fuel hf => ?_⟩
  simp only [Source.vrsubhn_s64_ast, Model.vrsubhn_s64]
  cpp_simp
  cpp_bind shift
  cpp_bind t
  cpp_bind t
  cpp_bind delta
  cpp_loop (fun D => [(431198336097, .sc .s64 (some delta)), (495672977012, .sc .s64 (some shift)), (68, .vec .s32 2 D), (77, .vec .s64 2 (Arr.ofVec M)), (78, .vec .s64 2 (Arr.ofVec N))])
  · rintro i D h1 h2
    cpp_body
  · rintro D
    cpp_simp

/-- `neon_sim.cpp:2661-2671` -/
cpp_source Source.vrsubhn_u16 "uint8x8_t vrsubhn_u16(uint16x8_t N, uint16x8_t M)
{
    uint8x8_t D;
    const uint16_t shift = 8;
    const uint16_t delta = (1 << (shift - 1));
    for (int i = 0; i < 8; i++)
    {
        D.val[i] = (N.val[i] - M.val[i] + delta) >> shift;
    }
    return D;
}
"

theorem Props.vrsubhn_u16_source [Dialect] (N : uint16x8_t) (M : uint16x8_t) :
    Runs Source.vrsubhn_u16 [.ofVec N, .ofVec M] (Obj.ofVec <$> Model.vrsubhn_u16 N M) := by
  refine ⟨_, Source.vrsubhn_u16_parse, 1000, fun fuel hf => ?_⟩
  simp only [Source.vrsubhn_u16_ast, Model.vrsubhn_u16]
  cpp_simp
  cpp_bind shift
  cpp_bind t
  cpp_bind t
  cpp_bind delta
  cpp_loop (fun D => [(431198336097, .sc .u16 (some delta)), (495672977012, .sc .u16 (some shift)), (68, .vec .u8 8 D), (77, .vec .u16 8 (Arr.ofVec M)), (78, .vec .u16 8 (Arr.ofVec N))])
  · rintro i D h1 h2
    cpp_body
  · rintro D
    cpp_simp

/-- `neon_sim.cpp:2673-2683` -/
cpp_source Source.vrsubhn_u32 "uint16x4_t vrsubhn_u32(uint32x4_t N, uint32x4_t M)
{
    uint16x4_t D;
    const uint32_t shift = 16;
    const uint32_t delta = (1 << (shift - 1));
    for (int i = 0; i < 4; i++)
    {
        D.val[i] = (N.val[i] - M.val[i] + delta) >> shift;
    }
    return D;
}
"

theorem Props.vrsubhn_u32_source [Dialect] (N : uint32x4_t) (M : uint32x4_t) :
    Runs Source.vrsubhn_u32 [.ofVec N, .ofVec M] (Obj.ofVec <$> Model.vrsubhn_u32 N M) := by
  refine ⟨_, Source.vrsubhn_u32_parse, 1000, fun fuel hf => ?_⟩
  simp only [Source.vrsubhn_u32_ast, Model.vrsubhn_u32]
  cpp_simp
  cpp_bind shift
  cpp_bind t
  cpp_bind t
  cpp_bind delta
  cpp_loop (fun D => [(431198336097, .sc .u32 (some delta)), (495672977012, .sc .u32 (some shift)), (68, .vec .u16 4 D), (77, .vec .u32 4 (Arr.ofVec M)), (78, .vec .u32 4 (Arr.ofVec N))])
  · rintro i D h1 h2
    cpp_body
  · rintro D
    cpp_simp

/-- `neon_sim.cpp:2685-2695` -/
cpp_source Source.vrsubhn_u64 "uint32x2_t vrsubhn_u64(uint64x2_t N, uint64x2_t M)
{
    uint32x2_t D;
    const uint64_t shift = 32;
    const uint64_t delta = (1 << (shift - 1));
    for (int i = 0; i < 2; i++)
    {
        D.val[i] = (N.val[i] - M.val[i] + delta) >> shift;
    }
    return D;
}
"

theorem Props.vrsubhn_u64_source [Dialect] (N : uint64x2_t) (M : uint64x2_t) :
    Runs Source.vrsubhn_u64 [.ofVec N, .ofVec M] (Obj.ofVec <$> Model.vrsubhn_u64 N M) := by
  refine ⟨_, Source.vrsubhn_u64_parse, 1000, fun fuel hf => ?_⟩
  simp only [Source.vrsubhn_u64_ast, Model.vrsubhn_u64]
  cpp_simp
  cpp_bind shift
  cpp_bind t
  cpp_bind t
  cpp_bind delta
  cpp_loop (fun D => [(431198336097, .sc .u64 (some delta)), (495672977012, .sc .u64 (some shift)), (68, .vec .u32 2 D), (77, .vec .u64 2 (Arr.ofVec M)), (78, .vec .u64 2 (Arr.ofVec N))])
  · rintro i D h1 h2
    cpp_body
  · rintro D
    cpp_simp

end Verif
