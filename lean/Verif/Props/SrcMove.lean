import Verif.Cpp.Command
import Verif.Model.Move

/-! Source text of the functions in `Verif/Model/Move.lean`, and the theorem that running it is running the model.
Generated by `tools/gen_source.py`. -/

set_option linter.unusedVariables false
set_option linter.unusedSimpArgs false
set_option maxHeartbeats 1000000

open Verif.Cpp

namespace Verif

/-- `neon_sim.cpp:3273-3281` -/
cpp_source Source.vdup_n_s8 "int8x8_t vdup_n_s8(int8_t N)
{
    int8x8_t D;
    for (size_t i = 0; i < 8; i++)
    {
        D.val[i] = N;
    }
    return D;
}
"

theorem Props.vdup_n_s8_source [Dialect] (N : int8_t) :
    Runs Source.vdup_n_s8 [.ofScalar .s8 N] (Obj.ofVec <$> Model.vdup_n_s8 N) := by
  refine ⟨_, Source.vdup_n_s8_parse, 1000, fun fuel hf => ?_⟩
  simp only [Source.vdup_n_s8_ast, Model.vdup_n_s8]
  cpp_simp
  cpp_loop (fun D => [(68, .vec .s8 8 D), (78, .sc .s8 (some (.ofBits .s8 N)))])
  · rintro i D h1 h2
    cpp_body
  · rintro D
    cpp_simp

/-- `neon_sim.cpp:3283-3291` -/
cpp_source Source.vdup_n_s16 "int16x4_t vdup_n_s16(int16_t N)
{
    int16x4_t D;
    for (size_t i = 0; i < 4; i++)
    {
        D.val[i] = N;
    }
    return D;
}
"

theorem Props.vdup_n_s16_source [Dialect] (N : int16_t) :
    Runs Source.vdup_n_s16 [.ofScalar .s16 N] (Obj.ofVec <$> Model.vdup_n_s16 N) := by
  refine ⟨_, Source.vdup_n_s16_parse, 1000, fun fuel hf => ?_⟩
  simp only [Source.vdup_n_s16_ast, Model.vdup_n_s16]
  cpp_simp
  cpp_loop (fun D => [(68, .vec .s16 4 D), (78, .sc .s16 (some (.ofBits .s16 N)))])
  · rintro i D h1 h2
    cpp_body
  · rintro D
    cpp_simp

/-- `neon_sim.cpp:3293-3301` -/
cpp_source Source.vdup_n_s32 "int32x2_t vdup_n_s32(int32_t N)
{
    int32x2_t D;
    for (size_t i = 0; i < 2; i++)
    {
        D.val[i] = N;
    }
    return D;
}
"

theorem Props.vdup_n_s32_source [Dialect] (N : int32_t) :
    Runs Source.vdup_n_s32 [.ofScalar .s32 N] (Obj.ofVec <$> Model.vdup_n_s32 N) := by
  refine ⟨_, Source.vdup_n_s32_parse, 1000, fun fuel hf => ?_⟩
  simp only [Source.vdup_n_s32_ast, Model.vdup_n_s32]
  cpp_simp
  cpp_loop (fun D => [(68, .vec .s32 2 D), (78, .sc .s32 (some (.ofBits .s32 N)))])
  · rintro i D h1 h2
    cpp_body
  · rintro D
    cpp_simp

/-- `neon_sim.cpp:3303-3311` -/
cpp_source Source.vdup_n_s64 "int64x1_t vdup_n_s64(int64_t N)
{
    int64x1_t D;
    for (size_t i = 0; i < 1; i++)
    {
        D.val[i] = N;
    }
    return D;
}
"

theorem Props.vdup_n_s64_source [Dialect] (N : int64_t) :
    Runs Source.vdup_n_s64 [.ofScalar .s64 N] (Obj.ofVec <$> Model.vdup_n_s64 N) := by
  refine ⟨_, Source.vdup_n_s64_parse, 1000, fun fuel hf => ?_⟩
  simp only [Source.vdup_n_s64_ast, Model.vdup_n_s64]
  cpp_simp
  cpp_loop (fun D => [(68, .vec .s64 1 D), (78, .sc .s64 (some (.ofBits .s64 N)))])
  · rintro i D h1 h2
    cpp_body
  · rintro D
    cpp_simp

/-- `neon_sim.cpp:3313-3321` -/
cpp_source Source.vdup_n_u8 "uint8x8_t vdup_n_u8(uint8_t N)
{
    uint8x8_t D;
    for (size_t i = 0; i < 8; i++)
    {
        D.val[i] = N;
    }
    return D;
}
"

theorem Props.vdup_n_u8_source [Dialect] (N : uint8_t) :
    Runs Source.vdup_n_u8 [.ofScalar .u8 N] (Obj.ofVec <$> Model.vdup_n_u8 N) := by
  refine ⟨_, Source.vdup_n_u8_parse, 1000, fun fuel hf => ?_⟩
  simp only [Source.vdup_n_u8_ast, Model.vdup_n_u8]
  cpp_simp
  cpp_loop (fun D => [(68, .vec .u8 8 D), (78, .sc .u8 (some (.ofBits .u8 N)))])
  · rintro i D h1 h2
    cpp_body
  · rintro D
    cpp_simp

/-- `neon_sim.cpp:3323-3331` -/
cpp_source Source.vdup_n_u16 "uint16x4_t vdup_n_u16(uint16_t N)
{
    uint16x4_t D;
    for (size_t i = 0; i < 4; i++)
    {
        D.val[i] = N;
    }
    return D;
}
"

theorem Props.vdup_n_u16_source [Dialect] (N : uint16_t) :
    Runs Source.vdup_n_u16 [.ofScalar .u16 N] (Obj.ofVec <$> Model.vdup_n_u16 N) := by
  refine ⟨_, Source.vdup_n_u16_parse, 1000, fun fuel hf => ?_⟩
  simp only [Source.vdup_n_u16_ast, Model.vdup_n_u16]
  cpp_simp
  cpp_loop (fun D => [(68, .vec .u16 4 D), (78, .sc .u16 (some (.ofBits .u16 N)))])
  · rintro i D h1 h2
    cpp_body
  · rintro D
    cpp_simp

/-- `neon_sim.cpp:3333-3341` -/
cpp_source Source.vdup_n_u32 "uint32x2_t vdup_n_u32(uint32_t N)
{
    uint32x2_t D;
    for (size_t i = 0; i < 2; i++)
    {
        D.val[i] = N;
    }
    return D;
}
"

theorem Props.vdup_n_u32_source [Dialect] (N : uint32_t) :
    Runs Source.vdup_n_u32 [.ofScalar .u32 N] (Obj.ofVec <$> Model.vdup_n_u32 N) := by
  refine ⟨_, Source.vdup_n_u32_parse, 1000, fun fuel hf => ?_⟩
  simp only [Source.vdup_n_u32_ast, Model.vdup_n_u32]
  cpp_simp
  cpp_loop (fun D => [(68, .vec .u32 2 D), (78, .sc .u32 (some (.ofBits .u32 N)))])
  · rintro i D h1 h2
    cpp_body
  · rintro D
    cpp_simp

/-- `neon_sim.cpp:3343-3351` -/
cpp_source Source.vdup_n_u64 "uint64x1_t vdup_n_u64(uint64_t N)
{
    uint64x1_t D;
    for (size_t i = 0; i < 1; i++)
    {
        D.val[i] = N;
    }
    return D;
}
"

theorem Props.vdup_n_u64_source [Dialect] (N : uint64_t) :
    Runs Source.vdup_n_u64 [.ofScalar .u64 N] (Obj.ofVec <$> Model.vdup_n_u64 N) := by
  refine ⟨_, Source.vdup_n_u64_parse, 1000, fun fuel hf => ?_⟩
  simp only [Source.vdup_n_u64_ast, Model.vdup_n_u64]
  cpp_simp
  cpp_loop (fun D => [(68, .vec .u64 1 D), (78, .sc .u64 (some (.ofBits .u64 N)))])
  · rintro i D h1 h2
    cpp_body
  · rintro D
    cpp_simp

/-- `neon_sim.cpp:3354-3362` -/
cpp_source Source.vdupq_n_u8 "uint8x16_t vdupq_n_u8(uint8_t value)
{
    uint8x16_t r;
    for (int i = 0; i < 16; i++)
    {
        r.val[i] =  value;
    }
    return r;
}
"

theorem Props.vdupq_n_u8_source [Dialect] (value : uint8_t) :
    Runs Source.vdupq_n_u8 [.ofScalar .u8 value] (Obj.ofVec <$> Model.vdupq_n_u8 value) := by
  refine ⟨_, Source.vdupq_n_u8_parse, 1000, fun fuel hf => ?_⟩
  simp only [Source.vdupq_n_u8_ast, Model.vdupq_n_u8]
  cpp_simp
  cpp_loop (fun r => [(114, .vec .u8 16 r), (508440638821, .sc .u8 (some (.ofBits .u8 value)))])
  · rintro i r h1 h2
    cpp_body
  · rintro r
    cpp_simp

/-- `neon_sim.cpp:3363-3371` -/
cpp_source Source.vdupq_n_s8 "int8x16_t vdupq_n_s8(int8_t value)
{
    int8x16_t r;
    for (int i = 0; i < 16; i++)
    {
        r.val[i] =  value;
    }
    return r;
}
"

theorem Props.vdupq_n_s8_source [Dialect] (value : int8_t) :
    Runs Source.vdupq_n_s8 [.ofScalar .s8 value] (Obj.ofVec <$> Model.vdupq_n_s8 value) := by
  refine ⟨_, Source.vdupq_n_s8_parse, 1000, fun fuel hf => ?_⟩
  simp only [Source.vdupq_n_s8_ast, Model.vdupq_n_s8]
  cpp_simp
  cpp_loop (fun r => [(114, .vec .s8 16 r), (508440638821, .sc .s8 (some (.ofBits .s8 value)))])
  · rintro i r h1 h2
    cpp_body
  · rintro r
    cpp_simp

/-- `neon_sim.cpp:3372-3380` -/
cpp_source Source.vdupq_n_u16 "uint16x8_t vdupq_n_u16(uint16_t value)
{
    uint16x8_t r;
    for (int i = 0; i < 8; i++)
    {
        r.val[i] =  value;
    }
    return r;
}
"

theorem Props.vdupq_n_u16_source [Dialect] (value : uint16_t) :
    Runs Source.vdupq_n_u16 [.ofScalar .u16 value] (Obj.ofVec <$> Model.vdupq_n_u16 value) := by
  refine ⟨_, Source.vdupq_n_u16_parse, 1000, fun fuel hf => ?_⟩
  simp only [Source.vdupq_n_u16_ast, Model.vdupq_n_u16]
  cpp_simp
  cpp_loop (fun r => [(114, .vec .u16 8 r), (508440638821, .sc .u16 (some (.ofBits .u16 value)))])
  · rintro i r h1 h2
    cpp_body
  · rintro r
    cpp_simp

/-- `neon_sim.cpp:3381-3389` -/
cpp_source Source.vdupq_n_s16 "int16x8_t vdupq_n_s16(int16_t value)
{
    int16x8_t r;
    for (int i = 0; i < 8; i++)
    {
        r.val[i] =  value;
    }
    return r;
}
"

theorem Props.vdupq_n_s16_source [Dialect] (value : int16_t) :
    Runs Source.vdupq_n_s16 [.ofScalar .s16 value] (Obj.ofVec <$> Model.vdupq_n_s16 value) := by
  refine ⟨_, Source.vdupq_n_s16_parse, 1000, fun fuel hf => ?_⟩
  simp only [Source.vdupq_n_s16_ast, Model.vdupq_n_s16]
  cpp_simp
  cpp_loop (fun r => [(114, .vec .s16 8 r), (508440638821, .sc .s16 (some (.ofBits .s16 value)))])
  · rintro i r h1 h2
    cpp_body
  · rintro r
    cpp_simp

/-- `neon_sim.cpp:3390-3398` -/
cpp_source Source.vdupq_n_u32 "uint32x4_t vdupq_n_u32(uint32_t value)
{
    uint32x4_t r;
    for (int i = 0; i < 4; i++)
    {
        r.val[i] =  value;
    }
    return r;
}
"

theorem Props.vdupq_n_u32_source [Dialect] (value : uint32_t) :
    Runs Source.vdupq_n_u32 [.ofScalar .u32 value] (Obj.ofVec <$> Model.vdupq_n_u32 value) := by
  refine ⟨_, Source.vdupq_n_u32_parse, 1000, fun fuel hf => ?_⟩
  simp only [Source.vdupq_n_u32_ast, Model.vdupq_n_u32]
  cpp_simp
  cpp_loop (fun r => [(114, .vec .u32 4 r), (508440638821, .sc .u32 (some (.ofBits .u32 value)))])
  · rintro i r h1 h2
    cpp_body
  · rintro r
    cpp_simp

/-- `neon_sim.cpp:3399-3407` -/
cpp_source Source.vdupq_n_s32 "int32x4_t vdupq_n_s32(int32_t value)
{
    int32x4_t r;
    for (int i = 0; i < 4; i++)
    {
        r.val[i] =  value;
    }
    return r;
}
"

theorem Props.vdupq_n_s32_source [Dialect] (value : int32_t) :
    Runs Source.vdupq_n_s32 [.ofScalar .s32 value] (Obj.ofVec <$> Model.vdupq_n_s32 value) := by
  refine ⟨_, Source.vdupq_n_s32_parse, 1000, fun fuel hf => ?_⟩
  simp only [Source.vdupq_n_s32_ast, Model.vdupq_n_s32]
  cpp_simp
  cpp_loop (fun r => [(114, .vec .s32 4 r), (508440638821, .sc .s32 (some (.ofBits .s32 value)))])
  · rintro i r h1 h2
    cpp_body
  · rintro r
    cpp_simp

/-- `neon_sim.cpp:3408-3416` -/
cpp_source Source.vdupq_n_f32 "float32x4_t vdupq_n_f32(float32_t value)
{
    float32x4_t r;
    for (int i = 0; i < 4; i++)
    {
        r.val[i] =  value;
    }
    return r;
}
"

theorem Props.vdupq_n_f32_source [Dialect] (value : float32_t) :
    Runs Source.vdupq_n_f32 [.ofScalar .f32 value] (Obj.ofVec <$> Model.vdupq_n_f32 value) := by
  refine ⟨_, Source.vdupq_n_f32_parse, 1000, fun fuel hf => ?_⟩
  simp only [Source.vdupq_n_f32_ast, Model.vdupq_n_f32]
  cpp_simp
  cpp_loop (fun r => [(114, .vec .f32 4 r), (508440638821, .sc .f32 (some (.ofBits .f32 value)))])
  · rintro i r h1 h2
    cpp_body
  · rintro r
    cpp_simp

/-- `neon_sim.cpp:3418-3426` -/
cpp_source Source.vmovq_n_f32 "float32x4_t vmovq_n_f32(float32_t value)
{
    float32x4_t r;
    for (int i = 0; i < 4; i++)
    {
        r.val[i] =  value;
    }
    return r;
}
"

theorem Props.vmovq_n_f32_source [Dialect] (value : float32_t) :
    Runs Source.vmovq_n_f32 [.ofScalar .f32 value] (Obj.ofVec <$> Model.vmovq_n_f32 value) := by
  refine ⟨_, Source.vmovq_n_f32_parse, 1000, fun fuel hf => ?_⟩
  simp only [Source.vmovq_n_f32_ast, Model.vmovq_n_f32]
  cpp_simp
  cpp_loop (fun r => [(114, .vec .f32 4 r), (508440638821, .sc .f32 (some (.ofBits .f32 value)))])
  · rintro i r h1 h2
    cpp_body
  · rintro r
    cpp_simp

/-- `neon_sim.cpp:3429-3437` -/
cpp_source Source.vget_low_f32 "float32x2_t vget_low_f32(float32x4_t a)
{
    float32x2_t r;
    for (int i = 0; i < 2; i++)
    {
        r.val[i] =  a.val[i];
    }
    return r;
}
"

theorem Props.vget_low_f32_source [Dialect] (a : float32x4_t) :
    Runs Source.vget_low_f32 [.ofVec a] (Obj.ofVec <$> Model.vget_low_f32 a) := by
  refine ⟨_, Source.vget_low_f32_parse, 1000, fun fuel hf => ?_⟩
  simp only [Source.vget_low_f32_ast, Model.vget_low_f32]
  cpp_simp
  cpp_loop (fun r => [(114, .vec .f32 2 r), (97, .vec .f32 4 (Arr.ofVec a))])
  · rintro i r h1 h2
    cpp_body
  · rintro r
    cpp_simp

/-- `neon_sim.cpp:3439-3447` -/
cpp_source Source.vget_low_s32 "int32x2_t vget_low_s32(int32x4_t a)
{
    int32x2_t r;
    for (int i = 0; i < 2; i++)
    {
        r.val[i] =  a.val[i];
    }
    return r;
}
"

theorem Props.vget_low_s32_source [Dialect] (a : int32x4_t) :
    Runs Source.vget_low_s32 [.ofVec a] (Obj.ofVec <$> Model.vget_low_s32 a) := by
  refine ⟨_, Source.vget_low_s32_parse, 1000, fun fuel hf => ?_⟩
  simp only [Source.vget_low_s32_ast, Model.vget_low_s32]
  cpp_simp
  cpp_loop (fun r => [(114, .vec .s32 2 r), (97, .vec .s32 4 (Arr.ofVec a))])
  · rintro i r h1 h2
    cpp_body
  · rintro r
    cpp_simp

/-- `neon_sim.cpp:3449-3457` -/
cpp_source Source.vget_low_u32 "uint32x2_t vget_low_u32(uint32x4_t a)
{
    uint32x2_t r;
    for (int i = 0; i < 2; i++)
    {
        r.val[i] =  a.val[i];
    }
    return r;
}
"

theorem Props.vget_low_u32_source [Dialect] (a : uint32x4_t) :
    Runs Source.vget_low_u32 [.ofVec a] (Obj.ofVec <$> Model.vget_low_u32 a) := by
  refine ⟨_, Source.vget_low_u32_parse, 1000, fun fuel hf => ?_⟩
  simp only [Source.vget_low_u32_ast, Model.vget_low_u32]
  cpp_simp
  cpp_loop (fun r => [(114, .vec .u32 2 r), (97, .vec .u32 4 (Arr.ofVec a))])
  · rintro i r h1 h2
    cpp_body
  · rintro r
    cpp_simp

/-- `neon_sim.cpp:3459-3467` -/
cpp_source Source.vget_low_s16 "int16x4_t vget_low_s16(int16x8_t a)
{
    int16x4_t r;
    for (int i = 0; i < 4; i++)
    {
        r.val[i] =  a.val[i];
    }
    return r;
}
"

theorem Props.vget_low_s16_source [Dialect] (a : int16x8_t) :
    Runs Source.vget_low_s16 [.ofVec a] (Obj.ofVec <$> Model.vget_low_s16 a) := by
  refine ⟨_, Source.vget_low_s16_parse, 1000, fun fuel hf => ?_⟩
  simp only [Source.vget_low_s16_ast, Model.vget_low_s16]
  cpp_simp
  cpp_loop (fun r => [(114, .vec .s16 4 r), (97, .vec .s16 8 (Arr.ofVec a))])
  · rintro i r h1 h2
    cpp_body
  · rintro r
    cpp_simp

/-- `neon_sim.cpp:3469-3477` -/
cpp_source Source.vget_low_u16 "uint16x4_t vget_low_u16(uint16x8_t a)
{
    uint16x4_t r;
    for (int i = 0; i < 4; i++)
    {
        r.val[i] =  a.val[i];
    }
    return r;
}
"

theorem Props.vget_low_u16_source [Dialect] (a : uint16x8_t) :
    Runs Source.vget_low_u16 [.ofVec a] (Obj.ofVec <$> Model.vget_low_u16 a) := by
  refine ⟨_, Source.vget_low_u16_parse, 1000, fun fuel hf => ?_⟩
  simp only [Source.vget_low_u16_ast, Model.vget_low_u16]
  cpp_simp
  cpp_loop (fun r => [(114, .vec .u16 4 r), (97, .vec .u16 8 (Arr.ofVec a))])
  · rintro i r h1 h2
    cpp_body
  · rintro r
    cpp_simp

/-- `neon_sim.cpp:3480-3488` -/
cpp_source Source.vget_low_s8 "int8x8_t vget_low_s8(int8x16_t a)
{
    int8x8_t r;
    for (int i = 0; i < 8; i++)
    {
        r.val[i] =  a.val[i];
    }
    return r;
}
"

theorem Props.vget_low_s8_source [Dialect] (a : int8x16_t) :
    Runs Source.vget_low_s8 [.ofVec a] (Obj.ofVec <$> Model.vget_low_s8 a) := by
  refine ⟨_, Source.vget_low_s8_parse, 1000, fun fuel hf => ?_⟩
  simp only [Source.vget_low_s8_ast, Model.vget_low_s8]
  cpp_simp
  cpp_loop (fun r => [(114, .vec .s8 8 r), (97, .vec .s8 16 (Arr.ofVec a))])
  · rintro i r h1 h2
    cpp_body
  · rintro r
    cpp_simp

/-- `neon_sim.cpp:3490-3498` -/
cpp_source Source.vget_low_u8 "uint8x8_t vget_low_u8(uint8x16_t a)
{
    uint8x8_t r;
    for (int i = 0; i < 8; i++)
    {
        r.val[i] =  a.val[i];
    }
    return r;
}
"

theorem Props.vget_low_u8_source [Dialect] (a : uint8x16_t) :
    Runs Source.vget_low_u8 [.ofVec a] (Obj.ofVec <$> Model.vget_low_u8 a) := by
  refine ⟨_, Source.vget_low_u8_parse, 1000, fun fuel hf => ?_⟩
  simp only [Source.vget_low_u8_ast, Model.vget_low_u8]
  cpp_simp
  cpp_loop (fun r => [(114, .vec .u8 8 r), (97, .vec .u8 16 (Arr.ofVec a))])
  · rintro i r h1 h2
    cpp_body
  · rintro r
    cpp_simp

/-- `neon_sim.cpp:3501-3510` -/
cpp_source Source.vget_high_f32 "float32x2_t vget_high_f32(float32x4_t a)
{
    float32x2_t r;
    int mid = 4 / 2;
    for (int i = 0; i < 2; i++)
    {
        r.val[i] =  a.val[mid + i];
    }
    return r;
}
"

theorem Props.vget_high_f32_source [Dialect] (a : float32x4_t) :
    Runs Source.vget_high_f32 [.ofVec a] (Obj.ofVec <$> Model.vget_high_f32 a) := by
  refine ⟨_, Source.vget_high_f32_parse, 1000, fun fuel hf => ?_⟩
  simp only [Source.vget_high_f32_ast, Model.vget_high_f32]
  cpp_simp
  cpp_loop (fun r => [(7170404, .sc .s32 (some (vint (4 / 2)))), (114, .vec .f32 2 r), (97, .vec .f32 4 (Arr.ofVec a))])
  · rintro i r h1 h2
    cpp_body
  · rintro r
    cpp_simp

/-- `neon_sim.cpp:3512-3521` -/
cpp_source Source.vget_high_s32 "int32x2_t vget_high_s32(int32x4_t a)
{
    int32x2_t r;
    int mid = 4 / 2;
    for (int i = 0; i < 2; i++)
    {
        r.val[i] =  a.val[mid + i];
    }
    return r;
}
"

theorem Props.vget_high_s32_source [Dialect] (a : int32x4_t) :
    Runs Source.vget_high_s32 [.ofVec a] (Obj.ofVec <$> Model.vget_high_s32 a) := by
  refine ⟨_, Source.vget_high_s32_parse, 1000, fun fuel hf => ?_⟩
  simp only [Source.vget_high_s32_ast, Model.vget_high_s32]
  cpp_simp
  cpp_loop (fun r => [(7170404, .sc .s32 (some (vint (4 / 2)))), (114, .vec .s32 2 r), (97, .vec .s32 4 (Arr.ofVec a))])
  · rintro i r h1 h2
    cpp_body
  · rintro r
    cpp_simp

/-- `neon_sim.cpp:3523-3532` -/
cpp_source Source.vget_high_s16 "int16x4_t vget_high_s16(int16x8_t a)
{
    int16x4_t r;
    int mid = 8 / 2;
    for (int i = 0; i < 4; i++)
    {
        r.val[i] =  a.val[mid + i];
    }
    return r;
}
"

theorem Props.vget_high_s16_source [Dialect] (a : int16x8_t) :
    Runs Source.vget_high_s16 [.ofVec a] (Obj.ofVec <$> Model.vget_high_s16 a) := by
  refine ⟨_, Source.vget_high_s16_parse, 1000, fun fuel hf => ?_⟩
  simp only [Source.vget_high_s16_ast, Model.vget_high_s16]
  cpp_simp
  cpp_loop (fun r => [(7170404, .sc .s32 (some (vint (8 / 2)))), (114, .vec .s16 4 r), (97, .vec .s16 8 (Arr.ofVec a))])
  · rintro i r h1 h2
    cpp_body
  · rintro r
    cpp_simp

/-- `neon_sim.cpp:3534-3543` -/
cpp_source Source.vget_high_u16 "uint16x4_t vget_high_u16(uint16x8_t a)
{
    uint16x4_t r;
    int mid = 8 / 2;
    for (int i = 0; i < 4; i++)
    {
        r.val[i] =  a.val[mid + i];
    }
    return r;
}
"

theorem Props.vget_high_u16_source [Dialect] (a : uint16x8_t) :
    Runs Source.vget_high_u16 [.ofVec a] (Obj.ofVec <$> Model.vget_high_u16 a) := by
  refine ⟨_, Source.vget_high_u16_parse, 1000, fun fuel hf => ?_⟩
  simp only [Source.vget_high_u16_ast, Model.vget_high_u16]
  cpp_simp
  cpp_loop (fun r => [(7170404, .sc .s32 (some (vint (8 / 2)))), (114, .vec .u16 4 r), (97, .vec .u16 8 (Arr.ofVec a))])
  · rintro i r h1 h2
    cpp_body
  · rintro r
    cpp_simp

/-- `neon_sim.cpp:3545-3554` -/
cpp_source Source.vget_high_u32 "uint32x2_t vget_high_u32(uint32x4_t a)
{
    uint32x2_t r;
    int mid = 4 / 2;
    for (int i = 0; i < 2; i++)
    {
        r.val[i] =  a.val[mid + i];
    }
    return r;
}
"

theorem Props.vget_high_u32_source [Dialect] (a : uint32x4_t) :
    Runs Source.vget_high_u32 [.ofVec a] (Obj.ofVec <$> Model.vget_high_u32 a) := by
  refine ⟨_, Source.vget_high_u32_parse, 1000, fun fuel hf => ?_⟩
  simp only [Source.vget_high_u32_ast, Model.vget_high_u32]
  cpp_simp
  cpp_loop (fun r => [(7170404, .sc .s32 (some (vint (4 / 2)))), (114, .vec .u32 2 r), (97, .vec .u32 4 (Arr.ofVec a))])
  · rintro i r h1 h2
    cpp_body
  · rintro r
    cpp_simp

/-- `neon_sim.cpp:3556-3565` -/
cpp_source Source.vget_high_s8 "int8x8_t vget_high_s8(int8x16_t a)
{
    int8x8_t r;
    int mid = 16 / 2;
    for (int i = 0; i < 8; i++)
    {
        r.val[i] =  a.val[mid + i];
    }
    return r;
}
"

theorem Props.vget_high_s8_source [Dialect] (a : int8x16_t) :
    Runs Source.vget_high_s8 [.ofVec a] (Obj.ofVec <$> Model.vget_high_s8 a) := by
  refine ⟨_, Source.vget_high_s8_parse, 1000, fun fuel hf => ?_⟩
  simp only [Source.vget_high_s8_ast, Model.vget_high_s8]
  cpp_simp
  cpp_loop (fun r => [(7170404, .sc .s32 (some (vint (16 / 2)))), (114, .vec .s8 8 r), (97, .vec .s8 16 (Arr.ofVec a))])
  · rintro i r h1 h2
    cpp_body
  · rintro r
    cpp_simp

/-- `neon_sim.cpp:3567-3576` -/
cpp_source Source.vget_high_u8 "uint8x8_t vget_high_u8(uint8x16_t a)
{
    uint8x8_t r;
    int mid = 16 / 2;
    for (int i = 0; i < 8; i++)
    {
        r.val[i] =  a.val[mid + i];
    }
    return r;
}
"

theorem Props.vget_high_u8_source [Dialect] (a : uint8x16_t) :
    Runs Source.vget_high_u8 [.ofVec a] (Obj.ofVec <$> Model.vget_high_u8 a) := by
  refine ⟨_, Source.vget_high_u8_parse, 1000, fun fuel hf => ?_⟩
  simp only [Source.vget_high_u8_ast, Model.vget_high_u8]
  cpp_simp
  cpp_loop (fun r => [(7170404, .sc .s32 (some (vint (16 / 2)))), (114, .vec .u8 8 r), (97, .vec .u8 16 (Arr.ofVec a))])
  · rintro i r h1 h2
    cpp_body
  · rintro r
    cpp_simp

/-- `neon_sim.cpp:3578-3584` -/
cpp_source Source.vpmax_f32 "float32x2_t vpmax_f32(float32x2_t a, float32x2_t b)
{
    float32x2_t r;
    r.val[0] = a.val[0] > a.val[1] ? a.val[0] : a.val[1];
    r.val[1] = b.val[0] > b.val[1] ? b.val[0] : b.val[1];
    return r;
}
"

theorem Props.vpmax_f32_source [Dialect] (a : float32x2_t) (b : float32x2_t) :
    Runs Source.vpmax_f32 [.ofVec a, .ofVec b] (Obj.ofVec <$> Model.vpmax_f32 a b) := by
  refine ⟨_, Source.vpmax_f32_parse, 1000, fun fuel hf => ?_⟩
  simp only [Source.vpmax_f32_ast, Model.vpmax_f32]
  cpp_simp

/-- `neon_sim.cpp:3586-3592` -/
cpp_source Source.vpmin_f32 "float32x2_t vpmin_f32(float32x2_t a, float32x2_t b)
{
    float32x2_t r;
    r.val[0] = a.val[0] < a.val[1] ? a.val[0] : a.val[1];
    r.val[1] = b.val[0] < b.val[1] ? b.val[0] : b.val[1];
    return r;
}
"

theorem Props.vpmin_f32_source [Dialect] (a : float32x2_t) (b : float32x2_t) :
    Runs Source.vpmin_f32 [.ofVec a, .ofVec b] (Obj.ofVec <$> Model.vpmin_f32 a b) := by
  refine ⟨_, Source.vpmin_f32_parse, 1000, fun fuel hf => ?_⟩
  simp only [Source.vpmin_f32_ast, Model.vpmin_f32]
  cpp_simp

/-- `neon_sim.cpp:3594-3597` -/
cpp_source Source.vget_lane_f32 "float32_t vget_lane_f32(float32x2_t v, const int lane)
{
    return v.val[lane];
}
"

theorem Props.vget_lane_f32_source [Dialect] (v : float32x2_t) (lane : Int) (hlane : -2147483648 ≤ lane ∧ lane ≤ 2147483647) :
    Runs Source.vget_lane_f32 [.ofVec v, .ofInt lane] (Obj.ofScalar .f32 <$> Model.vget_lane_f32 v lane) := by
  refine ⟨_, Source.vget_lane_f32_parse, 1000, fun fuel hf => ?_⟩
  simp only [Source.vget_lane_f32_ast, Model.vget_lane_f32]
  cpp_simp

/-- `neon_sim.cpp:3599-3607` -/
cpp_source Source.vgetq_lane_f32 "float32_t vgetq_lane_f32(float32x4_t v, int lane)
{
    if (lane < 0 || lane > 3)
    {
        fprintf(stderr, \"%s: lane should is out of range [0, 3]\", __FUNCTION__);
        abort();
    }
    return v.val[lane];
}
"

theorem Props.vgetq_lane_f32_source [Dialect] (v : float32x4_t) (lane : Int) (hlane : -2147483648 ≤ lane ∧ lane ≤ 2147483647) :
    Runs Source.vgetq_lane_f32 [.ofVec v, .ofInt lane] (Obj.ofScalar .f32 <$> Model.vgetq_lane_f32 v lane) := by
  refine ⟨_, Source.vgetq_lane_f32_parse, 1000, fun fuel hf => ?_⟩
  simp only [Source.vgetq_lane_f32_ast, Model.vgetq_lane_f32]
  cpp_simp
  cpp_check
  · try cpp_simp

/-- `neon_sim.cpp:3610-3613` -/
cpp_source Source.vgetq_lane_u8 "uint8_t vgetq_lane_u8(uint8x16_t v, const int lane)
{
    return v.val[lane];
}
"

theorem Props.vgetq_lane_u8_source [Dialect] (v : uint8x16_t) (lane : Int) (hlane : -2147483648 ≤ lane ∧ lane ≤ 2147483647) :
    Runs Source.vgetq_lane_u8 [.ofVec v, .ofInt lane] (Obj.ofScalar .u8 <$> Model.vgetq_lane_u8 v lane) := by
  refine ⟨_, Source.vgetq_lane_u8_parse, 1000, fun fuel hf => ?_⟩
  simp only [Source.vgetq_lane_u8_ast, Model.vgetq_lane_u8]
  cpp_simp

/-- `neon_sim.cpp:3615-3618` -/
cpp_source Source.vgetq_lane_u16 "uint16_t vgetq_lane_u16(uint16x8_t v, const int lane)
{
    return v.val[lane];
}
"

theorem Props.vgetq_lane_u16_source [Dialect] (v : uint16x8_t) (lane : Int) (hlane : -2147483648 ≤ lane ∧ lane ≤ 2147483647) :
    Runs Source.vgetq_lane_u16 [.ofVec v, .ofInt lane] (Obj.ofScalar .u16 <$> Model.vgetq_lane_u16 v lane) := by
  refine ⟨_, Source.vgetq_lane_u16_parse, 1000, fun fuel hf => ?_⟩
  simp only [Source.vgetq_lane_u16_ast, Model.vgetq_lane_u16]
  cpp_simp

/-- `neon_sim.cpp:3620-3623` -/
cpp_source Source.vgetq_lane_u32 "uint32_t vgetq_lane_u32(uint32x4_t v, const int lane)
{
    return v.val[lane];
}
"

theorem Props.vgetq_lane_u32_source [Dialect] (v : uint32x4_t) (lane : Int) (hlane : -2147483648 ≤ lane ∧ lane ≤ 2147483647) :
    Runs Source.vgetq_lane_u32 [.ofVec v, .ofInt lane] (Obj.ofScalar .u32 <$> Model.vgetq_lane_u32 v lane) := by
  refine ⟨_, Source.vgetq_lane_u32_parse, 1000, fun fuel hf => ?_⟩
  simp only [Source.vgetq_lane_u32_ast, Model.vgetq_lane_u32]
  cpp_simp

/-- `neon_sim.cpp:3625-3628` -/
cpp_source Source.vgetq_lane_u64 "uint64_t vgetq_lane_u64(uint64x2_t v, const int lane)
{
    return v.val[lane];
}
"

theorem Props.vgetq_lane_u64_source [Dialect] (v : uint64x2_t) (lane : Int) (hlane : -2147483648 ≤ lane ∧ lane ≤ 2147483647) :
    Runs Source.vgetq_lane_u64 [.ofVec v, .ofInt lane] (Obj.ofScalar .u64 <$> Model.vgetq_lane_u64 v lane) := by
  refine ⟨_, Source.vgetq_lane_u64_parse, 1000, fun fuel hf => ?_⟩
  simp only [Source.vgetq_lane_u64_ast, Model.vgetq_lane_u64]
  cpp_simp

/-- `neon_sim.cpp:3630-3633` -/
cpp_source Source.vgetq_lane_s8 "int8_t vgetq_lane_s8(int8x16_t v, const int lane)
{
    return v.val[lane];
}
"

theorem Props.vgetq_lane_s8_source [Dialect] (v : int8x16_t) (lane : Int) (hlane : -2147483648 ≤ lane ∧ lane ≤ 2147483647) :
    Runs Source.vgetq_lane_s8 [.ofVec v, .ofInt lane] (Obj.ofScalar .s8 <$> Model.vgetq_lane_s8 v lane) := by
  refine ⟨_, Source.vgetq_lane_s8_parse, 1000, fun fuel hf => ?_⟩
  simp only [Source.vgetq_lane_s8_ast, Model.vgetq_lane_s8]
  cpp_simp

/-- `neon_sim.cpp:3635-3638` -/
cpp_source Source.vgetq_lane_s16 "int16_t vgetq_lane_s16(int16x8_t v, const int lane)
{
    return v.val[lane];
}
"

theorem Props.vgetq_lane_s16_source [Dialect] (v : int16x8_t) (lane : Int) (hlane : -2147483648 ≤ lane ∧ lane ≤ 2147483647) :
    Runs Source.vgetq_lane_s16 [.ofVec v, .ofInt lane] (Obj.ofScalar .s16 <$> Model.vgetq_lane_s16 v lane) := by
  refine ⟨_, Source.vgetq_lane_s16_parse, 1000, fun fuel hf => ?_⟩
  simp only [Source.vgetq_lane_s16_ast, Model.vgetq_lane_s16]
  cpp_simp

/-- `neon_sim.cpp:3640-3643` -/
cpp_source Source.vgetq_lane_s32 "int32_t vgetq_lane_s32(int32x4_t v, const int lane)
{
    return v.val[lane];
}
"

theorem Props.vgetq_lane_s32_source [Dialect] (v : int32x4_t) (lane : Int) (hlane : -2147483648 ≤ lane ∧ lane ≤ 2147483647) :
    Runs Source.vgetq_lane_s32 [.ofVec v, .ofInt lane] (Obj.ofScalar .s32 <$> Model.vgetq_lane_s32 v lane) := by
  refine ⟨_, Source.vgetq_lane_s32_parse, 1000, fun fuel hf => ?_⟩
  simp only [Source.vgetq_lane_s32_ast, Model.vgetq_lane_s32]
  cpp_simp

/-- `neon_sim.cpp:3645-3648` -/
cpp_source Source.vgetq_lane_s64 "int64_t vgetq_lane_s64(int64x2_t v, const int lane)
{
    return v.val[lane];
}
"

theorem Props.vgetq_lane_s64_source [Dialect] (v : int64x2_t) (lane : Int) (hlane : -2147483648 ≤ lane ∧ lane ≤ 2147483647) :
    Runs Source.vgetq_lane_s64 [.ofVec v, .ofInt lane] (Obj.ofScalar .s64 <$> Model.vgetq_lane_s64 v lane) := by
  refine ⟨_, Source.vgetq_lane_s64_parse, 1000, fun fuel hf => ?_⟩
  simp only [Source.vgetq_lane_s64_ast, Model.vgetq_lane_s64]
  cpp_simp

/-- `neon_sim.cpp:3650-3653` -/
cpp_source Source.vgetq_lane_f64 "float64_t vgetq_lane_f64(float64x2_t v, const int lane)
{
    return v.val[lane];
}
"

theorem Props.vgetq_lane_f64_source [Dialect] (v : float64x2_t) (lane : Int) (hlane : -2147483648 ≤ lane ∧ lane ≤ 2147483647) :
    Runs Source.vgetq_lane_f64 [.ofVec v, .ofInt lane] (Obj.ofScalar .f64 <$> Model.vgetq_lane_f64 v lane) := by
  refine ⟨_, Source.vgetq_lane_f64_parse, 1000, fun fuel hf => ?_⟩
  simp only [Source.vgetq_lane_f64_ast, Model.vgetq_lane_f64]
  cpp_simp

/-- `neon_sim.cpp:3656-3664` -/
cpp_source Source.vminq_s8 "int8x16_t vminq_s8(int8x16_t N, int8x16_t M)
{
    int8x16_t D;
    for (int i = 0; i < 16; i++)
    {
        D.val[i] = N.val[i] < M.val[i] ? N.val[i] : M.val[i];
    }
    return D;
}
"

theorem Props.vminq_s8_source [Dialect] (N : int8x16_t) (M : int8x16_t) :
    Runs Source.vminq_s8 [.ofVec N, .ofVec M] (Obj.ofVec <$> Model.vminq_s8 N M) := by
  refine ⟨_, Source.vminq_s8_parse, 1000, fun fuel hf => ?_⟩
  simp only [Source.vminq_s8_ast, Model.vminq_s8]
  cpp_simp
  cpp_loop (fun D => [(68, .vec .s8 16 D), (77, .vec .s8 16 (Arr.ofVec M)), (78, .vec .s8 16 (Arr.ofVec N))])
  · rintro i D h1 h2
    cpp_body
  · rintro D
    cpp_simp

/-- `neon_sim.cpp:3666-3674` -/
cpp_source Source.vminq_s16 "int16x8_t vminq_s16(int16x8_t N, int16x8_t M)
{
    int16x8_t D;
    for (int i = 0; i < 8; i++)
    {
        D.val[i] = N.val[i] < M.val[i] ? N.val[i] : M.val[i];
    }
    return D;
}
"

theorem Props.vminq_s16_source [Dialect] (N : int16x8_t) (M : int16x8_t) :
    Runs Source.vminq_s16 [.ofVec N, .ofVec M] (Obj.ofVec <$> Model.vminq_s16 N M) := by
  refine ⟨_, Source.vminq_s16_parse, 1000, fun fuel hf => ?_⟩
  simp only [Source.vminq_s16_ast, Model.vminq_s16]
  cpp_simp
  cpp_loop (fun D => [(68, .vec .s16 8 D), (77, .vec .s16 8 (Arr.ofVec M)), (78, .vec .s16 8 (Arr.ofVec N))])
  · rintro i D h1 h2
    cpp_body
  · rintro D
    cpp_simp

/-- `neon_sim.cpp:3676-3684` -/
cpp_source Source.vminq_s32 "int32x4_t vminq_s32(int32x4_t N, int32x4_t M)
{
    int32x4_t D;
    for (int i = 0; i < 4; i++)
    {
        D.val[i] = N.val[i] < M.val[i] ? N.val[i] : M.val[i];
    }
    return D;
}
"

theorem Props.vminq_s32_source [Dialect] (N : int32x4_t) (M : int32x4_t) :
    Runs Source.vminq_s32 [.ofVec N, .ofVec M] (Obj.ofVec <$> Model.vminq_s32 N M) := by
  refine ⟨_, Source.vminq_s32_parse, 1000, fun fuel hf => ?_⟩
  simp only [Source.vminq_s32_ast, Model.vminq_s32]
  cpp_simp
  cpp_loop (fun D => [(68, .vec .s32 4 D), (77, .vec .s32 4 (Arr.ofVec M)), (78, .vec .s32 4 (Arr.ofVec N))])
  · rintro i D h1 h2
    cpp_body
  · rintro D
    cpp_simp

/-- `neon_sim.cpp:3686-3694` -/
cpp_source Source.vminq_u8 "int8x16_t vminq_u8(int8x16_t N, int8x16_t M)
{
    int8x16_t D;
    for (int i = 0; i < 16; i++)
    {
        D.val[i] = N.val[i] < M.val[i] ? N.val[i] : M.val[i];
    }
    return D;
}
"

theorem Props.vminq_u8_source [Dialect] (N : int8x16_t) (M : int8x16_t) :
    Runs Source.vminq_u8 [.ofVec N, .ofVec M] (Obj.ofVec <$> Model.vminq_u8 N M) := by
  refine ⟨_, Source.vminq_u8_parse, 1000, fun fuel hf => ?_⟩
  simp only [Source.vminq_u8_ast, Model.vminq_u8]
  cpp_simp
  cpp_loop (fun D => [(68, .vec .s8 16 D), (77, .vec .s8 16 (Arr.ofVec M)), (78, .vec .s8 16 (Arr.ofVec N))])
  · rintro i D h1 h2
    cpp_body
  · rintro D
    cpp_simp

/-- `neon_sim.cpp:3696-3704` -/
cpp_source Source.vminq_u16 "int16x8_t vminq_u16(int16x8_t N, int16x8_t M)
{
    int16x8_t D;
    for (int i = 0; i < 8; i++)
    {
        D.val[i] = N.val[i] < M.val[i] ? N.val[i] : M.val[i];
    }
    return D;
}
"

theorem Props.vminq_u16_source [Dialect] (N : int16x8_t) (M : int16x8_t) :
    Runs Source.vminq_u16 [.ofVec N, .ofVec M] (Obj.ofVec <$> Model.vminq_u16 N M) := by
  refine ⟨_, Source.vminq_u16_parse, 1000, fun fuel hf => ?_⟩
  simp only [Source.vminq_u16_ast, Model.vminq_u16]
  cpp_simp
  cpp_loop (fun D => [(68, .vec .s16 8 D), (77, .vec .s16 8 (Arr.ofVec M)), (78, .vec .s16 8 (Arr.ofVec N))])
  · rintro i D h1 h2
    cpp_body
  · rintro D
    cpp_simp

/-- `neon_sim.cpp:3706-3714` -/
cpp_source Source.vminq_u32 "int32x4_t vminq_u32(int32x4_t N, int32x4_t M)
{
    int32x4_t D;
    for (int i = 0; i < 4; i++)
    {
        D.val[i] = N.val[i] < M.val[i] ? N.val[i] : M.val[i];
    }
    return D;
}
"

theorem Props.vminq_u32_source [Dialect] (N : int32x4_t) (M : int32x4_t) :
    Runs Source.vminq_u32 [.ofVec N, .ofVec M] (Obj.ofVec <$> Model.vminq_u32 N M) := by
  refine ⟨_, Source.vminq_u32_parse, 1000, fun fuel hf => ?_⟩
  simp only [Source.vminq_u32_ast, Model.vminq_u32]
  cpp_simp
  cpp_loop (fun D => [(68, .vec .s32 4 D), (77, .vec .s32 4 (Arr.ofVec M)), (78, .vec .s32 4 (Arr.ofVec N))])
  · rintro i D h1 h2
    cpp_body
  · rintro D
    cpp_simp

/-- `neon_sim.cpp:3716-3724` -/
cpp_source Source.vminq_f32 "float32x4_t vminq_f32(float32x4_t N, float32x4_t M)
{
    float32x4_t D;
    for (int i = 0; i < 4; i++)
    {
        D.val[i] = N.val[i] < M.val[i] ? N.val[i] : M.val[i];
    }
    return D;
}
"

theorem Props.vminq_f32_source [Dialect] (N : float32x4_t) (M : float32x4_t) :
    Runs Source.vminq_f32 [.ofVec N, .ofVec M] (Obj.ofVec <$> Model.vminq_f32 N M) := by
  refine ⟨_, Source.vminq_f32_parse, 1000, fun fuel hf => ?_⟩
  simp only [Source.vminq_f32_ast, Model.vminq_f32]
  cpp_simp
  cpp_loop (fun D => [(68, .vec .f32 4 D), (77, .vec .f32 4 (Arr.ofVec M)), (78, .vec .f32 4 (Arr.ofVec N))])
  · rintro i D h1 h2
    cpp_body
  · rintro D
    cpp_simp

/-- `neon_sim.cpp:3726-3741` -/
cpp_source Source.vcltq_f32 "uint32x4_t vcltq_f32(float32x4_t N, float32x4_t M)
{
    uint32x4_t D;
    for (int i = 0; i < 4; i++)
    {
        if (N.val[i] < M.val[i])
        {
            D.val[i] = 0xFFFFFFFF;
        }
        else
        {
            D.val[i] = 0;
        }
    }
    return D;
}
"

theorem Props.vcltq_f32_source [Dialect] (N : float32x4_t) (M : float32x4_t) :
    Runs Source.vcltq_f32 [.ofVec N, .ofVec M] (Obj.ofVec <$> Model.vcltq_f32 N M) := by
  refine ⟨_, Source.vcltq_f32_parse, 1000, fun fuel hf => ?_⟩
  simp only [Source.vcltq_f32_ast, Model.vcltq_f32]
  cpp_simp
  cpp_loop (fun D => [(68, .vec .u32 4 D), (77, .vec .f32 4 (Arr.ofVec M)), (78, .vec .f32 4 (Arr.ofVec N))])
  · rintro i D h1 h2
    cpp_body
  · rintro D
    cpp_simp

/-- `neon_sim.cpp:3743-3751` -/
cpp_source Source.vbslq_f32 "float32x4_t vbslq_f32(uint32x4_t mask, float32x4_t a, float32x4_t b)
{
    float32x4_t r;
    for (int i = 0; i < 4; i++)
    {
        r.val[i] =  mask.val[i] ? a.val[i] : b.val[i];
    }
    return r;
}
"

theorem Props.vbslq_f32_source [Dialect] (mask : uint32x4_t) (a : float32x4_t) (b : float32x4_t) :
    Runs Source.vbslq_f32 [.ofVec mask, .ofVec a, .ofVec b] (Obj.ofVec <$> Model.vbslq_f32 mask a b) := by
  refine ⟨_, Source.vbslq_f32_parse, 1000, fun fuel hf => ?_⟩
  simp only [Source.vbslq_f32_ast, Model.vbslq_f32]
  cpp_simp
  cpp_loop (fun r => [(114, .vec .f32 4 r), (98, .vec .f32 4 (Arr.ofVec b)), (97, .vec .f32 4 (Arr.ofVec a)), (1835103083, .vec .u32 4 (Arr.ofVec mask))])
  · rintro i r h1 h2
    cpp_body
  · rintro r
    cpp_simp

end Verif
