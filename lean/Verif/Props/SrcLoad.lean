import Verif.Cpp.Command
import Verif.Model.Load

/-! Source text of the functions in `Verif/Model/Load.lean`, and the theorem that running it is running the model.
Generated by `tools/gen_source.py`. -/

set_option linter.unusedVariables false
set_option linter.unusedSimpArgs false
set_option maxHeartbeats 1000000

open Verif.Cpp

namespace Verif

/-- `neon_sim.cpp:14-22` -/
cpp_source Source.vld1_u8 "uint8x8_t vld1_u8(uint8_t const* ptr)
{
    uint8x8_t r;
    for (int i = 0; i < 8; i++)
    {
        r.val[i] =  ptr[i];
    }
    return r;
}
"

theorem Props.vld1_u8_source [Dialect] (ptr : Ptr .u8) :
    Runs Source.vld1_u8 [.ofPtr ptr] (Obj.ofVec <$> Model.vld1_u8 ptr) := by
  refine ⟨_, Source.vld1_u8_parse, 1000, fun fuel hf => ?_⟩
  simp only [Source.vld1_u8_ast, Model.vld1_u8]
  cpp_simp
  cpp_loop (fun r => [(114, .vec .u8 8 r), (7369842, .ptr .u8 ptr)])
  · rintro i r h1 h2
    cpp_body
  · rintro r
    cpp_simp

/-- `neon_sim.cpp:23-31` -/
cpp_source Source.vld1_s8 "int8x8_t vld1_s8(int8_t const* ptr)
{
    int8x8_t r;
    for (int i = 0; i < 8; i++)
    {
        r.val[i] =  ptr[i];
    }
    return r;
}
"

theorem Props.vld1_s8_source [Dialect] (ptr : Ptr .s8) :
    Runs Source.vld1_s8 [.ofPtr ptr] (Obj.ofVec <$> Model.vld1_s8 ptr) := by
  refine ⟨_, Source.vld1_s8_parse, 1000, fun fuel hf => ?_⟩
  simp only [Source.vld1_s8_ast, Model.vld1_s8]
  cpp_simp
  cpp_loop (fun r => [(114, .vec .s8 8 r), (7369842, .ptr .s8 ptr)])
  · rintro i r h1 h2
    cpp_body
  · rintro r
    cpp_simp

/-- `neon_sim.cpp:32-40` -/
cpp_source Source.vld1_u16 "uint16x4_t vld1_u16(uint16_t const* ptr)
{
    uint16x4_t r;
    for (int i = 0; i < 4; i++)
    {
        r.val[i] =  ptr[i];
    }
    return r;
}
"

theorem Props.vld1_u16_source [Dialect] (ptr : Ptr .u16) :
    Runs Source.vld1_u16 [.ofPtr ptr] (Obj.ofVec <$> Model.vld1_u16 ptr) := by
  refine ⟨_, Source.vld1_u16_parse, 1000, fun fuel hf => ?_⟩
  simp only [Source.vld1_u16_ast, Model.vld1_u16]
  cpp_simp
  cpp_loop (fun r => [(114, .vec .u16 4 r), (7369842, .ptr .u16 ptr)])
  · rintro i r h1 h2
    cpp_body
  · rintro r
    cpp_simp

/-- `neon_sim.cpp:41-49` -/
cpp_source Source.vld1_s16 "int16x4_t vld1_s16(int16_t const* ptr)
{
    int16x4_t r;
    for (int i = 0; i < 4; i++)
    {
        r.val[i] =  ptr[i];
    }
    return r;
}
"

theorem Props.vld1_s16_source [Dialect] (ptr : Ptr .s16) :
    Runs Source.vld1_s16 [.ofPtr ptr] (Obj.ofVec <$> Model.vld1_s16 ptr) := by
  refine ⟨_, Source.vld1_s16_parse, 1000, fun fuel hf => ?_⟩
  simp only [Source.vld1_s16_ast, Model.vld1_s16]
  cpp_simp
  cpp_loop (fun r => [(114, .vec .s16 4 r), (7369842, .ptr .s16 ptr)])
  · rintro i r h1 h2
    cpp_body
  · rintro r
    cpp_simp

/-- `neon_sim.cpp:50-58` -/
cpp_source Source.vld1_u32 "uint32x2_t vld1_u32(uint32_t const* ptr)
{
    uint32x2_t r;
    for (int i = 0; i < 2; i++)
    {
        r.val[i] =  ptr[i];
    }
    return r;
}
"

theorem Props.vld1_u32_source [Dialect] (ptr : Ptr .u32) :
    Runs Source.vld1_u32 [.ofPtr ptr] (Obj.ofVec <$> Model.vld1_u32 ptr) := by
  refine ⟨_, Source.vld1_u32_parse, 1000, fun fuel hf => ?_⟩
  simp only [Source.vld1_u32_ast, Model.vld1_u32]
  cpp_simp
  cpp_loop (fun r => [(114, .vec .u32 2 r), (7369842, .ptr .u32 ptr)])
  · rintro i r h1 h2
    cpp_body
  · rintro r
    cpp_simp

/-- `neon_sim.cpp:59-67` -/
cpp_source Source.vld1_u64 "uint64x1_t vld1_u64(uint64_t const* ptr)
{
    uint64x1_t r;
    for (int i = 0; i < 1; i++)
    {
        r.val[i] =  ptr[i];
    }
    return r;
}
"

theorem Props.vld1_u64_source [Dialect] (ptr : Ptr .u64) :
    Runs Source.vld1_u64 [.ofPtr ptr] (Obj.ofVec <$> Model.vld1_u64 ptr) := by
  refine ⟨_, Source.vld1_u64_parse, 1000, fun fuel hf => ?_⟩
  simp only [Source.vld1_u64_ast, Model.vld1_u64]
  cpp_simp
  cpp_loop (fun r => [(114, .vec .u64 1 r), (7369842, .ptr .u64 ptr)])
  · rintro i r h1 h2
    cpp_body
  · rintro r
    cpp_simp

/-- `neon_sim.cpp:68-76` -/
cpp_source Source.vld1_s32 "int32x2_t vld1_s32(int32_t const* ptr)
{
    int32x2_t r;
    for (int i = 0; i < 2; i++)
    {
        r.val[i] =  ptr[i];
    }
    return r;
}
"

theorem Props.vld1_s32_source [Dialect] (ptr : Ptr .s32) :
    Runs Source.vld1_s32 [.ofPtr ptr] (Obj.ofVec <$> Model.vld1_s32 ptr) := by
  refine ⟨_, Source.vld1_s32_parse, 1000, fun fuel hf => ?_⟩
  simp only [Source.vld1_s32_ast, Model.vld1_s32]
  cpp_simp
  cpp_loop (fun r => [(114, .vec .s32 2 r), (7369842, .ptr .s32 ptr)])
  · rintro i r h1 h2
    cpp_body
  · rintro r
    cpp_simp

/-- `neon_sim.cpp:77-85` -/
cpp_source Source.vld1_s64 "int64x1_t vld1_s64(int64_t const* ptr)
{
    int64x1_t r;
    for (int i = 0; i < 1; i++)
    {
        r.val[i] =  ptr[i];
    }
    return r;
}
"

theorem Props.vld1_s64_source [Dialect] (ptr : Ptr .s64) :
    Runs Source.vld1_s64 [.ofPtr ptr] (Obj.ofVec <$> Model.vld1_s64 ptr) := by
  refine ⟨_, Source.vld1_s64_parse, 1000, fun fuel hf => ?_⟩
  simp only [Source.vld1_s64_ast, Model.vld1_s64]
  cpp_simp
  cpp_loop (fun r => [(114, .vec .s64 1 r), (7369842, .ptr .s64 ptr)])
  · rintro i r h1 h2
    cpp_body
  · rintro r
    cpp_simp

/-- `neon_sim.cpp:86-94` -/
cpp_source Source.vld1_f32 "float32x2_t vld1_f32(float32_t const* ptr)
{
    float32x2_t r;
    for (int i = 0; i < 2; i++)
    {
        r.val[i] =  ptr[i];
    }
    return r;
}
"

theorem Props.vld1_f32_source [Dialect] (ptr : Ptr .f32) :
    Runs Source.vld1_f32 [.ofPtr ptr] (Obj.ofVec <$> Model.vld1_f32 ptr) := by
  refine ⟨_, Source.vld1_f32_parse, 1000, fun fuel hf => ?_⟩
  simp only [Source.vld1_f32_ast, Model.vld1_f32]
  cpp_simp
  cpp_loop (fun r => [(114, .vec .f32 2 r), (7369842, .ptr .f32 ptr)])
  · rintro i r h1 h2
    cpp_body
  · rintro r
    cpp_simp

/-- `neon_sim.cpp:95-100` -/
cpp_source Source.vld1_f64 "float64x1_t vld1_f64(float64_t const* ptr)
{
    float64x1_t r;
    r.val[0] = ptr[0];
    return r;
}
"

theorem Props.vld1_f64_source [Dialect] (ptr : Ptr .f64) :
    Runs Source.vld1_f64 [.ofPtr ptr] (Obj.ofVec <$> Model.vld1_f64 ptr) := by
  refine ⟨_, Source.vld1_f64_parse, 1000, fun fuel hf => ?_⟩
  simp only [Source.vld1_f64_ast, Model.vld1_f64]
  cpp_simp

/-- `neon_sim.cpp:103-111` -/
cpp_source Source.vld1q_u8 "uint8x16_t vld1q_u8(uint8_t const* ptr)
{
    uint8x16_t r;
    for (int i = 0; i < 16; i++)
    {
        r.val[i] =  ptr[i];
    }
    return r;
}
"

theorem Props.vld1q_u8_source [Dialect] (ptr : Ptr .u8) :
    Runs Source.vld1q_u8 [.ofPtr ptr] (Obj.ofVec <$> Model.vld1q_u8 ptr) := by
  refine ⟨_, Source.vld1q_u8_parse, 1000, fun fuel hf => ?_⟩
  simp only [Source.vld1q_u8_ast, Model.vld1q_u8]
  cpp_simp
  cpp_loop (fun r => [(114, .vec .u8 16 r), (7369842, .ptr .u8 ptr)])
  · rintro i r h1 h2
    cpp_body
  · rintro r
    cpp_simp

/-- `neon_sim.cpp:112-120` -/
cpp_source Source.vld1q_s8 "int8x16_t vld1q_s8(int8_t const* ptr)
{
    int8x16_t r;
    for (int i = 0; i < 16; i++)
    {
        r.val[i] =  ptr[i];
    }
    return r;
}
"

theorem Props.vld1q_s8_source [Dialect] (ptr : Ptr .s8) :
    Runs Source.vld1q_s8 [.ofPtr ptr] (Obj.ofVec <$> Model.vld1q_s8 ptr) := by
  refine ⟨_, Source.vld1q_s8_parse, 1000, fun fuel hf => ?_⟩
  simp only [Source.vld1q_s8_ast, Model.vld1q_s8]
  cpp_simp
  cpp_loop (fun r => [(114, .vec .s8 16 r), (7369842, .ptr .s8 ptr)])
  · rintro i r h1 h2
    cpp_body
  · rintro r
    cpp_simp

/-- `neon_sim.cpp:121-129` -/
cpp_source Source.vld1q_u16 "uint16x8_t vld1q_u16(uint16_t const* ptr)
{
    uint16x8_t r;
    for (int i = 0; i < 8; i++)
    {
        r.val[i] =  ptr[i];
    }
    return r;
}
"

theorem Props.vld1q_u16_source [Dialect] (ptr : Ptr .u16) :
    Runs Source.vld1q_u16 [.ofPtr ptr] (Obj.ofVec <$> Model.vld1q_u16 ptr) := by
  refine ⟨_, Source.vld1q_u16_parse, 1000, fun fuel hf => ?_⟩
  simp only [Source.vld1q_u16_ast, Model.vld1q_u16]
  cpp_simp
  cpp_loop (fun r => [(114, .vec .u16 8 r), (7369842, .ptr .u16 ptr)])
  · rintro i r h1 h2
    cpp_body
  · rintro r
    cpp_simp

/-- `neon_sim.cpp:130-138` -/
cpp_source Source.vld1q_s16 "int16x8_t vld1q_s16(int16_t const* ptr)
{
    int16x8_t r;
    for (int i = 0; i < 8; i++)
    {
        r.val[i] =  ptr[i];
    }
    return r;
}
"

theorem Props.vld1q_s16_source [Dialect] (ptr : Ptr .s16) :
    Runs Source.vld1q_s16 [.ofPtr ptr] (Obj.ofVec <$> Model.vld1q_s16 ptr) := by
  refine ⟨_, Source.vld1q_s16_parse, 1000, fun fuel hf => ?_⟩
  simp only [Source.vld1q_s16_ast, Model.vld1q_s16]
  cpp_simp
  cpp_loop (fun r => [(114, .vec .s16 8 r), (7369842, .ptr .s16 ptr)])
  · rintro i r h1 h2
    cpp_body
  · rintro r
    cpp_simp

/-- `neon_sim.cpp:139-147` -/
cpp_source Source.vld1q_u32 "uint32x4_t vld1q_u32(uint32_t const* ptr)
{
    uint32x4_t r;
    for (int i = 0; i < 4; i++)
    {
        r.val[i] =  ptr[i];
    }
    return r;
}
"

theorem Props.vld1q_u32_source [Dialect] (ptr : Ptr .u32) :
    Runs Source.vld1q_u32 [.ofPtr ptr] (Obj.ofVec <$> Model.vld1q_u32 ptr) := by
  refine ⟨_, Source.vld1q_u32_parse, 1000, fun fuel hf => ?_⟩
  simp only [Source.vld1q_u32_ast, Model.vld1q_u32]
  cpp_simp
  cpp_loop (fun r => [(114, .vec .u32 4 r), (7369842, .ptr .u32 ptr)])
  · rintro i r h1 h2
    cpp_body
  · rintro r
    cpp_simp

/-- `neon_sim.cpp:148-156` -/
cpp_source Source.vld1q_s32 "int32x4_t vld1q_s32(int32_t const* ptr)
{
    int32x4_t r;
    for (int i = 0; i < 4; i++)
    {
        r.val[i] =  ptr[i];
    }
    return r;
}
"

theorem Props.vld1q_s32_source [Dialect] (ptr : Ptr .s32) :
    Runs Source.vld1q_s32 [.ofPtr ptr] (Obj.ofVec <$> Model.vld1q_s32 ptr) := by
  refine ⟨_, Source.vld1q_s32_parse, 1000, fun fuel hf => ?_⟩
  simp only [Source.vld1q_s32_ast, Model.vld1q_s32]
  cpp_simp
  cpp_loop (fun r => [(114, .vec .s32 4 r), (7369842, .ptr .s32 ptr)])
  · rintro i r h1 h2
    cpp_body
  · rintro r
    cpp_simp

/-- `neon_sim.cpp:157-165` -/
cpp_source Source.vld1q_s64 "int64x2_t vld1q_s64(int64_t const* ptr)
{
    int64x2_t r;
    for (int i = 0; i < 2; i++)
    {
        r.val[i] =  ptr[i];
    }
    return r;
}
"

theorem Props.vld1q_s64_source [Dialect] (ptr : Ptr .s64) :
    Runs Source.vld1q_s64 [.ofPtr ptr] (Obj.ofVec <$> Model.vld1q_s64 ptr) := by
  refine ⟨_, Source.vld1q_s64_parse, 1000, fun fuel hf => ?_⟩
  simp only [Source.vld1q_s64_ast, Model.vld1q_s64]
  cpp_simp
  cpp_loop (fun r => [(114, .vec .s64 2 r), (7369842, .ptr .s64 ptr)])
  · rintro i r h1 h2
    cpp_body
  · rintro r
    cpp_simp

/-- `neon_sim.cpp:166-174` -/
cpp_source Source.vld1q_u64 "uint64x2_t vld1q_u64(uint64_t const* ptr)
{
    uint64x2_t r;
    for (int i = 0; i < 2; i++)
    {
        r.val[i] =  ptr[i];
    }
    return r;
}
"

theorem Props.vld1q_u64_source [Dialect] (ptr : Ptr .u64) :
    Runs Source.vld1q_u64 [.ofPtr ptr] (Obj.ofVec <$> Model.vld1q_u64 ptr) := by
  refine ⟨_, Source.vld1q_u64_parse, 1000, fun fuel hf => ?_⟩
  simp only [Source.vld1q_u64_ast, Model.vld1q_u64]
  cpp_simp
  cpp_loop (fun r => [(114, .vec .u64 2 r), (7369842, .ptr .u64 ptr)])
  · rintro i r h1 h2
    cpp_body
  · rintro r
    cpp_simp

/-- `neon_sim.cpp:175-183` -/
cpp_source Source.vld1q_f32 "float32x4_t vld1q_f32(float32_t const* ptr)
{
    float32x4_t r;
    for (int i = 0; i < 4; i++)
    {
        r.val[i] =  ptr[i];
    }
    return r;
}
"

theorem Props.vld1q_f32_source [Dialect] (ptr : Ptr .f32) :
    Runs Source.vld1q_f32 [.ofPtr ptr] (Obj.ofVec <$> Model.vld1q_f32 ptr) := by
  refine ⟨_, Source.vld1q_f32_parse, 1000, fun fuel hf => ?_⟩
  simp only [Source.vld1q_f32_ast, Model.vld1q_f32]
  cpp_simp
  cpp_loop (fun r => [(114, .vec .f32 4 r), (7369842, .ptr .f32 ptr)])
  · rintro i r h1 h2
    cpp_body
  · rintro r
    cpp_simp

/-- `neon_sim.cpp:186-195` -/
cpp_source Source.vld2_u8 "uint8x8x2_t vld2_u8(uint8_t const* ptr)
{
    uint8x8x2_t r;
    for (int i = 0; i < 8; i++)
    {
        r.val[0].val[i] = ptr[2 * i + 0];
        r.val[1].val[i] = ptr[2 * i + 1];
    }
    return r;
}
"

theorem Props.vld2_u8_source [Dialect] (ptr : Ptr .u8) :
    Runs Source.vld2_u8 [.ofPtr ptr] (Obj.ofVecArr <$> Model.vld2_u8 ptr) := by
  refine ⟨_, Source.vld2_u8_parse, 1000, fun fuel hf => ?_⟩
  simp only [Source.vld2_u8_ast, Model.vld2_u8]
  cpp_simp
  cpp_loop (fun r => [(114, .arr .u8 8 2 r), (7369842, .ptr .u8 ptr)])
  · rintro i r h1 h2
    cpp_body
  · rintro r
    cpp_simp

/-- `neon_sim.cpp:196-205` -/
cpp_source Source.vld2_s8 "int8x8x2_t vld2_s8(int8_t const* ptr)
{
    int8x8x2_t r;
    for (int i = 0; i < 8; i++)
    {
        r.val[0].val[i] = ptr[2 * i + 0];
        r.val[1].val[i] = ptr[2 * i + 1];
    }
    return r;
}
"

theorem Props.vld2_s8_source [Dialect] (ptr : Ptr .s8) :
    Runs Source.vld2_s8 [.ofPtr ptr] (Obj.ofVecArr <$> Model.vld2_s8 ptr) := by
  refine ⟨_, Source.vld2_s8_parse, 1000, fun fuel hf => ?_⟩
  simp only [Source.vld2_s8_ast, Model.vld2_s8]
  cpp_simp
  cpp_loop (fun r => [(114, .arr .s8 8 2 r), (7369842, .ptr .s8 ptr)])
  · rintro i r h1 h2
    cpp_body
  · rintro r
    cpp_simp

/-- `neon_sim.cpp:206-215` -/
cpp_source Source.vld2_u16 "uint16x4x2_t vld2_u16(uint16_t const* ptr)
{
    uint16x4x2_t r;
    for (int i = 0; i < 4; i++)
    {
        r.val[0].val[i] = ptr[2 * i + 0];
        r.val[1].val[i] = ptr[2 * i + 1];
    }
    return r;
}
"

theorem Props.vld2_u16_source [Dialect] (ptr : Ptr .u16) :
    Runs Source.vld2_u16 [.ofPtr ptr] (Obj.ofVecArr <$> Model.vld2_u16 ptr) := by
  refine ⟨_, Source.vld2_u16_parse, 1000, fun fuel hf => ?_⟩
  simp only [Source.vld2_u16_ast, Model.vld2_u16]
  cpp_simp
  cpp_loop (fun r => [(114, .arr .u16 4 2 r), (7369842, .ptr .u16 ptr)])
  · rintro i r h1 h2
    cpp_body
  · rintro r
    cpp_simp

/-- `neon_sim.cpp:216-225` -/
cpp_source Source.vld2_s16 "int16x4x2_t vld2_s16(int16_t const* ptr)
{
    int16x4x2_t r;
    for (int i = 0; i < 4; i++)
    {
        r.val[0].val[i] = ptr[2 * i + 0];
        r.val[1].val[i] = ptr[2 * i + 1];
    }
    return r;
}
"

theorem Props.vld2_s16_source [Dialect] (ptr : Ptr .s16) :
    Runs Source.vld2_s16 [.ofPtr ptr] (Obj.ofVecArr <$> Model.vld2_s16 ptr) := by
  refine ⟨_, Source.vld2_s16_parse, 1000, fun fuel hf => ?_⟩
  simp only [Source.vld2_s16_ast, Model.vld2_s16]
  cpp_simp
  cpp_loop (fun r => [(114, .arr .s16 4 2 r), (7369842, .ptr .s16 ptr)])
  · rintro i r h1 h2
    cpp_body
  · rintro r
    cpp_simp

/-- `neon_sim.cpp:226-235` -/
cpp_source Source.vld2_u32 "uint32x2x2_t vld2_u32(uint32_t const* ptr)
{
    uint32x2x2_t r;
    for (int i = 0; i < 2; i++)
    {
        r.val[0].val[i] = ptr[2 * i + 0];
        r.val[1].val[i] = ptr[2 * i + 1];
    }
    return r;
}
"

theorem Props.vld2_u32_source [Dialect] (ptr : Ptr .u32) :
    Runs Source.vld2_u32 [.ofPtr ptr] (Obj.ofVecArr <$> Model.vld2_u32 ptr) := by
  refine ⟨_, Source.vld2_u32_parse, 1000, fun fuel hf => ?_⟩
  simp only [Source.vld2_u32_ast, Model.vld2_u32]
  cpp_simp
  cpp_loop (fun r => [(114, .arr .u32 2 2 r), (7369842, .ptr .u32 ptr)])
  · rintro i r h1 h2
    cpp_body
  · rintro r
    cpp_simp

/-- `neon_sim.cpp:236-245` -/
cpp_source Source.vld_s32 "int32x2x2_t vld_s32(int32_t const* ptr)
{
    int32x2x2_t r;
    for (int i = 0; i < 2; i++)
    {
        r.val[0].val[i] = ptr[2 * i + 0];
        r.val[1].val[i] = ptr[2 * i + 1];
    }
    return r;
}
"

theorem Props.vld_s32_source [Dialect] (ptr : Ptr .s32) :
    Runs Source.vld_s32 [.ofPtr ptr] (Obj.ofVecArr <$> Model.vld_s32 ptr) := by
  refine ⟨_, Source.vld_s32_parse, 1000, fun fuel hf => ?_⟩
  simp only [Source.vld_s32_ast, Model.vld_s32]
  cpp_simp
  cpp_loop (fun r => [(114, .arr .s32 2 2 r), (7369842, .ptr .s32 ptr)])
  · rintro i r h1 h2
    cpp_body
  · rintro r
    cpp_simp

/-- `neon_sim.cpp:246-255` -/
cpp_source Source.vld2_f32 "float32x2x2_t vld2_f32(float const* ptr)
{
    float32x2x2_t r;
    for (int i = 0; i < 2; i++)
    {
        r.val[0].val[i] = ptr[2 * i + 0];
        r.val[1].val[i] = ptr[2 * i + 1];
    }
    return r;
}
"

theorem Props.vld2_f32_source [Dialect] (ptr : Ptr .f32) :
    Runs Source.vld2_f32 [.ofPtr ptr] (Obj.ofVecArr <$> Model.vld2_f32 ptr) := by
  refine ⟨_, Source.vld2_f32_parse, 1000, fun fuel hf => ?_⟩
  simp only [Source.vld2_f32_ast, Model.vld2_f32]
  cpp_simp
  cpp_loop (fun r => [(114, .arr .f32 2 2 r), (7369842, .ptr .f32 ptr)])
  · rintro i r h1 h2
    cpp_body
  · rintro r
    cpp_simp

/-- `neon_sim.cpp:258-267` -/
cpp_source Source.vld2q_u8 "uint8x16x2_t vld2q_u8(uint8_t const* ptr)
{
    uint8x16x2_t r;
    for (int i = 0; i < 16; i++)
    {
        r.val[0].val[i] = ptr[2 * i + 0];
        r.val[1].val[i] = ptr[2 * i + 1];
    }
    return r;
}
"

theorem Props.vld2q_u8_source [Dialect] (ptr : Ptr .u8) :
    Runs Source.vld2q_u8 [.ofPtr ptr] (Obj.ofVecArr <$> Model.vld2q_u8 ptr) := by
  refine ⟨_, Source.vld2q_u8_parse, 1000, fun fuel hf => ?_⟩
  simp only [Source.vld2q_u8_ast, Model.vld2q_u8]
  cpp_simp
  cpp_loop (fun r => [(114, .arr .u8 16 2 r), (7369842, .ptr .u8 ptr)])
  · rintro i r h1 h2
    cpp_body
  · rintro r
    cpp_simp

/-- `neon_sim.cpp:268-277` -/
cpp_source Source.vld2q_s8 "int8x16x2_t vld2q_s8(int8_t const* ptr)
{
    int8x16x2_t r;
    for (int i = 0; i < 16; i++)
    {
        r.val[0].val[i] = ptr[2 * i + 0];
        r.val[1].val[i] = ptr[2 * i + 1];
    }
    return r;
}
"

theorem Props.vld2q_s8_source [Dialect] (ptr : Ptr .s8) :
    Runs Source.vld2q_s8 [.ofPtr ptr] (Obj.ofVecArr <$> Model.vld2q_s8 ptr) := by
  refine ⟨_, Source.vld2q_s8_parse, 1000, fun fuel hf => ?_⟩
  simp only [Source.vld2q_s8_ast, Model.vld2q_s8]
  cpp_simp
  cpp_loop (fun r => [(114, .arr .s8 16 2 r), (7369842, .ptr .s8 ptr)])
  · rintro i r h1 h2
    cpp_body
  · rintro r
    cpp_simp

/-- `neon_sim.cpp:278-287` -/
cpp_source Source.vld2q_u16 "uint16x8x2_t vld2q_u16(uint16_t const* ptr)
{
    uint16x8x2_t r;
    for (int i = 0; i < 8; i++)
    {
        r.val[0].val[i] = ptr[2 * i + 0];
        r.val[1].val[i] = ptr[2 * i + 1];
    }
    return r;
}
"

theorem Props.vld2q_u16_source [Dialect] (ptr : Ptr .u16) :
    Runs Source.vld2q_u16 [.ofPtr ptr] (Obj.ofVecArr <$> Model.vld2q_u16 ptr) := by
  refine ⟨_, Source.vld2q_u16_parse, 1000, fun fuel hf => ?_⟩
  simp only [Source.vld2q_u16_ast, Model.vld2q_u16]
  cpp_simp
  cpp_loop (fun r => [(114, .arr .u16 8 2 r), (7369842, .ptr .u16 ptr)])
  · rintro i r h1 h2
    cpp_body
  · rintro r
    cpp_simp

/-- `neon_sim.cpp:288-297` -/
cpp_source Source.vld2q_s16 "int16x8x2_t vld2q_s16(int16_t const* ptr)
{
    int16x8x2_t r;
    for (int i = 0; i < 8; i++)
    {
        r.val[0].val[i] = ptr[2 * i + 0];
        r.val[1].val[i] = ptr[2 * i + 1];
    }
    return r;
}
"

theorem Props.vld2q_s16_source [Dialect] (ptr : Ptr .s16) :
    Runs Source.vld2q_s16 [.ofPtr ptr] (Obj.ofVecArr <$> Model.vld2q_s16 ptr) := by
  refine ⟨_, Source.vld2q_s16_parse, 1000, fun fuel hf => ?_⟩
  simp only [Source.vld2q_s16_ast, Model.vld2q_s16]
  cpp_simp
  cpp_loop (fun r => [(114, .arr .s16 8 2 r), (7369842, .ptr .s16 ptr)])
  · rintro i r h1 h2
    cpp_body
  · rintro r
    cpp_simp

/-- `neon_sim.cpp:298-307` -/
cpp_source Source.vld2q_u32 "uint32x4x2_t vld2q_u32(uint32_t const* ptr)
{
    uint32x4x2_t r;
    for (int i = 0; i < 4; i++)
    {
        r.val[0].val[i] = ptr[2 * i + 0];
        r.val[1].val[i] = ptr[2 * i + 1];
    }
    return r;
}
"

theorem Props.vld2q_u32_source [Dialect] (ptr : Ptr .u32) :
    Runs Source.vld2q_u32 [.ofPtr ptr] (Obj.ofVecArr <$> Model.vld2q_u32 ptr) := by
  refine ⟨_, Source.vld2q_u32_parse, 1000, fun fuel hf => ?_⟩
  simp only [Source.vld2q_u32_ast, Model.vld2q_u32]
  cpp_simp
  cpp_loop (fun r => [(114, .arr .u32 4 2 r), (7369842, .ptr .u32 ptr)])
  · rintro i r h1 h2
    cpp_body
  · rintro r
    cpp_simp

/-- `neon_sim.cpp:308-317` -/
cpp_source Source.vld2q_s32 "int32x4x2_t vld2q_s32(int32_t const* ptr)
{
    int32x4x2_t r;
    for (int i = 0; i < 4; i++)
    {
        r.val[0].val[i] = ptr[2 * i + 0];
        r.val[1].val[i] = ptr[2 * i + 1];
    }
    return r;
}
"

theorem Props.vld2q_s32_source [Dialect] (ptr : Ptr .s32) :
    Runs Source.vld2q_s32 [.ofPtr ptr] (Obj.ofVecArr <$> Model.vld2q_s32 ptr) := by
  refine ⟨_, Source.vld2q_s32_parse, 1000, fun fuel hf => ?_⟩
  simp only [Source.vld2q_s32_ast, Model.vld2q_s32]
  cpp_simp
  cpp_loop (fun r => [(114, .arr .s32 4 2 r), (7369842, .ptr .s32 ptr)])
  · rintro i r h1 h2
    cpp_body
  · rintro r
    cpp_simp

/-- `neon_sim.cpp:320-330` -/
cpp_source Source.vld3_u8 "uint8x8x3_t vld3_u8(uint8_t const* ptr)
{
    uint8x8x3_t r;
    for (int i = 0; i < 8; i++)
    {
        r.val[0].val[i] = ptr[3 * i + 0];
        r.val[1].val[i] = ptr[3 * i + 1];
        r.val[2].val[i] = ptr[3 * i + 2];
    }
    return r;
}
"

theorem Props.vld3_u8_source [Dialect] (ptr : Ptr .u8) :
    Runs Source.vld3_u8 [.ofPtr ptr] (Obj.ofVecArr <$> Model.vld3_u8 ptr) := by
  refine ⟨_, Source.vld3_u8_parse, 1000, fun fuel hf => ?_⟩
  simp only [Source.vld3_u8_ast, Model.vld3_u8]
  cpp_simp
  cpp_loop (fun r => [(114, .arr .u8 8 3 r), (7369842, .ptr .u8 ptr)])
  · rintro i r h1 h2
    cpp_body
  · rintro r
    cpp_simp

/-- `neon_sim.cpp:331-341` -/
cpp_source Source.vld3_s8 "int8x8x3_t vld3_s8(int8_t const* ptr)
{
    int8x8x3_t r;
    for (int i = 0; i < 8; i++)
    {
        r.val[0].val[i] = ptr[3 * i + 0];
        r.val[1].val[i] = ptr[3 * i + 1];
        r.val[2].val[i] = ptr[3 * i + 2];
    }
    return r;
}
"

theorem Props.vld3_s8_source [Dialect] (ptr : Ptr .s8) :
    Runs Source.vld3_s8 [.ofPtr ptr] (Obj.ofVecArr <$> Model.vld3_s8 ptr) := by
  refine ⟨_, Source.vld3_s8_parse, 1000, fun fuel hf => ?_⟩
  simp only [Source.vld3_s8_ast, Model.vld3_s8]
  cpp_simp
  cpp_loop (fun r => [(114, .arr .s8 8 3 r), (7369842, .ptr .s8 ptr)])
  · rintro i r h1 h2
    cpp_body
  · rintro r
    cpp_simp

/-- `neon_sim.cpp:342-352` -/
cpp_source Source.vld3_u16 "uint16x4x3_t vld3_u16(uint16_t const* ptr)
{
    uint16x4x3_t r;
    for (int i = 0; i < 4; i++)
    {
        r.val[0].val[i] = ptr[3 * i + 0];
        r.val[1].val[i] = ptr[3 * i + 1];
        r.val[2].val[i] = ptr[3 * i + 2];
    }
    return r;
}
"

theorem Props.vld3_u16_source [Dialect] (ptr : Ptr .u16) :
    Runs Source.vld3_u16 [.ofPtr ptr] (Obj.ofVecArr <$> Model.vld3_u16 ptr) := by
  refine ⟨_, Source.vld3_u16_parse, 1000, fun fuel hf => ?_⟩
  simp only [Source.vld3_u16_ast, Model.vld3_u16]
  cpp_simp
  cpp_loop (fun r => [(114, .arr .u16 4 3 r), (7369842, .ptr .u16 ptr)])
  · rintro i r h1 h2
    cpp_body
  · rintro r
    cpp_simp

/-- `neon_sim.cpp:353-363` -/
cpp_source Source.vld3_s16 "int16x4x3_t vld3_s16(int16_t const* ptr)
{
    int16x4x3_t r;
    for (int i = 0; i < 4; i++)
    {
        r.val[0].val[i] = ptr[3 * i + 0];
        r.val[1].val[i] = ptr[3 * i + 1];
        r.val[2].val[i] = ptr[3 * i + 2];
    }
    return r;
}
"

theorem Props.vld3_s16_source [Dialect] (ptr : Ptr .s16) :
    Runs Source.vld3_s16 [.ofPtr ptr] (Obj.ofVecArr <$> Model.vld3_s16 ptr) := by
  refine ⟨_, Source.vld3_s16_parse, 1000, fun fuel hf => ?_⟩
  simp only [Source.vld3_s16_ast, Model.vld3_s16]
  cpp_simp
  cpp_loop (fun r => [(114, .arr .s16 4 3 r), (7369842, .ptr .s16 ptr)])
  · rintro i r h1 h2
    cpp_body
  · rintro r
    cpp_simp

/-- `neon_sim.cpp:364-374` -/
cpp_source Source.vld3_u32 "uint32x2x3_t vld3_u32(uint32_t const* ptr)
{
    uint32x2x3_t r;
    for (int i = 0; i < 2; i++)
    {
        r.val[0].val[i] = ptr[3 * i + 0];
        r.val[1].val[i] = ptr[3 * i + 1];
        r.val[2].val[i] = ptr[3 * i + 2];
    }
    return r;
}
"

theorem Props.vld3_u32_source [Dialect] (ptr : Ptr .u32) :
    Runs Source.vld3_u32 [.ofPtr ptr] (Obj.ofVecArr <$> Model.vld3_u32 ptr) := by
  refine ⟨_, Source.vld3_u32_parse, 1000, fun fuel hf => ?_⟩
  simp only [Source.vld3_u32_ast, Model.vld3_u32]
  cpp_simp
  cpp_loop (fun r => [(114, .arr .u32 2 3 r), (7369842, .ptr .u32 ptr)])
  · rintro i r h1 h2
    cpp_body
  · rintro r
    cpp_simp

/-- `neon_sim.cpp:375-385` -/
cpp_source Source.vld3_s32 "int32x2x3_t vld3_s32(int32_t const* ptr)
{
    int32x2x3_t r;
    for (int i = 0; i < 2; i++)
    {
        r.val[0].val[i] = ptr[3 * i + 0];
        r.val[1].val[i] = ptr[3 * i + 1];
        r.val[2].val[i] = ptr[3 * i + 2];
    }
    return r;
}
"

theorem Props.vld3_s32_source [Dialect] (ptr : Ptr .s32) :
    Runs Source.vld3_s32 [.ofPtr ptr] (Obj.ofVecArr <$> Model.vld3_s32 ptr) := by
  refine ⟨_, Source.vld3_s32_parse, 1000, fun fuel hf => ?_⟩
  simp only [Source.vld3_s32_ast, Model.vld3_s32]
  cpp_simp
  cpp_loop (fun r => [(114, .arr .s32 2 3 r), (7369842, .ptr .s32 ptr)])
  · rintro i r h1 h2
    cpp_body
  · rintro r
    cpp_simp

/-- `neon_sim.cpp:386-396` -/
cpp_source Source.vld3_f32 "float32x2x3_t vld3_f32(float const* ptr)
{
    float32x2x3_t r;
    for (int i = 0; i < 2; i++)
    {
        r.val[0].val[i] = ptr[3 * i + 0];
        r.val[1].val[i] = ptr[3 * i + 1];
        r.val[2].val[i] = ptr[3 * i + 2];
    }
    return r;
}
"

theorem Props.vld3_f32_source [Dialect] (ptr : Ptr .f32) :
    Runs Source.vld3_f32 [.ofPtr ptr] (Obj.ofVecArr <$> Model.vld3_f32 ptr) := by
  refine ⟨_, Source.vld3_f32_parse, 1000, fun fuel hf => ?_⟩
  simp only [Source.vld3_f32_ast, Model.vld3_f32]
  cpp_simp
  cpp_loop (fun r => [(114, .arr .f32 2 3 r), (7369842, .ptr .f32 ptr)])
  · rintro i r h1 h2
    cpp_body
  · rintro r
    cpp_simp

/-- `neon_sim.cpp:399-409` -/
cpp_source Source.vld3q_u8 "uint8x16x3_t vld3q_u8(uint8_t const* ptr)
{
    uint8x16x3_t r;
    for (int i = 0; i < 16; i++)
    {
        r.val[0].val[i] = ptr[3 * i + 0];
        r.val[1].val[i] = ptr[3 * i + 1];
        r.val[2].val[i] = ptr[3 * i + 2];
    }
    return r;
}
"

theorem Props.vld3q_u8_source [Dialect] (ptr : Ptr .u8) :
    Runs Source.vld3q_u8 [.ofPtr ptr] (Obj.ofVecArr <$> Model.vld3q_u8 ptr) := by
  refine ⟨_, Source.vld3q_u8_parse, 1000, fun fuel hf => ?_⟩
  simp only [Source.vld3q_u8_ast, Model.vld3q_u8]
  cpp_simp
  cpp_loop (fun r => [(114, .arr .u8 16 3 r), (7369842, .ptr .u8 ptr)])
  · rintro i r h1 h2
    cpp_body
  · rintro r
    cpp_simp

/-- `neon_sim.cpp:410-420` -/
cpp_source Source.vld3q_s8 "int8x16x3_t vld3q_s8(int8_t const* ptr)
{
    int8x16x3_t r;
    for (int i = 0; i < 16; i++)
    {
        r.val[0].val[i] = ptr[3 * i + 0];
        r.val[1].val[i] = ptr[3 * i + 1];
        r.val[2].val[i] = ptr[3 * i + 2];
    }
    return r;
}
"

theorem Props.vld3q_s8_source [Dialect] (ptr : Ptr .s8) :
    Runs Source.vld3q_s8 [.ofPtr ptr] (Obj.ofVecArr <$> Model.vld3q_s8 ptr) := by
  refine ⟨_, Source.vld3q_s8_parse, 1000, fun fuel hf => ?_⟩
  simp only [Source.vld3q_s8_ast, Model.vld3q_s8]
  cpp_simp
  cpp_loop (fun r => [(114, .arr .s8 16 3 r), (7369842, .ptr .s8 ptr)])
  · rintro i r h1 h2
    cpp_body
  · rintro r
    cpp_simp

/-- `neon_sim.cpp:421-431` -/
cpp_source Source.vld3q_u16 "uint16x8x3_t vld3q_u16(uint16_t const* ptr)
{
    uint16x8x3_t r;
    for (int i = 0; i < 8; i++)
    {
        r.val[0].val[i] = ptr[3 * i + 0];
        r.val[1].val[i] = ptr[3 * i + 1];
        r.val[2].val[i] = ptr[3 * i + 2];
    }
    return r;
}
"

theorem Props.vld3q_u16_source [Dialect] (ptr : Ptr .u16) :
    Runs Source.vld3q_u16 [.ofPtr ptr] (Obj.ofVecArr <$> Model.vld3q_u16 ptr) := by
  refine ⟨_, Source.vld3q_u16_parse, 1000, fun fuel hf => ?_⟩
  simp only [Source.vld3q_u16_ast, Model.vld3q_u16]
  cpp_simp
  cpp_loop (fun r => [(114, .arr .u16 8 3 r), (7369842, .ptr .u16 ptr)])
  · rintro i r h1 h2
    cpp_body
  · rintro r
    cpp_simp

/-- `neon_sim.cpp:432-442` -/
cpp_source Source.vld3q_s16 "int16x8x3_t vld3q_s16(int16_t const* ptr)
{
    int16x8x3_t r;
    for (int i = 0; i < 8; i++)
    {
        r.val[0].val[i] = ptr[3 * i + 0];
        r.val[1].val[i] = ptr[3 * i + 1];
        r.val[2].val[i] = ptr[3 * i + 2];
    }
    return r;
}
"

theorem Props.vld3q_s16_source [Dialect] (ptr : Ptr .s16) :
    Runs Source.vld3q_s16 [.ofPtr ptr] (Obj.ofVecArr <$> Model.vld3q_s16 ptr) := by
  refine ⟨_, Source.vld3q_s16_parse, 1000, fun fuel hf => ?_⟩
  simp only [Source.vld3q_s16_ast, Model.vld3q_s16]
  cpp_simp
  cpp_loop (fun r => [(114, .arr .s16 8 3 r), (7369842, .ptr .s16 ptr)])
  · rintro i r h1 h2
    cpp_body
  · rintro r
    cpp_simp

/-- `neon_sim.cpp:443-453` -/
cpp_source Source.vld3q_u32 "uint32x4x3_t vld3q_u32(uint32_t const* ptr)
{
    uint32x4x3_t r;
    for (int i = 0; i < 4; i++)
    {
        r.val[0].val[i] = ptr[3 * i + 0];
        r.val[1].val[i] = ptr[3 * i + 1];
        r.val[2].val[i] = ptr[3 * i + 2];
    }
    return r;
}
"

theorem Props.vld3q_u32_source [Dialect] (ptr : Ptr .u32) :
    Runs Source.vld3q_u32 [.ofPtr ptr] (Obj.ofVecArr <$> Model.vld3q_u32 ptr) := by
  refine ⟨_, Source.vld3q_u32_parse, 1000, fun fuel hf => ?_⟩
  simp only [Source.vld3q_u32_ast, Model.vld3q_u32]
  cpp_simp
  cpp_loop (fun r => [(114, .arr .u32 4 3 r), (7369842, .ptr .u32 ptr)])
  · rintro i r h1 h2
    cpp_body
  · rintro r
    cpp_simp

/-- `neon_sim.cpp:454-464` -/
cpp_source Source.vld3q_s32 "int32x4x3_t vld3q_s32(int32_t const* ptr)
{
    int32x4x3_t r;
    for (int i = 0; i < 4; i++)
    {
        r.val[0].val[i] = ptr[3 * i + 0];
        r.val[1].val[i] = ptr[3 * i + 1];
        r.val[2].val[i] = ptr[3 * i + 2];
    }
    return r;
}
"

theorem Props.vld3q_s32_source [Dialect] (ptr : Ptr .s32) :
    Runs Source.vld3q_s32 [.ofPtr ptr] (Obj.ofVecArr <$> Model.vld3q_s32 ptr) := by
  refine ⟨_, Source.vld3q_s32_parse, 1000, fun fuel hf => ?_⟩
  simp only [Source.vld3q_s32_ast, Model.vld3q_s32]
  cpp_simp
  cpp_loop (fun r => [(114, .arr .s32 4 3 r), (7369842, .ptr .s32 ptr)])
  · rintro i r h1 h2
    cpp_body
  · rintro r
    cpp_simp

/-- `neon_sim.cpp:468-479` -/
cpp_source Source.vld4_u8 "uint8x8x4_t vld4_u8(uint8_t const* ptr)
{
    uint8x8x4_t r;
    for (int i = 0; i < 8; i++)
    {
        r.val[0].val[i] = ptr[4 * i + 0];
        r.val[1].val[i] = ptr[4 * i + 1];
        r.val[2].val[i] = ptr[4 * i + 2];
        r.val[3].val[i] = ptr[4 * i + 3];
    }
    return r;
}
"

theorem Props.vld4_u8_source [Dialect] (ptr : Ptr .u8) :
    Runs Source.vld4_u8 [.ofPtr ptr] (Obj.ofVecArr <$> Model.vld4_u8 ptr) := by
  refine ⟨_, Source.vld4_u8_parse, 1000, fun fuel hf => ?_⟩
  simp only [Source.vld4_u8_ast, Model.vld4_u8]
  cpp_simp
  cpp_loop (fun r => [(114, .arr .u8 8 4 r), (7369842, .ptr .u8 ptr)])
  · rintro i r h1 h2
    cpp_body
  · rintro r
    cpp_simp

/-- `neon_sim.cpp:480-491` -/
cpp_source Source.vld4_s8 "int8x8x4_t vld4_s8(int8_t const* ptr)
{
    int8x8x4_t r;
    for (int i = 0; i < 8; i++)
    {
        r.val[0].val[i] = ptr[4 * i + 0];
        r.val[1].val[i] = ptr[4 * i + 1];
        r.val[2].val[i] = ptr[4 * i + 2];
        r.val[3].val[i] = ptr[4 * i + 3];
    }
    return r;
}
"

theorem Props.vld4_s8_source [Dialect] (ptr : Ptr .s8) :
    Runs Source.vld4_s8 [.ofPtr ptr] (Obj.ofVecArr <$> Model.vld4_s8 ptr) := by
  refine ⟨_, Source.vld4_s8_parse, 1000, fun fuel hf => ?_⟩
  simp only [Source.vld4_s8_ast, Model.vld4_s8]
  cpp_simp
  cpp_loop (fun r => [(114, .arr .s8 8 4 r), (7369842, .ptr .s8 ptr)])
  · rintro i r h1 h2
    cpp_body
  · rintro r
    cpp_simp

/-- `neon_sim.cpp:492-503` -/
cpp_source Source.vld4_u16 "uint16x4x4_t vld4_u16(uint16_t const* ptr)
{
    uint16x4x4_t r;
    for (int i = 0; i < 4; i++)
    {
        r.val[0].val[i] = ptr[4 * i + 0];
        r.val[1].val[i] = ptr[4 * i + 1];
        r.val[2].val[i] = ptr[4 * i + 2];
        r.val[3].val[i] = ptr[4 * i + 3];
    }
    return r;
}
"

theorem Props.vld4_u16_source [Dialect] (ptr : Ptr .u16) :
    Runs Source.vld4_u16 [.ofPtr ptr] (Obj.ofVecArr <$> Model.vld4_u16 ptr) := by
  refine ⟨_, Source.vld4_u16_parse, 1000, fun fuel hf => ?_⟩
  simp only [Source.vld4_u16_ast, Model.vld4_u16]
  cpp_simp
  cpp_loop (fun r => [(114, .arr .u16 4 4 r), (7369842, .ptr .u16 ptr)])
  · rintro i r h1 h2
    cpp_body
  · rintro r
    cpp_simp

/-- `neon_sim.cpp:504-515` -/
cpp_source Source.vld4_s16 "int16x4x4_t vld4_s16(int16_t const* ptr)
{
    int16x4x4_t r;
    for (int i = 0; i < 4; i++)
    {
        r.val[0].val[i] = ptr[4 * i + 0];
        r.val[1].val[i] = ptr[4 * i + 1];
        r.val[2].val[i] = ptr[4 * i + 2];
        r.val[3].val[i] = ptr[4 * i + 3];
    }
    return r;
}
"

theorem Props.vld4_s16_source [Dialect] (ptr : Ptr .s16) :
    Runs Source.vld4_s16 [.ofPtr ptr] (Obj.ofVecArr <$> Model.vld4_s16 ptr) := by
  refine ⟨_, Source.vld4_s16_parse, 1000, fun fuel hf => ?_⟩
  simp only [Source.vld4_s16_ast, Model.vld4_s16]
  cpp_simp
  cpp_loop (fun r => [(114, .arr .s16 4 4 r), (7369842, .ptr .s16 ptr)])
  · rintro i r h1 h2
    cpp_body
  · rintro r
    cpp_simp

/-- `neon_sim.cpp:516-527` -/
cpp_source Source.vld4_u32 "uint32x2x4_t vld4_u32(uint32_t const* ptr)
{
    uint32x2x4_t r;
    for (int i = 0; i < 2; i++)
    {
        r.val[0].val[i] = ptr[4 * i + 0];
        r.val[1].val[i] = ptr[4 * i + 1];
        r.val[2].val[i] = ptr[4 * i + 2];
        r.val[3].val[i] = ptr[4 * i + 3];
    }
    return r;
}
"

theorem Props.vld4_u32_source [Dialect] (ptr : Ptr .u32) :
    Runs Source.vld4_u32 [.ofPtr ptr] (Obj.ofVecArr <$> Model.vld4_u32 ptr) := by
  refine ⟨_, Source.vld4_u32_parse, 1000, fun fuel hf => ?_⟩
  simp only [Source.vld4_u32_ast, Model.vld4_u32]
  cpp_simp
  cpp_loop (fun r => [(114, .arr .u32 2 4 r), (7369842, .ptr .u32 ptr)])
  · rintro i r h1 h2
    cpp_body
  · rintro r
    cpp_simp

/-- `neon_sim.cpp:528-539` -/
cpp_source Source.vld4_s32 "int32x2x4_t vld4_s32(int32_t const* ptr)
{
    int32x2x4_t r;
    for (int i = 0; i < 2; i++)
    {
        r.val[0].val[i] = ptr[4 * i + 0];
        r.val[1].val[i] = ptr[4 * i + 1];
        r.val[2].val[i] = ptr[4 * i + 2];
        r.val[3].val[i] = ptr[4 * i + 3];
    }
    return r;
}
"

theorem Props.vld4_s32_source [Dialect] (ptr : Ptr .s32) :
    Runs Source.vld4_s32 [.ofPtr ptr] (Obj.ofVecArr <$> Model.vld4_s32 ptr) := by
  refine ⟨_, Source.vld4_s32_parse, 1000, fun fuel hf => ?_⟩
  simp only [Source.vld4_s32_ast, Model.vld4_s32]
  cpp_simp
  cpp_loop (fun r => [(114, .arr .s32 2 4 r), (7369842, .ptr .s32 ptr)])
  · rintro i r h1 h2
    cpp_body
  · rintro r
    cpp_simp

/-- `neon_sim.cpp:540-551` -/
cpp_source Source.vld4_f32 "float32x2x4_t vld4_f32(float const* ptr)
{
    float32x2x4_t r;
    for (int i = 0; i < 2; i++)
    {
        r.val[0].val[i] = ptr[4 * i + 0];
        r.val[1].val[i] = ptr[4 * i + 1];
        r.val[2].val[i] = ptr[4 * i + 2];
        r.val[3].val[i] = ptr[4 * i + 3];
    }
    return r;
}
"

theorem Props.vld4_f32_source [Dialect] (ptr : Ptr .f32) :
    Runs Source.vld4_f32 [.ofPtr ptr] (Obj.ofVecArr <$> Model.vld4_f32 ptr) := by
  refine ⟨_, Source.vld4_f32_parse, 1000, fun fuel hf => ?_⟩
  simp only [Source.vld4_f32_ast, Model.vld4_f32]
  cpp_simp
  cpp_loop (fun r => [(114, .arr .f32 2 4 r), (7369842, .ptr .f32 ptr)])
  · rintro i r h1 h2
    cpp_body
  · rintro r
    cpp_simp

/-- `neon_sim.cpp:554-565` -/
cpp_source Source.vld4q_u8 "uint8x16x4_t vld4q_u8(uint8_t const* ptr)
{
    uint8x16x4_t r;
    for (int i = 0; i < 16; i++)
    {
        r.val[0].val[i] = ptr[4 * i + 0];
        r.val[1].val[i] = ptr[4 * i + 1];
        r.val[2].val[i] = ptr[4 * i + 2];
        r.val[3].val[i] = ptr[4 * i + 3];
    }
    return r;
}
"

theorem Props.vld4q_u8_source [Dialect] (ptr : Ptr .u8) :
    Runs Source.vld4q_u8 [.ofPtr ptr] (Obj.ofVecArr <$> Model.vld4q_u8 ptr) := by
  refine ⟨_, Source.vld4q_u8_parse, 1000, fun fuel hf => ?_⟩
  simp only [Source.vld4q_u8_ast, Model.vld4q_u8]
  cpp_simp
  cpp_loop (fun r => [(114, .arr .u8 16 4 r), (7369842, .ptr .u8 ptr)])
  · rintro i r h1 h2
    cpp_body
  · rintro r
    cpp_simp

/-- `neon_sim.cpp:566-577` -/
cpp_source Source.vld4q_s8 "int8x16x4_t vld4q_s8(int8_t const* ptr)
{
    int8x16x4_t r;
    for (int i = 0; i < 16; i++)
    {
        r.val[0].val[i] = ptr[4 * i + 0];
        r.val[1].val[i] = ptr[4 * i + 1];
        r.val[2].val[i] = ptr[4 * i + 2];
        r.val[3].val[i] = ptr[4 * i + 3];
    }
    return r;
}
"

theorem Props.vld4q_s8_source [Dialect] (ptr : Ptr .s8) :
    Runs Source.vld4q_s8 [.ofPtr ptr] (Obj.ofVecArr <$> Model.vld4q_s8 ptr) := by
  refine ⟨_, Source.vld4q_s8_parse, 1000, fun fuel hf => ?_⟩
  simp only [Source.vld4q_s8_ast, Model.vld4q_s8]
  cpp_simp
  cpp_loop (fun r => [(114, .arr .s8 16 4 r), (7369842, .ptr .s8 ptr)])
  · rintro i r h1 h2
    cpp_body
  · rintro r
    cpp_simp

/-- `neon_sim.cpp:578-589` -/
cpp_source Source.vld4q_u16 "uint16x8x4_t vld4q_u16(uint16_t const* ptr)
{
    uint16x8x4_t r;
    for (int i = 0; i < 8; i++)
    {
        r.val[0].val[i] = ptr[4 * i + 0];
        r.val[1].val[i] = ptr[4 * i + 1];
        r.val[2].val[i] = ptr[4 * i + 2];
        r.val[3].val[i] = ptr[4 * i + 3];
    }
    return r;
}
"

theorem Props.vld4q_u16_source [Dialect] (ptr : Ptr .u16) :
    Runs Source.vld4q_u16 [.ofPtr ptr] (Obj.ofVecArr <$> Model.vld4q_u16 ptr) := by
  refine ⟨_, Source.vld4q_u16_parse, 1000, fun fuel hf => ?_⟩
  simp only [Source.vld4q_u16_ast, Model.vld4q_u16]
  cpp_simp
  cpp_loop (fun r => [(114, .arr .u16 8 4 r), (7369842, .ptr .u16 ptr)])
  · rintro i r h1 h2
    cpp_body
  · rintro r
    cpp_simp

/-- `neon_sim.cpp:590-601` -/
cpp_source Source.vld4q_s16 "int16x8x4_t vld4q_s16(int16_t const* ptr)
{
    int16x8x4_t r;
    for (int i = 0; i < 8; i++)
    {
        r.val[0].val[i] = ptr[4 * i + 0];
        r.val[1].val[i] = ptr[4 * i + 1];
        r.val[2].val[i] = ptr[4 * i + 2];
        r.val[3].val[i] = ptr[4 * i + 3];
    }
    return r;
}
"

theorem Props.vld4q_s16_source [Dialect] (ptr : Ptr .s16) :
    Runs Source.vld4q_s16 [.ofPtr ptr] (Obj.ofVecArr <$> Model.vld4q_s16 ptr) := by
  refine ⟨_, Source.vld4q_s16_parse, 1000, fun fuel hf => ?_⟩
  simp only [Source.vld4q_s16_ast, Model.vld4q_s16]
  cpp_simp
  cpp_loop (fun r => [(114, .arr .s16 8 4 r), (7369842, .ptr .s16 ptr)])
  · rintro i r h1 h2
    cpp_body
  · rintro r
    cpp_simp

/-- `neon_sim.cpp:602-613` -/
cpp_source Source.vld4q_u32 "uint32x4x4_t vld4q_u32(uint32_t const* ptr)
{
    uint32x4x4_t r;
    for (int i = 0; i < 4; i++)
    {
        r.val[0].val[i] = ptr[4 * i + 0];
        r.val[1].val[i] = ptr[4 * i + 1];
        r.val[2].val[i] = ptr[4 * i + 2];
        r.val[3].val[i] = ptr[4 * i + 3];
    }
    return r;
}
"

theorem Props.vld4q_u32_source [Dialect] (ptr : Ptr .u32) :
    Runs Source.vld4q_u32 [.ofPtr ptr] (Obj.ofVecArr <$> Model.vld4q_u32 ptr) := by
  refine ⟨_, Source.vld4q_u32_parse, 1000, fun fuel hf => ?_⟩
  simp only [Source.vld4q_u32_ast, Model.vld4q_u32]
  cpp_simp
  cpp_loop (fun r => [(114, .arr .u32 4 4 r), (7369842, .ptr .u32 ptr)])
  · rintro i r h1 h2
    cpp_body
  · rintro r
    cpp_simp

/-- `neon_sim.cpp:614-625` -/
cpp_source Source.vld4q_s32 "int32x4x4_t vld4q_s32(int32_t const* ptr)
{
    int32x4x4_t r;
    for (int i = 0; i < 4; i++)
    {
        r.val[0].val[i] = ptr[4 * i + 0];
        r.val[1].val[i] = ptr[4 * i + 1];
        r.val[2].val[i] = ptr[4 * i + 2];
        r.val[3].val[i] = ptr[4 * i + 3];
    }
    return r;
}
"

theorem Props.vld4q_s32_source [Dialect] (ptr : Ptr .s32) :
    Runs Source.vld4q_s32 [.ofPtr ptr] (Obj.ofVecArr <$> Model.vld4q_s32 ptr) := by
  refine ⟨_, Source.vld4q_s32_parse, 1000, fun fuel hf => ?_⟩
  simp only [Source.vld4q_s32_ast, Model.vld4q_s32]
  cpp_simp
  cpp_loop (fun r => [(114, .arr .s32 4 4 r), (7369842, .ptr .s32 ptr)])
  · rintro i r h1 h2
    cpp_body
  · rintro r
    cpp_simp

/-- `neon_sim.cpp:628-636` -/
cpp_source Source.vld1q_dup_f32 "float32x4_t vld1q_dup_f32(float32_t const* ptr)
{
    float32x4_t r;
    for (int i = 0; i < 4; i++)
    {
        r.val[i] =  ptr[0];
    }
    return r;
}
"

theorem Props.vld1q_dup_f32_source [Dialect] (ptr : Ptr .f32) :
    Runs Source.vld1q_dup_f32 [.ofPtr ptr] (Obj.ofVec <$> Model.vld1q_dup_f32 ptr) := by
  refine ⟨_, Source.vld1q_dup_f32_parse, 1000, fun fuel hf => ?_⟩
  simp only [Source.vld1q_dup_f32_ast, Model.vld1q_dup_f32]
  cpp_simp
  cpp_loop (fun r => [(114, .vec .f32 4 r), (7369842, .ptr .f32 ptr)])
  · rintro i r h1 h2
    cpp_body
  · rintro r
    cpp_simp

/-- `neon_sim.cpp:638-647` -/
cpp_source Source.vld1_lane_s8 "int8x8_t vld1_lane_s8(int8_t const* ptr, int8x8_t src, const int lane)
{
    int8x8_t r;
    for (int i = 0; i < 8; i++)
    {
        r.val[i] =  src.val[i];
    }
    r.val[lane] = ptr[0];
    return r;
}
"

theorem Props.vld1_lane_s8_source [Dialect] (ptr : Ptr .s8) (src : int8x8_t) (lane : Int) (hlane : -2147483648 ≤ lane ∧ lane ≤ 2147483647) :
    Runs Source.vld1_lane_s8 [.ofPtr ptr, .ofVec src, .ofInt lane] (Obj.ofVec <$> Model.vld1_lane_s8 ptr src lane) := by
  refine ⟨_, Source.vld1_lane_s8_parse, 1000, fun fuel hf => ?_⟩
  simp only [Source.vld1_lane_s8_ast, Model.vld1_lane_s8]
  cpp_simp
  cpp_loop (fun r => [(114, .vec .s8 8 r), (1818324581, .sc .s32 (some (vint lane))), (7565923, .vec .s8 8 (Arr.ofVec src)), (7369842, .ptr .s8 ptr)])
  · rintro i r h1 h2
    cpp_body
  · rintro r
    cpp_simp

/-- `neon_sim.cpp:649-658` -/
cpp_source Source.vld1_lane_u8 "uint8x8_t vld1_lane_u8(uint8_t const* ptr, uint8x8_t src, const int lane)
{
    uint8x8_t r;
    for (int i = 0; i < 8; i++)
    {
        r.val[i] =  src.val[i];
    }
    r.val[lane] = ptr[0];
    return r;
}
"

theorem Props.vld1_lane_u8_source [Dialect] (ptr : Ptr .u8) (src : uint8x8_t) (lane : Int) (hlane : -2147483648 ≤ lane ∧ lane ≤ 2147483647) :
    Runs Source.vld1_lane_u8 [.ofPtr ptr, .ofVec src, .ofInt lane] (Obj.ofVec <$> Model.vld1_lane_u8 ptr src lane) := by
  refine ⟨_, Source.vld1_lane_u8_parse, 1000, fun fuel hf => ?_⟩
  simp only [Source.vld1_lane_u8_ast, Model.vld1_lane_u8]
  cpp_simp
  cpp_loop (fun r => [(114, .vec .u8 8 r), (1818324581, .sc .s32 (some (vint lane))), (7565923, .vec .u8 8 (Arr.ofVec src)), (7369842, .ptr .u8 ptr)])
  · rintro i r h1 h2
    cpp_body
  · rintro r
    cpp_simp

/-- `neon_sim.cpp:661-684` -/
cpp_source Source.vld2_lane_u8 "uint8x8x2_t vld2_lane_u8(uint8_t const* ptr, uint8x8x2_t src, const int lane)
{
    uint8x8x2_t res;
    if (!(lane >= 0 && lane <= 7))
    {
        fprintf(stderr, \"only support [0, 7] for param lane\\n\");
        abort();
    }
    for (int j = 0; j < 2; j++)
    {
        for (int i = 0; i < 8; i++)
        {
            if (i == lane)
            {
                res.val[j].val[i] = ptr[j];
            }
            else
            {
                res.val[j].val[i] = src.val[j].val[i];
            }
        }
    }
    return res;
}
"

theorem Props.vld2_lane_u8_source [Dialect] (ptr : Ptr .u8) (src : uint8x8x2_t) (lane : Int) (hlane : -2147483648 ≤ lane ∧ lane ≤ 2147483647) :
    Runs Source.vld2_lane_u8 [.ofPtr ptr, .ofVecArr src, .ofInt lane] (Obj.ofVecArr <$> Model.vld2_lane_u8 ptr src lane) := by
  refine ⟨_, Source.vld2_lane_u8_parse, 1000, fun fuel hf => ?_⟩
  simp only [Source.vld2_lane_u8_ast, Model.vld2_lane_u8]
  cpp_simp
  cpp_check
  · try cpp_simp
    cpp_loop (fun res => [(7497075, .arr .u8 8 2 res), (1818324581, .sc .s32 (some (vint lane))), (7565923, .arr .u8 8 2 (ofRegs src)), (7369842, .ptr .u8 ptr)])
    · rintro j res h1 h2
      cpp_simp
      cpp_loop (fun res => [(106, .sc .s32 (some (.int .i32 j))), (7497075, .arr .u8 8 2 res), (1818324581, .sc .s32 (some (vint lane))), (7565923, .arr .u8 8 2 (ofRegs src)), (7369842, .ptr .u8 ptr)])
      · rintro i res h1 h2
        cpp_body
      · rintro res
        cpp_simp
    · rintro res
      cpp_simp

/-- `neon_sim.cpp:686-709` -/
cpp_source Source.vld3_lane_u8 "uint8x8x3_t vld3_lane_u8(uint8_t const* ptr, uint8x8x3_t src, const int lane)
{
    if (!(lane >= 0 && lane <= 7))
    {
        fprintf(stderr, \"only support [0, 7] for param lane\\n\");
        abort();
    }
    uint8x8x3_t res;
    for (int j = 0; j < 3; j++)
    {
        for (int i = 0; i < 8; i++)
        {
            if (i == lane)
            {
                res.val[j].val[i] = ptr[j];
            }
            else
            {
                res.val[j].val[i] = src.val[j].val[i];
            }
        }
    }
    return res;
}
"

theorem Props.vld3_lane_u8_source [Dialect] (ptr : Ptr .u8) (src : uint8x8x3_t) (lane : Int) (hlane : -2147483648 ≤ lane ∧ lane ≤ 2147483647) :
    Runs Source.vld3_lane_u8 [.ofPtr ptr, .ofVecArr src, .ofInt lane] (Obj.ofVecArr <$> Model.vld3_lane_u8 ptr src lane) := by
  refine ⟨_, Source.vld3_lane_u8_parse, 1000, fun fuel hf => ?_⟩
  simp only [Source.vld3_lane_u8_ast, Model.vld3_lane_u8]
  cpp_simp
  cpp_check
  · try cpp_simp
    cpp_loop (fun res => [(7497075, .arr .u8 8 3 res), (1818324581, .sc .s32 (some (vint lane))), (7565923, .arr .u8 8 3 (ofRegs src)), (7369842, .ptr .u8 ptr)])
    · rintro j res h1 h2
      cpp_simp
      cpp_loop (fun res => [(106, .sc .s32 (some (.int .i32 j))), (7497075, .arr .u8 8 3 res), (1818324581, .sc .s32 (some (vint lane))), (7565923, .arr .u8 8 3 (ofRegs src)), (7369842, .ptr .u8 ptr)])
      · rintro i res h1 h2
        cpp_body
      · rintro res
        cpp_simp
    · rintro res
      cpp_simp

/-- `neon_sim.cpp:711-734` -/
cpp_source Source.vld4_lane_u8 "uint8x8x4_t vld4_lane_u8(uint8_t const* ptr, uint8x8x4_t src, const int lane)
{
    if (!(lane >= 0 && lane <= 7))
    {
        fprintf(stderr, \"only support [0, 7] for param lane\\n\");
        abort();
    }
    uint8x8x4_t res;
    for (int j = 0; j < 4; j++)
    {
        for (int i = 0; i < 8; i++)
        {
            if (i == lane)
            {
                res.val[j].val[i] = ptr[j];
            }
            else
            {
                res.val[j].val[i] = src.val[j].val[i];
            }
        }
    }
    return res;
}
"

theorem Props.vld4_lane_u8_source [Dialect] (ptr : Ptr .u8) (src : uint8x8x4_t) (lane : Int) (hlane : -2147483648 ≤ lane ∧ lane ≤ 2147483647) :
    Runs Source.vld4_lane_u8 [.ofPtr ptr, .ofVecArr src, .ofInt lane] (Obj.ofVecArr <$> Model.vld4_lane_u8 ptr src lane) := by
  refine ⟨_, Source.vld4_lane_u8_parse, 1000, fun fuel hf => ?_⟩
  simp only [Source.vld4_lane_u8_ast, Model.vld4_lane_u8]
  cpp_simp
  cpp_check
  · try cpp_simp
    cpp_loop (fun res => [(7497075, .arr .u8 8 4 res), (1818324581, .sc .s32 (some (vint lane))), (7565923, .arr .u8 8 4 (ofRegs src)), (7369842, .ptr .u8 ptr)])
    · rintro j res h1 h2
      cpp_simp
      cpp_loop (fun res => [(106, .sc .s32 (some (.int .i32 j))), (7497075, .arr .u8 8 4 res), (1818324581, .sc .s32 (some (vint lane))), (7565923, .arr .u8 8 4 (ofRegs src)), (7369842, .ptr .u8 ptr)])
      · rintro i res h1 h2
        cpp_body
      · rintro res
        cpp_simp
    · rintro res
      cpp_simp

end Verif
