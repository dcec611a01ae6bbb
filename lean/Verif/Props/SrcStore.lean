import Verif.Cpp.Command
import Verif.Model.Store

/-! Source text of the functions in `Verif/Model/Store.lean`, and the theorem that running it is running the model.
Generated by `tools/gen_source.py`. -/

set_option linter.unusedVariables false
set_option linter.unusedSimpArgs false
set_option maxHeartbeats 1000000

open Verif.Cpp

namespace Verif

/-- `neon_sim.cpp:739-745` -/
cpp_source Source.vst1_u8 "void vst1_u8(uint8_t* ptr, uint8x8_t val)
{
    for (int i = 0; i < 8; i++)
    {
        ptr[i] = val.val[i];
    }
}
"

theorem Props.vst1_u8_source [Dialect] (ptr : Ptr .u8) (val : uint8x8_t) :
    Runs Source.vst1_u8 [.ofPtr ptr, .ofVec val] (Obj.ofPtr <$> Model.vst1_u8 ptr val) := by
  refine ⟨_, Source.vst1_u8_parse, 1000, fun fuel hf => ?_⟩
  simp only [Source.vst1_u8_ast, Model.vst1_u8]
  cpp_simp
  cpp_loop (fun ptr => [(7758188, .vec .u8 8 (Arr.ofVec val)), (7369842, .ptr .u8 ptr)])
  · rintro i ptr h1 h2
    cpp_body
  · rintro ptr
    cpp_simp

/-- `neon_sim.cpp:746-752` -/
cpp_source Source.vst1_s8 "void vst1_s8(int8_t* ptr, int8x8_t val)
{
    for (int i = 0; i < 8; i++)
    {
        ptr[i] = val.val[i];
    }
}
"

theorem Props.vst1_s8_source [Dialect] (ptr : Ptr .s8) (val : int8x8_t) :
    Runs Source.vst1_s8 [.ofPtr ptr, .ofVec val] (Obj.ofPtr <$> Model.vst1_s8 ptr val) := by
  refine ⟨_, Source.vst1_s8_parse, 1000, fun fuel hf => ?_⟩
  simp only [Source.vst1_s8_ast, Model.vst1_s8]
  cpp_simp
  cpp_loop (fun ptr => [(7758188, .vec .s8 8 (Arr.ofVec val)), (7369842, .ptr .s8 ptr)])
  · rintro i ptr h1 h2
    cpp_body
  · rintro ptr
    cpp_simp

/-- `neon_sim.cpp:753-759` -/
cpp_source Source.vst1_u16 "void vst1_u16(uint16_t* ptr, uint16x4_t val)
{
    for (int i = 0; i < 4; i++)
    {
        ptr[i] = val.val[i];
    }
}
"

theorem Props.vst1_u16_source [Dialect] (ptr : Ptr .u16) (val : uint16x4_t) :
    Runs Source.vst1_u16 [.ofPtr ptr, .ofVec val] (Obj.ofPtr <$> Model.vst1_u16 ptr val) := by
  refine ⟨_, Source.vst1_u16_parse, 1000, fun fuel hf => ?_⟩
  simp only [Source.vst1_u16_ast, Model.vst1_u16]
  cpp_simp
  cpp_loop (fun ptr => [(7758188, .vec .u16 4 (Arr.ofVec val)), (7369842, .ptr .u16 ptr)])
  · rintro i ptr h1 h2
    cpp_body
  · rintro ptr
    cpp_simp

/-- `neon_sim.cpp:760-766` -/
cpp_source Source.vst1_s16 "void vst1_s16(int16_t* ptr, int16x4_t val)
{
    for (int i = 0; i < 4; i++)
    {
        ptr[i] = val.val[i];
    }
}
"

theorem Props.vst1_s16_source [Dialect] (ptr : Ptr .s16) (val : int16x4_t) :
    Runs Source.vst1_s16 [.ofPtr ptr, .ofVec val] (Obj.ofPtr <$> Model.vst1_s16 ptr val) := by
  refine ⟨_, Source.vst1_s16_parse, 1000, fun fuel hf => ?_⟩
  simp only [Source.vst1_s16_ast, Model.vst1_s16]
  cpp_simp
  cpp_loop (fun ptr => [(7758188, .vec .s16 4 (Arr.ofVec val)), (7369842, .ptr .s16 ptr)])
  · rintro i ptr h1 h2
    cpp_body
  · rintro ptr
    cpp_simp

/-- `neon_sim.cpp:767-773` -/
cpp_source Source.vst1_u32 "void vst1_u32(uint32_t* ptr, uint32x2_t val)
{
    for (int i = 0; i < 2; i++)
    {
        ptr[i] = val.val[i];
    }
}
"

theorem Props.vst1_u32_source [Dialect] (ptr : Ptr .u32) (val : uint32x2_t) :
    Runs Source.vst1_u32 [.ofPtr ptr, .ofVec val] (Obj.ofPtr <$> Model.vst1_u32 ptr val) := by
  refine ⟨_, Source.vst1_u32_parse, 1000, fun fuel hf => ?_⟩
  simp only [Source.vst1_u32_ast, Model.vst1_u32]
  cpp_simp
  cpp_loop (fun ptr => [(7758188, .vec .u32 2 (Arr.ofVec val)), (7369842, .ptr .u32 ptr)])
  · rintro i ptr h1 h2
    cpp_body
  · rintro ptr
    cpp_simp

/-- `neon_sim.cpp:774-780` -/
cpp_source Source.vst1_s32 "void vst1_s32(int32_t* ptr, int32x2_t val)
{
    for (int i = 0; i < 2; i++)
    {
        ptr[i] = val.val[i];
    }
}
"

theorem Props.vst1_s32_source [Dialect] (ptr : Ptr .s32) (val : int32x2_t) :
    Runs Source.vst1_s32 [.ofPtr ptr, .ofVec val] (Obj.ofPtr <$> Model.vst1_s32 ptr val) := by
  refine ⟨_, Source.vst1_s32_parse, 1000, fun fuel hf => ?_⟩
  simp only [Source.vst1_s32_ast, Model.vst1_s32]
  cpp_simp
  cpp_loop (fun ptr => [(7758188, .vec .s32 2 (Arr.ofVec val)), (7369842, .ptr .s32 ptr)])
  · rintro i ptr h1 h2
    cpp_body
  · rintro ptr
    cpp_simp

/-- `neon_sim.cpp:781-787` -/
cpp_source Source.vst1_s64 "void vst1_s64(int64_t* ptr, int64x1_t val)
{
    for (int i = 0; i < 1; i++)
    {
        ptr[i] = val.val[i];
    }
}
"

theorem Props.vst1_s64_source [Dialect] (ptr : Ptr .s64) (val : int64x1_t) :
    Runs Source.vst1_s64 [.ofPtr ptr, .ofVec val] (Obj.ofPtr <$> Model.vst1_s64 ptr val) := by
  refine ⟨_, Source.vst1_s64_parse, 1000, fun fuel hf => ?_⟩
  simp only [Source.vst1_s64_ast, Model.vst1_s64]
  cpp_simp
  cpp_loop (fun ptr => [(7758188, .vec .s64 1 (Arr.ofVec val)), (7369842, .ptr .s64 ptr)])
  · rintro i ptr h1 h2
    cpp_body
  · rintro ptr
    cpp_simp

/-- `neon_sim.cpp:788-794` -/
cpp_source Source.vst1_u64 "void vst1_u64(uint64_t* ptr, uint64x1_t val)
{
    for (int i = 0; i < 1; i++)
    {
        ptr[i] = val.val[i];
    }
}
"

theorem Props.vst1_u64_source [Dialect] (ptr : Ptr .u64) (val : uint64x1_t) :
    Runs Source.vst1_u64 [.ofPtr ptr, .ofVec val] (Obj.ofPtr <$> Model.vst1_u64 ptr val) := by
  refine ⟨_, Source.vst1_u64_parse, 1000, fun fuel hf => ?_⟩
  simp only [Source.vst1_u64_ast, Model.vst1_u64]
  cpp_simp
  cpp_loop (fun ptr => [(7758188, .vec .u64 1 (Arr.ofVec val)), (7369842, .ptr .u64 ptr)])
  · rintro i ptr h1 h2
    cpp_body
  · rintro ptr
    cpp_simp

/-- `neon_sim.cpp:797-803` -/
cpp_source Source.vst1q_u8 "void vst1q_u8(uint8_t* ptr, uint8x16_t val)
{
    for (int i = 0; i < 16; i++)
    {
        ptr[i] = val.val[i];
    }
}
"

theorem Props.vst1q_u8_source [Dialect] (ptr : Ptr .u8) (val : uint8x16_t) :
    Runs Source.vst1q_u8 [.ofPtr ptr, .ofVec val] (Obj.ofPtr <$> Model.vst1q_u8 ptr val) := by
  refine ⟨_, Source.vst1q_u8_parse, 1000, fun fuel hf => ?_⟩
  simp only [Source.vst1q_u8_ast, Model.vst1q_u8]
  cpp_simp
  cpp_loop (fun ptr => [(7758188, .vec .u8 16 (Arr.ofVec val)), (7369842, .ptr .u8 ptr)])
  · rintro i ptr h1 h2
    cpp_body
  · rintro ptr
    cpp_simp

/-- `neon_sim.cpp:804-810` -/
cpp_source Source.vst1q_s8 "void vst1q_s8(int8_t* ptr, int8x16_t val)
{
    for (int i = 0; i < 16; i++)
    {
        ptr[i] = val.val[i];
    }
}
"

theorem Props.vst1q_s8_source [Dialect] (ptr : Ptr .s8) (val : int8x16_t) :
    Runs Source.vst1q_s8 [.ofPtr ptr, .ofVec val] (Obj.ofPtr <$> Model.vst1q_s8 ptr val) := by
  refine ⟨_, Source.vst1q_s8_parse, 1000, fun fuel hf => ?_⟩
  simp only [Source.vst1q_s8_ast, Model.vst1q_s8]
  cpp_simp
  cpp_loop (fun ptr => [(7758188, .vec .s8 16 (Arr.ofVec val)), (7369842, .ptr .s8 ptr)])
  · rintro i ptr h1 h2
    cpp_body
  · rintro ptr
    cpp_simp

/-- `neon_sim.cpp:811-817` -/
cpp_source Source.vst1q_u16 "void vst1q_u16(uint16_t* ptr, uint16x8_t val)
{
    for (int i = 0; i < 8; i++)
    {
        ptr[i] = val.val[i];
    }
}
"

theorem Props.vst1q_u16_source [Dialect] (ptr : Ptr .u16) (val : uint16x8_t) :
    Runs Source.vst1q_u16 [.ofPtr ptr, .ofVec val] (Obj.ofPtr <$> Model.vst1q_u16 ptr val) := by
  refine ⟨_, Source.vst1q_u16_parse, 1000, fun fuel hf => ?_⟩
  simp only [Source.vst1q_u16_ast, Model.vst1q_u16]
  cpp_simp
  cpp_loop (fun ptr => [(7758188, .vec .u16 8 (Arr.ofVec val)), (7369842, .ptr .u16 ptr)])
  · rintro i ptr h1 h2
    cpp_body
  · rintro ptr
    cpp_simp

/-- `neon_sim.cpp:818-824` -/
cpp_source Source.vst1q_s16 "void vst1q_s16(int16_t* ptr, int16x8_t val)
{
    for (int i = 0; i < 8; i++)
    {
        ptr[i] = val.val[i];
    }
}
"

theorem Props.vst1q_s16_source [Dialect] (ptr : Ptr .s16) (val : int16x8_t) :
    Runs Source.vst1q_s16 [.ofPtr ptr, .ofVec val] (Obj.ofPtr <$> Model.vst1q_s16 ptr val) := by
  refine ⟨_, Source.vst1q_s16_parse, 1000, fun fuel hf => ?_⟩
  simp only [Source.vst1q_s16_ast, Model.vst1q_s16]
  cpp_simp
  cpp_loop (fun ptr => [(7758188, .vec .s16 8 (Arr.ofVec val)), (7369842, .ptr .s16 ptr)])
  · rintro i ptr h1 h2
    cpp_body
  · rintro ptr
    cpp_simp

/-- `neon_sim.cpp:825-831` -/
cpp_source Source.vst1q_u32 "void vst1q_u32(uint32_t* ptr, uint32x4_t val)
{
    for (int i = 0; i < 4; i++)
    {
        ptr[i] = val.val[i];
    }
}
"

theorem Props.vst1q_u32_source [Dialect] (ptr : Ptr .u32) (val : uint32x4_t) :
    Runs Source.vst1q_u32 [.ofPtr ptr, .ofVec val] (Obj.ofPtr <$> Model.vst1q_u32 ptr val) := by
  refine ⟨_, Source.vst1q_u32_parse, 1000, fun fuel hf => ?_⟩
  simp only [Source.vst1q_u32_ast, Model.vst1q_u32]
  cpp_simp
  cpp_loop (fun ptr => [(7758188, .vec .u32 4 (Arr.ofVec val)), (7369842, .ptr .u32 ptr)])
  · rintro i ptr h1 h2
    cpp_body
  · rintro ptr
    cpp_simp

/-- `neon_sim.cpp:832-838` -/
cpp_source Source.vst1q_s32 "void vst1q_s32(int32_t* ptr, int32x4_t val)
{
    for (int i = 0; i < 4; i++)
    {
        ptr[i] = val.val[i];
    }
}
"

theorem Props.vst1q_s32_source [Dialect] (ptr : Ptr .s32) (val : int32x4_t) :
    Runs Source.vst1q_s32 [.ofPtr ptr, .ofVec val] (Obj.ofPtr <$> Model.vst1q_s32 ptr val) := by
  refine ⟨_, Source.vst1q_s32_parse, 1000, fun fuel hf => ?_⟩
  simp only [Source.vst1q_s32_ast, Model.vst1q_s32]
  cpp_simp
  cpp_loop (fun ptr => [(7758188, .vec .s32 4 (Arr.ofVec val)), (7369842, .ptr .s32 ptr)])
  · rintro i ptr h1 h2
    cpp_body
  · rintro ptr
    cpp_simp

/-- `neon_sim.cpp:839-845` -/
cpp_source Source.vst1q_s64 "void vst1q_s64(int64_t* ptr, int64x2_t val)
{
    for (int i = 0; i < 2; i++)
    {
        ptr[i] = val.val[i];
    }
}
"

theorem Props.vst1q_s64_source [Dialect] (ptr : Ptr .s64) (val : int64x2_t) :
    Runs Source.vst1q_s64 [.ofPtr ptr, .ofVec val] (Obj.ofPtr <$> Model.vst1q_s64 ptr val) := by
  refine ⟨_, Source.vst1q_s64_parse, 1000, fun fuel hf => ?_⟩
  simp only [Source.vst1q_s64_ast, Model.vst1q_s64]
  cpp_simp
  cpp_loop (fun ptr => [(7758188, .vec .s64 2 (Arr.ofVec val)), (7369842, .ptr .s64 ptr)])
  · rintro i ptr h1 h2
    cpp_body
  · rintro ptr
    cpp_simp

/-- `neon_sim.cpp:846-852` -/
cpp_source Source.vst1q_u64 "void vst1q_u64(uint64_t* ptr, uint64x2_t val)
{
    for (int i = 0; i < 2; i++)
    {
        ptr[i] = val.val[i];
    }
}
"

theorem Props.vst1q_u64_source [Dialect] (ptr : Ptr .u64) (val : uint64x2_t) :
    Runs Source.vst1q_u64 [.ofPtr ptr, .ofVec val] (Obj.ofPtr <$> Model.vst1q_u64 ptr val) := by
  refine ⟨_, Source.vst1q_u64_parse, 1000, fun fuel hf => ?_⟩
  simp only [Source.vst1q_u64_ast, Model.vst1q_u64]
  cpp_simp
  cpp_loop (fun ptr => [(7758188, .vec .u64 2 (Arr.ofVec val)), (7369842, .ptr .u64 ptr)])
  · rintro i ptr h1 h2
    cpp_body
  · rintro ptr
    cpp_simp

/-- `neon_sim.cpp:853-859` -/
cpp_source Source.vst1q_f32 "void vst1q_f32(float32_t* ptr, float32x4_t val)
{
    for (int i = 0; i < 4; i++)
    {
        ptr[i] = val.val[i];
    }
}
"

theorem Props.vst1q_f32_source [Dialect] (ptr : Ptr .f32) (val : float32x4_t) :
    Runs Source.vst1q_f32 [.ofPtr ptr, .ofVec val] (Obj.ofPtr <$> Model.vst1q_f32 ptr val) := by
  refine ⟨_, Source.vst1q_f32_parse, 1000, fun fuel hf => ?_⟩
  simp only [Source.vst1q_f32_ast, Model.vst1q_f32]
  cpp_simp
  cpp_loop (fun ptr => [(7758188, .vec .f32 4 (Arr.ofVec val)), (7369842, .ptr .f32 ptr)])
  · rintro i ptr h1 h2
    cpp_body
  · rintro ptr
    cpp_simp

/-- `neon_sim.cpp:862-869` -/
cpp_source Source.vst2_s8 "void vst2_s8(int8_t* ptr, int8x8x2_t val)
{
    for (int i = 0; i < 8; i++)
    {
        ptr[2 * i + 0] = val.val[0].val[i];
        ptr[2 * i + 1] = val.val[1].val[i];
    }
}
"

theorem Props.vst2_s8_source [Dialect] (ptr : Ptr .s8) (val : int8x8x2_t) :
    Runs Source.vst2_s8 [.ofPtr ptr, .ofVecArr val] (Obj.ofPtr <$> Model.vst2_s8 ptr val) := by
  refine ⟨_, Source.vst2_s8_parse, 1000, fun fuel hf => ?_⟩
  simp only [Source.vst2_s8_ast, Model.vst2_s8]
  cpp_simp
  cpp_loop (fun ptr => [(7758188, .arr .s8 8 2 (ofRegs val)), (7369842, .ptr .s8 ptr)])
  · rintro i ptr h1 h2
    cpp_body
  · rintro ptr
    cpp_simp

/-- `neon_sim.cpp:870-877` -/
cpp_source Source.vst2_s16 "void vst2_s16(int16_t* ptr, int16x4x2_t val)
{
    for (int i = 0; i < 4; i++)
    {
        ptr[2 * i + 0] = val.val[0].val[i];
        ptr[2 * i + 1] = val.val[1].val[i];
    }
}
"

theorem Props.vst2_s16_source [Dialect] (ptr : Ptr .s16) (val : int16x4x2_t) :
    Runs Source.vst2_s16 [.ofPtr ptr, .ofVecArr val] (Obj.ofPtr <$> Model.vst2_s16 ptr val) := by
  refine ⟨_, Source.vst2_s16_parse, 1000, fun fuel hf => ?_⟩
  simp only [Source.vst2_s16_ast, Model.vst2_s16]
  cpp_simp
  cpp_loop (fun ptr => [(7758188, .arr .s16 4 2 (ofRegs val)), (7369842, .ptr .s16 ptr)])
  · rintro i ptr h1 h2
    cpp_body
  · rintro ptr
    cpp_simp

/-- `neon_sim.cpp:878-885` -/
cpp_source Source.vst2_s32 "void vst2_s32(int32_t* ptr, int32x2x2_t val)
{
    for (int i = 0; i < 2; i++)
    {
        ptr[2 * i + 0] = val.val[0].val[i];
        ptr[2 * i + 1] = val.val[1].val[i];
    }
}
"

theorem Props.vst2_s32_source [Dialect] (ptr : Ptr .s32) (val : int32x2x2_t) :
    Runs Source.vst2_s32 [.ofPtr ptr, .ofVecArr val] (Obj.ofPtr <$> Model.vst2_s32 ptr val) := by
  refine ⟨_, Source.vst2_s32_parse, 1000, fun fuel hf => ?_⟩
  simp only [Source.vst2_s32_ast, Model.vst2_s32]
  cpp_simp
  cpp_loop (fun ptr => [(7758188, .arr .s32 2 2 (ofRegs val)), (7369842, .ptr .s32 ptr)])
  · rintro i ptr h1 h2
    cpp_body
  · rintro ptr
    cpp_simp

/-- `neon_sim.cpp:887-894` -/
cpp_source Source.vst2_u8 "void vst2_u8(uint8_t* ptr, uint8x8x2_t val)
{
    for (int i = 0; i < 8; i++)
    {
        ptr[2 * i + 0] = val.val[0].val[i];
        ptr[2 * i + 1] = val.val[1].val[i];
    }
}
"

theorem Props.vst2_u8_source [Dialect] (ptr : Ptr .u8) (val : uint8x8x2_t) :
    Runs Source.vst2_u8 [.ofPtr ptr, .ofVecArr val] (Obj.ofPtr <$> Model.vst2_u8 ptr val) := by
  refine ⟨_, Source.vst2_u8_parse, 1000, fun fuel hf => ?_⟩
  simp only [Source.vst2_u8_ast, Model.vst2_u8]
  cpp_simp
  cpp_loop (fun ptr => [(7758188, .arr .u8 8 2 (ofRegs val)), (7369842, .ptr .u8 ptr)])
  · rintro i ptr h1 h2
    cpp_body
  · rintro ptr
    cpp_simp

/-- `neon_sim.cpp:895-902` -/
cpp_source Source.vst2_u16 "void vst2_u16(uint16_t* ptr, uint16x4x2_t val)
{
    for (int i = 0; i < 4; i++)
    {
        ptr[2 * i + 0] = val.val[0].val[i];
        ptr[2 * i + 1] = val.val[1].val[i];
    }
}
"

theorem Props.vst2_u16_source [Dialect] (ptr : Ptr .u16) (val : uint16x4x2_t) :
    Runs Source.vst2_u16 [.ofPtr ptr, .ofVecArr val] (Obj.ofPtr <$> Model.vst2_u16 ptr val) := by
  refine ⟨_, Source.vst2_u16_parse, 1000, fun fuel hf => ?_⟩
  simp only [Source.vst2_u16_ast, Model.vst2_u16]
  cpp_simp
  cpp_loop (fun ptr => [(7758188, .arr .u16 4 2 (ofRegs val)), (7369842, .ptr .u16 ptr)])
  · rintro i ptr h1 h2
    cpp_body
  · rintro ptr
    cpp_simp

/-- `neon_sim.cpp:903-910` -/
cpp_source Source.vst2_u32 "void vst2_u32(uint32_t* ptr, uint32x2x2_t val)
{
    for (int i = 0; i < 2; i++)
    {
        ptr[2 * i + 0] = val.val[0].val[i];
        ptr[2 * i + 1] = val.val[1].val[i];
    }
}
"

theorem Props.vst2_u32_source [Dialect] (ptr : Ptr .u32) (val : uint32x2x2_t) :
    Runs Source.vst2_u32 [.ofPtr ptr, .ofVecArr val] (Obj.ofPtr <$> Model.vst2_u32 ptr val) := by
  refine ⟨_, Source.vst2_u32_parse, 1000, fun fuel hf => ?_⟩
  simp only [Source.vst2_u32_ast, Model.vst2_u32]
  cpp_simp
  cpp_loop (fun ptr => [(7758188, .arr .u32 2 2 (ofRegs val)), (7369842, .ptr .u32 ptr)])
  · rintro i ptr h1 h2
    cpp_body
  · rintro ptr
    cpp_simp

/-- `neon_sim.cpp:913-920` -/
cpp_source Source.vst2q_s8 "void vst2q_s8(int8_t* ptr, int8x16x2_t val)
{
    for (int i = 0; i < 16; i++)
    {
        ptr[2 * i + 0] = val.val[0].val[i];
        ptr[2 * i + 1] = val.val[1].val[i];
    }
}
"

theorem Props.vst2q_s8_source [Dialect] (ptr : Ptr .s8) (val : int8x16x2_t) :
    Runs Source.vst2q_s8 [.ofPtr ptr, .ofVecArr val] (Obj.ofPtr <$> Model.vst2q_s8 ptr val) := by
  refine ⟨_, Source.vst2q_s8_parse, 1000, fun fuel hf => ?_⟩
  simp only [Source.vst2q_s8_ast, Model.vst2q_s8]
  cpp_simp
  cpp_loop (fun ptr => [(7758188, .arr .s8 16 2 (ofRegs val)), (7369842, .ptr .s8 ptr)])
  · rintro i ptr h1 h2
    cpp_body
  · rintro ptr
    cpp_simp

/-- `neon_sim.cpp:921-928` -/
cpp_source Source.vst2q_s16 "void vst2q_s16(int16_t* ptr, int16x8x2_t val)
{
    for (int i = 0; i < 8; i++)
    {
        ptr[2 * i + 0] = val.val[0].val[i];
        ptr[2 * i + 1] = val.val[1].val[i];
    }
}
"

theorem Props.vst2q_s16_source [Dialect] (ptr : Ptr .s16) (val : int16x8x2_t) :
    Runs Source.vst2q_s16 [.ofPtr ptr, .ofVecArr val] (Obj.ofPtr <$> Model.vst2q_s16 ptr val) := by
  refine ⟨_, Source.vst2q_s16_parse, 1000, fun fuel hf => ?_⟩
  simp only [Source.vst2q_s16_ast, Model.vst2q_s16]
  cpp_simp
  cpp_loop (fun ptr => [(7758188, .arr .s16 8 2 (ofRegs val)), (7369842, .ptr .s16 ptr)])
  · rintro i ptr h1 h2
    cpp_body
  · rintro ptr
    cpp_simp

/-- `neon_sim.cpp:929-936` -/
cpp_source Source.vst2q_s32 "void vst2q_s32(int32_t* ptr, int32x4x2_t val)
{
    for (int i = 0; i < 4; i++)
    {
        ptr[2 * i + 0] = val.val[0].val[i];
        ptr[2 * i + 1] = val.val[1].val[i];
    }
}
"

theorem Props.vst2q_s32_source [Dialect] (ptr : Ptr .s32) (val : int32x4x2_t) :
    Runs Source.vst2q_s32 [.ofPtr ptr, .ofVecArr val] (Obj.ofPtr <$> Model.vst2q_s32 ptr val) := by
  refine ⟨_, Source.vst2q_s32_parse, 1000, fun fuel hf => ?_⟩
  simp only [Source.vst2q_s32_ast, Model.vst2q_s32]
  cpp_simp
  cpp_loop (fun ptr => [(7758188, .arr .s32 4 2 (ofRegs val)), (7369842, .ptr .s32 ptr)])
  · rintro i ptr h1 h2
    cpp_body
  · rintro ptr
    cpp_simp

/-- `neon_sim.cpp:937-944` -/
cpp_source Source.vst2q_u8 "void vst2q_u8(uint8_t* ptr, uint8x16x2_t val)
{
    for (int i = 0; i < 16; i++)
    {
        ptr[2 * i + 0] = val.val[0].val[i];
        ptr[2 * i + 1] = val.val[1].val[i];
    }
}
"

theorem Props.vst2q_u8_source [Dialect] (ptr : Ptr .u8) (val : uint8x16x2_t) :
    Runs Source.vst2q_u8 [.ofPtr ptr, .ofVecArr val] (Obj.ofPtr <$> Model.vst2q_u8 ptr val) := by
  refine ⟨_, Source.vst2q_u8_parse, 1000, fun fuel hf => ?_⟩
  simp only [Source.vst2q_u8_ast, Model.vst2q_u8]
  cpp_simp
  cpp_loop (fun ptr => [(7758188, .arr .u8 16 2 (ofRegs val)), (7369842, .ptr .u8 ptr)])
  · rintro i ptr h1 h2
    cpp_body
  · rintro ptr
    cpp_simp

/-- `neon_sim.cpp:945-952` -/
cpp_source Source.vst2q_u16 "void vst2q_u16(uint16_t* ptr, uint16x8x2_t val)
{
    for (int i = 0; i < 8; i++)
    {
        ptr[2 * i + 0] = val.val[0].val[i];
        ptr[2 * i + 1] = val.val[1].val[i];
    }
}
"

theorem Props.vst2q_u16_source [Dialect] (ptr : Ptr .u16) (val : uint16x8x2_t) :
    Runs Source.vst2q_u16 [.ofPtr ptr, .ofVecArr val] (Obj.ofPtr <$> Model.vst2q_u16 ptr val) := by
  refine ⟨_, Source.vst2q_u16_parse, 1000, fun fuel hf => ?_⟩
  simp only [Source.vst2q_u16_ast, Model.vst2q_u16]
  cpp_simp
  cpp_loop (fun ptr => [(7758188, .arr .u16 8 2 (ofRegs val)), (7369842, .ptr .u16 ptr)])
  · rintro i ptr h1 h2
    cpp_body
  · rintro ptr
    cpp_simp

/-- `neon_sim.cpp:953-960` -/
cpp_source Source.vst2q_u32 "void vst2q_u32(uint32_t* ptr, uint32x4x2_t val)
{
    for (int i = 0; i < 4; i++)
    {
        ptr[2 * i + 0] = val.val[0].val[i];
        ptr[2 * i + 1] = val.val[1].val[i];
    }
}
"

theorem Props.vst2q_u32_source [Dialect] (ptr : Ptr .u32) (val : uint32x4x2_t) :
    Runs Source.vst2q_u32 [.ofPtr ptr, .ofVecArr val] (Obj.ofPtr <$> Model.vst2q_u32 ptr val) := by
  refine ⟨_, Source.vst2q_u32_parse, 1000, fun fuel hf => ?_⟩
  simp only [Source.vst2q_u32_ast, Model.vst2q_u32]
  cpp_simp
  cpp_loop (fun ptr => [(7758188, .arr .u32 4 2 (ofRegs val)), (7369842, .ptr .u32 ptr)])
  · rintro i ptr h1 h2
    cpp_body
  · rintro ptr
    cpp_simp

/-- `neon_sim.cpp:963-971` -/
cpp_source Source.vst3_s8 "void vst3_s8(int8_t* ptr, int8x8x3_t val)
{
    for (int i = 0; i < 8; i++)
    {
        ptr[3 * i + 0] = val.val[0].val[i];
        ptr[3 * i + 1] = val.val[1].val[i];
        ptr[3 * i + 2] = val.val[2].val[i];
    }
}
"

theorem Props.vst3_s8_source [Dialect] (ptr : Ptr .s8) (val : int8x8x3_t) :
    Runs Source.vst3_s8 [.ofPtr ptr, .ofVecArr val] (Obj.ofPtr <$> Model.vst3_s8 ptr val) := by
  refine ⟨_, Source.vst3_s8_parse, 1000, fun fuel hf => ?_⟩
  simp only [Source.vst3_s8_ast, Model.vst3_s8]
  cpp_simp
  cpp_loop (fun ptr => [(7758188, .arr .s8 8 3 (ofRegs val)), (7369842, .ptr .s8 ptr)])
  · rintro i ptr h1 h2
    cpp_body
  · rintro ptr
    cpp_simp

/-- `neon_sim.cpp:972-980` -/
cpp_source Source.vst3_s16 "void vst3_s16(int16_t* ptr, int16x4x3_t val)
{
    for (int i = 0; i < 4; i++)
    {
        ptr[3 * i + 0] = val.val[0].val[i];
        ptr[3 * i + 1] = val.val[1].val[i];
        ptr[3 * i + 2] = val.val[2].val[i];
    }
}
"

theorem Props.vst3_s16_source [Dialect] (ptr : Ptr .s16) (val : int16x4x3_t) :
    Runs Source.vst3_s16 [.ofPtr ptr, .ofVecArr val] (Obj.ofPtr <$> Model.vst3_s16 ptr val) := by
  refine ⟨_, Source.vst3_s16_parse, 1000, fun fuel hf => ?_⟩
  simp only [Source.vst3_s16_ast, Model.vst3_s16]
  cpp_simp
  cpp_loop (fun ptr => [(7758188, .arr .s16 4 3 (ofRegs val)), (7369842, .ptr .s16 ptr)])
  · rintro i ptr h1 h2
    cpp_body
  · rintro ptr
    cpp_simp

/-- `neon_sim.cpp:981-989` -/
cpp_source Source.vst3_s32 "void vst3_s32(int32_t* ptr, int32x2x3_t val)
{
    for (int i = 0; i < 2; i++)
    {
        ptr[3 * i + 0] = val.val[0].val[i];
        ptr[3 * i + 1] = val.val[1].val[i];
        ptr[3 * i + 2] = val.val[2].val[i];
    }
}
"

theorem Props.vst3_s32_source [Dialect] (ptr : Ptr .s32) (val : int32x2x3_t) :
    Runs Source.vst3_s32 [.ofPtr ptr, .ofVecArr val] (Obj.ofPtr <$> Model.vst3_s32 ptr val) := by
  refine ⟨_, Source.vst3_s32_parse, 1000, fun fuel hf => ?_⟩
  simp only [Source.vst3_s32_ast, Model.vst3_s32]
  cpp_simp
  cpp_loop (fun ptr => [(7758188, .arr .s32 2 3 (ofRegs val)), (7369842, .ptr .s32 ptr)])
  · rintro i ptr h1 h2
    cpp_body
  · rintro ptr
    cpp_simp

/-- `neon_sim.cpp:991-999` -/
cpp_source Source.vst3_u8 "void vst3_u8(uint8_t* ptr, uint8x8x3_t val)
{
    for (int i = 0; i < 8; i++)
    {
        ptr[3 * i + 0] = val.val[0].val[i];
        ptr[3 * i + 1] = val.val[1].val[i];
        ptr[3 * i + 2] = val.val[2].val[i];
    }
}
"

theorem Props.vst3_u8_source [Dialect] (ptr : Ptr .u8) (val : uint8x8x3_t) :
    Runs Source.vst3_u8 [.ofPtr ptr, .ofVecArr val] (Obj.ofPtr <$> Model.vst3_u8 ptr val) := by
  refine ⟨_, Source.vst3_u8_parse, 1000, fun fuel hf => ?_⟩
  simp only [Source.vst3_u8_ast, Model.vst3_u8]
  cpp_simp
  cpp_loop (fun ptr => [(7758188, .arr .u8 8 3 (ofRegs val)), (7369842, .ptr .u8 ptr)])
  · rintro i ptr h1 h2
    cpp_body
  · rintro ptr
    cpp_simp

/-- `neon_sim.cpp:1000-1008` -/
cpp_source Source.vst3_u16 "void vst3_u16(uint16_t* ptr, uint16x4x3_t val)
{
    for (int i = 0; i < 4; i++)
    {
        ptr[3 * i + 0] = val.val[0].val[i];
        ptr[3 * i + 1] = val.val[1].val[i];
        ptr[3 * i + 2] = val.val[2].val[i];
    }
}
"

theorem Props.vst3_u16_source [Dialect] (ptr : Ptr .u16) (val : uint16x4x3_t) :
    Runs Source.vst3_u16 [.ofPtr ptr, .ofVecArr val] (Obj.ofPtr <$> Model.vst3_u16 ptr val) := by
  refine ⟨_, Source.vst3_u16_parse, 1000, fun fuel hf => ?_⟩
  simp only [Source.vst3_u16_ast, Model.vst3_u16]
  cpp_simp
  cpp_loop (fun ptr => [(7758188, .arr .u16 4 3 (ofRegs val)), (7369842, .ptr .u16 ptr)])
  · rintro i ptr h1 h2
    cpp_body
  · rintro ptr
    cpp_simp

/-- `neon_sim.cpp:1009-1017` -/
cpp_source Source.vst3_u32 "void vst3_u32(uint32_t* ptr, uint32x2x3_t val)
{
    for (int i = 0; i < 2; i++)
    {
        ptr[3 * i + 0] = val.val[0].val[i];
        ptr[3 * i + 1] = val.val[1].val[i];
        ptr[3 * i + 2] = val.val[2].val[i];
    }
}
"

theorem Props.vst3_u32_source [Dialect] (ptr : Ptr .u32) (val : uint32x2x3_t) :
    Runs Source.vst3_u32 [.ofPtr ptr, .ofVecArr val] (Obj.ofPtr <$> Model.vst3_u32 ptr val) := by
  refine ⟨_, Source.vst3_u32_parse, 1000, fun fuel hf => ?_⟩
  simp only [Source.vst3_u32_ast, Model.vst3_u32]
  cpp_simp
  cpp_loop (fun ptr => [(7758188, .arr .u32 2 3 (ofRegs val)), (7369842, .ptr .u32 ptr)])
  · rintro i ptr h1 h2
    cpp_body
  · rintro ptr
    cpp_simp

/-- `neon_sim.cpp:1020-1028` -/
cpp_source Source.vst3q_s8 "void vst3q_s8(int8_t* ptr, int8x16x3_t val)
{
    for (int i = 0; i < 16; i++)
    {
        ptr[3 * i + 0] = val.val[0].val[i];
        ptr[3 * i + 1] = val.val[1].val[i];
        ptr[3 * i + 2] = val.val[2].val[i];
    }
}
"

theorem Props.vst3q_s8_source [Dialect] (ptr : Ptr .s8) (val : int8x16x3_t) :
    Runs Source.vst3q_s8 [.ofPtr ptr, .ofVecArr val] (Obj.ofPtr <$> Model.vst3q_s8 ptr val) := by
  refine ⟨_, Source.vst3q_s8_parse, 1000, fun fuel hf => ?_⟩
  simp only [Source.vst3q_s8_ast, Model.vst3q_s8]
  cpp_simp
  cpp_loop (fun ptr => [(7758188, .arr .s8 16 3 (ofRegs val)), (7369842, .ptr .s8 ptr)])
  · rintro i ptr h1 h2
    cpp_body
  · rintro ptr
    cpp_simp

/-- `neon_sim.cpp:1029-1037` -/
cpp_source Source.vst3q_s16 "void vst3q_s16(int16_t* ptr, int16x8x3_t val)
{
    for (int i = 0; i < 8; i++)
    {
        ptr[3 * i + 0] = val.val[0].val[i];
        ptr[3 * i + 1] = val.val[1].val[i];
        ptr[3 * i + 2] = val.val[2].val[i];
    }
}
"

theorem Props.vst3q_s16_source [Dialect] (ptr : Ptr .s16) (val : int16x8x3_t) :
    Runs Source.vst3q_s16 [.ofPtr ptr, .ofVecArr val] (Obj.ofPtr <$> Model.vst3q_s16 ptr val) := by
  refine ⟨_, Source.vst3q_s16_parse, 1000, fun fuel hf => ?_⟩
  simp only [Source.vst3q_s16_ast, Model.vst3q_s16]
  cpp_simp
  cpp_loop (fun ptr => [(7758188, .arr .s16 8 3 (ofRegs val)), (7369842, .ptr .s16 ptr)])
  · rintro i ptr h1 h2
    cpp_body
  · rintro ptr
    cpp_simp

/-- `neon_sim.cpp:1038-1046` -/
cpp_source Source.vst3q_s32 "void vst3q_s32(int32_t* ptr, int32x4x3_t val)
{
    for (int i = 0; i < 4; i++)
    {
        ptr[3 * i + 0] = val.val[0].val[i];
        ptr[3 * i + 1] = val.val[1].val[i];
        ptr[3 * i + 2] = val.val[2].val[i];
    }
}
"

theorem Props.vst3q_s32_source [Dialect] (ptr : Ptr .s32) (val : int32x4x3_t) :
    Runs Source.vst3q_s32 [.ofPtr ptr, .ofVecArr val] (Obj.ofPtr <$> Model.vst3q_s32 ptr val) := by
  refine ⟨_, Source.vst3q_s32_parse, 1000, fun fuel hf => ?_⟩
  simp only [Source.vst3q_s32_ast, Model.vst3q_s32]
  cpp_simp
  cpp_loop (fun ptr => [(7758188, .arr .s32 4 3 (ofRegs val)), (7369842, .ptr .s32 ptr)])
  · rintro i ptr h1 h2
    cpp_body
  · rintro ptr
    cpp_simp

/-- `neon_sim.cpp:1047-1055` -/
cpp_source Source.vst3q_u8 "void vst3q_u8(uint8_t* ptr, uint8x16x3_t val)
{
    for (int i = 0; i < 16; i++)
    {
        ptr[3 * i + 0] = val.val[0].val[i];
        ptr[3 * i + 1] = val.val[1].val[i];
        ptr[3 * i + 2] = val.val[2].val[i];
    }
}
"

theorem Props.vst3q_u8_source [Dialect] (ptr : Ptr .u8) (val : uint8x16x3_t) :
    Runs Source.vst3q_u8 [.ofPtr ptr, .ofVecArr val] (Obj.ofPtr <$> Model.vst3q_u8 ptr val) := by
  refine ⟨_, Source.vst3q_u8_parse, 1000, fun fuel hf => ?_⟩
  simp only [Source.vst3q_u8_ast, Model.vst3q_u8]
  cpp_simp
  cpp_loop (fun ptr => [(7758188, .arr .u8 16 3 (ofRegs val)), (7369842, .ptr .u8 ptr)])
  · rintro i ptr h1 h2
    cpp_body
  · rintro ptr
    cpp_simp

/-- `neon_sim.cpp:1056-1064` -/
cpp_source Source.vst3q_u16 "void vst3q_u16(uint16_t* ptr, uint16x8x3_t val)
{
    for (int i = 0; i < 8; i++)
    {
        ptr[3 * i + 0] = val.val[0].val[i];
        ptr[3 * i + 1] = val.val[1].val[i];
        ptr[3 * i + 2] = val.val[2].val[i];
    }
}
"

theorem Props.vst3q_u16_source [Dialect] (ptr : Ptr .u16) (val : uint16x8x3_t) :
    Runs Source.vst3q_u16 [.ofPtr ptr, .ofVecArr val] (Obj.ofPtr <$> Model.vst3q_u16 ptr val) := by
  refine ⟨_, Source.vst3q_u16_parse, 1000, fun fuel hf => ?_⟩
  simp only [Source.vst3q_u16_ast, Model.vst3q_u16]
  cpp_simp
  cpp_loop (fun ptr => [(7758188, .arr .u16 8 3 (ofRegs val)), (7369842, .ptr .u16 ptr)])
  · rintro i ptr h1 h2
    cpp_body
  · rintro ptr
    cpp_simp

/-- `neon_sim.cpp:1065-1073` -/
cpp_source Source.vst3q_u32 "void vst3q_u32(uint32_t* ptr, uint32x4x3_t val)
{
    for (int i = 0; i < 4; i++)
    {
        ptr[3 * i + 0] = val.val[0].val[i];
        ptr[3 * i + 1] = val.val[1].val[i];
        ptr[3 * i + 2] = val.val[2].val[i];
    }
}
"

theorem Props.vst3q_u32_source [Dialect] (ptr : Ptr .u32) (val : uint32x4x3_t) :
    Runs Source.vst3q_u32 [.ofPtr ptr, .ofVecArr val] (Obj.ofPtr <$> Model.vst3q_u32 ptr val) := by
  refine ⟨_, Source.vst3q_u32_parse, 1000, fun fuel hf => ?_⟩
  simp only [Source.vst3q_u32_ast, Model.vst3q_u32]
  cpp_simp
  cpp_loop (fun ptr => [(7758188, .arr .u32 4 3 (ofRegs val)), (7369842, .ptr .u32 ptr)])
  · rintro i ptr h1 h2
    cpp_body
  · rintro ptr
    cpp_simp

/-- `neon_sim.cpp:1077-1086` -/
cpp_source Source.vst4_s8 "void vst4_s8(int8_t* ptr, int8x8x4_t val)
{
    for (int i = 0; i < 8; i++)
    {
        ptr[4 * i + 0] = val.val[0].val[i];
        ptr[4 * i + 1] = val.val[1].val[i];
        ptr[4 * i + 2] = val.val[2].val[i];
        ptr[4 * i + 3] = val.val[3].val[i];
    }
}
"

theorem Props.vst4_s8_source [Dialect] (ptr : Ptr .s8) (val : int8x8x4_t) :
    Runs Source.vst4_s8 [.ofPtr ptr, .ofVecArr val] (Obj.ofPtr <$> Model.vst4_s8 ptr val) := by
  refine ⟨_, Source.vst4_s8_parse, 1000, fun fuel hf => ?_⟩
  simp only [Source.vst4_s8_ast, Model.vst4_s8]
  cpp_simp
  cpp_loop (fun ptr => [(7758188, .arr .s8 8 4 (ofRegs val)), (7369842, .ptr .s8 ptr)])
  · rintro i ptr h1 h2
    cpp_body
  · rintro ptr
    cpp_simp

/-- `neon_sim.cpp:1087-1096` -/
cpp_source Source.vst4_s16 "void vst4_s16(int16_t* ptr, int16x4x4_t val)
{
    for (int i = 0; i < 4; i++)
    {
        ptr[4 * i + 0] = val.val[0].val[i];
        ptr[4 * i + 1] = val.val[1].val[i];
        ptr[4 * i + 2] = val.val[2].val[i];
        ptr[4 * i + 3] = val.val[3].val[i];
    }
}
"

theorem Props.vst4_s16_source [Dialect] (ptr : Ptr .s16) (val : int16x4x4_t) :
    Runs Source.vst4_s16 [.ofPtr ptr, .ofVecArr val] (Obj.ofPtr <$> Model.vst4_s16 ptr val) := by
  refine ⟨_, Source.vst4_s16_parse, 1000, fun fuel hf => ?_⟩
  simp only [Source.vst4_s16_ast, Model.vst4_s16]
  cpp_simp
  cpp_loop (fun ptr => [(7758188, .arr .s16 4 4 (ofRegs val)), (7369842, .ptr .s16 ptr)])
  · rintro i ptr h1 h2
    cpp_body
  · rintro ptr
    cpp_simp

/-- `neon_sim.cpp:1097-1106` -/
cpp_source Source.vst4_s32 "void vst4_s32(int32_t* ptr, int32x2x4_t val)
{
    for (int i = 0; i < 2; i++)
    {
        ptr[4 * i + 0] = val.val[0].val[i];
        ptr[4 * i + 1] = val.val[1].val[i];
        ptr[4 * i + 2] = val.val[2].val[i];
        ptr[4 * i + 3] = val.val[3].val[i];
    }
}
"

theorem Props.vst4_s32_source [Dialect] (ptr : Ptr .s32) (val : int32x2x4_t) :
    Runs Source.vst4_s32 [.ofPtr ptr, .ofVecArr val] (Obj.ofPtr <$> Model.vst4_s32 ptr val) := by
  refine ⟨_, Source.vst4_s32_parse, 1000, fun fuel hf => ?_⟩
  simp only [Source.vst4_s32_ast, Model.vst4_s32]
  cpp_simp
  cpp_loop (fun ptr => [(7758188, .arr .s32 2 4 (ofRegs val)), (7369842, .ptr .s32 ptr)])
  · rintro i ptr h1 h2
    cpp_body
  · rintro ptr
    cpp_simp

/-- `neon_sim.cpp:1108-1117` -/
cpp_source Source.vst4_u8 "void vst4_u8(uint8_t* ptr, uint8x8x4_t val)
{
    for (int i = 0; i < 8; i++)
    {
        ptr[4 * i + 0] = val.val[0].val[i];
        ptr[4 * i + 1] = val.val[1].val[i];
        ptr[4 * i + 2] = val.val[2].val[i];
        ptr[4 * i + 4] = val.val[3].val[i];
    }
}
"

theorem Props.vst4_u8_source [Dialect] (ptr : Ptr .u8) (val : uint8x8x4_t) :
    Runs Source.vst4_u8 [.ofPtr ptr, .ofVecArr val] (Obj.ofPtr <$> Model.vst4_u8 ptr val) := by
  refine ⟨_, Source.vst4_u8_parse, 1000, fun fuel hf => ?_⟩
  simp only [Source.vst4_u8_ast, Model.vst4_u8]
  cpp_simp
  cpp_loop (fun ptr => [(7758188, .arr .u8 8 4 (ofRegs val)), (7369842, .ptr .u8 ptr)])
  · rintro i ptr h1 h2
    cpp_body
  · rintro ptr
    cpp_simp

/-- `neon_sim.cpp:1118-1127` -/
cpp_source Source.vst4_u16 "void vst4_u16(uint16_t* ptr, uint16x4x4_t val)
{
    for (int i = 0; i < 4; i++)
    {
        ptr[4 * i + 0] = val.val[0].val[i];
        ptr[4 * i + 1] = val.val[1].val[i];
        ptr[4 * i + 2] = val.val[2].val[i];
        ptr[4 * i + 3] = val.val[3].val[i];
    }
}
"

theorem Props.vst4_u16_source [Dialect] (ptr : Ptr .u16) (val : uint16x4x4_t) :
    Runs Source.vst4_u16 [.ofPtr ptr, .ofVecArr val] (Obj.ofPtr <$> Model.vst4_u16 ptr val) := by
  refine ⟨_, Source.vst4_u16_parse, 1000, fun fuel hf => ?_⟩
  simp only [Source.vst4_u16_ast, Model.vst4_u16]
  cpp_simp
  cpp_loop (fun ptr => [(7758188, .arr .u16 4 4 (ofRegs val)), (7369842, .ptr .u16 ptr)])
  · rintro i ptr h1 h2
    cpp_body
  · rintro ptr
    cpp_simp

/-- `neon_sim.cpp:1128-1137` -/
cpp_source Source.vst4_u32 "void vst4_u32(uint32_t* ptr, uint32x2x4_t val)
{
    for (int i = 0; i < 2; i++)
    {
        ptr[4 * i + 0] = val.val[0].val[i];
        ptr[4 * i + 1] = val.val[1].val[i];
        ptr[4 * i + 2] = val.val[2].val[i];
        ptr[4 * i + 2] = val.val[3].val[i];
    }
}
"

theorem Props.vst4_u32_source [Dialect] (ptr : Ptr .u32) (val : uint32x2x4_t) :
    Runs Source.vst4_u32 [.ofPtr ptr, .ofVecArr val] (Obj.ofPtr <$> Model.vst4_u32 ptr val) := by
  refine ⟨_, Source.vst4_u32_parse, 1000, fun fuel hf => ?_⟩
  simp only [Source.vst4_u32_ast, Model.vst4_u32]
  cpp_simp
  cpp_loop (fun ptr => [(7758188, .arr .u32 2 4 (ofRegs val)), (7369842, .ptr .u32 ptr)])
  · rintro i ptr h1 h2
    cpp_body
  · rintro ptr
    cpp_simp

/-- `neon_sim.cpp:1140-1149` -/
cpp_source Source.vst4q_s8 "void vst4q_s8(int8_t* ptr, int8x16x4_t val)
{
    for (int i = 0; i < 16; i++)
    {
        ptr[4 * i + 0] = val.val[0].val[i];
        ptr[4 * i + 1] = val.val[1].val[i];
        ptr[4 * i + 2] = val.val[2].val[i];
        ptr[4 * i + 3] = val.val[3].val[i];
    }
}
"

theorem Props.vst4q_s8_source [Dialect] (ptr : Ptr .s8) (val : int8x16x4_t) :
    Runs Source.vst4q_s8 [.ofPtr ptr, .ofVecArr val] (Obj.ofPtr <$> Model.vst4q_s8 ptr val) := by
  refine ⟨_, Source.vst4q_s8_parse, 1000, fun fuel hf => ?_⟩
  simp only [Source.vst4q_s8_ast, Model.vst4q_s8]
  cpp_simp
  cpp_loop (fun ptr => [(7758188, .arr .s8 16 4 (ofRegs val)), (7369842, .ptr .s8 ptr)])
  · rintro i ptr h1 h2
    cpp_body
  · rintro ptr
    cpp_simp

/-- `neon_sim.cpp:1150-1159` -/
cpp_source Source.vst4q_s16 "void vst4q_s16(int16_t* ptr, int16x8x4_t val)
{
    for (int i = 0; i < 8; i++)
    {
        ptr[4 * i + 0] = val.val[0].val[i];
        ptr[4 * i + 1] = val.val[1].val[i];
        ptr[4 * i + 2] = val.val[2].val[i];
        ptr[4 * i + 3] = val.val[3].val[i];
    }
}
"

theorem Props.vst4q_s16_source [Dialect] (ptr : Ptr .s16) (val : int16x8x4_t) :
    Runs Source.vst4q_s16 [.ofPtr ptr, .ofVecArr val] (Obj.ofPtr <$> Model.vst4q_s16 ptr val) := by
  refine ⟨_, Source.vst4q_s16_parse, 1000, fun fuel hf => ?_⟩
  simp only [Source.vst4q_s16_ast, Model.vst4q_s16]
  cpp_simp
  cpp_loop (fun ptr => [(7758188, .arr .s16 8 4 (ofRegs val)), (7369842, .ptr .s16 ptr)])
  · rintro i ptr h1 h2
    cpp_body
  · rintro ptr
    cpp_simp

/-- `neon_sim.cpp:1160-1169` -/
cpp_source Source.vst4q_s32 "void vst4q_s32(int32_t* ptr, int32x4x4_t val)
{
    for (int i = 0; i < 4; i++)
    {
        ptr[4 * i + 0] = val.val[0].val[i];
        ptr[4 * i + 1] = val.val[1].val[i];
        ptr[4 * i + 2] = val.val[2].val[i];
        ptr[4 * i + 3] = val.val[3].val[i];
    }
}
"

theorem Props.vst4q_s32_source [Dialect] (ptr : Ptr .s32) (val : int32x4x4_t) :
    Runs Source.vst4q_s32 [.ofPtr ptr, .ofVecArr val] (Obj.ofPtr <$> Model.vst4q_s32 ptr val) := by
  refine ⟨_, Source.vst4q_s32_parse, 1000, fun fuel hf => ?_⟩
  simp only [Source.vst4q_s32_ast, Model.vst4q_s32]
  cpp_simp
  cpp_loop (fun ptr => [(7758188, .arr .s32 4 4 (ofRegs val)), (7369842, .ptr .s32 ptr)])
  · rintro i ptr h1 h2
    cpp_body
  · rintro ptr
    cpp_simp

/-- `neon_sim.cpp:1170-1179` -/
cpp_source Source.vst4q_u8 "void vst4q_u8(uint8_t* ptr, uint8x16x4_t val)
{
    for (int i = 0; i < 16; i++)
    {
        ptr[4 * i + 0] = val.val[0].val[i];
        ptr[4 * i + 1] = val.val[1].val[i];
        ptr[4 * i + 2] = val.val[2].val[i];
        ptr[4 * i + 3] = val.val[3].val[i];
    }
}
"

theorem Props.vst4q_u8_source [Dialect] (ptr : Ptr .u8) (val : uint8x16x4_t) :
    Runs Source.vst4q_u8 [.ofPtr ptr, .ofVecArr val] (Obj.ofPtr <$> Model.vst4q_u8 ptr val) := by
  refine ⟨_, Source.vst4q_u8_parse, 1000, fun fuel hf => ?_⟩
  simp only [Source.vst4q_u8_ast, Model.vst4q_u8]
  cpp_simp
  cpp_loop (fun ptr => [(7758188, .arr .u8 16 4 (ofRegs val)), (7369842, .ptr .u8 ptr)])
  · rintro i ptr h1 h2
    cpp_body
  · rintro ptr
    cpp_simp

/-- `neon_sim.cpp:1180-1189` -/
cpp_source Source.vst4q_u16 "void vst4q_u16(uint16_t* ptr, uint16x8x4_t val)
{
    for (int i = 0; i < 8; i++)
    {
        ptr[4 * i + 0] = val.val[0].val[i];
        ptr[4 * i + 1] = val.val[1].val[i];
        ptr[4 * i + 2] = val.val[2].val[i];
        ptr[4 * i + 3] = val.val[3].val[i];
    }
}
"

theorem Props.vst4q_u16_source [Dialect] (ptr : Ptr .u16) (val : uint16x8x4_t) :
    Runs Source.vst4q_u16 [.ofPtr ptr, .ofVecArr val] (Obj.ofPtr <$> Model.vst4q_u16 ptr val) := by
  refine ⟨_, Source.vst4q_u16_parse, 1000, fun fuel hf => ?_⟩
  simp only [Source.vst4q_u16_ast, Model.vst4q_u16]
  cpp_simp
  cpp_loop (fun ptr => [(7758188, .arr .u16 8 4 (ofRegs val)), (7369842, .ptr .u16 ptr)])
  · rintro i ptr h1 h2
    cpp_body
  · rintro ptr
    cpp_simp

/-- `neon_sim.cpp:1190-1199` -/
cpp_source Source.vst4q_u32 "void vst4q_u32(uint32_t* ptr, uint32x4x4_t val)
{
    for (int i = 0; i < 4; i++)
    {
        ptr[4 * i + 0] = val.val[0].val[i];
        ptr[4 * i + 1] = val.val[1].val[i];
        ptr[4 * i + 2] = val.val[2].val[i];
        ptr[4 * i + 3] = val.val[3].val[i];
    }
}
"

theorem Props.vst4q_u32_source [Dialect] (ptr : Ptr .u32) (val : uint32x4x4_t) :
    Runs Source.vst4q_u32 [.ofPtr ptr, .ofVecArr val] (Obj.ofPtr <$> Model.vst4q_u32 ptr val) := by
  refine ⟨_, Source.vst4q_u32_parse, 1000, fun fuel hf => ?_⟩
  simp only [Source.vst4q_u32_ast, Model.vst4q_u32]
  cpp_simp
  cpp_loop (fun ptr => [(7758188, .arr .u32 4 4 (ofRegs val)), (7369842, .ptr .u32 ptr)])
  · rintro i ptr h1 h2
    cpp_body
  · rintro ptr
    cpp_simp

/-- `neon_sim.cpp:1203-1209` -/
cpp_source Source.vst4q_lane_f32 "void vst4q_lane_f32(float32_t* ptr, float32x4x4_t val, const int lane)
{
    for (int i = 0; i < 4; i++)
    {
        ptr[i] = val.val[i].val[lane];
    }
}
"

theorem Props.vst4q_lane_f32_source [Dialect] (ptr : Ptr .f32) (val : float32x4x4_t) (lane : Int) (hlane : -2147483648 ≤ lane ∧ lane ≤ 2147483647) :
    Runs Source.vst4q_lane_f32 [.ofPtr ptr, .ofVecArr val, .ofInt lane] (Obj.ofPtr <$> Model.vst4q_lane_f32 ptr val lane) := by
  refine ⟨_, Source.vst4q_lane_f32_parse, 1000, fun fuel hf => ?_⟩
  simp only [Source.vst4q_lane_f32_ast, Model.vst4q_lane_f32]
  cpp_simp
  cpp_loop (fun ptr => [(1818324581, .sc .s32 (some (vint lane))), (7758188, .arr .f32 4 4 (ofRegs val)), (7369842, .ptr .f32 ptr)])
  · rintro i ptr h1 h2
    cpp_body
  · rintro ptr
    cpp_simp

end Verif
