import Verif.Cpp.Command
import Verif.Model.Logic

/-! Source text of the functions in `Verif/Model/Logic.lean`, and the theorem that running it is running the model.
Generated by `tools/gen_source.py`. -/

set_option linter.unusedVariables false
set_option linter.unusedSimpArgs false
set_option maxHeartbeats 1000000

open Verif.Cpp

namespace Verif

/-- `neon_sim.cpp:4826-4834` -/
cpp_source Source.vcgtq_u8 "uint8x16_t vcgtq_u8(uint8x16_t N, uint8x16_t M)
{
    uint8x16_t D;
    for (int i = 0; i < 16; i++)
    {
        D.val[i] = N.val[i] > M.val[i] ? 0xFF : 0;
    }
    return D;
}
"

theorem Props.vcgtq_u8_source [Dialect] (N : uint8x16_t) (M : uint8x16_t) :
    Runs Source.vcgtq_u8 [.ofVec N, .ofVec M] (Obj.ofVec <$> Model.vcgtq_u8 N M) := by
  refine ⟨_, Source.vcgtq_u8_parse, 1000, fun fuel hf => ?_⟩
  simp only [Source.vcgtq_u8_ast, Model.vcgtq_u8]
  cpp_simp
  cpp_loop (fun D => [(68, .vec .u8 16 D), (77, .vec .u8 16 (Arr.ofVec M)), (78, .vec .u8 16 (Arr.ofVec N))])
  · rintro i D h1 h2
    cpp_body
  · rintro D
    cpp_simp

/-- `neon_sim.cpp:4840-4860` -/
cpp_source Source.vbslq_u8 "uint8x16_t vbslq_u8(uint8x16_t mask, uint8x16_t src1, uint8x16_t src2)
{
    uint8x16_t r;
    for (int i = 0; i < 16; i++)
    {
        r.val[i] =  0;
        for (int j = 0; j < 8; j++)
        {
            uint8_t x = (1 << (8 - 1 - j));
            if ((mask.val[i] & x) == x)
            {
                r.val[i] += (src1.val[i] & x);
            }
            else
            {
                r.val[i] += (src2.val[i] & x);
            }
        }
    }
    return r;
}
"

theorem Props.vbslq_u8_source [Dialect] (mask : uint8x16_t) (src1 : uint8x16_t) (src2 : uint8x16_t) :
    Runs Source.vbslq_u8 [.ofVec mask, .ofVec src1, .ofVec src2] (Obj.ofVec <$> Model.vbslq_u8 mask src1 src2) := by
  refine ⟨_, Source.vbslq_u8_parse, 1000, fun fuel hf => ?_⟩
  simp only [Source.vbslq_u8_ast, Model.vbslq_u8]
  cpp_simp
  cpp_loop (fun r => [(114, .vec .u8 16 r), (1936876338, .vec .u8 16 (Arr.ofVec src2)), (1936876337, .vec .u8 16 (Arr.ofVec src1)), (1835103083, .vec .u8 16 (Arr.ofVec mask))])
  · rintro i r h1 h2
    cpp_simp
    cpp_bind r
    cpp_loop (fun r => [(105, .sc .s32 (some (.int .i32 i))), (114, .vec .u8 16 r), (1936876338, .vec .u8 16 (Arr.ofVec src2)), (1936876337, .vec .u8 16 (Arr.ofVec src1)), (1835103083, .vec .u8 16 (Arr.ofVec mask))])
    · rintro j r h1 h2
      cpp_body
    · rintro r
      cpp_simp
  · rintro r
    cpp_simp

/-- `neon_sim.cpp:4863-4879` -/
cpp_source Source.vtbl1_u8 "uint8x8_t vtbl1_u8(uint8x8_t a, uint8x8_t idx)
{
    uint8x8_t r;
    for (int i = 0; i < 8; i++)
    {
        int index = idx.val[i];
        if (index < 0 || index > 7)
        {
            r.val[i] =  0;
        }
        else
        {
            r.val[i] =  a.val[index];
        }
    }
    return r;
}
"

theorem Props.vtbl1_u8_source [Dialect] (a : uint8x8_t) (idx : uint8x8_t) :
    Runs Source.vtbl1_u8 [.ofVec a, .ofVec idx] (Obj.ofVec <$> Model.vtbl1_u8 a idx) := by
  refine ⟨_, Source.vtbl1_u8_parse, 1000, fun fuel hf => ?_⟩
  simp only [Source.vtbl1_u8_ast, Model.vtbl1_u8]
  cpp_simp
  cpp_loop (fun r => [(114, .vec .u8 8 r), (6907000, .vec .u8 8 (Arr.ofVec idx)), (97, .vec .u8 8 (Arr.ofVec a))])
  · rintro i r h1 h2
    cpp_byte idx
  · rintro r
    cpp_simp

/-- `neon_sim.cpp:4882-4910` -/
cpp_source Source.vtbl4_u8 "uint8x8_t vtbl4_u8(uint8x8x4_t a, uint8x8_t idx)
{
    uint8x8_t r;
    for (int i = 0; i < 8; i++)
    {
        int index = idx.val[i];
        if (index < 0 || index > 31)
        {
            r.val[i] =  0;
        }
        else if (index < 8)
        { // [0, 7]
            r.val[i] =  a.val[0].val[index];
        }
        else if (index < 16)
        { // [8, 15]
            r.val[i] =  a.val[1].val[index - 8];
        }
        else if (index < 24)
        { // [16, 23]
            r.val[i] =  a.val[2].val[index - 16];
        }
        else
        { // [24, 31]
            r.val[i] =  a.val[3].val[index - 24];
        }
    }
    return r;
}
"

theorem Props.vtbl4_u8_source [Dialect] (a : uint8x8x4_t) (idx : uint8x8_t) :
    Runs Source.vtbl4_u8 [.ofVecArr a, .ofVec idx] (Obj.ofVec <$> Model.vtbl4_u8 a idx) := by
  refine ⟨_, Source.vtbl4_u8_parse, 1000, fun fuel hf => ?_⟩
  simp only [Source.vtbl4_u8_ast, Model.vtbl4_u8]
  cpp_simp
  cpp_loop (fun r => [(114, .vec .u8 8 r), (6907000, .vec .u8 8 (Arr.ofVec idx)), (97, .arr .u8 8 4 (ofRegs a))])
  · rintro i r h1 h2
    cpp_byte idx
  · rintro r
    cpp_simp

/-- `neon_sim.cpp:4913-4933` -/
cpp_source Source.vtbl2_u8 "uint8x8_t vtbl2_u8(uint8x8x2_t a, uint8x8_t idx)
{
    uint8x8_t r;
    for (int i = 0; i < 8; i++)
    {
        int index = idx.val[i];
        if (index < 0 || index > 15)
        {
            r.val[i] =  0;
        }
        else if (index < 8)
        {
            r.val[i] =  a.val[0].val[index];
        }
        else
        { // index in [8, 15]
            r.val[i] =  a.val[1].val[index - 8];
        }
    }
    return r;
}
"

theorem Props.vtbl2_u8_source [Dialect] (a : uint8x8x2_t) (idx : uint8x8_t) :
    Runs Source.vtbl2_u8 [.ofVecArr a, .ofVec idx] (Obj.ofVec <$> Model.vtbl2_u8 a idx) := by
  refine ⟨_, Source.vtbl2_u8_parse, 1000, fun fuel hf => ?_⟩
  simp only [Source.vtbl2_u8_ast, Model.vtbl2_u8]
  cpp_simp
  cpp_loop (fun r => [(114, .vec .u8 8 r), (6907000, .vec .u8 8 (Arr.ofVec idx)), (97, .arr .u8 8 2 (ofRegs a))])
  · rintro i r h1 h2
    cpp_byte idx
  · rintro r
    cpp_simp

/-- `neon_sim.cpp:4936-4944` -/
cpp_source Source.vand_s8 "int8x8_t vand_s8(int8x8_t a, int8x8_t b)
{
    int8x8_t r;
    for (int i = 0; i < 8; i++)
    {
        r.val[i] =  a.val[i] & b.val[i];
    }
    return r;
}
"

theorem Props.vand_s8_source [Dialect] (a : int8x8_t) (b : int8x8_t) :
    Runs Source.vand_s8 [.ofVec a, .ofVec b] (Obj.ofVec <$> Model.vand_s8 a b) := by
  refine ⟨_, Source.vand_s8_parse, 1000, fun fuel hf => ?_⟩
  simp only [Source.vand_s8_ast, Model.vand_s8]
  cpp_simp
  cpp_loop (fun r => [(114, .vec .s8 8 r), (98, .vec .s8 8 (Arr.ofVec b)), (97, .vec .s8 8 (Arr.ofVec a))])
  · rintro i r h1 h2
    cpp_body
  · rintro r
    cpp_simp

/-- `neon_sim.cpp:4946-4954` -/
cpp_source Source.vand_s16 "int16x4_t vand_s16(int16x4_t a, int16x4_t b)
{
    int16x4_t r;
    for (int i = 0; i < 4; i++)
    {
        r.val[i] =  a.val[i] & b.val[i];
    }
    return r;
}
"

theorem Props.vand_s16_source [Dialect] (a : int16x4_t) (b : int16x4_t) :
    Runs Source.vand_s16 [.ofVec a, .ofVec b] (Obj.ofVec <$> Model.vand_s16 a b) := by
  refine ⟨_, Source.vand_s16_parse, 1000, fun fuel hf => ?_⟩
  simp only [Source.vand_s16_ast, Model.vand_s16]
  cpp_simp
  cpp_loop (fun r => [(114, .vec .s16 4 r), (98, .vec .s16 4 (Arr.ofVec b)), (97, .vec .s16 4 (Arr.ofVec a))])
  · rintro i r h1 h2
    cpp_body
  · rintro r
    cpp_simp

/-- `neon_sim.cpp:4956-4964` -/
cpp_source Source.vand_s32 "int32x2_t vand_s32(int32x2_t a, int32x2_t b)
{
    int32x2_t r;
    for (int i = 0; i < 2; i++)
    {
        r.val[i] =  a.val[i] & b.val[i];
    }
    return r;
}
"

theorem Props.vand_s32_source [Dialect] (a : int32x2_t) (b : int32x2_t) :
    Runs Source.vand_s32 [.ofVec a, .ofVec b] (Obj.ofVec <$> Model.vand_s32 a b) := by
  refine ⟨_, Source.vand_s32_parse, 1000, fun fuel hf => ?_⟩
  simp only [Source.vand_s32_ast, Model.vand_s32]
  cpp_simp
  cpp_loop (fun r => [(114, .vec .s32 2 r), (98, .vec .s32 2 (Arr.ofVec b)), (97, .vec .s32 2 (Arr.ofVec a))])
  · rintro i r h1 h2
    cpp_body
  · rintro r
    cpp_simp

/-- `neon_sim.cpp:4966-4974` -/
cpp_source Source.vand_s64 "int64x1_t vand_s64(int64x1_t a, int64x1_t b)
{
    int64x1_t r;
    for (int i = 0; i < 1; i++)
    {
        r.val[i] =  a.val[i] & b.val[i];
    }
    return r;
}
"

theorem Props.vand_s64_source [Dialect] (a : int64x1_t) (b : int64x1_t) :
    Runs Source.vand_s64 [.ofVec a, .ofVec b] (Obj.ofVec <$> Model.vand_s64 a b) := by
  refine ⟨_, Source.vand_s64_parse, 1000, fun fuel hf => ?_⟩
  simp only [Source.vand_s64_ast, Model.vand_s64]
  cpp_simp
  cpp_loop (fun r => [(114, .vec .s64 1 r), (98, .vec .s64 1 (Arr.ofVec b)), (97, .vec .s64 1 (Arr.ofVec a))])
  · rintro i r h1 h2
    cpp_body
  · rintro r
    cpp_simp

/-- `neon_sim.cpp:4976-4984` -/
cpp_source Source.vand_u8 "uint8x8_t vand_u8(uint8x8_t a, uint8x8_t b)
{
    uint8x8_t r;
    for (int i = 0; i < 8; i++)
    {
        r.val[i] =  a.val[i] & b.val[i];
    }
    return r;
}
"

theorem Props.vand_u8_source [Dialect] (a : uint8x8_t) (b : uint8x8_t) :
    Runs Source.vand_u8 [.ofVec a, .ofVec b] (Obj.ofVec <$> Model.vand_u8 a b) := by
  refine ⟨_, Source.vand_u8_parse, 1000, fun fuel hf => ?_⟩
  simp only [Source.vand_u8_ast, Model.vand_u8]
  cpp_simp
  cpp_loop (fun r => [(114, .vec .u8 8 r), (98, .vec .u8 8 (Arr.ofVec b)), (97, .vec .u8 8 (Arr.ofVec a))])
  · rintro i r h1 h2
    cpp_body
  · rintro r
    cpp_simp

/-- `neon_sim.cpp:4986-4994` -/
cpp_source Source.vand_u16 "uint16x4_t vand_u16(uint16x4_t a, uint16x4_t b)
{
    uint16x4_t r;
    for (int i = 0; i < 4; i++)
    {
        r.val[i] =  a.val[i] & b.val[i];
    }
    return r;
}
"

theorem Props.vand_u16_source [Dialect] (a : uint16x4_t) (b : uint16x4_t) :
    Runs Source.vand_u16 [.ofVec a, .ofVec b] (Obj.ofVec <$> Model.vand_u16 a b) := by
  refine ⟨_, Source.vand_u16_parse, 1000, fun fuel hf => ?_⟩
  simp only [Source.vand_u16_ast, Model.vand_u16]
  cpp_simp
  cpp_loop (fun r => [(114, .vec .u16 4 r), (98, .vec .u16 4 (Arr.ofVec b)), (97, .vec .u16 4 (Arr.ofVec a))])
  · rintro i r h1 h2
    cpp_body
  · rintro r
    cpp_simp

/-- `neon_sim.cpp:4996-5004` -/
cpp_source Source.vand_u32 "uint32x2_t vand_u32(uint32x2_t a, uint32x2_t b)
{
    uint32x2_t r;
    for (int i = 0; i < 2; i++)
    {
        r.val[i] =  a.val[i] & b.val[i];
    }
    return r;
}
"

theorem Props.vand_u32_source [Dialect] (a : uint32x2_t) (b : uint32x2_t) :
    Runs Source.vand_u32 [.ofVec a, .ofVec b] (Obj.ofVec <$> Model.vand_u32 a b) := by
  refine ⟨_, Source.vand_u32_parse, 1000, fun fuel hf => ?_⟩
  simp only [Source.vand_u32_ast, Model.vand_u32]
  cpp_simp
  cpp_loop (fun r => [(114, .vec .u32 2 r), (98, .vec .u32 2 (Arr.ofVec b)), (97, .vec .u32 2 (Arr.ofVec a))])
  · rintro i r h1 h2
    cpp_body
  · rintro r
    cpp_simp

/-- `neon_sim.cpp:5006-5014` -/
cpp_source Source.vand_u64 "uint64x1_t vand_u64(uint64x1_t a, uint64x1_t b)
{
    uint64x1_t r;
    for (int i = 0; i < 1; i++)
    {
        r.val[i] =  a.val[i] & b.val[i];
    }
    return r;
}
"

theorem Props.vand_u64_source [Dialect] (a : uint64x1_t) (b : uint64x1_t) :
    Runs Source.vand_u64 [.ofVec a, .ofVec b] (Obj.ofVec <$> Model.vand_u64 a b) := by
  refine ⟨_, Source.vand_u64_parse, 1000, fun fuel hf => ?_⟩
  simp only [Source.vand_u64_ast, Model.vand_u64]
  cpp_simp
  cpp_loop (fun r => [(114, .vec .u64 1 r), (98, .vec .u64 1 (Arr.ofVec b)), (97, .vec .u64 1 (Arr.ofVec a))])
  · rintro i r h1 h2
    cpp_body
  · rintro r
    cpp_simp

/-- `neon_sim.cpp:5017-5025` -/
cpp_source Source.vandq_s8 "int8x16_t vandq_s8(int8x16_t a, int8x16_t b)
{
    int8x16_t r;
    for (int i = 0; i < 16; i++)
    {
        r.val[i] =  a.val[i] & b.val[i];
    }
    return r;
}
"

theorem Props.vandq_s8_source [Dialect] (a : int8x16_t) (b : int8x16_t) :
    Runs Source.vandq_s8 [.ofVec a, .ofVec b] (Obj.ofVec <$> Model.vandq_s8 a b) := by
  refine ⟨_, Source.vandq_s8_parse, 1000, fun fuel hf => ?_⟩
  simp only [Source.vandq_s8_ast, Model.vandq_s8]
  cpp_simp
  cpp_loop (fun r => [(114, .vec .s8 16 r), (98, .vec .s8 16 (Arr.ofVec b)), (97, .vec .s8 16 (Arr.ofVec a))])
  · rintro i r h1 h2
    cpp_body
  · rintro r
    cpp_simp

/-- `neon_sim.cpp:5027-5035` -/
cpp_source Source.vandq_s16 "int16x8_t vandq_s16(int16x8_t a, int16x8_t b)
{
    int16x8_t r;
    for (int i = 0; i < 8; i++)
    {
        r.val[i] =  a.val[i] & b.val[i];
    }
    return r;
}
"

theorem Props.vandq_s16_source [Dialect] (a : int16x8_t) (b : int16x8_t) :
    Runs Source.vandq_s16 [.ofVec a, .ofVec b] (Obj.ofVec <$> Model.vandq_s16 a b) := by
  refine ⟨_, Source.vandq_s16_parse, 1000, fun fuel hf => ?_⟩
  simp only [Source.vandq_s16_ast, Model.vandq_s16]
  cpp_simp
  cpp_loop (fun r => [(114, .vec .s16 8 r), (98, .vec .s16 8 (Arr.ofVec b)), (97, .vec .s16 8 (Arr.ofVec a))])
  · rintro i r h1 h2
    cpp_body
  · rintro r
    cpp_simp

/-- `neon_sim.cpp:5037-5045` -/
cpp_source Source.vandq_s32 "int32x4_t vandq_s32(int32x4_t a, int32x4_t b)
{
    int32x4_t r;
    for (int i = 0; i < 4; i++)
    {
        r.val[i] =  a.val[i] & b.val[i];
    }
    return r;
}
"

theorem Props.vandq_s32_source [Dialect] (a : int32x4_t) (b : int32x4_t) :
    Runs Source.vandq_s32 [.ofVec a, .ofVec b] (Obj.ofVec <$> Model.vandq_s32 a b) := by
  refine ⟨_, Source.vandq_s32_parse, 1000, fun fuel hf => ?_⟩
  simp only [Source.vandq_s32_ast, Model.vandq_s32]
  cpp_simp
  cpp_loop (fun r => [(114, .vec .s32 4 r), (98, .vec .s32 4 (Arr.ofVec b)), (97, .vec .s32 4 (Arr.ofVec a))])
  · rintro i r h1 h2
    cpp_body
  · rintro r
    cpp_simp

/-- `neon_sim.cpp:5047-5055` -/
cpp_source Source.vandq_s64 "int64x2_t vandq_s64(int64x2_t a, int64x2_t b)
{
    int64x2_t r;
    for (int i = 0; i < 2; i++)
    {
        r.val[i] =  a.val[i] & b.val[i];
    }
    return r;
}
"

theorem Props.vandq_s64_source [Dialect] (a : int64x2_t) (b : int64x2_t) :
    Runs Source.vandq_s64 [.ofVec a, .ofVec b] (Obj.ofVec <$> Model.vandq_s64 a b) := by
  refine ⟨_, Source.vandq_s64_parse, 1000, fun fuel hf => ?_⟩
  simp only [Source.vandq_s64_ast, Model.vandq_s64]
  cpp_simp
  cpp_loop (fun r => [(114, .vec .s64 2 r), (98, .vec .s64 2 (Arr.ofVec b)), (97, .vec .s64 2 (Arr.ofVec a))])
  · rintro i r h1 h2
    cpp_body
  · rintro r
    cpp_simp

/-- `neon_sim.cpp:5057-5065` -/
cpp_source Source.vandq_u8 "uint8x16_t vandq_u8(uint8x16_t a, uint8x16_t b)
{
    uint8x16_t r;
    for (int i = 0; i < 16; i++)
    {
        r.val[i] =  a.val[i] & b.val[i];
    }
    return r;
}
"

theorem Props.vandq_u8_source [Dialect] (a : uint8x16_t) (b : uint8x16_t) :
    Runs Source.vandq_u8 [.ofVec a, .ofVec b] (Obj.ofVec <$> Model.vandq_u8 a b) := by
  refine ⟨_, Source.vandq_u8_parse, 1000, fun fuel hf => ?_⟩
  simp only [Source.vandq_u8_ast, Model.vandq_u8]
  cpp_simp
  cpp_loop (fun r => [(114, .vec .u8 16 r), (98, .vec .u8 16 (Arr.ofVec b)), (97, .vec .u8 16 (Arr.ofVec a))])
  · rintro i r h1 h2
    cpp_body
  · rintro r
    cpp_simp

/-- `neon_sim.cpp:5067-5075` -/
cpp_source Source.vandq_u16 "uint16x8_t vandq_u16(uint16x8_t a, uint16x8_t b)
{
    uint16x8_t r;
    for (int i = 0; i < 8; i++)
    {
        r.val[i] =  a.val[i] & b.val[i];
    }
    return r;
}
"

theorem Props.vandq_u16_source [Dialect] (a : uint16x8_t) (b : uint16x8_t) :
    Runs Source.vandq_u16 [.ofVec a, .ofVec b] (Obj.ofVec <$> Model.vandq_u16 a b) := by
  refine ⟨_, Source.vandq_u16_parse, 1000, fun fuel hf => ?_⟩
  simp only [Source.vandq_u16_ast, Model.vandq_u16]
  cpp_simp
  cpp_loop (fun r => [(114, .vec .u16 8 r), (98, .vec .u16 8 (Arr.ofVec b)), (97, .vec .u16 8 (Arr.ofVec a))])
  · rintro i r h1 h2
    cpp_body
  · rintro r
    cpp_simp

/-- `neon_sim.cpp:5077-5085` -/
cpp_source Source.vandq_u32 "uint32x4_t vandq_u32(uint32x4_t a, uint32x4_t b)
{
    uint32x4_t r;
    for (int i = 0; i < 4; i++)
    {
        r.val[i] =  a.val[i] & b.val[i];
    }
    return r;
}
"

theorem Props.vandq_u32_source [Dialect] (a : uint32x4_t) (b : uint32x4_t) :
    Runs Source.vandq_u32 [.ofVec a, .ofVec b] (Obj.ofVec <$> Model.vandq_u32 a b) := by
  refine ⟨_, Source.vandq_u32_parse, 1000, fun fuel hf => ?_⟩
  simp only [Source.vandq_u32_ast, Model.vandq_u32]
  cpp_simp
  cpp_loop (fun r => [(114, .vec .u32 4 r), (98, .vec .u32 4 (Arr.ofVec b)), (97, .vec .u32 4 (Arr.ofVec a))])
  · rintro i r h1 h2
    cpp_body
  · rintro r
    cpp_simp

/-- `neon_sim.cpp:5087-5095` -/
cpp_source Source.vandq_u64 "uint64x2_t vandq_u64(uint64x2_t a, uint64x2_t b)
{
    uint64x2_t r;
    for (int i = 0; i < 2; i++)
    {
        r.val[i] =  a.val[i] & b.val[i];
    }
    return r;
}
"

theorem Props.vandq_u64_source [Dialect] (a : uint64x2_t) (b : uint64x2_t) :
    Runs Source.vandq_u64 [.ofVec a, .ofVec b] (Obj.ofVec <$> Model.vandq_u64 a b) := by
  refine ⟨_, Source.vandq_u64_parse, 1000, fun fuel hf => ?_⟩
  simp only [Source.vandq_u64_ast, Model.vandq_u64]
  cpp_simp
  cpp_loop (fun r => [(114, .vec .u64 2 r), (98, .vec .u64 2 (Arr.ofVec b)), (97, .vec .u64 2 (Arr.ofVec a))])
  · rintro i r h1 h2
    cpp_body
  · rintro r
    cpp_simp

/-- `neon_sim.cpp:5098-5106` -/
cpp_source Source.vorr_s8 "int8x8_t vorr_s8(int8x8_t a, int8x8_t b)
{
    int8x8_t r;
    for (int i = 0; i < 8; i++)
    {
        r.val[i] =  a.val[i] | b.val[i];
    }
    return r;
}
"

theorem Props.vorr_s8_source [Dialect] (a : int8x8_t) (b : int8x8_t) :
    Runs Source.vorr_s8 [.ofVec a, .ofVec b] (Obj.ofVec <$> Model.vorr_s8 a b) := by
  refine ⟨_, Source.vorr_s8_parse, 1000, fun fuel hf => ?_⟩
  simp only [Source.vorr_s8_ast, Model.vorr_s8]
  cpp_simp
  cpp_loop (fun r => [(114, .vec .s8 8 r), (98, .vec .s8 8 (Arr.ofVec b)), (97, .vec .s8 8 (Arr.ofVec a))])
  · rintro i r h1 h2
    cpp_body
  · rintro r
    cpp_simp

/-- `neon_sim.cpp:5108-5116` -/
cpp_source Source.vorr_s16 "int16x4_t vorr_s16(int16x4_t a, int16x4_t b)
{
    int16x4_t r;
    for (int i = 0; i < 4; i++)
    {
        r.val[i] =  a.val[i] | b.val[i];
    }
    return r;
}
"

theorem Props.vorr_s16_source [Dialect] (a : int16x4_t) (b : int16x4_t) :
    Runs Source.vorr_s16 [.ofVec a, .ofVec b] (Obj.ofVec <$> Model.vorr_s16 a b) := by
  refine ⟨_, Source.vorr_s16_parse, 1000, fun fuel hf => ?_⟩
  simp only [Source.vorr_s16_ast, Model.vorr_s16]
  cpp_simp
  cpp_loop (fun r => [(114, .vec .s16 4 r), (98, .vec .s16 4 (Arr.ofVec b)), (97, .vec .s16 4 (Arr.ofVec a))])
  · rintro i r h1 h2
    cpp_body
  · rintro r
    cpp_simp

/-- `neon_sim.cpp:5118-5126` -/
cpp_source Source.vorr_s32 "int32x2_t vorr_s32(int32x2_t a, int32x2_t b)
{
    int32x2_t r;
    for (int i = 0; i < 2; i++)
    {
        r.val[i] =  a.val[i] | b.val[i];
    }
    return r;
}
"

theorem Props.vorr_s32_source [Dialect] (a : int32x2_t) (b : int32x2_t) :
    Runs Source.vorr_s32 [.ofVec a, .ofVec b] (Obj.ofVec <$> Model.vorr_s32 a b) := by
  refine ⟨_, Source.vorr_s32_parse, 1000, fun fuel hf => ?_⟩
  simp only [Source.vorr_s32_ast, Model.vorr_s32]
  cpp_simp
  cpp_loop (fun r => [(114, .vec .s32 2 r), (98, .vec .s32 2 (Arr.ofVec b)), (97, .vec .s32 2 (Arr.ofVec a))])
  · rintro i r h1 h2
    cpp_body
  · rintro r
    cpp_simp

/-- `neon_sim.cpp:5128-5136` -/
cpp_source Source.vorr_s64 "int64x1_t vorr_s64(int64x1_t a, int64x1_t b)
{
    int64x1_t r;
    for (int i = 0; i < 1; i++)
    {
        r.val[i] =  a.val[i] | b.val[i];
    }
    return r;
}
"

theorem Props.vorr_s64_source [Dialect] (a : int64x1_t) (b : int64x1_t) :
    Runs Source.vorr_s64 [.ofVec a, .ofVec b] (Obj.ofVec <$> Model.vorr_s64 a b) := by
  refine ⟨_, Source.vorr_s64_parse, 1000, fun fuel hf => ?_⟩
  simp only [Source.vorr_s64_ast, Model.vorr_s64]
  cpp_simp
  cpp_loop (fun r => [(114, .vec .s64 1 r), (98, .vec .s64 1 (Arr.ofVec b)), (97, .vec .s64 1 (Arr.ofVec a))])
  · rintro i r h1 h2
    cpp_body
  · rintro r
    cpp_simp

/-- `neon_sim.cpp:5138-5146` -/
cpp_source Source.vorr_u8 "uint8x8_t vorr_u8(uint8x8_t a, uint8x8_t b)
{
    uint8x8_t r;
    for (int i = 0; i < 8; i++)
    {
        r.val[i] =  a.val[i] | b.val[i];
    }
    return r;
}
"

theorem Props.vorr_u8_source [Dialect] (a : uint8x8_t) (b : uint8x8_t) :
    Runs Source.vorr_u8 [.ofVec a, .ofVec b] (Obj.ofVec <$> Model.vorr_u8 a b) := by
  refine ⟨_, Source.vorr_u8_parse, 1000, fun fuel hf => ?_⟩
  simp only [Source.vorr_u8_ast, Model.vorr_u8]
  cpp_simp
  cpp_loop (fun r => [(114, .vec .u8 8 r), (98, .vec .u8 8 (Arr.ofVec b)), (97, .vec .u8 8 (Arr.ofVec a))])
  · rintro i r h1 h2
    cpp_body
  · rintro r
    cpp_simp

/-- `neon_sim.cpp:5148-5156` -/
cpp_source Source.vorr_u16 "uint16x4_t vorr_u16(uint16x4_t a, uint16x4_t b)
{
    uint16x4_t r;
    for (int i = 0; i < 4; i++)
    {
        r.val[i] =  a.val[i] | b.val[i];
    }
    return r;
}
"

theorem Props.vorr_u16_source [Dialect] (a : uint16x4_t) (b : uint16x4_t) :
    Runs Source.vorr_u16 [.ofVec a, .ofVec b] (Obj.ofVec <$> Model.vorr_u16 a b) := by
  refine ⟨_, Source.vorr_u16_parse, 1000, fun fuel hf => ?_⟩
  simp only [Source.vorr_u16_ast, Model.vorr_u16]
  cpp_simp
  cpp_loop (fun r => [(114, .vec .u16 4 r), (98, .vec .u16 4 (Arr.ofVec b)), (97, .vec .u16 4 (Arr.ofVec a))])
  · rintro i r h1 h2
    cpp_body
  · rintro r
    cpp_simp

/-- `neon_sim.cpp:5158-5166` -/
cpp_source Source.vorr_u32 "uint32x2_t vorr_u32(uint32x2_t a, uint32x2_t b)
{
    uint32x2_t r;
    for (int i = 0; i < 2; i++)
    {
        r.val[i] =  a.val[i] | b.val[i];
    }
    return r;
}
"

theorem Props.vorr_u32_source [Dialect] (a : uint32x2_t) (b : uint32x2_t) :
    Runs Source.vorr_u32 [.ofVec a, .ofVec b] (Obj.ofVec <$> Model.vorr_u32 a b) := by
  refine ⟨_, Source.vorr_u32_parse, 1000, fun fuel hf => ?_⟩
  simp only [Source.vorr_u32_ast, Model.vorr_u32]
  cpp_simp
  cpp_loop (fun r => [(114, .vec .u32 2 r), (98, .vec .u32 2 (Arr.ofVec b)), (97, .vec .u32 2 (Arr.ofVec a))])
  · rintro i r h1 h2
    cpp_body
  · rintro r
    cpp_simp

/-- `neon_sim.cpp:5168-5176` -/
cpp_source Source.vorr_u64 "uint64x1_t vorr_u64(uint64x1_t a, uint64x1_t b)
{
    uint64x1_t r;
    for (int i = 0; i < 1; i++)
    {
        r.val[i] =  a.val[i] | b.val[i];
    }
    return r;
}
"

theorem Props.vorr_u64_source [Dialect] (a : uint64x1_t) (b : uint64x1_t) :
    Runs Source.vorr_u64 [.ofVec a, .ofVec b] (Obj.ofVec <$> Model.vorr_u64 a b) := by
  refine ⟨_, Source.vorr_u64_parse, 1000, fun fuel hf => ?_⟩
  simp only [Source.vorr_u64_ast, Model.vorr_u64]
  cpp_simp
  cpp_loop (fun r => [(114, .vec .u64 1 r), (98, .vec .u64 1 (Arr.ofVec b)), (97, .vec .u64 1 (Arr.ofVec a))])
  · rintro i r h1 h2
    cpp_body
  · rintro r
    cpp_simp

/-- `neon_sim.cpp:5179-5187` -/
cpp_source Source.vorrq_s8 "int8x16_t vorrq_s8(int8x16_t a, int8x16_t b)
{
    int8x16_t r;
    for (int i = 0; i < 16; i++)
    {
        r.val[i] =  a.val[i] | b.val[i];
    }
    return r;
}
"

theorem Props.vorrq_s8_source [Dialect] (a : int8x16_t) (b : int8x16_t) :
    Runs Source.vorrq_s8 [.ofVec a, .ofVec b] (Obj.ofVec <$> Model.vorrq_s8 a b) := by
  refine ⟨_, Source.vorrq_s8_parse, 1000, fun fuel hf => ?_⟩
  simp only [Source.vorrq_s8_ast, Model.vorrq_s8]
  cpp_simp
  cpp_loop (fun r => [(114, .vec .s8 16 r), (98, .vec .s8 16 (Arr.ofVec b)), (97, .vec .s8 16 (Arr.ofVec a))])
  · rintro i r h1 h2
    cpp_body
  · rintro r
    cpp_simp

/-- `neon_sim.cpp:5189-5197` -/
cpp_source Source.vorrq_s16 "int16x8_t vorrq_s16(int16x8_t a, int16x8_t b)
{
    int16x8_t r;
    for (int i = 0; i < 8; i++)
    {
        r.val[i] =  a.val[i] | b.val[i];
    }
    return r;
}
"

theorem Props.vorrq_s16_source [Dialect] (a : int16x8_t) (b : int16x8_t) :
    Runs Source.vorrq_s16 [.ofVec a, .ofVec b] (Obj.ofVec <$> Model.vorrq_s16 a b) := by
  refine ⟨_, Source.vorrq_s16_parse, 1000, fun fuel hf => ?_⟩
  simp only [Source.vorrq_s16_ast, Model.vorrq_s16]
  cpp_simp
  cpp_loop (fun r => [(114, .vec .s16 8 r), (98, .vec .s16 8 (Arr.ofVec b)), (97, .vec .s16 8 (Arr.ofVec a))])
  · rintro i r h1 h2
    cpp_body
  · rintro r
    cpp_simp

/-- `neon_sim.cpp:5199-5207` -/
cpp_source Source.vorrq_s32 "int32x4_t vorrq_s32(int32x4_t a, int32x4_t b)
{
    int32x4_t r;
    for (int i = 0; i < 4; i++)
    {
        r.val[i] =  a.val[i] | b.val[i];
    }
    return r;
}
"

theorem Props.vorrq_s32_source [Dialect] (a : int32x4_t) (b : int32x4_t) :
    Runs Source.vorrq_s32 [.ofVec a, .ofVec b] (Obj.ofVec <$> Model.vorrq_s32 a b) := by
  refine ⟨_, Source.vorrq_s32_parse, 1000, fun fuel hf => ?_⟩
  simp only [Source.vorrq_s32_ast, Model.vorrq_s32]
  cpp_simp
  cpp_loop (fun r => [(114, .vec .s32 4 r), (98, .vec .s32 4 (Arr.ofVec b)), (97, .vec .s32 4 (Arr.ofVec a))])
  · rintro i r h1 h2
    cpp_body
  · rintro r
    cpp_simp

/-- `neon_sim.cpp:5209-5217` -/
cpp_source Source.vorrq_s64 "int64x2_t vorrq_s64(int64x2_t a, int64x2_t b)
{
    int64x2_t r;
    for (int i = 0; i < 2; i++)
    {
        r.val[i] =  a.val[i] | b.val[i];
    }
    return r;
}
"

theorem Props.vorrq_s64_source [Dialect] (a : int64x2_t) (b : int64x2_t) :
    Runs Source.vorrq_s64 [.ofVec a, .ofVec b] (Obj.ofVec <$> Model.vorrq_s64 a b) := by
  refine ⟨_, Source.vorrq_s64_parse, 1000, fun fuel hf => ?_⟩
  simp only [Source.vorrq_s64_ast, Model.vorrq_s64]
  cpp_simp
  cpp_loop (fun r => [(114, .vec .s64 2 r), (98, .vec .s64 2 (Arr.ofVec b)), (97, .vec .s64 2 (Arr.ofVec a))])
  · rintro i r h1 h2
    cpp_body
  · rintro r
    cpp_simp

/-- `neon_sim.cpp:5219-5227` -/
cpp_source Source.vorrq_u8 "uint8x16_t vorrq_u8(uint8x16_t a, uint8x16_t b)
{
    uint8x16_t r;
    for (int i = 0; i < 16; i++)
    {
        r.val[i] =  a.val[i] | b.val[i];
    }
    return r;
}
"

theorem Props.vorrq_u8_source [Dialect] (a : uint8x16_t) (b : uint8x16_t) :
    Runs Source.vorrq_u8 [.ofVec a, .ofVec b] (Obj.ofVec <$> Model.vorrq_u8 a b) := by
  refine ⟨_, Source.vorrq_u8_parse, 1000, fun fuel hf => ?_⟩
  simp only [Source.vorrq_u8_ast, Model.vorrq_u8]
  cpp_simp
  cpp_loop (fun r => [(114, .vec .u8 16 r), (98, .vec .u8 16 (Arr.ofVec b)), (97, .vec .u8 16 (Arr.ofVec a))])
  · rintro i r h1 h2
    cpp_body
  · rintro r
    cpp_simp

/-- `neon_sim.cpp:5229-5237` -/
cpp_source Source.vorrq_u16 "uint16x8_t vorrq_u16(uint16x8_t a, uint16x8_t b)
{
    uint16x8_t r;
    for (int i = 0; i < 8; i++)
    {
        r.val[i] =  a.val[i] | b.val[i];
    }
    return r;
}
"

theorem Props.vorrq_u16_source [Dialect] (a : uint16x8_t) (b : uint16x8_t) :
    Runs Source.vorrq_u16 [.ofVec a, .ofVec b] (Obj.ofVec <$> Model.vorrq_u16 a b) := by
  refine ⟨_, Source.vorrq_u16_parse, 1000, fun fuel hf => ?_⟩
  simp only [Source.vorrq_u16_ast, Model.vorrq_u16]
  cpp_simp
  cpp_loop (fun r => [(114, .vec .u16 8 r), (98, .vec .u16 8 (Arr.ofVec b)), (97, .vec .u16 8 (Arr.ofVec a))])
  · rintro i r h1 h2
    cpp_body
  · rintro r
    cpp_simp

/-- `neon_sim.cpp:5239-5247` -/
cpp_source Source.vorrq_u32 "uint32x4_t vorrq_u32(uint32x4_t a, uint32x4_t b)
{
    uint32x4_t r;
    for (int i = 0; i < 4; i++)
    {
        r.val[i] =  a.val[i] | b.val[i];
    }
    return r;
}
"

theorem Props.vorrq_u32_source [Dialect] (a : uint32x4_t) (b : uint32x4_t) :
    Runs Source.vorrq_u32 [.ofVec a, .ofVec b] (Obj.ofVec <$> Model.vorrq_u32 a b) := by
  refine ⟨_, Source.vorrq_u32_parse, 1000, fun fuel hf => ?_⟩
  simp only [Source.vorrq_u32_ast, Model.vorrq_u32]
  cpp_simp
  cpp_loop (fun r => [(114, .vec .u32 4 r), (98, .vec .u32 4 (Arr.ofVec b)), (97, .vec .u32 4 (Arr.ofVec a))])
  · rintro i r h1 h2
    cpp_body
  · rintro r
    cpp_simp

/-- `neon_sim.cpp:5249-5257` -/
cpp_source Source.vorrq_u64 "uint64x2_t vorrq_u64(uint64x2_t a, uint64x2_t b)
{
    uint64x2_t r;
    for (int i = 0; i < 2; i++)
    {
        r.val[i] =  a.val[i] | b.val[i];
    }
    return r;
}
"

theorem Props.vorrq_u64_source [Dialect] (a : uint64x2_t) (b : uint64x2_t) :
    Runs Source.vorrq_u64 [.ofVec a, .ofVec b] (Obj.ofVec <$> Model.vorrq_u64 a b) := by
  refine ⟨_, Source.vorrq_u64_parse, 1000, fun fuel hf => ?_⟩
  simp only [Source.vorrq_u64_ast, Model.vorrq_u64]
  cpp_simp
  cpp_loop (fun r => [(114, .vec .u64 2 r), (98, .vec .u64 2 (Arr.ofVec b)), (97, .vec .u64 2 (Arr.ofVec a))])
  · rintro i r h1 h2
    cpp_body
  · rintro r
    cpp_simp

/-- `neon_sim.cpp:5260-5268` -/
cpp_source Source.veor_s8 "int8x8_t veor_s8(int8x8_t a, int8x8_t b)
{
    int8x8_t r;
    for (int i = 0; i < 8; i++)
    {
        r.val[i] =  a.val[i] ^ b.val[i];
    }
    return r;
}
"

theorem Props.veor_s8_source [Dialect] (a : int8x8_t) (b : int8x8_t) :
    Runs Source.veor_s8 [.ofVec a, .ofVec b] (Obj.ofVec <$> Model.veor_s8 a b) := by
  refine ⟨_, Source.veor_s8_parse, 1000, fun fuel hf => ?_⟩
  simp only [Source.veor_s8_ast, Model.veor_s8]
  cpp_simp
  cpp_loop (fun r => [(114, .vec .s8 8 r), (98, .vec .s8 8 (Arr.ofVec b)), (97, .vec .s8 8 (Arr.ofVec a))])
  · rintro i r h1 h2
    cpp_body
  · rintro r
    cpp_simp

/-- `neon_sim.cpp:5270-5278` -/
cpp_source Source.veor_s16 "int16x4_t veor_s16(int16x4_t a, int16x4_t b)
{
    int16x4_t r;
    for (int i = 0; i < 4; i++)
    {
        r.val[i] =  a.val[i] ^ b.val[i];
    }
    return r;
}
"

theorem Props.veor_s16_source [Dialect] (a : int16x4_t) (b : int16x4_t) :
    Runs Source.veor_s16 [.ofVec a, .ofVec b] (Obj.ofVec <$> Model.veor_s16 a b) := by
  refine ⟨_, Source.veor_s16_parse, 1000, fun fuel hf => ?_⟩
  simp only [Source.veor_s16_ast, Model.veor_s16]
  cpp_simp
  cpp_loop (fun r => [(114, .vec .s16 4 r), (98, .vec .s16 4 (Arr.ofVec b)), (97, .vec .s16 4 (Arr.ofVec a))])
  · rintro i r h1 h2
    cpp_body
  · rintro r
    cpp_simp

/-- `neon_sim.cpp:5280-5288` -/
cpp_source Source.veor_s32 "int32x2_t veor_s32(int32x2_t a, int32x2_t b)
{
    int32x2_t r;
    for (int i = 0; i < 2; i++)
    {
        r.val[i] =  a.val[i] ^ b.val[i];
    }
    return r;
}
"

theorem Props.veor_s32_source [Dialect] (a : int32x2_t) (b : int32x2_t) :
    Runs Source.veor_s32 [.ofVec a, .ofVec b] (Obj.ofVec <$> Model.veor_s32 a b) := by
  refine ⟨_, Source.veor_s32_parse, 1000, fun fuel hf => ?_⟩
  simp only [Source.veor_s32_ast, Model.veor_s32]
  cpp_simp
  cpp_loop (fun r => [(114, .vec .s32 2 r), (98, .vec .s32 2 (Arr.ofVec b)), (97, .vec .s32 2 (Arr.ofVec a))])
  · rintro i r h1 h2
    cpp_body
  · rintro r
    cpp_simp

/-- `neon_sim.cpp:5290-5298` -/
cpp_source Source.veor_s64 "int64x1_t veor_s64(int64x1_t a, int64x1_t b)
{
    int64x1_t r;
    for (int i = 0; i < 1; i++)
    {
        r.val[i] =  a.val[i] ^ b.val[i];
    }
    return r;
}
"

theorem Props.veor_s64_source [Dialect] (a : int64x1_t) (b : int64x1_t) :
    Runs Source.veor_s64 [.ofVec a, .ofVec b] (Obj.ofVec <$> Model.veor_s64 a b) := by
  refine ⟨_, Source.veor_s64_parse, 1000, fun fuel hf => ?_⟩
  simp only [Source.veor_s64_ast, Model.veor_s64]
  cpp_simp
  cpp_loop (fun r => [(114, .vec .s64 1 r), (98, .vec .s64 1 (Arr.ofVec b)), (97, .vec .s64 1 (Arr.ofVec a))])
  · rintro i r h1 h2
    cpp_body
  · rintro r
    cpp_simp

/-- `neon_sim.cpp:5300-5308` -/
cpp_source Source.veor_u8 "uint8x8_t veor_u8(uint8x8_t a, uint8x8_t b)
{
    uint8x8_t r;
    for (int i = 0; i < 8; i++)
    {
        r.val[i] =  a.val[i] ^ b.val[i];
    }
    return r;
}
"

theorem Props.veor_u8_source [Dialect] (a : uint8x8_t) (b : uint8x8_t) :
    Runs Source.veor_u8 [.ofVec a, .ofVec b] (Obj.ofVec <$> Model.veor_u8 a b) := by
  refine ⟨_, Source.veor_u8_parse, 1000, fun fuel hf => ?_⟩
  simp only [Source.veor_u8_ast, Model.veor_u8]
  cpp_simp
  cpp_loop (fun r => [(114, .vec .u8 8 r), (98, .vec .u8 8 (Arr.ofVec b)), (97, .vec .u8 8 (Arr.ofVec a))])
  · rintro i r h1 h2
    cpp_body
  · rintro r
    cpp_simp

/-- `neon_sim.cpp:5310-5318` -/
cpp_source Source.veor_u16 "uint16x4_t veor_u16(uint16x4_t a, uint16x4_t b)
{
    uint16x4_t r;
    for (int i = 0; i < 4; i++)
    {
        r.val[i] =  a.val[i] ^ b.val[i];
    }
    return r;
}
"

theorem Props.veor_u16_source [Dialect] (a : uint16x4_t) (b : uint16x4_t) :
    Runs Source.veor_u16 [.ofVec a, .ofVec b] (Obj.ofVec <$> Model.veor_u16 a b) := by
  refine ⟨_, Source.veor_u16_parse, 1000, fun fuel hf => ?_⟩
  simp only [Source.veor_u16_ast, Model.veor_u16]
  cpp_simp
  cpp_loop (fun r => [(114, .vec .u16 4 r), (98, .vec .u16 4 (Arr.ofVec b)), (97, .vec .u16 4 (Arr.ofVec a))])
  · rintro i r h1 h2
    cpp_body
  · rintro r
    cpp_simp

/-- `neon_sim.cpp:5320-5328` -/
cpp_source Source.ver_u32 "uint32x2_t ver_u32(uint32x2_t a, uint32x2_t b)
{
    uint32x2_t r;
    for (int i = 0; i < 2; i++)
    {
        r.val[i] =  a.val[i] ^ b.val[i];
    }
    return r;
}
"

theorem Props.ver_u32_source [Dialect] (a : uint32x2_t) (b : uint32x2_t) :
    Runs Source.ver_u32 [.ofVec a, .ofVec b] (Obj.ofVec <$> Model.ver_u32 a b) := by
  refine ⟨_, Source.ver_u32_parse, 1000, fun fuel hf => ?_⟩
  simp only [Source.ver_u32_ast, Model.ver_u32]
  cpp_simp
  cpp_loop (fun r => [(114, .vec .u32 2 r), (98, .vec .u32 2 (Arr.ofVec b)), (97, .vec .u32 2 (Arr.ofVec a))])
  · rintro i r h1 h2
    cpp_body
  · rintro r
    cpp_simp

/-- `neon_sim.cpp:5330-5338` -/
cpp_source Source.veor_u64 "uint64x1_t veor_u64(uint64x1_t a, uint64x1_t b)
{
    uint64x1_t r;
    for (int i = 0; i < 1; i++)
    {
        r.val[i] =  a.val[i] ^ b.val[i];
    }
    return r;
}
"

theorem Props.veor_u64_source [Dialect] (a : uint64x1_t) (b : uint64x1_t) :
    Runs Source.veor_u64 [.ofVec a, .ofVec b] (Obj.ofVec <$> Model.veor_u64 a b) := by
  refine ⟨_, Source.veor_u64_parse, 1000, fun fuel hf => ?_⟩
  simp only [Source.veor_u64_ast, Model.veor_u64]
  cpp_simp
  cpp_loop (fun r => [(114, .vec .u64 1 r), (98, .vec .u64 1 (Arr.ofVec b)), (97, .vec .u64 1 (Arr.ofVec a))])
  · rintro i r h1 h2
    cpp_body
  · rintro r
    cpp_simp

/-- `neon_sim.cpp:5341-5349` -/
cpp_source Source.veorq_s8 "int8x16_t veorq_s8(int8x16_t a, int8x16_t b)
{
    int8x16_t r;
    for (int i = 0; i < 16; i++)
    {
        r.val[i] =  a.val[i] ^ b.val[i];
    }
    return r;
}
"

theorem Props.veorq_s8_source [Dialect] (a : int8x16_t) (b : int8x16_t) :
    Runs Source.veorq_s8 [.ofVec a, .ofVec b] (Obj.ofVec <$> Model.veorq_s8 a b) := by
  refine ⟨_, Source.veorq_s8_parse, 1000, fun fuel hf => ?_⟩
  simp only [Source.veorq_s8_ast, Model.veorq_s8]
  cpp_simp
  cpp_loop (fun r => [(114, .vec .s8 16 r), (98, .vec .s8 16 (Arr.ofVec b)), (97, .vec .s8 16 (Arr.ofVec a))])
  · rintro i r h1 h2
    cpp_body
  · rintro r
    cpp_simp

/-- `neon_sim.cpp:5351-5359` -/
cpp_source Source.veorq_s16 "int16x8_t veorq_s16(int16x8_t a, int16x8_t b)
{
    int16x8_t r;
    for (int i = 0; i < 8; i++)
    {
        r.val[i] =  a.val[i] ^ b.val[i];
    }
    return r;
}
"

theorem Props.veorq_s16_source [Dialect] (a : int16x8_t) (b : int16x8_t) :
    Runs Source.veorq_s16 [.ofVec a, .ofVec b] (Obj.ofVec <$> Model.veorq_s16 a b) := by
  refine ⟨_, Source.veorq_s16_parse, 1000, fun fuel hf => ?_⟩
  simp only [Source.veorq_s16_ast, Model.veorq_s16]
  cpp_simp
  cpp_loop (fun r => [(114, .vec .s16 8 r), (98, .vec .s16 8 (Arr.ofVec b)), (97, .vec .s16 8 (Arr.ofVec a))])
  · rintro i r h1 h2
    cpp_body
  · rintro r
    cpp_simp

/-- `neon_sim.cpp:5361-5369` -/
cpp_source Source.veorq_s32 "int32x4_t veorq_s32(int32x4_t a, int32x4_t b)
{
    int32x4_t r;
    for (int i = 0; i < 4; i++)
    {
        r.val[i] =  a.val[i] ^ b.val[i];
    }
    return r;
}
"

theorem Props.veorq_s32_source [Dialect] (a : int32x4_t) (b : int32x4_t) :
    Runs Source.veorq_s32 [.ofVec a, .ofVec b] (Obj.ofVec <$> Model.veorq_s32 a b) := by
  refine ⟨_, Source.veorq_s32_parse, 1000, fun fuel hf => ?_⟩
  simp only [Source.veorq_s32_ast, Model.veorq_s32]
  cpp_simp
  cpp_loop (fun r => [(114, .vec .s32 4 r), (98, .vec .s32 4 (Arr.ofVec b)), (97, .vec .s32 4 (Arr.ofVec a))])
  · rintro i r h1 h2
    cpp_body
  · rintro r
    cpp_simp

/-- `neon_sim.cpp:5371-5379` -/
cpp_source Source.veorq_s64 "int64x2_t veorq_s64(int64x2_t a, int64x2_t b)
{
    int64x2_t r;
    for (int i = 0; i < 2; i++)
    {
        r.val[i] =  a.val[i] ^ b.val[i];
    }
    return r;
}
"

theorem Props.veorq_s64_source [Dialect] (a : int64x2_t) (b : int64x2_t) :
    Runs Source.veorq_s64 [.ofVec a, .ofVec b] (Obj.ofVec <$> Model.veorq_s64 a b) := by
  refine ⟨_, Source.veorq_s64_parse, 1000, fun fuel hf => ?_⟩
  simp only [Source.veorq_s64_ast, Model.veorq_s64]
  cpp_simp
  cpp_loop (fun r => [(114, .vec .s64 2 r), (98, .vec .s64 2 (Arr.ofVec b)), (97, .vec .s64 2 (Arr.ofVec a))])
  · rintro i r h1 h2
    cpp_body
  · rintro r
    cpp_simp

/-- `neon_sim.cpp:5381-5389` -/
cpp_source Source.veorq_u8 "uint8x16_t veorq_u8(uint8x16_t a, uint8x16_t b)
{
    uint8x16_t r;
    for (int i = 0; i < 16; i++)
    {
        r.val[i] =  a.val[i] ^ b.val[i];
    }
    return r;
}
"

theorem Props.veorq_u8_source [Dialect] (a : uint8x16_t) (b : uint8x16_t) :
    Runs Source.veorq_u8 [.ofVec a, .ofVec b] (Obj.ofVec <$> Model.veorq_u8 a b) := by
  refine ⟨_, Source.veorq_u8_parse, 1000, fun fuel hf => ?_⟩
  simp only [Source.veorq_u8_ast, Model.veorq_u8]
  cpp_simp
  cpp_loop (fun r => [(114, .vec .u8 16 r), (98, .vec .u8 16 (Arr.ofVec b)), (97, .vec .u8 16 (Arr.ofVec a))])
  · rintro i r h1 h2
    cpp_body
  · rintro r
    cpp_simp

/-- `neon_sim.cpp:5391-5399` -/
cpp_source Source.veorq_u16 "uint16x8_t veorq_u16(uint16x8_t a, uint16x8_t b)
{
    uint16x8_t r;
    for (int i = 0; i < 8; i++)
    {
        r.val[i] =  a.val[i] ^ b.val[i];
    }
    return r;
}
"

theorem Props.veorq_u16_source [Dialect] (a : uint16x8_t) (b : uint16x8_t) :
    Runs Source.veorq_u16 [.ofVec a, .ofVec b] (Obj.ofVec <$> Model.veorq_u16 a b) := by
  refine ⟨_, Source.veorq_u16_parse, 1000, fun fuel hf => ?_⟩
  simp only [Source.veorq_u16_ast, Model.veorq_u16]
  cpp_simp
  cpp_loop (fun r => [(114, .vec .u16 8 r), (98, .vec .u16 8 (Arr.ofVec b)), (97, .vec .u16 8 (Arr.ofVec a))])
  · rintro i r h1 h2
    cpp_body
  · rintro r
    cpp_simp

/-- `neon_sim.cpp:5401-5409` -/
cpp_source Source.veorq_u32 "uint32x4_t veorq_u32(uint32x4_t a, uint32x4_t b)
{
    uint32x4_t r;
    for (int i = 0; i < 4; i++)
    {
        r.val[i] =  a.val[i] ^ b.val[i];
    }
    return r;
}
"

theorem Props.veorq_u32_source [Dialect] (a : uint32x4_t) (b : uint32x4_t) :
    Runs Source.veorq_u32 [.ofVec a, .ofVec b] (Obj.ofVec <$> Model.veorq_u32 a b) := by
  refine ⟨_, Source.veorq_u32_parse, 1000, fun fuel hf => ?_⟩
  simp only [Source.veorq_u32_ast, Model.veorq_u32]
  cpp_simp
  cpp_loop (fun r => [(114, .vec .u32 4 r), (98, .vec .u32 4 (Arr.ofVec b)), (97, .vec .u32 4 (Arr.ofVec a))])
  · rintro i r h1 h2
    cpp_body
  · rintro r
    cpp_simp

/-- `neon_sim.cpp:5411-5419` -/
cpp_source Source.veorq_u64 "uint64x2_t veorq_u64(uint64x2_t a, uint64x2_t b)
{
    uint64x2_t r;
    for (int i = 0; i < 2; i++)
    {
        r.val[i] =  a.val[i] ^ b.val[i];
    }
    return r;
}
"

theorem Props.veorq_u64_source [Dialect] (a : uint64x2_t) (b : uint64x2_t) :
    Runs Source.veorq_u64 [.ofVec a, .ofVec b] (Obj.ofVec <$> Model.veorq_u64 a b) := by
  refine ⟨_, Source.veorq_u64_parse, 1000, fun fuel hf => ?_⟩
  simp only [Source.veorq_u64_ast, Model.veorq_u64]
  cpp_simp
  cpp_loop (fun r => [(114, .vec .u64 2 r), (98, .vec .u64 2 (Arr.ofVec b)), (97, .vec .u64 2 (Arr.ofVec a))])
  · rintro i r h1 h2
    cpp_body
  · rintro r
    cpp_simp

/-- `neon_sim.cpp:5422-5430` -/
cpp_source Source.vmvn_s8 "int8x8_t vmvn_s8(int8x8_t a)
{
    int8x8_t r;
    for (int i = 0; i < 8; i++)
    {
        r.val[i] =  ~a.val[i];
    }
    return r;
}
"

theorem Props.vmvn_s8_source [Dialect] (a : int8x8_t) :
    Runs Source.vmvn_s8 [.ofVec a] (Obj.ofVec <$> Model.vmvn_s8 a) := by
  refine ⟨_, Source.vmvn_s8_parse, 1000, fun fuel hf => ?_⟩
  simp only [Source.vmvn_s8_ast, Model.vmvn_s8]
  cpp_simp
  cpp_loop (fun r => [(114, .vec .s8 8 r), (97, .vec .s8 8 (Arr.ofVec a))])
  · rintro i r h1 h2
    cpp_body
  · rintro r
    cpp_simp

/-- `neon_sim.cpp:5432-5440` -/
cpp_source Source.vmvn_s16 "int16x4_t vmvn_s16(int16x4_t a)
{
    int16x4_t r;
    for (int i = 0; i < 4; i++)
    {
        r.val[i] =  ~a.val[i];
    }
    return r;
}
"

theorem Props.vmvn_s16_source [Dialect] (a : int16x4_t) :
    Runs Source.vmvn_s16 [.ofVec a] (Obj.ofVec <$> Model.vmvn_s16 a) := by
  refine ⟨_, Source.vmvn_s16_parse, 1000, fun fuel hf => ?_⟩
  simp only [Source.vmvn_s16_ast, Model.vmvn_s16]
  cpp_simp
  cpp_loop (fun r => [(114, .vec .s16 4 r), (97, .vec .s16 4 (Arr.ofVec a))])
  · rintro i r h1 h2
    cpp_body
  · rintro r
    cpp_simp

/-- `neon_sim.cpp:5442-5450` -/
cpp_source Source.vmvn_s32 "int32x2_t vmvn_s32(int32x2_t a)
{
    int32x2_t r;
    for (int i = 0; i < 2; i++)
    {
        r.val[i] =  ~a.val[i];
    }
    return r;
}
"

theorem Props.vmvn_s32_source [Dialect] (a : int32x2_t) :
    Runs Source.vmvn_s32 [.ofVec a] (Obj.ofVec <$> Model.vmvn_s32 a) := by
  refine ⟨_, Source.vmvn_s32_parse, 1000, fun fuel hf => ?_⟩
  simp only [Source.vmvn_s32_ast, Model.vmvn_s32]
  cpp_simp
  cpp_loop (fun r => [(114, .vec .s32 2 r), (97, .vec .s32 2 (Arr.ofVec a))])
  · rintro i r h1 h2
    cpp_body
  · rintro r
    cpp_simp

/-- `neon_sim.cpp:5452-5460` -/
cpp_source Source.vmvn_u8 "uint8x8_t vmvn_u8(uint8x8_t a)
{
    uint8x8_t r;
    for (int i = 0; i < 8; i++)
    {
        r.val[i] =  ~a.val[i];
    }
    return r;
}
"

theorem Props.vmvn_u8_source [Dialect] (a : uint8x8_t) :
    Runs Source.vmvn_u8 [.ofVec a] (Obj.ofVec <$> Model.vmvn_u8 a) := by
  refine ⟨_, Source.vmvn_u8_parse, 1000, fun fuel hf => ?_⟩
  simp only [Source.vmvn_u8_ast, Model.vmvn_u8]
  cpp_simp
  cpp_loop (fun r => [(114, .vec .u8 8 r), (97, .vec .u8 8 (Arr.ofVec a))])
  · rintro i r h1 h2
    cpp_body
  · rintro r
    cpp_simp

/-- `neon_sim.cpp:5462-5470` -/
cpp_source Source.vmvn_u16 "uint16x4_t vmvn_u16(uint16x4_t a)
{
    uint16x4_t r;
    for (int i = 0; i < 4; i++)
    {
        r.val[i] =  ~a.val[i];
    }
    return r;
}
"

theorem Props.vmvn_u16_source [Dialect] (a : uint16x4_t) :
    Runs Source.vmvn_u16 [.ofVec a] (Obj.ofVec <$> Model.vmvn_u16 a) := by
  refine ⟨_, Source.vmvn_u16_parse, 1000, fun fuel hf => ?_⟩
  simp only [Source.vmvn_u16_ast, Model.vmvn_u16]
  cpp_simp
  cpp_loop (fun r => [(114, .vec .u16 4 r), (97, .vec .u16 4 (Arr.ofVec a))])
  · rintro i r h1 h2
    cpp_body
  · rintro r
    cpp_simp

/-- `neon_sim.cpp:5472-5480` -/
cpp_source Source.vmvn_u32 "uint32x2_t vmvn_u32(uint32x2_t a)
{
    uint32x2_t r;
    for (int i = 0; i < 2; i++)
    {
        r.val[i] =  ~a.val[i];
    }
    return r;
}
"

theorem Props.vmvn_u32_source [Dialect] (a : uint32x2_t) :
    Runs Source.vmvn_u32 [.ofVec a] (Obj.ofVec <$> Model.vmvn_u32 a) := by
  refine ⟨_, Source.vmvn_u32_parse, 1000, fun fuel hf => ?_⟩
  simp only [Source.vmvn_u32_ast, Model.vmvn_u32]
  cpp_simp
  cpp_loop (fun r => [(114, .vec .u32 2 r), (97, .vec .u32 2 (Arr.ofVec a))])
  · rintro i r h1 h2
    cpp_body
  · rintro r
    cpp_simp

/-- `neon_sim.cpp:5483-5491` -/
cpp_source Source.vmvnq_s8 "int8x16_t vmvnq_s8(int8x16_t a)
{
    int8x16_t r;
    for (int i = 0; i < 16; i++)
    {
        r.val[i] =  ~a.val[i];
    }
    return r;
}
"

theorem Props.vmvnq_s8_source [Dialect] (a : int8x16_t) :
    Runs Source.vmvnq_s8 [.ofVec a] (Obj.ofVec <$> Model.vmvnq_s8 a) := by
  refine ⟨_, Source.vmvnq_s8_parse, 1000, fun fuel hf => ?_⟩
  simp only [Source.vmvnq_s8_ast, Model.vmvnq_s8]
  cpp_simp
  cpp_loop (fun r => [(114, .vec .s8 16 r), (97, .vec .s8 16 (Arr.ofVec a))])
  · rintro i r h1 h2
    cpp_body
  · rintro r
    cpp_simp

/-- `neon_sim.cpp:5493-5501` -/
cpp_source Source.vmvnq_s16 "int16x8_t vmvnq_s16(int16x8_t a)
{
    int16x8_t r;
    for (int i = 0; i < 8; i++)
    {
        r.val[i] =  ~a.val[i];
    }
    return r;
}
"

theorem Props.vmvnq_s16_source [Dialect] (a : int16x8_t) :
    Runs Source.vmvnq_s16 [.ofVec a] (Obj.ofVec <$> Model.vmvnq_s16 a) := by
  refine ⟨_, Source.vmvnq_s16_parse, 1000, fun fuel hf => ?_⟩
  simp only [Source.vmvnq_s16_ast, Model.vmvnq_s16]
  cpp_simp
  cpp_loop (fun r => [(114, .vec .s16 8 r), (97, .vec .s16 8 (Arr.ofVec a))])
  · rintro i r h1 h2
    cpp_body
  · rintro r
    cpp_simp

/-- `neon_sim.cpp:5503-5511` -/
cpp_source Source.vmvnq_s32 "int32x4_t vmvnq_s32(int32x4_t a)
{
    int32x4_t r;
    for (int i = 0; i < 4; i++)
    {
        r.val[i] =  ~a.val[i];
    }
    return r;
}
"

theorem Props.vmvnq_s32_source [Dialect] (a : int32x4_t) :
    Runs Source.vmvnq_s32 [.ofVec a] (Obj.ofVec <$> Model.vmvnq_s32 a) := by
  refine ⟨_, Source.vmvnq_s32_parse, 1000, fun fuel hf => ?_⟩
  simp only [Source.vmvnq_s32_ast, Model.vmvnq_s32]
  cpp_simp
  cpp_loop (fun r => [(114, .vec .s32 4 r), (97, .vec .s32 4 (Arr.ofVec a))])
  · rintro i r h1 h2
    cpp_body
  · rintro r
    cpp_simp

/-- `neon_sim.cpp:5513-5521` -/
cpp_source Source.vmvnq_u8 "uint8x16_t vmvnq_u8(uint8x16_t a)
{
    uint8x16_t r;
    for (int i = 0; i < 16; i++)
    {
        r.val[i] =  ~a.val[i];
    }
    return r;
}
"

theorem Props.vmvnq_u8_source [Dialect] (a : uint8x16_t) :
    Runs Source.vmvnq_u8 [.ofVec a] (Obj.ofVec <$> Model.vmvnq_u8 a) := by
  refine ⟨_, Source.vmvnq_u8_parse, 1000, fun fuel hf => ?_⟩
  simp only [Source.vmvnq_u8_ast, Model.vmvnq_u8]
  cpp_simp
  cpp_loop (fun r => [(114, .vec .u8 16 r), (97, .vec .u8 16 (Arr.ofVec a))])
  · rintro i r h1 h2
    cpp_body
  · rintro r
    cpp_simp

/-- `neon_sim.cpp:5523-5531` -/
cpp_source Source.vmvnq_u16 "uint16x8_t vmvnq_u16(uint16x8_t a)
{
    uint16x8_t r;
    for (int i = 0; i < 8; i++)
    {
        r.val[i] =  ~a.val[i];
    }
    return r;
}
"

theorem Props.vmvnq_u16_source [Dialect] (a : uint16x8_t) :
    Runs Source.vmvnq_u16 [.ofVec a] (Obj.ofVec <$> Model.vmvnq_u16 a) := by
  refine ⟨_, Source.vmvnq_u16_parse, 1000, fun fuel hf => ?_⟩
  simp only [Source.vmvnq_u16_ast, Model.vmvnq_u16]
  cpp_simp
  cpp_loop (fun r => [(114, .vec .u16 8 r), (97, .vec .u16 8 (Arr.ofVec a))])
  · rintro i r h1 h2
    cpp_body
  · rintro r
    cpp_simp

/-- `neon_sim.cpp:5533-5541` -/
cpp_source Source.vmvnq_u32 "uint32x4_t vmvnq_u32(uint32x4_t a)
{
    uint32x4_t r;
    for (int i = 0; i < 4; i++)
    {
        r.val[i] =  ~a.val[i];
    }
    return r;
}
"

theorem Props.vmvnq_u32_source [Dialect] (a : uint32x4_t) :
    Runs Source.vmvnq_u32 [.ofVec a] (Obj.ofVec <$> Model.vmvnq_u32 a) := by
  refine ⟨_, Source.vmvnq_u32_parse, 1000, fun fuel hf => ?_⟩
  simp only [Source.vmvnq_u32_ast, Model.vmvnq_u32]
  cpp_simp
  cpp_loop (fun r => [(114, .vec .u32 4 r), (97, .vec .u32 4 (Arr.ofVec a))])
  · rintro i r h1 h2
    cpp_body
  · rintro r
    cpp_simp

end Verif
