import Verif.Cpp.Command
import Verif.Model.Add

/-! Source text of the functions in `Verif/Model/Add.lean`, and the theorem that running it is running the model.
Generated by `tools/gen_source.py`. -/

set_option linter.unusedVariables false
set_option linter.unusedSimpArgs false
set_option maxHeartbeats 1000000

open Verif.Cpp

namespace Verif

/-- `neon_sim.cpp:1212-1220` -/
cpp_source Source.vmaxq_s8 "int8x16_t vmaxq_s8(int8x16_t N, int8x16_t M)
{
    int8x16_t D;
    for (int i = 0; i < 16; i++)
    {
        D.val[i] = N.val[i] > M.val[i] ? N.val[i] : M.val[i];
    }
    return D;
}
"

theorem Props.vmaxq_s8_source [Dialect] (N : int8x16_t) (M : int8x16_t) :
    Runs Source.vmaxq_s8 [.ofVec N, .ofVec M] (Obj.ofVec <$> Model.vmaxq_s8 N M) := by
  refine ⟨_, Source.vmaxq_s8_parse, 1000, fun fuel hf => ?_⟩
  simp only [Source.vmaxq_s8_ast, Model.vmaxq_s8]
  cpp_simp
  cpp_loop (fun D => [(68, .vec .s8 16 D), (77, .vec .s8 16 (Arr.ofVec M)), (78, .vec .s8 16 (Arr.ofVec N))])
  · rintro i D h1 h2
    cpp_body
  · rintro D
    cpp_simp

/-- `neon_sim.cpp:1222-1230` -/
cpp_source Source.vmaxq_s16 "int16x8_t vmaxq_s16(int16x8_t N, int16x8_t M)
{
    int16x8_t D;
    for (int i = 0; i < 8; i++)
    {
        D.val[i] = N.val[i] > M.val[i] ? N.val[i] : M.val[i];
    }
    return D;
}
"

theorem Props.vmaxq_s16_source [Dialect] (N : int16x8_t) (M : int16x8_t) :
    Runs Source.vmaxq_s16 [.ofVec N, .ofVec M] (Obj.ofVec <$> Model.vmaxq_s16 N M) := by
  refine ⟨_, Source.vmaxq_s16_parse, 1000, fun fuel hf => ?_⟩
  simp only [Source.vmaxq_s16_ast, Model.vmaxq_s16]
  cpp_simp
  cpp_loop (fun D => [(68, .vec .s16 8 D), (77, .vec .s16 8 (Arr.ofVec M)), (78, .vec .s16 8 (Arr.ofVec N))])
  · rintro i D h1 h2
    cpp_body
  · rintro D
    cpp_simp

/-- `neon_sim.cpp:1232-1240` -/
cpp_source Source.vmaxq_s32 "int32x4_t vmaxq_s32(int32x4_t N, int32x4_t M)
{
    int32x4_t D;
    for (int i = 0; i < 4; i++)
    {
        D.val[i] = N.val[i] > M.val[i] ? N.val[i] : M.val[i];
    }
    return D;
}
"

theorem Props.vmaxq_s32_source [Dialect] (N : int32x4_t) (M : int32x4_t) :
    Runs Source.vmaxq_s32 [.ofVec N, .ofVec M] (Obj.ofVec <$> Model.vmaxq_s32 N M) := by
  refine ⟨_, Source.vmaxq_s32_parse, 1000, fun fuel hf => ?_⟩
  simp only [Source.vmaxq_s32_ast, Model.vmaxq_s32]
  cpp_simp
  cpp_loop (fun D => [(68, .vec .s32 4 D), (77, .vec .s32 4 (Arr.ofVec M)), (78, .vec .s32 4 (Arr.ofVec N))])
  · rintro i D h1 h2
    cpp_body
  · rintro D
    cpp_simp

/-- `neon_sim.cpp:1242-1250` -/
cpp_source Source.vmaxq_u8 "int8x16_t vmaxq_u8(int8x16_t N, int8x16_t M)
{
    int8x16_t D;
    for (int i = 0; i < 16; i++)
    {
        D.val[i] = N.val[i] > M.val[i] ? N.val[i] : M.val[i];
    }
    return D;
}
"

theorem Props.vmaxq_u8_source [Dialect] (N : int8x16_t) (M : int8x16_t) :
    Runs Source.vmaxq_u8 [.ofVec N, .ofVec M] (Obj.ofVec <$> Model.vmaxq_u8 N M) := by
  refine ⟨_, Source.vmaxq_u8_parse, 1000, fun fuel hf => ?_⟩
  simp only [Source.vmaxq_u8_ast, Model.vmaxq_u8]
  cpp_simp
  cpp_loop (fun D => [(68, .vec .s8 16 D), (77, .vec .s8 16 (Arr.ofVec M)), (78, .vec .s8 16 (Arr.ofVec N))])
  · rintro i D h1 h2
    cpp_body
  · rintro D
    cpp_simp

/-- `neon_sim.cpp:1252-1260` -/
cpp_source Source.vmaxq_u16 "int16x8_t vmaxq_u16(int16x8_t N, int16x8_t M)
{
    int16x8_t D;
    for (int i = 0; i < 8; i++)
    {
        D.val[i] = N.val[i] > M.val[i] ? N.val[i] : M.val[i];
    }
    return D;
}
"

theorem Props.vmaxq_u16_source [Dialect] (N : int16x8_t) (M : int16x8_t) :
    Runs Source.vmaxq_u16 [.ofVec N, .ofVec M] (Obj.ofVec <$> Model.vmaxq_u16 N M) := by
  refine ⟨_, Source.vmaxq_u16_parse, 1000, fun fuel hf => ?_⟩
  simp only [Source.vmaxq_u16_ast, Model.vmaxq_u16]
  cpp_simp
  cpp_loop (fun D => [(68, .vec .s16 8 D), (77, .vec .s16 8 (Arr.ofVec M)), (78, .vec .s16 8 (Arr.ofVec N))])
  · rintro i D h1 h2
    cpp_body
  · rintro D
    cpp_simp

/-- `neon_sim.cpp:1262-1270` -/
cpp_source Source.vmaxq_u32 "int32x4_t vmaxq_u32(int32x4_t N, int32x4_t M)
{
    int32x4_t D;
    for (int i = 0; i < 4; i++)
    {
        D.val[i] = N.val[i] > M.val[i] ? N.val[i] : M.val[i];
    }
    return D;
}
"

theorem Props.vmaxq_u32_source [Dialect] (N : int32x4_t) (M : int32x4_t) :
    Runs Source.vmaxq_u32 [.ofVec N, .ofVec M] (Obj.ofVec <$> Model.vmaxq_u32 N M) := by
  refine ⟨_, Source.vmaxq_u32_parse, 1000, fun fuel hf => ?_⟩
  simp only [Source.vmaxq_u32_ast, Model.vmaxq_u32]
  cpp_simp
  cpp_loop (fun D => [(68, .vec .s32 4 D), (77, .vec .s32 4 (Arr.ofVec M)), (78, .vec .s32 4 (Arr.ofVec N))])
  · rintro i D h1 h2
    cpp_body
  · rintro D
    cpp_simp

/-- `neon_sim.cpp:1272-1280` -/
cpp_source Source.vmaxq_f32 "float32x4_t vmaxq_f32(float32x4_t N, float32x4_t M)
{
    float32x4_t D;
    for (int i = 0; i < 4; i++)
    {
        D.val[i] = N.val[i] > M.val[i] ? N.val[i] : M.val[i];
    }
    return D;
}
"

theorem Props.vmaxq_f32_source [Dialect] (N : float32x4_t) (M : float32x4_t) :
    Runs Source.vmaxq_f32 [.ofVec N, .ofVec M] (Obj.ofVec <$> Model.vmaxq_f32 N M) := by
  refine ⟨_, Source.vmaxq_f32_parse, 1000, fun fuel hf => ?_⟩
  simp only [Source.vmaxq_f32_ast, Model.vmaxq_f32]
  cpp_simp
  cpp_loop (fun D => [(68, .vec .f32 4 D), (77, .vec .f32 4 (Arr.ofVec M)), (78, .vec .f32 4 (Arr.ofVec N))])
  · rintro i D h1 h2
    cpp_body
  · rintro D
    cpp_simp

/-- `neon_sim.cpp:1285-1293` -/
cpp_source Source.vadd_s8 "int8x8_t vadd_s8(int8x8_t N, int8x8_t M)
{
    int8x8_t D;
    for (size_t i = 0; i < 8; i++)
    {
        D.val[i] = N.val[i] + M.val[i];
    }
    return D;
}
"

theorem Props.vadd_s8_source [Dialect] (N : int8x8_t) (M : int8x8_t) :
    Runs Source.vadd_s8 [.ofVec N, .ofVec M] (Obj.ofVec <$> Model.vadd_s8 N M) := by
  refine ⟨_, Source.vadd_s8_parse, 1000, fun fuel hf => ?_⟩
  simp only [Source.vadd_s8_ast, Model.vadd_s8]
  cpp_simp
  cpp_loop (fun D => [(68, .vec .s8 8 D), (77, .vec .s8 8 (Arr.ofVec M)), (78, .vec .s8 8 (Arr.ofVec N))])
  · rintro i D h1 h2
    cpp_body
  · rintro D
    cpp_simp

/-- `neon_sim.cpp:1295-1303` -/
cpp_source Source.vadd_s16 "int16x4_t vadd_s16(int16x4_t N, int16x4_t M)
{
    int16x4_t D;
    for (size_t i = 0; i < 4; i++)
    {
        D.val[i] = N.val[i] + M.val[i];
    }
    return D;
}
"

theorem Props.vadd_s16_source [Dialect] (N : int16x4_t) (M : int16x4_t) :
    Runs Source.vadd_s16 [.ofVec N, .ofVec M] (Obj.ofVec <$> Model.vadd_s16 N M) := by
  refine ⟨_, Source.vadd_s16_parse, 1000, fun fuel hf => ?_⟩
  simp only [Source.vadd_s16_ast, Model.vadd_s16]
  cpp_simp
  cpp_loop (fun D => [(68, .vec .s16 4 D), (77, .vec .s16 4 (Arr.ofVec M)), (78, .vec .s16 4 (Arr.ofVec N))])
  · rintro i D h1 h2
    cpp_body
  · rintro D
    cpp_simp

/-- `neon_sim.cpp:1305-1313` -/
cpp_source Source.vadd_s32 "int32x2_t vadd_s32(int32x2_t N, int32x2_t M)
{
    int32x2_t D;
    for (size_t i = 0; i < 2; i++)
    {
        D.val[i] = N.val[i] + M.val[i];
    }
    return D;
}
"

theorem Props.vadd_s32_source [Dialect] (N : int32x2_t) (M : int32x2_t) :
    Runs Source.vadd_s32 [.ofVec N, .ofVec M] (Obj.ofVec <$> Model.vadd_s32 N M) := by
  refine ⟨_, Source.vadd_s32_parse, 1000, fun fuel hf => ?_⟩
  simp only [Source.vadd_s32_ast, Model.vadd_s32]
  cpp_simp
  cpp_loop (fun D => [(68, .vec .s32 2 D), (77, .vec .s32 2 (Arr.ofVec M)), (78, .vec .s32 2 (Arr.ofVec N))])
  · rintro i D h1 h2
    cpp_body
  · rintro D
    cpp_simp

/-- `neon_sim.cpp:1315-1320` -/
cpp_source Source.vadd_s64 "int64x1_t vadd_s64(int64x1_t N, int64x1_t M)
{
    int64x1_t D;
    D.val[0] = N.val[0] + M.val[0];
    return D;
}
"

theorem Props.vadd_s64_source [Dialect] (N : int64x1_t) (M : int64x1_t) :
    Runs Source.vadd_s64 [.ofVec N, .ofVec M] (Obj.ofVec <$> Model.vadd_s64 N M) := by
  refine ⟨_, Source.vadd_s64_parse, 1000, fun fuel hf => ?_⟩
  simp only [Source.vadd_s64_ast, Model.vadd_s64]
  cpp_simp

/-- `neon_sim.cpp:1322-1330` -/
cpp_source Source.vadd_u8 "uint8x8_t vadd_u8(uint8x8_t N, uint8x8_t M)
{
    uint8x8_t D;
    for (size_t i = 0; i < 8; i++)
    {
        D.val[i] = N.val[i] + M.val[i];
    }
    return D;
}
"

theorem Props.vadd_u8_source [Dialect] (N : uint8x8_t) (M : uint8x8_t) :
    Runs Source.vadd_u8 [.ofVec N, .ofVec M] (Obj.ofVec <$> Model.vadd_u8 N M) := by
  refine ⟨_, Source.vadd_u8_parse, 1000, fun fuel hf => ?_⟩
  simp only [Source.vadd_u8_ast, Model.vadd_u8]
  cpp_simp
  cpp_loop (fun D => [(68, .vec .u8 8 D), (77, .vec .u8 8 (Arr.ofVec M)), (78, .vec .u8 8 (Arr.ofVec N))])
  · rintro i D h1 h2
    cpp_body
  · rintro D
    cpp_simp

/-- `neon_sim.cpp:1332-1340` -/
cpp_source Source.vadd_u16 "uint16x4_t vadd_u16(uint16x4_t N, uint16x4_t M)
{
    uint16x4_t D;
    for (size_t i = 0; i < 4; i++)
    {
        D.val[i] = N.val[i] + M.val[i];
    }
    return D;
}
"

theorem Props.vadd_u16_source [Dialect] (N : uint16x4_t) (M : uint16x4_t) :
    Runs Source.vadd_u16 [.ofVec N, .ofVec M] (Obj.ofVec <$> Model.vadd_u16 N M) := by
  refine ⟨_, Source.vadd_u16_parse, 1000, fun fuel hf => ?_⟩
  simp only [Source.vadd_u16_ast, Model.vadd_u16]
  cpp_simp
  cpp_loop (fun D => [(68, .vec .u16 4 D), (77, .vec .u16 4 (Arr.ofVec M)), (78, .vec .u16 4 (Arr.ofVec N))])
  · rintro i D h1 h2
    cpp_body
  · rintro D
    cpp_simp

/-- `neon_sim.cpp:1342-1350` -/
cpp_source Source.vadd_u32 "uint32x2_t vadd_u32(uint32x2_t N, uint32x2_t M)
{
    uint32x2_t D;
    for (size_t i = 0; i < 2; i++)
    {
        D.val[i] = N.val[i] + M.val[i];
    }
    return D;
}
"

theorem Props.vadd_u32_source [Dialect] (N : uint32x2_t) (M : uint32x2_t) :
    Runs Source.vadd_u32 [.ofVec N, .ofVec M] (Obj.ofVec <$> Model.vadd_u32 N M) := by
  refine ⟨_, Source.vadd_u32_parse, 1000, fun fuel hf => ?_⟩
  simp only [Source.vadd_u32_ast, Model.vadd_u32]
  cpp_simp
  cpp_loop (fun D => [(68, .vec .u32 2 D), (77, .vec .u32 2 (Arr.ofVec M)), (78, .vec .u32 2 (Arr.ofVec N))])
  · rintro i D h1 h2
    cpp_body
  · rintro D
    cpp_simp

/-- `neon_sim.cpp:1352-1357` -/
cpp_source Source.vadd_u64 "uint64x1_t vadd_u64(uint64x1_t N, uint64x1_t M)
{
    uint64x1_t D;
    D.val[0] = N.val[0] + M.val[0];
    return D;
}
"

theorem Props.vadd_u64_source [Dialect] (N : uint64x1_t) (M : uint64x1_t) :
    Runs Source.vadd_u64 [.ofVec N, .ofVec M] (Obj.ofVec <$> Model.vadd_u64 N M) := by
  refine ⟨_, Source.vadd_u64_parse, 1000, fun fuel hf => ?_⟩
  simp only [Source.vadd_u64_ast, Model.vadd_u64]
  cpp_simp

/-- `neon_sim.cpp:1360-1368` -/
cpp_source Source.vaddl_u8 "uint16x8_t vaddl_u8(uint8x8_t a, uint8x8_t b)
{
    uint16x8_t D;
    for (size_t i = 0; i < 8; i++)
    {
        D.val[i] = (uint16_t)(a.val[i]) + (uint16_t)(b.val[i]);
    }
    return D;
}
"

theorem Props.vaddl_u8_source [Dialect] (a : uint8x8_t) (b : uint8x8_t) :
    Runs Source.vaddl_u8 [.ofVec a, .ofVec b] (Obj.ofVec <$> Model.vaddl_u8 a b) := by
  refine ⟨_, Source.vaddl_u8_parse, 1000, fun fuel hf => ?_⟩
  simp only [Source.vaddl_u8_ast, Model.vaddl_u8]
  cpp_simp
  cpp_loop (fun D => [(68, .vec .u16 8 D), (98, .vec .u8 8 (Arr.ofVec b)), (97, .vec .u8 8 (Arr.ofVec a))])
  · rintro i D h1 h2
    cpp_body
  · rintro D
    cpp_simp

/-- `neon_sim.cpp:1370-1378` -/
cpp_source Source.vaddw_s8 "int16x8_t vaddw_s8(int16x8_t a, int8x8_t b)
{
    int16x8_t r;
    for (int i = 0; i < 8; i++)
    {
        r.val[i] =  a.val[i] + b.val[i];
    }
    return r;
}
"

theorem Props.vaddw_s8_source [Dialect] (a : int16x8_t) (b : int8x8_t) :
    Runs Source.vaddw_s8 [.ofVec a, .ofVec b] (Obj.ofVec <$> Model.vaddw_s8 a b) := by
  refine ⟨_, Source.vaddw_s8_parse, 1000, fun fuel hf => ?_⟩
  simp only [Source.vaddw_s8_ast, Model.vaddw_s8]
  cpp_simp
  cpp_loop (fun r => [(114, .vec .s16 8 r), (98, .vec .s8 8 (Arr.ofVec b)), (97, .vec .s16 8 (Arr.ofVec a))])
  · rintro i r h1 h2
    cpp_body
  · rintro r
    cpp_simp

/-- `neon_sim.cpp:1380-1388` -/
cpp_source Source.vaddw_s16 "int32x4_t vaddw_s16(int32x4_t a, int16x4_t b)
{
    int32x4_t r;
    for (int i = 0; i < 4; i++)
    {
        r.val[i] =  a.val[i] + b.val[i];
    }
    return r;
}
"

theorem Props.vaddw_s16_source [Dialect] (a : int32x4_t) (b : int16x4_t) :
    Runs Source.vaddw_s16 [.ofVec a, .ofVec b] (Obj.ofVec <$> Model.vaddw_s16 a b) := by
  refine ⟨_, Source.vaddw_s16_parse, 1000, fun fuel hf => ?_⟩
  simp only [Source.vaddw_s16_ast, Model.vaddw_s16]
  cpp_simp
  cpp_loop (fun r => [(114, .vec .s32 4 r), (98, .vec .s16 4 (Arr.ofVec b)), (97, .vec .s32 4 (Arr.ofVec a))])
  · rintro i r h1 h2
    cpp_body
  · rintro r
    cpp_simp

/-- `neon_sim.cpp:1390-1398` -/
cpp_source Source.vaddw_s32 "int64x2_t vaddw_s32(int64x2_t a, int32x2_t b)
{
    int64x2_t r;
    for (int i = 0; i < 2; i++)
    {
        r.val[i] =  a.val[i] + b.val[i];
    }
    return r;
}
"

theorem Props.vaddw_s32_source [Dialect] (a : int64x2_t) (b : int32x2_t) :
    Runs Source.vaddw_s32 [.ofVec a, .ofVec b] (Obj.ofVec <$> Model.vaddw_s32 a b) := by
  refine ⟨_, Source.vaddw_s32_parse, 1000, fun fuel hf => ?_⟩
  simp only [Source.vaddw_s32_ast, Model.vaddw_s32]
  cpp_simp
  cpp_loop (fun r => [(114, .vec .s64 2 r), (98, .vec .s32 2 (Arr.ofVec b)), (97, .vec .s64 2 (Arr.ofVec a))])
  · rintro i r h1 h2
    cpp_body
  · rintro r
    cpp_simp

/-- `neon_sim.cpp:1400-1408` -/
cpp_source Source.vaddw_u8 "uint16x8_t vaddw_u8(uint16x8_t a, uint8x8_t b)
{
    uint16x8_t r;
    for (int i = 0; i < 8; i++)
    {
        r.val[i] =  a.val[i] + b.val[i];
    }
    return r;
}
"

theorem Props.vaddw_u8_source [Dialect] (a : uint16x8_t) (b : uint8x8_t) :
    Runs Source.vaddw_u8 [.ofVec a, .ofVec b] (Obj.ofVec <$> Model.vaddw_u8 a b) := by
  refine ⟨_, Source.vaddw_u8_parse, 1000, fun fuel hf => ?_⟩
  simp only [Source.vaddw_u8_ast, Model.vaddw_u8]
  cpp_simp
  cpp_loop (fun r => [(114, .vec .u16 8 r), (98, .vec .u8 8 (Arr.ofVec b)), (97, .vec .u16 8 (Arr.ofVec a))])
  · rintro i r h1 h2
    cpp_body
  · rintro r
    cpp_simp

/-- `neon_sim.cpp:1410-1418` -/
cpp_source Source.vaddw_u16 "uint32x4_t vaddw_u16(uint32x4_t a, uint16x4_t b)
{
    uint32x4_t r;
    for (int i = 0; i < 4; i++)
    {
        r.val[i] =  a.val[i] + b.val[i];
    }
    return r;
}
"

theorem Props.vaddw_u16_source [Dialect] (a : uint32x4_t) (b : uint16x4_t) :
    Runs Source.vaddw_u16 [.ofVec a, .ofVec b] (Obj.ofVec <$> Model.vaddw_u16 a b) := by
  refine ⟨_, Source.vaddw_u16_parse, 1000, fun fuel hf => ?_⟩
  simp only [Source.vaddw_u16_ast, Model.vaddw_u16]
  cpp_simp
  cpp_loop (fun r => [(114, .vec .u32 4 r), (98, .vec .u16 4 (Arr.ofVec b)), (97, .vec .u32 4 (Arr.ofVec a))])
  · rintro i r h1 h2
    cpp_body
  · rintro r
    cpp_simp

/-- `neon_sim.cpp:1420-1428` -/
cpp_source Source.vaddw_u32 "uint64x2_t vaddw_u32(uint64x2_t a, uint32x2_t b)
{
    uint64x2_t r;
    for (int i = 0; i < 2; i++)
    {
        r.val[i] =  a.val[i] + b.val[i];
    }
    return r;
}
"

theorem Props.vaddw_u32_source [Dialect] (a : uint64x2_t) (b : uint32x2_t) :
    Runs Source.vaddw_u32 [.ofVec a, .ofVec b] (Obj.ofVec <$> Model.vaddw_u32 a b) := by
  refine ⟨_, Source.vaddw_u32_parse, 1000, fun fuel hf => ?_⟩
  simp only [Source.vaddw_u32_ast, Model.vaddw_u32]
  cpp_simp
  cpp_loop (fun r => [(114, .vec .u64 2 r), (98, .vec .u32 2 (Arr.ofVec b)), (97, .vec .u64 2 (Arr.ofVec a))])
  · rintro i r h1 h2
    cpp_body
  · rintro r
    cpp_simp

/-- `neon_sim.cpp:1431-1440` -/
cpp_source Source.vaddw_high_s8 "int16x8_t vaddw_high_s8(int16x8_t a, int8x16_t b)
{
    int16x8_t r;
    const int ofs = 8;
    for (int i = 0; i < 8; i++)
    {
        r.val[i] =  a.val[i] + b.val[ofs + i];
    }
    return r;
}
"

theorem Props.vaddw_high_s8_source [Dialect] (a : int16x8_t) (b : int8x16_t) :
    Runs Source.vaddw_high_s8 [.ofVec a, .ofVec b] (Obj.ofVec <$> Model.vaddw_high_s8 a b) := by
  refine ⟨_, Source.vaddw_high_s8_parse, 1000, fun fuel hf => ?_⟩
  simp only [Source.vaddw_high_s8_ast, Model.vaddw_high_s8]
  cpp_simp
  cpp_loop (fun r => [(7300723, .sc .s32 (some (vint (8)))), (114, .vec .s16 8 r), (98, .vec .s8 16 (Arr.ofVec b)), (97, .vec .s16 8 (Arr.ofVec a))])
  · rintro i r h1 h2
    cpp_body
  · rintro r
    cpp_simp

/-- `neon_sim.cpp:1442-1451` -/
cpp_source Source.vaddw_high_s16 "int32x4_t vaddw_high_s16(int32x4_t a, int16x8_t b)
{
    int32x4_t r;
    const int ofs = 4;
    for (int i = 0; i < 4; i++)
    {
        r.val[i] =  a.val[i] + b.val[ofs + i];
    }
    return r;
}
"

theorem Props.vaddw_high_s16_source [Dialect] (a : int32x4_t) (b : int16x8_t) :
    Runs Source.vaddw_high_s16 [.ofVec a, .ofVec b] (Obj.ofVec <$> Model.vaddw_high_s16 a b) := by
  refine ⟨_, Source.vaddw_high_s16_parse, 1000, fun fuel hf => ?_⟩
  simp only [Source.vaddw_high_s16_ast, Model.vaddw_high_s16]
  cpp_simp
  cpp_loop (fun r => [(7300723, .sc .s32 (some (vint (4)))), (114, .vec .s32 4 r), (98, .vec .s16 8 (Arr.ofVec b)), (97, .vec .s32 4 (Arr.ofVec a))])
  · rintro i r h1 h2
    cpp_body
  · rintro r
    cpp_simp

/-- `neon_sim.cpp:1453-1462` -/
cpp_source Source.vaddw_high_s32 "int64x2_t vaddw_high_s32(int64x2_t a, int32x4_t b)
{
    int64x2_t r;
    const int ofs = 2;
    for (int i = 0; i < 2; i++)
    {
        r.val[i] =  a.val[i] + b.val[ofs + i];
    }
    return r;
}
"

theorem Props.vaddw_high_s32_source [Dialect] (a : int64x2_t) (b : int32x4_t) :
    Runs Source.vaddw_high_s32 [.ofVec a, .ofVec b] (Obj.ofVec <$> Model.vaddw_high_s32 a b) := by
  refine ⟨_, Source.vaddw_high_s32_parse, 1000, fun fuel hf => ?_⟩
  simp only [Source.vaddw_high_s32_ast, Model.vaddw_high_s32]
  cpp_simp
  cpp_loop (fun r => [(7300723, .sc .s32 (some (vint (2)))), (114, .vec .s64 2 r), (98, .vec .s32 4 (Arr.ofVec b)), (97, .vec .s64 2 (Arr.ofVec a))])
  · rintro i r h1 h2
    cpp_body
  · rintro r
    cpp_simp

/-- `neon_sim.cpp:1464-1473` -/
cpp_source Source.vaddw_high_u8 "uint16x8_t vaddw_high_u8(uint16x8_t a, uint8x16_t b)
{
    uint16x8_t r;
    const int ofs = 8;
    for (int i = 0; i < 8; i++)
    {
        r.val[i] =  a.val[i] + b.val[ofs + i];
    }
    return r;
}
"

theorem Props.vaddw_high_u8_source [Dialect] (a : uint16x8_t) (b : uint8x16_t) :
    Runs Source.vaddw_high_u8 [.ofVec a, .ofVec b] (Obj.ofVec <$> Model.vaddw_high_u8 a b) := by
  refine ⟨_, Source.vaddw_high_u8_parse, 1000, fun fuel hf => ?_⟩
  simp only [Source.vaddw_high_u8_ast, Model.vaddw_high_u8]
  cpp_simp
  cpp_loop (fun r => [(7300723, .sc .s32 (some (vint (8)))), (114, .vec .u16 8 r), (98, .vec .u8 16 (Arr.ofVec b)), (97, .vec .u16 8 (Arr.ofVec a))])
  · rintro i r h1 h2
    cpp_body
  · rintro r
    cpp_simp

/-- `neon_sim.cpp:1475-1484` -/
cpp_source Source.vaddw_high_u16 "uint32x4_t vaddw_high_u16(uint32x4_t a, uint16x8_t b)
{
    uint32x4_t r;
    const int ofs = 4;
    for (int i = 0; i < 4; i++)
    {
        r.val[i] =  a.val[i] + b.val[ofs + i];
    }
    return r;
}
"

theorem Props.vaddw_high_u16_source [Dialect] (a : uint32x4_t) (b : uint16x8_t) :
    Runs Source.vaddw_high_u16 [.ofVec a, .ofVec b] (Obj.ofVec <$> Model.vaddw_high_u16 a b) := by
  refine ⟨_, Source.vaddw_high_u16_parse, 1000, fun fuel hf => ?_⟩
  simp only [Source.vaddw_high_u16_ast, Model.vaddw_high_u16]
  cpp_simp
  cpp_loop (fun r => [(7300723, .sc .s32 (some (vint (4)))), (114, .vec .u32 4 r), (98, .vec .u16 8 (Arr.ofVec b)), (97, .vec .u32 4 (Arr.ofVec a))])
  · rintro i r h1 h2
    cpp_body
  · rintro r
    cpp_simp

/-- `neon_sim.cpp:1486-1495` -/
cpp_source Source.vaddw_high_u32 "uint64x2_t vaddw_high_u32(uint64x2_t a, uint32x4_t b)
{
    uint64x2_t r;
    const int ofs = 2;
    for (int i = 0; i < 2; i++)
    {
        r.val[i] =  a.val[i] + b.val[ofs + i];
    }
    return r;
}
"

theorem Props.vaddw_high_u32_source [Dialect] (a : uint64x2_t) (b : uint32x4_t) :
    Runs Source.vaddw_high_u32 [.ofVec a, .ofVec b] (Obj.ofVec <$> Model.vaddw_high_u32 a b) := by
  refine ⟨_, Source.vaddw_high_u32_parse, 1000, fun fuel hf => ?_⟩
  simp only [Source.vaddw_high_u32_ast, Model.vaddw_high_u32]
  cpp_simp
  cpp_loop (fun r => [(7300723, .sc .s32 (some (vint (2)))), (114, .vec .u64 2 r), (98, .vec .u32 4 (Arr.ofVec b)), (97, .vec .u64 2 (Arr.ofVec a))])
  · rintro i r h1 h2
    cpp_body
  · rintro r
    cpp_simp

/-- `neon_sim.cpp:1500-1508` -/
cpp_source Source.vaddhn_high_s16 "int8x16_t vaddhn_high_s16(int8x8_t r, int16x8_t a, int16x8_t b)
{
    int8x16_t ret;
    for (int i = 0; i < 8; i++)
        ret.val[i] = r.val[i];
    for (int i = 0; i < 8; i++)
        ret.val[i + 8] = (int8_t)((a.val[i] + b.val[i]) >> 8);
    return ret;
}
"

theorem Props.vaddhn_high_s16_source [Dialect] (r : int8x8_t) (a : int16x8_t) (b : int16x8_t) :
    Runs Source.vaddhn_high_s16 [.ofVec r, .ofVec a, .ofVec b] (Obj.ofVec <$> Model.vaddhn_high_s16 r a b) := by
  refine ⟨_, Source.vaddhn_high_s16_parse, 1000, fun fuel hf => ?_⟩
  simp only [Source.vaddhn_high_s16_ast, Model.vaddhn_high_s16]
  cpp_simp
  cpp_loop (fun ret => [(7497076, .vec .s8 16 ret), (98, .vec .s16 8 (Arr.ofVec b)), (97, .vec .s16 8 (Arr.ofVec a)), (114, .vec .s8 8 (Arr.ofVec r))])
  · rintro i ret h1 h2
    cpp_body
  · rintro ret
    cpp_simp
    cpp_loop (fun ret => [(7497076, .vec .s8 16 ret), (98, .vec .s16 8 (Arr.ofVec b)), (97, .vec .s16 8 (Arr.ofVec a)), (114, .vec .s8 8 (Arr.ofVec r))])
    · rintro i ret h1 h2
      cpp_body
    · rintro ret
      cpp_simp

/-- `neon_sim.cpp:1510-1518` -/
cpp_source Source.vaddhn_high_s32 "int16x8_t vaddhn_high_s32(int16x4_t r, int32x4_t a, int32x4_t b)
{
    int16x8_t ret;
    for (int i = 0; i < 4; i++)
        ret.val[i] = r.val[i];
    for (int i = 0; i < 4; i++)
        ret.val[i + 4] = (int16_t)((a.val[i] + b.val[i]) >> 4);
    return ret;
}
"

theorem Props.vaddhn_high_s32_source [Dialect] (r : int16x4_t) (a : int32x4_t) (b : int32x4_t) :
    Runs Source.vaddhn_high_s32 [.ofVec r, .ofVec a, .ofVec b] (Obj.ofVec <$> Model.vaddhn_high_s32 r a b) := by
  refine ⟨_, Source.vaddhn_high_s32_parse, 1000, fun fuel hf => ?_⟩
  simp only [Source.vaddhn_high_s32_ast, Model.vaddhn_high_s32]
  cpp_simp
  cpp_loop (fun ret => [(7497076, .vec .s16 8 ret), (98, .vec .s32 4 (Arr.ofVec b)), (97, .vec .s32 4 (Arr.ofVec a)), (114, .vec .s16 4 (Arr.ofVec r))])
  · rintro i ret h1 h2
    cpp_body
  · rintro ret
    cpp_simp
    cpp_loop (fun ret => [(7497076, .vec .s16 8 ret), (98, .vec .s32 4 (Arr.ofVec b)), (97, .vec .s32 4 (Arr.ofVec a)), (114, .vec .s16 4 (Arr.ofVec r))])
    · rintro i ret h1 h2
      cpp_body
    · rintro ret
      cpp_simp

/-- `neon_sim.cpp:1520-1528` -/
cpp_source Source.vaddhn_high_s64 "int32x4_t vaddhn_high_s64(int32x2_t r, int64x2_t a, int64x2_t b)
{
    int32x4_t ret;
    for (int i = 0; i < 2; i++)
        ret.val[i] = r.val[i];
    for (int i = 0; i < 2; i++)
        ret.val[i + 2] = (int32_t)((a.val[i] + b.val[i]) >> 2);
    return ret;
}
"

theorem Props.vaddhn_high_s64_source [Dialect] (r : int32x2_t) (a : int64x2_t) (b : int64x2_t) :
    Runs Source.vaddhn_high_s64 [.ofVec r, .ofVec a, .ofVec b] (Obj.ofVec <$> Model.vaddhn_high_s64 r a b) := by
  refine ⟨_, Source.vaddhn_high_s64_parse, 1000, fun fuel hf => ?_⟩
  simp only [Source.vaddhn_high_s64_ast, Model.vaddhn_high_s64]
  cpp_simp
  cpp_loop (fun ret => [(7497076, .vec .s32 4 ret), (98, .vec .s64 2 (Arr.ofVec b)), (97, .vec .s64 2 (Arr.ofVec a)), (114, .vec .s32 2 (Arr.ofVec r))])
  · rintro i ret h1 h2
    cpp_body
  · rintro ret
    cpp_simp
    cpp_loop (fun ret => [(7497076, .vec .s32 4 ret), (98, .vec .s64 2 (Arr.ofVec b)), (97, .vec .s64 2 (Arr.ofVec a)), (114, .vec .s32 2 (Arr.ofVec r))])
    · rintro i ret h1 h2
      cpp_body
    · rintro ret
      cpp_simp

/-- `neon_sim.cpp:1530-1538` -/
cpp_source Source.vaddhn_high_u16 "uint8x16_t vaddhn_high_u16(uint8x8_t r, uint16x8_t a, uint16x8_t b)
{
    uint8x16_t ret;
    for (int i = 0; i < 8; i++)
        ret.val[i] = r.val[i];
    for (int i = 0; i < 8; i++)
        ret.val[i + 8] = (uint8_t)((a.val[i] + b.val[i]) >> 8);
    return ret;
}
"

theorem Props.vaddhn_high_u16_source [Dialect] (r : uint8x8_t) (a : uint16x8_t) (b : uint16x8_t) :
    Runs Source.vaddhn_high_u16 [.ofVec r, .ofVec a, .ofVec b] (Obj.ofVec <$> Model.vaddhn_high_u16 r a b) := by
  refine ⟨_, Source.vaddhn_high_u16_parse, 1000, fun fuel hf => ?_⟩
  simp only [Source.vaddhn_high_u16_ast, Model.vaddhn_high_u16]
  cpp_simp
  cpp_loop (fun ret => [(7497076, .vec .u8 16 ret), (98, .vec .u16 8 (Arr.ofVec b)), (97, .vec .u16 8 (Arr.ofVec a)), (114, .vec .u8 8 (Arr.ofVec r))])
  · rintro i ret h1 h2
    cpp_body
  · rintro ret
    cpp_simp
    cpp_loop (fun ret => [(7497076, .vec .u8 16 ret), (98, .vec .u16 8 (Arr.ofVec b)), (97, .vec .u16 8 (Arr.ofVec a)), (114, .vec .u8 8 (Arr.ofVec r))])
    · rintro i ret h1 h2
      cpp_body
    · rintro ret
      cpp_simp

/-- `neon_sim.cpp:1540-1548` -/
cpp_source Source.vaddhn_high_u32 "uint16x8_t vaddhn_high_u32(uint16x4_t r, uint32x4_t a, uint32x4_t b)
{
    uint16x8_t ret;
    for (int i = 0; i < 4; i++)
        ret.val[i] = r.val[i];
    for (int i = 0; i < 4; i++)
        ret.val[i + 4] = (uint16_t)((a.val[i] + b.val[i]) >> 4);
    return ret;
}
"

theorem Props.vaddhn_high_u32_source [Dialect] (r : uint16x4_t) (a : uint32x4_t) (b : uint32x4_t) :
    Runs Source.vaddhn_high_u32 [.ofVec r, .ofVec a, .ofVec b] (Obj.ofVec <$> Model.vaddhn_high_u32 r a b) := by
  refine ⟨_, Source.vaddhn_high_u32_parse, 1000, fun fuel hf => ?_⟩
  simp only [Source.vaddhn_high_u32_ast, Model.vaddhn_high_u32]
  cpp_simp
  cpp_loop (fun ret => [(7497076, .vec .u16 8 ret), (98, .vec .u32 4 (Arr.ofVec b)), (97, .vec .u32 4 (Arr.ofVec a)), (114, .vec .u16 4 (Arr.ofVec r))])
  · rintro i ret h1 h2
    cpp_body
  · rintro ret
    cpp_simp
    cpp_loop (fun ret => [(7497076, .vec .u16 8 ret), (98, .vec .u32 4 (Arr.ofVec b)), (97, .vec .u32 4 (Arr.ofVec a)), (114, .vec .u16 4 (Arr.ofVec r))])
    · rintro i ret h1 h2
      cpp_body
    · rintro ret
      cpp_simp

/-- `neon_sim.cpp:1550-1558` -/
cpp_source Source.vaddhn_high_u64 "uint32x4_t vaddhn_high_u64(uint32x2_t r, uint64x2_t a, uint64x2_t b)
{
    uint32x4_t ret;
    for (int i = 0; i < 2; i++)
        ret.val[i] = r.val[i];
    for (int i = 0; i < 2; i++)
        ret.val[i + 2] = (uint32_t)((a.val[i] + b.val[i]) >> 2);
    return ret;
}
"

theorem Props.vaddhn_high_u64_source [Dialect] (r : uint32x2_t) (a : uint64x2_t) (b : uint64x2_t) :
    Runs Source.vaddhn_high_u64 [.ofVec r, .ofVec a, .ofVec b] (Obj.ofVec <$> Model.vaddhn_high_u64 r a b) := by
  refine ⟨_, Source.vaddhn_high_u64_parse, 1000, fun fuel hf => ?_⟩
  simp only [Source.vaddhn_high_u64_ast, Model.vaddhn_high_u64]
  cpp_simp
  cpp_loop (fun ret => [(7497076, .vec .u32 4 ret), (98, .vec .u64 2 (Arr.ofVec b)), (97, .vec .u64 2 (Arr.ofVec a)), (114, .vec .u32 2 (Arr.ofVec r))])
  · rintro i ret h1 h2
    cpp_body
  · rintro ret
    cpp_simp
    cpp_loop (fun ret => [(7497076, .vec .u32 4 ret), (98, .vec .u64 2 (Arr.ofVec b)), (97, .vec .u64 2 (Arr.ofVec a)), (114, .vec .u32 2 (Arr.ofVec r))])
    · rintro i ret h1 h2
      cpp_body
    · rintro ret
      cpp_simp

/-- `neon_sim.cpp:1563-1571` -/
cpp_source Source.vaddq_s8 "int8x16_t vaddq_s8(int8x16_t N, int8x16_t M)
{
    int8x16_t D;
    for (size_t i = 0; i < 16; i++)
    {
        D.val[i] = N.val[i] + M.val[i];
    }
    return D;
}
"

theorem Props.vaddq_s8_source [Dialect] (N : int8x16_t) (M : int8x16_t) :
    Runs Source.vaddq_s8 [.ofVec N, .ofVec M] (Obj.ofVec <$> Model.vaddq_s8 N M) := by
  refine ⟨_, Source.vaddq_s8_parse, 1000, fun fuel hf => ?_⟩
  simp only [Source.vaddq_s8_ast, Model.vaddq_s8]
  cpp_simp
  cpp_loop (fun D => [(68, .vec .s8 16 D), (77, .vec .s8 16 (Arr.ofVec M)), (78, .vec .s8 16 (Arr.ofVec N))])
  · rintro i D h1 h2
    cpp_body
  · rintro D
    cpp_simp

/-- `neon_sim.cpp:1573-1581` -/
cpp_source Source.vaddq_s16 "int16x8_t vaddq_s16(int16x8_t N, int16x8_t M)
{
    int16x8_t D;
    for (size_t i = 0; i < 8; i++)
    {
        D.val[i] = N.val[i] + M.val[i];
    }
    return D;
}
"

theorem Props.vaddq_s16_source [Dialect] (N : int16x8_t) (M : int16x8_t) :
    Runs Source.vaddq_s16 [.ofVec N, .ofVec M] (Obj.ofVec <$> Model.vaddq_s16 N M) := by
  refine ⟨_, Source.vaddq_s16_parse, 1000, fun fuel hf => ?_⟩
  simp only [Source.vaddq_s16_ast, Model.vaddq_s16]
  cpp_simp
  cpp_loop (fun D => [(68, .vec .s16 8 D), (77, .vec .s16 8 (Arr.ofVec M)), (78, .vec .s16 8 (Arr.ofVec N))])
  · rintro i D h1 h2
    cpp_body
  · rintro D
    cpp_simp

/-- `neon_sim.cpp:1583-1591` -/
cpp_source Source.vaddq_s32 "int32x4_t vaddq_s32(int32x4_t N, int32x4_t M)
{
    int32x4_t D;
    for (size_t i = 0; i < 4; i++)
    {
        D.val[i] = N.val[i] + M.val[i];
    }
    return D;
}
"

theorem Props.vaddq_s32_source [Dialect] (N : int32x4_t) (M : int32x4_t) :
    Runs Source.vaddq_s32 [.ofVec N, .ofVec M] (Obj.ofVec <$> Model.vaddq_s32 N M) := by
  refine ⟨_, Source.vaddq_s32_parse, 1000, fun fuel hf => ?_⟩
  simp only [Source.vaddq_s32_ast, Model.vaddq_s32]
  cpp_simp
  cpp_loop (fun D => [(68, .vec .s32 4 D), (77, .vec .s32 4 (Arr.ofVec M)), (78, .vec .s32 4 (Arr.ofVec N))])
  · rintro i D h1 h2
    cpp_body
  · rintro D
    cpp_simp

/-- `neon_sim.cpp:1593-1601` -/
cpp_source Source.vaddq_s64 "int64x2_t vaddq_s64(int64x2_t N, int64x2_t M)
{
    int64x2_t D;
    for (size_t i = 0; i < 2; i++)
    {
        D.val[i] = N.val[i] + M.val[i];
    }
    return D;
}
"

theorem Props.vaddq_s64_source [Dialect] (N : int64x2_t) (M : int64x2_t) :
    Runs Source.vaddq_s64 [.ofVec N, .ofVec M] (Obj.ofVec <$> Model.vaddq_s64 N M) := by
  refine ⟨_, Source.vaddq_s64_parse, 1000, fun fuel hf => ?_⟩
  simp only [Source.vaddq_s64_ast, Model.vaddq_s64]
  cpp_simp
  cpp_loop (fun D => [(68, .vec .s64 2 D), (77, .vec .s64 2 (Arr.ofVec M)), (78, .vec .s64 2 (Arr.ofVec N))])
  · rintro i D h1 h2
    cpp_body
  · rintro D
    cpp_simp

/-- `neon_sim.cpp:1603-1611` -/
cpp_source Source.vaddq_u8 "uint8x16_t vaddq_u8(uint8x16_t N, uint8x16_t M)
{
    uint8x16_t D;
    for (size_t i = 0; i < 16; i++)
    {
        D.val[i] = N.val[i] + M.val[i];
    }
    return D;
}
"

theorem Props.vaddq_u8_source [Dialect] (N : uint8x16_t) (M : uint8x16_t) :
    Runs Source.vaddq_u8 [.ofVec N, .ofVec M] (Obj.ofVec <$> Model.vaddq_u8 N M) := by
  refine ⟨_, Source.vaddq_u8_parse, 1000, fun fuel hf => ?_⟩
  simp only [Source.vaddq_u8_ast, Model.vaddq_u8]
  cpp_simp
  cpp_loop (fun D => [(68, .vec .u8 16 D), (77, .vec .u8 16 (Arr.ofVec M)), (78, .vec .u8 16 (Arr.ofVec N))])
  · rintro i D h1 h2
    cpp_body
  · rintro D
    cpp_simp

/-- `neon_sim.cpp:1613-1621` -/
cpp_source Source.vaddq_u16 "uint16x8_t vaddq_u16(uint16x8_t N, uint16x8_t M)
{
    uint16x8_t D;
    for (size_t i = 0; i < 8; i++)
    {
        D.val[i] = N.val[i] + M.val[i];
    }
    return D;
}
"

theorem Props.vaddq_u16_source [Dialect] (N : uint16x8_t) (M : uint16x8_t) :
    Runs Source.vaddq_u16 [.ofVec N, .ofVec M] (Obj.ofVec <$> Model.vaddq_u16 N M) := by
  refine ⟨_, Source.vaddq_u16_parse, 1000, fun fuel hf => ?_⟩
  simp only [Source.vaddq_u16_ast, Model.vaddq_u16]
  cpp_simp
  cpp_loop (fun D => [(68, .vec .u16 8 D), (77, .vec .u16 8 (Arr.ofVec M)), (78, .vec .u16 8 (Arr.ofVec N))])
  · rintro i D h1 h2
    cpp_body
  · rintro D
    cpp_simp

/-- `neon_sim.cpp:1623-1631` -/
cpp_source Source.vaddq_u32 "uint32x4_t vaddq_u32(uint32x4_t N, uint32x4_t M)
{
    uint32x4_t D;
    for (size_t i = 0; i < 4; i++)
    {
        D.val[i] = N.val[i] + M.val[i];
    }
    return D;
}
"

theorem Props.vaddq_u32_source [Dialect] (N : uint32x4_t) (M : uint32x4_t) :
    Runs Source.vaddq_u32 [.ofVec N, .ofVec M] (Obj.ofVec <$> Model.vaddq_u32 N M) := by
  refine ⟨_, Source.vaddq_u32_parse, 1000, fun fuel hf => ?_⟩
  simp only [Source.vaddq_u32_ast, Model.vaddq_u32]
  cpp_simp
  cpp_loop (fun D => [(68, .vec .u32 4 D), (77, .vec .u32 4 (Arr.ofVec M)), (78, .vec .u32 4 (Arr.ofVec N))])
  · rintro i D h1 h2
    cpp_body
  · rintro D
    cpp_simp

/-- `neon_sim.cpp:1632-1640` -/
cpp_source Source.vaddq_f32 "float32x4_t vaddq_f32(float32x4_t a, float32x4_t b)
{
    float32x4_t r;
    for (int i = 0; i < 4; i++)
    {
        r.val[i] =  a.val[i] + b.val[i];
    }
    return r;
}
"

theorem Props.vaddq_f32_source [Dialect] (a : float32x4_t) (b : float32x4_t) :
    Runs Source.vaddq_f32 [.ofVec a, .ofVec b] (Obj.ofVec <$> Model.vaddq_f32 a b) := by
  refine ⟨_, Source.vaddq_f32_parse, 1000, fun fuel hf => ?_⟩
  simp only [Source.vaddq_f32_ast, Model.vaddq_f32]
  cpp_simp
  cpp_loop (fun r => [(114, .vec .f32 4 r), (98, .vec .f32 4 (Arr.ofVec b)), (97, .vec .f32 4 (Arr.ofVec a))])
  · rintro i r h1 h2
    cpp_body
  · rintro r
    cpp_simp

/-- `neon_sim.cpp:1642-1650` -/
cpp_source Source.vaddq_u64 "uint64x2_t vaddq_u64(uint64x2_t N, uint64x2_t M)
{
    uint64x2_t D;
    for (size_t i = 0; i < 2; i++)
    {
        D.val[i] = N.val[i] + M.val[i];
    }
    return D;
}
"

theorem Props.vaddq_u64_source [Dialect] (N : uint64x2_t) (M : uint64x2_t) :
    Runs Source.vaddq_u64 [.ofVec N, .ofVec M] (Obj.ofVec <$> Model.vaddq_u64 N M) := by
  refine ⟨_, Source.vaddq_u64_parse, 1000, fun fuel hf => ?_⟩
  simp only [Source.vaddq_u64_ast, Model.vaddq_u64]
  cpp_simp
  cpp_loop (fun D => [(68, .vec .u64 2 D), (77, .vec .u64 2 (Arr.ofVec M)), (78, .vec .u64 2 (Arr.ofVec N))])
  · rintro i D h1 h2
    cpp_body
  · rintro D
    cpp_simp

/-- `neon_sim.cpp:1652-1668` -/
cpp_source Source.vqadd_u8 "uint8x8_t vqadd_u8(uint8x8_t a, uint8x8_t b)
{
    uint8x8_t r;
    for (int i = 0; i < 8; i++)
    {
        uint16_t temp = (uint16_t)a.val[i] + (uint16_t)b.val[i];
        if (temp > UINT8_MAX)
        {
            r.val[i] =  UINT8_MAX;
        }
        else
        {
            r.val[i] =  temp;
        }
    }
    return r;
}
"

theorem Props.vqadd_u8_source [Dialect] (a : uint8x8_t) (b : uint8x8_t) :
    Runs Source.vqadd_u8 [.ofVec a, .ofVec b] (Obj.ofVec <$> Model.vqadd_u8 a b) := by
  refine ⟨_, Source.vqadd_u8_parse, 1000, fun fuel hf => ?_⟩
  simp only [Source.vqadd_u8_ast, Model.vqadd_u8]
  cpp_simp
  cpp_loop (fun r => [(114, .vec .u8 8 r), (98, .vec .u8 8 (Arr.ofVec b)), (97, .vec .u8 8 (Arr.ofVec a))])
  · rintro i r h1 h2
    cpp_body
  · rintro r
    cpp_simp

/-- `neon_sim.cpp:1672-1681` -/
cpp_source Source.vaddl_high_s8 "int16x8_t vaddl_high_s8(int8x16_t a, int8x16_t b)
{
    int16x8_t r;
    const int ofs = 16 / 2;
    for (int i = 0; i < 8; i++)
    {
        r.val[i] =  a.val[ofs + i] + b.val[ofs + i];
    }
    return r;
}
"

theorem Props.vaddl_high_s8_source [Dialect] (a : int8x16_t) (b : int8x16_t) :
    Runs Source.vaddl_high_s8 [.ofVec a, .ofVec b] (Obj.ofVec <$> Model.vaddl_high_s8 a b) := by
  refine ⟨_, Source.vaddl_high_s8_parse, 1000, fun fuel hf => ?_⟩
  simp only [Source.vaddl_high_s8_ast, Model.vaddl_high_s8]
  cpp_simp
  cpp_loop (fun r => [(7300723, .sc .s32 (some (vint (16 / 2)))), (114, .vec .s16 8 r), (98, .vec .s8 16 (Arr.ofVec b)), (97, .vec .s8 16 (Arr.ofVec a))])
  · rintro i r h1 h2
    cpp_body
  · rintro r
    cpp_simp

/-- `neon_sim.cpp:1683-1692` -/
cpp_source Source.vaddl_high_s16 "int32x4_t vaddl_high_s16(int16x8_t a, int16x8_t b)
{
    int32x4_t r;
    const int ofs = 8 / 2;
    for (int i = 0; i < 4; i++)
    {
        r.val[i] =  a.val[ofs + i] + b.val[ofs + i];
    }
    return r;
}
"

theorem Props.vaddl_high_s16_source [Dialect] (a : int16x8_t) (b : int16x8_t) :
    Runs Source.vaddl_high_s16 [.ofVec a, .ofVec b] (Obj.ofVec <$> Model.vaddl_high_s16 a b) := by
  refine ⟨_, Source.vaddl_high_s16_parse, 1000, fun fuel hf => ?_⟩
  simp only [Source.vaddl_high_s16_ast, Model.vaddl_high_s16]
  cpp_simp
  cpp_loop (fun r => [(7300723, .sc .s32 (some (vint (8 / 2)))), (114, .vec .s32 4 r), (98, .vec .s16 8 (Arr.ofVec b)), (97, .vec .s16 8 (Arr.ofVec a))])
  · rintro i r h1 h2
    cpp_body
  · rintro r
    cpp_simp

/-- `neon_sim.cpp:1694-1703` -/
cpp_source Source.vaddl_high_s32 "int64x2_t vaddl_high_s32(int32x4_t a, int32x4_t b)
{
    int64x2_t r;
    const int ofs = 4 / 2;
    for (int i = 0; i < 2; i++)
    {
        r.val[i] =  a.val[ofs + i] + b.val[ofs + i];
    }
    return r;
}
"

theorem Props.vaddl_high_s32_source [Dialect] (a : int32x4_t) (b : int32x4_t) :
    Runs Source.vaddl_high_s32 [.ofVec a, .ofVec b] (Obj.ofVec <$> Model.vaddl_high_s32 a b) := by
  refine ⟨_, Source.vaddl_high_s32_parse, 1000, fun fuel hf => ?_⟩
  simp only [Source.vaddl_high_s32_ast, Model.vaddl_high_s32]
  cpp_simp
  cpp_loop (fun r => [(7300723, .sc .s32 (some (vint (4 / 2)))), (114, .vec .s64 2 r), (98, .vec .s32 4 (Arr.ofVec b)), (97, .vec .s32 4 (Arr.ofVec a))])
  · rintro i r h1 h2
    cpp_body
  · rintro r
    cpp_simp

/-- `neon_sim.cpp:1705-1714` -/
cpp_source Source.vaddl_high_u8 "uint16x8_t vaddl_high_u8(uint8x16_t a, uint8x16_t b)
{
    uint16x8_t r;
    const int ofs = 16 / 2;
    for (int i = 0; i < 8; i++)
    {
        r.val[i] =  a.val[ofs + i] + b.val[ofs + i];
    }
    return r;
}
"

theorem Props.vaddl_high_u8_source [Dialect] (a : uint8x16_t) (b : uint8x16_t) :
    Runs Source.vaddl_high_u8 [.ofVec a, .ofVec b] (Obj.ofVec <$> Model.vaddl_high_u8 a b) := by
  refine ⟨_, Source.vaddl_high_u8_parse, 1000, fun fuel hf => ?_⟩
  simp only [Source.vaddl_high_u8_ast, Model.vaddl_high_u8]
  cpp_simp
  cpp_loop (fun r => [(7300723, .sc .s32 (some (vint (16 / 2)))), (114, .vec .u16 8 r), (98, .vec .u8 16 (Arr.ofVec b)), (97, .vec .u8 16 (Arr.ofVec a))])
  · rintro i r h1 h2
    cpp_body
  · rintro r
    cpp_simp

/-- `neon_sim.cpp:1716-1725` -/
cpp_source Source.vaddl_high_u16 "uint32x4_t vaddl_high_u16(uint16x8_t a, uint16x8_t b)
{
    uint32x4_t r;
    const int ofs = 8 / 2;
    for (int i = 0; i < 4; i++)
    {
        r.val[i] =  a.val[ofs + i] + b.val[ofs + i];
    }
    return r;
}
"

theorem Props.vaddl_high_u16_source [Dialect] (a : uint16x8_t) (b : uint16x8_t) :
    Runs Source.vaddl_high_u16 [.ofVec a, .ofVec b] (Obj.ofVec <$> Model.vaddl_high_u16 a b) := by
  refine ⟨_, Source.vaddl_high_u16_parse, 1000, fun fuel hf => ?_⟩
  simp only [Source.vaddl_high_u16_ast, Model.vaddl_high_u16]
  cpp_simp
  cpp_loop (fun r => [(7300723, .sc .s32 (some (vint (8 / 2)))), (114, .vec .u32 4 r), (98, .vec .u16 8 (Arr.ofVec b)), (97, .vec .u16 8 (Arr.ofVec a))])
  · rintro i r h1 h2
    cpp_body
  · rintro r
    cpp_simp

/-- `neon_sim.cpp:1727-1736` -/
cpp_source Source.vaddl_high_u32 "uint64x2_t vaddl_high_u32(uint32x4_t a, uint32x4_t b)
{
    uint64x2_t r;
    const int ofs = 4 / 2;
    for (int i = 0; i < 2; i++)
    {
        r.val[i] =  a.val[ofs + i] + b.val[ofs + i];
    }
    return r;
}
"

theorem Props.vaddl_high_u32_source [Dialect] (a : uint32x4_t) (b : uint32x4_t) :
    Runs Source.vaddl_high_u32 [.ofVec a, .ofVec b] (Obj.ofVec <$> Model.vaddl_high_u32 a b) := by
  refine ⟨_, Source.vaddl_high_u32_parse, 1000, fun fuel hf => ?_⟩
  simp only [Source.vaddl_high_u32_ast, Model.vaddl_high_u32]
  cpp_simp
  cpp_loop (fun r => [(7300723, .sc .s32 (some (vint (4 / 2)))), (114, .vec .u64 2 r), (98, .vec .u32 4 (Arr.ofVec b)), (97, .vec .u32 4 (Arr.ofVec a))])
  · rintro i r h1 h2
    cpp_body
  · rintro r
    cpp_simp

/-- `neon_sim.cpp:1740-1756` -/
cpp_source Source.vqaddq_u8 "uint8x16_t vqaddq_u8(uint8x16_t N, uint8x16_t M)
{
    uint8x16_t D;
    for (size_t i = 0; i < 16; i++)
    {
        uint16_t temp = (uint16_t)N.val[i] + (uint16_t)M.val[i];
        if (temp > UINT8_MAX)
        {
            D.val[i] = UINT8_MAX;
        }
        else
        {
            D.val[i] = temp;
        }
    }
    return D;
}
"

theorem Props.vqaddq_u8_source [Dialect] (N : uint8x16_t) (M : uint8x16_t) :
    Runs Source.vqaddq_u8 [.ofVec N, .ofVec M] (Obj.ofVec <$> Model.vqaddq_u8 N M) := by
  refine ⟨_, Source.vqaddq_u8_parse, 1000, fun fuel hf => ?_⟩
  simp only [Source.vqaddq_u8_ast, Model.vqaddq_u8]
  cpp_simp
  cpp_loop (fun D => [(68, .vec .u8 16 D), (77, .vec .u8 16 (Arr.ofVec M)), (78, .vec .u8 16 (Arr.ofVec N))])
  · rintro i D h1 h2
    cpp_body
  · rintro D
    cpp_simp

/-- `neon_sim.cpp:1758-1766` -/
cpp_source Source.vpaddl_u8 "uint16x4_t vpaddl_u8(uint8x8_t a)
{
    uint16x4_t r;
    for (int i = 0; i < 4; i++)
    {
        r.val[i] =  a.val[2 * i] + a.val[2 * i + 1];
    }
    return r;
}
"

theorem Props.vpaddl_u8_source [Dialect] (a : uint8x8_t) :
    Runs Source.vpaddl_u8 [.ofVec a] (Obj.ofVec <$> Model.vpaddl_u8 a) := by
  refine ⟨_, Source.vpaddl_u8_parse, 1000, fun fuel hf => ?_⟩
  simp only [Source.vpaddl_u8_ast, Model.vpaddl_u8]
  cpp_simp
  cpp_loop (fun r => [(114, .vec .u16 4 r), (97, .vec .u8 8 (Arr.ofVec a))])
  · rintro i r h1 h2
    cpp_body
  · rintro r
    cpp_simp

/-- `neon_sim.cpp:1768-1776` -/
cpp_source Source.vpaddlq_u8 "uint16x8_t vpaddlq_u8(uint8x16_t a)
{
    uint16x8_t r;
    for (int i = 0; i < 8; i++)
    {
        r.val[i] =  a.val[2 * i] + a.val[2 * i + 1];
    }
    return r;
}
"

theorem Props.vpaddlq_u8_source [Dialect] (a : uint8x16_t) :
    Runs Source.vpaddlq_u8 [.ofVec a] (Obj.ofVec <$> Model.vpaddlq_u8 a) := by
  refine ⟨_, Source.vpaddlq_u8_parse, 1000, fun fuel hf => ?_⟩
  simp only [Source.vpaddlq_u8_ast, Model.vpaddlq_u8]
  cpp_simp
  cpp_loop (fun r => [(114, .vec .u16 8 r), (97, .vec .u8 16 (Arr.ofVec a))])
  · rintro i r h1 h2
    cpp_body
  · rintro r
    cpp_simp

/-- `neon_sim.cpp:1778-1786` -/
cpp_source Source.vpaddlq_u16 "uint32x4_t vpaddlq_u16(uint16x8_t a)
{
    uint32x4_t r;
    for (int i = 0; i < 4; i++)
    {
        r.val[i] =  a.val[2 * i] + a.val[2 * i + 1];
    }
    return r;
}
"

theorem Props.vpaddlq_u16_source [Dialect] (a : uint16x8_t) :
    Runs Source.vpaddlq_u16 [.ofVec a] (Obj.ofVec <$> Model.vpaddlq_u16 a) := by
  refine ⟨_, Source.vpaddlq_u16_parse, 1000, fun fuel hf => ?_⟩
  simp only [Source.vpaddlq_u16_ast, Model.vpaddlq_u16]
  cpp_simp
  cpp_loop (fun r => [(114, .vec .u32 4 r), (97, .vec .u16 8 (Arr.ofVec a))])
  · rintro i r h1 h2
    cpp_body
  · rintro r
    cpp_simp

end Verif
