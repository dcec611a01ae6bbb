import Verif.Cpp.Command
import Verif.Model.Convert

/-! Source text of the functions in `Verif/Model/Convert.lean`, and the theorem that running it is running the model.
Generated by `tools/gen_source.py`. -/

set_option linter.unusedVariables false
set_option linter.unusedSimpArgs false
set_option maxHeartbeats 1000000

open Verif.Cpp

namespace Verif

/-- `neon_sim.cpp:4006-4011` -/
cpp_source Source.vreinterpret_u8_s8 "uint8x8_t vreinterpret_u8_s8(int8x8_t a)
{
    uint8x8_t r;
    memcpy(&r.val, &a.val, sizeof(uint8_t) * 8);
    return r;
}
"

theorem Props.vreinterpret_u8_s8_source [Dialect] (a : int8x8_t) :
    Runs Source.vreinterpret_u8_s8 [.ofVec a] (Obj.ofVec <$> Model.vreinterpret_u8_s8 a) := by
  refine ⟨_, Source.vreinterpret_u8_s8_parse, 1000, fun fuel hf => ?_⟩
  simp only [Source.vreinterpret_u8_s8_ast, Model.vreinterpret_u8_s8]
  cpp_simp

/-- `neon_sim.cpp:4013-4018` -/
cpp_source Source.vreinterpretq_s16_u16 "int16x8_t vreinterpretq_s16_u16(uint16x8_t a)
{
    int16x8_t r;
    memcpy(&r.val, &a.val, sizeof(int16_t) * 8);
    return r;
}
"

theorem Props.vreinterpretq_s16_u16_source [Dialect] (a : uint16x8_t) :
    Runs Source.vreinterpretq_s16_u16 [.ofVec a] (Obj.ofVec <$> Model.vreinterpretq_s16_u16 a) := by
  refine ⟨_, Source.vreinterpretq_s16_u16_parse, 1000, fun fuel hf => ?_⟩
  simp only [Source.vreinterpretq_s16_u16_ast, Model.vreinterpretq_s16_u16]
  cpp_simp

/-- `neon_sim.cpp:4020-4025` -/
cpp_source Source.vreinterpretq_u16_s16 "uint16x8_t vreinterpretq_u16_s16(int16x8_t a)
{
    uint16x8_t r;
    memcpy(&r.val, &a.val, sizeof(uint16_t) * 8);
    return r;
}
"

theorem Props.vreinterpretq_u16_s16_source [Dialect] (a : int16x8_t) :
    Runs Source.vreinterpretq_u16_s16 [.ofVec a] (Obj.ofVec <$> Model.vreinterpretq_u16_s16 a) := by
  refine ⟨_, Source.vreinterpretq_u16_s16_parse, 1000, fun fuel hf => ?_⟩
  simp only [Source.vreinterpretq_u16_s16_ast, Model.vreinterpretq_u16_s16]
  cpp_simp

/-- `neon_sim.cpp:4027-4032` -/
cpp_source Source.vreinterpret_u16_u8 "uint16x4_t vreinterpret_u16_u8(uint8x8_t a)
{
    uint16x4_t r;
    memcpy(&r.val, &a.val, sizeof(uint16_t) * 4);
    return r;
}
"

theorem Props.vreinterpret_u16_u8_source [Dialect] (a : uint8x8_t) :
    Runs Source.vreinterpret_u16_u8 [.ofVec a] (Obj.ofVec <$> Model.vreinterpret_u16_u8 a) := by
  refine ⟨_, Source.vreinterpret_u16_u8_parse, 1000, fun fuel hf => ?_⟩
  simp only [Source.vreinterpret_u16_u8_ast, Model.vreinterpret_u16_u8]
  cpp_simp

/-- `neon_sim.cpp:4034-4039` -/
cpp_source Source.vreinterpret_u32_u16 "uint32x2_t vreinterpret_u32_u16(uint16x4_t a)
{
    uint32x2_t r;
    memcpy(&r.val, &a.val, sizeof(uint32_t) * 2);
    return r;
}
"

theorem Props.vreinterpret_u32_u16_source [Dialect] (a : uint16x4_t) :
    Runs Source.vreinterpret_u32_u16 [.ofVec a] (Obj.ofVec <$> Model.vreinterpret_u32_u16 a) := by
  refine ⟨_, Source.vreinterpret_u32_u16_parse, 1000, fun fuel hf => ?_⟩
  simp only [Source.vreinterpret_u32_u16_ast, Model.vreinterpret_u32_u16]
  cpp_simp

/-- `neon_sim.cpp:4041-4046` -/
cpp_source Source.vreinterpret_u8_u32 "uint8x8_t vreinterpret_u8_u32(uint32x2_t a)
{
    uint8x8_t r;
    memcpy(&r.val, &a.val, sizeof(uint8_t) * 8);
    return r;
}
"

theorem Props.vreinterpret_u8_u32_source [Dialect] (a : uint32x2_t) :
    Runs Source.vreinterpret_u8_u32 [.ofVec a] (Obj.ofVec <$> Model.vreinterpret_u8_u32 a) := by
  refine ⟨_, Source.vreinterpret_u8_u32_parse, 1000, fun fuel hf => ?_⟩
  simp only [Source.vreinterpret_u8_u32_ast, Model.vreinterpret_u8_u32]
  cpp_simp

/-- `neon_sim.cpp:4048-4053` -/
cpp_source Source.vreinterpret_u32_u8 "uint32x2_t vreinterpret_u32_u8(uint8x8_t a)
{
    uint32x2_t r;
    memcpy(&r.val, &a.val, sizeof(uint32_t) * 2);
    return r;
}
"

theorem Props.vreinterpret_u32_u8_source [Dialect] (a : uint8x8_t) :
    Runs Source.vreinterpret_u32_u8 [.ofVec a] (Obj.ofVec <$> Model.vreinterpret_u32_u8 a) := by
  refine ⟨_, Source.vreinterpret_u32_u8_parse, 1000, fun fuel hf => ?_⟩
  simp only [Source.vreinterpret_u32_u8_ast, Model.vreinterpret_u32_u8]
  cpp_simp

/-- `neon_sim.cpp:4055-4060` -/
cpp_source Source.vreinterpret_s8_u8 "int8x8_t vreinterpret_s8_u8(uint8x8_t a)
{
    int8x8_t r;
    memcpy(&r.val, &a.val, sizeof(int8_t) * 8);
    return r;
}
"

theorem Props.vreinterpret_s8_u8_source [Dialect] (a : uint8x8_t) :
    Runs Source.vreinterpret_s8_u8 [.ofVec a] (Obj.ofVec <$> Model.vreinterpret_s8_u8 a) := by
  refine ⟨_, Source.vreinterpret_s8_u8_parse, 1000, fun fuel hf => ?_⟩
  simp only [Source.vreinterpret_s8_u8_ast, Model.vreinterpret_s8_u8]
  cpp_simp

/-- `neon_sim.cpp:4062-4067` -/
cpp_source Source.vreinterpret_s32_s16 "int32x2_t vreinterpret_s32_s16(int16x4_t a)
{
    int32x2_t r;
    memcpy(&r.val, &a.val, sizeof(int32_t) * 2);
    return r;
}
"

theorem Props.vreinterpret_s32_s16_source [Dialect] (a : int16x4_t) :
    Runs Source.vreinterpret_s32_s16 [.ofVec a] (Obj.ofVec <$> Model.vreinterpret_s32_s16 a) := by
  refine ⟨_, Source.vreinterpret_s32_s16_parse, 1000, fun fuel hf => ?_⟩
  simp only [Source.vreinterpret_s32_s16_ast, Model.vreinterpret_s32_s16]
  cpp_simp

/-- `neon_sim.cpp:4069-4074` -/
cpp_source Source.vreinterpret_s16_s32 "int16x4_t vreinterpret_s16_s32(int32x2_t a)
{
    int16x4_t r;
    memcpy(&r.val, &a.val, sizeof(int16_t) * 4);
    return r;
}
"

theorem Props.vreinterpret_s16_s32_source [Dialect] (a : int32x2_t) :
    Runs Source.vreinterpret_s16_s32 [.ofVec a] (Obj.ofVec <$> Model.vreinterpret_s16_s32 a) := by
  refine ⟨_, Source.vreinterpret_s16_s32_parse, 1000, fun fuel hf => ?_⟩
  simp only [Source.vreinterpret_s16_s32_ast, Model.vreinterpret_s16_s32]
  cpp_simp

/-- `neon_sim.cpp:4077-4082` -/
cpp_source Source.vreinterpretq_u8_s8 "uint8x16_t vreinterpretq_u8_s8(int8x16_t a)
{
    uint8x16_t r;
    memcpy(&r.val, &a.val, sizeof(uint8_t) * 16);
    return r;
}
"

theorem Props.vreinterpretq_u8_s8_source [Dialect] (a : int8x16_t) :
    Runs Source.vreinterpretq_u8_s8 [.ofVec a] (Obj.ofVec <$> Model.vreinterpretq_u8_s8 a) := by
  refine ⟨_, Source.vreinterpretq_u8_s8_parse, 1000, fun fuel hf => ?_⟩
  simp only [Source.vreinterpretq_u8_s8_ast, Model.vreinterpretq_u8_s8]
  cpp_simp

/-- `neon_sim.cpp:4084-4089` -/
cpp_source Source.vreinterpretq_u8_s16 "uint8x16_t vreinterpretq_u8_s16(int16x8_t a)
{
    uint8x16_t r;
    memcpy(&r.val, &a.val, sizeof(uint8_t) * 16);
    return r;
}
"

theorem Props.vreinterpretq_u8_s16_source [Dialect] (a : int16x8_t) :
    Runs Source.vreinterpretq_u8_s16 [.ofVec a] (Obj.ofVec <$> Model.vreinterpretq_u8_s16 a) := by
  refine ⟨_, Source.vreinterpretq_u8_s16_parse, 1000, fun fuel hf => ?_⟩
  simp only [Source.vreinterpretq_u8_s16_ast, Model.vreinterpretq_u8_s16]
  cpp_simp

/-- `neon_sim.cpp:4091-4096` -/
cpp_source Source.vreinterpretq_u8_s32 "uint8x16_t vreinterpretq_u8_s32(int32x4_t a)
{
    uint8x16_t r;
    memcpy(&r.val, &a.val, sizeof(uint8_t) * 16);
    return r;
}
"

theorem Props.vreinterpretq_u8_s32_source [Dialect] (a : int32x4_t) :
    Runs Source.vreinterpretq_u8_s32 [.ofVec a] (Obj.ofVec <$> Model.vreinterpretq_u8_s32 a) := by
  refine ⟨_, Source.vreinterpretq_u8_s32_parse, 1000, fun fuel hf => ?_⟩
  simp only [Source.vreinterpretq_u8_s32_ast, Model.vreinterpretq_u8_s32]
  cpp_simp

/-- `neon_sim.cpp:4098-4103` -/
cpp_source Source.vreinterpretq_u8_f32 "uint8x16_t vreinterpretq_u8_f32(float32x4_t a)
{
    uint8x16_t r;
    memcpy(&r.val, &a.val, sizeof(uint8_t) * 16);
    return r;
}
"

theorem Props.vreinterpretq_u8_f32_source [Dialect] (a : float32x4_t) :
    Runs Source.vreinterpretq_u8_f32 [.ofVec a] (Obj.ofVec <$> Model.vreinterpretq_u8_f32 a) := by
  refine ⟨_, Source.vreinterpretq_u8_f32_parse, 1000, fun fuel hf => ?_⟩
  simp only [Source.vreinterpretq_u8_f32_ast, Model.vreinterpretq_u8_f32]
  cpp_simp

/-- `neon_sim.cpp:4105-4110` -/
cpp_source Source.vreinterpretq_u8_u16 "uint8x16_t vreinterpretq_u8_u16(uint16x8_t a)
{
    uint8x16_t r;
    memcpy(&r.val, &a.val, sizeof(uint8_t) * 16);
    return r;
}
"

theorem Props.vreinterpretq_u8_u16_source [Dialect] (a : uint16x8_t) :
    Runs Source.vreinterpretq_u8_u16 [.ofVec a] (Obj.ofVec <$> Model.vreinterpretq_u8_u16 a) := by
  refine ⟨_, Source.vreinterpretq_u8_u16_parse, 1000, fun fuel hf => ?_⟩
  simp only [Source.vreinterpretq_u8_u16_ast, Model.vreinterpretq_u8_u16]
  cpp_simp

/-- `neon_sim.cpp:4112-4117` -/
cpp_source Source.vreinterpretq_u8_u32 "uint8x16_t vreinterpretq_u8_u32(uint32x4_t a)
{
    uint8x16_t r;
    memcpy(&r.val, &a.val, sizeof(uint8_t) * 16);
    return r;
}
"

theorem Props.vreinterpretq_u8_u32_source [Dialect] (a : uint32x4_t) :
    Runs Source.vreinterpretq_u8_u32 [.ofVec a] (Obj.ofVec <$> Model.vreinterpretq_u8_u32 a) := by
  refine ⟨_, Source.vreinterpretq_u8_u32_parse, 1000, fun fuel hf => ?_⟩
  simp only [Source.vreinterpretq_u8_u32_ast, Model.vreinterpretq_u8_u32]
  cpp_simp

/-- `neon_sim.cpp:4119-4124` -/
cpp_source Source.vreinterpretq_u8_u64 "uint8x16_t vreinterpretq_u8_u64(uint64x2_t a)
{
    uint8x16_t r;
    memcpy(&r.val, &a.val, sizeof(uint8_t) * 16);
    return r;
}
"

theorem Props.vreinterpretq_u8_u64_source [Dialect] (a : uint64x2_t) :
    Runs Source.vreinterpretq_u8_u64 [.ofVec a] (Obj.ofVec <$> Model.vreinterpretq_u8_u64 a) := by
  refine ⟨_, Source.vreinterpretq_u8_u64_parse, 1000, fun fuel hf => ?_⟩
  simp only [Source.vreinterpretq_u8_u64_ast, Model.vreinterpretq_u8_u64]
  cpp_simp

/-- `neon_sim.cpp:4126-4131` -/
cpp_source Source.vreinterpretq_u8_s64 "uint8x16_t vreinterpretq_u8_s64(int64x2_t a)
{
    uint8x16_t r;
    memcpy(&r.val, &a.val, sizeof(uint8_t) * 16);
    return r;
}
"

theorem Props.vreinterpretq_u8_s64_source [Dialect] (a : int64x2_t) :
    Runs Source.vreinterpretq_u8_s64 [.ofVec a] (Obj.ofVec <$> Model.vreinterpretq_u8_s64 a) := by
  refine ⟨_, Source.vreinterpretq_u8_s64_parse, 1000, fun fuel hf => ?_⟩
  simp only [Source.vreinterpretq_u8_s64_ast, Model.vreinterpretq_u8_s64]
  cpp_simp

/-- `neon_sim.cpp:4140-4145` -/
cpp_source Source.vreinterpretq_u8_f64 "uint8x16_t vreinterpretq_u8_f64(float64x2_t a)
{
    uint8x16_t r;
    memcpy(&r.val, &a.val, sizeof(uint8_t) * 16);
    return r;
}
"

theorem Props.vreinterpretq_u8_f64_source [Dialect] (a : float64x2_t) :
    Runs Source.vreinterpretq_u8_f64 [.ofVec a] (Obj.ofVec <$> Model.vreinterpretq_u8_f64 a) := by
  refine ⟨_, Source.vreinterpretq_u8_f64_parse, 1000, fun fuel hf => ?_⟩
  simp only [Source.vreinterpretq_u8_f64_ast, Model.vreinterpretq_u8_f64]
  cpp_simp

/-- `neon_sim.cpp:4148-4153` -/
cpp_source Source.vreinterpretq_u32_s8 "uint32x4_t vreinterpretq_u32_s8(int8x16_t a)
{
    uint32x4_t r;
    memcpy(&r.val, &a.val, sizeof(uint32_t) * 4);
    return r;
}
"

theorem Props.vreinterpretq_u32_s8_source [Dialect] (a : int8x16_t) :
    Runs Source.vreinterpretq_u32_s8 [.ofVec a] (Obj.ofVec <$> Model.vreinterpretq_u32_s8 a) := by
  refine ⟨_, Source.vreinterpretq_u32_s8_parse, 1000, fun fuel hf => ?_⟩
  simp only [Source.vreinterpretq_u32_s8_ast, Model.vreinterpretq_u32_s8]
  cpp_simp

/-- `neon_sim.cpp:4155-4160` -/
cpp_source Source.vreinterpretq_u32_s16 "uint32x4_t vreinterpretq_u32_s16(int16x8_t a)
{
    uint32x4_t r;
    memcpy(&r.val, &a.val, sizeof(uint32_t) * 4);
    return r;
}
"

theorem Props.vreinterpretq_u32_s16_source [Dialect] (a : int16x8_t) :
    Runs Source.vreinterpretq_u32_s16 [.ofVec a] (Obj.ofVec <$> Model.vreinterpretq_u32_s16 a) := by
  refine ⟨_, Source.vreinterpretq_u32_s16_parse, 1000, fun fuel hf => ?_⟩
  simp only [Source.vreinterpretq_u32_s16_ast, Model.vreinterpretq_u32_s16]
  cpp_simp

/-- `neon_sim.cpp:4162-4167` -/
cpp_source Source.vreinterpretq_u32_s32 "uint32x4_t vreinterpretq_u32_s32(int32x4_t a)
{
    uint32x4_t r;
    memcpy(&r.val, &a.val, sizeof(uint32_t) * 4);
    return r;
}
"

theorem Props.vreinterpretq_u32_s32_source [Dialect] (a : int32x4_t) :
    Runs Source.vreinterpretq_u32_s32 [.ofVec a] (Obj.ofVec <$> Model.vreinterpretq_u32_s32 a) := by
  refine ⟨_, Source.vreinterpretq_u32_s32_parse, 1000, fun fuel hf => ?_⟩
  simp only [Source.vreinterpretq_u32_s32_ast, Model.vreinterpretq_u32_s32]
  cpp_simp

/-- `neon_sim.cpp:4169-4174` -/
cpp_source Source.vreinterpretq_u32_f32 "uint32x4_t vreinterpretq_u32_f32(float32x4_t a)
{
    uint32x4_t r;
    memcpy(&r.val, &a.val, sizeof(uint32_t) * 4);
    return r;
}
"

theorem Props.vreinterpretq_u32_f32_source [Dialect] (a : float32x4_t) :
    Runs Source.vreinterpretq_u32_f32 [.ofVec a] (Obj.ofVec <$> Model.vreinterpretq_u32_f32 a) := by
  refine ⟨_, Source.vreinterpretq_u32_f32_parse, 1000, fun fuel hf => ?_⟩
  simp only [Source.vreinterpretq_u32_f32_ast, Model.vreinterpretq_u32_f32]
  cpp_simp

/-- `neon_sim.cpp:4176-4181` -/
cpp_source Source.vreinterpretq_u32_u8 "uint32x4_t vreinterpretq_u32_u8(uint8x16_t a)
{
    uint32x4_t r;
    memcpy(&r.val, &a.val, sizeof(uint32_t) * 4);
    return r;
}
"

theorem Props.vreinterpretq_u32_u8_source [Dialect] (a : uint8x16_t) :
    Runs Source.vreinterpretq_u32_u8 [.ofVec a] (Obj.ofVec <$> Model.vreinterpretq_u32_u8 a) := by
  refine ⟨_, Source.vreinterpretq_u32_u8_parse, 1000, fun fuel hf => ?_⟩
  simp only [Source.vreinterpretq_u32_u8_ast, Model.vreinterpretq_u32_u8]
  cpp_simp

/-- `neon_sim.cpp:4183-4188` -/
cpp_source Source.vreinterpretq_u32_u16 "uint32x4_t vreinterpretq_u32_u16(uint16x8_t a)
{
    uint32x4_t r;
    memcpy(&r.val, &a.val, sizeof(uint32_t) * 4);
    return r;
}
"

theorem Props.vreinterpretq_u32_u16_source [Dialect] (a : uint16x8_t) :
    Runs Source.vreinterpretq_u32_u16 [.ofVec a] (Obj.ofVec <$> Model.vreinterpretq_u32_u16 a) := by
  refine ⟨_, Source.vreinterpretq_u32_u16_parse, 1000, fun fuel hf => ?_⟩
  simp only [Source.vreinterpretq_u32_u16_ast, Model.vreinterpretq_u32_u16]
  cpp_simp

/-- `neon_sim.cpp:4190-4195` -/
cpp_source Source.vreinterpretq_u32_u64 "uint32x4_t vreinterpretq_u32_u64(uint64x2_t a)
{
    uint32x4_t r;
    memcpy(&r.val, &a.val, sizeof(uint32_t) * 4);
    return r;
}
"

theorem Props.vreinterpretq_u32_u64_source [Dialect] (a : uint64x2_t) :
    Runs Source.vreinterpretq_u32_u64 [.ofVec a] (Obj.ofVec <$> Model.vreinterpretq_u32_u64 a) := by
  refine ⟨_, Source.vreinterpretq_u32_u64_parse, 1000, fun fuel hf => ?_⟩
  simp only [Source.vreinterpretq_u32_u64_ast, Model.vreinterpretq_u32_u64]
  cpp_simp

/-- `neon_sim.cpp:4197-4202` -/
cpp_source Source.vreinterpretq_u32_s64 "uint32x4_t vreinterpretq_u32_s64(int64x2_t a)
{
    uint32x4_t r;
    memcpy(&r.val, &a.val, sizeof(uint32_t) * 4);
    return r;
}
"

theorem Props.vreinterpretq_u32_s64_source [Dialect] (a : int64x2_t) :
    Runs Source.vreinterpretq_u32_s64 [.ofVec a] (Obj.ofVec <$> Model.vreinterpretq_u32_s64 a) := by
  refine ⟨_, Source.vreinterpretq_u32_s64_parse, 1000, fun fuel hf => ?_⟩
  simp only [Source.vreinterpretq_u32_s64_ast, Model.vreinterpretq_u32_s64]
  cpp_simp

/-- `neon_sim.cpp:4211-4216` -/
cpp_source Source.vreinterpretq_u32_f64 "uint32x4_t vreinterpretq_u32_f64(float64x2_t a)
{
    uint32x4_t r;
    memcpy(&r.val, &a.val, sizeof(uint32_t) * 4);
    return r;
}
"

theorem Props.vreinterpretq_u32_f64_source [Dialect] (a : float64x2_t) :
    Runs Source.vreinterpretq_u32_f64 [.ofVec a] (Obj.ofVec <$> Model.vreinterpretq_u32_f64 a) := by
  refine ⟨_, Source.vreinterpretq_u32_f64_parse, 1000, fun fuel hf => ?_⟩
  simp only [Source.vreinterpretq_u32_f64_ast, Model.vreinterpretq_u32_f64]
  cpp_simp

/-- `neon_sim.cpp:4218-4226` -/
cpp_source Source.vcvtq_f32_s32 "float32x4_t vcvtq_f32_s32(int32x4_t a)
{
    float32x4_t r;
    for (int i = 0; i < 4; i++)
    {
        r.val[i] =  a.val[i];
    }
    return r;
}
"

theorem Props.vcvtq_f32_s32_source [Dialect] (a : int32x4_t) :
    Runs Source.vcvtq_f32_s32 [.ofVec a] (Obj.ofVec <$> Model.vcvtq_f32_s32 a) := by
  refine ⟨_, Source.vcvtq_f32_s32_parse, 1000, fun fuel hf => ?_⟩
  simp only [Source.vcvtq_f32_s32_ast, Model.vcvtq_f32_s32]
  cpp_simp
  cpp_loop (fun r => [(114, .vec .f32 4 r), (97, .vec .s32 4 (Arr.ofVec a))])
  · rintro i r h1 h2
    cpp_body
  · rintro r
    cpp_simp

/-- `neon_sim.cpp:4228-4236` -/
cpp_source Source.vcvtq_s32_f32 "int32x4_t vcvtq_s32_f32(float32x4_t a)
{
    int32x4_t r;
    for (int i = 0; i < 4; i++)
    {
        r.val[i] =  a.val[i];
    }
    return r;
}
"

theorem Props.vcvtq_s32_f32_source [Dialect] (a : float32x4_t) :
    Runs Source.vcvtq_s32_f32 [.ofVec a] (Obj.ofVec <$> Model.vcvtq_s32_f32 a) := by
  refine ⟨_, Source.vcvtq_s32_f32_parse, 1000, fun fuel hf => ?_⟩
  simp only [Source.vcvtq_s32_f32_ast, Model.vcvtq_s32_f32]
  cpp_simp
  cpp_loop (fun r => [(114, .vec .s32 4 r), (97, .vec .f32 4 (Arr.ofVec a))])
  · rintro i r h1 h2
    cpp_body
  · rintro r
    cpp_simp

/-- `neon_sim.cpp:4238-4246` -/
cpp_source Source.vcvtq_u32_f32 "uint32x4_t vcvtq_u32_f32(float32x4_t a)
{
    uint32x4_t r;
    for (int i = 0; i < 4; i++)
    {
        r.val[i] =  a.val[i];
    }
    return r;
}
"

theorem Props.vcvtq_u32_f32_source [Dialect] (a : float32x4_t) :
    Runs Source.vcvtq_u32_f32 [.ofVec a] (Obj.ofVec <$> Model.vcvtq_u32_f32 a) := by
  refine ⟨_, Source.vcvtq_u32_f32_parse, 1000, fun fuel hf => ?_⟩
  simp only [Source.vcvtq_u32_f32_ast, Model.vcvtq_u32_f32]
  cpp_simp
  cpp_loop (fun r => [(114, .vec .u32 4 r), (97, .vec .f32 4 (Arr.ofVec a))])
  · rintro i r h1 h2
    cpp_body
  · rintro r
    cpp_simp

/-- `neon_sim.cpp:4248-4256` -/
cpp_source Source.vcvtnq_s32_f32 "int32x4_t vcvtnq_s32_f32(float32x4_t a)
{
    int32x4_t r;
    for (int i = 0; i < 4; i++)
    {
        r.val[i] =  a.val[i];
    }
    return r;
}
"

theorem Props.vcvtnq_s32_f32_source [Dialect] (a : float32x4_t) :
    Runs Source.vcvtnq_s32_f32 [.ofVec a] (Obj.ofVec <$> Model.vcvtnq_s32_f32 a) := by
  refine ⟨_, Source.vcvtnq_s32_f32_parse, 1000, fun fuel hf => ?_⟩
  simp only [Source.vcvtnq_s32_f32_ast, Model.vcvtnq_s32_f32]
  cpp_simp
  cpp_loop (fun r => [(114, .vec .s32 4 r), (97, .vec .f32 4 (Arr.ofVec a))])
  · rintro i r h1 h2
    cpp_body
  · rintro r
    cpp_simp

end Verif
