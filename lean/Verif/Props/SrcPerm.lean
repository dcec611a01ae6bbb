import Verif.Cpp.Command
import Verif.Model.Perm

/-! Source text of the functions in `Verif/Model/Perm.lean`, and the theorem that running it is running the model.
Generated by `tools/gen_source.py`. -/

set_option linter.unusedVariables false
set_option linter.unusedSimpArgs false
set_option maxHeartbeats 1000000

open Verif.Cpp

namespace Verif

/-- `neon_sim.cpp:4344-4352` -/
cpp_source Source.vrecpsq_f32 "float32x4_t vrecpsq_f32(float32x4_t a, float32x4_t b)
{
    float32x4_t r;
    for (int i = 0; i < 4; i++)
    {
        r.val[i] =  2.0 - (a.val[i] * b.val[i]);
    }
    return r;
}
"

theorem Props.vrecpsq_f32_source [Dialect] (a : float32x4_t) (b : float32x4_t) :
    Runs Source.vrecpsq_f32 [.ofVec a, .ofVec b] (Obj.ofVec <$> Model.vrecpsq_f32 a b) := by
  refine ⟨_, Source.vrecpsq_f32_parse, 1000, fun fuel hf => ?_⟩
  simp only [Source.vrecpsq_f32_ast, Model.vrecpsq_f32]
  cpp_simp
  cpp_loop (fun r => [(114, .vec .f32 4 r), (98, .vec .f32 4 (Arr.ofVec b)), (97, .vec .f32 4 (Arr.ofVec a))])
  · rintro i r h1 h2
    cpp_body
  · rintro r
    cpp_simp

/-- `neon_sim.cpp:4355-4369` -/
cpp_source Source.vtrn_s8 "int8x8x2_t vtrn_s8(int8x8_t a, int8x8_t b)
{
    int8x8x2_t r;
    for (int i = 0; i < 4; i++)
    {
        r.val[0].val[2 * i] = a.val[2 * i];
        r.val[0].val[2 * i + 1] = b.val[2 * i];
    }
    for (int i = 0; i < 4; i++)
    {
        r.val[1].val[2 * i] = a.val[2 * i + 1];
        r.val[1].val[2 * i + 1] = b.val[2 * i + 1];
    }
    return r;
}
"

theorem Props.vtrn_s8_source [Dialect] (a : int8x8_t) (b : int8x8_t) :
    Runs Source.vtrn_s8 [.ofVec a, .ofVec b] (Obj.ofVecArr <$> Model.vtrn_s8 a b) := by
  refine ⟨_, Source.vtrn_s8_parse, 1000, fun fuel hf => ?_⟩
  simp only [Source.vtrn_s8_ast, Model.vtrn_s8]
  cpp_simp
  cpp_loop (fun r => [(114, .arr .s8 8 2 r), (98, .vec .s8 8 (Arr.ofVec b)), (97, .vec .s8 8 (Arr.ofVec a))])
  · rintro i r h1 h2
    cpp_body
  · rintro r
    cpp_simp
    cpp_loop (fun r => [(114, .arr .s8 8 2 r), (98, .vec .s8 8 (Arr.ofVec b)), (97, .vec .s8 8 (Arr.ofVec a))])
    · rintro i r h1 h2
      cpp_body
    · rintro r
      cpp_simp

/-- `neon_sim.cpp:4371-4385` -/
cpp_source Source.vtrn_u8 "uint8x8x2_t vtrn_u8(uint8x8_t a, uint8x8_t b)
{
    uint8x8x2_t r;
    for (int i = 0; i < 4; i++)
    {
        r.val[0].val[2 * i] = a.val[2 * i];
        r.val[0].val[2 * i + 1] = b.val[2 * i];
    }
    for (int i = 0; i < 4; i++)
    {
        r.val[1].val[2 * i] = a.val[2 * i + 1];
        r.val[1].val[2 * i + 1] = b.val[2 * i + 1];
    }
    return r;
}
"

theorem Props.vtrn_u8_source [Dialect] (a : uint8x8_t) (b : uint8x8_t) :
    Runs Source.vtrn_u8 [.ofVec a, .ofVec b] (Obj.ofVecArr <$> Model.vtrn_u8 a b) := by
  refine ⟨_, Source.vtrn_u8_parse, 1000, fun fuel hf => ?_⟩
  simp only [Source.vtrn_u8_ast, Model.vtrn_u8]
  cpp_simp
  cpp_loop (fun r => [(114, .arr .u8 8 2 r), (98, .vec .u8 8 (Arr.ofVec b)), (97, .vec .u8 8 (Arr.ofVec a))])
  · rintro i r h1 h2
    cpp_body
  · rintro r
    cpp_simp
    cpp_loop (fun r => [(114, .arr .u8 8 2 r), (98, .vec .u8 8 (Arr.ofVec b)), (97, .vec .u8 8 (Arr.ofVec a))])
    · rintro i r h1 h2
      cpp_body
    · rintro r
      cpp_simp

/-- `neon_sim.cpp:4387-4401` -/
cpp_source Source.vtrn_s16 "int16x4x2_t vtrn_s16(int16x4_t a, int16x4_t b)
{
    int16x4x2_t r;
    for (int i = 0; i < 2; i++)
    {
        r.val[0].val[2 * i] = a.val[2 * i];
        r.val[0].val[2 * i + 1] = b.val[2 * i];
    }
    for (int i = 0; i < 2; i++)
    {
        r.val[1].val[2 * i] = a.val[2 * i + 1];
        r.val[1].val[2 * i + 1] = b.val[2 * i + 1];
    }
    return r;
}
"

theorem Props.vtrn_s16_source [Dialect] (a : int16x4_t) (b : int16x4_t) :
    Runs Source.vtrn_s16 [.ofVec a, .ofVec b] (Obj.ofVecArr <$> Model.vtrn_s16 a b) := by
  refine ⟨_, Source.vtrn_s16_parse, 1000, fun fuel hf => ?_⟩
  simp only [Source.vtrn_s16_ast, Model.vtrn_s16]
  cpp_simp
  cpp_loop (fun r => [(114, .arr .s16 4 2 r), (98, .vec .s16 4 (Arr.ofVec b)), (97, .vec .s16 4 (Arr.ofVec a))])
  · rintro i r h1 h2
    cpp_body
  · rintro r
    cpp_simp
    cpp_loop (fun r => [(114, .arr .s16 4 2 r), (98, .vec .s16 4 (Arr.ofVec b)), (97, .vec .s16 4 (Arr.ofVec a))])
    · rintro i r h1 h2
      cpp_body
    · rintro r
      cpp_simp

/-- `neon_sim.cpp:4403-4417` -/
cpp_source Source.vtrn_u16 "uint16x4x2_t vtrn_u16(uint16x4_t a, uint16x4_t b)
{
    uint16x4x2_t r;
    for (int i = 0; i < 2; i++)
    {
        r.val[0].val[2 * i] = a.val[2 * i];
        r.val[0].val[2 * i + 1] = b.val[2 * i];
    }
    for (int i = 0; i < 2; i++)
    {
        r.val[1].val[2 * i] = a.val[2 * i + 1];
        r.val[1].val[2 * i + 1] = b.val[2 * i + 1];
    }
    return r;
}
"

theorem Props.vtrn_u16_source [Dialect] (a : uint16x4_t) (b : uint16x4_t) :
    Runs Source.vtrn_u16 [.ofVec a, .ofVec b] (Obj.ofVecArr <$> Model.vtrn_u16 a b) := by
  refine ⟨_, Source.vtrn_u16_parse, 1000, fun fuel hf => ?_⟩
  simp only [Source.vtrn_u16_ast, Model.vtrn_u16]
  cpp_simp
  cpp_loop (fun r => [(114, .arr .u16 4 2 r), (98, .vec .u16 4 (Arr.ofVec b)), (97, .vec .u16 4 (Arr.ofVec a))])
  · rintro i r h1 h2
    cpp_body
  · rintro r
    cpp_simp
    cpp_loop (fun r => [(114, .arr .u16 4 2 r), (98, .vec .u16 4 (Arr.ofVec b)), (97, .vec .u16 4 (Arr.ofVec a))])
    · rintro i r h1 h2
      cpp_body
    · rintro r
      cpp_simp

/-- `neon_sim.cpp:4419-4433` -/
cpp_source Source.vtrn_s32 "int32x2x2_t vtrn_s32(int32x2_t a, int32x2_t b)
{
    int32x2x2_t r;
    for (int i = 0; i < 1; i++)
    {
        r.val[0].val[2 * i] = a.val[2 * i];
        r.val[0].val[2 * i + 1] = b.val[2 * i];
    }
    for (int i = 0; i < 1; i++)
    {
        r.val[1].val[2 * i] = a.val[2 * i + 1];
        r.val[1].val[2 * i + 1] = b.val[2 * i + 1];
    }
    return r;
}
"

theorem Props.vtrn_s32_source [Dialect] (a : int32x2_t) (b : int32x2_t) :
    Runs Source.vtrn_s32 [.ofVec a, .ofVec b] (Obj.ofVecArr <$> Model.vtrn_s32 a b) := by
  refine ⟨_, Source.vtrn_s32_parse, 1000, fun fuel hf => ?_⟩
  simp only [Source.vtrn_s32_ast, Model.vtrn_s32]
  cpp_simp
  cpp_loop (fun r => [(114, .arr .s32 2 2 r), (98, .vec .s32 2 (Arr.ofVec b)), (97, .vec .s32 2 (Arr.ofVec a))])
  · rintro i r h1 h2
    cpp_body
  · rintro r
    cpp_simp
    cpp_loop (fun r => [(114, .arr .s32 2 2 r), (98, .vec .s32 2 (Arr.ofVec b)), (97, .vec .s32 2 (Arr.ofVec a))])
    · rintro i r h1 h2
      cpp_body
    · rintro r
      cpp_simp

/-- `neon_sim.cpp:4435-4449` -/
cpp_source Source.vtrn_u32 "uint32x2x2_t vtrn_u32(uint32x2_t a, uint32x2_t b)
{
    uint32x2x2_t r;
    for (int i = 0; i < 1; i++)
    {
        r.val[0].val[2 * i] = a.val[2 * i];
        r.val[0].val[2 * i + 1] = b.val[2 * i];
    }
    for (int i = 0; i < 1; i++)
    {
        r.val[1].val[2 * i] = a.val[2 * i + 1];
        r.val[1].val[2 * i + 1] = b.val[2 * i + 1];
    }
    return r;
}
"

theorem Props.vtrn_u32_source [Dialect] (a : uint32x2_t) (b : uint32x2_t) :
    Runs Source.vtrn_u32 [.ofVec a, .ofVec b] (Obj.ofVecArr <$> Model.vtrn_u32 a b) := by
  refine ⟨_, Source.vtrn_u32_parse, 1000, fun fuel hf => ?_⟩
  simp only [Source.vtrn_u32_ast, Model.vtrn_u32]
  cpp_simp
  cpp_loop (fun r => [(114, .arr .u32 2 2 r), (98, .vec .u32 2 (Arr.ofVec b)), (97, .vec .u32 2 (Arr.ofVec a))])
  · rintro i r h1 h2
    cpp_body
  · rintro r
    cpp_simp
    cpp_loop (fun r => [(114, .arr .u32 2 2 r), (98, .vec .u32 2 (Arr.ofVec b)), (97, .vec .u32 2 (Arr.ofVec a))])
    · rintro i r h1 h2
      cpp_body
    · rintro r
      cpp_simp

/-- `neon_sim.cpp:4452-4466` -/
cpp_source Source.vtrnq_u16 "uint16x8x2_t vtrnq_u16(uint16x8_t a, uint16x8_t b)
{
    uint16x8x2_t r;
    for (int i = 0; i < 4; i++)
    {
        r.val[0].val[2 * i] = a.val[2 * i];
        r.val[0].val[2 * i + 1] = b.val[2 * i];
    }
    for (int i = 0; i < 4; i++)
    {
        r.val[1].val[2 * i] = a.val[2 * i + 1];
        r.val[1].val[2 * i + 1] = b.val[2 * i + 1];
    }
    return r;
}
"

theorem Props.vtrnq_u16_source [Dialect] (a : uint16x8_t) (b : uint16x8_t) :
    Runs Source.vtrnq_u16 [.ofVec a, .ofVec b] (Obj.ofVecArr <$> Model.vtrnq_u16 a b) := by
  refine ⟨_, Source.vtrnq_u16_parse, 1000, fun fuel hf => ?_⟩
  simp only [Source.vtrnq_u16_ast, Model.vtrnq_u16]
  cpp_simp
  cpp_loop (fun r => [(114, .arr .u16 8 2 r), (98, .vec .u16 8 (Arr.ofVec b)), (97, .vec .u16 8 (Arr.ofVec a))])
  · rintro i r h1 h2
    cpp_body
  · rintro r
    cpp_simp
    cpp_loop (fun r => [(114, .arr .u16 8 2 r), (98, .vec .u16 8 (Arr.ofVec b)), (97, .vec .u16 8 (Arr.ofVec a))])
    · rintro i r h1 h2
      cpp_body
    · rintro r
      cpp_simp

/-- `neon_sim.cpp:4468-4482` -/
cpp_source Source.vtrnq_u32 "uint32x4x2_t vtrnq_u32(uint32x4_t a, uint32x4_t b)
{
    uint32x4x2_t r;
    for (int i = 0; i < 2; i++)
    {
        r.val[0].val[2 * i] = a.val[2 * i];
        r.val[0].val[2 * i + 1] = b.val[2 * i];
    }
    for (int i = 0; i < 2; i++)
    {
        r.val[1].val[2 * i] = a.val[2 * i + 1];
        r.val[1].val[2 * i + 1] = b.val[2 * i + 1];
    }
    return r;
}
"

theorem Props.vtrnq_u32_source [Dialect] (a : uint32x4_t) (b : uint32x4_t) :
    Runs Source.vtrnq_u32 [.ofVec a, .ofVec b] (Obj.ofVecArr <$> Model.vtrnq_u32 a b) := by
  refine ⟨_, Source.vtrnq_u32_parse, 1000, fun fuel hf => ?_⟩
  simp only [Source.vtrnq_u32_ast, Model.vtrnq_u32]
  cpp_simp
  cpp_loop (fun r => [(114, .arr .u32 4 2 r), (98, .vec .u32 4 (Arr.ofVec b)), (97, .vec .u32 4 (Arr.ofVec a))])
  · rintro i r h1 h2
    cpp_body
  · rintro r
    cpp_simp
    cpp_loop (fun r => [(114, .arr .u32 4 2 r), (98, .vec .u32 4 (Arr.ofVec b)), (97, .vec .u32 4 (Arr.ofVec a))])
    · rintro i r h1 h2
      cpp_body
    · rintro r
      cpp_simp

/-- `neon_sim.cpp:4484-4498` -/
cpp_source Source.vtrnq_s16 "int16x8x2_t vtrnq_s16(int16x8_t a, int16x8_t b)
{
    int16x8x2_t r;
    for (int i = 0; i < 4; i++)
    {
        r.val[0].val[2 * i] = a.val[2 * i];
        r.val[0].val[2 * i + 1] = b.val[2 * i];
    }
    for (int i = 0; i < 4; i++)
    {
        r.val[1].val[2 * i] = a.val[2 * i + 1];
        r.val[1].val[2 * i + 1] = b.val[2 * i + 1];
    }
    return r;
}
"

theorem Props.vtrnq_s16_source [Dialect] (a : int16x8_t) (b : int16x8_t) :
    Runs Source.vtrnq_s16 [.ofVec a, .ofVec b] (Obj.ofVecArr <$> Model.vtrnq_s16 a b) := by
  refine ⟨_, Source.vtrnq_s16_parse, 1000, fun fuel hf => ?_⟩
  simp only [Source.vtrnq_s16_ast, Model.vtrnq_s16]
  cpp_simp
  cpp_loop (fun r => [(114, .arr .s16 8 2 r), (98, .vec .s16 8 (Arr.ofVec b)), (97, .vec .s16 8 (Arr.ofVec a))])
  · rintro i r h1 h2
    cpp_body
  · rintro r
    cpp_simp
    cpp_loop (fun r => [(114, .arr .s16 8 2 r), (98, .vec .s16 8 (Arr.ofVec b)), (97, .vec .s16 8 (Arr.ofVec a))])
    · rintro i r h1 h2
      cpp_body
    · rintro r
      cpp_simp

/-- `neon_sim.cpp:4501-4516` -/
cpp_source Source.vzip_s16 "int16x4x2_t vzip_s16(int16x4_t a, int16x4_t b)
{
    int16x4x2_t r;
    const int n = 2;
    for (int i = 0; i < n; i++)
    {
        r.val[0].val[2 * i] = a.val[i];
        r.val[0].val[2 * i + 1] = b.val[i];
    }
    for (int i = 0; i < n; i++)
    {
        r.val[1].val[2 * i] = a.val[n + i];
        r.val[1].val[2 * i + 1] = b.val[n + i];
    }
    return r;
}
"

theorem Props.vzip_s16_source [Dialect] (a : int16x4_t) (b : int16x4_t) :
    Runs Source.vzip_s16 [.ofVec a, .ofVec b] (Obj.ofVecArr <$> Model.vzip_s16 a b) := by
  refine ⟨_, Source.vzip_s16_parse, 1000, fun fuel hf => ?_⟩
  simp only [Source.vzip_s16_ast, Model.vzip_s16]
  cpp_simp
  cpp_loop (fun r => [(110, .sc .s32 (some (vint (2)))), (114, .arr .s16 4 2 r), (98, .vec .s16 4 (Arr.ofVec b)), (97, .vec .s16 4 (Arr.ofVec a))])
  · rintro i r h1 h2
    cpp_body
  · rintro r
    cpp_simp
    cpp_loop (fun r => [(110, .sc .s32 (some (vint (2)))), (114, .arr .s16 4 2 r), (98, .vec .s16 4 (Arr.ofVec b)), (97, .vec .s16 4 (Arr.ofVec a))])
    · rintro i r h1 h2
      cpp_body
    · rintro r
      cpp_simp

/-- `neon_sim.cpp:4519-4532` -/
cpp_source Source.vcombine_u8 "uint8x16_t vcombine_u8(uint8x8_t low, uint8x8_t high)
{
    uint8x16_t r;
    const int n = 8;
    for (int i = 0; i < n; i++)
    {
        r.val[i] =  low.val[i];
    }
    for (int i = 0; i < n; i++)
    {
        r.val[n + i] = high.val[i];;
    }
    return r;
}
"

theorem Props.vcombine_u8_source [Dialect] (low : uint8x8_t) (high : uint8x8_t) :
    Runs Source.vcombine_u8 [.ofVec low, .ofVec high] (Obj.ofVec <$> Model.vcombine_u8 low high) := by
  refine ⟨_, Source.vcombine_u8_parse, 1000, fun fuel hf => ?_⟩
  simp only [Source.vcombine_u8_ast, Model.vcombine_u8]
  cpp_simp
  cpp_loop (fun r => [(110, .sc .s32 (some (vint (8)))), (114, .vec .u8 16 r), (1751738216, .vec .u8 8 (Arr.ofVec high)), (7106423, .vec .u8 8 (Arr.ofVec low))])
  · rintro i r h1 h2
    cpp_body
  · rintro r
    cpp_simp
    cpp_loop (fun r => [(110, .sc .s32 (some (vint (8)))), (114, .vec .u8 16 r), (1751738216, .vec .u8 8 (Arr.ofVec high)), (7106423, .vec .u8 8 (Arr.ofVec low))])
    · rintro i r h1 h2
      cpp_body
    · rintro r
      cpp_simp

/-- `neon_sim.cpp:4533-4546` -/
cpp_source Source.vcombine_u16 "uint16x8_t vcombine_u16(uint16x4_t low, uint16x4_t high)
{
    uint16x8_t r;
    const int n = 4;
    for (int i = 0; i < n; i++)
    {
        r.val[i] =  low.val[i];
    }
    for (int i = 0; i < n; i++)
    {
        r.val[n + i] = high.val[i];;
    }
    return r;
}
"

theorem Props.vcombine_u16_source [Dialect] (low : uint16x4_t) (high : uint16x4_t) :
    Runs Source.vcombine_u16 [.ofVec low, .ofVec high] (Obj.ofVec <$> Model.vcombine_u16 low high) := by
  refine ⟨_, Source.vcombine_u16_parse, 1000, fun fuel hf => ?_⟩
  simp only [Source.vcombine_u16_ast, Model.vcombine_u16]
  cpp_simp
  cpp_loop (fun r => [(110, .sc .s32 (some (vint (4)))), (114, .vec .u16 8 r), (1751738216, .vec .u16 4 (Arr.ofVec high)), (7106423, .vec .u16 4 (Arr.ofVec low))])
  · rintro i r h1 h2
    cpp_body
  · rintro r
    cpp_simp
    cpp_loop (fun r => [(110, .sc .s32 (some (vint (4)))), (114, .vec .u16 8 r), (1751738216, .vec .u16 4 (Arr.ofVec high)), (7106423, .vec .u16 4 (Arr.ofVec low))])
    · rintro i r h1 h2
      cpp_body
    · rintro r
      cpp_simp

/-- `neon_sim.cpp:4547-4560` -/
cpp_source Source.vcombine_u32 "uint32x4_t vcombine_u32(uint32x2_t low, uint32x2_t high)
{
    uint32x4_t r;
    const int n = 2;
    for (int i = 0; i < n; i++)
    {
        r.val[i] =  low.val[i];
    }
    for (int i = 0; i < n; i++)
    {
        r.val[n + i] = high.val[i];;
    }
    return r;
}
"

theorem Props.vcombine_u32_source [Dialect] (low : uint32x2_t) (high : uint32x2_t) :
    Runs Source.vcombine_u32 [.ofVec low, .ofVec high] (Obj.ofVec <$> Model.vcombine_u32 low high) := by
  refine ⟨_, Source.vcombine_u32_parse, 1000, fun fuel hf => ?_⟩
  simp only [Source.vcombine_u32_ast, Model.vcombine_u32]
  cpp_simp
  cpp_loop (fun r => [(110, .sc .s32 (some (vint (2)))), (114, .vec .u32 4 r), (1751738216, .vec .u32 2 (Arr.ofVec high)), (7106423, .vec .u32 2 (Arr.ofVec low))])
  · rintro i r h1 h2
    cpp_body
  · rintro r
    cpp_simp
    cpp_loop (fun r => [(110, .sc .s32 (some (vint (2)))), (114, .vec .u32 4 r), (1751738216, .vec .u32 2 (Arr.ofVec high)), (7106423, .vec .u32 2 (Arr.ofVec low))])
    · rintro i r h1 h2
      cpp_body
    · rintro r
      cpp_simp

/-- `neon_sim.cpp:4562-4575` -/
cpp_source Source.vcombine_s8 "int8x16_t vcombine_s8(int8x8_t low, int8x8_t high)
{
    int8x16_t r;
    const int n = 8;
    for (int i = 0; i < n; i++)
    {
        r.val[i] =  low.val[i];
    }
    for (int i = 0; i < n; i++)
    {
        r.val[n + i] = high.val[i];;
    }
    return r;
}
"

theorem Props.vcombine_s8_source [Dialect] (low : int8x8_t) (high : int8x8_t) :
    Runs Source.vcombine_s8 [.ofVec low, .ofVec high] (Obj.ofVec <$> Model.vcombine_s8 low high) := by
  refine ⟨_, Source.vcombine_s8_parse, 1000, fun fuel hf => ?_⟩
  simp only [Source.vcombine_s8_ast, Model.vcombine_s8]
  cpp_simp
  cpp_loop (fun r => [(110, .sc .s32 (some (vint (8)))), (114, .vec .s8 16 r), (1751738216, .vec .s8 8 (Arr.ofVec high)), (7106423, .vec .s8 8 (Arr.ofVec low))])
  · rintro i r h1 h2
    cpp_body
  · rintro r
    cpp_simp
    cpp_loop (fun r => [(110, .sc .s32 (some (vint (8)))), (114, .vec .s8 16 r), (1751738216, .vec .s8 8 (Arr.ofVec high)), (7106423, .vec .s8 8 (Arr.ofVec low))])
    · rintro i r h1 h2
      cpp_body
    · rintro r
      cpp_simp

/-- `neon_sim.cpp:4576-4589` -/
cpp_source Source.vcombine_s16 "int16x8_t vcombine_s16(int16x4_t low, int16x4_t high)
{
    int16x8_t r;
    const int n = 4;
    for (int i = 0; i < n; i++)
    {
        r.val[i] =  low.val[i];
    }
    for (int i = 0; i < n; i++)
    {
        r.val[n + i] = high.val[i];;
    }
    return r;
}
"

theorem Props.vcombine_s16_source [Dialect] (low : int16x4_t) (high : int16x4_t) :
    Runs Source.vcombine_s16 [.ofVec low, .ofVec high] (Obj.ofVec <$> Model.vcombine_s16 low high) := by
  refine ⟨_, Source.vcombine_s16_parse, 1000, fun fuel hf => ?_⟩
  simp only [Source.vcombine_s16_ast, Model.vcombine_s16]
  cpp_simp
  cpp_loop (fun r => [(110, .sc .s32 (some (vint (4)))), (114, .vec .s16 8 r), (1751738216, .vec .s16 4 (Arr.ofVec high)), (7106423, .vec .s16 4 (Arr.ofVec low))])
  · rintro i r h1 h2
    cpp_body
  · rintro r
    cpp_simp
    cpp_loop (fun r => [(110, .sc .s32 (some (vint (4)))), (114, .vec .s16 8 r), (1751738216, .vec .s16 4 (Arr.ofVec high)), (7106423, .vec .s16 4 (Arr.ofVec low))])
    · rintro i r h1 h2
      cpp_body
    · rintro r
      cpp_simp

/-- `neon_sim.cpp:4590-4603` -/
cpp_source Source.vcombine_s32 "int32x4_t vcombine_s32(int32x2_t low, int32x2_t high)
{
    int32x4_t r;
    const int n = 2;
    for (int i = 0; i < n; i++)
    {
        r.val[i] =  low.val[i];
    }
    for (int i = 0; i < n; i++)
    {
        r.val[n + i] = high.val[i];;
    }
    return r;
}
"

theorem Props.vcombine_s32_source [Dialect] (low : int32x2_t) (high : int32x2_t) :
    Runs Source.vcombine_s32 [.ofVec low, .ofVec high] (Obj.ofVec <$> Model.vcombine_s32 low high) := by
  refine ⟨_, Source.vcombine_s32_parse, 1000, fun fuel hf => ?_⟩
  simp only [Source.vcombine_s32_ast, Model.vcombine_s32]
  cpp_simp
  cpp_loop (fun r => [(110, .sc .s32 (some (vint (2)))), (114, .vec .s32 4 r), (1751738216, .vec .s32 2 (Arr.ofVec high)), (7106423, .vec .s32 2 (Arr.ofVec low))])
  · rintro i r h1 h2
    cpp_body
  · rintro r
    cpp_simp
    cpp_loop (fun r => [(110, .sc .s32 (some (vint (2)))), (114, .vec .s32 4 r), (1751738216, .vec .s32 2 (Arr.ofVec high)), (7106423, .vec .s32 2 (Arr.ofVec low))])
    · rintro i r h1 h2
      cpp_body
    · rintro r
      cpp_simp

/-- `neon_sim.cpp:4606-4614` -/
cpp_source Source.vmovn_s32 "int16x4_t vmovn_s32(int32x4_t a)
{
    int16x4_t r;
    for (int i = 0; i < 4; i++)
    {
        r.val[i] =  a.val[i];
    }
    return r;
}
"

theorem Props.vmovn_s32_source [Dialect] (a : int32x4_t) :
    Runs Source.vmovn_s32 [.ofVec a] (Obj.ofVec <$> Model.vmovn_s32 a) := by
  refine ⟨_, Source.vmovn_s32_parse, 1000, fun fuel hf => ?_⟩
  simp only [Source.vmovn_s32_ast, Model.vmovn_s32]
  cpp_simp
  cpp_loop (fun r => [(114, .vec .s16 4 r), (97, .vec .s32 4 (Arr.ofVec a))])
  · rintro i r h1 h2
    cpp_body
  · rintro r
    cpp_simp

/-- `neon_sim.cpp:4616-4624` -/
cpp_source Source.vmovn_u32 "uint16x4_t vmovn_u32(uint32x4_t a)
{
    uint16x4_t r;
    for (int i = 0; i < 4; i++)
    {
        r.val[i] =  a.val[i];
    }
    return r;
}
"

theorem Props.vmovn_u32_source [Dialect] (a : uint32x4_t) :
    Runs Source.vmovn_u32 [.ofVec a] (Obj.ofVec <$> Model.vmovn_u32 a) := by
  refine ⟨_, Source.vmovn_u32_parse, 1000, fun fuel hf => ?_⟩
  simp only [Source.vmovn_u32_ast, Model.vmovn_u32]
  cpp_simp
  cpp_loop (fun r => [(114, .vec .u16 4 r), (97, .vec .u32 4 (Arr.ofVec a))])
  · rintro i r h1 h2
    cpp_body
  · rintro r
    cpp_simp

/-- `neon_sim.cpp:4626-4634` -/
cpp_source Source.vmovn_u16 "uint8x8_t vmovn_u16(uint16x8_t a)
{
    uint8x8_t r;
    for (int i = 0; i < 8; i++)
    {
        r.val[i] =  a.val[i];
    }
    return r;
}
"

theorem Props.vmovn_u16_source [Dialect] (a : uint16x8_t) :
    Runs Source.vmovn_u16 [.ofVec a] (Obj.ofVec <$> Model.vmovn_u16 a) := by
  refine ⟨_, Source.vmovn_u16_parse, 1000, fun fuel hf => ?_⟩
  simp only [Source.vmovn_u16_ast, Model.vmovn_u16]
  cpp_simp
  cpp_loop (fun r => [(114, .vec .u8 8 r), (97, .vec .u16 8 (Arr.ofVec a))])
  · rintro i r h1 h2
    cpp_body
  · rintro r
    cpp_simp

/-- `neon_sim.cpp:4637-4645` -/
cpp_source Source.vmovl_u8 "uint16x8_t vmovl_u8(uint8x8_t a)
{
    uint16x8_t r;
    for (int i = 0; i < 8; i++)
    {
        r.val[i] =  a.val[i];
    }
    return r;
}
"

theorem Props.vmovl_u8_source [Dialect] (a : uint8x8_t) :
    Runs Source.vmovl_u8 [.ofVec a] (Obj.ofVec <$> Model.vmovl_u8 a) := by
  refine ⟨_, Source.vmovl_u8_parse, 1000, fun fuel hf => ?_⟩
  simp only [Source.vmovl_u8_ast, Model.vmovl_u8]
  cpp_simp
  cpp_loop (fun r => [(114, .vec .u16 8 r), (97, .vec .u8 8 (Arr.ofVec a))])
  · rintro i r h1 h2
    cpp_body
  · rintro r
    cpp_simp

/-- `neon_sim.cpp:4646-4654` -/
cpp_source Source.vmovl_u16 "uint32x4_t vmovl_u16(uint16x4_t a)
{
    uint32x4_t r;
    for (int i = 0; i < 4; i++)
    {
        r.val[i] =  a.val[i];
    }
    return r;
}
"

theorem Props.vmovl_u16_source [Dialect] (a : uint16x4_t) :
    Runs Source.vmovl_u16 [.ofVec a] (Obj.ofVec <$> Model.vmovl_u16 a) := by
  refine ⟨_, Source.vmovl_u16_parse, 1000, fun fuel hf => ?_⟩
  simp only [Source.vmovl_u16_ast, Model.vmovl_u16]
  cpp_simp
  cpp_loop (fun r => [(114, .vec .u32 4 r), (97, .vec .u16 4 (Arr.ofVec a))])
  · rintro i r h1 h2
    cpp_body
  · rintro r
    cpp_simp

/-- `neon_sim.cpp:4655-4663` -/
cpp_source Source.vmovl_u32 "uint64x2_t vmovl_u32(uint32x2_t a)
{
    uint64x2_t r;
    for (int i = 0; i < 2; i++)
    {
        r.val[i] =  a.val[i];
    }
    return r;
}
"

theorem Props.vmovl_u32_source [Dialect] (a : uint32x2_t) :
    Runs Source.vmovl_u32 [.ofVec a] (Obj.ofVec <$> Model.vmovl_u32 a) := by
  refine ⟨_, Source.vmovl_u32_parse, 1000, fun fuel hf => ?_⟩
  simp only [Source.vmovl_u32_ast, Model.vmovl_u32]
  cpp_simp
  cpp_loop (fun r => [(114, .vec .u64 2 r), (97, .vec .u32 2 (Arr.ofVec a))])
  · rintro i r h1 h2
    cpp_body
  · rintro r
    cpp_simp

/-- `neon_sim.cpp:4665-4673` -/
cpp_source Source.vmovl_s8 "int16x8_t vmovl_s8(int8x8_t a)
{
    int16x8_t r;
    for (int i = 0; i < 8; i++)
    {
        r.val[i] =  a.val[i];
    }
    return r;
}
"

theorem Props.vmovl_s8_source [Dialect] (a : int8x8_t) :
    Runs Source.vmovl_s8 [.ofVec a] (Obj.ofVec <$> Model.vmovl_s8 a) := by
  refine ⟨_, Source.vmovl_s8_parse, 1000, fun fuel hf => ?_⟩
  simp only [Source.vmovl_s8_ast, Model.vmovl_s8]
  cpp_simp
  cpp_loop (fun r => [(114, .vec .s16 8 r), (97, .vec .s8 8 (Arr.ofVec a))])
  · rintro i r h1 h2
    cpp_body
  · rintro r
    cpp_simp

/-- `neon_sim.cpp:4674-4682` -/
cpp_source Source.vmovl_s16 "int32x4_t vmovl_s16(int16x4_t a)
{
    int32x4_t r;
    for (int i = 0; i < 4; i++)
    {
        r.val[i] =  a.val[i];
    }
    return r;
}
"

theorem Props.vmovl_s16_source [Dialect] (a : int16x4_t) :
    Runs Source.vmovl_s16 [.ofVec a] (Obj.ofVec <$> Model.vmovl_s16 a) := by
  refine ⟨_, Source.vmovl_s16_parse, 1000, fun fuel hf => ?_⟩
  simp only [Source.vmovl_s16_ast, Model.vmovl_s16]
  cpp_simp
  cpp_loop (fun r => [(114, .vec .s32 4 r), (97, .vec .s16 4 (Arr.ofVec a))])
  · rintro i r h1 h2
    cpp_body
  · rintro r
    cpp_simp

/-- `neon_sim.cpp:4683-4691` -/
cpp_source Source.vmovl_s32 "int64x2_t vmovl_s32(int32x2_t a)
{
    int64x2_t r;
    for (int i = 0; i < 2; i++)
    {
        r.val[i] =  a.val[i];
    }
    return r;
}
"

theorem Props.vmovl_s32_source [Dialect] (a : int32x2_t) :
    Runs Source.vmovl_s32 [.ofVec a] (Obj.ofVec <$> Model.vmovl_s32 a) := by
  refine ⟨_, Source.vmovl_s32_parse, 1000, fun fuel hf => ?_⟩
  simp only [Source.vmovl_s32_ast, Model.vmovl_s32]
  cpp_simp
  cpp_loop (fun r => [(114, .vec .s64 2 r), (97, .vec .s32 2 (Arr.ofVec a))])
  · rintro i r h1 h2
    cpp_body
  · rintro r
    cpp_simp

/-- `neon_sim.cpp:4694-4709` -/
cpp_source Source.vqmovn_u16 "uint8x8_t vqmovn_u16(uint16x8_t a)
{
    uint8x8_t r;
    for (int i = 0; i < 8; i++)
    {
        if (a.val[i] > UINT8_MAX)
        {
            r.val[i] =  UINT8_MAX;
        }
        else
        {
            r.val[i] =  a.val[i];
        }
    }
    return r;
}
"

theorem Props.vqmovn_u16_source [Dialect] (a : uint16x8_t) :
    Runs Source.vqmovn_u16 [.ofVec a] (Obj.ofVec <$> Model.vqmovn_u16 a) := by
  refine ⟨_, Source.vqmovn_u16_parse, 1000, fun fuel hf => ?_⟩
  simp only [Source.vqmovn_u16_ast, Model.vqmovn_u16]
  cpp_simp
  cpp_loop (fun r => [(114, .vec .u8 8 r), (97, .vec .u16 8 (Arr.ofVec a))])
  · rintro i r h1 h2
    cpp_body
  · rintro r
    cpp_simp

/-- `neon_sim.cpp:4711-4730` -/
cpp_source Source.vqmovun_s16 "uint8x8_t vqmovun_s16(int16x8_t a)
{
    uint8x8_t r;
    for (int i = 0; i < 8; i++)
    {
        if (a.val[i] < 0)
        {
            r.val[i] =  0;
        }
        else if (a.val[i] > UINT8_MAX)
        {
            r.val[i] =  UINT8_MAX;
        }
        else
        {
            r.val[i] =  a.val[i];
        }
    }
    return r;
}
"

theorem Props.vqmovun_s16_source [Dialect] (a : int16x8_t) :
    Runs Source.vqmovun_s16 [.ofVec a] (Obj.ofVec <$> Model.vqmovun_s16 a) := by
  refine ⟨_, Source.vqmovun_s16_parse, 1000, fun fuel hf => ?_⟩
  simp only [Source.vqmovun_s16_ast, Model.vqmovun_s16]
  cpp_simp
  cpp_loop (fun r => [(114, .vec .u8 8 r), (97, .vec .s16 8 (Arr.ofVec a))])
  · rintro i r h1 h2
    cpp_body
  · rintro r
    cpp_simp

/-- `neon_sim.cpp:4733-4741` -/
cpp_source Source.vqtbl1_u8 "uint8x8_t vqtbl1_u8(uint8x16_t t, uint8x8_t idx)
{
    uint8x8_t r;
    for (int i = 0; i < 8; i++)
    {
        r.val[i] =  t.val[idx.val[i]];
    }
    return r;
}
"

theorem Props.vqtbl1_u8_source [Dialect] (t : uint8x16_t) (idx : uint8x8_t) :
    Runs Source.vqtbl1_u8 [.ofVec t, .ofVec idx] (Obj.ofVec <$> Model.vqtbl1_u8 t idx) := by
  refine ⟨_, Source.vqtbl1_u8_parse, 1000, fun fuel hf => ?_⟩
  simp only [Source.vqtbl1_u8_ast, Model.vqtbl1_u8]
  cpp_simp
  cpp_loop (fun r => [(114, .vec .u8 8 r), (6907000, .vec .u8 8 (Arr.ofVec idx)), (116, .vec .u8 16 (Arr.ofVec t))])
  · rintro i r h1 h2
    cpp_body
  · rintro r
    cpp_simp

/-- `neon_sim.cpp:4744-4762` -/
cpp_source Source.vext_u8 "uint8x8_t vext_u8(uint8x8_t a, uint8x8_t b, const int n)
{
    uint8x8_t r;
    int len = 8;
    if (n > 8 || n < 0)
    {
        fprintf(stderr, \"%s: param n is not in range [0, 8]\\n\", __FUNCTION__);
        abort();
    }
    for (int i = 0; i < len - n; i++)
    {
        r.val[i] =  a.val[i + n];
    }
    for (int i = 0; i < n; i++)
    {
        r.val[i + len - n] = b.val[i];
    }
    return r;
}
"

theorem Props.vext_u8_source [Dialect] (a : uint8x8_t) (b : uint8x8_t) (n : Int) (hn : -2147483648 ≤ n ∧ n ≤ 2147483647) :
    Runs Source.vext_u8 [.ofVec a, .ofVec b, .ofInt n] (Obj.ofVec <$> Model.vext_u8 a b n) := by
  refine ⟨_, Source.vext_u8_parse, 1000, fun fuel hf => ?_⟩
  simp only [Source.vext_u8_ast, Model.vext_u8]
  cpp_simp
  cpp_check
  · try cpp_simp
    cpp_loop (fun r => [(7103854, .sc .s32 (some (vint (8)))), (114, .vec .u8 8 r), (110, .sc .s32 (some (vint n))), (98, .vec .u8 8 (Arr.ofVec b)), (97, .vec .u8 8 (Arr.ofVec a))])
    · rintro i r h1 h2
      cpp_body
    · rintro r
      cpp_simp
      cpp_loop (fun r => [(7103854, .sc .s32 (some (vint (8)))), (114, .vec .u8 8 r), (110, .sc .s32 (some (vint n))), (98, .vec .u8 8 (Arr.ofVec b)), (97, .vec .u8 8 (Arr.ofVec a))])
      · rintro i r h1 h2
        cpp_body
      · rintro r
        cpp_simp

/-- `neon_sim.cpp:4764-4782` -/
cpp_source Source.vext_u16 "uint16x4_t vext_u16(uint16x4_t a, uint16x4_t b, const int n)
{
    uint16x4_t r;
    int len = 4;
    if (n > 3 || n < 0)
    {
        fprintf(stderr, \"%s: param n is not in range [0, 4]\\n\", __FUNCTION__);
        abort();
    }
    for (int i = 0; i < len - n; i++)
    {
        r.val[i] =  a.val[i + n];
    }
    for (int i = 0; i < n; i++)
    {
        r.val[i + len - n] = b.val[i];
    }
    return r;
}
"

theorem Props.vext_u16_source [Dialect] (a : uint16x4_t) (b : uint16x4_t) (n : Int) (hn : -2147483648 ≤ n ∧ n ≤ 2147483647) :
    Runs Source.vext_u16 [.ofVec a, .ofVec b, .ofInt n] (Obj.ofVec <$> Model.vext_u16 a b n) := by
  refine ⟨_, Source.vext_u16_parse, 1000, fun fuel hf => ?_⟩
  simp only [Source.vext_u16_ast, Model.vext_u16]
  cpp_simp
  cpp_check
  · try cpp_simp
    cpp_loop (fun r => [(7103854, .sc .s32 (some (vint (4)))), (114, .vec .u16 4 r), (110, .sc .s32 (some (vint n))), (98, .vec .u16 4 (Arr.ofVec b)), (97, .vec .u16 4 (Arr.ofVec a))])
    · rintro i r h1 h2
      cpp_body
    · rintro r
      cpp_simp
      cpp_loop (fun r => [(7103854, .sc .s32 (some (vint (4)))), (114, .vec .u16 4 r), (110, .sc .s32 (some (vint n))), (98, .vec .u16 4 (Arr.ofVec b)), (97, .vec .u16 4 (Arr.ofVec a))])
      · rintro i r h1 h2
        cpp_body
      · rintro r
        cpp_simp

/-- `neon_sim.cpp:4784-4802` -/
cpp_source Source.vext_s16 "int16x4_t vext_s16(int16x4_t a, int16x4_t b, const int n)
{
    int16x4_t r;
    int len = 4;
    if (n > 3 || n < 0)
    {
        fprintf(stderr, \"%s: param n is not in range [0, 4]\\n\", __FUNCTION__);
        abort();
    }
    for (int i = 0; i < len - n; i++)
    {
        r.val[i] =  a.val[i + n];
    }
    for (int i = 0; i < n; i++)
    {
        r.val[i + len - n] = b.val[i];
    }
    return r;
}
"

theorem Props.vext_s16_source [Dialect] (a : int16x4_t) (b : int16x4_t) (n : Int) (hn : -2147483648 ≤ n ∧ n ≤ 2147483647) :
    Runs Source.vext_s16 [.ofVec a, .ofVec b, .ofInt n] (Obj.ofVec <$> Model.vext_s16 a b n) := by
  refine ⟨_, Source.vext_s16_parse, 1000, fun fuel hf => ?_⟩
  simp only [Source.vext_s16_ast, Model.vext_s16]
  cpp_simp
  cpp_check
  · try cpp_simp
    cpp_loop (fun r => [(7103854, .sc .s32 (some (vint (4)))), (114, .vec .s16 4 r), (110, .sc .s32 (some (vint n))), (98, .vec .s16 4 (Arr.ofVec b)), (97, .vec .s16 4 (Arr.ofVec a))])
    · rintro i r h1 h2
      cpp_body
    · rintro r
      cpp_simp
      cpp_loop (fun r => [(7103854, .sc .s32 (some (vint (4)))), (114, .vec .s16 4 r), (110, .sc .s32 (some (vint n))), (98, .vec .s16 4 (Arr.ofVec b)), (97, .vec .s16 4 (Arr.ofVec a))])
      · rintro i r h1 h2
        cpp_body
      · rintro r
        cpp_simp

/-- `neon_sim.cpp:4805-4823` -/
cpp_source Source.vextq_u16 "uint16x8_t vextq_u16(uint16x8_t a, uint16x8_t b, const int n)
{
    uint16x8_t r;
    int len = 8;
    if (n > 8 || n < 0)
    {
        fprintf(stderr, \"%s: param n is not in range [0, 8]\\n\", __FUNCTION__);
        abort();
    }
    for (int i = 0; i < len - n; i++)
    {
        r.val[i] =  a.val[i + n];
    }
    for (int i = 0; i < n; i++)
    {
        r.val[i + len - n] = b.val[i];
    }
    return r;
}
"

theorem Props.vextq_u16_source [Dialect] (a : uint16x8_t) (b : uint16x8_t) (n : Int) (hn : -2147483648 ≤ n ∧ n ≤ 2147483647) :
    Runs Source.vextq_u16 [.ofVec a, .ofVec b, .ofInt n] (Obj.ofVec <$> Model.vextq_u16 a b n) := by
  refine ⟨_, Source.vextq_u16_parse, 1000, fun fuel hf => ?_⟩
  simp only [Source.vextq_u16_ast, Model.vextq_u16]
  cpp_simp
  cpp_check
  · try cpp_simp
    cpp_loop (fun r => [(7103854, .sc .s32 (some (vint (8)))), (114, .vec .u16 8 r), (110, .sc .s32 (some (vint n))), (98, .vec .u16 8 (Arr.ofVec b)), (97, .vec .u16 8 (Arr.ofVec a))])
    · rintro i r h1 h2
      cpp_body
    · rintro r
      cpp_simp
      cpp_loop (fun r => [(7103854, .sc .s32 (some (vint (8)))), (114, .vec .u16 8 r), (110, .sc .s32 (some (vint n))), (98, .vec .u16 8 (Arr.ofVec b)), (97, .vec .u16 8 (Arr.ofVec a))])
      · rintro i r h1 h2
        cpp_body
      · rintro r
        cpp_simp

end Verif
