import Verif.Cpp.Command
import Verif.Model.Rest

/-! Source text of the functions in `Verif/Model/Rest.lean`, and the theorem that running it is running the model.
Generated by `tools/gen_source.py`. -/

set_option linter.unusedVariables false
set_option linter.unusedSimpArgs false
set_option maxHeartbeats 1000000

open Verif.Cpp

namespace Verif

/-- `neon_sim.cpp:5544-5562` -/
cpp_source Source.vzip_s8 "int8x8x2_t vzip_s8(int8x8_t a, int8x8_t b)
{
    int8x8x2_t r;
    const int vlen = 8;
    for (int i = 0; i < 8; i++)
    {
        if (i % 2 == 0)
        {
            r.val[0].val[i] = a.val[i / 2];
            r.val[1].val[i] = a.val[i / 2 + vlen / 2];
        }
        else
        {
            r.val[0].val[i] = b.val[i / 2];
            r.val[1].val[i] = b.val[i / 2 + vlen / 2];
        }
    }
    return r;
}
"

theorem Props.vzip_s8_source [Dialect] (a : int8x8_t) (b : int8x8_t) :
    Runs Source.vzip_s8 [.ofVec a, .ofVec b] (Obj.ofVecArr <$> Model.vzip_s8 a b) := by
  refine ⟨_, Source.vzip_s8_parse, 1000, fun fuel hf => ?_⟩
  simp only [Source.vzip_s8_ast, Model.vzip_s8]
  cpp_simp
  cpp_loop (fun r => [(1986815342, .sc .s32 (some (vint (8)))), (114, .arr .s8 8 2 r), (98, .vec .s8 8 (Arr.ofVec b)), (97, .vec .s8 8 (Arr.ofVec a))])
  · rintro i r h1 h2
    cpp_body
  · rintro r
    cpp_simp

/-- `neon_sim.cpp:5564-5582` -/
cpp_source Source.vzip_u8 "uint8x8x2_t vzip_u8(uint8x8_t a, uint8x8_t b)
{
    uint8x8x2_t r;
    const int vlen = 8;
    for (int i = 0; i < 8; i++)
    {
        if (i % 2 == 0)
        {
            r.val[0].val[i] = a.val[i / 2];
            r.val[1].val[i] = a.val[i / 2 + vlen / 2];
        }
        else
        {
            r.val[0].val[i] = b.val[i / 2];
            r.val[1].val[i] = b.val[i / 2 + vlen / 2];
        }
    }
    return r;
}
"

theorem Props.vzip_u8_source [Dialect] (a : uint8x8_t) (b : uint8x8_t) :
    Runs Source.vzip_u8 [.ofVec a, .ofVec b] (Obj.ofVecArr <$> Model.vzip_u8 a b) := by
  refine ⟨_, Source.vzip_u8_parse, 1000, fun fuel hf => ?_⟩
  simp only [Source.vzip_u8_ast, Model.vzip_u8]
  cpp_simp
  cpp_loop (fun r => [(1986815342, .sc .s32 (some (vint (8)))), (114, .arr .u8 8 2 r), (98, .vec .u8 8 (Arr.ofVec b)), (97, .vec .u8 8 (Arr.ofVec a))])
  · rintro i r h1 h2
    cpp_body
  · rintro r
    cpp_simp

/-- `neon_sim.cpp:5585-5600` -/
cpp_source Source.vuzp_u8 "uint8x8x2_t vuzp_u8(uint8x8_t a, uint8x8_t b)
{
    uint8x8x2_t r;
    for (int i = 0; i < 8; i += 2)
    {
        r.val[0].val[i / 2] = a.val[i];
        r.val[1].val[i / 2] = a.val[i + 1];
    }

    for (int i = 0; i < 8; i += 2)
    {
        r.val[0].val[i / 2 + 4] = b.val[i];
        r.val[1].val[i / 2 + 4] = b.val[i + 1];
    }
    return r;
}
"

theorem Props.vuzp_u8_source [Dialect] (a : uint8x8_t) (b : uint8x8_t) :
    Runs Source.vuzp_u8 [.ofVec a, .ofVec b] (Obj.ofVecArr <$> Model.vuzp_u8 a b) := by
  refine ⟨_, Source.vuzp_u8_parse, 1000, fun fuel hf => ?_⟩
  simp only [Source.vuzp_u8_ast, Model.vuzp_u8]
  cpp_simp
  cpp_loop (fun r => [(114, .arr .u8 8 2 r), (98, .vec .u8 8 (Arr.ofVec b)), (97, .vec .u8 8 (Arr.ofVec a))])
  · rintro i r h1 h2
    cpp_body
  · rintro r
    cpp_simp
    cpp_loop (fun r => [(114, .arr .u8 8 2 r), (98, .vec .u8 8 (Arr.ofVec b)), (97, .vec .u8 8 (Arr.ofVec a))])
    · rintro i r h1 h2
      cpp_body
    · rintro r
      cpp_simp

/-- `neon_sim.cpp:5602-5617` -/
cpp_source Source.vuzp_s8 "int8x8x2_t vuzp_s8(int8x8_t a, int8x8_t b)
{
    int8x8x2_t r;
    for (int i = 0; i < 8; i += 2)
    {
        r.val[0].val[i / 2] = a.val[i];
        r.val[1].val[i / 2] = a.val[i + 1];
    }

    for (int i = 0; i < 8; i += 2)
    {
        r.val[0].val[i / 2 + 4] = b.val[i];
        r.val[1].val[i / 2 + 4] = b.val[i + 1];
    }
    return r;
}
"

theorem Props.vuzp_s8_source [Dialect] (a : int8x8_t) (b : int8x8_t) :
    Runs Source.vuzp_s8 [.ofVec a, .ofVec b] (Obj.ofVecArr <$> Model.vuzp_s8 a b) := by
  refine ⟨_, Source.vuzp_s8_parse, 1000, fun fuel hf => ?_⟩
  simp only [Source.vuzp_s8_ast, Model.vuzp_s8]
  cpp_simp
  cpp_loop (fun r => [(114, .arr .s8 8 2 r), (98, .vec .s8 8 (Arr.ofVec b)), (97, .vec .s8 8 (Arr.ofVec a))])
  · rintro i r h1 h2
    cpp_body
  · rintro r
    cpp_simp
    cpp_loop (fun r => [(114, .arr .s8 8 2 r), (98, .vec .s8 8 (Arr.ofVec b)), (97, .vec .s8 8 (Arr.ofVec a))])
    · rintro i r h1 h2
      cpp_body
    · rintro r
      cpp_simp

/-- `neon_sim.cpp:5620-5629` -/
cpp_source Source.vrev16_s8 "int8x8_t vrev16_s8(int8x8_t vec)
{
    int8x8_t r;
    for (int i = 0; i < 8; i += 2)
    {
        r.val[i] =  vec.val[i + 1];
        r.val[i + 1] = vec.val[i];
    }
    return r;
}
"

theorem Props.vrev16_s8_source [Dialect] (vec : int8x8_t) :
    Runs Source.vrev16_s8 [.ofVec vec] (Obj.ofVec <$> Model.vrev16_s8 vec) := by
  refine ⟨_, Source.vrev16_s8_parse, 1000, fun fuel hf => ?_⟩
  simp only [Source.vrev16_s8_ast, Model.vrev16_s8]
  cpp_simp
  cpp_loop (fun r => [(114, .vec .s8 8 r), (7759203, .vec .s8 8 (Arr.ofVec vec))])
  · rintro i r h1 h2
    cpp_body
  · rintro r
    cpp_simp

/-- `neon_sim.cpp:5631-5640` -/
cpp_source Source.vrev16_u8 "uint8x8_t vrev16_u8(uint8x8_t vec)
{
    uint8x8_t r;
    for (int i = 0; i < 8; i += 2)
    {
        r.val[i] =  vec.val[i + 1];
        r.val[i + 1] = vec.val[i];
    }
    return r;
}
"

theorem Props.vrev16_u8_source [Dialect] (vec : uint8x8_t) :
    Runs Source.vrev16_u8 [.ofVec vec] (Obj.ofVec <$> Model.vrev16_u8 vec) := by
  refine ⟨_, Source.vrev16_u8_parse, 1000, fun fuel hf => ?_⟩
  simp only [Source.vrev16_u8_ast, Model.vrev16_u8]
  cpp_simp
  cpp_loop (fun r => [(114, .vec .u8 8 r), (7759203, .vec .u8 8 (Arr.ofVec vec))])
  · rintro i r h1 h2
    cpp_body
  · rintro r
    cpp_simp

/-- `neon_sim.cpp:5643-5652` -/
cpp_source Source.vrev16q_s8 "int8x16_t vrev16q_s8(int8x16_t vec)
{
    int8x16_t r;
    for (int i = 0; i < 16; i += 2)
    {
        r.val[i] =  vec.val[i + 1];
        r.val[i + 1] = vec.val[i];
    }
    return r;
}
"

theorem Props.vrev16q_s8_source [Dialect] (vec : int8x16_t) :
    Runs Source.vrev16q_s8 [.ofVec vec] (Obj.ofVec <$> Model.vrev16q_s8 vec) := by
  refine ⟨_, Source.vrev16q_s8_parse, 1000, fun fuel hf => ?_⟩
  simp only [Source.vrev16q_s8_ast, Model.vrev16q_s8]
  cpp_simp
  cpp_loop (fun r => [(114, .vec .s8 16 r), (7759203, .vec .s8 16 (Arr.ofVec vec))])
  · rintro i r h1 h2
    cpp_body
  · rintro r
    cpp_simp

/-- `neon_sim.cpp:5654-5663` -/
cpp_source Source.vrev16q_u8 "uint8x16_t vrev16q_u8(uint8x16_t vec)
{
    uint8x16_t r;
    for (int i = 0; i < 16; i += 2)
    {
        r.val[i] =  vec.val[i + 1];
        r.val[i + 1] = vec.val[i];
    }
    return r;
}
"

theorem Props.vrev16q_u8_source [Dialect] (vec : uint8x16_t) :
    Runs Source.vrev16q_u8 [.ofVec vec] (Obj.ofVec <$> Model.vrev16q_u8 vec) := by
  refine ⟨_, Source.vrev16q_u8_parse, 1000, fun fuel hf => ?_⟩
  simp only [Source.vrev16q_u8_ast, Model.vrev16q_u8]
  cpp_simp
  cpp_loop (fun r => [(114, .vec .u8 16 r), (7759203, .vec .u8 16 (Arr.ofVec vec))])
  · rintro i r h1 h2
    cpp_body
  · rintro r
    cpp_simp

/-- `neon_sim.cpp:5666-5677` -/
cpp_source Source.vrev32_s8 "int8x8_t vrev32_s8(int8x8_t vec)
{
    int8x8_t r;
    for (int i = 0; i < 16; i += 4)
    {
        r.val[i + 0] = vec.val[i + 3];
        r.val[i + 1] = vec.val[i + 2];
        r.val[i + 2] = vec.val[i + 1];
        r.val[i + 3] = vec.val[i + 0];
    }
    return r;
}
"

theorem Props.vrev32_s8_source [Dialect] (vec : int8x8_t) :
    Runs Source.vrev32_s8 [.ofVec vec] (Obj.ofVec <$> Model.vrev32_s8 vec) := by
  refine ⟨_, Source.vrev32_s8_parse, 1000, fun fuel hf => ?_⟩
  simp only [Source.vrev32_s8_ast, Model.vrev32_s8]
  cpp_simp
  cpp_loop (fun r => [(114, .vec .s8 8 r), (7759203, .vec .s8 8 (Arr.ofVec vec))])
  · rintro i r h1 h2
    cpp_body
  · rintro r
    cpp_simp

/-- `neon_sim.cpp:5679-5688` -/
cpp_source Source.vrev32_s16 "int16x4_t vrev32_s16(int16x4_t vec)
{
    int16x4_t r;
    for (int i = 0; i < 4; i += 2)
    {
        r.val[i + 0] = vec.val[i + 1];
        r.val[i + 1] = vec.val[i + 0];
    }
    return r;
}
"

theorem Props.vrev32_s16_source [Dialect] (vec : int16x4_t) :
    Runs Source.vrev32_s16 [.ofVec vec] (Obj.ofVec <$> Model.vrev32_s16 vec) := by
  refine ⟨_, Source.vrev32_s16_parse, 1000, fun fuel hf => ?_⟩
  simp only [Source.vrev32_s16_ast, Model.vrev32_s16]
  cpp_simp
  cpp_loop (fun r => [(114, .vec .s16 4 r), (7759203, .vec .s16 4 (Arr.ofVec vec))])
  · rintro i r h1 h2
    cpp_body
  · rintro r
    cpp_simp

/-- `neon_sim.cpp:5690-5701` -/
cpp_source Source.vrev32_u8 "uint8x8_t vrev32_u8(uint8x8_t vec)
{
    uint8x8_t r;
    for (int i = 0; i < 8; i += 4)
    {
        r.val[i + 0] = vec.val[i + 3];
        r.val[i + 1] = vec.val[i + 2];
        r.val[i + 2] = vec.val[i + 1];
        r.val[i + 3] = vec.val[i + 0];
    }
    return r;
}
"

theorem Props.vrev32_u8_source [Dialect] (vec : uint8x8_t) :
    Runs Source.vrev32_u8 [.ofVec vec] (Obj.ofVec <$> Model.vrev32_u8 vec) := by
  refine ⟨_, Source.vrev32_u8_parse, 1000, fun fuel hf => ?_⟩
  simp only [Source.vrev32_u8_ast, Model.vrev32_u8]
  cpp_simp
  cpp_loop (fun r => [(114, .vec .u8 8 r), (7759203, .vec .u8 8 (Arr.ofVec vec))])
  · rintro i r h1 h2
    cpp_body
  · rintro r
    cpp_simp

/-- `neon_sim.cpp:5703-5712` -/
cpp_source Source.vrev32_u16 "uint16x4_t vrev32_u16(uint16x4_t vec)
{
    uint16x4_t r;
    for (int i = 0; i < 4; i += 2)
    {
        r.val[i + 0] = vec.val[i + 1];
        r.val[i + 1] = vec.val[i + 0];
    }
    return r;
}
"

theorem Props.vrev32_u16_source [Dialect] (vec : uint16x4_t) :
    Runs Source.vrev32_u16 [.ofVec vec] (Obj.ofVec <$> Model.vrev32_u16 vec) := by
  refine ⟨_, Source.vrev32_u16_parse, 1000, fun fuel hf => ?_⟩
  simp only [Source.vrev32_u16_ast, Model.vrev32_u16]
  cpp_simp
  cpp_loop (fun r => [(114, .vec .u16 4 r), (7759203, .vec .u16 4 (Arr.ofVec vec))])
  · rintro i r h1 h2
    cpp_body
  · rintro r
    cpp_simp

/-- `neon_sim.cpp:5715-5726` -/
cpp_source Source.vrev32q_s8 "int8x16_t vrev32q_s8(int8x16_t vec)
{
    int8x16_t r;
    for (int i = 0; i < 16; i += 4)
    {
        r.val[i + 0] = vec.val[i + 3];
        r.val[i + 1] = vec.val[i + 2];
        r.val[i + 2] = vec.val[i + 1];
        r.val[i + 3] = vec.val[i + 0];
    }
    return r;
}
"

theorem Props.vrev32q_s8_source [Dialect] (vec : int8x16_t) :
    Runs Source.vrev32q_s8 [.ofVec vec] (Obj.ofVec <$> Model.vrev32q_s8 vec) := by
  refine ⟨_, Source.vrev32q_s8_parse, 1000, fun fuel hf => ?_⟩
  simp only [Source.vrev32q_s8_ast, Model.vrev32q_s8]
  cpp_simp
  cpp_loop (fun r => [(114, .vec .s8 16 r), (7759203, .vec .s8 16 (Arr.ofVec vec))])
  · rintro i r h1 h2
    cpp_body
  · rintro r
    cpp_simp

/-- `neon_sim.cpp:5728-5737` -/
cpp_source Source.vrev32q_s16 "int16x8_t vrev32q_s16(int16x8_t vec)
{
    int16x8_t r;
    for (int i = 0; i < 8; i += 2)
    {
        r.val[i + 0] = vec.val[i + 1];
        r.val[i + 1] = vec.val[i + 0];
    }
    return r;
}
"

theorem Props.vrev32q_s16_source [Dialect] (vec : int16x8_t) :
    Runs Source.vrev32q_s16 [.ofVec vec] (Obj.ofVec <$> Model.vrev32q_s16 vec) := by
  refine ⟨_, Source.vrev32q_s16_parse, 1000, fun fuel hf => ?_⟩
  simp only [Source.vrev32q_s16_ast, Model.vrev32q_s16]
  cpp_simp
  cpp_loop (fun r => [(114, .vec .s16 8 r), (7759203, .vec .s16 8 (Arr.ofVec vec))])
  · rintro i r h1 h2
    cpp_body
  · rintro r
    cpp_simp

/-- `neon_sim.cpp:5739-5750` -/
cpp_source Source.vrev32q_u8 "uint8x16_t vrev32q_u8(uint8x16_t vec)
{
    uint8x16_t r;
    for (int i = 0; i < 16; i += 4)
    {
        r.val[i + 0] = vec.val[i + 3];
        r.val[i + 1] = vec.val[i + 2];
        r.val[i + 2] = vec.val[i + 1];
        r.val[i + 3] = vec.val[i + 0];
    }
    return r;
}
"

theorem Props.vrev32q_u8_source [Dialect] (vec : uint8x16_t) :
    Runs Source.vrev32q_u8 [.ofVec vec] (Obj.ofVec <$> Model.vrev32q_u8 vec) := by
  refine ⟨_, Source.vrev32q_u8_parse, 1000, fun fuel hf => ?_⟩
  simp only [Source.vrev32q_u8_ast, Model.vrev32q_u8]
  cpp_simp
  cpp_loop (fun r => [(114, .vec .u8 16 r), (7759203, .vec .u8 16 (Arr.ofVec vec))])
  · rintro i r h1 h2
    cpp_body
  · rintro r
    cpp_simp

/-- `neon_sim.cpp:5752-5761` -/
cpp_source Source.vrev32q_u16 "uint16x8_t vrev32q_u16(uint16x8_t vec)
{
    uint16x8_t r;
    for (int i = 0; i < 8; i += 2)
    {
        r.val[i + 0] = vec.val[i + 1];
        r.val[i + 1] = vec.val[i + 0];
    }
    return r;
}
"

theorem Props.vrev32q_u16_source [Dialect] (vec : uint16x8_t) :
    Runs Source.vrev32q_u16 [.ofVec vec] (Obj.ofVec <$> Model.vrev32q_u16 vec) := by
  refine ⟨_, Source.vrev32q_u16_parse, 1000, fun fuel hf => ?_⟩
  simp only [Source.vrev32q_u16_ast, Model.vrev32q_u16]
  cpp_simp
  cpp_loop (fun r => [(114, .vec .u16 8 r), (7759203, .vec .u16 8 (Arr.ofVec vec))])
  · rintro i r h1 h2
    cpp_body
  · rintro r
    cpp_simp

/-- `neon_sim.cpp:5764-5779` -/
cpp_source Source.vrev64_s8 "int8x8_t vrev64_s8(int8x8_t vec)
{
    int8x8_t r;
    for (int i = 0; i < 8; i += 8)
    {
        r.val[i + 0] = vec.val[i + 7];
        r.val[i + 1] = vec.val[i + 6];
        r.val[i + 2] = vec.val[i + 5];
        r.val[i + 3] = vec.val[i + 4];
        r.val[i + 4] = vec.val[i + 3];
        r.val[i + 5] = vec.val[i + 2];
        r.val[i + 6] = vec.val[i + 1];
        r.val[i + 7] = vec.val[i + 0];
    }
    return r;
}
"

theorem Props.vrev64_s8_source [Dialect] (vec : int8x8_t) :
    Runs Source.vrev64_s8 [.ofVec vec] (Obj.ofVec <$> Model.vrev64_s8 vec) := by
  refine ⟨_, Source.vrev64_s8_parse, 1000, fun fuel hf => ?_⟩
  simp only [Source.vrev64_s8_ast, Model.vrev64_s8]
  cpp_simp
  cpp_loop (fun r => [(114, .vec .s8 8 r), (7759203, .vec .s8 8 (Arr.ofVec vec))])
  · rintro i r h1 h2
    cpp_body
  · rintro r
    cpp_simp

/-- `neon_sim.cpp:5781-5792` -/
cpp_source Source.vrev64_s16 "int16x4_t vrev64_s16(int16x4_t vec)
{
    int16x4_t r;
    for (int i = 0; i < 4; i += 4)
    {
        r.val[i + 0] = vec.val[i + 3];
        r.val[i + 1] = vec.val[i + 2];
        r.val[i + 2] = vec.val[i + 1];
        r.val[i + 3] = vec.val[i + 0];
    }
    return r;
}
"

theorem Props.vrev64_s16_source [Dialect] (vec : int16x4_t) :
    Runs Source.vrev64_s16 [.ofVec vec] (Obj.ofVec <$> Model.vrev64_s16 vec) := by
  refine ⟨_, Source.vrev64_s16_parse, 1000, fun fuel hf => ?_⟩
  simp only [Source.vrev64_s16_ast, Model.vrev64_s16]
  cpp_simp
  cpp_loop (fun r => [(114, .vec .s16 4 r), (7759203, .vec .s16 4 (Arr.ofVec vec))])
  · rintro i r h1 h2
    cpp_body
  · rintro r
    cpp_simp

/-- `neon_sim.cpp:5794-5803` -/
cpp_source Source.vrev64_s32 "int32x2_t vrev64_s32(int32x2_t vec)
{
    int32x2_t r;
    for (int i = 0; i < 2; i += 2)
    {
        r.val[i + 0] = vec.val[i + 1];
        r.val[i + 1] = vec.val[i + 0];
    }
    return r;
}
"

theorem Props.vrev64_s32_source [Dialect] (vec : int32x2_t) :
    Runs Source.vrev64_s32 [.ofVec vec] (Obj.ofVec <$> Model.vrev64_s32 vec) := by
  refine ⟨_, Source.vrev64_s32_parse, 1000, fun fuel hf => ?_⟩
  simp only [Source.vrev64_s32_ast, Model.vrev64_s32]
  cpp_simp
  cpp_loop (fun r => [(114, .vec .s32 2 r), (7759203, .vec .s32 2 (Arr.ofVec vec))])
  · rintro i r h1 h2
    cpp_body
  · rintro r
    cpp_simp

/-- `neon_sim.cpp:5805-5820` -/
cpp_source Source.vrev64_u8 "uint8x8_t vrev64_u8(uint8x8_t vec)
{
    uint8x8_t r;
    for (int i = 0; i < 8; i += 8)
    {
        r.val[i + 0] = vec.val[i + 7];
        r.val[i + 1] = vec.val[i + 6];
        r.val[i + 2] = vec.val[i + 5];
        r.val[i + 3] = vec.val[i + 4];
        r.val[i + 4] = vec.val[i + 3];
        r.val[i + 5] = vec.val[i + 2];
        r.val[i + 6] = vec.val[i + 1];
        r.val[i + 7] = vec.val[i + 0];
    }
    return r;
}
"

theorem Props.vrev64_u8_source [Dialect] (vec : uint8x8_t) :
    Runs Source.vrev64_u8 [.ofVec vec] (Obj.ofVec <$> Model.vrev64_u8 vec) := by
  refine ⟨_, Source.vrev64_u8_parse, 1000, fun fuel hf => ?_⟩
  simp only [Source.vrev64_u8_ast, Model.vrev64_u8]
  cpp_simp
  cpp_loop (fun r => [(114, .vec .u8 8 r), (7759203, .vec .u8 8 (Arr.ofVec vec))])
  · rintro i r h1 h2
    cpp_body
  · rintro r
    cpp_simp

/-- `neon_sim.cpp:5822-5833` -/
cpp_source Source.vrev64_u16 "uint16x4_t vrev64_u16(uint16x4_t vec)
{
    uint16x4_t r;
    for (int i = 0; i < 4; i += 4)
    {
        r.val[i + 0] = vec.val[i + 3];
        r.val[i + 1] = vec.val[i + 2];
        r.val[i + 2] = vec.val[i + 1];
        r.val[i + 3] = vec.val[i + 0];
    }
    return r;
}
"

theorem Props.vrev64_u16_source [Dialect] (vec : uint16x4_t) :
    Runs Source.vrev64_u16 [.ofVec vec] (Obj.ofVec <$> Model.vrev64_u16 vec) := by
  refine ⟨_, Source.vrev64_u16_parse, 1000, fun fuel hf => ?_⟩
  simp only [Source.vrev64_u16_ast, Model.vrev64_u16]
  cpp_simp
  cpp_loop (fun r => [(114, .vec .u16 4 r), (7759203, .vec .u16 4 (Arr.ofVec vec))])
  · rintro i r h1 h2
    cpp_body
  · rintro r
    cpp_simp

/-- `neon_sim.cpp:5835-5844` -/
cpp_source Source.vrev64_u32 "uint32x2_t vrev64_u32(uint32x2_t vec)
{
    uint32x2_t r;
    for (int i = 0; i < 2; i += 2)
    {
        r.val[i + 0] = vec.val[i + 1];
        r.val[i + 1] = vec.val[i + 0];
    }
    return r;
}
"

theorem Props.vrev64_u32_source [Dialect] (vec : uint32x2_t) :
    Runs Source.vrev64_u32 [.ofVec vec] (Obj.ofVec <$> Model.vrev64_u32 vec) := by
  refine ⟨_, Source.vrev64_u32_parse, 1000, fun fuel hf => ?_⟩
  simp only [Source.vrev64_u32_ast, Model.vrev64_u32]
  cpp_simp
  cpp_loop (fun r => [(114, .vec .u32 2 r), (7759203, .vec .u32 2 (Arr.ofVec vec))])
  · rintro i r h1 h2
    cpp_body
  · rintro r
    cpp_simp

/-- `neon_sim.cpp:5846-5855` -/
cpp_source Source.vrev64_f32 "float32x2_t vrev64_f32(float32x2_t vec)
{
    float32x2_t r;
    for (int i = 0; i < 2; i += 2)
    {
        r.val[i + 0] = vec.val[i + 1];
        r.val[i + 1] = vec.val[i + 0];
    }
    return r;
}
"

theorem Props.vrev64_f32_source [Dialect] (vec : float32x2_t) :
    Runs Source.vrev64_f32 [.ofVec vec] (Obj.ofVec <$> Model.vrev64_f32 vec) := by
  refine ⟨_, Source.vrev64_f32_parse, 1000, fun fuel hf => ?_⟩
  simp only [Source.vrev64_f32_ast, Model.vrev64_f32]
  cpp_simp
  cpp_loop (fun r => [(114, .vec .f32 2 r), (7759203, .vec .f32 2 (Arr.ofVec vec))])
  · rintro i r h1 h2
    cpp_body
  · rintro r
    cpp_simp

/-- `neon_sim.cpp:5858-5873` -/
cpp_source Source.vrev64q_s8 "int8x16_t vrev64q_s8(int8x16_t vec)
{
    int8x16_t r;
    for (int i = 0; i < 8; i += 8)
    {
        r.val[i + 0] = vec.val[i + 7];
        r.val[i + 1] = vec.val[i + 6];
        r.val[i + 2] = vec.val[i + 5];
        r.val[i + 3] = vec.val[i + 4];
        r.val[i + 4] = vec.val[i + 3];
        r.val[i + 5] = vec.val[i + 2];
        r.val[i + 6] = vec.val[i + 1];
        r.val[i + 7] = vec.val[i + 0];
    }
    return r;
}
"

theorem Props.vrev64q_s8_source [Dialect] (vec : int8x16_t) :
    Runs Source.vrev64q_s8 [.ofVec vec] (Obj.ofVec <$> Model.vrev64q_s8 vec) := by
  refine ⟨_, Source.vrev64q_s8_parse, 1000, fun fuel hf => ?_⟩
  simp only [Source.vrev64q_s8_ast, Model.vrev64q_s8]
  cpp_simp
  cpp_loop (fun r => [(114, .vec .s8 16 r), (7759203, .vec .s8 16 (Arr.ofVec vec))])
  · rintro i r h1 h2
    cpp_body
  · rintro r
    cpp_simp

/-- `neon_sim.cpp:5875-5886` -/
cpp_source Source.vrev64q_s16 "int16x8_t vrev64q_s16(int16x8_t vec)
{
    int16x8_t r;
    for (int i = 0; i < 4; i += 4)
    {
        r.val[i + 0] = vec.val[i + 3];
        r.val[i + 1] = vec.val[i + 2];
        r.val[i + 2] = vec.val[i + 1];
        r.val[i + 3] = vec.val[i + 0];
    }
    return r;
}
"

theorem Props.vrev64q_s16_source [Dialect] (vec : int16x8_t) :
    Runs Source.vrev64q_s16 [.ofVec vec] (Obj.ofVec <$> Model.vrev64q_s16 vec) := by
  refine ⟨_, Source.vrev64q_s16_parse, 1000, fun fuel hf => ?_⟩
  simp only [Source.vrev64q_s16_ast, Model.vrev64q_s16]
  cpp_simp
  cpp_loop (fun r => [(114, .vec .s16 8 r), (7759203, .vec .s16 8 (Arr.ofVec vec))])
  · rintro i r h1 h2
    cpp_body
  · rintro r
    cpp_simp

/-- `neon_sim.cpp:5888-5897` -/
cpp_source Source.vrev64q_s32 "int32x4_t vrev64q_s32(int32x4_t vec)
{
    int32x4_t r;
    for (int i = 0; i < 4; i += 2)
    {
        r.val[i + 0] = vec.val[i + 1];
        r.val[i + 1] = vec.val[i + 0];
    }
    return r;
}
"

theorem Props.vrev64q_s32_source [Dialect] (vec : int32x4_t) :
    Runs Source.vrev64q_s32 [.ofVec vec] (Obj.ofVec <$> Model.vrev64q_s32 vec) := by
  refine ⟨_, Source.vrev64q_s32_parse, 1000, fun fuel hf => ?_⟩
  simp only [Source.vrev64q_s32_ast, Model.vrev64q_s32]
  cpp_simp
  cpp_loop (fun r => [(114, .vec .s32 4 r), (7759203, .vec .s32 4 (Arr.ofVec vec))])
  · rintro i r h1 h2
    cpp_body
  · rintro r
    cpp_simp

/-- `neon_sim.cpp:5899-5914` -/
cpp_source Source.vrev64q_u8 "uint8x16_t vrev64q_u8(uint8x16_t vec)
{
    uint8x16_t r;
    for (int i = 0; i < 16; i += 8)
    {
        r.val[i + 0] = vec.val[i + 7];
        r.val[i + 1] = vec.val[i + 6];
        r.val[i + 2] = vec.val[i + 5];
        r.val[i + 3] = vec.val[i + 4];
        r.val[i + 4] = vec.val[i + 3];
        r.val[i + 5] = vec.val[i + 2];
        r.val[i + 6] = vec.val[i + 1];
        r.val[i + 7] = vec.val[i + 0];
    }
    return r;
}
"

theorem Props.vrev64q_u8_source [Dialect] (vec : uint8x16_t) :
    Runs Source.vrev64q_u8 [.ofVec vec] (Obj.ofVec <$> Model.vrev64q_u8 vec) := by
  refine ⟨_, Source.vrev64q_u8_parse, 1000, fun fuel hf => ?_⟩
  simp only [Source.vrev64q_u8_ast, Model.vrev64q_u8]
  cpp_simp
  cpp_loop (fun r => [(114, .vec .u8 16 r), (7759203, .vec .u8 16 (Arr.ofVec vec))])
  · rintro i r h1 h2
    cpp_body
  · rintro r
    cpp_simp

/-- `neon_sim.cpp:5916-5927` -/
cpp_source Source.vrev64q_u16 "uint16x8_t vrev64q_u16(uint16x8_t vec)
{
    uint16x8_t r;
    for (int i = 0; i < 8; i += 4)
    {
        r.val[i + 0] = vec.val[i + 3];
        r.val[i + 1] = vec.val[i + 2];
        r.val[i + 2] = vec.val[i + 1];
        r.val[i + 3] = vec.val[i + 0];
    }
    return r;
}
"

theorem Props.vrev64q_u16_source [Dialect] (vec : uint16x8_t) :
    Runs Source.vrev64q_u16 [.ofVec vec] (Obj.ofVec <$> Model.vrev64q_u16 vec) := by
  refine ⟨_, Source.vrev64q_u16_parse, 1000, fun fuel hf => ?_⟩
  simp only [Source.vrev64q_u16_ast, Model.vrev64q_u16]
  cpp_simp
  cpp_loop (fun r => [(114, .vec .u16 8 r), (7759203, .vec .u16 8 (Arr.ofVec vec))])
  · rintro i r h1 h2
    cpp_body
  · rintro r
    cpp_simp

/-- `neon_sim.cpp:5929-5938` -/
cpp_source Source.vrev64q_u32 "uint32x4_t vrev64q_u32(uint32x4_t vec)
{
    uint32x4_t r;
    for (int i = 0; i < 4; i += 2)
    {
        r.val[i + 0] = vec.val[i + 1];
        r.val[i + 1] = vec.val[i + 0];
    }
    return r;
}
"

theorem Props.vrev64q_u32_source [Dialect] (vec : uint32x4_t) :
    Runs Source.vrev64q_u32 [.ofVec vec] (Obj.ofVec <$> Model.vrev64q_u32 vec) := by
  refine ⟨_, Source.vrev64q_u32_parse, 1000, fun fuel hf => ?_⟩
  simp only [Source.vrev64q_u32_ast, Model.vrev64q_u32]
  cpp_simp
  cpp_loop (fun r => [(114, .vec .u32 4 r), (7759203, .vec .u32 4 (Arr.ofVec vec))])
  · rintro i r h1 h2
    cpp_body
  · rintro r
    cpp_simp

/-- `neon_sim.cpp:5940-5949` -/
cpp_source Source.vrev64q_f32 "float32x4_t vrev64q_f32(float32x4_t vec)
{
    float32x4_t r;
    for (int i = 0; i < 4; i += 2)
    {
        r.val[i + 0] = vec.val[i + 1];
        r.val[i + 1] = vec.val[i + 0];
    }
    return r;
}
"

theorem Props.vrev64q_f32_source [Dialect] (vec : float32x4_t) :
    Runs Source.vrev64q_f32 [.ofVec vec] (Obj.ofVec <$> Model.vrev64q_f32 vec) := by
  refine ⟨_, Source.vrev64q_f32_parse, 1000, fun fuel hf => ?_⟩
  simp only [Source.vrev64q_f32_ast, Model.vrev64q_f32]
  cpp_simp
  cpp_loop (fun r => [(114, .vec .f32 4 r), (7759203, .vec .f32 4 (Arr.ofVec vec))])
  · rintro i r h1 h2
    cpp_body
  · rintro r
    cpp_simp

/-- `neon_sim.cpp:5954-5962` -/
cpp_source Source.vdiv_f32 "float32x2_t vdiv_f32(float32x2_t a, float32x2_t b)
{
    float32x2_t r;
    for (int i = 0; i < 2; i++)
    {
        r.val[i] =  a.val[i] / b.val[i];
    }
    return r;
}
"

theorem Props.vdiv_f32_source [Dialect] (a : float32x2_t) (b : float32x2_t) :
    Runs Source.vdiv_f32 [.ofVec a, .ofVec b] (Obj.ofVec <$> Model.vdiv_f32 a b) := by
  refine ⟨_, Source.vdiv_f32_parse, 1000, fun fuel hf => ?_⟩
  simp only [Source.vdiv_f32_ast, Model.vdiv_f32]
  cpp_simp
  cpp_loop (fun r => [(114, .vec .f32 2 r), (98, .vec .f32 2 (Arr.ofVec b)), (97, .vec .f32 2 (Arr.ofVec a))])
  · rintro i r h1 h2
    cpp_body
  · rintro r
    cpp_simp

/-- `neon_sim.cpp:5964-5972` -/
cpp_source Source.vdiv_f64 "float64x1_t vdiv_f64(float64x1_t a, float64x1_t b)
{
    float64x1_t r;
    for (int i = 0; i < 1; i++)
    {
        r.val[i] =  a.val[i] / b.val[i];
    }
    return r;
}
"

theorem Props.vdiv_f64_source [Dialect] (a : float64x1_t) (b : float64x1_t) :
    Runs Source.vdiv_f64 [.ofVec a, .ofVec b] (Obj.ofVec <$> Model.vdiv_f64 a b) := by
  refine ⟨_, Source.vdiv_f64_parse, 1000, fun fuel hf => ?_⟩
  simp only [Source.vdiv_f64_ast, Model.vdiv_f64]
  cpp_simp
  cpp_loop (fun r => [(114, .vec .f64 1 r), (98, .vec .f64 1 (Arr.ofVec b)), (97, .vec .f64 1 (Arr.ofVec a))])
  · rintro i r h1 h2
    cpp_body
  · rintro r
    cpp_simp

/-- `neon_sim.cpp:5977-5985` -/
cpp_source Source.vdivq_f32 "float32x4_t vdivq_f32(float32x4_t a, float32x4_t b)
{
    float32x4_t r;
    for (int i = 0; i < 4; i++)
    {
        r.val[i] =  a.val[i] / b.val[i];
    }
    return r;
}
"

theorem Props.vdivq_f32_source [Dialect] (a : float32x4_t) (b : float32x4_t) :
    Runs Source.vdivq_f32 [.ofVec a, .ofVec b] (Obj.ofVec <$> Model.vdivq_f32 a b) := by
  refine ⟨_, Source.vdivq_f32_parse, 1000, fun fuel hf => ?_⟩
  simp only [Source.vdivq_f32_ast, Model.vdivq_f32]
  cpp_simp
  cpp_loop (fun r => [(114, .vec .f32 4 r), (98, .vec .f32 4 (Arr.ofVec b)), (97, .vec .f32 4 (Arr.ofVec a))])
  · rintro i r h1 h2
    cpp_body
  · rintro r
    cpp_simp

/-- `neon_sim.cpp:5987-5995` -/
cpp_source Source.vdivq_f64 "float64x2_t vdivq_f64(float64x2_t a, float64x2_t b)
{
    float64x2_t r;
    for (int i = 0; i < 2; i++)
    {
        r.val[i] =  a.val[i] / b.val[i];
    }
    return r;
}
"

theorem Props.vdivq_f64_source [Dialect] (a : float64x2_t) (b : float64x2_t) :
    Runs Source.vdivq_f64 [.ofVec a, .ofVec b] (Obj.ofVec <$> Model.vdivq_f64 a b) := by
  refine ⟨_, Source.vdivq_f64_parse, 1000, fun fuel hf => ?_⟩
  simp only [Source.vdivq_f64_ast, Model.vdivq_f64]
  cpp_simp
  cpp_loop (fun r => [(114, .vec .f64 2 r), (98, .vec .f64 2 (Arr.ofVec b)), (97, .vec .f64 2 (Arr.ofVec a))])
  · rintro i r h1 h2
    cpp_body
  · rintro r
    cpp_simp

/-- `neon_sim.cpp:6001-6009` -/
cpp_source Source.vqshrn_n_s16 "int8x8_t vqshrn_n_s16(int16x8_t a, const int n)
{
    int8x8_t r;
    for (int i = 0; i < 8; i++)
    {
        r.val[i] =  std::min(std::max(a.val[i] >> n, INT8_MIN), INT8_MAX);
    }
    return r;
}
"

theorem Props.vqshrn_n_s16_source [Dialect] (a : int16x8_t) (n : Int) (hn : -2147483648 ≤ n ∧ n ≤ 2147483647) :
    Runs Source.vqshrn_n_s16 [.ofVec a, .ofInt n] (Obj.ofVec <$> Model.vqshrn_n_s16 a n) := by
  refine ⟨_, Source.vqshrn_n_s16_parse, 1000, fun fuel hf => ?_⟩
  simp only [Source.vqshrn_n_s16_ast, Model.vqshrn_n_s16]
  cpp_simp
  cpp_loop (fun r => [(114, .vec .s8 8 r), (110, .sc .s32 (some (vint n))), (97, .vec .s16 8 (Arr.ofVec a))])
  · rintro i r h1 h2
    cpp_body
  · rintro r
    cpp_simp

/-- `neon_sim.cpp:6011-6019` -/
cpp_source Source.vqshrn_n_s32 "int16x4_t vqshrn_n_s32(int32x4_t a, const int n)
{
    int16x4_t r;
    for (int i = 0; i < 4; i++)
    {
        r.val[i] =  std::min(std::max(a.val[i] >> n, INT16_MIN), INT16_MAX);
    }
    return r;
}
"

theorem Props.vqshrn_n_s32_source [Dialect] (a : int32x4_t) (n : Int) (hn : -2147483648 ≤ n ∧ n ≤ 2147483647) :
    Runs Source.vqshrn_n_s32 [.ofVec a, .ofInt n] (Obj.ofVec <$> Model.vqshrn_n_s32 a n) := by
  refine ⟨_, Source.vqshrn_n_s32_parse, 1000, fun fuel hf => ?_⟩
  simp only [Source.vqshrn_n_s32_ast, Model.vqshrn_n_s32]
  cpp_simp
  cpp_loop (fun r => [(114, .vec .s16 4 r), (110, .sc .s32 (some (vint n))), (97, .vec .s32 4 (Arr.ofVec a))])
  · rintro i r h1 h2
    cpp_body
  · rintro r
    cpp_simp

/-- `neon_sim.cpp:6021-6029` -/
cpp_source Source.vqshrn_n_s64 "int32x2_t vqshrn_n_s64(int64x2_t a, const int n)
{
    int32x2_t r;
    for (int i = 0; i < 2; i++)
    {
        r.val[i] =  std::min<int32_t>(std::max<int64_t>(a.val[i] >> n, INT32_MIN), INT32_MAX);
    }
    return r;
}
"

theorem Props.vqshrn_n_s64_source [Dialect] (a : int64x2_t) (n : Int) (hn : -2147483648 ≤ n ∧ n ≤ 2147483647) :
    Runs Source.vqshrn_n_s64 [.ofVec a, .ofInt n] (Obj.ofVec <$> Model.vqshrn_n_s64 a n) := by
  refine ⟨_, Source.vqshrn_n_s64_parse, 1000, fun fuel hf => ?_⟩
  simp only [Source.vqshrn_n_s64_ast, Model.vqshrn_n_s64]
  cpp_simp
  cpp_loop (fun r => [(114, .vec .s32 2 r), (110, .sc .s32 (some (vint n))), (97, .vec .s64 2 (Arr.ofVec a))])
  · rintro i r h1 h2
    cpp_body
  · rintro r
    cpp_simp

/-- `neon_sim.cpp:6031-6039` -/
cpp_source Source.vqshrn_n_u16 "uint8x8_t vqshrn_n_u16(uint16x8_t a, const int n)
{
    uint8x8_t r;
    for (int i = 0; i < 8; i++)
    {
        r.val[i] =  std::min(a.val[i] >> n, UINT8_MAX);
    }
    return r;
}
"

theorem Props.vqshrn_n_u16_source [Dialect] (a : uint16x8_t) (n : Int) (hn : -2147483648 ≤ n ∧ n ≤ 2147483647) :
    Runs Source.vqshrn_n_u16 [.ofVec a, .ofInt n] (Obj.ofVec <$> Model.vqshrn_n_u16 a n) := by
  refine ⟨_, Source.vqshrn_n_u16_parse, 1000, fun fuel hf => ?_⟩
  simp only [Source.vqshrn_n_u16_ast, Model.vqshrn_n_u16]
  cpp_simp
  cpp_loop (fun r => [(114, .vec .u8 8 r), (110, .sc .s32 (some (vint n))), (97, .vec .u16 8 (Arr.ofVec a))])
  · rintro i r h1 h2
    cpp_body
  · rintro r
    cpp_simp

/-- `neon_sim.cpp:6041-6049` -/
cpp_source Source.vqshrn_n_u32 "uint16x4_t vqshrn_n_u32(uint32x4_t a, const int n)
{
    uint16x4_t r;
    for (int i = 0; i < 4; i++)
    {
        r.val[i] =  std::min<uint32_t>(a.val[i] >> n, UINT16_MAX);
    }
    return r;
}
"

theorem Props.vqshrn_n_u32_source [Dialect] (a : uint32x4_t) (n : Int) (hn : -2147483648 ≤ n ∧ n ≤ 2147483647) :
    Runs Source.vqshrn_n_u32 [.ofVec a, .ofInt n] (Obj.ofVec <$> Model.vqshrn_n_u32 a n) := by
  refine ⟨_, Source.vqshrn_n_u32_parse, 1000, fun fuel hf => ?_⟩
  simp only [Source.vqshrn_n_u32_ast, Model.vqshrn_n_u32]
  cpp_simp
  cpp_loop (fun r => [(114, .vec .u16 4 r), (110, .sc .s32 (some (vint n))), (97, .vec .u32 4 (Arr.ofVec a))])
  · rintro i r h1 h2
    cpp_body
  · rintro r
    cpp_simp

/-- `neon_sim.cpp:6051-6059` -/
cpp_source Source.vqshrn_n_u64 "uint32x2_t vqshrn_n_u64(uint64x2_t a, const int n)
{
    uint32x2_t r;
    for (int i = 0; i < 2; i++)
    {
        r.val[i] =  std::min<uint64_t>(a.val[i] >> n, UINT32_MAX);
    }
    return r;
}
"

theorem Props.vqshrn_n_u64_source [Dialect] (a : uint64x2_t) (n : Int) (hn : -2147483648 ≤ n ∧ n ≤ 2147483647) :
    Runs Source.vqshrn_n_u64 [.ofVec a, .ofInt n] (Obj.ofVec <$> Model.vqshrn_n_u64 a n) := by
  refine ⟨_, Source.vqshrn_n_u64_parse, 1000, fun fuel hf => ?_⟩
  simp only [Source.vqshrn_n_u64_ast, Model.vqshrn_n_u64]
  cpp_simp
  cpp_loop (fun r => [(114, .vec .u32 2 r), (110, .sc .s32 (some (vint n))), (97, .vec .u64 2 (Arr.ofVec a))])
  · rintro i r h1 h2
    cpp_body
  · rintro r
    cpp_simp

end Verif
