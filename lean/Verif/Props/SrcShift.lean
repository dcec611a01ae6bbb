import Verif.Cpp.Command
import Verif.Model.Shift

/-! Source text of the functions in `Verif/Model/Shift.lean`, and the theorem that running it is running the model.
Generated by `tools/gen_source.py`. -/

set_option linter.unusedVariables false
set_option linter.unusedSimpArgs false
set_option maxHeartbeats 1000000

open Verif.Cpp

namespace Verif

/-- `neon_sim.cpp:3754-3768` -/
cpp_source Source.vshrn_n_s16 "int8x8_t vshrn_n_s16(int16x8_t a, const int n)
{
    if (n < 1 || n > 8)
    {
        fprintf(stderr, \"%s: param n not in range [1, 8]\\n\", __FUNCTION__);
        abort();
    }

    int8x8_t r;
    for (int i = 0; i < 8; i++)
    {
        r.val[i] =  a.val[i] >> n;
    }
    return r;
}
"

theorem Props.vshrn_n_s16_source [Dialect] (a : int16x8_t) (n : Int) (hn : -2147483648 ≤ n ∧ n ≤ 2147483647) :
    Runs Source.vshrn_n_s16 [.ofVec a, .ofInt n] (Obj.ofVec <$> Model.vshrn_n_s16 a n) := by
  refine ⟨_, Source.vshrn_n_s16_parse, 1000, fun fuel hf => ?_⟩
  simp only [Source.vshrn_n_s16_ast, Model.vshrn_n_s16]
  cpp_simp
  cpp_check
  · try cpp_simp
    cpp_loop (fun r => [(114, .vec .s8 8 r), (110, .sc .s32 (some (vint n))), (97, .vec .s16 8 (Arr.ofVec a))])
    · rintro i r h1 h2
      cpp_body
    · rintro r
      cpp_simp

/-- `neon_sim.cpp:3770-3784` -/
cpp_source Source.vshr_n_u16 "uint16x4_t vshr_n_u16(uint16x4_t v, const int n)
{
    if (n < 1 || n > 8)
    {
        fprintf(stderr, \"%s: param n not in range [1, 8]\\n\", __FUNCTION__);
        abort();
    }

    uint16x4_t D;
    for (int i = 0; i < 4; i++)
    {
        D.val[i] = v.val[i] >> n;
    }
    return D;
}
"

theorem Props.vshr_n_u16_source [Dialect] (v : uint16x4_t) (n : Int) (hn : -2147483648 ≤ n ∧ n ≤ 2147483647) :
    Runs Source.vshr_n_u16 [.ofVec v, .ofInt n] (Obj.ofVec <$> Model.vshr_n_u16 v n) := by
  refine ⟨_, Source.vshr_n_u16_parse, 1000, fun fuel hf => ?_⟩
  simp only [Source.vshr_n_u16_ast, Model.vshr_n_u16]
  cpp_simp
  cpp_check
  · try cpp_simp
    cpp_loop (fun D => [(68, .vec .u16 4 D), (110, .sc .s32 (some (vint n))), (118, .vec .u16 4 (Arr.ofVec v))])
    · rintro i D h1 h2
      cpp_body
    · rintro D
      cpp_simp

/-- `neon_sim.cpp:3786-3800` -/
cpp_source Source.vshrn_n_s32 "int16x4_t vshrn_n_s32(int32x4_t a, const int n)
{
    if (n < 1 || n > 16)
    {
        fprintf(stderr, \"%s: param n not in range [1, 8]\\n\", __FUNCTION__);
        abort();
    }

    int16x4_t r;
    for (int i = 0; i < 4; i++)
    {
        r.val[i] =  a.val[i] >> n;
    }
    return r;
}
"

theorem Props.vshrn_n_s32_source [Dialect] (a : int32x4_t) (n : Int) (hn : -2147483648 ≤ n ∧ n ≤ 2147483647) :
    Runs Source.vshrn_n_s32 [.ofVec a, .ofInt n] (Obj.ofVec <$> Model.vshrn_n_s32 a n) := by
  refine ⟨_, Source.vshrn_n_s32_parse, 1000, fun fuel hf => ?_⟩
  simp only [Source.vshrn_n_s32_ast, Model.vshrn_n_s32]
  cpp_simp
  cpp_check
  · try cpp_simp
    cpp_loop (fun r => [(114, .vec .s16 4 r), (110, .sc .s32 (some (vint n))), (97, .vec .s32 4 (Arr.ofVec a))])
    · rintro i r h1 h2
      cpp_body
    · rintro r
      cpp_simp

/-- `neon_sim.cpp:3802-3816` -/
cpp_source Source.vshrn_n_s64 "int32x2_t vshrn_n_s64(int64x2_t a, const int n)
{
    if (n < 1 || n > 32)
    {
        fprintf(stderr, \"%s: param n not in range [1, 8]\\n\", __FUNCTION__);
        abort();
    }

    int32x2_t r;
    for (int i = 0; i < 2; i++)
    {
        r.val[i] =  a.val[i] >> n;
    }
    return r;
}
"

theorem Props.vshrn_n_s64_source [Dialect] (a : int64x2_t) (n : Int) (hn : -2147483648 ≤ n ∧ n ≤ 2147483647) :
    Runs Source.vshrn_n_s64 [.ofVec a, .ofInt n] (Obj.ofVec <$> Model.vshrn_n_s64 a n) := by
  refine ⟨_, Source.vshrn_n_s64_parse, 1000, fun fuel hf => ?_⟩
  simp only [Source.vshrn_n_s64_ast, Model.vshrn_n_s64]
  cpp_simp
  cpp_check
  · try cpp_simp
    cpp_loop (fun r => [(114, .vec .s32 2 r), (110, .sc .s32 (some (vint n))), (97, .vec .s64 2 (Arr.ofVec a))])
    · rintro i r h1 h2
      cpp_body
    · rintro r
      cpp_simp

/-- `neon_sim.cpp:3818-3832` -/
cpp_source Source.vshrn_n_u16 "uint8x8_t vshrn_n_u16(uint16x8_t a, const int n)
{
    if (n < 1 || n > 8)
    {
        fprintf(stderr, \"%s: param n not in range [1, 8]\\n\", __FUNCTION__);
        abort();
    }

    uint8x8_t r;
    for (int i = 0; i < 8; i++)
    {
        r.val[i] =  a.val[i] >> n;
    }
    return r;
}
"

theorem Props.vshrn_n_u16_source [Dialect] (a : uint16x8_t) (n : Int) (hn : -2147483648 ≤ n ∧ n ≤ 2147483647) :
    Runs Source.vshrn_n_u16 [.ofVec a, .ofInt n] (Obj.ofVec <$> Model.vshrn_n_u16 a n) := by
  refine ⟨_, Source.vshrn_n_u16_parse, 1000, fun fuel hf => ?_⟩
  simp only [Source.vshrn_n_u16_ast, Model.vshrn_n_u16]
  cpp_simp
  cpp_check
  · try cpp_simp
    cpp_loop (fun r => [(114, .vec .u8 8 r), (110, .sc .s32 (some (vint n))), (97, .vec .u16 8 (Arr.ofVec a))])
    · rintro i r h1 h2
      cpp_body
    · rintro r
      cpp_simp

/-- `neon_sim.cpp:3834-3848` -/
cpp_source Source.vshrn_n_u32 "uint16x4_t vshrn_n_u32(uint32x4_t a, const int n)
{
    if (n < 1 || n > 16)
    {
        fprintf(stderr, \"%s: param n not in range [1, 8]\\n\", __FUNCTION__);
        abort();
    }

    uint16x4_t r;
    for (int i = 0; i < 4; i++)
    {
        r.val[i] =  a.val[i] >> n;
    }
    return r;
}
"

theorem Props.vshrn_n_u32_source [Dialect] (a : uint32x4_t) (n : Int) (hn : -2147483648 ≤ n ∧ n ≤ 2147483647) :
    Runs Source.vshrn_n_u32 [.ofVec a, .ofInt n] (Obj.ofVec <$> Model.vshrn_n_u32 a n) := by
  refine ⟨_, Source.vshrn_n_u32_parse, 1000, fun fuel hf => ?_⟩
  simp only [Source.vshrn_n_u32_ast, Model.vshrn_n_u32]
  cpp_simp
  cpp_check
  · try cpp_simp
    cpp_loop (fun r => [(114, .vec .u16 4 r), (110, .sc .s32 (some (vint n))), (97, .vec .u32 4 (Arr.ofVec a))])
    · rintro i r h1 h2
      cpp_body
    · rintro r
      cpp_simp

/-- `neon_sim.cpp:3850-3864` -/
cpp_source Source.vshrn_n_u64 "uint32x2_t vshrn_n_u64(uint64x2_t a, const int n)
{
    if (n < 1 || n > 32)
    {
        fprintf(stderr, \"%s: param n not in range [1, 8]\\n\", __FUNCTION__);
        abort();
    }

    uint32x2_t r;
    for (int i = 0; i < 2; i++)
    {
        r.val[i] =  a.val[i] >> n;
    }
    return r;
}
"

theorem Props.vshrn_n_u64_source [Dialect] (a : uint64x2_t) (n : Int) (hn : -2147483648 ≤ n ∧ n ≤ 2147483647) :
    Runs Source.vshrn_n_u64 [.ofVec a, .ofInt n] (Obj.ofVec <$> Model.vshrn_n_u64 a n) := by
  refine ⟨_, Source.vshrn_n_u64_parse, 1000, fun fuel hf => ?_⟩
  simp only [Source.vshrn_n_u64_ast, Model.vshrn_n_u64]
  cpp_simp
  cpp_check
  · try cpp_simp
    cpp_loop (fun r => [(114, .vec .u32 2 r), (110, .sc .s32 (some (vint n))), (97, .vec .u64 2 (Arr.ofVec a))])
    · rintro i r h1 h2
      cpp_body
    · rintro r
      cpp_simp

/-- `neon_sim.cpp:3867-3890` -/
cpp_source Source.vqshrun_n_s16 "uint8x8_t vqshrun_n_s16(int16x8_t v, const int n)
{
    if (n < 1 || n > 8)
    {
        fprintf(stderr, \"%s: param n not in range [1, 8]\\n\", __FUNCTION__);
        abort();
    }

    uint8x8_t D;
    for (int i = 0; i < 8; i++)
    {
        int16_t temp = v.val[i] >> n;
        if (temp > UINT8_MAX)
        {
            temp = UINT8_MAX;
        }
        else if (temp < 0)
        {
            temp = 0;
        }
        D.val[i] = temp;
    }
    return D;
}
"

theorem Props.vqshrun_n_s16_source [Dialect] (v : int16x8_t) (n : Int) (hn : -2147483648 ≤ n ∧ n ≤ 2147483647) :
    Runs Source.vqshrun_n_s16 [.ofVec v, .ofInt n] (Obj.ofVec <$> Model.vqshrun_n_s16 v n) := by
  refine ⟨_, Source.vqshrun_n_s16_parse, 1000, fun fuel hf => ?_⟩
  simp only [Source.vqshrun_n_s16_ast, Model.vqshrun_n_s16]
  cpp_simp
  cpp_check
  · try cpp_simp
    cpp_loop (fun D => [(68, .vec .u8 8 D), (110, .sc .s32 (some (vint n))), (118, .vec .s16 8 (Arr.ofVec v))])
    · rintro i D h1 h2
      cpp_body
    · rintro D
      cpp_simp

/-- `neon_sim.cpp:3892-3913` -/
cpp_source Source.vqshrun_n_s32 "uint16x4_t vqshrun_n_s32(int32x4_t v, const int n)
{
    if (n < 1 || n > 16)
    {
        fprintf(stderr, \"%s: param n out of range\\n\", __FUNCTION__);
        abort();
    }
    uint16x4_t D;
    for (int i = 0; i < 4; i++)
    {
        int32_t temp = (v.val[i] + (1 << (n - 1))) >> n;
        if (temp > UINT16_MAX)
        {
            temp = UINT16_MAX;
        }
        else if (temp < 0)
        {
            temp = 0;
        }
    }
    return D;
}
"

theorem Props.vqshrun_n_s32_source [Dialect] (v : int32x4_t) (n : Int) (hn : -2147483648 ≤ n ∧ n ≤ 2147483647) :
    Runs Source.vqshrun_n_s32 [.ofVec v, .ofInt n] (Obj.ofVec <$> Model.vqshrun_n_s32 v n) := by
  refine ⟨_, Source.vqshrun_n_s32_parse, 1000, fun fuel hf => ?_⟩
  simp only [Source.vqshrun_n_s32_ast, Model.vqshrun_n_s32]
  cpp_simp
  cpp_check
  · try cpp_simp
    cpp_loop (fun () => [(68, .vec .u16 4 Arr.undef), (110, .sc .s32 (some (vint n))), (118, .vec .s32 4 (Arr.ofVec v))])
    · rintro i ⟨⟩ h1 h2
      cpp_body
    · rintro ⟨⟩
      cpp_simp

/-- `neon_sim.cpp:3916-3937` -/
cpp_source Source.vqshrun_n_s64 "uint32x2_t vqshrun_n_s64(int64x2_t v, const int n)
{
    if (n < 1 || n > 32)
    {
        fprintf(stderr, \"%s: param n out of range\\n\", __FUNCTION__);
        abort();
    }
    uint32x2_t D;
    for (int i = 0; i < 2; i++)
    {
        int64_t temp = (v.val[i] + (1 << (n - 1))) >> n;
        if (temp > UINT32_MAX)
        {
            temp = UINT32_MAX;
        }
        else if (temp < 0)
        {
            temp = 0;
        }
    }
    return D;
}
"

theorem Props.vqshrun_n_s64_source [Dialect] (v : int64x2_t) (n : Int) (hn : -2147483648 ≤ n ∧ n ≤ 2147483647) :
    Runs Source.vqshrun_n_s64 [.ofVec v, .ofInt n] (Obj.ofVec <$> Model.vqshrun_n_s64 v n) := by
  refine ⟨_, Source.vqshrun_n_s64_parse, 1000, fun fuel hf => ?_⟩
  simp only [Source.vqshrun_n_s64_ast, Model.vqshrun_n_s64]
  cpp_simp
  cpp_check
  · try cpp_simp
    cpp_loop (fun () => [(68, .vec .u32 2 Arr.undef), (110, .sc .s32 (some (vint n))), (118, .vec .s64 2 (Arr.ofVec v))])
    · rintro i ⟨⟩ h1 h2
      cpp_body
    · rintro ⟨⟩
      cpp_simp

/-- `neon_sim.cpp:3939-3961` -/
cpp_source Source.vqrshrun_n_s16 "uint8x8_t vqrshrun_n_s16(int16x8_t v, const int n)
{
    if (n < 1 || n > 8)
    {
        fprintf(stderr, \"%s: param n not in range [1, 8]\\n\", __FUNCTION__);
        abort();
    }
    uint8x8_t D;
    for (int i = 0; i < 8; i++)
    {
        int16_t temp = (v.val[i] + (1 << (n - 1))) >> n;
        if (temp > UINT8_MAX)
        {
            temp = UINT8_MAX;
        }
        else if (temp < 0)
        {
            temp = 0;
        }
        D.val[i] = temp;
    }
    return D;
}
"

theorem Props.vqrshrun_n_s16_source [Dialect] (v : int16x8_t) (n : Int) (hn : -2147483648 ≤ n ∧ n ≤ 2147483647) :
    Runs Source.vqrshrun_n_s16 [.ofVec v, .ofInt n] (Obj.ofVec <$> Model.vqrshrun_n_s16 v n) := by
  refine ⟨_, Source.vqrshrun_n_s16_parse, 1000, fun fuel hf => ?_⟩
  simp only [Source.vqrshrun_n_s16_ast, Model.vqrshrun_n_s16]
  cpp_simp
  cpp_check
  · try cpp_simp
    cpp_loop (fun D => [(68, .vec .u8 8 D), (110, .sc .s32 (some (vint n))), (118, .vec .s16 8 (Arr.ofVec v))])
    · rintro i D h1 h2
      cpp_body
    · rintro D
      cpp_simp

/-- `neon_sim.cpp:3963-3972` -/
cpp_source Source.vrshrn_n_u16 "uint8x8_t vrshrn_n_u16(uint16x8_t a, const int n)
{
    uint8x8_t r;
    const int delta = (1 << (n - 1));
    for (int i = 0; i < 8; i++)
    {
        r.val[i] =  (a.val[i] + delta) >> n;
    }
    return r;
}
"

theorem Props.vrshrn_n_u16_source [Dialect] (a : uint16x8_t) (n : Int) (hn : -2147483648 ≤ n ∧ n ≤ 2147483647) :
    Runs Source.vrshrn_n_u16 [.ofVec a, .ofInt n] (Obj.ofVec <$> Model.vrshrn_n_u16 a n) := by
  refine ⟨_, Source.vrshrn_n_u16_parse, 1000, fun fuel hf => ?_⟩
  simp only [Source.vrshrn_n_u16_ast, Model.vrshrn_n_u16]
  cpp_simp
  cpp_bind t
  cpp_bind t
  cpp_bind delta
  cpp_loop (fun r => [(431198336097, .sc .s32 (some delta)), (114, .vec .u8 8 r), (110, .sc .s32 (some (vint n))), (97, .vec .u16 8 (Arr.ofVec a))])
  · rintro i r h1 h2
    cpp_body
  · rintro r
    cpp_simp

/-- `neon_sim.cpp:3974-3982` -/
cpp_source Source.vsraq_n_s32 "int32x4_t vsraq_n_s32(int32x4_t a, int32x4_t b, const int n)
{
    int32x4_t r;
    for (int i = 0; i < 4; i++)
    {
        r.val[i] =  (a.val[i] >> n) + (b.val[i] >> n);
    }
    return r;
}
"

theorem Props.vsraq_n_s32_source [Dialect] (a : int32x4_t) (b : int32x4_t) (n : Int) (hn : -2147483648 ≤ n ∧ n ≤ 2147483647) :
    Runs Source.vsraq_n_s32 [.ofVec a, .ofVec b, .ofInt n] (Obj.ofVec <$> Model.vsraq_n_s32 a b n) := by
  refine ⟨_, Source.vsraq_n_s32_parse, 1000, fun fuel hf => ?_⟩
  simp only [Source.vsraq_n_s32_ast, Model.vsraq_n_s32]
  cpp_simp
  cpp_loop (fun r => [(114, .vec .s32 4 r), (110, .sc .s32 (some (vint n))), (98, .vec .s32 4 (Arr.ofVec b)), (97, .vec .s32 4 (Arr.ofVec a))])
  · rintro i r h1 h2
    cpp_body
  · rintro r
    cpp_simp

/-- `neon_sim.cpp:3985-3993` -/
cpp_source Source.vshlq_n_s32 "int32x4_t vshlq_n_s32(int32x4_t M, const int n)
{
    int32x4_t D;
    for (int i = 0; i < 4; i++)
    {
        D.val[i] = M.val[i] << n;
    }
    return D;
}
"

theorem Props.vshlq_n_s32_source [Dialect] (M : int32x4_t) (n : Int) (hn : -2147483648 ≤ n ∧ n ≤ 2147483647) :
    Runs Source.vshlq_n_s32 [.ofVec M, .ofInt n] (Obj.ofVec <$> Model.vshlq_n_s32 M n) := by
  refine ⟨_, Source.vshlq_n_s32_parse, 1000, fun fuel hf => ?_⟩
  simp only [Source.vshlq_n_s32_ast, Model.vshlq_n_s32]
  cpp_simp
  cpp_loop (fun D => [(68, .vec .s32 4 D), (110, .sc .s32 (some (vint n))), (77, .vec .s32 4 (Arr.ofVec M))])
  · rintro i D h1 h2
    cpp_body
  · rintro D
    cpp_simp

/-- `neon_sim.cpp:3995-4003` -/
cpp_source Source.vshll_n_u8 "uint16x8_t vshll_n_u8(uint8x8_t a, const int n)
{
    uint16x8_t r;
    for (int i = 0; i < 8; i++)
    {
        r.val[i] =  (uint16_t)a.val[i] << n;
    }
    return r;
}
"

theorem Props.vshll_n_u8_source [Dialect] (a : uint8x8_t) (n : Int) (hn : -2147483648 ≤ n ∧ n ≤ 2147483647) :
    Runs Source.vshll_n_u8 [.ofVec a, .ofInt n] (Obj.ofVec <$> Model.vshll_n_u8 a n) := by
  refine ⟨_, Source.vshll_n_u8_parse, 1000, fun fuel hf => ?_⟩
  simp only [Source.vshll_n_u8_ast, Model.vshll_n_u8]
  cpp_simp
  cpp_loop (fun r => [(114, .vec .u16 8 r), (110, .sc .s32 (some (vint n))), (97, .vec .u8 8 (Arr.ofVec a))])
  · rintro i r h1 h2
    cpp_body
  · rintro r
    cpp_simp

end Verif
