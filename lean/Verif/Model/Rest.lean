import Verif.Types

/-! Generated from `neon_sim.cpp` by `tools/translate.py`. -/

set_option linter.unusedVariables false

namespace Verif.Model

variable [Dialect]

/-- `neon_sim.cpp:5544-5562`: `int8x8x2_t vzip_s8(int8x8_t a, int8x8_t b)` -/
def vzip_s8 (a b : int8x8_t) : C int8x8x2_t := do
  let r : Arr2 .s8 8 2 := Arr2.undef
  let vlen : Int := 8
  let r ← cfor 0 8 1 r fun i r => do
    let r ←
      if i % 2 = 0 then do
        let r ← r.set 0 i (← a.get (i / 2))
        let r ← r.set 1 i (← a.get ((i / 2) + (vlen / 2)))
        pure r
      else do
        let r ← r.set 0 i (← b.get (i / 2))
        let r ← r.set 1 i (← b.get ((i / 2) + (vlen / 2)))
        pure r
    pure r
  r.ret

/-- `neon_sim.cpp:5564-5582`: `uint8x8x2_t vzip_u8(uint8x8_t a, uint8x8_t b)` -/
def vzip_u8 (a b : uint8x8_t) : C uint8x8x2_t := do
  let r : Arr2 .u8 8 2 := Arr2.undef
  let vlen : Int := 8
  let r ← cfor 0 8 1 r fun i r => do
    let r ←
      if i % 2 = 0 then do
        let r ← r.set 0 i (← a.get (i / 2))
        let r ← r.set 1 i (← a.get ((i / 2) + (vlen / 2)))
        pure r
      else do
        let r ← r.set 0 i (← b.get (i / 2))
        let r ← r.set 1 i (← b.get ((i / 2) + (vlen / 2)))
        pure r
    pure r
  r.ret

/-- `neon_sim.cpp:5585-5600`: `uint8x8x2_t vuzp_u8(uint8x8_t a, uint8x8_t b)` -/
def vuzp_u8 (a b : uint8x8_t) : C uint8x8x2_t := do
  let r : Arr2 .u8 8 2 := Arr2.undef
  let r ← cfor 0 8 2 r fun i r => do
    let r ← r.set 0 (i / 2) (← a.get i)
    let r ← r.set 1 (i / 2) (← a.get (i + 1))
    pure r
  let r ← cfor 0 8 2 r fun i r => do
    let r ← r.set 0 ((i / 2) + 4) (← b.get i)
    let r ← r.set 1 ((i / 2) + 4) (← b.get (i + 1))
    pure r
  r.ret

/-- `neon_sim.cpp:5602-5617`: `int8x8x2_t vuzp_s8(int8x8_t a, int8x8_t b)` -/
def vuzp_s8 (a b : int8x8_t) : C int8x8x2_t := do
  let r : Arr2 .s8 8 2 := Arr2.undef
  let r ← cfor 0 8 2 r fun i r => do
    let r ← r.set 0 (i / 2) (← a.get i)
    let r ← r.set 1 (i / 2) (← a.get (i + 1))
    pure r
  let r ← cfor 0 8 2 r fun i r => do
    let r ← r.set 0 ((i / 2) + 4) (← b.get i)
    let r ← r.set 1 ((i / 2) + 4) (← b.get (i + 1))
    pure r
  r.ret

/-- `neon_sim.cpp:5620-5629`: `int8x8_t vrev16_s8(int8x8_t vec)` -/
def vrev16_s8 (vec : int8x8_t) : C int8x8_t := do
  let r : Arr .s8 8 := Arr.undef
  let r ← cfor 0 8 2 r fun i r => do
    let r ← r.set i (← vec.get (i + 1))
    let r ← r.set (i + 1) (← vec.get i)
    pure r
  r.ret

/-- `neon_sim.cpp:5631-5640`: `uint8x8_t vrev16_u8(uint8x8_t vec)` -/
def vrev16_u8 (vec : uint8x8_t) : C uint8x8_t := do
  let r : Arr .u8 8 := Arr.undef
  let r ← cfor 0 8 2 r fun i r => do
    let r ← r.set i (← vec.get (i + 1))
    let r ← r.set (i + 1) (← vec.get i)
    pure r
  r.ret

/-- `neon_sim.cpp:5643-5652`: `int8x16_t vrev16q_s8(int8x16_t vec)` -/
def vrev16q_s8 (vec : int8x16_t) : C int8x16_t := do
  let r : Arr .s8 16 := Arr.undef
  let r ← cfor 0 16 2 r fun i r => do
    let r ← r.set i (← vec.get (i + 1))
    let r ← r.set (i + 1) (← vec.get i)
    pure r
  r.ret

/-- `neon_sim.cpp:5654-5663`: `uint8x16_t vrev16q_u8(uint8x16_t vec)` -/
def vrev16q_u8 (vec : uint8x16_t) : C uint8x16_t := do
  let r : Arr .u8 16 := Arr.undef
  let r ← cfor 0 16 2 r fun i r => do
    let r ← r.set i (← vec.get (i + 1))
    let r ← r.set (i + 1) (← vec.get i)
    pure r
  r.ret

/-- `neon_sim.cpp:5666-5677`: `int8x8_t vrev32_s8(int8x8_t vec)` -/
def vrev32_s8 (vec : int8x8_t) : C int8x8_t := do
  let r : Arr .s8 8 := Arr.undef
  let r ← cfor 0 16 4 r fun i r => do
    let r ← r.set (i + 0) (← vec.get (i + 3))
    let r ← r.set (i + 1) (← vec.get (i + 2))
    let r ← r.set (i + 2) (← vec.get (i + 1))
    let r ← r.set (i + 3) (← vec.get (i + 0))
    pure r
  r.ret

/-- `neon_sim.cpp:5679-5688`: `int16x4_t vrev32_s16(int16x4_t vec)` -/
def vrev32_s16 (vec : int16x4_t) : C int16x4_t := do
  let r : Arr .s16 4 := Arr.undef
  let r ← cfor 0 4 2 r fun i r => do
    let r ← r.set (i + 0) (← vec.get (i + 1))
    let r ← r.set (i + 1) (← vec.get (i + 0))
    pure r
  r.ret

/-- `neon_sim.cpp:5690-5701`: `uint8x8_t vrev32_u8(uint8x8_t vec)` -/
def vrev32_u8 (vec : uint8x8_t) : C uint8x8_t := do
  let r : Arr .u8 8 := Arr.undef
  let r ← cfor 0 8 4 r fun i r => do
    let r ← r.set (i + 0) (← vec.get (i + 3))
    let r ← r.set (i + 1) (← vec.get (i + 2))
    let r ← r.set (i + 2) (← vec.get (i + 1))
    let r ← r.set (i + 3) (← vec.get (i + 0))
    pure r
  r.ret

/-- `neon_sim.cpp:5703-5712`: `uint16x4_t vrev32_u16(uint16x4_t vec)` -/
def vrev32_u16 (vec : uint16x4_t) : C uint16x4_t := do
  let r : Arr .u16 4 := Arr.undef
  let r ← cfor 0 4 2 r fun i r => do
    let r ← r.set (i + 0) (← vec.get (i + 1))
    let r ← r.set (i + 1) (← vec.get (i + 0))
    pure r
  r.ret

/-- `neon_sim.cpp:5715-5726`: `int8x16_t vrev32q_s8(int8x16_t vec)` -/
def vrev32q_s8 (vec : int8x16_t) : C int8x16_t := do
  let r : Arr .s8 16 := Arr.undef
  let r ← cfor 0 16 4 r fun i r => do
    let r ← r.set (i + 0) (← vec.get (i + 3))
    let r ← r.set (i + 1) (← vec.get (i + 2))
    let r ← r.set (i + 2) (← vec.get (i + 1))
    let r ← r.set (i + 3) (← vec.get (i + 0))
    pure r
  r.ret

/-- `neon_sim.cpp:5728-5737`: `int16x8_t vrev32q_s16(int16x8_t vec)` -/
def vrev32q_s16 (vec : int16x8_t) : C int16x8_t := do
  let r : Arr .s16 8 := Arr.undef
  let r ← cfor 0 8 2 r fun i r => do
    let r ← r.set (i + 0) (← vec.get (i + 1))
    let r ← r.set (i + 1) (← vec.get (i + 0))
    pure r
  r.ret

/-- `neon_sim.cpp:5739-5750`: `uint8x16_t vrev32q_u8(uint8x16_t vec)` -/
def vrev32q_u8 (vec : uint8x16_t) : C uint8x16_t := do
  let r : Arr .u8 16 := Arr.undef
  let r ← cfor 0 16 4 r fun i r => do
    let r ← r.set (i + 0) (← vec.get (i + 3))
    let r ← r.set (i + 1) (← vec.get (i + 2))
    let r ← r.set (i + 2) (← vec.get (i + 1))
    let r ← r.set (i + 3) (← vec.get (i + 0))
    pure r
  r.ret

/-- `neon_sim.cpp:5752-5761`: `uint16x8_t vrev32q_u16(uint16x8_t vec)` -/
def vrev32q_u16 (vec : uint16x8_t) : C uint16x8_t := do
  let r : Arr .u16 8 := Arr.undef
  let r ← cfor 0 8 2 r fun i r => do
    let r ← r.set (i + 0) (← vec.get (i + 1))
    let r ← r.set (i + 1) (← vec.get (i + 0))
    pure r
  r.ret

/-- `neon_sim.cpp:5764-5779`: `int8x8_t vrev64_s8(int8x8_t vec)` -/
def vrev64_s8 (vec : int8x8_t) : C int8x8_t := do
  let r : Arr .s8 8 := Arr.undef
  let r ← cfor 0 8 8 r fun i r => do
    let r ← r.set (i + 0) (← vec.get (i + 7))
    let r ← r.set (i + 1) (← vec.get (i + 6))
    let r ← r.set (i + 2) (← vec.get (i + 5))
    let r ← r.set (i + 3) (← vec.get (i + 4))
    let r ← r.set (i + 4) (← vec.get (i + 3))
    let r ← r.set (i + 5) (← vec.get (i + 2))
    let r ← r.set (i + 6) (← vec.get (i + 1))
    let r ← r.set (i + 7) (← vec.get (i + 0))
    pure r
  r.ret

/-- `neon_sim.cpp:5781-5792`: `int16x4_t vrev64_s16(int16x4_t vec)` -/
def vrev64_s16 (vec : int16x4_t) : C int16x4_t := do
  let r : Arr .s16 4 := Arr.undef
  let r ← cfor 0 4 4 r fun i r => do
    let r ← r.set (i + 0) (← vec.get (i + 3))
    let r ← r.set (i + 1) (← vec.get (i + 2))
    let r ← r.set (i + 2) (← vec.get (i + 1))
    let r ← r.set (i + 3) (← vec.get (i + 0))
    pure r
  r.ret

/-- `neon_sim.cpp:5794-5803`: `int32x2_t vrev64_s32(int32x2_t vec)` -/
def vrev64_s32 (vec : int32x2_t) : C int32x2_t := do
  let r : Arr .s32 2 := Arr.undef
  let r ← cfor 0 2 2 r fun i r => do
    let r ← r.set (i + 0) (← vec.get (i + 1))
    let r ← r.set (i + 1) (← vec.get (i + 0))
    pure r
  r.ret

/-- `neon_sim.cpp:5805-5820`: `uint8x8_t vrev64_u8(uint8x8_t vec)` -/
def vrev64_u8 (vec : uint8x8_t) : C uint8x8_t := do
  let r : Arr .u8 8 := Arr.undef
  let r ← cfor 0 8 8 r fun i r => do
    let r ← r.set (i + 0) (← vec.get (i + 7))
    let r ← r.set (i + 1) (← vec.get (i + 6))
    let r ← r.set (i + 2) (← vec.get (i + 5))
    let r ← r.set (i + 3) (← vec.get (i + 4))
    let r ← r.set (i + 4) (← vec.get (i + 3))
    let r ← r.set (i + 5) (← vec.get (i + 2))
    let r ← r.set (i + 6) (← vec.get (i + 1))
    let r ← r.set (i + 7) (← vec.get (i + 0))
    pure r
  r.ret

/-- `neon_sim.cpp:5822-5833`: `uint16x4_t vrev64_u16(uint16x4_t vec)` -/
def vrev64_u16 (vec : uint16x4_t) : C uint16x4_t := do
  let r : Arr .u16 4 := Arr.undef
  let r ← cfor 0 4 4 r fun i r => do
    let r ← r.set (i + 0) (← vec.get (i + 3))
    let r ← r.set (i + 1) (← vec.get (i + 2))
    let r ← r.set (i + 2) (← vec.get (i + 1))
    let r ← r.set (i + 3) (← vec.get (i + 0))
    pure r
  r.ret

/-- `neon_sim.cpp:5835-5844`: `uint32x2_t vrev64_u32(uint32x2_t vec)` -/
def vrev64_u32 (vec : uint32x2_t) : C uint32x2_t := do
  let r : Arr .u32 2 := Arr.undef
  let r ← cfor 0 2 2 r fun i r => do
    let r ← r.set (i + 0) (← vec.get (i + 1))
    let r ← r.set (i + 1) (← vec.get (i + 0))
    pure r
  r.ret

/-- `neon_sim.cpp:5846-5855`: `float32x2_t vrev64_f32(float32x2_t vec)` -/
def vrev64_f32 (vec : float32x2_t) : C float32x2_t := do
  let r : Arr .f32 2 := Arr.undef
  let r ← cfor 0 2 2 r fun i r => do
    let r ← r.set (i + 0) (← vec.get (i + 1))
    let r ← r.set (i + 1) (← vec.get (i + 0))
    pure r
  r.ret

/-- `neon_sim.cpp:5858-5873`: `int8x16_t vrev64q_s8(int8x16_t vec)` -/
def vrev64q_s8 (vec : int8x16_t) : C int8x16_t := do
  let r : Arr .s8 16 := Arr.undef
  let r ← cfor 0 8 8 r fun i r => do
    let r ← r.set (i + 0) (← vec.get (i + 7))
    let r ← r.set (i + 1) (← vec.get (i + 6))
    let r ← r.set (i + 2) (← vec.get (i + 5))
    let r ← r.set (i + 3) (← vec.get (i + 4))
    let r ← r.set (i + 4) (← vec.get (i + 3))
    let r ← r.set (i + 5) (← vec.get (i + 2))
    let r ← r.set (i + 6) (← vec.get (i + 1))
    let r ← r.set (i + 7) (← vec.get (i + 0))
    pure r
  r.ret

/-- `neon_sim.cpp:5875-5886`: `int16x8_t vrev64q_s16(int16x8_t vec)` -/
def vrev64q_s16 (vec : int16x8_t) : C int16x8_t := do
  let r : Arr .s16 8 := Arr.undef
  let r ← cfor 0 4 4 r fun i r => do
    let r ← r.set (i + 0) (← vec.get (i + 3))
    let r ← r.set (i + 1) (← vec.get (i + 2))
    let r ← r.set (i + 2) (← vec.get (i + 1))
    let r ← r.set (i + 3) (← vec.get (i + 0))
    pure r
  r.ret

/-- `neon_sim.cpp:5888-5897`: `int32x4_t vrev64q_s32(int32x4_t vec)` -/
def vrev64q_s32 (vec : int32x4_t) : C int32x4_t := do
  let r : Arr .s32 4 := Arr.undef
  let r ← cfor 0 4 2 r fun i r => do
    let r ← r.set (i + 0) (← vec.get (i + 1))
    let r ← r.set (i + 1) (← vec.get (i + 0))
    pure r
  r.ret

/-- `neon_sim.cpp:5899-5914`: `uint8x16_t vrev64q_u8(uint8x16_t vec)` -/
def vrev64q_u8 (vec : uint8x16_t) : C uint8x16_t := do
  let r : Arr .u8 16 := Arr.undef
  let r ← cfor 0 16 8 r fun i r => do
    let r ← r.set (i + 0) (← vec.get (i + 7))
    let r ← r.set (i + 1) (← vec.get (i + 6))
    let r ← r.set (i + 2) (← vec.get (i + 5))
    let r ← r.set (i + 3) (← vec.get (i + 4))
    let r ← r.set (i + 4) (← vec.get (i + 3))
    let r ← r.set (i + 5) (← vec.get (i + 2))
    let r ← r.set (i + 6) (← vec.get (i + 1))
    let r ← r.set (i + 7) (← vec.get (i + 0))
    pure r
  r.ret

/-- `neon_sim.cpp:5916-5927`: `uint16x8_t vrev64q_u16(uint16x8_t vec)` -/
def vrev64q_u16 (vec : uint16x8_t) : C uint16x8_t := do
  let r : Arr .u16 8 := Arr.undef
  let r ← cfor 0 8 4 r fun i r => do
    let r ← r.set (i + 0) (← vec.get (i + 3))
    let r ← r.set (i + 1) (← vec.get (i + 2))
    let r ← r.set (i + 2) (← vec.get (i + 1))
    let r ← r.set (i + 3) (← vec.get (i + 0))
    pure r
  r.ret

/-- `neon_sim.cpp:5929-5938`: `uint32x4_t vrev64q_u32(uint32x4_t vec)` -/
def vrev64q_u32 (vec : uint32x4_t) : C uint32x4_t := do
  let r : Arr .u32 4 := Arr.undef
  let r ← cfor 0 4 2 r fun i r => do
    let r ← r.set (i + 0) (← vec.get (i + 1))
    let r ← r.set (i + 1) (← vec.get (i + 0))
    pure r
  r.ret

/-- `neon_sim.cpp:5940-5949`: `float32x4_t vrev64q_f32(float32x4_t vec)` -/
def vrev64q_f32 (vec : float32x4_t) : C float32x4_t := do
  let r : Arr .f32 4 := Arr.undef
  let r ← cfor 0 4 2 r fun i r => do
    let r ← r.set (i + 0) (← vec.get (i + 1))
    let r ← r.set (i + 1) (← vec.get (i + 0))
    pure r
  r.ret

/-- `neon_sim.cpp:5954-5962`: `float32x2_t vdiv_f32(float32x2_t a, float32x2_t b)` -/
def vdiv_f32 (a b : float32x2_t) : C float32x2_t := do
  let r : Arr .f32 2 := Arr.undef
  let r ← cfor 0 2 1 r fun i r => do
    let r ← r.set i (← Val.div (← a.get i) (← b.get i))
    pure r
  r.ret

/-- `neon_sim.cpp:5964-5972`: `float64x1_t vdiv_f64(float64x1_t a, float64x1_t b)` -/
def vdiv_f64 (a b : float64x1_t) : C float64x1_t := do
  let r : Arr .f64 1 := Arr.undef
  let r ← cfor 0 1 1 r fun i r => do
    let r ← r.set i (← Val.div (← a.get i) (← b.get i))
    pure r
  r.ret

/-- `neon_sim.cpp:5977-5985`: `float32x4_t vdivq_f32(float32x4_t a, float32x4_t b)` -/
def vdivq_f32 (a b : float32x4_t) : C float32x4_t := do
  let r : Arr .f32 4 := Arr.undef
  let r ← cfor 0 4 1 r fun i r => do
    let r ← r.set i (← Val.div (← a.get i) (← b.get i))
    pure r
  r.ret

/-- `neon_sim.cpp:5987-5995`: `float64x2_t vdivq_f64(float64x2_t a, float64x2_t b)` -/
def vdivq_f64 (a b : float64x2_t) : C float64x2_t := do
  let r : Arr .f64 2 := Arr.undef
  let r ← cfor 0 2 1 r fun i r => do
    let r ← r.set i (← Val.div (← a.get i) (← b.get i))
    pure r
  r.ret

/-- `neon_sim.cpp:6001-6009`: `int8x8_t vqshrn_n_s16(int16x8_t a, const int n)` -/
def vqshrn_n_s16 (a : int16x8_t) (n : Int) : C int8x8_t := do
  let r : Arr .s8 8 := Arr.undef
  let r ← cfor 0 8 1 r fun i r => do
    let r ← r.set i (← Val.stdMin .s32 (← Val.stdMax .s32 (← Val.shr (← a.get i) (vint n)) (vint (-128))) (vint 127))
    pure r
  r.ret

/-- `neon_sim.cpp:6011-6019`: `int16x4_t vqshrn_n_s32(int32x4_t a, const int n)` -/
def vqshrn_n_s32 (a : int32x4_t) (n : Int) : C int16x4_t := do
  let r : Arr .s16 4 := Arr.undef
  let r ← cfor 0 4 1 r fun i r => do
    let r ← r.set i (← Val.stdMin .s32 (← Val.stdMax .s32 (← Val.shr (← a.get i) (vint n)) (vint (-32768))) (vint 32767))
    pure r
  r.ret

/-- `neon_sim.cpp:6021-6029`: `int32x2_t vqshrn_n_s64(int64x2_t a, const int n)` -/
def vqshrn_n_s64 (a : int64x2_t) (n : Int) : C int32x2_t := do
  let r : Arr .s32 2 := Arr.undef
  let r ← cfor 0 2 1 r fun i r => do
    let r ← r.set i (← Val.stdMin .s32 (← Val.stdMax .s64 (← Val.shr (← a.get i) (vint n)) (vint (-2147483648))) (vint 2147483647))
    pure r
  r.ret

/-- `neon_sim.cpp:6031-6039`: `uint8x8_t vqshrn_n_u16(uint16x8_t a, const int n)` -/
def vqshrn_n_u16 (a : uint16x8_t) (n : Int) : C uint8x8_t := do
  let r : Arr .u8 8 := Arr.undef
  let r ← cfor 0 8 1 r fun i r => do
    let r ← r.set i (← Val.stdMin .s32 (← Val.shr (← a.get i) (vint n)) (vint 255))
    pure r
  r.ret

/-- `neon_sim.cpp:6041-6049`: `uint16x4_t vqshrn_n_u32(uint32x4_t a, const int n)` -/
def vqshrn_n_u32 (a : uint32x4_t) (n : Int) : C uint16x4_t := do
  let r : Arr .u16 4 := Arr.undef
  let r ← cfor 0 4 1 r fun i r => do
    let r ← r.set i (← Val.stdMin .u32 (← Val.shr (← a.get i) (vint n)) (vint 65535))
    pure r
  r.ret

/-- `neon_sim.cpp:6051-6059`: `uint32x2_t vqshrn_n_u64(uint64x2_t a, const int n)` -/
def vqshrn_n_u64 (a : uint64x2_t) (n : Int) : C uint32x2_t := do
  let r : Arr .u32 2 := Arr.undef
  let r ← cfor 0 2 1 r fun i r => do
    let r ← r.set i (← Val.stdMin .u64 (← Val.shr (← a.get i) (vint n)) (.int .u32 4294967295))
    pure r
  r.ret

end Verif.Model
