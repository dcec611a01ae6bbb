import Verif.Types

/-! Generated from `neon_sim.cpp` by `tools/translate.py`. -/

set_option linter.unusedVariables false

namespace Verif.Model

variable [Dialect]

/-- `neon_sim.cpp:2698-2706`: `int8x8_t vmul_s8(int8x8_t N, int8x8_t M)` -/
def vmul_s8 (N M : int8x8_t) : C int8x8_t := do
  let D : Arr .s8 8 := Arr.undef
  let D ← cfor 0 8 1 D fun i D => do
    let D ← D.set i (← Val.mul (← N.get i) (← M.get i))
    pure D
  D.ret

/-- `neon_sim.cpp:2708-2716`: `int16x4_t vmul_s16(int16x4_t N, int16x4_t M)` -/
def vmul_s16 (N M : int16x4_t) : C int16x4_t := do
  let D : Arr .s16 4 := Arr.undef
  let D ← cfor 0 4 1 D fun i D => do
    let D ← D.set i (← Val.mul (← N.get i) (← M.get i))
    pure D
  D.ret

/-- `neon_sim.cpp:2718-2726`: `int32x2_t vmul_s32(int32x2_t N, int32x2_t M)` -/
def vmul_s32 (N M : int32x2_t) : C int32x2_t := do
  let D : Arr .s32 2 := Arr.undef
  let D ← cfor 0 2 1 D fun i D => do
    let D ← D.set i (← Val.mul (← N.get i) (← M.get i))
    pure D
  D.ret

/-- `neon_sim.cpp:2728-2736`: `uint8x8_t vmul_u8(uint8x8_t N, uint8x8_t M)` -/
def vmul_u8 (N M : uint8x8_t) : C uint8x8_t := do
  let D : Arr .u8 8 := Arr.undef
  let D ← cfor 0 8 1 D fun i D => do
    let D ← D.set i (← Val.mul (← N.get i) (← M.get i))
    pure D
  D.ret

/-- `neon_sim.cpp:2738-2746`: `uint16x4_t vmul_u16(uint16x4_t N, uint16x4_t M)` -/
def vmul_u16 (N M : uint16x4_t) : C uint16x4_t := do
  let D : Arr .u16 4 := Arr.undef
  let D ← cfor 0 4 1 D fun i D => do
    let D ← D.set i (← Val.mul (← N.get i) (← M.get i))
    pure D
  D.ret

/-- `neon_sim.cpp:2748-2756`: `uint32x2_t vmul_u32(uint32x2_t N, uint32x2_t M)` -/
def vmul_u32 (N M : uint32x2_t) : C uint32x2_t := do
  let D : Arr .u32 2 := Arr.undef
  let D ← cfor 0 2 1 D fun i D => do
    let D ← D.set i (← Val.mul (← N.get i) (← M.get i))
    pure D
  D.ret

/-- `neon_sim.cpp:2759-2767`: `int8x16_t vmulq_s8(int8x16_t N, int8x16_t M)` -/
def vmulq_s8 (N M : int8x16_t) : C int8x16_t := do
  let D : Arr .s8 16 := Arr.undef
  let D ← cfor 0 16 1 D fun i D => do
    let D ← D.set i (← Val.mul (← N.get i) (← M.get i))
    pure D
  D.ret

/-- `neon_sim.cpp:2768-2776`: `int16x8_t vmulq_s16(int16x8_t N, int16x8_t M)` -/
def vmulq_s16 (N M : int16x8_t) : C int16x8_t := do
  let D : Arr .s16 8 := Arr.undef
  let D ← cfor 0 8 1 D fun i D => do
    let D ← D.set i (← Val.mul (← N.get i) (← M.get i))
    pure D
  D.ret

/-- `neon_sim.cpp:2777-2785`: `int32x4_t vmulq_s32(int32x4_t N, int32x4_t M)` -/
def vmulq_s32 (N M : int32x4_t) : C int32x4_t := do
  let D : Arr .s32 4 := Arr.undef
  let D ← cfor 0 4 1 D fun i D => do
    let D ← D.set i (← Val.mul (← N.get i) (← M.get i))
    pure D
  D.ret

/-- `neon_sim.cpp:2786-2794`: `uint8x16_t vmulq_u8(uint8x16_t N, uint8x16_t M)` -/
def vmulq_u8 (N M : uint8x16_t) : C uint8x16_t := do
  let D : Arr .u8 16 := Arr.undef
  let D ← cfor 0 16 1 D fun i D => do
    let D ← D.set i (← Val.mul (← N.get i) (← M.get i))
    pure D
  D.ret

/-- `neon_sim.cpp:2795-2803`: `uint16x8_t vmulq_u16(uint16x8_t N, uint16x8_t M)` -/
def vmulq_u16 (N M : uint16x8_t) : C uint16x8_t := do
  let D : Arr .u16 8 := Arr.undef
  let D ← cfor 0 8 1 D fun i D => do
    let D ← D.set i (← Val.mul (← N.get i) (← M.get i))
    pure D
  D.ret

/-- `neon_sim.cpp:2804-2812`: `uint32x4_t vmulq_u32(uint32x4_t N, uint32x4_t M)` -/
def vmulq_u32 (N M : uint32x4_t) : C uint32x4_t := do
  let D : Arr .u32 4 := Arr.undef
  let D ← cfor 0 4 1 D fun i D => do
    let D ← D.set i (← Val.mul (← N.get i) (← M.get i))
    pure D
  D.ret

/-- `neon_sim.cpp:2814-2822`: `float32x4_t vmulq_f32(float32x4_t a, float32x4_t b)` -/
def vmulq_f32 (a b : float32x4_t) : C float32x4_t := do
  let r : Arr .f32 4 := Arr.undef
  let r ← cfor 0 4 1 r fun i r => do
    let r ← r.set i (← Val.mul (← a.get i) (← b.get i))
    pure r
  r.ret

/-- `neon_sim.cpp:2825-2833`: `int16x4_t vmul_n_s16(int16x4_t N, int16_t M)` -/
def vmul_n_s16 (N : int16x4_t) (M : int16_t) : C int16x4_t := do
  let D : Arr .s16 4 := Arr.undef
  let D ← cfor 0 4 1 D fun i D => do
    let D ← D.set i (← Val.mul (← N.get i) (.ofBits .s16 M))
    pure D
  D.ret

/-- `neon_sim.cpp:2835-2843`: `int32x2_t vmul_n_s32(int32x2_t N, int32_t M)` -/
def vmul_n_s32 (N : int32x2_t) (M : int32_t) : C int32x2_t := do
  let D : Arr .s32 2 := Arr.undef
  let D ← cfor 0 2 1 D fun i D => do
    let D ← D.set i (← Val.mul (← N.get i) (.ofBits .s32 M))
    pure D
  D.ret

/-- `neon_sim.cpp:2845-2853`: `uint16x4_t vmul_n_u16(uint16x4_t N, uint16_t M)` -/
def vmul_n_u16 (N : uint16x4_t) (M : uint16_t) : C uint16x4_t := do
  let D : Arr .u16 4 := Arr.undef
  let D ← cfor 0 4 1 D fun i D => do
    let D ← D.set i (← Val.mul (← N.get i) (.ofBits .u16 M))
    pure D
  D.ret

/-- `neon_sim.cpp:2855-2863`: `uint32x2_t vmul_n_u32(uint32x2_t N, uint32_t M)` -/
def vmul_n_u32 (N : uint32x2_t) (M : uint32_t) : C uint32x2_t := do
  let D : Arr .u32 2 := Arr.undef
  let D ← cfor 0 2 1 D fun i D => do
    let D ← D.set i (← Val.mul (← N.get i) (.ofBits .u32 M))
    pure D
  D.ret

/-- `neon_sim.cpp:2865-2873`: `float32x2_t vmul_n_f32(float32x2_t N, float32_t M)` -/
def vmul_n_f32 (N : float32x2_t) (M : float32_t) : C float32x2_t := do
  let D : Arr .f32 2 := Arr.undef
  let D ← cfor 0 2 1 D fun i D => do
    let D ← D.set i (← Val.mul (← N.get i) (.ofBits .f32 M))
    pure D
  D.ret

/-- `neon_sim.cpp:2876-2884`: `float64x1_t vmul_n_f64(float64x1_t N, float64_t M)` -/
def vmul_n_f64 (N : float64x1_t) (M : float64_t) : C float64x1_t := do
  let D : Arr .f64 1 := Arr.undef
  let D ← cfor 0 1 1 D fun i D => do
    let D ← D.set i (← Val.mul (← N.get i) (.ofBits .f64 M))
    pure D
  D.ret

/-- `neon_sim.cpp:2888-2896`: `int16x8_t vmulq_n_s16(int16x8_t N, int16_t M)` -/
def vmulq_n_s16 (N : int16x8_t) (M : int16_t) : C int16x8_t := do
  let D : Arr .s16 8 := Arr.undef
  let D ← cfor 0 8 1 D fun i D => do
    let D ← D.set i (← Val.mul (← N.get i) (.ofBits .s16 M))
    pure D
  D.ret

/-- `neon_sim.cpp:2898-2906`: `int32x4_t vmulq_n_s32(int32x4_t N, int32_t M)` -/
def vmulq_n_s32 (N : int32x4_t) (M : int32_t) : C int32x4_t := do
  let D : Arr .s32 4 := Arr.undef
  let D ← cfor 0 4 1 D fun i D => do
    let D ← D.set i (← Val.mul (← N.get i) (.ofBits .s32 M))
    pure D
  D.ret

/-- `neon_sim.cpp:2908-2916`: `uint16x8_t vmulq_n_u16(uint16x8_t N, uint16_t M)` -/
def vmulq_n_u16 (N : uint16x8_t) (M : uint16_t) : C uint16x8_t := do
  let D : Arr .u16 8 := Arr.undef
  let D ← cfor 0 8 1 D fun i D => do
    let D ← D.set i (← Val.mul (← N.get i) (.ofBits .u16 M))
    pure D
  D.ret

/-- `neon_sim.cpp:2918-2926`: `uint32x4_t vmulq_n_u32(uint32x4_t N, uint32_t M)` -/
def vmulq_n_u32 (N : uint32x4_t) (M : uint32_t) : C uint32x4_t := do
  let D : Arr .u32 4 := Arr.undef
  let D ← cfor 0 4 1 D fun i D => do
    let D ← D.set i (← Val.mul (← N.get i) (.ofBits .u32 M))
    pure D
  D.ret

/-- `neon_sim.cpp:2928-2936`: `float32x4_t vmulq_n_f32(float32x4_t N, float32_t M)` -/
def vmulq_n_f32 (N : float32x4_t) (M : float32_t) : C float32x4_t := do
  let D : Arr .f32 4 := Arr.undef
  let D ← cfor 0 4 1 D fun i D => do
    let D ← D.set i (← Val.mul (← N.get i) (.ofBits .f32 M))
    pure D
  D.ret

/-- `neon_sim.cpp:2939-2947`: `float64x2_t vmulq_n_f64(float64x2_t N, float64_t M)` -/
def vmulq_n_f64 (N : float64x2_t) (M : float64_t) : C float64x2_t := do
  let D : Arr .f64 2 := Arr.undef
  let D ← cfor 0 2 1 D fun i D => do
    let D ← D.set i (← Val.mul (← N.get i) (.ofBits .f64 M))
    pure D
  D.ret

/-- `neon_sim.cpp:2951-2959`: `uint16x8_t vmull_u8(uint8x8_t a, uint8x8_t b)` -/
def vmull_u8 (a b : uint8x8_t) : C uint16x8_t := do
  let r : Arr .u16 8 := Arr.undef
  let r ← cfor 0 8 1 r fun i r => do
    let r ← r.set i (← Val.mul (← a.get i) (← b.get i))
    pure r
  r.ret

/-- `neon_sim.cpp:2960-2968`: `uint32x4_t vmull_u16(uint16x4_t a, uint16x4_t b)` -/
def vmull_u16 (a b : uint16x4_t) : C uint32x4_t := do
  let r : Arr .u32 4 := Arr.undef
  let r ← cfor 0 4 1 r fun i r => do
    let r ← r.set i (← Val.mul (← a.get i) (← b.get i))
    pure r
  r.ret

/-- `neon_sim.cpp:2969-2977`: `uint64x2_t vmull_u32(uint32x2_t a, uint32x2_t b)` -/
def vmull_u32 (a b : uint32x2_t) : C uint64x2_t := do
  let r : Arr .u64 2 := Arr.undef
  let r ← cfor 0 2 1 r fun i r => do
    let r ← r.set i (← Val.mul (← a.get i) (← b.get i))
    pure r
  r.ret

/-- `neon_sim.cpp:2979-2987`: `int16x8_t vmull_s8(int8x8_t a, int8x8_t b)` -/
def vmull_s8 (a b : int8x8_t) : C int16x8_t := do
  let r : Arr .s16 8 := Arr.undef
  let r ← cfor 0 8 1 r fun i r => do
    let r ← r.set i (← Val.mul (← a.get i) (← b.get i))
    pure r
  r.ret

/-- `neon_sim.cpp:2988-2996`: `int32x4_t vmull_s16(int16x4_t a, int16x4_t b)` -/
def vmull_s16 (a b : int16x4_t) : C int32x4_t := do
  let r : Arr .s32 4 := Arr.undef
  let r ← cfor 0 4 1 r fun i r => do
    let r ← r.set i (← Val.mul (← a.get i) (← b.get i))
    pure r
  r.ret

/-- `neon_sim.cpp:2997-3005`: `int64x2_t vmull_s32(int32x2_t a, int32x2_t b)` -/
def vmull_s32 (a b : int32x2_t) : C int64x2_t := do
  let r : Arr .s64 2 := Arr.undef
  let r ← cfor 0 2 1 r fun i r => do
    let r ← r.set i (← Val.mul (← a.get i) (← b.get i))
    pure r
  r.ret

/-- `neon_sim.cpp:3008-3016`: `int32x4_t vmull_n_s16(int16x4_t N, int16_t M)` -/
def vmull_n_s16 (N : int16x4_t) (M : int16_t) : C int32x4_t := do
  let D : Arr .s32 4 := Arr.undef
  let D ← cfor 0 4 1 D fun i D => do
    let D ← D.set i (← Val.mul (← N.get i) (.ofBits .s16 M))
    pure D
  D.ret

/-- `neon_sim.cpp:3018-3026`: `int64x2_t vmull_n_s32(int32x2_t N, int32_t M)` -/
def vmull_n_s32 (N : int32x2_t) (M : int32_t) : C int64x2_t := do
  let D : Arr .s64 2 := Arr.undef
  let D ← cfor 0 2 1 D fun i D => do
    let D ← D.set i (← Val.mul (← N.get i) (.ofBits .s32 M))
    pure D
  D.ret

/-- `neon_sim.cpp:3028-3036`: `uint32x4_t vmull_n_u16(uint16x4_t N, uint16_t M)` -/
def vmull_n_u16 (N : uint16x4_t) (M : uint16_t) : C uint32x4_t := do
  let D : Arr .u32 4 := Arr.undef
  let D ← cfor 0 4 1 D fun i D => do
    let D ← D.set i (← Val.mul (← N.get i) (.ofBits .u16 M))
    pure D
  D.ret

/-- `neon_sim.cpp:3038-3046`: `uint64x2_t vmull_n_u32(uint32x2_t N, uint32_t M)` -/
def vmull_n_u32 (N : uint32x2_t) (M : uint32_t) : C uint64x2_t := do
  let D : Arr .u64 2 := Arr.undef
  let D ← cfor 0 2 1 D fun i D => do
    let D ← D.set i (← Val.mul (← N.get i) (.ofBits .u32 M))
    pure D
  D.ret

/-- `neon_sim.cpp:3049-3065`: `int32x4_t vqdmull_s16(int16x4_t M, int16x4_t N)` -/
def vqdmull_s16 (M N : int16x4_t) : C int32x4_t := do
  let D : Arr .s32 4 := Arr.undef
  let D ← cfor 0 4 1 D fun i D => do
    let D ←
      if (← cAnd (do pure (Val.eq (← N.get i) (vint (-32768)))) (do pure (Val.eq (← M.get i) (vint (-32768))))) then do
        let D ← D.set i (vint 2147483647)
        pure D
      else do
        let D ← D.set i (← Val.mul (← Val.mul (← M.get i) (← N.get i)) (vint 2))
        pure D
    pure D
  D.ret

/-- `neon_sim.cpp:3068-3076`: `int16x8_t vmlal_s8(int16x8_t N, int8x8_t M, int8x8_t P)` -/
def vmlal_s8 (N : int16x8_t) (M P : int8x8_t) : C int16x8_t := do
  let D : Arr .s16 8 := Arr.undef
  let D ← cfor 0 8 1 D fun i D => do
    let D ← D.set i (← Val.add (← N.get i) (← Val.mul (← M.get i) (← P.get i)))
    pure D
  D.ret

/-- `neon_sim.cpp:3078-3086`: `int32x4_t vmlal_s16(int32x4_t N, int16x4_t M, int16x4_t P)` -/
def vmlal_s16 (N : int32x4_t) (M P : int16x4_t) : C int32x4_t := do
  let D : Arr .s32 4 := Arr.undef
  let D ← cfor 0 4 1 D fun i D => do
    let D ← D.set i (← Val.add (← N.get i) (← Val.mul (← M.get i) (← P.get i)))
    pure D
  D.ret

/-- `neon_sim.cpp:3088-3096`: `int64x2_t vmlal_s32(int64x2_t N, int32x2_t M, int32x2_t P)` -/
def vmlal_s32 (N : int64x2_t) (M P : int32x2_t) : C int64x2_t := do
  let D : Arr .s64 2 := Arr.undef
  let D ← cfor 0 2 1 D fun i D => do
    let D ← D.set i (← Val.add (← N.get i) (← Val.mul (← M.get i) (← P.get i)))
    pure D
  D.ret

/-- `neon_sim.cpp:3098-3106`: `uint16x8_t vmlal_u8(uint16x8_t N, uint8x8_t M, uint8x8_t P)` -/
def vmlal_u8 (N : uint16x8_t) (M P : uint8x8_t) : C uint16x8_t := do
  let D : Arr .u16 8 := Arr.undef
  let D ← cfor 0 8 1 D fun i D => do
    let D ← D.set i (← Val.add (← N.get i) (← Val.mul (← M.get i) (← P.get i)))
    pure D
  D.ret

/-- `neon_sim.cpp:3108-3116`: `uint32x4_t vmlal_u16(uint32x4_t N, uint16x4_t M, uint16x4_t P)` -/
def vmlal_u16 (N : uint32x4_t) (M P : uint16x4_t) : C uint32x4_t := do
  let D : Arr .u32 4 := Arr.undef
  let D ← cfor 0 4 1 D fun i D => do
    let D ← D.set i (← Val.add (← N.get i) (← Val.mul (← M.get i) (← P.get i)))
    pure D
  D.ret

/-- `neon_sim.cpp:3118-3126`: `uint64x2_t vmlal_u32(uint64x2_t N, uint32x2_t M, uint32x2_t P)` -/
def vmlal_u32 (N : uint64x2_t) (M P : uint32x2_t) : C uint64x2_t := do
  let D : Arr .u64 2 := Arr.undef
  let D ← cfor 0 2 1 D fun i D => do
    let D ← D.set i (← Val.add (← N.get i) (← Val.mul (← M.get i) (← P.get i)))
    pure D
  D.ret

/-- `neon_sim.cpp:3129-3137`: `int16x8_t vmlsl_s8(int16x8_t N, int8x8_t M, int8x8_t P)` -/
def vmlsl_s8 (N : int16x8_t) (M P : int8x8_t) : C int16x8_t := do
  let D : Arr .s16 8 := Arr.undef
  let D ← cfor 0 8 1 D fun i D => do
    let D ← D.set i (← Val.sub (← N.get i) (← Val.mul (← M.get i) (← P.get i)))
    pure D
  D.ret

/-- `neon_sim.cpp:3139-3147`: `int32x4_t vmlsl_s16(int32x4_t N, int16x4_t M, int16x4_t P)` -/
def vmlsl_s16 (N : int32x4_t) (M P : int16x4_t) : C int32x4_t := do
  let D : Arr .s32 4 := Arr.undef
  let D ← cfor 0 4 1 D fun i D => do
    let D ← D.set i (← Val.sub (← N.get i) (← Val.mul (← M.get i) (← P.get i)))
    pure D
  D.ret

/-- `neon_sim.cpp:3149-3157`: `int64x2_t vmlsl_s32(int64x2_t N, int32x2_t M, int32x2_t P)` -/
def vmlsl_s32 (N : int64x2_t) (M P : int32x2_t) : C int64x2_t := do
  let D : Arr .s64 2 := Arr.undef
  let D ← cfor 0 2 1 D fun i D => do
    let D ← D.set i (← Val.sub (← N.get i) (← Val.mul (← M.get i) (← P.get i)))
    pure D
  D.ret

/-- `neon_sim.cpp:3159-3167`: `uint16x8_t vmlsl_u8(uint16x8_t N, uint8x8_t M, uint8x8_t P)` -/
def vmlsl_u8 (N : uint16x8_t) (M P : uint8x8_t) : C uint16x8_t := do
  let D : Arr .u16 8 := Arr.undef
  let D ← cfor 0 8 1 D fun i D => do
    let D ← D.set i (← Val.sub (← N.get i) (← Val.mul (← M.get i) (← P.get i)))
    pure D
  D.ret

/-- `neon_sim.cpp:3169-3177`: `uint32x4_t vmlsl_u16(uint32x4_t N, uint16x4_t M, uint16x4_t P)` -/
def vmlsl_u16 (N : uint32x4_t) (M P : uint16x4_t) : C uint32x4_t := do
  let D : Arr .u32 4 := Arr.undef
  let D ← cfor 0 4 1 D fun i D => do
    let D ← D.set i (← Val.sub (← N.get i) (← Val.mul (← M.get i) (← P.get i)))
    pure D
  D.ret

/-- `neon_sim.cpp:3179-3187`: `uint64x2_t vmlsl_u32(uint64x2_t N, uint32x2_t M, uint32x2_t P)` -/
def vmlsl_u32 (N : uint64x2_t) (M P : uint32x2_t) : C uint64x2_t := do
  let D : Arr .u64 2 := Arr.undef
  let D ← cfor 0 2 1 D fun i D => do
    let D ← D.set i (← Val.sub (← N.get i) (← Val.mul (← M.get i) (← P.get i)))
    pure D
  D.ret

/-- `neon_sim.cpp:3190-3198`: `int8x16_t vmlaq_s8(int8x16_t N, int8x16_t M, int8x16_t P)` -/
def vmlaq_s8 (N M P : int8x16_t) : C int8x16_t := do
  let D : Arr .s8 16 := Arr.undef
  let D ← cfor 0 16 1 D fun i D => do
    let D ← D.set i (← Val.add (← N.get i) (← Val.mul (← M.get i) (← P.get i)))
    pure D
  D.ret

/-- `neon_sim.cpp:3200-3208`: `int16x8_t vmlaq_s16(int16x8_t N, int16x8_t M, int16x8_t P)` -/
def vmlaq_s16 (N M P : int16x8_t) : C int16x8_t := do
  let D : Arr .s16 8 := Arr.undef
  let D ← cfor 0 8 1 D fun i D => do
    let D ← D.set i (← Val.add (← N.get i) (← Val.mul (← M.get i) (← P.get i)))
    pure D
  D.ret

/-- `neon_sim.cpp:3210-3218`: `int32x4_t vmlaq_s32(int32x4_t N, int32x4_t M, int32x4_t P)` -/
def vmlaq_s32 (N M P : int32x4_t) : C int32x4_t := do
  let D : Arr .s32 4 := Arr.undef
  let D ← cfor 0 4 1 D fun i D => do
    let D ← D.set i (← Val.add (← N.get i) (← Val.mul (← M.get i) (← P.get i)))
    pure D
  D.ret

/-- `neon_sim.cpp:3220-3228`: `uint8x16_t vmlaq_u8(uint8x16_t N, uint8x16_t M, uint8x16_t P)` -/
def vmlaq_u8 (N M P : uint8x16_t) : C uint8x16_t := do
  let D : Arr .u8 16 := Arr.undef
  let D ← cfor 0 16 1 D fun i D => do
    let D ← D.set i (← Val.add (← N.get i) (← Val.mul (← M.get i) (← P.get i)))
    pure D
  D.ret

/-- `neon_sim.cpp:3230-3238`: `uint16x8_t vmlaq_u16(uint16x8_t N, uint16x8_t M, uint16x8_t P)` -/
def vmlaq_u16 (N M P : uint16x8_t) : C uint16x8_t := do
  let D : Arr .u16 8 := Arr.undef
  let D ← cfor 0 8 1 D fun i D => do
    let D ← D.set i (← Val.add (← N.get i) (← Val.mul (← M.get i) (← P.get i)))
    pure D
  D.ret

/-- `neon_sim.cpp:3240-3248`: `uint32x4_t vmlaq_u32(uint32x4_t N, uint32x4_t M, uint32x4_t P)` -/
def vmlaq_u32 (N M P : uint32x4_t) : C uint32x4_t := do
  let D : Arr .u32 4 := Arr.undef
  let D ← cfor 0 4 1 D fun i D => do
    let D ← D.set i (← Val.add (← N.get i) (← Val.mul (← M.get i) (← P.get i)))
    pure D
  D.ret

/-- `neon_sim.cpp:3250-3258`: `float32x4_t vmlaq_f32(float32x4_t N, float32x4_t M, float32x4_t P)` -/
def vmlaq_f32 (N M P : float32x4_t) : C float32x4_t := do
  let D : Arr .f32 4 := Arr.undef
  let D ← cfor 0 4 1 D fun i D => do
    let D ← D.set i (← Val.add (← N.get i) (← Val.mul (← M.get i) (← P.get i)))
    pure D
  D.ret

/-- `neon_sim.cpp:3261-3269`: `float32x4_t vmlaq_n_f32(float32x4_t a, float32x4_t b, float32_t c)` -/
def vmlaq_n_f32 (a b : float32x4_t) (c : float32_t) : C float32x4_t := do
  let D : Arr .f32 4 := Arr.undef
  let D ← cfor 0 4 1 D fun i D => do
    let D ← D.set i (← Val.add (← a.get i) (← Val.mul (← b.get i) (.ofBits .f32 c)))
    pure D
  D.ret

end Verif.Model
