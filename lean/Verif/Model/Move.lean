import Verif.Types

/-! Generated from `neon_sim.cpp` by `tools/translate.py`. -/

set_option linter.unusedVariables false

namespace Verif.Model

variable [Dialect]

/-- `neon_sim.cpp:3273-3281`: `int8x8_t vdup_n_s8(int8_t N)` -/
def vdup_n_s8 (N : int8_t) : C int8x8_t := do
  let D : Arr .s8 8 := Arr.undef
  let D ← cfor 0 8 1 D fun i D => do
    let D ← D.set i (.ofBits .s8 N)
    pure D
  D.ret

/-- `neon_sim.cpp:3283-3291`: `int16x4_t vdup_n_s16(int16_t N)` -/
def vdup_n_s16 (N : int16_t) : C int16x4_t := do
  let D : Arr .s16 4 := Arr.undef
  let D ← cfor 0 4 1 D fun i D => do
    let D ← D.set i (.ofBits .s16 N)
    pure D
  D.ret

/-- `neon_sim.cpp:3293-3301`: `int32x2_t vdup_n_s32(int32_t N)` -/
def vdup_n_s32 (N : int32_t) : C int32x2_t := do
  let D : Arr .s32 2 := Arr.undef
  let D ← cfor 0 2 1 D fun i D => do
    let D ← D.set i (.ofBits .s32 N)
    pure D
  D.ret

/-- `neon_sim.cpp:3303-3311`: `int64x1_t vdup_n_s64(int64_t N)` -/
def vdup_n_s64 (N : int64_t) : C int64x1_t := do
  let D : Arr .s64 1 := Arr.undef
  let D ← cfor 0 1 1 D fun i D => do
    let D ← D.set i (.ofBits .s64 N)
    pure D
  D.ret

/-- `neon_sim.cpp:3313-3321`: `uint8x8_t vdup_n_u8(uint8_t N)` -/
def vdup_n_u8 (N : uint8_t) : C uint8x8_t := do
  let D : Arr .u8 8 := Arr.undef
  let D ← cfor 0 8 1 D fun i D => do
    let D ← D.set i (.ofBits .u8 N)
    pure D
  D.ret

/-- `neon_sim.cpp:3323-3331`: `uint16x4_t vdup_n_u16(uint16_t N)` -/
def vdup_n_u16 (N : uint16_t) : C uint16x4_t := do
  let D : Arr .u16 4 := Arr.undef
  let D ← cfor 0 4 1 D fun i D => do
    let D ← D.set i (.ofBits .u16 N)
    pure D
  D.ret

/-- `neon_sim.cpp:3333-3341`: `uint32x2_t vdup_n_u32(uint32_t N)` -/
def vdup_n_u32 (N : uint32_t) : C uint32x2_t := do
  let D : Arr .u32 2 := Arr.undef
  let D ← cfor 0 2 1 D fun i D => do
    let D ← D.set i (.ofBits .u32 N)
    pure D
  D.ret

/-- `neon_sim.cpp:3343-3351`: `uint64x1_t vdup_n_u64(uint64_t N)` -/
def vdup_n_u64 (N : uint64_t) : C uint64x1_t := do
  let D : Arr .u64 1 := Arr.undef
  let D ← cfor 0 1 1 D fun i D => do
    let D ← D.set i (.ofBits .u64 N)
    pure D
  D.ret

/-- `neon_sim.cpp:3354-3362`: `uint8x16_t vdupq_n_u8(uint8_t value)` -/
def vdupq_n_u8 (value : uint8_t) : C uint8x16_t := do
  let r : Arr .u8 16 := Arr.undef
  let r ← cfor 0 16 1 r fun i r => do
    let r ← r.set i (.ofBits .u8 value)
    pure r
  r.ret

/-- `neon_sim.cpp:3363-3371`: `int8x16_t vdupq_n_s8(int8_t value)` -/
def vdupq_n_s8 (value : int8_t) : C int8x16_t := do
  let r : Arr .s8 16 := Arr.undef
  let r ← cfor 0 16 1 r fun i r => do
    let r ← r.set i (.ofBits .s8 value)
    pure r
  r.ret

/-- `neon_sim.cpp:3372-3380`: `uint16x8_t vdupq_n_u16(uint16_t value)` -/
def vdupq_n_u16 (value : uint16_t) : C uint16x8_t := do
  let r : Arr .u16 8 := Arr.undef
  let r ← cfor 0 8 1 r fun i r => do
    let r ← r.set i (.ofBits .u16 value)
    pure r
  r.ret

/-- `neon_sim.cpp:3381-3389`: `int16x8_t vdupq_n_s16(int16_t value)` -/
def vdupq_n_s16 (value : int16_t) : C int16x8_t := do
  let r : Arr .s16 8 := Arr.undef
  let r ← cfor 0 8 1 r fun i r => do
    let r ← r.set i (.ofBits .s16 value)
    pure r
  r.ret

/-- `neon_sim.cpp:3390-3398`: `uint32x4_t vdupq_n_u32(uint32_t value)` -/
def vdupq_n_u32 (value : uint32_t) : C uint32x4_t := do
  let r : Arr .u32 4 := Arr.undef
  let r ← cfor 0 4 1 r fun i r => do
    let r ← r.set i (.ofBits .u32 value)
    pure r
  r.ret

/-- `neon_sim.cpp:3399-3407`: `int32x4_t vdupq_n_s32(int32_t value)` -/
def vdupq_n_s32 (value : int32_t) : C int32x4_t := do
  let r : Arr .s32 4 := Arr.undef
  let r ← cfor 0 4 1 r fun i r => do
    let r ← r.set i (.ofBits .s32 value)
    pure r
  r.ret

/-- `neon_sim.cpp:3408-3416`: `float32x4_t vdupq_n_f32(float32_t value)` -/
def vdupq_n_f32 (value : float32_t) : C float32x4_t := do
  let r : Arr .f32 4 := Arr.undef
  let r ← cfor 0 4 1 r fun i r => do
    let r ← r.set i (.ofBits .f32 value)
    pure r
  r.ret

/-- `neon_sim.cpp:3418-3426`: `float32x4_t vmovq_n_f32(float32_t value)` -/
def vmovq_n_f32 (value : float32_t) : C float32x4_t := do
  let r : Arr .f32 4 := Arr.undef
  let r ← cfor 0 4 1 r fun i r => do
    let r ← r.set i (.ofBits .f32 value)
    pure r
  r.ret

/-- `neon_sim.cpp:3429-3437`: `float32x2_t vget_low_f32(float32x4_t a)` -/
def vget_low_f32 (a : float32x4_t) : C float32x2_t := do
  let r : Arr .f32 2 := Arr.undef
  let r ← cfor 0 2 1 r fun i r => do
    let r ← r.set i (← a.get i)
    pure r
  r.ret

/-- `neon_sim.cpp:3439-3447`: `int32x2_t vget_low_s32(int32x4_t a)` -/
def vget_low_s32 (a : int32x4_t) : C int32x2_t := do
  let r : Arr .s32 2 := Arr.undef
  let r ← cfor 0 2 1 r fun i r => do
    let r ← r.set i (← a.get i)
    pure r
  r.ret

/-- `neon_sim.cpp:3449-3457`: `uint32x2_t vget_low_u32(uint32x4_t a)` -/
def vget_low_u32 (a : uint32x4_t) : C uint32x2_t := do
  let r : Arr .u32 2 := Arr.undef
  let r ← cfor 0 2 1 r fun i r => do
    let r ← r.set i (← a.get i)
    pure r
  r.ret

/-- `neon_sim.cpp:3459-3467`: `int16x4_t vget_low_s16(int16x8_t a)` -/
def vget_low_s16 (a : int16x8_t) : C int16x4_t := do
  let r : Arr .s16 4 := Arr.undef
  let r ← cfor 0 4 1 r fun i r => do
    let r ← r.set i (← a.get i)
    pure r
  r.ret

/-- `neon_sim.cpp:3469-3477`: `uint16x4_t vget_low_u16(uint16x8_t a)` -/
def vget_low_u16 (a : uint16x8_t) : C uint16x4_t := do
  let r : Arr .u16 4 := Arr.undef
  let r ← cfor 0 4 1 r fun i r => do
    let r ← r.set i (← a.get i)
    pure r
  r.ret

/-- `neon_sim.cpp:3480-3488`: `int8x8_t vget_low_s8(int8x16_t a)` -/
def vget_low_s8 (a : int8x16_t) : C int8x8_t := do
  let r : Arr .s8 8 := Arr.undef
  let r ← cfor 0 8 1 r fun i r => do
    let r ← r.set i (← a.get i)
    pure r
  r.ret

/-- `neon_sim.cpp:3490-3498`: `uint8x8_t vget_low_u8(uint8x16_t a)` -/
def vget_low_u8 (a : uint8x16_t) : C uint8x8_t := do
  let r : Arr .u8 8 := Arr.undef
  let r ← cfor 0 8 1 r fun i r => do
    let r ← r.set i (← a.get i)
    pure r
  r.ret

/-- `neon_sim.cpp:3501-3510`: `float32x2_t vget_high_f32(float32x4_t a)` -/
def vget_high_f32 (a : float32x4_t) : C float32x2_t := do
  let r : Arr .f32 2 := Arr.undef
  let mid : Int := 4 / 2
  let r ← cfor 0 2 1 r fun i r => do
    let r ← r.set i (← a.get (mid + i))
    pure r
  r.ret

/-- `neon_sim.cpp:3512-3521`: `int32x2_t vget_high_s32(int32x4_t a)` -/
def vget_high_s32 (a : int32x4_t) : C int32x2_t := do
  let r : Arr .s32 2 := Arr.undef
  let mid : Int := 4 / 2
  let r ← cfor 0 2 1 r fun i r => do
    let r ← r.set i (← a.get (mid + i))
    pure r
  r.ret

/-- `neon_sim.cpp:3523-3532`: `int16x4_t vget_high_s16(int16x8_t a)` -/
def vget_high_s16 (a : int16x8_t) : C int16x4_t := do
  let r : Arr .s16 4 := Arr.undef
  let mid : Int := 8 / 2
  let r ← cfor 0 4 1 r fun i r => do
    let r ← r.set i (← a.get (mid + i))
    pure r
  r.ret

/-- `neon_sim.cpp:3534-3543`: `uint16x4_t vget_high_u16(uint16x8_t a)` -/
def vget_high_u16 (a : uint16x8_t) : C uint16x4_t := do
  let r : Arr .u16 4 := Arr.undef
  let mid : Int := 8 / 2
  let r ← cfor 0 4 1 r fun i r => do
    let r ← r.set i (← a.get (mid + i))
    pure r
  r.ret

/-- `neon_sim.cpp:3545-3554`: `uint32x2_t vget_high_u32(uint32x4_t a)` -/
def vget_high_u32 (a : uint32x4_t) : C uint32x2_t := do
  let r : Arr .u32 2 := Arr.undef
  let mid : Int := 4 / 2
  let r ← cfor 0 2 1 r fun i r => do
    let r ← r.set i (← a.get (mid + i))
    pure r
  r.ret

/-- `neon_sim.cpp:3556-3565`: `int8x8_t vget_high_s8(int8x16_t a)` -/
def vget_high_s8 (a : int8x16_t) : C int8x8_t := do
  let r : Arr .s8 8 := Arr.undef
  let mid : Int := 16 / 2
  let r ← cfor 0 8 1 r fun i r => do
    let r ← r.set i (← a.get (mid + i))
    pure r
  r.ret

/-- `neon_sim.cpp:3567-3576`: `uint8x8_t vget_high_u8(uint8x16_t a)` -/
def vget_high_u8 (a : uint8x16_t) : C uint8x8_t := do
  let r : Arr .u8 8 := Arr.undef
  let mid : Int := 16 / 2
  let r ← cfor 0 8 1 r fun i r => do
    let r ← r.set i (← a.get (mid + i))
    pure r
  r.ret

/-- `neon_sim.cpp:3578-3584`: `float32x2_t vpmax_f32(float32x2_t a, float32x2_t b)` -/
def vpmax_f32 (a b : float32x2_t) : C float32x2_t := do
  let r : Arr .f32 2 := Arr.undef
  let r ← r.set 0 (← if Val.gt (← a.get 0) (← a.get 1) then do pure (← a.get 0) else do pure (← a.get 1))
  let r ← r.set 1 (← if Val.gt (← b.get 0) (← b.get 1) then do pure (← b.get 0) else do pure (← b.get 1))
  r.ret

/-- `neon_sim.cpp:3586-3592`: `float32x2_t vpmin_f32(float32x2_t a, float32x2_t b)` -/
def vpmin_f32 (a b : float32x2_t) : C float32x2_t := do
  let r : Arr .f32 2 := Arr.undef
  let r ← r.set 0 (← if Val.lt (← a.get 0) (← a.get 1) then do pure (← a.get 0) else do pure (← a.get 1))
  let r ← r.set 1 (← if Val.lt (← b.get 0) (← b.get 1) then do pure (← b.get 0) else do pure (← b.get 1))
  r.ret

/-- `neon_sim.cpp:3594-3597`: `float32_t vget_lane_f32(float32x2_t v, const int lane)` -/
def vget_lane_f32 (v : float32x2_t) (lane : Int) : C float32_t := do
  Val.toBits .f32 (← v.get lane)

/-- `neon_sim.cpp:3599-3607`: `float32_t vgetq_lane_f32(float32x4_t v, int lane)` -/
def vgetq_lane_f32 (v : float32x4_t) (lane : Int) : C float32_t := do
  if (lane < 0 ∨ lane > 3) then .abort "vgetq_lane_f32: lane should is out of range [0, 3]" else do
    Val.toBits .f32 (← v.get lane)

/-- `neon_sim.cpp:3610-3613`: `uint8_t vgetq_lane_u8(uint8x16_t v, const int lane)` -/
def vgetq_lane_u8 (v : uint8x16_t) (lane : Int) : C uint8_t := do
  Val.toBits .u8 (← v.get lane)

/-- `neon_sim.cpp:3615-3618`: `uint16_t vgetq_lane_u16(uint16x8_t v, const int lane)` -/
def vgetq_lane_u16 (v : uint16x8_t) (lane : Int) : C uint16_t := do
  Val.toBits .u16 (← v.get lane)

/-- `neon_sim.cpp:3620-3623`: `uint32_t vgetq_lane_u32(uint32x4_t v, const int lane)` -/
def vgetq_lane_u32 (v : uint32x4_t) (lane : Int) : C uint32_t := do
  Val.toBits .u32 (← v.get lane)

/-- `neon_sim.cpp:3625-3628`: `uint64_t vgetq_lane_u64(uint64x2_t v, const int lane)` -/
def vgetq_lane_u64 (v : uint64x2_t) (lane : Int) : C uint64_t := do
  Val.toBits .u64 (← v.get lane)

/-- `neon_sim.cpp:3630-3633`: `int8_t vgetq_lane_s8(int8x16_t v, const int lane)` -/
def vgetq_lane_s8 (v : int8x16_t) (lane : Int) : C int8_t := do
  Val.toBits .s8 (← v.get lane)

/-- `neon_sim.cpp:3635-3638`: `int16_t vgetq_lane_s16(int16x8_t v, const int lane)` -/
def vgetq_lane_s16 (v : int16x8_t) (lane : Int) : C int16_t := do
  Val.toBits .s16 (← v.get lane)

/-- `neon_sim.cpp:3640-3643`: `int32_t vgetq_lane_s32(int32x4_t v, const int lane)` -/
def vgetq_lane_s32 (v : int32x4_t) (lane : Int) : C int32_t := do
  Val.toBits .s32 (← v.get lane)

/-- `neon_sim.cpp:3645-3648`: `int64_t vgetq_lane_s64(int64x2_t v, const int lane)` -/
def vgetq_lane_s64 (v : int64x2_t) (lane : Int) : C int64_t := do
  Val.toBits .s64 (← v.get lane)

/-- `neon_sim.cpp:3650-3653`: `float64_t vgetq_lane_f64(float64x2_t v, const int lane)` -/
def vgetq_lane_f64 (v : float64x2_t) (lane : Int) : C float64_t := do
  Val.toBits .f64 (← v.get lane)

/-- `neon_sim.cpp:3656-3664`: `int8x16_t vminq_s8(int8x16_t N, int8x16_t M)` -/
def vminq_s8 (N M : int8x16_t) : C int8x16_t := do
  let D : Arr .s8 16 := Arr.undef
  let D ← cfor 0 16 1 D fun i D => do
    let D ← D.set i (← if Val.lt (← N.get i) (← M.get i) then do pure (← N.get i) else do pure (← M.get i))
    pure D
  D.ret

/-- `neon_sim.cpp:3666-3674`: `int16x8_t vminq_s16(int16x8_t N, int16x8_t M)` -/
def vminq_s16 (N M : int16x8_t) : C int16x8_t := do
  let D : Arr .s16 8 := Arr.undef
  let D ← cfor 0 8 1 D fun i D => do
    let D ← D.set i (← if Val.lt (← N.get i) (← M.get i) then do pure (← N.get i) else do pure (← M.get i))
    pure D
  D.ret

/-- `neon_sim.cpp:3676-3684`: `int32x4_t vminq_s32(int32x4_t N, int32x4_t M)` -/
def vminq_s32 (N M : int32x4_t) : C int32x4_t := do
  let D : Arr .s32 4 := Arr.undef
  let D ← cfor 0 4 1 D fun i D => do
    let D ← D.set i (← if Val.lt (← N.get i) (← M.get i) then do pure (← N.get i) else do pure (← M.get i))
    pure D
  D.ret

/-- `neon_sim.cpp:3686-3694`: `int8x16_t vminq_u8(int8x16_t N, int8x16_t M)` -/
def vminq_u8 (N M : int8x16_t) : C int8x16_t := do
  let D : Arr .s8 16 := Arr.undef
  let D ← cfor 0 16 1 D fun i D => do
    let D ← D.set i (← if Val.lt (← N.get i) (← M.get i) then do pure (← N.get i) else do pure (← M.get i))
    pure D
  D.ret

/-- `neon_sim.cpp:3696-3704`: `int16x8_t vminq_u16(int16x8_t N, int16x8_t M)` -/
def vminq_u16 (N M : int16x8_t) : C int16x8_t := do
  let D : Arr .s16 8 := Arr.undef
  let D ← cfor 0 8 1 D fun i D => do
    let D ← D.set i (← if Val.lt (← N.get i) (← M.get i) then do pure (← N.get i) else do pure (← M.get i))
    pure D
  D.ret

/-- `neon_sim.cpp:3706-3714`: `int32x4_t vminq_u32(int32x4_t N, int32x4_t M)` -/
def vminq_u32 (N M : int32x4_t) : C int32x4_t := do
  let D : Arr .s32 4 := Arr.undef
  let D ← cfor 0 4 1 D fun i D => do
    let D ← D.set i (← if Val.lt (← N.get i) (← M.get i) then do pure (← N.get i) else do pure (← M.get i))
    pure D
  D.ret

/-- `neon_sim.cpp:3716-3724`: `float32x4_t vminq_f32(float32x4_t N, float32x4_t M)` -/
def vminq_f32 (N M : float32x4_t) : C float32x4_t := do
  let D : Arr .f32 4 := Arr.undef
  let D ← cfor 0 4 1 D fun i D => do
    let D ← D.set i (← if Val.lt (← N.get i) (← M.get i) then do pure (← N.get i) else do pure (← M.get i))
    pure D
  D.ret

/-- `neon_sim.cpp:3726-3741`: `uint32x4_t vcltq_f32(float32x4_t N, float32x4_t M)` -/
def vcltq_f32 (N M : float32x4_t) : C uint32x4_t := do
  let D : Arr .u32 4 := Arr.undef
  let D ← cfor 0 4 1 D fun i D => do
    let D ←
      if Val.lt (← N.get i) (← M.get i) then do
        let D ← D.set i (.int .u32 4294967295)
        pure D
      else do
        let D ← D.set i (vint 0)
        pure D
    pure D
  D.ret

/-- `neon_sim.cpp:3743-3751`: `float32x4_t vbslq_f32(uint32x4_t mask, float32x4_t a, float32x4_t b)` -/
def vbslq_f32 (mask : uint32x4_t) (a b : float32x4_t) : C float32x4_t := do
  let r : Arr .f32 4 := Arr.undef
  let r ← cfor 0 4 1 r fun i r => do
    let r ← r.set i (← if Val.truth (← mask.get i) then do pure (← a.get i) else do pure (← b.get i))
    pure r
  r.ret

end Verif.Model
