import Verif.Types

/-! Generated from `neon_sim.cpp` by `tools/translate.py`. -/

set_option linter.unusedVariables false

namespace Verif.Model

variable [Dialect]

/-- `neon_sim.cpp:14-22`: `uint8x8_t vld1_u8(uint8_t const* ptr)` -/
def vld1_u8 (ptr : Ptr .u8) : C uint8x8_t := do
  let r : Arr .u8 8 := Arr.undef
  let r ← cfor 0 8 1 r fun i r => do
    let r ← r.set i (← ptr.get i)
    pure r
  r.ret

/-- `neon_sim.cpp:23-31`: `int8x8_t vld1_s8(int8_t const* ptr)` -/
def vld1_s8 (ptr : Ptr .s8) : C int8x8_t := do
  let r : Arr .s8 8 := Arr.undef
  let r ← cfor 0 8 1 r fun i r => do
    let r ← r.set i (← ptr.get i)
    pure r
  r.ret

/-- `neon_sim.cpp:32-40`: `uint16x4_t vld1_u16(uint16_t const* ptr)` -/
def vld1_u16 (ptr : Ptr .u16) : C uint16x4_t := do
  let r : Arr .u16 4 := Arr.undef
  let r ← cfor 0 4 1 r fun i r => do
    let r ← r.set i (← ptr.get i)
    pure r
  r.ret

/-- `neon_sim.cpp:41-49`: `int16x4_t vld1_s16(int16_t const* ptr)` -/
def vld1_s16 (ptr : Ptr .s16) : C int16x4_t := do
  let r : Arr .s16 4 := Arr.undef
  let r ← cfor 0 4 1 r fun i r => do
    let r ← r.set i (← ptr.get i)
    pure r
  r.ret

/-- `neon_sim.cpp:50-58`: `uint32x2_t vld1_u32(uint32_t const* ptr)` -/
def vld1_u32 (ptr : Ptr .u32) : C uint32x2_t := do
  let r : Arr .u32 2 := Arr.undef
  let r ← cfor 0 2 1 r fun i r => do
    let r ← r.set i (← ptr.get i)
    pure r
  r.ret

/-- `neon_sim.cpp:59-67`: `uint64x1_t vld1_u64(uint64_t const* ptr)` -/
def vld1_u64 (ptr : Ptr .u64) : C uint64x1_t := do
  let r : Arr .u64 1 := Arr.undef
  let r ← cfor 0 1 1 r fun i r => do
    let r ← r.set i (← ptr.get i)
    pure r
  r.ret

/-- `neon_sim.cpp:68-76`: `int32x2_t vld1_s32(int32_t const* ptr)` -/
def vld1_s32 (ptr : Ptr .s32) : C int32x2_t := do
  let r : Arr .s32 2 := Arr.undef
  let r ← cfor 0 2 1 r fun i r => do
    let r ← r.set i (← ptr.get i)
    pure r
  r.ret

/-- `neon_sim.cpp:77-85`: `int64x1_t vld1_s64(int64_t const* ptr)` -/
def vld1_s64 (ptr : Ptr .s64) : C int64x1_t := do
  let r : Arr .s64 1 := Arr.undef
  let r ← cfor 0 1 1 r fun i r => do
    let r ← r.set i (← ptr.get i)
    pure r
  r.ret

/-- `neon_sim.cpp:86-94`: `float32x2_t vld1_f32(float32_t const* ptr)` -/
def vld1_f32 (ptr : Ptr .f32) : C float32x2_t := do
  let r : Arr .f32 2 := Arr.undef
  let r ← cfor 0 2 1 r fun i r => do
    let r ← r.set i (← ptr.get i)
    pure r
  r.ret

/-- `neon_sim.cpp:95-100`: `float64x1_t vld1_f64(float64_t const* ptr)` -/
def vld1_f64 (ptr : Ptr .f64) : C float64x1_t := do
  let r : Arr .f64 1 := Arr.undef
  let r ← r.set 0 (← ptr.get 0)
  r.ret

/-- `neon_sim.cpp:103-111`: `uint8x16_t vld1q_u8(uint8_t const* ptr)` -/
def vld1q_u8 (ptr : Ptr .u8) : C uint8x16_t := do
  let r : Arr .u8 16 := Arr.undef
  let r ← cfor 0 16 1 r fun i r => do
    let r ← r.set i (← ptr.get i)
    pure r
  r.ret

/-- `neon_sim.cpp:112-120`: `int8x16_t vld1q_s8(int8_t const* ptr)` -/
def vld1q_s8 (ptr : Ptr .s8) : C int8x16_t := do
  let r : Arr .s8 16 := Arr.undef
  let r ← cfor 0 16 1 r fun i r => do
    let r ← r.set i (← ptr.get i)
    pure r
  r.ret

/-- `neon_sim.cpp:121-129`: `uint16x8_t vld1q_u16(uint16_t const* ptr)` -/
def vld1q_u16 (ptr : Ptr .u16) : C uint16x8_t := do
  let r : Arr .u16 8 := Arr.undef
  let r ← cfor 0 8 1 r fun i r => do
    let r ← r.set i (← ptr.get i)
    pure r
  r.ret

/-- `neon_sim.cpp:130-138`: `int16x8_t vld1q_s16(int16_t const* ptr)` -/
def vld1q_s16 (ptr : Ptr .s16) : C int16x8_t := do
  let r : Arr .s16 8 := Arr.undef
  let r ← cfor 0 8 1 r fun i r => do
    let r ← r.set i (← ptr.get i)
    pure r
  r.ret

/-- `neon_sim.cpp:139-147`: `uint32x4_t vld1q_u32(uint32_t const* ptr)` -/
def vld1q_u32 (ptr : Ptr .u32) : C uint32x4_t := do
  let r : Arr .u32 4 := Arr.undef
  let r ← cfor 0 4 1 r fun i r => do
    let r ← r.set i (← ptr.get i)
    pure r
  r.ret

/-- `neon_sim.cpp:148-156`: `int32x4_t vld1q_s32(int32_t const* ptr)` -/
def vld1q_s32 (ptr : Ptr .s32) : C int32x4_t := do
  let r : Arr .s32 4 := Arr.undef
  let r ← cfor 0 4 1 r fun i r => do
    let r ← r.set i (← ptr.get i)
    pure r
  r.ret

/-- `neon_sim.cpp:157-165`: `int64x2_t vld1q_s64(int64_t const* ptr)` -/
def vld1q_s64 (ptr : Ptr .s64) : C int64x2_t := do
  let r : Arr .s64 2 := Arr.undef
  let r ← cfor 0 2 1 r fun i r => do
    let r ← r.set i (← ptr.get i)
    pure r
  r.ret

/-- `neon_sim.cpp:166-174`: `uint64x2_t vld1q_u64(uint64_t const* ptr)` -/
def vld1q_u64 (ptr : Ptr .u64) : C uint64x2_t := do
  let r : Arr .u64 2 := Arr.undef
  let r ← cfor 0 2 1 r fun i r => do
    let r ← r.set i (← ptr.get i)
    pure r
  r.ret

/-- `neon_sim.cpp:175-183`: `float32x4_t vld1q_f32(float32_t const* ptr)` -/
def vld1q_f32 (ptr : Ptr .f32) : C float32x4_t := do
  let r : Arr .f32 4 := Arr.undef
  let r ← cfor 0 4 1 r fun i r => do
    let r ← r.set i (← ptr.get i)
    pure r
  r.ret

/-- `neon_sim.cpp:186-195`: `uint8x8x2_t vld2_u8(uint8_t const* ptr)` -/
def vld2_u8 (ptr : Ptr .u8) : C uint8x8x2_t := do
  let r : Arr2 .u8 8 2 := Arr2.undef
  let r ← cfor 0 8 1 r fun i r => do
    let r ← r.set 0 i (← ptr.get ((2 * i) + 0))
    let r ← r.set 1 i (← ptr.get ((2 * i) + 1))
    pure r
  r.ret

/-- `neon_sim.cpp:196-205`: `int8x8x2_t vld2_s8(int8_t const* ptr)` -/
def vld2_s8 (ptr : Ptr .s8) : C int8x8x2_t := do
  let r : Arr2 .s8 8 2 := Arr2.undef
  let r ← cfor 0 8 1 r fun i r => do
    let r ← r.set 0 i (← ptr.get ((2 * i) + 0))
    let r ← r.set 1 i (← ptr.get ((2 * i) + 1))
    pure r
  r.ret

/-- `neon_sim.cpp:206-215`: `uint16x4x2_t vld2_u16(uint16_t const* ptr)` -/
def vld2_u16 (ptr : Ptr .u16) : C uint16x4x2_t := do
  let r : Arr2 .u16 4 2 := Arr2.undef
  let r ← cfor 0 4 1 r fun i r => do
    let r ← r.set 0 i (← ptr.get ((2 * i) + 0))
    let r ← r.set 1 i (← ptr.get ((2 * i) + 1))
    pure r
  r.ret

/-- `neon_sim.cpp:216-225`: `int16x4x2_t vld2_s16(int16_t const* ptr)` -/
def vld2_s16 (ptr : Ptr .s16) : C int16x4x2_t := do
  let r : Arr2 .s16 4 2 := Arr2.undef
  let r ← cfor 0 4 1 r fun i r => do
    let r ← r.set 0 i (← ptr.get ((2 * i) + 0))
    let r ← r.set 1 i (← ptr.get ((2 * i) + 1))
    pure r
  r.ret

/-- `neon_sim.cpp:226-235`: `uint32x2x2_t vld2_u32(uint32_t const* ptr)` -/
def vld2_u32 (ptr : Ptr .u32) : C uint32x2x2_t := do
  let r : Arr2 .u32 2 2 := Arr2.undef
  let r ← cfor 0 2 1 r fun i r => do
    let r ← r.set 0 i (← ptr.get ((2 * i) + 0))
    let r ← r.set 1 i (← ptr.get ((2 * i) + 1))
    pure r
  r.ret

/-- `neon_sim.cpp:236-245`: `int32x2x2_t vld_s32(int32_t const* ptr)` -/
def vld_s32 (ptr : Ptr .s32) : C int32x2x2_t := do
  let r : Arr2 .s32 2 2 := Arr2.undef
  let r ← cfor 0 2 1 r fun i r => do
    let r ← r.set 0 i (← ptr.get ((2 * i) + 0))
    let r ← r.set 1 i (← ptr.get ((2 * i) + 1))
    pure r
  r.ret

/-- `neon_sim.cpp:246-255`: `float32x2x2_t vld2_f32(float const* ptr)` -/
def vld2_f32 (ptr : Ptr .f32) : C float32x2x2_t := do
  let r : Arr2 .f32 2 2 := Arr2.undef
  let r ← cfor 0 2 1 r fun i r => do
    let r ← r.set 0 i (← ptr.get ((2 * i) + 0))
    let r ← r.set 1 i (← ptr.get ((2 * i) + 1))
    pure r
  r.ret

/-- `neon_sim.cpp:258-267`: `uint8x16x2_t vld2q_u8(uint8_t const* ptr)` -/
def vld2q_u8 (ptr : Ptr .u8) : C uint8x16x2_t := do
  let r : Arr2 .u8 16 2 := Arr2.undef
  let r ← cfor 0 16 1 r fun i r => do
    let r ← r.set 0 i (← ptr.get ((2 * i) + 0))
    let r ← r.set 1 i (← ptr.get ((2 * i) + 1))
    pure r
  r.ret

/-- `neon_sim.cpp:268-277`: `int8x16x2_t vld2q_s8(int8_t const* ptr)` -/
def vld2q_s8 (ptr : Ptr .s8) : C int8x16x2_t := do
  let r : Arr2 .s8 16 2 := Arr2.undef
  let r ← cfor 0 16 1 r fun i r => do
    let r ← r.set 0 i (← ptr.get ((2 * i) + 0))
    let r ← r.set 1 i (← ptr.get ((2 * i) + 1))
    pure r
  r.ret

/-- `neon_sim.cpp:278-287`: `uint16x8x2_t vld2q_u16(uint16_t const* ptr)` -/
def vld2q_u16 (ptr : Ptr .u16) : C uint16x8x2_t := do
  let r : Arr2 .u16 8 2 := Arr2.undef
  let r ← cfor 0 8 1 r fun i r => do
    let r ← r.set 0 i (← ptr.get ((2 * i) + 0))
    let r ← r.set 1 i (← ptr.get ((2 * i) + 1))
    pure r
  r.ret

/-- `neon_sim.cpp:288-297`: `int16x8x2_t vld2q_s16(int16_t const* ptr)` -/
def vld2q_s16 (ptr : Ptr .s16) : C int16x8x2_t := do
  let r : Arr2 .s16 8 2 := Arr2.undef
  let r ← cfor 0 8 1 r fun i r => do
    let r ← r.set 0 i (← ptr.get ((2 * i) + 0))
    let r ← r.set 1 i (← ptr.get ((2 * i) + 1))
    pure r
  r.ret

/-- `neon_sim.cpp:298-307`: `uint32x4x2_t vld2q_u32(uint32_t const* ptr)` -/
def vld2q_u32 (ptr : Ptr .u32) : C uint32x4x2_t := do
  let r : Arr2 .u32 4 2 := Arr2.undef
  let r ← cfor 0 4 1 r fun i r => do
    let r ← r.set 0 i (← ptr.get ((2 * i) + 0))
    let r ← r.set 1 i (← ptr.get ((2 * i) + 1))
    pure r
  r.ret

/-- `neon_sim.cpp:308-317`: `int32x4x2_t vld2q_s32(int32_t const* ptr)` -/
def vld2q_s32 (ptr : Ptr .s32) : C int32x4x2_t := do
  let r : Arr2 .s32 4 2 := Arr2.undef
  let r ← cfor 0 4 1 r fun i r => do
    let r ← r.set 0 i (← ptr.get ((2 * i) + 0))
    let r ← r.set 1 i (← ptr.get ((2 * i) + 1))
    pure r
  r.ret

/-- `neon_sim.cpp:320-330`: `uint8x8x3_t vld3_u8(uint8_t const* ptr)` -/
def vld3_u8 (ptr : Ptr .u8) : C uint8x8x3_t := do
  let r : Arr2 .u8 8 3 := Arr2.undef
  let r ← cfor 0 8 1 r fun i r => do
    let r ← r.set 0 i (← ptr.get ((3 * i) + 0))
    let r ← r.set 1 i (← ptr.get ((3 * i) + 1))
    let r ← r.set 2 i (← ptr.get ((3 * i) + 2))
    pure r
  r.ret

/-- `neon_sim.cpp:331-341`: `int8x8x3_t vld3_s8(int8_t const* ptr)` -/
def vld3_s8 (ptr : Ptr .s8) : C int8x8x3_t := do
  let r : Arr2 .s8 8 3 := Arr2.undef
  let r ← cfor 0 8 1 r fun i r => do
    let r ← r.set 0 i (← ptr.get ((3 * i) + 0))
    let r ← r.set 1 i (← ptr.get ((3 * i) + 1))
    let r ← r.set 2 i (← ptr.get ((3 * i) + 2))
    pure r
  r.ret

/-- `neon_sim.cpp:342-352`: `uint16x4x3_t vld3_u16(uint16_t const* ptr)` -/
def vld3_u16 (ptr : Ptr .u16) : C uint16x4x3_t := do
  let r : Arr2 .u16 4 3 := Arr2.undef
  let r ← cfor 0 4 1 r fun i r => do
    let r ← r.set 0 i (← ptr.get ((3 * i) + 0))
    let r ← r.set 1 i (← ptr.get ((3 * i) + 1))
    let r ← r.set 2 i (← ptr.get ((3 * i) + 2))
    pure r
  r.ret

/-- `neon_sim.cpp:353-363`: `int16x4x3_t vld3_s16(int16_t const* ptr)` -/
def vld3_s16 (ptr : Ptr .s16) : C int16x4x3_t := do
  let r : Arr2 .s16 4 3 := Arr2.undef
  let r ← cfor 0 4 1 r fun i r => do
    let r ← r.set 0 i (← ptr.get ((3 * i) + 0))
    let r ← r.set 1 i (← ptr.get ((3 * i) + 1))
    let r ← r.set 2 i (← ptr.get ((3 * i) + 2))
    pure r
  r.ret

/-- `neon_sim.cpp:364-374`: `uint32x2x3_t vld3_u32(uint32_t const* ptr)` -/
def vld3_u32 (ptr : Ptr .u32) : C uint32x2x3_t := do
  let r : Arr2 .u32 2 3 := Arr2.undef
  let r ← cfor 0 2 1 r fun i r => do
    let r ← r.set 0 i (← ptr.get ((3 * i) + 0))
    let r ← r.set 1 i (← ptr.get ((3 * i) + 1))
    let r ← r.set 2 i (← ptr.get ((3 * i) + 2))
    pure r
  r.ret

/-- `neon_sim.cpp:375-385`: `int32x2x3_t vld3_s32(int32_t const* ptr)` -/
def vld3_s32 (ptr : Ptr .s32) : C int32x2x3_t := do
  let r : Arr2 .s32 2 3 := Arr2.undef
  let r ← cfor 0 2 1 r fun i r => do
    let r ← r.set 0 i (← ptr.get ((3 * i) + 0))
    let r ← r.set 1 i (← ptr.get ((3 * i) + 1))
    let r ← r.set 2 i (← ptr.get ((3 * i) + 2))
    pure r
  r.ret

/-- `neon_sim.cpp:386-396`: `float32x2x3_t vld3_f32(float const* ptr)` -/
def vld3_f32 (ptr : Ptr .f32) : C float32x2x3_t := do
  let r : Arr2 .f32 2 3 := Arr2.undef
  let r ← cfor 0 2 1 r fun i r => do
    let r ← r.set 0 i (← ptr.get ((3 * i) + 0))
    let r ← r.set 1 i (← ptr.get ((3 * i) + 1))
    let r ← r.set 2 i (← ptr.get ((3 * i) + 2))
    pure r
  r.ret

/-- `neon_sim.cpp:399-409`: `uint8x16x3_t vld3q_u8(uint8_t const* ptr)` -/
def vld3q_u8 (ptr : Ptr .u8) : C uint8x16x3_t := do
  let r : Arr2 .u8 16 3 := Arr2.undef
  let r ← cfor 0 16 1 r fun i r => do
    let r ← r.set 0 i (← ptr.get ((3 * i) + 0))
    let r ← r.set 1 i (← ptr.get ((3 * i) + 1))
    let r ← r.set 2 i (← ptr.get ((3 * i) + 2))
    pure r
  r.ret

/-- `neon_sim.cpp:410-420`: `int8x16x3_t vld3q_s8(int8_t const* ptr)` -/
def vld3q_s8 (ptr : Ptr .s8) : C int8x16x3_t := do
  let r : Arr2 .s8 16 3 := Arr2.undef
  let r ← cfor 0 16 1 r fun i r => do
    let r ← r.set 0 i (← ptr.get ((3 * i) + 0))
    let r ← r.set 1 i (← ptr.get ((3 * i) + 1))
    let r ← r.set 2 i (← ptr.get ((3 * i) + 2))
    pure r
  r.ret

/-- `neon_sim.cpp:421-431`: `uint16x8x3_t vld3q_u16(uint16_t const* ptr)` -/
def vld3q_u16 (ptr : Ptr .u16) : C uint16x8x3_t := do
  let r : Arr2 .u16 8 3 := Arr2.undef
  let r ← cfor 0 8 1 r fun i r => do
    let r ← r.set 0 i (← ptr.get ((3 * i) + 0))
    let r ← r.set 1 i (← ptr.get ((3 * i) + 1))
    let r ← r.set 2 i (← ptr.get ((3 * i) + 2))
    pure r
  r.ret

/-- `neon_sim.cpp:432-442`: `int16x8x3_t vld3q_s16(int16_t const* ptr)` -/
def vld3q_s16 (ptr : Ptr .s16) : C int16x8x3_t := do
  let r : Arr2 .s16 8 3 := Arr2.undef
  let r ← cfor 0 8 1 r fun i r => do
    let r ← r.set 0 i (← ptr.get ((3 * i) + 0))
    let r ← r.set 1 i (← ptr.get ((3 * i) + 1))
    let r ← r.set 2 i (← ptr.get ((3 * i) + 2))
    pure r
  r.ret

/-- `neon_sim.cpp:443-453`: `uint32x4x3_t vld3q_u32(uint32_t const* ptr)` -/
def vld3q_u32 (ptr : Ptr .u32) : C uint32x4x3_t := do
  let r : Arr2 .u32 4 3 := Arr2.undef
  let r ← cfor 0 4 1 r fun i r => do
    let r ← r.set 0 i (← ptr.get ((3 * i) + 0))
    let r ← r.set 1 i (← ptr.get ((3 * i) + 1))
    let r ← r.set 2 i (← ptr.get ((3 * i) + 2))
    pure r
  r.ret

/-- `neon_sim.cpp:454-464`: `int32x4x3_t vld3q_s32(int32_t const* ptr)` -/
def vld3q_s32 (ptr : Ptr .s32) : C int32x4x3_t := do
  let r : Arr2 .s32 4 3 := Arr2.undef
  let r ← cfor 0 4 1 r fun i r => do
    let r ← r.set 0 i (← ptr.get ((3 * i) + 0))
    let r ← r.set 1 i (← ptr.get ((3 * i) + 1))
    let r ← r.set 2 i (← ptr.get ((3 * i) + 2))
    pure r
  r.ret

/-- `neon_sim.cpp:468-479`: `uint8x8x4_t vld4_u8(uint8_t const* ptr)` -/
def vld4_u8 (ptr : Ptr .u8) : C uint8x8x4_t := do
  let r : Arr2 .u8 8 4 := Arr2.undef
  let r ← cfor 0 8 1 r fun i r => do
    let r ← r.set 0 i (← ptr.get ((4 * i) + 0))
    let r ← r.set 1 i (← ptr.get ((4 * i) + 1))
    let r ← r.set 2 i (← ptr.get ((4 * i) + 2))
    let r ← r.set 3 i (← ptr.get ((4 * i) + 3))
    pure r
  r.ret

/-- `neon_sim.cpp:480-491`: `int8x8x4_t vld4_s8(int8_t const* ptr)` -/
def vld4_s8 (ptr : Ptr .s8) : C int8x8x4_t := do
  let r : Arr2 .s8 8 4 := Arr2.undef
  let r ← cfor 0 8 1 r fun i r => do
    let r ← r.set 0 i (← ptr.get ((4 * i) + 0))
    let r ← r.set 1 i (← ptr.get ((4 * i) + 1))
    let r ← r.set 2 i (← ptr.get ((4 * i) + 2))
    let r ← r.set 3 i (← ptr.get ((4 * i) + 3))
    pure r
  r.ret

/-- `neon_sim.cpp:492-503`: `uint16x4x4_t vld4_u16(uint16_t const* ptr)` -/
def vld4_u16 (ptr : Ptr .u16) : C uint16x4x4_t := do
  let r : Arr2 .u16 4 4 := Arr2.undef
  let r ← cfor 0 4 1 r fun i r => do
    let r ← r.set 0 i (← ptr.get ((4 * i) + 0))
    let r ← r.set 1 i (← ptr.get ((4 * i) + 1))
    let r ← r.set 2 i (← ptr.get ((4 * i) + 2))
    let r ← r.set 3 i (← ptr.get ((4 * i) + 3))
    pure r
  r.ret

/-- `neon_sim.cpp:504-515`: `int16x4x4_t vld4_s16(int16_t const* ptr)` -/
def vld4_s16 (ptr : Ptr .s16) : C int16x4x4_t := do
  let r : Arr2 .s16 4 4 := Arr2.undef
  let r ← cfor 0 4 1 r fun i r => do
    let r ← r.set 0 i (← ptr.get ((4 * i) + 0))
    let r ← r.set 1 i (← ptr.get ((4 * i) + 1))
    let r ← r.set 2 i (← ptr.get ((4 * i) + 2))
    let r ← r.set 3 i (← ptr.get ((4 * i) + 3))
    pure r
  r.ret

/-- `neon_sim.cpp:516-527`: `uint32x2x4_t vld4_u32(uint32_t const* ptr)` -/
def vld4_u32 (ptr : Ptr .u32) : C uint32x2x4_t := do
  let r : Arr2 .u32 2 4 := Arr2.undef
  let r ← cfor 0 2 1 r fun i r => do
    let r ← r.set 0 i (← ptr.get ((4 * i) + 0))
    let r ← r.set 1 i (← ptr.get ((4 * i) + 1))
    let r ← r.set 2 i (← ptr.get ((4 * i) + 2))
    let r ← r.set 3 i (← ptr.get ((4 * i) + 3))
    pure r
  r.ret

/-- `neon_sim.cpp:528-539`: `int32x2x4_t vld4_s32(int32_t const* ptr)` -/
def vld4_s32 (ptr : Ptr .s32) : C int32x2x4_t := do
  let r : Arr2 .s32 2 4 := Arr2.undef
  let r ← cfor 0 2 1 r fun i r => do
    let r ← r.set 0 i (← ptr.get ((4 * i) + 0))
    let r ← r.set 1 i (← ptr.get ((4 * i) + 1))
    let r ← r.set 2 i (← ptr.get ((4 * i) + 2))
    let r ← r.set 3 i (← ptr.get ((4 * i) + 3))
    pure r
  r.ret

/-- `neon_sim.cpp:540-551`: `float32x2x4_t vld4_f32(float const* ptr)` -/
def vld4_f32 (ptr : Ptr .f32) : C float32x2x4_t := do
  let r : Arr2 .f32 2 4 := Arr2.undef
  let r ← cfor 0 2 1 r fun i r => do
    let r ← r.set 0 i (← ptr.get ((4 * i) + 0))
    let r ← r.set 1 i (← ptr.get ((4 * i) + 1))
    let r ← r.set 2 i (← ptr.get ((4 * i) + 2))
    let r ← r.set 3 i (← ptr.get ((4 * i) + 3))
    pure r
  r.ret

/-- `neon_sim.cpp:554-565`: `uint8x16x4_t vld4q_u8(uint8_t const* ptr)` -/
def vld4q_u8 (ptr : Ptr .u8) : C uint8x16x4_t := do
  let r : Arr2 .u8 16 4 := Arr2.undef
  let r ← cfor 0 16 1 r fun i r => do
    let r ← r.set 0 i (← ptr.get ((4 * i) + 0))
    let r ← r.set 1 i (← ptr.get ((4 * i) + 1))
    let r ← r.set 2 i (← ptr.get ((4 * i) + 2))
    let r ← r.set 3 i (← ptr.get ((4 * i) + 3))
    pure r
  r.ret

/-- `neon_sim.cpp:566-577`: `int8x16x4_t vld4q_s8(int8_t const* ptr)` -/
def vld4q_s8 (ptr : Ptr .s8) : C int8x16x4_t := do
  let r : Arr2 .s8 16 4 := Arr2.undef
  let r ← cfor 0 16 1 r fun i r => do
    let r ← r.set 0 i (← ptr.get ((4 * i) + 0))
    let r ← r.set 1 i (← ptr.get ((4 * i) + 1))
    let r ← r.set 2 i (← ptr.get ((4 * i) + 2))
    let r ← r.set 3 i (← ptr.get ((4 * i) + 3))
    pure r
  r.ret

/-- `neon_sim.cpp:578-589`: `uint16x8x4_t vld4q_u16(uint16_t const* ptr)` -/
def vld4q_u16 (ptr : Ptr .u16) : C uint16x8x4_t := do
  let r : Arr2 .u16 8 4 := Arr2.undef
  let r ← cfor 0 8 1 r fun i r => do
    let r ← r.set 0 i (← ptr.get ((4 * i) + 0))
    let r ← r.set 1 i (← ptr.get ((4 * i) + 1))
    let r ← r.set 2 i (← ptr.get ((4 * i) + 2))
    let r ← r.set 3 i (← ptr.get ((4 * i) + 3))
    pure r
  r.ret

/-- `neon_sim.cpp:590-601`: `int16x8x4_t vld4q_s16(int16_t const* ptr)` -/
def vld4q_s16 (ptr : Ptr .s16) : C int16x8x4_t := do
  let r : Arr2 .s16 8 4 := Arr2.undef
  let r ← cfor 0 8 1 r fun i r => do
    let r ← r.set 0 i (← ptr.get ((4 * i) + 0))
    let r ← r.set 1 i (← ptr.get ((4 * i) + 1))
    let r ← r.set 2 i (← ptr.get ((4 * i) + 2))
    let r ← r.set 3 i (← ptr.get ((4 * i) + 3))
    pure r
  r.ret

/-- `neon_sim.cpp:602-613`: `uint32x4x4_t vld4q_u32(uint32_t const* ptr)` -/
def vld4q_u32 (ptr : Ptr .u32) : C uint32x4x4_t := do
  let r : Arr2 .u32 4 4 := Arr2.undef
  let r ← cfor 0 4 1 r fun i r => do
    let r ← r.set 0 i (← ptr.get ((4 * i) + 0))
    let r ← r.set 1 i (← ptr.get ((4 * i) + 1))
    let r ← r.set 2 i (← ptr.get ((4 * i) + 2))
    let r ← r.set 3 i (← ptr.get ((4 * i) + 3))
    pure r
  r.ret

/-- `neon_sim.cpp:614-625`: `int32x4x4_t vld4q_s32(int32_t const* ptr)` -/
def vld4q_s32 (ptr : Ptr .s32) : C int32x4x4_t := do
  let r : Arr2 .s32 4 4 := Arr2.undef
  let r ← cfor 0 4 1 r fun i r => do
    let r ← r.set 0 i (← ptr.get ((4 * i) + 0))
    let r ← r.set 1 i (← ptr.get ((4 * i) + 1))
    let r ← r.set 2 i (← ptr.get ((4 * i) + 2))
    let r ← r.set 3 i (← ptr.get ((4 * i) + 3))
    pure r
  r.ret

/-- `neon_sim.cpp:628-636`: `float32x4_t vld1q_dup_f32(float32_t const* ptr)` -/
def vld1q_dup_f32 (ptr : Ptr .f32) : C float32x4_t := do
  let r : Arr .f32 4 := Arr.undef
  let r ← cfor 0 4 1 r fun i r => do
    let r ← r.set i (← ptr.get 0)
    pure r
  r.ret

/-- `neon_sim.cpp:638-647`: `int8x8_t vld1_lane_s8(int8_t const* ptr, int8x8_t src, const int lane)` -/
def vld1_lane_s8 (ptr : Ptr .s8) (src : int8x8_t) (lane : Int) : C int8x8_t := do
  let r : Arr .s8 8 := Arr.undef
  let r ← cfor 0 8 1 r fun i r => do
    let r ← r.set i (← src.get i)
    pure r
  let r ← r.set lane (← ptr.get 0)
  r.ret

/-- `neon_sim.cpp:649-658`: `uint8x8_t vld1_lane_u8(uint8_t const* ptr, uint8x8_t src, const int lane)` -/
def vld1_lane_u8 (ptr : Ptr .u8) (src : uint8x8_t) (lane : Int) : C uint8x8_t := do
  let r : Arr .u8 8 := Arr.undef
  let r ← cfor 0 8 1 r fun i r => do
    let r ← r.set i (← src.get i)
    pure r
  let r ← r.set lane (← ptr.get 0)
  r.ret

/-- `neon_sim.cpp:661-684`: `uint8x8x2_t vld2_lane_u8(uint8_t const* ptr, uint8x8x2_t src, const int lane)` -/
def vld2_lane_u8 (ptr : Ptr .u8) (src : uint8x8x2_t) (lane : Int) : C uint8x8x2_t := do
  let res : Arr2 .u8 8 2 := Arr2.undef
  if ¬(lane ≥ 0 ∧ lane ≤ 7) then .abort "only support [0, 7] for param lane\n" else do
    let res ← cfor 0 2 1 res fun j res => do
      let res ← cfor 0 8 1 res fun i res => do
        let res ←
          if i = lane then do
            let res ← res.set j i (← ptr.get j)
            pure res
          else do
            let res ← res.set j i (← src.get j i)
            pure res
        pure res
      pure res
    res.ret

/-- `neon_sim.cpp:686-709`: `uint8x8x3_t vld3_lane_u8(uint8_t const* ptr, uint8x8x3_t src, const int lane)` -/
def vld3_lane_u8 (ptr : Ptr .u8) (src : uint8x8x3_t) (lane : Int) : C uint8x8x3_t := do
  if ¬(lane ≥ 0 ∧ lane ≤ 7) then .abort "only support [0, 7] for param lane\n" else do
    let res : Arr2 .u8 8 3 := Arr2.undef
    let res ← cfor 0 3 1 res fun j res => do
      let res ← cfor 0 8 1 res fun i res => do
        let res ←
          if i = lane then do
            let res ← res.set j i (← ptr.get j)
            pure res
          else do
            let res ← res.set j i (← src.get j i)
            pure res
        pure res
      pure res
    res.ret

/-- `neon_sim.cpp:711-734`: `uint8x8x4_t vld4_lane_u8(uint8_t const* ptr, uint8x8x4_t src, const int lane)` -/
def vld4_lane_u8 (ptr : Ptr .u8) (src : uint8x8x4_t) (lane : Int) : C uint8x8x4_t := do
  if ¬(lane ≥ 0 ∧ lane ≤ 7) then .abort "only support [0, 7] for param lane\n" else do
    let res : Arr2 .u8 8 4 := Arr2.undef
    let res ← cfor 0 4 1 res fun j res => do
      let res ← cfor 0 8 1 res fun i res => do
        let res ←
          if i = lane then do
            let res ← res.set j i (← ptr.get j)
            pure res
          else do
            let res ← res.set j i (← src.get j i)
            pure res
        pure res
      pure res
    res.ret

end Verif.Model
