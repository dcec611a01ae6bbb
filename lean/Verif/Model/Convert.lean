import Verif.Types

/-! Generated from `neon_sim.cpp` by `tools/translate.py`. -/

set_option linter.unusedVariables false

namespace Verif.Model

variable [Dialect]

/-- `neon_sim.cpp:4006-4011`: `uint8x8_t vreinterpret_u8_s8(int8x8_t a)` -/
def vreinterpret_u8_s8 (a : int8x8_t) : C uint8x8_t := do
  let r : Arr .u8 8 := Arr.undef
  let r ← memcpyVec r a (1 * 8)
  r.ret

/-- `neon_sim.cpp:4013-4018`: `int16x8_t vreinterpretq_s16_u16(uint16x8_t a)` -/
def vreinterpretq_s16_u16 (a : uint16x8_t) : C int16x8_t := do
  let r : Arr .s16 8 := Arr.undef
  let r ← memcpyVec r a (2 * 8)
  r.ret

/-- `neon_sim.cpp:4020-4025`: `uint16x8_t vreinterpretq_u16_s16(int16x8_t a)` -/
def vreinterpretq_u16_s16 (a : int16x8_t) : C uint16x8_t := do
  let r : Arr .u16 8 := Arr.undef
  let r ← memcpyVec r a (2 * 8)
  r.ret

/-- `neon_sim.cpp:4027-4032`: `uint16x4_t vreinterpret_u16_u8(uint8x8_t a)` -/
def vreinterpret_u16_u8 (a : uint8x8_t) : C uint16x4_t := do
  let r : Arr .u16 4 := Arr.undef
  let r ← memcpyVec r a (2 * 4)
  r.ret

/-- `neon_sim.cpp:4034-4039`: `uint32x2_t vreinterpret_u32_u16(uint16x4_t a)` -/
def vreinterpret_u32_u16 (a : uint16x4_t) : C uint32x2_t := do
  let r : Arr .u32 2 := Arr.undef
  let r ← memcpyVec r a (4 * 2)
  r.ret

/-- `neon_sim.cpp:4041-4046`: `uint8x8_t vreinterpret_u8_u32(uint32x2_t a)` -/
def vreinterpret_u8_u32 (a : uint32x2_t) : C uint8x8_t := do
  let r : Arr .u8 8 := Arr.undef
  let r ← memcpyVec r a (1 * 8)
  r.ret

/-- `neon_sim.cpp:4048-4053`: `uint32x2_t vreinterpret_u32_u8(uint8x8_t a)` -/
def vreinterpret_u32_u8 (a : uint8x8_t) : C uint32x2_t := do
  let r : Arr .u32 2 := Arr.undef
  let r ← memcpyVec r a (4 * 2)
  r.ret

/-- `neon_sim.cpp:4055-4060`: `int8x8_t vreinterpret_s8_u8(uint8x8_t a)` -/
def vreinterpret_s8_u8 (a : uint8x8_t) : C int8x8_t := do
  let r : Arr .s8 8 := Arr.undef
  let r ← memcpyVec r a (1 * 8)
  r.ret

/-- `neon_sim.cpp:4062-4067`: `int32x2_t vreinterpret_s32_s16(int16x4_t a)` -/
def vreinterpret_s32_s16 (a : int16x4_t) : C int32x2_t := do
  let r : Arr .s32 2 := Arr.undef
  let r ← memcpyVec r a (4 * 2)
  r.ret

/-- `neon_sim.cpp:4069-4074`: `int16x4_t vreinterpret_s16_s32(int32x2_t a)` -/
def vreinterpret_s16_s32 (a : int32x2_t) : C int16x4_t := do
  let r : Arr .s16 4 := Arr.undef
  let r ← memcpyVec r a (2 * 4)
  r.ret

/-- `neon_sim.cpp:4077-4082`: `uint8x16_t vreinterpretq_u8_s8(int8x16_t a)` -/
def vreinterpretq_u8_s8 (a : int8x16_t) : C uint8x16_t := do
  let r : Arr .u8 16 := Arr.undef
  let r ← memcpyVec r a (1 * 16)
  r.ret

/-- `neon_sim.cpp:4084-4089`: `uint8x16_t vreinterpretq_u8_s16(int16x8_t a)` -/
def vreinterpretq_u8_s16 (a : int16x8_t) : C uint8x16_t := do
  let r : Arr .u8 16 := Arr.undef
  let r ← memcpyVec r a (1 * 16)
  r.ret

/-- `neon_sim.cpp:4091-4096`: `uint8x16_t vreinterpretq_u8_s32(int32x4_t a)` -/
def vreinterpretq_u8_s32 (a : int32x4_t) : C uint8x16_t := do
  let r : Arr .u8 16 := Arr.undef
  let r ← memcpyVec r a (1 * 16)
  r.ret

/-- `neon_sim.cpp:4098-4103`: `uint8x16_t vreinterpretq_u8_f32(float32x4_t a)` -/
def vreinterpretq_u8_f32 (a : float32x4_t) : C uint8x16_t := do
  let r : Arr .u8 16 := Arr.undef
  let r ← memcpyVec r a (1 * 16)
  r.ret

/-- `neon_sim.cpp:4105-4110`: `uint8x16_t vreinterpretq_u8_u16(uint16x8_t a)` -/
def vreinterpretq_u8_u16 (a : uint16x8_t) : C uint8x16_t := do
  let r : Arr .u8 16 := Arr.undef
  let r ← memcpyVec r a (1 * 16)
  r.ret

/-- `neon_sim.cpp:4112-4117`: `uint8x16_t vreinterpretq_u8_u32(uint32x4_t a)` -/
def vreinterpretq_u8_u32 (a : uint32x4_t) : C uint8x16_t := do
  let r : Arr .u8 16 := Arr.undef
  let r ← memcpyVec r a (1 * 16)
  r.ret

/-- `neon_sim.cpp:4119-4124`: `uint8x16_t vreinterpretq_u8_u64(uint64x2_t a)` -/
def vreinterpretq_u8_u64 (a : uint64x2_t) : C uint8x16_t := do
  let r : Arr .u8 16 := Arr.undef
  let r ← memcpyVec r a (1 * 16)
  r.ret

/-- `neon_sim.cpp:4126-4131`: `uint8x16_t vreinterpretq_u8_s64(int64x2_t a)` -/
def vreinterpretq_u8_s64 (a : int64x2_t) : C uint8x16_t := do
  let r : Arr .u8 16 := Arr.undef
  let r ← memcpyVec r a (1 * 16)
  r.ret

/-- `neon_sim.cpp:4140-4145`: `uint8x16_t vreinterpretq_u8_f64(float64x2_t a)` -/
def vreinterpretq_u8_f64 (a : float64x2_t) : C uint8x16_t := do
  let r : Arr .u8 16 := Arr.undef
  let r ← memcpyVec r a (1 * 16)
  r.ret

/-- `neon_sim.cpp:4148-4153`: `uint32x4_t vreinterpretq_u32_s8(int8x16_t a)` -/
def vreinterpretq_u32_s8 (a : int8x16_t) : C uint32x4_t := do
  let r : Arr .u32 4 := Arr.undef
  let r ← memcpyVec r a (4 * 4)
  r.ret

/-- `neon_sim.cpp:4155-4160`: `uint32x4_t vreinterpretq_u32_s16(int16x8_t a)` -/
def vreinterpretq_u32_s16 (a : int16x8_t) : C uint32x4_t := do
  let r : Arr .u32 4 := Arr.undef
  let r ← memcpyVec r a (4 * 4)
  r.ret

/-- `neon_sim.cpp:4162-4167`: `uint32x4_t vreinterpretq_u32_s32(int32x4_t a)` -/
def vreinterpretq_u32_s32 (a : int32x4_t) : C uint32x4_t := do
  let r : Arr .u32 4 := Arr.undef
  let r ← memcpyVec r a (4 * 4)
  r.ret

/-- `neon_sim.cpp:4169-4174`: `uint32x4_t vreinterpretq_u32_f32(float32x4_t a)` -/
def vreinterpretq_u32_f32 (a : float32x4_t) : C uint32x4_t := do
  let r : Arr .u32 4 := Arr.undef
  let r ← memcpyVec r a (4 * 4)
  r.ret

/-- `neon_sim.cpp:4176-4181`: `uint32x4_t vreinterpretq_u32_u8(uint8x16_t a)` -/
def vreinterpretq_u32_u8 (a : uint8x16_t) : C uint32x4_t := do
  let r : Arr .u32 4 := Arr.undef
  let r ← memcpyVec r a (4 * 4)
  r.ret

/-- `neon_sim.cpp:4183-4188`: `uint32x4_t vreinterpretq_u32_u16(uint16x8_t a)` -/
def vreinterpretq_u32_u16 (a : uint16x8_t) : C uint32x4_t := do
  let r : Arr .u32 4 := Arr.undef
  let r ← memcpyVec r a (4 * 4)
  r.ret

/-- `neon_sim.cpp:4190-4195`: `uint32x4_t vreinterpretq_u32_u64(uint64x2_t a)` -/
def vreinterpretq_u32_u64 (a : uint64x2_t) : C uint32x4_t := do
  let r : Arr .u32 4 := Arr.undef
  let r ← memcpyVec r a (4 * 4)
  r.ret

/-- `neon_sim.cpp:4197-4202`: `uint32x4_t vreinterpretq_u32_s64(int64x2_t a)` -/
def vreinterpretq_u32_s64 (a : int64x2_t) : C uint32x4_t := do
  let r : Arr .u32 4 := Arr.undef
  let r ← memcpyVec r a (4 * 4)
  r.ret

/-- `neon_sim.cpp:4211-4216`: `uint32x4_t vreinterpretq_u32_f64(float64x2_t a)` -/
def vreinterpretq_u32_f64 (a : float64x2_t) : C uint32x4_t := do
  let r : Arr .u32 4 := Arr.undef
  let r ← memcpyVec r a (4 * 4)
  r.ret

/-- `neon_sim.cpp:4218-4226`: `float32x4_t vcvtq_f32_s32(int32x4_t a)` -/
def vcvtq_f32_s32 (a : int32x4_t) : C float32x4_t := do
  let r : Arr .f32 4 := Arr.undef
  let r ← cfor 0 4 1 r fun i r => do
    let r ← r.set i (← a.get i)
    pure r
  r.ret

/-- `neon_sim.cpp:4228-4236`: `int32x4_t vcvtq_s32_f32(float32x4_t a)` -/
def vcvtq_s32_f32 (a : float32x4_t) : C int32x4_t := do
  let r : Arr .s32 4 := Arr.undef
  let r ← cfor 0 4 1 r fun i r => do
    let r ← r.set i (← a.get i)
    pure r
  r.ret

/-- `neon_sim.cpp:4238-4246`: `uint32x4_t vcvtq_u32_f32(float32x4_t a)` -/
def vcvtq_u32_f32 (a : float32x4_t) : C uint32x4_t := do
  let r : Arr .u32 4 := Arr.undef
  let r ← cfor 0 4 1 r fun i r => do
    let r ← r.set i (← a.get i)
    pure r
  r.ret

/-- `neon_sim.cpp:4248-4256`: `int32x4_t vcvtnq_s32_f32(float32x4_t a)` -/
def vcvtnq_s32_f32 (a : float32x4_t) : C int32x4_t := do
  let r : Arr .s32 4 := Arr.undef
  let r ← cfor 0 4 1 r fun i r => do
    let r ← r.set i (← a.get i)
    pure r
  r.ret

end Verif.Model
