import Verif.Types

/-! Generated from `neon_sim.cpp` by `tools/translate.py`. -/

set_option linter.unusedVariables false

namespace Verif.Model

variable [Dialect]

/-- `neon_sim.cpp:739-745`: `void vst1_u8(uint8_t* ptr, uint8x8_t val)` -/
def vst1_u8 (ptr : Ptr .u8) (val : uint8x8_t) : C (Ptr .u8) := do
  let ptr ← cfor 0 8 1 ptr fun i ptr => do
    let ptr ← ptr.set i (← val.get i)
    pure ptr
  pure ptr

/-- `neon_sim.cpp:746-752`: `void vst1_s8(int8_t* ptr, int8x8_t val)` -/
def vst1_s8 (ptr : Ptr .s8) (val : int8x8_t) : C (Ptr .s8) := do
  let ptr ← cfor 0 8 1 ptr fun i ptr => do
    let ptr ← ptr.set i (← val.get i)
    pure ptr
  pure ptr

/-- `neon_sim.cpp:753-759`: `void vst1_u16(uint16_t* ptr, uint16x4_t val)` -/
def vst1_u16 (ptr : Ptr .u16) (val : uint16x4_t) : C (Ptr .u16) := do
  let ptr ← cfor 0 4 1 ptr fun i ptr => do
    let ptr ← ptr.set i (← val.get i)
    pure ptr
  pure ptr

/-- `neon_sim.cpp:760-766`: `void vst1_s16(int16_t* ptr, int16x4_t val)` -/
def vst1_s16 (ptr : Ptr .s16) (val : int16x4_t) : C (Ptr .s16) := do
  let ptr ← cfor 0 4 1 ptr fun i ptr => do
    let ptr ← ptr.set i (← val.get i)
    pure ptr
  pure ptr

/-- `neon_sim.cpp:767-773`: `void vst1_u32(uint32_t* ptr, uint32x2_t val)` -/
def vst1_u32 (ptr : Ptr .u32) (val : uint32x2_t) : C (Ptr .u32) := do
  let ptr ← cfor 0 2 1 ptr fun i ptr => do
    let ptr ← ptr.set i (← val.get i)
    pure ptr
  pure ptr

/-- `neon_sim.cpp:774-780`: `void vst1_s32(int32_t* ptr, int32x2_t val)` -/
def vst1_s32 (ptr : Ptr .s32) (val : int32x2_t) : C (Ptr .s32) := do
  let ptr ← cfor 0 2 1 ptr fun i ptr => do
    let ptr ← ptr.set i (← val.get i)
    pure ptr
  pure ptr

/-- `neon_sim.cpp:781-787`: `void vst1_s64(int64_t* ptr, int64x1_t val)` -/
def vst1_s64 (ptr : Ptr .s64) (val : int64x1_t) : C (Ptr .s64) := do
  let ptr ← cfor 0 1 1 ptr fun i ptr => do
    let ptr ← ptr.set i (← val.get i)
    pure ptr
  pure ptr

/-- `neon_sim.cpp:788-794`: `void vst1_u64(uint64_t* ptr, uint64x1_t val)` -/
def vst1_u64 (ptr : Ptr .u64) (val : uint64x1_t) : C (Ptr .u64) := do
  let ptr ← cfor 0 1 1 ptr fun i ptr => do
    let ptr ← ptr.set i (← val.get i)
    pure ptr
  pure ptr

/-- `neon_sim.cpp:797-803`: `void vst1q_u8(uint8_t* ptr, uint8x16_t val)` -/
def vst1q_u8 (ptr : Ptr .u8) (val : uint8x16_t) : C (Ptr .u8) := do
  let ptr ← cfor 0 16 1 ptr fun i ptr => do
    let ptr ← ptr.set i (← val.get i)
    pure ptr
  pure ptr

/-- `neon_sim.cpp:804-810`: `void vst1q_s8(int8_t* ptr, int8x16_t val)` -/
def vst1q_s8 (ptr : Ptr .s8) (val : int8x16_t) : C (Ptr .s8) := do
  let ptr ← cfor 0 16 1 ptr fun i ptr => do
    let ptr ← ptr.set i (← val.get i)
    pure ptr
  pure ptr

/-- `neon_sim.cpp:811-817`: `void vst1q_u16(uint16_t* ptr, uint16x8_t val)` -/
def vst1q_u16 (ptr : Ptr .u16) (val : uint16x8_t) : C (Ptr .u16) := do
  let ptr ← cfor 0 8 1 ptr fun i ptr => do
    let ptr ← ptr.set i (← val.get i)
    pure ptr
  pure ptr

/-- `neon_sim.cpp:818-824`: `void vst1q_s16(int16_t* ptr, int16x8_t val)` -/
def vst1q_s16 (ptr : Ptr .s16) (val : int16x8_t) : C (Ptr .s16) := do
  let ptr ← cfor 0 8 1 ptr fun i ptr => do
    let ptr ← ptr.set i (← val.get i)
    pure ptr
  pure ptr

/-- `neon_sim.cpp:825-831`: `void vst1q_u32(uint32_t* ptr, uint32x4_t val)` -/
def vst1q_u32 (ptr : Ptr .u32) (val : uint32x4_t) : C (Ptr .u32) := do
  let ptr ← cfor 0 4 1 ptr fun i ptr => do
    let ptr ← ptr.set i (← val.get i)
    pure ptr
  pure ptr

/-- `neon_sim.cpp:832-838`: `void vst1q_s32(int32_t* ptr, int32x4_t val)` -/
def vst1q_s32 (ptr : Ptr .s32) (val : int32x4_t) : C (Ptr .s32) := do
  let ptr ← cfor 0 4 1 ptr fun i ptr => do
    let ptr ← ptr.set i (← val.get i)
    pure ptr
  pure ptr

/-- `neon_sim.cpp:839-845`: `void vst1q_s64(int64_t* ptr, int64x2_t val)` -/
def vst1q_s64 (ptr : Ptr .s64) (val : int64x2_t) : C (Ptr .s64) := do
  let ptr ← cfor 0 2 1 ptr fun i ptr => do
    let ptr ← ptr.set i (← val.get i)
    pure ptr
  pure ptr

/-- `neon_sim.cpp:846-852`: `void vst1q_u64(uint64_t* ptr, uint64x2_t val)` -/
def vst1q_u64 (ptr : Ptr .u64) (val : uint64x2_t) : C (Ptr .u64) := do
  let ptr ← cfor 0 2 1 ptr fun i ptr => do
    let ptr ← ptr.set i (← val.get i)
    pure ptr
  pure ptr

/-- `neon_sim.cpp:853-859`: `void vst1q_f32(float32_t* ptr, float32x4_t val)` -/
def vst1q_f32 (ptr : Ptr .f32) (val : float32x4_t) : C (Ptr .f32) := do
  let ptr ← cfor 0 4 1 ptr fun i ptr => do
    let ptr ← ptr.set i (← val.get i)
    pure ptr
  pure ptr

/-- `neon_sim.cpp:862-869`: `void vst2_s8(int8_t* ptr, int8x8x2_t val)` -/
def vst2_s8 (ptr : Ptr .s8) (val : int8x8x2_t) : C (Ptr .s8) := do
  let ptr ← cfor 0 8 1 ptr fun i ptr => do
    let ptr ← ptr.set ((2 * i) + 0) (← val.get 0 i)
    let ptr ← ptr.set ((2 * i) + 1) (← val.get 1 i)
    pure ptr
  pure ptr

/-- `neon_sim.cpp:870-877`: `void vst2_s16(int16_t* ptr, int16x4x2_t val)` -/
def vst2_s16 (ptr : Ptr .s16) (val : int16x4x2_t) : C (Ptr .s16) := do
  let ptr ← cfor 0 4 1 ptr fun i ptr => do
    let ptr ← ptr.set ((2 * i) + 0) (← val.get 0 i)
    let ptr ← ptr.set ((2 * i) + 1) (← val.get 1 i)
    pure ptr
  pure ptr

/-- `neon_sim.cpp:878-885`: `void vst2_s32(int32_t* ptr, int32x2x2_t val)` -/
def vst2_s32 (ptr : Ptr .s32) (val : int32x2x2_t) : C (Ptr .s32) := do
  let ptr ← cfor 0 2 1 ptr fun i ptr => do
    let ptr ← ptr.set ((2 * i) + 0) (← val.get 0 i)
    let ptr ← ptr.set ((2 * i) + 1) (← val.get 1 i)
    pure ptr
  pure ptr

/-- `neon_sim.cpp:887-894`: `void vst2_u8(uint8_t* ptr, uint8x8x2_t val)` -/
def vst2_u8 (ptr : Ptr .u8) (val : uint8x8x2_t) : C (Ptr .u8) := do
  let ptr ← cfor 0 8 1 ptr fun i ptr => do
    let ptr ← ptr.set ((2 * i) + 0) (← val.get 0 i)
    let ptr ← ptr.set ((2 * i) + 1) (← val.get 1 i)
    pure ptr
  pure ptr

/-- `neon_sim.cpp:895-902`: `void vst2_u16(uint16_t* ptr, uint16x4x2_t val)` -/
def vst2_u16 (ptr : Ptr .u16) (val : uint16x4x2_t) : C (Ptr .u16) := do
  let ptr ← cfor 0 4 1 ptr fun i ptr => do
    let ptr ← ptr.set ((2 * i) + 0) (← val.get 0 i)
    let ptr ← ptr.set ((2 * i) + 1) (← val.get 1 i)
    pure ptr
  pure ptr

/-- `neon_sim.cpp:903-910`: `void vst2_u32(uint32_t* ptr, uint32x2x2_t val)` -/
def vst2_u32 (ptr : Ptr .u32) (val : uint32x2x2_t) : C (Ptr .u32) := do
  let ptr ← cfor 0 2 1 ptr fun i ptr => do
    let ptr ← ptr.set ((2 * i) + 0) (← val.get 0 i)
    let ptr ← ptr.set ((2 * i) + 1) (← val.get 1 i)
    pure ptr
  pure ptr

/-- `neon_sim.cpp:913-920`: `void vst2q_s8(int8_t* ptr, int8x16x2_t val)` -/
def vst2q_s8 (ptr : Ptr .s8) (val : int8x16x2_t) : C (Ptr .s8) := do
  let ptr ← cfor 0 16 1 ptr fun i ptr => do
    let ptr ← ptr.set ((2 * i) + 0) (← val.get 0 i)
    let ptr ← ptr.set ((2 * i) + 1) (← val.get 1 i)
    pure ptr
  pure ptr

/-- `neon_sim.cpp:921-928`: `void vst2q_s16(int16_t* ptr, int16x8x2_t val)` -/
def vst2q_s16 (ptr : Ptr .s16) (val : int16x8x2_t) : C (Ptr .s16) := do
  let ptr ← cfor 0 8 1 ptr fun i ptr => do
    let ptr ← ptr.set ((2 * i) + 0) (← val.get 0 i)
    let ptr ← ptr.set ((2 * i) + 1) (← val.get 1 i)
    pure ptr
  pure ptr

/-- `neon_sim.cpp:929-936`: `void vst2q_s32(int32_t* ptr, int32x4x2_t val)` -/
def vst2q_s32 (ptr : Ptr .s32) (val : int32x4x2_t) : C (Ptr .s32) := do
  let ptr ← cfor 0 4 1 ptr fun i ptr => do
    let ptr ← ptr.set ((2 * i) + 0) (← val.get 0 i)
    let ptr ← ptr.set ((2 * i) + 1) (← val.get 1 i)
    pure ptr
  pure ptr

/-- `neon_sim.cpp:937-944`: `void vst2q_u8(uint8_t* ptr, uint8x16x2_t val)` -/
def vst2q_u8 (ptr : Ptr .u8) (val : uint8x16x2_t) : C (Ptr .u8) := do
  let ptr ← cfor 0 16 1 ptr fun i ptr => do
    let ptr ← ptr.set ((2 * i) + 0) (← val.get 0 i)
    let ptr ← ptr.set ((2 * i) + 1) (← val.get 1 i)
    pure ptr
  pure ptr

/-- `neon_sim.cpp:945-952`: `void vst2q_u16(uint16_t* ptr, uint16x8x2_t val)` -/
def vst2q_u16 (ptr : Ptr .u16) (val : uint16x8x2_t) : C (Ptr .u16) := do
  let ptr ← cfor 0 8 1 ptr fun i ptr => do
    let ptr ← ptr.set ((2 * i) + 0) (← val.get 0 i)
    let ptr ← ptr.set ((2 * i) + 1) (← val.get 1 i)
    pure ptr
  pure ptr

/-- `neon_sim.cpp:953-960`: `void vst2q_u32(uint32_t* ptr, uint32x4x2_t val)` -/
def vst2q_u32 (ptr : Ptr .u32) (val : uint32x4x2_t) : C (Ptr .u32) := do
  let ptr ← cfor 0 4 1 ptr fun i ptr => do
    let ptr ← ptr.set ((2 * i) + 0) (← val.get 0 i)
    let ptr ← ptr.set ((2 * i) + 1) (← val.get 1 i)
    pure ptr
  pure ptr

/-- `neon_sim.cpp:963-971`: `void vst3_s8(int8_t* ptr, int8x8x3_t val)` -/
def vst3_s8 (ptr : Ptr .s8) (val : int8x8x3_t) : C (Ptr .s8) := do
  let ptr ← cfor 0 8 1 ptr fun i ptr => do
    let ptr ← ptr.set ((3 * i) + 0) (← val.get 0 i)
    let ptr ← ptr.set ((3 * i) + 1) (← val.get 1 i)
    let ptr ← ptr.set ((3 * i) + 2) (← val.get 2 i)
    pure ptr
  pure ptr

/-- `neon_sim.cpp:972-980`: `void vst3_s16(int16_t* ptr, int16x4x3_t val)` -/
def vst3_s16 (ptr : Ptr .s16) (val : int16x4x3_t) : C (Ptr .s16) := do
  let ptr ← cfor 0 4 1 ptr fun i ptr => do
    let ptr ← ptr.set ((3 * i) + 0) (← val.get 0 i)
    let ptr ← ptr.set ((3 * i) + 1) (← val.get 1 i)
    let ptr ← ptr.set ((3 * i) + 2) (← val.get 2 i)
    pure ptr
  pure ptr

/-- `neon_sim.cpp:981-989`: `void vst3_s32(int32_t* ptr, int32x2x3_t val)` -/
def vst3_s32 (ptr : Ptr .s32) (val : int32x2x3_t) : C (Ptr .s32) := do
  let ptr ← cfor 0 2 1 ptr fun i ptr => do
    let ptr ← ptr.set ((3 * i) + 0) (← val.get 0 i)
    let ptr ← ptr.set ((3 * i) + 1) (← val.get 1 i)
    let ptr ← ptr.set ((3 * i) + 2) (← val.get 2 i)
    pure ptr
  pure ptr

/-- `neon_sim.cpp:991-999`: `void vst3_u8(uint8_t* ptr, uint8x8x3_t val)` -/
def vst3_u8 (ptr : Ptr .u8) (val : uint8x8x3_t) : C (Ptr .u8) := do
  let ptr ← cfor 0 8 1 ptr fun i ptr => do
    let ptr ← ptr.set ((3 * i) + 0) (← val.get 0 i)
    let ptr ← ptr.set ((3 * i) + 1) (← val.get 1 i)
    let ptr ← ptr.set ((3 * i) + 2) (← val.get 2 i)
    pure ptr
  pure ptr

/-- `neon_sim.cpp:1000-1008`: `void vst3_u16(uint16_t* ptr, uint16x4x3_t val)` -/
def vst3_u16 (ptr : Ptr .u16) (val : uint16x4x3_t) : C (Ptr .u16) := do
  let ptr ← cfor 0 4 1 ptr fun i ptr => do
    let ptr ← ptr.set ((3 * i) + 0) (← val.get 0 i)
    let ptr ← ptr.set ((3 * i) + 1) (← val.get 1 i)
    let ptr ← ptr.set ((3 * i) + 2) (← val.get 2 i)
    pure ptr
  pure ptr

/-- `neon_sim.cpp:1009-1017`: `void vst3_u32(uint32_t* ptr, uint32x2x3_t val)` -/
def vst3_u32 (ptr : Ptr .u32) (val : uint32x2x3_t) : C (Ptr .u32) := do
  let ptr ← cfor 0 2 1 ptr fun i ptr => do
    let ptr ← ptr.set ((3 * i) + 0) (← val.get 0 i)
    let ptr ← ptr.set ((3 * i) + 1) (← val.get 1 i)
    let ptr ← ptr.set ((3 * i) + 2) (← val.get 2 i)
    pure ptr
  pure ptr

/-- `neon_sim.cpp:1020-1028`: `void vst3q_s8(int8_t* ptr, int8x16x3_t val)` -/
def vst3q_s8 (ptr : Ptr .s8) (val : int8x16x3_t) : C (Ptr .s8) := do
  let ptr ← cfor 0 16 1 ptr fun i ptr => do
    let ptr ← ptr.set ((3 * i) + 0) (← val.get 0 i)
    let ptr ← ptr.set ((3 * i) + 1) (← val.get 1 i)
    let ptr ← ptr.set ((3 * i) + 2) (← val.get 2 i)
    pure ptr
  pure ptr

/-- `neon_sim.cpp:1029-1037`: `void vst3q_s16(int16_t* ptr, int16x8x3_t val)` -/
def vst3q_s16 (ptr : Ptr .s16) (val : int16x8x3_t) : C (Ptr .s16) := do
  let ptr ← cfor 0 8 1 ptr fun i ptr => do
    let ptr ← ptr.set ((3 * i) + 0) (← val.get 0 i)
    let ptr ← ptr.set ((3 * i) + 1) (← val.get 1 i)
    let ptr ← ptr.set ((3 * i) + 2) (← val.get 2 i)
    pure ptr
  pure ptr

/-- `neon_sim.cpp:1038-1046`: `void vst3q_s32(int32_t* ptr, int32x4x3_t val)` -/
def vst3q_s32 (ptr : Ptr .s32) (val : int32x4x3_t) : C (Ptr .s32) := do
  let ptr ← cfor 0 4 1 ptr fun i ptr => do
    let ptr ← ptr.set ((3 * i) + 0) (← val.get 0 i)
    let ptr ← ptr.set ((3 * i) + 1) (← val.get 1 i)
    let ptr ← ptr.set ((3 * i) + 2) (← val.get 2 i)
    pure ptr
  pure ptr

/-- `neon_sim.cpp:1047-1055`: `void vst3q_u8(uint8_t* ptr, uint8x16x3_t val)` -/
def vst3q_u8 (ptr : Ptr .u8) (val : uint8x16x3_t) : C (Ptr .u8) := do
  let ptr ← cfor 0 16 1 ptr fun i ptr => do
    let ptr ← ptr.set ((3 * i) + 0) (← val.get 0 i)
    let ptr ← ptr.set ((3 * i) + 1) (← val.get 1 i)
    let ptr ← ptr.set ((3 * i) + 2) (← val.get 2 i)
    pure ptr
  pure ptr

/-- `neon_sim.cpp:1056-1064`: `void vst3q_u16(uint16_t* ptr, uint16x8x3_t val)` -/
def vst3q_u16 (ptr : Ptr .u16) (val : uint16x8x3_t) : C (Ptr .u16) := do
  let ptr ← cfor 0 8 1 ptr fun i ptr => do
    let ptr ← ptr.set ((3 * i) + 0) (← val.get 0 i)
    let ptr ← ptr.set ((3 * i) + 1) (← val.get 1 i)
    let ptr ← ptr.set ((3 * i) + 2) (← val.get 2 i)
    pure ptr
  pure ptr

/-- `neon_sim.cpp:1065-1073`: `void vst3q_u32(uint32_t* ptr, uint32x4x3_t val)` -/
def vst3q_u32 (ptr : Ptr .u32) (val : uint32x4x3_t) : C (Ptr .u32) := do
  let ptr ← cfor 0 4 1 ptr fun i ptr => do
    let ptr ← ptr.set ((3 * i) + 0) (← val.get 0 i)
    let ptr ← ptr.set ((3 * i) + 1) (← val.get 1 i)
    let ptr ← ptr.set ((3 * i) + 2) (← val.get 2 i)
    pure ptr
  pure ptr

/-- `neon_sim.cpp:1077-1086`: `void vst4_s8(int8_t* ptr, int8x8x4_t val)` -/
def vst4_s8 (ptr : Ptr .s8) (val : int8x8x4_t) : C (Ptr .s8) := do
  let ptr ← cfor 0 8 1 ptr fun i ptr => do
    let ptr ← ptr.set ((4 * i) + 0) (← val.get 0 i)
    let ptr ← ptr.set ((4 * i) + 1) (← val.get 1 i)
    let ptr ← ptr.set ((4 * i) + 2) (← val.get 2 i)
    let ptr ← ptr.set ((4 * i) + 3) (← val.get 3 i)
    pure ptr
  pure ptr

/-- `neon_sim.cpp:1087-1096`: `void vst4_s16(int16_t* ptr, int16x4x4_t val)` -/
def vst4_s16 (ptr : Ptr .s16) (val : int16x4x4_t) : C (Ptr .s16) := do
  let ptr ← cfor 0 4 1 ptr fun i ptr => do
    let ptr ← ptr.set ((4 * i) + 0) (← val.get 0 i)
    let ptr ← ptr.set ((4 * i) + 1) (← val.get 1 i)
    let ptr ← ptr.set ((4 * i) + 2) (← val.get 2 i)
    let ptr ← ptr.set ((4 * i) + 3) (← val.get 3 i)
    pure ptr
  pure ptr

/-- `neon_sim.cpp:1097-1106`: `void vst4_s32(int32_t* ptr, int32x2x4_t val)` -/
def vst4_s32 (ptr : Ptr .s32) (val : int32x2x4_t) : C (Ptr .s32) := do
  let ptr ← cfor 0 2 1 ptr fun i ptr => do
    let ptr ← ptr.set ((4 * i) + 0) (← val.get 0 i)
    let ptr ← ptr.set ((4 * i) + 1) (← val.get 1 i)
    let ptr ← ptr.set ((4 * i) + 2) (← val.get 2 i)
    let ptr ← ptr.set ((4 * i) + 3) (← val.get 3 i)
    pure ptr
  pure ptr

/-- `neon_sim.cpp:1108-1117`: `void vst4_u8(uint8_t* ptr, uint8x8x4_t val)` -/
def vst4_u8 (ptr : Ptr .u8) (val : uint8x8x4_t) : C (Ptr .u8) := do
  let ptr ← cfor 0 8 1 ptr fun i ptr => do
    let ptr ← ptr.set ((4 * i) + 0) (← val.get 0 i)
    let ptr ← ptr.set ((4 * i) + 1) (← val.get 1 i)
    let ptr ← ptr.set ((4 * i) + 2) (← val.get 2 i)
    let ptr ← ptr.set ((4 * i) + 4) (← val.get 3 i)
    pure ptr
  pure ptr

/-- `neon_sim.cpp:1118-1127`: `void vst4_u16(uint16_t* ptr, uint16x4x4_t val)` -/
def vst4_u16 (ptr : Ptr .u16) (val : uint16x4x4_t) : C (Ptr .u16) := do
  let ptr ← cfor 0 4 1 ptr fun i ptr => do
    let ptr ← ptr.set ((4 * i) + 0) (← val.get 0 i)
    let ptr ← ptr.set ((4 * i) + 1) (← val.get 1 i)
    let ptr ← ptr.set ((4 * i) + 2) (← val.get 2 i)
    let ptr ← ptr.set ((4 * i) + 3) (← val.get 3 i)
    pure ptr
  pure ptr

/-- `neon_sim.cpp:1128-1137`: `void vst4_u32(uint32_t* ptr, uint32x2x4_t val)` -/
def vst4_u32 (ptr : Ptr .u32) (val : uint32x2x4_t) : C (Ptr .u32) := do
  let ptr ← cfor 0 2 1 ptr fun i ptr => do
    let ptr ← ptr.set ((4 * i) + 0) (← val.get 0 i)
    let ptr ← ptr.set ((4 * i) + 1) (← val.get 1 i)
    let ptr ← ptr.set ((4 * i) + 2) (← val.get 2 i)
    let ptr ← ptr.set ((4 * i) + 2) (← val.get 3 i)
    pure ptr
  pure ptr

/-- `neon_sim.cpp:1140-1149`: `void vst4q_s8(int8_t* ptr, int8x16x4_t val)` -/
def vst4q_s8 (ptr : Ptr .s8) (val : int8x16x4_t) : C (Ptr .s8) := do
  let ptr ← cfor 0 16 1 ptr fun i ptr => do
    let ptr ← ptr.set ((4 * i) + 0) (← val.get 0 i)
    let ptr ← ptr.set ((4 * i) + 1) (← val.get 1 i)
    let ptr ← ptr.set ((4 * i) + 2) (← val.get 2 i)
    let ptr ← ptr.set ((4 * i) + 3) (← val.get 3 i)
    pure ptr
  pure ptr

/-- `neon_sim.cpp:1150-1159`: `void vst4q_s16(int16_t* ptr, int16x8x4_t val)` -/
def vst4q_s16 (ptr : Ptr .s16) (val : int16x8x4_t) : C (Ptr .s16) := do
  let ptr ← cfor 0 8 1 ptr fun i ptr => do
    let ptr ← ptr.set ((4 * i) + 0) (← val.get 0 i)
    let ptr ← ptr.set ((4 * i) + 1) (← val.get 1 i)
    let ptr ← ptr.set ((4 * i) + 2) (← val.get 2 i)
    let ptr ← ptr.set ((4 * i) + 3) (← val.get 3 i)
    pure ptr
  pure ptr

/-- `neon_sim.cpp:1160-1169`: `void vst4q_s32(int32_t* ptr, int32x4x4_t val)` -/
def vst4q_s32 (ptr : Ptr .s32) (val : int32x4x4_t) : C (Ptr .s32) := do
  let ptr ← cfor 0 4 1 ptr fun i ptr => do
    let ptr ← ptr.set ((4 * i) + 0) (← val.get 0 i)
    let ptr ← ptr.set ((4 * i) + 1) (← val.get 1 i)
    let ptr ← ptr.set ((4 * i) + 2) (← val.get 2 i)
    let ptr ← ptr.set ((4 * i) + 3) (← val.get 3 i)
    pure ptr
  pure ptr

/-- `neon_sim.cpp:1170-1179`: `void vst4q_u8(uint8_t* ptr, uint8x16x4_t val)` -/
def vst4q_u8 (ptr : Ptr .u8) (val : uint8x16x4_t) : C (Ptr .u8) := do
  let ptr ← cfor 0 16 1 ptr fun i ptr => do
    let ptr ← ptr.set ((4 * i) + 0) (← val.get 0 i)
    let ptr ← ptr.set ((4 * i) + 1) (← val.get 1 i)
    let ptr ← ptr.set ((4 * i) + 2) (← val.get 2 i)
    let ptr ← ptr.set ((4 * i) + 3) (← val.get 3 i)
    pure ptr
  pure ptr

/-- `neon_sim.cpp:1180-1189`: `void vst4q_u16(uint16_t* ptr, uint16x8x4_t val)` -/
def vst4q_u16 (ptr : Ptr .u16) (val : uint16x8x4_t) : C (Ptr .u16) := do
  let ptr ← cfor 0 8 1 ptr fun i ptr => do
    let ptr ← ptr.set ((4 * i) + 0) (← val.get 0 i)
    let ptr ← ptr.set ((4 * i) + 1) (← val.get 1 i)
    let ptr ← ptr.set ((4 * i) + 2) (← val.get 2 i)
    let ptr ← ptr.set ((4 * i) + 3) (← val.get 3 i)
    pure ptr
  pure ptr

/-- `neon_sim.cpp:1190-1199`: `void vst4q_u32(uint32_t* ptr, uint32x4x4_t val)` -/
def vst4q_u32 (ptr : Ptr .u32) (val : uint32x4x4_t) : C (Ptr .u32) := do
  let ptr ← cfor 0 4 1 ptr fun i ptr => do
    let ptr ← ptr.set ((4 * i) + 0) (← val.get 0 i)
    let ptr ← ptr.set ((4 * i) + 1) (← val.get 1 i)
    let ptr ← ptr.set ((4 * i) + 2) (← val.get 2 i)
    let ptr ← ptr.set ((4 * i) + 3) (← val.get 3 i)
    pure ptr
  pure ptr

/-- `neon_sim.cpp:1203-1209`: `void vst4q_lane_f32(float32_t* ptr, float32x4x4_t val, const int lane)` -/
def vst4q_lane_f32 (ptr : Ptr .f32) (val : float32x4x4_t) (lane : Int) : C (Ptr .f32) := do
  let ptr ← cfor 0 4 1 ptr fun i ptr => do
    let ptr ← ptr.set i (← val.get i lane)
    pure ptr
  pure ptr

end Verif.Model
