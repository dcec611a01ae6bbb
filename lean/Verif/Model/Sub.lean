import Verif.Types

/-! Generated from `neon_sim.cpp` by `tools/translate.py`. -/

set_option linter.unusedVariables false

namespace Verif.Model

variable [Dialect]

/-- `neon_sim.cpp:1789-1797`: `int8x8_t vsub_s8(int8x8_t N, int8x8_t M)` -/
def vsub_s8 (N M : int8x8_t) : C int8x8_t := do
  let D : Arr .s8 8 := Arr.undef
  let D ← cfor 0 8 1 D fun i D => do
    let D ← D.set i (← Val.sub (← N.get i) (← M.get i))
    pure D
  D.ret

/-- `neon_sim.cpp:1798-1806`: `int16x4_t vsub_s16(int16x4_t N, int16x4_t M)` -/
def vsub_s16 (N M : int16x4_t) : C int16x4_t := do
  let D : Arr .s16 4 := Arr.undef
  let D ← cfor 0 4 1 D fun i D => do
    let D ← D.set i (← Val.sub (← N.get i) (← M.get i))
    pure D
  D.ret

/-- `neon_sim.cpp:1807-1815`: `int32x2_t vsub_s32(int32x2_t N, int32x2_t M)` -/
def vsub_s32 (N M : int32x2_t) : C int32x2_t := do
  let D : Arr .s32 2 := Arr.undef
  let D ← cfor 0 2 1 D fun i D => do
    let D ← D.set i (← Val.sub (← N.get i) (← M.get i))
    pure D
  D.ret

/-- `neon_sim.cpp:1816-1824`: `int64x1_t vsub_s64(int64x1_t N, int64x1_t M)` -/
def vsub_s64 (N M : int64x1_t) : C int64x1_t := do
  let D : Arr .s64 1 := Arr.undef
  let D ← cfor 0 1 1 D fun i D => do
    let D ← D.set i (← Val.sub (← N.get i) (← M.get i))
    pure D
  D.ret

/-- `neon_sim.cpp:1825-1833`: `uint8x8_t vsub_u8(uint8x8_t N, uint8x8_t M)` -/
def vsub_u8 (N M : uint8x8_t) : C uint8x8_t := do
  let D : Arr .u8 8 := Arr.undef
  let D ← cfor 0 8 1 D fun i D => do
    let D ← D.set i (← Val.sub (← N.get i) (← M.get i))
    pure D
  D.ret

/-- `neon_sim.cpp:1834-1842`: `uint16x4_t vsub_u16(uint16x4_t N, uint16x4_t M)` -/
def vsub_u16 (N M : uint16x4_t) : C uint16x4_t := do
  let D : Arr .u16 4 := Arr.undef
  let D ← cfor 0 4 1 D fun i D => do
    let D ← D.set i (← Val.sub (← N.get i) (← M.get i))
    pure D
  D.ret

/-- `neon_sim.cpp:1843-1851`: `uint32x2_t vsub_u32(uint32x2_t N, uint32x2_t M)` -/
def vsub_u32 (N M : uint32x2_t) : C uint32x2_t := do
  let D : Arr .u32 2 := Arr.undef
  let D ← cfor 0 2 1 D fun i D => do
    let D ← D.set i (← Val.sub (← N.get i) (← M.get i))
    pure D
  D.ret

/-- `neon_sim.cpp:1852-1860`: `uint64x1_t vsub_u64(uint64x1_t N, uint64x1_t M)` -/
def vsub_u64 (N M : uint64x1_t) : C uint64x1_t := do
  let D : Arr .u64 1 := Arr.undef
  let D ← cfor 0 1 1 D fun i D => do
    let D ← D.set i (← Val.sub (← N.get i) (← M.get i))
    pure D
  D.ret

/-- `neon_sim.cpp:1862-1870`: `float32x2_t vsub_f32(float32x2_t N, float32x2_t M)` -/
def vsub_f32 (N M : float32x2_t) : C float32x2_t := do
  let D : Arr .f32 2 := Arr.undef
  let D ← cfor 0 2 1 D fun i D => do
    let D ← D.set i (← Val.sub (← N.get i) (← M.get i))
    pure D
  D.ret

/-- `neon_sim.cpp:1872-1880`: `float64x1_t vsub_f32(float64x1_t N, float64x1_t M)` -/
def vsub_f32_overload2 (N M : float64x1_t) : C float64x1_t := do
  let D : Arr .f64 1 := Arr.undef
  let D ← cfor 0 1 1 D fun i D => do
    let D ← D.set i (← Val.sub (← N.get i) (← M.get i))
    pure D
  D.ret

/-- `neon_sim.cpp:1883-1891`: `int8x16_t vsubq_s8(int8x16_t N, int8x16_t M)` -/
def vsubq_s8 (N M : int8x16_t) : C int8x16_t := do
  let D : Arr .s8 16 := Arr.undef
  let D ← cfor 0 16 1 D fun i D => do
    let D ← D.set i (← Val.sub (← N.get i) (← M.get i))
    pure D
  D.ret

/-- `neon_sim.cpp:1892-1900`: `int16x8_t vsubq_s16(int16x8_t N, int16x8_t M)` -/
def vsubq_s16 (N M : int16x8_t) : C int16x8_t := do
  let D : Arr .s16 8 := Arr.undef
  let D ← cfor 0 8 1 D fun i D => do
    let D ← D.set i (← Val.sub (← N.get i) (← M.get i))
    pure D
  D.ret

/-- `neon_sim.cpp:1901-1909`: `int32x4_t vsubq_s32(int32x4_t N, int32x4_t M)` -/
def vsubq_s32 (N M : int32x4_t) : C int32x4_t := do
  let D : Arr .s32 4 := Arr.undef
  let D ← cfor 0 4 1 D fun i D => do
    let D ← D.set i (← Val.sub (← N.get i) (← M.get i))
    pure D
  D.ret

/-- `neon_sim.cpp:1910-1918`: `int64x2_t vsubq_s64(int64x2_t N, int64x2_t M)` -/
def vsubq_s64 (N M : int64x2_t) : C int64x2_t := do
  let D : Arr .s64 2 := Arr.undef
  let D ← cfor 0 2 1 D fun i D => do
    let D ← D.set i (← Val.sub (← N.get i) (← M.get i))
    pure D
  D.ret

/-- `neon_sim.cpp:1919-1927`: `uint8x16_t vsubq_u8(uint8x16_t N, uint8x16_t M)` -/
def vsubq_u8 (N M : uint8x16_t) : C uint8x16_t := do
  let D : Arr .u8 16 := Arr.undef
  let D ← cfor 0 16 1 D fun i D => do
    let D ← D.set i (← Val.sub (← N.get i) (← M.get i))
    pure D
  D.ret

/-- `neon_sim.cpp:1928-1936`: `uint16x8_t vsubq_u16(uint16x8_t N, uint16x8_t M)` -/
def vsubq_u16 (N M : uint16x8_t) : C uint16x8_t := do
  let D : Arr .u16 8 := Arr.undef
  let D ← cfor 0 8 1 D fun i D => do
    let D ← D.set i (← Val.sub (← N.get i) (← M.get i))
    pure D
  D.ret

/-- `neon_sim.cpp:1937-1945`: `uint32x4_t vsubq_u32(uint32x4_t N, uint32x4_t M)` -/
def vsubq_u32 (N M : uint32x4_t) : C uint32x4_t := do
  let D : Arr .u32 4 := Arr.undef
  let D ← cfor 0 4 1 D fun i D => do
    let D ← D.set i (← Val.sub (← N.get i) (← M.get i))
    pure D
  D.ret

/-- `neon_sim.cpp:1946-1954`: `uint64x2_t vsubq_u64(uint64x2_t N, uint64x2_t M)` -/
def vsubq_u64 (N M : uint64x2_t) : C uint64x2_t := do
  let D : Arr .u64 2 := Arr.undef
  let D ← cfor 0 2 1 D fun i D => do
    let D ← D.set i (← Val.sub (← N.get i) (← M.get i))
    pure D
  D.ret

/-- `neon_sim.cpp:1956-1964`: `float32x4_t vsubq_f32(float32x4_t N, float32x4_t M)` -/
def vsubq_f32 (N M : float32x4_t) : C float32x4_t := do
  let D : Arr .f32 4 := Arr.undef
  let D ← cfor 0 4 1 D fun i D => do
    let D ← D.set i (← Val.sub (← N.get i) (← M.get i))
    pure D
  D.ret

/-- `neon_sim.cpp:1967-1975`: `int8x8_t vsubhn_s16(int16x8_t N, int16x8_t M)` -/
def vsubhn_s16 (N M : int16x8_t) : C int8x8_t := do
  let D : Arr .s8 8 := Arr.undef
  let D ← cfor 0 8 1 D fun i D => do
    let D ← D.set i (← Val.shr (← Val.sub (← N.get i) (← M.get i)) (vint 8))
    pure D
  D.ret

/-- `neon_sim.cpp:1977-1985`: `int16x4_t vsubn_s32(int32x4_t N, int32x4_t M)` -/
def vsubn_s32 (N M : int32x4_t) : C int16x4_t := do
  let D : Arr .s16 4 := Arr.undef
  let D ← cfor 0 4 1 D fun i D => do
    let D ← D.set i (← Val.shr (← Val.sub (← N.get i) (← M.get i)) (vint 8))
    pure D
  D.ret

/-- `neon_sim.cpp:1987-1995`: `int32x2_t vsubn_s64(int64x2_t N, int64x2_t M)` -/
def vsubn_s64 (N M : int64x2_t) : C int32x2_t := do
  let D : Arr .s32 2 := Arr.undef
  let D ← cfor 0 2 1 D fun i D => do
    let D ← D.set i (← Val.shr (← Val.sub (← N.get i) (← M.get i)) (vint 8))
    pure D
  D.ret

/-- `neon_sim.cpp:1997-2005`: `uint8x8_t vsubhn_u16(uint16x8_t N, uint16x8_t M)` -/
def vsubhn_u16 (N M : uint16x8_t) : C uint8x8_t := do
  let D : Arr .u8 8 := Arr.undef
  let D ← cfor 0 8 1 D fun i D => do
    let D ← D.set i (← Val.shr (← Val.sub (← N.get i) (← M.get i)) (vint 8))
    pure D
  D.ret

/-- `neon_sim.cpp:2007-2015`: `uint16x4_t vsubn_u32(uint32x4_t N, uint32x4_t M)` -/
def vsubn_u32 (N M : uint32x4_t) : C uint16x4_t := do
  let D : Arr .u16 4 := Arr.undef
  let D ← cfor 0 4 1 D fun i D => do
    let D ← D.set i (← Val.shr (← Val.sub (← N.get i) (← M.get i)) (vint 8))
    pure D
  D.ret

/-- `neon_sim.cpp:2017-2025`: `uint32x2_t vsubn_u64(uint64x2_t N, uint64x2_t M)` -/
def vsubn_u64 (N M : uint64x2_t) : C uint32x2_t := do
  let D : Arr .u32 2 := Arr.undef
  let D ← cfor 0 2 1 D fun i D => do
    let D ← D.set i (← Val.shr (← Val.sub (← N.get i) (← M.get i)) (vint 8))
    pure D
  D.ret

/-- `neon_sim.cpp:2027-2036`: `int8x8_t vhsub_s8(int8x8_t N, int8x8_t M)` -/
def vhsub_s8 (N M : int8x8_t) : C int8x8_t := do
  let D : Arr .s8 8 := Arr.undef
  let D ← cfor 0 8 1 D fun i D => do
    let D ← D.set i (← Val.shr (← Val.sub (← N.get i) (← M.get i)) (vint 1))
    pure D
  D.ret

/-- `neon_sim.cpp:2038-2046`: `int16x4_t vhsub_s16(int16x4_t N, int16x4_t M)` -/
def vhsub_s16 (N M : int16x4_t) : C int16x4_t := do
  let D : Arr .s16 4 := Arr.undef
  let D ← cfor 0 4 1 D fun i D => do
    let D ← D.set i (← Val.shr (← Val.sub (← N.get i) (← M.get i)) (vint 1))
    pure D
  D.ret

/-- `neon_sim.cpp:2048-2056`: `int32x2_t vhsub_s32(int32x2_t N, int32x2_t M)` -/
def vhsub_s32 (N M : int32x2_t) : C int32x2_t := do
  let D : Arr .s32 2 := Arr.undef
  let D ← cfor 0 2 1 D fun i D => do
    let D ← D.set i (← Val.shr (← Val.sub (← N.get i) (← M.get i)) (vint 1))
    pure D
  D.ret

/-- `neon_sim.cpp:2058-2066`: `uint8x8_t vhsub_u8(uint8x8_t N, uint8x8_t M)` -/
def vhsub_u8 (N M : uint8x8_t) : C uint8x8_t := do
  let D : Arr .u8 8 := Arr.undef
  let D ← cfor 0 8 1 D fun i D => do
    let D ← D.set i (← Val.shr (← Val.sub (← N.get i) (← M.get i)) (vint 1))
    pure D
  D.ret

/-- `neon_sim.cpp:2068-2076`: `uint16x4_t vhsub_u16(uint16x4_t N, uint16x4_t M)` -/
def vhsub_u16 (N M : uint16x4_t) : C uint16x4_t := do
  let D : Arr .u16 4 := Arr.undef
  let D ← cfor 0 4 1 D fun i D => do
    let D ← D.set i (← Val.shr (← Val.sub (← N.get i) (← M.get i)) (vint 1))
    pure D
  D.ret

/-- `neon_sim.cpp:2078-2086`: `uint32x2_t vhsub_u32(uint32x2_t N, uint32x2_t M)` -/
def vhsub_u32 (N M : uint32x2_t) : C uint32x2_t := do
  let D : Arr .u32 2 := Arr.undef
  let D ← cfor 0 2 1 D fun i D => do
    let D ← D.set i (← Val.shr (← Val.sub (← N.get i) (← M.get i)) (vint 1))
    pure D
  D.ret

/-- `neon_sim.cpp:2089-2097`: `int8x16_t vhsubq_s8(int8x16_t N, int8x16_t M)` -/
def vhsubq_s8 (N M : int8x16_t) : C int8x16_t := do
  let D : Arr .s8 16 := Arr.undef
  let D ← cfor 0 16 1 D fun i D => do
    let D ← D.set i (← Val.shr (← Val.sub (← N.get i) (← M.get i)) (vint 1))
    pure D
  D.ret

/-- `neon_sim.cpp:2099-2107`: `int16x8_t vhsubq_s16(int16x8_t N, int16x8_t M)` -/
def vhsubq_s16 (N M : int16x8_t) : C int16x8_t := do
  let D : Arr .s16 8 := Arr.undef
  let D ← cfor 0 8 1 D fun i D => do
    let D ← D.set i (← Val.shr (← Val.sub (← N.get i) (← M.get i)) (vint 1))
    pure D
  D.ret

/-- `neon_sim.cpp:2109-2117`: `int32x4_t vhsubq_s32(int32x4_t N, int32x4_t M)` -/
def vhsubq_s32 (N M : int32x4_t) : C int32x4_t := do
  let D : Arr .s32 4 := Arr.undef
  let D ← cfor 0 4 1 D fun i D => do
    let D ← D.set i (← Val.shr (← Val.sub (← N.get i) (← M.get i)) (vint 1))
    pure D
  D.ret

/-- `neon_sim.cpp:2119-2127`: `uint8x16_t vhsubq_u8(uint8x16_t N, uint8x16_t M)` -/
def vhsubq_u8 (N M : uint8x16_t) : C uint8x16_t := do
  let D : Arr .u8 16 := Arr.undef
  let D ← cfor 0 16 1 D fun i D => do
    let D ← D.set i (← Val.shr (← Val.sub (← N.get i) (← M.get i)) (vint 1))
    pure D
  D.ret

/-- `neon_sim.cpp:2129-2137`: `uint16x8_t vhsubq_u16(uint16x8_t N, uint16x8_t M)` -/
def vhsubq_u16 (N M : uint16x8_t) : C uint16x8_t := do
  let D : Arr .u16 8 := Arr.undef
  let D ← cfor 0 8 1 D fun i D => do
    let D ← D.set i (← Val.shr (← Val.sub (← N.get i) (← M.get i)) (vint 1))
    pure D
  D.ret

/-- `neon_sim.cpp:2139-2147`: `uint32x4_t vhsubq_u32(uint32x4_t N, uint32x4_t M)` -/
def vhsubq_u32 (N M : uint32x4_t) : C uint32x4_t := do
  let D : Arr .u32 4 := Arr.undef
  let D ← cfor 0 4 1 D fun i D => do
    let D ← D.set i (← Val.shr (← Val.sub (← N.get i) (← M.get i)) (vint 1))
    pure D
  D.ret

/-- `neon_sim.cpp:2150-2170`: `int8x8_t vqsub_s8(int8x8_t N, int8x8_t M)` -/
def vqsub_s8 (N M : int8x8_t) : C int8x8_t := do
  let D : Arr .s8 8 := Arr.undef
  let D ← cfor 0 8 1 D fun i D => do
    let temp ← Val.cast .s16 (← Val.sub (← Val.cast .s16 (← N.get i)) (← Val.cast .s16 (← M.get i)))
    let D ←
      if Val.gt temp (vint 127) then do
        let D ← D.set i (vint 127)
        pure D
      else do
        let D ←
          if Val.lt temp (vint (-128)) then do
            let D ← D.set i (vint (-128))
            pure D
          else do
            let D ← D.set i temp
            pure D
        pure D
    pure D
  D.ret

/-- `neon_sim.cpp:2172-2192`: `int16x4_t vqsub_s16(int16x4_t N, int16x4_t M)` -/
def vqsub_s16 (N M : int16x4_t) : C int16x4_t := do
  let D : Arr .s16 4 := Arr.undef
  let D ← cfor 0 4 1 D fun i D => do
    let temp ← Val.cast .s32 (← Val.sub (← Val.cast .s32 (← N.get i)) (← Val.cast .s32 (← M.get i)))
    let D ←
      if Val.gt temp (vint 32767) then do
        let D ← D.set i (vint 32767)
        pure D
      else do
        let D ←
          if Val.lt temp (vint (-32768)) then do
            let D ← D.set i (vint (-32768))
            pure D
          else do
            let D ← D.set i temp
            pure D
        pure D
    pure D
  D.ret

/-- `neon_sim.cpp:2194-2214`: `int32x2_t vqsub_s32(int32x2_t N, int32x2_t M)` -/
def vqsub_s32 (N M : int32x2_t) : C int32x2_t := do
  let D : Arr .s32 2 := Arr.undef
  let D ← cfor 0 2 1 D fun i D => do
    let temp ← Val.cast .s64 (← Val.sub (← Val.cast .s64 (← N.get i)) (← Val.cast .s64 (← M.get i)))
    let D ←
      if Val.gt temp (vint 2147483647) then do
        let D ← D.set i (vint 2147483647)
        pure D
      else do
        let D ←
          if Val.lt temp (vint (-2147483648)) then do
            let D ← D.set i (vint (-2147483648))
            pure D
          else do
            let D ← D.set i temp
            pure D
        pure D
    pure D
  D.ret

/-- `neon_sim.cpp:2216-2236`: `int64x1_t vqsub_s64(int64x1_t N, int64x1_t M)` -/
def vqsub_s64 (N M : int64x1_t) : C int64x1_t := do
  let D : Arr .s64 1 := Arr.undef
  let D ← cfor 0 1 1 D fun i D => do
    let temp ← Val.cast .f64 (← Val.sub (← Val.cast .f64 (← N.get i)) (← Val.cast .f64 (← M.get i)))
    let D ←
      if Val.gt temp (← Val.cast .f64 (.int .i64 9223372036854775807)) then do
        let D ← D.set i (.int .i64 9223372036854775807)
        pure D
      else do
        let D ←
          if Val.lt temp (.int .i64 (-9223372036854775808)) then do
            let D ← D.set i (.int .i64 (-9223372036854775808))
            pure D
          else do
            let D ← D.set i temp
            pure D
        pure D
    pure D
  D.ret

/-- `neon_sim.cpp:2239-2247`: `int16x8_t vsubl_s8(int8x8_t N, int8x8_t M)` -/
def vsubl_s8 (N M : int8x8_t) : C int16x8_t := do
  let D : Arr .s16 8 := Arr.undef
  let D ← cfor 0 8 1 D fun i D => do
    let D ← D.set i (← Val.sub (← Val.cast .s16 (← N.get i)) (← Val.cast .s16 (← M.get i)))
    pure D
  D.ret

/-- `neon_sim.cpp:2249-2257`: `int32x4_t vsubl_s16(int16x4_t N, int16x4_t M)` -/
def vsubl_s16 (N M : int16x4_t) : C int32x4_t := do
  let D : Arr .s32 4 := Arr.undef
  let D ← cfor 0 4 1 D fun i D => do
    let D ← D.set i (← Val.sub (← Val.cast .s32 (← N.get i)) (← Val.cast .s32 (← M.get i)))
    pure D
  D.ret

/-- `neon_sim.cpp:2259-2267`: `int64x2_t vsubl_s32(int32x4_t N, int32x2_t M)` -/
def vsubl_s32 (N : int32x4_t) (M : int32x2_t) : C int64x2_t := do
  let D : Arr .s64 2 := Arr.undef
  let D ← cfor 0 2 1 D fun i D => do
    let D ← D.set i (← Val.sub (← Val.cast .s64 (← N.get i)) (← Val.cast .s64 (← M.get i)))
    pure D
  D.ret

/-- `neon_sim.cpp:2269-2277`: `uint16x8_t vsubl_u8(uint8x8_t N, uint8x8_t M)` -/
def vsubl_u8 (N M : uint8x8_t) : C uint16x8_t := do
  let D : Arr .u16 8 := Arr.undef
  let D ← cfor 0 8 1 D fun i D => do
    let D ← D.set i (← Val.sub (← Val.cast .u16 (← N.get i)) (← Val.cast .u16 (← M.get i)))
    pure D
  D.ret

/-- `neon_sim.cpp:2279-2287`: `uint32x4_t vsubl_u16(uint16x4_t N, uint16x4_t M)` -/
def vsubl_u16 (N M : uint16x4_t) : C uint32x4_t := do
  let D : Arr .u32 4 := Arr.undef
  let D ← cfor 0 4 1 D fun i D => do
    let D ← D.set i (← Val.sub (← Val.cast .u32 (← N.get i)) (← Val.cast .u32 (← M.get i)))
    pure D
  D.ret

/-- `neon_sim.cpp:2289-2297`: `uint64x2_t vsubl_u32(uint32x4_t N, uint32x2_t M)` -/
def vsubl_u32 (N : uint32x4_t) (M : uint32x2_t) : C uint64x2_t := do
  let D : Arr .u64 2 := Arr.undef
  let D ← cfor 0 2 1 D fun i D => do
    let D ← D.set i (← Val.sub (← Val.cast .u64 (← N.get i)) (← Val.cast .u64 (← M.get i)))
    pure D
  D.ret

/-- `neon_sim.cpp:2300-2308`: `int16x8_t vsubw_s8(int16x8_t N, int8x8_t M)` -/
def vsubw_s8 (N : int16x8_t) (M : int8x8_t) : C int16x8_t := do
  let D : Arr .s16 8 := Arr.undef
  let D ← cfor 0 8 1 D fun i D => do
    let D ← D.set i (← Val.sub (← N.get i) (← Val.cast .s16 (← M.get i)))
    pure D
  D.ret

/-- `neon_sim.cpp:2310-2318`: `int32x4_t vsubw_s16(int32x4_t N, int16x4_t M)` -/
def vsubw_s16 (N : int32x4_t) (M : int16x4_t) : C int32x4_t := do
  let D : Arr .s32 4 := Arr.undef
  let D ← cfor 0 4 1 D fun i D => do
    let D ← D.set i (← Val.sub (← N.get i) (← Val.cast .s32 (← M.get i)))
    pure D
  D.ret

/-- `neon_sim.cpp:2320-2328`: `int64x2_t vsubw_s32(int64x2_t N, int32x2_t M)` -/
def vsubw_s32 (N : int64x2_t) (M : int32x2_t) : C int64x2_t := do
  let D : Arr .s64 2 := Arr.undef
  let D ← cfor 0 2 1 D fun i D => do
    let D ← D.set i (← Val.sub (← N.get i) (← Val.cast .s64 (← M.get i)))
    pure D
  D.ret

/-- `neon_sim.cpp:2330-2338`: `uint16x8_t vsubw_u8(uint16x8_t N, uint8x8_t M)` -/
def vsubw_u8 (N : uint16x8_t) (M : uint8x8_t) : C uint16x8_t := do
  let D : Arr .u16 8 := Arr.undef
  let D ← cfor 0 8 1 D fun i D => do
    let D ← D.set i (← Val.sub (← N.get i) (← Val.cast .u16 (← M.get i)))
    pure D
  D.ret

/-- `neon_sim.cpp:2340-2348`: `uint32x4_t vsubw_u16(uint32x4_t N, uint16x4_t M)` -/
def vsubw_u16 (N : uint32x4_t) (M : uint16x4_t) : C uint32x4_t := do
  let D : Arr .u32 4 := Arr.undef
  let D ← cfor 0 4 1 D fun i D => do
    let D ← D.set i (← Val.sub (← N.get i) (← Val.cast .u32 (← M.get i)))
    pure D
  D.ret

/-- `neon_sim.cpp:2350-2358`: `uint64x2_t vsubw_u32(uint64x2_t N, uint32x2_t M)` -/
def vsubw_u32 (N : uint64x2_t) (M : uint32x2_t) : C uint64x2_t := do
  let D : Arr .u64 2 := Arr.undef
  let D ← cfor 0 2 1 D fun i D => do
    let D ← D.set i (← Val.sub (← N.get i) (← Val.cast .u64 (← M.get i)))
    pure D
  D.ret

/-- `neon_sim.cpp:2360-2380`: `uint8x8_t vqsub_u8(uint8x8_t N, uint8x8_t M)` -/
def vqsub_u8 (N M : uint8x8_t) : C uint8x8_t := do
  let D : Arr .u8 8 := Arr.undef
  let D ← cfor 0 8 1 D fun i D => do
    let temp ← Val.cast .s16 (← Val.sub (← Val.cast .s16 (← N.get i)) (← Val.cast .s16 (← M.get i)))
    let D ←
      if Val.gt temp (vint 255) then do
        let D ← D.set i (vint 255)
        pure D
      else do
        let D ←
          if Val.lt temp (vint 0) then do
            let D ← D.set i (vint 0)
            pure D
          else do
            let D ← D.set i temp
            pure D
        pure D
    pure D
  D.ret

/-- `neon_sim.cpp:2382-2402`: `uint16x4_t vqsub_u16(uint16x4_t N, uint16x4_t M)` -/
def vqsub_u16 (N M : uint16x4_t) : C uint16x4_t := do
  let D : Arr .u16 4 := Arr.undef
  let D ← cfor 0 4 1 D fun i D => do
    let temp ← Val.cast .s32 (← Val.sub (← Val.cast .s32 (← N.get i)) (← Val.cast .s32 (← M.get i)))
    let D ←
      if Val.gt temp (vint 65535) then do
        let D ← D.set i (vint 65535)
        pure D
      else do
        let D ←
          if Val.lt temp (vint 0) then do
            let D ← D.set i (vint 0)
            pure D
          else do
            let D ← D.set i temp
            pure D
        pure D
    pure D
  D.ret

/-- `neon_sim.cpp:2404-2424`: `uint32x2_t vqsub_u32(uint32x2_t N, uint32x2_t M)` -/
def vqsub_u32 (N M : uint32x2_t) : C uint32x2_t := do
  let D : Arr .u32 2 := Arr.undef
  let D ← cfor 0 2 1 D fun i D => do
    let temp ← Val.cast .s64 (← Val.sub (← Val.cast .s64 (← N.get i)) (← Val.cast .s64 (← M.get i)))
    let D ←
      if Val.gt temp (.int .u32 4294967295) then do
        let D ← D.set i (.int .u32 4294967295)
        pure D
      else do
        let D ←
          if Val.lt temp (vint 0) then do
            let D ← D.set i (vint 0)
            pure D
          else do
            let D ← D.set i temp
            pure D
        pure D
    pure D
  D.ret

/-- `neon_sim.cpp:2426-2446`: `uint64x1_t vqsub_u64(uint64x1_t N, uint64x1_t M)` -/
def vqsub_u64 (N M : uint64x1_t) : C uint64x1_t := do
  let D : Arr .u64 1 := Arr.undef
  let D ← cfor 0 1 1 D fun i D => do
    let temp ← Val.cast .f64 (← Val.sub (← Val.cast .f64 (← N.get i)) (← Val.cast .f64 (← M.get i)))
    let D ←
      if Val.gt temp (← Val.cast .f64 (.int .u64 18446744073709551615)) then do
        let D ← D.set i (.int .u64 18446744073709551615)
        pure D
      else do
        let D ←
          if Val.lt temp (vint 0) then do
            let D ← D.set i (vint 0)
            pure D
          else do
            let D ← D.set i temp
            pure D
        pure D
    pure D
  D.ret

/-- `neon_sim.cpp:2449-2469`: `int8x16_t vqsubq_s8(int8x16_t N, int8x16_t M)` -/
def vqsubq_s8 (N M : int8x16_t) : C int8x16_t := do
  let D : Arr .s8 16 := Arr.undef
  let D ← cfor 0 16 1 D fun i D => do
    let temp ← Val.cast .s16 (← Val.sub (← Val.cast .s16 (← N.get i)) (← Val.cast .s16 (← M.get i)))
    let D ←
      if Val.gt temp (vint 127) then do
        let D ← D.set i (vint 127)
        pure D
      else do
        let D ←
          if Val.lt temp (vint (-128)) then do
            let D ← D.set i (vint (-128))
            pure D
          else do
            let D ← D.set i temp
            pure D
        pure D
    pure D
  D.ret

/-- `neon_sim.cpp:2471-2491`: `int16x8_t vqsubq_s16(int16x8_t N, int16x8_t M)` -/
def vqsubq_s16 (N M : int16x8_t) : C int16x8_t := do
  let D : Arr .s16 8 := Arr.undef
  let D ← cfor 0 8 1 D fun i D => do
    let temp ← Val.cast .s32 (← Val.sub (← Val.cast .s32 (← N.get i)) (← Val.cast .s32 (← M.get i)))
    let D ←
      if Val.gt temp (vint 32767) then do
        let D ← D.set i (vint 32767)
        pure D
      else do
        let D ←
          if Val.lt temp (vint (-32768)) then do
            let D ← D.set i (vint (-32768))
            pure D
          else do
            let D ← D.set i temp
            pure D
        pure D
    pure D
  D.ret

/-- `neon_sim.cpp:2493-2513`: `int32x4_t vqsubq_s32(int32x4_t N, int32x4_t M)` -/
def vqsubq_s32 (N M : int32x4_t) : C int32x4_t := do
  let D : Arr .s32 4 := Arr.undef
  let D ← cfor 0 4 1 D fun i D => do
    let temp ← Val.cast .s64 (← Val.sub (← Val.cast .s64 (← N.get i)) (← Val.cast .s64 (← M.get i)))
    let D ←
      if Val.gt temp (vint 2147483647) then do
        let D ← D.set i (vint 2147483647)
        pure D
      else do
        let D ←
          if Val.lt temp (vint (-2147483648)) then do
            let D ← D.set i (vint (-2147483648))
            pure D
          else do
            let D ← D.set i temp
            pure D
        pure D
    pure D
  D.ret

/-- `neon_sim.cpp:2515-2535`: `int64x2_t vqsubq_s64(int64x2_t N, int64x2_t M)` -/
def vqsubq_s64 (N M : int64x2_t) : C int64x2_t := do
  let D : Arr .s64 2 := Arr.undef
  let D ← cfor 0 2 1 D fun i D => do
    let temp ← Val.cast .f64 (← Val.sub (← Val.cast .f64 (← N.get i)) (← Val.cast .f64 (← M.get i)))
    let D ←
      if Val.gt temp (← Val.cast .f64 (.int .i64 9223372036854775807)) then do
        let D ← D.set i (.int .i64 9223372036854775807)
        pure D
      else do
        let D ←
          if Val.lt temp (.int .i64 (-9223372036854775808)) then do
            let D ← D.set i (.int .i64 (-9223372036854775808))
            pure D
          else do
            let D ← D.set i temp
            pure D
        pure D
    pure D
  D.ret

/-- `neon_sim.cpp:2537-2557`: `uint8x16_t vqsubq_u8(uint8x16_t N, uint8x16_t M)` -/
def vqsubq_u8 (N M : uint8x16_t) : C uint8x16_t := do
  let D : Arr .u8 16 := Arr.undef
  let D ← cfor 0 16 1 D fun i D => do
    let temp ← Val.cast .s16 (← Val.sub (← Val.cast .s16 (← N.get i)) (← Val.cast .s16 (← M.get i)))
    let D ←
      if Val.gt temp (vint 255) then do
        let D ← D.set i (vint 255)
        pure D
      else do
        let D ←
          if Val.lt temp (vint 0) then do
            let D ← D.set i (vint 0)
            pure D
          else do
            let D ← D.set i temp
            pure D
        pure D
    pure D
  D.ret

/-- `neon_sim.cpp:2559-2579`: `uint16x8_t vqsubq_u16(uint16x8_t N, uint16x8_t M)` -/
def vqsubq_u16 (N M : uint16x8_t) : C uint16x8_t := do
  let D : Arr .u16 8 := Arr.undef
  let D ← cfor 0 8 1 D fun i D => do
    let temp ← Val.cast .s32 (← Val.sub (← Val.cast .s32 (← N.get i)) (← Val.cast .s32 (← M.get i)))
    let D ←
      if Val.gt temp (vint 65535) then do
        let D ← D.set i (vint 65535)
        pure D
      else do
        let D ←
          if Val.lt temp (vint 0) then do
            let D ← D.set i (vint 0)
            pure D
          else do
            let D ← D.set i temp
            pure D
        pure D
    pure D
  D.ret

/-- `neon_sim.cpp:2581-2601`: `uint32x4_t vqsubq_u32(uint32x4_t N, uint32x4_t M)` -/
def vqsubq_u32 (N M : uint32x4_t) : C uint32x4_t := do
  let D : Arr .u32 4 := Arr.undef
  let D ← cfor 0 4 1 D fun i D => do
    let temp ← Val.cast .s64 (← Val.sub (← Val.cast .s64 (← N.get i)) (← Val.cast .s64 (← M.get i)))
    let D ←
      if Val.gt temp (.int .u32 4294967295) then do
        let D ← D.set i (.int .u32 4294967295)
        pure D
      else do
        let D ←
          if Val.lt temp (vint 0) then do
            let D ← D.set i (vint 0)
            pure D
          else do
            let D ← D.set i temp
            pure D
        pure D
    pure D
  D.ret

/-- `neon_sim.cpp:2603-2623`: `uint64x2_t vqsubq_u64(uint64x2_t N, uint64x2_t M)` -/
def vqsubq_u64 (N M : uint64x2_t) : C uint64x2_t := do
  let D : Arr .u64 2 := Arr.undef
  let D ← cfor 0 2 1 D fun i D => do
    let temp ← Val.cast .f64 (← Val.sub (← Val.cast .f64 (← N.get i)) (← Val.cast .f64 (← M.get i)))
    let D ←
      if Val.gt temp (← Val.cast .f64 (.int .u64 18446744073709551615)) then do
        let D ← D.set i (.int .u64 18446744073709551615)
        pure D
      else do
        let D ←
          if Val.lt temp (vint 0) then do
            let D ← D.set i (vint 0)
            pure D
          else do
            let D ← D.set i temp
            pure D
        pure D
    pure D
  D.ret

/-- `neon_sim.cpp:2625-2635`: `int8x8_t vrsubhn_s16(int16x8_t N, int16x8_t M)` -/
def vrsubhn_s16 (N M : int16x8_t) : C int8x8_t := do
  let D : Arr .s8 8 := Arr.undef
  let shift ← Val.cast .s16 (vint 8)
  let delta ← Val.cast .s16 (← Val.shl (vint 1) (← Val.sub shift (vint 1)))
  let D ← cfor 0 8 1 D fun i D => do
    let D ← D.set i (← Val.shr (← Val.add (← Val.sub (← N.get i) (← M.get i)) delta) shift)
    pure D
  D.ret

/-- `neon_sim.cpp:2637-2647`: `int16x4_t vrsubhn_s32(int32x4_t N, int32x4_t M)` -/
def vrsubhn_s32 (N M : int32x4_t) : C int16x4_t := do
  let D : Arr .s16 4 := Arr.undef
  let shift ← Val.cast .s32 (vint 16)
  let delta ← Val.cast .s32 (← Val.shl (vint 1) (← Val.sub shift (vint 1)))
  let D ← cfor 0 4 1 D fun i D => do
    let D ← D.set i (← Val.shr (← Val.add (← Val.sub (← N.get i) (← M.get i)) delta) shift)
    pure D
  D.ret

/-- `neon_sim.cpp:2649-2659`: `int32x2_t vrsubhn_s64(int64x2_t N, int64x2_t M)` -/
def vrsubhn_s64 (N M : int64x2_t) : C int32x2_t := do
  let D : Arr .s32 2 := Arr.undef
  let shift ← Val.cast .s64 (vint 32)
  let delta ← Val.cast .s64 (← Val.shl (vint 1) (← Val.sub shift (vint 1)))
  let D ← cfor 0 2 1 D fun i D => do
    let D ← D.set i (← Val.shr (← Val.add (← Val.sub (← N.get i) (← M.get i)) delta) shift)
    pure D
  D.ret

/-- `neon_sim.cpp:2661-2671`: `uint8x8_t vrsubhn_u16(uint16x8_t N, uint16x8_t M)` -/
def vrsubhn_u16 (N M : uint16x8_t) : C uint8x8_t := do
  let D : Arr .u8 8 := Arr.undef
  let shift ← Val.cast .u16 (vint 8)
  let delta ← Val.cast .u16 (← Val.shl (vint 1) (← Val.sub shift (vint 1)))
  let D ← cfor 0 8 1 D fun i D => do
    let D ← D.set i (← Val.shr (← Val.add (← Val.sub (← N.get i) (← M.get i)) delta) shift)
    pure D
  D.ret

/-- `neon_sim.cpp:2673-2683`: `uint16x4_t vrsubhn_u32(uint32x4_t N, uint32x4_t M)` -/
def vrsubhn_u32 (N M : uint32x4_t) : C uint16x4_t := do
  let D : Arr .u16 4 := Arr.undef
  let shift ← Val.cast .u32 (vint 16)
  let delta ← Val.cast .u32 (← Val.shl (vint 1) (← Val.sub shift (vint 1)))
  let D ← cfor 0 4 1 D fun i D => do
    let D ← D.set i (← Val.shr (← Val.add (← Val.sub (← N.get i) (← M.get i)) delta) shift)
    pure D
  D.ret

/-- `neon_sim.cpp:2685-2695`: `uint32x2_t vrsubhn_u64(uint64x2_t N, uint64x2_t M)` -/
def vrsubhn_u64 (N M : uint64x2_t) : C uint32x2_t := do
  let D : Arr .u32 2 := Arr.undef
  let shift ← Val.cast .u64 (vint 32)
  let delta ← Val.cast .u64 (← Val.shl (vint 1) (← Val.sub shift (vint 1)))
  let D ← cfor 0 2 1 D fun i D => do
    let D ← D.set i (← Val.shr (← Val.add (← Val.sub (← N.get i) (← M.get i)) delta) shift)
    pure D
  D.ret

end Verif.Model
