import Verif.Types

/-! Generated from `neon_sim.cpp` by `tools/translate.py`. -/

set_option linter.unusedVariables false

namespace Verif.Model

variable [Dialect]

/-- `neon_sim.cpp:1212-1220`: `int8x16_t vmaxq_s8(int8x16_t N, int8x16_t M)` -/
def vmaxq_s8 (N M : int8x16_t) : C int8x16_t := do
  let D : Arr .s8 16 := Arr.undef
  let D ← cfor 0 16 1 D fun i D => do
    let D ← D.set i (← if Val.gt (← N.get i) (← M.get i) then do pure (← N.get i) else do pure (← M.get i))
    pure D
  D.ret

/-- `neon_sim.cpp:1222-1230`: `int16x8_t vmaxq_s16(int16x8_t N, int16x8_t M)` -/
def vmaxq_s16 (N M : int16x8_t) : C int16x8_t := do
  let D : Arr .s16 8 := Arr.undef
  let D ← cfor 0 8 1 D fun i D => do
    let D ← D.set i (← if Val.gt (← N.get i) (← M.get i) then do pure (← N.get i) else do pure (← M.get i))
    pure D
  D.ret

/-- `neon_sim.cpp:1232-1240`: `int32x4_t vmaxq_s32(int32x4_t N, int32x4_t M)` -/
def vmaxq_s32 (N M : int32x4_t) : C int32x4_t := do
  let D : Arr .s32 4 := Arr.undef
  let D ← cfor 0 4 1 D fun i D => do
    let D ← D.set i (← if Val.gt (← N.get i) (← M.get i) then do pure (← N.get i) else do pure (← M.get i))
    pure D
  D.ret

/-- `neon_sim.cpp:1242-1250`: `int8x16_t vmaxq_u8(int8x16_t N, int8x16_t M)` -/
def vmaxq_u8 (N M : int8x16_t) : C int8x16_t := do
  let D : Arr .s8 16 := Arr.undef
  let D ← cfor 0 16 1 D fun i D => do
    let D ← D.set i (← if Val.gt (← N.get i) (← M.get i) then do pure (← N.get i) else do pure (← M.get i))
    pure D
  D.ret

/-- `neon_sim.cpp:1252-1260`: `int16x8_t vmaxq_u16(int16x8_t N, int16x8_t M)` -/
def vmaxq_u16 (N M : int16x8_t) : C int16x8_t := do
  let D : Arr .s16 8 := Arr.undef
  let D ← cfor 0 8 1 D fun i D => do
    let D ← D.set i (← if Val.gt (← N.get i) (← M.get i) then do pure (← N.get i) else do pure (← M.get i))
    pure D
  D.ret

/-- `neon_sim.cpp:1262-1270`: `int32x4_t vmaxq_u32(int32x4_t N, int32x4_t M)` -/
def vmaxq_u32 (N M : int32x4_t) : C int32x4_t := do
  let D : Arr .s32 4 := Arr.undef
  let D ← cfor 0 4 1 D fun i D => do
    let D ← D.set i (← if Val.gt (← N.get i) (← M.get i) then do pure (← N.get i) else do pure (← M.get i))
    pure D
  D.ret

/-- `neon_sim.cpp:1272-1280`: `float32x4_t vmaxq_f32(float32x4_t N, float32x4_t M)` -/
def vmaxq_f32 (N M : float32x4_t) : C float32x4_t := do
  let D : Arr .f32 4 := Arr.undef
  let D ← cfor 0 4 1 D fun i D => do
    let D ← D.set i (← if Val.gt (← N.get i) (← M.get i) then do pure (← N.get i) else do pure (← M.get i))
    pure D
  D.ret

/-- `neon_sim.cpp:1285-1293`: `int8x8_t vadd_s8(int8x8_t N, int8x8_t M)` -/
def vadd_s8 (N M : int8x8_t) : C int8x8_t := do
  let D : Arr .s8 8 := Arr.undef
  let D ← cfor 0 8 1 D fun i D => do
    let D ← D.set i (← Val.add (← N.get i) (← M.get i))
    pure D
  D.ret

/-- `neon_sim.cpp:1295-1303`: `int16x4_t vadd_s16(int16x4_t N, int16x4_t M)` -/
def vadd_s16 (N M : int16x4_t) : C int16x4_t := do
  let D : Arr .s16 4 := Arr.undef
  let D ← cfor 0 4 1 D fun i D => do
    let D ← D.set i (← Val.add (← N.get i) (← M.get i))
    pure D
  D.ret

/-- `neon_sim.cpp:1305-1313`: `int32x2_t vadd_s32(int32x2_t N, int32x2_t M)` -/
def vadd_s32 (N M : int32x2_t) : C int32x2_t := do
  let D : Arr .s32 2 := Arr.undef
  let D ← cfor 0 2 1 D fun i D => do
    let D ← D.set i (← Val.add (← N.get i) (← M.get i))
    pure D
  D.ret

/-- `neon_sim.cpp:1315-1320`: `int64x1_t vadd_s64(int64x1_t N, int64x1_t M)` -/
def vadd_s64 (N M : int64x1_t) : C int64x1_t := do
  let D : Arr .s64 1 := Arr.undef
  let D ← D.set 0 (← Val.add (← N.get 0) (← M.get 0))
  D.ret

/-- `neon_sim.cpp:1322-1330`: `uint8x8_t vadd_u8(uint8x8_t N, uint8x8_t M)` -/
def vadd_u8 (N M : uint8x8_t) : C uint8x8_t := do
  let D : Arr .u8 8 := Arr.undef
  let D ← cfor 0 8 1 D fun i D => do
    let D ← D.set i (← Val.add (← N.get i) (← M.get i))
    pure D
  D.ret

/-- `neon_sim.cpp:1332-1340`: `uint16x4_t vadd_u16(uint16x4_t N, uint16x4_t M)` -/
def vadd_u16 (N M : uint16x4_t) : C uint16x4_t := do
  let D : Arr .u16 4 := Arr.undef
  let D ← cfor 0 4 1 D fun i D => do
    let D ← D.set i (← Val.add (← N.get i) (← M.get i))
    pure D
  D.ret

/-- `neon_sim.cpp:1342-1350`: `uint32x2_t vadd_u32(uint32x2_t N, uint32x2_t M)` -/
def vadd_u32 (N M : uint32x2_t) : C uint32x2_t := do
  let D : Arr .u32 2 := Arr.undef
  let D ← cfor 0 2 1 D fun i D => do
    let D ← D.set i (← Val.add (← N.get i) (← M.get i))
    pure D
  D.ret

/-- `neon_sim.cpp:1352-1357`: `uint64x1_t vadd_u64(uint64x1_t N, uint64x1_t M)` -/
def vadd_u64 (N M : uint64x1_t) : C uint64x1_t := do
  let D : Arr .u64 1 := Arr.undef
  let D ← D.set 0 (← Val.add (← N.get 0) (← M.get 0))
  D.ret

/-- `neon_sim.cpp:1360-1368`: `uint16x8_t vaddl_u8(uint8x8_t a, uint8x8_t b)` -/
def vaddl_u8 (a b : uint8x8_t) : C uint16x8_t := do
  let D : Arr .u16 8 := Arr.undef
  let D ← cfor 0 8 1 D fun i D => do
    let D ← D.set i (← Val.add (← Val.cast .u16 (← a.get i)) (← Val.cast .u16 (← b.get i)))
    pure D
  D.ret

/-- `neon_sim.cpp:1370-1378`: `int16x8_t vaddw_s8(int16x8_t a, int8x8_t b)` -/
def vaddw_s8 (a : int16x8_t) (b : int8x8_t) : C int16x8_t := do
  let r : Arr .s16 8 := Arr.undef
  let r ← cfor 0 8 1 r fun i r => do
    let r ← r.set i (← Val.add (← a.get i) (← b.get i))
    pure r
  r.ret

/-- `neon_sim.cpp:1380-1388`: `int32x4_t vaddw_s16(int32x4_t a, int16x4_t b)` -/
def vaddw_s16 (a : int32x4_t) (b : int16x4_t) : C int32x4_t := do
  let r : Arr .s32 4 := Arr.undef
  let r ← cfor 0 4 1 r fun i r => do
    let r ← r.set i (← Val.add (← a.get i) (← b.get i))
    pure r
  r.ret

/-- `neon_sim.cpp:1390-1398`: `int64x2_t vaddw_s32(int64x2_t a, int32x2_t b)` -/
def vaddw_s32 (a : int64x2_t) (b : int32x2_t) : C int64x2_t := do
  let r : Arr .s64 2 := Arr.undef
  let r ← cfor 0 2 1 r fun i r => do
    let r ← r.set i (← Val.add (← a.get i) (← b.get i))
    pure r
  r.ret

/-- `neon_sim.cpp:1400-1408`: `uint16x8_t vaddw_u8(uint16x8_t a, uint8x8_t b)` -/
def vaddw_u8 (a : uint16x8_t) (b : uint8x8_t) : C uint16x8_t := do
  let r : Arr .u16 8 := Arr.undef
  let r ← cfor 0 8 1 r fun i r => do
    let r ← r.set i (← Val.add (← a.get i) (← b.get i))
    pure r
  r.ret

/-- `neon_sim.cpp:1410-1418`: `uint32x4_t vaddw_u16(uint32x4_t a, uint16x4_t b)` -/
def vaddw_u16 (a : uint32x4_t) (b : uint16x4_t) : C uint32x4_t := do
  let r : Arr .u32 4 := Arr.undef
  let r ← cfor 0 4 1 r fun i r => do
    let r ← r.set i (← Val.add (← a.get i) (← b.get i))
    pure r
  r.ret

/-- `neon_sim.cpp:1420-1428`: `uint64x2_t vaddw_u32(uint64x2_t a, uint32x2_t b)` -/
def vaddw_u32 (a : uint64x2_t) (b : uint32x2_t) : C uint64x2_t := do
  let r : Arr .u64 2 := Arr.undef
  let r ← cfor 0 2 1 r fun i r => do
    let r ← r.set i (← Val.add (← a.get i) (← b.get i))
    pure r
  r.ret

/-- `neon_sim.cpp:1431-1440`: `int16x8_t vaddw_high_s8(int16x8_t a, int8x16_t b)` -/
def vaddw_high_s8 (a : int16x8_t) (b : int8x16_t) : C int16x8_t := do
  let r : Arr .s16 8 := Arr.undef
  let ofs : Int := 8
  let r ← cfor 0 8 1 r fun i r => do
    let r ← r.set i (← Val.add (← a.get i) (← b.get (ofs + i)))
    pure r
  r.ret

/-- `neon_sim.cpp:1442-1451`: `int32x4_t vaddw_high_s16(int32x4_t a, int16x8_t b)` -/
def vaddw_high_s16 (a : int32x4_t) (b : int16x8_t) : C int32x4_t := do
  let r : Arr .s32 4 := Arr.undef
  let ofs : Int := 4
  let r ← cfor 0 4 1 r fun i r => do
    let r ← r.set i (← Val.add (← a.get i) (← b.get (ofs + i)))
    pure r
  r.ret

/-- `neon_sim.cpp:1453-1462`: `int64x2_t vaddw_high_s32(int64x2_t a, int32x4_t b)` -/
def vaddw_high_s32 (a : int64x2_t) (b : int32x4_t) : C int64x2_t := do
  let r : Arr .s64 2 := Arr.undef
  let ofs : Int := 2
  let r ← cfor 0 2 1 r fun i r => do
    let r ← r.set i (← Val.add (← a.get i) (← b.get (ofs + i)))
    pure r
  r.ret

/-- `neon_sim.cpp:1464-1473`: `uint16x8_t vaddw_high_u8(uint16x8_t a, uint8x16_t b)` -/
def vaddw_high_u8 (a : uint16x8_t) (b : uint8x16_t) : C uint16x8_t := do
  let r : Arr .u16 8 := Arr.undef
  let ofs : Int := 8
  let r ← cfor 0 8 1 r fun i r => do
    let r ← r.set i (← Val.add (← a.get i) (← b.get (ofs + i)))
    pure r
  r.ret

/-- `neon_sim.cpp:1475-1484`: `uint32x4_t vaddw_high_u16(uint32x4_t a, uint16x8_t b)` -/
def vaddw_high_u16 (a : uint32x4_t) (b : uint16x8_t) : C uint32x4_t := do
  let r : Arr .u32 4 := Arr.undef
  let ofs : Int := 4
  let r ← cfor 0 4 1 r fun i r => do
    let r ← r.set i (← Val.add (← a.get i) (← b.get (ofs + i)))
    pure r
  r.ret

/-- `neon_sim.cpp:1486-1495`: `uint64x2_t vaddw_high_u32(uint64x2_t a, uint32x4_t b)` -/
def vaddw_high_u32 (a : uint64x2_t) (b : uint32x4_t) : C uint64x2_t := do
  let r : Arr .u64 2 := Arr.undef
  let ofs : Int := 2
  let r ← cfor 0 2 1 r fun i r => do
    let r ← r.set i (← Val.add (← a.get i) (← b.get (ofs + i)))
    pure r
  r.ret

/-- `neon_sim.cpp:1500-1508`: `int8x16_t vaddhn_high_s16(int8x8_t r, int16x8_t a, int16x8_t b)` -/
def vaddhn_high_s16 (r : int8x8_t) (a b : int16x8_t) : C int8x16_t := do
  let ret : Arr .s8 16 := Arr.undef
  let ret ← cfor 0 8 1 ret fun i ret => do
    let ret ← ret.set i (← r.get i)
    pure ret
  let ret ← cfor 0 8 1 ret fun i ret => do
    let ret ← ret.set (i + 8) (← Val.cast .s8 (← Val.shr (← Val.add (← a.get i) (← b.get i)) (vint 8)))
    pure ret
  ret.ret

/-- `neon_sim.cpp:1510-1518`: `int16x8_t vaddhn_high_s32(int16x4_t r, int32x4_t a, int32x4_t b)` -/
def vaddhn_high_s32 (r : int16x4_t) (a b : int32x4_t) : C int16x8_t := do
  let ret : Arr .s16 8 := Arr.undef
  let ret ← cfor 0 4 1 ret fun i ret => do
    let ret ← ret.set i (← r.get i)
    pure ret
  let ret ← cfor 0 4 1 ret fun i ret => do
    let ret ← ret.set (i + 4) (← Val.cast .s16 (← Val.shr (← Val.add (← a.get i) (← b.get i)) (vint 4)))
    pure ret
  ret.ret

/-- `neon_sim.cpp:1520-1528`: `int32x4_t vaddhn_high_s64(int32x2_t r, int64x2_t a, int64x2_t b)` -/
def vaddhn_high_s64 (r : int32x2_t) (a b : int64x2_t) : C int32x4_t := do
  let ret : Arr .s32 4 := Arr.undef
  let ret ← cfor 0 2 1 ret fun i ret => do
    let ret ← ret.set i (← r.get i)
    pure ret
  let ret ← cfor 0 2 1 ret fun i ret => do
    let ret ← ret.set (i + 2) (← Val.cast .s32 (← Val.shr (← Val.add (← a.get i) (← b.get i)) (vint 2)))
    pure ret
  ret.ret

/-- `neon_sim.cpp:1530-1538`: `uint8x16_t vaddhn_high_u16(uint8x8_t r, uint16x8_t a, uint16x8_t b)` -/
def vaddhn_high_u16 (r : uint8x8_t) (a b : uint16x8_t) : C uint8x16_t := do
  let ret : Arr .u8 16 := Arr.undef
  let ret ← cfor 0 8 1 ret fun i ret => do
    let ret ← ret.set i (← r.get i)
    pure ret
  let ret ← cfor 0 8 1 ret fun i ret => do
    let ret ← ret.set (i + 8) (← Val.cast .u8 (← Val.shr (← Val.add (← a.get i) (← b.get i)) (vint 8)))
    pure ret
  ret.ret

/-- `neon_sim.cpp:1540-1548`: `uint16x8_t vaddhn_high_u32(uint16x4_t r, uint32x4_t a, uint32x4_t b)` -/
def vaddhn_high_u32 (r : uint16x4_t) (a b : uint32x4_t) : C uint16x8_t := do
  let ret : Arr .u16 8 := Arr.undef
  let ret ← cfor 0 4 1 ret fun i ret => do
    let ret ← ret.set i (← r.get i)
    pure ret
  let ret ← cfor 0 4 1 ret fun i ret => do
    let ret ← ret.set (i + 4) (← Val.cast .u16 (← Val.shr (← Val.add (← a.get i) (← b.get i)) (vint 4)))
    pure ret
  ret.ret

/-- `neon_sim.cpp:1550-1558`: `uint32x4_t vaddhn_high_u64(uint32x2_t r, uint64x2_t a, uint64x2_t b)` -/
def vaddhn_high_u64 (r : uint32x2_t) (a b : uint64x2_t) : C uint32x4_t := do
  let ret : Arr .u32 4 := Arr.undef
  let ret ← cfor 0 2 1 ret fun i ret => do
    let ret ← ret.set i (← r.get i)
    pure ret
  let ret ← cfor 0 2 1 ret fun i ret => do
    let ret ← ret.set (i + 2) (← Val.cast .u32 (← Val.shr (← Val.add (← a.get i) (← b.get i)) (vint 2)))
    pure ret
  ret.ret

/-- `neon_sim.cpp:1563-1571`: `int8x16_t vaddq_s8(int8x16_t N, int8x16_t M)` -/
def vaddq_s8 (N M : int8x16_t) : C int8x16_t := do
  let D : Arr .s8 16 := Arr.undef
  let D ← cfor 0 16 1 D fun i D => do
    let D ← D.set i (← Val.add (← N.get i) (← M.get i))
    pure D
  D.ret

/-- `neon_sim.cpp:1573-1581`: `int16x8_t vaddq_s16(int16x8_t N, int16x8_t M)` -/
def vaddq_s16 (N M : int16x8_t) : C int16x8_t := do
  let D : Arr .s16 8 := Arr.undef
  let D ← cfor 0 8 1 D fun i D => do
    let D ← D.set i (← Val.add (← N.get i) (← M.get i))
    pure D
  D.ret

/-- `neon_sim.cpp:1583-1591`: `int32x4_t vaddq_s32(int32x4_t N, int32x4_t M)` -/
def vaddq_s32 (N M : int32x4_t) : C int32x4_t := do
  let D : Arr .s32 4 := Arr.undef
  let D ← cfor 0 4 1 D fun i D => do
    let D ← D.set i (← Val.add (← N.get i) (← M.get i))
    pure D
  D.ret

/-- `neon_sim.cpp:1593-1601`: `int64x2_t vaddq_s64(int64x2_t N, int64x2_t M)` -/
def vaddq_s64 (N M : int64x2_t) : C int64x2_t := do
  let D : Arr .s64 2 := Arr.undef
  let D ← cfor 0 2 1 D fun i D => do
    let D ← D.set i (← Val.add (← N.get i) (← M.get i))
    pure D
  D.ret

/-- `neon_sim.cpp:1603-1611`: `uint8x16_t vaddq_u8(uint8x16_t N, uint8x16_t M)` -/
def vaddq_u8 (N M : uint8x16_t) : C uint8x16_t := do
  let D : Arr .u8 16 := Arr.undef
  let D ← cfor 0 16 1 D fun i D => do
    let D ← D.set i (← Val.add (← N.get i) (← M.get i))
    pure D
  D.ret

/-- `neon_sim.cpp:1613-1621`: `uint16x8_t vaddq_u16(uint16x8_t N, uint16x8_t M)` -/
def vaddq_u16 (N M : uint16x8_t) : C uint16x8_t := do
  let D : Arr .u16 8 := Arr.undef
  let D ← cfor 0 8 1 D fun i D => do
    let D ← D.set i (← Val.add (← N.get i) (← M.get i))
    pure D
  D.ret

/-- `neon_sim.cpp:1623-1631`: `uint32x4_t vaddq_u32(uint32x4_t N, uint32x4_t M)` -/
def vaddq_u32 (N M : uint32x4_t) : C uint32x4_t := do
  let D : Arr .u32 4 := Arr.undef
  let D ← cfor 0 4 1 D fun i D => do
    let D ← D.set i (← Val.add (← N.get i) (← M.get i))
    pure D
  D.ret

/-- `neon_sim.cpp:1632-1640`: `float32x4_t vaddq_f32(float32x4_t a, float32x4_t b)` -/
def vaddq_f32 (a b : float32x4_t) : C float32x4_t := do
  let r : Arr .f32 4 := Arr.undef
  let r ← cfor 0 4 1 r fun i r => do
    let r ← r.set i (← Val.add (← a.get i) (← b.get i))
    pure r
  r.ret

/-- `neon_sim.cpp:1642-1650`: `uint64x2_t vaddq_u64(uint64x2_t N, uint64x2_t M)` -/
def vaddq_u64 (N M : uint64x2_t) : C uint64x2_t := do
  let D : Arr .u64 2 := Arr.undef
  let D ← cfor 0 2 1 D fun i D => do
    let D ← D.set i (← Val.add (← N.get i) (← M.get i))
    pure D
  D.ret

/-- `neon_sim.cpp:1652-1668`: `uint8x8_t vqadd_u8(uint8x8_t a, uint8x8_t b)` -/
def vqadd_u8 (a b : uint8x8_t) : C uint8x8_t := do
  let r : Arr .u8 8 := Arr.undef
  let r ← cfor 0 8 1 r fun i r => do
    let temp ← Val.cast .u16 (← Val.add (← Val.cast .u16 (← a.get i)) (← Val.cast .u16 (← b.get i)))
    let r ←
      if Val.gt temp (vint 255) then do
        let r ← r.set i (vint 255)
        pure r
      else do
        let r ← r.set i temp
        pure r
    pure r
  r.ret

/-- `neon_sim.cpp:1672-1681`: `int16x8_t vaddl_high_s8(int8x16_t a, int8x16_t b)` -/
def vaddl_high_s8 (a b : int8x16_t) : C int16x8_t := do
  let r : Arr .s16 8 := Arr.undef
  let ofs : Int := 16 / 2
  let r ← cfor 0 8 1 r fun i r => do
    let r ← r.set i (← Val.add (← a.get (ofs + i)) (← b.get (ofs + i)))
    pure r
  r.ret

/-- `neon_sim.cpp:1683-1692`: `int32x4_t vaddl_high_s16(int16x8_t a, int16x8_t b)` -/
def vaddl_high_s16 (a b : int16x8_t) : C int32x4_t := do
  let r : Arr .s32 4 := Arr.undef
  let ofs : Int := 8 / 2
  let r ← cfor 0 4 1 r fun i r => do
    let r ← r.set i (← Val.add (← a.get (ofs + i)) (← b.get (ofs + i)))
    pure r
  r.ret

/-- `neon_sim.cpp:1694-1703`: `int64x2_t vaddl_high_s32(int32x4_t a, int32x4_t b)` -/
def vaddl_high_s32 (a b : int32x4_t) : C int64x2_t := do
  let r : Arr .s64 2 := Arr.undef
  let ofs : Int := 4 / 2
  let r ← cfor 0 2 1 r fun i r => do
    let r ← r.set i (← Val.add (← a.get (ofs + i)) (← b.get (ofs + i)))
    pure r
  r.ret

/-- `neon_sim.cpp:1705-1714`: `uint16x8_t vaddl_high_u8(uint8x16_t a, uint8x16_t b)` -/
def vaddl_high_u8 (a b : uint8x16_t) : C uint16x8_t := do
  let r : Arr .u16 8 := Arr.undef
  let ofs : Int := 16 / 2
  let r ← cfor 0 8 1 r fun i r => do
    let r ← r.set i (← Val.add (← a.get (ofs + i)) (← b.get (ofs + i)))
    pure r
  r.ret

/-- `neon_sim.cpp:1716-1725`: `uint32x4_t vaddl_high_u16(uint16x8_t a, uint16x8_t b)` -/
def vaddl_high_u16 (a b : uint16x8_t) : C uint32x4_t := do
  let r : Arr .u32 4 := Arr.undef
  let ofs : Int := 8 / 2
  let r ← cfor 0 4 1 r fun i r => do
    let r ← r.set i (← Val.add (← a.get (ofs + i)) (← b.get (ofs + i)))
    pure r
  r.ret

/-- `neon_sim.cpp:1727-1736`: `uint64x2_t vaddl_high_u32(uint32x4_t a, uint32x4_t b)` -/
def vaddl_high_u32 (a b : uint32x4_t) : C uint64x2_t := do
  let r : Arr .u64 2 := Arr.undef
  let ofs : Int := 4 / 2
  let r ← cfor 0 2 1 r fun i r => do
    let r ← r.set i (← Val.add (← a.get (ofs + i)) (← b.get (ofs + i)))
    pure r
  r.ret

/-- `neon_sim.cpp:1740-1756`: `uint8x16_t vqaddq_u8(uint8x16_t N, uint8x16_t M)` -/
def vqaddq_u8 (N M : uint8x16_t) : C uint8x16_t := do
  let D : Arr .u8 16 := Arr.undef
  let D ← cfor 0 16 1 D fun i D => do
    let temp ← Val.cast .u16 (← Val.add (← Val.cast .u16 (← N.get i)) (← Val.cast .u16 (← M.get i)))
    let D ←
      if Val.gt temp (vint 255) then do
        let D ← D.set i (vint 255)
        pure D
      else do
        let D ← D.set i temp
        pure D
    pure D
  D.ret

/-- `neon_sim.cpp:1758-1766`: `uint16x4_t vpaddl_u8(uint8x8_t a)` -/
def vpaddl_u8 (a : uint8x8_t) : C uint16x4_t := do
  let r : Arr .u16 4 := Arr.undef
  let r ← cfor 0 4 1 r fun i r => do
    let r ← r.set i (← Val.add (← a.get (2 * i)) (← a.get ((2 * i) + 1)))
    pure r
  r.ret

/-- `neon_sim.cpp:1768-1776`: `uint16x8_t vpaddlq_u8(uint8x16_t a)` -/
def vpaddlq_u8 (a : uint8x16_t) : C uint16x8_t := do
  let r : Arr .u16 8 := Arr.undef
  let r ← cfor 0 8 1 r fun i r => do
    let r ← r.set i (← Val.add (← a.get (2 * i)) (← a.get ((2 * i) + 1)))
    pure r
  r.ret

/-- `neon_sim.cpp:1778-1786`: `uint32x4_t vpaddlq_u16(uint16x8_t a)` -/
def vpaddlq_u16 (a : uint16x8_t) : C uint32x4_t := do
  let r : Arr .u32 4 := Arr.undef
  let r ← cfor 0 4 1 r fun i r => do
    let r ← r.set i (← Val.add (← a.get (2 * i)) (← a.get ((2 * i) + 1)))
    pure r
  r.ret

end Verif.Model
