import Verif.Types

/-! Generated from `neon_sim.cpp` by `tools/translate.py`. -/

set_option linter.unusedVariables false

namespace Verif.Model

variable [Dialect]

/-- `neon_sim.cpp:4344-4352`: `float32x4_t vrecpsq_f32(float32x4_t a, float32x4_t b)` -/
def vrecpsq_f32 (a b : float32x4_t) : C float32x4_t := do
  let r : Arr .f32 4 := Arr.undef
  let r ← cfor 0 4 1 r fun i r => do
    let r ← r.set i (← Val.sub (.f64 0x4000000000000000#64) (← Val.mul (← a.get i) (← b.get i)))
    pure r
  r.ret

/-- `neon_sim.cpp:4355-4369`: `int8x8x2_t vtrn_s8(int8x8_t a, int8x8_t b)` -/
def vtrn_s8 (a b : int8x8_t) : C int8x8x2_t := do
  let r : Arr2 .s8 8 2 := Arr2.undef
  let r ← cfor 0 4 1 r fun i r => do
    let r ← r.set 0 (2 * i) (← a.get (2 * i))
    let r ← r.set 0 ((2 * i) + 1) (← b.get (2 * i))
    pure r
  let r ← cfor 0 4 1 r fun i r => do
    let r ← r.set 1 (2 * i) (← a.get ((2 * i) + 1))
    let r ← r.set 1 ((2 * i) + 1) (← b.get ((2 * i) + 1))
    pure r
  r.ret

/-- `neon_sim.cpp:4371-4385`: `uint8x8x2_t vtrn_u8(uint8x8_t a, uint8x8_t b)` -/
def vtrn_u8 (a b : uint8x8_t) : C uint8x8x2_t := do
  let r : Arr2 .u8 8 2 := Arr2.undef
  let r ← cfor 0 4 1 r fun i r => do
    let r ← r.set 0 (2 * i) (← a.get (2 * i))
    let r ← r.set 0 ((2 * i) + 1) (← b.get (2 * i))
    pure r
  let r ← cfor 0 4 1 r fun i r => do
    let r ← r.set 1 (2 * i) (← a.get ((2 * i) + 1))
    let r ← r.set 1 ((2 * i) + 1) (← b.get ((2 * i) + 1))
    pure r
  r.ret

/-- `neon_sim.cpp:4387-4401`: `int16x4x2_t vtrn_s16(int16x4_t a, int16x4_t b)` -/
def vtrn_s16 (a b : int16x4_t) : C int16x4x2_t := do
  let r : Arr2 .s16 4 2 := Arr2.undef
  let r ← cfor 0 2 1 r fun i r => do
    let r ← r.set 0 (2 * i) (← a.get (2 * i))
    let r ← r.set 0 ((2 * i) + 1) (← b.get (2 * i))
    pure r
  let r ← cfor 0 2 1 r fun i r => do
    let r ← r.set 1 (2 * i) (← a.get ((2 * i) + 1))
    let r ← r.set 1 ((2 * i) + 1) (← b.get ((2 * i) + 1))
    pure r
  r.ret

/-- `neon_sim.cpp:4403-4417`: `uint16x4x2_t vtrn_u16(uint16x4_t a, uint16x4_t b)` -/
def vtrn_u16 (a b : uint16x4_t) : C uint16x4x2_t := do
  let r : Arr2 .u16 4 2 := Arr2.undef
  let r ← cfor 0 2 1 r fun i r => do
    let r ← r.set 0 (2 * i) (← a.get (2 * i))
    let r ← r.set 0 ((2 * i) + 1) (← b.get (2 * i))
    pure r
  let r ← cfor 0 2 1 r fun i r => do
    let r ← r.set 1 (2 * i) (← a.get ((2 * i) + 1))
    let r ← r.set 1 ((2 * i) + 1) (← b.get ((2 * i) + 1))
    pure r
  r.ret

/-- `neon_sim.cpp:4419-4433`: `int32x2x2_t vtrn_s32(int32x2_t a, int32x2_t b)` -/
def vtrn_s32 (a b : int32x2_t) : C int32x2x2_t := do
  let r : Arr2 .s32 2 2 := Arr2.undef
  let r ← cfor 0 1 1 r fun i r => do
    let r ← r.set 0 (2 * i) (← a.get (2 * i))
    let r ← r.set 0 ((2 * i) + 1) (← b.get (2 * i))
    pure r
  let r ← cfor 0 1 1 r fun i r => do
    let r ← r.set 1 (2 * i) (← a.get ((2 * i) + 1))
    let r ← r.set 1 ((2 * i) + 1) (← b.get ((2 * i) + 1))
    pure r
  r.ret

/-- `neon_sim.cpp:4435-4449`: `uint32x2x2_t vtrn_u32(uint32x2_t a, uint32x2_t b)` -/
def vtrn_u32 (a b : uint32x2_t) : C uint32x2x2_t := do
  let r : Arr2 .u32 2 2 := Arr2.undef
  let r ← cfor 0 1 1 r fun i r => do
    let r ← r.set 0 (2 * i) (← a.get (2 * i))
    let r ← r.set 0 ((2 * i) + 1) (← b.get (2 * i))
    pure r
  let r ← cfor 0 1 1 r fun i r => do
    let r ← r.set 1 (2 * i) (← a.get ((2 * i) + 1))
    let r ← r.set 1 ((2 * i) + 1) (← b.get ((2 * i) + 1))
    pure r
  r.ret

/-- `neon_sim.cpp:4452-4466`: `uint16x8x2_t vtrnq_u16(uint16x8_t a, uint16x8_t b)` -/
def vtrnq_u16 (a b : uint16x8_t) : C uint16x8x2_t := do
  let r : Arr2 .u16 8 2 := Arr2.undef
  let r ← cfor 0 4 1 r fun i r => do
    let r ← r.set 0 (2 * i) (← a.get (2 * i))
    let r ← r.set 0 ((2 * i) + 1) (← b.get (2 * i))
    pure r
  let r ← cfor 0 4 1 r fun i r => do
    let r ← r.set 1 (2 * i) (← a.get ((2 * i) + 1))
    let r ← r.set 1 ((2 * i) + 1) (← b.get ((2 * i) + 1))
    pure r
  r.ret

/-- `neon_sim.cpp:4468-4482`: `uint32x4x2_t vtrnq_u32(uint32x4_t a, uint32x4_t b)` -/
def vtrnq_u32 (a b : uint32x4_t) : C uint32x4x2_t := do
  let r : Arr2 .u32 4 2 := Arr2.undef
  let r ← cfor 0 2 1 r fun i r => do
    let r ← r.set 0 (2 * i) (← a.get (2 * i))
    let r ← r.set 0 ((2 * i) + 1) (← b.get (2 * i))
    pure r
  let r ← cfor 0 2 1 r fun i r => do
    let r ← r.set 1 (2 * i) (← a.get ((2 * i) + 1))
    let r ← r.set 1 ((2 * i) + 1) (← b.get ((2 * i) + 1))
    pure r
  r.ret

/-- `neon_sim.cpp:4484-4498`: `int16x8x2_t vtrnq_s16(int16x8_t a, int16x8_t b)` -/
def vtrnq_s16 (a b : int16x8_t) : C int16x8x2_t := do
  let r : Arr2 .s16 8 2 := Arr2.undef
  let r ← cfor 0 4 1 r fun i r => do
    let r ← r.set 0 (2 * i) (← a.get (2 * i))
    let r ← r.set 0 ((2 * i) + 1) (← b.get (2 * i))
    pure r
  let r ← cfor 0 4 1 r fun i r => do
    let r ← r.set 1 (2 * i) (← a.get ((2 * i) + 1))
    let r ← r.set 1 ((2 * i) + 1) (← b.get ((2 * i) + 1))
    pure r
  r.ret

/-- `neon_sim.cpp:4501-4516`: `int16x4x2_t vzip_s16(int16x4_t a, int16x4_t b)` -/
def vzip_s16 (a b : int16x4_t) : C int16x4x2_t := do
  let r : Arr2 .s16 4 2 := Arr2.undef
  let n : Int := 2
  let r ← cfor 0 n 1 r fun i r => do
    let r ← r.set 0 (2 * i) (← a.get i)
    let r ← r.set 0 ((2 * i) + 1) (← b.get i)
    pure r
  let r ← cfor 0 n 1 r fun i r => do
    let r ← r.set 1 (2 * i) (← a.get (n + i))
    let r ← r.set 1 ((2 * i) + 1) (← b.get (n + i))
    pure r
  r.ret

/-- `neon_sim.cpp:4519-4532`: `uint8x16_t vcombine_u8(uint8x8_t low, uint8x8_t high)` -/
def vcombine_u8 (low high : uint8x8_t) : C uint8x16_t := do
  let r : Arr .u8 16 := Arr.undef
  let n : Int := 8
  let r ← cfor 0 n 1 r fun i r => do
    let r ← r.set i (← low.get i)
    pure r
  let r ← cfor 0 n 1 r fun i r => do
    let r ← r.set (n + i) (← high.get i)
    pure r
  r.ret

/-- `neon_sim.cpp:4533-4546`: `uint16x8_t vcombine_u16(uint16x4_t low, uint16x4_t high)` -/
def vcombine_u16 (low high : uint16x4_t) : C uint16x8_t := do
  let r : Arr .u16 8 := Arr.undef
  let n : Int := 4
  let r ← cfor 0 n 1 r fun i r => do
    let r ← r.set i (← low.get i)
    pure r
  let r ← cfor 0 n 1 r fun i r => do
    let r ← r.set (n + i) (← high.get i)
    pure r
  r.ret

/-- `neon_sim.cpp:4547-4560`: `uint32x4_t vcombine_u32(uint32x2_t low, uint32x2_t high)` -/
def vcombine_u32 (low high : uint32x2_t) : C uint32x4_t := do
  let r : Arr .u32 4 := Arr.undef
  let n : Int := 2
  let r ← cfor 0 n 1 r fun i r => do
    let r ← r.set i (← low.get i)
    pure r
  let r ← cfor 0 n 1 r fun i r => do
    let r ← r.set (n + i) (← high.get i)
    pure r
  r.ret

/-- `neon_sim.cpp:4562-4575`: `int8x16_t vcombine_s8(int8x8_t low, int8x8_t high)` -/
def vcombine_s8 (low high : int8x8_t) : C int8x16_t := do
  let r : Arr .s8 16 := Arr.undef
  let n : Int := 8
  let r ← cfor 0 n 1 r fun i r => do
    let r ← r.set i (← low.get i)
    pure r
  let r ← cfor 0 n 1 r fun i r => do
    let r ← r.set (n + i) (← high.get i)
    pure r
  r.ret

/-- `neon_sim.cpp:4576-4589`: `int16x8_t vcombine_s16(int16x4_t low, int16x4_t high)` -/
def vcombine_s16 (low high : int16x4_t) : C int16x8_t := do
  let r : Arr .s16 8 := Arr.undef
  let n : Int := 4
  let r ← cfor 0 n 1 r fun i r => do
    let r ← r.set i (← low.get i)
    pure r
  let r ← cfor 0 n 1 r fun i r => do
    let r ← r.set (n + i) (← high.get i)
    pure r
  r.ret

/-- `neon_sim.cpp:4590-4603`: `int32x4_t vcombine_s32(int32x2_t low, int32x2_t high)` -/
def vcombine_s32 (low high : int32x2_t) : C int32x4_t := do
  let r : Arr .s32 4 := Arr.undef
  let n : Int := 2
  let r ← cfor 0 n 1 r fun i r => do
    let r ← r.set i (← low.get i)
    pure r
  let r ← cfor 0 n 1 r fun i r => do
    let r ← r.set (n + i) (← high.get i)
    pure r
  r.ret

/-- `neon_sim.cpp:4606-4614`: `int16x4_t vmovn_s32(int32x4_t a)` -/
def vmovn_s32 (a : int32x4_t) : C int16x4_t := do
  let r : Arr .s16 4 := Arr.undef
  let r ← cfor 0 4 1 r fun i r => do
    let r ← r.set i (← a.get i)
    pure r
  r.ret

/-- `neon_sim.cpp:4616-4624`: `uint16x4_t vmovn_u32(uint32x4_t a)` -/
def vmovn_u32 (a : uint32x4_t) : C uint16x4_t := do
  let r : Arr .u16 4 := Arr.undef
  let r ← cfor 0 4 1 r fun i r => do
    let r ← r.set i (← a.get i)
    pure r
  r.ret

/-- `neon_sim.cpp:4626-4634`: `uint8x8_t vmovn_u16(uint16x8_t a)` -/
def vmovn_u16 (a : uint16x8_t) : C uint8x8_t := do
  let r : Arr .u8 8 := Arr.undef
  let r ← cfor 0 8 1 r fun i r => do
    let r ← r.set i (← a.get i)
    pure r
  r.ret

/-- `neon_sim.cpp:4637-4645`: `uint16x8_t vmovl_u8(uint8x8_t a)` -/
def vmovl_u8 (a : uint8x8_t) : C uint16x8_t := do
  let r : Arr .u16 8 := Arr.undef
  let r ← cfor 0 8 1 r fun i r => do
    let r ← r.set i (← a.get i)
    pure r
  r.ret

/-- `neon_sim.cpp:4646-4654`: `uint32x4_t vmovl_u16(uint16x4_t a)` -/
def vmovl_u16 (a : uint16x4_t) : C uint32x4_t := do
  let r : Arr .u32 4 := Arr.undef
  let r ← cfor 0 4 1 r fun i r => do
    let r ← r.set i (← a.get i)
    pure r
  r.ret

/-- `neon_sim.cpp:4655-4663`: `uint64x2_t vmovl_u32(uint32x2_t a)` -/
def vmovl_u32 (a : uint32x2_t) : C uint64x2_t := do
  let r : Arr .u64 2 := Arr.undef
  let r ← cfor 0 2 1 r fun i r => do
    let r ← r.set i (← a.get i)
    pure r
  r.ret

/-- `neon_sim.cpp:4665-4673`: `int16x8_t vmovl_s8(int8x8_t a)` -/
def vmovl_s8 (a : int8x8_t) : C int16x8_t := do
  let r : Arr .s16 8 := Arr.undef
  let r ← cfor 0 8 1 r fun i r => do
    let r ← r.set i (← a.get i)
    pure r
  r.ret

/-- `neon_sim.cpp:4674-4682`: `int32x4_t vmovl_s16(int16x4_t a)` -/
def vmovl_s16 (a : int16x4_t) : C int32x4_t := do
  let r : Arr .s32 4 := Arr.undef
  let r ← cfor 0 4 1 r fun i r => do
    let r ← r.set i (← a.get i)
    pure r
  r.ret

/-- `neon_sim.cpp:4683-4691`: `int64x2_t vmovl_s32(int32x2_t a)` -/
def vmovl_s32 (a : int32x2_t) : C int64x2_t := do
  let r : Arr .s64 2 := Arr.undef
  let r ← cfor 0 2 1 r fun i r => do
    let r ← r.set i (← a.get i)
    pure r
  r.ret

/-- `neon_sim.cpp:4694-4709`: `uint8x8_t vqmovn_u16(uint16x8_t a)` -/
def vqmovn_u16 (a : uint16x8_t) : C uint8x8_t := do
  let r : Arr .u8 8 := Arr.undef
  let r ← cfor 0 8 1 r fun i r => do
    let r ←
      if Val.gt (← a.get i) (vint 255) then do
        let r ← r.set i (vint 255)
        pure r
      else do
        let r ← r.set i (← a.get i)
        pure r
    pure r
  r.ret

/-- `neon_sim.cpp:4711-4730`: `uint8x8_t vqmovun_s16(int16x8_t a)` -/
def vqmovun_s16 (a : int16x8_t) : C uint8x8_t := do
  let r : Arr .u8 8 := Arr.undef
  let r ← cfor 0 8 1 r fun i r => do
    let r ←
      if Val.lt (← a.get i) (vint 0) then do
        let r ← r.set i (vint 0)
        pure r
      else do
        let r ←
          if Val.gt (← a.get i) (vint 255) then do
            let r ← r.set i (vint 255)
            pure r
          else do
            let r ← r.set i (← a.get i)
            pure r
        pure r
    pure r
  r.ret

/-- `neon_sim.cpp:4733-4741`: `uint8x8_t vqtbl1_u8(uint8x16_t t, uint8x8_t idx)` -/
def vqtbl1_u8 (t : uint8x16_t) (idx : uint8x8_t) : C uint8x8_t := do
  let r : Arr .u8 8 := Arr.undef
  let r ← cfor 0 8 1 r fun i r => do
    let r ← r.set i (← t.get (← idx.get i).idx)
    pure r
  r.ret

/-- `neon_sim.cpp:4744-4762`: `uint8x8_t vext_u8(uint8x8_t a, uint8x8_t b, const int n)` -/
def vext_u8 (a b : uint8x8_t) (n : Int) : C uint8x8_t := do
  let r : Arr .u8 8 := Arr.undef
  let len : Int := 8
  if (n > 8 ∨ n < 0) then .abort "vext_u8: param n is not in range [0, 8]\n" else do
    let r ← cfor 0 (len - n) 1 r fun i r => do
      let r ← r.set i (← a.get (i + n))
      pure r
    let r ← cfor 0 n 1 r fun i r => do
      let r ← r.set ((i + len) - n) (← b.get i)
      pure r
    r.ret

/-- `neon_sim.cpp:4764-4782`: `uint16x4_t vext_u16(uint16x4_t a, uint16x4_t b, const int n)` -/
def vext_u16 (a b : uint16x4_t) (n : Int) : C uint16x4_t := do
  let r : Arr .u16 4 := Arr.undef
  let len : Int := 4
  if (n > 3 ∨ n < 0) then .abort "vext_u16: param n is not in range [0, 4]\n" else do
    let r ← cfor 0 (len - n) 1 r fun i r => do
      let r ← r.set i (← a.get (i + n))
      pure r
    let r ← cfor 0 n 1 r fun i r => do
      let r ← r.set ((i + len) - n) (← b.get i)
      pure r
    r.ret

/-- `neon_sim.cpp:4784-4802`: `int16x4_t vext_s16(int16x4_t a, int16x4_t b, const int n)` -/
def vext_s16 (a b : int16x4_t) (n : Int) : C int16x4_t := do
  let r : Arr .s16 4 := Arr.undef
  let len : Int := 4
  if (n > 3 ∨ n < 0) then .abort "vext_s16: param n is not in range [0, 4]\n" else do
    let r ← cfor 0 (len - n) 1 r fun i r => do
      let r ← r.set i (← a.get (i + n))
      pure r
    let r ← cfor 0 n 1 r fun i r => do
      let r ← r.set ((i + len) - n) (← b.get i)
      pure r
    r.ret

/-- `neon_sim.cpp:4805-4823`: `uint16x8_t vextq_u16(uint16x8_t a, uint16x8_t b, const int n)` -/
def vextq_u16 (a b : uint16x8_t) (n : Int) : C uint16x8_t := do
  let r : Arr .u16 8 := Arr.undef
  let len : Int := 8
  if (n > 8 ∨ n < 0) then .abort "vextq_u16: param n is not in range [0, 8]\n" else do
    let r ← cfor 0 (len - n) 1 r fun i r => do
      let r ← r.set i (← a.get (i + n))
      pure r
    let r ← cfor 0 n 1 r fun i r => do
      let r ← r.set ((i + len) - n) (← b.get i)
      pure r
    r.ret

end Verif.Model
