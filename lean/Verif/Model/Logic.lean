import Verif.Types

/-! Generated from `neon_sim.cpp` by `tools/translate.py`. -/

set_option linter.unusedVariables false

namespace Verif.Model

variable [Dialect]

/-- `neon_sim.cpp:4826-4834`: `uint8x16_t vcgtq_u8(uint8x16_t N, uint8x16_t M)` -/
def vcgtq_u8 (N M : uint8x16_t) : C uint8x16_t := do
  let D : Arr .u8 16 := Arr.undef
  let D ← cfor 0 16 1 D fun i D => do
    let D ← D.set i (← if Val.gt (← N.get i) (← M.get i) then do pure (vint 255) else do pure (vint 0))
    pure D
  D.ret

/-- `neon_sim.cpp:4840-4860`: `uint8x16_t vbslq_u8(uint8x16_t mask, uint8x16_t src1, uint8x16_t src2)` -/
def vbslq_u8 (mask src1 src2 : uint8x16_t) : C uint8x16_t := do
  let r : Arr .u8 16 := Arr.undef
  let r ← cfor 0 16 1 r fun i r => do
    let r ← r.set i (vint 0)
    let r ← cfor 0 8 1 r fun j r => do
      let x ← Val.cast .u8 (← Val.shl (vint 1) (← Val.sub (← Val.sub (vint 8) (vint 1)) (vint j)))
      let r ←
        if Val.eq (← Val.and (← mask.get i) x) x then do
          let r ← r.set i (← Val.add (← r.get i) (← Val.and (← src1.get i) x))
          pure r
        else do
          let r ← r.set i (← Val.add (← r.get i) (← Val.and (← src2.get i) x))
          pure r
      pure r
    pure r
  r.ret

/-- `neon_sim.cpp:4863-4879`: `uint8x8_t vtbl1_u8(uint8x8_t a, uint8x8_t idx)` -/
def vtbl1_u8 (a idx : uint8x8_t) : C uint8x8_t := do
  let r : Arr .u8 8 := Arr.undef
  let r ← cfor 0 8 1 r fun i r => do
    let index ← Val.cast .s32 (← idx.get i)
    let r ←
      if (← cOr (do pure (Val.lt index (vint 0))) (do pure (Val.gt index (vint 7)))) then do
        let r ← r.set i (vint 0)
        pure r
      else do
        let r ← r.set i (← a.get index.idx)
        pure r
    pure r
  r.ret

/-- `neon_sim.cpp:4882-4910`: `uint8x8_t vtbl4_u8(uint8x8x4_t a, uint8x8_t idx)` -/
def vtbl4_u8 (a : uint8x8x4_t) (idx : uint8x8_t) : C uint8x8_t := do
  let r : Arr .u8 8 := Arr.undef
  let r ← cfor 0 8 1 r fun i r => do
    let index ← Val.cast .s32 (← idx.get i)
    let r ←
      if (← cOr (do pure (Val.lt index (vint 0))) (do pure (Val.gt index (vint 31)))) then do
        let r ← r.set i (vint 0)
        pure r
      else do
        let r ←
          if Val.lt index (vint 8) then do
            let r ← r.set i (← a.get 0 index.idx)
            pure r
          else do
            let r ←
              if Val.lt index (vint 16) then do
                let r ← r.set i (← a.get 1 (index.idx - 8))
                pure r
              else do
                let r ←
                  if Val.lt index (vint 24) then do
                    let r ← r.set i (← a.get 2 (index.idx - 16))
                    pure r
                  else do
                    let r ← r.set i (← a.get 3 (index.idx - 24))
                    pure r
                pure r
            pure r
        pure r
    pure r
  r.ret

/-- `neon_sim.cpp:4913-4933`: `uint8x8_t vtbl2_u8(uint8x8x2_t a, uint8x8_t idx)` -/
def vtbl2_u8 (a : uint8x8x2_t) (idx : uint8x8_t) : C uint8x8_t := do
  let r : Arr .u8 8 := Arr.undef
  let r ← cfor 0 8 1 r fun i r => do
    let index ← Val.cast .s32 (← idx.get i)
    let r ←
      if (← cOr (do pure (Val.lt index (vint 0))) (do pure (Val.gt index (vint 15)))) then do
        let r ← r.set i (vint 0)
        pure r
      else do
        let r ←
          if Val.lt index (vint 8) then do
            let r ← r.set i (← a.get 0 index.idx)
            pure r
          else do
            let r ← r.set i (← a.get 1 (index.idx - 8))
            pure r
        pure r
    pure r
  r.ret

/-- `neon_sim.cpp:4936-4944`: `int8x8_t vand_s8(int8x8_t a, int8x8_t b)` -/
def vand_s8 (a b : int8x8_t) : C int8x8_t := do
  let r : Arr .s8 8 := Arr.undef
  let r ← cfor 0 8 1 r fun i r => do
    let r ← r.set i (← Val.and (← a.get i) (← b.get i))
    pure r
  r.ret

/-- `neon_sim.cpp:4946-4954`: `int16x4_t vand_s16(int16x4_t a, int16x4_t b)` -/
def vand_s16 (a b : int16x4_t) : C int16x4_t := do
  let r : Arr .s16 4 := Arr.undef
  let r ← cfor 0 4 1 r fun i r => do
    let r ← r.set i (← Val.and (← a.get i) (← b.get i))
    pure r
  r.ret

/-- `neon_sim.cpp:4956-4964`: `int32x2_t vand_s32(int32x2_t a, int32x2_t b)` -/
def vand_s32 (a b : int32x2_t) : C int32x2_t := do
  let r : Arr .s32 2 := Arr.undef
  let r ← cfor 0 2 1 r fun i r => do
    let r ← r.set i (← Val.and (← a.get i) (← b.get i))
    pure r
  r.ret

/-- `neon_sim.cpp:4966-4974`: `int64x1_t vand_s64(int64x1_t a, int64x1_t b)` -/
def vand_s64 (a b : int64x1_t) : C int64x1_t := do
  let r : Arr .s64 1 := Arr.undef
  let r ← cfor 0 1 1 r fun i r => do
    let r ← r.set i (← Val.and (← a.get i) (← b.get i))
    pure r
  r.ret

/-- `neon_sim.cpp:4976-4984`: `uint8x8_t vand_u8(uint8x8_t a, uint8x8_t b)` -/
def vand_u8 (a b : uint8x8_t) : C uint8x8_t := do
  let r : Arr .u8 8 := Arr.undef
  let r ← cfor 0 8 1 r fun i r => do
    let r ← r.set i (← Val.and (← a.get i) (← b.get i))
    pure r
  r.ret

/-- `neon_sim.cpp:4986-4994`: `uint16x4_t vand_u16(uint16x4_t a, uint16x4_t b)` -/
def vand_u16 (a b : uint16x4_t) : C uint16x4_t := do
  let r : Arr .u16 4 := Arr.undef
  let r ← cfor 0 4 1 r fun i r => do
    let r ← r.set i (← Val.and (← a.get i) (← b.get i))
    pure r
  r.ret

/-- `neon_sim.cpp:4996-5004`: `uint32x2_t vand_u32(uint32x2_t a, uint32x2_t b)` -/
def vand_u32 (a b : uint32x2_t) : C uint32x2_t := do
  let r : Arr .u32 2 := Arr.undef
  let r ← cfor 0 2 1 r fun i r => do
    let r ← r.set i (← Val.and (← a.get i) (← b.get i))
    pure r
  r.ret

/-- `neon_sim.cpp:5006-5014`: `uint64x1_t vand_u64(uint64x1_t a, uint64x1_t b)` -/
def vand_u64 (a b : uint64x1_t) : C uint64x1_t := do
  let r : Arr .u64 1 := Arr.undef
  let r ← cfor 0 1 1 r fun i r => do
    let r ← r.set i (← Val.and (← a.get i) (← b.get i))
    pure r
  r.ret

/-- `neon_sim.cpp:5017-5025`: `int8x16_t vandq_s8(int8x16_t a, int8x16_t b)` -/
def vandq_s8 (a b : int8x16_t) : C int8x16_t := do
  let r : Arr .s8 16 := Arr.undef
  let r ← cfor 0 16 1 r fun i r => do
    let r ← r.set i (← Val.and (← a.get i) (← b.get i))
    pure r
  r.ret

/-- `neon_sim.cpp:5027-5035`: `int16x8_t vandq_s16(int16x8_t a, int16x8_t b)` -/
def vandq_s16 (a b : int16x8_t) : C int16x8_t := do
  let r : Arr .s16 8 := Arr.undef
  let r ← cfor 0 8 1 r fun i r => do
    let r ← r.set i (← Val.and (← a.get i) (← b.get i))
    pure r
  r.ret

/-- `neon_sim.cpp:5037-5045`: `int32x4_t vandq_s32(int32x4_t a, int32x4_t b)` -/
def vandq_s32 (a b : int32x4_t) : C int32x4_t := do
  let r : Arr .s32 4 := Arr.undef
  let r ← cfor 0 4 1 r fun i r => do
    let r ← r.set i (← Val.and (← a.get i) (← b.get i))
    pure r
  r.ret

/-- `neon_sim.cpp:5047-5055`: `int64x2_t vandq_s64(int64x2_t a, int64x2_t b)` -/
def vandq_s64 (a b : int64x2_t) : C int64x2_t := do
  let r : Arr .s64 2 := Arr.undef
  let r ← cfor 0 2 1 r fun i r => do
    let r ← r.set i (← Val.and (← a.get i) (← b.get i))
    pure r
  r.ret

/-- `neon_sim.cpp:5057-5065`: `uint8x16_t vandq_u8(uint8x16_t a, uint8x16_t b)` -/
def vandq_u8 (a b : uint8x16_t) : C uint8x16_t := do
  let r : Arr .u8 16 := Arr.undef
  let r ← cfor 0 16 1 r fun i r => do
    let r ← r.set i (← Val.and (← a.get i) (← b.get i))
    pure r
  r.ret

/-- `neon_sim.cpp:5067-5075`: `uint16x8_t vandq_u16(uint16x8_t a, uint16x8_t b)` -/
def vandq_u16 (a b : uint16x8_t) : C uint16x8_t := do
  let r : Arr .u16 8 := Arr.undef
  let r ← cfor 0 8 1 r fun i r => do
    let r ← r.set i (← Val.and (← a.get i) (← b.get i))
    pure r
  r.ret

/-- `neon_sim.cpp:5077-5085`: `uint32x4_t vandq_u32(uint32x4_t a, uint32x4_t b)` -/
def vandq_u32 (a b : uint32x4_t) : C uint32x4_t := do
  let r : Arr .u32 4 := Arr.undef
  let r ← cfor 0 4 1 r fun i r => do
    let r ← r.set i (← Val.and (← a.get i) (← b.get i))
    pure r
  r.ret

/-- `neon_sim.cpp:5087-5095`: `uint64x2_t vandq_u64(uint64x2_t a, uint64x2_t b)` -/
def vandq_u64 (a b : uint64x2_t) : C uint64x2_t := do
  let r : Arr .u64 2 := Arr.undef
  let r ← cfor 0 2 1 r fun i r => do
    let r ← r.set i (← Val.and (← a.get i) (← b.get i))
    pure r
  r.ret

/-- `neon_sim.cpp:5098-5106`: `int8x8_t vorr_s8(int8x8_t a, int8x8_t b)` -/
def vorr_s8 (a b : int8x8_t) : C int8x8_t := do
  let r : Arr .s8 8 := Arr.undef
  let r ← cfor 0 8 1 r fun i r => do
    let r ← r.set i (← Val.or (← a.get i) (← b.get i))
    pure r
  r.ret

/-- `neon_sim.cpp:5108-5116`: `int16x4_t vorr_s16(int16x4_t a, int16x4_t b)` -/
def vorr_s16 (a b : int16x4_t) : C int16x4_t := do
  let r : Arr .s16 4 := Arr.undef
  let r ← cfor 0 4 1 r fun i r => do
    let r ← r.set i (← Val.or (← a.get i) (← b.get i))
    pure r
  r.ret

/-- `neon_sim.cpp:5118-5126`: `int32x2_t vorr_s32(int32x2_t a, int32x2_t b)` -/
def vorr_s32 (a b : int32x2_t) : C int32x2_t := do
  let r : Arr .s32 2 := Arr.undef
  let r ← cfor 0 2 1 r fun i r => do
    let r ← r.set i (← Val.or (← a.get i) (← b.get i))
    pure r
  r.ret

/-- `neon_sim.cpp:5128-5136`: `int64x1_t vorr_s64(int64x1_t a, int64x1_t b)` -/
def vorr_s64 (a b : int64x1_t) : C int64x1_t := do
  let r : Arr .s64 1 := Arr.undef
  let r ← cfor 0 1 1 r fun i r => do
    let r ← r.set i (← Val.or (← a.get i) (← b.get i))
    pure r
  r.ret

/-- `neon_sim.cpp:5138-5146`: `uint8x8_t vorr_u8(uint8x8_t a, uint8x8_t b)` -/
def vorr_u8 (a b : uint8x8_t) : C uint8x8_t := do
  let r : Arr .u8 8 := Arr.undef
  let r ← cfor 0 8 1 r fun i r => do
    let r ← r.set i (← Val.or (← a.get i) (← b.get i))
    pure r
  r.ret

/-- `neon_sim.cpp:5148-5156`: `uint16x4_t vorr_u16(uint16x4_t a, uint16x4_t b)` -/
def vorr_u16 (a b : uint16x4_t) : C uint16x4_t := do
  let r : Arr .u16 4 := Arr.undef
  let r ← cfor 0 4 1 r fun i r => do
    let r ← r.set i (← Val.or (← a.get i) (← b.get i))
    pure r
  r.ret

/-- `neon_sim.cpp:5158-5166`: `uint32x2_t vorr_u32(uint32x2_t a, uint32x2_t b)` -/
def vorr_u32 (a b : uint32x2_t) : C uint32x2_t := do
  let r : Arr .u32 2 := Arr.undef
  let r ← cfor 0 2 1 r fun i r => do
    let r ← r.set i (← Val.or (← a.get i) (← b.get i))
    pure r
  r.ret

/-- `neon_sim.cpp:5168-5176`: `uint64x1_t vorr_u64(uint64x1_t a, uint64x1_t b)` -/
def vorr_u64 (a b : uint64x1_t) : C uint64x1_t := do
  let r : Arr .u64 1 := Arr.undef
  let r ← cfor 0 1 1 r fun i r => do
    let r ← r.set i (← Val.or (← a.get i) (← b.get i))
    pure r
  r.ret

/-- `neon_sim.cpp:5179-5187`: `int8x16_t vorrq_s8(int8x16_t a, int8x16_t b)` -/
def vorrq_s8 (a b : int8x16_t) : C int8x16_t := do
  let r : Arr .s8 16 := Arr.undef
  let r ← cfor 0 16 1 r fun i r => do
    let r ← r.set i (← Val.or (← a.get i) (← b.get i))
    pure r
  r.ret

/-- `neon_sim.cpp:5189-5197`: `int16x8_t vorrq_s16(int16x8_t a, int16x8_t b)` -/
def vorrq_s16 (a b : int16x8_t) : C int16x8_t := do
  let r : Arr .s16 8 := Arr.undef
  let r ← cfor 0 8 1 r fun i r => do
    let r ← r.set i (← Val.or (← a.get i) (← b.get i))
    pure r
  r.ret

/-- `neon_sim.cpp:5199-5207`: `int32x4_t vorrq_s32(int32x4_t a, int32x4_t b)` -/
def vorrq_s32 (a b : int32x4_t) : C int32x4_t := do
  let r : Arr .s32 4 := Arr.undef
  let r ← cfor 0 4 1 r fun i r => do
    let r ← r.set i (← Val.or (← a.get i) (← b.get i))
    pure r
  r.ret

/-- `neon_sim.cpp:5209-5217`: `int64x2_t vorrq_s64(int64x2_t a, int64x2_t b)` -/
def vorrq_s64 (a b : int64x2_t) : C int64x2_t := do
  let r : Arr .s64 2 := Arr.undef
  let r ← cfor 0 2 1 r fun i r => do
    let r ← r.set i (← Val.or (← a.get i) (← b.get i))
    pure r
  r.ret

/-- `neon_sim.cpp:5219-5227`: `uint8x16_t vorrq_u8(uint8x16_t a, uint8x16_t b)` -/
def vorrq_u8 (a b : uint8x16_t) : C uint8x16_t := do
  let r : Arr .u8 16 := Arr.undef
  let r ← cfor 0 16 1 r fun i r => do
    let r ← r.set i (← Val.or (← a.get i) (← b.get i))
    pure r
  r.ret

/-- `neon_sim.cpp:5229-5237`: `uint16x8_t vorrq_u16(uint16x8_t a, uint16x8_t b)` -/
def vorrq_u16 (a b : uint16x8_t) : C uint16x8_t := do
  let r : Arr .u16 8 := Arr.undef
  let r ← cfor 0 8 1 r fun i r => do
    let r ← r.set i (← Val.or (← a.get i) (← b.get i))
    pure r
  r.ret

/-- `neon_sim.cpp:5239-5247`: `uint32x4_t vorrq_u32(uint32x4_t a, uint32x4_t b)` -/
def vorrq_u32 (a b : uint32x4_t) : C uint32x4_t := do
  let r : Arr .u32 4 := Arr.undef
  let r ← cfor 0 4 1 r fun i r => do
    let r ← r.set i (← Val.or (← a.get i) (← b.get i))
    pure r
  r.ret

/-- `neon_sim.cpp:5249-5257`: `uint64x2_t vorrq_u64(uint64x2_t a, uint64x2_t b)` -/
def vorrq_u64 (a b : uint64x2_t) : C uint64x2_t := do
  let r : Arr .u64 2 := Arr.undef
  let r ← cfor 0 2 1 r fun i r => do
    let r ← r.set i (← Val.or (← a.get i) (← b.get i))
    pure r
  r.ret

/-- `neon_sim.cpp:5260-5268`: `int8x8_t veor_s8(int8x8_t a, int8x8_t b)` -/
def veor_s8 (a b : int8x8_t) : C int8x8_t := do
  let r : Arr .s8 8 := Arr.undef
  let r ← cfor 0 8 1 r fun i r => do
    let r ← r.set i (← Val.xor (← a.get i) (← b.get i))
    pure r
  r.ret

/-- `neon_sim.cpp:5270-5278`: `int16x4_t veor_s16(int16x4_t a, int16x4_t b)` -/
def veor_s16 (a b : int16x4_t) : C int16x4_t := do
  let r : Arr .s16 4 := Arr.undef
  let r ← cfor 0 4 1 r fun i r => do
    let r ← r.set i (← Val.xor (← a.get i) (← b.get i))
    pure r
  r.ret

/-- `neon_sim.cpp:5280-5288`: `int32x2_t veor_s32(int32x2_t a, int32x2_t b)` -/
def veor_s32 (a b : int32x2_t) : C int32x2_t := do
  let r : Arr .s32 2 := Arr.undef
  let r ← cfor 0 2 1 r fun i r => do
    let r ← r.set i (← Val.xor (← a.get i) (← b.get i))
    pure r
  r.ret

/-- `neon_sim.cpp:5290-5298`: `int64x1_t veor_s64(int64x1_t a, int64x1_t b)` -/
def veor_s64 (a b : int64x1_t) : C int64x1_t := do
  let r : Arr .s64 1 := Arr.undef
  let r ← cfor 0 1 1 r fun i r => do
    let r ← r.set i (← Val.xor (← a.get i) (← b.get i))
    pure r
  r.ret

/-- `neon_sim.cpp:5300-5308`: `uint8x8_t veor_u8(uint8x8_t a, uint8x8_t b)` -/
def veor_u8 (a b : uint8x8_t) : C uint8x8_t := do
  let r : Arr .u8 8 := Arr.undef
  let r ← cfor 0 8 1 r fun i r => do
    let r ← r.set i (← Val.xor (← a.get i) (← b.get i))
    pure r
  r.ret

/-- `neon_sim.cpp:5310-5318`: `uint16x4_t veor_u16(uint16x4_t a, uint16x4_t b)` -/
def veor_u16 (a b : uint16x4_t) : C uint16x4_t := do
  let r : Arr .u16 4 := Arr.undef
  let r ← cfor 0 4 1 r fun i r => do
    let r ← r.set i (← Val.xor (← a.get i) (← b.get i))
    pure r
  r.ret

/-- `neon_sim.cpp:5320-5328`: `uint32x2_t ver_u32(uint32x2_t a, uint32x2_t b)` -/
def ver_u32 (a b : uint32x2_t) : C uint32x2_t := do
  let r : Arr .u32 2 := Arr.undef
  let r ← cfor 0 2 1 r fun i r => do
    let r ← r.set i (← Val.xor (← a.get i) (← b.get i))
    pure r
  r.ret

/-- `neon_sim.cpp:5330-5338`: `uint64x1_t veor_u64(uint64x1_t a, uint64x1_t b)` -/
def veor_u64 (a b : uint64x1_t) : C uint64x1_t := do
  let r : Arr .u64 1 := Arr.undef
  let r ← cfor 0 1 1 r fun i r => do
    let r ← r.set i (← Val.xor (← a.get i) (← b.get i))
    pure r
  r.ret

/-- `neon_sim.cpp:5341-5349`: `int8x16_t veorq_s8(int8x16_t a, int8x16_t b)` -/
def veorq_s8 (a b : int8x16_t) : C int8x16_t := do
  let r : Arr .s8 16 := Arr.undef
  let r ← cfor 0 16 1 r fun i r => do
    let r ← r.set i (← Val.xor (← a.get i) (← b.get i))
    pure r
  r.ret

/-- `neon_sim.cpp:5351-5359`: `int16x8_t veorq_s16(int16x8_t a, int16x8_t b)` -/
def veorq_s16 (a b : int16x8_t) : C int16x8_t := do
  let r : Arr .s16 8 := Arr.undef
  let r ← cfor 0 8 1 r fun i r => do
    let r ← r.set i (← Val.xor (← a.get i) (← b.get i))
    pure r
  r.ret

/-- `neon_sim.cpp:5361-5369`: `int32x4_t veorq_s32(int32x4_t a, int32x4_t b)` -/
def veorq_s32 (a b : int32x4_t) : C int32x4_t := do
  let r : Arr .s32 4 := Arr.undef
  let r ← cfor 0 4 1 r fun i r => do
    let r ← r.set i (← Val.xor (← a.get i) (← b.get i))
    pure r
  r.ret

/-- `neon_sim.cpp:5371-5379`: `int64x2_t veorq_s64(int64x2_t a, int64x2_t b)` -/
def veorq_s64 (a b : int64x2_t) : C int64x2_t := do
  let r : Arr .s64 2 := Arr.undef
  let r ← cfor 0 2 1 r fun i r => do
    let r ← r.set i (← Val.xor (← a.get i) (← b.get i))
    pure r
  r.ret

/-- `neon_sim.cpp:5381-5389`: `uint8x16_t veorq_u8(uint8x16_t a, uint8x16_t b)` -/
def veorq_u8 (a b : uint8x16_t) : C uint8x16_t := do
  let r : Arr .u8 16 := Arr.undef
  let r ← cfor 0 16 1 r fun i r => do
    let r ← r.set i (← Val.xor (← a.get i) (← b.get i))
    pure r
  r.ret

/-- `neon_sim.cpp:5391-5399`: `uint16x8_t veorq_u16(uint16x8_t a, uint16x8_t b)` -/
def veorq_u16 (a b : uint16x8_t) : C uint16x8_t := do
  let r : Arr .u16 8 := Arr.undef
  let r ← cfor 0 8 1 r fun i r => do
    let r ← r.set i (← Val.xor (← a.get i) (← b.get i))
    pure r
  r.ret

/-- `neon_sim.cpp:5401-5409`: `uint32x4_t veorq_u32(uint32x4_t a, uint32x4_t b)` -/
def veorq_u32 (a b : uint32x4_t) : C uint32x4_t := do
  let r : Arr .u32 4 := Arr.undef
  let r ← cfor 0 4 1 r fun i r => do
    let r ← r.set i (← Val.xor (← a.get i) (← b.get i))
    pure r
  r.ret

/-- `neon_sim.cpp:5411-5419`: `uint64x2_t veorq_u64(uint64x2_t a, uint64x2_t b)` -/
def veorq_u64 (a b : uint64x2_t) : C uint64x2_t := do
  let r : Arr .u64 2 := Arr.undef
  let r ← cfor 0 2 1 r fun i r => do
    let r ← r.set i (← Val.xor (← a.get i) (← b.get i))
    pure r
  r.ret

/-- `neon_sim.cpp:5422-5430`: `int8x8_t vmvn_s8(int8x8_t a)` -/
def vmvn_s8 (a : int8x8_t) : C int8x8_t := do
  let r : Arr .s8 8 := Arr.undef
  let r ← cfor 0 8 1 r fun i r => do
    let r ← r.set i (← Val.not (← a.get i))
    pure r
  r.ret

/-- `neon_sim.cpp:5432-5440`: `int16x4_t vmvn_s16(int16x4_t a)` -/
def vmvn_s16 (a : int16x4_t) : C int16x4_t := do
  let r : Arr .s16 4 := Arr.undef
  let r ← cfor 0 4 1 r fun i r => do
    let r ← r.set i (← Val.not (← a.get i))
    pure r
  r.ret

/-- `neon_sim.cpp:5442-5450`: `int32x2_t vmvn_s32(int32x2_t a)` -/
def vmvn_s32 (a : int32x2_t) : C int32x2_t := do
  let r : Arr .s32 2 := Arr.undef
  let r ← cfor 0 2 1 r fun i r => do
    let r ← r.set i (← Val.not (← a.get i))
    pure r
  r.ret

/-- `neon_sim.cpp:5452-5460`: `uint8x8_t vmvn_u8(uint8x8_t a)` -/
def vmvn_u8 (a : uint8x8_t) : C uint8x8_t := do
  let r : Arr .u8 8 := Arr.undef
  let r ← cfor 0 8 1 r fun i r => do
    let r ← r.set i (← Val.not (← a.get i))
    pure r
  r.ret

/-- `neon_sim.cpp:5462-5470`: `uint16x4_t vmvn_u16(uint16x4_t a)` -/
def vmvn_u16 (a : uint16x4_t) : C uint16x4_t := do
  let r : Arr .u16 4 := Arr.undef
  let r ← cfor 0 4 1 r fun i r => do
    let r ← r.set i (← Val.not (← a.get i))
    pure r
  r.ret

/-- `neon_sim.cpp:5472-5480`: `uint32x2_t vmvn_u32(uint32x2_t a)` -/
def vmvn_u32 (a : uint32x2_t) : C uint32x2_t := do
  let r : Arr .u32 2 := Arr.undef
  let r ← cfor 0 2 1 r fun i r => do
    let r ← r.set i (← Val.not (← a.get i))
    pure r
  r.ret

/-- `neon_sim.cpp:5483-5491`: `int8x16_t vmvnq_s8(int8x16_t a)` -/
def vmvnq_s8 (a : int8x16_t) : C int8x16_t := do
  let r : Arr .s8 16 := Arr.undef
  let r ← cfor 0 16 1 r fun i r => do
    let r ← r.set i (← Val.not (← a.get i))
    pure r
  r.ret

/-- `neon_sim.cpp:5493-5501`: `int16x8_t vmvnq_s16(int16x8_t a)` -/
def vmvnq_s16 (a : int16x8_t) : C int16x8_t := do
  let r : Arr .s16 8 := Arr.undef
  let r ← cfor 0 8 1 r fun i r => do
    let r ← r.set i (← Val.not (← a.get i))
    pure r
  r.ret

/-- `neon_sim.cpp:5503-5511`: `int32x4_t vmvnq_s32(int32x4_t a)` -/
def vmvnq_s32 (a : int32x4_t) : C int32x4_t := do
  let r : Arr .s32 4 := Arr.undef
  let r ← cfor 0 4 1 r fun i r => do
    let r ← r.set i (← Val.not (← a.get i))
    pure r
  r.ret

/-- `neon_sim.cpp:5513-5521`: `uint8x16_t vmvnq_u8(uint8x16_t a)` -/
def vmvnq_u8 (a : uint8x16_t) : C uint8x16_t := do
  let r : Arr .u8 16 := Arr.undef
  let r ← cfor 0 16 1 r fun i r => do
    let r ← r.set i (← Val.not (← a.get i))
    pure r
  r.ret

/-- `neon_sim.cpp:5523-5531`: `uint16x8_t vmvnq_u16(uint16x8_t a)` -/
def vmvnq_u16 (a : uint16x8_t) : C uint16x8_t := do
  let r : Arr .u16 8 := Arr.undef
  let r ← cfor 0 8 1 r fun i r => do
    let r ← r.set i (← Val.not (← a.get i))
    pure r
  r.ret

/-- `neon_sim.cpp:5533-5541`: `uint32x4_t vmvnq_u32(uint32x4_t a)` -/
def vmvnq_u32 (a : uint32x4_t) : C uint32x4_t := do
  let r : Arr .u32 4 := Arr.undef
  let r ← cfor 0 4 1 r fun i r => do
    let r ← r.set i (← Val.not (← a.get i))
    pure r
  r.ret

end Verif.Model
