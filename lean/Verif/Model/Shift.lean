import Verif.Types

/-! Generated from `neon_sim.cpp` by `tools/translate.py`. -/

set_option linter.unusedVariables false

namespace Verif.Model

variable [Dialect]

/-- `neon_sim.cpp:3754-3768`: `int8x8_t vshrn_n_s16(int16x8_t a, const int n)` -/
def vshrn_n_s16 (a : int16x8_t) (n : Int) : C int8x8_t := do
  if (n < 1 ∨ n > 8) then .abort "vshrn_n_s16: param n not in range [1, 8]\n" else do
    let r : Arr .s8 8 := Arr.undef
    let r ← cfor 0 8 1 r fun i r => do
      let r ← r.set i (← Val.shr (← a.get i) (vint n))
      pure r
    r.ret

/-- `neon_sim.cpp:3770-3784`: `uint16x4_t vshr_n_u16(uint16x4_t v, const int n)` -/
def vshr_n_u16 (v : uint16x4_t) (n : Int) : C uint16x4_t := do
  if (n < 1 ∨ n > 8) then .abort "vshr_n_u16: param n not in range [1, 8]\n" else do
    let D : Arr .u16 4 := Arr.undef
    let D ← cfor 0 4 1 D fun i D => do
      let D ← D.set i (← Val.shr (← v.get i) (vint n))
      pure D
    D.ret

/-- `neon_sim.cpp:3786-3800`: `int16x4_t vshrn_n_s32(int32x4_t a, const int n)` -/
def vshrn_n_s32 (a : int32x4_t) (n : Int) : C int16x4_t := do
  if (n < 1 ∨ n > 16) then .abort "vshrn_n_s32: param n not in range [1, 8]\n" else do
    let r : Arr .s16 4 := Arr.undef
    let r ← cfor 0 4 1 r fun i r => do
      let r ← r.set i (← Val.shr (← a.get i) (vint n))
      pure r
    r.ret

/-- `neon_sim.cpp:3802-3816`: `int32x2_t vshrn_n_s64(int64x2_t a, const int n)` -/
def vshrn_n_s64 (a : int64x2_t) (n : Int) : C int32x2_t := do
  if (n < 1 ∨ n > 32) then .abort "vshrn_n_s64: param n not in range [1, 8]\n" else do
    let r : Arr .s32 2 := Arr.undef
    let r ← cfor 0 2 1 r fun i r => do
      let r ← r.set i (← Val.shr (← a.get i) (vint n))
      pure r
    r.ret

/-- `neon_sim.cpp:3818-3832`: `uint8x8_t vshrn_n_u16(uint16x8_t a, const int n)` -/
def vshrn_n_u16 (a : uint16x8_t) (n : Int) : C uint8x8_t := do
  if (n < 1 ∨ n > 8) then .abort "vshrn_n_u16: param n not in range [1, 8]\n" else do
    let r : Arr .u8 8 := Arr.undef
    let r ← cfor 0 8 1 r fun i r => do
      let r ← r.set i (← Val.shr (← a.get i) (vint n))
      pure r
    r.ret

/-- `neon_sim.cpp:3834-3848`: `uint16x4_t vshrn_n_u32(uint32x4_t a, const int n)` -/
def vshrn_n_u32 (a : uint32x4_t) (n : Int) : C uint16x4_t := do
  if (n < 1 ∨ n > 16) then .abort "vshrn_n_u32: param n not in range [1, 8]\n" else do
    let r : Arr .u16 4 := Arr.undef
    let r ← cfor 0 4 1 r fun i r => do
      let r ← r.set i (← Val.shr (← a.get i) (vint n))
      pure r
    r.ret

/-- `neon_sim.cpp:3850-3864`: `uint32x2_t vshrn_n_u64(uint64x2_t a, const int n)` -/
def vshrn_n_u64 (a : uint64x2_t) (n : Int) : C uint32x2_t := do
  if (n < 1 ∨ n > 32) then .abort "vshrn_n_u64: param n not in range [1, 8]\n" else do
    let r : Arr .u32 2 := Arr.undef
    let r ← cfor 0 2 1 r fun i r => do
      let r ← r.set i (← Val.shr (← a.get i) (vint n))
      pure r
    r.ret

/-- `neon_sim.cpp:3867-3890`: `uint8x8_t vqshrun_n_s16(int16x8_t v, const int n)` -/
def vqshrun_n_s16 (v : int16x8_t) (n : Int) : C uint8x8_t := do
  if (n < 1 ∨ n > 8) then .abort "vqshrun_n_s16: param n not in range [1, 8]\n" else do
    let D : Arr .u8 8 := Arr.undef
    let D ← cfor 0 8 1 D fun i D => do
      let temp ← Val.cast .s16 (← Val.shr (← v.get i) (vint n))
      let temp ←
        if Val.gt temp (vint 255) then do
          let temp ← Val.cast .s16 (vint 255)
          pure temp
        else do
          let temp ←
            if Val.lt temp (vint 0) then do
              let temp ← Val.cast .s16 (vint 0)
              pure temp
            else do
              pure temp
          pure temp
      let D ← D.set i temp
      pure D
    D.ret

/-- `neon_sim.cpp:3892-3913`: `uint16x4_t vqshrun_n_s32(int32x4_t v, const int n)` -/
def vqshrun_n_s32 (v : int32x4_t) (n : Int) : C uint16x4_t := do
  if (n < 1 ∨ n > 16) then .abort "vqshrun_n_s32: param n out of range\n" else do
    let D : Arr .u16 4 := Arr.undef
    let () ← cfor 0 4 1 () fun i () => do
      let temp ← Val.cast .s32 (← Val.shr (← Val.add (← v.get i) (← Val.shl (vint 1) (← Val.sub (vint n) (vint 1)))) (vint n))
      let temp ←
        if Val.gt temp (vint 65535) then do
          let temp ← Val.cast .s32 (vint 65535)
          pure temp
        else do
          let temp ←
            if Val.lt temp (vint 0) then do
              let temp ← Val.cast .s32 (vint 0)
              pure temp
            else do
              pure temp
          pure temp
      pure ()
    D.ret

/-- `neon_sim.cpp:3916-3937`: `uint32x2_t vqshrun_n_s64(int64x2_t v, const int n)` -/
def vqshrun_n_s64 (v : int64x2_t) (n : Int) : C uint32x2_t := do
  if (n < 1 ∨ n > 32) then .abort "vqshrun_n_s64: param n out of range\n" else do
    let D : Arr .u32 2 := Arr.undef
    let () ← cfor 0 2 1 () fun i () => do
      let temp ← Val.cast .s64 (← Val.shr (← Val.add (← v.get i) (← Val.shl (vint 1) (← Val.sub (vint n) (vint 1)))) (vint n))
      let temp ←
        if Val.gt temp (.int .u32 4294967295) then do
          let temp ← Val.cast .s64 (.int .u32 4294967295)
          pure temp
        else do
          let temp ←
            if Val.lt temp (vint 0) then do
              let temp ← Val.cast .s64 (vint 0)
              pure temp
            else do
              pure temp
          pure temp
      pure ()
    D.ret

/-- `neon_sim.cpp:3939-3961`: `uint8x8_t vqrshrun_n_s16(int16x8_t v, const int n)` -/
def vqrshrun_n_s16 (v : int16x8_t) (n : Int) : C uint8x8_t := do
  if (n < 1 ∨ n > 8) then .abort "vqrshrun_n_s16: param n not in range [1, 8]\n" else do
    let D : Arr .u8 8 := Arr.undef
    let D ← cfor 0 8 1 D fun i D => do
      let temp ← Val.cast .s16 (← Val.shr (← Val.add (← v.get i) (← Val.shl (vint 1) (← Val.sub (vint n) (vint 1)))) (vint n))
      let temp ←
        if Val.gt temp (vint 255) then do
          let temp ← Val.cast .s16 (vint 255)
          pure temp
        else do
          let temp ←
            if Val.lt temp (vint 0) then do
              let temp ← Val.cast .s16 (vint 0)
              pure temp
            else do
              pure temp
          pure temp
      let D ← D.set i temp
      pure D
    D.ret

/-- `neon_sim.cpp:3963-3972`: `uint8x8_t vrshrn_n_u16(uint16x8_t a, const int n)` -/
def vrshrn_n_u16 (a : uint16x8_t) (n : Int) : C uint8x8_t := do
  let r : Arr .u8 8 := Arr.undef
  let delta ← Val.cast .s32 (← Val.shl (vint 1) (← Val.sub (vint n) (vint 1)))
  let r ← cfor 0 8 1 r fun i r => do
    let r ← r.set i (← Val.shr (← Val.add (← a.get i) delta) (vint n))
    pure r
  r.ret

/-- `neon_sim.cpp:3974-3982`: `int32x4_t vsraq_n_s32(int32x4_t a, int32x4_t b, const int n)` -/
def vsraq_n_s32 (a b : int32x4_t) (n : Int) : C int32x4_t := do
  let r : Arr .s32 4 := Arr.undef
  let r ← cfor 0 4 1 r fun i r => do
    let r ← r.set i (← Val.add (← Val.shr (← a.get i) (vint n)) (← Val.shr (← b.get i) (vint n)))
    pure r
  r.ret

/-- `neon_sim.cpp:3985-3993`: `int32x4_t vshlq_n_s32(int32x4_t M, const int n)` -/
def vshlq_n_s32 (M : int32x4_t) (n : Int) : C int32x4_t := do
  let D : Arr .s32 4 := Arr.undef
  let D ← cfor 0 4 1 D fun i D => do
    let D ← D.set i (← Val.shl (← M.get i) (vint n))
    pure D
  D.ret

/-- `neon_sim.cpp:3995-4003`: `uint16x8_t vshll_n_u8(uint8x8_t a, const int n)` -/
def vshll_n_u8 (a : uint8x8_t) (n : Int) : C uint16x8_t := do
  let r : Arr .u16 8 := Arr.undef
  let r ← cfor 0 8 1 r fun i r => do
    let r ← r.set i (← Val.shl (← Val.cast .u16 (← a.get i)) (vint n))
    pure r
  r.ret

end Verif.Model
