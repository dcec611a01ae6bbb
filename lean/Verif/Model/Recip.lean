import Verif.Types

/-! Reciprocal estimate: written by hand from `neon_sim.cpp:4261-4343`. -/

namespace Verif.Model

variable [Dialect]

/-- `neon_sim.cpp:4261-4284`: `struct float_parts`.  The members `exp_bits`,
`fraction_bits`, `exp_bits_str`, `fraction_bits_str` are not modelled: they are
written by the constructor (in bounds) and never read. -/
structure float_parts where
  sign : Val
  fraction : Val
  exp : Val

/-- `neon_sim.cpp:4286-4291`: `uint32_t RecipEstimate(uint32_t a)` -/
def RecipEstimate (a : Val) : C Val := do
  let a ← Val.cast .u32 (← Val.add (← Val.mul a (vint 2)) (vint 1))
  let b ← Val.cast .u32 (← Val.div (← Val.shl (vint 1) (vint 19)) a)
  Val.cast .u32 (← Val.div (← Val.add b (vint 1)) (vint 2))

/-- `neon_sim.cpp:4303-4323`: `float_parts::float_parts(float v)`.  The loops that
fill the unused bit arrays and strings are not modelled. -/
def float_parts.ofFloat (v : float32_t) : C float_parts := do
  let v_bits : Val := .int .u32 v.toNat
  let sign ← Val.cast .u32 (← Val.and (← Val.shr v_bits (vint 31)) (vint 0x1))
  let fraction ← Val.cast .u32
    (← Val.and v_bits (← Val.sub (← Val.shl (vint 1) (vint 23)) (vint 1)))
  let exp ← Val.cast .u32 (← Val.and (← Val.shr v_bits (vint 23)) (vint 0xff))
  pure ⟨sign, fraction, exp⟩

/-- `neon_sim.cpp:4325-4332`: `float_parts::operator float() const` -/
def float_parts.toFloat (p : float_parts) : C float32_t := do
  let v_bits ← Val.cast .u32
    (← Val.or
      (← Val.or
        (← Val.shl (← Val.and p.sign (vint 0x1)) (vint 31))
        (← Val.and p.fraction (← Val.sub (← Val.shl (vint 1) (vint 23)) (vint 1))))
      (← Val.shl (← Val.and p.exp (vint 0xff)) (vint 23)))
  Val.toBits .u32 v_bits

/-- `neon_sim.cpp:4293-4301`: `float FPRecipEstimate(float operand)` -/
def FPRecipEstimate (operand : float32_t) : C float32_t := do
  let parts ← float_parts.ofFloat operand
  let parts := { parts with exp := ← Val.cast .u32 (← Val.sub (vint 253) parts.exp) }
  let scaled ← Val.cast .u32
    (← Val.or (vint 0x100) (← Val.and (← Val.shr parts.fraction (vint 15)) (vint 0xFF)))
  let estimate ← RecipEstimate scaled
  let parts := { parts with
    fraction := ← Val.cast .u32 (← Val.shl (← Val.and estimate (vint 0xff)) (vint 15)) }
  float_parts.toFloat parts

/-- `neon_sim.cpp:4334-4342`: `float32x4_t vrecpeq_f32(float32x4_t N)` -/
def vrecpeq_f32 (N : float32x4_t) : C float32x4_t := do
  let D : Arr .f32 4 := Arr.undef
  let D ← cfor 0 4 1 D fun i D => do
    let x ← N.get i
    let D ← D.set i (.f32 (← FPRecipEstimate x.toF32))
    pure D
  D.ret

end Verif.Model
