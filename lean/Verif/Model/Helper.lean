import Verif.Types

/-!
The stream operators of `tests/neon_helper.hpp`, generated by `tools/gen_helper.py`.

The header is for Arm compilers: there `v_data[i]` is lane `i` of a vector type of the compiler.  Simplification: the
registers are those of the simulator, with the same lanes.  The state of the stream is the text written; the flags are
the default ones (decimal, no field width).  How floats are written is a parameter (`FloatText`).
-/

namespace Verif.Model

/-- The text a stream has been given so far. -/
abbrev Stream := List Char

/-- How the stream writes a `float` and a `double`. -/
class FloatText where
  f32 : BitVec 32 → List Char
  f64 : BitVec 64 → List Char

/-- An integer in decimal. -/
def decimal (v : Int) : List Char :=
  if v < 0 then '-' :: Nat.toDigits 10 v.natAbs else Nat.toDigits 10 v.natAbs

/-- `os << s` for a string literal. -/
def Stream.puts (os : Stream) (s : String) : Stream := os ++ s.toList

/-- `os << std::endl`; that the stream is flushed is not modelled. -/
def Stream.endl (os : Stream) : Stream := os ++ ['\n']

/-- `os << v` for an arithmetic `v`: `signed char` and `unsigned char` are written as characters. -/
def Stream.put [FloatText] (os : Stream) : Val → Stream
  | .int .i8 v | .int .u8 v => os ++ [Char.ofNat (v % 256).toNat]
  | .int _ v => os ++ decimal v
  | .f32 b => os ++ FloatText.f32 b
  | .f64 b => os ++ FloatText.f64 b

variable [FloatText]

/-- `tests/neon_helper.hpp:9-17`: `operator<<(std::ostream& os, const uint8x8_t& v_data)` -/
def put_u8x8 (os : Stream) (v_data : uint8x8_t) : C Stream :=
  cfor 0 8 1 os fun i os => do
    let os := if i > 0 then os.puts ", " else os
    pure (os.put (← Val.cast .s32 (← v_data.get i)))

/-- `tests/neon_helper.hpp:19-27`: `operator<<(std::ostream& os, const uint8x16_t& v_data)` -/
def put_u8x16 (os : Stream) (v_data : uint8x16_t) : C Stream :=
  cfor 0 16 1 os fun i os => do
    let os := if i > 0 then os.puts ", " else os
    pure (os.put (← Val.cast .s32 (← v_data.get i)))

/-- `tests/neon_helper.hpp:30-38`: `operator<<(std::ostream& os, const int8x8_t& v_data)` -/
def put_s8x8 (os : Stream) (v_data : int8x8_t) : C Stream :=
  cfor 0 8 1 os fun i os => do
    let os := if i > 0 then os.puts ", " else os
    pure (os.put (← Val.cast .s32 (← v_data.get i)))

/-- `tests/neon_helper.hpp:40-48`: `operator<<(std::ostream& os, const int8x16_t& v_data)` -/
def put_s8x16 (os : Stream) (v_data : int8x16_t) : C Stream :=
  cfor 0 16 1 os fun i os => do
    let os := if i > 0 then os.puts ", " else os
    pure (os.put (← Val.cast .s32 (← v_data.get i)))

/-- `tests/neon_helper.hpp:51-59`: `operator<<(std::ostream& os, const uint16x4_t& v_data)` -/
def put_u16x4 (os : Stream) (v_data : uint16x4_t) : C Stream :=
  cfor 0 4 1 os fun i os => do
    let os := if i > 0 then os.puts ", " else os
    pure (os.put (← Val.cast .s32 (← v_data.get i)))

/-- `tests/neon_helper.hpp:61-69`: `operator<<(std::ostream& os, const uint16x8_t& v_data)` -/
def put_u16x8 (os : Stream) (v_data : uint16x8_t) : C Stream :=
  cfor 0 8 1 os fun i os => do
    let os := if i > 0 then os.puts ", " else os
    pure (os.put (← Val.cast .s32 (← v_data.get i)))

/-- `tests/neon_helper.hpp:72-80`: `operator<<(std::ostream& os, const int16x4_t& v_data)` -/
def put_s16x4 (os : Stream) (v_data : int16x4_t) : C Stream :=
  cfor 0 4 1 os fun i os => do
    let os := if i > 0 then os.puts ", " else os
    pure (os.put (← v_data.get i))

/-- `tests/neon_helper.hpp:82-90`: `operator<<(std::ostream& os, const int16x8_t& v_data)` -/
def put_s16x8 (os : Stream) (v_data : int16x8_t) : C Stream :=
  cfor 0 8 1 os fun i os => do
    let os := if i > 0 then os.puts ", " else os
    pure (os.put (← v_data.get i))

/-- `tests/neon_helper.hpp:93-101`: `operator<<(std::ostream& os, const uint32x2_t& v_data)` -/
def put_u32x2 (os : Stream) (v_data : uint32x2_t) : C Stream :=
  cfor 0 2 1 os fun i os => do
    let os := if i > 0 then os.puts ", " else os
    pure (os.put (← v_data.get i))

/-- `tests/neon_helper.hpp:103-111`: `operator<<(std::ostream& os, const uint32x4_t& v_data)` -/
def put_u32x4 (os : Stream) (v_data : uint32x4_t) : C Stream :=
  cfor 0 4 1 os fun i os => do
    let os := if i > 0 then os.puts ", " else os
    pure (os.put (← v_data.get i))

/-- `tests/neon_helper.hpp:114-122`: `operator<<(std::ostream& os, const int32x2_t& v_data)` -/
def put_s32x2 (os : Stream) (v_data : int32x2_t) : C Stream :=
  cfor 0 2 1 os fun i os => do
    let os := if i > 0 then os.puts ", " else os
    pure (os.put (← v_data.get i))

/-- `tests/neon_helper.hpp:124-132`: `operator<<(std::ostream& os, const int32x4_t& v_data)` -/
def put_s32x4 (os : Stream) (v_data : int32x4_t) : C Stream :=
  cfor 0 4 1 os fun i os => do
    let os := if i > 0 then os.puts ", " else os
    pure (os.put (← v_data.get i))

/-- `tests/neon_helper.hpp:135-143`: `operator<<(std::ostream& os, const float32x2_t& v_data)` -/
def put_f32x2 (os : Stream) (v_data : float32x2_t) : C Stream :=
  cfor 0 2 1 os fun i os => do
    let os := if i > 0 then os.puts ", " else os
    pure (os.put (← v_data.get i))

/-- `tests/neon_helper.hpp:145-153`: `operator<<(std::ostream& os, const float32x4_t& v_data)` -/
def put_f32x4 (os : Stream) (v_data : float32x4_t) : C Stream :=
  cfor 0 4 1 os fun i os => do
    let os := if i > 0 then os.puts ", " else os
    pure (os.put (← v_data.get i))

/-- `tests/neon_helper.hpp:156-164`: `operator<<(std::ostream& os, const uint64x1_t& v_data)` -/
def put_u64x1 (os : Stream) (v_data : uint64x1_t) : C Stream :=
  cfor 0 1 1 os fun i os => do
    let os := if i > 0 then os.puts ", " else os
    pure (os.put (← v_data.get i))

/-- `tests/neon_helper.hpp:166-174`: `operator<<(std::ostream& os, const uint64x2_t& v_data)` -/
def put_u64x2 (os : Stream) (v_data : uint64x2_t) : C Stream :=
  cfor 0 2 1 os fun i os => do
    let os := if i > 0 then os.puts ", " else os
    pure (os.put (← v_data.get i))

/-- `tests/neon_helper.hpp:177-185`: `operator<<(std::ostream& os, const int64x1_t& v_data)` -/
def put_s64x1 (os : Stream) (v_data : int64x1_t) : C Stream :=
  cfor 0 1 1 os fun i os => do
    let os := if i > 0 then os.puts ", " else os
    pure (os.put (← v_data.get i))

/-- `tests/neon_helper.hpp:187-195`: `operator<<(std::ostream& os, const int64x2_t& v_data)` -/
def put_s64x2 (os : Stream) (v_data : int64x2_t) : C Stream :=
  cfor 0 2 1 os fun i os => do
    let os := if i > 0 then os.puts ", " else os
    pure (os.put (← v_data.get i))

/-- `tests/neon_helper.hpp:198-206`: `operator<<(std::ostream& os, const float64x1_t& v_data)` -/
def put_f64x1 (os : Stream) (v_data : float64x1_t) : C Stream :=
  cfor 0 1 1 os fun i os => do
    let os := if i > 0 then os.puts ", " else os
    pure (os.put (← v_data.get i))

/-- `tests/neon_helper.hpp:208-216`: `operator<<(std::ostream& os, const float64x2_t& v_data)` -/
def put_f64x2 (os : Stream) (v_data : float64x2_t) : C Stream :=
  cfor 0 2 1 os fun i os => do
    let os := if i > 0 then os.puts ", " else os
    pure (os.put (← v_data.get i))

/-- `tests/neon_helper.hpp:221-225`: `operator<<(std::ostream& os, const uint8x8x2_t& v_data)` -/
def put_u8x8x2 (os : Stream) (v_data : uint8x8x2_t) : C Stream := do
  let os ← put_u8x8 os (v_data.reg 0)
  let os := os.endl
  put_u8x8 os (v_data.reg 1)

/-- `tests/neon_helper.hpp:226-231`: `operator<<(std::ostream& os, const uint8x8x3_t& v_data)` -/
def put_u8x8x3 (os : Stream) (v_data : uint8x8x3_t) : C Stream := do
  let os ← put_u8x8 os (v_data.reg 0)
  let os := os.endl
  let os ← put_u8x8 os (v_data.reg 1)
  let os := os.endl
  put_u8x8 os (v_data.reg 2)

/-- `tests/neon_helper.hpp:232-238`: `operator<<(std::ostream& os, const uint8x8x4_t& v_data)` -/
def put_u8x8x4 (os : Stream) (v_data : uint8x8x4_t) : C Stream := do
  let os ← put_u8x8 os (v_data.reg 0)
  let os := os.endl
  let os ← put_u8x8 os (v_data.reg 1)
  let os := os.endl
  let os ← put_u8x8 os (v_data.reg 2)
  let os := os.endl
  put_u8x8 os (v_data.reg 3)

/-- `tests/neon_helper.hpp:239-243`: `operator<<(std::ostream& os, const uint8x16x2_t& v_data)` -/
def put_u8x16x2 (os : Stream) (v_data : uint8x16x2_t) : C Stream := do
  let os ← put_u8x16 os (v_data.reg 0)
  let os := os.endl
  put_u8x16 os (v_data.reg 1)

/-- `tests/neon_helper.hpp:244-249`: `operator<<(std::ostream& os, const uint8x16x3_t& v_data)` -/
def put_u8x16x3 (os : Stream) (v_data : uint8x16x3_t) : C Stream := do
  let os ← put_u8x16 os (v_data.reg 0)
  let os := os.endl
  let os ← put_u8x16 os (v_data.reg 1)
  let os := os.endl
  put_u8x16 os (v_data.reg 2)

/-- `tests/neon_helper.hpp:250-256`: `operator<<(std::ostream& os, const uint8x16x4_t& v_data)` -/
def put_u8x16x4 (os : Stream) (v_data : uint8x16x4_t) : C Stream := do
  let os ← put_u8x16 os (v_data.reg 0)
  let os := os.endl
  let os ← put_u8x16 os (v_data.reg 1)
  let os := os.endl
  let os ← put_u8x16 os (v_data.reg 2)
  let os := os.endl
  put_u8x16 os (v_data.reg 3)

/-- `tests/neon_helper.hpp:259-263`: `operator<<(std::ostream& os, const int8x8x2_t& v_data)` -/
def put_s8x8x2 (os : Stream) (v_data : int8x8x2_t) : C Stream := do
  let os ← put_s8x8 os (v_data.reg 0)
  let os := os.endl
  put_s8x8 os (v_data.reg 1)

/-- `tests/neon_helper.hpp:265-270`: `operator<<(std::ostream& os, const int8x8x3_t& v_data)` -/
def put_s8x8x3 (os : Stream) (v_data : int8x8x3_t) : C Stream := do
  let os ← put_s8x8 os (v_data.reg 0)
  let os := os.endl
  let os ← put_s8x8 os (v_data.reg 1)
  let os := os.endl
  put_s8x8 os (v_data.reg 2)

/-- `tests/neon_helper.hpp:272-278`: `operator<<(std::ostream& os, const int8x8x4_t& v_data)` -/
def put_s8x8x4 (os : Stream) (v_data : int8x8x4_t) : C Stream := do
  let os ← put_s8x8 os (v_data.reg 0)
  let os := os.endl
  let os ← put_s8x8 os (v_data.reg 1)
  let os := os.endl
  let os ← put_s8x8 os (v_data.reg 2)
  let os := os.endl
  put_s8x8 os (v_data.reg 3)

/-- `tests/neon_helper.hpp:280-284`: `operator<<(std::ostream& os, const int8x16x2_t& v_data)` -/
def put_s8x16x2 (os : Stream) (v_data : int8x16x2_t) : C Stream := do
  let os ← put_s8x16 os (v_data.reg 0)
  let os := os.endl
  put_s8x16 os (v_data.reg 1)

/-- `tests/neon_helper.hpp:286-291`: `operator<<(std::ostream& os, const int8x16x3_t& v_data)` -/
def put_s8x16x3 (os : Stream) (v_data : int8x16x3_t) : C Stream := do
  let os ← put_s8x16 os (v_data.reg 0)
  let os := os.endl
  let os ← put_s8x16 os (v_data.reg 1)
  let os := os.endl
  put_s8x16 os (v_data.reg 2)

/-- `tests/neon_helper.hpp:293-299`: `operator<<(std::ostream& os, const int8x16x4_t& v_data)` -/
def put_s8x16x4 (os : Stream) (v_data : int8x16x4_t) : C Stream := do
  let os ← put_s8x16 os (v_data.reg 0)
  let os := os.endl
  let os ← put_s8x16 os (v_data.reg 1)
  let os := os.endl
  let os ← put_s8x16 os (v_data.reg 2)
  let os := os.endl
  put_s8x16 os (v_data.reg 3)

/-- `tests/neon_helper.hpp:302-306`: `operator<<(std::ostream& os, const uint16x4x2_t& v_data)` -/
def put_u16x4x2 (os : Stream) (v_data : uint16x4x2_t) : C Stream := do
  let os ← put_u16x4 os (v_data.reg 0)
  let os := os.endl
  put_u16x4 os (v_data.reg 1)

/-- `tests/neon_helper.hpp:308-313`: `operator<<(std::ostream& os, const uint16x4x3_t& v_data)` -/
def put_u16x4x3 (os : Stream) (v_data : uint16x4x3_t) : C Stream := do
  let os ← put_u16x4 os (v_data.reg 0)
  let os := os.endl
  let os ← put_u16x4 os (v_data.reg 1)
  let os := os.endl
  put_u16x4 os (v_data.reg 2)

/-- `tests/neon_helper.hpp:315-321`: `operator<<(std::ostream& os, const uint16x4x4_t& v_data)` -/
def put_u16x4x4 (os : Stream) (v_data : uint16x4x4_t) : C Stream := do
  let os ← put_u16x4 os (v_data.reg 0)
  let os := os.endl
  let os ← put_u16x4 os (v_data.reg 1)
  let os := os.endl
  let os ← put_u16x4 os (v_data.reg 2)
  let os := os.endl
  put_u16x4 os (v_data.reg 3)

/-- `tests/neon_helper.hpp:323-327`: `operator<<(std::ostream& os, const uint16x8x2_t& v_data)` -/
def put_u16x8x2 (os : Stream) (v_data : uint16x8x2_t) : C Stream := do
  let os ← put_u16x8 os (v_data.reg 0)
  let os := os.endl
  put_u16x8 os (v_data.reg 1)

/-- `tests/neon_helper.hpp:329-334`: `operator<<(std::ostream& os, const uint16x8x3_t& v_data)` -/
def put_u16x8x3 (os : Stream) (v_data : uint16x8x3_t) : C Stream := do
  let os ← put_u16x8 os (v_data.reg 0)
  let os := os.endl
  let os ← put_u16x8 os (v_data.reg 1)
  let os := os.endl
  put_u16x8 os (v_data.reg 2)

/-- `tests/neon_helper.hpp:336-342`: `operator<<(std::ostream& os, const uint16x8x4_t& v_data)` -/
def put_u16x8x4 (os : Stream) (v_data : uint16x8x4_t) : C Stream := do
  let os ← put_u16x8 os (v_data.reg 0)
  let os := os.endl
  let os ← put_u16x8 os (v_data.reg 1)
  let os := os.endl
  let os ← put_u16x8 os (v_data.reg 2)
  let os := os.endl
  put_u16x8 os (v_data.reg 3)

/-- `tests/neon_helper.hpp:345-349`: `operator<<(std::ostream& os, const int16x4x2_t& v_data)` -/
def put_s16x4x2 (os : Stream) (v_data : int16x4x2_t) : C Stream := do
  let os ← put_s16x4 os (v_data.reg 0)
  let os := os.endl
  put_s16x4 os (v_data.reg 1)

/-- `tests/neon_helper.hpp:351-356`: `operator<<(std::ostream& os, const int16x4x3_t& v_data)` -/
def put_s16x4x3 (os : Stream) (v_data : int16x4x3_t) : C Stream := do
  let os ← put_s16x4 os (v_data.reg 0)
  let os := os.endl
  let os ← put_s16x4 os (v_data.reg 1)
  let os := os.endl
  put_s16x4 os (v_data.reg 2)

/-- `tests/neon_helper.hpp:358-364`: `operator<<(std::ostream& os, const int16x4x4_t& v_data)` -/
def put_s16x4x4 (os : Stream) (v_data : int16x4x4_t) : C Stream := do
  let os ← put_s16x4 os (v_data.reg 0)
  let os := os.endl
  let os ← put_s16x4 os (v_data.reg 1)
  let os := os.endl
  let os ← put_s16x4 os (v_data.reg 2)
  let os := os.endl
  put_s16x4 os (v_data.reg 3)

/-- `tests/neon_helper.hpp:366-370`: `operator<<(std::ostream& os, const int16x8x2_t& v_data)` -/
def put_s16x8x2 (os : Stream) (v_data : int16x8x2_t) : C Stream := do
  let os ← put_s16x8 os (v_data.reg 0)
  let os := os.endl
  put_s16x8 os (v_data.reg 1)

/-- `tests/neon_helper.hpp:372-377`: `operator<<(std::ostream& os, const int16x8x3_t& v_data)` -/
def put_s16x8x3 (os : Stream) (v_data : int16x8x3_t) : C Stream := do
  let os ← put_s16x8 os (v_data.reg 0)
  let os := os.endl
  let os ← put_s16x8 os (v_data.reg 1)
  let os := os.endl
  put_s16x8 os (v_data.reg 2)

/-- `tests/neon_helper.hpp:379-385`: `operator<<(std::ostream& os, const int16x8x4_t& v_data)` -/
def put_s16x8x4 (os : Stream) (v_data : int16x8x4_t) : C Stream := do
  let os ← put_s16x8 os (v_data.reg 0)
  let os := os.endl
  let os ← put_s16x8 os (v_data.reg 1)
  let os := os.endl
  let os ← put_s16x8 os (v_data.reg 2)
  let os := os.endl
  put_s16x8 os (v_data.reg 3)

/-- `tests/neon_helper.hpp:388-392`: `operator<<(std::ostream& os, const uint32x2x2_t& v_data)` -/
def put_u32x2x2 (os : Stream) (v_data : uint32x2x2_t) : C Stream := do
  let os ← put_u32x2 os (v_data.reg 0)
  let os := os.endl
  put_u32x2 os (v_data.reg 1)

/-- `tests/neon_helper.hpp:394-399`: `operator<<(std::ostream& os, const uint32x2x3_t& v_data)` -/
def put_u32x2x3 (os : Stream) (v_data : uint32x2x3_t) : C Stream := do
  let os ← put_u32x2 os (v_data.reg 0)
  let os := os.endl
  let os ← put_u32x2 os (v_data.reg 1)
  let os := os.endl
  put_u32x2 os (v_data.reg 2)

/-- `tests/neon_helper.hpp:401-407`: `operator<<(std::ostream& os, const uint32x2x4_t& v_data)` -/
def put_u32x2x4 (os : Stream) (v_data : uint32x2x4_t) : C Stream := do
  let os ← put_u32x2 os (v_data.reg 0)
  let os := os.endl
  let os ← put_u32x2 os (v_data.reg 1)
  let os := os.endl
  let os ← put_u32x2 os (v_data.reg 2)
  let os := os.endl
  put_u32x2 os (v_data.reg 3)

/-- `tests/neon_helper.hpp:409-413`: `operator<<(std::ostream& os, const uint32x4x2_t& v_data)` -/
def put_u32x4x2 (os : Stream) (v_data : uint32x4x2_t) : C Stream := do
  let os ← put_u32x4 os (v_data.reg 0)
  let os := os.endl
  put_u32x4 os (v_data.reg 1)

/-- `tests/neon_helper.hpp:415-420`: `operator<<(std::ostream& os, const uint32x4x3_t& v_data)` -/
def put_u32x4x3 (os : Stream) (v_data : uint32x4x3_t) : C Stream := do
  let os ← put_u32x4 os (v_data.reg 0)
  let os := os.endl
  let os ← put_u32x4 os (v_data.reg 1)
  let os := os.endl
  put_u32x4 os (v_data.reg 2)

/-- `tests/neon_helper.hpp:422-428`: `operator<<(std::ostream& os, const uint32x4x4_t& v_data)` -/
def put_u32x4x4 (os : Stream) (v_data : uint32x4x4_t) : C Stream := do
  let os ← put_u32x4 os (v_data.reg 0)
  let os := os.endl
  let os ← put_u32x4 os (v_data.reg 1)
  let os := os.endl
  let os ← put_u32x4 os (v_data.reg 2)
  let os := os.endl
  put_u32x4 os (v_data.reg 3)

/-- `tests/neon_helper.hpp:431-435`: `operator<<(std::ostream& os, const int32x2x2_t& v_data)` -/
def put_s32x2x2 (os : Stream) (v_data : int32x2x2_t) : C Stream := do
  let os ← put_s32x2 os (v_data.reg 0)
  let os := os.endl
  put_s32x2 os (v_data.reg 1)

/-- `tests/neon_helper.hpp:437-442`: `operator<<(std::ostream& os, const int32x2x3_t& v_data)` -/
def put_s32x2x3 (os : Stream) (v_data : int32x2x3_t) : C Stream := do
  let os ← put_s32x2 os (v_data.reg 0)
  let os := os.endl
  let os ← put_s32x2 os (v_data.reg 1)
  let os := os.endl
  put_s32x2 os (v_data.reg 2)

/-- `tests/neon_helper.hpp:444-450`: `operator<<(std::ostream& os, const int32x2x4_t& v_data)` -/
def put_s32x2x4 (os : Stream) (v_data : int32x2x4_t) : C Stream := do
  let os ← put_s32x2 os (v_data.reg 0)
  let os := os.endl
  let os ← put_s32x2 os (v_data.reg 1)
  let os := os.endl
  let os ← put_s32x2 os (v_data.reg 2)
  let os := os.endl
  put_s32x2 os (v_data.reg 3)

/-- `tests/neon_helper.hpp:452-456`: `operator<<(std::ostream& os, const int32x4x2_t& v_data)` -/
def put_s32x4x2 (os : Stream) (v_data : int32x4x2_t) : C Stream := do
  let os ← put_s32x4 os (v_data.reg 0)
  let os := os.endl
  put_s32x4 os (v_data.reg 1)

/-- `tests/neon_helper.hpp:458-463`: `operator<<(std::ostream& os, const int32x4x3_t& v_data)` -/
def put_s32x4x3 (os : Stream) (v_data : int32x4x3_t) : C Stream := do
  let os ← put_s32x4 os (v_data.reg 0)
  let os := os.endl
  let os ← put_s32x4 os (v_data.reg 1)
  let os := os.endl
  put_s32x4 os (v_data.reg 2)

/-- `tests/neon_helper.hpp:465-471`: `operator<<(std::ostream& os, const int32x4x4_t& v_data)` -/
def put_s32x4x4 (os : Stream) (v_data : int32x4x4_t) : C Stream := do
  let os ← put_s32x4 os (v_data.reg 0)
  let os := os.endl
  let os ← put_s32x4 os (v_data.reg 1)
  let os := os.endl
  let os ← put_s32x4 os (v_data.reg 2)
  let os := os.endl
  put_s32x4 os (v_data.reg 3)

/-- `tests/neon_helper.hpp:474-478`: `operator<<(std::ostream& os, const float32x2x2_t& v_data)` -/
def put_f32x2x2 (os : Stream) (v_data : float32x2x2_t) : C Stream := do
  let os ← put_f32x2 os (v_data.reg 0)
  let os := os.endl
  put_f32x2 os (v_data.reg 1)

/-- `tests/neon_helper.hpp:480-485`: `operator<<(std::ostream& os, const float32x2x3_t& v_data)` -/
def put_f32x2x3 (os : Stream) (v_data : float32x2x3_t) : C Stream := do
  let os ← put_f32x2 os (v_data.reg 0)
  let os := os.endl
  let os ← put_f32x2 os (v_data.reg 1)
  let os := os.endl
  put_f32x2 os (v_data.reg 2)

/-- `tests/neon_helper.hpp:487-493`: `operator<<(std::ostream& os, const float32x2x4_t& v_data)` -/
def put_f32x2x4 (os : Stream) (v_data : float32x2x4_t) : C Stream := do
  let os ← put_f32x2 os (v_data.reg 0)
  let os := os.endl
  let os ← put_f32x2 os (v_data.reg 1)
  let os := os.endl
  let os ← put_f32x2 os (v_data.reg 2)
  let os := os.endl
  put_f32x2 os (v_data.reg 3)

/-- `tests/neon_helper.hpp:495-499`: `operator<<(std::ostream& os, const float32x4x2_t& v_data)` -/
def put_f32x4x2 (os : Stream) (v_data : float32x4x2_t) : C Stream := do
  let os ← put_f32x4 os (v_data.reg 0)
  let os := os.endl
  put_f32x4 os (v_data.reg 1)

/-- `tests/neon_helper.hpp:501-506`: `operator<<(std::ostream& os, const float32x4x3_t& v_data)` -/
def put_f32x4x3 (os : Stream) (v_data : float32x4x3_t) : C Stream := do
  let os ← put_f32x4 os (v_data.reg 0)
  let os := os.endl
  let os ← put_f32x4 os (v_data.reg 1)
  let os := os.endl
  put_f32x4 os (v_data.reg 2)

/-- `tests/neon_helper.hpp:508-514`: `operator<<(std::ostream& os, const float32x4x4_t& v_data)` -/
def put_f32x4x4 (os : Stream) (v_data : float32x4x4_t) : C Stream := do
  let os ← put_f32x4 os (v_data.reg 0)
  let os := os.endl
  let os ← put_f32x4 os (v_data.reg 1)
  let os := os.endl
  let os ← put_f32x4 os (v_data.reg 2)
  let os := os.endl
  put_f32x4 os (v_data.reg 3)

/-- `tests/neon_helper.hpp:517-521`: `operator<<(std::ostream& os, const uint64x1x2_t& v_data)` -/
def put_u64x1x2 (os : Stream) (v_data : uint64x1x2_t) : C Stream := do
  let os ← put_u64x1 os (v_data.reg 0)
  let os := os.endl
  put_u64x1 os (v_data.reg 1)

/-- `tests/neon_helper.hpp:523-528`: `operator<<(std::ostream& os, const uint64x1x3_t& v_data)` -/
def put_u64x1x3 (os : Stream) (v_data : uint64x1x3_t) : C Stream := do
  let os ← put_u64x1 os (v_data.reg 0)
  let os := os.endl
  let os ← put_u64x1 os (v_data.reg 1)
  let os := os.endl
  put_u64x1 os (v_data.reg 2)

/-- `tests/neon_helper.hpp:530-536`: `operator<<(std::ostream& os, const uint64x1x4_t& v_data)` -/
def put_u64x1x4 (os : Stream) (v_data : uint64x1x4_t) : C Stream := do
  let os ← put_u64x1 os (v_data.reg 0)
  let os := os.endl
  let os ← put_u64x1 os (v_data.reg 1)
  let os := os.endl
  let os ← put_u64x1 os (v_data.reg 2)
  let os := os.endl
  put_u64x1 os (v_data.reg 3)

/-- `tests/neon_helper.hpp:538-542`: `operator<<(std::ostream& os, const uint64x2x2_t& v_data)` -/
def put_u64x2x2 (os : Stream) (v_data : uint64x2x2_t) : C Stream := do
  let os ← put_u64x2 os (v_data.reg 0)
  let os := os.endl
  put_u64x2 os (v_data.reg 1)

/-- `tests/neon_helper.hpp:544-549`: `operator<<(std::ostream& os, const uint64x2x3_t& v_data)` -/
def put_u64x2x3 (os : Stream) (v_data : uint64x2x3_t) : C Stream := do
  let os ← put_u64x2 os (v_data.reg 0)
  let os := os.endl
  let os ← put_u64x2 os (v_data.reg 1)
  let os := os.endl
  put_u64x2 os (v_data.reg 2)

/-- `tests/neon_helper.hpp:551-557`: `operator<<(std::ostream& os, const uint64x2x4_t& v_data)` -/
def put_u64x2x4 (os : Stream) (v_data : uint64x2x4_t) : C Stream := do
  let os ← put_u64x2 os (v_data.reg 0)
  let os := os.endl
  let os ← put_u64x2 os (v_data.reg 1)
  let os := os.endl
  let os ← put_u64x2 os (v_data.reg 2)
  let os := os.endl
  put_u64x2 os (v_data.reg 3)

/-- `tests/neon_helper.hpp:560-564`: `operator<<(std::ostream& os, const int64x1x2_t& v_data)` -/
def put_s64x1x2 (os : Stream) (v_data : int64x1x2_t) : C Stream := do
  let os ← put_s64x1 os (v_data.reg 0)
  let os := os.endl
  put_s64x1 os (v_data.reg 1)

/-- `tests/neon_helper.hpp:566-571`: `operator<<(std::ostream& os, const int64x1x3_t& v_data)` -/
def put_s64x1x3 (os : Stream) (v_data : int64x1x3_t) : C Stream := do
  let os ← put_s64x1 os (v_data.reg 0)
  let os := os.endl
  let os ← put_s64x1 os (v_data.reg 1)
  let os := os.endl
  put_s64x1 os (v_data.reg 2)

/-- `tests/neon_helper.hpp:573-579`: `operator<<(std::ostream& os, const int64x1x4_t& v_data)` -/
def put_s64x1x4 (os : Stream) (v_data : int64x1x4_t) : C Stream := do
  let os ← put_s64x1 os (v_data.reg 0)
  let os := os.endl
  let os ← put_s64x1 os (v_data.reg 1)
  let os := os.endl
  let os ← put_s64x1 os (v_data.reg 2)
  let os := os.endl
  put_s64x1 os (v_data.reg 3)

/-- `tests/neon_helper.hpp:581-585`: `operator<<(std::ostream& os, const int64x2x2_t& v_data)` -/
def put_s64x2x2 (os : Stream) (v_data : int64x2x2_t) : C Stream := do
  let os ← put_s64x2 os (v_data.reg 0)
  let os := os.endl
  put_s64x2 os (v_data.reg 1)

/-- `tests/neon_helper.hpp:587-592`: `operator<<(std::ostream& os, const int64x2x3_t& v_data)` -/
def put_s64x2x3 (os : Stream) (v_data : int64x2x3_t) : C Stream := do
  let os ← put_s64x2 os (v_data.reg 0)
  let os := os.endl
  let os ← put_s64x2 os (v_data.reg 1)
  let os := os.endl
  put_s64x2 os (v_data.reg 2)

/-- `tests/neon_helper.hpp:594-600`: `operator<<(std::ostream& os, const int64x2x4_t& v_data)` -/
def put_s64x2x4 (os : Stream) (v_data : int64x2x4_t) : C Stream := do
  let os ← put_s64x2 os (v_data.reg 0)
  let os := os.endl
  let os ← put_s64x2 os (v_data.reg 1)
  let os := os.endl
  let os ← put_s64x2 os (v_data.reg 2)
  let os := os.endl
  put_s64x2 os (v_data.reg 3)

/-- `tests/neon_helper.hpp:604-608`: `operator<<(std::ostream& os, const float64x1x2_t& v_data)` -/
def put_f64x1x2 (os : Stream) (v_data : float64x1x2_t) : C Stream := do
  let os ← put_f64x1 os (v_data.reg 0)
  let os := os.endl
  put_f64x1 os (v_data.reg 1)

/-- `tests/neon_helper.hpp:610-615`: `operator<<(std::ostream& os, const float64x1x3_t& v_data)` -/
def put_f64x1x3 (os : Stream) (v_data : float64x1x3_t) : C Stream := do
  let os ← put_f64x1 os (v_data.reg 0)
  let os := os.endl
  let os ← put_f64x1 os (v_data.reg 1)
  let os := os.endl
  put_f64x1 os (v_data.reg 2)

/-- `tests/neon_helper.hpp:617-623`: `operator<<(std::ostream& os, const float64x1x4_t& v_data)` -/
def put_f64x1x4 (os : Stream) (v_data : float64x1x4_t) : C Stream := do
  let os ← put_f64x1 os (v_data.reg 0)
  let os := os.endl
  let os ← put_f64x1 os (v_data.reg 1)
  let os := os.endl
  let os ← put_f64x1 os (v_data.reg 2)
  let os := os.endl
  put_f64x1 os (v_data.reg 3)

/-- `tests/neon_helper.hpp:625-629`: `operator<<(std::ostream& os, const float64x2x2_t& v_data)` -/
def put_f64x2x2 (os : Stream) (v_data : float64x2x2_t) : C Stream := do
  let os ← put_f64x2 os (v_data.reg 0)
  let os := os.endl
  put_f64x2 os (v_data.reg 1)

/-- `tests/neon_helper.hpp:631-636`: `operator<<(std::ostream& os, const float64x2x3_t& v_data)` -/
def put_f64x2x3 (os : Stream) (v_data : float64x2x3_t) : C Stream := do
  let os ← put_f64x2 os (v_data.reg 0)
  let os := os.endl
  let os ← put_f64x2 os (v_data.reg 1)
  let os := os.endl
  put_f64x2 os (v_data.reg 2)

/-- `tests/neon_helper.hpp:638-644`: `operator<<(std::ostream& os, const float64x2x4_t& v_data)` -/
def put_f64x2x4 (os : Stream) (v_data : float64x2x4_t) : C Stream := do
  let os ← put_f64x2 os (v_data.reg 0)
  let os := os.endl
  let os ← put_f64x2 os (v_data.reg 1)
  let os := os.endl
  let os ← put_f64x2 os (v_data.reg 2)
  let os := os.endl
  put_f64x2 os (v_data.reg 3)

end Verif.Model
