import Verif.Model.Add
import Verif.Model.Sub
import Verif.Model.Mul
import Verif.Model.Move
import Verif.Model.Convert
import Verif.Model.Perm
import Verif.Model.Rest
import Verif.Model.Logic
import Verif.Model.Shift
import Verif.Model.Load
import Verif.Model.Store
import Verif.Model.Recip

/-! The tests of the repository (`tests/test_*.cpp`) run on the model.

These examples are not proofs of any property: they check that the model gives the results that the authors of the
code expect of it.  `almostEqual` with its default tolerance 0 is bitwise equality here (no test has a NaN or a
signed zero).  Generated by `tools/gen_conf.py`. -/

namespace Verif.Conformance
open Verif.Model

/-- Standard C++11 overflow rules. -/
local instance : Dialect := ⟨false⟩

/-- A register from the list of its lanes. -/
def vec {e n} (l : List Int) : Vec e n := ⟨fun i => BitVec.ofInt _ (l.getD i 0)⟩
/-- A pointer to the start of an array. -/
def arr {e} (l : List Int) : Ptr e := ⟨l.map fun v => some (BitVec.ofInt _ v), 0⟩
def same {e n} (a b : Vec e n) : Bool := (List.finRange n).all fun i => a.lane i == b.lane i
def same2 {e n k} (a b : VecArr e n k) : Bool := (List.finRange k).all fun j => same (a.reg j) (b.reg j)
def pass : C Bool → Bool
  | .ok b => b
  | _ => false

/-- `tests/test_array.cpp`: `TEST(array, lane)` -/
example : pass (do
    let v0 : float32x4_t := vec [0x3f800000, 0x40000000, 0x40400000, 0x40800000]
    let v1 : float32x4_t := vec [0x40a00000, 0x40c00000, 0x40e00000, 0x41000000]
    let v2 : float32x4_t := vec [0x41100000, 0x41200000, 0x41300000, 0x41400000]
    let v3 : float32x4_t := vec [0x41500000, 0x41600000, 0x41700000, 0x41800000]
    let ary : float32x4x4_t := ⟨fun j => [v0, v1, v2, v3].getD j v0⟩
    let actual := (ary.reg 2)
    let expected : float32x4_t := vec [0x41100000, 0x41200000, 0x41300000, 0x41400000]
    pure (same expected actual)) = true := by decide +kernel

/-- `tests/test_compare.cpp`: `TEST(vcltq, f32)` -/
example : pass (do
    let v1 : float32x4_t := vec [0x3f800000, 0x00000000, 0x3f800000, 0x00000000]
    let v2 : float32x4_t := vec [0x00000000, 0x3f800000, 0x3f800000, 0x00000000]
    let mask ← vcltq_f32 v1 v2
    let ones ← vmovq_n_f32 0x41200000#32
    let twos ← vmovq_n_f32 0x41a00000#32
    let actual ← vbslq_f32 mask ones twos
    let expected : float32x4_t := vec [0x41a00000, 0x41200000, 0x41a00000, 0x41a00000]
    pure (same expected actual)) = true := by decide +kernel

/-- `tests/test_vadd.cpp`: `TEST(vaddq, f32)` -/
example : pass (do
    let v1 : float32x4_t := vec [0x3f800000, 0x40000000, 0x40400000, 0x40800000]
    let v2 : float32x4_t := vec [0x3f800000, 0x3f800000, 0x3f800000, 0x3f800000]
    let actual ← vaddq_f32 v1 v2
    let expected : float32x4_t := vec [0x40000000, 0x40400000, 0x40800000, 0x40a00000]
    pure (same expected actual)) = true := by decide +kernel

/-- `tests/test_vadd.cpp`: `TEST(vadd, s8)`, part 1 -/
example : pass (do
    let v1 : int8x8_t := vec [1, 2, 3, 4, 5, 6, 7, 8]
    let v2 : int8x8_t := vec [1, 2, 3, 4, 5, 6, 7, 8]
    let expected : int8x8_t := vec [2, 4, 6, 8, 10, 12, 14, 16]
    let actual ← vadd_s8 v1 v2
    pure (same expected actual)) = true := by decide +kernel

/-- `tests/test_vadd.cpp`: `TEST(vadd, s8)`, part 2 -/
example : pass (do
    let v1 : int8x8_t := vec [1, 2, 3, 4, 5, 6, 7, 8]
    let v2 : int8x8_t := vec [10, 20, 30, 40, 50, 60, 70, 127]
    let actual ← vadd_s8 v1 v2
    let expected : int8x8_t := vec [11, 22, 33, 44, 55, 66, 77, (-121)]
    pure (same expected actual)) = true := by decide +kernel

/-- `tests/test_vadd.cpp`: `TEST(vadd, s8_exceed)` -/
example : pass (do
    let v1 : int8x8_t := vec [120, 121, 122, 123, 124, 125, 126, 127]
    let v2 : int8x8_t := vec [100, 100, 100, 100, 100, 100, 100, 100]
    let expected : int8x8_t := vec [(-36), (-35), (-34), (-33), (-32), (-31), (-30), (-29)]
    let actual ← vadd_s8 v1 v2
    pure (same expected actual)) = true := by decide +kernel

/-- `tests/test_vadd.cpp`: `TEST(vadd, u8)` -/
example : pass (do
    let v1 : uint8x8_t := vec [0, 1, 2, 3, 4, 5, 6, 7]
    let v2 : uint8x8_t := vec [8, 9, 10, 11, 12, 13, 14, 15]
    let expected : uint8x8_t := vec [8, 10, 12, 14, 16, 18, 20, 22]
    let actual ← vadd_u8 v1 v2
    pure (same expected actual)) = true := by decide +kernel

/-- `tests/test_vaddhn.cpp`: `TEST(vaddhn_high_s16, normal)` -/
example : pass (do
    let r : int8x8_t := vec [0, 1, 2, 3, 4, 5, 6, 7]
    let a : int16x8_t := vec [32000, 32001, 32002, 32003, 32004, 32005, 32006, 32007]
    let b : int16x8_t := vec [1, 2, 3, 4, 5, 6, 7, 8]
    let expected : int8x16_t := vec [0, 1, 2, 3, 4, 5, 6, 7, 125, 125, 125, 125, 125, 125, 125, 125]
    let actual ← vaddhn_high_s16 r a b
    pure (same expected actual)) = true := by decide +kernel

/-- `tests/test_vaddl.cpp`: `TEST(vaddl, u8)` -/
example : pass (do
    let v1 : uint8x8_t := vec [240, 241, 242, 243, 244, 245, 246, 247]
    let v2 : uint8x8_t := vec [100, 100, 100, 100, 100, 100, 100, 100]
    let expected : uint16x8_t := vec [340, 341, 342, 343, 344, 345, 346, 347]
    let actual ← vaddl_u8 v1 v2
    pure (same expected actual)) = true := by decide +kernel

/-- `tests/test_vaddl.cpp`: `TEST(vaddl_high, s8)` -/
example : pass (do
    let v1 : int8x16_t := vec [0, 1, 2, 3, 4, 5, 6, 7, 100, 101, 102, 103, 104, 105, 106, 107]
    let v2 : int8x16_t := vec [0, 1, 2, 3, 4, 5, 6, 7, 100, 100, 100, 100, 100, 100, 100, 100]
    let expected : int16x8_t := vec [200, 201, 202, 203, 204, 205, 206, 207]
    let actual ← vaddl_high_s8 v1 v2
    pure (same expected actual)) = true := by decide +kernel

/-- `tests/test_vaddw.cpp`: `TEST(vaddw_high, s8)` -/
example : pass (do
    let v1 : int16x8_t := vec [0, 1, 2, 3, 4, 5, 6, 7]
    let v2 : int8x16_t := vec [0, 1, 2, 3, 4, 5, 6, 7, 8, 9, 10, 11, 12, 13, 14, 15]
    let expected : int16x8_t := vec [8, 10, 12, 14, 16, 18, 20, 22]
    let actual ← vaddw_high_s8 v1 v2
    pure (same expected actual)) = true := by decide +kernel

/-- `tests/test_vaddw.cpp`: `TEST(vaddw, s8)` -/
example : pass (do
    let v1 ← vdupq_n_s16 (BitVec.ofInt _ (300))
    let v2 : int8x8_t := vec [1, 2, 3, 4, 5, 6, 7, 8]
    let actual ← vaddw_s8 v1 v2
    let expected : int16x8_t := vec [301, 302, 303, 304, 305, 306, 307, 308]
    pure (same expected actual)) = true := by decide +kernel

/-- `tests/test_vand.cpp`: `TEST(vand, u8)` -/
example : pass (do
    let v1 : uint8x8_t := vec [0, 9, 12, 11, 4, 13, 6, 17]
    let v2 : uint8x8_t := vec [8, 11, 10, 3, 12, 5, 14, 15]
    let expected : uint8x8_t := vec [0, 9, 8, 3, 4, 5, 6, 1]
    let actual ← vand_u8 v1 v2
    pure (same expected actual)) = true := by decide +kernel

/-- `tests/test_vext.cpp`: `TEST(vext, u8)`, part 1 -/
example : pass (do
    let src1 : uint8x8_t := vec [1, 2, 3, 4, 5, 6, 7, 8]
    let src2 : uint8x8_t := vec [9, 10, 11, 12, 13, 14, 15, 16]
    let expected : uint8x8_t := vec [4, 5, 6, 7, 8, 9, 10, 11]
    let actual ← vext_u8 src1 src2 (3)
    pure (same expected actual)) = true := by decide +kernel

/-- `tests/test_vext.cpp`: `TEST(vext, u8)`, part 2 -/
example : pass (do
    let s0_data : Ptr .u8 := arr [71, 61, 51, 41, 31, 21, 11, 1]
    let s0 ← vld1_u8 s0_data
    let m ← vdup_n_u8 (BitVec.ofInt _ (0))
    let s1 ← vext_u8 m s0 (7)
    let s2 ← vext_u8 m s0 (6)
    let s3 ← vext_u8 m s0 (5)
    let s4 ← vext_u8 m s0 (4)
    let s5 ← vext_u8 m s0 (3)
    let s6 ← vext_u8 m s0 (2)
    let s7 ← vext_u8 m s0 (1)
    let expected_s1 : uint8x8_t := vec [0, 71, 61, 51, 41, 31, 21, 11]
    let expected_s2 : uint8x8_t := vec [0, 0, 71, 61, 51, 41, 31, 21]
    let expected_s3 : uint8x8_t := vec [0, 0, 0, 71, 61, 51, 41, 31]
    let expected_s4 : uint8x8_t := vec [0, 0, 0, 0, 71, 61, 51, 41]
    let expected_s5 : uint8x8_t := vec [0, 0, 0, 0, 0, 71, 61, 51]
    let expected_s6 : uint8x8_t := vec [0, 0, 0, 0, 0, 0, 71, 61]
    let expected_s7 : uint8x8_t := vec [0, 0, 0, 0, 0, 0, 0, 71]
    pure (same expected_s1 s1 && same expected_s2 s2 && same expected_s3 s3 && same expected_s4 s4 && same expected_s5 s5 && same expected_s6 s6 && same expected_s7 s7)) = true := by decide +kernel

/-- `tests/test_vget.cpp`: `TEST(vget, low_s8)` -/
example : pass (do
    let v1 : int8x16_t := vec [1, 2, 3, 4, 5, 6, 7, 8, 11, 12, 13, 14, 15, 16, 17, 18]
    let actual ← vget_low_s8 v1
    let expected : int8x8_t := vec [1, 2, 3, 4, 5, 6, 7, 8]
    pure (same expected actual)) = true := by decide +kernel

/-- `tests/test_vhsub.cpp`: `TEST(sub, vhsub)` -/
example : pass (do
    let v1 ← vdup_n_s8 (BitVec.ofInt _ (120))
    let v2 : int8x8_t := vec [1, 2, 3, 4, 120, 121, 122, 123]
    let actual ← vhsub_s8 v1 v2
    let expected : int8x8_t := vec [59, 59, 58, 58, 0, (-1), (-1), (-2)]
    pure (same expected actual)) = true := by decide +kernel

/-- `tests/test_vld.cpp`: `TEST(vld1q, f32)` -/
example : pass (do
    let values : Ptr .f32 := arr [0x3f800000, 0x40000000, 0x40400000, 0x40800000, 0x40a00000]
    let actual ← vld1q_f32 values
    let expected : float32x4_t := vec [0x3f800000, 0x40000000, 0x40400000, 0x40800000]
    pure (same expected actual)) = true := by decide +kernel

/-- `tests/test_vld.cpp`: `TEST(vld1q_dup, f32)` -/
example : pass (do
    let val : Ptr .f32 := arr [0x40400000]
    let expected ← vld1q_dup_f32 val
    let actual : float32x4_t := vec [0x40400000, 0x40400000, 0x40400000, 0x40400000]
    pure (same expected actual)) = true := by decide +kernel

/-- `tests/test_vmax_vmin.cpp`: `TEST(vmaxq, f32)` -/
example : pass (do
    let v0 : float32x4_t := vec [0x40a00000, 0x40000000, 0x40400000, 0x40800000]
    let v1 : float32x4_t := vec [0x3f800000, 0x40c00000, 0x40e00000, 0x41000000]
    let actual ← vmaxq_f32 v0 v1
    let expected : float32x4_t := vec [0x40a00000, 0x40c00000, 0x40e00000, 0x41000000]
    pure (same expected actual)) = true := by decide +kernel

/-- `tests/test_vmax_vmin.cpp`: `TEST(vpmax, f32)` -/
example : pass (do
    let v0 : float32x4_t := vec [0x3f800000, 0x40000000, 0x40400000, 0x40800000]
    let maxOfHalfs ← vpmax_f32 (← vget_low_f32 v0) (← vget_high_f32 v0)
    let maxOfMaxOfHalfs ← vpmax_f32 maxOfHalfs maxOfHalfs
    let actual ← vget_lane_f32 maxOfMaxOfHalfs (0)
    let expected : BitVec 32 := 0x40800000#32
    pure (expected == actual)) = true := by decide +kernel

/-- `tests/test_vmax_vmin.cpp`: `TEST(vminq, f32)` -/
example : pass (do
    let v0 : float32x4_t := vec [0x40a00000, 0x40000000, 0x40400000, 0x40800000]
    let v1 : float32x4_t := vec [0x3f800000, 0x40c00000, 0x40e00000, 0x41000000]
    let actual ← vminq_f32 v0 v1
    let expected : float32x4_t := vec [0x3f800000, 0x40000000, 0x40400000, 0x40800000]
    pure (same expected actual)) = true := by decide +kernel

/-- `tests/test_vmax_vmin.cpp`: `TEST(vpmin, f32)` -/
example : pass (do
    let v0 : float32x4_t := vec [0x3f800000, 0x40000000, 0x40400000, 0x40800000]
    let minOfHalfs ← vpmin_f32 (← vget_low_f32 v0) (← vget_high_f32 v0)
    let minOfMinOfHalfs ← vpmin_f32 minOfHalfs minOfHalfs
    let expected ← vget_lane_f32 minOfMinOfHalfs (0)
    let actual : BitVec 32 := 0x3f800000#32
    pure (expected == actual)) = true := by decide +kernel

/-- `tests/test_vmla.cpp`: `TEST(vmlaq, f32)` -/
example : pass (do
    let v1 : float32x4_t := vec [0x3f800000, 0x40000000, 0x40400000, 0x40800000]
    let v2 : float32x4_t := vec [0x40000000, 0x40000000, 0x40000000, 0x40000000]
    let v3 : float32x4_t := vec [0x40400000, 0x40400000, 0x40400000, 0x40400000]
    let actual ← vmlaq_f32 v3 v1 v2
    let expected : float32x4_t := vec [0x40a00000, 0x40e00000, 0x41100000, 0x41300000]
    pure (same expected actual)) = true := by decide +kernel

/-- `tests/test_vmla.cpp`: `TEST(vmlaq_n, f32)` -/
example : pass (do
    let v1 : float32x4_t := vec [0x3f800000, 0x40000000, 0x40400000, 0x40800000]
    let v2 : float32x4_t := vec [0x3f800000, 0x3f800000, 0x3f800000, 0x3f800000]
    let s : BitVec 32 := 0x40400000#32
    let actual ← vmlaq_n_f32 v1 v2 s
    let expected : float32x4_t := vec [0x40800000, 0x40a00000, 0x40c00000, 0x40e00000]
    pure (same expected actual)) = true := by decide +kernel

/-- `tests/test_vmov.cpp`: `TEST(vmovq_n, f32)` -/
example : pass (do
    let actual ← vmovq_n_f32 0x3fc00000#32
    let expected : float32x4_t := vec [0x3fc00000, 0x3fc00000, 0x3fc00000, 0x3fc00000]
    pure (same expected actual)) = true := by decide +kernel

/-- `tests/test_vmul.cpp`: `TEST(vmulq, f32)` -/
example : pass (do
    let v1 : float32x4_t := vec [0x3f800000, 0x40000000, 0x40400000, 0x40800000]
    let v2 : float32x4_t := vec [0x3f800000, 0x3f800000, 0x3f800000, 0x3f800000]
    let actual ← vmulq_f32 v1 v2
    let expected : float32x4_t := vec [0x3f800000, 0x40000000, 0x40400000, 0x40800000]
    pure (same expected actual)) = true := by decide +kernel

/-- `tests/test_vmul.cpp`: `TEST(vmulq_n, f32)` -/
example : pass (do
    let v : float32x4_t := vec [0x3f800000, 0x40000000, 0x40400000, 0x40800000]
    let s : BitVec 32 := 0x40400000#32
    let actual ← vmulq_n_f32 v s
    let expected : float32x4_t := vec [0x40400000, 0x40c00000, 0x41100000, 0x41400000]
    pure (same expected actual)) = true := by decide +kernel

/-- `tests/test_vmul.cpp`: `TEST(vmul, s8)` -/
example : pass (do
    let v1 : int8x8_t := vec [1, 2, 3, 4, 5, 6, 7, 8]
    let v2 : int8x8_t := vec [2, 100, (-10), (-100), 2, 3, 4, 5]
    let actual ← vmul_s8 v1 v2
    let expected : int8x8_t := vec [2, (-56), (-30), 112, 10, 18, 28, 40]
    pure (same expected actual)) = true := by decide +kernel

/-- `tests/test_vmul.cpp`: `TEST(mul, vmul_n_s16)` -/
example : pass (do
    let v1 : int16x4_t := vec [1, 2, 3, 4]
    let s : BitVec 16 := 2#16
    let actual ← vmul_n_s16 v1 s
    let expected : int16x4_t := vec [2, 4, 6, 8]
    pure (same expected actual)) = true := by decide +kernel

/-- `tests/test_vqsub.cpp`: `TEST(sub, vqsub)`, part 1 -/
example : pass (do
    let v1 ← vdup_n_u8 (BitVec.ofInt _ (250))
    let v2 : uint8x8_t := vec [1, 2, 3, 4, 251, 252, 253, 254]
    let actual ← vqsub_u8 v1 v2
    let expected : uint8x8_t := vec [249, 248, 247, 246, 0, 0, 0, 0]
    pure (same expected actual)) = true := by decide +kernel

/-- `tests/test_vqsub.cpp`: `TEST(sub, vqsub)`, part 2 -/
example : pass (do
    let v1 ← vdup_n_s8 (BitVec.ofInt _ (120))
    let v2 : int8x8_t := vec [(-11), 2, 3, 4, 121, 122, 123, 124]
    let actual ← vqsub_s8 v1 v2
    let expected : int8x8_t := vec [127, 118, 117, 116, (-1), (-2), (-3), (-4)]
    pure (same expected actual)) = true := by decide +kernel

/-- `tests/test_vrecpe.cpp`: `TEST(vrecpeq, f32)` -/
example : pass (do
    let v : float32x4_t := vec [0x3f800000, 0x40000000, 0x40400000, 0x40800000]
    let actual ← vrecpeq_f32 v
    let expected : float32x4_t := vec [0x3f7f8000, 0x3eff8000, 0x3eaa8000, 0x3e7f8000]
    pure (same expected actual)) = true := by decide +kernel

/-- `tests/test_vrecpe.cpp`: `TEST(vrecpeq, f32_more_precise)` -/
example : pass (do
    let v : float32x4_t := vec [0x3f800000, 0x40000000, 0x40400000, 0x40800000]
    let reciprocal ← vrecpeq_f32 v
    let actual ← vmulq_f32 (← vrecpsq_f32 v reciprocal) reciprocal
    let expected : float32x4_t := vec [0x3f7fffc0, 0x3effffc0, 0x3eaaaaa0, 0x3e7fffc0]
    pure (same expected actual)) = true := by decide +kernel

/-- `tests/test_vrev.cpp`: `TEST(vrev16, u8)` -/
example : pass (do
    let src1 : uint8x8_t := vec [1, 2, 3, 4, 5, 6, 7, 8]
    let actual ← vrev16_u8 src1
    let expected : uint8x8_t := vec [2, 1, 4, 3, 6, 5, 8, 7]
    pure (same expected actual)) = true := by decide +kernel

/-- `tests/test_vrev.cpp`: `TEST(vrev32, u8)` -/
example : pass (do
    let src1 : uint8x8_t := vec [1, 2, 3, 4, 5, 6, 7, 8]
    let actual ← vrev32_u8 src1
    let expected : uint8x8_t := vec [4, 3, 2, 1, 8, 7, 6, 5]
    pure (same expected actual)) = true := by decide +kernel

/-- `tests/test_vrev.cpp`: `TEST(vrev64, u8)` -/
example : pass (do
    let src1 : uint8x8_t := vec [1, 2, 3, 4, 5, 6, 7, 8]
    let actual ← vrev64_u8 src1
    let expected : uint8x8_t := vec [8, 7, 6, 5, 4, 3, 2, 1]
    pure (same expected actual)) = true := by decide +kernel

/-- `tests/test_vrsubhn.cpp`: `TEST(sub, vrsubhn)` -/
example : pass (do
    let v1 ← vdupq_n_s16 (BitVec.ofInt _ (850))
    let v2 : int16x8_t := vec [200, 400, 600, 800, 1000, 1200, 1400, 1600]
    let actual ← vrsubhn_s16 v1 v2
    let expected : int8x8_t := vec [3, 2, 1, 0, (-1), (-1), (-2), (-3)]
    pure (same expected actual)) = true := by decide +kernel

/-- `tests/test_vst.cpp`: `TEST(vst1q, f32)` -/
example : pass (do
    let v : float32x4_t := vec [0x3f800000, 0x40000000, 0x40400000, 0x40800000]
    let actual : Ptr .f32 := arr [0x00000000, 0x00000000, 0x00000000, 0x00000000, 0x00000000]
    let actual ← vst1q_f32 actual v
    let expected : Ptr .f32 := arr [0x3f800000, 0x40000000, 0x40400000, 0x40800000, 0x00000000]
    pure (expected.buf == actual.buf)) = true := by decide +kernel

/-- `tests/test_vst.cpp`: `TEST(vst4q_lane, f32)` -/
example : pass (do
    let v0 : float32x4_t := vec [0x3f800000, 0x40000000, 0x40400000, 0x40800000]
    let v1 : float32x4_t := vec [0x40a00000, 0x40c00000, 0x40e00000, 0x41000000]
    let v2 : float32x4_t := vec [0x41100000, 0x41200000, 0x41300000, 0x41400000]
    let v3 : float32x4_t := vec [0x41500000, 0x41600000, 0x41700000, 0x41800000]
    let u : float32x4x4_t := ⟨fun j => [v0, v1, v2, v3].getD j v0⟩
    let actual : Ptr .f32 := arr [0, 0, 0, 0]
    let actual ← vst4q_lane_f32 actual u 0
    let expected : Ptr .f32 := arr [0x3f800000, 0x40a00000, 0x41100000, 0x41500000]
    pure (expected.buf == actual.buf)) = true := by decide +kernel

/-- `tests/test_vsub.cpp`: `TEST(sub, vsub)` -/
example : pass (do
    let v1 : uint8x8_t := vec [11, 12, 13, 14, 15, 16, 17, 18]
    let v2 ← vdup_n_u8 (BitVec.ofInt _ (10))
    let actual ← vsub_u8 v1 v2
    let expected : uint8x8_t := vec [1, 2, 3, 4, 5, 6, 7, 8]
    pure (same expected actual)) = true := by decide +kernel

/-- `tests/test_vsubhn.cpp`: `TEST(sub, vsubhn)` -/
example : pass (do
    let v1 : int16x8_t := vec [100, 200, 300, 400, 500, 600, 700, 800]
    let v2 : int16x8_t := vec [1, 2, 3, 4, 5, 6, 7, 8]
    let actual ← vsubhn_s16 v1 v2
    let expected : int8x8_t := vec [0, 0, 1, 1, 1, 2, 2, 3]
    pure (same expected actual)) = true := by decide +kernel

/-- `tests/test_vsubl.cpp`: `TEST(sub, vsubl)` -/
example : pass (do
    let v1 ← vdup_n_s8 (BitVec.ofInt _ (127))
    let v2 : int8x8_t := vec [0, 1, 2, 3, (-1), (-2), (-3), (-4)]
    let actual ← vsubl_s8 v1 v2
    let expected : int16x8_t := vec [127, 126, 125, 124, 128, 129, 130, 131]
    pure (same expected actual)) = true := by decide +kernel

/-- `tests/test_vsubw.cpp`: `TEST(sub, vsubw)` -/
example : pass (do
    let v1 : int16x8_t := vec [101, 102, 103, 104, 105, 106, 107, 108]
    let v2 : int8x8_t := vec [1, 2, 3, 4, 5, 6, 7, 8]
    let actual ← vsubw_s8 v1 v2
    let expected : int16x8_t := vec [100, 100, 100, 100, 100, 100, 100, 100]
    pure (same expected actual)) = true := by decide +kernel

/-- `tests/test_vtbl.cpp`: `TEST(vtbl1, u8)` -/
example : pass (do
    let src1 : uint8x8_t := vec [1, 2, 3, 4, 5, 6, 7, 8]
    let src2 : uint8x8_t := vec [0, 0, 1, 1, 2, 2, 7, 8]
    let actual ← vtbl1_u8 src1 src2
    let expected : uint8x8_t := vec [1, 1, 2, 2, 3, 3, 8, 0]
    pure (same expected actual)) = true := by decide +kernel

/-- `tests/test_vtbl.cpp`: `TEST(vtbl2, u8)` -/
example : pass (do
    let src : uint8x8x2_t := ⟨fun j => if j = 0 then vec [1, 2, 3, 4, 5, 6, 7, 8] else vec [9, 10, 11, 12, 13, 14, 15, 16]⟩
    let src2 : uint8x8_t := vec [0, 0, 1, 1, 2, 2, 8, 10]
    let actual ← vtbl2_u8 src src2
    let expected : uint8x8_t := vec [1, 1, 2, 2, 3, 3, 9, 11]
    pure (same expected actual)) = true := by decide +kernel

/-- `tests/test_vtrn.cpp`: `TEST(vtrn, u8)` -/
example : pass (do
    let src : uint8x8x2_t := ⟨fun j => if j = 0 then vec [1, 2, 3, 4, 5, 6, 7, 8] else vec [9, 10, 11, 12, 13, 14, 15, 16]⟩
    let actual ← vtrn_u8 (src.reg 0) (src.reg 1)
    let expected : uint8x8x2_t := ⟨fun j => if j = 0 then vec [1, 9, 3, 11, 5, 13, 7, 15] else vec [2, 10, 4, 12, 6, 14, 8, 16]⟩
    pure (same2 expected actual)) = true := by decide +kernel

/-- `tests/test_vuzp.cpp`: `TEST(vuzp, u8)` -/
example : pass (do
    let src : uint8x8x2_t := ⟨fun j => if j = 0 then vec [1, 2, 3, 4, 5, 6, 7, 8] else vec [9, 10, 11, 12, 13, 14, 15, 16]⟩
    let actual ← vuzp_u8 (src.reg 0) (src.reg 1)
    let expected : uint8x8x2_t := ⟨fun j => if j = 0 then vec [1, 3, 5, 7, 9, 11, 13, 15] else vec [2, 4, 6, 8, 10, 12, 14, 16]⟩
    pure (same2 expected actual)) = true := by decide +kernel

/-- `tests/test_vzip.cpp`: `TEST(vzip, u8)` -/
example : pass (do
    let src : uint8x8x2_t := ⟨fun j => if j = 0 then vec [1, 2, 3, 4, 5, 6, 7, 8] else vec [9, 10, 11, 12, 13, 14, 15, 16]⟩
    let actual ← vzip_u8 (src.reg 0) (src.reg 1)
    let expected : uint8x8x2_t := ⟨fun j => if j = 0 then vec [1, 9, 2, 10, 3, 11, 4, 12] else vec [5, 13, 6, 14, 7, 15, 8, 16]⟩
    pure (same2 expected actual)) = true := by decide +kernel

end Verif.Conformance
