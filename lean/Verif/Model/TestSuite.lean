import Verif.Model.Add
import Verif.Model.Sub
import Verif.Model.Mul
import Verif.Model.Move
import Verif.Model.Convert
import Verif.Model.Perm
import Verif.Model.Rest
import Verif.Model.Logic
import Verif.Model.Shift
import Verif.Model.Load
import Verif.Model.Store
import Verif.Model.Recip
import Verif.Model.TestUtil
import Verif.Model.UtestCompare

/-! The tests of the repository (`tests/test_*.cpp`) as programs of the model: each calls the intrinsics, compares with `almostEqual`
(`tests/test_util.hpp`) and checks with the macros of `tests/utest.h`.  Generated by `tools/gen_suite.py`.  Simplification: the calls
of `almostEqual` of a test, which change nothing, come before its checks. -/

namespace Verif.TestSuite
open Verif.Model Verif.Utest

/-- A register from the list of its lanes (`tests/test_vadd.cpp:5`). -/
def vec {e n} (l : List Int) : Vec e n := ⟨fun i => BitVec.ofInt _ (l.getD i 0)⟩
/-- A pointer to the start of an array (`tests/test_vld.cpp:5`). -/
def arr {e} (l : List Int) : Ptr e := ⟨l.map fun v => some (BitVec.ofInt _ v), 0⟩
/-- The elements of a `std::vector<float>` (`tests/test_vst.cpp:6`). -/
def elements (p : Ptr .f32) : C (List (BitVec 32)) := p.buf.mapM fun | some b => .ok b | none => .ub .indeterminateRead

/-- `EXPECT_TRUE(almostEqual(...))` at a place of the sources, when `almostEqual` gave `r` (`tests/utest.h:609-619`). -/
def expectTrue (place : String) (r : Option Report) : Stmt Unit := .check false true place.toList fun w => (w, r.isNone)
/-- `EXPECT_EQ(expected, actual)` of two `float`s (`tests/utest.h:633`). -/
def expectEq (place : String) (x y : BitVec 32) : C (Stmt Unit) := do
  .ok (textStmt false place.toList (← COMPARE .eq "expected".toList "actual".toList (.f32 x) (.f32 y)))

variable [Dialect]

/-- `tests/test_array.cpp:3-13`: `TEST(array, lane)` -/
def test_array_lane : C (List (Stmt Unit)) := do
  let v0 : float32x4_t := vec [0x3f800000, 0x40000000, 0x40400000, 0x40800000]
  let v1 : float32x4_t := vec [0x40a00000, 0x40c00000, 0x40e00000, 0x41000000]
  let v2 : float32x4_t := vec [0x41100000, 0x41200000, 0x41300000, 0x41400000]
  let v3 : float32x4_t := vec [0x41500000, 0x41600000, 0x41700000, 0x41800000]
  let ary : float32x4x4_t := ⟨fun j => [v0, v1, v2, v3].getD j v0⟩
  let actual := (ary.reg 2)
  let expected : float32x4_t := vec [0x41100000, 0x41200000, 0x41300000, 0x41400000]
  let c0 := expectTrue "tests/test_array.cpp:12" (← almostEqual_f32x4 expected actual 0#64)
  pure [c0]

/-- `tests/test_compare.cpp:3-13`: `TEST(vcltq, f32)` -/
def test_vcltq_f32 : C (List (Stmt Unit)) := do
  let v1 : float32x4_t := vec [0x3f800000, 0x00000000, 0x3f800000, 0x00000000]
  let v2 : float32x4_t := vec [0x00000000, 0x3f800000, 0x3f800000, 0x00000000]
  let mask ← vcltq_f32 v1 v2
  let ones ← vmovq_n_f32 0x41200000#32
  let twos ← vmovq_n_f32 0x41a00000#32
  let actual ← vbslq_f32 mask ones twos
  let expected : float32x4_t := vec [0x41a00000, 0x41200000, 0x41a00000, 0x41a00000]
  let c0 := expectTrue "tests/test_compare.cpp:12" (← almostEqual_f32x4 expected actual 0#64)
  pure [c0]

/-- `tests/test_vadd.cpp:3-10`: `TEST(vaddq, f32)` -/
def test_vaddq_f32 : C (List (Stmt Unit)) := do
  let v1 : float32x4_t := vec [0x3f800000, 0x40000000, 0x40400000, 0x40800000]
  let v2 : float32x4_t := vec [0x3f800000, 0x3f800000, 0x3f800000, 0x3f800000]
  let actual ← vaddq_f32 v1 v2
  let expected : float32x4_t := vec [0x40000000, 0x40400000, 0x40800000, 0x40a00000]
  let c0 := expectTrue "tests/test_vadd.cpp:9" (← almostEqual_f32x4 expected actual 0#64)
  pure [c0]

/-- `tests/test_vadd.cpp:12-31`: `TEST(vadd, s8)` -/
def test_vadd_s8 : C (List (Stmt Unit)) := do
  let v1 : int8x8_t := vec [1, 2, 3, 4, 5, 6, 7, 8]
  let v2 : int8x8_t := vec [1, 2, 3, 4, 5, 6, 7, 8]
  let expected : int8x8_t := vec [2, 4, 6, 8, 10, 12, 14, 16]
  let actual ← vadd_s8 v1 v2
  let c0 := expectTrue "tests/test_vadd.cpp:19" (← almostEqual_s8x8 expected actual 0#64)
  let v1 : int8x8_t := vec [1, 2, 3, 4, 5, 6, 7, 8]
  let v2 : int8x8_t := vec [10, 20, 30, 40, 50, 60, 70, 127]
  let actual ← vadd_s8 v1 v2
  let expected : int8x8_t := vec [11, 22, 33, 44, 55, 66, 77, (-121)]
  let c1 := expectTrue "tests/test_vadd.cpp:29" (← almostEqual_s8x8 expected actual 0#64)
  pure [c0, c1]

/-- `tests/test_vadd.cpp:33-42`: `TEST(vadd, s8_exceed)` -/
def test_vadd_s8_exceed : C (List (Stmt Unit)) := do
  let v1 : int8x8_t := vec [120, 121, 122, 123, 124, 125, 126, 127]
  let v2 : int8x8_t := vec [100, 100, 100, 100, 100, 100, 100, 100]
  let expected : int8x8_t := vec [(-36), (-35), (-34), (-33), (-32), (-31), (-30), (-29)]
  let actual ← vadd_s8 v1 v2
  let c0 := expectTrue "tests/test_vadd.cpp:41" (← almostEqual_s8x8 expected actual 0#64)
  pure [c0]

/-- `tests/test_vadd.cpp:44-51`: `TEST(vadd, u8)` -/
def test_vadd_u8 : C (List (Stmt Unit)) := do
  let v1 : uint8x8_t := vec [0, 1, 2, 3, 4, 5, 6, 7]
  let v2 : uint8x8_t := vec [8, 9, 10, 11, 12, 13, 14, 15]
  let expected : uint8x8_t := vec [8, 10, 12, 14, 16, 18, 20, 22]
  let actual ← vadd_u8 v1 v2
  let c0 := expectTrue "tests/test_vadd.cpp:50" (← almostEqual_u8x8 expected actual 0#64)
  pure [c0]

/-- `tests/test_vaddhn.cpp:3-11`: `TEST(vaddhn_high_s16, normal)` -/
def test_vaddhn_high_s16_normal : C (List (Stmt Unit)) := do
  let r : int8x8_t := vec [0, 1, 2, 3, 4, 5, 6, 7]
  let a : int16x8_t := vec [32000, 32001, 32002, 32003, 32004, 32005, 32006, 32007]
  let b : int16x8_t := vec [1, 2, 3, 4, 5, 6, 7, 8]
  let expected : int8x16_t := vec [0, 1, 2, 3, 4, 5, 6, 7, 125, 125, 125, 125, 125, 125, 125, 125]
  let actual ← vaddhn_high_s16 r a b
  let c0 := expectTrue "tests/test_vaddhn.cpp:10" (← almostEqual_s8x16 expected actual 0#64)
  pure [c0]

/-- `tests/test_vaddl.cpp:3-10`: `TEST(vaddl, u8)` -/
def test_vaddl_u8 : C (List (Stmt Unit)) := do
  let v1 : uint8x8_t := vec [240, 241, 242, 243, 244, 245, 246, 247]
  let v2 : uint8x8_t := vec [100, 100, 100, 100, 100, 100, 100, 100]
  let expected : uint16x8_t := vec [340, 341, 342, 343, 344, 345, 346, 347]
  let actual ← vaddl_u8 v1 v2
  let c0 := expectTrue "tests/test_vaddl.cpp:9" (← almostEqual_u16x8 expected actual 0#64)
  pure [c0]

/-- `tests/test_vaddl.cpp:12-19`: `TEST(vaddl_high, s8)` -/
def test_vaddl_high_s8 : C (List (Stmt Unit)) := do
  let v1 : int8x16_t := vec [0, 1, 2, 3, 4, 5, 6, 7, 100, 101, 102, 103, 104, 105, 106, 107]
  let v2 : int8x16_t := vec [0, 1, 2, 3, 4, 5, 6, 7, 100, 100, 100, 100, 100, 100, 100, 100]
  let expected : int16x8_t := vec [200, 201, 202, 203, 204, 205, 206, 207]
  let actual ← vaddl_high_s8 v1 v2
  let c0 := expectTrue "tests/test_vaddl.cpp:18" (← almostEqual_s16x8 expected actual 0#64)
  pure [c0]

/-- `tests/test_vaddw.cpp:3-10`: `TEST(vaddw_high, s8)` -/
def test_vaddw_high_s8 : C (List (Stmt Unit)) := do
  let v1 : int16x8_t := vec [0, 1, 2, 3, 4, 5, 6, 7]
  let v2 : int8x16_t := vec [0, 1, 2, 3, 4, 5, 6, 7, 8, 9, 10, 11, 12, 13, 14, 15]
  let expected : int16x8_t := vec [8, 10, 12, 14, 16, 18, 20, 22]
  let actual ← vaddw_high_s8 v1 v2
  let c0 := expectTrue "tests/test_vaddw.cpp:9" (← almostEqual_s16x8 expected actual 0#64)
  pure [c0]

/-- `tests/test_vaddw.cpp:12-21`: `TEST(vaddw, s8)` -/
def test_vaddw_s8 : C (List (Stmt Unit)) := do
  let v1 ← vdupq_n_s16 (BitVec.ofInt _ (300))
  let v2 : int8x8_t := vec [1, 2, 3, 4, 5, 6, 7, 8]
  let actual ← vaddw_s8 v1 v2
  let expected : int16x8_t := vec [301, 302, 303, 304, 305, 306, 307, 308]
  let c0 := expectTrue "tests/test_vaddw.cpp:20" (← almostEqual_s16x8 expected actual 0#64)
  pure [c0]

/-- `tests/test_vand.cpp:3-11`: `TEST(vand, u8)` -/
def test_vand_u8 : C (List (Stmt Unit)) := do
  let v1 : uint8x8_t := vec [0, 9, 12, 11, 4, 13, 6, 17]
  let v2 : uint8x8_t := vec [8, 11, 10, 3, 12, 5, 14, 15]
  let expected : uint8x8_t := vec [0, 9, 8, 3, 4, 5, 6, 1]
  let actual ← vand_u8 v1 v2
  let c0 := expectTrue "tests/test_vand.cpp:10" (← almostEqual_u8x8 expected actual 0#64)
  pure [c0]

/-- `tests/test_vext.cpp:3-42`: `TEST(vext, u8)` -/
def test_vext_u8 : C (List (Stmt Unit)) := do
  let src1 : uint8x8_t := vec [1, 2, 3, 4, 5, 6, 7, 8]
  let src2 : uint8x8_t := vec [9, 10, 11, 12, 13, 14, 15, 16]
  let expected : uint8x8_t := vec [4, 5, 6, 7, 8, 9, 10, 11]
  let actual ← vext_u8 src1 src2 (3)
  let c0 := expectTrue "tests/test_vext.cpp:10" (← almostEqual_u8x8 expected actual 0#64)
  let s0_data : Ptr .u8 := arr [71, 61, 51, 41, 31, 21, 11, 1]
  let s0 ← vld1_u8 s0_data
  let m ← vdup_n_u8 (BitVec.ofInt _ (0))
  let s1 ← vext_u8 m s0 (7)
  let s2 ← vext_u8 m s0 (6)
  let s3 ← vext_u8 m s0 (5)
  let s4 ← vext_u8 m s0 (4)
  let s5 ← vext_u8 m s0 (3)
  let s6 ← vext_u8 m s0 (2)
  let s7 ← vext_u8 m s0 (1)
  let expected_s1 : uint8x8_t := vec [0, 71, 61, 51, 41, 31, 21, 11]
  let expected_s2 : uint8x8_t := vec [0, 0, 71, 61, 51, 41, 31, 21]
  let expected_s3 : uint8x8_t := vec [0, 0, 0, 71, 61, 51, 41, 31]
  let expected_s4 : uint8x8_t := vec [0, 0, 0, 0, 71, 61, 51, 41]
  let expected_s5 : uint8x8_t := vec [0, 0, 0, 0, 0, 71, 61, 51]
  let expected_s6 : uint8x8_t := vec [0, 0, 0, 0, 0, 0, 71, 61]
  let expected_s7 : uint8x8_t := vec [0, 0, 0, 0, 0, 0, 0, 71]
  let c1 := expectTrue "tests/test_vext.cpp:34" (← almostEqual_u8x8 expected_s1 s1 0#64)
  let c2 := expectTrue "tests/test_vext.cpp:35" (← almostEqual_u8x8 expected_s2 s2 0#64)
  let c3 := expectTrue "tests/test_vext.cpp:36" (← almostEqual_u8x8 expected_s3 s3 0#64)
  let c4 := expectTrue "tests/test_vext.cpp:37" (← almostEqual_u8x8 expected_s4 s4 0#64)
  let c5 := expectTrue "tests/test_vext.cpp:38" (← almostEqual_u8x8 expected_s5 s5 0#64)
  let c6 := expectTrue "tests/test_vext.cpp:39" (← almostEqual_u8x8 expected_s6 s6 0#64)
  let c7 := expectTrue "tests/test_vext.cpp:40" (← almostEqual_u8x8 expected_s7 s7 0#64)
  pure [c0, c1, c2, c3, c4, c5, c6, c7]

/-- `tests/test_vget.cpp:3-12`: `TEST(vget, low_s8)` -/
def test_vget_low_s8 : C (List (Stmt Unit)) := do
  let v1 : int8x16_t := vec [1, 2, 3, 4, 5, 6, 7, 8, 11, 12, 13, 14, 15, 16, 17, 18]
  let actual ← vget_low_s8 v1
  let expected : int8x8_t := vec [1, 2, 3, 4, 5, 6, 7, 8]
  let c0 := expectTrue "tests/test_vget.cpp:11" (← almostEqual_s8x8 expected actual 0#64)
  pure [c0]

/-- `tests/test_vhsub.cpp:3-10`: `TEST(sub, vhsub)` -/
def test_sub_vhsub : C (List (Stmt Unit)) := do
  let v1 ← vdup_n_s8 (BitVec.ofInt _ (120))
  let v2 : int8x8_t := vec [1, 2, 3, 4, 120, 121, 122, 123]
  let actual ← vhsub_s8 v1 v2
  let expected : int8x8_t := vec [59, 59, 58, 58, 0, (-1), (-1), (-2)]
  let c0 := expectTrue "tests/test_vhsub.cpp:9" (← almostEqual_s8x8 expected actual 0#64)
  pure [c0]

/-- `tests/test_vld.cpp:3-9`: `TEST(vld1q, f32)` -/
def test_vld1q_f32 : C (List (Stmt Unit)) := do
  let values : Ptr .f32 := arr [0x3f800000, 0x40000000, 0x40400000, 0x40800000, 0x40a00000]
  let actual ← vld1q_f32 values
  let expected : float32x4_t := vec [0x3f800000, 0x40000000, 0x40400000, 0x40800000]
  let c0 := expectTrue "tests/test_vld.cpp:8" (← almostEqual_f32x4 expected actual 0#64)
  pure [c0]

/-- `tests/test_vld.cpp:11-17`: `TEST(vld1q_dup, f32)` -/
def test_vld1q_dup_f32 : C (List (Stmt Unit)) := do
  let val : Ptr .f32 := arr [0x40400000]
  let expected ← vld1q_dup_f32 val
  let actual : float32x4_t := vec [0x40400000, 0x40400000, 0x40400000, 0x40400000]
  let c0 := expectTrue "tests/test_vld.cpp:16" (← almostEqual_f32x4 expected actual 0#64)
  pure [c0]

/-- `tests/test_vmax_vmin.cpp:3-10`: `TEST(vmaxq, f32)` -/
def test_vmaxq_f32 : C (List (Stmt Unit)) := do
  let v0 : float32x4_t := vec [0x40a00000, 0x40000000, 0x40400000, 0x40800000]
  let v1 : float32x4_t := vec [0x3f800000, 0x40c00000, 0x40e00000, 0x41000000]
  let actual ← vmaxq_f32 v0 v1
  let expected : float32x4_t := vec [0x40a00000, 0x40c00000, 0x40e00000, 0x41000000]
  let c0 := expectTrue "tests/test_vmax_vmin.cpp:9" (← almostEqual_f32x4 expected actual 0#64)
  pure [c0]

/-- `tests/test_vmax_vmin.cpp:12-20`: `TEST(vpmax, f32)` -/
def test_vpmax_f32 : C (List (Stmt Unit)) := do
  let v0 : float32x4_t := vec [0x3f800000, 0x40000000, 0x40400000, 0x40800000]
  let maxOfHalfs ← vpmax_f32 (← vget_low_f32 v0) (← vget_high_f32 v0)
  let maxOfMaxOfHalfs ← vpmax_f32 maxOfHalfs maxOfHalfs
  let actual ← vget_lane_f32 maxOfMaxOfHalfs (0)
  let expected : BitVec 32 := 0x40800000#32
  let c0 ← expectEq "tests/test_vmax_vmin.cpp:19" expected actual
  pure [c0]

/-- `tests/test_vmax_vmin.cpp:22-29`: `TEST(vminq, f32)` -/
def test_vminq_f32 : C (List (Stmt Unit)) := do
  let v0 : float32x4_t := vec [0x40a00000, 0x40000000, 0x40400000, 0x40800000]
  let v1 : float32x4_t := vec [0x3f800000, 0x40c00000, 0x40e00000, 0x41000000]
  let actual ← vminq_f32 v0 v1
  let expected : float32x4_t := vec [0x3f800000, 0x40000000, 0x40400000, 0x40800000]
  let c0 := expectTrue "tests/test_vmax_vmin.cpp:28" (← almostEqual_f32x4 expected actual 0#64)
  pure [c0]

/-- `tests/test_vmax_vmin.cpp:31-39`: `TEST(vpmin, f32)` -/
def test_vpmin_f32 : C (List (Stmt Unit)) := do
  let v0 : float32x4_t := vec [0x3f800000, 0x40000000, 0x40400000, 0x40800000]
  let minOfHalfs ← vpmin_f32 (← vget_low_f32 v0) (← vget_high_f32 v0)
  let minOfMinOfHalfs ← vpmin_f32 minOfHalfs minOfHalfs
  let expected ← vget_lane_f32 minOfMinOfHalfs (0)
  let actual : BitVec 32 := 0x3f800000#32
  let c0 ← expectEq "tests/test_vmax_vmin.cpp:38" expected actual
  pure [c0]

/-- `tests/test_vmla.cpp:3-11`: `TEST(vmlaq, f32)` -/
def test_vmlaq_f32 : C (List (Stmt Unit)) := do
  let v1 : float32x4_t := vec [0x3f800000, 0x40000000, 0x40400000, 0x40800000]
  let v2 : float32x4_t := vec [0x40000000, 0x40000000, 0x40000000, 0x40000000]
  let v3 : float32x4_t := vec [0x40400000, 0x40400000, 0x40400000, 0x40400000]
  let actual ← vmlaq_f32 v3 v1 v2
  let expected : float32x4_t := vec [0x40a00000, 0x40e00000, 0x41100000, 0x41300000]
  let c0 := expectTrue "tests/test_vmla.cpp:10" (← almostEqual_f32x4 expected actual 0#64)
  pure [c0]

/-- `tests/test_vmla.cpp:13-21`: `TEST(vmlaq_n, f32)` -/
def test_vmlaq_n_f32 : C (List (Stmt Unit)) := do
  let v1 : float32x4_t := vec [0x3f800000, 0x40000000, 0x40400000, 0x40800000]
  let v2 : float32x4_t := vec [0x3f800000, 0x3f800000, 0x3f800000, 0x3f800000]
  let s : BitVec 32 := 0x40400000#32
  let actual ← vmlaq_n_f32 v1 v2 s
  let expected : float32x4_t := vec [0x40800000, 0x40a00000, 0x40c00000, 0x40e00000]
  let c0 := expectTrue "tests/test_vmla.cpp:20" (← almostEqual_f32x4 expected actual 0#64)
  pure [c0]

/-- `tests/test_vmov.cpp:3-8`: `TEST(vmovq_n, f32)` -/
def test_vmovq_n_f32 : C (List (Stmt Unit)) := do
  let actual ← vmovq_n_f32 0x3fc00000#32
  let expected : float32x4_t := vec [0x3fc00000, 0x3fc00000, 0x3fc00000, 0x3fc00000]
  let c0 := expectTrue "tests/test_vmov.cpp:7" (← almostEqual_f32x4 expected actual 0#64)
  pure [c0]

/-- `tests/test_vmul.cpp:3-10`: `TEST(vmulq, f32)` -/
def test_vmulq_f32 : C (List (Stmt Unit)) := do
  let v1 : float32x4_t := vec [0x3f800000, 0x40000000, 0x40400000, 0x40800000]
  let v2 : float32x4_t := vec [0x3f800000, 0x3f800000, 0x3f800000, 0x3f800000]
  let actual ← vmulq_f32 v1 v2
  let expected : float32x4_t := vec [0x3f800000, 0x40000000, 0x40400000, 0x40800000]
  let c0 := expectTrue "tests/test_vmul.cpp:9" (← almostEqual_f32x4 expected actual 0#64)
  pure [c0]

/-- `tests/test_vmul.cpp:12-19`: `TEST(vmulq_n, f32)` -/
def test_vmulq_n_f32 : C (List (Stmt Unit)) := do
  let v : float32x4_t := vec [0x3f800000, 0x40000000, 0x40400000, 0x40800000]
  let s : BitVec 32 := 0x40400000#32
  let actual ← vmulq_n_f32 v s
  let expected : float32x4_t := vec [0x40400000, 0x40c00000, 0x41100000, 0x41400000]
  let c0 := expectTrue "tests/test_vmul.cpp:18" (← almostEqual_f32x4 expected actual 0#64)
  pure [c0]

/-- `tests/test_vmul.cpp:21-28`: `TEST(vmul, s8)` -/
def test_vmul_s8 : C (List (Stmt Unit)) := do
  let v1 : int8x8_t := vec [1, 2, 3, 4, 5, 6, 7, 8]
  let v2 : int8x8_t := vec [2, 100, (-10), (-100), 2, 3, 4, 5]
  let actual ← vmul_s8 v1 v2
  let expected : int8x8_t := vec [2, (-56), (-30), 112, 10, 18, 28, 40]
  let c0 := expectTrue "tests/test_vmul.cpp:27" (← almostEqual_s8x8 expected actual 0#64)
  pure [c0]

/-- `tests/test_vmul.cpp:30-37`: `TEST(mul, vmul_n_s16)` -/
def test_mul_vmul_n_s16 : C (List (Stmt Unit)) := do
  let v1 : int16x4_t := vec [1, 2, 3, 4]
  let s : BitVec 16 := 2#16
  let actual ← vmul_n_s16 v1 s
  let expected : int16x4_t := vec [2, 4, 6, 8]
  let c0 := expectTrue "tests/test_vmul.cpp:36" (← almostEqual_s16x4 expected actual 0#64)
  pure [c0]

/-- `tests/test_vqsub.cpp:3-22`: `TEST(sub, vqsub)` -/
def test_sub_vqsub : C (List (Stmt Unit)) := do
  let v1 ← vdup_n_u8 (BitVec.ofInt _ (250))
  let v2 : uint8x8_t := vec [1, 2, 3, 4, 251, 252, 253, 254]
  let actual ← vqsub_u8 v1 v2
  let expected : uint8x8_t := vec [249, 248, 247, 246, 0, 0, 0, 0]
  let c0 := expectTrue "tests/test_vqsub.cpp:12" (← almostEqual_u8x8 expected actual 0#64)
  let v1 ← vdup_n_s8 (BitVec.ofInt _ (120))
  let v2 : int8x8_t := vec [(-11), 2, 3, 4, 121, 122, 123, 124]
  let actual ← vqsub_s8 v1 v2
  let expected : int8x8_t := vec [127, 118, 117, 116, (-1), (-2), (-3), (-4)]
  let c1 := expectTrue "tests/test_vqsub.cpp:20" (← almostEqual_s8x8 expected actual 0#64)
  pure [c0, c1]

/-- `tests/test_vrecpe.cpp:4-10`: `TEST(vrecpeq, f32)` -/
def test_vrecpeq_f32 : C (List (Stmt Unit)) := do
  let v : float32x4_t := vec [0x3f800000, 0x40000000, 0x40400000, 0x40800000]
  let actual ← vrecpeq_f32 v
  let expected : float32x4_t := vec [0x3f7f8000, 0x3eff8000, 0x3eaa8000, 0x3e7f8000]
  let c0 := expectTrue "tests/test_vrecpe.cpp:9" (← almostEqual_f32x4 expected actual 0#64)
  pure [c0]

/-- `tests/test_vrecpe.cpp:14-21`: `TEST(vrecpeq, f32_more_precise)` -/
def test_vrecpeq_f32_more_precise : C (List (Stmt Unit)) := do
  let v : float32x4_t := vec [0x3f800000, 0x40000000, 0x40400000, 0x40800000]
  let reciprocal ← vrecpeq_f32 v
  let actual ← vmulq_f32 (← vrecpsq_f32 v reciprocal) reciprocal
  let expected : float32x4_t := vec [0x3f7fffc0, 0x3effffc0, 0x3eaaaaa0, 0x3e7fffc0]
  let c0 := expectTrue "tests/test_vrecpe.cpp:20" (← almostEqual_f32x4 expected actual 0#64)
  pure [c0]

/-- `tests/test_vrev.cpp:3-9`: `TEST(vrev16, u8)` -/
def test_vrev16_u8 : C (List (Stmt Unit)) := do
  let src1 : uint8x8_t := vec [1, 2, 3, 4, 5, 6, 7, 8]
  let actual ← vrev16_u8 src1
  let expected : uint8x8_t := vec [2, 1, 4, 3, 6, 5, 8, 7]
  let c0 := expectTrue "tests/test_vrev.cpp:8" (← almostEqual_u8x8 expected actual 0#64)
  pure [c0]

/-- `tests/test_vrev.cpp:11-17`: `TEST(vrev32, u8)` -/
def test_vrev32_u8 : C (List (Stmt Unit)) := do
  let src1 : uint8x8_t := vec [1, 2, 3, 4, 5, 6, 7, 8]
  let actual ← vrev32_u8 src1
  let expected : uint8x8_t := vec [4, 3, 2, 1, 8, 7, 6, 5]
  let c0 := expectTrue "tests/test_vrev.cpp:16" (← almostEqual_u8x8 expected actual 0#64)
  pure [c0]

/-- `tests/test_vrev.cpp:19-25`: `TEST(vrev64, u8)` -/
def test_vrev64_u8 : C (List (Stmt Unit)) := do
  let src1 : uint8x8_t := vec [1, 2, 3, 4, 5, 6, 7, 8]
  let actual ← vrev64_u8 src1
  let expected : uint8x8_t := vec [8, 7, 6, 5, 4, 3, 2, 1]
  let c0 := expectTrue "tests/test_vrev.cpp:24" (← almostEqual_u8x8 expected actual 0#64)
  pure [c0]

/-- `tests/test_vrsubhn.cpp:3-10`: `TEST(sub, vrsubhn)` -/
def test_sub_vrsubhn : C (List (Stmt Unit)) := do
  let v1 ← vdupq_n_s16 (BitVec.ofInt _ (850))
  let v2 : int16x8_t := vec [200, 400, 600, 800, 1000, 1200, 1400, 1600]
  let actual ← vrsubhn_s16 v1 v2
  let expected : int8x8_t := vec [3, 2, 1, 0, (-1), (-1), (-2), (-3)]
  let c0 := expectTrue "tests/test_vrsubhn.cpp:9" (← almostEqual_s8x8 expected actual 0#64)
  pure [c0]

/-- `tests/test_vst.cpp:3-10`: `TEST(vst1q, f32)` -/
def test_vst1q_f32 : C (List (Stmt Unit)) := do
  let v : float32x4_t := vec [0x3f800000, 0x40000000, 0x40400000, 0x40800000]
  let actual : Ptr .f32 := arr [0x00000000, 0x00000000, 0x00000000, 0x00000000, 0x00000000]
  let actual ← vst1q_f32 actual v
  let expected : Ptr .f32 := arr [0x3f800000, 0x40000000, 0x40400000, 0x40800000, 0x00000000]
  let c0 := expectTrue "tests/test_vst.cpp:9" (← almostEqual_vec (← elements expected) (← elements actual) 0#64)
  pure [c0]

/-- `tests/test_vst.cpp:13-24`: `TEST(vst4q_lane, f32)` -/
def test_vst4q_lane_f32 : C (List (Stmt Unit)) := do
  let v0 : float32x4_t := vec [0x3f800000, 0x40000000, 0x40400000, 0x40800000]
  let v1 : float32x4_t := vec [0x40a00000, 0x40c00000, 0x40e00000, 0x41000000]
  let v2 : float32x4_t := vec [0x41100000, 0x41200000, 0x41300000, 0x41400000]
  let v3 : float32x4_t := vec [0x41500000, 0x41600000, 0x41700000, 0x41800000]
  let u : float32x4x4_t := ⟨fun j => [v0, v1, v2, v3].getD j v0⟩
  let actual : Ptr .f32 := arr [0, 0, 0, 0]
  let actual ← vst4q_lane_f32 actual u 0
  let expected : Ptr .f32 := arr [0x3f800000, 0x40a00000, 0x41100000, 0x41500000]
  let c0 := expectTrue "tests/test_vst.cpp:23" (← almostEqual_vec (← elements expected) (← elements actual) 0#64)
  pure [c0]

/-- `tests/test_vsub.cpp:3-11`: `TEST(sub, vsub)` -/
def test_sub_vsub : C (List (Stmt Unit)) := do
  let v1 : uint8x8_t := vec [11, 12, 13, 14, 15, 16, 17, 18]
  let v2 ← vdup_n_u8 (BitVec.ofInt _ (10))
  let actual ← vsub_u8 v1 v2
  let expected : uint8x8_t := vec [1, 2, 3, 4, 5, 6, 7, 8]
  let c0 := expectTrue "tests/test_vsub.cpp:10" (← almostEqual_u8x8 expected actual 0#64)
  pure [c0]

/-- `tests/test_vsubhn.cpp:3-12`: `TEST(sub, vsubhn)` -/
def test_sub_vsubhn : C (List (Stmt Unit)) := do
  let v1 : int16x8_t := vec [100, 200, 300, 400, 500, 600, 700, 800]
  let v2 : int16x8_t := vec [1, 2, 3, 4, 5, 6, 7, 8]
  let actual ← vsubhn_s16 v1 v2
  let expected : int8x8_t := vec [0, 0, 1, 1, 1, 2, 2, 3]
  let c0 := expectTrue "tests/test_vsubhn.cpp:11" (← almostEqual_s8x8 expected actual 0#64)
  pure [c0]

/-- `tests/test_vsubl.cpp:3-11`: `TEST(sub, vsubl)` -/
def test_sub_vsubl : C (List (Stmt Unit)) := do
  let v1 ← vdup_n_s8 (BitVec.ofInt _ (127))
  let v2 : int8x8_t := vec [0, 1, 2, 3, (-1), (-2), (-3), (-4)]
  let actual ← vsubl_s8 v1 v2
  let expected : int16x8_t := vec [127, 126, 125, 124, 128, 129, 130, 131]
  let c0 := expectTrue "tests/test_vsubl.cpp:10" (← almostEqual_s16x8 expected actual 0#64)
  pure [c0]

/-- `tests/test_vsubw.cpp:3-11`: `TEST(sub, vsubw)` -/
def test_sub_vsubw : C (List (Stmt Unit)) := do
  let v1 : int16x8_t := vec [101, 102, 103, 104, 105, 106, 107, 108]
  let v2 : int8x8_t := vec [1, 2, 3, 4, 5, 6, 7, 8]
  let actual ← vsubw_s8 v1 v2
  let expected : int16x8_t := vec [100, 100, 100, 100, 100, 100, 100, 100]
  let c0 := expectTrue "tests/test_vsubw.cpp:10" (← almostEqual_s16x8 expected actual 0#64)
  pure [c0]

/-- `tests/test_vtbl.cpp:3-10`: `TEST(vtbl1, u8)` -/
def test_vtbl1_u8 : C (List (Stmt Unit)) := do
  let src1 : uint8x8_t := vec [1, 2, 3, 4, 5, 6, 7, 8]
  let src2 : uint8x8_t := vec [0, 0, 1, 1, 2, 2, 7, 8]
  let actual ← vtbl1_u8 src1 src2
  let expected : uint8x8_t := vec [1, 1, 2, 2, 3, 3, 8, 0]
  let c0 := expectTrue "tests/test_vtbl.cpp:9" (← almostEqual_u8x8 expected actual 0#64)
  pure [c0]

/-- `tests/test_vtbl.cpp:12-21`: `TEST(vtbl2, u8)` -/
def test_vtbl2_u8 : C (List (Stmt Unit)) := do
  let src : uint8x8x2_t := ⟨fun j => if j = 0 then vec [1, 2, 3, 4, 5, 6, 7, 8] else vec [9, 10, 11, 12, 13, 14, 15, 16]⟩
  let src2 : uint8x8_t := vec [0, 0, 1, 1, 2, 2, 8, 10]
  let actual ← vtbl2_u8 src src2
  let expected : uint8x8_t := vec [1, 1, 2, 2, 3, 3, 9, 11]
  let c0 := expectTrue "tests/test_vtbl.cpp:20" (← almostEqual_u8x8 expected actual 0#64)
  pure [c0]

/-- `tests/test_vtrn.cpp:3-14`: `TEST(vtrn, u8)` -/
def test_vtrn_u8 : C (List (Stmt Unit)) := do
  let src : uint8x8x2_t := ⟨fun j => if j = 0 then vec [1, 2, 3, 4, 5, 6, 7, 8] else vec [9, 10, 11, 12, 13, 14, 15, 16]⟩
  let actual ← vtrn_u8 (src.reg 0) (src.reg 1)
  let expected : uint8x8x2_t := ⟨fun j => if j = 0 then vec [1, 9, 3, 11, 5, 13, 7, 15] else vec [2, 10, 4, 12, 6, 14, 8, 16]⟩
  let c0 := expectTrue "tests/test_vtrn.cpp:13" (← almostEqual_u8x8x2 expected actual)
  pure [c0]

/-- `tests/test_vuzp.cpp:3-14`: `TEST(vuzp, u8)` -/
def test_vuzp_u8 : C (List (Stmt Unit)) := do
  let src : uint8x8x2_t := ⟨fun j => if j = 0 then vec [1, 2, 3, 4, 5, 6, 7, 8] else vec [9, 10, 11, 12, 13, 14, 15, 16]⟩
  let actual ← vuzp_u8 (src.reg 0) (src.reg 1)
  let expected : uint8x8x2_t := ⟨fun j => if j = 0 then vec [1, 3, 5, 7, 9, 11, 13, 15] else vec [2, 4, 6, 8, 10, 12, 14, 16]⟩
  let c0 := expectTrue "tests/test_vuzp.cpp:13" (← almostEqual_u8x8x2 expected actual)
  pure [c0]

/-- `tests/test_vzip.cpp:3-14`: `TEST(vzip, u8)` -/
def test_vzip_u8 : C (List (Stmt Unit)) := do
  let src : uint8x8x2_t := ⟨fun j => if j = 0 then vec [1, 2, 3, 4, 5, 6, 7, 8] else vec [9, 10, 11, 12, 13, 14, 15, 16]⟩
  let actual ← vzip_u8 (src.reg 0) (src.reg 1)
  let expected : uint8x8x2_t := ⟨fun j => if j = 0 then vec [1, 9, 2, 10, 3, 11, 4, 12] else vec [5, 13, 6, 14, 7, 15, 8, 16]⟩
  let c0 := expectTrue "tests/test_vzip.cpp:13" (← almostEqual_u8x8x2 expected actual)
  pure [c0]

/-- All tests, with their names (`tests/utest.h:921`). -/
def suite : List (Str × C (List (Stmt Unit))) := [
  ("array.lane".toList, test_array_lane),
  ("vcltq.f32".toList, test_vcltq_f32),
  ("vaddq.f32".toList, test_vaddq_f32),
  ("vadd.s8".toList, test_vadd_s8),
  ("vadd.s8_exceed".toList, test_vadd_s8_exceed),
  ("vadd.u8".toList, test_vadd_u8),
  ("vaddhn_high_s16.normal".toList, test_vaddhn_high_s16_normal),
  ("vaddl.u8".toList, test_vaddl_u8),
  ("vaddl_high.s8".toList, test_vaddl_high_s8),
  ("vaddw_high.s8".toList, test_vaddw_high_s8),
  ("vaddw.s8".toList, test_vaddw_s8),
  ("vand.u8".toList, test_vand_u8),
  ("vext.u8".toList, test_vext_u8),
  ("vget.low_s8".toList, test_vget_low_s8),
  ("sub.vhsub".toList, test_sub_vhsub),
  ("vld1q.f32".toList, test_vld1q_f32),
  ("vld1q_dup.f32".toList, test_vld1q_dup_f32),
  ("vmaxq.f32".toList, test_vmaxq_f32),
  ("vpmax.f32".toList, test_vpmax_f32),
  ("vminq.f32".toList, test_vminq_f32),
  ("vpmin.f32".toList, test_vpmin_f32),
  ("vmlaq.f32".toList, test_vmlaq_f32),
  ("vmlaq_n.f32".toList, test_vmlaq_n_f32),
  ("vmovq_n.f32".toList, test_vmovq_n_f32),
  ("vmulq.f32".toList, test_vmulq_f32),
  ("vmulq_n.f32".toList, test_vmulq_n_f32),
  ("vmul.s8".toList, test_vmul_s8),
  ("mul.vmul_n_s16".toList, test_mul_vmul_n_s16),
  ("sub.vqsub".toList, test_sub_vqsub),
  ("vrecpeq.f32".toList, test_vrecpeq_f32),
  ("vrecpeq.f32_more_precise".toList, test_vrecpeq_f32_more_precise),
  ("vrev16.u8".toList, test_vrev16_u8),
  ("vrev32.u8".toList, test_vrev32_u8),
  ("vrev64.u8".toList, test_vrev64_u8),
  ("sub.vrsubhn".toList, test_sub_vrsubhn),
  ("vst1q.f32".toList, test_vst1q_f32),
  ("vst4q_lane.f32".toList, test_vst4q_lane_f32),
  ("sub.vsub".toList, test_sub_vsub),
  ("sub.vsubhn".toList, test_sub_vsubhn),
  ("sub.vsubl".toList, test_sub_vsubl),
  ("sub.vsubw".toList, test_sub_vsubw),
  ("vtbl1.u8".toList, test_vtbl1_u8),
  ("vtbl2.u8".toList, test_vtbl2_u8),
  ("vtrn.u8".toList, test_vtrn_u8),
  ("vuzp.u8".toList, test_vuzp_u8),
  ("vzip.u8".toList, test_vzip_u8)]

/-- The function of a test (`tests/utest.h:915-918`): if its code does not end, or has undefined behaviour, the process counts as dead. -/
def run (body : C (List (Stmt Unit))) (index : Nat) (w : Unit) : Ended Unit :=
  match body with
  | .ok stmts => utest stmts index w
  | _ => .dies

/-- The initializers of the tests run in the given order (`tests/utest.h:919-935`). -/
def registered (cases : List (Str × C (List (Stmt Unit)))) : List (Test Unit) :=
  cases.foldl (fun tests c => register c.1 (run c.2) tests) []

end Verif.TestSuite
