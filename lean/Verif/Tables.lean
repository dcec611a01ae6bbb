import Verif.Attr
import Verif.Types

/-! Evaluation rules for the C++ operators at concrete types (generated by
`tools/gen_tables.py`); every rule holds by definition. -/

namespace Verif


@[csem] theorem ofBits_i8 (b : BitVec 8) : Val.ofBits (.int .i8) b = .int .i8 b.toInt := by rfl
@[csem] theorem not_i8 (x : Int) : Val.not (.int .i8 x) = .ok (.int .i32 (intOfBits .i32 (~~~ BitVec.ofInt 32 x))) := by rfl
@[csem] theorem truth_i8 (x : Int) : Val.truth (.int .i8 x) = decide (x ≠ 0) := by rfl
@[csem] theorem intOfBits_i8 (b : BitVec 8) : intOfBits .i8 b = b.toInt := by rfl
@[csem] theorem idx_i8 (x : Int) : Val.idx (.int .i8 x) = x := by rfl
@[csem] theorem cast_i8_f32 (x : Int) : Val.cast .f32 (.int .i8 x) = .ok (.f32 (BitVec.ofNat 32 (Fmt.b32.ofInt x))) := by rfl
@[csem] theorem cast_i8_f64 (x : Int) : Val.cast .f64 (.int .i8 x) = .ok (.f64 (BitVec.ofNat 64 (Fmt.b64.ofInt x))) := by rfl
@[csem] theorem add_i8_i8 [Dialect] (x y : Int) : Val.add (.int .i8 x) (.int .i8 y) = mkInt .i32 (x + y) := by rfl
@[csem] theorem sub_i8_i8 [Dialect] (x y : Int) : Val.sub (.int .i8 x) (.int .i8 y) = mkInt .i32 (x - y) := by rfl
@[csem] theorem mul_i8_i8 [Dialect] (x y : Int) : Val.mul (.int .i8 x) (.int .i8 y) = mkInt .i32 (x * y) := by rfl
@[csem] theorem and_i8_i8 (x y : Int) : Val.and (.int .i8 x) (.int .i8 y) = .ok (.int .i32 (intOfBits .i32 (BitVec.ofInt 32 x &&& BitVec.ofInt 32 y))) := by rfl
@[csem] theorem or_i8_i8 (x y : Int) : Val.or (.int .i8 x) (.int .i8 y) = .ok (.int .i32 (intOfBits .i32 (BitVec.ofInt 32 x ||| BitVec.ofInt 32 y))) := by rfl
@[csem] theorem xor_i8_i8 (x y : Int) : Val.xor (.int .i8 x) (.int .i8 y) = .ok (.int .i32 (intOfBits .i32 (BitVec.ofInt 32 x ^^^ BitVec.ofInt 32 y))) := by rfl
@[csem] theorem lt_i8_i8 (x y : Int) : Val.lt (.int .i8 x) (.int .i8 y) = decide (x < y) := by rfl
@[csem] theorem gt_i8_i8 (x y : Int) : Val.gt (.int .i8 x) (.int .i8 y) = decide (y < x) := by rfl
@[csem] theorem eq_i8_i8 (x y : Int) : Val.eq (.int .i8 x) (.int .i8 y) = decide (x = y) := by rfl
@[csem] theorem cast_i8_i8 (x : Int) : Val.cast (.int .i8) (.int .i8 x) = .ok (.int .i8 x) := by rfl
@[csem] theorem toBits_i8_i8 (x : Int) : Val.toBits (.int .i8) (.int .i8 x) = .ok (BitVec.ofInt 8 x) := by rfl
@[csem] theorem shr_i8_i8 [Dialect] (x : Int) {y : Int} (h : 0 ≤ y ∧ y < 32) : Val.shr (.int .i8 x) (.int .i8 y) = .ok (.int .i32 (x / 2 ^ y.toNat)) := if_pos h
@[csem] theorem shl_i8_i8 [Dialect] {x y : Int} (h : 0 ≤ y ∧ y < 32) (hx : ¬(x < 0 ∨ 4294967296 ≤ x * 2 ^ y.toNat)) : Val.shl (.int .i8 x) (.int .i8 y) = .ok (.int .i32 (Int.bmod (x * 2 ^ y.toNat) 4294967296)) := (if_pos h).trans (if_neg fun hh => hx hh.2.2)
@[csem] theorem add_i8_u8 [Dialect] (x y : Int) : Val.add (.int .i8 x) (.int .u8 y) = mkInt .i32 (x + y) := by rfl
@[csem] theorem sub_i8_u8 [Dialect] (x y : Int) : Val.sub (.int .i8 x) (.int .u8 y) = mkInt .i32 (x - y) := by rfl
@[csem] theorem mul_i8_u8 [Dialect] (x y : Int) : Val.mul (.int .i8 x) (.int .u8 y) = mkInt .i32 (x * y) := by rfl
@[csem] theorem and_i8_u8 (x y : Int) : Val.and (.int .i8 x) (.int .u8 y) = .ok (.int .i32 (intOfBits .i32 (BitVec.ofInt 32 x &&& BitVec.ofInt 32 y))) := by rfl
@[csem] theorem or_i8_u8 (x y : Int) : Val.or (.int .i8 x) (.int .u8 y) = .ok (.int .i32 (intOfBits .i32 (BitVec.ofInt 32 x ||| BitVec.ofInt 32 y))) := by rfl
@[csem] theorem xor_i8_u8 (x y : Int) : Val.xor (.int .i8 x) (.int .u8 y) = .ok (.int .i32 (intOfBits .i32 (BitVec.ofInt 32 x ^^^ BitVec.ofInt 32 y))) := by rfl
@[csem] theorem lt_i8_u8 (x y : Int) : Val.lt (.int .i8 x) (.int .u8 y) = decide (x < y) := by rfl
@[csem] theorem gt_i8_u8 (x y : Int) : Val.gt (.int .i8 x) (.int .u8 y) = decide (y < x) := by rfl
@[csem] theorem eq_i8_u8 (x y : Int) : Val.eq (.int .i8 x) (.int .u8 y) = decide (x = y) := by rfl
@[csem] theorem cast_i8_u8 (x : Int) : Val.cast (.int .u8) (.int .i8 x) = .ok (.int .u8 (x % 256)) := by rfl
@[csem] theorem toBits_u8_i8 (x : Int) : Val.toBits (.int .u8) (.int .i8 x) = .ok (BitVec.ofInt 8 x) := by rfl
@[csem] theorem shr_i8_u8 [Dialect] (x : Int) {y : Int} (h : 0 ≤ y ∧ y < 32) : Val.shr (.int .i8 x) (.int .u8 y) = .ok (.int .i32 (x / 2 ^ y.toNat)) := if_pos h
@[csem] theorem shl_i8_u8 [Dialect] {x y : Int} (h : 0 ≤ y ∧ y < 32) (hx : ¬(x < 0 ∨ 4294967296 ≤ x * 2 ^ y.toNat)) : Val.shl (.int .i8 x) (.int .u8 y) = .ok (.int .i32 (Int.bmod (x * 2 ^ y.toNat) 4294967296)) := (if_pos h).trans (if_neg fun hh => hx hh.2.2)
@[csem] theorem add_i8_i16 [Dialect] (x y : Int) : Val.add (.int .i8 x) (.int .i16 y) = mkInt .i32 (x + y) := by rfl
@[csem] theorem sub_i8_i16 [Dialect] (x y : Int) : Val.sub (.int .i8 x) (.int .i16 y) = mkInt .i32 (x - y) := by rfl
@[csem] theorem mul_i8_i16 [Dialect] (x y : Int) : Val.mul (.int .i8 x) (.int .i16 y) = mkInt .i32 (x * y) := by rfl
@[csem] theorem and_i8_i16 (x y : Int) : Val.and (.int .i8 x) (.int .i16 y) = .ok (.int .i32 (intOfBits .i32 (BitVec.ofInt 32 x &&& BitVec.ofInt 32 y))) := by rfl
@[csem] theorem or_i8_i16 (x y : Int) : Val.or (.int .i8 x) (.int .i16 y) = .ok (.int .i32 (intOfBits .i32 (BitVec.ofInt 32 x ||| BitVec.ofInt 32 y))) := by rfl
@[csem] theorem xor_i8_i16 (x y : Int) : Val.xor (.int .i8 x) (.int .i16 y) = .ok (.int .i32 (intOfBits .i32 (BitVec.ofInt 32 x ^^^ BitVec.ofInt 32 y))) := by rfl
@[csem] theorem lt_i8_i16 (x y : Int) : Val.lt (.int .i8 x) (.int .i16 y) = decide (x < y) := by rfl
@[csem] theorem gt_i8_i16 (x y : Int) : Val.gt (.int .i8 x) (.int .i16 y) = decide (y < x) := by rfl
@[csem] theorem eq_i8_i16 (x y : Int) : Val.eq (.int .i8 x) (.int .i16 y) = decide (x = y) := by rfl
@[csem] theorem cast_i8_i16 (x : Int) : Val.cast (.int .i16) (.int .i8 x) = .ok (.int .i16 x) := by rfl
@[csem] theorem toBits_i16_i8 (x : Int) : Val.toBits (.int .i16) (.int .i8 x) = .ok (BitVec.ofInt 16 x) := by rfl
@[csem] theorem shr_i8_i16 [Dialect] (x : Int) {y : Int} (h : 0 ≤ y ∧ y < 32) : Val.shr (.int .i8 x) (.int .i16 y) = .ok (.int .i32 (x / 2 ^ y.toNat)) := if_pos h
@[csem] theorem shl_i8_i16 [Dialect] {x y : Int} (h : 0 ≤ y ∧ y < 32) (hx : ¬(x < 0 ∨ 4294967296 ≤ x * 2 ^ y.toNat)) : Val.shl (.int .i8 x) (.int .i16 y) = .ok (.int .i32 (Int.bmod (x * 2 ^ y.toNat) 4294967296)) := (if_pos h).trans (if_neg fun hh => hx hh.2.2)
@[csem] theorem add_i8_u16 [Dialect] (x y : Int) : Val.add (.int .i8 x) (.int .u16 y) = mkInt .i32 (x + y) := by rfl
@[csem] theorem sub_i8_u16 [Dialect] (x y : Int) : Val.sub (.int .i8 x) (.int .u16 y) = mkInt .i32 (x - y) := by rfl
@[csem] theorem mul_i8_u16 [Dialect] (x y : Int) : Val.mul (.int .i8 x) (.int .u16 y) = mkInt .i32 (x * y) := by rfl
@[csem] theorem and_i8_u16 (x y : Int) : Val.and (.int .i8 x) (.int .u16 y) = .ok (.int .i32 (intOfBits .i32 (BitVec.ofInt 32 x &&& BitVec.ofInt 32 y))) := by rfl
@[csem] theorem or_i8_u16 (x y : Int) : Val.or (.int .i8 x) (.int .u16 y) = .ok (.int .i32 (intOfBits .i32 (BitVec.ofInt 32 x ||| BitVec.ofInt 32 y))) := by rfl
@[csem] theorem xor_i8_u16 (x y : Int) : Val.xor (.int .i8 x) (.int .u16 y) = .ok (.int .i32 (intOfBits .i32 (BitVec.ofInt 32 x ^^^ BitVec.ofInt 32 y))) := by rfl
@[csem] theorem lt_i8_u16 (x y : Int) : Val.lt (.int .i8 x) (.int .u16 y) = decide (x < y) := by rfl
@[csem] theorem gt_i8_u16 (x y : Int) : Val.gt (.int .i8 x) (.int .u16 y) = decide (y < x) := by rfl
@[csem] theorem eq_i8_u16 (x y : Int) : Val.eq (.int .i8 x) (.int .u16 y) = decide (x = y) := by rfl
@[csem] theorem cast_i8_u16 (x : Int) : Val.cast (.int .u16) (.int .i8 x) = .ok (.int .u16 (x % 65536)) := by rfl
@[csem] theorem toBits_u16_i8 (x : Int) : Val.toBits (.int .u16) (.int .i8 x) = .ok (BitVec.ofInt 16 x) := by rfl
@[csem] theorem shr_i8_u16 [Dialect] (x : Int) {y : Int} (h : 0 ≤ y ∧ y < 32) : Val.shr (.int .i8 x) (.int .u16 y) = .ok (.int .i32 (x / 2 ^ y.toNat)) := if_pos h
@[csem] theorem shl_i8_u16 [Dialect] {x y : Int} (h : 0 ≤ y ∧ y < 32) (hx : ¬(x < 0 ∨ 4294967296 ≤ x * 2 ^ y.toNat)) : Val.shl (.int .i8 x) (.int .u16 y) = .ok (.int .i32 (Int.bmod (x * 2 ^ y.toNat) 4294967296)) := (if_pos h).trans (if_neg fun hh => hx hh.2.2)
@[csem] theorem add_i8_i32 [Dialect] (x y : Int) : Val.add (.int .i8 x) (.int .i32 y) = mkInt .i32 (x + y) := by rfl
@[csem] theorem sub_i8_i32 [Dialect] (x y : Int) : Val.sub (.int .i8 x) (.int .i32 y) = mkInt .i32 (x - y) := by rfl
@[csem] theorem mul_i8_i32 [Dialect] (x y : Int) : Val.mul (.int .i8 x) (.int .i32 y) = mkInt .i32 (x * y) := by rfl
@[csem] theorem and_i8_i32 (x y : Int) : Val.and (.int .i8 x) (.int .i32 y) = .ok (.int .i32 (intOfBits .i32 (BitVec.ofInt 32 x &&& BitVec.ofInt 32 y))) := by rfl
@[csem] theorem or_i8_i32 (x y : Int) : Val.or (.int .i8 x) (.int .i32 y) = .ok (.int .i32 (intOfBits .i32 (BitVec.ofInt 32 x ||| BitVec.ofInt 32 y))) := by rfl
@[csem] theorem xor_i8_i32 (x y : Int) : Val.xor (.int .i8 x) (.int .i32 y) = .ok (.int .i32 (intOfBits .i32 (BitVec.ofInt 32 x ^^^ BitVec.ofInt 32 y))) := by rfl
@[csem] theorem lt_i8_i32 (x y : Int) : Val.lt (.int .i8 x) (.int .i32 y) = decide (x < y) := by rfl
@[csem] theorem gt_i8_i32 (x y : Int) : Val.gt (.int .i8 x) (.int .i32 y) = decide (y < x) := by rfl
@[csem] theorem eq_i8_i32 (x y : Int) : Val.eq (.int .i8 x) (.int .i32 y) = decide (x = y) := by rfl
@[csem] theorem cast_i8_i32 (x : Int) : Val.cast (.int .i32) (.int .i8 x) = .ok (.int .i32 x) := by rfl
@[csem] theorem toBits_i32_i8 (x : Int) : Val.toBits (.int .i32) (.int .i8 x) = .ok (BitVec.ofInt 32 x) := by rfl
@[csem] theorem shr_i8_i32 [Dialect] (x : Int) {y : Int} (h : 0 ≤ y ∧ y < 32) : Val.shr (.int .i8 x) (.int .i32 y) = .ok (.int .i32 (x / 2 ^ y.toNat)) := if_pos h
@[csem] theorem shl_i8_i32 [Dialect] {x y : Int} (h : 0 ≤ y ∧ y < 32) (hx : ¬(x < 0 ∨ 4294967296 ≤ x * 2 ^ y.toNat)) : Val.shl (.int .i8 x) (.int .i32 y) = .ok (.int .i32 (Int.bmod (x * 2 ^ y.toNat) 4294967296)) := (if_pos h).trans (if_neg fun hh => hx hh.2.2)
@[csem] theorem add_i8_u32 [Dialect] (x y : Int) : Val.add (.int .i8 x) (.int .u32 y) = mkInt .u32 ((x % 4294967296) + y) := by rfl
@[csem] theorem sub_i8_u32 [Dialect] (x y : Int) : Val.sub (.int .i8 x) (.int .u32 y) = mkInt .u32 ((x % 4294967296) - y) := by rfl
@[csem] theorem mul_i8_u32 [Dialect] (x y : Int) : Val.mul (.int .i8 x) (.int .u32 y) = mkInt .u32 ((x % 4294967296) * y) := by rfl
@[csem] theorem and_i8_u32 (x y : Int) : Val.and (.int .i8 x) (.int .u32 y) = .ok (.int .u32 (intOfBits .u32 (BitVec.ofInt 32 x &&& BitVec.ofInt 32 y))) := by rfl
@[csem] theorem or_i8_u32 (x y : Int) : Val.or (.int .i8 x) (.int .u32 y) = .ok (.int .u32 (intOfBits .u32 (BitVec.ofInt 32 x ||| BitVec.ofInt 32 y))) := by rfl
@[csem] theorem xor_i8_u32 (x y : Int) : Val.xor (.int .i8 x) (.int .u32 y) = .ok (.int .u32 (intOfBits .u32 (BitVec.ofInt 32 x ^^^ BitVec.ofInt 32 y))) := by rfl
@[csem] theorem lt_i8_u32 (x y : Int) : Val.lt (.int .i8 x) (.int .u32 y) = decide ((x % 4294967296) < y) := by rfl
@[csem] theorem gt_i8_u32 (x y : Int) : Val.gt (.int .i8 x) (.int .u32 y) = decide (y < (x % 4294967296)) := by rfl
@[csem] theorem eq_i8_u32 (x y : Int) : Val.eq (.int .i8 x) (.int .u32 y) = decide ((x % 4294967296) = y) := by rfl
@[csem] theorem cast_i8_u32 (x : Int) : Val.cast (.int .u32) (.int .i8 x) = .ok (.int .u32 (x % 4294967296)) := by rfl
@[csem] theorem toBits_u32_i8 (x : Int) : Val.toBits (.int .u32) (.int .i8 x) = .ok (BitVec.ofInt 32 x) := by rfl
@[csem] theorem shr_i8_u32 [Dialect] (x : Int) {y : Int} (h : 0 ≤ y ∧ y < 32) : Val.shr (.int .i8 x) (.int .u32 y) = .ok (.int .i32 (x / 2 ^ y.toNat)) := if_pos h
@[csem] theorem shl_i8_u32 [Dialect] {x y : Int} (h : 0 ≤ y ∧ y < 32) (hx : ¬(x < 0 ∨ 4294967296 ≤ x * 2 ^ y.toNat)) : Val.shl (.int .i8 x) (.int .u32 y) = .ok (.int .i32 (Int.bmod (x * 2 ^ y.toNat) 4294967296)) := (if_pos h).trans (if_neg fun hh => hx hh.2.2)
@[csem] theorem add_i8_i64 [Dialect] (x y : Int) : Val.add (.int .i8 x) (.int .i64 y) = mkInt .i64 (x + y) := by rfl
@[csem] theorem sub_i8_i64 [Dialect] (x y : Int) : Val.sub (.int .i8 x) (.int .i64 y) = mkInt .i64 (x - y) := by rfl
@[csem] theorem mul_i8_i64 [Dialect] (x y : Int) : Val.mul (.int .i8 x) (.int .i64 y) = mkInt .i64 (x * y) := by rfl
@[csem] theorem and_i8_i64 (x y : Int) : Val.and (.int .i8 x) (.int .i64 y) = .ok (.int .i64 (intOfBits .i64 (BitVec.ofInt 64 x &&& BitVec.ofInt 64 y))) := by rfl
@[csem] theorem or_i8_i64 (x y : Int) : Val.or (.int .i8 x) (.int .i64 y) = .ok (.int .i64 (intOfBits .i64 (BitVec.ofInt 64 x ||| BitVec.ofInt 64 y))) := by rfl
@[csem] theorem xor_i8_i64 (x y : Int) : Val.xor (.int .i8 x) (.int .i64 y) = .ok (.int .i64 (intOfBits .i64 (BitVec.ofInt 64 x ^^^ BitVec.ofInt 64 y))) := by rfl
@[csem] theorem lt_i8_i64 (x y : Int) : Val.lt (.int .i8 x) (.int .i64 y) = decide (x < y) := by rfl
@[csem] theorem gt_i8_i64 (x y : Int) : Val.gt (.int .i8 x) (.int .i64 y) = decide (y < x) := by rfl
@[csem] theorem eq_i8_i64 (x y : Int) : Val.eq (.int .i8 x) (.int .i64 y) = decide (x = y) := by rfl
@[csem] theorem cast_i8_i64 (x : Int) : Val.cast (.int .i64) (.int .i8 x) = .ok (.int .i64 x) := by rfl
@[csem] theorem toBits_i64_i8 (x : Int) : Val.toBits (.int .i64) (.int .i8 x) = .ok (BitVec.ofInt 64 x) := by rfl
@[csem] theorem shr_i8_i64 [Dialect] (x : Int) {y : Int} (h : 0 ≤ y ∧ y < 32) : Val.shr (.int .i8 x) (.int .i64 y) = .ok (.int .i32 (x / 2 ^ y.toNat)) := if_pos h
@[csem] theorem shl_i8_i64 [Dialect] {x y : Int} (h : 0 ≤ y ∧ y < 32) (hx : ¬(x < 0 ∨ 4294967296 ≤ x * 2 ^ y.toNat)) : Val.shl (.int .i8 x) (.int .i64 y) = .ok (.int .i32 (Int.bmod (x * 2 ^ y.toNat) 4294967296)) := (if_pos h).trans (if_neg fun hh => hx hh.2.2)
@[csem] theorem add_i8_u64 [Dialect] (x y : Int) : Val.add (.int .i8 x) (.int .u64 y) = mkInt .u64 ((x % 18446744073709551616) + y) := by rfl
@[csem] theorem sub_i8_u64 [Dialect] (x y : Int) : Val.sub (.int .i8 x) (.int .u64 y) = mkInt .u64 ((x % 18446744073709551616) - y) := by rfl
@[csem] theorem mul_i8_u64 [Dialect] (x y : Int) : Val.mul (.int .i8 x) (.int .u64 y) = mkInt .u64 ((x % 18446744073709551616) * y) := by rfl
@[csem] theorem and_i8_u64 (x y : Int) : Val.and (.int .i8 x) (.int .u64 y) = .ok (.int .u64 (intOfBits .u64 (BitVec.ofInt 64 x &&& BitVec.ofInt 64 y))) := by rfl
@[csem] theorem or_i8_u64 (x y : Int) : Val.or (.int .i8 x) (.int .u64 y) = .ok (.int .u64 (intOfBits .u64 (BitVec.ofInt 64 x ||| BitVec.ofInt 64 y))) := by rfl
@[csem] theorem xor_i8_u64 (x y : Int) : Val.xor (.int .i8 x) (.int .u64 y) = .ok (.int .u64 (intOfBits .u64 (BitVec.ofInt 64 x ^^^ BitVec.ofInt 64 y))) := by rfl
@[csem] theorem lt_i8_u64 (x y : Int) : Val.lt (.int .i8 x) (.int .u64 y) = decide ((x % 18446744073709551616) < y) := by rfl
@[csem] theorem gt_i8_u64 (x y : Int) : Val.gt (.int .i8 x) (.int .u64 y) = decide (y < (x % 18446744073709551616)) := by rfl
@[csem] theorem eq_i8_u64 (x y : Int) : Val.eq (.int .i8 x) (.int .u64 y) = decide ((x % 18446744073709551616) = y) := by rfl
@[csem] theorem cast_i8_u64 (x : Int) : Val.cast (.int .u64) (.int .i8 x) = .ok (.int .u64 (x % 18446744073709551616)) := by rfl
@[csem] theorem toBits_u64_i8 (x : Int) : Val.toBits (.int .u64) (.int .i8 x) = .ok (BitVec.ofInt 64 x) := by rfl
@[csem] theorem shr_i8_u64 [Dialect] (x : Int) {y : Int} (h : 0 ≤ y ∧ y < 32) : Val.shr (.int .i8 x) (.int .u64 y) = .ok (.int .i32 (x / 2 ^ y.toNat)) := if_pos h
@[csem] theorem shl_i8_u64 [Dialect] {x y : Int} (h : 0 ≤ y ∧ y < 32) (hx : ¬(x < 0 ∨ 4294967296 ≤ x * 2 ^ y.toNat)) : Val.shl (.int .i8 x) (.int .u64 y) = .ok (.int .i32 (Int.bmod (x * 2 ^ y.toNat) 4294967296)) := (if_pos h).trans (if_neg fun hh => hx hh.2.2)
@[csem] theorem ofBits_u8 (b : BitVec 8) : Val.ofBits (.int .u8) b = .int .u8 (b.toNat : Int) := by rfl
@[csem] theorem not_u8 (x : Int) : Val.not (.int .u8 x) = .ok (.int .i32 (intOfBits .i32 (~~~ BitVec.ofInt 32 x))) := by rfl
@[csem] theorem truth_u8 (x : Int) : Val.truth (.int .u8 x) = decide (x ≠ 0) := by rfl
@[csem] theorem intOfBits_u8 (b : BitVec 8) : intOfBits .u8 b = (b.toNat : Int) := by rfl
@[csem] theorem idx_u8 (x : Int) : Val.idx (.int .u8 x) = x := by rfl
@[csem] theorem cast_u8_f32 (x : Int) : Val.cast .f32 (.int .u8 x) = .ok (.f32 (BitVec.ofNat 32 (Fmt.b32.ofInt x))) := by rfl
@[csem] theorem cast_u8_f64 (x : Int) : Val.cast .f64 (.int .u8 x) = .ok (.f64 (BitVec.ofNat 64 (Fmt.b64.ofInt x))) := by rfl
@[csem] theorem add_u8_i8 [Dialect] (x y : Int) : Val.add (.int .u8 x) (.int .i8 y) = mkInt .i32 (x + y) := by rfl
@[csem] theorem sub_u8_i8 [Dialect] (x y : Int) : Val.sub (.int .u8 x) (.int .i8 y) = mkInt .i32 (x - y) := by rfl
@[csem] theorem mul_u8_i8 [Dialect] (x y : Int) : Val.mul (.int .u8 x) (.int .i8 y) = mkInt .i32 (x * y) := by rfl
@[csem] theorem and_u8_i8 (x y : Int) : Val.and (.int .u8 x) (.int .i8 y) = .ok (.int .i32 (intOfBits .i32 (BitVec.ofInt 32 x &&& BitVec.ofInt 32 y))) := by rfl
@[csem] theorem or_u8_i8 (x y : Int) : Val.or (.int .u8 x) (.int .i8 y) = .ok (.int .i32 (intOfBits .i32 (BitVec.ofInt 32 x ||| BitVec.ofInt 32 y))) := by rfl
@[csem] theorem xor_u8_i8 (x y : Int) : Val.xor (.int .u8 x) (.int .i8 y) = .ok (.int .i32 (intOfBits .i32 (BitVec.ofInt 32 x ^^^ BitVec.ofInt 32 y))) := by rfl
@[csem] theorem lt_u8_i8 (x y : Int) : Val.lt (.int .u8 x) (.int .i8 y) = decide (x < y) := by rfl
@[csem] theorem gt_u8_i8 (x y : Int) : Val.gt (.int .u8 x) (.int .i8 y) = decide (y < x) := by rfl
@[csem] theorem eq_u8_i8 (x y : Int) : Val.eq (.int .u8 x) (.int .i8 y) = decide (x = y) := by rfl
@[csem] theorem cast_u8_i8 (x : Int) : Val.cast (.int .i8) (.int .u8 x) = .ok (.int .i8 (Int.bmod x 256)) := by rfl
@[csem] theorem toBits_i8_u8 (x : Int) : Val.toBits (.int .i8) (.int .u8 x) = .ok (BitVec.ofInt 8 x) := by rfl
@[csem] theorem shr_u8_i8 [Dialect] (x : Int) {y : Int} (h : 0 ≤ y ∧ y < 32) : Val.shr (.int .u8 x) (.int .i8 y) = .ok (.int .i32 (x / 2 ^ y.toNat)) := if_pos h
@[csem] theorem shl_u8_i8 [Dialect] {x y : Int} (h : 0 ≤ y ∧ y < 32) (hx : ¬(x < 0 ∨ 4294967296 ≤ x * 2 ^ y.toNat)) : Val.shl (.int .u8 x) (.int .i8 y) = .ok (.int .i32 (Int.bmod (x * 2 ^ y.toNat) 4294967296)) := (if_pos h).trans (if_neg fun hh => hx hh.2.2)
@[csem] theorem add_u8_u8 [Dialect] (x y : Int) : Val.add (.int .u8 x) (.int .u8 y) = mkInt .i32 (x + y) := by rfl
@[csem] theorem sub_u8_u8 [Dialect] (x y : Int) : Val.sub (.int .u8 x) (.int .u8 y) = mkInt .i32 (x - y) := by rfl
@[csem] theorem mul_u8_u8 [Dialect] (x y : Int) : Val.mul (.int .u8 x) (.int .u8 y) = mkInt .i32 (x * y) := by rfl
@[csem] theorem and_u8_u8 (x y : Int) : Val.and (.int .u8 x) (.int .u8 y) = .ok (.int .i32 (intOfBits .i32 (BitVec.ofInt 32 x &&& BitVec.ofInt 32 y))) := by rfl
@[csem] theorem or_u8_u8 (x y : Int) : Val.or (.int .u8 x) (.int .u8 y) = .ok (.int .i32 (intOfBits .i32 (BitVec.ofInt 32 x ||| BitVec.ofInt 32 y))) := by rfl
@[csem] theorem xor_u8_u8 (x y : Int) : Val.xor (.int .u8 x) (.int .u8 y) = .ok (.int .i32 (intOfBits .i32 (BitVec.ofInt 32 x ^^^ BitVec.ofInt 32 y))) := by rfl
@[csem] theorem lt_u8_u8 (x y : Int) : Val.lt (.int .u8 x) (.int .u8 y) = decide (x < y) := by rfl
@[csem] theorem gt_u8_u8 (x y : Int) : Val.gt (.int .u8 x) (.int .u8 y) = decide (y < x) := by rfl
@[csem] theorem eq_u8_u8 (x y : Int) : Val.eq (.int .u8 x) (.int .u8 y) = decide (x = y) := by rfl
@[csem] theorem cast_u8_u8 (x : Int) : Val.cast (.int .u8) (.int .u8 x) = .ok (.int .u8 x) := by rfl
@[csem] theorem toBits_u8_u8 (x : Int) : Val.toBits (.int .u8) (.int .u8 x) = .ok (BitVec.ofInt 8 x) := by rfl
@[csem] theorem shr_u8_u8 [Dialect] (x : Int) {y : Int} (h : 0 ≤ y ∧ y < 32) : Val.shr (.int .u8 x) (.int .u8 y) = .ok (.int .i32 (x / 2 ^ y.toNat)) := if_pos h
@[csem] theorem shl_u8_u8 [Dialect] {x y : Int} (h : 0 ≤ y ∧ y < 32) (hx : ¬(x < 0 ∨ 4294967296 ≤ x * 2 ^ y.toNat)) : Val.shl (.int .u8 x) (.int .u8 y) = .ok (.int .i32 (Int.bmod (x * 2 ^ y.toNat) 4294967296)) := (if_pos h).trans (if_neg fun hh => hx hh.2.2)
@[csem] theorem add_u8_i16 [Dialect] (x y : Int) : Val.add (.int .u8 x) (.int .i16 y) = mkInt .i32 (x + y) := by rfl
@[csem] theorem sub_u8_i16 [Dialect] (x y : Int) : Val.sub (.int .u8 x) (.int .i16 y) = mkInt .i32 (x - y) := by rfl
@[csem] theorem mul_u8_i16 [Dialect] (x y : Int) : Val.mul (.int .u8 x) (.int .i16 y) = mkInt .i32 (x * y) := by rfl
@[csem] theorem and_u8_i16 (x y : Int) : Val.and (.int .u8 x) (.int .i16 y) = .ok (.int .i32 (intOfBits .i32 (BitVec.ofInt 32 x &&& BitVec.ofInt 32 y))) := by rfl
@[csem] theorem or_u8_i16 (x y : Int) : Val.or (.int .u8 x) (.int .i16 y) = .ok (.int .i32 (intOfBits .i32 (BitVec.ofInt 32 x ||| BitVec.ofInt 32 y))) := by rfl
@[csem] theorem xor_u8_i16 (x y : Int) : Val.xor (.int .u8 x) (.int .i16 y) = .ok (.int .i32 (intOfBits .i32 (BitVec.ofInt 32 x ^^^ BitVec.ofInt 32 y))) := by rfl
@[csem] theorem lt_u8_i16 (x y : Int) : Val.lt (.int .u8 x) (.int .i16 y) = decide (x < y) := by rfl
@[csem] theorem gt_u8_i16 (x y : Int) : Val.gt (.int .u8 x) (.int .i16 y) = decide (y < x) := by rfl
@[csem] theorem eq_u8_i16 (x y : Int) : Val.eq (.int .u8 x) (.int .i16 y) = decide (x = y) := by rfl
@[csem] theorem cast_u8_i16 (x : Int) : Val.cast (.int .i16) (.int .u8 x) = .ok (.int .i16 x) := by rfl
@[csem] theorem toBits_i16_u8 (x : Int) : Val.toBits (.int .i16) (.int .u8 x) = .ok (BitVec.ofInt 16 x) := by rfl
@[csem] theorem shr_u8_i16 [Dialect] (x : Int) {y : Int} (h : 0 ≤ y ∧ y < 32) : Val.shr (.int .u8 x) (.int .i16 y) = .ok (.int .i32 (x / 2 ^ y.toNat)) := if_pos h
@[csem] theorem shl_u8_i16 [Dialect] {x y : Int} (h : 0 ≤ y ∧ y < 32) (hx : ¬(x < 0 ∨ 4294967296 ≤ x * 2 ^ y.toNat)) : Val.shl (.int .u8 x) (.int .i16 y) = .ok (.int .i32 (Int.bmod (x * 2 ^ y.toNat) 4294967296)) := (if_pos h).trans (if_neg fun hh => hx hh.2.2)
@[csem] theorem add_u8_u16 [Dialect] (x y : Int) : Val.add (.int .u8 x) (.int .u16 y) = mkInt .i32 (x + y) := by rfl
@[csem] theorem sub_u8_u16 [Dialect] (x y : Int) : Val.sub (.int .u8 x) (.int .u16 y) = mkInt .i32 (x - y) := by rfl
@[csem] theorem mul_u8_u16 [Dialect] (x y : Int) : Val.mul (.int .u8 x) (.int .u16 y) = mkInt .i32 (x * y) := by rfl
@[csem] theorem and_u8_u16 (x y : Int) : Val.and (.int .u8 x) (.int .u16 y) = .ok (.int .i32 (intOfBits .i32 (BitVec.ofInt 32 x &&& BitVec.ofInt 32 y))) := by rfl
@[csem] theorem or_u8_u16 (x y : Int) : Val.or (.int .u8 x) (.int .u16 y) = .ok (.int .i32 (intOfBits .i32 (BitVec.ofInt 32 x ||| BitVec.ofInt 32 y))) := by rfl
@[csem] theorem xor_u8_u16 (x y : Int) : Val.xor (.int .u8 x) (.int .u16 y) = .ok (.int .i32 (intOfBits .i32 (BitVec.ofInt 32 x ^^^ BitVec.ofInt 32 y))) := by rfl
@[csem] theorem lt_u8_u16 (x y : Int) : Val.lt (.int .u8 x) (.int .u16 y) = decide (x < y) := by rfl
@[csem] theorem gt_u8_u16 (x y : Int) : Val.gt (.int .u8 x) (.int .u16 y) = decide (y < x) := by rfl
@[csem] theorem eq_u8_u16 (x y : Int) : Val.eq (.int .u8 x) (.int .u16 y) = decide (x = y) := by rfl
@[csem] theorem cast_u8_u16 (x : Int) : Val.cast (.int .u16) (.int .u8 x) = .ok (.int .u16 x) := by rfl
@[csem] theorem toBits_u16_u8 (x : Int) : Val.toBits (.int .u16) (.int .u8 x) = .ok (BitVec.ofInt 16 x) := by rfl
@[csem] theorem shr_u8_u16 [Dialect] (x : Int) {y : Int} (h : 0 ≤ y ∧ y < 32) : Val.shr (.int .u8 x) (.int .u16 y) = .ok (.int .i32 (x / 2 ^ y.toNat)) := if_pos h
@[csem] theorem shl_u8_u16 [Dialect] {x y : Int} (h : 0 ≤ y ∧ y < 32) (hx : ¬(x < 0 ∨ 4294967296 ≤ x * 2 ^ y.toNat)) : Val.shl (.int .u8 x) (.int .u16 y) = .ok (.int .i32 (Int.bmod (x * 2 ^ y.toNat) 4294967296)) := (if_pos h).trans (if_neg fun hh => hx hh.2.2)
@[csem] theorem add_u8_i32 [Dialect] (x y : Int) : Val.add (.int .u8 x) (.int .i32 y) = mkInt .i32 (x + y) := by rfl
@[csem] theorem sub_u8_i32 [Dialect] (x y : Int) : Val.sub (.int .u8 x) (.int .i32 y) = mkInt .i32 (x - y) := by rfl
@[csem] theorem mul_u8_i32 [Dialect] (x y : Int) : Val.mul (.int .u8 x) (.int .i32 y) = mkInt .i32 (x * y) := by rfl
@[csem] theorem and_u8_i32 (x y : Int) : Val.and (.int .u8 x) (.int .i32 y) = .ok (.int .i32 (intOfBits .i32 (BitVec.ofInt 32 x &&& BitVec.ofInt 32 y))) := by rfl
@[csem] theorem or_u8_i32 (x y : Int) : Val.or (.int .u8 x) (.int .i32 y) = .ok (.int .i32 (intOfBits .i32 (BitVec.ofInt 32 x ||| BitVec.ofInt 32 y))) := by rfl
@[csem] theorem xor_u8_i32 (x y : Int) : Val.xor (.int .u8 x) (.int .i32 y) = .ok (.int .i32 (intOfBits .i32 (BitVec.ofInt 32 x ^^^ BitVec.ofInt 32 y))) := by rfl
@[csem] theorem lt_u8_i32 (x y : Int) : Val.lt (.int .u8 x) (.int .i32 y) = decide (x < y) := by rfl
@[csem] theorem gt_u8_i32 (x y : Int) : Val.gt (.int .u8 x) (.int .i32 y) = decide (y < x) := by rfl
@[csem] theorem eq_u8_i32 (x y : Int) : Val.eq (.int .u8 x) (.int .i32 y) = decide (x = y) := by rfl
@[csem] theorem cast_u8_i32 (x : Int) : Val.cast (.int .i32) (.int .u8 x) = .ok (.int .i32 x) := by rfl
@[csem] theorem toBits_i32_u8 (x : Int) : Val.toBits (.int .i32) (.int .u8 x) = .ok (BitVec.ofInt 32 x) := by rfl
@[csem] theorem shr_u8_i32 [Dialect] (x : Int) {y : Int} (h : 0 ≤ y ∧ y < 32) : Val.shr (.int .u8 x) (.int .i32 y) = .ok (.int .i32 (x / 2 ^ y.toNat)) := if_pos h
@[csem] theorem shl_u8_i32 [Dialect] {x y : Int} (h : 0 ≤ y ∧ y < 32) (hx : ¬(x < 0 ∨ 4294967296 ≤ x * 2 ^ y.toNat)) : Val.shl (.int .u8 x) (.int .i32 y) = .ok (.int .i32 (Int.bmod (x * 2 ^ y.toNat) 4294967296)) := (if_pos h).trans (if_neg fun hh => hx hh.2.2)
@[csem] theorem add_u8_u32 [Dialect] (x y : Int) : Val.add (.int .u8 x) (.int .u32 y) = mkInt .u32 (x + y) := by rfl
@[csem] theorem sub_u8_u32 [Dialect] (x y : Int) : Val.sub (.int .u8 x) (.int .u32 y) = mkInt .u32 (x - y) := by rfl
@[csem] theorem mul_u8_u32 [Dialect] (x y : Int) : Val.mul (.int .u8 x) (.int .u32 y) = mkInt .u32 (x * y) := by rfl
@[csem] theorem and_u8_u32 (x y : Int) : Val.and (.int .u8 x) (.int .u32 y) = .ok (.int .u32 (intOfBits .u32 (BitVec.ofInt 32 x &&& BitVec.ofInt 32 y))) := by rfl
@[csem] theorem or_u8_u32 (x y : Int) : Val.or (.int .u8 x) (.int .u32 y) = .ok (.int .u32 (intOfBits .u32 (BitVec.ofInt 32 x ||| BitVec.ofInt 32 y))) := by rfl
@[csem] theorem xor_u8_u32 (x y : Int) : Val.xor (.int .u8 x) (.int .u32 y) = .ok (.int .u32 (intOfBits .u32 (BitVec.ofInt 32 x ^^^ BitVec.ofInt 32 y))) := by rfl
@[csem] theorem lt_u8_u32 (x y : Int) : Val.lt (.int .u8 x) (.int .u32 y) = decide (x < y) := by rfl
@[csem] theorem gt_u8_u32 (x y : Int) : Val.gt (.int .u8 x) (.int .u32 y) = decide (y < x) := by rfl
@[csem] theorem eq_u8_u32 (x y : Int) : Val.eq (.int .u8 x) (.int .u32 y) = decide (x = y) := by rfl
@[csem] theorem cast_u8_u32 (x : Int) : Val.cast (.int .u32) (.int .u8 x) = .ok (.int .u32 x) := by rfl
@[csem] theorem toBits_u32_u8 (x : Int) : Val.toBits (.int .u32) (.int .u8 x) = .ok (BitVec.ofInt 32 x) := by rfl
@[csem] theorem shr_u8_u32 [Dialect] (x : Int) {y : Int} (h : 0 ≤ y ∧ y < 32) : Val.shr (.int .u8 x) (.int .u32 y) = .ok (.int .i32 (x / 2 ^ y.toNat)) := if_pos h
@[csem] theorem shl_u8_u32 [Dialect] {x y : Int} (h : 0 ≤ y ∧ y < 32) (hx : ¬(x < 0 ∨ 4294967296 ≤ x * 2 ^ y.toNat)) : Val.shl (.int .u8 x) (.int .u32 y) = .ok (.int .i32 (Int.bmod (x * 2 ^ y.toNat) 4294967296)) := (if_pos h).trans (if_neg fun hh => hx hh.2.2)
@[csem] theorem add_u8_i64 [Dialect] (x y : Int) : Val.add (.int .u8 x) (.int .i64 y) = mkInt .i64 (x + y) := by rfl
@[csem] theorem sub_u8_i64 [Dialect] (x y : Int) : Val.sub (.int .u8 x) (.int .i64 y) = mkInt .i64 (x - y) := by rfl
@[csem] theorem mul_u8_i64 [Dialect] (x y : Int) : Val.mul (.int .u8 x) (.int .i64 y) = mkInt .i64 (x * y) := by rfl
@[csem] theorem and_u8_i64 (x y : Int) : Val.and (.int .u8 x) (.int .i64 y) = .ok (.int .i64 (intOfBits .i64 (BitVec.ofInt 64 x &&& BitVec.ofInt 64 y))) := by rfl
@[csem] theorem or_u8_i64 (x y : Int) : Val.or (.int .u8 x) (.int .i64 y) = .ok (.int .i64 (intOfBits .i64 (BitVec.ofInt 64 x ||| BitVec.ofInt 64 y))) := by rfl
@[csem] theorem xor_u8_i64 (x y : Int) : Val.xor (.int .u8 x) (.int .i64 y) = .ok (.int .i64 (intOfBits .i64 (BitVec.ofInt 64 x ^^^ BitVec.ofInt 64 y))) := by rfl
@[csem] theorem lt_u8_i64 (x y : Int) : Val.lt (.int .u8 x) (.int .i64 y) = decide (x < y) := by rfl
@[csem] theorem gt_u8_i64 (x y : Int) : Val.gt (.int .u8 x) (.int .i64 y) = decide (y < x) := by rfl
@[csem] theorem eq_u8_i64 (x y : Int) : Val.eq (.int .u8 x) (.int .i64 y) = decide (x = y) := by rfl
@[csem] theorem cast_u8_i64 (x : Int) : Val.cast (.int .i64) (.int .u8 x) = .ok (.int .i64 x) := by rfl
@[csem] theorem toBits_i64_u8 (x : Int) : Val.toBits (.int .i64) (.int .u8 x) = .ok (BitVec.ofInt 64 x) := by rfl
@[csem] theorem shr_u8_i64 [Dialect] (x : Int) {y : Int} (h : 0 ≤ y ∧ y < 32) : Val.shr (.int .u8 x) (.int .i64 y) = .ok (.int .i32 (x / 2 ^ y.toNat)) := if_pos h
@[csem] theorem shl_u8_i64 [Dialect] {x y : Int} (h : 0 ≤ y ∧ y < 32) (hx : ¬(x < 0 ∨ 4294967296 ≤ x * 2 ^ y.toNat)) : Val.shl (.int .u8 x) (.int .i64 y) = .ok (.int .i32 (Int.bmod (x * 2 ^ y.toNat) 4294967296)) := (if_pos h).trans (if_neg fun hh => hx hh.2.2)
@[csem] theorem add_u8_u64 [Dialect] (x y : Int) : Val.add (.int .u8 x) (.int .u64 y) = mkInt .u64 (x + y) := by rfl
@[csem] theorem sub_u8_u64 [Dialect] (x y : Int) : Val.sub (.int .u8 x) (.int .u64 y) = mkInt .u64 (x - y) := by rfl
@[csem] theorem mul_u8_u64 [Dialect] (x y : Int) : Val.mul (.int .u8 x) (.int .u64 y) = mkInt .u64 (x * y) := by rfl
@[csem] theorem and_u8_u64 (x y : Int) : Val.and (.int .u8 x) (.int .u64 y) = .ok (.int .u64 (intOfBits .u64 (BitVec.ofInt 64 x &&& BitVec.ofInt 64 y))) := by rfl
@[csem] theorem or_u8_u64 (x y : Int) : Val.or (.int .u8 x) (.int .u64 y) = .ok (.int .u64 (intOfBits .u64 (BitVec.ofInt 64 x ||| BitVec.ofInt 64 y))) := by rfl
@[csem] theorem xor_u8_u64 (x y : Int) : Val.xor (.int .u8 x) (.int .u64 y) = .ok (.int .u64 (intOfBits .u64 (BitVec.ofInt 64 x ^^^ BitVec.ofInt 64 y))) := by rfl
@[csem] theorem lt_u8_u64 (x y : Int) : Val.lt (.int .u8 x) (.int .u64 y) = decide (x < y) := by rfl
@[csem] theorem gt_u8_u64 (x y : Int) : Val.gt (.int .u8 x) (.int .u64 y) = decide (y < x) := by rfl
@[csem] theorem eq_u8_u64 (x y : Int) : Val.eq (.int .u8 x) (.int .u64 y) = decide (x = y) := by rfl
@[csem] theorem cast_u8_u64 (x : Int) : Val.cast (.int .u64) (.int .u8 x) = .ok (.int .u64 x) := by rfl
@[csem] theorem toBits_u64_u8 (x : Int) : Val.toBits (.int .u64) (.int .u8 x) = .ok (BitVec.ofInt 64 x) := by rfl
@[csem] theorem shr_u8_u64 [Dialect] (x : Int) {y : Int} (h : 0 ≤ y ∧ y < 32) : Val.shr (.int .u8 x) (.int .u64 y) = .ok (.int .i32 (x / 2 ^ y.toNat)) := if_pos h
@[csem] theorem shl_u8_u64 [Dialect] {x y : Int} (h : 0 ≤ y ∧ y < 32) (hx : ¬(x < 0 ∨ 4294967296 ≤ x * 2 ^ y.toNat)) : Val.shl (.int .u8 x) (.int .u64 y) = .ok (.int .i32 (Int.bmod (x * 2 ^ y.toNat) 4294967296)) := (if_pos h).trans (if_neg fun hh => hx hh.2.2)
@[csem] theorem ofBits_i16 (b : BitVec 16) : Val.ofBits (.int .i16) b = .int .i16 b.toInt := by rfl
@[csem] theorem not_i16 (x : Int) : Val.not (.int .i16 x) = .ok (.int .i32 (intOfBits .i32 (~~~ BitVec.ofInt 32 x))) := by rfl
@[csem] theorem truth_i16 (x : Int) : Val.truth (.int .i16 x) = decide (x ≠ 0) := by rfl
@[csem] theorem intOfBits_i16 (b : BitVec 16) : intOfBits .i16 b = b.toInt := by rfl
@[csem] theorem idx_i16 (x : Int) : Val.idx (.int .i16 x) = x := by rfl
@[csem] theorem cast_i16_f32 (x : Int) : Val.cast .f32 (.int .i16 x) = .ok (.f32 (BitVec.ofNat 32 (Fmt.b32.ofInt x))) := by rfl
@[csem] theorem cast_i16_f64 (x : Int) : Val.cast .f64 (.int .i16 x) = .ok (.f64 (BitVec.ofNat 64 (Fmt.b64.ofInt x))) := by rfl
@[csem] theorem add_i16_i8 [Dialect] (x y : Int) : Val.add (.int .i16 x) (.int .i8 y) = mkInt .i32 (x + y) := by rfl
@[csem] theorem sub_i16_i8 [Dialect] (x y : Int) : Val.sub (.int .i16 x) (.int .i8 y) = mkInt .i32 (x - y) := by rfl
@[csem] theorem mul_i16_i8 [Dialect] (x y : Int) : Val.mul (.int .i16 x) (.int .i8 y) = mkInt .i32 (x * y) := by rfl
@[csem] theorem and_i16_i8 (x y : Int) : Val.and (.int .i16 x) (.int .i8 y) = .ok (.int .i32 (intOfBits .i32 (BitVec.ofInt 32 x &&& BitVec.ofInt 32 y))) := by rfl
@[csem] theorem or_i16_i8 (x y : Int) : Val.or (.int .i16 x) (.int .i8 y) = .ok (.int .i32 (intOfBits .i32 (BitVec.ofInt 32 x ||| BitVec.ofInt 32 y))) := by rfl
@[csem] theorem xor_i16_i8 (x y : Int) : Val.xor (.int .i16 x) (.int .i8 y) = .ok (.int .i32 (intOfBits .i32 (BitVec.ofInt 32 x ^^^ BitVec.ofInt 32 y))) := by rfl
@[csem] theorem lt_i16_i8 (x y : Int) : Val.lt (.int .i16 x) (.int .i8 y) = decide (x < y) := by rfl
@[csem] theorem gt_i16_i8 (x y : Int) : Val.gt (.int .i16 x) (.int .i8 y) = decide (y < x) := by rfl
@[csem] theorem eq_i16_i8 (x y : Int) : Val.eq (.int .i16 x) (.int .i8 y) = decide (x = y) := by rfl
@[csem] theorem cast_i16_i8 (x : Int) : Val.cast (.int .i8) (.int .i16 x) = .ok (.int .i8 (Int.bmod x 256)) := by rfl
@[csem] theorem toBits_i8_i16 (x : Int) : Val.toBits (.int .i8) (.int .i16 x) = .ok (BitVec.ofInt 8 x) := by rfl
@[csem] theorem shr_i16_i8 [Dialect] (x : Int) {y : Int} (h : 0 ≤ y ∧ y < 32) : Val.shr (.int .i16 x) (.int .i8 y) = .ok (.int .i32 (x / 2 ^ y.toNat)) := if_pos h
@[csem] theorem shl_i16_i8 [Dialect] {x y : Int} (h : 0 ≤ y ∧ y < 32) (hx : ¬(x < 0 ∨ 4294967296 ≤ x * 2 ^ y.toNat)) : Val.shl (.int .i16 x) (.int .i8 y) = .ok (.int .i32 (Int.bmod (x * 2 ^ y.toNat) 4294967296)) := (if_pos h).trans (if_neg fun hh => hx hh.2.2)
@[csem] theorem add_i16_u8 [Dialect] (x y : Int) : Val.add (.int .i16 x) (.int .u8 y) = mkInt .i32 (x + y) := by rfl
@[csem] theorem sub_i16_u8 [Dialect] (x y : Int) : Val.sub (.int .i16 x) (.int .u8 y) = mkInt .i32 (x - y) := by rfl
@[csem] theorem mul_i16_u8 [Dialect] (x y : Int) : Val.mul (.int .i16 x) (.int .u8 y) = mkInt .i32 (x * y) := by rfl
@[csem] theorem and_i16_u8 (x y : Int) : Val.and (.int .i16 x) (.int .u8 y) = .ok (.int .i32 (intOfBits .i32 (BitVec.ofInt 32 x &&& BitVec.ofInt 32 y))) := by rfl
@[csem] theorem or_i16_u8 (x y : Int) : Val.or (.int .i16 x) (.int .u8 y) = .ok (.int .i32 (intOfBits .i32 (BitVec.ofInt 32 x ||| BitVec.ofInt 32 y))) := by rfl
@[csem] theorem xor_i16_u8 (x y : Int) : Val.xor (.int .i16 x) (.int .u8 y) = .ok (.int .i32 (intOfBits .i32 (BitVec.ofInt 32 x ^^^ BitVec.ofInt 32 y))) := by rfl
@[csem] theorem lt_i16_u8 (x y : Int) : Val.lt (.int .i16 x) (.int .u8 y) = decide (x < y) := by rfl
@[csem] theorem gt_i16_u8 (x y : Int) : Val.gt (.int .i16 x) (.int .u8 y) = decide (y < x) := by rfl
@[csem] theorem eq_i16_u8 (x y : Int) : Val.eq (.int .i16 x) (.int .u8 y) = decide (x = y) := by rfl
@[csem] theorem cast_i16_u8 (x : Int) : Val.cast (.int .u8) (.int .i16 x) = .ok (.int .u8 (x % 256)) := by rfl
@[csem] theorem toBits_u8_i16 (x : Int) : Val.toBits (.int .u8) (.int .i16 x) = .ok (BitVec.ofInt 8 x) := by rfl
@[csem] theorem shr_i16_u8 [Dialect] (x : Int) {y : Int} (h : 0 ≤ y ∧ y < 32) : Val.shr (.int .i16 x) (.int .u8 y) = .ok (.int .i32 (x / 2 ^ y.toNat)) := if_pos h
@[csem] theorem shl_i16_u8 [Dialect] {x y : Int} (h : 0 ≤ y ∧ y < 32) (hx : ¬(x < 0 ∨ 4294967296 ≤ x * 2 ^ y.toNat)) : Val.shl (.int .i16 x) (.int .u8 y) = .ok (.int .i32 (Int.bmod (x * 2 ^ y.toNat) 4294967296)) := (if_pos h).trans (if_neg fun hh => hx hh.2.2)
@[csem] theorem add_i16_i16 [Dialect] (x y : Int) : Val.add (.int .i16 x) (.int .i16 y) = mkInt .i32 (x + y) := by rfl
@[csem] theorem sub_i16_i16 [Dialect] (x y : Int) : Val.sub (.int .i16 x) (.int .i16 y) = mkInt .i32 (x - y) := by rfl
@[csem] theorem mul_i16_i16 [Dialect] (x y : Int) : Val.mul (.int .i16 x) (.int .i16 y) = mkInt .i32 (x * y) := by rfl
@[csem] theorem and_i16_i16 (x y : Int) : Val.and (.int .i16 x) (.int .i16 y) = .ok (.int .i32 (intOfBits .i32 (BitVec.ofInt 32 x &&& BitVec.ofInt 32 y))) := by rfl
@[csem] theorem or_i16_i16 (x y : Int) : Val.or (.int .i16 x) (.int .i16 y) = .ok (.int .i32 (intOfBits .i32 (BitVec.ofInt 32 x ||| BitVec.ofInt 32 y))) := by rfl
@[csem] theorem xor_i16_i16 (x y : Int) : Val.xor (.int .i16 x) (.int .i16 y) = .ok (.int .i32 (intOfBits .i32 (BitVec.ofInt 32 x ^^^ BitVec.ofInt 32 y))) := by rfl
@[csem] theorem lt_i16_i16 (x y : Int) : Val.lt (.int .i16 x) (.int .i16 y) = decide (x < y) := by rfl
@[csem] theorem gt_i16_i16 (x y : Int) : Val.gt (.int .i16 x) (.int .i16 y) = decide (y < x) := by rfl
@[csem] theorem eq_i16_i16 (x y : Int) : Val.eq (.int .i16 x) (.int .i16 y) = decide (x = y) := by rfl
@[csem] theorem cast_i16_i16 (x : Int) : Val.cast (.int .i16) (.int .i16 x) = .ok (.int .i16 x) := by rfl
@[csem] theorem toBits_i16_i16 (x : Int) : Val.toBits (.int .i16) (.int .i16 x) = .ok (BitVec.ofInt 16 x) := by rfl
@[csem] theorem shr_i16_i16 [Dialect] (x : Int) {y : Int} (h : 0 ≤ y ∧ y < 32) : Val.shr (.int .i16 x) (.int .i16 y) = .ok (.int .i32 (x / 2 ^ y.toNat)) := if_pos h
@[csem] theorem shl_i16_i16 [Dialect] {x y : Int} (h : 0 ≤ y ∧ y < 32) (hx : ¬(x < 0 ∨ 4294967296 ≤ x * 2 ^ y.toNat)) : Val.shl (.int .i16 x) (.int .i16 y) = .ok (.int .i32 (Int.bmod (x * 2 ^ y.toNat) 4294967296)) := (if_pos h).trans (if_neg fun hh => hx hh.2.2)
@[csem] theorem add_i16_u16 [Dialect] (x y : Int) : Val.add (.int .i16 x) (.int .u16 y) = mkInt .i32 (x + y) := by rfl
@[csem] theorem sub_i16_u16 [Dialect] (x y : Int) : Val.sub (.int .i16 x) (.int .u16 y) = mkInt .i32 (x - y) := by rfl
@[csem] theorem mul_i16_u16 [Dialect] (x y : Int) : Val.mul (.int .i16 x) (.int .u16 y) = mkInt .i32 (x * y) := by rfl
@[csem] theorem and_i16_u16 (x y : Int) : Val.and (.int .i16 x) (.int .u16 y) = .ok (.int .i32 (intOfBits .i32 (BitVec.ofInt 32 x &&& BitVec.ofInt 32 y))) := by rfl
@[csem] theorem or_i16_u16 (x y : Int) : Val.or (.int .i16 x) (.int .u16 y) = .ok (.int .i32 (intOfBits .i32 (BitVec.ofInt 32 x ||| BitVec.ofInt 32 y))) := by rfl
@[csem] theorem xor_i16_u16 (x y : Int) : Val.xor (.int .i16 x) (.int .u16 y) = .ok (.int .i32 (intOfBits .i32 (BitVec.ofInt 32 x ^^^ BitVec.ofInt 32 y))) := by rfl
@[csem] theorem lt_i16_u16 (x y : Int) : Val.lt (.int .i16 x) (.int .u16 y) = decide (x < y) := by rfl
@[csem] theorem gt_i16_u16 (x y : Int) : Val.gt (.int .i16 x) (.int .u16 y) = decide (y < x) := by rfl
@[csem] theorem eq_i16_u16 (x y : Int) : Val.eq (.int .i16 x) (.int .u16 y) = decide (x = y) := by rfl
@[csem] theorem cast_i16_u16 (x : Int) : Val.cast (.int .u16) (.int .i16 x) = .ok (.int .u16 (x % 65536)) := by rfl
@[csem] theorem toBits_u16_i16 (x : Int) : Val.toBits (.int .u16) (.int .i16 x) = .ok (BitVec.ofInt 16 x) := by rfl
@[csem] theorem shr_i16_u16 [Dialect] (x : Int) {y : Int} (h : 0 ≤ y ∧ y < 32) : Val.shr (.int .i16 x) (.int .u16 y) = .ok (.int .i32 (x / 2 ^ y.toNat)) := if_pos h
@[csem] theorem shl_i16_u16 [Dialect] {x y : Int} (h : 0 ≤ y ∧ y < 32) (hx : ¬(x < 0 ∨ 4294967296 ≤ x * 2 ^ y.toNat)) : Val.shl (.int .i16 x) (.int .u16 y) = .ok (.int .i32 (Int.bmod (x * 2 ^ y.toNat) 4294967296)) := (if_pos h).trans (if_neg fun hh => hx hh.2.2)
@[csem] theorem add_i16_i32 [Dialect] (x y : Int) : Val.add (.int .i16 x) (.int .i32 y) = mkInt .i32 (x + y) := by rfl
@[csem] theorem sub_i16_i32 [Dialect] (x y : Int) : Val.sub (.int .i16 x) (.int .i32 y) = mkInt .i32 (x - y) := by rfl
@[csem] theorem mul_i16_i32 [Dialect] (x y : Int) : Val.mul (.int .i16 x) (.int .i32 y) = mkInt .i32 (x * y) := by rfl
@[csem] theorem and_i16_i32 (x y : Int) : Val.and (.int .i16 x) (.int .i32 y) = .ok (.int .i32 (intOfBits .i32 (BitVec.ofInt 32 x &&& BitVec.ofInt 32 y))) := by rfl
@[csem] theorem or_i16_i32 (x y : Int) : Val.or (.int .i16 x) (.int .i32 y) = .ok (.int .i32 (intOfBits .i32 (BitVec.ofInt 32 x ||| BitVec.ofInt 32 y))) := by rfl
@[csem] theorem xor_i16_i32 (x y : Int) : Val.xor (.int .i16 x) (.int .i32 y) = .ok (.int .i32 (intOfBits .i32 (BitVec.ofInt 32 x ^^^ BitVec.ofInt 32 y))) := by rfl
@[csem] theorem lt_i16_i32 (x y : Int) : Val.lt (.int .i16 x) (.int .i32 y) = decide (x < y) := by rfl
@[csem] theorem gt_i16_i32 (x y : Int) : Val.gt (.int .i16 x) (.int .i32 y) = decide (y < x) := by rfl
@[csem] theorem eq_i16_i32 (x y : Int) : Val.eq (.int .i16 x) (.int .i32 y) = decide (x = y) := by rfl
@[csem] theorem cast_i16_i32 (x : Int) : Val.cast (.int .i32) (.int .i16 x) = .ok (.int .i32 x) := by rfl
@[csem] theorem toBits_i32_i16 (x : Int) : Val.toBits (.int .i32) (.int .i16 x) = .ok (BitVec.ofInt 32 x) := by rfl
@[csem] theorem shr_i16_i32 [Dialect] (x : Int) {y : Int} (h : 0 ≤ y ∧ y < 32) : Val.shr (.int .i16 x) (.int .i32 y) = .ok (.int .i32 (x / 2 ^ y.toNat)) := if_pos h
@[csem] theorem shl_i16_i32 [Dialect] {x y : Int} (h : 0 ≤ y ∧ y < 32) (hx : ¬(x < 0 ∨ 4294967296 ≤ x * 2 ^ y.toNat)) : Val.shl (.int .i16 x) (.int .i32 y) = .ok (.int .i32 (Int.bmod (x * 2 ^ y.toNat) 4294967296)) := (if_pos h).trans (if_neg fun hh => hx hh.2.2)
@[csem] theorem add_i16_u32 [Dialect] (x y : Int) : Val.add (.int .i16 x) (.int .u32 y) = mkInt .u32 ((x % 4294967296) + y) := by rfl
@[csem] theorem sub_i16_u32 [Dialect] (x y : Int) : Val.sub (.int .i16 x) (.int .u32 y) = mkInt .u32 ((x % 4294967296) - y) := by rfl
@[csem] theorem mul_i16_u32 [Dialect] (x y : Int) : Val.mul (.int .i16 x) (.int .u32 y) = mkInt .u32 ((x % 4294967296) * y) := by rfl
@[csem] theorem and_i16_u32 (x y : Int) : Val.and (.int .i16 x) (.int .u32 y) = .ok (.int .u32 (intOfBits .u32 (BitVec.ofInt 32 x &&& BitVec.ofInt 32 y))) := by rfl
@[csem] theorem or_i16_u32 (x y : Int) : Val.or (.int .i16 x) (.int .u32 y) = .ok (.int .u32 (intOfBits .u32 (BitVec.ofInt 32 x ||| BitVec.ofInt 32 y))) := by rfl
@[csem] theorem xor_i16_u32 (x y : Int) : Val.xor (.int .i16 x) (.int .u32 y) = .ok (.int .u32 (intOfBits .u32 (BitVec.ofInt 32 x ^^^ BitVec.ofInt 32 y))) := by rfl
@[csem] theorem lt_i16_u32 (x y : Int) : Val.lt (.int .i16 x) (.int .u32 y) = decide ((x % 4294967296) < y) := by rfl
@[csem] theorem gt_i16_u32 (x y : Int) : Val.gt (.int .i16 x) (.int .u32 y) = decide (y < (x % 4294967296)) := by rfl
@[csem] theorem eq_i16_u32 (x y : Int) : Val.eq (.int .i16 x) (.int .u32 y) = decide ((x % 4294967296) = y) := by rfl
@[csem] theorem cast_i16_u32 (x : Int) : Val.cast (.int .u32) (.int .i16 x) = .ok (.int .u32 (x % 4294967296)) := by rfl
@[csem] theorem toBits_u32_i16 (x : Int) : Val.toBits (.int .u32) (.int .i16 x) = .ok (BitVec.ofInt 32 x) := by rfl
@[csem] theorem shr_i16_u32 [Dialect] (x : Int) {y : Int} (h : 0 ≤ y ∧ y < 32) : Val.shr (.int .i16 x) (.int .u32 y) = .ok (.int .i32 (x / 2 ^ y.toNat)) := if_pos h
@[csem] theorem shl_i16_u32 [Dialect] {x y : Int} (h : 0 ≤ y ∧ y < 32) (hx : ¬(x < 0 ∨ 4294967296 ≤ x * 2 ^ y.toNat)) : Val.shl (.int .i16 x) (.int .u32 y) = .ok (.int .i32 (Int.bmod (x * 2 ^ y.toNat) 4294967296)) := (if_pos h).trans (if_neg fun hh => hx hh.2.2)
@[csem] theorem add_i16_i64 [Dialect] (x y : Int) : Val.add (.int .i16 x) (.int .i64 y) = mkInt .i64 (x + y) := by rfl
@[csem] theorem sub_i16_i64 [Dialect] (x y : Int) : Val.sub (.int .i16 x) (.int .i64 y) = mkInt .i64 (x - y) := by rfl
@[csem] theorem mul_i16_i64 [Dialect] (x y : Int) : Val.mul (.int .i16 x) (.int .i64 y) = mkInt .i64 (x * y) := by rfl
@[csem] theorem and_i16_i64 (x y : Int) : Val.and (.int .i16 x) (.int .i64 y) = .ok (.int .i64 (intOfBits .i64 (BitVec.ofInt 64 x &&& BitVec.ofInt 64 y))) := by rfl
@[csem] theorem or_i16_i64 (x y : Int) : Val.or (.int .i16 x) (.int .i64 y) = .ok (.int .i64 (intOfBits .i64 (BitVec.ofInt 64 x ||| BitVec.ofInt 64 y))) := by rfl
@[csem] theorem xor_i16_i64 (x y : Int) : Val.xor (.int .i16 x) (.int .i64 y) = .ok (.int .i64 (intOfBits .i64 (BitVec.ofInt 64 x ^^^ BitVec.ofInt 64 y))) := by rfl
@[csem] theorem lt_i16_i64 (x y : Int) : Val.lt (.int .i16 x) (.int .i64 y) = decide (x < y) := by rfl
@[csem] theorem gt_i16_i64 (x y : Int) : Val.gt (.int .i16 x) (.int .i64 y) = decide (y < x) := by rfl
@[csem] theorem eq_i16_i64 (x y : Int) : Val.eq (.int .i16 x) (.int .i64 y) = decide (x = y) := by rfl
@[csem] theorem cast_i16_i64 (x : Int) : Val.cast (.int .i64) (.int .i16 x) = .ok (.int .i64 x) := by rfl
@[csem] theorem toBits_i64_i16 (x : Int) : Val.toBits (.int .i64) (.int .i16 x) = .ok (BitVec.ofInt 64 x) := by rfl
@[csem] theorem shr_i16_i64 [Dialect] (x : Int) {y : Int} (h : 0 ≤ y ∧ y < 32) : Val.shr (.int .i16 x) (.int .i64 y) = .ok (.int .i32 (x / 2 ^ y.toNat)) := if_pos h
@[csem] theorem shl_i16_i64 [Dialect] {x y : Int} (h : 0 ≤ y ∧ y < 32) (hx : ¬(x < 0 ∨ 4294967296 ≤ x * 2 ^ y.toNat)) : Val.shl (.int .i16 x) (.int .i64 y) = .ok (.int .i32 (Int.bmod (x * 2 ^ y.toNat) 4294967296)) := (if_pos h).trans (if_neg fun hh => hx hh.2.2)
@[csem] theorem add_i16_u64 [Dialect] (x y : Int) : Val.add (.int .i16 x) (.int .u64 y) = mkInt .u64 ((x % 18446744073709551616) + y) := by rfl
@[csem] theorem sub_i16_u64 [Dialect] (x y : Int) : Val.sub (.int .i16 x) (.int .u64 y) = mkInt .u64 ((x % 18446744073709551616) - y) := by rfl
@[csem] theorem mul_i16_u64 [Dialect] (x y : Int) : Val.mul (.int .i16 x) (.int .u64 y) = mkInt .u64 ((x % 18446744073709551616) * y) := by rfl
@[csem] theorem and_i16_u64 (x y : Int) : Val.and (.int .i16 x) (.int .u64 y) = .ok (.int .u64 (intOfBits .u64 (BitVec.ofInt 64 x &&& BitVec.ofInt 64 y))) := by rfl
@[csem] theorem or_i16_u64 (x y : Int) : Val.or (.int .i16 x) (.int .u64 y) = .ok (.int .u64 (intOfBits .u64 (BitVec.ofInt 64 x ||| BitVec.ofInt 64 y))) := by rfl
@[csem] theorem xor_i16_u64 (x y : Int) : Val.xor (.int .i16 x) (.int .u64 y) = .ok (.int .u64 (intOfBits .u64 (BitVec.ofInt 64 x ^^^ BitVec.ofInt 64 y))) := by rfl
@[csem] theorem lt_i16_u64 (x y : Int) : Val.lt (.int .i16 x) (.int .u64 y) = decide ((x % 18446744073709551616) < y) := by rfl
@[csem] theorem gt_i16_u64 (x y : Int) : Val.gt (.int .i16 x) (.int .u64 y) = decide (y < (x % 18446744073709551616)) := by rfl
@[csem] theorem eq_i16_u64 (x y : Int) : Val.eq (.int .i16 x) (.int .u64 y) = decide ((x % 18446744073709551616) = y) := by rfl
@[csem] theorem cast_i16_u64 (x : Int) : Val.cast (.int .u64) (.int .i16 x) = .ok (.int .u64 (x % 18446744073709551616)) := by rfl
@[csem] theorem toBits_u64_i16 (x : Int) : Val.toBits (.int .u64) (.int .i16 x) = .ok (BitVec.ofInt 64 x) := by rfl
@[csem] theorem shr_i16_u64 [Dialect] (x : Int) {y : Int} (h : 0 ≤ y ∧ y < 32) : Val.shr (.int .i16 x) (.int .u64 y) = .ok (.int .i32 (x / 2 ^ y.toNat)) := if_pos h
@[csem] theorem shl_i16_u64 [Dialect] {x y : Int} (h : 0 ≤ y ∧ y < 32) (hx : ¬(x < 0 ∨ 4294967296 ≤ x * 2 ^ y.toNat)) : Val.shl (.int .i16 x) (.int .u64 y) = .ok (.int .i32 (Int.bmod (x * 2 ^ y.toNat) 4294967296)) := (if_pos h).trans (if_neg fun hh => hx hh.2.2)
@[csem] theorem ofBits_u16 (b : BitVec 16) : Val.ofBits (.int .u16) b = .int .u16 (b.toNat : Int) := by rfl
@[csem] theorem not_u16 (x : Int) : Val.not (.int .u16 x) = .ok (.int .i32 (intOfBits .i32 (~~~ BitVec.ofInt 32 x))) := by rfl
@[csem] theorem truth_u16 (x : Int) : Val.truth (.int .u16 x) = decide (x ≠ 0) := by rfl
@[csem] theorem intOfBits_u16 (b : BitVec 16) : intOfBits .u16 b = (b.toNat : Int) := by rfl
@[csem] theorem idx_u16 (x : Int) : Val.idx (.int .u16 x) = x := by rfl
@[csem] theorem cast_u16_f32 (x : Int) : Val.cast .f32 (.int .u16 x) = .ok (.f32 (BitVec.ofNat 32 (Fmt.b32.ofInt x))) := by rfl
@[csem] theorem cast_u16_f64 (x : Int) : Val.cast .f64 (.int .u16 x) = .ok (.f64 (BitVec.ofNat 64 (Fmt.b64.ofInt x))) := by rfl
@[csem] theorem add_u16_i8 [Dialect] (x y : Int) : Val.add (.int .u16 x) (.int .i8 y) = mkInt .i32 (x + y) := by rfl
@[csem] theorem sub_u16_i8 [Dialect] (x y : Int) : Val.sub (.int .u16 x) (.int .i8 y) = mkInt .i32 (x - y) := by rfl
@[csem] theorem mul_u16_i8 [Dialect] (x y : Int) : Val.mul (.int .u16 x) (.int .i8 y) = mkInt .i32 (x * y) := by rfl
@[csem] theorem and_u16_i8 (x y : Int) : Val.and (.int .u16 x) (.int .i8 y) = .ok (.int .i32 (intOfBits .i32 (BitVec.ofInt 32 x &&& BitVec.ofInt 32 y))) := by rfl
@[csem] theorem or_u16_i8 (x y : Int) : Val.or (.int .u16 x) (.int .i8 y) = .ok (.int .i32 (intOfBits .i32 (BitVec.ofInt 32 x ||| BitVec.ofInt 32 y))) := by rfl
@[csem] theorem xor_u16_i8 (x y : Int) : Val.xor (.int .u16 x) (.int .i8 y) = .ok (.int .i32 (intOfBits .i32 (BitVec.ofInt 32 x ^^^ BitVec.ofInt 32 y))) := by rfl
@[csem] theorem lt_u16_i8 (x y : Int) : Val.lt (.int .u16 x) (.int .i8 y) = decide (x < y) := by rfl
@[csem] theorem gt_u16_i8 (x y : Int) : Val.gt (.int .u16 x) (.int .i8 y) = decide (y < x) := by rfl
@[csem] theorem eq_u16_i8 (x y : Int) : Val.eq (.int .u16 x) (.int .i8 y) = decide (x = y) := by rfl
@[csem] theorem cast_u16_i8 (x : Int) : Val.cast (.int .i8) (.int .u16 x) = .ok (.int .i8 (Int.bmod x 256)) := by rfl
@[csem] theorem toBits_i8_u16 (x : Int) : Val.toBits (.int .i8) (.int .u16 x) = .ok (BitVec.ofInt 8 x) := by rfl
@[csem] theorem shr_u16_i8 [Dialect] (x : Int) {y : Int} (h : 0 ≤ y ∧ y < 32) : Val.shr (.int .u16 x) (.int .i8 y) = .ok (.int .i32 (x / 2 ^ y.toNat)) := if_pos h
@[csem] theorem shl_u16_i8 [Dialect] {x y : Int} (h : 0 ≤ y ∧ y < 32) (hx : ¬(x < 0 ∨ 4294967296 ≤ x * 2 ^ y.toNat)) : Val.shl (.int .u16 x) (.int .i8 y) = .ok (.int .i32 (Int.bmod (x * 2 ^ y.toNat) 4294967296)) := (if_pos h).trans (if_neg fun hh => hx hh.2.2)
@[csem] theorem add_u16_u8 [Dialect] (x y : Int) : Val.add (.int .u16 x) (.int .u8 y) = mkInt .i32 (x + y) := by rfl
@[csem] theorem sub_u16_u8 [Dialect] (x y : Int) : Val.sub (.int .u16 x) (.int .u8 y) = mkInt .i32 (x - y) := by rfl
@[csem] theorem mul_u16_u8 [Dialect] (x y : Int) : Val.mul (.int .u16 x) (.int .u8 y) = mkInt .i32 (x * y) := by rfl
@[csem] theorem and_u16_u8 (x y : Int) : Val.and (.int .u16 x) (.int .u8 y) = .ok (.int .i32 (intOfBits .i32 (BitVec.ofInt 32 x &&& BitVec.ofInt 32 y))) := by rfl
@[csem] theorem or_u16_u8 (x y : Int) : Val.or (.int .u16 x) (.int .u8 y) = .ok (.int .i32 (intOfBits .i32 (BitVec.ofInt 32 x ||| BitVec.ofInt 32 y))) := by rfl
@[csem] theorem xor_u16_u8 (x y : Int) : Val.xor (.int .u16 x) (.int .u8 y) = .ok (.int .i32 (intOfBits .i32 (BitVec.ofInt 32 x ^^^ BitVec.ofInt 32 y))) := by rfl
@[csem] theorem lt_u16_u8 (x y : Int) : Val.lt (.int .u16 x) (.int .u8 y) = decide (x < y) := by rfl
@[csem] theorem gt_u16_u8 (x y : Int) : Val.gt (.int .u16 x) (.int .u8 y) = decide (y < x) := by rfl
@[csem] theorem eq_u16_u8 (x y : Int) : Val.eq (.int .u16 x) (.int .u8 y) = decide (x = y) := by rfl
@[csem] theorem cast_u16_u8 (x : Int) : Val.cast (.int .u8) (.int .u16 x) = .ok (.int .u8 (x % 256)) := by rfl
@[csem] theorem toBits_u8_u16 (x : Int) : Val.toBits (.int .u8) (.int .u16 x) = .ok (BitVec.ofInt 8 x) := by rfl
@[csem] theorem shr_u16_u8 [Dialect] (x : Int) {y : Int} (h : 0 ≤ y ∧ y < 32) : Val.shr (.int .u16 x) (.int .u8 y) = .ok (.int .i32 (x / 2 ^ y.toNat)) := if_pos h
@[csem] theorem shl_u16_u8 [Dialect] {x y : Int} (h : 0 ≤ y ∧ y < 32) (hx : ¬(x < 0 ∨ 4294967296 ≤ x * 2 ^ y.toNat)) : Val.shl (.int .u16 x) (.int .u8 y) = .ok (.int .i32 (Int.bmod (x * 2 ^ y.toNat) 4294967296)) := (if_pos h).trans (if_neg fun hh => hx hh.2.2)
@[csem] theorem add_u16_i16 [Dialect] (x y : Int) : Val.add (.int .u16 x) (.int .i16 y) = mkInt .i32 (x + y) := by rfl
@[csem] theorem sub_u16_i16 [Dialect] (x y : Int) : Val.sub (.int .u16 x) (.int .i16 y) = mkInt .i32 (x - y) := by rfl
@[csem] theorem mul_u16_i16 [Dialect] (x y : Int) : Val.mul (.int .u16 x) (.int .i16 y) = mkInt .i32 (x * y) := by rfl
@[csem] theorem and_u16_i16 (x y : Int) : Val.and (.int .u16 x) (.int .i16 y) = .ok (.int .i32 (intOfBits .i32 (BitVec.ofInt 32 x &&& BitVec.ofInt 32 y))) := by rfl
@[csem] theorem or_u16_i16 (x y : Int) : Val.or (.int .u16 x) (.int .i16 y) = .ok (.int .i32 (intOfBits .i32 (BitVec.ofInt 32 x ||| BitVec.ofInt 32 y))) := by rfl
@[csem] theorem xor_u16_i16 (x y : Int) : Val.xor (.int .u16 x) (.int .i16 y) = .ok (.int .i32 (intOfBits .i32 (BitVec.ofInt 32 x ^^^ BitVec.ofInt 32 y))) := by rfl
@[csem] theorem lt_u16_i16 (x y : Int) : Val.lt (.int .u16 x) (.int .i16 y) = decide (x < y) := by rfl
@[csem] theorem gt_u16_i16 (x y : Int) : Val.gt (.int .u16 x) (.int .i16 y) = decide (y < x) := by rfl
@[csem] theorem eq_u16_i16 (x y : Int) : Val.eq (.int .u16 x) (.int .i16 y) = decide (x = y) := by rfl
@[csem] theorem cast_u16_i16 (x : Int) : Val.cast (.int .i16) (.int .u16 x) = .ok (.int .i16 (Int.bmod x 65536)) := by rfl
@[csem] theorem toBits_i16_u16 (x : Int) : Val.toBits (.int .i16) (.int .u16 x) = .ok (BitVec.ofInt 16 x) := by rfl
@[csem] theorem shr_u16_i16 [Dialect] (x : Int) {y : Int} (h : 0 ≤ y ∧ y < 32) : Val.shr (.int .u16 x) (.int .i16 y) = .ok (.int .i32 (x / 2 ^ y.toNat)) := if_pos h
@[csem] theorem shl_u16_i16 [Dialect] {x y : Int} (h : 0 ≤ y ∧ y < 32) (hx : ¬(x < 0 ∨ 4294967296 ≤ x * 2 ^ y.toNat)) : Val.shl (.int .u16 x) (.int .i16 y) = .ok (.int .i32 (Int.bmod (x * 2 ^ y.toNat) 4294967296)) := (if_pos h).trans (if_neg fun hh => hx hh.2.2)
@[csem] theorem add_u16_u16 [Dialect] (x y : Int) : Val.add (.int .u16 x) (.int .u16 y) = mkInt .i32 (x + y) := by rfl
@[csem] theorem sub_u16_u16 [Dialect] (x y : Int) : Val.sub (.int .u16 x) (.int .u16 y) = mkInt .i32 (x - y) := by rfl
@[csem] theorem mul_u16_u16 [Dialect] (x y : Int) : Val.mul (.int .u16 x) (.int .u16 y) = mkInt .i32 (x * y) := by rfl
@[csem] theorem and_u16_u16 (x y : Int) : Val.and (.int .u16 x) (.int .u16 y) = .ok (.int .i32 (intOfBits .i32 (BitVec.ofInt 32 x &&& BitVec.ofInt 32 y))) := by rfl
@[csem] theorem or_u16_u16 (x y : Int) : Val.or (.int .u16 x) (.int .u16 y) = .ok (.int .i32 (intOfBits .i32 (BitVec.ofInt 32 x ||| BitVec.ofInt 32 y))) := by rfl
@[csem] theorem xor_u16_u16 (x y : Int) : Val.xor (.int .u16 x) (.int .u16 y) = .ok (.int .i32 (intOfBits .i32 (BitVec.ofInt 32 x ^^^ BitVec.ofInt 32 y))) := by rfl
@[csem] theorem lt_u16_u16 (x y : Int) : Val.lt (.int .u16 x) (.int .u16 y) = decide (x < y) := by rfl
@[csem] theorem gt_u16_u16 (x y : Int) : Val.gt (.int .u16 x) (.int .u16 y) = decide (y < x) := by rfl
@[csem] theorem eq_u16_u16 (x y : Int) : Val.eq (.int .u16 x) (.int .u16 y) = decide (x = y) := by rfl
@[csem] theorem cast_u16_u16 (x : Int) : Val.cast (.int .u16) (.int .u16 x) = .ok (.int .u16 x) := by rfl
@[csem] theorem toBits_u16_u16 (x : Int) : Val.toBits (.int .u16) (.int .u16 x) = .ok (BitVec.ofInt 16 x) := by rfl
@[csem] theorem shr_u16_u16 [Dialect] (x : Int) {y : Int} (h : 0 ≤ y ∧ y < 32) : Val.shr (.int .u16 x) (.int .u16 y) = .ok (.int .i32 (x / 2 ^ y.toNat)) := if_pos h
@[csem] theorem shl_u16_u16 [Dialect] {x y : Int} (h : 0 ≤ y ∧ y < 32) (hx : ¬(x < 0 ∨ 4294967296 ≤ x * 2 ^ y.toNat)) : Val.shl (.int .u16 x) (.int .u16 y) = .ok (.int .i32 (Int.bmod (x * 2 ^ y.toNat) 4294967296)) := (if_pos h).trans (if_neg fun hh => hx hh.2.2)
@[csem] theorem add_u16_i32 [Dialect] (x y : Int) : Val.add (.int .u16 x) (.int .i32 y) = mkInt .i32 (x + y) := by rfl
@[csem] theorem sub_u16_i32 [Dialect] (x y : Int) : Val.sub (.int .u16 x) (.int .i32 y) = mkInt .i32 (x - y) := by rfl
@[csem] theorem mul_u16_i32 [Dialect] (x y : Int) : Val.mul (.int .u16 x) (.int .i32 y) = mkInt .i32 (x * y) := by rfl
@[csem] theorem and_u16_i32 (x y : Int) : Val.and (.int .u16 x) (.int .i32 y) = .ok (.int .i32 (intOfBits .i32 (BitVec.ofInt 32 x &&& BitVec.ofInt 32 y))) := by rfl
@[csem] theorem or_u16_i32 (x y : Int) : Val.or (.int .u16 x) (.int .i32 y) = .ok (.int .i32 (intOfBits .i32 (BitVec.ofInt 32 x ||| BitVec.ofInt 32 y))) := by rfl
@[csem] theorem xor_u16_i32 (x y : Int) : Val.xor (.int .u16 x) (.int .i32 y) = .ok (.int .i32 (intOfBits .i32 (BitVec.ofInt 32 x ^^^ BitVec.ofInt 32 y))) := by rfl
@[csem] theorem lt_u16_i32 (x y : Int) : Val.lt (.int .u16 x) (.int .i32 y) = decide (x < y) := by rfl
@[csem] theorem gt_u16_i32 (x y : Int) : Val.gt (.int .u16 x) (.int .i32 y) = decide (y < x) := by rfl
@[csem] theorem eq_u16_i32 (x y : Int) : Val.eq (.int .u16 x) (.int .i32 y) = decide (x = y) := by rfl
@[csem] theorem cast_u16_i32 (x : Int) : Val.cast (.int .i32) (.int .u16 x) = .ok (.int .i32 x) := by rfl
@[csem] theorem toBits_i32_u16 (x : Int) : Val.toBits (.int .i32) (.int .u16 x) = .ok (BitVec.ofInt 32 x) := by rfl
@[csem] theorem shr_u16_i32 [Dialect] (x : Int) {y : Int} (h : 0 ≤ y ∧ y < 32) : Val.shr (.int .u16 x) (.int .i32 y) = .ok (.int .i32 (x / 2 ^ y.toNat)) := if_pos h
@[csem] theorem shl_u16_i32 [Dialect] {x y : Int} (h : 0 ≤ y ∧ y < 32) (hx : ¬(x < 0 ∨ 4294967296 ≤ x * 2 ^ y.toNat)) : Val.shl (.int .u16 x) (.int .i32 y) = .ok (.int .i32 (Int.bmod (x * 2 ^ y.toNat) 4294967296)) := (if_pos h).trans (if_neg fun hh => hx hh.2.2)
@[csem] theorem add_u16_u32 [Dialect] (x y : Int) : Val.add (.int .u16 x) (.int .u32 y) = mkInt .u32 (x + y) := by rfl
@[csem] theorem sub_u16_u32 [Dialect] (x y : Int) : Val.sub (.int .u16 x) (.int .u32 y) = mkInt .u32 (x - y) := by rfl
@[csem] theorem mul_u16_u32 [Dialect] (x y : Int) : Val.mul (.int .u16 x) (.int .u32 y) = mkInt .u32 (x * y) := by rfl
@[csem] theorem and_u16_u32 (x y : Int) : Val.and (.int .u16 x) (.int .u32 y) = .ok (.int .u32 (intOfBits .u32 (BitVec.ofInt 32 x &&& BitVec.ofInt 32 y))) := by rfl
@[csem] theorem or_u16_u32 (x y : Int) : Val.or (.int .u16 x) (.int .u32 y) = .ok (.int .u32 (intOfBits .u32 (BitVec.ofInt 32 x ||| BitVec.ofInt 32 y))) := by rfl
@[csem] theorem xor_u16_u32 (x y : Int) : Val.xor (.int .u16 x) (.int .u32 y) = .ok (.int .u32 (intOfBits .u32 (BitVec.ofInt 32 x ^^^ BitVec.ofInt 32 y))) := by rfl
@[csem] theorem lt_u16_u32 (x y : Int) : Val.lt (.int .u16 x) (.int .u32 y) = decide (x < y) := by rfl
@[csem] theorem gt_u16_u32 (x y : Int) : Val.gt (.int .u16 x) (.int .u32 y) = decide (y < x) := by rfl
@[csem] theorem eq_u16_u32 (x y : Int) : Val.eq (.int .u16 x) (.int .u32 y) = decide (x = y) := by rfl
@[csem] theorem cast_u16_u32 (x : Int) : Val.cast (.int .u32) (.int .u16 x) = .ok (.int .u32 x) := by rfl
@[csem] theorem toBits_u32_u16 (x : Int) : Val.toBits (.int .u32) (.int .u16 x) = .ok (BitVec.ofInt 32 x) := by rfl
@[csem] theorem shr_u16_u32 [Dialect] (x : Int) {y : Int} (h : 0 ≤ y ∧ y < 32) : Val.shr (.int .u16 x) (.int .u32 y) = .ok (.int .i32 (x / 2 ^ y.toNat)) := if_pos h
@[csem] theorem shl_u16_u32 [Dialect] {x y : Int} (h : 0 ≤ y ∧ y < 32) (hx : ¬(x < 0 ∨ 4294967296 ≤ x * 2 ^ y.toNat)) : Val.shl (.int .u16 x) (.int .u32 y) = .ok (.int .i32 (Int.bmod (x * 2 ^ y.toNat) 4294967296)) := (if_pos h).trans (if_neg fun hh => hx hh.2.2)
@[csem] theorem add_u16_i64 [Dialect] (x y : Int) : Val.add (.int .u16 x) (.int .i64 y) = mkInt .i64 (x + y) := by rfl
@[csem] theorem sub_u16_i64 [Dialect] (x y : Int) : Val.sub (.int .u16 x) (.int .i64 y) = mkInt .i64 (x - y) := by rfl
@[csem] theorem mul_u16_i64 [Dialect] (x y : Int) : Val.mul (.int .u16 x) (.int .i64 y) = mkInt .i64 (x * y) := by rfl
@[csem] theorem and_u16_i64 (x y : Int) : Val.and (.int .u16 x) (.int .i64 y) = .ok (.int .i64 (intOfBits .i64 (BitVec.ofInt 64 x &&& BitVec.ofInt 64 y))) := by rfl
@[csem] theorem or_u16_i64 (x y : Int) : Val.or (.int .u16 x) (.int .i64 y) = .ok (.int .i64 (intOfBits .i64 (BitVec.ofInt 64 x ||| BitVec.ofInt 64 y))) := by rfl
@[csem] theorem xor_u16_i64 (x y : Int) : Val.xor (.int .u16 x) (.int .i64 y) = .ok (.int .i64 (intOfBits .i64 (BitVec.ofInt 64 x ^^^ BitVec.ofInt 64 y))) := by rfl
@[csem] theorem lt_u16_i64 (x y : Int) : Val.lt (.int .u16 x) (.int .i64 y) = decide (x < y) := by rfl
@[csem] theorem gt_u16_i64 (x y : Int) : Val.gt (.int .u16 x) (.int .i64 y) = decide (y < x) := by rfl
@[csem] theorem eq_u16_i64 (x y : Int) : Val.eq (.int .u16 x) (.int .i64 y) = decide (x = y) := by rfl
@[csem] theorem cast_u16_i64 (x : Int) : Val.cast (.int .i64) (.int .u16 x) = .ok (.int .i64 x) := by rfl
@[csem] theorem toBits_i64_u16 (x : Int) : Val.toBits (.int .i64) (.int .u16 x) = .ok (BitVec.ofInt 64 x) := by rfl
@[csem] theorem shr_u16_i64 [Dialect] (x : Int) {y : Int} (h : 0 ≤ y ∧ y < 32) : Val.shr (.int .u16 x) (.int .i64 y) = .ok (.int .i32 (x / 2 ^ y.toNat)) := if_pos h
@[csem] theorem shl_u16_i64 [Dialect] {x y : Int} (h : 0 ≤ y ∧ y < 32) (hx : ¬(x < 0 ∨ 4294967296 ≤ x * 2 ^ y.toNat)) : Val.shl (.int .u16 x) (.int .i64 y) = .ok (.int .i32 (Int.bmod (x * 2 ^ y.toNat) 4294967296)) := (if_pos h).trans (if_neg fun hh => hx hh.2.2)
@[csem] theorem add_u16_u64 [Dialect] (x y : Int) : Val.add (.int .u16 x) (.int .u64 y) = mkInt .u64 (x + y) := by rfl
@[csem] theorem sub_u16_u64 [Dialect] (x y : Int) : Val.sub (.int .u16 x) (.int .u64 y) = mkInt .u64 (x - y) := by rfl
@[csem] theorem mul_u16_u64 [Dialect] (x y : Int) : Val.mul (.int .u16 x) (.int .u64 y) = mkInt .u64 (x * y) := by rfl
@[csem] theorem and_u16_u64 (x y : Int) : Val.and (.int .u16 x) (.int .u64 y) = .ok (.int .u64 (intOfBits .u64 (BitVec.ofInt 64 x &&& BitVec.ofInt 64 y))) := by rfl
@[csem] theorem or_u16_u64 (x y : Int) : Val.or (.int .u16 x) (.int .u64 y) = .ok (.int .u64 (intOfBits .u64 (BitVec.ofInt 64 x ||| BitVec.ofInt 64 y))) := by rfl
@[csem] theorem xor_u16_u64 (x y : Int) : Val.xor (.int .u16 x) (.int .u64 y) = .ok (.int .u64 (intOfBits .u64 (BitVec.ofInt 64 x ^^^ BitVec.ofInt 64 y))) := by rfl
@[csem] theorem lt_u16_u64 (x y : Int) : Val.lt (.int .u16 x) (.int .u64 y) = decide (x < y) := by rfl
@[csem] theorem gt_u16_u64 (x y : Int) : Val.gt (.int .u16 x) (.int .u64 y) = decide (y < x) := by rfl
@[csem] theorem eq_u16_u64 (x y : Int) : Val.eq (.int .u16 x) (.int .u64 y) = decide (x = y) := by rfl
@[csem] theorem cast_u16_u64 (x : Int) : Val.cast (.int .u64) (.int .u16 x) = .ok (.int .u64 x) := by rfl
@[csem] theorem toBits_u64_u16 (x : Int) : Val.toBits (.int .u64) (.int .u16 x) = .ok (BitVec.ofInt 64 x) := by rfl
@[csem] theorem shr_u16_u64 [Dialect] (x : Int) {y : Int} (h : 0 ≤ y ∧ y < 32) : Val.shr (.int .u16 x) (.int .u64 y) = .ok (.int .i32 (x / 2 ^ y.toNat)) := if_pos h
@[csem] theorem shl_u16_u64 [Dialect] {x y : Int} (h : 0 ≤ y ∧ y < 32) (hx : ¬(x < 0 ∨ 4294967296 ≤ x * 2 ^ y.toNat)) : Val.shl (.int .u16 x) (.int .u64 y) = .ok (.int .i32 (Int.bmod (x * 2 ^ y.toNat) 4294967296)) := (if_pos h).trans (if_neg fun hh => hx hh.2.2)
@[csem] theorem ofBits_i32 (b : BitVec 32) : Val.ofBits (.int .i32) b = .int .i32 b.toInt := by rfl
@[csem] theorem not_i32 (x : Int) : Val.not (.int .i32 x) = .ok (.int .i32 (intOfBits .i32 (~~~ BitVec.ofInt 32 x))) := by rfl
@[csem] theorem truth_i32 (x : Int) : Val.truth (.int .i32 x) = decide (x ≠ 0) := by rfl
@[csem] theorem intOfBits_i32 (b : BitVec 32) : intOfBits .i32 b = b.toInt := by rfl
@[csem] theorem idx_i32 (x : Int) : Val.idx (.int .i32 x) = x := by rfl
@[csem] theorem cast_i32_f32 (x : Int) : Val.cast .f32 (.int .i32 x) = .ok (.f32 (BitVec.ofNat 32 (Fmt.b32.ofInt x))) := by rfl
@[csem] theorem cast_i32_f64 (x : Int) : Val.cast .f64 (.int .i32 x) = .ok (.f64 (BitVec.ofNat 64 (Fmt.b64.ofInt x))) := by rfl
@[csem] theorem add_i32_i8 [Dialect] (x y : Int) : Val.add (.int .i32 x) (.int .i8 y) = mkInt .i32 (x + y) := by rfl
@[csem] theorem sub_i32_i8 [Dialect] (x y : Int) : Val.sub (.int .i32 x) (.int .i8 y) = mkInt .i32 (x - y) := by rfl
@[csem] theorem mul_i32_i8 [Dialect] (x y : Int) : Val.mul (.int .i32 x) (.int .i8 y) = mkInt .i32 (x * y) := by rfl
@[csem] theorem and_i32_i8 (x y : Int) : Val.and (.int .i32 x) (.int .i8 y) = .ok (.int .i32 (intOfBits .i32 (BitVec.ofInt 32 x &&& BitVec.ofInt 32 y))) := by rfl
@[csem] theorem or_i32_i8 (x y : Int) : Val.or (.int .i32 x) (.int .i8 y) = .ok (.int .i32 (intOfBits .i32 (BitVec.ofInt 32 x ||| BitVec.ofInt 32 y))) := by rfl
@[csem] theorem xor_i32_i8 (x y : Int) : Val.xor (.int .i32 x) (.int .i8 y) = .ok (.int .i32 (intOfBits .i32 (BitVec.ofInt 32 x ^^^ BitVec.ofInt 32 y))) := by rfl
@[csem] theorem lt_i32_i8 (x y : Int) : Val.lt (.int .i32 x) (.int .i8 y) = decide (x < y) := by rfl
@[csem] theorem gt_i32_i8 (x y : Int) : Val.gt (.int .i32 x) (.int .i8 y) = decide (y < x) := by rfl
@[csem] theorem eq_i32_i8 (x y : Int) : Val.eq (.int .i32 x) (.int .i8 y) = decide (x = y) := by rfl
@[csem] theorem cast_i32_i8 (x : Int) : Val.cast (.int .i8) (.int .i32 x) = .ok (.int .i8 (Int.bmod x 256)) := by rfl
@[csem] theorem toBits_i8_i32 (x : Int) : Val.toBits (.int .i8) (.int .i32 x) = .ok (BitVec.ofInt 8 x) := by rfl
@[csem] theorem shr_i32_i8 [Dialect] (x : Int) {y : Int} (h : 0 ≤ y ∧ y < 32) : Val.shr (.int .i32 x) (.int .i8 y) = .ok (.int .i32 (x / 2 ^ y.toNat)) := if_pos h
@[csem] theorem shl_i32_i8 [Dialect] {x y : Int} (h : 0 ≤ y ∧ y < 32) (hx : ¬(x < 0 ∨ 4294967296 ≤ x * 2 ^ y.toNat)) : Val.shl (.int .i32 x) (.int .i8 y) = .ok (.int .i32 (Int.bmod (x * 2 ^ y.toNat) 4294967296)) := (if_pos h).trans (if_neg fun hh => hx hh.2.2)
@[csem] theorem add_i32_u8 [Dialect] (x y : Int) : Val.add (.int .i32 x) (.int .u8 y) = mkInt .i32 (x + y) := by rfl
@[csem] theorem sub_i32_u8 [Dialect] (x y : Int) : Val.sub (.int .i32 x) (.int .u8 y) = mkInt .i32 (x - y) := by rfl
@[csem] theorem mul_i32_u8 [Dialect] (x y : Int) : Val.mul (.int .i32 x) (.int .u8 y) = mkInt .i32 (x * y) := by rfl
@[csem] theorem and_i32_u8 (x y : Int) : Val.and (.int .i32 x) (.int .u8 y) = .ok (.int .i32 (intOfBits .i32 (BitVec.ofInt 32 x &&& BitVec.ofInt 32 y))) := by rfl
@[csem] theorem or_i32_u8 (x y : Int) : Val.or (.int .i32 x) (.int .u8 y) = .ok (.int .i32 (intOfBits .i32 (BitVec.ofInt 32 x ||| BitVec.ofInt 32 y))) := by rfl
@[csem] theorem xor_i32_u8 (x y : Int) : Val.xor (.int .i32 x) (.int .u8 y) = .ok (.int .i32 (intOfBits .i32 (BitVec.ofInt 32 x ^^^ BitVec.ofInt 32 y))) := by rfl
@[csem] theorem lt_i32_u8 (x y : Int) : Val.lt (.int .i32 x) (.int .u8 y) = decide (x < y) := by rfl
@[csem] theorem gt_i32_u8 (x y : Int) : Val.gt (.int .i32 x) (.int .u8 y) = decide (y < x) := by rfl
@[csem] theorem eq_i32_u8 (x y : Int) : Val.eq (.int .i32 x) (.int .u8 y) = decide (x = y) := by rfl
@[csem] theorem cast_i32_u8 (x : Int) : Val.cast (.int .u8) (.int .i32 x) = .ok (.int .u8 (x % 256)) := by rfl
@[csem] theorem toBits_u8_i32 (x : Int) : Val.toBits (.int .u8) (.int .i32 x) = .ok (BitVec.ofInt 8 x) := by rfl
@[csem] theorem shr_i32_u8 [Dialect] (x : Int) {y : Int} (h : 0 ≤ y ∧ y < 32) : Val.shr (.int .i32 x) (.int .u8 y) = .ok (.int .i32 (x / 2 ^ y.toNat)) := if_pos h
@[csem] theorem shl_i32_u8 [Dialect] {x y : Int} (h : 0 ≤ y ∧ y < 32) (hx : ¬(x < 0 ∨ 4294967296 ≤ x * 2 ^ y.toNat)) : Val.shl (.int .i32 x) (.int .u8 y) = .ok (.int .i32 (Int.bmod (x * 2 ^ y.toNat) 4294967296)) := (if_pos h).trans (if_neg fun hh => hx hh.2.2)
@[csem] theorem add_i32_i16 [Dialect] (x y : Int) : Val.add (.int .i32 x) (.int .i16 y) = mkInt .i32 (x + y) := by rfl
@[csem] theorem sub_i32_i16 [Dialect] (x y : Int) : Val.sub (.int .i32 x) (.int .i16 y) = mkInt .i32 (x - y) := by rfl
@[csem] theorem mul_i32_i16 [Dialect] (x y : Int) : Val.mul (.int .i32 x) (.int .i16 y) = mkInt .i32 (x * y) := by rfl
@[csem] theorem and_i32_i16 (x y : Int) : Val.and (.int .i32 x) (.int .i16 y) = .ok (.int .i32 (intOfBits .i32 (BitVec.ofInt 32 x &&& BitVec.ofInt 32 y))) := by rfl
@[csem] theorem or_i32_i16 (x y : Int) : Val.or (.int .i32 x) (.int .i16 y) = .ok (.int .i32 (intOfBits .i32 (BitVec.ofInt 32 x ||| BitVec.ofInt 32 y))) := by rfl
@[csem] theorem xor_i32_i16 (x y : Int) : Val.xor (.int .i32 x) (.int .i16 y) = .ok (.int .i32 (intOfBits .i32 (BitVec.ofInt 32 x ^^^ BitVec.ofInt 32 y))) := by rfl
@[csem] theorem lt_i32_i16 (x y : Int) : Val.lt (.int .i32 x) (.int .i16 y) = decide (x < y) := by rfl
@[csem] theorem gt_i32_i16 (x y : Int) : Val.gt (.int .i32 x) (.int .i16 y) = decide (y < x) := by rfl
@[csem] theorem eq_i32_i16 (x y : Int) : Val.eq (.int .i32 x) (.int .i16 y) = decide (x = y) := by rfl
@[csem] theorem cast_i32_i16 (x : Int) : Val.cast (.int .i16) (.int .i32 x) = .ok (.int .i16 (Int.bmod x 65536)) := by rfl
@[csem] theorem toBits_i16_i32 (x : Int) : Val.toBits (.int .i16) (.int .i32 x) = .ok (BitVec.ofInt 16 x) := by rfl
@[csem] theorem shr_i32_i16 [Dialect] (x : Int) {y : Int} (h : 0 ≤ y ∧ y < 32) : Val.shr (.int .i32 x) (.int .i16 y) = .ok (.int .i32 (x / 2 ^ y.toNat)) := if_pos h
@[csem] theorem shl_i32_i16 [Dialect] {x y : Int} (h : 0 ≤ y ∧ y < 32) (hx : ¬(x < 0 ∨ 4294967296 ≤ x * 2 ^ y.toNat)) : Val.shl (.int .i32 x) (.int .i16 y) = .ok (.int .i32 (Int.bmod (x * 2 ^ y.toNat) 4294967296)) := (if_pos h).trans (if_neg fun hh => hx hh.2.2)
@[csem] theorem add_i32_u16 [Dialect] (x y : Int) : Val.add (.int .i32 x) (.int .u16 y) = mkInt .i32 (x + y) := by rfl
@[csem] theorem sub_i32_u16 [Dialect] (x y : Int) : Val.sub (.int .i32 x) (.int .u16 y) = mkInt .i32 (x - y) := by rfl
@[csem] theorem mul_i32_u16 [Dialect] (x y : Int) : Val.mul (.int .i32 x) (.int .u16 y) = mkInt .i32 (x * y) := by rfl
@[csem] theorem and_i32_u16 (x y : Int) : Val.and (.int .i32 x) (.int .u16 y) = .ok (.int .i32 (intOfBits .i32 (BitVec.ofInt 32 x &&& BitVec.ofInt 32 y))) := by rfl
@[csem] theorem or_i32_u16 (x y : Int) : Val.or (.int .i32 x) (.int .u16 y) = .ok (.int .i32 (intOfBits .i32 (BitVec.ofInt 32 x ||| BitVec.ofInt 32 y))) := by rfl
@[csem] theorem xor_i32_u16 (x y : Int) : Val.xor (.int .i32 x) (.int .u16 y) = .ok (.int .i32 (intOfBits .i32 (BitVec.ofInt 32 x ^^^ BitVec.ofInt 32 y))) := by rfl
@[csem] theorem lt_i32_u16 (x y : Int) : Val.lt (.int .i32 x) (.int .u16 y) = decide (x < y) := by rfl
@[csem] theorem gt_i32_u16 (x y : Int) : Val.gt (.int .i32 x) (.int .u16 y) = decide (y < x) := by rfl
@[csem] theorem eq_i32_u16 (x y : Int) : Val.eq (.int .i32 x) (.int .u16 y) = decide (x = y) := by rfl
@[csem] theorem cast_i32_u16 (x : Int) : Val.cast (.int .u16) (.int .i32 x) = .ok (.int .u16 (x % 65536)) := by rfl
@[csem] theorem toBits_u16_i32 (x : Int) : Val.toBits (.int .u16) (.int .i32 x) = .ok (BitVec.ofInt 16 x) := by rfl
@[csem] theorem shr_i32_u16 [Dialect] (x : Int) {y : Int} (h : 0 ≤ y ∧ y < 32) : Val.shr (.int .i32 x) (.int .u16 y) = .ok (.int .i32 (x / 2 ^ y.toNat)) := if_pos h
@[csem] theorem shl_i32_u16 [Dialect] {x y : Int} (h : 0 ≤ y ∧ y < 32) (hx : ¬(x < 0 ∨ 4294967296 ≤ x * 2 ^ y.toNat)) : Val.shl (.int .i32 x) (.int .u16 y) = .ok (.int .i32 (Int.bmod (x * 2 ^ y.toNat) 4294967296)) := (if_pos h).trans (if_neg fun hh => hx hh.2.2)
@[csem] theorem add_i32_i32 [Dialect] (x y : Int) : Val.add (.int .i32 x) (.int .i32 y) = mkInt .i32 (x + y) := by rfl
@[csem] theorem sub_i32_i32 [Dialect] (x y : Int) : Val.sub (.int .i32 x) (.int .i32 y) = mkInt .i32 (x - y) := by rfl
@[csem] theorem mul_i32_i32 [Dialect] (x y : Int) : Val.mul (.int .i32 x) (.int .i32 y) = mkInt .i32 (x * y) := by rfl
@[csem] theorem and_i32_i32 (x y : Int) : Val.and (.int .i32 x) (.int .i32 y) = .ok (.int .i32 (intOfBits .i32 (BitVec.ofInt 32 x &&& BitVec.ofInt 32 y))) := by rfl
@[csem] theorem or_i32_i32 (x y : Int) : Val.or (.int .i32 x) (.int .i32 y) = .ok (.int .i32 (intOfBits .i32 (BitVec.ofInt 32 x ||| BitVec.ofInt 32 y))) := by rfl
@[csem] theorem xor_i32_i32 (x y : Int) : Val.xor (.int .i32 x) (.int .i32 y) = .ok (.int .i32 (intOfBits .i32 (BitVec.ofInt 32 x ^^^ BitVec.ofInt 32 y))) := by rfl
@[csem] theorem lt_i32_i32 (x y : Int) : Val.lt (.int .i32 x) (.int .i32 y) = decide (x < y) := by rfl
@[csem] theorem gt_i32_i32 (x y : Int) : Val.gt (.int .i32 x) (.int .i32 y) = decide (y < x) := by rfl
@[csem] theorem eq_i32_i32 (x y : Int) : Val.eq (.int .i32 x) (.int .i32 y) = decide (x = y) := by rfl
@[csem] theorem cast_i32_i32 (x : Int) : Val.cast (.int .i32) (.int .i32 x) = .ok (.int .i32 x) := by rfl
@[csem] theorem toBits_i32_i32 (x : Int) : Val.toBits (.int .i32) (.int .i32 x) = .ok (BitVec.ofInt 32 x) := by rfl
@[csem] theorem shr_i32_i32 [Dialect] (x : Int) {y : Int} (h : 0 ≤ y ∧ y < 32) : Val.shr (.int .i32 x) (.int .i32 y) = .ok (.int .i32 (x / 2 ^ y.toNat)) := if_pos h
@[csem] theorem shl_i32_i32 [Dialect] {x y : Int} (h : 0 ≤ y ∧ y < 32) (hx : ¬(x < 0 ∨ 4294967296 ≤ x * 2 ^ y.toNat)) : Val.shl (.int .i32 x) (.int .i32 y) = .ok (.int .i32 (Int.bmod (x * 2 ^ y.toNat) 4294967296)) := (if_pos h).trans (if_neg fun hh => hx hh.2.2)
@[csem] theorem add_i32_u32 [Dialect] (x y : Int) : Val.add (.int .i32 x) (.int .u32 y) = mkInt .u32 ((x % 4294967296) + y) := by rfl
@[csem] theorem sub_i32_u32 [Dialect] (x y : Int) : Val.sub (.int .i32 x) (.int .u32 y) = mkInt .u32 ((x % 4294967296) - y) := by rfl
@[csem] theorem mul_i32_u32 [Dialect] (x y : Int) : Val.mul (.int .i32 x) (.int .u32 y) = mkInt .u32 ((x % 4294967296) * y) := by rfl
@[csem] theorem and_i32_u32 (x y : Int) : Val.and (.int .i32 x) (.int .u32 y) = .ok (.int .u32 (intOfBits .u32 (BitVec.ofInt 32 x &&& BitVec.ofInt 32 y))) := by rfl
@[csem] theorem or_i32_u32 (x y : Int) : Val.or (.int .i32 x) (.int .u32 y) = .ok (.int .u32 (intOfBits .u32 (BitVec.ofInt 32 x ||| BitVec.ofInt 32 y))) := by rfl
@[csem] theorem xor_i32_u32 (x y : Int) : Val.xor (.int .i32 x) (.int .u32 y) = .ok (.int .u32 (intOfBits .u32 (BitVec.ofInt 32 x ^^^ BitVec.ofInt 32 y))) := by rfl
@[csem] theorem lt_i32_u32 (x y : Int) : Val.lt (.int .i32 x) (.int .u32 y) = decide ((x % 4294967296) < y) := by rfl
@[csem] theorem gt_i32_u32 (x y : Int) : Val.gt (.int .i32 x) (.int .u32 y) = decide (y < (x % 4294967296)) := by rfl
@[csem] theorem eq_i32_u32 (x y : Int) : Val.eq (.int .i32 x) (.int .u32 y) = decide ((x % 4294967296) = y) := by rfl
@[csem] theorem cast_i32_u32 (x : Int) : Val.cast (.int .u32) (.int .i32 x) = .ok (.int .u32 (x % 4294967296)) := by rfl
@[csem] theorem toBits_u32_i32 (x : Int) : Val.toBits (.int .u32) (.int .i32 x) = .ok (BitVec.ofInt 32 x) := by rfl
@[csem] theorem shr_i32_u32 [Dialect] (x : Int) {y : Int} (h : 0 ≤ y ∧ y < 32) : Val.shr (.int .i32 x) (.int .u32 y) = .ok (.int .i32 (x / 2 ^ y.toNat)) := if_pos h
@[csem] theorem shl_i32_u32 [Dialect] {x y : Int} (h : 0 ≤ y ∧ y < 32) (hx : ¬(x < 0 ∨ 4294967296 ≤ x * 2 ^ y.toNat)) : Val.shl (.int .i32 x) (.int .u32 y) = .ok (.int .i32 (Int.bmod (x * 2 ^ y.toNat) 4294967296)) := (if_pos h).trans (if_neg fun hh => hx hh.2.2)
@[csem] theorem add_i32_i64 [Dialect] (x y : Int) : Val.add (.int .i32 x) (.int .i64 y) = mkInt .i64 (x + y) := by rfl
@[csem] theorem sub_i32_i64 [Dialect] (x y : Int) : Val.sub (.int .i32 x) (.int .i64 y) = mkInt .i64 (x - y) := by rfl
@[csem] theorem mul_i32_i64 [Dialect] (x y : Int) : Val.mul (.int .i32 x) (.int .i64 y) = mkInt .i64 (x * y) := by rfl
@[csem] theorem and_i32_i64 (x y : Int) : Val.and (.int .i32 x) (.int .i64 y) = .ok (.int .i64 (intOfBits .i64 (BitVec.ofInt 64 x &&& BitVec.ofInt 64 y))) := by rfl
@[csem] theorem or_i32_i64 (x y : Int) : Val.or (.int .i32 x) (.int .i64 y) = .ok (.int .i64 (intOfBits .i64 (BitVec.ofInt 64 x ||| BitVec.ofInt 64 y))) := by rfl
@[csem] theorem xor_i32_i64 (x y : Int) : Val.xor (.int .i32 x) (.int .i64 y) = .ok (.int .i64 (intOfBits .i64 (BitVec.ofInt 64 x ^^^ BitVec.ofInt 64 y))) := by rfl
@[csem] theorem lt_i32_i64 (x y : Int) : Val.lt (.int .i32 x) (.int .i64 y) = decide (x < y) := by rfl
@[csem] theorem gt_i32_i64 (x y : Int) : Val.gt (.int .i32 x) (.int .i64 y) = decide (y < x) := by rfl
@[csem] theorem eq_i32_i64 (x y : Int) : Val.eq (.int .i32 x) (.int .i64 y) = decide (x = y) := by rfl
@[csem] theorem cast_i32_i64 (x : Int) : Val.cast (.int .i64) (.int .i32 x) = .ok (.int .i64 x) := by rfl
@[csem] theorem toBits_i64_i32 (x : Int) : Val.toBits (.int .i64) (.int .i32 x) = .ok (BitVec.ofInt 64 x) := by rfl
@[csem] theorem shr_i32_i64 [Dialect] (x : Int) {y : Int} (h : 0 ≤ y ∧ y < 32) : Val.shr (.int .i32 x) (.int .i64 y) = .ok (.int .i32 (x / 2 ^ y.toNat)) := if_pos h
@[csem] theorem shl_i32_i64 [Dialect] {x y : Int} (h : 0 ≤ y ∧ y < 32) (hx : ¬(x < 0 ∨ 4294967296 ≤ x * 2 ^ y.toNat)) : Val.shl (.int .i32 x) (.int .i64 y) = .ok (.int .i32 (Int.bmod (x * 2 ^ y.toNat) 4294967296)) := (if_pos h).trans (if_neg fun hh => hx hh.2.2)
@[csem] theorem add_i32_u64 [Dialect] (x y : Int) : Val.add (.int .i32 x) (.int .u64 y) = mkInt .u64 ((x % 18446744073709551616) + y) := by rfl
@[csem] theorem sub_i32_u64 [Dialect] (x y : Int) : Val.sub (.int .i32 x) (.int .u64 y) = mkInt .u64 ((x % 18446744073709551616) - y) := by rfl
@[csem] theorem mul_i32_u64 [Dialect] (x y : Int) : Val.mul (.int .i32 x) (.int .u64 y) = mkInt .u64 ((x % 18446744073709551616) * y) := by rfl
@[csem] theorem and_i32_u64 (x y : Int) : Val.and (.int .i32 x) (.int .u64 y) = .ok (.int .u64 (intOfBits .u64 (BitVec.ofInt 64 x &&& BitVec.ofInt 64 y))) := by rfl
@[csem] theorem or_i32_u64 (x y : Int) : Val.or (.int .i32 x) (.int .u64 y) = .ok (.int .u64 (intOfBits .u64 (BitVec.ofInt 64 x ||| BitVec.ofInt 64 y))) := by rfl
@[csem] theorem xor_i32_u64 (x y : Int) : Val.xor (.int .i32 x) (.int .u64 y) = .ok (.int .u64 (intOfBits .u64 (BitVec.ofInt 64 x ^^^ BitVec.ofInt 64 y))) := by rfl
@[csem] theorem lt_i32_u64 (x y : Int) : Val.lt (.int .i32 x) (.int .u64 y) = decide ((x % 18446744073709551616) < y) := by rfl
@[csem] theorem gt_i32_u64 (x y : Int) : Val.gt (.int .i32 x) (.int .u64 y) = decide (y < (x % 18446744073709551616)) := by rfl
@[csem] theorem eq_i32_u64 (x y : Int) : Val.eq (.int .i32 x) (.int .u64 y) = decide ((x % 18446744073709551616) = y) := by rfl
@[csem] theorem cast_i32_u64 (x : Int) : Val.cast (.int .u64) (.int .i32 x) = .ok (.int .u64 (x % 18446744073709551616)) := by rfl
@[csem] theorem toBits_u64_i32 (x : Int) : Val.toBits (.int .u64) (.int .i32 x) = .ok (BitVec.ofInt 64 x) := by rfl
@[csem] theorem shr_i32_u64 [Dialect] (x : Int) {y : Int} (h : 0 ≤ y ∧ y < 32) : Val.shr (.int .i32 x) (.int .u64 y) = .ok (.int .i32 (x / 2 ^ y.toNat)) := if_pos h
@[csem] theorem shl_i32_u64 [Dialect] {x y : Int} (h : 0 ≤ y ∧ y < 32) (hx : ¬(x < 0 ∨ 4294967296 ≤ x * 2 ^ y.toNat)) : Val.shl (.int .i32 x) (.int .u64 y) = .ok (.int .i32 (Int.bmod (x * 2 ^ y.toNat) 4294967296)) := (if_pos h).trans (if_neg fun hh => hx hh.2.2)
@[csem] theorem ofBits_u32 (b : BitVec 32) : Val.ofBits (.int .u32) b = .int .u32 (b.toNat : Int) := by rfl
@[csem] theorem not_u32 (x : Int) : Val.not (.int .u32 x) = .ok (.int .u32 (intOfBits .u32 (~~~ BitVec.ofInt 32 x))) := by rfl
@[csem] theorem truth_u32 (x : Int) : Val.truth (.int .u32 x) = decide (x ≠ 0) := by rfl
@[csem] theorem intOfBits_u32 (b : BitVec 32) : intOfBits .u32 b = (b.toNat : Int) := by rfl
@[csem] theorem idx_u32 (x : Int) : Val.idx (.int .u32 x) = x := by rfl
@[csem] theorem cast_u32_f32 (x : Int) : Val.cast .f32 (.int .u32 x) = .ok (.f32 (BitVec.ofNat 32 (Fmt.b32.ofInt x))) := by rfl
@[csem] theorem cast_u32_f64 (x : Int) : Val.cast .f64 (.int .u32 x) = .ok (.f64 (BitVec.ofNat 64 (Fmt.b64.ofInt x))) := by rfl
@[csem] theorem add_u32_i8 [Dialect] (x y : Int) : Val.add (.int .u32 x) (.int .i8 y) = mkInt .u32 (x + (y % 4294967296)) := by rfl
@[csem] theorem sub_u32_i8 [Dialect] (x y : Int) : Val.sub (.int .u32 x) (.int .i8 y) = mkInt .u32 (x - (y % 4294967296)) := by rfl
@[csem] theorem mul_u32_i8 [Dialect] (x y : Int) : Val.mul (.int .u32 x) (.int .i8 y) = mkInt .u32 (x * (y % 4294967296)) := by rfl
@[csem] theorem and_u32_i8 (x y : Int) : Val.and (.int .u32 x) (.int .i8 y) = .ok (.int .u32 (intOfBits .u32 (BitVec.ofInt 32 x &&& BitVec.ofInt 32 y))) := by rfl
@[csem] theorem or_u32_i8 (x y : Int) : Val.or (.int .u32 x) (.int .i8 y) = .ok (.int .u32 (intOfBits .u32 (BitVec.ofInt 32 x ||| BitVec.ofInt 32 y))) := by rfl
@[csem] theorem xor_u32_i8 (x y : Int) : Val.xor (.int .u32 x) (.int .i8 y) = .ok (.int .u32 (intOfBits .u32 (BitVec.ofInt 32 x ^^^ BitVec.ofInt 32 y))) := by rfl
@[csem] theorem lt_u32_i8 (x y : Int) : Val.lt (.int .u32 x) (.int .i8 y) = decide (x < (y % 4294967296)) := by rfl
@[csem] theorem gt_u32_i8 (x y : Int) : Val.gt (.int .u32 x) (.int .i8 y) = decide ((y % 4294967296) < x) := by rfl
@[csem] theorem eq_u32_i8 (x y : Int) : Val.eq (.int .u32 x) (.int .i8 y) = decide (x = (y % 4294967296)) := by rfl
@[csem] theorem cast_u32_i8 (x : Int) : Val.cast (.int .i8) (.int .u32 x) = .ok (.int .i8 (Int.bmod x 256)) := by rfl
@[csem] theorem toBits_i8_u32 (x : Int) : Val.toBits (.int .i8) (.int .u32 x) = .ok (BitVec.ofInt 8 x) := by rfl
@[csem] theorem shr_u32_i8 [Dialect] (x : Int) {y : Int} (h : 0 ≤ y ∧ y < 32) : Val.shr (.int .u32 x) (.int .i8 y) = .ok (.int .u32 (x / 2 ^ y.toNat)) := if_pos h
@[csem] theorem shl_u32_i8 [Dialect] (x : Int) {y : Int} (h : 0 ≤ y ∧ y < 32) : Val.shl (.int .u32 x) (.int .i8 y) = .ok (.int .u32 (x * 2 ^ y.toNat % 4294967296)) := if_pos h
@[csem] theorem add_u32_u8 [Dialect] (x y : Int) : Val.add (.int .u32 x) (.int .u8 y) = mkInt .u32 (x + y) := by rfl
@[csem] theorem sub_u32_u8 [Dialect] (x y : Int) : Val.sub (.int .u32 x) (.int .u8 y) = mkInt .u32 (x - y) := by rfl
@[csem] theorem mul_u32_u8 [Dialect] (x y : Int) : Val.mul (.int .u32 x) (.int .u8 y) = mkInt .u32 (x * y) := by rfl
@[csem] theorem and_u32_u8 (x y : Int) : Val.and (.int .u32 x) (.int .u8 y) = .ok (.int .u32 (intOfBits .u32 (BitVec.ofInt 32 x &&& BitVec.ofInt 32 y))) := by rfl
@[csem] theorem or_u32_u8 (x y : Int) : Val.or (.int .u32 x) (.int .u8 y) = .ok (.int .u32 (intOfBits .u32 (BitVec.ofInt 32 x ||| BitVec.ofInt 32 y))) := by rfl
@[csem] theorem xor_u32_u8 (x y : Int) : Val.xor (.int .u32 x) (.int .u8 y) = .ok (.int .u32 (intOfBits .u32 (BitVec.ofInt 32 x ^^^ BitVec.ofInt 32 y))) := by rfl
@[csem] theorem lt_u32_u8 (x y : Int) : Val.lt (.int .u32 x) (.int .u8 y) = decide (x < y) := by rfl
@[csem] theorem gt_u32_u8 (x y : Int) : Val.gt (.int .u32 x) (.int .u8 y) = decide (y < x) := by rfl
@[csem] theorem eq_u32_u8 (x y : Int) : Val.eq (.int .u32 x) (.int .u8 y) = decide (x = y) := by rfl
@[csem] theorem cast_u32_u8 (x : Int) : Val.cast (.int .u8) (.int .u32 x) = .ok (.int .u8 (x % 256)) := by rfl
@[csem] theorem toBits_u8_u32 (x : Int) : Val.toBits (.int .u8) (.int .u32 x) = .ok (BitVec.ofInt 8 x) := by rfl
@[csem] theorem shr_u32_u8 [Dialect] (x : Int) {y : Int} (h : 0 ≤ y ∧ y < 32) : Val.shr (.int .u32 x) (.int .u8 y) = .ok (.int .u32 (x / 2 ^ y.toNat)) := if_pos h
@[csem] theorem shl_u32_u8 [Dialect] (x : Int) {y : Int} (h : 0 ≤ y ∧ y < 32) : Val.shl (.int .u32 x) (.int .u8 y) = .ok (.int .u32 (x * 2 ^ y.toNat % 4294967296)) := if_pos h
@[csem] theorem add_u32_i16 [Dialect] (x y : Int) : Val.add (.int .u32 x) (.int .i16 y) = mkInt .u32 (x + (y % 4294967296)) := by rfl
@[csem] theorem sub_u32_i16 [Dialect] (x y : Int) : Val.sub (.int .u32 x) (.int .i16 y) = mkInt .u32 (x - (y % 4294967296)) := by rfl
@[csem] theorem mul_u32_i16 [Dialect] (x y : Int) : Val.mul (.int .u32 x) (.int .i16 y) = mkInt .u32 (x * (y % 4294967296)) := by rfl
@[csem] theorem and_u32_i16 (x y : Int) : Val.and (.int .u32 x) (.int .i16 y) = .ok (.int .u32 (intOfBits .u32 (BitVec.ofInt 32 x &&& BitVec.ofInt 32 y))) := by rfl
@[csem] theorem or_u32_i16 (x y : Int) : Val.or (.int .u32 x) (.int .i16 y) = .ok (.int .u32 (intOfBits .u32 (BitVec.ofInt 32 x ||| BitVec.ofInt 32 y))) := by rfl
@[csem] theorem xor_u32_i16 (x y : Int) : Val.xor (.int .u32 x) (.int .i16 y) = .ok (.int .u32 (intOfBits .u32 (BitVec.ofInt 32 x ^^^ BitVec.ofInt 32 y))) := by rfl
@[csem] theorem lt_u32_i16 (x y : Int) : Val.lt (.int .u32 x) (.int .i16 y) = decide (x < (y % 4294967296)) := by rfl
@[csem] theorem gt_u32_i16 (x y : Int) : Val.gt (.int .u32 x) (.int .i16 y) = decide ((y % 4294967296) < x) := by rfl
@[csem] theorem eq_u32_i16 (x y : Int) : Val.eq (.int .u32 x) (.int .i16 y) = decide (x = (y % 4294967296)) := by rfl
@[csem] theorem cast_u32_i16 (x : Int) : Val.cast (.int .i16) (.int .u32 x) = .ok (.int .i16 (Int.bmod x 65536)) := by rfl
@[csem] theorem toBits_i16_u32 (x : Int) : Val.toBits (.int .i16) (.int .u32 x) = .ok (BitVec.ofInt 16 x) := by rfl
@[csem] theorem shr_u32_i16 [Dialect] (x : Int) {y : Int} (h : 0 ≤ y ∧ y < 32) : Val.shr (.int .u32 x) (.int .i16 y) = .ok (.int .u32 (x / 2 ^ y.toNat)) := if_pos h
@[csem] theorem shl_u32_i16 [Dialect] (x : Int) {y : Int} (h : 0 ≤ y ∧ y < 32) : Val.shl (.int .u32 x) (.int .i16 y) = .ok (.int .u32 (x * 2 ^ y.toNat % 4294967296)) := if_pos h
@[csem] theorem add_u32_u16 [Dialect] (x y : Int) : Val.add (.int .u32 x) (.int .u16 y) = mkInt .u32 (x + y) := by rfl
@[csem] theorem sub_u32_u16 [Dialect] (x y : Int) : Val.sub (.int .u32 x) (.int .u16 y) = mkInt .u32 (x - y) := by rfl
@[csem] theorem mul_u32_u16 [Dialect] (x y : Int) : Val.mul (.int .u32 x) (.int .u16 y) = mkInt .u32 (x * y) := by rfl
@[csem] theorem and_u32_u16 (x y : Int) : Val.and (.int .u32 x) (.int .u16 y) = .ok (.int .u32 (intOfBits .u32 (BitVec.ofInt 32 x &&& BitVec.ofInt 32 y))) := by rfl
@[csem] theorem or_u32_u16 (x y : Int) : Val.or (.int .u32 x) (.int .u16 y) = .ok (.int .u32 (intOfBits .u32 (BitVec.ofInt 32 x ||| BitVec.ofInt 32 y))) := by rfl
@[csem] theorem xor_u32_u16 (x y : Int) : Val.xor (.int .u32 x) (.int .u16 y) = .ok (.int .u32 (intOfBits .u32 (BitVec.ofInt 32 x ^^^ BitVec.ofInt 32 y))) := by rfl
@[csem] theorem lt_u32_u16 (x y : Int) : Val.lt (.int .u32 x) (.int .u16 y) = decide (x < y) := by rfl
@[csem] theorem gt_u32_u16 (x y : Int) : Val.gt (.int .u32 x) (.int .u16 y) = decide (y < x) := by rfl
@[csem] theorem eq_u32_u16 (x y : Int) : Val.eq (.int .u32 x) (.int .u16 y) = decide (x = y) := by rfl
@[csem] theorem cast_u32_u16 (x : Int) : Val.cast (.int .u16) (.int .u32 x) = .ok (.int .u16 (x % 65536)) := by rfl
@[csem] theorem toBits_u16_u32 (x : Int) : Val.toBits (.int .u16) (.int .u32 x) = .ok (BitVec.ofInt 16 x) := by rfl
@[csem] theorem shr_u32_u16 [Dialect] (x : Int) {y : Int} (h : 0 ≤ y ∧ y < 32) : Val.shr (.int .u32 x) (.int .u16 y) = .ok (.int .u32 (x / 2 ^ y.toNat)) := if_pos h
@[csem] theorem shl_u32_u16 [Dialect] (x : Int) {y : Int} (h : 0 ≤ y ∧ y < 32) : Val.shl (.int .u32 x) (.int .u16 y) = .ok (.int .u32 (x * 2 ^ y.toNat % 4294967296)) := if_pos h
@[csem] theorem add_u32_i32 [Dialect] (x y : Int) : Val.add (.int .u32 x) (.int .i32 y) = mkInt .u32 (x + (y % 4294967296)) := by rfl
@[csem] theorem sub_u32_i32 [Dialect] (x y : Int) : Val.sub (.int .u32 x) (.int .i32 y) = mkInt .u32 (x - (y % 4294967296)) := by rfl
@[csem] theorem mul_u32_i32 [Dialect] (x y : Int) : Val.mul (.int .u32 x) (.int .i32 y) = mkInt .u32 (x * (y % 4294967296)) := by rfl
@[csem] theorem and_u32_i32 (x y : Int) : Val.and (.int .u32 x) (.int .i32 y) = .ok (.int .u32 (intOfBits .u32 (BitVec.ofInt 32 x &&& BitVec.ofInt 32 y))) := by rfl
@[csem] theorem or_u32_i32 (x y : Int) : Val.or (.int .u32 x) (.int .i32 y) = .ok (.int .u32 (intOfBits .u32 (BitVec.ofInt 32 x ||| BitVec.ofInt 32 y))) := by rfl
@[csem] theorem xor_u32_i32 (x y : Int) : Val.xor (.int .u32 x) (.int .i32 y) = .ok (.int .u32 (intOfBits .u32 (BitVec.ofInt 32 x ^^^ BitVec.ofInt 32 y))) := by rfl
@[csem] theorem lt_u32_i32 (x y : Int) : Val.lt (.int .u32 x) (.int .i32 y) = decide (x < (y % 4294967296)) := by rfl
@[csem] theorem gt_u32_i32 (x y : Int) : Val.gt (.int .u32 x) (.int .i32 y) = decide ((y % 4294967296) < x) := by rfl
@[csem] theorem eq_u32_i32 (x y : Int) : Val.eq (.int .u32 x) (.int .i32 y) = decide (x = (y % 4294967296)) := by rfl
@[csem] theorem cast_u32_i32 (x : Int) : Val.cast (.int .i32) (.int .u32 x) = .ok (.int .i32 (Int.bmod x 4294967296)) := by rfl
@[csem] theorem toBits_i32_u32 (x : Int) : Val.toBits (.int .i32) (.int .u32 x) = .ok (BitVec.ofInt 32 x) := by rfl
@[csem] theorem shr_u32_i32 [Dialect] (x : Int) {y : Int} (h : 0 ≤ y ∧ y < 32) : Val.shr (.int .u32 x) (.int .i32 y) = .ok (.int .u32 (x / 2 ^ y.toNat)) := if_pos h
@[csem] theorem shl_u32_i32 [Dialect] (x : Int) {y : Int} (h : 0 ≤ y ∧ y < 32) : Val.shl (.int .u32 x) (.int .i32 y) = .ok (.int .u32 (x * 2 ^ y.toNat % 4294967296)) := if_pos h
@[csem] theorem add_u32_u32 [Dialect] (x y : Int) : Val.add (.int .u32 x) (.int .u32 y) = mkInt .u32 (x + y) := by rfl
@[csem] theorem sub_u32_u32 [Dialect] (x y : Int) : Val.sub (.int .u32 x) (.int .u32 y) = mkInt .u32 (x - y) := by rfl
@[csem] theorem mul_u32_u32 [Dialect] (x y : Int) : Val.mul (.int .u32 x) (.int .u32 y) = mkInt .u32 (x * y) := by rfl
@[csem] theorem and_u32_u32 (x y : Int) : Val.and (.int .u32 x) (.int .u32 y) = .ok (.int .u32 (intOfBits .u32 (BitVec.ofInt 32 x &&& BitVec.ofInt 32 y))) := by rfl
@[csem] theorem or_u32_u32 (x y : Int) : Val.or (.int .u32 x) (.int .u32 y) = .ok (.int .u32 (intOfBits .u32 (BitVec.ofInt 32 x ||| BitVec.ofInt 32 y))) := by rfl
@[csem] theorem xor_u32_u32 (x y : Int) : Val.xor (.int .u32 x) (.int .u32 y) = .ok (.int .u32 (intOfBits .u32 (BitVec.ofInt 32 x ^^^ BitVec.ofInt 32 y))) := by rfl
@[csem] theorem lt_u32_u32 (x y : Int) : Val.lt (.int .u32 x) (.int .u32 y) = decide (x < y) := by rfl
@[csem] theorem gt_u32_u32 (x y : Int) : Val.gt (.int .u32 x) (.int .u32 y) = decide (y < x) := by rfl
@[csem] theorem eq_u32_u32 (x y : Int) : Val.eq (.int .u32 x) (.int .u32 y) = decide (x = y) := by rfl
@[csem] theorem cast_u32_u32 (x : Int) : Val.cast (.int .u32) (.int .u32 x) = .ok (.int .u32 x) := by rfl
@[csem] theorem toBits_u32_u32 (x : Int) : Val.toBits (.int .u32) (.int .u32 x) = .ok (BitVec.ofInt 32 x) := by rfl
@[csem] theorem shr_u32_u32 [Dialect] (x : Int) {y : Int} (h : 0 ≤ y ∧ y < 32) : Val.shr (.int .u32 x) (.int .u32 y) = .ok (.int .u32 (x / 2 ^ y.toNat)) := if_pos h
@[csem] theorem shl_u32_u32 [Dialect] (x : Int) {y : Int} (h : 0 ≤ y ∧ y < 32) : Val.shl (.int .u32 x) (.int .u32 y) = .ok (.int .u32 (x * 2 ^ y.toNat % 4294967296)) := if_pos h
@[csem] theorem add_u32_i64 [Dialect] (x y : Int) : Val.add (.int .u32 x) (.int .i64 y) = mkInt .i64 (x + y) := by rfl
@[csem] theorem sub_u32_i64 [Dialect] (x y : Int) : Val.sub (.int .u32 x) (.int .i64 y) = mkInt .i64 (x - y) := by rfl
@[csem] theorem mul_u32_i64 [Dialect] (x y : Int) : Val.mul (.int .u32 x) (.int .i64 y) = mkInt .i64 (x * y) := by rfl
@[csem] theorem and_u32_i64 (x y : Int) : Val.and (.int .u32 x) (.int .i64 y) = .ok (.int .i64 (intOfBits .i64 (BitVec.ofInt 64 x &&& BitVec.ofInt 64 y))) := by rfl
@[csem] theorem or_u32_i64 (x y : Int) : Val.or (.int .u32 x) (.int .i64 y) = .ok (.int .i64 (intOfBits .i64 (BitVec.ofInt 64 x ||| BitVec.ofInt 64 y))) := by rfl
@[csem] theorem xor_u32_i64 (x y : Int) : Val.xor (.int .u32 x) (.int .i64 y) = .ok (.int .i64 (intOfBits .i64 (BitVec.ofInt 64 x ^^^ BitVec.ofInt 64 y))) := by rfl
@[csem] theorem lt_u32_i64 (x y : Int) : Val.lt (.int .u32 x) (.int .i64 y) = decide (x < y) := by rfl
@[csem] theorem gt_u32_i64 (x y : Int) : Val.gt (.int .u32 x) (.int .i64 y) = decide (y < x) := by rfl
@[csem] theorem eq_u32_i64 (x y : Int) : Val.eq (.int .u32 x) (.int .i64 y) = decide (x = y) := by rfl
@[csem] theorem cast_u32_i64 (x : Int) : Val.cast (.int .i64) (.int .u32 x) = .ok (.int .i64 x) := by rfl
@[csem] theorem toBits_i64_u32 (x : Int) : Val.toBits (.int .i64) (.int .u32 x) = .ok (BitVec.ofInt 64 x) := by rfl
@[csem] theorem shr_u32_i64 [Dialect] (x : Int) {y : Int} (h : 0 ≤ y ∧ y < 32) : Val.shr (.int .u32 x) (.int .i64 y) = .ok (.int .u32 (x / 2 ^ y.toNat)) := if_pos h
@[csem] theorem shl_u32_i64 [Dialect] (x : Int) {y : Int} (h : 0 ≤ y ∧ y < 32) : Val.shl (.int .u32 x) (.int .i64 y) = .ok (.int .u32 (x * 2 ^ y.toNat % 4294967296)) := if_pos h
@[csem] theorem add_u32_u64 [Dialect] (x y : Int) : Val.add (.int .u32 x) (.int .u64 y) = mkInt .u64 (x + y) := by rfl
@[csem] theorem sub_u32_u64 [Dialect] (x y : Int) : Val.sub (.int .u32 x) (.int .u64 y) = mkInt .u64 (x - y) := by rfl
@[csem] theorem mul_u32_u64 [Dialect] (x y : Int) : Val.mul (.int .u32 x) (.int .u64 y) = mkInt .u64 (x * y) := by rfl
@[csem] theorem and_u32_u64 (x y : Int) : Val.and (.int .u32 x) (.int .u64 y) = .ok (.int .u64 (intOfBits .u64 (BitVec.ofInt 64 x &&& BitVec.ofInt 64 y))) := by rfl
@[csem] theorem or_u32_u64 (x y : Int) : Val.or (.int .u32 x) (.int .u64 y) = .ok (.int .u64 (intOfBits .u64 (BitVec.ofInt 64 x ||| BitVec.ofInt 64 y))) := by rfl
@[csem] theorem xor_u32_u64 (x y : Int) : Val.xor (.int .u32 x) (.int .u64 y) = .ok (.int .u64 (intOfBits .u64 (BitVec.ofInt 64 x ^^^ BitVec.ofInt 64 y))) := by rfl
@[csem] theorem lt_u32_u64 (x y : Int) : Val.lt (.int .u32 x) (.int .u64 y) = decide (x < y) := by rfl
@[csem] theorem gt_u32_u64 (x y : Int) : Val.gt (.int .u32 x) (.int .u64 y) = decide (y < x) := by rfl
@[csem] theorem eq_u32_u64 (x y : Int) : Val.eq (.int .u32 x) (.int .u64 y) = decide (x = y) := by rfl
@[csem] theorem cast_u32_u64 (x : Int) : Val.cast (.int .u64) (.int .u32 x) = .ok (.int .u64 x) := by rfl
@[csem] theorem toBits_u64_u32 (x : Int) : Val.toBits (.int .u64) (.int .u32 x) = .ok (BitVec.ofInt 64 x) := by rfl
@[csem] theorem shr_u32_u64 [Dialect] (x : Int) {y : Int} (h : 0 ≤ y ∧ y < 32) : Val.shr (.int .u32 x) (.int .u64 y) = .ok (.int .u32 (x / 2 ^ y.toNat)) := if_pos h
@[csem] theorem shl_u32_u64 [Dialect] (x : Int) {y : Int} (h : 0 ≤ y ∧ y < 32) : Val.shl (.int .u32 x) (.int .u64 y) = .ok (.int .u32 (x * 2 ^ y.toNat % 4294967296)) := if_pos h
@[csem] theorem ofBits_i64 (b : BitVec 64) : Val.ofBits (.int .i64) b = .int .i64 b.toInt := by rfl
@[csem] theorem not_i64 (x : Int) : Val.not (.int .i64 x) = .ok (.int .i64 (intOfBits .i64 (~~~ BitVec.ofInt 64 x))) := by rfl
@[csem] theorem truth_i64 (x : Int) : Val.truth (.int .i64 x) = decide (x ≠ 0) := by rfl
@[csem] theorem intOfBits_i64 (b : BitVec 64) : intOfBits .i64 b = b.toInt := by rfl
@[csem] theorem idx_i64 (x : Int) : Val.idx (.int .i64 x) = x := by rfl
@[csem] theorem cast_i64_f32 (x : Int) : Val.cast .f32 (.int .i64 x) = .ok (.f32 (BitVec.ofNat 32 (Fmt.b32.ofInt x))) := by rfl
@[csem] theorem cast_i64_f64 (x : Int) : Val.cast .f64 (.int .i64 x) = .ok (.f64 (BitVec.ofNat 64 (Fmt.b64.ofInt x))) := by rfl
@[csem] theorem add_i64_i8 [Dialect] (x y : Int) : Val.add (.int .i64 x) (.int .i8 y) = mkInt .i64 (x + y) := by rfl
@[csem] theorem sub_i64_i8 [Dialect] (x y : Int) : Val.sub (.int .i64 x) (.int .i8 y) = mkInt .i64 (x - y) := by rfl
@[csem] theorem mul_i64_i8 [Dialect] (x y : Int) : Val.mul (.int .i64 x) (.int .i8 y) = mkInt .i64 (x * y) := by rfl
@[csem] theorem and_i64_i8 (x y : Int) : Val.and (.int .i64 x) (.int .i8 y) = .ok (.int .i64 (intOfBits .i64 (BitVec.ofInt 64 x &&& BitVec.ofInt 64 y))) := by rfl
@[csem] theorem or_i64_i8 (x y : Int) : Val.or (.int .i64 x) (.int .i8 y) = .ok (.int .i64 (intOfBits .i64 (BitVec.ofInt 64 x ||| BitVec.ofInt 64 y))) := by rfl
@[csem] theorem xor_i64_i8 (x y : Int) : Val.xor (.int .i64 x) (.int .i8 y) = .ok (.int .i64 (intOfBits .i64 (BitVec.ofInt 64 x ^^^ BitVec.ofInt 64 y))) := by rfl
@[csem] theorem lt_i64_i8 (x y : Int) : Val.lt (.int .i64 x) (.int .i8 y) = decide (x < y) := by rfl
@[csem] theorem gt_i64_i8 (x y : Int) : Val.gt (.int .i64 x) (.int .i8 y) = decide (y < x) := by rfl
@[csem] theorem eq_i64_i8 (x y : Int) : Val.eq (.int .i64 x) (.int .i8 y) = decide (x = y) := by rfl
@[csem] theorem cast_i64_i8 (x : Int) : Val.cast (.int .i8) (.int .i64 x) = .ok (.int .i8 (Int.bmod x 256)) := by rfl
@[csem] theorem toBits_i8_i64 (x : Int) : Val.toBits (.int .i8) (.int .i64 x) = .ok (BitVec.ofInt 8 x) := by rfl
@[csem] theorem shr_i64_i8 [Dialect] (x : Int) {y : Int} (h : 0 ≤ y ∧ y < 64) : Val.shr (.int .i64 x) (.int .i8 y) = .ok (.int .i64 (x / 2 ^ y.toNat)) := if_pos h
@[csem] theorem shl_i64_i8 [Dialect] {x y : Int} (h : 0 ≤ y ∧ y < 64) (hx : ¬(x < 0 ∨ 18446744073709551616 ≤ x * 2 ^ y.toNat)) : Val.shl (.int .i64 x) (.int .i8 y) = .ok (.int .i64 (Int.bmod (x * 2 ^ y.toNat) 18446744073709551616)) := (if_pos h).trans (if_neg fun hh => hx hh.2.2)
@[csem] theorem add_i64_u8 [Dialect] (x y : Int) : Val.add (.int .i64 x) (.int .u8 y) = mkInt .i64 (x + y) := by rfl
@[csem] theorem sub_i64_u8 [Dialect] (x y : Int) : Val.sub (.int .i64 x) (.int .u8 y) = mkInt .i64 (x - y) := by rfl
@[csem] theorem mul_i64_u8 [Dialect] (x y : Int) : Val.mul (.int .i64 x) (.int .u8 y) = mkInt .i64 (x * y) := by rfl
@[csem] theorem and_i64_u8 (x y : Int) : Val.and (.int .i64 x) (.int .u8 y) = .ok (.int .i64 (intOfBits .i64 (BitVec.ofInt 64 x &&& BitVec.ofInt 64 y))) := by rfl
@[csem] theorem or_i64_u8 (x y : Int) : Val.or (.int .i64 x) (.int .u8 y) = .ok (.int .i64 (intOfBits .i64 (BitVec.ofInt 64 x ||| BitVec.ofInt 64 y))) := by rfl
@[csem] theorem xor_i64_u8 (x y : Int) : Val.xor (.int .i64 x) (.int .u8 y) = .ok (.int .i64 (intOfBits .i64 (BitVec.ofInt 64 x ^^^ BitVec.ofInt 64 y))) := by rfl
@[csem] theorem lt_i64_u8 (x y : Int) : Val.lt (.int .i64 x) (.int .u8 y) = decide (x < y) := by rfl
@[csem] theorem gt_i64_u8 (x y : Int) : Val.gt (.int .i64 x) (.int .u8 y) = decide (y < x) := by rfl
@[csem] theorem eq_i64_u8 (x y : Int) : Val.eq (.int .i64 x) (.int .u8 y) = decide (x = y) := by rfl
@[csem] theorem cast_i64_u8 (x : Int) : Val.cast (.int .u8) (.int .i64 x) = .ok (.int .u8 (x % 256)) := by rfl
@[csem] theorem toBits_u8_i64 (x : Int) : Val.toBits (.int .u8) (.int .i64 x) = .ok (BitVec.ofInt 8 x) := by rfl
@[csem] theorem shr_i64_u8 [Dialect] (x : Int) {y : Int} (h : 0 ≤ y ∧ y < 64) : Val.shr (.int .i64 x) (.int .u8 y) = .ok (.int .i64 (x / 2 ^ y.toNat)) := if_pos h
@[csem] theorem shl_i64_u8 [Dialect] {x y : Int} (h : 0 ≤ y ∧ y < 64) (hx : ¬(x < 0 ∨ 18446744073709551616 ≤ x * 2 ^ y.toNat)) : Val.shl (.int .i64 x) (.int .u8 y) = .ok (.int .i64 (Int.bmod (x * 2 ^ y.toNat) 18446744073709551616)) := (if_pos h).trans (if_neg fun hh => hx hh.2.2)
@[csem] theorem add_i64_i16 [Dialect] (x y : Int) : Val.add (.int .i64 x) (.int .i16 y) = mkInt .i64 (x + y) := by rfl
@[csem] theorem sub_i64_i16 [Dialect] (x y : Int) : Val.sub (.int .i64 x) (.int .i16 y) = mkInt .i64 (x - y) := by rfl
@[csem] theorem mul_i64_i16 [Dialect] (x y : Int) : Val.mul (.int .i64 x) (.int .i16 y) = mkInt .i64 (x * y) := by rfl
@[csem] theorem and_i64_i16 (x y : Int) : Val.and (.int .i64 x) (.int .i16 y) = .ok (.int .i64 (intOfBits .i64 (BitVec.ofInt 64 x &&& BitVec.ofInt 64 y))) := by rfl
@[csem] theorem or_i64_i16 (x y : Int) : Val.or (.int .i64 x) (.int .i16 y) = .ok (.int .i64 (intOfBits .i64 (BitVec.ofInt 64 x ||| BitVec.ofInt 64 y))) := by rfl
@[csem] theorem xor_i64_i16 (x y : Int) : Val.xor (.int .i64 x) (.int .i16 y) = .ok (.int .i64 (intOfBits .i64 (BitVec.ofInt 64 x ^^^ BitVec.ofInt 64 y))) := by rfl
@[csem] theorem lt_i64_i16 (x y : Int) : Val.lt (.int .i64 x) (.int .i16 y) = decide (x < y) := by rfl
@[csem] theorem gt_i64_i16 (x y : Int) : Val.gt (.int .i64 x) (.int .i16 y) = decide (y < x) := by rfl
@[csem] theorem eq_i64_i16 (x y : Int) : Val.eq (.int .i64 x) (.int .i16 y) = decide (x = y) := by rfl
@[csem] theorem cast_i64_i16 (x : Int) : Val.cast (.int .i16) (.int .i64 x) = .ok (.int .i16 (Int.bmod x 65536)) := by rfl
@[csem] theorem toBits_i16_i64 (x : Int) : Val.toBits (.int .i16) (.int .i64 x) = .ok (BitVec.ofInt 16 x) := by rfl
@[csem] theorem shr_i64_i16 [Dialect] (x : Int) {y : Int} (h : 0 ≤ y ∧ y < 64) : Val.shr (.int .i64 x) (.int .i16 y) = .ok (.int .i64 (x / 2 ^ y.toNat)) := if_pos h
@[csem] theorem shl_i64_i16 [Dialect] {x y : Int} (h : 0 ≤ y ∧ y < 64) (hx : ¬(x < 0 ∨ 18446744073709551616 ≤ x * 2 ^ y.toNat)) : Val.shl (.int .i64 x) (.int .i16 y) = .ok (.int .i64 (Int.bmod (x * 2 ^ y.toNat) 18446744073709551616)) := (if_pos h).trans (if_neg fun hh => hx hh.2.2)
@[csem] theorem add_i64_u16 [Dialect] (x y : Int) : Val.add (.int .i64 x) (.int .u16 y) = mkInt .i64 (x + y) := by rfl
@[csem] theorem sub_i64_u16 [Dialect] (x y : Int) : Val.sub (.int .i64 x) (.int .u16 y) = mkInt .i64 (x - y) := by rfl
@[csem] theorem mul_i64_u16 [Dialect] (x y : Int) : Val.mul (.int .i64 x) (.int .u16 y) = mkInt .i64 (x * y) := by rfl
@[csem] theorem and_i64_u16 (x y : Int) : Val.and (.int .i64 x) (.int .u16 y) = .ok (.int .i64 (intOfBits .i64 (BitVec.ofInt 64 x &&& BitVec.ofInt 64 y))) := by rfl
@[csem] theorem or_i64_u16 (x y : Int) : Val.or (.int .i64 x) (.int .u16 y) = .ok (.int .i64 (intOfBits .i64 (BitVec.ofInt 64 x ||| BitVec.ofInt 64 y))) := by rfl
@[csem] theorem xor_i64_u16 (x y : Int) : Val.xor (.int .i64 x) (.int .u16 y) = .ok (.int .i64 (intOfBits .i64 (BitVec.ofInt 64 x ^^^ BitVec.ofInt 64 y))) := by rfl
@[csem] theorem lt_i64_u16 (x y : Int) : Val.lt (.int .i64 x) (.int .u16 y) = decide (x < y) := by rfl
@[csem] theorem gt_i64_u16 (x y : Int) : Val.gt (.int .i64 x) (.int .u16 y) = decide (y < x) := by rfl
@[csem] theorem eq_i64_u16 (x y : Int) : Val.eq (.int .i64 x) (.int .u16 y) = decide (x = y) := by rfl
@[csem] theorem cast_i64_u16 (x : Int) : Val.cast (.int .u16) (.int .i64 x) = .ok (.int .u16 (x % 65536)) := by rfl
@[csem] theorem toBits_u16_i64 (x : Int) : Val.toBits (.int .u16) (.int .i64 x) = .ok (BitVec.ofInt 16 x) := by rfl
@[csem] theorem shr_i64_u16 [Dialect] (x : Int) {y : Int} (h : 0 ≤ y ∧ y < 64) : Val.shr (.int .i64 x) (.int .u16 y) = .ok (.int .i64 (x / 2 ^ y.toNat)) := if_pos h
@[csem] theorem shl_i64_u16 [Dialect] {x y : Int} (h : 0 ≤ y ∧ y < 64) (hx : ¬(x < 0 ∨ 18446744073709551616 ≤ x * 2 ^ y.toNat)) : Val.shl (.int .i64 x) (.int .u16 y) = .ok (.int .i64 (Int.bmod (x * 2 ^ y.toNat) 18446744073709551616)) := (if_pos h).trans (if_neg fun hh => hx hh.2.2)
@[csem] theorem add_i64_i32 [Dialect] (x y : Int) : Val.add (.int .i64 x) (.int .i32 y) = mkInt .i64 (x + y) := by rfl
@[csem] theorem sub_i64_i32 [Dialect] (x y : Int) : Val.sub (.int .i64 x) (.int .i32 y) = mkInt .i64 (x - y) := by rfl
@[csem] theorem mul_i64_i32 [Dialect] (x y : Int) : Val.mul (.int .i64 x) (.int .i32 y) = mkInt .i64 (x * y) := by rfl
@[csem] theorem and_i64_i32 (x y : Int) : Val.and (.int .i64 x) (.int .i32 y) = .ok (.int .i64 (intOfBits .i64 (BitVec.ofInt 64 x &&& BitVec.ofInt 64 y))) := by rfl
@[csem] theorem or_i64_i32 (x y : Int) : Val.or (.int .i64 x) (.int .i32 y) = .ok (.int .i64 (intOfBits .i64 (BitVec.ofInt 64 x ||| BitVec.ofInt 64 y))) := by rfl
@[csem] theorem xor_i64_i32 (x y : Int) : Val.xor (.int .i64 x) (.int .i32 y) = .ok (.int .i64 (intOfBits .i64 (BitVec.ofInt 64 x ^^^ BitVec.ofInt 64 y))) := by rfl
@[csem] theorem lt_i64_i32 (x y : Int) : Val.lt (.int .i64 x) (.int .i32 y) = decide (x < y) := by rfl
@[csem] theorem gt_i64_i32 (x y : Int) : Val.gt (.int .i64 x) (.int .i32 y) = decide (y < x) := by rfl
@[csem] theorem eq_i64_i32 (x y : Int) : Val.eq (.int .i64 x) (.int .i32 y) = decide (x = y) := by rfl
@[csem] theorem cast_i64_i32 (x : Int) : Val.cast (.int .i32) (.int .i64 x) = .ok (.int .i32 (Int.bmod x 4294967296)) := by rfl
@[csem] theorem toBits_i32_i64 (x : Int) : Val.toBits (.int .i32) (.int .i64 x) = .ok (BitVec.ofInt 32 x) := by rfl
@[csem] theorem shr_i64_i32 [Dialect] (x : Int) {y : Int} (h : 0 ≤ y ∧ y < 64) : Val.shr (.int .i64 x) (.int .i32 y) = .ok (.int .i64 (x / 2 ^ y.toNat)) := if_pos h
@[csem] theorem shl_i64_i32 [Dialect] {x y : Int} (h : 0 ≤ y ∧ y < 64) (hx : ¬(x < 0 ∨ 18446744073709551616 ≤ x * 2 ^ y.toNat)) : Val.shl (.int .i64 x) (.int .i32 y) = .ok (.int .i64 (Int.bmod (x * 2 ^ y.toNat) 18446744073709551616)) := (if_pos h).trans (if_neg fun hh => hx hh.2.2)
@[csem] theorem add_i64_u32 [Dialect] (x y : Int) : Val.add (.int .i64 x) (.int .u32 y) = mkInt .i64 (x + y) := by rfl
@[csem] theorem sub_i64_u32 [Dialect] (x y : Int) : Val.sub (.int .i64 x) (.int .u32 y) = mkInt .i64 (x - y) := by rfl
@[csem] theorem mul_i64_u32 [Dialect] (x y : Int) : Val.mul (.int .i64 x) (.int .u32 y) = mkInt .i64 (x * y) := by rfl
@[csem] theorem and_i64_u32 (x y : Int) : Val.and (.int .i64 x) (.int .u32 y) = .ok (.int .i64 (intOfBits .i64 (BitVec.ofInt 64 x &&& BitVec.ofInt 64 y))) := by rfl
@[csem] theorem or_i64_u32 (x y : Int) : Val.or (.int .i64 x) (.int .u32 y) = .ok (.int .i64 (intOfBits .i64 (BitVec.ofInt 64 x ||| BitVec.ofInt 64 y))) := by rfl
@[csem] theorem xor_i64_u32 (x y : Int) : Val.xor (.int .i64 x) (.int .u32 y) = .ok (.int .i64 (intOfBits .i64 (BitVec.ofInt 64 x ^^^ BitVec.ofInt 64 y))) := by rfl
@[csem] theorem lt_i64_u32 (x y : Int) : Val.lt (.int .i64 x) (.int .u32 y) = decide (x < y) := by rfl
@[csem] theorem gt_i64_u32 (x y : Int) : Val.gt (.int .i64 x) (.int .u32 y) = decide (y < x) := by rfl
@[csem] theorem eq_i64_u32 (x y : Int) : Val.eq (.int .i64 x) (.int .u32 y) = decide (x = y) := by rfl
@[csem] theorem cast_i64_u32 (x : Int) : Val.cast (.int .u32) (.int .i64 x) = .ok (.int .u32 (x % 4294967296)) := by rfl
@[csem] theorem toBits_u32_i64 (x : Int) : Val.toBits (.int .u32) (.int .i64 x) = .ok (BitVec.ofInt 32 x) := by rfl
@[csem] theorem shr_i64_u32 [Dialect] (x : Int) {y : Int} (h : 0 ≤ y ∧ y < 64) : Val.shr (.int .i64 x) (.int .u32 y) = .ok (.int .i64 (x / 2 ^ y.toNat)) := if_pos h
@[csem] theorem shl_i64_u32 [Dialect] {x y : Int} (h : 0 ≤ y ∧ y < 64) (hx : ¬(x < 0 ∨ 18446744073709551616 ≤ x * 2 ^ y.toNat)) : Val.shl (.int .i64 x) (.int .u32 y) = .ok (.int .i64 (Int.bmod (x * 2 ^ y.toNat) 18446744073709551616)) := (if_pos h).trans (if_neg fun hh => hx hh.2.2)
@[csem] theorem add_i64_i64 [Dialect] (x y : Int) : Val.add (.int .i64 x) (.int .i64 y) = mkInt .i64 (x + y) := by rfl
@[csem] theorem sub_i64_i64 [Dialect] (x y : Int) : Val.sub (.int .i64 x) (.int .i64 y) = mkInt .i64 (x - y) := by rfl
@[csem] theorem mul_i64_i64 [Dialect] (x y : Int) : Val.mul (.int .i64 x) (.int .i64 y) = mkInt .i64 (x * y) := by rfl
@[csem] theorem and_i64_i64 (x y : Int) : Val.and (.int .i64 x) (.int .i64 y) = .ok (.int .i64 (intOfBits .i64 (BitVec.ofInt 64 x &&& BitVec.ofInt 64 y))) := by rfl
@[csem] theorem or_i64_i64 (x y : Int) : Val.or (.int .i64 x) (.int .i64 y) = .ok (.int .i64 (intOfBits .i64 (BitVec.ofInt 64 x ||| BitVec.ofInt 64 y))) := by rfl
@[csem] theorem xor_i64_i64 (x y : Int) : Val.xor (.int .i64 x) (.int .i64 y) = .ok (.int .i64 (intOfBits .i64 (BitVec.ofInt 64 x ^^^ BitVec.ofInt 64 y))) := by rfl
@[csem] theorem lt_i64_i64 (x y : Int) : Val.lt (.int .i64 x) (.int .i64 y) = decide (x < y) := by rfl
@[csem] theorem gt_i64_i64 (x y : Int) : Val.gt (.int .i64 x) (.int .i64 y) = decide (y < x) := by rfl
@[csem] theorem eq_i64_i64 (x y : Int) : Val.eq (.int .i64 x) (.int .i64 y) = decide (x = y) := by rfl
@[csem] theorem cast_i64_i64 (x : Int) : Val.cast (.int .i64) (.int .i64 x) = .ok (.int .i64 x) := by rfl
@[csem] theorem toBits_i64_i64 (x : Int) : Val.toBits (.int .i64) (.int .i64 x) = .ok (BitVec.ofInt 64 x) := by rfl
@[csem] theorem shr_i64_i64 [Dialect] (x : Int) {y : Int} (h : 0 ≤ y ∧ y < 64) : Val.shr (.int .i64 x) (.int .i64 y) = .ok (.int .i64 (x / 2 ^ y.toNat)) := if_pos h
@[csem] theorem shl_i64_i64 [Dialect] {x y : Int} (h : 0 ≤ y ∧ y < 64) (hx : ¬(x < 0 ∨ 18446744073709551616 ≤ x * 2 ^ y.toNat)) : Val.shl (.int .i64 x) (.int .i64 y) = .ok (.int .i64 (Int.bmod (x * 2 ^ y.toNat) 18446744073709551616)) := (if_pos h).trans (if_neg fun hh => hx hh.2.2)
@[csem] theorem add_i64_u64 [Dialect] (x y : Int) : Val.add (.int .i64 x) (.int .u64 y) = mkInt .u64 ((x % 18446744073709551616) + y) := by rfl
@[csem] theorem sub_i64_u64 [Dialect] (x y : Int) : Val.sub (.int .i64 x) (.int .u64 y) = mkInt .u64 ((x % 18446744073709551616) - y) := by rfl
@[csem] theorem mul_i64_u64 [Dialect] (x y : Int) : Val.mul (.int .i64 x) (.int .u64 y) = mkInt .u64 ((x % 18446744073709551616) * y) := by rfl
@[csem] theorem and_i64_u64 (x y : Int) : Val.and (.int .i64 x) (.int .u64 y) = .ok (.int .u64 (intOfBits .u64 (BitVec.ofInt 64 x &&& BitVec.ofInt 64 y))) := by rfl
@[csem] theorem or_i64_u64 (x y : Int) : Val.or (.int .i64 x) (.int .u64 y) = .ok (.int .u64 (intOfBits .u64 (BitVec.ofInt 64 x ||| BitVec.ofInt 64 y))) := by rfl
@[csem] theorem xor_i64_u64 (x y : Int) : Val.xor (.int .i64 x) (.int .u64 y) = .ok (.int .u64 (intOfBits .u64 (BitVec.ofInt 64 x ^^^ BitVec.ofInt 64 y))) := by rfl
@[csem] theorem lt_i64_u64 (x y : Int) : Val.lt (.int .i64 x) (.int .u64 y) = decide ((x % 18446744073709551616) < y) := by rfl
@[csem] theorem gt_i64_u64 (x y : Int) : Val.gt (.int .i64 x) (.int .u64 y) = decide (y < (x % 18446744073709551616)) := by rfl
@[csem] theorem eq_i64_u64 (x y : Int) : Val.eq (.int .i64 x) (.int .u64 y) = decide ((x % 18446744073709551616) = y) := by rfl
@[csem] theorem cast_i64_u64 (x : Int) : Val.cast (.int .u64) (.int .i64 x) = .ok (.int .u64 (x % 18446744073709551616)) := by rfl
@[csem] theorem toBits_u64_i64 (x : Int) : Val.toBits (.int .u64) (.int .i64 x) = .ok (BitVec.ofInt 64 x) := by rfl
@[csem] theorem shr_i64_u64 [Dialect] (x : Int) {y : Int} (h : 0 ≤ y ∧ y < 64) : Val.shr (.int .i64 x) (.int .u64 y) = .ok (.int .i64 (x / 2 ^ y.toNat)) := if_pos h
@[csem] theorem shl_i64_u64 [Dialect] {x y : Int} (h : 0 ≤ y ∧ y < 64) (hx : ¬(x < 0 ∨ 18446744073709551616 ≤ x * 2 ^ y.toNat)) : Val.shl (.int .i64 x) (.int .u64 y) = .ok (.int .i64 (Int.bmod (x * 2 ^ y.toNat) 18446744073709551616)) := (if_pos h).trans (if_neg fun hh => hx hh.2.2)
@[csem] theorem ofBits_u64 (b : BitVec 64) : Val.ofBits (.int .u64) b = .int .u64 (b.toNat : Int) := by rfl
@[csem] theorem not_u64 (x : Int) : Val.not (.int .u64 x) = .ok (.int .u64 (intOfBits .u64 (~~~ BitVec.ofInt 64 x))) := by rfl
@[csem] theorem truth_u64 (x : Int) : Val.truth (.int .u64 x) = decide (x ≠ 0) := by rfl
@[csem] theorem intOfBits_u64 (b : BitVec 64) : intOfBits .u64 b = (b.toNat : Int) := by rfl
@[csem] theorem idx_u64 (x : Int) : Val.idx (.int .u64 x) = x := by rfl
@[csem] theorem cast_u64_f32 (x : Int) : Val.cast .f32 (.int .u64 x) = .ok (.f32 (BitVec.ofNat 32 (Fmt.b32.ofInt x))) := by rfl
@[csem] theorem cast_u64_f64 (x : Int) : Val.cast .f64 (.int .u64 x) = .ok (.f64 (BitVec.ofNat 64 (Fmt.b64.ofInt x))) := by rfl
@[csem] theorem add_u64_i8 [Dialect] (x y : Int) : Val.add (.int .u64 x) (.int .i8 y) = mkInt .u64 (x + (y % 18446744073709551616)) := by rfl
@[csem] theorem sub_u64_i8 [Dialect] (x y : Int) : Val.sub (.int .u64 x) (.int .i8 y) = mkInt .u64 (x - (y % 18446744073709551616)) := by rfl
@[csem] theorem mul_u64_i8 [Dialect] (x y : Int) : Val.mul (.int .u64 x) (.int .i8 y) = mkInt .u64 (x * (y % 18446744073709551616)) := by rfl
@[csem] theorem and_u64_i8 (x y : Int) : Val.and (.int .u64 x) (.int .i8 y) = .ok (.int .u64 (intOfBits .u64 (BitVec.ofInt 64 x &&& BitVec.ofInt 64 y))) := by rfl
@[csem] theorem or_u64_i8 (x y : Int) : Val.or (.int .u64 x) (.int .i8 y) = .ok (.int .u64 (intOfBits .u64 (BitVec.ofInt 64 x ||| BitVec.ofInt 64 y))) := by rfl
@[csem] theorem xor_u64_i8 (x y : Int) : Val.xor (.int .u64 x) (.int .i8 y) = .ok (.int .u64 (intOfBits .u64 (BitVec.ofInt 64 x ^^^ BitVec.ofInt 64 y))) := by rfl
@[csem] theorem lt_u64_i8 (x y : Int) : Val.lt (.int .u64 x) (.int .i8 y) = decide (x < (y % 18446744073709551616)) := by rfl
@[csem] theorem gt_u64_i8 (x y : Int) : Val.gt (.int .u64 x) (.int .i8 y) = decide ((y % 18446744073709551616) < x) := by rfl
@[csem] theorem eq_u64_i8 (x y : Int) : Val.eq (.int .u64 x) (.int .i8 y) = decide (x = (y % 18446744073709551616)) := by rfl
@[csem] theorem cast_u64_i8 (x : Int) : Val.cast (.int .i8) (.int .u64 x) = .ok (.int .i8 (Int.bmod x 256)) := by rfl
@[csem] theorem toBits_i8_u64 (x : Int) : Val.toBits (.int .i8) (.int .u64 x) = .ok (BitVec.ofInt 8 x) := by rfl
@[csem] theorem shr_u64_i8 [Dialect] (x : Int) {y : Int} (h : 0 ≤ y ∧ y < 64) : Val.shr (.int .u64 x) (.int .i8 y) = .ok (.int .u64 (x / 2 ^ y.toNat)) := if_pos h
@[csem] theorem shl_u64_i8 [Dialect] (x : Int) {y : Int} (h : 0 ≤ y ∧ y < 64) : Val.shl (.int .u64 x) (.int .i8 y) = .ok (.int .u64 (x * 2 ^ y.toNat % 18446744073709551616)) := if_pos h
@[csem] theorem add_u64_u8 [Dialect] (x y : Int) : Val.add (.int .u64 x) (.int .u8 y) = mkInt .u64 (x + y) := by rfl
@[csem] theorem sub_u64_u8 [Dialect] (x y : Int) : Val.sub (.int .u64 x) (.int .u8 y) = mkInt .u64 (x - y) := by rfl
@[csem] theorem mul_u64_u8 [Dialect] (x y : Int) : Val.mul (.int .u64 x) (.int .u8 y) = mkInt .u64 (x * y) := by rfl
@[csem] theorem and_u64_u8 (x y : Int) : Val.and (.int .u64 x) (.int .u8 y) = .ok (.int .u64 (intOfBits .u64 (BitVec.ofInt 64 x &&& BitVec.ofInt 64 y))) := by rfl
@[csem] theorem or_u64_u8 (x y : Int) : Val.or (.int .u64 x) (.int .u8 y) = .ok (.int .u64 (intOfBits .u64 (BitVec.ofInt 64 x ||| BitVec.ofInt 64 y))) := by rfl
@[csem] theorem xor_u64_u8 (x y : Int) : Val.xor (.int .u64 x) (.int .u8 y) = .ok (.int .u64 (intOfBits .u64 (BitVec.ofInt 64 x ^^^ BitVec.ofInt 64 y))) := by rfl
@[csem] theorem lt_u64_u8 (x y : Int) : Val.lt (.int .u64 x) (.int .u8 y) = decide (x < y) := by rfl
@[csem] theorem gt_u64_u8 (x y : Int) : Val.gt (.int .u64 x) (.int .u8 y) = decide (y < x) := by rfl
@[csem] theorem eq_u64_u8 (x y : Int) : Val.eq (.int .u64 x) (.int .u8 y) = decide (x = y) := by rfl
@[csem] theorem cast_u64_u8 (x : Int) : Val.cast (.int .u8) (.int .u64 x) = .ok (.int .u8 (x % 256)) := by rfl
@[csem] theorem toBits_u8_u64 (x : Int) : Val.toBits (.int .u8) (.int .u64 x) = .ok (BitVec.ofInt 8 x) := by rfl
@[csem] theorem shr_u64_u8 [Dialect] (x : Int) {y : Int} (h : 0 ≤ y ∧ y < 64) : Val.shr (.int .u64 x) (.int .u8 y) = .ok (.int .u64 (x / 2 ^ y.toNat)) := if_pos h
@[csem] theorem shl_u64_u8 [Dialect] (x : Int) {y : Int} (h : 0 ≤ y ∧ y < 64) : Val.shl (.int .u64 x) (.int .u8 y) = .ok (.int .u64 (x * 2 ^ y.toNat % 18446744073709551616)) := if_pos h
@[csem] theorem add_u64_i16 [Dialect] (x y : Int) : Val.add (.int .u64 x) (.int .i16 y) = mkInt .u64 (x + (y % 18446744073709551616)) := by rfl
@[csem] theorem sub_u64_i16 [Dialect] (x y : Int) : Val.sub (.int .u64 x) (.int .i16 y) = mkInt .u64 (x - (y % 18446744073709551616)) := by rfl
@[csem] theorem mul_u64_i16 [Dialect] (x y : Int) : Val.mul (.int .u64 x) (.int .i16 y) = mkInt .u64 (x * (y % 18446744073709551616)) := by rfl
@[csem] theorem and_u64_i16 (x y : Int) : Val.and (.int .u64 x) (.int .i16 y) = .ok (.int .u64 (intOfBits .u64 (BitVec.ofInt 64 x &&& BitVec.ofInt 64 y))) := by rfl
@[csem] theorem or_u64_i16 (x y : Int) : Val.or (.int .u64 x) (.int .i16 y) = .ok (.int .u64 (intOfBits .u64 (BitVec.ofInt 64 x ||| BitVec.ofInt 64 y))) := by rfl
@[csem] theorem xor_u64_i16 (x y : Int) : Val.xor (.int .u64 x) (.int .i16 y) = .ok (.int .u64 (intOfBits .u64 (BitVec.ofInt 64 x ^^^ BitVec.ofInt 64 y))) := by rfl
@[csem] theorem lt_u64_i16 (x y : Int) : Val.lt (.int .u64 x) (.int .i16 y) = decide (x < (y % 18446744073709551616)) := by rfl
@[csem] theorem gt_u64_i16 (x y : Int) : Val.gt (.int .u64 x) (.int .i16 y) = decide ((y % 18446744073709551616) < x) := by rfl
@[csem] theorem eq_u64_i16 (x y : Int) : Val.eq (.int .u64 x) (.int .i16 y) = decide (x = (y % 18446744073709551616)) := by rfl
@[csem] theorem cast_u64_i16 (x : Int) : Val.cast (.int .i16) (.int .u64 x) = .ok (.int .i16 (Int.bmod x 65536)) := by rfl
@[csem] theorem toBits_i16_u64 (x : Int) : Val.toBits (.int .i16) (.int .u64 x) = .ok (BitVec.ofInt 16 x) := by rfl
@[csem] theorem shr_u64_i16 [Dialect] (x : Int) {y : Int} (h : 0 ≤ y ∧ y < 64) : Val.shr (.int .u64 x) (.int .i16 y) = .ok (.int .u64 (x / 2 ^ y.toNat)) := if_pos h
@[csem] theorem shl_u64_i16 [Dialect] (x : Int) {y : Int} (h : 0 ≤ y ∧ y < 64) : Val.shl (.int .u64 x) (.int .i16 y) = .ok (.int .u64 (x * 2 ^ y.toNat % 18446744073709551616)) := if_pos h
@[csem] theorem add_u64_u16 [Dialect] (x y : Int) : Val.add (.int .u64 x) (.int .u16 y) = mkInt .u64 (x + y) := by rfl
@[csem] theorem sub_u64_u16 [Dialect] (x y : Int) : Val.sub (.int .u64 x) (.int .u16 y) = mkInt .u64 (x - y) := by rfl
@[csem] theorem mul_u64_u16 [Dialect] (x y : Int) : Val.mul (.int .u64 x) (.int .u16 y) = mkInt .u64 (x * y) := by rfl
@[csem] theorem and_u64_u16 (x y : Int) : Val.and (.int .u64 x) (.int .u16 y) = .ok (.int .u64 (intOfBits .u64 (BitVec.ofInt 64 x &&& BitVec.ofInt 64 y))) := by rfl
@[csem] theorem or_u64_u16 (x y : Int) : Val.or (.int .u64 x) (.int .u16 y) = .ok (.int .u64 (intOfBits .u64 (BitVec.ofInt 64 x ||| BitVec.ofInt 64 y))) := by rfl
@[csem] theorem xor_u64_u16 (x y : Int) : Val.xor (.int .u64 x) (.int .u16 y) = .ok (.int .u64 (intOfBits .u64 (BitVec.ofInt 64 x ^^^ BitVec.ofInt 64 y))) := by rfl
@[csem] theorem lt_u64_u16 (x y : Int) : Val.lt (.int .u64 x) (.int .u16 y) = decide (x < y) := by rfl
@[csem] theorem gt_u64_u16 (x y : Int) : Val.gt (.int .u64 x) (.int .u16 y) = decide (y < x) := by rfl
@[csem] theorem eq_u64_u16 (x y : Int) : Val.eq (.int .u64 x) (.int .u16 y) = decide (x = y) := by rfl
@[csem] theorem cast_u64_u16 (x : Int) : Val.cast (.int .u16) (.int .u64 x) = .ok (.int .u16 (x % 65536)) := by rfl
@[csem] theorem toBits_u16_u64 (x : Int) : Val.toBits (.int .u16) (.int .u64 x) = .ok (BitVec.ofInt 16 x) := by rfl
@[csem] theorem shr_u64_u16 [Dialect] (x : Int) {y : Int} (h : 0 ≤ y ∧ y < 64) : Val.shr (.int .u64 x) (.int .u16 y) = .ok (.int .u64 (x / 2 ^ y.toNat)) := if_pos h
@[csem] theorem shl_u64_u16 [Dialect] (x : Int) {y : Int} (h : 0 ≤ y ∧ y < 64) : Val.shl (.int .u64 x) (.int .u16 y) = .ok (.int .u64 (x * 2 ^ y.toNat % 18446744073709551616)) := if_pos h
@[csem] theorem add_u64_i32 [Dialect] (x y : Int) : Val.add (.int .u64 x) (.int .i32 y) = mkInt .u64 (x + (y % 18446744073709551616)) := by rfl
@[csem] theorem sub_u64_i32 [Dialect] (x y : Int) : Val.sub (.int .u64 x) (.int .i32 y) = mkInt .u64 (x - (y % 18446744073709551616)) := by rfl
@[csem] theorem mul_u64_i32 [Dialect] (x y : Int) : Val.mul (.int .u64 x) (.int .i32 y) = mkInt .u64 (x * (y % 18446744073709551616)) := by rfl
@[csem] theorem and_u64_i32 (x y : Int) : Val.and (.int .u64 x) (.int .i32 y) = .ok (.int .u64 (intOfBits .u64 (BitVec.ofInt 64 x &&& BitVec.ofInt 64 y))) := by rfl
@[csem] theorem or_u64_i32 (x y : Int) : Val.or (.int .u64 x) (.int .i32 y) = .ok (.int .u64 (intOfBits .u64 (BitVec.ofInt 64 x ||| BitVec.ofInt 64 y))) := by rfl
@[csem] theorem xor_u64_i32 (x y : Int) : Val.xor (.int .u64 x) (.int .i32 y) = .ok (.int .u64 (intOfBits .u64 (BitVec.ofInt 64 x ^^^ BitVec.ofInt 64 y))) := by rfl
@[csem] theorem lt_u64_i32 (x y : Int) : Val.lt (.int .u64 x) (.int .i32 y) = decide (x < (y % 18446744073709551616)) := by rfl
@[csem] theorem gt_u64_i32 (x y : Int) : Val.gt (.int .u64 x) (.int .i32 y) = decide ((y % 18446744073709551616) < x) := by rfl
@[csem] theorem eq_u64_i32 (x y : Int) : Val.eq (.int .u64 x) (.int .i32 y) = decide (x = (y % 18446744073709551616)) := by rfl
@[csem] theorem cast_u64_i32 (x : Int) : Val.cast (.int .i32) (.int .u64 x) = .ok (.int .i32 (Int.bmod x 4294967296)) := by rfl
@[csem] theorem toBits_i32_u64 (x : Int) : Val.toBits (.int .i32) (.int .u64 x) = .ok (BitVec.ofInt 32 x) := by rfl
@[csem] theorem shr_u64_i32 [Dialect] (x : Int) {y : Int} (h : 0 ≤ y ∧ y < 64) : Val.shr (.int .u64 x) (.int .i32 y) = .ok (.int .u64 (x / 2 ^ y.toNat)) := if_pos h
@[csem] theorem shl_u64_i32 [Dialect] (x : Int) {y : Int} (h : 0 ≤ y ∧ y < 64) : Val.shl (.int .u64 x) (.int .i32 y) = .ok (.int .u64 (x * 2 ^ y.toNat % 18446744073709551616)) := if_pos h
@[csem] theorem add_u64_u32 [Dialect] (x y : Int) : Val.add (.int .u64 x) (.int .u32 y) = mkInt .u64 (x + y) := by rfl
@[csem] theorem sub_u64_u32 [Dialect] (x y : Int) : Val.sub (.int .u64 x) (.int .u32 y) = mkInt .u64 (x - y) := by rfl
@[csem] theorem mul_u64_u32 [Dialect] (x y : Int) : Val.mul (.int .u64 x) (.int .u32 y) = mkInt .u64 (x * y) := by rfl
@[csem] theorem and_u64_u32 (x y : Int) : Val.and (.int .u64 x) (.int .u32 y) = .ok (.int .u64 (intOfBits .u64 (BitVec.ofInt 64 x &&& BitVec.ofInt 64 y))) := by rfl
@[csem] theorem or_u64_u32 (x y : Int) : Val.or (.int .u64 x) (.int .u32 y) = .ok (.int .u64 (intOfBits .u64 (BitVec.ofInt 64 x ||| BitVec.ofInt 64 y))) := by rfl
@[csem] theorem xor_u64_u32 (x y : Int) : Val.xor (.int .u64 x) (.int .u32 y) = .ok (.int .u64 (intOfBits .u64 (BitVec.ofInt 64 x ^^^ BitVec.ofInt 64 y))) := by rfl
@[csem] theorem lt_u64_u32 (x y : Int) : Val.lt (.int .u64 x) (.int .u32 y) = decide (x < y) := by rfl
@[csem] theorem gt_u64_u32 (x y : Int) : Val.gt (.int .u64 x) (.int .u32 y) = decide (y < x) := by rfl
@[csem] theorem eq_u64_u32 (x y : Int) : Val.eq (.int .u64 x) (.int .u32 y) = decide (x = y) := by rfl
@[csem] theorem cast_u64_u32 (x : Int) : Val.cast (.int .u32) (.int .u64 x) = .ok (.int .u32 (x % 4294967296)) := by rfl
@[csem] theorem toBits_u32_u64 (x : Int) : Val.toBits (.int .u32) (.int .u64 x) = .ok (BitVec.ofInt 32 x) := by rfl
@[csem] theorem shr_u64_u32 [Dialect] (x : Int) {y : Int} (h : 0 ≤ y ∧ y < 64) : Val.shr (.int .u64 x) (.int .u32 y) = .ok (.int .u64 (x / 2 ^ y.toNat)) := if_pos h
@[csem] theorem shl_u64_u32 [Dialect] (x : Int) {y : Int} (h : 0 ≤ y ∧ y < 64) : Val.shl (.int .u64 x) (.int .u32 y) = .ok (.int .u64 (x * 2 ^ y.toNat % 18446744073709551616)) := if_pos h
@[csem] theorem add_u64_i64 [Dialect] (x y : Int) : Val.add (.int .u64 x) (.int .i64 y) = mkInt .u64 (x + (y % 18446744073709551616)) := by rfl
@[csem] theorem sub_u64_i64 [Dialect] (x y : Int) : Val.sub (.int .u64 x) (.int .i64 y) = mkInt .u64 (x - (y % 18446744073709551616)) := by rfl
@[csem] theorem mul_u64_i64 [Dialect] (x y : Int) : Val.mul (.int .u64 x) (.int .i64 y) = mkInt .u64 (x * (y % 18446744073709551616)) := by rfl
@[csem] theorem and_u64_i64 (x y : Int) : Val.and (.int .u64 x) (.int .i64 y) = .ok (.int .u64 (intOfBits .u64 (BitVec.ofInt 64 x &&& BitVec.ofInt 64 y))) := by rfl
@[csem] theorem or_u64_i64 (x y : Int) : Val.or (.int .u64 x) (.int .i64 y) = .ok (.int .u64 (intOfBits .u64 (BitVec.ofInt 64 x ||| BitVec.ofInt 64 y))) := by rfl
@[csem] theorem xor_u64_i64 (x y : Int) : Val.xor (.int .u64 x) (.int .i64 y) = .ok (.int .u64 (intOfBits .u64 (BitVec.ofInt 64 x ^^^ BitVec.ofInt 64 y))) := by rfl
@[csem] theorem lt_u64_i64 (x y : Int) : Val.lt (.int .u64 x) (.int .i64 y) = decide (x < (y % 18446744073709551616)) := by rfl
@[csem] theorem gt_u64_i64 (x y : Int) : Val.gt (.int .u64 x) (.int .i64 y) = decide ((y % 18446744073709551616) < x) := by rfl
@[csem] theorem eq_u64_i64 (x y : Int) : Val.eq (.int .u64 x) (.int .i64 y) = decide (x = (y % 18446744073709551616)) := by rfl
@[csem] theorem cast_u64_i64 (x : Int) : Val.cast (.int .i64) (.int .u64 x) = .ok (.int .i64 (Int.bmod x 18446744073709551616)) := by rfl
@[csem] theorem toBits_i64_u64 (x : Int) : Val.toBits (.int .i64) (.int .u64 x) = .ok (BitVec.ofInt 64 x) := by rfl
@[csem] theorem shr_u64_i64 [Dialect] (x : Int) {y : Int} (h : 0 ≤ y ∧ y < 64) : Val.shr (.int .u64 x) (.int .i64 y) = .ok (.int .u64 (x / 2 ^ y.toNat)) := if_pos h
@[csem] theorem shl_u64_i64 [Dialect] (x : Int) {y : Int} (h : 0 ≤ y ∧ y < 64) : Val.shl (.int .u64 x) (.int .i64 y) = .ok (.int .u64 (x * 2 ^ y.toNat % 18446744073709551616)) := if_pos h
@[csem] theorem add_u64_u64 [Dialect] (x y : Int) : Val.add (.int .u64 x) (.int .u64 y) = mkInt .u64 (x + y) := by rfl
@[csem] theorem sub_u64_u64 [Dialect] (x y : Int) : Val.sub (.int .u64 x) (.int .u64 y) = mkInt .u64 (x - y) := by rfl
@[csem] theorem mul_u64_u64 [Dialect] (x y : Int) : Val.mul (.int .u64 x) (.int .u64 y) = mkInt .u64 (x * y) := by rfl
@[csem] theorem and_u64_u64 (x y : Int) : Val.and (.int .u64 x) (.int .u64 y) = .ok (.int .u64 (intOfBits .u64 (BitVec.ofInt 64 x &&& BitVec.ofInt 64 y))) := by rfl
@[csem] theorem or_u64_u64 (x y : Int) : Val.or (.int .u64 x) (.int .u64 y) = .ok (.int .u64 (intOfBits .u64 (BitVec.ofInt 64 x ||| BitVec.ofInt 64 y))) := by rfl
@[csem] theorem xor_u64_u64 (x y : Int) : Val.xor (.int .u64 x) (.int .u64 y) = .ok (.int .u64 (intOfBits .u64 (BitVec.ofInt 64 x ^^^ BitVec.ofInt 64 y))) := by rfl
@[csem] theorem lt_u64_u64 (x y : Int) : Val.lt (.int .u64 x) (.int .u64 y) = decide (x < y) := by rfl
@[csem] theorem gt_u64_u64 (x y : Int) : Val.gt (.int .u64 x) (.int .u64 y) = decide (y < x) := by rfl
@[csem] theorem eq_u64_u64 (x y : Int) : Val.eq (.int .u64 x) (.int .u64 y) = decide (x = y) := by rfl
@[csem] theorem cast_u64_u64 (x : Int) : Val.cast (.int .u64) (.int .u64 x) = .ok (.int .u64 x) := by rfl
@[csem] theorem toBits_u64_u64 (x : Int) : Val.toBits (.int .u64) (.int .u64 x) = .ok (BitVec.ofInt 64 x) := by rfl
@[csem] theorem shr_u64_u64 [Dialect] (x : Int) {y : Int} (h : 0 ≤ y ∧ y < 64) : Val.shr (.int .u64 x) (.int .u64 y) = .ok (.int .u64 (x / 2 ^ y.toNat)) := if_pos h
@[csem] theorem shl_u64_u64 [Dialect] (x : Int) {y : Int} (h : 0 ≤ y ∧ y < 64) : Val.shl (.int .u64 x) (.int .u64 y) = .ok (.int .u64 (x * 2 ^ y.toNat % 18446744073709551616)) := if_pos h
@[csem] theorem ofBits_f32 (b : BitVec 32) : Val.ofBits .f32 b = .f32 b := by rfl
@[csem] theorem toBits_f32 (v : Val) : Val.toBits .f32 v = .ok v.toF32 := by rfl
@[csem] theorem toF32_f32 (b : BitVec 32) : Val.toF32 (.f32 b) = b := by rfl
@[csem] theorem add_f32_f32 [Dialect] (x y : BitVec 32) : Val.add (.f32 x) (.f32 y) = .ok (.f32 (BitVec.ofNat 32 (Fmt.b32.add x.toNat y.toNat))) := by rfl
@[csem] theorem sub_f32_f32 [Dialect] (x y : BitVec 32) : Val.sub (.f32 x) (.f32 y) = .ok (.f32 (BitVec.ofNat 32 (Fmt.b32.sub x.toNat y.toNat))) := by rfl
@[csem] theorem mul_f32_f32 [Dialect] (x y : BitVec 32) : Val.mul (.f32 x) (.f32 y) = .ok (.f32 (BitVec.ofNat 32 (Fmt.b32.mul x.toNat y.toNat))) := by rfl
@[csem] theorem div_f32_f32 [Dialect] (x y : BitVec 32) : Val.div (.f32 x) (.f32 y) = .ok (.f32 (BitVec.ofNat 32 (Fmt.b32.div x.toNat y.toNat))) := by rfl
@[csem] theorem lt_f32_f32 (x y : BitVec 32) : Val.lt (.f32 x) (.f32 y) = Fmt.b32.lt x.toNat y.toNat := by rfl
@[csem] theorem gt_f32_f32 (x y : BitVec 32) : Val.gt (.f32 x) (.f32 y) = Fmt.b32.lt y.toNat x.toNat := by rfl
@[csem] theorem cast_f32_f32 (x : BitVec 32) : Val.cast .f32 (.f32 x) = .ok (.f32 x) := by rfl
@[csem] theorem ofBits_f64 (b : BitVec 64) : Val.ofBits .f64 b = .f64 b := by rfl
@[csem] theorem toBits_f64 (v : Val) : Val.toBits .f64 v = .ok v.toF64 := by rfl
@[csem] theorem toF64_f64 (b : BitVec 64) : Val.toF64 (.f64 b) = b := by rfl
@[csem] theorem add_f64_f64 [Dialect] (x y : BitVec 64) : Val.add (.f64 x) (.f64 y) = .ok (.f64 (BitVec.ofNat 64 (Fmt.b64.add x.toNat y.toNat))) := by rfl
@[csem] theorem sub_f64_f64 [Dialect] (x y : BitVec 64) : Val.sub (.f64 x) (.f64 y) = .ok (.f64 (BitVec.ofNat 64 (Fmt.b64.sub x.toNat y.toNat))) := by rfl
@[csem] theorem mul_f64_f64 [Dialect] (x y : BitVec 64) : Val.mul (.f64 x) (.f64 y) = .ok (.f64 (BitVec.ofNat 64 (Fmt.b64.mul x.toNat y.toNat))) := by rfl
@[csem] theorem div_f64_f64 [Dialect] (x y : BitVec 64) : Val.div (.f64 x) (.f64 y) = .ok (.f64 (BitVec.ofNat 64 (Fmt.b64.div x.toNat y.toNat))) := by rfl
@[csem] theorem lt_f64_f64 (x y : BitVec 64) : Val.lt (.f64 x) (.f64 y) = Fmt.b64.lt x.toNat y.toNat := by rfl
@[csem] theorem gt_f64_f64 (x y : BitVec 64) : Val.gt (.f64 x) (.f64 y) = Fmt.b64.lt y.toNat x.toNat := by rfl
@[csem] theorem cast_f64_f64 (x : BitVec 64) : Val.cast .f64 (.f64 x) = .ok (.f64 x) := by rfl

end Verif
