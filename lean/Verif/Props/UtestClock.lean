import Verif.Model.UtestClock
import Verif.Props.UtestOptions
import Verif.Props.UtestMain
import Verif.Lemmas

/-!
C110: the clock of the test runner, the times it measures and the seeds it makes.
-/

namespace Verif.Props
open Verif.Utest

/-! ## Readings -/

theorem mul_int64 [Dialect] (x k : Int) : Val.mul (.int .i64 x) (vint k) = mkInt .i64 (x * k) := rfl

/-- The clock reads the nanoseconds since 1970, in every dialect, as long as they fit in 64 bits. -/
theorem clock_reading [Dialect] {s n : Int} (hs : 0 ≤ s) (hn : 0 ≤ n) (h : s * 10 ^ 9 + n < 2 ^ 63) :
    utest_ns s n = .ok (.int .i64 (s * 10 ^ 9 + n)) := by
  have e : s * 1000 * 1000 * 1000 + n = s * 10 ^ 9 + n := by omega
  unfold utest_ns
  rw [mul_int64, mkInt_i64 (by omega)]
  show (Val.mul (.int .i64 (s * 1000)) (vint 1000) >>= _) = _
  rw [mul_int64, mkInt_i64 (by omega)]
  show (Val.mul (.int .i64 (s * 1000 * 1000)) (vint 1000) >>= _) = _
  rw [mul_int64, mkInt_i64 (by omega)]
  show mkInt .i64 (s * 1000 * 1000 * 1000 + n) = _
  rw [e, mkInt_i64 (by omega)]

/-- So it is until the 11th of April 2262. -/
theorem clock_2262 [Dialect] {s n : Int} (hs : 0 ≤ s) (h : s < 9223372036) (hn : 0 ≤ n) (hn' : n < 10 ^ 9) :
    utest_ns s n = .ok (.int .i64 (s * 10 ^ 9 + n)) := clock_reading hs hn (by omega)

/-- Afterwards the reading is undefined. -/
theorem clock_overflow_wrong {s n : Int} (hs : s < 2 ^ 63) (hn : 0 ≤ n) (hn' : n < 10 ^ 9) (h : 2 ^ 63 ≤ s * 10 ^ 9 + n) :
    @utest_ns .strict s n = .ub .signedOverflow := by
  have over : ∀ v : Int, 2 ^ 63 ≤ v → @mkInt .strict .i64 v = .ub .signedOverflow := fun v hv => by
    refine (if_neg ?_).trans (if_pos ⟨rfl, rfl⟩)
    intro c
    have : v ≤ 9223372036854775807 := c.2
    omega
  unfold utest_ns
  rw [@mul_int64 .strict]
  by_cases h1 : s * 1000 < 2 ^ 63
  · rw [@mkInt_i64 .strict _ (by omega)]
    show (@Val.mul .strict (.int .i64 (s * 1000)) (vint 1000) >>= _) = _
    rw [@mul_int64 .strict]
    by_cases h2 : s * 1000 * 1000 < 2 ^ 63
    · rw [@mkInt_i64 .strict _ (by omega)]
      show (@Val.mul .strict (.int .i64 (s * 1000 * 1000)) (vint 1000) >>= _) = _
      rw [@mul_int64 .strict]
      by_cases h3 : s * 1000 * 1000 * 1000 < 2 ^ 63
      · rw [@mkInt_i64 .strict _ (by omega)]
        exact over (s * 1000 * 1000 * 1000 + n) (by omega)
      · rw [over _ (by omega)]; rfl
    · rw [over _ (by omega)]; rfl
  · rw [over _ (by omega)]; rfl

-- the beginning of 2026; the second in which the clock ends
example [Dialect] : utest_ns 1767225600 5 = .ok (.int .i64 1767225600000000005) := clock_2262 (by decide) (by decide) (by decide) (by decide)
example : @utest_ns .strict 9223372036 854775808 = .ub .signedOverflow := clock_overflow_wrong (by decide) (by decide) (by decide) (by decide)

/-- Built as strict C++11, the clock reads the processor time, in thousands of nanoseconds, up to 2 hours and 33 minutes of it. -/
theorem clock_ansi_partial [Dialect] {c : Int} (h0 : 0 ≤ c) (h : c ≤ 9223372036) : utest_ns_ansi c = .ok (.int .i64 (c * 1000)) := by
  unfold utest_ns_ansi
  rw [mul_int64, mkInt_i64 (by omega)]
  show (if (1000000 : Int) = 0 then C.ub UB.divByZero else mkQuot .i64 (Int.tdiv (c * 1000000000) 1000000) (Int.tdiv (c * 1000000000) 1000000)) = _
  have e : Int.tdiv (c * 1000000000) 1000000 = c * 1000 := by
    rw [Int.tdiv_eq_ediv_of_nonneg (by omega)]; omega
  rw [if_neg (by decide), e]
  refine if_pos ⟨?_, ?_⟩
  · show (-9223372036854775808 : Int) ≤ _; omega
  · show _ ≤ (9223372036854775807 : Int); omega

/-- A test program that has used more has undefined behaviour when it reads the clock. -/
theorem clock_ansi_wrong {c : Int} (h : 9223372036 < c) : @utest_ns_ansi .strict c = .ub .signedOverflow := by
  unfold utest_ns_ansi
  rw [@mul_int64 .strict]
  have : @mkInt .strict .i64 (c * 1000000000) = .ub .signedOverflow := by
    refine (if_neg ?_).trans (if_pos ⟨rfl, rfl⟩)
    intro k
    have : c * 1000000000 ≤ 9223372036854775807 := k.2
    omega
  rw [this]; rfl

/-- With `-fwrapv` the clock jumps back there, by more than five hours. -/
theorem clock_ansi_wrap_wrong : @utest_ns_ansi .wrapping 9223372036 = .ok (.int .i64 9223372036000) ∧
    @utest_ns_ansi .wrapping 9223372037 = .ok (.int .i64 (-9223372036709)) := by
  refine ⟨@clock_ansi_partial .wrapping _ (by decide) (by decide), by rfl⟩

/-! ## Times -/

/-- The time of a test is the number of nanoseconds between the two readings. -/
theorem test_time [Dialect] {s n s' n' : Int} (hs : 0 ≤ s) (hn : 0 ≤ n) (h : s * 10 ^ 9 + n < 2 ^ 63) (hs' : 0 ≤ s') (hn' : 0 ≤ n')
    (h' : s' * 10 ^ 9 + n' < 2 ^ 63) :
    ∃ a b, utest_ns s n = .ok (.int .i64 a) ∧ utest_ns s' n' = .ok (.int .i64 b) ∧ elapsed a b = .ok ((s' - s) * 10 ^ 9 + (n' - n)) := by
  refine ⟨_, _, clock_reading hs hn h, clock_reading hs' hn' h', ?_⟩
  rw [elapsed_ok (by omega) (by omega)]
  congr 1
  omega

/-- A later reading is greater, so the time of a test is positive if the clock of the system went on. -/
theorem test_time_pos {s n s' n' : Int} (hn : n < 10 ^ 9) (hn' : 0 ≤ n') (h : s < s' ∨ s = s' ∧ n < n') (hn0 : 0 ≤ n) (hn1 : n' < 10 ^ 9) :
    0 < (s' - s) * 10 ^ 9 + (n' - n) := by omega

/-- It is the clock of the day (`CLOCK_REALTIME`): if that is set back during a test, the time in the report is negative. -/
theorem test_time_wrong [Dialect] {s n k : Int} (hk : 0 < k) (hs : k ≤ s) (hn : 0 ≤ n) (h : s * 10 ^ 9 + n < 2 ^ 63) :
    ∃ a b, utest_ns s n = .ok (.int .i64 a) ∧ utest_ns (s - k) n = .ok (.int .i64 b) ∧
      (elapsed a b >>= showTime false) = .ok (num (-(k * 10 ^ 9)) ++ "ns".toList) := by
  obtain ⟨a, b, ha, hb, e⟩ := test_time (s := s) (n := n) (s' := s - k) (n' := n) (by omega) hn h (by omega) hn (by omega)
  refine ⟨a, b, ha, hb, ?_⟩
  rw [e, show (s - k - s) * 10 ^ 9 + (n - n) = -(k * 10 ^ 9) by omega]
  rfl

-- a test that starts at 100.9 s and ends at 102.1 s; one during which the clock is set back by an hour
example [Dialect] : ∃ a b, utest_ns 100 900000000 = .ok (.int .i64 a) ∧ utest_ns 102 100000000 = .ok (.int .i64 b) ∧ elapsed a b = .ok 1200000000 :=
  test_time (by decide) (by decide) (by decide) (by decide) (by decide) (by decide)
example [Dialect] : ∃ a b, utest_ns 1767225600 0 = .ok (.int .i64 a) ∧ utest_ns 1767222000 0 = .ok (.int .i64 b) ∧
    (elapsed a b >>= showTime false) = .ok "-3600000000000ns".toList := by
  obtain ⟨a, b, ha, hb, e⟩ := test_time_wrong (s := 1767225600) (n := 0) (k := 3600) (by decide) (by decide) (by decide) (by decide)
  exact ⟨a, b, ha, hb, e.trans (by rfl)⟩

/-! ## Seeds -/

theorem timeSeed_int (ns : Int) : timeSeed ns = BitVec.ofInt 32 (ns / 2 ^ 32 * 31 + ns) := by
  unfold timeSeed
  rw [BitVec.ofInt_add, BitVec.ofInt_mul]
  rfl

/-- Two seeds are equal exactly if the numbers that make them agree modulo `2^32`. -/
theorem seed_eq (ns ns' : Int) : timeSeed ns = timeSeed ns' ↔ (ns / 2 ^ 32 * 31 + ns) % 2 ^ 32 = (ns' / 2 ^ 32 * 31 + ns') % 2 ^ 32 := by
  rw [timeSeed_int, timeSeed_int]
  constructor
  · intro h
    have := congrArg BitVec.toNat h
    rw [BitVec.toNat_ofInt, BitVec.toNat_ofInt] at this
    omega
  · intro h
    apply BitVec.eq_of_toNat_eq
    rw [BitVec.toNat_ofInt, BitVec.toNat_ofInt]
    omega

/-- Runs that start less than about 4.29 seconds apart have different seeds. -/
theorem seed_fresh_partial {ns d : Int} (h : 0 < d) (h' : d < 2 ^ 32 - 31) : timeSeed (ns + d) ≠ timeSeed ns := by
  rw [Ne, seed_eq]
  have k : (ns + d) / 2 ^ 32 = ns / 2 ^ 32 ∨ (ns + d) / 2 ^ 32 = ns / 2 ^ 32 + 1 := by omega
  rcases k with k | k <;> rw [k] <;> omega

/-- Some runs at different times have the same seed, and so the same order. -/
theorem seed_wrong {ns : Int} (h : 31 ≤ ns % 2 ^ 32) : timeSeed (ns + (2 ^ 32 - 31)) = timeSeed ns := by
  rw [seed_eq]
  omega

example : timeSeed 1767225600000000005 ≠ timeSeed 1767225600000000004 := seed_fresh_partial (ns := 1767225600000000004) (d := 1) (by decide) (by decide)

end Verif.Props
