import Verif.Model.Utest

/-!
The clock of the test runner (`utest_ns` in `tests/utest.h`), written by hand for Linux on a 64-bit machine: `time_t`, `long`, `clock_t` and
`utest_int64_t` are the 64-bit signed integers.  What the system writes to `ts` and what `clock()` returns are parameters.
-/

namespace Verif.Utest
variable [Dialect]

/-- `utest_ns` with `clock_gettime` (`tests/utest.h:320-332`): `UTEST_CAST(utest_int64_t, ts.tv_sec) * 1000 * 1000 * 1000 + ts.tv_nsec` -/
def utest_ns (tv_sec tv_nsec : Int) : C Val := do
  let a ← Val.mul (.int .i64 tv_sec) (vint 1000)
  let a ← Val.mul a (vint 1000)
  let a ← Val.mul a (vint 1000)
  Val.add a (.int .i64 tv_nsec)

/-- `utest_ns` with `-std=c++11` (`tests/utest.h:315-316`): `UTEST_CAST(utest_int64_t, clock()) * 1000000000 / CLOCKS_PER_SEC`, where `CLOCKS_PER_SEC` is
`((clock_t) 1000000)` -/
def utest_ns_ansi (clock : Int) : C Val := do
  let a ← Val.mul (.int .i64 clock) (vint 1000000000)
  Val.div a (.int .i64 1000000)

end Verif.Utest
