import Verif.Model.TestSuite
import Verif.Props.UtestMain
import Verif.Props.UtestChecks

/-!
C104: the project's test program, from the registration of its tests to the status of the process.
-/

namespace Verif.Props
open Utest SpecUtest TestSuite

/-- The names of the tests of the project: the lines `TEST(set, name)` of `tests/test_*.cpp`. -/
def suiteNames : List String :=
  ["array.lane", "vcltq.f32", "vaddq.f32", "vadd.s8", "vadd.s8_exceed", "vadd.u8", "vaddhn_high_s16.normal", "vaddl.u8", "vaddl_high.s8",
   "vaddw_high.s8", "vaddw.s8", "vand.u8", "vext.u8", "vget.low_s8", "sub.vhsub", "vld1q.f32", "vld1q_dup.f32", "vmaxq.f32", "vpmax.f32",
   "vminq.f32", "vpmin.f32", "vmlaq.f32", "vmlaq_n.f32", "vmovq_n.f32", "vmulq.f32", "vmulq_n.f32", "vmul.s8", "mul.vmul_n_s16",
   "sub.vqsub", "vrecpeq.f32", "vrecpeq.f32_more_precise", "vrev16.u8", "vrev32.u8", "vrev64.u8", "sub.vrsubhn", "vst1q.f32",
   "vst4q_lane.f32", "sub.vsub", "sub.vsubhn", "sub.vsubl", "sub.vsubw", "vtbl1.u8", "vtbl2.u8", "vtrn.u8", "vuzp.u8", "vzip.u8"]

/-- A check of a test, evaluated. -/
def stmtHolds : Stmt Unit → Bool
  | .check _ want _ x => (x ()).2 == want
  | .compare _ _ _ x => (x ()).2
  | _ => false

/-- The code of a test ends and all of its checks hold. -/
def bodyHolds : C (List (Stmt Unit)) → Bool
  | .ok stmts => stmts.all stmtHolds && !stmts.isEmpty
  | _ => false

theorem exec_holds (stmts : List (Stmt Unit)) (h : stmts.all stmtHolds = true) :
    ∃ cs, Exec stmts () cs .finished () ∧ cs.length = stmts.length ∧ AllHold cs := by
  induction stmts with
  | nil => exact ⟨[], .nil _, rfl, fun c hc => absurd hc (by simp)⟩
  | cons s rest ih =>
    rw [List.all_cons, Bool.and_eq_true] at h
    obtain ⟨cs, he, hl, ha⟩ := ih h.2
    have hh : ∀ place, AllHold (⟨true, place⟩ :: cs) := fun place c hc => by
      rcases List.mem_cons.1 hc with rfl | hc
      · rfl
      · exact ha c hc
    cases s with
    | check fatal want place x => exact ⟨_, .holds (by simpa [stmtHolds] using h.1) he, by simp [hl], hh place⟩
    | compare fatal place m x => exact ⟨_, .compares (by simpa [stmtHolds] using h.1) he, by simp [hl], hh place⟩
    | skip msg => simp [stmtHolds] at h
    | code f => simp [stmtHolds] at h

theorem run_holds {body : C (List (Stmt Unit))} (h : bodyHolds body = true) (i : Nat) : run body i () = .returns 0 [] () := by
  unfold bodyHolds at h
  unfold run
  split at h
  · rw [Bool.and_eq_true] at h
    obtain ⟨cs, he, -, ha⟩ := exec_holds _ h.1
    exact test_passes he ha i
  · cases h

/-- Every test of the project has checks, and they hold. -/
theorem suite_holds [d : Dialect] : ∀ c ∈ suite, bodyHolds c.2 = true := by
  obtain ⟨w⟩ := d
  rw [← List.all_eq_true]
  cases w <;> decide +kernel

/-- The number of checks in a test. -/
def checks : C (List (Stmt Unit)) → Nat
  | .ok stmts => stmts.length
  | _ => 0

/-- The code of every test of the project runs to its end without undefined behaviour; it makes at least one check, and all its checks hold. -/
theorem suite_checks [Dialect] : ∀ c ∈ suite, ∃ stmts cs, c.2 = .ok stmts ∧ Exec stmts () cs .finished () ∧ cs ≠ [] ∧ AllHold cs := by
  intro c hc
  have h := suite_holds c hc
  unfold bodyHolds at h
  split at h
  · rename_i stmts e
    rw [Bool.and_eq_true] at h
    obtain ⟨cs, he, hl, ha⟩ := exec_holds _ h.1
    refine ⟨stmts, cs, e, he, fun hn => ?_, ha⟩
    rw [hn] at hl
    simp [List.length_eq_zero_iff.1 hl.symm] at h
  · cases h

/-- The tests make 55 checks: as many as the sources have lines with `EXPECT_TRUE` or `EXPECT_EQ`. -/
theorem suite_count [d : Dialect] : (suite.map fun c => checks c.2).sum = 55 := by
  obtain ⟨w⟩ := d
  cases w <;> decide +kernel

theorem suite_names [d : Dialect] : suite.map (·.1) = suiteNames.map String.toList := by
  obtain ⟨w⟩ := d
  cases w <;> decide +kernel

/-- No two tests have the same name. -/
theorem suite_distinct : suiteNames.Nodup := by decide +kernel

theorem suite_length [Dialect] : suite.length = 46 := by
  rw [← List.length_map (f := (·.1)), suite_names]; rfl

theorem suite_strings [Dialect] : ∀ c ∈ suite, IsString c.1 := by
  have h : (suiteNames.map String.toList).all (fun c => !c.contains NUL) = true := by decide +kernel
  intro c hc
  have := List.all_eq_true.1 h c.1 (suite_names ▸ List.mem_map_of_mem (f := (·.1)) hc)
  simpa [IsString] using this

theorem registered_eq (cases : List (Str × C (List (Stmt Unit)))) :
    registered cases = cases.map fun c => ⟨run c.2, some 0, c.1⟩ := by
  have : ∀ (cases : List (Str × C (List (Stmt Unit)))) ts,
      cases.foldl (fun tests c => register c.1 (run c.2) tests) ts = ts ++ cases.map fun c => ⟨run c.2, some 0, c.1⟩ := by
    intro cases
    induction cases with
    | nil => simp
    | cons c cases ih => intro ts; rw [List.foldl_cons, ih, register_eq]; simp
  unfold registered
  rw [this, List.nil_append]

/-- Tests that return 0 and print nothing all pass. -/
theorem runs_passed (clock : Nat → Int) (ts : List (Test Unit)) (h : ∀ t ∈ ts, ∃ i, t.index = some i ∧ t.func i () = .returns 0 [] ()) :
    ∀ k, ∃ ds, Runs clock ts k () ds () ∧ ∀ d ∈ ds, d.verdict = .passed ∧ d.says = [] := by
  induction ts with
  | nil => exact fun k => ⟨[], .nil k (), fun d hd => absurd hd (by simp)⟩
  | cons t ts ih =>
    intro k
    obtain ⟨i, hi, hf⟩ := h t (by simp)
    obtain ⟨ds, hr, hd⟩ := ih (fun t ht => h t (by simp [ht])) (k + 2)
    refine ⟨_, .cons hi (by rw [hf]; exact .passed 0 [] () (by decide) (by decide)) hr, fun d hm => ?_⟩
    rcases List.mem_cons.1 hm with rfl | hm
    · exact ⟨rfl, rfl⟩
    · exact hd d hm

/-- **C104.** Whatever the order in which the initializers of the tests run, the options, the terminal and the clock are: the test program runs the
chosen tests, each once, all of them pass and print nothing, the report says so, and the status of the process is 0. -/
theorem suite_passes [Dialect] {env : Env} (ha : ∀ a ∈ env.args, IsString a) (hr : RunsTests env.args) (hc : Timely env)
    {cases : List (Str × C (List (Stmt Unit)))} (hp : cases.Perm suite) :
    ∃ ds out, (∀ d ∈ ds, d.verdict = .passed ∧ d.says = []) ∧
      (ds.map (·.name)).Perm ((suiteNames.map String.toList).filter (chosen env.args)) ∧
      Report (colours env.tty) (mixedUnits env.args) ds out ∧
      utest_main env (registered cases) () = .ok (.exits 0 out (if hasFile env then some (xml ds) else none) ()) := by
  have hlen : (registered cases).length = 46 := by rw [registered_eq, List.length_map, hp.length_eq, suite_length]
  have hmem : ∀ t ∈ registered cases, ∃ c ∈ suite, t = ⟨run c.2, some 0, c.1⟩ := by
    intro t ht
    rw [registered_eq] at ht
    obtain ⟨c, hc, rfl⟩ := List.mem_map.1 ht
    exact ⟨c, hp.mem_iff.1 hc, rfl⟩
  obtain ⟨order, hord, h⟩ := main_report
  obtain ⟨ts, hts, h1, -⟩ := h Unit env (registered cases) () ha (fun t ht => by
    obtain ⟨c, hc, rfl⟩ := hmem t ht; exact suite_strings c hc) hr (by omega) hc
  have hperm := inOrder_perm hord (by omega) hts
  obtain ⟨ds, hruns, hds⟩ := runs_passed env.clock (ts.filter fun t => chosen env.args t.name) (fun t ht => by
    obtain ⟨c, hc, rfl⟩ := hmem t (hperm.mem_iff.1 (List.mem_filter.1 ht).1)
    exact ⟨0, rfl, run_holds (suite_holds c hc) 0⟩) (seedReads env.args)
  obtain ⟨out, hrep, hmain⟩ := h1 ds () hruns
  refine ⟨ds, out, hds, ?_, hrep, ?_⟩
  · rw [runs_names hruns, ← suite_names]
    have e : (suite.map (·.1)).filter (chosen env.args) = (((suite.map fun c => (⟨run c.2, some 0, c.1⟩ : Test Unit))).filter
        fun t => chosen env.args t.name).map (·.name) := by
      rw [List.filter_map, List.filter_map, List.map_map]; rfl
    rw [e, ← registered_eq]
    refine ((hperm.trans ?_).filter _).map _
    rw [registered_eq, registered_eq]
    exact hp.map _
  · rw [hmain]
    have : count .failed ds = 0 := by
      unfold count
      rw [List.length_eq_zero_iff, List.filter_eq_nil_iff]
      intro d hd
      rw [(hds d hd).1]; decide
    rw [this]; rfl

/-- Every run of the test program without options runs all 46 tests. -/
theorem suite_all [Dialect] {env : Env} (ha : env.args = []) (hc : Timely env) :
    ∃ (ds : List Done) (out : Str), ds.length = 46 ∧ (∀ d ∈ ds, d.verdict = .passed) ∧
      utest_main env (registered suite) () = .ok (.exits 0 out none ()) := by
  obtain ⟨ds, out, h1, h2, -, h4⟩ := suite_passes (env := env) (by simp [ha]) (by rw [ha]; exact fun a h => absurd h (by simp)) hc (List.Perm.refl _)
  refine ⟨ds, out, ?_, fun d hd => (h1 d hd).1, ?_⟩
  · have := h2.length_eq
    rw [List.length_map, ha, show (suiteNames.map String.toList).filter (chosen []) = suiteNames.map String.toList from
      List.filter_eq_self.2 fun _ _ => rfl, List.length_map] at this
    exact this
  · rw [h4]
    have : hasFile env = false := by unfold hasFile; rw [ha]; rfl
    rw [this]; rfl

/-! ## Examples -/

example : bodyHolds (@test_vaddq_f32 Dialect.strict) = true := by decide +kernel
/-- The hypotheses hold of a program that is started with a seed. -/
example : RunsTests ["--random-order=7".toList] ∧ Timely ⟨["--random-order=7".toList], true, fun _ => true, fun i => 1000 * (i % 1000)⟩ :=
  ⟨fun a h => by rw [List.mem_singleton.1 h]; decide, fun i => by dsimp only; omega, fun h => absurd h (by decide)⟩

end Verif.Props
