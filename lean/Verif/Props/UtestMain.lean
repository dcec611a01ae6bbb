import Verif.Props.UtestOptions

/-!
C99 and C100: what the test runner runs and what it reports.
-/

namespace Verif.Props
open Utest SpecUtest

/-! ### One test -/

/-- The entry of a test in the file. -/
def entry (d : Done) : Str := "<testcase name=\"".toList ++ d.name ++ "\">".toList ++ d.says ++ "</testcase>\n".toList

/-- The variables after a test. -/
def afterTest {W : Type} (r : Run W) (index : Nat) (d : Done) (lines : Str) (w : W) : Run W where
  failed := if d.verdict = .failed then r.failed + 1 else r.failed
  skipped := if d.verdict = .skipped then r.skipped + 1 else r.skipped
  failedCases := if d.verdict = .failed then r.failedCases ++ [index] else r.failedCases
  skippedCases := if d.verdict = .skipped then r.skippedCases ++ [index] else r.skippedCases
  out := r.out ++ lines
  file := r.file.map (· ++ entry d)
  ticks := r.ticks + 2
  world := w

/-- A time that `utest_main` can compute and show. -/
def Measured (mixed : Bool) (ns : Int) : Prop := -2 ^ 63 ≤ ns ∧ ns < 2 ^ 63 ∧ (mixed = true → ns < 10000 * 1000 ^ 3)

theorem elapsed_ok {a b : Int} (h : -2 ^ 63 ≤ b - a) (h' : b - a < 2 ^ 63) : elapsed a b = .ok (b - a) := by
  unfold elapsed
  rw [if_neg (by omega)]

/-- The value of `result` for a verdict. -/
def Result : Verdict → Int → Prop
  | .failed, r => r = 1
  | .skipped, r => r = 2
  | .passed, r => r ≠ 1 ∧ r ≠ 2

theorem called_finish {W : Type} {e : Ended W} {v : Verdict} {text exc : Str} {w : W} (h : Finish e v text exc w) :
    ∃ result, Result v result ∧ called e = some (result, text, exc, w) := by
  cases h with
  | failed => exact ⟨_, rfl, rfl⟩
  | skipped => exact ⟨_, rfl, rfl⟩
  | passed r _ _ h1 h2 => exact ⟨_, ⟨h1, h2⟩, rfl⟩
  | exception => exact ⟨_, rfl, rfl⟩
  | unknown => exact ⟨_, rfl, rfl⟩

theorem verdict_spec {c : Colours} {v : Verdict} {r : Int} (h : Result v r) : verdict c r = colourOf c v ++ (wordOf v).toList := by
  unfold verdict
  cases v with
  | failed => rw [if_pos (show r = 1 from h)]; rfl
  | skipped => rw [if_neg (by rw [show r = 2 from h]; decide), if_pos (show r = 2 from h)]; rfl
  | passed => rw [if_neg h.1, if_neg h.2]; rfl

theorem record_spec {W : Type} {v : Verdict} {r : Int} (h : Result v r) (k : Nat) (s : Run W) :
    record r k s = { s with
      failed := if v = .failed then s.failed + 1 else s.failed
      skipped := if v = .skipped then s.skipped + 1 else s.skipped
      failedCases := if v = .failed then s.failedCases ++ [k] else s.failedCases
      skippedCases := if v = .skipped then s.skippedCases ++ [k] else s.skippedCases } := by
  unfold record
  cases v with
  | failed => rw [if_pos (show r = 1 from h)]; rfl
  | skipped => rw [if_neg (by rw [show r = 2 from h]; decide), if_pos (show r = 2 from h)]; rfl
  | passed => rw [if_neg h.1, if_neg h.2]; rfl

theorem assoc_line (o g run rst n t e col wd p s q : Str) :
    o ++ g ++ run ++ rst ++ [' '] ++ n ++ ['\n'] ++ t ++ e ++ (col ++ wd) ++ rst ++ [' '] ++ n ++ p ++ s ++ q =
      o ++ (g ++ run ++ rst ++ [' '] ++ n ++ ['\n'] ++ t ++ e ++ (col ++ wd ++ rst) ++ [' '] ++ n ++ p ++ s ++ q) := by
  simp only [List.append_assoc]

theorem runIndex_keep {W : Type} {env : Env} {o : Opts} {tests : List (Test W)} {k : Nat} {t : Test W} {r : Run W}
    {v : Verdict} {text exc : Str} {w : W} (ht : tests[k]? = some t) (hk : utest_should_filter_test o.filter t.name = .ok 0)
    {i : Nat} (hi : t.index = some i)
    (hf : Finish (t.func i r.world) v text exc w)
    (hm : Measured o.mixed (env.clock (r.ticks + 1) - env.clock r.ticks)) :
    ∃ lines, Lines (colours env.tty) o.mixed ⟨t.name, v, text, exc, env.clock (r.ticks + 1) - env.clock r.ticks⟩ lines ∧
      runIndex env o tests k r =
        .ok (.next (afterTest r k ⟨t.name, v, text, exc, env.clock (r.ticks + 1) - env.clock r.ticks⟩ lines w)) := by
  obtain ⟨s, hs, hs'⟩ := showTime_ok hm.2.2
  refine ⟨_, .mk _ s hs, ?_⟩
  obtain ⟨result, hr, hc⟩ := called_finish hf
  unfold runIndex
  simp only [ht, hk, bind, C.bind', call, hi, hc, elapsed_ok hm.1 hm.2.1, hs', record_spec hr, verdict_spec hr]
  rw [if_neg (by simp)]
  have hmap : ∀ (f : Option Str) (x : Str), Option.map (· ++ text ++ "</testcase>\n".toList)
      (Option.map (· ++ "<testcase name=\"".toList ++ x ++ "\">".toList) f) =
      Option.map (· ++ ("<testcase name=\"".toList ++ x ++ "\">".toList ++ text ++ "</testcase>\n".toList)) f := by
    intro f x
    cases f with
    | none => rfl
    | some y => simp only [Option.map_some, List.append_assoc]
  rw [hmap, assoc_line]
  rfl

theorem runIndex_skip {W : Type} {env : Env} {o : Opts} {tests : List (Test W)} {k : Nat} {t : Test W} {r : Run W}
    (ht : tests[k]? = some t) (hk : utest_should_filter_test o.filter t.name = .ok 1) : runIndex env o tests k r = .ok (.next r) := by
  unfold runIndex
  simp [ht, hk, bind, C.bind']

theorem runIndex_dies {W : Type} {env : Env} {o : Opts} {tests : List (Test W)} {k : Nat} {t : Test W} {r : Run W}
    (ht : tests[k]? = some t) (hk : utest_should_filter_test o.filter t.name = .ok 0) {i : Nat}
    (hi : t.index = some i) (hd : t.func i r.world = .dies) :
    runIndex env o tests k r = .ok .died := by
  unfold runIndex
  simp [ht, hk, bind, C.bind', call, hi, hd, called]

/-! ### The loops -/

/-- Every test is either run or left out. -/
def Sorted {W : Type} (o : Opts) (keep : Str → Bool) (tests : List (Test W)) : Prop :=
  ∀ t ∈ tests, utest_should_filter_test o.filter t.name = .ok (if keep t.name then 0 else 1)

theorem drop_cons {α : Type} {l : List α} {k : Nat} (h : k < l.length) : l.drop k = l[k] :: l.drop (k + 1) := by
  simp

theorem countTests_spec {W : Type} {o : Opts} {keep : Str → Bool} {tests : List (Test W)} (hs : Sorted o keep tests) :
    ∀ (n k : Nat) (m : BitVec 64), k + n = tests.length →
      countTests o tests (List.range' k n) m = .ok (m + BitVec.ofNat 64 ((tests.drop k).filter fun t => keep t.name).length) := by
  intro n
  induction n with
  | zero =>
    intro k m h
    rw [List.drop_of_length_le (by omega)]
    simp [countTests]
  | succ n ih =>
    intro k m h
    have hk : k < tests.length := by omega
    rw [List.range'_succ, drop_cons hk]
    unfold countTests
    have := hs tests[k] (List.getElem_mem hk)
    simp only [List.getElem?_eq_getElem hk, this, bind, C.bind']
    by_cases hc : keep tests[k].name
    · rw [if_pos hc, if_neg (by simp), ih (k + 1) _ (by omega), List.filter_cons_of_pos (p := fun t : Test W => keep t.name) hc, List.length_cons]
      rw [BitVec.ofNat_add, BitVec.add_assoc m 1 _, BitVec.add_comm 1 _]
      rfl
    · rw [if_neg hc, if_pos (by simp), ih (k + 1) _ (by omega), List.filter_cons_of_neg (p := fun t : Test W => keep t.name) hc]

/-- The numbers of tests with a verdict. -/
theorem count_cons (v : Verdict) (d : Done) (ds : List Done) : count v (d :: ds) = count v ds + if d.verdict = v then 1 else 0 := by
  unfold count
  by_cases h : d.verdict = v
  · rw [List.filter_cons_of_pos (by simpa using h), if_pos h]; rfl
  · rw [List.filter_cons_of_neg (by simpa using h), if_neg h]; rfl

/-- The variables after some tests: what was added to them. -/
structure After {W : Type} (c : Colours) (mixed : Bool) (tests : List (Test W)) (r : Run W) (ds : List Done) (w : W) (r' : Run W) : Prop where
  lines : ∃ s, AllLines c mixed ds s ∧ r'.out = r.out ++ s
  file : r'.file = r.file.map (· ++ ds.flatMap entry)
  world : r'.world = w
  failed : r'.failed = r.failed + BitVec.ofNat 64 (count .failed ds)
  skipped : r'.skipped = r.skipped + BitVec.ofNat 64 (count .skipped ds)
  failedCases : ∃ is, r'.failedCases = r.failedCases ++ is ∧
    is.map (fun i => (tests[i]?).map (·.name)) = (ds.filter (·.verdict = .failed)).map fun d => some d.name
  skippedCases : ∃ is, r'.skippedCases = r.skippedCases ++ is ∧
    is.map (fun i => (tests[i]?).map (·.name)) = (ds.filter (·.verdict = .skipped)).map fun d => some d.name

theorem After.cons {W : Type} {c : Colours} {mixed : Bool} {tests : List (Test W)} {r r' : Run W} {d : Done} {ds : List Done} {w w' : W}
    {k : Nat} {s : Str} (hk : (tests[k]?).map (·.name) = some d.name) (hl : Lines c mixed d s)
    (h : After c mixed tests (afterTest r k d s w) ds w' r') : After c mixed tests r (d :: ds) w' r' := by
  constructor
  · obtain ⟨s', h1, h2⟩ := h.lines
    exact ⟨_, .cons hl h1, by rw [h2]; simp [afterTest]⟩
  · rw [h.file]
    cases hr : r.file <;> simp [afterTest, hr]
  · exact h.world
  · rw [h.failed, count_cons]
    by_cases hv : d.verdict = .failed
    · simp only [afterTest, hv, if_true]
      rw [Nat.add_comm _ 1, BitVec.ofNat_add, BitVec.add_assoc]; rfl
    · simp [afterTest, hv]
  · rw [h.skipped, count_cons]
    by_cases hv : d.verdict = .skipped
    · simp only [afterTest, hv, if_true]
      rw [Nat.add_comm _ 1, BitVec.ofNat_add, BitVec.add_assoc]; rfl
    · simp [afterTest, hv]
  · obtain ⟨is, h1, h2⟩ := h.failedCases
    by_cases hv : d.verdict = .failed
    · refine ⟨k :: is, ?_, ?_⟩
      · rw [h1]; simp [afterTest, hv]
      · rw [List.map_cons, h2, List.filter_cons_of_pos (by simpa using hv), hk, List.map_cons]
    · refine ⟨is, ?_, ?_⟩
      · rw [h1]; simp [afterTest, hv]
      · rw [h2, List.filter_cons_of_neg (by simpa using hv)]
  · obtain ⟨is, h1, h2⟩ := h.skippedCases
    by_cases hv : d.verdict = .skipped
    · refine ⟨k :: is, ?_, ?_⟩
      · rw [h1]; simp [afterTest, hv]
      · rw [List.map_cons, h2, List.filter_cons_of_pos (by simpa using hv), hk, List.map_cons]
    · refine ⟨is, ?_, ?_⟩
      · rw [h1]; simp [afterTest, hv]
      · rw [h2, List.filter_cons_of_neg (by simpa using hv)]

theorem runAll_spec {W : Type} {env : Env} {o : Opts} {keep : Str → Bool} {tests : List (Test W)} (hs : Sorted o keep tests) :
    ∀ (n k : Nat) (r : Run W) (ds : List Done) (w : W), k + n = tests.length →
      Runs env.clock ((tests.drop k).filter fun t => keep t.name) r.ticks r.world ds w → (∀ d ∈ ds, Measured o.mixed d.ns) →
      ∃ r', runAll env o tests (List.range' k n) r = .ok (.next r') ∧ After (colours env.tty) o.mixed tests r ds w r' := by
  intro n
  induction n with
  | zero =>
    intro k r ds w h hr _
    rw [List.drop_of_length_le (by omega)] at hr
    cases hr
    refine ⟨r, rfl, ⟨⟨[], .nil, by simp⟩, ?_, rfl, by simp [count], by simp [count], ⟨[], by simp⟩, ⟨[], by simp⟩⟩⟩
    cases r.file <;> simp
  | succ n ih =>
    intro k r ds w h hr hm
    have hk : k < tests.length := by omega
    have ht : tests[k]? = some tests[k] := List.getElem?_eq_getElem hk
    have hf := hs tests[k] (List.getElem_mem hk)
    rw [drop_cons hk] at hr
    rw [List.range'_succ]
    unfold runAll
    by_cases hc : keep tests[k].name
    · rw [if_pos hc] at hf
      rw [List.filter_cons_of_pos (p := fun t : Test W => keep t.name) hc] at hr
      cases hr with
      | cons hix hfin hr =>
        obtain ⟨s, hl, hrun⟩ := runIndex_keep ht hf hix hfin (hm _ (List.mem_cons_self ..))
        obtain ⟨r', h1, h2⟩ := ih (k + 1) (afterTest r k _ s _) _ w (by omega) hr fun d hd => hm d (List.mem_cons_of_mem _ hd)
        refine ⟨r', ?_, After.cons (by rw [ht]; rfl) hl h2⟩
        simp only [hrun, bind, C.bind']
        exact h1
    · rw [if_neg hc] at hf
      rw [List.filter_cons_of_neg (p := fun t : Test W => keep t.name) hc] at hr
      obtain ⟨r', h1, h2⟩ := ih (k + 1) r ds w (by omega) hr hm
      refine ⟨r', ?_, h2⟩
      simp only [runIndex_skip ht hf, bind, C.bind']
      exact h1

theorem runAll_dies {W : Type} {env : Env} {o : Opts} {keep : Str → Bool} {tests : List (Test W)} (hs : Sorted o keep tests) :
    ∀ (n k : Nat) (r : Run W) (pre post : List (Test W)) (t : Test W) (ds : List Done) (w : W), k + n = tests.length →
      ((tests.drop k).filter fun t => keep t.name) = pre ++ t :: post → Runs env.clock pre r.ticks r.world ds w →
      ∀ i, t.index = some i → t.func i w = .dies → (∀ d ∈ ds, Measured o.mixed d.ns) → runAll env o tests (List.range' k n) r = .ok .died := by
  intro n
  induction n with
  | zero =>
    intro k r pre post t ds w h he
    rw [List.drop_of_length_le (by omega)] at he
    simp at he
  | succ n ih =>
    intro k r pre post t ds w h he hr i hi hd hm
    have hk : k < tests.length := by omega
    have ht : tests[k]? = some tests[k] := List.getElem?_eq_getElem hk
    have hf := hs tests[k] (List.getElem_mem hk)
    rw [drop_cons hk] at he
    rw [List.range'_succ]
    unfold runAll
    by_cases hc : keep tests[k].name
    · rw [if_pos hc] at hf
      rw [List.filter_cons_of_pos (p := fun t : Test W => keep t.name) hc] at he
      cases hr with
      | nil =>
        rw [List.nil_append] at he
        injection he with h1 h2
        simp only [runIndex_dies ht hf (by rw [h1]; exact hi) (by rw [h1]; exact hd), bind, C.bind']
      | cons hix hfin hr =>
        rw [List.cons_append] at he
        injection he with h1 h2
        subst h1
        obtain ⟨s, hl, hrun⟩ := runIndex_keep ht hf hix hfin (hm _ (List.mem_cons_self ..))
        simp only [hrun, bind, C.bind']
        exact ih (k + 1) _ _ _ _ _ _ (by omega) h2 (by exact hr) i hi hd fun d hd => hm d (List.mem_cons_of_mem _ hd)
    · rw [if_neg hc] at hf
      rw [List.filter_cons_of_neg (p := fun t : Test W => keep t.name) hc] at he
      simp only [runIndex_skip ht hf, bind, C.bind']
      exact ih (k + 1) r _ _ _ _ _ (by omega) he hr i hi hd hm

theorem listCases_spec {W : Type} (m : Str) {tests : List (Test W)} : ∀ (is : List Nat) (names : List Str),
    is.map (fun i => (tests[i]?).map (·.name)) = names.map some →
    listCases m tests is = .ok (names.flatMap fun n => m ++ [' '] ++ n ++ ['\n']) := by
  intro is
  induction is with
  | nil =>
    intro names h
    cases names with
    | nil => rfl
    | cons => simp at h
  | cons i is ih =>
    intro names h
    cases names with
    | nil => simp at h
    | cons n ns =>
      simp only [List.map_cons, List.cons.injEq] at h
      unfold listCases
      cases ht : tests[i]? with
      | none => rw [ht] at h; simp at h
      | some t =>
        rw [ht] at h
        have hn : t.name = n := by simpa using h.1
        simp only [ih ns h.2, bind, C.bind', hn, List.flatMap_cons]

/-! ### The report -/

theorem fold_ticks (env : Env) (args : List Str) : ∀ o, (args.foldl (setOption env) o).ticks = o.ticks + seedReads args := by
  induction args with
  | nil => intro o; simp [seedReads]
  | cons a as ih =>
    intro o
    rw [List.foldl_cons, ih]
    by_cases h1 : Is "--random-order" a = true <;> by_cases h2 : Is "--random-order=" a = true <;>
      (simp [setOption, seedReads, h1, h2]; try omega)

theorem runs_length {W : Type} {clock : Nat → Int} {ts : List (Test W)} {k : Nat} {w w' : W} {ds : List Done}
    (h : Runs clock ts k w ds w') : ds.length = ts.length := by
  induction h with
  | nil => rfl
  | cons _ _ _ ih => simp [ih]

theorem runs_ns {W : Type} {clock : Nat → Int} {ts : List (Test W)} {k : Nat} {w w' : W} {ds : List Done}
    (h : Runs clock ts k w ds w') : ∀ d ∈ ds, ∃ i, d.ns = clock (i + 1) - clock i := by
  induction h with
  | nil => simp
  | cons _ _ _ ih =>
    intro d hd
    rcases List.mem_cons.mp hd with rfl | hd
    · exact ⟨_, rfl⟩
    · exact ih d hd

theorem count_sum (ds : List Done) : count .passed ds + count .failed ds + count .skipped ds = ds.length := by
  induction ds with
  | nil => rfl
  | cons d ds ih =>
    simp only [count_cons, List.length_cons, ← ih]
    rcases d with ⟨_, v, _, _, _⟩
    cases v <;> simp <;> omega

theorem num_nat (n : Nat) : num n = (toString n).toList := rfl

theorem ofNat_lt {n : Nat} (h : n < 2 ^ 32) : (BitVec.ofNat 64 n).toNat = n := by
  rw [BitVec.toNat_ofNat]; omega

theorem listed_spec {W : Type} {tests : List (Test W)} (c : Colours) {ds : List Done} (v : Verdict) (hn : ds.length < 2 ^ 32) {is : List Nat}
    (h : is.map (fun i => (tests[i]?).map (·.name)) = (ds.filter (·.verdict = v)).map fun d => some d.name) :
    listed (mark c (colourOf c v) (wordOf v)) tests (BitVec.ofNat 64 (count v ds)) is = .ok (listing c v ds) := by
  have hc : count v ds < 2 ^ 32 := lt_of_le_of_lt (List.length_filter_le ..) hn
  unfold listed listing
  by_cases h0 : count v ds = 0
  · rw [if_pos h0, if_neg (by simp [h0])]
  · rw [if_neg h0, if_pos]
    · rw [listCases_spec (mark c (colourOf c v) (wordOf v)) is ((ds.filter (·.verdict = v)).map (·.name)) (by rw [h, List.map_map]; rfl)]
      simp only [bind, C.bind', ofNat_lt hc, List.flatMap_map, num_nat]
    · intro e
      exact h0 (by rw [← ofNat_lt hc, e]; rfl)

theorem summary_spec (c : Colours) {ds : List Done} (hn : ds.length < 2 ^ 32) :
    summary c (BitVec.ofNat 64 ds.length) (BitVec.ofNat 64 (count .failed ds)) (BitVec.ofNat 64 (count .skipped ds)) =
      c.green ++ "[==========]".toList ++ c.reset ++ [' '] ++ (toString ds.length).toList ++ " test cases ran.\n".toList ++
      c.green ++ "[  PASSED  ]".toList ++ c.reset ++ [' '] ++ (toString (count .passed ds)).toList ++ " tests.\n".toList := by
  have hs := count_sum ds
  have e : (BitVec.ofNat 64 ds.length - BitVec.ofNat 64 (count .failed ds) - BitVec.ofNat 64 (count .skipped ds)).toNat =
      count .passed ds := by
    have : BitVec.ofNat 64 ds.length - BitVec.ofNat 64 (count .failed ds) - BitVec.ofNat 64 (count .skipped ds) =
        BitVec.ofNat 64 (count .passed ds) := by
      rw [← hs, BitVec.ofNat_add, BitVec.ofNat_add]
      generalize BitVec.ofNat 64 (count .failed ds) = a
      generalize BitVec.ofNat 64 (count .skipped ds) = b
      generalize BitVec.ofNat 64 (count .passed ds) = p
      rw [BitVec.sub_sub, BitVec.add_assoc, BitVec.add_sub_cancel]
    rw [this, ofNat_lt (by omega)]
  unfold summary
  rw [e, ofNat_lt hn, num_nat, num_nat]

theorem exitCode_spec {n : Nat} (h : n < 2 ^ 32) : ((BitVec.ofNat 64 n).setWidth 32).toInt = exitCode n := by
  rw [BitVec.toInt_eq_toNat_cond, BitVec.toNat_setWidth, ofNat_lt h, Nat.mod_eq_of_lt h, exitCode]
  by_cases h1 : n < 2 ^ 31
  · rw [if_pos (by omega), if_pos h1]
  · rw [if_neg (by omega), if_neg h1]; rfl

theorem filterOf_string {args : List Str} (h : ∀ a ∈ args, IsString a) {f : Str} (hf : filterOf args = some f) : IsString f := by
  unfold filterOf lastValue at hf
  cases hl : (args.filter (Is "--filter=")).getLast? with
  | none => rw [hl] at hf; simp at hf
  | some a =>
    rw [hl] at hf
    simp only [Option.map_some, Option.some.injEq] at hf
    have ha : a ∈ args := (List.mem_filter.mp (List.mem_of_getLast? hl)).1
    intro hm
    exact h a ha (List.mem_of_mem_drop (hf ▸ hm))

theorem sorted_args {W : Type} {o : Opts} {args : List Str} {tests : List (Test W)} (ho : o.filter = filterOf args)
    (ha : ∀ a ∈ args, IsString a) (ht : ∀ t ∈ tests, IsString t.name) : Sorted o (chosen args) tests := by
  intro t hm
  rw [ho]
  unfold chosen
  cases hf : filterOf args with
  | none => rfl
  | some f =>
    rcases filter_total (filterOf_string ha hf) (ht t hm) with h | h
    · have h : utest_should_filter_test (some f) t.name = .ok 0 := h
      simp only [h]; rfl
    · have h : utest_should_filter_test (some f) t.name = .ok 1 := h
      simp only [h]; rfl

theorem measured {env : Env} (h : Timely env) (i : Nat) : Measured (mixedUnits env.args) (env.clock (i + 1) - env.clock i) := by
  have h1 := h.1 i
  have h2 := h.1 (i + 1)
  exact ⟨by omega, by omega, fun hm => h.2 hm i⟩

/-- The tests in the order in which they are run. -/
theorem main_order {W : Type} {order : BitVec 32 → (n : Nat) → List (Fin n)}
    (hp : ∀ seed n, n < 2 ^ 32 → (order seed n).Perm (List.finRange n))
    (ho : ∀ (α : Type) (ts : List α) (seed : BitVec 32), ts.length < 2 ^ 32 →
      shuffle ts.length ts seed = .ok ((order seed ts.length).map ts.get)) {env : Env} {tests : List (Test W)}
    (hl : tests.length < 2 ^ 32) :
    ∃ ts, InOrder order env.args tests ts ∧ ts.Perm tests ∧
      (if (env.args.foldl (setOption env) {}).random then shuffle tests.length tests (env.args.foldl (setOption env) {}).seed
        else .ok tests) = .ok ts := by
  rw [fold_random]
  unfold InOrder
  cases hr : randomOrder env.args with
  | false => exact ⟨tests, rfl, .refl _, rfl⟩
  | true =>
    refine ⟨_, ⟨_, fun s hs => fold_seed env env.args {} s hs, rfl⟩, ?_, ?_⟩
    · have := (hp (env.args.foldl (setOption env) {}).seed tests.length hl).map tests.get
      rwa [← List.ofFn_eq_map, List.ofFn_get] at this
    · exact ho _ tests _ hl

theorem assoc_report (a x n y l g b r z p' p q k f : Str) :
    a ++ x ++ n ++ y ++ l ++ (g ++ b ++ r ++ [' '] ++ n ++ z ++ g ++ p' ++ r ++ [' '] ++ p ++ q) ++ k ++ f =
      a ++ x ++ n ++ y ++ l ++ (g ++ b ++ r) ++ [' '] ++ n ++ z ++ (g ++ p' ++ r) ++ [' '] ++ p ++ q ++ k ++ f := by
  simp only [List.append_assoc]

theorem firstLine_spec (c : Colours) {n : Nat} (h : n < 2 ^ 32) :
    firstLine c (BitVec.ofNat 64 n) =
      mark c c.green "[==========]" ++ " Running ".toList ++ (toString n).toList ++ " test cases.\n".toList := by
  unfold firstLine
  rw [ofNat_lt h, num_nat]
  rfl

theorem fileHead_spec {n : Nat} (h : n < 2 ^ 32) :
    fileHead (BitVec.ofNat 64 n) =
      "<?xml version=\"1.0\" encoding=\"UTF-8\"?>\n<testsuites tests=\"".toList ++ (toString n).toList ++
      "\" name=\"All\">\n<testsuite name=\"Tests\" tests=\"".toList ++ (toString n).toList ++ "\">\n".toList := by
  unfold fileHead
  rw [ofNat_lt h, num_nat]

/-- **C99, C100.** There is an order for every seed and number of tests, each test once, such that a run of the program without
`--help` and `--list-tests` calls the chosen tests, each once, in the order of their registration or in that of the seed, prints their
report, writes it to the file if one was opened, and gives the number of failed tests as its value.  If the process dies in a test,
nothing comes after it. -/
theorem main_report : ∃ order : BitVec 32 → (n : Nat) → List (Fin n), (∀ seed n, n < 2 ^ 32 → (order seed n).Perm (List.finRange n)) ∧
    ∀ (W : Type) (env : Env) (tests : List (Test W)) (w : W), (∀ a ∈ env.args, IsString a) → (∀ t ∈ tests, IsString t.name) →
      RunsTests env.args → tests.length < 2 ^ 32 → Timely env →
      ∃ ts, InOrder order env.args tests ts ∧
        (∀ ds w', Runs env.clock (ts.filter fun t => chosen env.args t.name) (seedReads env.args) w ds w' →
          ∃ out, Report (colours env.tty) (mixedUnits env.args) ds out ∧
            utest_main env tests w =
              .ok (.exits (exitCode (count .failed ds)) out (if hasFile env then some (xml ds) else none) w')) ∧
        (Dies env.clock (ts.filter fun t => chosen env.args t.name) (seedReads env.args) w → utest_main env tests w = .ok .died) := by
  obtain ⟨order, hp, ho⟩ := shuffle_order
  refine ⟨order, hp, ?_⟩
  intro W env tests w ha hn hr hl hc
  obtain ⟨ts, hts, hperm, hsh⟩ := main_order hp ho (env := env) hl
  refine ⟨ts, hts, ?_⟩
  have hlen : ts.length = tests.length := hperm.length_eq
  have hg := parse_all (env := env) (tests := tests) env.args {} ha hr
  generalize hO : env.args.foldl (setOption env) {} = o at hg hsh
  have hof : o.filter = filterOf env.args := by rw [← hO, fold_filter]; cases filterOf env.args <;> rfl
  have hom : o.mixed = mixedUnits env.args := by rw [← hO, fold_mixed]; rfl
  have hot : o.ticks = seedReads env.args := by rw [← hO, fold_ticks]; simp
  have hoo : o.output = if hasFile env then some [] else none := by
    rw [← hO, fold_output, hasFile]
    cases lastValue "--output=" env.args with
    | none => rfl
    | some p => rfl
  have hsort : Sorted o (chosen env.args) ts := sorted_args hof ha fun t ht => hn t (hperm.mem_iff.mp ht)
  have hcount := countTests_spec hsort ts.length 0 0 (by simp)
  rw [List.drop_zero, show (0 : BitVec 64) + _ = _ from BitVec.zero_add _, ← List.range_eq_range'] at hcount
  have hmain : ∀ (x : C (Step W)), runAll env o ts (List.range ts.length)
      { out := firstLine (colours env.tty) (BitVec.ofNat 64 (ts.filter fun t => chosen env.args t.name).length),
        file := o.output.map (· ++ fileHead (BitVec.ofNat 64 (ts.filter fun t => chosen env.args t.name).length)),
        ticks := o.ticks, world := w } = x →
      utest_main env tests w = (match x with
        | .ok .died => .ok .died
        | .ok (.next r) => do
          let skipped ← listed ((colours env.tty).yellow ++ "[  SKIPPED ]".toList ++ (colours env.tty).reset) ts r.skipped r.skippedCases
          let failed ← listed ((colours env.tty).red ++ "[  FAILED  ]".toList ++ (colours env.tty).reset) ts r.failed r.failedCases
          .ok (.exits (r.failed.setWidth 32).toInt (r.out ++ summary (colours env.tty)
            (BitVec.ofNat 64 (ts.filter fun t => chosen env.args t.name).length) r.failed r.skipped ++ skipped ++ failed)
            (r.file.map (· ++ "</testsuite>\n</testsuites>\n".toList)) r.world)
        | .abort m => .abort m | .ub u => .ub u | .indet l => .indet l) := by
    intro x hx
    unfold utest_main
    rw [hg]
    cases hrand : o.random with
    | false =>
      have e : tests = ts := by simpa [hrand] using hsh
      subst e
      simp only [bind, C.bind', hcount, hx, hrand, Bool.false_eq_true, if_false]
      rcases x with s | _ | _ | _
      · cases s <;> rfl
      all_goals rfl
    | true =>
      rw [hrand, if_pos rfl] at hsh
      simp only [bind, C.bind', hcount, hx, hrand, if_true, hsh]
      rcases x with s | _ | _ | _
      · cases s <;> rfl
      all_goals rfl
  constructor
  · intro ds w' hruns
    have hdl := runs_length hruns
    have hdn : ds.length < 2 ^ 32 := by
      rw [hdl]; exact lt_of_le_of_lt (List.length_filter_le ..) (by omega)
    have hm : ∀ d ∈ ds, Measured o.mixed d.ns := by
      intro d hd
      obtain ⟨i, e⟩ := runs_ns hruns d hd
      rw [e, hom]
      exact measured hc i
    rw [← hdl] at hmain
    obtain ⟨r, hr1, hr2⟩ := runAll_spec (env := env) hsort ts.length 0
      { out := firstLine (colours env.tty) (BitVec.ofNat 64 ds.length), file := o.output.map (· ++ fileHead (BitVec.ofNat 64 ds.length)),
        ticks := o.ticks, world := w } ds w' (by simp) (by rw [List.drop_zero, hot]; exact hruns) hm
    rw [← List.range_eq_range'] at hr1
    have h := hmain _ hr1
    obtain ⟨s, hs1, hs2⟩ := hr2.lines
    obtain ⟨fi, hf1, hf2⟩ := hr2.failedCases
    obtain ⟨si, hk1, hk2⟩ := hr2.skippedCases
    have hfc : count .failed ds < 2 ^ 32 := lt_of_le_of_lt (List.length_filter_le ..) hdn
    rw [hom] at hs1
    refine ⟨_, .mk s hs1, ?_⟩
    rw [h]
    have e1 : r.failed = BitVec.ofNat 64 (count .failed ds) := by rw [hr2.failed]; simp
    have e2 : r.skipped = BitVec.ofNat 64 (count .skipped ds) := by rw [hr2.skipped]; simp
    have e3 : r.failedCases = fi := by rw [hf1]; rfl
    have e4 : r.skippedCases = si := by rw [hk1]; rfl
    have l1 := listed_spec (colours env.tty) .failed hdn hf2
    have l2 := listed_spec (colours env.tty) .skipped hdn hk2
    have l3 := hr2.file
    have l4 : r.out = firstLine (colours env.tty) (BitVec.ofNat 64 ds.length) ++ s := hs2
    simp only [e1, e2, e3, e4, bind, C.bind']
    simp only [mark, colourOf, wordOf] at l1 l2
    rw [l1, l2]
    simp only [hr2.world, exitCode_spec hfc, l4, summary_spec _ hdn, firstLine_spec _ hdn, assoc_report]
    congr 1
    have lf : r.file.map (· ++ "</testsuite>\n</testsuites>\n".toList) = if hasFile env then some (xml ds) else none := by
      rw [l3, hoo]
      cases hasFile env with
      | false => rfl
      | true =>
        simp only [if_true, Option.map_some, fileHead_spec hdn, List.nil_append]
        rfl
    rw [lf]
    rfl
  · rintro ⟨pre, t, post, ds, w', i, he, hruns, hi, hd⟩
    have hm : ∀ d ∈ ds, Measured o.mixed d.ns := by
      intro d hd
      obtain ⟨i, e⟩ := runs_ns hruns d hd
      rw [e, hom]
      exact measured hc i
    have := runAll_dies (env := env) hsort ts.length 0
      { out := firstLine (colours env.tty) (BitVec.ofNat 64 (ts.filter fun t => chosen env.args t.name).length),
        file := o.output.map (· ++ fileHead (BitVec.ofNat 64 (ts.filter fun t => chosen env.args t.name).length)),
        ticks := o.ticks, world := w } pre post t ds w' (by simp) (by rw [List.drop_zero]; exact he) (by rw [hot]; exact hruns) i hi hd hm
    rw [← List.range_eq_range'] at this
    exact hmain _ this

/-- The tests are run to the end, or the process dies in one of them. -/
theorem runs_or_dies {W : Type} (clock : Nat → Int) (ts : List (Test W)) (hi : ∀ t ∈ ts, ∃ i, t.index = some i) : ∀ k w,
    (∃ ds w', Runs clock ts k w ds w') ∨ Dies clock ts k w := by
  induction ts with
  | nil => intro k w; exact .inl ⟨[], w, .nil k w⟩
  | cons t ts ih =>
    intro k w
    obtain ⟨i, hti⟩ := hi t (by simp)
    have ih := ih fun t ht => hi t (by simp [ht])
    have step : ∀ {e : Ended W} {v text exc w'}, t.func i w = e → Finish e v text exc w' →
        (∃ ds w'', Runs clock (t :: ts) k w ds w'') ∨ Dies clock (t :: ts) k w := by
      intro e v text exc w' he hf
      subst he
      rcases ih (k + 2) w' with ⟨ds, w'', h⟩ | ⟨pre, u, post, ds, w'', j, he, h, hj, hd⟩
      · exact .inl ⟨_, _, .cons hti hf h⟩
      · exact .inr ⟨t :: pre, u, post, _, w'', j, by rw [he]; rfl, .cons hti hf h, hj, hd⟩
    cases h : t.func i w with
    | returns r text w' =>
      by_cases h1 : r = 1
      · subst h1; exact step h (.failed text w')
      by_cases h2 : r = 2
      · subst h2; exact step h (.skipped text w')
      exact step h (.passed r text w' h1 h2)
    | throws what text w' =>
      cases what with
      | none => exact step h (.unknown text w')
      | some what => exact step h (.exception what text w')
    | dies => exact .inr ⟨[], t, ts, [], w, i, rfl, .nil k w, hti, h⟩

/-- The tests that are run have the names of the list, in its order. -/
theorem runs_names {W : Type} {clock : Nat → Int} {ts : List (Test W)} {k : Nat} {w w' : W} {ds : List Done}
    (h : Runs clock ts k w ds w') : ds.map (·.name) = ts.map (·.name) := by
  induction h with
  | nil => rfl
  | cons _ _ _ ih => simp [ih]

theorem finish_unique {W : Type} {e : Ended W} {v v' : Verdict} {text text' exc exc' : Str} {w w' : W} (h : Finish e v text exc w)
    (h' : Finish e v' text' exc' w') : v = v' ∧ text = text' ∧ exc = exc' ∧ w = w' := by
  cases h <;> cases h' <;> first | exact ⟨rfl, rfl, rfl, rfl⟩ | contradiction

/-- A run has one outcome. -/
theorem results_unique {W : Type} {clock : Nat → Int} {ts : List (Test W)} {k : Nat} {w : W} {ds : List Done} {w' : W}
    (h : Runs clock ts k w ds w') : ∀ {es : List Done} {v' : W}, Runs clock ts k w es v' → ds = es ∧ w' = v' := by
  induction h with
  | nil => intro es v' h; cases h; exact ⟨rfl, rfl⟩
  | cons hi hf _ ih =>
    intro es v' h
    cases h with
    | cons hi' hf' h =>
      rw [hi] at hi'
      cases hi'
      obtain ⟨rfl, rfl, rfl, rfl⟩ := finish_unique hf hf'
      obtain ⟨rfl, rfl⟩ := ih h
      exact ⟨rfl, rfl⟩

/-- Every order has every test once. -/
theorem inOrder_perm {W : Type} {order : BitVec 32 → (n : Nat) → List (Fin n)}
    (hp : ∀ seed n, n < 2 ^ 32 → (order seed n).Perm (List.finRange n)) {args : List Str} {tests ts : List (Test W)}
    (hl : tests.length < 2 ^ 32) (h : InOrder order args tests ts) : ts.Perm tests := by
  unfold InOrder at h
  split at h
  · obtain ⟨seed, _, rfl⟩ := h
    have := (hp seed tests.length hl).map tests.get
    rwa [← List.ofFn_eq_map, List.ofFn_get] at this
  · rw [h]

/-- The program without `--help` and `--list-tests` always ends with a report or by the death of the process in a test: it has no undefined
behaviour of its own. -/
theorem main_total {W : Type} {env : Env} {tests : List (Test W)} {w : W} (ha : ∀ a ∈ env.args, IsString a)
    (hn : ∀ t ∈ tests, IsString t.name) (hi : ∀ t ∈ tests, ∃ i, t.index = some i) (hr : RunsTests env.args) (hl : tests.length < 2 ^ 32)
    (hc : Timely env) : ∃ o, utest_main env tests w = .ok o := by
  obtain ⟨order, hp, h⟩ := main_report
  obtain ⟨ts, hts, h1, h2⟩ := h W env tests w ha hn hr hl hc
  rcases runs_or_dies env.clock (ts.filter fun t => chosen env.args t.name)
      (fun t ht => hi t ((inOrder_perm hp hl hts).mem_iff.mp (List.mem_filter.mp ht).1)) (seedReads env.args) w with ⟨ds, w', hd⟩ | hd
  · obtain ⟨out, _, e⟩ := h1 ds w' hd; exact ⟨_, e⟩
  · exact ⟨_, h2 hd⟩

/-- Without a random order and a filter the tests are run in the order of their registration. -/
theorem main_in_order {W : Type} {env : Env} {tests : List (Test W)} {w w' : W} {ds : List Done} (ha : ∀ a ∈ env.args, IsString a)
    (hn : ∀ t ∈ tests, IsString t.name) (hr : RunsTests env.args) (hl : tests.length < 2 ^ 32) (hc : Timely env)
    (ho : randomOrder env.args = false)
    (hd : Runs env.clock (tests.filter fun t => chosen env.args t.name) (seedReads env.args) w ds w') :
    ∃ out, Report (colours env.tty) (mixedUnits env.args) ds out ∧
      utest_main env tests w = .ok (.exits (exitCode (count .failed ds)) out (if hasFile env then some (xml ds) else none) w') := by
  obtain ⟨order, _, h⟩ := main_report
  obtain ⟨ts, hts, h1, _⟩ := h W env tests w ha hn hr hl hc
  unfold InOrder at hts
  rw [ho] at hts
  simp only [Bool.false_eq_true, if_false] at hts
  subst hts
  exact h1 ds w' hd

/-- The same seed gives the same order, whatever the tests do: for two programs with the same number of tests and the same seed, the tests
are run in the same permutation. -/
theorem main_seed : ∃ order : BitVec 32 → (n : Nat) → List (Fin n), (∀ seed n, n < 2 ^ 32 → (order seed n).Perm (List.finRange n)) ∧
    ∀ (W : Type) (env : Env) (tests : List (Test W)) (w w' : W) (ds : List Done) (seed : BitVec 32), (∀ a ∈ env.args, IsString a) →
      (∀ t ∈ tests, IsString t.name) → RunsTests env.args → tests.length < 2 ^ 32 → Timely env → givenSeed env.args = some seed →
      Runs env.clock (((order seed tests.length).map tests.get).filter fun t => chosen env.args t.name) (seedReads env.args) w ds w' →
      ∃ out, Report (colours env.tty) (mixedUnits env.args) ds out ∧
        utest_main env tests w = .ok (.exits (exitCode (count .failed ds)) out (if hasFile env then some (xml ds) else none) w') := by
  obtain ⟨order, hp, h⟩ := main_report
  refine ⟨order, hp, ?_⟩
  intro W env tests w w' ds seed ha hn hr hl hc hs hd
  obtain ⟨ts, hts, h1, _⟩ := h W env tests w ha hn hr hl hc
  have ho : randomOrder env.args = true := by
    unfold givenSeed at hs
    cases hg : (env.args.filter (Is "--random-order")).getLast? with
    | none => rw [hg] at hs; simp at hs
    | some a =>
      have := List.mem_filter.mp (List.mem_of_getLast? hg)
      exact List.any_eq_true.mpr ⟨a, this⟩
  unfold InOrder at hts
  rw [ho, if_pos rfl] at hts
  obtain ⟨s, hs', rfl⟩ := hts
  rw [hs' seed hs] at h1
  exact h1 ds w' hd

/-! ### The exit status -/

/-- The value of the program is 0 exactly if no test failed. -/
theorem exit_zero {n : Nat} (h : n < 2 ^ 32) : exitCode n = 0 ↔ n = 0 := by
  unfold exitCode
  split <;> omega

/-- The status of the process is 0 exactly if no test failed, if fewer than 256 did.  Missing: any number of them. -/
theorem exit_status_partial {n : Nat} (h : n < 256) : status (exitCode n) = 0 ↔ n = 0 := by
  unfold status exitCode
  rw [if_pos (by omega)]
  omega

/-- If 256 tests failed, or 512, the process reports success. -/
theorem exit_status_wrong {k : Nat} (h : k < 2 ^ 23) : status (exitCode (256 * k)) = 0 := by
  unfold status exitCode
  rw [if_pos (by omega)]
  omega

/-! ### The file -/

/-- In the file a test that ended with an exception looks like one that passed. -/
theorem xml_exception_wrong (name text exc : Str) (ns : Int) :
    xml [⟨name, .failed, text, exc, ns⟩] = xml [⟨name, .passed, text, [], ns⟩] := rfl

/-- The verdicts of the tests are not in the file at all. -/
theorem xml_verdict_wrong (ds : List Done) (v : Verdict) : xml (ds.map fun d => { d with verdict := v }) = xml ds := by
  unfold xml
  rw [List.length_map, List.flatMap_map]

/-- With mixed units, the line of a test of 10000 seconds or more has undefined behaviour: a null pointer is printed as its unit. -/
theorem main_mixed_wrong {W : Type} {env : Env} {o : Opts} {tests : List (Test W)} {k : Nat} {t : Test W} {r : Run W} {v : Verdict}
    {text exc : Str} {w : W} (ht : tests[k]? = some t) (hk : utest_should_filter_test o.filter t.name = .ok 0)
    {i : Nat} (hi : t.index = some i)
    (hf : Finish (t.func i r.world) v text exc w) (hm : o.mixed = true)
    (hn : 10000 * 1000 ^ 3 ≤ env.clock (r.ticks + 1) - env.clock r.ticks) (hn' : env.clock (r.ticks + 1) - env.clock r.ticks < 2 ^ 63) :
    runIndex env o tests k r = .ub .outOfBounds := by
  obtain ⟨result, hr, hc⟩ := called_finish hf
  have hs : showTime true (env.clock (r.ticks + 1) - env.clock r.ticks) = .ub .outOfBounds := by
    rcases units_spec (env.clock (r.ticks + 1) - env.clock r.ticks) with ⟨_, h⟩ | ⟨h, _⟩
    · omega
    · exact h
  unfold runIndex
  simp only [ht, hk, bind, C.bind', call, hi, hc, elapsed_ok (show -2 ^ 63 ≤ env.clock (r.ticks + 1) - env.clock r.ticks by omega) hn', hm, hs]
  rw [if_neg (by simp)]

/-! ### An example -/

/-- Three tests, of which one fails and one throws, in a program whose state counts the calls. -/
def someTests : List (Test Nat) :=
  [⟨fun _ n => .returns 0 [] (n + 1), some 0, "a.x".toList⟩, ⟨fun _ n => .returns 1 "no\n".toList (n + 1), some 0, "a.y".toList⟩,
    ⟨fun _ n => .throws none [] (n + 1), some 0, "b.z".toList⟩]

def someEnv : Env where
  args := ["--filter=a.*".toList, "--output=r.xml".toList]
  tty := false
  opens := fun _ => true
  clock := fun i => 100 * (min i 1000 : Nat)

theorem someEnv_runs : RunsTests someEnv.args := by unfold RunsTests; decide
theorem someEnv_timely : Timely someEnv := by
  refine ⟨fun i => ?_, fun h => absurd h (by decide)⟩
  simp only [someEnv]
  omega

theorem chosen_filter {args : List Str} {f name : Str} (h : filterOf args = some f) : chosen args name = true ↔ Selected f name := by
  unfold chosen
  rw [h]
  simp [Selected]

theorem some_chosen : someTests.filter (fun t => chosen someEnv.args t.name) = someTests.take 2 := by
  have hf : filterOf someEnv.args = some ("a".toList ++ ".*".toList) := rfl
  have a : Ident "a".toList := by unfold Ident; decide
  have b : Ident "b".toList := by unfold Ident; decide
  have x : Ident "x".toList := by unfold Ident; decide
  have y : Ident "y".toList := by unfold Ident; decide
  have z : Ident "z".toList := by unfold Ident; decide
  have h1 : chosen someEnv.args "a.x".toList = true := (chosen_filter hf).mpr ((filter_set a a x).mpr rfl)
  have h2 : chosen someEnv.args "a.y".toList = true := (chosen_filter hf).mpr ((filter_set a a y).mpr rfl)
  have h3 : ¬ chosen someEnv.args "b.z".toList = true := fun h => absurd ((filter_set a b z).mp ((chosen_filter hf).mp h)) (by decide)
  unfold someTests
  rw [List.filter_cons_of_pos (p := fun t : Test Nat => chosen someEnv.args t.name) h1,
    List.filter_cons_of_pos (p := fun t : Test Nat => chosen someEnv.args t.name) h2,
    List.filter_cons_of_neg (p := fun t : Test Nat => chosen someEnv.args t.name) h3]
  rfl

/-- The hypotheses of `main_in_order` are met: the two tests of the set `a` are run, and one of them fails. -/
example : ∃ out, utest_main someEnv someTests 0 = .ok (.exits 1 out
    (some (xml [⟨"a.x".toList, .passed, [], [], 100⟩, ⟨"a.y".toList, .failed, "no\n".toList, [], 100⟩])) 2) := by
  have hruns : Runs someEnv.clock (someTests.filter fun t => chosen someEnv.args t.name) (seedReads someEnv.args) 0
      [⟨"a.x".toList, .passed, [], [], 100⟩, ⟨"a.y".toList, .failed, "no\n".toList, [], 100⟩] 2 := by
    rw [some_chosen]
    exact .cons rfl (.passed 0 [] 1 (by decide) (by decide)) (.cons rfl (.failed _ 2) (.nil ..))
  obtain ⟨out, _, h⟩ := main_in_order (tests := someTests) (by decide) (by decide) someEnv_runs (by decide) someEnv_timely (by decide) hruns
  exact ⟨out, h⟩

end Verif.Props
