import Verif.Props.UtestFilter
import Verif.Props.UtestOrder

/-! The options, the loop over the tests and the report of the test runner (C99, C100). -/

namespace Verif.Props
open Utest SpecUtest

/-! ### Options -/

theorem strncmpFrom_spec {x y : Str} (hx : IsString x) (hy : IsString y) (n : Nat) : ∀ i, i + n = y.length → i ≤ x.length →
    ∃ r, strncmpFrom x y n i = .ok r ∧ (r = 0 ↔ y.drop i <+: x.drop i) := by
  induction n with
  | zero =>
    intro i h _
    refine ⟨0, rfl, ?_⟩
    rw [List.drop_of_length_le (by omega)]; simp
  | succ n ih =>
    intro i h hi
    have hiy : i < y.length := by omega
    have hb := ne_nul hy hiy
    rw [strncmpFrom, rd_lt hiy]
    rcases Nat.lt_or_eq_of_le hi with hi | rfl
    · rw [rd_lt hi]
      simp only [bind, C.bind']
      by_cases he : x[i] = y[i]
      · rw [if_neg (by simpa using he), if_neg (ne_nul hx hi)]
        obtain ⟨r, h1, h2⟩ := ih (i + 1) (by omega) hi
        refine ⟨r, h1, h2.trans ?_⟩
        rw [List.drop_eq_getElem_cons hiy, List.drop_eq_getElem_cons hi, List.cons_prefix_cons]
        simp [he]
      · rw [if_pos he]
        refine ⟨_, rfl, ?_⟩
        rw [List.drop_eq_getElem_cons hiy, List.drop_eq_getElem_cons hi, List.cons_prefix_cons]
        constructor
        · intro h; exact absurd (Char.toNat_inj.mp (by omega)) he
        · intro h; exact absurd h.1.symm he
    · rw [rd_end]
      simp only [bind, C.bind']
      rw [if_pos (fun e => hb e.symm)]
      refine ⟨_, rfl, ?_⟩
      rw [List.drop_length, List.drop_eq_getElem_cons hiy]
      constructor
      · intro h; exact absurd (Char.toNat_inj.mp (show NUL.toNat = y[x.length].toNat by omega)).symm hb
      · intro h; simp at h; omega

theorem isOption_spec {a : Str} (o : String) (ha : IsString a) (ho : IsString o.toList) : isOption a o.toList = .ok (Is o a) := by
  obtain ⟨r, h1, h2⟩ := strncmpFrom_spec ha ho o.toList.length 0 (by simp) (by simp)
  simp only [isOption, h1, bind, C.bind', C.ok.injEq]
  simp only [List.drop_zero] at h2
  by_cases h : r = 0
  · simp [h, Is, h2.mp h]
  · have : ¬ (o.toList.isPrefixOf a = true) := fun e => h (h2.mpr (by simpa using e))
    simp [h, Is, this]

theorem is_both {o o' : String} {a : Str} (h : Is o a = true) (h' : Is o' a = true) :
    o.toList.isPrefixOf o'.toList = true ∨ o'.toList.isPrefixOf o.toList = true := by
  simp only [Is, List.isPrefixOf_iff_prefix] at *
  exact List.prefix_or_prefix_of_prefix h h'

theorem is_not {o o' : String} {a : Str} (h : Is o a = true)
    (hd : (o.toList.isPrefixOf o'.toList || o'.toList.isPrefixOf o.toList) = false) : Is o' a = false := by
  by_contra h'
  have := is_both h (by simpa using h')
  simp only [Bool.or_eq_false_iff] at hd
  rw [hd.1, hd.2] at this
  simp at this

/-- What an argument does to the options. -/
def setOption (env : Env) (o : Opts) (a : Str) : Opts where
  filter := if Is "--filter=" a then some (a.drop 9) else o.filter
  output := if Is "--output=" a then (if env.opens (a.drop 9) then some [] else none) else o.output
  mixed := o.mixed || Is "--enable-mixed-units" a
  random := o.random || Is "--random-order" a
  seed := if Is "--random-order=" a then (strtoul (a.drop 15)).setWidth 32 else
    if Is "--random-order" a then timeSeed (env.clock o.ticks) else o.seed
  ticks := if Is "--random-order" a && !Is "--random-order=" a then o.ticks + 1 else o.ticks

theorem parse_step {W : Type} {env : Env} {tests : List (Test W)} {a : Str} {as : List Str} {o : Opts} (ha : IsString a)
    (h1 : Is "--help" a = false) (h2 : Is "--list-tests" a = false) :
    parseArgs env tests (a :: as) o = parseArgs env tests as (setOption env o a) := by
  rw [parseArgs]
  rw [isOption_spec "--help" ha (by decide), isOption_spec "--filter=" ha (by decide), isOption_spec "--output=" ha (by decide),
    isOption_spec "--list-tests" ha (by decide), isOption_spec "--enable-mixed-units" ha (by decide),
    isOption_spec "--random-order=" ha (by decide), isOption_spec "--random-order" ha (by decide), h1, h2]
  simp only [bind, C.bind', Bool.false_eq_true, if_false]
  by_cases c1 : Is "--filter=" a = true
  · rw [if_pos c1]
    congr 1
    simp only [setOption, c1, is_not (o' := "--output=") c1 (by decide), is_not (o' := "--enable-mixed-units") c1 (by decide),
      is_not (o' := "--random-order=") c1 (by decide), is_not (o' := "--random-order") c1 (by decide), if_true, if_false,
      Bool.false_eq_true, Bool.or_false, Bool.false_and]
  · rw [if_neg c1]
    have c1 := Bool.eq_false_iff.mpr c1
    by_cases c2 : Is "--output=" a = true
    · rw [if_pos c2]
      congr 1
      simp only [setOption, c1, c2, is_not (o' := "--enable-mixed-units") c2 (by decide),
        is_not (o' := "--random-order=") c2 (by decide), is_not (o' := "--random-order") c2 (by decide), if_true, if_false,
        Bool.false_eq_true, Bool.or_false, Bool.false_and]
    · rw [if_neg c2]
      have c2 := Bool.eq_false_iff.mpr c2
      by_cases c3 : Is "--enable-mixed-units" a = true
      · rw [if_pos c3]
        congr 1
        simp only [setOption, c1, c2, c3, 
          is_not (o' := "--random-order=") c3 (by decide), is_not (o' := "--random-order") c3 (by decide), if_false,
          Bool.false_eq_true, Bool.or_false, Bool.or_true, Bool.false_and]
      · rw [if_neg c3]
        have c3 := Bool.eq_false_iff.mpr c3
        by_cases c4 : Is "--random-order=" a = true
        · have c5 : Is "--random-order" a = true := by
            simp only [Is, List.isPrefixOf_iff_prefix] at c4 ⊢
            exact List.IsPrefix.trans (List.isPrefixOf_iff_prefix.mp (by decide)) c4
          rw [if_pos c4]
          congr 1
          simp only [setOption, c1, c2, c3, c4, c5, if_true, if_false, Bool.false_eq_true, Bool.or_false, Bool.or_true, Bool.not_true, Bool.and_false]
        · rw [if_neg c4]
          have c4 := Bool.eq_false_iff.mpr c4
          by_cases c5 : Is "--random-order" a = true
          · rw [if_pos c5]
            congr 1
            simp only [setOption, c1, c2, c3, c4, c5, if_true, if_false, Bool.false_eq_true, Bool.or_false, Bool.or_true, Bool.not_false, Bool.and_true]
          · rw [if_neg c5]
            have c5 := Bool.eq_false_iff.mpr c5
            congr 1
            simp only [setOption, c1, c2, c3, c4, c5, if_false, Bool.false_eq_true, Bool.or_false, Bool.false_and]

theorem parse_all {W : Type} {env : Env} {tests : List (Test W)} (args : List Str) : ∀ o, (∀ a ∈ args, IsString a) → RunsTests args →
    parseArgs env tests args o = .ok (.go (args.foldl (setOption env) o)) := by
  induction args with
  | nil => intros; rfl
  | cons a as ih =>
    intro o ha hr
    rw [parse_step (ha a (by simp)) (hr a (by simp)).1 (hr a (by simp)).2]
    exact ih _ (fun b hb => ha b (by simp [hb])) (fun b hb => hr b (by simp [hb]))

theorem last_cons (p : Str → Bool) (a : Str) (as : List Str) :
    ((a :: as).filter p).getLast? = ((as.filter p).getLast?).or (if p a then some a else none) := by
  rw [List.filter_cons]
  split
  · rw [List.getLast?_cons]
    cases (as.filter p).getLast? <;> simp
  · simp

theorem fold_filter (env : Env) (args : List Str) : ∀ o, (args.foldl (setOption env) o).filter = (filterOf args).or o.filter := by
  induction args with
  | nil => intro o; simp [filterOf, lastValue]
  | cons a as ih =>
    intro o
    rw [List.foldl_cons, ih]
    simp only [filterOf, lastValue, last_cons, setOption]
    cases ((as.filter (Is "--filter=")).getLast?) <;> by_cases h : Is "--filter=" a = true <;> simp [h, show "--filter=".length = 9 from rfl]

theorem fold_output (env : Env) (args : List Str) : ∀ o, (args.foldl (setOption env) o).output =
    match lastValue "--output=" args with
    | none => o.output
    | some path => if env.opens path then some [] else none := by
  induction args with
  | nil => intro o; simp [lastValue]
  | cons a as ih =>
    intro o
    rw [List.foldl_cons, ih]
    simp only [lastValue, last_cons, setOption]
    cases ((as.filter (Is "--output=")).getLast?) <;> by_cases h : Is "--output=" a = true <;> simp [h, show "--output=".length = 9 from rfl]

theorem fold_mixed (env : Env) (args : List Str) : ∀ o, (args.foldl (setOption env) o).mixed = (o.mixed || mixedUnits args) := by
  induction args with
  | nil => intro o; simp [mixedUnits]
  | cons a as ih => intro o; rw [List.foldl_cons, ih]; simp [mixedUnits, setOption, Bool.or_assoc]

theorem fold_random (env : Env) (args : List Str) : ∀ o, (args.foldl (setOption env) o).random = (o.random || randomOrder args) := by
  induction args with
  | nil => intro o; simp [randomOrder]
  | cons a as ih => intro o; rw [List.foldl_cons, ih]; simp [randomOrder, setOption, Bool.or_assoc]

theorem fold_seed (env : Env) (args : List Str) : ∀ o, ∀ s, givenSeed args = some s → (args.foldl (setOption env) o).seed = s := by
  induction args with
  | nil => intro o s h; simp [givenSeed] at h
  | cons a as ih =>
    intro o s h
    rw [List.foldl_cons]
    cases hg : (as.filter (Is "--random-order")).getLast? with
    | some b =>
      apply ih
      rw [← h]; simp only [givenSeed, last_cons, hg, Option.some_or]
    | none =>
      have hn : as.filter (Is "--random-order") = [] := List.getLast?_eq_none_iff.mp hg
      have hk : ∀ as : List Str, as.filter (Is "--random-order") = [] → ∀ o, (as.foldl (setOption env) o).seed = o.seed := by
        intro as
        induction as with
        | nil => intros; rfl
        | cons b bs ih' =>
          intro h o
          rw [List.filter_cons] at h
          split at h
          · simp at h
          · rename_i hb
            rw [List.foldl_cons, ih' h]
            have hb' : Is "--random-order=" b = false := by
              by_contra hc
              apply hb
              simp only [Bool.not_eq_false, Is, List.isPrefixOf_iff_prefix] at hc ⊢
              exact List.IsPrefix.trans (List.isPrefixOf_iff_prefix.mp (by decide)) hc
            simp [setOption, hb, hb']
      rw [hk as hn]
      simp only [givenSeed, last_cons, hg, Option.none_or] at h
      by_cases c : Is "--random-order" a = true
      · rw [if_pos c] at h
        simp only at h
        by_cases c' : Is "--random-order=" a = true
        · rw [if_pos c'] at h
          simpa [setOption, c', show "--random-order=".length = 15 from rfl] using h
        · rw [if_neg c'] at h; simp at h
      · rw [if_neg c] at h; simp at h

theorem parse_append {W : Type} {env : Env} {tests : List (Test W)} (pre : List Str) : ∀ (post : List Str) (o : Opts),
    (∀ a ∈ pre, IsString a) → RunsTests pre →
    parseArgs env tests (pre ++ post) o = parseArgs env tests post (pre.foldl (setOption env) o) := by
  induction pre with
  | nil => intros; rfl
  | cons a as ih =>
    intro post o ha hr
    rw [List.cons_append, parse_step (ha a (by simp)) (hr a (by simp)).1 (hr a (by simp)).2]
    exact ih _ _ (fun b hb => ha b (by simp [hb])) (fun b hb => hr b (by simp [hb]))

/-- `--help` prints the help and runs no test. -/
theorem main_help {W : Type} {env : Env} {tests : List (Test W)} {w : W} {pre post : List Str} {a : Str} (he : env.args = pre ++ a :: post)
    (hs : ∀ a ∈ env.args, IsString a) (hr : RunsTests pre) (ha : Is "--help" a = true) :
    ∃ file, utest_main env tests w = .ok (.exits 0 helpText file w) := by
  have hp := parse_append (env := env) (tests := tests) pre (a :: post) {} (fun b hb => hs b (by rw [he]; simp [hb])) hr
  rw [← he] at hp
  rw [parseArgs, isOption_spec "--help" (hs a (by rw [he]; simp)) (by decide), ha] at hp
  have hq : parseArgs env tests env.args {} = .ok (.stop 0 helpText (pre.foldl (setOption env) {}).output) := hp
  exact ⟨(pre.foldl (setOption env) {}).output, by rw [utest_main, hq]; rfl⟩

/-- `--list-tests` prints the names of the tests, one per line, and runs none. -/
theorem main_list {W : Type} {env : Env} {tests : List (Test W)} {w : W} {pre post : List Str} {a : Str} (he : env.args = pre ++ a :: post)
    (hs : ∀ a ∈ env.args, IsString a) (hr : RunsTests pre) (ha : Is "--list-tests" a = true) :
    ∃ file, utest_main env tests w = .ok (.exits 0 (tests.flatMap fun t => t.name ++ "\n".toList) file w) := by
  have hp := parse_append (env := env) (tests := tests) pre (a :: post) {} (fun b hb => hs b (by rw [he]; simp [hb])) hr
  have h := hs a (by rw [he]; simp)
  rw [← he] at hp
  rw [parseArgs, isOption_spec "--help" h (by decide), isOption_spec "--filter=" h (by decide), isOption_spec "--output=" h (by decide),
    isOption_spec "--list-tests" h (by decide), ha, is_not (o' := "--help") ha (by decide), is_not (o' := "--filter=") ha (by decide),
    is_not (o' := "--output=") ha (by decide)] at hp
  have hq : parseArgs env tests env.args {} = .ok (.stop 0 (tests.flatMap fun t => t.name ++ ['\n'])
      ((pre.foldl (setOption env) {}).output.map (· ++ tests.flatMap fun t => t.name ++ ['\n']))) := hp
  exact ⟨_, by rw [utest_main, hq]; rfl⟩

/-! ### The time of a test -/

theorem units_spec (ns : Int) : (∃ s, Shown true ns s ∧ showTime true ns = .ok s) ∧ ns < 10000 * 1000 ^ 3 ∨
    showTime true ns = .ub .outOfBounds ∧ 10000 * 1000 ^ 3 ≤ ns := by
  by_cases h0 : ns < 10000
  · left; refine ⟨⟨_, .ns ns h0, ?_⟩, by omega⟩
    simp [showTime, units, h0, num]
  · have n0 : 0 ≤ ns := by omega
    have e1 : ns.tdiv 1000 = ns / 1000 := Int.tdiv_eq_ediv_of_nonneg n0
    by_cases h1 : ns < 10000 * 1000
    · left; refine ⟨⟨_, .us ns (by omega) h1, ?_⟩, by omega⟩
      have : ns / 1000 < 10000 := by omega
      simp [showTime, units, h0, num, e1, this]
    · have g1 : ¬ ns / 1000 < 10000 := by omega
      have e2 : (ns / 1000).tdiv 1000 = ns / 1000 ^ 2 := by
        rw [Int.tdiv_eq_ediv_of_nonneg (by omega)]; omega
      by_cases h2 : ns < 10000 * 1000 ^ 2
      · left; refine ⟨⟨_, .ms ns (by omega) h2, ?_⟩, by omega⟩
        have : ns / 1000 ^ 2 < 10000 := by omega
        simp only [showTime, units, e1, e2, if_true, gt_iff_lt, h0, g1, this, if_false, num]
      · have g2 : ¬ ns / 1000 ^ 2 < 10000 := by omega
        have e3 : (ns / 1000 ^ 2).tdiv 1000 = ns / 1000 ^ 3 := by
          rw [Int.tdiv_eq_ediv_of_nonneg (by omega)]; omega
        by_cases h3 : ns < 10000 * 1000 ^ 3
        · left; refine ⟨⟨_, .s ns (by omega) h3, ?_⟩, by omega⟩
          have : ns / 1000 ^ 3 < 10000 := by omega
          simp only [showTime, units, e1, e2, e3, if_true, gt_iff_lt, h0, g1, g2, this, if_false, num]
        · right
          have : ¬ ns / 1000 ^ 3 < 10000 := by omega
          refine ⟨?_, by omega⟩
          simp only [showTime, units, e1, e2, e3, if_true, gt_iff_lt, h0, g1, g2, this, if_false]

theorem showTime_ok {mixed : Bool} {ns : Int} (h : mixed = true → ns < 10000 * 1000 ^ 3) : ∃ s, Shown mixed ns s ∧ showTime mixed ns = .ok s := by
  cases mixed
  · exact ⟨_, .plain ns, rfl⟩
  · rcases units_spec ns with ⟨h', _⟩ | ⟨_, h'⟩
    · exact h'
    · exact absurd (h rfl) (by omega)

end Verif.Props
