import Verif.Props.UtestMain

/-!
C101: the verdict of a test says whether its checks held.
-/

namespace Verif.Props
open Utest SpecUtest

/-- Every test has an execution. -/
theorem exec_total {W : Type} (body : List (Stmt W)) : ∀ w, ∃ cs h w', Exec body w cs h w' := by
  induction body with
  | nil => intro w; exact ⟨_, _, _, .nil w⟩
  | cons s rest ih =>
    intro w
    cases s with
    | check fatal want place x =>
      by_cases hx : (x w).2 = want
      · obtain ⟨cs, h, w', e⟩ := ih (x w).1
        exact ⟨_, _, _, .holds hx e⟩
      · cases fatal with
        | true => exact ⟨_, _, _, .asserts hx⟩
        | false =>
          obtain ⟨cs, h, w', e⟩ := ih (x (x w).1).1
          exact ⟨_, _, _, .fails hx e⟩
    | compare fatal place m x =>
      cases hx : (x w).2 with
      | true =>
        obtain ⟨cs, h, w', e⟩ := ih (x w).1
        exact ⟨_, _, _, .compares hx e⟩
      | false =>
        cases fatal with
        | true => exact ⟨_, _, _, .rejects hx⟩
        | false =>
          obtain ⟨cs, h, w', e⟩ := ih (x w).1
          exact ⟨_, _, _, .differs hx e⟩
    | skip msg => exact ⟨_, _, _, .skip⟩
    | code f =>
      cases hx : (f w).2 with
      | none =>
        obtain ⟨cs, h, w', e⟩ := ih (f w).1
        exact ⟨_, _, _, .code hx e⟩
      | some what => exact ⟨_, _, _, .throw hx⟩

/-- The value of `*utest_result` after an execution that began with the value `r`. -/
def resultAfter (r : Int) (cs : List Checked) : Int := if cs.all (·.holds) then r else 1

/-- The end of the function of a test. -/
def endOf {W : Type} (h : How) (r : Int) (text : Str) (w : W) : Ended W :=
  match h with
  | .threw what => .throws what text w
  | .skipped => .returns 2 text w
  | _ => .returns r text w

theorem result_cons (r : Int) (p : Str) (cs : List Checked) : resultAfter r (⟨true, p⟩ :: cs) = resultAfter r cs := by
  simp [resultAfter]

theorem result_fail (r : Int) (p : Str) (cs : List Checked) : resultAfter 1 cs = resultAfter r (⟨false, p⟩ :: cs) := by
  simp [resultAfter]

theorem assoc_message (t p f m r : Str) : t ++ p ++ f ++ m ++ r = t ++ (p ++ f ++ m ++ r) := by simp only [List.append_assoc]
theorem assoc_last (t p f m : Str) : t ++ p ++ f ++ m = t ++ (p ++ f ++ m) := by simp only [List.append_assoc]

theorem assoc_fail (p a b c d e f g : Str) (h : a = b ++ c) : p ++ a ++ d ++ e ++ f ++ g = p ++ b ++ (c ++ d ++ e ++ f ++ g) := by
  subst h; simp only [List.append_assoc]

theorem failText_eq (place : Str) (want actual : Bool) : failText place want actual = place ++ ": Failure\n".toList ++
    ("  Expected : ".toList ++ (toString want).toList ++ "\n    Actual : ".toList ++ (toString actual).toList ++ ['\n']) := by
  unfold failText
  exact assoc_fail _ _ _ _ _ _ _ _ (by decide)

/-- What the statements come to. -/
theorem runStmts_spec {W : Type} {body : List (Stmt W)} {w w' : W} {cs : List Checked} {h : How} (he : Exec body w cs h w') :
    ∀ r text, ∃ s more, Messages cs s more ∧ (h ≠ .skipped → s = []) ∧ 
      runStmts body r text w = endOf h (resultAfter r cs) (text ++ more) w' := by
  induction he with
  | nil w => intro r text; exact ⟨[], [], .nil _, fun _ => rfl, by simp [runStmts, resultAfter, endOf]⟩
  | @holds fatal want place x rest w w' cs h hx _ ih =>
    intro r text
    obtain ⟨s, more, h1, h2, h3⟩ := ih r text
    refine ⟨s, more, .holds h1, h2, ?_⟩
    rw [runStmts, result_cons]
    simp only [hx, if_true]
    exact h3
  | @fails want place x rest w w' cs h hx _ ih =>
    intro r text
    obtain ⟨s, more, h1, h2, h3⟩ := ih 1 (text ++ failText place want (x (x w).1).2)
    refine ⟨s, _, .fails ("  Expected : ".toList ++ (toString want).toList ++ "\n    Actual : ".toList ++
      (toString (x (x w).1).2).toList ++ ['\n']) h1, h2, ?_⟩
    rw [runStmts, ← result_fail r]
    simp only [hx, if_false, Bool.false_eq_true]
    rw [h3, failText_eq, List.append_assoc text]
  | @asserts want place x rest w hx =>
    intro r text
    refine ⟨[], _, .fails ("  Expected : ".toList ++ (toString want).toList ++ "\n    Actual : ".toList ++
      (toString (x (x w).1).2).toList ++ ['\n']) (.nil []), fun _ => rfl, ?_⟩
    rw [runStmts, ← result_fail r]
    simp only [hx, if_false, if_true]
    rw [failText_eq, List.append_nil]
    rfl
  | @compares fatal place m x rest w w' cs h hx _ ih =>
    intro r text
    obtain ⟨s, more, h1, h2, h3⟩ := ih r text
    refine ⟨s, more, .holds h1, h2, ?_⟩
    rw [runStmts, result_cons]
    simp only [hx, if_true]
    exact h3
  | @differs place m x rest w w' cs h hx _ ih =>
    intro r text
    obtain ⟨s, more, h1, h2, h3⟩ := ih 1 (text ++ place ++ ": Failure\n".toList ++ m (x w).1)
    refine ⟨s, _, .fails (m (x w).1) h1, h2, ?_⟩
    rw [runStmts, ← result_fail r]
    simp only [hx, if_false, Bool.false_eq_true]
    rw [h3, assoc_message]
  | @rejects place m x rest w hx =>
    intro r text
    refine ⟨[], _, .fails (m (x w).1) (.nil []), fun _ => rfl, ?_⟩
    rw [runStmts, ← result_fail r]
    simp only [hx, if_false, if_true, Bool.false_eq_true]
    rw [List.append_nil, assoc_last]
    rfl
  | @skip msg rest w =>
    intro r text
    refine ⟨_, _, .nil ("   Skipped : '".toList ++ msg ++ "'\n".toList), fun h => absurd rfl h, ?_⟩
    rw [runStmts, assoc_last]
    rfl
  | @code f rest w w' cs h hx _ ih =>
    intro r text
    obtain ⟨s, more, h1, h2, h3⟩ := ih r text
    refine ⟨s, more, h1, h2, ?_⟩
    rw [runStmts, ← h3]
    rcases hf : f w with ⟨w1, e⟩
    rw [hf] at hx
    simp only at hx
    subst hx
    rfl
  | @throw f rest w what hx =>
    intro r text
    refine ⟨[], [], .nil [], fun _ => rfl, ?_⟩
    rw [runStmts, List.append_nil]
    rcases hf : f w with ⟨w1, e⟩
    rw [hf] at hx
    simp only at hx
    subst hx
    rfl

theorem all_hold {cs : List Checked} : cs.all (·.holds) = true ↔ AllHold cs := by
  simp [AllHold]

theorem messages_hold {cs : List Checked} {s text : Str} (h : Messages cs s text) (ha : AllHold cs) : text = s := by
  induction h with
  | nil => rfl
  | holds _ ih => exact ih fun c hc => ha c (by simp [hc])
  | fails => exact absurd (ha _ (List.mem_cons_self ..)) (by simp)

theorem asserted_fails {W : Type} {body : List (Stmt W)} {w w' : W} {cs : List Checked} (h : Exec body w cs .asserted w') : ¬ AllHold cs := by
  generalize hh : How.asserted = k at h
  induction h with
  | nil => cases hh
  | holds _ _ ih => exact fun ha => ih hh fun c hc => ha c (by simp [hc])
  | fails => exact fun ha => absurd (ha _ (List.mem_cons_self ..)) (by simp)
  | asserts => exact fun ha => absurd (ha _ (List.mem_cons_self ..)) (by simp)
  | compares _ _ ih => exact fun ha => ih hh fun c hc => ha c (by simp [hc])
  | differs => exact fun ha => absurd (ha _ (List.mem_cons_self ..)) (by simp)
  | rejects => exact fun ha => absurd (ha _ (List.mem_cons_self ..)) (by simp)
  | skip => cases hh
  | code _ _ ih => exact ih hh
  | throw => cases hh

/-- A test all of whose checks hold passes, and prints nothing. -/
theorem test_passes {W : Type} {body : List (Stmt W)} {w w' : W} {cs : List Checked} (h : Exec body w cs .finished w') (ha : AllHold cs)
    (i : Nat) : utest body i w = .returns 0 [] w' := by
  obtain ⟨s, more, h1, h2, h3⟩ := runStmts_spec h 0 []
  rw [utest, h3, messages_hold h1 ha, h2 (by simp), resultAfter, if_pos (all_hold.mpr ha)]
  rfl

/-- A test with a check that fails, and that is not skipped after it, is reported as failed, with a message for each failed check, whether
it goes to its end, stops at the check or throws an exception.  Missing: a test that is skipped after it. -/
theorem test_fails_partial {W : Type} {body : List (Stmt W)} {w w' : W} {cs : List Checked} {h : How} (he : Exec body w cs h w')
    (ha : ¬ AllHold cs) (hs : h ≠ .skipped) (i : Nat) : ∃ text exc, Finish (utest body i w) .failed text exc w' ∧ Messages cs [] text := by
  obtain ⟨s, more, h1, h2, h3⟩ := runStmts_spec he 0 []
  have hr : resultAfter 0 cs = 1 := by rw [resultAfter, if_neg (fun e => ha (all_hold.mp e))]
  rw [h2 hs] at h1
  rw [utest, h3, hr, List.nil_append]
  cases h with
  | finished => exact ⟨more, _, .failed more w', h1⟩
  | asserted => exact ⟨more, _, .failed more w', h1⟩
  | skipped => exact absurd rfl hs
  | threw what =>
    cases what with
    | none => exact ⟨more, _, .unknown more w', h1⟩
    | some what => exact ⟨more, _, .exception what more w', h1⟩

/-- A test that reaches `UTEST_SKIP` is reported as skipped. -/
theorem test_skips {W : Type} {body : List (Stmt W)} {w w' : W} {cs : List Checked} (he : Exec body w cs .skipped w') (i : Nat) :
    ∃ text, Finish (utest body i w) .skipped text [] w' := by
  obtain ⟨s, more, _, _, h3⟩ := runStmts_spec he 0 []
  rw [utest, h3]
  exact ⟨_, .skipped _ w'⟩

/-- A test that throws an exception is reported as failed. -/
theorem test_throws {W : Type} {body : List (Stmt W)} {w w' : W} {cs : List Checked} {what : Option Str} (he : Exec body w cs (.threw what) w')
    (i : Nat) : ∃ text exc, Finish (utest body i w) .failed text exc w' := by
  obtain ⟨s, more, _, _, h3⟩ := runStmts_spec he 0 []
  rw [utest, h3]
  cases what with
  | none => exact ⟨_, _, .unknown _ w'⟩
  | some what => exact ⟨_, _, .exception what _ w'⟩

/-- **C101.** A test passes exactly if it goes to its end and every check on the way holds. -/
theorem test_passes_iff {W : Type} (body : List (Stmt W)) (i : Nat) (w : W) :
    (∃ text exc w', Finish (utest body i w) .passed text exc w') ↔ ∃ cs w', Exec body w cs .finished w' ∧ AllHold cs := by
  constructor
  · rintro ⟨text, exc, w', hf⟩
    obtain ⟨cs, h, w1, he⟩ := exec_total body w
    by_cases ha : AllHold cs
    · cases h with
      | finished => exact ⟨cs, w1, he, ha⟩
      | asserted => exact absurd ha (asserted_fails he)
      | skipped =>
        obtain ⟨_, h⟩ := test_skips he i
        exact absurd (finish_unique hf h).1 (by simp)
      | threw =>
        obtain ⟨_, _, h⟩ := test_throws he i
        exact absurd (finish_unique hf h).1 (by simp)
    · by_cases hs : h = .skipped
      · subst hs
        obtain ⟨_, h⟩ := test_skips he i
        exact absurd (finish_unique hf h).1 (by simp)
      · obtain ⟨_, _, h, _⟩ := test_fails_partial he ha hs i
        exact absurd (finish_unique hf h).1 (by simp)
  · rintro ⟨cs, w', he, ha⟩
    rw [test_passes he ha i]
    exact ⟨_, _, _, .passed 0 [] w' (by decide) (by decide)⟩

/-- A check that fails before `UTEST_SKIP` is forgotten: the test is skipped, and the program may report success. -/
theorem skip_hides_wrong {W : Type} {place msg : Str} {x : W → W × Bool} {w : W} (hx : (x w).2 = false) (i : Nat) :
    ∃ text w', Exec [.check false true place x, .skip msg] w [⟨false, place⟩] .skipped w' ∧
      Finish (utest [.check false true place x, .skip msg] i w) .skipped text [] w' := by
  have he : Exec [.check false true place x, .skip msg] w [⟨false, place⟩] .skipped (x (x w).1).1 :=
    .fails (by simp [hx]) .skip
  obtain ⟨text, h⟩ := test_skips he i
  exact ⟨text, _, he, h⟩

/-- `EXPECT_TRUE` of an expression that counts its evaluations: if it fails, it is evaluated twice, and the message may say that the value was
the expected one. -/
theorem check_twice_wrong (place : Str) : runStmts [.check false true place fun n : Nat => (n + 1, n % 2 == 1)] 0 [] 0 =
    .returns 1 (failText place true true) 2 := rfl

/-- A check that holds evaluates its expression once. -/
theorem check_once {W : Type} {fatal want : Bool} {place : Str} {x : W → W × Bool} {rest : List (Stmt W)} {r : Int} {text : Str} {w : W}
    (h : (x w).2 = want) : runStmts (.check fatal want place x :: rest) r text w = runStmts rest r text (x w).1 := by
  rw [runStmts]
  simp only [h, if_true]

/-! ### Fixtures -/

/-- If a check of the set-up fails or it skips the test, the body and the tear-down are not run. -/
theorem fixture_setup {W : Type} {setup : Nat → List (Stmt W)} {body : List (Stmt W)} {teardown : Nat → List (Stmt W)} {i : Nat} {w w' : W}
    {cs : List Checked} {h : How} (he : Exec (setup i) w cs h w') (hn : ¬ AllHold cs ∨ h ≠ .finished) :
    utestFixture setup body teardown i w = utest (setup i) i w ∧ ∃ v text exc, v ≠ .passed ∧ Finish (utest (setup i) i w) v text exc w' := by
  obtain ⟨s, more, h1, h2, h3⟩ := runStmts_spec he 0 []
  unfold utestFixture utest
  rw [h3]
  have hr : ¬ AllHold cs → resultAfter 0 cs = 1 := fun ha => by rw [resultAfter, if_neg (fun e => ha (all_hold.mp e))]
  cases h with
  | finished =>
    rw [hr (hn.resolve_right (by simp))]
    exact ⟨by simp [endOf], .failed, _, _, by simp, .failed _ w'⟩
  | asserted =>
    rw [hr (asserted_fails he)]
    exact ⟨by simp [endOf], .failed, _, _, by simp, .failed _ w'⟩
  | skipped => exact ⟨by simp [endOf], .skipped, _, _, by simp, .skipped _ w'⟩
  | threw what =>
    cases what with
    | none => exact ⟨by simp [endOf], .failed, _, _, by simp, .unknown _ w'⟩
    | some what => exact ⟨by simp [endOf], .failed, _, _, by simp, .exception what _ w'⟩

/-- After a set-up without a failure, the body is run, and the tear-down after it in the state it left, also if a check of the body failed or
it skipped the test.  The test passes exactly if every check of the three held and none of them skipped it, and the messages of the body and
then of the tear-down are printed. -/
theorem fixture_body {W : Type} {setup : Nat → List (Stmt W)} {body : List (Stmt W)} {teardown : Nat → List (Stmt W)} {i : Nat}
    {w w1 w2 w3 : W} {cs1 cs2 cs3 : List Checked} {h2 h3 : How} (e1 : Exec (setup i) w cs1 .finished w1) (a1 : AllHold cs1)
    (e2 : Exec body w1 cs2 h2 w2) (n2 : ∀ what, h2 ≠ .threw what) (e3 : Exec (teardown i) w2 cs3 h3 w3) :
    ∃ v text exc, Finish (utestFixture setup body teardown i w) v text exc w3 ∧
      (v = .passed ↔ AllHold cs2 ∧ AllHold cs3 ∧ h2 = .finished ∧ h3 = .finished) ∧
      ∃ s2 m2 s3 m3, Messages cs2 s2 m2 ∧ Messages cs3 s3 m3 ∧ text = m2 ++ m3 := by
  have f1 : runStmts (setup i) 0 [] w = .returns 0 [] w1 := test_passes e1 a1 i
  obtain ⟨s2, m2, M2, _, f2⟩ := runStmts_spec e2 0 []
  unfold utestFixture
  rw [f1]
  simp only [ne_eq, not_true_eq_false, if_false]
  rw [f2]
  have hr : ∀ (r : Int) (cs : List Checked), ¬ AllHold cs → resultAfter r cs = 1 := fun r cs ha => by
    rw [resultAfter, if_neg (fun e => ha (all_hold.mp e))]
  have hp : ∀ (r : Int) (cs : List Checked), AllHold cs → resultAfter r cs = r := fun r cs ha => by
    rw [resultAfter, if_pos (all_hold.mpr ha)]
  -- the tear-down, after a result `r`
  have last : ∀ (r : Int) (text : Str), r = 0 ∨ r = 1 ∨ r = 2 → ∃ v text' exc, Finish (runStmts (teardown i) r text w2) v text' exc w3 ∧
      (v = .passed ↔ r = 0 ∧ AllHold cs3 ∧ h3 = .finished) ∧ ∃ s3 m3, Messages cs3 s3 m3 ∧ text' = text ++ m3 := by
    intro r text hr'
    obtain ⟨s3, m3, M3, _, f3⟩ := runStmts_spec e3 r text
    rw [f3]
    have fin : h3 = .finished ∨ h3 = .asserted → ∃ v text' exc, Finish (endOf h3 (resultAfter r cs3) (text ++ m3) w3) v text' exc w3 ∧
        (v = .passed ↔ r = 0 ∧ AllHold cs3 ∧ h3 = .finished) ∧ ∃ s3 m3, Messages cs3 s3 m3 ∧ text' = text ++ m3 := by
      intro hh
      have he : endOf h3 (resultAfter r cs3) (text ++ m3) w3 = .returns (resultAfter r cs3) (text ++ m3) w3 := by
        rcases hh with rfl | rfl <;> rfl
      rw [he]
      by_cases ha : AllHold cs3
      · have hf : h3 = .finished := hh.resolve_right fun e => asserted_fails (e ▸ e3) ha
        rw [hp r cs3 ha]
        rcases hr' with rfl | rfl | rfl
        · exact ⟨.passed, _, _, .passed 0 _ _ (by decide) (by decide), by simp [ha, hf], _, _, M3, rfl⟩
        · exact ⟨.failed, _, _, .failed _ _, by simp, _, _, M3, rfl⟩
        · exact ⟨.skipped, _, _, .skipped _ _, by simp, _, _, M3, rfl⟩
      · rw [hr r cs3 ha]
        exact ⟨.failed, _, _, .failed _ _, by simp [ha], _, _, M3, rfl⟩
    cases h3 with
    | finished => exact fin (.inl rfl)
    | asserted => exact fin (.inr rfl)
    | skipped => exact ⟨.skipped, _, _, .skipped _ _, by simp, _, _, M3, rfl⟩
    | threw what =>
      cases what with
      | none => exact ⟨.failed, _, _, .unknown _ _, by simp, _, _, M3, rfl⟩
      | some what => exact ⟨.failed, _, _, .exception what _ _, by simp, _, _, M3, rfl⟩
  cases h2 with
  | threw what => exact absurd rfl (n2 what)
  | skipped =>
    obtain ⟨v, t, e, hf, hv, s3, m3, M3, ht⟩ := last 2 ([] ++ m2) (by simp)
    exact ⟨v, t, e, hf, by rw [hv]; simp, s2, m2, s3, m3, M2, M3, by rw [ht, List.nil_append]⟩
  | asserted =>
    have ha := asserted_fails e2
    obtain ⟨v, t, e, hf, hv, s3, m3, M3, ht⟩ := last 1 ([] ++ m2) (by simp)
    rw [hr 0 cs2 ha]
    exact ⟨v, t, e, hf, by rw [hv]; simp, s2, m2, s3, m3, M2, M3, by rw [ht, List.nil_append]⟩
  | finished =>
    by_cases ha : AllHold cs2
    · obtain ⟨v, t, e, hf, hv, s3, m3, M3, ht⟩ := last 0 ([] ++ m2) (by simp)
      rw [hp 0 cs2 ha]
      exact ⟨v, t, e, hf, by rw [hv]; simp [ha], s2, m2, s3, m3, M2, M3, by rw [ht, List.nil_append]⟩
    · obtain ⟨v, t, e, hf, hv, s3, m3, M3, ht⟩ := last 1 ([] ++ m2) (by simp)
      rw [hr 0 cs2 ha]
      exact ⟨v, t, e, hf, by rw [hv]; simp [ha], s2, m2, s3, m3, M2, M3, by rw [ht, List.nil_append]⟩

/-- If the body throws an exception, the tear-down is not run. -/
theorem fixture_throw_wrong {W : Type} {setup : Nat → List (Stmt W)} {body : List (Stmt W)} {teardown : Nat → List (Stmt W)} {i : Nat}
    {w w1 w2 : W} {cs1 cs2 : List Checked} {what : Option Str} (e1 : Exec (setup i) w cs1 .finished w1) (a1 : AllHold cs1)
    (e2 : Exec body w1 cs2 (.threw what) w2) : ∃ text exc, Finish (utestFixture setup body teardown i w) .failed text exc w2 := by
  have f1 : runStmts (setup i) 0 [] w = .returns 0 [] w1 := test_passes e1 a1 i
  obtain ⟨s2, m2, _, _, f2⟩ := runStmts_spec e2 0 []
  unfold utestFixture
  rw [f1]
  simp only [ne_eq, not_true_eq_false, if_false]
  rw [f2]
  cases what with
  | none => exact ⟨_, _, .unknown _ _⟩
  | some what => exact ⟨_, _, .exception what _ _⟩

/-! ### Registration -/

theorem register_eq {W : Type} (part : Str) (func : Nat → W → Ended W) (tests : List (Test W)) :
    register part func tests = tests ++ [⟨func, some 0, part⟩] := by
  simp [register, snprintf]

theorem num_length {i : Nat} (h : i < 2 ^ 64) : (num i).length ≤ 20 := by
  rw [num_nat]
  have : (Nat.repr i).toList.length ≤ 20 := by
    rw [Nat.toList_repr, Nat.length_toDigits_le_iff (by decide) (by decide)]
    omega
  exact this

theorem num_inj {i j : Nat} (h : num i = num j) : i = j := by
  rw [num_nat, num_nat] at h
  have h : (Nat.repr i).toList = (Nat.repr j).toList := h
  rw [Nat.toList_repr, Nat.toList_repr] at h
  have := congrArg (fun l => Nat.ofDigitChars 10 l 0) h
  simpa [Nat.ofDigitChars_ten_toDigits] using this

/-- `UTEST_I` registers one test for each index below the bound, in order, with the index after the name; no name is cut off. -/
theorem registerI_eq {W : Type} (part : Str) (func : Nat → W → Ended W) {n : Nat} (hn : n ≤ 2 ^ 64) (tests : List (Test W)) :
    registerI part func n tests = tests ++ (List.range n).map fun i => ⟨func, some i, part ++ ['/'] ++ (toString i).toList⟩ := by
  unfold registerI
  induction n with
  | zero => simp
  | succ n ih =>
    rw [List.range_succ, List.foldl_append, ih (by omega), List.map_append, ← List.append_assoc]
    simp only [List.foldl_cons, List.foldl_nil, List.map_cons, List.map_nil]
    have : snprintf (part.length + 32) (part ++ ['/'] ++ num n) = part ++ ['/'] ++ num n := by
      unfold snprintf
      apply List.take_of_length_le
      have := num_length (i := n) (by omega)
      simp only [List.length_append, List.length_cons, List.length_nil]
      omega
    rw [this]
    rfl

/-- The names that `UTEST_I` registers are different. -/
theorem registerI_distinct {W : Type} (part : Str) (func : Nat → W → Ended W) {n : Nat} (hn : n ≤ 2 ^ 64) :
    ((registerI part func n []).map (·.name)).Nodup := by
  rw [registerI_eq part func hn, List.nil_append, List.map_map]
  refine List.Nodup.map ?_ List.nodup_range
  intro i j h
  simp only [Function.comp_apply, List.append_cancel_left_eq] at h
  exact num_inj h

/-- A test of `UTEST_F` is called with an index that was never set: running it is undefined behaviour. -/
theorem fixture_index_wrong {W : Type} {env : Env} {o : Opts} {r : Run W} (part : Str) (func : Nat → W → Ended W) (tests : List (Test W))
    (hk : utest_should_filter_test o.filter part = .ok 0) :
    runIndex env o (registerF part func tests) tests.length r = .ub .indeterminateRead := by
  have : (registerF part func tests)[tests.length]? = some ⟨func, none, part⟩ := by simp [registerF, snprintf]
  unfold runIndex
  simp only [this, hk, bind, C.bind', call]
  rw [if_neg (by simp)]

/-! ### Examples -/

/-- A test of a program whose state is a number: the number is 3, it is even, and it is increased. -/
def someBody : List (Stmt Nat) :=
  [.check false true "t.cpp:1".toList fun n => (n, n == 3), .check false true "t.cpp:2".toList fun n => (n, n % 2 == 0),
    .code fun n => (n + 1, none)]

/-- It fails when the number is 3: the first check holds, the second does not, and the test goes on. -/
theorem someBody_exec : Exec someBody 3 [⟨true, "t.cpp:1".toList⟩, ⟨false, "t.cpp:2".toList⟩] .finished 4 :=
  .holds rfl (.fails (by decide) (.code rfl (.nil 4)))

example : ∃ text exc, Finish (utest someBody 0 3) .failed text exc 4 ∧
    Messages [⟨true, "t.cpp:1".toList⟩, ⟨false, "t.cpp:2".toList⟩] [] text :=
  test_fails_partial someBody_exec (by simp [AllHold]) (by simp) 0

/-- With only its first check it passes. -/
example : utest [.check true true "t.cpp:1".toList fun n : Nat => (n, n == 3), .code fun n => (n + 1, none)] 0 3 = .returns 0 [] 4 := by
  have h : Exec [.check true true "t.cpp:1".toList fun n : Nat => (n, n == 3), .code fun n => (n + 1, none)] 3 [⟨true, "t.cpp:1".toList⟩]
      .finished 4 := .holds rfl (.code rfl (.nil 4))
  exact test_passes h (by simp [AllHold]) 0

/-- A test that skips and one that throws. -/
example : ∃ text, Finish (utest [.skip "later".toList, .code fun n : Nat => (n + 1, none)] 0 3) .skipped text [] 3 :=
  test_skips (cs := []) .skip 0
example : ∃ text exc, Finish (utest [.code fun n : Nat => (n + 1, some none)] 0 3) .failed text exc 4 := test_throws (cs := []) (.throw rfl) 0

/-- With a fixture whose set-up sets the number to the index and whose tear-down sets it to 0. -/
example : ∃ v text exc, Finish (utestFixture (fun i => [.code fun _ => (i, none)]) someBody (fun _ => [.code fun _ => (0, none)]) 3 17) v text exc 0 ∧
    v ≠ .passed := by
  obtain ⟨v, text, exc, h1, h2, _⟩ := fixture_body (setup := fun i => [.code fun _ => (i, none)]) (body := someBody)
    (teardown := fun _ => [.code fun _ => (0, none)]) (i := 3) (w := 17) (cs1 := []) (cs2 := [⟨true, "t.cpp:1".toList⟩, ⟨false, "t.cpp:2".toList⟩])
    (cs3 := []) (.code rfl (.nil 3)) (by simp [AllHold]) (.holds rfl (.fails (by decide) (.code rfl (.nil 4)))) (by simp) (.code rfl (.nil 0))
  refine ⟨v, text, exc, h1, ?_⟩
  rw [Ne, h2]
  simp [AllHold]

/-- A set-up with a failed check. -/
example : utestFixture (fun _ => [.check false true "f.cpp:1".toList fun n : Nat => (n, n == 1)]) someBody (fun _ => []) 0 3 =
    utest [.check false true "f.cpp:1".toList fun n : Nat => (n, n == 1)] 0 3 :=
  (fixture_setup (cs := [⟨false, "f.cpp:1".toList⟩]) (h := .finished) (.fails (by decide) (.nil 3)) (.inl (by simp [AllHold]))).1

/-- Three instances of an indexed test. -/
example (func : Nat → Nat → Ended Nat) : (registerI "s.t".toList func 3 []).map (·.name) = ["s.t/0".toList, "s.t/1".toList, "s.t/2".toList] := by
  rw [registerI_eq _ _ (by decide)]
  rfl

end Verif.Props
