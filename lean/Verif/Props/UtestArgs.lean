import Verif.Model.UtestArgs
import Verif.Props.UtestText
import Verif.Props.UtestCompare
import Verif.Props.UtestNear

/-!
C105: how often the checks of the test runner evaluate their arguments, and what they judge when an evaluation changes the state of the program.
-/

namespace Verif.Props
open Utest SpecUtest Spec SpecNumeral

/-- The expression, with a record of its evaluations: it appends `i` to a list. -/
def recorded {W α : Type} (i : Nat) (x : Expr W α) : Expr (W × List Nat) α := fun s => (((x s.1).1, s.2 ++ [i]), (x s.1).2)

/-! ## Comparisons: once -/

/-- `EXPECT_EQ` and the like evaluate each argument once, the first one first, and compare the values of these evaluations. -/
theorem compare_once {W : Type} {file : Bool} {c : Cond} {xt yt : Str} {x y : Expr W Val} {w w' : W} {l : List Nat} {m : Option Texts}
    (h : compareE file c xt yt (recorded 0 x) (recorded 1 y) (w, []) = .ok ((w', l), m)) :
    l = [0, 1] ∧ (m = none ↔ c.holds (x w).2 (y (x w).1).2 = true) := by
  unfold compareE COMPARE recorded at h
  dsimp only at h
  by_cases hc : c.holds (x w).2 (y (x w).1).2 = true
  · rw [if_pos hc] at h
    cases h
    exact ⟨rfl, by simp [hc]⟩
  · rw [if_neg hc] at h
    revert h
    cases compareText xt c.text yt (utest_type_printer (x w).2) (utest_type_printer (y (x w).1).2) with
    | ok t => intro h; cases h; exact ⟨rfl, by simp [hc]⟩
    | _ => intro h; cases h

/-! ## Truth values: once, and again for each message -/

/-- `EXPECT_TRUE` and `EXPECT_FALSE` judge the first evaluation of the argument.  A check that passes evaluates it once; one that fails evaluates it
again for standard output, and once more for the file. -/
theorem truth_evals {W : Type} {file want : Bool} {x : Expr W Bool} {w w' : W} {l : List Nat} {m : Option Texts}
    (h : truthE file want (recorded 0 x) (w, []) = .ok ((w', l), m)) :
    (m = none ↔ (x w).2 = want) ∧ l = List.replicate (if (x w).2 = want then 1 else if file then 3 else 2) 0 := by
  unfold truthE printE recorded at h
  dsimp only at h
  by_cases hc : (x w).2 = want
  · rw [if_pos hc] at h
    cases h
    exact ⟨by simp [hc], by rw [if_pos hc]; rfl⟩
  · rw [if_neg hc] at h
    cases file <;> cases h <;> exact ⟨by simp [hc], by rw [if_neg hc]; rfl⟩

/-- Without a file the statements of a test run as `runStmts` says. -/
theorem truth_agrees {W : Type} (fatal want : Bool) (place : Str) (x : Expr W Bool) (rest : List (Stmt W)) (r : Int) (text : Str) (w : W) :
    ∃ w' m, truthE false want x w = .ok (w', m) ∧
      runStmts (.check fatal want place x :: rest) r text w =
        match m with
        | none => runStmts rest r text w'
        | some t =>
          if fatal then .returns 1 (text ++ (place ++ ": Failure\n".toList ++ t.out)) w'
          else runStmts rest 1 (text ++ (place ++ ": Failure\n".toList ++ t.out)) w' := by
  have hf : ∀ b : Bool, failText place want b = place ++ ": Failure\n".toList ++
      (("  Expected : ".toList ++ (toString want).toList ++ ['\n']) ++ ("    Actual : ".toList ++ (toString b).toList ++ ['\n'])) := by
    intro b
    unfold failText
    rw [show ": Failure\n  Expected : ".toList = ": Failure\n".toList ++ "  Expected : ".toList from rfl,
      show "\n    Actual : ".toList = ['\n'] ++ "    Actual : ".toList from rfl]
    simp only [List.append_assoc]
  by_cases hc : (x w).2 = want
  · refine ⟨(x w).1, none, ?_, ?_⟩
    · unfold truthE; dsimp only; rw [if_pos hc]
    · rw [runStmts]; dsimp only; rw [if_pos hc]
  · refine ⟨(x (x w).1).1, some ((printed false ("  Expected : ".toList ++ (toString want).toList ++ ['\n'])).append
      ⟨[], "    Actual : ".toList ++ (toString (x (x w).1).2).toList ++ ['\n']⟩), ?_, ?_⟩
    · unfold truthE; dsimp only; rw [if_neg hc]; rfl
    · rw [runStmts]; dsimp only; rw [if_neg hc, hf]; rfl

/-- The file and standard output can contradict each other: an argument that is false, then true, then false. -/
theorem truth_texts_wrong : ∃ (x : Expr Nat Bool) (w : Nat) (t : Texts), truthE true true x 0 = .ok (w, some t) ∧
    t.file = "  Expected : true\n    Actual : true\n".toList ∧ t.out = "  Expected : true\n    Actual : false\n".toList :=
  ⟨fun n => (n + 1, n == 1), 3, _, rfl, rfl, rfl⟩

/-! ## Strings: twice, and again for each message -/

theorem both_recorded {W α β : Type} (flip : Bool) (x : Expr W α) (y : Expr W β) (w : W) (l : List Nat) :
    both flip (recorded 0 x) (recorded 1 y) (w, l) =
      (((both flip x y w).1, l ++ if flip then [1, 0] else [0, 1]), (both flip x y w).2) := by
  cases flip <;> simp [both, recorded]

theorem of_bind {α β : Type} {x : C α} {f : α → C β} {r : β} (h : (x >>= f) = .ok r) : ∃ a, x = .ok a ∧ f a = .ok r := by
  cases x with
  | ok a => exact ⟨a, rfl, h⟩
  | _ => cases h

theorem print_recorded {W α : Type} {file : Bool} {f : α → C Str} {i : Nat} {x : Expr W α} {w w' : W} {l l' : List Nat} {t : Texts}
    (h : printE file f (recorded i x) (w, l) = .ok ((w', l'), t)) : l' = l ++ if file then [i, i] else [i] := by
  unfold printE recorded at h
  cases file
  · rw [if_neg (by decide)] at h
    obtain ⟨s, -, h⟩ := of_bind h
    cases h; rfl
  · rw [if_pos rfl] at h
    obtain ⟨s, -, h⟩ := of_bind h
    obtain ⟨s, -, h⟩ := of_bind h
    cases h; simp

theorem fails_recorded {W : Type} {flip want : Bool} {cmp : Str → Str → C Int} {x y : Expr W (Option Str)} {w w' : W} {l l' : List Nat} {f : Bool}
    (h : strFailsE flip want cmp (recorded 0 x) (recorded 1 y) (w, l) = .ok ((w', l'), f)) :
    (f = true ∧ l' = l ++ [0]) ∨ (f = true ∧ l' = l ++ [0, 1]) ∨ l' = l ++ [0, 1] ++ if flip then [1, 0] else [0, 1] := by
  unfold strFailsE at h
  split at h
  rename_i w₁ a e₁
  cases e₁
  split at h
  · cases h; exact .inl ⟨rfl, rfl⟩
  · split at h
    rename_i w₂ b e₂
    cases e₂
    split at h
    · cases h; exact .inr (.inl ⟨rfl, by simp⟩)
    · rw [both_recorded] at h
      split at h
      · rename_i e₃
        obtain ⟨r, -, h⟩ := of_bind h
        cases h
        exact .inr (.inr (by simpa using (congrArg (fun p => p.1.2) e₃).symm))
      · cases h

/-- The check of two strings that passes has evaluated both arguments twice.  One that fails evaluates them up to twice and again for each message. -/
theorem str_evals {W : Type} {file flip want : Bool} {cmp : Str → Str → C Int} {sh : Option Str → C Str} {x y : Expr W (Option Str)}
    {w w' : W} {l : List Nat} {m : Option Texts}
    (h : strCheckE file flip want cmp sh (recorded 0 x) (recorded 1 y) (w, []) = .ok ((w', l), m)) :
    (m = none → l = if flip then [0, 1, 1, 0] else [0, 1, 0, 1]) ∧
    (m ≠ none → ∃ l₀, (l₀ = [0] ∨ l₀ = [0, 1] ∨ l₀ = if flip then [0, 1, 1, 0] else [0, 1, 0, 1]) ∧
      l = l₀ ++ if file then [0, 0, 1, 1] else [0, 1]) := by
  unfold strCheckE at h
  obtain ⟨⟨⟨w₁, l₁⟩, f⟩, hf, h⟩ := of_bind h
  have hl := fails_recorded hf
  have e : [] ++ [0, 1] ++ (if flip = true then [1, 0] else [0, 1]) = if flip = true then [0, 1, 1, 0] else [0, 1, 0, 1] := by
    cases flip <;> rfl
  rw [e] at hl
  dsimp only at h
  cases f with
  | false =>
    cases h
    refine ⟨fun _ => ?_, fun c => absurd rfl c⟩
    simpa using hl
  | true =>
    rw [if_pos rfl] at h
    obtain ⟨⟨⟨w₂, l₂⟩, s⟩, h₂, h⟩ := of_bind h
    obtain ⟨⟨⟨w₃, l₃⟩, t⟩, h₃, h⟩ := of_bind h
    cases h
    have h₂ := print_recorded h₂
    have h₃ := print_recorded h₃
    refine ⟨fun c => (by cases c), fun _ => ⟨l₁, ?_, ?_⟩⟩
    · simpa using hl
    · rw [h₃, h₂]; cases file <;> simp

theorem printed_append (file : Bool) (s t : Str) : (printed file s).append (printed file t) = printed file (s ++ t) := by
  cases file <;> rfl

/-- If the values of the arguments are the same at every evaluation, the check judges them and prints them as C102 says, to the file and to
standard output; how the evaluations change the state does not matter.  Missing: arguments whose value changes (`streq_effects_wrong`). -/
theorem str_effects_partial {W : Type} (file flip want : Bool) (cmp : Str → Str → C Int) (sh : Option Str → C Str) {x y : Expr W (Option Str)}
    {a b : Option Str} (hx : ∀ w, (x w).2 = a) (hy : ∀ w, (y w).2 = b) (w : W) :
    ∃ w', strCheckE file flip want cmp sh x y w = (do .ok (w', (← strCheck want cmp sh a b).map (printed file))) := by
  have hb : ∀ w, ∃ w', both flip x y w = (w', a, b) := by
    intro w
    cases flip <;> exact ⟨_, by simp [both, hx, hy]; rfl⟩
  have hp : ∀ (f : Option Str → C Str) (z : Expr W (Option Str)) (c : Option Str) (w : W), (∀ w, (z w).2 = c) →
      ∃ w', printE file f z w = (do .ok (w', printed file (← f c))) := by
    intro f z c w hz
    unfold printE printed
    cases file
    · exact ⟨(z w).1, by simp [hz]⟩
    · refine ⟨(z (z w).1).1, ?_⟩
      simp only [hz, if_true]
      cases f c <;> rfl
  have hs : ∃ w', strFailsE flip want cmp x y w = (do .ok (w', ← strFails want cmp a b)) := by
    unfold strFailsE strFails
    dsimp only
    rw [hx, hy]
    cases a with
    | none => exact ⟨_, rfl⟩
    | some a =>
      cases b with
      | none => exact ⟨_, rfl⟩
      | some b =>
        obtain ⟨w', h⟩ := hb (y (x w).1).1
        refine ⟨w', ?_⟩
        rw [if_neg (by simp), if_neg (by simp), h]
        dsimp only
        rw [bind_assoc]
        rfl
  obtain ⟨w₁, hs⟩ := hs
  obtain ⟨w₂, h₂⟩ := hp (fun a => do .ok ("  Expected : \"".toList ++ (← sh a) ++ "\"\n".toList)) x a w₁ hx
  obtain ⟨w₃, h₃⟩ := hp (fun b => do .ok ("    Actual : \"".toList ++ (← sh b) ++ "\"\n".toList)) y b w₂ hy
  by_cases hf : strFails want cmp a b = .ok true
  · refine ⟨w₃, ?_⟩
    unfold strCheckE strCheck
    rw [hs, hf]
    show (printE file _ x w₁ >>= fun p => printE file _ y p.1 >>= fun q => C.ok (q.1, some (p.2.append q.2))) =
      ((sh a >>= fun a => sh b >>= fun b => C.ok (some ("  Expected : \"".toList ++ a ++ "\"\n    Actual : \"".toList ++ b ++ "\"\n".toList))) >>=
        fun m => C.ok (w₃, m.map (printed file)))
    rw [h₂]
    cases sh a with
    | ok a' =>
      show (printE file _ y w₂ >>= fun q => C.ok (q.1, some (Texts.append _ q.2))) = _
      rw [h₃]
      cases sh b with
      | ok b' =>
        refine congrArg (fun t => C.ok (w₃, some t)) ?_
        rw [show "\"\n    Actual : \"".toList = "\"\n".toList ++ "    Actual : \"".toList from rfl, printed_append]
        simp only [List.append_assoc]
      | _ => rfl
    | _ => rfl
  · refine ⟨w₁, ?_⟩
    unfold strCheckE strCheck
    rw [hs]
    revert hf
    cases strFails want cmp a b with
    | ok f => cases f with
      | true => exact fun h => absurd rfl h
      | false => exact fun _ => rfl
    | _ => exact fun _ => rfl

theorem streq_values (flip : Bool) {W : Type} {x y : Expr W (Option Str)} {a b : Str} (ha : IsString a) (hb : IsString b)
    (w : W) (h1 : (x w).2 ≠ none) (h2 : (y (x w).1).2 ≠ none) {w' : W} (h3 : both flip x y (y (x w).1).1 = (w', some a, some b)) :
    strFailsE flip true strcmp x y w = .ok (w', decide (a ≠ b)) := by
  obtain ⟨r, h4, h5⟩ := strcmp_zero ha hb
  unfold strFailsE
  dsimp only
  rw [if_neg h1, if_neg h2, h3]
  dsimp only
  rw [h4]
  refine congrArg (fun f => C.ok (w', f)) ?_
  rw [if_pos rfl, Bool.eq_iff_iff]
  simp [h5]

/-- An argument whose value changes: `EXPECT_STREQ` passes although the strings differ when the check begins, fails although they are equal, and
passes a null pointer to `strcmp` although there was a string. -/
theorem streq_effects_wrong (file flip : Bool) {s t : Str} (hs : IsString s) (ht : IsString t) (hne : s ≠ t) :
    (∃ x : Expr Bool (Option Str), (x false).2 = some s ∧ streqE file flip x (fun w => (w, some t)) false = .ok (true, none)) ∧
    (∃ (x : Expr Bool (Option Str)) (m : Texts), (x false).2 = some s ∧ streqE file flip x (fun w => (w, some s)) false = .ok (true, some m)) ∧
    (∃ x : Expr Bool (Option Str), (x false).2 = some s ∧ streqE file flip x (fun w => (w, some s)) false = .ub .outOfBounds) := by
  refine ⟨⟨fun w => (true, if w then some t else some s), rfl, ?_⟩, ⟨fun w => (true, if w then some t else some s),
    (printed file ("  Expected : \"".toList ++ t ++ "\"\n".toList)).append (printed file ("    Actual : \"".toList ++ s ++ "\"\n".toList)), rfl, ?_⟩,
    ⟨fun w => (true, if w then none else some s), rfl, ?_⟩⟩
  · unfold streqE strCheckE
    rw [streq_values flip ht ht (w' := true) _ (by simp) (by simp) (by cases flip <;> rfl), decide_eq_false (by simp)]
    rfl
  · unfold streqE strCheckE
    rw [streq_values flip ht hs (w' := true) _ (by simp) (by simp) (by cases flip <;> rfl), decide_eq_true (Ne.symm hne)]
    cases file <;> rfl
  · unfold streqE strCheckE strFailsE
    cases flip <;> rfl

/-! ## Near: once, and again for each message -/

/-- `EXPECT_NEAR` judges the first evaluations of its arguments.  If it fails it evaluates the numbers again for standard output, and once more for the
file. -/
theorem near_evals {W : Type} {file flip : Bool} {x y e : Expr W (BitVec 64)} {w w' : W} {l : List Nat} {m : Option Texts}
    (h : nearE file flip (recorded 0 x) (recorded 1 y) (recorded 2 e) (w, []) = .ok ((w', l), m)) :
    (m = none ↔ nearFails (both flip x y w).2.1 (both flip x y w).2.2 (e (both flip x y w).1).2 = false) ∧
    l = (if flip then [1, 0, 2] else [0, 1, 2]) ++ if m = none then [] else if file then [0, 0, 1, 1] else [0, 1] := by
  unfold nearE at h
  rw [both_recorded] at h
  dsimp only [recorded] at h
  have e₀ : ([] ++ if flip = true then [1, 0] else [0, 1]) ++ [2] = if flip = true then [1, 0, 2] else [0, 1, 2] := by cases flip <;> rfl
  rw [e₀] at h
  by_cases hf : nearFails (both flip x y w).2.1 (both flip x y w).2.2 (e (both flip x y w).1).2 = true
  · rw [if_pos hf] at h
    obtain ⟨⟨⟨w₁, l₁⟩, s⟩, h₁, h⟩ := of_bind h
    obtain ⟨⟨⟨w₂, l₂⟩, t⟩, h₂, h⟩ := of_bind h
    cases h
    have h₁ := print_recorded (i := 0) h₁
    have h₂ := print_recorded (i := 1) h₂
    refine ⟨by simp [hf], ?_⟩
    rw [h₂, h₁]; cases file <;> simp
  · rw [if_neg hf] at h
    cases h
    exact ⟨by simpa using hf, by simp⟩

/-- If the values of the arguments are the same at every evaluation, the check fails exactly if the distance of the numbers is greater than the
tolerance or not a number, and shows both numbers with six places. -/
theorem near_text {W : Type} (file flip : Bool) {x y e : Expr W (BitVec 64)} {a b eps : BitVec 64} (hx : ∀ w, (x w).2 = a) (hy : ∀ w, (y w).2 = b)
    (he : ∀ w, (e w).2 = eps) (w : W) : ∃ w' m, nearE file flip x y e w = .ok (w', m) ∧
      ((∃ d, IsDist .b64 (decode .b64 a.toNat) (decode .b64 b.toNat) d ∧ ((decode .b64 eps.toNat).Less d ∨ d = .nan)) →
        ∃ s t, IsFixed s (decode .b64 a.toNat) ∧ IsFixed t (decode .b64 b.toNat) ∧
          m = some (printed file ("  Expected : ".toList ++ s ++ "\n    Actual : ".toList ++ t ++ ['\n']))) ∧
      ((¬ ∃ d, IsDist .b64 (decode .b64 a.toNat) (decode .b64 b.toNat) d ∧ ((decode .b64 eps.toNat).Less d ∨ d = .nan)) → m = none) := by
  rw [← near_fails_iff]
  have ha : (both flip x y w).2.1 = a := by cases flip <;> simp [both, hx]
  have hb : (both flip x y w).2.2 = b := by cases flip <;> simp [both, hy]
  unfold nearE
  dsimp only
  rw [ha, hb, he]
  by_cases hf : nearFails a b eps = true
  · rw [if_pos hf]
    have key : ∀ (f : BitVec 64 → Str) (z : Expr W (BitVec 64)) (c : BitVec 64) (w : W), (∀ w, (z w).2 = c) →
        ∃ w', printE file (fun a => .ok (f a)) z w = .ok (w', printed file (f c)) := by
      intro f z c w hz
      unfold printE printed
      cases file
      · exact ⟨(z w).1, by simp [hz]; rfl⟩
      · refine ⟨(z (z w).1).1, ?_⟩
        simp only [hz, if_true]; rfl
    obtain ⟨w₁, h₁⟩ := key (fun a => "  Expected : ".toList ++ fixed a ++ ['\n']) x a (e (both flip x y w).1).1 hx
    obtain ⟨w₂, h₂⟩ := key (fun a => "    Actual : ".toList ++ fixed a ++ ['\n']) y b w₁ hy
    refine ⟨w₂, _, ?_, fun _ => ⟨fixed a, fixed b, fixed_spec a, fixed_spec b, rfl⟩, fun h => absurd hf h⟩
    rw [h₁]
    show (printE file _ y w₁ >>= fun q => C.ok (q.1, some (Texts.append _ q.2))) = _
    rw [h₂]
    refine congrArg (fun t => C.ok (w₂, some t)) ?_
    rw [show "\n    Actual : ".toList = ['\n'] ++ "    Actual : ".toList from rfl]
    dsimp only
    rw [printed_append]
    simp only [List.append_assoc]
  · rw [if_neg hf]
    exact ⟨_, none, rfl, fun h => absurd h hf, fun _ => rfl⟩

/-- The two numbers that a failure shows can look the same: 2^-30 is not 0, but both are shown as 0.000000. -/
theorem near_blind_wrong (file flip : Bool) : nearE file flip (fun w : Unit => (w, 0x3e10000000000000#64)) (fun w => (w, 0#64)) (fun w => (w, 0#64)) () =
    .ok ((), some (printed file "  Expected : 0.000000\n    Actual : 0.000000\n".toList)) := by
  cases file <;> cases flip <;> decide +kernel

/-- What is shown need not be what was judged: the numbers 1 and 2 are not near, but the message shows 2 and 2. -/
theorem near_effects_wrong (file flip : Bool) : ∃ (x : Expr Bool (BitVec 64)), (x false).2 = 0x3ff0000000000000#64 ∧
    nearE file flip x (fun w => (w, 0x4000000000000000#64)) (fun w => (w, 0#64)) false =
      .ok (true, some (printed file "  Expected : 2.000000\n    Actual : 2.000000\n".toList)) :=
  ⟨fun w => (true, if w then 0x4000000000000000#64 else 0x3ff0000000000000#64), rfl, by cases file <;> cases flip <;> decide +kernel⟩

/-! ## Examples -/

/-- The hypotheses of `str_effects_partial` are met by arguments that count their evaluations: the check passes after two evaluations of each. -/
example : streqE true false (fun n : Nat => (n + 1, some "a".toList)) (fun n => (n + 10, some "a".toList)) 0 = .ok (22, none) := by decide +kernel
/-- A failure with a file: four evaluations of each. -/
example : ∃ m, streqE true true (fun n : Nat => (n + 1, some "a".toList)) (fun n => (n + 10, some "b".toList)) 0 = .ok (44, some m) :=
  ⟨⟨"  Expected : \"a\"\n    Actual : \"b\"\n".toList, "  Expected : \"a\"\n    Actual : \"b\"\n".toList⟩, by decide +kernel⟩
example : compareE true .lt "x".toList "y".toList (fun n : Nat => (n + 1, .int .i32 n)) (fun n => (n + 1, .int .i32 n)) 5 = .ok (7, none) := by
  decide +kernel

end Verif.Props
