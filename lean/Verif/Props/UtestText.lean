import Verif.Model.UtestText
import Verif.Props.UtestOptions

/-!
# The checks on strings and exceptions, and the text of a failed comparison (C102)
-/

namespace Verif.Props
open Utest SpecUtest

/-- `strncmp` is zero exactly if the strings begin with the same `n` characters. -/
theorem strncmpFrom_zero {x y : Str} (hx : IsString x) (hy : IsString y) (n : Nat) : ∀ i, i ≤ x.length → i ≤ y.length →
    ∃ r, strncmpFrom x y n i = .ok r ∧ (r = 0 ↔ (x.drop i).take n = (y.drop i).take n) := by
  induction n with
  | zero => intro i _ _; exact ⟨0, rfl, by simp⟩
  | succ n ih =>
    intro i hi hj
    rw [strncmpFrom]
    rcases Nat.lt_or_eq_of_le hi with hi | rfl <;> rcases Nat.lt_or_eq_of_le hj with hj | hj
    · rw [rd_lt hi, rd_lt hj]
      simp only [bind, C.bind']
      rw [List.drop_eq_getElem_cons hi, List.drop_eq_getElem_cons hj, List.take_succ_cons, List.take_succ_cons]
      by_cases he : x[i] = y[i]
      · rw [if_neg (by simpa using he), if_neg (ne_nul hx hi)]
        obtain ⟨r, h1, h2⟩ := ih (i + 1) hi hj
        exact ⟨r, h1, h2.trans (by simp [he])⟩
      · rw [if_pos he]
        refine ⟨_, rfl, ?_⟩
        constructor
        · intro h; exact absurd (Char.toNat_inj.mp (by omega)) he
        · intro h; exact absurd (List.cons.inj h).1 he
    · subst hj
      rw [rd_lt hi, rd_end]
      simp only [bind, C.bind']
      have hne : x[y.length] ≠ NUL := ne_nul hx hi
      rw [if_pos hne, List.drop_length, List.drop_eq_getElem_cons hi]
      refine ⟨_, rfl, ?_⟩
      constructor
      · intro h; exact absurd (Char.toNat_inj.mp (show x[y.length].toNat = NUL.toNat by omega)) hne
      · intro h; simp at h; omega
    · rw [rd_end, rd_lt hj]
      simp only [bind, C.bind']
      have hne : y[x.length] ≠ NUL := ne_nul hy hj
      rw [if_pos (fun h => hne h.symm), List.drop_length, List.drop_eq_getElem_cons hj]
      refine ⟨_, rfl, ?_⟩
      constructor
      · intro h; exact absurd (Char.toNat_inj.mp (show y[x.length].toNat = NUL.toNat by omega)) hne
      · intro h; simp at h; omega
    · rw [hj, rd_end, ← hj, rd_end]
      refine ⟨0, rfl, ?_⟩
      rw [List.drop_length, hj, List.drop_length]
      exact ⟨fun _ => rfl, fun _ => rfl⟩

theorem strncmp_zero {x y : Str} (hx : IsString x) (hy : IsString y) (n : BitVec 64) :
    ∃ r, strncmp n x y = .ok r ∧ (r = 0 ↔ x.take n.toNat = y.take n.toNat) := by
  simpa [strncmp] using strncmpFrom_zero hx hy n.toNat 0 (Nat.zero_le _) (Nat.zero_le _)

theorem take_eq_iff {x y : Str} : x.take (x.length + 1) = y.take (x.length + 1) ↔ x = y := by
  constructor
  · intro h
    rw [List.take_of_length_le (by omega)] at h
    have h1 : x.length = min (x.length + 1) y.length := by
      have := congrArg List.length h
      rwa [List.length_take] at this
    rw [List.take_of_length_le (by omega)] at h
    exact h
  · rintro rfl; rfl

/-- `strcmp` reads neither string past its end, and is zero exactly if they are equal. -/
theorem strcmp_zero {x y : Str} (hx : IsString x) (hy : IsString y) : ∃ r, strcmp x y = .ok r ∧ (r = 0 ↔ x = y) := by
  obtain ⟨r, h1, h2⟩ := strncmpFrom_zero hx hy (x.length + 1) 0 (Nat.zero_le _) (Nat.zero_le _)
  exact ⟨r, h1, h2.trans (by simpa using take_eq_iff)⟩

/-- The bound of the model of `strcmp` is not reached: a greater one changes nothing. -/
theorem strcmp_bound {x y : Str} (n : Nat) : ∀ i k, i ≤ x.length → x.length < i + k → x.length < i + n →
    strncmpFrom x y k i = strncmpFrom x y n i := by
  induction n with
  | zero => intro i k h1 _ h2; omega
  | succ n ih =>
    intro i k h0 h1 h2
    cases k with
    | zero => omega
    | succ k =>
      rw [strncmpFrom, strncmpFrom]
      rcases Nat.lt_or_eq_of_le h0 with hi | rfl
      · rw [ih (i + 1) k hi (by omega) (by omega)]
      · rw [rd_end]
        show (rd y x.length >>= _) = (rd y x.length >>= _)
        rfl

/-! ## Strings -/

/-- The lines of a failed check on strings. -/
def Quoted (a b : Str) : Str := "  Expected : \"".toList ++ a ++ "\"\n    Actual : \"".toList ++ b ++ "\"\n".toList

theorem strCheck_some {want : Bool} {cmp : Str → Str → C Int} {sh : Option Str → C Str} {a b a' b' : Str} {P : Prop} [Decidable P] {r : Int}
    (hc : cmp a b = .ok r) (hr : r = 0 ↔ P) (ha : sh (some a) = .ok a') (hb : sh (some b) = .ok b') :
    strCheck want cmp sh (some a) (some b) = .ok (if (decide P = want) then none else some (Quoted a' b')) := by
  have hf : strFails want cmp (some a) (some b) = .ok (!decide (decide P = want)) := by
    unfold strFails
    simp only [hc, bind, C.bind']
    by_cases hp : P
    · have : r = 0 := hr.2 hp
      cases want <;> simp [hp, this]
    · have : r ≠ 0 := fun h => hp (hr.1 h)
      cases want <;> simp [hp, this]
  unfold strCheck
  rw [hf]
  by_cases h : decide P = want
  · rw [if_pos h, decide_eq_true h]; rfl
  · rw [if_neg h, decide_eq_false h]
    show (sh (some a) >>= fun a => sh (some b) >>= fun b => C.ok (some (Quoted a b))) = _
    rw [ha, hb]; rfl

/-- `EXPECT_STREQ` of two strings passes exactly if they are equal, and prints both if not. -/
theorem streq_spec {x y : Str} (hx : IsString x) (hy : IsString y) :
    STREQ (some x) (some y) = .ok (if x = y then none else some (Quoted x y)) := by
  obtain ⟨r, h1, h2⟩ := strcmp_zero hx hy
  rw [STREQ, strCheck_some h1 h2 rfl rfl]
  simp

/-- `EXPECT_STRNE` of two strings passes exactly if they differ. -/
theorem strne_spec {x y : Str} (hx : IsString x) (hy : IsString y) :
    STRNE (some x) (some y) = .ok (if x ≠ y then none else some (Quoted x y)) := by
  obtain ⟨r, h1, h2⟩ := strcmp_zero hx hy
  rw [STRNE, strCheck_some h1 h2 rfl rfl]
  simp

theorem showN_small {n : BitVec 64} (hn : n.toNat < 2 ^ 31) (s : Str) : showN n (some s) = .ok (s.take n.toNat) := by
  have h1 : (n.setWidth 32).toNat = n.toNat := by rw [BitVec.toNat_setWidth]; omega
  have h2 : (n.setWidth 32).toInt = n.toNat := by
    rw [BitVec.toInt_eq_toNat_of_lt (by omega), h1]
  rw [showN, h2, if_neg (by omega), Int.toNat_natCast]

theorem showN_ok (n : BitVec 64) (s : Str) : ∃ t, showN n (some s) = .ok t := by
  show ∃ t, (if (n.setWidth 32).toInt < 0 then C.ok s else C.ok _) = C.ok t
  split <;> exact ⟨_, rfl⟩

/-- `EXPECT_STRNEQ` of two strings passes exactly if they begin with the same `n` characters (or are equal, if they are shorter), for
every `n`. -/
theorem strneq_passes {x y : Str} (hx : IsString x) (hy : IsString y) (n : BitVec 64) :
    STRNEQ n (some x) (some y) = .ok none ↔ x.take n.toNat = y.take n.toNat := by
  obtain ⟨r, h1, h2⟩ := strncmp_zero hx hy n
  obtain ⟨a, ha⟩ := showN_ok n x
  obtain ⟨b, hb⟩ := showN_ok n y
  rw [STRNEQ, strCheck_some h1 h2 ha hb]
  by_cases h : x.take n.toNat = y.take n.toNat <;> simp [h]

/-- `EXPECT_STRNNE` of two strings passes exactly if they do not. -/
theorem strnne_passes {x y : Str} (hx : IsString x) (hy : IsString y) (n : BitVec 64) :
    STRNNE n (some x) (some y) = .ok none ↔ x.take n.toNat ≠ y.take n.toNat := by
  obtain ⟨r, h1, h2⟩ := strncmp_zero hx hy n
  obtain ⟨a, ha⟩ := showN_ok n x
  obtain ⟨b, hb⟩ := showN_ok n y
  rw [STRNNE, strCheck_some h1 h2 ha hb]
  by_cases h : x.take n.toNat = y.take n.toNat <;> simp [h]

/-- A failure of `EXPECT_STRNEQ` or `EXPECT_STRNNE` prints the characters that were compared, for fewer than `2^31`.  Missing: greater `n`, for
which the message is wrong (`strneq_text_wrong`). -/
theorem strneq_text_partial {x y : Str} (hx : IsString x) (hy : IsString y) {n : BitVec 64} (hn : n.toNat < 2 ^ 31) :
    STRNEQ n (some x) (some y) =
      .ok (if x.take n.toNat = y.take n.toNat then none else some (Quoted (x.take n.toNat) (y.take n.toNat))) ∧
    STRNNE n (some x) (some y) =
      .ok (if x.take n.toNat ≠ y.take n.toNat then none else some (Quoted (x.take n.toNat) (y.take n.toNat))) := by
  obtain ⟨r, h1, h2⟩ := strncmp_zero hx hy n
  constructor
  · rw [STRNEQ, strCheck_some h1 h2 (showN_small hn x) (showN_small hn y)]
    simp
  · rw [STRNNE, strCheck_some h1 h2 (showN_small hn x) (showN_small hn y)]
    simp

/-- Of the code as it is: `n` is cast to `int` for the message, so with `2^32` characters to compare the failure shows two empty strings. -/
theorem strneq_text_wrong {x y : Str} (hx : IsString x) (hy : IsString y) (hne : x.take (2 ^ 32) ≠ y.take (2 ^ 32)) :
    STRNEQ (BitVec.ofNat 64 (2 ^ 32)) (some x) (some y) = .ok (some (Quoted [] [])) := by
  obtain ⟨r, h1, h2⟩ := strncmp_zero hx hy (BitVec.ofNat 64 (2 ^ 32))
  rw [STRNEQ, strCheck_some (a' := []) (b' := []) h1 h2 rfl rfl, if_neg]
  rw [show (BitVec.ofNat 64 (2 ^ 32)).toNat = 2 ^ 32 from rfl, decide_eq_true_eq]
  exact hne

/-- No check on strings passes with a null pointer. -/
theorem str_null {want : Bool} {cmp : Str → Str → C Int} {x y : Option Str} (h : x = none ∨ y = none) :
    strFails want cmp x y = .ok true := by
  rcases h with rfl | rfl
  · rfl
  · cases x <;> rfl

/-- Of the code as it is: instead of a failure, every check on strings with a null pointer has undefined behaviour, since the message
prints it with `%s`. -/
theorem str_null_wrong {x y : Option Str} (h : x = none ∨ y = none) (n : BitVec 64) :
    STREQ x y = .ub .outOfBounds ∧ STRNE x y = .ub .outOfBounds ∧ STRNEQ n x y = .ub .outOfBounds ∧ STRNNE n x y = .ub .outOfBounds := by
  have key : ∀ want cmp (sh : Option Str → C Str), sh none = .ub .outOfBounds → (∀ s, ∃ t, sh (some s) = .ok t) →
      strCheck want cmp sh x y = .ub .outOfBounds := by
    intro want cmp sh h1 h2
    unfold strCheck
    rw [str_null h]
    simp only [bind, C.bind', if_true]
    cases x with
    | none => rw [h1]
    | some a =>
      obtain ⟨t, ht⟩ := h2 a
      rw [ht]
      rcases h with h | rfl
      · cases h
      · rw [h1]
  exact ⟨key _ _ _ rfl fun s => ⟨s, rfl⟩, key _ _ _ rfl fun s => ⟨s, rfl⟩, key _ _ _ rfl (showN_ok n), key _ _ _ rfl (showN_ok n)⟩

/-- In a test: a check on strings that passes goes on, one that fails is recorded with its message, and ends the test if it is an `ASSERT`. -/
theorem text_stmt {W : Type} (fatal : Bool) (place : Str) (m : Option Str) (rest : List (Stmt W)) (r : Int) (text : Str) (w : W) :
    runStmts (textStmt fatal place m :: rest) r text w =
      match m with
      | none => runStmts rest r text w
      | some t =>
        if fatal then .returns 1 (text ++ place ++ ": Failure\n".toList ++ t) w
        else runStmts rest 1 (text ++ place ++ ": Failure\n".toList ++ t) w := by
  cases m <;> rfl

/-! ## Exceptions -/

/-- `EXPECT_EXCEPTION` passes exactly if the statement throws an exception of the type. -/
theorem exception_passes {W E : Type} (type : Str) (isA : E → Bool) (x : W → W × Option E) (w : W) :
    (EXCEPTION type isA x w).2 = none ↔ ∃ e, (x w).2 = some e ∧ isA e = true := by
  unfold EXCEPTION exceptionCaught
  rcases x w with ⟨w', _ | e⟩
  · simp
  · by_cases h : isA e = true <;> simp [h]

/-- The statement is executed once, and its effects remain; no exception leaves the check. -/
theorem exception_state {W E : Type} (type : Str) (isA : E → Bool) (x : W → W × Option E) (w : W) :
    (EXCEPTION type isA x w).1 = (x w).1 := by
  unfold EXCEPTION
  dsimp only
  split <;> rfl

/-- A failure says which exception was expected and whether there was another. -/
theorem exception_text {W E : Type} (type : Str) (isA : E → Bool) (x : W → W × Option E) (w : W) :
    ((x w).2 = none → (EXCEPTION type isA x w).2 =
      some ("  Expected : ".toList ++ type ++ " exception\n    Actual : ".toList ++ "No exception".toList ++ ['\n'])) ∧
    (∀ e, (x w).2 = some e → isA e = false → (EXCEPTION type isA x w).2 =
      some ("  Expected : ".toList ++ type ++ " exception\n    Actual : ".toList ++ "Unexpected exception".toList ++ ['\n'])) := by
  unfold EXCEPTION exceptionCaught
  rcases x w with ⟨w', _ | e⟩
  · exact ⟨fun _ => rfl, fun e h _ => by cases h⟩
  · refine ⟨fun h => (by cases h), fun e' h hn => ?_⟩
    cases h
    simp only [hn]
    rfl

/-! ## Comparisons -/

/-- A text as a format that prints it: each `%` is doubled. -/
def escape (t : Str) : Str := t.flatMap fun c => if c = '%' then ['%', '%'] else [c]

/-- Printing a format without arguments: it prints `t` if the format is `t` with each `%` doubled; every other format is undefined. -/
theorem printf0_spec (s : Str) : (∃ t, s = escape t ∧ printf0 s = .ok t) ∨ ((¬ ∃ t, s = escape t) ∧ printf0 s = .ub .outOfBounds) := by
  have cons_pct : ∀ t, escape ('%' :: t) = '%' :: '%' :: escape t := fun t => rfl
  have cons_ne : ∀ c t, c ≠ '%' → escape (c :: t) = c :: escape t := fun c t h => by simp [escape, h]
  induction s using printf0.induct with
  | case1 => exact .inl ⟨[], rfl, rfl⟩
  | case2 s ih =>
    rcases ih with ⟨t, h1, h2⟩ | ⟨h1, h2⟩
    · refine .inl ⟨'%' :: t, by rw [h1, cons_pct], ?_⟩
      rw [printf0.eq_def]
  
      simp [h2, bind, C.bind']
    · refine .inr ⟨?_, ?_⟩
      · rintro ⟨t, ht⟩
        cases t with
        | nil => cases ht
        | cons c t =>
          by_cases hc : c = '%'
          · subst hc
            rw [cons_pct] at ht
            injection ht with _ ht
            injection ht with _ ht
            exact h1 ⟨t, ht⟩
          · rw [cons_ne c t hc] at ht
            injection ht with ht _
            exact hc ht.symm
      · rw [printf0.eq_def]
  
        simp [h2, bind, C.bind']
  | case3 d s hd =>
    refine .inr ⟨?_, ?_⟩
    · rintro ⟨t, ht⟩
      cases t with
      | nil => cases ht
      | cons c t =>
        by_cases hc : c = '%'
        · subst hc
          rw [cons_pct] at ht
          injection ht with _ ht
          injection ht with ht _
          exact hd ht
        · rw [cons_ne c t hc] at ht
          injection ht with ht _
          exact hc ht.symm
    · rw [printf0.eq_def]
  
      simp [hd]
  | case4 =>
    refine .inr ⟨?_, rfl⟩
    rintro ⟨t, ht⟩
    cases t with
    | nil => cases ht
    | cons c t =>
      by_cases hc : c = '%'
      · subst hc; cases ht
      · rw [cons_ne c t hc] at ht
        injection ht with ht _
        exact hc ht.symm
  | case5 c s hc ih =>
    rcases ih with ⟨t, h1, h2⟩ | ⟨h1, h2⟩
    · refine .inl ⟨c :: t, by rw [h1, cons_ne c t hc], ?_⟩
      simp [printf0.eq_def (c :: s), hc, h2, bind, C.bind']
    · refine .inr ⟨?_, ?_⟩
      · rintro ⟨t, ht⟩
        cases t with
        | nil => cases ht
        | cons d t =>
          by_cases hd : d = '%'
          · subst hd
            rw [cons_pct] at ht
            injection ht with ht _
            exact hc ht
          · rw [cons_ne d t hd] at ht
            injection ht with _ ht
            exact h1 ⟨t, ht⟩
      · simp [printf0.eq_def (c :: s), hc, h2, bind, C.bind']

theorem escape_plain {s : Str} (h : '%' ∉ s) : escape s = s := by
  induction s with
  | nil => rfl
  | cons c s ih =>
    rw [List.mem_cons, not_or] at h
    have : escape (c :: s) = c :: escape s := by simp [escape, Ne.symm h.1]
    rw [this, ih h.2]

theorem escape_inj : ∀ {s t : Str}, escape s = escape t → s = t := by
  have cons_pct : ∀ t, escape ('%' :: t) = '%' :: '%' :: escape t := fun t => rfl
  have cons_ne : ∀ c t, c ≠ '%' → escape (c :: t) = c :: escape t := fun c t h => by simp [escape, h]
  intro s
  induction s with
  | nil =>
    intro t h
    cases t with
    | nil => rfl
    | cons c t => by_cases hc : c = '%' <;> simp [escape, hc] at h
  | cons c s ih =>
    intro t h
    cases t with
    | nil => by_cases hc : c = '%' <;> simp [escape, hc] at h
    | cons d t =>
      by_cases hc : c = '%' <;> by_cases hd : d = '%'
      · subst hc hd
        rw [cons_pct, cons_pct] at h
        rw [ih (by simpa using h)]
      · subst hc
        rw [cons_pct, cons_ne d t hd] at h
        exact absurd (List.cons.inj h).1.symm hd
      · subst hd
        rw [cons_pct, cons_ne c s hc] at h
        exact absurd (List.cons.inj h).1 hc
      · rw [cons_ne c s hc, cons_ne d t hd] at h
        rw [(List.cons.inj h).1, ih (List.cons.inj h).2]

/-- The lines of a failed comparison. -/
def Compared (x cond y xv yv : Str) : Str :=
  "  Expected : (".toList ++ (x ++ ") ".toList ++ cond ++ " (".toList ++ y) ++ ")\n    Actual : ".toList ++ xv ++ " vs ".toList ++ yv ++ ['\n']

/-- A failure of `EXPECT_EQ` and the like prints the texts of its arguments and their values, if no text contains a `%`.  Missing: arguments
with a `%` (`compare_text_wrong`). -/
theorem compare_text_partial {x cond y : Str} (hx : '%' ∉ x) (hc : '%' ∉ cond) (hy : '%' ∉ y) (xv yv : Str) :
    compareText x cond y xv yv = .ok (Compared x cond y xv yv) := by
  have hs : '%' ∉ x ++ ") ".toList ++ cond ++ " (".toList ++ y := by
    simp only [List.mem_append, not_or]
    exact ⟨⟨⟨⟨hx, by decide⟩, hc⟩, by decide⟩, hy⟩
  rcases printf0_spec (x ++ ") ".toList ++ cond ++ " (".toList ++ y) with ⟨t, h1, h2⟩ | ⟨h1, -⟩
  · rw [compareText, h2]
    have : t = x ++ ") ".toList ++ cond ++ " (".toList ++ y := escape_inj (h1.symm.trans (escape_plain hs).symm)
    rw [this]
    rfl
  · exact absurd ⟨_, (escape_plain hs).symm⟩ h1

theorem printf0_single : ∀ (x : Str), '%' ∉ x → ∀ c y, c ≠ '%' → printf0 (x ++ '%' :: c :: y) = .ub .outOfBounds := by
  intro x
  induction x with
  | nil => intro _ c y hc; rw [List.nil_append, printf0.eq_def]; simp [hc]
  | cons d x ih =>
    intro h c y hc
    rw [List.mem_cons, not_or] at h
    rw [List.cons_append, printf0.eq_def]
    simp [Ne.symm h.1, ih h.2 c y hc, bind, C.bind']

/-- Of the code as it is: the text of the arguments is the format of `printf`, so when `EXPECT_EQ(a % b, c)` fails the behaviour is undefined
(here for any first argument with a single `%`). -/
theorem compare_text_wrong {a b : Str} (ha : '%' ∉ a) {c : Char} (hc : c ≠ '%') (cond y xv yv : Str) :
    compareText (a ++ '%' :: c :: b) cond y xv yv = .ub .outOfBounds := by
  rw [compareText, show a ++ '%' :: c :: b ++ ") ".toList ++ cond ++ " (".toList ++ y =
    a ++ '%' :: c :: (b ++ ") ".toList ++ cond ++ " (".toList ++ y) by simp, printf0_single a ha c _ hc]
  rfl

/-! ## Examples -/

example : STREQ (some "abc".toList) (some "abc".toList) = .ok none := by decide
example : STRNEQ 2#64 (some "abc".toList) (some "abd".toList) = .ok none := by decide
example : STRNEQ 3#64 (some "abc".toList) (some "ab".toList) = .ok (some "  Expected : \"abc\"\n    Actual : \"ab\"\n".toList) := by decide
example : STREQ (some "ab".toList) none = .ub .outOfBounds := by decide
example : compareText "a % 3".toList "==".toList "0".toList "1".toList "0".toList = .ub .outOfBounds := by decide
example : compareText "a".toList "==".toList "0".toList "1".toList "0".toList =
    .ok "  Expected : (a) == (0)\n    Actual : 1 vs 0\n".toList := by decide
example : (EXCEPTION "int".toList (fun n : Nat => n == 1) (fun w : Nat => (w + 1, some 2)) 5) =
    (6, some "  Expected : int exception\n    Actual : Unexpected exception\n".toList) := by decide

end Verif.Props
