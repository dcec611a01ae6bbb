import Verif.SpecUtest

/-! The filter of the test runner (C98). -/

namespace Verif.Props
open Utest SpecUtest

/-! ### The steps of the two loops -/

theorem rd_lt {s : Str} {i : Nat} (h : i < s.length) : rd s i = .ok s[i] := by simp [rd, h]

theorem rd_end (s : Str) : rd s s.length = .ok NUL := by simp [rd]

theorem ne_nul {s : Str} (hs : IsString s) {i : Nat} (h : i < s.length) : s[i] ≠ NUL :=
  fun e => hs (by rw [← e]; exact List.getElem_mem h)

section
variable {f t : Str} {w i j : Nat}

theorem inner_end_f : filterInner f t w f.length j = .ok (f.length, j) := by
  rw [filterInner, rd_end]; rfl

theorem inner_end_t (hf : IsString f) (hi : i < f.length) : filterInner f t w i t.length = .ok (i, t.length) := by
  rw [filterInner, rd_lt hi]; dsimp only; rw [if_neg (ne_nul hf hi)]
  split <;> simp_all [rd_end]

theorem inner_star (hf : IsString f) (hi : i < f.length) (hj : j < t.length) (h : f[i] = '*') :
    filterInner f t w i j = .ok (i, j) := by
  rw [filterInner, rd_lt hi]; dsimp only; rw [if_neg (ne_nul hf hi)]
  split <;> simp_all [rd_lt]

theorem inner_eq (hf : IsString f) (ht : IsString t) (hi : i < f.length) (hj : j < t.length) (h : f[i] ≠ '*') (he : f[i] = t[j]) :
    filterInner f t w i j = filterInner f t w (i + 1) (j + 1) := by
  rw [filterInner, rd_lt hi]; dsimp only; rw [if_neg (ne_nul hf hi)]
  have := ne_nul ht hj
  split <;> simp_all [rd_lt]

theorem inner_ne (hf : IsString f) (ht : IsString t) (hi : i < f.length) (hj : j < t.length) (h : f[i] ≠ '*') (he : f[i] ≠ t[j]) :
    filterInner f t w i j = filterInner f t w (w + 1) (j + 1) := by
  rw [filterInner, rd_lt hi]; dsimp only; rw [if_neg (ne_nul hf hi)]
  have := ne_nul ht hj
  split <;> simp_all [rd_lt]

theorem outer_end (ht : IsString t) (hj : j ≤ t.length) : filterOuter f t f.length j =
    .ok (if j = t.length then 0 else if f.getLast? = some '*' then 0 else 1) := by
  rw [filterOuter]
  rcases Nat.lt_or_eq_of_le hj with hj | rfl
  · have := ne_nul ht hj
    split <;> simp_all [rd_end]
    split <;> simp_all [rd_lt]
    have hj' : j ≠ t.length := by omega
    by_cases h0 : f = []
    · simp [h0, hj']
    · have h1 : 0 < f.length := List.length_pos_iff.mpr h0
      rw [if_neg h0, rd_lt (by omega), List.getLast?_eq_getElem?, List.getElem?_eq_getElem (by omega)]
      simp only [bind, C.bind', Option.some.injEq, if_neg hj']
      by_cases h : f[f.length - 1] = '*' <;> simp [h]
  · split <;> simp_all [rd_end]
    split <;> simp_all [rd_end]

theorem outer_t_end (hf : IsString f) (hi : i < f.length) : filterOuter f t i t.length = .ok 1 := by
  have := ne_nul hf hi
  rw [filterOuter]
  split <;> simp_all [rd_lt]
  split <;> simp_all [rd_end]

theorem outer_eq (hf : IsString f) (hi : i < f.length) (hj : j < t.length) (h : f[i] ≠ '*') (he : f[i] = t[j]) :
    filterOuter f t i j = filterOuter f t (i + 1) (j + 1) := by
  have := ne_nul hf hi
  rw [filterOuter]
  split <;> simp_all [rd_lt]
  split <;> simp_all [rd_lt]

theorem outer_ne (hf : IsString f) (ht : IsString t) (hi : i < f.length) (hj : j < t.length) (h : f[i] ≠ '*') (he : f[i] ≠ t[j]) :
    filterOuter f t i j = .ok 1 := by
  have := ne_nul hf hi
  have := ne_nul ht hj
  rw [filterOuter]
  split <;> simp_all [rd_lt]
  split <;> simp_all [rd_lt]
  intro h; exact absurd h.symm he

theorem outer_star {i' j' : Nat} (hf : IsString f) (ht : IsString t) (hi : i < f.length) (hj : j < t.length) (h : f[i] = '*')
    (hr : filterInner f t i (i + 1) j = .ok (i', j')) (hi' : i' ≤ f.length) (hj' : j' ≤ t.length) :
    filterOuter f t i j = if j' = t.length then .ok (if i' = f.length then 0 else 1) else filterOuter f t i' j' := by
  have h1 := ne_nul hf hi
  have h2 := ne_nul ht hj
  rw [filterOuter]
  split
  · rename_i a ha
    rw [rd_lt hi] at ha; obtain rfl := C.ok.inj ha
    split
    · rename_i b hb
      rw [rd_lt hj] at hb; obtain rfl := C.ok.inj hb
      rw [if_pos ⟨h1, h2⟩, if_pos h]
      split
      · rename_i i'' j'' e
        rw [hr] at e; obtain ⟨rfl, rfl⟩ := Prod.mk.inj (C.ok.inj e)
        rcases Nat.lt_or_eq_of_le hi' with hi' | rfl
        · have h3 := ne_nul hf hi'
          rcases Nat.lt_or_eq_of_le hj' with hj' | rfl
          · have h4 := ne_nul ht hj'
            have : j' ≠ t.length := by omega
            simp_all [rd_lt]
          · have : i' ≠ f.length := by omega
            simp_all [rd_lt, rd_end]
        · rcases Nat.lt_or_eq_of_le hj' with hj' | rfl
          · have h4 := ne_nul ht hj'
            have : j' ≠ t.length := by omega
            simp_all [rd_lt, rd_end]
          · simp [rd_end]
      all_goals simp_all
    all_goals simp_all [rd_lt]
  all_goals simp_all [rd_lt]

end

/-! ### Patterns -/

theorem glob_snoc {p s : Str} {c : Char} (hc : c ≠ '*') (h : Glob p s) : Glob (p ++ [c]) (s ++ [c]) := by
  induction h with
  | nil => exact .char c hc .nil
  | char d hd _ ih => exact .char d hd ih
  | star u _ ih => rw [List.cons_append, List.append_assoc]; exact .star u ih

theorem glob_snoc_star {p s : Str} (u : Str) (h : Glob p s) : Glob (p ++ ['*']) (s ++ u) := by
  induction h with
  | nil => simpa using Glob.star u .nil
  | char d hd _ ih => exact .char d hd ih
  | star v _ ih => rw [List.cons_append, List.append_assoc]; exact .star v ih

theorem glob_extend {p s : Str} (u : Str) (h : Glob (p ++ ['*']) s) : Glob (p ++ ['*']) (s ++ u) := by
  generalize hq : p ++ ['*'] = q at h
  induction h generalizing p with
  | nil => simp at hq
  | char d hd h ih =>
    cases p with
    | nil => simp at hq; exact absurd hq.1.symm hd
    | cons c p => simp at hq; exact .char d hd (ih hq.2)
  | @star v q s h ih =>
    rw [List.append_assoc]
    cases p with
    | nil =>
      simp at hq; subst hq; cases h
      simpa using Glob.star (v ++ u) .nil
    | cons c p => simp at hq; exact .star v (ih hq.2)

theorem take_succ {s : Str} {i : Nat} (h : i < s.length) : s.take (i + 1) = s.take i ++ [s[i]] := by
  rw [List.take_add_one, List.getElem?_eq_getElem h]; rfl

/-! ### A test that is run has a name the pattern describes -/

/-- The inner loop keeps: the characters passed are described by the part of the pattern passed, and by the part up to the wildcard. -/
theorem inner_sound {f t : Str} {w i j : Nat} (hf : IsString f) (ht : IsString t) (hw : w < f.length) (hs : f[w] = '*')
    (hi : i ≤ f.length) (hj : j ≤ t.length) (h1 : Glob (f.take i) (t.take j)) (h2 : Glob (f.take (w + 1)) (t.take j)) :
    ∃ i' j', filterInner f t w i j = .ok (i', j') ∧ i' ≤ f.length ∧ j' ≤ t.length ∧ Glob (f.take i') (t.take j') := by
  generalize hn : t.length - j = n
  induction n generalizing i j with
  | zero =>
    obtain rfl : j = t.length := by omega
    rcases Nat.lt_or_eq_of_le hi with hi | rfl
    · exact ⟨_, _, inner_end_t hf hi, by omega, by omega, h1⟩
    · exact ⟨_, _, inner_end_f, by omega, by omega, h1⟩
  | succ n ih =>
    have hj : j < t.length := by omega
    rcases Nat.lt_or_eq_of_le hi with hi | rfl
    · by_cases hc : f[i] = '*'
      · exact ⟨_, _, inner_star hf hi hj hc, by omega, by omega, h1⟩
      · have h2' : Glob (f.take (w + 1)) (t.take (j + 1)) := by
          rw [take_succ hw, hs] at h2 ⊢
          rw [take_succ hj]; exact glob_extend _ h2
        by_cases he : f[i] = t[j]
        · rw [inner_eq hf ht hi hj hc he]
          refine ih hi hj ?_ h2' (by omega)
          rw [take_succ hi, take_succ hj, ← he]; exact glob_snoc hc h1
        · rw [inner_ne hf ht hi hj hc he]
          exact ih hw hj h2' h2' (by omega)
    · exact ⟨_, _, inner_end_f, by omega, by omega, h1⟩

theorem outer_sound {f t : Str} {i j : Nat} (hf : IsString f) (ht : IsString t)
    (hi : i ≤ f.length) (hj : j ≤ t.length) (h : Glob (f.take i) (t.take j)) :
    filterOuter f t i j = .ok 0 ∧ Glob f t ∨ filterOuter f t i j = .ok 1 := by
  generalize hn : t.length - j = n
  generalize hm : f.length - i = m
  induction n using Nat.strongRecOn generalizing i j m with | _ n ihn =>
  induction m using Nat.strongRecOn generalizing i with
  | _ m ihm =>
    rcases Nat.lt_or_eq_of_le hi with hi | rfl
    · rcases Nat.lt_or_eq_of_le hj with hj | rfl
      · by_cases hc : f[i] = '*'
        · have h2 : Glob (f.take (i + 1)) (t.take j) := by
            rw [take_succ hi, hc]; simpa using glob_snoc_star [] h
          obtain ⟨i', j', hr, hi', hj', hg⟩ := inner_sound hf ht hi hc hi (Nat.le_of_lt hj) h2 h2
          rw [outer_star hf ht hi hj hc hr hi' hj']
          split
          · rename_i e
            by_cases e' : i' = f.length
            · left; simp [e, e'] at hg ⊢; exact hg
            · right; simp [e']
          · rcases filterInner_progress hr with ⟨rfl, rfl⟩ | hlt
            · exact ihm _ (by omega) hi' hg rfl
            · exact ihn _ (by omega) hi' hj' hg rfl _ rfl
        · by_cases he : f[i] = t[j]
          · rw [outer_eq hf hi hj hc he]
            refine ihn _ (by omega) hi hj ?_ rfl _ rfl
            rw [take_succ hi, take_succ hj, ← he]; exact glob_snoc hc h
          · right; exact outer_ne hf ht hi hj hc he
      · right; exact outer_t_end hf hi
    · rw [outer_end ht hj]
      simp only [List.take_length] at h
      split
      · rename_i e; left; subst e; simpa using h
      · split
        · rename_i hl
          left; refine ⟨rfl, ?_⟩
          obtain ⟨p, rfl⟩ := List.getLast?_eq_some_iff.mp hl
          have := glob_extend (t.drop j) h
          rwa [List.take_append_drop] at this
        · right; rfl

/-! ### Patterns without and with one wildcard -/

/-- The loop walks along a part without wildcards, or finds that the name differs. -/
theorem outer_literal {f t : Str} (hf : IsString f) (ht : IsString t) (p : Str) (hp : '*' ∉ p) :
    ∀ u q v s : Str, f = u ++ p ++ q → t = v ++ s →
      (∃ s', s = p ++ s' ∧ filterOuter f t u.length v.length = filterOuter f t (u.length + p.length) (v.length + p.length)) ∨
      (¬ p <+: s ∧ filterOuter f t u.length v.length = .ok 1) := by
  induction p with
  | nil => intro u q v s _ _; exact .inl ⟨s, rfl, rfl⟩
  | cons c p ih =>
    intro u q v s hfe hte
    have hi : u.length < f.length := by subst hfe; simp
    have hc : f[u.length] = c := by subst hfe; simp
    have hc' : c ≠ '*' := fun e => hp (by simp [e])
    cases s with
    | nil =>
      right
      refine ⟨by simp, ?_⟩
      have : v.length = t.length := by subst hte; simp
      rw [this]; exact outer_t_end hf hi
    | cons d s =>
      have hj : v.length < t.length := by subst hte; simp
      have hd : t[v.length] = d := by subst hte; simp
      by_cases he : c = d
      · subst he
        rw [outer_eq hf hi hj (by rwa [hc]) (by rw [hc, hd])]
        have := ih (fun h => hp (by simp [h])) (u ++ [c]) q (v ++ [c]) s (by simpa using hfe) (by simpa using hte)
        simp only [List.length_append, List.length_cons, List.length_nil] at this
        rcases this with ⟨s', rfl, h⟩ | ⟨h1, h2⟩
        · left; refine ⟨s', rfl, ?_⟩
          simp only [List.length_cons]; rw [Nat.add_comm p.length 1, ← Nat.add_assoc, ← Nat.add_assoc]; exact h
        · right; exact ⟨fun h => h1 (by simpa [List.cons_prefix_cons] using h), h2⟩
      · right
        exact ⟨fun h => he (List.cons_prefix_cons.mp h).1, outer_ne hf ht hi hj (by rwa [hc]) (by rwa [hc, hd])⟩

instance (s : Str) : Decidable (IsString s) := inferInstanceAs (Decidable (NUL ∉ s))

theorem isString_cons {c : Char} {s : Str} : IsString (c :: s) ↔ c ≠ NUL ∧ IsString s := by
  simp only [IsString, List.mem_cons, not_or, ne_eq]; rw [eq_comm]

theorem isString_append {a b : Str} : IsString (a ++ b) ↔ IsString a ∧ IsString b := by simp [IsString]

/-- A filter is a total function on strings: it runs the test or leaves it out, and reads no character outside the two strings. -/
theorem filter_total {f t : Str} (hf : IsString f) (ht : IsString t) : Selected f t ∨ LeftOut f t := by
  have := outer_sound (i := 0) (j := 0) hf ht (Nat.zero_le _) (Nat.zero_le _) (by simpa using Glob.nil)
  rcases this with ⟨h, _⟩ | h
  · exact .inl h
  · exact .inr h

theorem not_both {f t : Str} (h1 : Selected f t) (h2 : LeftOut f t) : False := by
  simp only [Selected, LeftOut] at h1 h2; rw [h1] at h2; simp at h2

/-- A test that is run has a name that the pattern describes. -/
theorem filter_sound {f t : Str} (hf : IsString f) (ht : IsString t) (h : Selected f t) : Glob f t := by
  have := outer_sound (i := 0) (j := 0) hf ht (Nat.zero_le _) (Nat.zero_le _) (by simpa using Glob.nil)
  rcases this with ⟨_, h'⟩ | h'
  · exact h'
  · exact absurd h (fun h => not_both h h')

/-- Without a filter every test is run. -/
theorem filter_none (t : Str) : utest_should_filter_test none t = .ok 0 := rfl

/-- A filter without a wildcard runs exactly the tests of that name. -/
theorem filter_plain {f t : Str} (hf : IsString f) (ht : IsString t) (hs : '*' ∉ f) : Selected f t ↔ t = f := by
  simp only [Selected, utest_should_filter_test]
  rcases outer_literal hf ht f hs [] [] [] t (by simp) (by simp) with ⟨s', rfl, h⟩ | ⟨h1, h2⟩
  · simp only [List.length_nil, Nat.zero_add] at h
    rw [h, outer_end ht (by simp)]
    cases s' with
    | nil => simp
    | cons c s =>
      have : f.getLast? ≠ some '*' := fun e => hs (List.mem_of_getLast? e)
      simp [this]
  · simp only [List.length_nil] at h2
    rw [h2]
    refine ⟨fun h => by simp at h, fun h => absurd (h ▸ List.prefix_refl _) h1⟩

/-- A filter that ends with its only wildcard runs exactly the tests whose names begin so and go on. -/
theorem filter_prefix {p t : Str} (hp : IsString p) (ht : IsString t) (hs : '*' ∉ p) :
    Selected (p ++ ['*']) t ↔ ∃ s, s ≠ [] ∧ t = p ++ s := by
  have hf : IsString (p ++ ['*']) := isString_append.mpr ⟨hp, by decide⟩
  simp only [Selected, utest_should_filter_test]
  rcases outer_literal hf ht p hs [] ['*'] [] t (by simp) (by simp) with ⟨s', rfl, h⟩ | ⟨h1, h2⟩
  · simp only [List.length_nil, Nat.zero_add] at h
    rw [h]
    cases s' with
    | nil =>
      have := outer_t_end (t := p ++ []) (i := p.length) hf (by simp)
      simp only [List.append_nil] at this ⊢
      rw [this]; simp
    | cons c s =>
      rw [outer_star (i' := (p ++ ['*']).length) (j' := p.length) hf ht (by simp) (by simp) (by simp)
        (by rw [show p.length + 1 = (p ++ ['*']).length by simp]; exact inner_end_f) (by simp) (by simp), outer_end ht (by simp)]
      simp
  · simp only [List.length_nil] at h2
    rw [h2]
    refine ⟨fun h => by simp at h, fun ⟨s, _, h⟩ => absurd (h ▸ List.prefix_append _ _) h1⟩

/-- The inner loop passes over the characters before the first one that may begin the rest of the pattern. -/
theorem inner_scan {f t : Str} (hf : IsString f) (ht : IsString t) {u q : Str} {c : Char} (hc : c ≠ '*') (hfe : f = u ++ '*' :: c :: q) (s : Str)
    (hs : c ∉ s) : ∀ v r : Str, t = v ++ s ++ r →
      filterInner f t u.length (u.length + 1) v.length = filterInner f t u.length (u.length + 1) (v.length + s.length) := by
  induction s with
  | nil => intros; rfl
  | cons d s ih =>
    intro v r hte
    have hi : u.length + 1 < f.length := by subst hfe; simp
    have hc' : f[u.length + 1] = c := by subst hfe; simp
    have hj : v.length < t.length := by subst hte; simp
    have hd : t[v.length] = d := by subst hte; simp
    have hcd : c ≠ d := fun e => hs (by simp [e])
    rw [inner_ne hf ht hi hj (by rwa [hc']) (by rwa [hc', hd])]
    have := ih (fun h => hs (by simp [h])) (v ++ [d]) r (by simpa using hte)
    simp only [List.length_append, List.length_cons, List.length_nil, Nat.zero_add] at this
    rw [this]; simp only [List.length_cons]; congr 1; omega

/-- The inner loop walks along the end of the pattern. -/
theorem inner_literal {f t : Str} {w : Nat} (hf : IsString f) (ht : IsString t) (p : Str) (hp : '*' ∉ p) :
    ∀ u v : Str, f = u ++ p → t = v ++ p → filterInner f t w u.length v.length = .ok (f.length, t.length) := by
  induction p with
  | nil =>
    intro u v hfe hte
    simp only [List.append_nil] at hfe hte
    subst hfe hte; exact inner_end_f
  | cons c p ih =>
    intro u v hfe hte
    have hi : u.length < f.length := by subst hfe; simp
    have hc : f[u.length] = c := by subst hfe; simp
    have hj : v.length < t.length := by subst hte; simp
    have hd : t[v.length] = c := by subst hte; simp
    rw [inner_eq hf ht hi hj (by rw [hc]; exact fun e => hp (by simp [e])) (by rw [hc, hd])]
    have := ih (fun h => hp (by simp [h])) (u ++ [c]) (v ++ [c]) (by simpa using hfe) (by simpa using hte)
    simpa using this

/-- A filter with one wildcard runs every test that it describes in whose name the part for the wildcard does not have the character that
follows the wildcard. -/
theorem filter_infix_partial {p q s : Str} {c : Char} (hp : IsString p) (hq : IsString (c :: q)) (ht : IsString s)
    (hs : '*' ∉ p) (hs' : '*' ∉ c :: q) (hc : c ∉ s) : Selected (p ++ '*' :: c :: q) (p ++ s ++ c :: q) := by
  have hf : IsString (p ++ '*' :: c :: q) := isString_append.mpr ⟨hp, isString_cons.mpr ⟨by decide, hq⟩⟩
  have ht : IsString (p ++ s ++ c :: q) := isString_append.mpr ⟨isString_append.mpr ⟨hp, ht⟩, hq⟩
  have hc' : c ≠ '*' := fun e => hs' (by simp [e])
  simp only [Selected, utest_should_filter_test]
  rcases outer_literal hf ht p hs [] ('*' :: c :: q) [] (p ++ s ++ c :: q) (by simp) (by simp) with ⟨s', _, h⟩ | ⟨h1, _⟩
  · simp only [List.length_nil, Nat.zero_add] at h
    rw [h]
    have h1 := inner_scan hf ht (u := p) hc' rfl s hc p (c :: q) rfl
    have h2 := inner_literal (w := p.length) hf ht (c :: q) hs' (p ++ ['*']) (p ++ s) (by simp) (by simp)
    simp only [List.length_append, List.length_cons, List.length_nil] at h2
    rw [outer_star (i' := (p ++ '*' :: c :: q).length) (j' := (p ++ s ++ c :: q).length) hf ht (by simp) (by simp; omega) (by simp)
      (by rw [h1, h2]; simp; omega) (by simp) (by simp)]
    simp
  · exact absurd (by rw [List.append_assoc]; exact List.prefix_append _ _) h1

theorem glob_plain {f t : Str} (hs : '*' ∉ f) (h : Glob f t) : t = f := by
  induction h with
  | nil => rfl
  | char c _ _ ih => rw [ih fun h => hs (by simp [h])]
  | star => simp at hs

theorem dot_split {a b c d : Str} (ha : '.' ∉ a) (hc : '.' ∉ c) (h : a ++ '.' :: b = c ++ '.' :: d) : a = c ∧ b = d := by
  induction a generalizing c with
  | nil =>
    cases c with
    | nil => simp at h; exact ⟨rfl, h⟩
    | cons x c => simp at h; exact absurd (by rw [h.1]; simp) hc
  | cons x a ih =>
    cases c with
    | nil => simp at h; exact absurd (by simp [h.1]) ha
    | cons y c =>
      simp at h
      obtain ⟨h1, h2⟩ := ih (fun h => ha (by simp [h])) (fun h => hc (by simp [h])) h.2
      exact ⟨by rw [h.1, h1], h2⟩

theorem dot_split_right {a b c d : Str} (hb : '.' ∉ b) (hd : '.' ∉ d) (h : a ++ '.' :: b = c ++ '.' :: d) : a = c ∧ b = d := by
  have h' := congrArg List.reverse h
  simp only [List.reverse_append, List.reverse_cons, List.append_assoc, List.singleton_append] at h'
  obtain ⟨h1, h2⟩ := dot_split (by simpa using hb) (by simpa using hd) h'
  exact ⟨List.reverse_inj.mp h2, List.reverse_inj.mp h1⟩

/-- The characters of an identifier, which the parts of the name of a test are. -/
def Ident (s : Str) : Prop := s ≠ [] ∧ ∀ c ∈ s, c.isAlphanum ∨ c = '_'

theorem Ident.no_dot {s : Str} (h : Ident s) : '.' ∉ s := fun hd => by
  rcases h.2 _ hd with h | h <;> revert h <;> decide
theorem Ident.no_star {s : Str} (h : Ident s) : '*' ∉ s := fun hd => by
  rcases h.2 _ hd with h | h <;> revert h <;> decide
theorem Ident.isString {s : Str} (h : Ident s) : IsString s := fun hd => by
  rcases h.2 _ hd with h | h <;> revert h <;> decide

theorem isString_name {a b : Str} (ha : Ident a) (hb : Ident b) : IsString (a ++ '.' :: b) :=
  isString_append.mpr ⟨ha.isString, isString_cons.mpr ⟨by decide, hb.isString⟩⟩

/-- A name that `--list-tests` prints, passed to `--filter`, runs exactly the tests of that name. -/
theorem filter_listed {set name set' name' : Str} (h1 : Ident set) (h2 : Ident name) (h3 : Ident set') (h4 : Ident name') :
    Selected (set ++ '.' :: name) (set' ++ '.' :: name') ↔ set' = set ∧ name' = name := by
  rw [filter_plain (isString_name h1 h2) (isString_name h3 h4) (by simp; exact ⟨h1.no_star, h2.no_star⟩)]
  exact ⟨fun h => dot_split h3.no_dot h1.no_dot h, fun ⟨a, b⟩ => by rw [a, b]⟩

/-- `--filter=SET.*` runs exactly the tests of the set. -/
theorem filter_set {set set' name' : Str} (h1 : Ident set) (h3 : Ident set') (h4 : Ident name') :
    Selected (set ++ ".*".toList) (set' ++ '.' :: name') ↔ set' = set := by
  have hp : IsString (set ++ ['.']) := isString_append.mpr ⟨h1.isString, by decide⟩
  have := filter_prefix (p := set ++ ['.']) hp (isString_name h3 h4) (by simp; exact h1.no_star)
  have e : set ++ ".*".toList = set ++ ['.'] ++ ['*'] := by simp
  rw [e, this]
  constructor
  · rintro ⟨s, _, h⟩
    exact (dot_split h3.no_dot h1.no_dot (by simpa using h)).1
  · rintro rfl; exact ⟨name', h4.1, by simp⟩

/-- `--filter=*.NAME` runs exactly the tests of that name, of any set. -/
theorem filter_name {name set' name' : Str} (h2 : Ident name) (h3 : Ident set') (h4 : Ident name') :
    Selected ("*.".toList ++ name) (set' ++ '.' :: name') ↔ name' = name := by
  have hq : IsString ('.' :: name) := isString_cons.mpr ⟨by decide, h2.isString⟩
  have e : "*.".toList ++ name = [] ++ '*' :: '.' :: name := by simp
  rw [e]
  constructor
  · intro h
    have := filter_sound (f := '*' :: '.' :: name) (isString_cons.mpr ⟨by decide, hq⟩) (isString_name h3 h4) h
    generalize ht : set' ++ '.' :: name' = t at this
    cases this with
    | char c hc _ => exact absurd rfl hc
    | @star u p s hg =>
      have hg := glob_plain (by simp; exact h2.no_star) hg
      subst hg
      exact (dot_split_right h4.no_dot h2.no_dot ht).2
  · rintro rfl
    have := filter_infix_partial (p := []) (q := name') (s := set') (c := '.') (by decide) hq h3.isString (by simp)
      (by simp; exact h2.no_star) h3.no_dot
    simpa using this

/-- Runs the inner loop on literals. -/
macro "inner_run" : tactic => `(tactic| (
  repeat (first
    | rw [inner_eq (by decide) (by decide) (by decide) (by decide) (by decide) (by decide)]
    | rw [inner_ne (by decide) (by decide) (by decide) (by decide) (by decide) (by decide)])
  first
    | exact inner_end_f
    | exact inner_end_t (by decide) (by decide)
    | exact inner_star (by decide) (by decide) (by decide) (by decide)))

/-- Walks along a literal part of the pattern. -/
macro "outer_run" : tactic => `(tactic|
  repeat rw [outer_eq (by decide) (by decide) (by decide) (by decide) (by decide)])

/-! ### Where the filter differs from the pattern -/

/-- A wildcard at the end never stands for nothing: the name itself is left out. -/
theorem filter_end_wrong {p : Str} (hp : IsString p) (hs : '*' ∉ p) : Glob (p ++ ['*']) p ∧ LeftOut (p ++ ['*']) p := by
  refine ⟨?_, ?_⟩
  · have h : Glob p p := by
      clear hp
      induction p with
      | nil => exact .nil
      | cons c p ih => exact .char c (fun e => hs (by simp [e])) (ih fun h => hs (by simp [h]))
    simpa using glob_snoc_star [] h
  · rcases filter_total (f := p ++ ['*']) (t := p) (isString_append.mpr ⟨hp, by decide⟩) hp with h | h
    · obtain ⟨s, hs', h⟩ := (filter_prefix hp hp hs).mp h
      exact absurd (by simpa using h) hs'
    · exact h

/-- The filter does not go back to where it began to compare the part after a wildcard: `*ab` leaves out `aab`. -/
theorem filter_back_wrong : Glob "*ab".toList "aab".toList ∧ LeftOut "*ab".toList "aab".toList := by
  refine ⟨Glob.star ['a'] (.char 'a' (by decide) (.char 'b' (by decide) .nil)), ?_⟩
  exact outer_star (i' := 1) (j' := 3) (by decide) (by decide) (by decide) (by decide) (by decide) (by inner_run) (by decide) (by decide)

/-- Nor does it look for the last place where the part after a wildcard fits: `*ab` leaves out `abab`. -/
theorem filter_last_wrong : Glob "*ab".toList "abab".toList ∧ LeftOut "*ab".toList "abab".toList := by
  refine ⟨Glob.star ['a', 'b'] (.char 'a' (by decide) (.char 'b' (by decide) .nil)), ?_⟩
  unfold LeftOut utest_should_filter_test
  dsimp only
  rw [outer_star (i' := 3) (j' := 2) (by decide) (by decide) (by decide) (by decide) (by decide) (by inner_run) (by decide) (by decide)]
  exact outer_end (f := "*ab".toList) (by decide) (by decide)

/-! ### Examples -/

example : Selected "vadd.s8".toList "vadd.s8".toList := (filter_plain (by decide) (by decide) (by decide)).mpr rfl
example : LeftOut "vadd.s8".toList "vadd.s8_exceed".toList :=
  (filter_total (by decide) (by decide)).resolve_left fun h => absurd ((filter_plain (by decide) (by decide) (by decide)).mp h) (by decide)
example : Selected "vadd.*".toList "vadd.s8_exceed".toList :=
  (filter_prefix (p := "vadd.".toList) (by decide) (by decide) (by decide)).mpr ⟨"s8_exceed".toList, by decide, by decide⟩
example : Selected "MyTest*.a".toList "MyTestCase.a".toList :=
  filter_infix_partial (p := "MyTest".toList) (s := "Case".toList) (c := '.') (q := ['a']) (by decide) (by decide) (by decide) (by decide)
    (by decide) (by decide)
example : LeftOut "MyTest*.a".toList "MyTestCase.b".toList := by
  unfold LeftOut utest_should_filter_test
  dsimp only
  outer_run
  rw [outer_star (i' := 7) (j' := 12) (by decide) (by decide) (by decide) (by decide) (by decide) (by inner_run) (by decide) (by decide)]
  rfl
example : Selected "*foo*".toList "a.foo1".toList := by
  unfold Selected utest_should_filter_test
  dsimp only
  rw [outer_star (i' := 4) (j' := 5) (by decide) (by decide) (by decide) (by decide) (by decide) (by inner_run) (by decide) (by decide)]
  rw [outer_star (i' := 5) (j' := 5) (by decide) (by decide) (by decide) (by decide) (by decide) (by inner_run) (by decide) (by decide)]
  exact outer_end (f := "*foo*".toList) (by decide) (by decide)
example : Ident "s8_exceed".toList := by refine ⟨by decide, ?_⟩; decide

end Verif.Props
