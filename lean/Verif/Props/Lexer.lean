import Verif.SpecLex

/-! Property C95: the lexer splits a text into the tokens of C++. -/

namespace Verif.Props
open Verif.Cpp Verif.SpecLex

/-! ## Characters -/

theorem isAlpha_iff (c : Nat) : isAlpha c = true ↔ Letter c := by
  simp [isAlpha, Letter, or_assoc]
theorem isDigit_iff (c : Nat) : isDigit c = true ↔ Digit c := by
  simp [isDigit, Digit]
theorem isSpace_iff (c : Nat) : isSpace c = true ↔ Space c := by
  simp only [isSpace, Space, Bool.or_eq_true, beq_iff_eq]; omega
theorem isPunct_iff (c : Nat) : isPunct c = true ↔ c = 33 ∨ c = 35 ∨ c = 37 ∨ c = 38 ∨ (40 ≤ c ∧ c ≤ 47) ∨ (58 ≤ c ∧ c ≤ 63) ∨
    c = 91 ∨ c = 93 ∨ c = 94 ∨ (123 ≤ c ∧ c ≤ 126) := by
  simp only [isPunct, Bool.or_eq_true, Bool.and_eq_true, beq_iff_eq, decide_eq_true_eq]; omega

theorem value_append (b : Nat) (l : List Nat) (d : Nat) : value b (l ++ [d]) = value b l * b + d := by
  simp [value]

theorem _root_.Verif.SpecLex.Digits.append {l ds : List Nat} (h : Digits l ds) {d : Nat} (hd : d < 10) : Digits (l ++ [48 + d]) (ds ++ [d]) := by
  induction h with
  | nil => exact .cons _ _ _ hd .nil
  | cons e l ds he _ ih => exact .cons _ _ _ he ih

theorem _root_.Verif.SpecLex.HexDigits.append {l ds m es : List Nat} (h : HexDigits l ds) (h' : HexDigits m es) : HexDigits (l ++ m) (ds ++ es) := by
  induction h with
  | nil => exact h'
  | digit e l ds he _ ih => exact .digit _ _ _ he ih
  | lower e l ds he _ ih => exact .lower _ _ _ he ih
  | upper e l ds he _ ih => exact .upper _ _ _ he ih

theorem _root_.Verif.SpecLex.Chars.append {l ds m es : List Nat} (h : Chars l ds) (h' : Chars m es) : Chars (l ++ m) (ds ++ es) := by
  induction h with
  | nil => exact h'
  | char c l cs h1 h2 h3 h4 _ ih => exact .char _ _ _ h1 h2 h3 h4 ih
  | newline l cs _ ih => exact .newline _ _ ih
  | quote l cs _ ih => exact .quote _ _ ih
  | backslash l cs _ ih => exact .backslash _ _ ih

theorem hexDigit_some {c d : Nat} (h : hexDigit c = some d) : HexDigits [c] [d] := by
  unfold hexDigit at h
  split at h
  · rename_i hc
    simp at hc
    cases h
    have := HexDigits.digit (c - 48) [] [] (by omega) .nil
    rwa [show 48 + (c - 48) = c by omega] at this
  · split at h
    · rename_i hc
      simp at hc
      cases h
      have := HexDigits.lower (c - 97) [] [] (by omega) .nil
      rwa [show 97 + (c - 97) = c by omega, show 10 + (c - 97) = c - 87 by omega] at this
    · split at h
      · rename_i hc
        simp at hc
        cases h
        have := HexDigits.upper (c - 65) [] [] (by omega) .nil
        rwa [show 65 + (c - 65) = c by omega, show 10 + (c - 65) = c - 55 by omega] at this
      · cases h

/-! ## Longest tokens -/

/-- No token goes on with the character `c` after the text `l`. -/
def Ends (l : List Nat) (c : Nat) : Prop := ∀ x, ¬ Munch (l ++ c :: x)

theorem Ends.longest {l : List Nat} {c : Nat} (h : Ends l c) (cs : List Nat) :
    ∀ l', l' <+: l ++ c :: cs → Munch l' → l'.length ≤ l.length := by
  rintro l' ⟨t, ht⟩ hm
  rcases List.append_eq_append_iff.mp ht with ⟨a, rfl, _⟩ | ⟨a, rfl, ha⟩
  · simp
  · cases a with
    | nil => simp
    | cons d a =>
      cases ha
      exact absurd hm (h a)

theorem punct_head : ∀ m ∈ punctuators, m.head?.all isPunct = true := by decide
theorem punct_ne : ∀ m ∈ punctuators, m ≠ [] := by decide
theorem punct_two : ∀ m ∈ punctuators, (match m with
    | p :: c :: _ => isPair p c || isOther p c
    | _ => true) = true := by decide
theorem punct_three : ∀ m ∈ punctuators, (match m with
    | p :: c :: d :: _ => isOther p c || ((p == 60 || p == 62) && c == p && d == 61)
    | _ => true) = true := by decide
theorem punct_one : ∀ p < 128, isPunct p = true → [p] ∈ punctuators := by decide
theorem punct_pair {p c : Nat} (h : isPair p c = true) : [p, c] ∈ punctuators ∧ isOther p c = false := by
  simp only [isPair, Bool.or_eq_true, Bool.and_eq_true, beq_iff_eq] at h
  rcases h with ⟨rfl, (((rfl | rfl) | rfl) | rfl) | rfl⟩ | ⟨rfl, ((((rfl | rfl) | rfl) | rfl) | rfl) | rfl⟩ <;> decide

theorem number_head {m : List Nat} (h : Number m) : ∃ a r, m = a :: r ∧ (Digit a ∨ (a = 46 ∧ ∃ d t, r = d :: t ∧ Digit d)) := by
  induction h with
  | digit d h => exact ⟨_, _, rfl, .inl h⟩
  | point d h => exact ⟨_, _, rfl, .inr ⟨rfl, _, _, rfl, h⟩⟩
  | more l c _ _ ih =>
    obtain ⟨a, r, rfl, h | ⟨h, d, t, rfl, hd⟩⟩ := ih
    · exact ⟨_, _, rfl, .inl h⟩
    · exact ⟨_, _, rfl, .inr ⟨h, _, _, rfl, hd⟩⟩
  | exp l e s _ _ _ ih =>
    obtain ⟨a, r, rfl, h | ⟨h, d, t, rfl, hd⟩⟩ := ih
    · exact ⟨_, _, rfl, .inl h⟩
    · exact ⟨_, _, rfl, .inr ⟨h, _, _, rfl, hd⟩⟩

/-- The characters of a number after its first. -/
theorem number_tail {m : List Nat} (h : Number m) : ∀ a c x, m = a ++ c :: x → a ≠ [] →
    Digit c ∨ Letter c ∨ c = 46 ∨ ((c = 43 ∨ c = 45) ∧ (a.getLast? = some 101 ∨ a.getLast? = some 69)) := by
  have snoc : ∀ {l a x : List Nat} {d c : Nat}, l ++ [d] = a ++ c :: x → (l = a ∧ d = c) ∨ ∃ y, l = a ++ c :: y := by
    intro l a x d c e
    rcases List.eq_nil_or_concat x with rfl | ⟨y, z, rfl⟩
    · left
      have := List.append_inj' e rfl
      exact ⟨this.1, by simpa using this.2⟩
    · right
      refine ⟨y, ?_⟩
      have : l ++ [d] = (a ++ c :: y) ++ [z] := by simpa using e
      exact (List.append_inj' this rfl).1
  induction h with
  | digit d h =>
    intro a c x e ha
    cases a with
    | nil => exact absurd rfl ha
    | cons => simp at e
  | point d h =>
    intro a c x e ha
    match a, ha with
    | [b], _ => simp at e; exact .inl (e.2.1 ▸ h)
    | b :: b' :: a, _ => simp at e
  | more l d _ hd ih =>
    intro a c x e ha
    rcases snoc e with ⟨rfl, rfl⟩ | ⟨y, hy⟩
    · rcases hd with hd | hd | hd
      · exact .inl hd
      · exact .inr (.inl hd)
      · exact .inr (.inr (.inl hd))
    · exact ih a c y hy ha
  | exp l e s _ he hs ih =>
    intro a c x eq ha
    have eq : (l ++ [e]) ++ [s] = a ++ c :: x := by simpa using eq
    rcases snoc eq with ⟨rfl, rfl⟩ | ⟨y, hy⟩
    · refine .inr (.inr (.inr ⟨hs, ?_⟩))
      rcases he with rfl | rfl <;> simp
    · rcases snoc hy with ⟨rfl, rfl⟩ | ⟨y, hy⟩
      · right; left
        rcases he with rfl | rfl <;> simp [Letter]
      · exact ih a c y hy ha

theorem name_ends {l : List Nat} {c : Nat} (hl : Name l) (h1 : ¬ Letter c) (h2 : ¬ Digit c) (h3 : c ≠ 34) (h4 : c ≠ 39) :
    Ends l c := by
  intro x hm
  cases l with
  | nil => exact hl
  | cons a l =>
    obtain ⟨ha, hl⟩ := hl
    generalize e : (a :: l) ++ c :: x = m at hm
    cases hm with
    | name _ h =>
      subst e
      rcases h.2 c (by simp) with h | h
      · exact h1 h
      · exact h2 h
    | number _ h =>
      obtain ⟨b, r, rfl, hb⟩ := number_head h
      cases e
      rcases hb with hb | ⟨hb, _⟩ <;> simp only [Letter, Digit] at * <;> omega
    | punct _ h =>
      subst e
      have := punct_head _ h
      rw [List.cons_append, List.head?_cons, Option.all_some, isPunct_iff] at this
      simp only [Letter] at ha
      omega
    | comment _ h =>
      subst e
      have : a = 47 := by
        rcases h with h | h <;> simp at h <;> exact h.1
      simp only [Letter] at ha
      omega
    | literal q b s hq hb hs =>
      simp at e
      simp only [Letter] at ha
      omega
    | prefixed p q y hp hq =>
      cases p with
      | nil => exact hp
      | cons b p =>
        rcases List.append_eq_append_iff.mp e with ⟨t, ht, ht'⟩ | ⟨t, ht, ht'⟩
        · cases t with
          | nil => cases ht'; omega
          | cons d t =>
            cases ht'
            have : b = a ∧ p = l ++ c :: t := by simpa using ht
            rcases hp.2 c (by rw [this.2]; simp) with h | h
            · exact h1 h
            · exact h2 h
        · cases t with
          | nil => cases ht'; omega
          | cons d t =>
            cases ht'
            have : a = b ∧ l = p ++ q :: t := by simpa using ht
            have := hl q (by rw [this.2]; simp)
            simp only [Letter, Digit] at this
            omega

theorem number_ends {a : Nat} {l : List Nat} {c : Nat} (ha : Digit a) (h1 : ¬ Letter c) (h2 : ¬ Digit c) (h3 : c ≠ 46)
    (h4 : (c = 43 ∨ c = 45) → (a :: l).getLast? ≠ some 101 ∧ (a :: l).getLast? ≠ some 69) : Ends (a :: l) c := by
  intro x hm
  generalize e : (a :: l) ++ c :: x = m at hm
  cases hm with
  | name _ h =>
    subst e
    have := h.1
    simp only [Letter, Digit] at *
    omega
  | number _ h =>
    rcases number_tail h _ _ _ e.symm (by simp) with h | h | h | ⟨h, h'⟩
    · exact h2 h
    · exact h1 h
    · exact h3 h
    · obtain ⟨p, q⟩ := h4 h
      rcases h' with h' | h'
      · exact p h'
      · exact q h'
  | punct _ h =>
    subst e
    have := punct_head _ h
    rw [List.cons_append, List.head?_cons, Option.all_some, isPunct_iff] at this
    simp only [Digit] at ha
    omega
  | comment _ h =>
    subst e
    have : a = 47 := by
      rcases h with h | h <;> simp at h <;> exact h.1
    simp only [Digit] at ha
    omega
  | literal q b s hq hb hs =>
    simp at e
    simp only [Digit] at ha
    omega
  | prefixed p q y hp hq =>
    cases p with
    | nil => exact hp
    | cons b p =>
      have := hp.1
      simp at e
      simp only [Letter, Digit] at *
      omega

theorem op_ends {p c : Nat} (hp : isPunct p = true) (h1 : isPair p c = false) (h2 : isOther p c = false)
    (h3 : ¬ (p = 47 ∧ c = 47)) : Ends [p] c := by
  intro x hm
  have hp' := hp
  rw [isPunct_iff] at hp'
  generalize e : [p] ++ c :: x = m at hm
  cases hm with
  | name _ h =>
    subst e
    have := h.1
    simp only [Letter] at this
    omega
  | number _ h =>
    obtain ⟨b, r, rfl, hb | ⟨rfl, d, t, rfl, hd⟩⟩ := number_head h
    · cases e
      simp only [Digit] at hb
      omega
    · cases e
      rw [← isDigit_iff] at hd
      simp [isOther, hd] at h2
  | punct _ h =>
    subst e
    have := punct_two _ h
    simp [h1, h2] at this
  | comment _ h =>
    subst e
    rcases h with h | h
    · simp at h; exact h3 ⟨h.1, h.2.1⟩
    · simp at h; rw [h.1, h.2.1] at h2; exact absurd h2 (by decide)
  | literal q b s hq hb hs =>
    simp at e
    omega
  | prefixed p q y hp hq =>
    cases p with
    | nil => exact hp
    | cons b p =>
      have := hp.1
      simp at e
      simp only [Letter] at *
      omega

theorem pair_ends {p d c : Nat} (hp : isPair p d = true) (h1 : ¬ ((p = 60 ∨ p = 62) ∧ d = p ∧ c = 61)) :
    Ends [p, d] c := by
  intro x hm
  have ho := (punct_pair hp).2
  have hp' := punct_head _ (punct_pair hp).1
  rw [List.head?_cons, Option.all_some, isPunct_iff] at hp'
  generalize e : [p, d] ++ c :: x = m at hm
  cases hm with
  | name _ h =>
    subst e
    have := h.1
    simp only [Letter] at this
    omega
  | number _ h =>
    obtain ⟨b, r, rfl, hb | ⟨rfl, d, t, rfl, hd⟩⟩ := number_head h
    · cases e
      simp only [Digit] at hb
      omega
    · cases e
      simp [isPair] at hp
  | punct _ h =>
    subst e
    have := punct_three _ h
    simp [ho] at this
    exact h1 ⟨this.1.1, this.1.2, this.2⟩
  | comment _ h =>
    subst e
    rcases h with h | h <;> simp at h
  | literal q b s hq hb hs =>
    simp at e
    omega
  | prefixed p q y hp hq =>
    cases p with
    | nil => exact hp
    | cons b p =>
      have := hp.1
      simp at e
      simp only [Letter] at *
      omega

/-- Where a literal ends. -/
theorem body_eq {q : Nat} {l l' : List Nat} (hq : q ≠ 92) (h : Body q l) (h' : Body q l') : ∀ {s s' : List Nat},
    l ++ q :: s = l' ++ q :: s' → l = l' ∧ s = s' := by
  induction h generalizing l' with
  | nil =>
    intro s s' e
    cases h' with
    | nil => simpa using e
    | char c l h1 h2 h3 h => simp at e; exact absurd e.1.symm h1
    | esc c l h1 h => simp at e; exact absurd e.1 hq
  | char c l h1 h2 h3 h ih =>
    intro s s' e
    cases h' with
    | nil => simp at e; exact absurd e.1 h1
    | char c' l' _ _ _ h' =>
      simp at e
      obtain ⟨rfl, e⟩ := e
      obtain ⟨rfl, rfl⟩ := ih h' e
      exact ⟨rfl, rfl⟩
    | esc c l h1 h => simp at e; exact absurd e.1 h2
  | esc c l h1 h ih =>
    intro s s' e
    cases h' with
    | nil => simp at e; exact absurd e.1.symm hq
    | char c' l' _ h2 _ h' => simp at e; exact absurd e.1.symm h2
    | esc c' l' _ h' =>
      simp at e
      obtain ⟨rfl, e⟩ := e
      obtain ⟨rfl, rfl⟩ := ih h' e
      exact ⟨rfl, rfl⟩

theorem literal_ends {q : Nat} {l : List Nat} {c : Nat} (hq : q = 34 ∨ q = 39) (hl : Body q l) (h : ¬ Letter c) :
    Ends (q :: l ++ [q]) c := by
  intro x hm
  generalize e : (q :: l ++ [q]) ++ c :: x = m at hm
  cases hm with
  | name _ h =>
    subst e
    have := h.1
    simp only [Letter] at this
    omega
  | number _ h =>
    obtain ⟨b, r, rfl, hb | ⟨rfl, d, t, rfl, hd⟩⟩ := number_head h
    · cases e
      simp only [Digit] at hb
      omega
    · simp only [List.cons_append, List.cons.injEq] at e
      omega
  | punct _ h =>
    subst e
    have := punct_head _ h
    rw [List.cons_append, List.cons_append, List.head?_cons, Option.all_some, isPunct_iff] at this
    omega
  | comment _ h =>
    subst e
    rcases h with h | h <;> simp at h <;> omega
  | literal q' b s hq' hb hs =>
    simp at e
    obtain ⟨rfl, e⟩ := e
    obtain ⟨rfl, rfl⟩ := body_eq (by omega) hl hb e
    rcases hs with hs | hs
    · cases hs
    · exact h hs.1
  | prefixed p q y hp hq =>
    cases p with
    | nil => exact hp
    | cons b p =>
      have := hp.1
      simp at e
      simp only [Letter] at *
      omega

theorem _root_.Verif.SpecLex.Chars.body {l cs : List Nat} (h : Chars l cs) : Body 34 l := by
  induction h with
  | nil => exact .nil
  | char c l cs h1 h2 h3 h4 _ ih => exact .char _ _ h1 h2 h3 ih
  | newline l cs _ ih => exact .esc _ _ (by decide) ih
  | quote l cs _ ih => exact .esc _ _ (by decide) ih
  | backslash l cs _ ih => exact .esc _ _ (by decide) ih

/-! ## The modes of the lexer -/

/-- What the text read since the last complete token is in each mode. -/
inductive Pending : Mode → List Nat → Prop
  | none : Pending .none []
  | id (l) : Name l → Pending (.id (value 256 l)) l
  | zero : Pending .zero [48]
  | num (l d ds) : Digits l (d :: ds) → d ≠ 0 → Pending (.num (value 10 (d :: ds))) l
  | point (l n) : Decimal l n → Pending (.point n) (l ++ [46])
  | dbl (l n) : Decimal l n → Pending (.dbl n) (l ++ [46, 48])
  | ox : Pending .ox [48, 120]
  | hex (l d ds) : HexDigits l (d :: ds) → Pending (.hex (value 16 (d :: ds))) (48 :: 120 :: l)
  | str (l cs) : Chars l cs → Pending (.str cs.reverse) (34 :: l)
  | esc (l cs) : Chars l cs → Pending (.esc cs.reverse) (34 :: l ++ [92])
  | quote : Pending .quote [39]
  | chr (c) : c ≠ 39 → c ≠ 92 → c ≠ 10 → c < 128 → Pending (.chr c) [39, c]
  | lit (q l t) : q = 34 ∨ q = 39 → Body q l → Lexeme (q :: l ++ [q]) t → Pending (.lit t) (q :: l ++ [q])
  | line (l) : 10 ∉ l → 92 ∉ l → Pending .line (47 :: 47 :: l)
  | op (c) : isPunct c = true → Pending (.op c) [c]
  | shift (c) : c = 60 ∨ c = 62 → Pending (.shift c) [c, c]

/-- What a step to the state `s` by the character `c` does, after the text `l` and the tokens `ts`. -/
def Steps (l : List Nat) (c : Nat) (ts : List Tok) (s : Lex) : Prop :=
  s.mode = .err ∨ ∃ out l', s.toks = out ++ ts ∧ Pending s.mode l' ∧
    ∀ cs new, Lexes (l' ++ cs) new → Lexes (l ++ c :: cs) (out.reverse ++ new)

theorem Steps.more {l : List Nat} {c : Nat} {ts : List Tok} {m : Mode} (h : Pending m (l ++ [c])) : Steps l c ts ⟨ts, m⟩ :=
  .inr ⟨[], _, rfl, h, fun cs new hn => by simpa using hn⟩

theorem start_steps (ts : List Tok) (c : Nat) : Steps [] c ts (Lex.start ts c) := by
  unfold Lex.start
  split
  · rename_i h
    exact .inr ⟨[], [], rfl, .none, fun cs new hn => .space _ _ _ ((isSpace_iff c).mp h) hn⟩
  split
  · rename_i h
    refine .more ?_
    have := Pending.id [c] ⟨(isAlpha_iff c).mp h, by simp⟩
    simpa [value] using this
  split
  · rename_i h
    exact .more (.op c h)
  split
  · rename_i h
    have : c = 48 := by simpa using h
    subst this
    exact .more .zero
  split
  · rename_i h h'
    rw [isDigit_iff] at h'
    simp at h
    obtain ⟨h1, h2⟩ := h'
    have := Pending.num [c] (c - 48) [] (by
      have := Digits.cons (c - 48) [] [] (by omega) .nil
      rwa [show 48 + (c - 48) = c by omega] at this) (by omega)
    exact .more (by simpa [value] using this)
  split
  · rename_i h
    have : c = 34 := by simpa using h
    subst this
    exact .more (.str [] [] .nil)
  split
  · rename_i h
    have : c = 39 := by simpa using h
    subst this
    exact .more .quote
  · exact .inl rfl

/-- A complete token before the character `c`. -/
theorem token_steps {l : List Nat} {t : Tok} (h : Lexeme l t) {c : Nat} (hc : Ends l c) (ts : List Tok) :
    Steps l c ts (Lex.start (t :: ts) c) := by
  rcases start_steps (t :: ts) c with he | ⟨out, l', ht, hp, hn⟩
  · exact .inl he
  · refine .inr ⟨out ++ [t], l', by simp [ht], hp, fun cs new h' => ?_⟩
    have := hn cs new h'
    simpa using Lexes.token l t (c :: cs) _ h (hc.longest cs) this

theorem afterNum_steps {a : Nat} {l : List Nat} {t : Tok} (h : Lexeme (a :: l) t) (ha : Digit a) {c : Nat}
    (hl : (c = 43 ∨ c = 45) → (a :: l).getLast? ≠ some 101 ∧ (a :: l).getLast? ≠ some 69) (ts : List Tok) :
    Steps (a :: l) c ts (Lex.afterNum ts t c) := by
  unfold Lex.afterNum
  split
  · exact .inl rfl
  · rename_i hc
    simp only [Bool.or_eq_true, isAlpha_iff, isDigit_iff, beq_iff_eq, not_or] at hc
    exact token_steps h (number_ends ha hc.1.1 hc.1.2 hc.2 hl) ts

theorem digits_head {l ds : List Nat} {d : Nat} (h : Digits l (d :: ds)) : ∃ a r, l = a :: r ∧ Digit a ∧ a = 48 + d := by
  cases h with
  | cons _ l _ hd _ => exact ⟨_, _, rfl, by simp only [Digit]; omega, rfl⟩

theorem digits_all {l ds : List Nat} (h : Digits l ds) : ∀ a ∈ l, Digit a := by
  induction h with
  | nil => simp
  | cons d l ds hd _ ih =>
    intro a ha
    rcases List.mem_cons.mp ha with rfl | ha
    · simp only [Digit]; omega
    · exact ih a ha

theorem getLast_digits {l ds : List Nat} (h : Digits l ds) : l.getLast? ≠ some 101 ∧ l.getLast? ≠ some 69 := by
  constructor
  · intro e
    have := digits_all h _ (List.mem_of_getLast? e)
    simp [Digit] at this
  · intro e
    have := digits_all h _ (List.mem_of_getLast? e)
    simp [Digit] at this

theorem decimal_of {l ds : List Nat} {d : Nat} (h : Digits l (d :: ds)) (hd : d ≠ 0) : Decimal l (value 10 (d :: ds)) :=
  ⟨d, ds, h, fun e => absurd e hd, rfl⟩

theorem decimal_zero : Decimal [48] 0 := ⟨0, [], .cons 0 [] [] (by decide) .nil, fun _ => rfl, rfl⟩

/-- The last digit of a hexadecimal literal. -/
theorem hex_last {l ds : List Nat} (h : HexDigits l ds) : ∀ {d : Nat} {es : List Nat}, ds = d :: es →
    (l.getLast? = some 101 ∨ l.getLast? = some 69) → ∀ n, (ds.foldl (fun n d => n * 16 + d) n) % 16 = 14 := by
  induction h with
  | nil => intro d es e; cases e
  | digit c l ds hc hl ih =>
    intro d es e hlast n
    cases ds with
    | nil => cases hl; simp at hlast; omega
    | cons d' ds =>
      have : l ≠ [] := by rintro rfl; cases hl
      rw [List.getLast?_cons_of_ne_nil this] at hlast
      exact ih rfl hlast _
  | lower c l ds hc hl ih =>
    intro d es e hlast n
    cases ds with
    | nil => cases hl; simp at hlast; simp; omega
    | cons d' ds =>
      have : l ≠ [] := by rintro rfl; cases hl
      rw [List.getLast?_cons_of_ne_nil this] at hlast
      exact ih rfl hlast _
  | upper c l ds hc hl ih =>
    intro d es e hlast n
    cases ds with
    | nil => cases hl; simp at hlast; simp; omega
    | cons d' ds =>
      have : l ≠ [] := by rintro rfl; cases hl
      rw [List.getLast?_cons_of_ne_nil this] at hlast
      exact ih rfl hlast _

theorem step_steps {m : Mode} {l : List Nat} (h : Pending m l) (c : Nat) (ts : List Tok) : Steps l c ts (Lex.step ⟨ts, m⟩ c) := by
  cases h with
  | none => exact start_steps ts c
  | id _ h =>
    show Steps _ _ _ (if _ then _ else if _ then _ else _)
    split
    · rename_i hc
      simp only [Bool.or_eq_true, isAlpha_iff, isDigit_iff] at hc
      rw [← value_append]
      refine .more (.id _ ?_)
      cases l with
      | nil => exact h.elim
      | cons a l =>
        refine ⟨h.1, fun d hd => ?_⟩
        rcases List.mem_append.mp hd with hd | hd
        · exact h.2 d hd
        · simp at hd; exact hd ▸ hc
    · rename_i hc
      split
      · exact .inl rfl
      · rename_i hq
        simp only [Bool.or_eq_true, isAlpha_iff, isDigit_iff, beq_iff_eq, not_or] at hc hq
        exact token_steps (.name _ h) (name_ends h hc.1 hc.2 hq.1 hq.2) ts
  | zero =>
    show Steps _ _ _ (if _ then _ else if _ then _ else _)
    split
    · rename_i hc
      have : c = 120 := by simpa using hc
      subst this
      exact .more .ox
    split
    · rename_i hc
      have : c = 46 := by simpa using hc
      subst this
      exact .more (.point [48] 0 decimal_zero)
    · exact afterNum_steps (.decimal _ _ decimal_zero) (by simp [Digit]) (fun _ => by simp) ts
  | num _ d ds h hd =>
    show Steps _ _ _ (if _ then _ else if _ then _ else _)
    split
    · rename_i hc
      rw [isDigit_iff] at hc
      obtain ⟨h1, h2⟩ := hc
      rw [← value_append]
      refine .more (.num _ _ _ ?_ hd)
      have := h.append (d := c - 48) (by omega)
      rwa [show 48 + (c - 48) = c by omega] at this
    split
    · rename_i hc
      have : c = 46 := by simpa using hc
      subst this
      exact .more (.point _ _ (decimal_of h hd))
    · obtain ⟨a, r, rfl, ha, _⟩ := digits_head h
      exact afterNum_steps (.decimal _ _ (decimal_of h hd)) ha (fun _ => getLast_digits h) ts
  | point l n h =>
    show Steps _ _ _ (if _ then _ else _)
    split
    · rename_i hc
      have : c = 48 := by simpa using hc
      subst this
      exact .more (by simpa using Pending.dbl l n h)
    · exact .inl rfl
  | dbl l n h =>
    have hx := Lexeme.real l n h
    obtain ⟨d, ds, h, _, _⟩ := h
    obtain ⟨a, r, rfl, ha, _⟩ := digits_head h
    have hlast : (a :: r ++ [46, 48]).getLast? = some 48 := by
      rw [show a :: r ++ [46, 48] = (a :: r ++ [46]) ++ [48] by simp, List.getLast?_concat]
    refine afterNum_steps hx ha (fun _ => ?_) ts
    show (a :: r ++ [46, 48]).getLast? ≠ _ ∧ (a :: r ++ [46, 48]).getLast? ≠ _
    rw [hlast]
    decide
  | ox =>
    show Steps _ _ _ (match hexDigit c with | some d => _ | .none => _)
    split
    · rename_i d hd
      exact .more (by simpa [value] using Pending.hex [c] d [] (hexDigit_some hd))
    · exact .inl rfl
  | hex l d ds h =>
    show Steps _ _ _ (match hexDigit c with | some d => _ | .none => if _ then _ else _)
    split
    · rename_i e he
      rw [← value_append]
      exact .more (.hex _ _ _ (h.append (hexDigit_some he)))
    split
    · exact .inl rfl
    · rename_i hn
      refine afterNum_steps (.hex _ _ _ h) (by simp [Digit]) (fun hc => ?_) ts
      have hne : l ≠ [] := by rintro rfl; cases h
      have hv : value 16 (d :: ds) % 16 ≠ 14 := by
        intro e
        simp [e] at hn
        omega
      show (48 :: 120 :: l).getLast? ≠ _ ∧ (48 :: 120 :: l).getLast? ≠ _
      rw [List.getLast?_cons_of_ne_nil (by simp), List.getLast?_cons_of_ne_nil hne]
      exact ⟨fun e => hv (hex_last h rfl (.inl e) 0), fun e => hv (hex_last h rfl (.inr e) 0)⟩
  | str l cs h =>
    show Steps _ _ _ (if _ then _ else if _ then _ else if _ then _ else _)
    split
    · rename_i hc
      have : c = 34 := by simpa using hc
      subst this
      rw [List.reverse_reverse]
      exact .more (.lit 34 l _ (.inl rfl) h.body (.string l cs h))
    split
    · rename_i hc
      have : c = 92 := by simpa using hc
      subst this
      exact .more (.esc l cs h)
    split
    · exact .inl rfl
    · rename_i h1 h2 h3
      simp at h1 h2 h3
      have := Pending.str _ _ (h.append (.char c [] [] h1 h2 h3.1 (by omega) .nil))
      exact .more (by simpa using this)
  | esc l cs h =>
    show Steps _ _ _ (if _ then _ else if _ then _ else _)
    split
    · rename_i hc
      have : c = 110 := by simpa using hc
      subst this
      exact .more (by simpa using Pending.str _ _ (h.append (.newline [] [] .nil)))
    split
    · rename_i hc
      have : c = 34 ∨ c = 92 := by simpa using hc
      rcases this with rfl | rfl
      · exact .more (by simpa using Pending.str _ _ (h.append (.quote [] [] .nil)))
      · exact .more (by simpa using Pending.str _ _ (h.append (.backslash [] [] .nil)))
    · exact .inl rfl
  | quote =>
    show Steps _ _ _ (if _ then _ else _)
    split
    · exact .inl rfl
    · rename_i h
      simp at h
      exact .more (.chr c h.1.1.1 h.1.1.2 h.1.2 (by omega))
  | chr d h1 h2 h3 h4 =>
    show Steps _ _ _ (if _ then _ else _)
    split
    · rename_i hc
      have : c = 39 := by simpa using hc
      subst this
      exact .more (.lit 39 [d] _ (.inr rfl) (.char _ _ h1 h2 h3 .nil) (.char d h1 h2 h3 h4))
    · exact .inl rfl
  | lit q l t hq hb h =>
    show Steps _ _ _ (if _ then _ else _)
    split
    · exact .inl rfl
    · rename_i hc
      rw [isAlpha_iff] at hc
      exact token_steps h (literal_ends hq hb hc) ts
  | line l h1 h2 =>
    show Steps _ _ _ (if _ then _ else if _ then _ else _)
    split
    · rename_i hc
      have : c = 10 := by simpa using hc
      subst this
      exact .inr ⟨[], [], rfl, .none, fun cs new hn => by simpa using Lexes.comment l cs new h1 h2 hn⟩
    split
    · exact .inl rfl
    · rename_i hc hc'
      simp at hc hc'
      exact .more (.line _ (by simp [h1]; omega) (by simp [h2]; omega))
  | op p h =>
    show Steps _ _ _ (if _ then if _ then _ else _ else if _ then _ else if _ then _ else _)
    split
    · rename_i hp
      split
      · rename_i hs
        simp at hs
        obtain ⟨rfl, hs⟩ := hs
        exact .more (.shift p hs)
      · rename_i hs
        refine .inr ⟨[_], [], rfl, .none, fun cs new hn => ?_⟩
        have hl := Lexeme.punct _ (punct_pair hp).1
        simp [value] at hl
        have : ∀ l', l' <+: [p, c] ++ cs → Munch l' → l'.length ≤ 2 := by
          cases cs with
          | nil => intro l' hl' _; simpa using hl'.length_le
          | cons x xs =>
            refine (pair_ends hp ?_).longest xs
            rintro ⟨h1, rfl, _⟩
            simp at hs
            omega
        exact Lexes.token [p, c] _ cs new hl this hn
    split
    · rename_i hc
      simp at hc
      obtain ⟨rfl, rfl⟩ := hc
      exact .more (.line [] (by simp) (by simp))
    split
    · exact .inl rfl
    · rename_i h1 h2 h3
      have hl := Lexeme.punct _ (punct_one p (by rw [isPunct_iff] at h; omega) h)
      simp [value] at hl
      exact token_steps hl (op_ends h (by simpa using h1) (by simpa using h3) (by simpa using h2)) ts
  | shift p h =>
    show Steps _ _ _ (if _ then _ else _)
    split
    · exact .inl rfl
    · rename_i hc
      have hp : isPair p p = true := by rcases h with rfl | rfl <;> rfl
      have hl := Lexeme.punct _ (punct_pair hp).1
      simp [value] at hl
      exact token_steps hl (pair_ends hp (by simp at hc; omega)) ts

theorem err_steps (cs : List Nat) : ∀ ts, (cs.foldl Lex.step ⟨ts, .err⟩).mode = .err := by
  induction cs with
  | nil => intro ts; rfl
  | cons c cs ih => intro ts; exact ih ts

theorem run_lexes (cs : List Nat) : ∀ (ts : List Tok) (m : Mode) (l : List Nat), Pending m l →
    (cs.foldl Lex.step ⟨ts, m⟩).mode = .none →
    ∃ new, (cs.foldl Lex.step ⟨ts, m⟩).toks = new.reverse ++ ts ∧ Lexes (l ++ cs) new := by
  induction cs with
  | nil =>
    intro ts m l h hm
    have : m = .none := hm
    subst this
    cases h
    exact ⟨[], rfl, .nil⟩
  | cons c cs ih =>
    intro ts m l h hm
    rw [List.foldl_cons] at hm ⊢
    have hs := step_steps h c ts
    generalize Lex.step ⟨ts, m⟩ c = s at hm hs ⊢
    obtain ⟨ts', m'⟩ := s
    rcases hs with he | ⟨out, l', ht, hp, hn⟩
    · simp only at he
      subst he
      rw [err_steps] at hm
      cases hm
    · simp only at ht hp
      obtain ⟨new, h1, h2⟩ := ih ts' m' l' hp hm
      exact ⟨out.reverse ++ new, by rw [h1, ht]; simp, hn cs new h2⟩

/-- The tokens of a text are those of C++, unless it is not in the subset. -/
theorem tokenize_sound (text : List Char) : tokenize text = [.op 0] ∨ Lexes (text.map Char.toNat ++ c!"\n") (tokenize text) := by
  have h : ((text.foldl (fun (s : Lex) c => s.step c.toNat) ⟨[], .none⟩).step 10) =
      (text.map Char.toNat ++ [10]).foldl Lex.step ⟨[], .none⟩ := by
    rw [List.foldl_append, List.foldl_map]; rfl
  unfold tokenize
  simp only [h]
  split
  · rename_i hm
    obtain ⟨new, h1, h2⟩ := run_lexes _ [] .none [] .none hm
    right
    rw [h1]
    simpa using h2
  · exact .inl rfl

/-! ## The tokens of a text are unique -/

theorem digits_unique {l ds : List Nat} (h : Digits l ds) : ∀ {es : List Nat}, Digits l es → ds = es := by
  induction h with
  | nil => intro es h; cases h; rfl
  | cons d l ds hd _ ih =>
    intro es h
    generalize e : 48 + d = x at h
    cases h with
    | cons d' _ ds' hd' h' => rw [ih h', show d = d' by omega]

theorem hexDigits_unique {l ds : List Nat} (h : HexDigits l ds) : ∀ {es : List Nat}, HexDigits l es → ds = es := by
  induction h with
  | nil => intro es h; cases h; rfl
  | digit d l ds hd _ ih =>
    intro es h
    generalize e : 48 + d = x at h
    cases h with
    | digit d' _ ds' hd' h' => rw [ih h', show d = d' by omega]
    | lower d' _ ds' hd' h' => omega
    | upper d' _ ds' hd' h' => omega
  | lower d l ds hd _ ih =>
    intro es h
    generalize e : 97 + d = x at h
    cases h with
    | digit d' _ ds' hd' h' => omega
    | lower d' _ ds' hd' h' => rw [ih h', show d = d' by omega]
    | upper d' _ ds' hd' h' => omega
  | upper d l ds hd _ ih =>
    intro es h
    generalize e : 65 + d = x at h
    cases h with
    | digit d' _ ds' hd' h' => omega
    | lower d' _ ds' hd' h' => omega
    | upper d' _ ds' hd' h' => rw [ih h', show d = d' by omega]

theorem chars_unique {l ds : List Nat} (h : Chars l ds) : ∀ {es : List Nat}, Chars l es → ds = es := by
  induction h with
  | nil => intro es h; cases h; rfl
  | char c l cs h1 h2 h3 h4 _ ih =>
    intro es h
    cases h with
    | char _ _ cs' _ _ _ _ h' => rw [ih h']
    | newline => exact absurd rfl h2
    | quote => exact absurd rfl h2
    | backslash => exact absurd rfl h2
  | newline l cs _ ih =>
    intro es h
    cases h with
    | char _ _ cs' _ h2 _ _ h' => exact absurd rfl h2
    | newline _ _ h' => rw [ih h']
  | quote l cs _ ih =>
    intro es h
    cases h with
    | char _ _ cs' _ h2 _ _ h' => exact absurd rfl h2
    | quote _ _ h' => rw [ih h']
  | backslash l cs _ ih =>
    intro es h
    cases h with
    | char _ _ cs' _ h2 _ _ h' => exact absurd rfl h2
    | backslash _ _ h' => rw [ih h']

theorem decimal_unique {l : List Nat} {n m : Nat} (h : Decimal l n) (h' : Decimal l m) : n = m := by
  obtain ⟨d, ds, hd, _, rfl⟩ := h
  obtain ⟨e, es, he, _, rfl⟩ := h'
  rw [digits_unique hd he]

theorem decimal_head {l : List Nat} {n : Nat} (h : Decimal l n) : (∃ a r, l = a :: r ∧ Digit a) ∧ ∀ a ∈ l, Digit a := by
  obtain ⟨d, ds, hd, _, rfl⟩ := h
  obtain ⟨a, r, rfl, ha, _⟩ := digits_head hd
  exact ⟨⟨a, r, rfl, ha⟩, digits_all hd⟩

theorem hexDigits_all {l ds : List Nat} (h : HexDigits l ds) : ∀ a ∈ l, Digit a ∨ Letter a := by
  induction h with
  | nil => simp
  | digit d l ds hd _ ih =>
    intro a ha
    rcases List.mem_cons.mp ha with rfl | ha
    · left; simp only [Digit]; omega
    · exact ih a ha
  | lower d l ds hd _ ih =>
    intro a ha
    rcases List.mem_cons.mp ha with rfl | ha
    · right; simp only [Letter]; omega
    · exact ih a ha
  | upper d l ds hd _ ih =>
    intro a ha
    rcases List.mem_cons.mp ha with rfl | ha
    · right; simp only [Letter]; omega
    · exact ih a ha

/-- Kinds of tokens by their first character. -/
inductive Kind : List Nat → Tok → Prop
  | name (a r) : Letter a → (∀ d ∈ r, Letter d ∨ Digit d) → Kind (a :: r) (.id (value 256 (a :: r)))
  | decimal (a r n) : Digit a → Decimal (a :: r) n → Kind (a :: r) (.num n)
  | hex (l d ds) : HexDigits l (d :: ds) → Kind (48 :: 120 :: l) (.hex (value 16 (d :: ds)))
  | real (a r n) : Digit a → Decimal (a :: r) n → Kind (a :: (r ++ [46, 48])) (.dbl n)
  | string (l cs) : Chars l cs → Kind (34 :: (l ++ [34])) (.str cs)
  | char (c) : c ≠ 39 → c ≠ 92 → c ≠ 10 → Kind [39, c, 39] (.chr c)
  | punct (a r) : isPunct a = true → a :: r ∈ punctuators → Kind (a :: r) (.op (value 256 (a :: r)))

theorem lexeme_kind {l : List Nat} {t : Tok} (h : Lexeme l t) : Kind l t := by
  cases h with
  | name _ h =>
    cases l with
    | nil => exact h.elim
    | cons a r => exact .name a r h.1 h.2
  | decimal _ n h =>
    obtain ⟨⟨a, r, rfl, ha⟩, _⟩ := decimal_head h
    exact .decimal a r n ha h
  | hex l d ds h => exact .hex l d ds h
  | real l n h =>
    obtain ⟨⟨a, r, rfl, ha⟩, _⟩ := decimal_head h
    exact .real a r n ha h
  | string l cs h => exact .string l cs h
  | char c h1 h2 h3 _ => exact .char c h1 h2 h3
  | punct _ h =>
    have := punct_head _ h
    cases l with
    | nil => exact absurd rfl (punct_ne _ h)
    | cons a r => exact .punct a r (by simpa using this) h

theorem kind_unique {l : List Nat} {t t' : Tok} (h : Kind l t) (h' : Kind l t') : t = t' := by
  cases h with
  | name a r ha hr =>
    generalize e : a :: r = m at h'
    cases h' with
    | name => cases e; rfl
    | decimal b _ _ hb => cases e; simp only [Letter, Digit] at *; omega
    | hex => cases e; simp [Letter] at ha
    | real b _ _ hb => cases e; simp only [Letter, Digit] at *; omega
    | string => cases e; simp [Letter] at ha
    | char => cases e; simp [Letter] at ha
    | punct b _ hb => cases e; rw [isPunct_iff] at hb; simp only [Letter] at *; omega
  | decimal a r n ha hr =>
    generalize e : a :: r = m at h'
    cases h' with
    | name b _ hb => cases e; simp only [Letter, Digit] at *; omega
    | decimal b _ _ hb hd => rw [e] at hr; rw [decimal_unique hr hd]
    | hex l =>
      have := (decimal_head hr).2 120 (by rw [e]; simp)
      simp [Digit] at this
    | real b r' _ hb =>
      have := (decimal_head hr).2 46 (by rw [e]; simp)
      simp [Digit] at this
    | string => cases e; simp [Digit] at ha
    | char => cases e; simp [Digit] at ha
    | punct b _ hb => cases e; rw [isPunct_iff] at hb; simp only [Digit] at *; omega
  | hex l d ds h =>
    generalize e : 48 :: 120 :: l = m at h'
    cases h' with
    | name b _ hb => cases e; simp [Letter] at hb
    | decimal b _ _ hb hd =>
      have := (decimal_head hd).2 120 (by rw [← e]; simp)
      simp [Digit] at this
    | hex l' d' ds' h' => cases e; rw [hexDigits_unique h h']
    | real b r n hb =>
      cases r with
      | nil => simp at e
      | cons c r =>
        have : 120 = c ∧ l = r ++ [46, 48] := by simpa using (List.cons.inj e).2
        rename_i hd
        have := (decimal_head hd).2 120 (by rw [← this.1]; simp)
        simp [Digit] at this
    | string => cases e
    | char => cases e
    | punct b _ hb => cases e; exact absurd hb (by decide)
  | real a r n ha hr =>
    generalize e : a :: (r ++ [46, 48]) = m at h'
    cases h' with
    | name b s hb hs =>
      cases e
      simp only [Letter, Digit] at *
      omega
    | decimal b s _ hb hd =>
      have := (decimal_head hd).2 46 (by rw [← e]; simp)
      simp [Digit] at this
    | hex l' d' ds' h' =>
      cases r with
      | nil => simp at e
      | cons c r =>
        have : c = 120 ∧ r ++ [46, 48] = l' := by simpa using (List.cons.inj e).2
        have := (decimal_head hr).2 120 (by rw [← this.1]; simp)
        simp [Digit] at this
    | real b s m hb hd =>
      have : (a :: r) ++ [46, 48] = (b :: s) ++ [46, 48] := e
      rw [(List.append_inj' this rfl).1] at hr
      rw [decimal_unique hr hd]
    | string =>
      have := (List.cons.inj e).1
      simp only [Digit] at ha
      omega
    | char =>
      have := (List.cons.inj e).1
      simp only [Digit] at ha
      omega
    | punct b _ hb => cases e; rw [isPunct_iff] at hb; simp only [Digit] at *; omega
  | string l cs h =>
    generalize e : 34 :: (l ++ [34]) = m at h'
    cases h' with
    | name b s hb hs => cases e; simp [Letter] at hb
    | decimal b s _ hb hd => cases e; simp [Digit] at hb
    | hex l' d' ds' h' => cases e
    | real b s m hb hd =>
      have := (List.cons.inj e).1
      simp only [Digit] at hb
      omega
    | string l' cs' h' =>
      have : l ++ [34] = l' ++ [34] := (List.cons.inj e).2
      rw [(List.append_inj' this rfl).1] at h
      rw [chars_unique h h']
    | char => cases e
    | punct b _ hb => cases e; exact absurd hb (by decide)
  | char c =>
    generalize e : [39, c, 39] = m at h'
    cases h' with
    | name b s hb hs => cases e; simp [Letter] at hb
    | decimal b s _ hb hd => cases e; simp [Digit] at hb
    | hex l' d' ds' h' => cases e
    | real b s m hb hd =>
      have := (List.cons.inj e).1
      simp only [Digit] at hb
      omega
    | string l' cs' h' => cases e
    | char => cases e; rfl
    | punct b _ hb => cases e; exact absurd hb (by decide)
  | punct a r ha h =>
    generalize e : a :: r = m at h'
    rw [isPunct_iff] at ha
    cases h' with
    | name b s hb hs => cases e; simp only [Letter] at hb; omega
    | decimal b s _ hb hd => cases e; simp only [Digit] at hb; omega
    | hex l' d' ds' h' => cases e; omega
    | real b s m hb hd => cases e; simp only [Digit] at hb; omega
    | string l' cs' h' => cases e; omega
    | char => cases e; omega
    | punct b _ hb => cases e; rfl

theorem decimal_number {l ds : List Nat} (h : Digits l ds) : ∀ m, Number m → Number (m ++ l) := by
  induction h with
  | nil => intro m hm; simpa using hm
  | cons d l ds hd _ ih =>
    intro m hm
    have := ih _ (.more m (48 + d) hm (.inl (by simp only [Digit]; omega)))
    simpa using this

theorem number_more {l : List Nat} (h : ∀ a ∈ l, Digit a ∨ Letter a) : ∀ m, Number m → Number (m ++ l) := by
  induction l with
  | nil => intro m hm; simpa using hm
  | cons a l ih =>
    intro m hm
    have := ih (fun b hb => h b (List.mem_cons_of_mem _ hb)) _ (.more m a hm (by
      rcases h a (List.mem_cons_self ..) with h | h
      · exact .inl h
      · exact .inr (.inl h)))
    simpa using this

theorem number_of_decimal {l : List Nat} {n : Nat} (h : Decimal l n) : Number l := by
  obtain ⟨⟨a, r, rfl, ha⟩, hall⟩ := decimal_head h
  exact number_more (fun b hb => .inl (hall b (List.mem_cons_of_mem _ hb))) [a] (.digit a ha)

/-- Every token of the subset is a token of C++. -/
theorem lexeme_munch {l : List Nat} {t : Tok} (h : Lexeme l t) : Munch l := by
  cases h with
  | name _ h => exact .name _ h
  | decimal _ n h => exact .number _ (number_of_decimal h)
  | hex l d ds h =>
    refine .number _ (number_more (l := 120 :: l) (fun a ha => ?_) [48] (.digit 48 (by simp [Digit])))
    rcases List.mem_cons.mp ha with rfl | ha
    · right; simp [Letter]
    · exact hexDigits_all h a ha
  | real l n h =>
    have := Number.more _ 48 (.more _ 46 (number_of_decimal h) (.inr (.inr rfl))) (.inl (by simp [Digit]))
    exact .number _ (by simpa using this)
  | string l cs h => exact .literal 34 l [] (.inl rfl) h.body (.inl rfl)
  | char c h1 h2 h3 _ => exact .literal 39 [c] [] (.inr rfl) (.char _ _ h1 h2 h3 .nil) (.inl rfl)
  | punct _ h => exact .punct _ h

theorem lexeme_cons {l : List Nat} {t : Tok} (h : Lexeme l t) : ∃ a r, l = a :: r ∧ ¬ Space a ∧
    (a = 47 → r = [] ∨ r = [61]) := by
  cases lexeme_kind h with
  | name a r ha => exact ⟨a, r, rfl, by simp only [Letter, Space] at *; omega, by simp only [Letter] at ha; omega⟩
  | decimal a r n ha => exact ⟨a, r, rfl, by simp only [Digit, Space] at *; omega, by simp only [Digit] at ha; omega⟩
  | hex l d ds h => exact ⟨_, _, rfl, by simp [Space], by omega⟩
  | real a r n ha => exact ⟨a, _, rfl, by simp only [Digit, Space] at *; omega, by simp only [Digit] at ha; omega⟩
  | string l cs h => exact ⟨_, _, rfl, by simp [Space], by omega⟩
  | char c => exact ⟨_, _, rfl, by simp [Space], by omega⟩
  | punct a r ha hmem =>
    refine ⟨a, r, rfl, ?_, ?_⟩
    · rw [isPunct_iff] at ha; simp only [Space]; omega
    · rintro rfl
      have : ∀ m ∈ punctuators, m.head? = some 47 → m.tail = [] ∨ m.tail = [61] := by decide
      exact this (47 :: r) hmem rfl

/-- A text has at most one list of tokens. -/
theorem lexes_unique {cs : List Nat} {ts : List Tok} (h : Lexes cs ts) : ∀ {ts' : List Tok}, Lexes cs ts' → ts = ts' := by
  induction h with
  | nil =>
    intro ts' h
    generalize e : ([] : List Nat) = m at h
    cases h with
    | nil => rfl
    | space => cases e
    | comment => cases e
    | token l t cs ts hl =>
      obtain ⟨a, r, rfl, _⟩ := lexeme_cons hl
      cases e
  | space c cs ts hc _ ih =>
    intro ts' h
    generalize e : c :: cs = m at h
    cases h with
    | nil => cases e
    | space _ _ _ _ h => cases e; exact ih h
    | comment => cases e; simp [Space] at hc
    | token l t cs ts hl =>
      obtain ⟨a, r, rfl, ha, _⟩ := lexeme_cons hl
      cases e
      exact absurd hc ha
  | comment l cs ts h1 h2 _ ih =>
    intro ts' h
    generalize e : [47, 47] ++ l ++ 10 :: cs = m at h
    cases h with
    | nil => cases e
    | space _ _ _ hs h => cases e; simp [Space] at hs
    | comment l' cs' _ h1' _ h =>
      have e : l ++ 10 :: cs = l' ++ 10 :: cs' := by simpa using e
      have : l = l' ∧ cs = cs' := by
        rcases List.append_eq_append_iff.mp e with ⟨t, ht, ht'⟩ | ⟨t, ht, ht'⟩
        · cases t with
          | nil => cases ht'; exact ⟨by simpa using ht.symm, rfl⟩
          | cons d t => cases ht'; exact absurd (by rw [ht]; simp) h1'
        · cases t with
          | nil => cases ht'; exact ⟨by simpa using ht, rfl⟩
          | cons d t => cases ht'; exact absurd (by rw [ht]; simp) h1
      obtain ⟨rfl, rfl⟩ := this
      exact ih h
    | token l' t cs ts hl hm =>
      obtain ⟨a, r, rfl, ha, hr⟩ := lexeme_cons hl
      exfalso
      have e1 : 47 = a := (List.cons.inj e).1
      subst e1
      have := hm [47, 47] (by rw [← e]; exact ⟨l ++ 10 :: _, by simp; rfl⟩) (.comment _ (.inl rfl))
      rcases hr rfl with rfl | rfl
      · simp at this
      · cases e
  | token l t cs ts hl hm _ ih =>
    intro ts' h
    generalize e : l ++ cs = m at h
    obtain ⟨a, r, hcons, ha, hr⟩ := lexeme_cons hl
    cases h with
    | nil => subst hcons; cases e
    | space _ _ _ hs h => subst hcons; cases e; exact absurd hs ha
    | comment l' cs' _ h1' _ h =>
      exfalso
      have e1 : a = 47 := by subst hcons; exact (List.cons.inj e).1
      subst e1
      have := hm [47, 47] (by rw [e]; exact ⟨l' ++ 10 :: cs', by simp⟩) (.comment _ (.inl rfl))
      subst hcons
      rcases hr rfl with rfl | rfl
      · simp at this
      · cases e
    | token l' t' cs' ts' hl' hm' h =>
      have h1 := hm l' (by rw [e]; exact ⟨_, rfl⟩) (lexeme_munch hl')
      have h2 := hm' l (by rw [← e]; exact ⟨_, rfl⟩) (lexeme_munch hl)
      obtain ⟨rfl, rfl⟩ := List.append_inj e (by omega)
      rw [kind_unique (lexeme_kind hl) (lexeme_kind hl'), ih h]

/-- The tokens that the lexer finds are the only ones that the text has. -/
theorem tokenize_exact (text : List Char) (ts : List Tok) (h : Lexes (text.map Char.toNat ++ c!"\n") ts) :
    tokenize text = [.op 0] ∨ tokenize text = ts := by
  rcases tokenize_sound text with h' | h'
  · exact .inl h'
  · exact .inr (lexes_unique h' h)

end Verif.Props
