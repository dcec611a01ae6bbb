import Verif.SpecGrammar

/-! Property C95, continued: the parser builds the tree of the grammar. -/

namespace Verif.Props
open Verif.Cpp Verif.SpecGrammar
open scoped Verif.Cpp

/-! ## Tables -/

theorem if_some {α : Type} {x k : Nat} {v w : α} {r : Option α} (h : (if x == k then some v else r) = some w) :
    (x = k ∧ v = w) ∨ r = some w := by
  by_cases hx : x = k
  · subst hx
    rw [if_pos (beq_self_eq_true x)] at h
    exact .inl ⟨rfl, Option.some.inj h⟩
  · rw [if_neg (by simpa using hx)] at h
    exact .inr h

theorem scalar_iff (x : Nat) (e : Elem) : scalar x = some e ↔ (x, e) ∈ scalars := by
  constructor
  · intro h
    unfold scalar at h
    iterate 14
      rcases if_some h with ⟨rfl, rfl⟩ | h
      · decide
    cases h
  · intro h
    have : ∀ p ∈ scalars, scalar p.1 = some p.2 := by decide +kernel
    exact this _ h

theorem limit_iff (x : Nat) (a : Expr) : limit x = some a ↔ ∃ t v, (x, t, v) ∈ limits ∧ a = .num t v := by
  constructor
  · intro h
    unfold limit at h
    iterate 12
      rcases if_some h with ⟨rfl, rfl⟩ | h
      · exact ⟨_, _, by decide, rfl⟩
    cases h
  · rintro ⟨t, v, h, rfl⟩
    have : ∀ p ∈ limits, limit p.1 = some (.num p.2.1 p.2.2) := by decide +kernel
    exact this _ h

theorem binOp_iff (o q : Nat) (op : BinOp) : binOp o = some (q, op) ↔ (q, o, op) ∈ operators := by
  constructor
  · intro h
    unfold binOp at h
    iterate 17
      rcases if_some h with ⟨rfl, h⟩ | h
      · cases h; decide
    cases h
  · intro h
    have : ∀ p ∈ operators, binOp p.2.1 = some (p.1, p.2.2) := by decide +kernel
    exact this _ h

theorem ident_iff (x : Nat) : ident x = true ↔ Ident x := by
  unfold ident Ident
  rw [Bool.and_eq_true, Bool.not_eq_true', ← Bool.not_eq_true, List.elem_iff, Option.isNone_iff_eq_none]
  constructor
  · rintro ⟨h, h'⟩
    refine ⟨h, fun e he => ?_⟩
    rw [← scalar_iff, h'] at he
    cases he
  · rintro ⟨h, h'⟩
    refine ⟨h, ?_⟩
    cases hs : scalar x with
    | none => rfl
    | some e => exact absurd ((scalar_iff x e).mp hs) (h' e)

theorem isValue_nat (t : ITy) (n : Nat) : SpecCpp.IsValue t n ↔ (n : Int) ≤ t.hi := by
  cases t <;> simp [SpecCpp.IsValue, SpecCpp.isSigned, SpecCpp.width, ITy.hi] <;> omega

theorem firstOf_cons (t : ITy) (ts : List ITy) (n : Nat) (s : ITy) :
    FirstOf (t :: ts) n s ↔ (s = t ∧ SpecCpp.IsValue t n) ∨ (¬ SpecCpp.IsValue t n ∧ FirstOf ts n s) := by
  constructor
  · rintro ⟨l, r, e, h, hl⟩
    cases l with
    | nil => cases e; exact .inl ⟨rfl, h⟩
    | cons a l =>
      cases e
      exact .inr ⟨hl _ (List.mem_cons_self ..), l, r, rfl, h, fun s hs => hl s (List.mem_cons_of_mem _ hs)⟩
  · rintro (⟨rfl, h⟩ | ⟨h, l, r, rfl, h', hl⟩)
    · exact ⟨[], ts, rfl, h, by simp⟩
    · refine ⟨t :: l, r, rfl, h', fun s hs => ?_⟩
      rcases List.mem_cons.mp hs with rfl | hs
      · exact h
      · exact hl s hs

theorem firstOf_nil (n : Nat) (s : ITy) : ¬ FirstOf [] n s := by
  rintro ⟨l, r, e, _⟩
  simp at e

theorem decimal_iff (n : Nat) (a : Expr) : decimal n = some a ↔ ∃ t, FirstOf [.i32, .i64] n t ∧ a = .num t n := by
  simp only [firstOf_cons, firstOf_nil, isValue_nat, ITy.hi, and_false, or_false]
  unfold decimal
  constructor
  · intro h
    split at h
    · cases h; exact ⟨_, .inl ⟨rfl, by omega⟩, rfl⟩
    split at h
    · cases h; exact ⟨_, .inr ⟨by omega, rfl, by omega⟩, rfl⟩
    · cases h
  · rintro ⟨t, ⟨rfl, h⟩ | ⟨h, rfl, h'⟩, rfl⟩
    · rw [if_pos (by omega)]
    · rw [if_neg (by omega), if_pos (by omega)]

theorem hexadecimal_iff (n : Nat) (a : Expr) : hexadecimal n = some a ↔ ∃ t, FirstOf [.i32, .u32, .i64, .u64] n t ∧ a = .num t n := by
  simp only [firstOf_cons, firstOf_nil, isValue_nat, ITy.hi, and_false, or_false]
  unfold hexadecimal
  constructor
  · intro h
    split at h
    · cases h; exact ⟨_, .inl ⟨rfl, by omega⟩, rfl⟩
    split at h
    · cases h; exact ⟨_, .inr ⟨by omega, .inl ⟨rfl, by omega⟩⟩, rfl⟩
    split at h
    · cases h; exact ⟨_, .inr ⟨by omega, .inr ⟨by omega, .inl ⟨rfl, by omega⟩⟩⟩, rfl⟩
    split at h
    · cases h; exact ⟨_, .inr ⟨by omega, .inr ⟨by omega, .inr ⟨by omega, rfl, by omega⟩⟩⟩, rfl⟩
    · cases h
  · rintro ⟨t, ⟨rfl, h⟩ | ⟨h, ⟨rfl, h'⟩ | ⟨h', ⟨rfl, h2⟩ | ⟨h2, rfl, h3⟩⟩⟩, rfl⟩
    · rw [if_pos (by omega)]
    · rw [if_neg (by omega), if_pos (by omega)]
    · rw [if_neg (by omega), if_neg (by omega), if_pos (by omega)]
    · rw [if_neg (by omega), if_neg (by omega), if_neg (by omega), if_pos (by omega)]

/-! ## Soundness -/

/-- The parser reads a prefix of the tokens that derives the tree. -/
def Reads (p : Nat) (ts : List Tok) (r : Option (Expr × List Tok)) : Prop :=
  ∀ a rest, r = some (a, rest) → ∃ u, ts = u ++ rest ∧ Derives p u a

theorem twoArgs_reads {pe : Want → List Tok → Option (Expr × List Tok)} (h : ∀ ts, Reads 0 ts (pe .cond ts)) {ts : List Tok}
    {a b : Expr} {rest : List Tok} (e : twoArgs pe ts = some (a, b, rest)) :
    ∃ u v, ts = u ++ p!"," :: v ++ p!")" :: rest ∧ Derives 0 u a ∧ Derives 0 v b := by
  unfold twoArgs at e
  split at e
  · rename_i a' ts' h1
    split at e
    · rename_i b' ts'' h2
      cases e
      obtain ⟨u, rfl, hu⟩ := h _ _ _ h1
      obtain ⟨v, rfl, hv⟩ := h _ _ _ h2
      exact ⟨u, v, by simp, hu, hv⟩
    · cases e
  · cases e

theorem minMax_reads {pe : Want → List Tok → Option (Expr × List Tok)} (h : ∀ ts, Reads 0 ts (pe .cond ts)) {f : Nat}
    {o : Option Elem} {r' rest : List Tok} {a : Expr} (e : minMax pe f o r' = some (a, rest)) :
    ∃ u v b c, r' = u ++ p!"," :: v ++ p!")" :: rest ∧ Derives 0 u b ∧ Derives 0 v c ∧
      ((f = k!"min" ∧ a = .stdMin o b c) ∨ (f = k!"max" ∧ a = .stdMax o b c)) := by
  unfold minMax at e
  split at e
  · rename_i b c ts' h1
    obtain ⟨u, v, h2, hu, hv⟩ := twoArgs_reads h h1
    split at e
    · rename_i hf
      cases e
      exact ⟨u, v, b, c, h2, hu, hv, .inl ⟨eq_of_beq hf, rfl⟩⟩
    · split at e
      · rename_i hf
        cases e
        exact ⟨u, v, b, c, h2, hu, hv, .inr ⟨eq_of_beq hf, rfl⟩⟩
      · cases e
  · cases e

theorem simple_reads {pe : Want → List Tok → Option (Expr × List Tok)} (h : ∀ ts, Reads 0 ts (pe .cond ts)) (ts : List Tok)
    (hx : ∀ x r, ts = .id x :: r → Ident x) : Reads 12 ts (simple pe ts) := by
  intro a rest e
  unfold simple at e
  split at e
  · rename_i k r
    cases hk : decimal k with
    | none => rw [hk] at e; cases e
    | some b =>
      rw [hk] at e
      cases e
      obtain ⟨t, ht, rfl⟩ := (decimal_iff k a).mp hk
      exact ⟨[_], rfl, .decimal k t ht⟩
  · rename_i k r
    cases hk : hexadecimal k with
    | none => rw [hk] at e; cases e
    | some b =>
      rw [hk] at e
      cases e
      obtain ⟨t, ht, rfl⟩ := (hexadecimal_iff k a).mp hk
      exact ⟨[_], rfl, .hex k t ht⟩
  · cases e
    exact ⟨[_], rfl, .real _⟩
  · split at e
    · rename_i h1
      cases e
      obtain ⟨u, rfl, hu⟩ := h _ _ _ h1
      exact ⟨_ :: u ++ [_], by simp, .paren u _ hu⟩
    · cases e
  · split at e
    · obtain ⟨u, v, b, c, rfl, hu, hv, ⟨rfl, rfl⟩ | ⟨rfl, rfl⟩⟩ := minMax_reads h e
      · exact ⟨_, by simp, .min u v _ _ hu hv⟩
      · exact ⟨_, by simp, .max u v _ _ hu hv⟩
    · split at e
      · rename_i hs
        rw [scalar_iff] at hs
        obtain ⟨u, v, b, c, rfl, hu, hv, ⟨rfl, rfl⟩ | ⟨rfl, rfl⟩⟩ := minMax_reads h e
        · exact ⟨_, by simp, .minT _ _ u v _ _ hs hu hv⟩
        · exact ⟨_, by simp, .maxT _ _ u v _ _ hs hu hv⟩
      · cases e
    · cases e
  · have hi := hx _ _ rfl
    split at e
    · rename_i h1
      obtain ⟨u, rfl, hu⟩ := h _ _ _ h1
      split at e
      · rename_i h2
        cases e
        obtain ⟨v, rfl, hv⟩ := h _ _ _ h2
        exact ⟨_, by simp, .lane2 _ u v _ _ hi hu hv⟩
      · cases e
    · rename_i h1
      cases e
      obtain ⟨u, rfl, hu⟩ := h _ _ _ h1
      exact ⟨_, by simp, .lane _ u _ hi hu⟩
    · cases e
  · cases e
    exact ⟨[_], rfl, .char _⟩
  · have hi := hx _ _ rfl
    cases e
    exact ⟨[_, _, _], rfl, .member _ _ hi⟩
  · have hi := hx _ _ rfl
    split at e
    · rename_i h1
      cases e
      obtain ⟨u, rfl, hu⟩ := h _ _ _ h1
      exact ⟨_, by simp, .elem _ u _ hi hu⟩
    · cases e
  · have hi := hx _ _ rfl
    split at e
    · rename_i h1
      cases e
      obtain ⟨t, v, hl, rfl⟩ := (limit_iff _ _).mp h1
      exact ⟨[_], rfl, .limit _ _ _ hl⟩
    · rename_i h1
      cases e
      refine ⟨[_], rfl, .var _ hi fun tv hl => ?_⟩
      rw [(limit_iff _ _).mpr ⟨tv.1, tv.2, hl, rfl⟩] at h1
      cases h1
  · cases e


theorem lift {p q : Nat} {u : List Tok} {a : Expr} (h : Derives q u a) (hp : p ≤ q) (hq : q ≤ 12) : Derives p u a := by
  obtain ⟨k, rfl⟩ := Nat.exists_eq_add_of_le hp
  induction k generalizing p with
  | zero => exact h
  | succ k ih => exact .higher p u a (by omega) (ih (p := p + 1) (by rwa [show p + 1 + k = p + (k + 1) by omega]) (by omega) (by omega))

/-- The tokens do not begin with a binary operator of level `p` or more. -/
def Below (p : Nat) (ts : List Tok) : Prop := ∀ o r q op, ts = .op o :: r → binOp o = some (q, op) → q < p

theorem level_le {q o : Nat} {op : BinOp} (h : (q, o, op) ∈ operators) : 1 ≤ q ∧ q ≤ 10 := by
  have : ∀ p ∈ operators, 1 ≤ p.1 ∧ p.1 ≤ 10 := by decide
  exact this _ h

theorem expr_reads (f : Nat) :
    (∀ ts, Reads 0 ts (expr f .cond ts)) ∧
    (∀ p, p ≤ 11 → ∀ ts a rest, expr f (.bin p) ts = some (a, rest) → ∃ u, ts = u ++ rest ∧ Derives p u a ∧ Below p rest) ∧
    (∀ p L u0 a0, p ≤ L → L ≤ 11 → Derives L u0 a0 → ∀ ts a rest, Below (L + 1) ts → expr f (.rest p a0) ts = some (a, rest) →
      ∃ u, ts = u ++ rest ∧ Derives p (u0 ++ u) a ∧ Below p rest) ∧
    (∀ ts, Reads 11 ts (expr f .unary ts)) := by
  induction f with
  | zero =>
    refine ⟨?_, ?_, ?_, ?_⟩
    · intro ts a rest e; cases e
    · intro p _ ts a rest e; cases e
    · intro p L u0 a0 _ _ _ ts a rest _ e; cases e
    · intro ts a rest e; cases e
  | succ f ih =>
    obtain ⟨ihc, ihb, ihr, ihu⟩ := ih
    refine ⟨?_, ?_, ?_, ?_⟩
    · intro ts a rest e
      unfold expr at e
      split at e
      · rename_i c ts1 h1
        obtain ⟨u, rfl, hu, _⟩ := ihb 1 (by omega) _ _ _ h1
        split at e
        · rename_i x ts2 h2
          obtain ⟨v, rfl, hv⟩ := ihc _ _ _ h2
          split at e
          · rename_i y ts3 h3
            cases e
            obtain ⟨w, rfl, hw⟩ := ihc _ _ _ h3
            exact ⟨_, by simp, .cond u v w _ _ _ hu hv hw⟩
          · cases e
        · cases e
      · obtain ⟨u, rfl, hu, _⟩ := ihb 1 (by omega) _ _ _ e
        exact ⟨u, rfl, .higher 0 u a (by omega) hu⟩
    · intro p hp ts a rest e
      unfold expr at e
      split at e
      · rename_i a1 ts1 h1
        obtain ⟨u, rfl, hu⟩ := ihu _ _ _ h1
        obtain ⟨v, rfl, hv, hb⟩ := ihr p 11 u a1 hp (by omega) hu _ _ _ (by
          intro o r q op _ ho
          have := level_le ((binOp_iff ..).mp ho)
          omega) e
        exact ⟨u ++ v, by simp, hv, hb⟩
      · cases e
    · intro p L u0 a0 hpL hL hd ts a rest hb e
      unfold expr at e
      split at e
      · rename_i o ts'
        split at e
        · rename_i q op ho
          have hq := hb o ts' q op rfl ho
          have hm := (binOp_iff ..).mp ho
          have hlev := level_le hm
          split at e
          · split at e
            · rename_i b ts2 h2
              obtain ⟨v, rfl, hv, hbv⟩ := ihb (q + 1) (by omega) _ _ _ h2
              have hnew : Derives q (u0 ++ .op o :: v) (.bin op a0 b) :=
                .binary q o op u0 v a0 b hm (lift hd (by omega) (by omega)) hv
              obtain ⟨w, rfl, hw, hbw⟩ := ihr p q _ _ (by assumption) (by omega) hnew _ _ _ hbv e
              exact ⟨.op o :: v ++ w, by simp, by simpa using hw, hbw⟩
            · cases e
          · rename_i hlt
            cases e
            refine ⟨[], rfl, by simpa using lift hd hpL (by omega), ?_⟩
            intro o' r q' op' e' ho'
            cases e'
            rw [ho] at ho'
            cases ho'
            omega
        · rename_i ho
          cases e
          refine ⟨[], rfl, by simpa using lift hd hpL (by omega), ?_⟩
          intro o' r q' op' e' ho'
          cases e'
          rw [ho] at ho'
          cases ho'
      · rename_i hno
        cases e
        refine ⟨[], rfl, by simpa using lift hd hpL (by omega), ?_⟩
        intro o' r q' op' e' ho'
        exact absurd e' (hno _ _)
    · intro ts a rest e
      have prim : ∀ ts, Reads 11 ts (primary (expr f) ts) := by
        intro ts a rest e
        unfold primary at e
        split at e
        · split at e
          · rename_i hi
            obtain ⟨u, h1, h2⟩ := simple_reads ihc _ (by
              intro x r ex
              cases ex
              exact (ident_iff _).mp hi) _ _ e
            exact ⟨u, h1, .higher 11 u a (by omega) h2⟩
          · cases e
        · rename_i hno
          obtain ⟨u, h1, h2⟩ := simple_reads ihc _ (by
            intro x r ex
            exact absurd ex (hno x r)) _ _ e
          exact ⟨u, h1, .higher 11 u a (by omega) h2⟩
      unfold expr at e
      split at e
      · rename_i ts1
        cases h1 : expr f .unary ts1 with
        | none => rw [h1] at e; cases e
        | some b =>
          rw [h1] at e
          cases e
          obtain ⟨u, rfl, hu⟩ := ihu _ _ _ h1
          exact ⟨_, rfl, .compl u _ hu⟩
      · rename_i ts1
        cases h1 : expr f .unary ts1 with
        | none => rw [h1] at e; cases e
        | some b =>
          rw [h1] at e
          cases e
          obtain ⟨u, rfl, hu⟩ := ihu _ _ _ h1
          exact ⟨_, rfl, .not u _ hu⟩
      · rename_i t ts1
        split at e
        · rename_i el hel
          rw [scalar_iff] at hel
          cases h1 : expr f .unary ts1 with
          | none => rw [h1] at e; cases e
          | some b =>
            rw [h1] at e
            cases e
            obtain ⟨u, rfl, hu⟩ := ihu _ _ _ h1
            exact ⟨_, rfl, .cast _ _ u _ hel hu⟩
        · exact prim _ _ _ e
      · exact prim _ _ _ e

/-! ## More steps -/

/-- What one parser reads, the other reads too. -/
def Extends (pe pe' : Want → List Tok → Option (Expr × List Tok)) : Prop := ∀ w ts x, pe w ts = some x → pe' w ts = some x

theorem twoArgs_mono {pe pe' : Want → List Tok → Option (Expr × List Tok)} (h : Extends pe pe') {ts : List Tok} {x}
    (e : twoArgs pe ts = some x) : twoArgs pe' ts = some x := by
  unfold twoArgs at e ⊢
  split at e
  · rename_i h1
    split at e
    · rename_i h2
      simp only [h _ _ _ h1, h _ _ _ h2]
      exact e
    · cases e
  · cases e

theorem minMax_mono {pe pe' : Want → List Tok → Option (Expr × List Tok)} (h : Extends pe pe') {f : Nat} {o : Option Elem}
    {ts : List Tok} {x} (e : minMax pe f o ts = some x) : minMax pe' f o ts = some x := by
  unfold minMax at e ⊢
  split at e
  · rename_i h1
    rw [twoArgs_mono h h1]
    exact e
  · cases e

theorem simple_mono {pe pe' : Want → List Tok → Option (Expr × List Tok)} (h : Extends pe pe') {ts : List Tok} {x}
    (e : simple pe ts = some x) : simple pe' ts = some x := by
  unfold simple at e ⊢
  split at e
  · exact e
  · exact e
  · exact e
  · split at e
    · rename_i h1
      rw [h _ _ _ h1]
      exact e
    · cases e
  · split at e
    · exact minMax_mono h e
    · split at e
      · exact minMax_mono h e
      · cases e
    · cases e
  · rename_i y ts1
    cases hp : pe .cond ts1 with
    | none => rw [hp] at e; cases e
    | some z =>
      rw [hp] at e
      rw [h _ _ _ hp]
      obtain ⟨i, r⟩ := z
      split at e
      · split at e
        · rename_i h2
          rw [h _ _ _ h2]
          exact e
        · cases e
      · exact e
      · cases e
  · exact e
  · exact e
  · rename_i y ts1
    cases hp : pe .cond ts1 with
    | none => rw [hp] at e; cases e
    | some z =>
      rw [hp] at e
      rw [h _ _ _ hp]
      exact e
  · exact e
  · cases e

theorem primary_mono {pe pe' : Want → List Tok → Option (Expr × List Tok)} (h : Extends pe pe') {ts : List Tok} {x}
    (e : primary pe ts = some x) : primary pe' ts = some x := by
  unfold primary at e ⊢
  split at e
  · split at e
    · rename_i hi
      rw [if_pos hi]
      exact simple_mono h e
    · cases e
  · exact simple_mono h e

theorem expr_mono (f : Nat) : Extends (expr f) (expr (f + 1)) := by
  induction f with
  | zero => intro w ts x e; cases e
  | succ f ih =>
    intro w ts x e
    have hmap : ∀ {ts : List Tok} {g : Expr × List Tok → Expr × List Tok}, (expr f .unary ts).map g = some x →
        (expr (f + 1) .unary ts).map g = some x := by
      intro ts g e
      cases h1 : expr f .unary ts with
      | none => rw [h1] at e; cases e
      | some y => rw [h1] at e; rw [ih _ _ _ h1]; exact e
    cases w with
    | cond =>
      unfold expr at e ⊢
      cases h1 : expr f (.bin 1) ts with
      | none => rw [h1] at e; cases e
      | some y =>
        rw [h1] at e
        rw [ih _ _ _ h1]
        obtain ⟨c, r⟩ := y
        split at e
        · split at e
          · rename_i h2
            split at e
            · rename_i h3
              simp only [ih _ _ _ h2, ih _ _ _ h3]
              exact e
            · cases e
          · cases e
        · exact e
    | bin p =>
      unfold expr at e ⊢
      split at e
      · rename_i h1
        rw [ih _ _ _ h1]
        exact ih _ _ _ e
      · cases e
    | rest p a =>
      unfold expr at e ⊢
      split at e
      · split at e
        · rename_i ho
          split at e
          · rename_i hp
            simp only [if_pos hp]
            split at e
            · rename_i h2
              rw [ih _ _ _ h2]
              exact ih _ _ _ e
            · cases e
          · rename_i hp
            simp only [if_neg hp]
            exact e
        · rename_i ho
          exact e
      · exact e
    | unary =>
      unfold expr at e ⊢
      split at e
      · exact hmap e
      · exact hmap e
      · split at e
        · rename_i hs
          exact hmap e
        · rename_i hs
          exact primary_mono ih e
      · exact primary_mono ih e

theorem expr_le {f g : Nat} (h : f ≤ g) : Extends (expr f) (expr g) := by
  induction h with
  | refl => intro w ts x e; exact e
  | step _ ih => intro w ts x e; exact expr_mono _ _ _ _ (ih _ _ _ e)

/-! ## Completeness -/

/-- The tokens do not continue a primary expression. -/
def Follow (ts : List Tok) : Prop := ∀ r, ts ≠ p!"." :: r ∧ ts ≠ p!"[" :: r ∧ ts ≠ p!"::" :: r

/-- The tokens end an expression: they are none, or begin with a closing bracket, a colon, a separator or an assignment. -/
def Stop (ts : List Tok) : Prop := Follow ts ∧ Below 1 ts ∧ ∀ r, ts ≠ p!"?" :: r

theorem stop_op {o : Nat} {r : List Tok} (h : binOp o = none) (h1 : o ≠ k!"." ∧ o ≠ k!"[" ∧ o ≠ k!"::" ∧ o ≠ k!"?") :
    Stop (.op o :: r) := by
  refine ⟨fun s => ⟨?_, ?_, ?_⟩, ?_, ?_⟩
  · intro e; cases e; exact h1.1 rfl
  · intro e; cases e; exact h1.2.1 rfl
  · intro e; cases e; exact h1.2.2.1 rfl
  · intro o' r' q op e ho
    cases e
    rw [h] at ho
    cases ho
  · intro s e; cases e; exact h1.2.2.2 rfl

theorem follow_op {o q : Nat} {op : BinOp} (h : (q, o, op) ∈ operators) (r : List Tok) : Follow (.op o :: r) := by
  have : ∀ p ∈ operators, p.2.1 ≠ k!"." ∧ p.2.1 ≠ k!"[" ∧ p.2.1 ≠ k!"::" := by decide
  have := this _ h
  intro s
  refine ⟨?_, ?_, ?_⟩
  · intro e; cases e; exact this.1 rfl
  · intro e; cases e; exact this.2.1 rfl
  · intro e; cases e; exact this.2.2 rfl

theorem Below.mono {p q : Nat} {ts : List Tok} (h : Below p ts) (hp : p ≤ q) : Below q ts :=
  fun o r l op e ho => Nat.lt_of_lt_of_le (h o r l op e ho) hp

theorem rest_done {p : Nat} {a : Expr} {r : List Tok} (h : Below p r) (f : Nat) : expr (f + 1) (.rest p a) r = some (a, r) := by
  unfold expr
  split
  · rename_i o ts'
    split
    · rename_i q op ho
      have := h o ts' q op rfl ho
      rw [if_neg (by omega)]
    · rfl
  · rfl

/-- The parser reads the tree from the tokens `u`, whatever follows. -/
def CUnary (u : List Tok) (a : Expr) : Prop := ∀ r, Follow r → ∃ f, expr f .unary (u ++ r) = some (a, r)
@[inherit_doc CUnary]
def CBin (p : Nat) (u : List Tok) (a : Expr) : Prop := ∀ r, Follow r → Below (p + 1) r → ∀ q, q ≤ p → ∀ f res,
  expr f (.rest q a) r = some res → ∃ g, expr g (.bin q) (u ++ r) = some res
@[inherit_doc CUnary]
def CCond (u : List Tok) (a : Expr) : Prop := ∀ r, Stop r → ∃ f, expr f .cond (u ++ r) = some (a, r)

theorem CUnary.bin {u : List Tok} {a : Expr} (h : CUnary u a) (p : Nat) : CBin p u a := by
  intro r hr _ q _ f res e
  obtain ⟨g, hg⟩ := h r hr
  refine ⟨max f g + 1, ?_⟩
  unfold expr
  rw [expr_le (Nat.le_max_right f g) _ _ _ hg]
  exact expr_le (Nat.le_max_left f g) _ _ _ e

theorem CBin.cond {p : Nat} {u : List Tok} {a : Expr} (h : CBin p u a) (hp : 1 ≤ p) : CCond u a := by
  intro r ⟨h1, h2, h3⟩
  obtain ⟨g, hg⟩ := h r h1 (h2.mono (by omega)) 1 hp 1 (a, r) (rest_done h2 0)
  refine ⟨g + 1, ?_⟩
  unfold expr
  rw [hg]
  split
  · rename_i e
    cases e
    exact absurd rfl (h3 _)
  · rfl

theorem CBin.lower {p : Nat} {u : List Tok} {a : Expr} (h : CBin (p + 1) u a) : CBin p u a :=
  fun r hr hb q hq f res e => h r hr (hb.mono (by omega)) q (by omega) f res e

/-- A type name begins no expression. -/
theorem not_type {t : Nat} (ht : ident t = false) (f : Nat) (w : Want) (hw : ∀ p a, w ≠ .rest p a) (ts : List Tok) :
    expr f w (.id t :: ts) = none := by
  induction f generalizing w with
  | zero => rfl
  | succ f ih =>
    cases w with
    | cond => unfold expr; rw [ih _ (by simp)]
    | bin p => unfold expr; rw [ih _ (by simp)]
    | rest p a => exact absurd rfl (hw p a)
    | unary =>
      unfold expr
      simp only [primary, ht]
      rfl

theorem expr_primary {f : Nat} {ts : List Tok} {x} (h : primary (expr f) ts = some x)
    (h1 : ∀ r, ts ≠ p!"~" :: r) (h2 : ∀ r, ts ≠ p!"!" :: r)
    (h3 : ∀ t r, ts = p!"(" :: .id t :: p!")" :: r → scalar t = none) : expr (f + 1) .unary ts = some x := by
  unfold expr
  split
  · exact absurd rfl (h1 _)
  · exact absurd rfl (h2 _)
  · rw [h3 _ _ rfl]
    exact h
  · exact h

theorem primary_id {pe : Want → List Tok → Option (Expr × List Tok)} {x : Nat} {ts : List Tok} (hx : Ident x) :
    primary pe (.id x :: ts) = simple pe (.id x :: ts) := by
  simp only [primary, (ident_iff x).mpr hx, if_true]

theorem cunary_id {x : Nat} {u : List Tok} {a : Expr} (hx : Ident x)
    (h : ∀ r, Follow r → ∃ f, simple (expr f) (.id x :: (u ++ r)) = some (a, r)) : CUnary (.id x :: u) a := by
  intro r hr
  obtain ⟨f, hf⟩ := h r hr
  exact ⟨f + 1, expr_primary (by rw [List.cons_append, primary_id hx]; exact hf) (by simp) (by simp) (by simp)⟩

theorem ident_std : Ident k!"std" := (ident_iff _).mp (by decide +kernel)
theorem ident_limit {x : Nat} {t : ITy} {v : Int} (h : (x, t, v) ∈ limits) : Ident x := by
  rw [← ident_iff]
  have : ∀ p ∈ limits, ident p.1 = true := by decide +kernel
  exact this _ h

theorem simple_name {pe : Want → List Tok → Option (Expr × List Tok)} {x : Nat} {r : List Tok} (hr : Follow r) :
    simple pe (.id x :: r) = match limit x with
      | some e => some (e, r)
      | none => some (.var x, r) := by
  unfold simple
  split
  all_goals first | (rename_i e; cases e; done) | skip
  · rename_i e; cases e; exact absurd rfl (hr _).2.2
  · rename_i e; cases e; exact absurd rfl (hr _).1
  · rename_i e; cases e; exact absurd rfl (hr _).1
  · rename_i e; cases e; exact absurd rfl (hr _).2.1
  · rename_i e; cases e; rfl
  · rename_i h
    exact absurd rfl (h _ _)

theorem simple_member {pe : Want → List Tok → Option (Expr × List Tok)} {x m : Nat} {r : List Tok} (hr : Follow r) :
    simple pe (.id x :: p!"." :: .id m :: r) = some (.var (member x m), r) := by
  unfold simple
  split
  all_goals first | (rename_i e; cases e; done) | skip
  · rename_i e; cases e; exact absurd rfl (hr _).2.1
  · rename_i e; cases e; rfl
  · rename_i e; cases e; rename_i h _ _; exact absurd rfl (h _ _)
  · rename_i h
    exact absurd rfl (h _ _)

theorem simple_lane {pe : Want → List Tok → Option (Expr × List Tok)} {x : Nat} {i : Expr} {ts r : List Tok}
    (h : pe .cond ts = some (i, p!"]" :: r)) (hr : Follow r) :
    simple pe (.id x :: p!"." :: w!"val" :: p!"[" :: ts) = some (.lane x i, r) := by
  simp only [simple, h]
  split
  · rename_i e; cases e; exact absurd rfl (hr _).1
  · rename_i e; cases e; rfl
  · rename_i h; exact absurd rfl (h _ _)

theorem stop_paren (r : List Tok) : Stop (p!")" :: r) := stop_op (by decide +kernel) (by decide)
theorem stop_bracket (r : List Tok) : Stop (p!"]" :: r) := stop_op (by decide +kernel) (by decide)
theorem stop_comma (r : List Tok) : Stop (p!"," :: r) := stop_op (by decide +kernel) (by decide)
theorem stop_colon (r : List Tok) : Stop (p!":" :: r) := stop_op (by decide +kernel) (by decide)

theorem twoArgs_complete {u v : List Tok} {a b : Expr} (hu : CCond u a) (hv : CCond v b) (r : List Tok) :
    ∃ f, twoArgs (expr f) (u ++ p!"," :: v ++ p!")" :: r) = some (a, b, r) := by
  obtain ⟨f, hf⟩ := hu (p!"," :: (v ++ p!")" :: r)) (stop_comma _)
  obtain ⟨g, hg⟩ := hv (p!")" :: r) (stop_paren _)
  refine ⟨max f g, ?_⟩
  simp only [twoArgs, List.append_assoc, List.cons_append, expr_le (Nat.le_max_left f g) _ _ _ hf,
    expr_le (Nat.le_max_right f g) _ _ _ hg]

theorem minMax_complete {u v : List Tok} {a b : Expr} (hu : CCond u a) (hv : CCond v b) (o : Option Elem) (r : List Tok) :
    ∃ f, minMax (expr f) k!"min" o (u ++ p!"," :: v ++ p!")" :: r) = some (.stdMin o a b, r) ∧
      minMax (expr f) k!"max" o (u ++ p!"," :: v ++ p!")" :: r) = some (.stdMax o a b, r) := by
  obtain ⟨f, hf⟩ := twoArgs_complete hu hv r
  exact ⟨f, by simp only [minMax, hf]; rfl, by simp only [minMax, hf]; rfl⟩

theorem derives_complete {p : Nat} {u : List Tok} {a : Expr} (h : Derives p u a) :
    (11 ≤ p → CUnary u a) ∧ (1 ≤ p → CBin p u a) ∧ CCond u a := by
  have prim : ∀ {u : List Tok} {a : Expr} (p : Nat), CUnary u a → (11 ≤ p → CUnary u a) ∧ (1 ≤ p → CBin p u a) ∧ CCond u a :=
    fun p h => ⟨fun _ => h, fun _ => h.bin p, (h.bin 1).cond (by omega)⟩
  induction h with
  | higher p u a hp _ ih =>
    obtain ⟨ih1, ih2, ih3⟩ := ih
    refine ⟨fun h => ih1 (by omega), fun h => (ih2 (by omega)).lower, ih3⟩
  | cond u v w c a b _ _ _ ihu ihv ihw =>
    refine ⟨by omega, by omega, ?_⟩
    intro r hr
    have hq : Follow (p!"?" :: (v ++ p!":" :: w ++ r)) := fun s => ⟨by simp, by simp, by simp⟩
    have hb : Below 1 (p!"?" :: (v ++ p!":" :: w ++ r)) := by
      intro o r' q op e ho
      cases e
      exact absurd ho (by rw [show binOp k!"?" = none by decide +kernel]; simp)
    obtain ⟨f, hf⟩ := ihu.2.1 (by omega) _ hq (hb.mono (by omega)) 1 (by omega) 1 _ (rest_done hb 0)
    obtain ⟨g, hg⟩ := ihv.2.2 (p!":" :: (w ++ r)) (stop_colon _)
    obtain ⟨k, hk⟩ := ihw.2.2 r hr
    refine ⟨max f (max g k) + 1, ?_⟩
    unfold expr
    have e : u ++ p!"?" :: v ++ p!":" :: w ++ r = u ++ p!"?" :: (v ++ p!":" :: w ++ r) := by simp
    have e' : v ++ p!":" :: w ++ r = v ++ p!":" :: (w ++ r) := by simp
    rw [e, expr_le (by omega) _ _ _ hf]
    simp only [e', expr_le (show g ≤ max f (max g k) by omega) _ _ _ hg, expr_le (show k ≤ max f (max g k) by omega) _ _ _ hk]
  | binary p o op u v a b ho _ _ ihu ihv =>
    have hlev := level_le ho
    have main : CBin p (u ++ .op o :: v) (.bin op a b) := by
      intro r hr hb q hq f res e
      have hop := (binOp_iff ..).mpr ho
      obtain ⟨g, hg⟩ := ihv.2.1 (by omega) r hr (hb.mono (by omega)) (p + 1) (by omega) 1 _ (rest_done hb 0)
      have hrest : expr (max f g + 1) (.rest q a) (.op o :: (v ++ r)) = some res := by
        unfold expr
        simp only [hop, if_pos hq, expr_le (Nat.le_max_right f g) _ _ _ hg]
        exact expr_le (Nat.le_max_left f g) _ _ _ e
      obtain ⟨k, hk⟩ := ihu.2.1 (by omega) (.op o :: (v ++ r)) (follow_op ho _) (by
        intro o' r' q' op' e' ho'
        cases e'
        rw [hop] at ho'
        cases ho'
        omega) q hq _ res hrest
      exact ⟨k, by simpa using hk⟩
    exact ⟨by omega, fun _ => main, main.cond (by omega)⟩
  | compl u a _ ih =>
    refine prim 11 fun r hr => ?_
    obtain ⟨f, hf⟩ := ih.1 (by omega) r hr
    exact ⟨f + 1, by simp only [expr, List.cons_append, hf, Option.map_some]⟩
  | not u a _ ih =>
    refine prim 11 fun r hr => ?_
    obtain ⟨f, hf⟩ := ih.1 (by omega) r hr
    exact ⟨f + 1, by simp only [expr, List.cons_append, hf, Option.map_some]⟩
  | cast t e u a ht _ ih =>
    refine prim 11 fun r hr => ?_
    obtain ⟨f, hf⟩ := ih.1 (by omega) r hr
    rw [← scalar_iff] at ht
    exact ⟨f + 1, by simp only [expr, List.cons_append, hf, ht, Option.map_some]⟩
  | paren u a _ ih =>
    refine prim 12 fun r hr => ?_
    obtain ⟨f, hf⟩ := ih.2.2 (p!")" :: r) (stop_paren r)
    refine ⟨f + 1, expr_primary ?_ (by simp) (by simp) ?_⟩
    · simp [primary, simple, hf]
    · intro t s e
      cases hs : scalar t with
      | none => rfl
      | some el =>
        exfalso
        have hi : ident t = false := by simp [ident, hs]
        cases u with
        | nil => simp at e
        | cons x u =>
          have : x = .id t := by
            simp at e; exact e.1
          subst this
          rw [List.cons_append, not_type hi _ _ (by simp)] at hf
          cases hf
  | decimal n t h =>
    refine prim 12 fun r hr => ⟨1 + 1, expr_primary ?_ (by simp) (by simp) (by simp)⟩
    simp [primary, simple, (decimal_iff n _).mpr ⟨t, h, rfl⟩]
  | hex n t h =>
    refine prim 12 fun r hr => ⟨1 + 1, expr_primary ?_ (by simp) (by simp) (by simp)⟩
    simp [primary, simple, (hexadecimal_iff n _).mpr ⟨t, h, rfl⟩]
  | real n => exact prim 12 fun r hr => ⟨1 + 1, expr_primary (by simp [primary, simple]) (by simp) (by simp) (by simp)⟩
  | char c => exact prim 12 fun r hr => ⟨1 + 1, expr_primary (by simp [primary, simple]) (by simp) (by simp) (by simp)⟩
  | limit x t v h =>
    refine prim 12 (cunary_id (ident_limit h) fun r hr => ⟨0, ?_⟩)
    rw [List.nil_append, simple_name hr, (limit_iff x _).mpr ⟨t, v, h, rfl⟩]
  | var x hx hl =>
    refine prim 12 (cunary_id hx fun r hr => ⟨0, ?_⟩)
    rw [List.nil_append, simple_name hr]
    cases h : limit x with
    | none => rfl
    | some e =>
      obtain ⟨t, v, hm, _⟩ := (limit_iff x e).mp h
      exact absurd hm (hl _)
  | member x m hx =>
    refine prim 12 (cunary_id hx fun r hr => ⟨0, ?_⟩)
    exact simple_member hr
  | elem x u i hx _ ih =>
    refine prim 12 (cunary_id hx fun r hr => ?_)
    obtain ⟨f, hf⟩ := ih.2.2 (p!"]" :: r) (stop_bracket r)
    exact ⟨f, by simp [simple, hf]⟩
  | lane x u i hx _ ih =>
    refine prim 12 (cunary_id hx fun r hr => ?_)
    obtain ⟨f, hf⟩ := ih.2.2 (p!"]" :: r) (stop_bracket r)
    refine ⟨f, ?_⟩
    have e : Tok.id x :: ((p!"." :: w!"val" :: p!"[" :: u) ++ [p!"]"] ++ r)
      = .id x :: p!"." :: w!"val" :: p!"[" :: (u ++ p!"]" :: r) := by simp
    exact (congrArg _ e).trans (simple_lane hf hr)
  | lane2 x u v j i hx _ _ ihu ihv =>
    refine prim 12 (cunary_id hx fun r hr => ?_)
    obtain ⟨f, hf⟩ := ihu.2.2 (p!"]" :: p!"." :: w!"val" :: p!"[" :: (v ++ p!"]" :: r)) (stop_bracket _)
    obtain ⟨g, hg⟩ := ihv.2.2 (p!"]" :: r) (stop_bracket r)
    refine ⟨max f g, ?_⟩
    have e : Tok.id x :: ((p!"." :: w!"val" :: p!"[" :: u) ++ (p!"]" :: p!"." :: w!"val" :: p!"[" :: v) ++ [p!"]"] ++ r)
      = .id x :: p!"." :: w!"val" :: p!"[" :: (u ++ p!"]" :: p!"." :: w!"val" :: p!"[" :: (v ++ p!"]" :: r)) := by simp
    refine (congrArg _ e).trans ?_
    simp [simple, expr_le (Nat.le_max_left f g) _ _ _ hf, expr_le (Nat.le_max_right f g) _ _ _ hg]
  | min u v a b _ _ ihu ihv =>
    refine prim 12 (cunary_id ident_std fun r hr => ?_)
    obtain ⟨f, h1, h2⟩ := minMax_complete ihu.2.2 ihv.2.2 none r
    exact ⟨f, by simpa [simple] using h1⟩
  | max u v a b _ _ ihu ihv =>
    refine prim 12 (cunary_id ident_std fun r hr => ?_)
    obtain ⟨f, h1, h2⟩ := minMax_complete ihu.2.2 ihv.2.2 none r
    exact ⟨f, by simpa [simple] using h2⟩
  | minT t e u v a b ht _ _ ihu ihv =>
    refine prim 12 (cunary_id ident_std fun r hr => ?_)
    obtain ⟨f, h1, h2⟩ := minMax_complete ihu.2.2 ihv.2.2 (some e) r
    rw [← scalar_iff] at ht
    exact ⟨f, by simpa [simple, ht] using h1⟩
  | maxT t e u v a b ht _ _ ihu ihv =>
    refine prim 12 (cunary_id ident_std fun r hr => ?_)
    obtain ⟨f, h1, h2⟩ := minMax_complete ihu.2.2 ihv.2.2 (some e) r
    rw [← scalar_iff] at ht
    exact ⟨f, by simpa [simple, ht] using h2⟩

/-- The parser reads a whole list of tokens as an expression exactly when the grammar derives it. -/
theorem expr_exact (ts : List Tok) (a : Expr) : (∃ f, expr f .cond ts = some (a, [])) ↔ Derives 0 ts a := by
  constructor
  · rintro ⟨f, h⟩
    obtain ⟨u, e, hu⟩ := (expr_reads f).1 ts a [] h
    rw [e, List.append_nil]
    exact hu
  · intro h
    obtain ⟨f, hf⟩ := (derives_complete h).2.2 [] ⟨fun _ => ⟨by simp, by simp, by simp⟩, fun _ _ _ _ e => (by cases e), fun _ => by simp⟩
    exact ⟨f, by simpa using hf⟩

/-- The grammar is unambiguous: a list of tokens has at most one tree. -/
theorem derives_unique {ts : List Tok} {a b : Expr} (ha : Derives 0 ts a) (hb : Derives 0 ts b) : a = b := by
  obtain ⟨f, hf⟩ := (expr_exact ts a).mpr ha
  obtain ⟨g, hg⟩ := (expr_exact ts b).mpr hb
  have h1 := expr_le (Nat.le_max_left f g) _ _ _ hf
  have h2 := expr_le (Nat.le_max_right f g) _ _ _ hg
  rw [h1] at h2
  cases h2
  rfl

end Verif.Props
