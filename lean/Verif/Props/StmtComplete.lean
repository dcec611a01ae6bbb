import Verif.Props.StmtParser

/-!
# The parser reads everything that the grammar derives, and the grammar is unambiguous
-/

namespace Verif.Props
open Verif Cpp SpecGrammar
open scoped Verif.Cpp Verif.SpecGrammar

/-- With enough fuel. -/
def Eventually (P : Nat → Prop) : Prop := ∃ N, ∀ n, N ≤ n → P n

theorem Eventually.mono {P Q : Nat → Prop} (h : Eventually P) (hq : ∀ n, P n → Q n) : Eventually Q :=
  let ⟨N, hN⟩ := h
  ⟨N, fun n hn => hq n (hN n hn)⟩

theorem Eventually.and {P Q : Nat → Prop} (hp : Eventually P) (hq : Eventually Q) : Eventually fun n => P n ∧ Q n :=
  let ⟨N, hN⟩ := hp
  let ⟨M, hM⟩ := hq
  ⟨max N M, fun n hn => ⟨hN n (by omega), hM n (by omega)⟩⟩

theorem Eventually.of {P : Nat → Prop} (h : ∀ n, P n) : Eventually P := ⟨0, fun n _ => h n⟩

theorem cond_complete {u r : List Tok} {a : Expr} (h : Derives 0 u a) (hr : Stop r) :
    Eventually fun n => cond n (u ++ r) = some (a, r) := by
  obtain ⟨f, hf⟩ := (derives_complete h).2.2 r hr
  exact ⟨f, fun n hn => expr_le hn _ _ _ hf⟩

theorem bin_complete {u r : List Tok} {a : Expr} (h : Derives 1 u a) (hr : Stop r) :
    Eventually fun n => expr n (.bin 1) (u ++ r) = some (a, r) := by
  obtain ⟨f, hf⟩ := (derives_complete h).2.1 (by omega) r hr.1 (hr.2.1.mono (by omega)) 1 (by omega) 1 _ (rest_done hr.2.1 0)
  exact ⟨f, fun n hn => expr_le hn _ _ _ hf⟩

/-- The tokens that begin an expression. -/
def Starts : Tok → Prop
  | .id x => Ident x
  | .op o => o = k!"~" ∨ o = k!"!" ∨ o = k!"("
  | .str _ => False
  | _ => True

theorem derives_head {p : Nat} {u : List Tok} {a : Expr} (h : Derives p u a) : ∃ t v, u = t :: v ∧ Starts t := by
  induction h with
  | higher p u a hp _ ih => exact ih
  | cond u v w c a b _ _ _ ih _ _ =>
    obtain ⟨t, z, rfl, ht⟩ := ih
    exact ⟨t, _, rfl, ht⟩
  | binary p o op u v a b _ _ _ ih _ =>
    obtain ⟨t, z, rfl, ht⟩ := ih
    exact ⟨t, _, rfl, ht⟩
  | compl u a _ _ => exact ⟨_, _, rfl, .inl rfl⟩
  | not u a _ _ => exact ⟨_, _, rfl, .inr (.inl rfl)⟩
  | cast t e u a _ _ _ => exact ⟨_, _, rfl, .inr (.inr rfl)⟩
  | paren u a _ _ => exact ⟨_, _, rfl, .inr (.inr rfl)⟩
  | decimal => exact ⟨_, _, rfl, trivial⟩
  | hex => exact ⟨_, _, rfl, trivial⟩
  | real => exact ⟨_, _, rfl, trivial⟩
  | char => exact ⟨_, _, rfl, trivial⟩
  | limit x t v h => exact ⟨_, _, rfl, ident_limit h⟩
  | var x h => exact ⟨_, _, rfl, h⟩
  | member x m h => exact ⟨_, _, rfl, h⟩
  | elem x u i h => exact ⟨_, _, rfl, h⟩
  | lane x u i h => exact ⟨_, _, rfl, h⟩
  | lane2 x u v j i h => exact ⟨_, _, rfl, h⟩
  | min => exact ⟨_, _, rfl, ident_std⟩
  | max => exact ⟨_, _, rfl, ident_std⟩
  | minT => exact ⟨_, _, rfl, ident_std⟩
  | maxT => exact ⟨_, _, rfl, ident_std⟩

/-- After a name, an expression goes on with an operator. -/
theorem derives_second {x : Nat} {t : Tok} {v : List Tok} {a : Expr} (h : Derives 0 (.id x :: t :: v) a)
    (hs : ∀ w, Stop (t :: w)) : False := by
  obtain ⟨t', v', e, hx⟩ := derives_head h
  cases e
  have h1 : ∃ b, Derives 12 [.id x] b := by
    by_cases hl : ∃ tv, (x, tv) ∈ limits
    · obtain ⟨⟨t, v⟩, hl⟩ := hl
      exact ⟨_, .limit _ _ _ hl⟩
    · exact ⟨_, .var x hx fun tv ht => hl ⟨tv, ht⟩⟩
  obtain ⟨b, hb⟩ := h1
  obtain ⟨f, hf⟩ := (derives_complete h).2.2 [] ⟨fun _ => ⟨by simp, by simp, by simp⟩, fun _ _ _ _ e => (by cases e), fun _ => by simp⟩
  obtain ⟨g, hg⟩ := (derives_complete hb).2.2 (t :: v) (hs _)
  have h1 := expr_le (Nat.le_max_left f g) _ _ _ hf
  have h2 := expr_le (Nat.le_max_right f g) _ _ _ hg
  simp only [List.append_nil, List.singleton_append] at h1 h2
  rw [h1] at h2
  cases h2

theorem stop_id (x : Nat) (r : List Tok) : Stop (.id x :: r) :=
  ⟨fun _ => ⟨by simp, by simp, by simp⟩, fun _ _ _ _ e => (by cases e), fun _ => by simp⟩
theorem stop_open (r : List Tok) : Stop (p!"(" :: r) := stop_op (by decide +kernel) (by decide)
theorem stop_semi (r : List Tok) : Stop (p!";" :: r) := stop_op (by decide +kernel) (by decide)
theorem stop_brace (r : List Tok) : Stop (p!"}" :: r) := stop_op (by decide +kernel) (by decide)
theorem stop_set (r : List Tok) : Stop (p!"=" :: r) := stop_op (by decide +kernel) (by decide)
theorem stop_add (r : List Tok) : Stop (p!"+=" :: r) := stop_op (by decide +kernel) (by decide)
theorem stop_incr (r : List Tok) : Stop (p!"++" :: r) := stop_op (by decide +kernel) (by decide)

theorem arguments_complete {c : Nat} {u : List Tok} {es : List Expr} (h : Arguments u es) (hc : c ≠ k!",")
    (hs : ∀ r, Stop (.op c :: r)) (r : List Tok) :
    Eventually fun n => ∀ f, es.length ≤ f → arguments n c f (u ++ .op c :: r) = some (es, r) := by
  induction h with
  | one u a hu =>
    refine (cond_complete hu (hs r)).mono fun n hn f hf => ?_
    obtain ⟨g, rfl⟩ : ∃ g, f = g + 1 := ⟨f - 1, by simp at hf; omega⟩
    simp [arguments, hn]
  | more u v a es hu _ ih =>
    refine ((cond_complete hu (stop_comma (v ++ .op c :: r))).and ih).mono fun n hn f hf => ?_
    obtain ⟨g, rfl⟩ : ∃ g, f = g + 1 := ⟨f - 1, by simp at hf; omega⟩
    have h2 := hn.2 g (by simp at hf; omega)
    simp [arguments, hn.1, h2]
    intro hc'
    exact absurd hc'.symm hc

theorem arguments_complete' {c : Nat} {u : List Tok} {es : List Expr} (h : Arguments u es) (hc : c ≠ k!",")
    (hs : ∀ r, Stop (.op c :: r)) (r : List Tok) : Eventually fun n => arguments n c n (u ++ .op c :: r) = some (es, r) := by
  obtain ⟨N, hN⟩ := arguments_complete h hc hs r
  exact ⟨max N es.length, fun n hn => hN n (by omega) n (by omega)⟩

theorem no_call {u r ts : List Tok} {a : Expr} {g : Nat} (h : Derives 0 u a) (hr : ∀ s, r ≠ p!"(" :: s)
    (e : u ++ r = .id g :: p!"(" :: ts) : False := by
  obtain ⟨a, u, rfl, _⟩ := derives_head h
  cases u with
  | nil =>
    simp only [List.cons_append, List.nil_append, List.cons.injEq] at e
    exact hr _ e.2
  | cons b u =>
    simp only [List.cons_append, List.cons.injEq] at e
    obtain ⟨rfl, rfl, _⟩ := e
    exact derives_second h stop_open

theorem decl_complete {u : List Tok} {s : Stmt} (h : Declaration u s) (r : List Tok) :
    Eventually fun n => decl n (u ++ r) = some (s, r) := by
  cases h with
  | plain t ty x ht hx =>
    rw [← ident_iff] at hx
    exact .of fun n => by simp [decl, hx, ht]
  | init t ty x u e ht hx hu =>
    rw [← ident_iff] at hx
    refine (cond_complete hu (stop_semi r)).mono fun n hn => ?_
    have e : (Tok.id t :: .id x :: p!"=" :: u ++ [p!";"]) ++ r = .id t :: .id x :: p!"=" :: (u ++ p!";" :: r) := by simp
    rw [e]
    unfold decl
    split
    all_goals rename_i e
    · cases e
    · simp only [List.cons.injEq, true_and] at e
      obtain ⟨_, _, e⟩ := e
      exact (no_call hu (by simp) e).elim
    · cases e
      simp [hx, hn, ht]
    · exact absurd rfl (e _ _ _)
  | call t ty x g u es ht hx hg hu =>
    rw [← ident_iff] at hx hg
    refine (arguments_complete' hu (by decide) stop_paren (p!";" :: r)).mono fun n hn => ?_
    simp [decl, hx, hg, ht, hn]

theorem assignment_expr {u w : List Tok} {l : Expr} {o n : Nat} (hu : Derives 1 u l) (ho : o ≠ k!"++") :
    assignment n (u ++ .op o :: w) = match expr n (.bin 1) (u ++ .op o :: w) with
      | some (l, .op k!"=" :: .id g :: .op k!"(" :: ts) =>
        if ident g then (arguments n k!")" n ts).map fun (es, ts) => (.assignCall l g es, ts) else none
      | some (l, .op k!"=" :: ts) => (cond n ts).map fun (e, ts) => (.assign l e, ts)
      | some (l, .op k!"+=" :: ts) => (cond n ts).map fun (e, ts) => (.assign l (.bin .add l e), ts)
      | _ => none := by
  unfold assignment
  split
  · rename_i x ts e
    exfalso
    cases u with
    | nil => cases e
    | cons a u =>
      cases u with
      | nil =>
        simp only [List.cons_append, List.nil_append, List.cons.injEq, Tok.op.injEq] at e
        exact ho e.2.1
      | cons b u =>
        simp only [List.cons_append, List.cons.injEq] at e
        obtain ⟨rfl, rfl, _⟩ := e
        exact derives_second (.higher 0 _ _ (by omega) hu) stop_incr
  · rfl

theorem assignment_complete {u : List Tok} {s : Stmt} (h : Assignment u s) (r : List Tok) (hr : Stop r)
    (hr' : ∀ s, r ≠ p!"(" :: s) :
    Eventually fun n => assignment n (u ++ r) = some (s, r) := by
  cases h with
  | incr x hx hl =>
    rw [← ident_iff] at hx
    rw [← limit_none] at hl
    exact .of fun n => by simp only [assignment, List.cons_append, List.nil_append, hx, hl, Bool.and_self, if_true]
  | assign u v l e hu hv =>
    refine ((bin_complete hu (stop_set (v ++ r))).and (cond_complete hv hr)).mono fun n ⟨hn, hn'⟩ => ?_
    rw [List.append_assoc, List.cons_append, assignment_expr hu (by decide), hn]
    split
    all_goals rename_i e
    · simp only [Option.some.injEq, Prod.mk.injEq, List.cons.injEq, true_and] at e
      obtain ⟨_, e⟩ := e
      exact (no_call hv hr' e).elim
    · cases e
      rw [hn']
      rfl
    · cases e
    · rename_i h; exact (h _ _ rfl).elim
  | add u v l e hu hv =>
    refine ((bin_complete hu (stop_add (v ++ r))).and (cond_complete hv hr)).mono fun n ⟨hn, hn'⟩ => ?_
    rw [List.append_assoc, List.cons_append, assignment_expr hu (by decide), hn]
    simp only [hn', Option.map_some]
  | call u v l g es hu hg hv =>
    rw [← ident_iff] at hg
    refine ((bin_complete hu (stop_set (.id g :: p!"(" :: (v ++ p!")" :: r)))).and
      (arguments_complete' hv (by decide) stop_paren r)).mono fun n ⟨hn, hn'⟩ => ?_
    have e : (u ++ p!"=" :: .id g :: p!"(" :: v ++ [p!")"]) ++ r = u ++ p!"=" :: .id g :: p!"(" :: (v ++ p!")" :: r) := by simp
    rw [e, assignment_expr hu (by decide), hn]
    simp only [hn', hg, if_true, Option.map_some]

theorem ident_ne {x k : Nat} (h : Ident x) (hk : ident k = false) : x ≠ k := by
  intro e
  subst e
  rw [(ident_iff _).mpr h] at hk
  cases hk

theorem type_ne {t k : Nat} {ty : Ty} (h : typeOf t = some ty) (hk : typeOf k = none) : t ≠ k := by
  intro e
  subst e
  rw [h] at hk
  cases hk

theorem scalar_ne {t k : Nat} {e : Elem} (h : (t, e) ∈ scalars) (hk : scalar k = none) : t ≠ k := by
  intro e
  subst e
  rw [(scalar_iff _ _).mpr h] at hk
  cases hk

/-- A declaration begins with two names and `;` or `=`. -/
theorem declaration_head {u : List Tok} {s : Stmt} (h : Declaration u s) :
    ∃ t ty x o v, u = .id t :: .id x :: .op o :: v ∧ typeOf t = some ty ∧ Ident x ∧ (o = k!";" ∨ o = k!"=") := by
  cases h with
  | plain t ty x ht hx => exact ⟨t, ty, x, _, _, rfl, ht, hx, .inl rfl⟩
  | init t ty x u e ht hx hu => exact ⟨t, ty, x, _, _, rfl, ht, hx, .inr rfl⟩
  | call t ty x g u es ht hx hg hu => exact ⟨t, ty, x, _, _, rfl, ht, hx, .inr rfl⟩

/-- An assignment begins like an expression, and a name is followed by neither a name nor `(` nor `;`. -/
theorem assignment_head {u : List Tok} {s : Stmt} (h : Assignment u s) :
    ∃ a b v, u = a :: b :: v ∧ Starts a ∧ ∀ x, a = .id x → (∀ y, b ≠ .id y) ∧ b ≠ p!"(" := by
  have key : ∀ (u w : List Tok) (l : Expr) (o : Nat), Derives 1 u l → o ≠ k!"(" →
      ∃ a b v, u ++ .op o :: w = a :: b :: v ∧ Starts a ∧ ∀ x, a = .id x → (∀ y, b ≠ .id y) ∧ b ≠ p!"(" := by
    intro u w l o hu ho
    obtain ⟨a, u, rfl, ha⟩ := derives_head hu
    cases u with
    | nil => exact ⟨a, .op o, w, rfl, ha, fun x _ => ⟨by simp, by simpa using ho⟩⟩
    | cons b u =>
      refine ⟨a, b, _, rfl, ha, ?_⟩
      rintro x rfl
      refine ⟨?_, ?_⟩
      · rintro y rfl
        exact derives_second (.higher 0 _ _ (by omega) hu) (stop_id y)
      · rintro rfl
        exact derives_second (.higher 0 _ _ (by omega) hu) stop_open
  cases h with
  | incr x hx hl => exact ⟨_, _, _, rfl, hx, fun _ _ => ⟨by simp, by simp⟩⟩
  | assign u v l e hu hv => exact key _ _ _ _ hu (by decide)
  | add u v l e hu hv => exact key _ _ _ _ hu (by decide)
  | call u v l g es hu hg hv => simpa using key u (.id g :: p!"(" :: v ++ [p!")"]) _ _ hu (by decide)

theorem statement_head {o : Bool} {u : List Tok} {a : Stmt} (h : Statement (.one o) u a) :
    ∃ t v, u = t :: v ∧ t ≠ w!"else" ∧ t ≠ p!"}" := by
  cases h with
  | empty | block | ret | retConv | loop | ifThen | ifElse | print | printName | abort | copy | copyScalar | const =>
    exact ⟨_, _, rfl, by simp, by simp⟩
  | decl _ _ h =>
    obtain ⟨t, ty, x, o, v, rfl, ht, _⟩ := declaration_head h
    exact ⟨_, _, rfl, by simpa using type_ne ht (by decide +kernel), by simp⟩
  | construct c x u es hc => exact ⟨_, _, rfl, by simpa using ident_ne hc (by decide +kernel), by simp⟩
  | call g u es hg => exact ⟨_, _, rfl, by simpa using ident_ne hg (by decide +kernel), by simp⟩
  | assign u s h =>
    obtain ⟨a, b, v, rfl, ha, _⟩ := assignment_head h
    refine ⟨_, _, rfl, ?_, ?_⟩
    · rintro rfl
      exact ident_ne ha (by decide +kernel) rfl
    · rintro rfl
      exact absurd ha (by simp [Starts])

theorem statements_head {u r : List Tok} {a : Stmt} (h : Statement .seq u a) : ∀ s, u ++ p!"}" :: r ≠ w!"else" :: s := by
  intro s e
  cases h with
  | nil => cases e
  | cons o u v a b hu hv =>
    obtain ⟨t, w, rfl, h1, _⟩ := statement_head hu
    simp only [List.cons_append, List.cons.injEq] at e
    exact h1 e.1

/-- With enough fuel of both kinds. -/
def Both (P : Nat → Nat → Prop) : Prop := ∃ N, ∀ n f, N ≤ n → N ≤ f → P n f

theorem Both.of {P : Nat → Nat → Prop} (h : ∀ n f, P n (f + 1)) : Both P :=
  ⟨1, fun n f _ hf => by obtain ⟨g, rfl⟩ : ∃ g, f = g + 1 := ⟨f - 1, by omega⟩; exact h n g⟩

theorem Eventually.both {P : Nat → Prop} {Q : Nat → Nat → Prop} (h : Eventually P) (hq : ∀ n f, P n → Q n (f + 1)) : Both Q :=
  let ⟨N, hN⟩ := h
  ⟨N + 1, fun n f hn hf => by
    obtain ⟨g, rfl⟩ : ∃ g, f = g + 1 := ⟨f - 1, by omega⟩
    exact hq n g (hN n (by omega))⟩

theorem Both.succ {P Q : Nat → Nat → Prop} (h : Both P) (hq : ∀ n f, P n f → Q n (f + 1)) : Both Q :=
  let ⟨N, hN⟩ := h
  ⟨N + 1, fun n f hn hf => by
    obtain ⟨g, rfl⟩ : ∃ g, f = g + 1 := ⟨f - 1, by omega⟩
    exact hq n g (hN n g (by omega) (by omega))⟩

theorem Both.and {P Q : Nat → Nat → Prop} (hp : Both P) (hq : Both Q) : Both fun n f => P n f ∧ Q n f :=
  let ⟨N, hN⟩ := hp
  let ⟨M, hM⟩ := hq
  ⟨max N M, fun n f hn hf => ⟨hN n f (by omega) (by omega), hM n f (by omega) (by omega)⟩⟩

theorem Eventually.two {P : Nat → Prop} (h : Eventually P) : Both fun n _ => P n :=
  let ⟨N, hN⟩ := h
  ⟨N, fun n _ hn _ => hN n hn⟩

/-- The parser reads the statement from the tokens `u`. -/
def Read : Form → List Tok → Stmt → Prop
  | .seq, u, a => ∀ r, Both fun n f => stmt n f true (u ++ p!"}" :: r) = some (a, r)
  | .one o, u, a => ∀ r, (o = true → ∀ s, r ≠ w!"else" :: s) → Both fun n f => stmt n f false (u ++ r) = some (a, r)

theorem stmt_decl {u r : List Tok} {s : Stmt} {n : Nat} (f : Nat) (h : Declaration u s) (hn : decl n (u ++ r) = some (s, r)) :
    stmt n (f + 1) false (u ++ r) = some (s, r) := by
  obtain ⟨t, ty, x, o, v, rfl, ht, hx, ho⟩ := declaration_head h
  have h1 : t ≠ k!"return" := type_ne ht (by decide +kernel)
  have h2 : t ≠ k!"const" := type_ne ht (by decide +kernel)
  unfold stmt
  split
  all_goals rename_i e
  all_goals first
    | (cases e; done)
    | (obtain ⟨e, _⟩ := List.cons.inj e; cases e; exact absurd rfl h1)
    | (obtain ⟨e, _⟩ := List.cons.inj e; cases e; exact absurd rfl h2)
    | (simp only [List.cons_append, List.cons.injEq, Tok.op.injEq] at e
       rcases ho with h | h <;> (rw [h] at e; exact absurd e.2.2.1 (by decide)))
    | (rw [← e]; exact hn)
    | exact absurd rfl (e _ _ _)

theorem no_start {u r w : List Tok} {es : List Expr} {t : Tok} (h : Arguments u es) (e : u ++ r = t :: w) (ht : ¬ Starts t) :
    False := by
  cases h with
  | one u a hu =>
    obtain ⟨a, u, rfl, ha⟩ := derives_head hu
    rw [(List.cons.inj e).1] at ha
    exact ht ha
  | more u v a es hu hv =>
    obtain ⟨a, u, rfl, ha⟩ := derives_head hu
    rw [(List.cons.inj e).1] at ha
    exact ht ha

theorem no_string {u r w : List Tok} {es : List Expr} {x : Nat} {m : List Nat} (h : Arguments u es)
    (e : u ++ p!")" :: r = .id x :: p!"," :: .str m :: w) : False := by
  cases h with
  | one u a hu =>
    obtain ⟨a, u, rfl, ha⟩ := derives_head hu
    cases u with
    | nil => cases e
    | cons b u =>
      simp only [List.cons_append, List.cons.injEq] at e
      obtain ⟨rfl, rfl, _⟩ := e
      exact derives_second hu stop_comma
  | more u v a es hu hv =>
    obtain ⟨a, u, rfl, ha⟩ := derives_head hu
    cases u with
    | nil =>
      simp only [List.cons_append, List.nil_append, List.cons.injEq] at e
      exact no_start hv e.2.2 (by simp [Starts])
    | cons b u =>
      simp only [List.cons_append, List.cons.injEq] at e
      obtain ⟨rfl, rfl, _⟩ := e
      exact derives_second hu stop_comma

theorem stmt_complete {f : Form} {u : List Tok} {a : Stmt} (h : Statement f u a) : Read f u a := by
  induction h with
  | nil => exact fun r => .of fun n f => by simp [stmt]
  | cons o u v a b hu hv ihu ihv =>
    intro r
    refine ((ihu (v ++ p!"}" :: r) (fun _ => statements_head hv)).and (ihv r)).succ fun n f ⟨h1, h2⟩ => ?_
    obtain ⟨t, w, rfl, _, ht⟩ := statement_head hu
    rw [List.append_assoc]
    unfold stmt
    split
    · rename_i e
      simp only [List.cons_append, List.cons.injEq] at e
      exact absurd e.1 ht
    · simp only [h1, h2, Option.map_some]
  | empty => exact fun r _ => .of fun n f => by simp [stmt]
  | block u a _ ih =>
    intro r _
    refine (ih r).succ fun n f h => ?_
    simp [stmt, h]
  | ret u e hu =>
    intro r _
    refine (cond_complete hu (stop_semi r)).both fun n f h => ?_
    have e : (w!"return" :: u ++ [p!";"]) ++ r = w!"return" :: (u ++ p!";" :: r) := by simp
    rw [e]
    unfold stmt
    split
    all_goals rename_i e
    all_goals first
      | (cases e; done)
      | skip
    · exact (no_call hu (by simp) (List.cons.inj e).2).elim
    · obtain ⟨_, rfl⟩ := List.cons.inj e
      simp only [h]
    · exact absurd (Tok.id.inj (List.cons.inj e).1).symm ‹¬ _ = k!"return"›
    · exact absurd (Tok.id.inj (List.cons.inj e).1).symm ‹¬ _ = k!"return"›
    · exact absurd (Tok.id.inj (List.cons.inj e).1).symm ‹¬ _ = k!"return"›
    · exact (‹∀ ts, w!"return" :: (u ++ p!";" :: r) = w!"return" :: ts → False› _ rfl).elim
  | retConv t e x ht hx =>
    rw [← scalar_iff] at ht
    rw [← ident_iff] at hx
    exact fun r _ => .of fun n f => by simp [stmt, ht, hx]
  | loop o u v w z i c s b hu hv hw _ ih =>
    intro r hr
    refine (((decl_complete hu (v ++ p!";" :: (w ++ p!")" :: (z ++ r)))).two.and
      (cond_complete hv (stop_semi (w ++ p!")" :: (z ++ r)))).two).and
      ((assignment_complete hw (p!")" :: (z ++ r)) (stop_paren _) (by simp)).two.and (ih r hr))).succ
      fun n f ⟨⟨h1, h2⟩, h3, h4⟩ => ?_
    simp [stmt, h1, h2, h3, h4]
  | ifThen o u v c a hu _ ih =>
    intro r hr
    refine ((cond_complete hu (stop_paren (v ++ r))).two.and (ih r fun _ => hr rfl)).succ fun n f ⟨h1, h2⟩ => ?_
    simp only [stmt, List.cons_append, List.append_assoc, h1, h2]
    split
    · rename_i e
      cases e
      exact absurd rfl (hr rfl _)
    · rename_i e
      cases e
      rfl
    · rename_i e; cases e
  | ifElse o u v w c a b hu _ _ ihv ihw =>
    intro r hr
    refine ((cond_complete hu (stop_paren (v ++ w!"else" :: (w ++ r)))).two.and
      ((ihv (w!"else" :: (w ++ r)) (by simp)).and (ihw r hr))).succ fun n f ⟨h1, h2, h3⟩ => ?_
    simp [stmt, h1, h2, h3]
  | print m hm =>
    have := (plain_iff m).mpr hm
    exact fun r _ => .of fun n f => by simp [stmt, this]
  | printName l r hl hr =>
    have := (named_iff (l ++ 37 :: 115 :: r)).mpr ⟨l, r, rfl, hl, hr⟩
    exact fun r _ => .of fun n f => by simp [stmt, this]
  | abort => exact fun r _ => .of fun n f => by simp [stmt]
  | copy d s t e k hd hs ht =>
    rw [← scalar_iff] at ht
    rw [← ident_iff] at hd hs
    exact fun r _ => .of fun n f => by simp [stmt, ht, hd, hs]
  | copyScalar d s t e hd hs ht =>
    rw [← scalar_iff] at ht
    rw [← ident_iff] at hd hs
    exact fun r _ => .of fun n f => by simp [stmt, ht, hd, hs]
  | const u s hu =>
    intro r _
    refine (decl_complete hu r).both fun n f h => ?_
    rw [List.cons_append]
    unfold stmt
    split
    all_goals rename_i e
    all_goals first
      | (cases e; done)
      | (obtain ⟨_, rfl⟩ := List.cons.inj e; exact h)
      | exact absurd (Tok.id.inj (List.cons.inj e).1).symm ‹¬ _ = k!"const"›
      | exact (‹∀ ts, w!"const" :: (u ++ r) = w!"const" :: ts → False› _ rfl).elim
  | decl u s hu => exact fun r _ => (decl_complete hu r).both fun n f h => stmt_decl f hu h
  | construct c x u es hc hx hu =>
    intro r _
    refine (arguments_complete' hu (by decide) stop_brace (p!";" :: r)).both fun n f h => ?_
    have e : (.id c :: .id x :: p!"{" :: u ++ [p!"}", p!";"]) ++ r = .id c :: .id x :: p!"{" :: (u ++ p!"}" :: p!";" :: r) := by simp
    rw [e]
    unfold stmt
    split
    all_goals rename_i e
    all_goals first
      | (cases e; done)
      | (cases e; simp [h, (ident_iff _).mpr hc, (ident_iff _).mpr hx]; done)
      | exact absurd (Tok.id.inj (List.cons.inj e).1) (ident_ne hc (by decide +kernel))
      | (cases e; exact (‹∀ ts, p!"{" :: (u ++ p!"}" :: p!";" :: r) = p!"{" :: ts → False› _ rfl).elim)
      | exact (‹∀ c' x' ts, Tok.id c :: .id x :: p!"{" :: (u ++ p!"}" :: p!";" :: r) = .id c' :: .id x' :: p!"{" :: ts → False›
          _ _ _ rfl).elim
  | call g u es hg hu =>
    intro r _
    refine (arguments_complete' hu (by decide) stop_paren (p!";" :: r)).both fun n f h => ?_
    have e : (.id g :: p!"(" :: u ++ [p!")", p!";"]) ++ r = .id g :: p!"(" :: (u ++ p!")" :: p!";" :: r) := by simp
    rw [e]
    unfold stmt
    split
    all_goals rename_i e
    all_goals first
      | (cases e; done)
      | exact absurd (Tok.id.inj (List.cons.inj e).1) (ident_ne hg (by decide +kernel))
      | exact (no_string hu (List.cons.inj (List.cons.inj e).2).2).elim
      | exact (no_start hu (List.cons.inj (List.cons.inj e).2).2 (by simp [Starts])).elim
      | (obtain ⟨h1, h2⟩ := List.cons.inj e
         obtain ⟨_, rfl⟩ := List.cons.inj h2
         cases h1
         simp [h, (ident_iff _).mpr hg]
         done)
      | exact (‹∀ g' ts, Tok.id g :: p!"(" :: (u ++ p!")" :: p!";" :: r) = .id g' :: p!"(" :: ts → False› _ _ rfl).elim
  | assign u s hu =>
    intro r _
    refine (assignment_complete hu (p!";" :: r) (stop_semi _) (by simp)).both fun n f h => ?_
    have e : (u ++ [p!";"]) ++ r = u ++ p!";" :: r := by simp
    rw [e]
    obtain ⟨a, b, v, rfl, ha, hb⟩ := assignment_head hu
    unfold stmt
    split
    all_goals rename_i e
    all_goals first
      | (obtain ⟨rfl, _⟩ := List.cons.inj e; simp [Starts] at ha; done)
      | (simp only [List.cons_append, List.cons.injEq] at e; obtain ⟨rfl, rfl, _⟩ := e; exact absurd rfl ((hb _ rfl).1 _))
      | (simp only [List.cons_append, List.cons.injEq] at e; obtain ⟨rfl, rfl, _⟩ := e; exact absurd rfl (hb _ rfl).2)
      | (obtain ⟨rfl, _⟩ := List.cons.inj e; exact (ident_ne ha (by decide +kernel) rfl).elim)
      | simp only [h]

/-- What can follow a parameter. -/
def Sep (r : List Tok) : Prop := ∃ o s, r = .op o :: s ∧ o ≠ k!"*"

theorem param_complete {u r : List Tok} {p : Ty × Nat} (h : Parameter u p) (hr : Sep r) : param (u ++ r) = some (p, r) := by
  obtain ⟨o, s, rfl, ho⟩ := hr
  cases h with
  | val t ty x ht hx =>
    have h1 := type_ne ht (show typeOf k!"const" = none by decide +kernel)
    have h2 := ident_ne hx (show ident k!"const" = false by decide +kernel)
    have hx := (ident_iff _).mpr hx
    simp [param, ht, hx, h1, h2, ho]
  | constVal t ty x ht hx =>
    have hx := (ident_iff _).mpr hx
    simp [param, ht, hx]
  | ptr t e x ht hx =>
    have hx := (ident_iff _).mpr hx
    have ht := (scalar_iff _ _).mpr ht
    simp [param, ht, hx]
  | constPtr t e x ht hx =>
    have hx := (ident_iff _).mpr hx
    have ht := (scalar_iff _ _).mpr ht
    simp [param, ht, hx]
  | ptrConst t e x ht hx =>
    have h1 := scalar_ne ht (show scalar k!"const" = none by decide +kernel)
    have hx := (ident_iff _).mpr hx
    have ht := (scalar_iff _ _).mpr ht
    simp [param, ht, hx, h1]

theorem someParams_complete {u : List Tok} {ps : List (Ty × Nat)} (h : Parameters u ps) (r : List Tok) (f : Nat)
    (hf : ps.length ≤ f) : someParams f (u ++ p!")" :: r) = some (ps, r) := by
  induction h generalizing f with
  | one u p hu =>
    obtain ⟨g, rfl⟩ : ∃ g, f = g + 1 := ⟨f - 1, by simp at hf; omega⟩
    simp [someParams, param_complete hu ⟨k!")", r, rfl, by decide⟩]
  | default u p n hu =>
    obtain ⟨g, rfl⟩ : ∃ g, f = g + 1 := ⟨f - 1, by simp at hf; omega⟩
    simp [someParams, param_complete hu ⟨k!"=", .num n :: p!")" :: r, rfl, by decide⟩]
  | more u v p ps hu _ ih =>
    obtain ⟨g, rfl⟩ : ∃ g, f = g + 1 := ⟨f - 1, by simp at hf; omega⟩
    have := ih g (by simp at hf; omega)
    simp [someParams, param_complete hu ⟨k!",", v ++ p!")" :: r, rfl, by decide⟩, this]

theorem parameters_head {u : List Tok} {ps : List (Ty × Nat)} (h : Parameters u ps) : ∃ x v, u = .id x :: v := by
  have : ∀ {u p}, Parameter u p → ∃ x v, u = .id x :: v := by
    intro u p h
    cases h <;> exact ⟨_, _, rfl⟩
  cases h with
  | one u p hu =>
    obtain ⟨x, v, rfl⟩ := this hu
    exact ⟨_, _, rfl⟩
  | default u p n hu =>
    obtain ⟨x, v, rfl⟩ := this hu
    exact ⟨_, _, rfl⟩
  | more u v p ps hu =>
    obtain ⟨x, v, rfl⟩ := this hu
    exact ⟨_, _, rfl⟩

theorem params_complete {u : List Tok} {ps : List (Ty × Nat)} (h : ParameterList u ps) (r : List Tok) :
    Eventually fun n => params n (u ++ p!")" :: r) = some (ps, r) := by
  cases h with
  | none => exact .of fun n => by simp [params]
  | some u ps h =>
    refine ⟨ps.length, fun n hn => ?_⟩
    have h1 := someParams_complete h r n hn
    obtain ⟨x, v, rfl⟩ := parameters_head h
    simp only [params, List.cons_append]
    exact h1

theorem body_complete {v : List Tok} {b : Stmt} (h : Statement .seq v b) (r : List Tok) :
    Eventually fun n => stmt n n true (v ++ p!"}" :: r) = some (b, r) := by
  obtain ⟨N, hN⟩ := stmt_complete h r
  exact ⟨N, fun n hn => hN n n hn hn⟩

theorem func_complete {u : List Tok} {f : Func} (h : Function u f) (r : List Tok) :
    Eventually fun n => func n (u ++ r) = some (f, r) := by
  cases h with
  | mk t ty f u ps v b ht hf hu hv =>
    rw [← ident_iff] at hf
    refine ((params_complete hu (p!"{" :: (v ++ p!"}" :: r))).and (body_complete hv r)).mono fun n ⟨h1, h2⟩ => ?_
    simp [func, hf, ht, h1, h2]

/-- The parser reads a whole list of tokens as a function definition exactly when the grammar derives it. -/
theorem func_exact (ts : List Tok) (f : Func) : (∃ n, func n ts = some (f, [])) ↔ Function ts f := by
  constructor
  · rintro ⟨n, h⟩
    obtain ⟨u, e, hu⟩ := func_takes n ts f [] h
    rw [e, List.append_nil]
    exact hu
  · intro h
    obtain ⟨N, hN⟩ := func_complete h []
    exact ⟨N, by simpa using hN N (Nat.le_refl _)⟩

/-- The grammar is unambiguous: a list of tokens is at most one function definition. -/
theorem function_unique {ts : List Tok} {f g : Func} (hf : Function ts f) (hg : Function ts g) : f = g := by
  obtain ⟨N, h1⟩ := func_complete hf []
  obtain ⟨M, h2⟩ := func_complete hg []
  have := (h1 (max N M) (by omega)).symm.trans (h2 (max N M) (by omega))
  cases this
  rfl

theorem skipDecl_complete {u r : List Tok} (h : p!";" ∉ u) : skipDecl (u ++ p!";" :: r) = some r := by
  induction u with
  | nil => rfl
  | cons t u ih =>
    rw [List.mem_cons, not_or] at h
    rw [List.cons_append]
    unfold skipDecl
    split
    · rename_i e
      exact absurd (List.cons.inj e).1.symm h.1
    · rename_i e
      rw [← (List.cons.inj e).2]
      exact ih h.2
    · rename_i e; cases e

theorem function_head {u : List Tok} {f : Func} (h : Function u f) :
    ∃ t ty x v, u = .id t :: .id x :: p!"(" :: v ∧ typeOf t = some ty ∧ Ident x := by
  cases h with
  | mk t ty f u ps v b ht hf hu hv => exact ⟨t, ty, f, _, by simp; rfl, ht, hf⟩

theorem members_complete {u : List Tok} {ms : List (Nat × Ty × Option Int)} {fs : List Func} (h : Members u ms fs) (r : List Tok) :
    Both fun n f => members n f (u ++ p!"}" :: p!";" :: r) = some (ms, fs, r) := by
  induction h with
  | nil => exact .of fun n f => by simp [members]
  | access v ms fs _ ih => exact ih.succ fun n f h => by simp [members, h]
  | declared u v ms fs hu _ ih =>
    refine ih.succ fun n f h => ?_
    have := skipDecl_complete (r := v ++ p!"}" :: p!";" :: r) hu
    simp [members, this, h]
  | scalar t e x v ms fs ht hx _ ih =>
    have h1 := scalar_ne ht (show scalar k!"explicit" = none by decide +kernel)
    rw [← scalar_iff] at ht
    rw [← ident_iff] at hx
    exact ih.succ fun n f h => by simp [members, h, ht, hx, h1]
  | array t e x k v ms fs ht hx _ ih =>
    have h1 := scalar_ne ht (show scalar k!"explicit" = none by decide +kernel)
    rw [← scalar_iff] at ht
    rw [← ident_iff] at hx
    exact ih.succ fun n f h => by simp [members, h, ht, hx, h1]
  | string x k c v ms fs hx _ ih =>
    rw [← ident_iff] at hx
    exact ih.succ fun n f h => by simp [members, h, hx]
  | func u v g ms fs hu _ ih =>
    refine ((func_complete hu (v ++ p!"}" :: p!";" :: r)).two.and ih).succ fun n f ⟨h1, h2⟩ => ?_
    obtain ⟨t, ty, x, w, rfl, ht, _⟩ := function_head hu
    have h3 := type_ne ht (show typeOf k!"explicit" = none by decide +kernel)
    rw [List.append_assoc]
    unfold members
    dsimp only
    split
    all_goals rename_i e
    all_goals first
      | (cases e; done)
      | exact absurd (Tok.id.inj (List.cons.inj e).1) h3
      | simp only [h1, h2, Option.map_some]

theorem unit_complete {ts : List Tok} {u : TransUnit} (h : Definitions ts u) : Both fun n f => unit n f ts = some u := by
  induction h with
  | nil => exact .of fun n f => by simp [unit]
  | struct c v w ms fs u hc hv _ ih =>
    rw [← ident_iff] at hc
    have hm : Eventually fun n => members n n (v ++ p!"}" :: p!";" :: w) = some (ms, fs, w) := by
      obtain ⟨N, hN⟩ := members_complete hv w
      exact ⟨N, fun n hn => hN n n hn hn⟩
    exact (hm.two.and ih).succ fun n f ⟨h1, h2⟩ => by simp [unit, h1, h2, hc]
  | conv c t e v w b u hc ht hv _ ih =>
    rw [← ident_iff] at hc
    rw [← scalar_iff] at ht
    exact ((body_complete hv w).two.and ih).succ fun n f ⟨h1, h2⟩ => by simp [unit, h1, h2, hc, ht]
  | ctor c z ps v w b u hc hz hv _ ih =>
    have h3 := ident_ne hc (show ident k!"operator" = false by decide +kernel)
    rw [← ident_iff] at hc
    exact ((params_complete hz (p!"{" :: (v ++ p!"}" :: w))).two.and ((body_complete hv w).two.and ih)).succ
      fun n f ⟨h1, h2, h4⟩ => by simp [unit, h1, h2, h4, hc, h3]
  | func v w g u hv _ ih =>
    refine ((func_complete hv w).two.and ih).succ fun n f ⟨h1, h2⟩ => ?_
    obtain ⟨t, ty, x, z, rfl, ht, _⟩ := function_head hv
    unfold unit
    split
    all_goals rename_i e
    all_goals first
      | (cases e; done)
      | simp only [h1, h2, Option.map_some]

/-- The parser reads a list of tokens as a translation unit exactly when the grammar derives it. -/
theorem unit_exact (ts : List Tok) (u : TransUnit) : (∃ n f, unit n f ts = some u) ↔ Definitions ts u := by
  constructor
  · rintro ⟨n, f, h⟩
    exact unit_derives n f ts u h
  · intro h
    obtain ⟨N, hN⟩ := unit_complete h
    exact ⟨N, N, hN N N (Nat.le_refl _) (Nat.le_refl _)⟩

/-- A list of tokens is at most one translation unit. -/
theorem definitions_unique {ts : List Tok} {u v : TransUnit} (hu : Definitions ts u) (hv : Definitions ts v) : u = v := by
  obtain ⟨N, h1⟩ := unit_complete hu
  obtain ⟨M, h2⟩ := unit_complete hv
  have := (h1 (max N M) (max N M) (by omega) (by omega)).symm.trans (h2 (max N M) (max N M) (by omega) (by omega))
  cases this
  rfl

end Verif.Props
