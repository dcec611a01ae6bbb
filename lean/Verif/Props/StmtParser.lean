import Verif.Props.Parser

/-!
# The parser follows the grammar: statements and definitions
-/

namespace Verif.Props
open Verif Cpp SpecGrammar
open scoped Verif.Cpp Verif.SpecGrammar

/-- What the parser reads is a prefix of the tokens that the grammar derives. -/
def Takes {α : Type} (R : List Tok → α → Prop) (ts : List Tok) (r : Option (α × List Tok)) : Prop :=
  ∀ a rest, r = some (a, rest) → ∃ u, ts = u ++ rest ∧ R u a

theorem cond_takes (n : Nat) (ts : List Tok) : Takes (Derives 0) ts (cond n ts) := (expr_reads n).1 ts

theorem bin_takes (n : Nat) (ts : List Tok) : Takes (Derives 1) ts (expr n (.bin 1) ts) := by
  intro a rest e
  obtain ⟨u, h1, h2, _⟩ := (expr_reads n).2.1 1 (by omega) ts a rest e
  exact ⟨u, h1, h2⟩

theorem map_some_iff {α β : Type} {o : Option α} {f : α → β} {b : β} : o.map f = some b ↔ ∃ a, o = some a ∧ f a = b := by
  cases o <;> simp

theorem arguments_takes (n c f : Nat) (ts : List Tok) (hc : c ≠ k!",") :
    Takes (fun u es => ∃ v, u = v ++ [.op c] ∧ Arguments v es) ts (arguments n c f ts) := by
  induction f generalizing ts with
  | zero => intro a rest e; cases e
  | succ f ih =>
    intro a rest e
    unfold arguments at e
    split at e
    · rename_i x o r h1
      obtain ⟨u, rfl, hu⟩ := cond_takes _ _ _ _ h1
      split at e
      · rename_i ho
        cases e
        have := eq_of_beq ho
        subst this
        exact ⟨u ++ [.op o], by simp, u, rfl, .one _ _ hu⟩
      · split at e
        · rename_i ho
          have := eq_of_beq ho
          subst this
          obtain ⟨⟨es, r'⟩, h2, h3⟩ := map_some_iff.mp e
          cases h3
          obtain ⟨w, rfl, v, rfl, hv⟩ := ih _ _ _ h2
          exact ⟨u ++ p!"," :: v ++ [.op c], by simp, _, rfl, .more _ _ _ _ hu hv⟩
        · cases e
    · cases e

theorem decl_takes (n : Nat) (ts : List Tok) : Takes Declaration ts (decl n ts) := by
  intro a rest e
  unfold decl at e
  split at e
  · split at e
    · rename_i hx
      obtain ⟨ty, h1, h2⟩ := map_some_iff.mp e
      cases h2
      exact ⟨[_, _, _], rfl, .plain _ _ _ h1 ((ident_iff _).mp hx)⟩
    · cases e
  · split at e
    · cases e
    · rename_i hx
      simp only [Bool.not_eq_true, Bool.not_eq_false', Bool.and_eq_true] at hx
      split at e
      · rename_i h1
        obtain ⟨ty, h2, h3⟩ := map_some_iff.mp e
        cases h3
        obtain ⟨w, rfl, v, rfl, hv⟩ := arguments_takes _ _ _ _ (by decide) _ _ h1
        exact ⟨_, by simp, .call _ _ _ _ _ _ h2 ((ident_iff _).mp hx.1) ((ident_iff _).mp hx.2) hv⟩
      · cases e
  · split at e
    · cases e
    · rename_i hx
      simp only [Bool.not_eq_true, Bool.not_eq_false'] at hx
      split at e
      · rename_i h1
        obtain ⟨ty, h2, h3⟩ := map_some_iff.mp e
        cases h3
        obtain ⟨v, rfl, hv⟩ := cond_takes _ _ _ _ h1
        exact ⟨_, by simp, .init _ _ _ _ _ h2 ((ident_iff _).mp hx) hv⟩
      · cases e
  · cases e

theorem limit_none {x : Nat} : (limit x).isNone = true ↔ ∀ tv, (x, tv) ∉ limits := by
  rw [Option.isNone_iff_eq_none]
  constructor
  · intro h tv hl
    rw [(limit_iff _ _).mpr ⟨tv.1, tv.2, hl, rfl⟩] at h
    cases h
  · intro h
    cases hl : limit x with
    | none => rfl
    | some e =>
      obtain ⟨t, v, hm, _⟩ := (limit_iff x e).mp hl
      exact absurd hm (h _)

theorem assignment_takes (n : Nat) (ts : List Tok) : Takes Assignment ts (assignment n ts) := by
  intro a rest e
  unfold assignment at e
  split at e
  · split at e
    · rename_i hx
      cases e
      rw [Bool.and_eq_true, ident_iff, limit_none] at hx
      exact ⟨[_, _], rfl, .incr _ hx.1 hx.2⟩
    · cases e
  · split at e
    · rename_i h1
      obtain ⟨u, rfl, hu⟩ := bin_takes _ _ _ _ h1
      split at e
      · rename_i hg
        obtain ⟨⟨es, r'⟩, h2, h3⟩ := map_some_iff.mp e
        cases h3
        obtain ⟨w, rfl, v, rfl, hv⟩ := arguments_takes _ _ _ _ (by decide) _ _ h2
        exact ⟨_, by simp, .call _ _ _ _ _ hu ((ident_iff _).mp hg) hv⟩
      · cases e
    · rename_i h1
      obtain ⟨u, rfl, hu⟩ := bin_takes _ _ _ _ h1
      obtain ⟨⟨b, r'⟩, h2, h3⟩ := map_some_iff.mp e
      cases h3
      obtain ⟨v, rfl, hv⟩ := cond_takes _ _ _ _ h2
      exact ⟨_, by simp, .assign _ _ _ _ hu hv⟩
    · rename_i h1
      obtain ⟨u, rfl, hu⟩ := bin_takes _ _ _ _ h1
      obtain ⟨⟨b, r'⟩, h2, h3⟩ := map_some_iff.mp e
      cases h3
      obtain ⟨v, rfl, hv⟩ := cond_takes _ _ _ _ h2
      exact ⟨_, by simp, .add _ _ _ _ hu hv⟩
    · cases e

/-- What is read as one statement.  If it is open, no `else` follows. -/
def OneStmt (ts : List Tok) (r : Option (Stmt × List Tok)) : Prop :=
  ∀ a rest, r = some (a, rest) → ∃ o u, ts = u ++ rest ∧ Statement (.one o) u a ∧ (o = true → ∀ s, rest ≠ w!"else" :: s)

theorem plain_iff (m : List Nat) : plain m = true ↔ 37 ∉ m := by simp [plain]

theorem named_iff (m : List Nat) : named m = true ↔ ∃ l r, m = l ++ 37 :: 115 :: r ∧ 37 ∉ l ∧ 37 ∉ r := by
  induction m with
  | nil => simp [named]
  | cons c cs ih =>
    unfold named
    split
    · rename_i hc
      subst hc
      rw [Bool.and_eq_true, decide_eq_true_eq, plain_iff]
      constructor
      · rintro ⟨h1, h2⟩
        cases cs with
        | nil => cases h1
        | cons d ds => cases h1; exact ⟨[], ds, rfl, by simp, h2⟩
      · rintro ⟨l, r, h1, h2, h3⟩
        cases l with
        | nil => cases h1; exact ⟨rfl, h3⟩
        | cons d ds => cases h1; exact absurd List.mem_cons_self h2
    · rename_i hc
      rw [ih]
      constructor
      · rintro ⟨l, r, rfl, h2, h3⟩
        exact ⟨c :: l, r, rfl, by simp [h2, Ne.symm hc], h3⟩
      · rintro ⟨l, r, h1, h2, h3⟩
        cases l with
        | nil => cases h1; exact absurd rfl hc
        | cons d ds => cases h1; exact ⟨ds, r, rfl, fun h => h2 (List.mem_cons_of_mem _ h), h3⟩


theorem closed {ts : List Tok} {a : Stmt} {rest : List Tok} (u : List Tok) (h : ts = u ++ rest)
    (hs : Statement (.one false) u a) :
    ∃ o u, ts = u ++ rest ∧ Statement (.one o) u a ∧ (o = true → ∀ s, rest ≠ w!"else" :: s) :=
  ⟨false, u, h, hs, by simp⟩

theorem stmt_takes (n f : Nat) :
    (∀ ts, Takes (fun u a => ∃ v, u = v ++ [p!"}"] ∧ Statement .seq v a) ts (stmt n f true ts)) ∧
    (∀ ts, OneStmt ts (stmt n f false ts)) := by
  induction f with
  | zero =>
    refine ⟨?_, ?_⟩
    · intro ts a rest e; cases e
    · intro ts a rest e; cases e
  | succ f ih =>
    obtain ⟨ihm, iho⟩ := ih
    refine ⟨?_, ?_⟩
    · intro ts a rest e
      unfold stmt at e
      split at e
      · cases e
        exact ⟨[_], rfl, [], rfl, .nil⟩
      · split at e
        · rename_i b ts' h1
          obtain ⟨o, u, rfl, hu, _⟩ := iho _ _ _ h1
          obtain ⟨⟨c, r'⟩, h2, h3⟩ := map_some_iff.mp e
          cases h3
          obtain ⟨w, rfl, v, rfl, hv⟩ := ihm _ _ _ h2
          exact ⟨_, (List.append_assoc ..).symm, u ++ v, by simp, .cons _ _ _ _ _ hu hv⟩
        · cases e
    · intro ts a rest e
      unfold stmt at e
      split at e
      · cases e
        exact closed [_] rfl .empty
      · obtain ⟨⟨b, r'⟩, h1, h2⟩ := map_some_iff.mp e
        cases h2
        obtain ⟨w, rfl, v, rfl, hv⟩ := ihm _ _ _ h1
        exact closed _ (by simp) (.block _ _ hv)
      · split at e
        · rename_i hx
          obtain ⟨t, h1, h2⟩ := map_some_iff.mp e
          cases h2
          exact closed [_, _, _, _, _, _] rfl (.retConv _ _ _ ((scalar_iff _ _).mp h1) ((ident_iff _).mp hx))
        · cases e
      · split at e
        · rename_i h1
          cases e
          obtain ⟨v, rfl, hv⟩ := cond_takes _ _ _ _ h1
          exact closed _ (by simp) (.ret _ _ hv)
        · cases e
      · split at e
        · rename_i h1
          obtain ⟨u, rfl, hu⟩ := decl_takes _ _ _ _ h1
          split at e
          · rename_i h2
            obtain ⟨v, rfl, hv⟩ := cond_takes _ _ _ _ h2
            split at e
            · rename_i h3
              obtain ⟨w, rfl, hw⟩ := assignment_takes _ _ _ _ h3
              obtain ⟨⟨b, r'⟩, h4, h5⟩ := map_some_iff.mp e
              cases h5
              obtain ⟨o, z, rfl, hz, ho⟩ := iho _ _ _ h4
              exact ⟨o, _, by simp, .loop _ _ _ _ _ _ _ _ _ hu hv hw hz, ho⟩
            · cases e
          · cases e
        · cases e
      · split at e
        · rename_i h1
          obtain ⟨u, rfl, hu⟩ := cond_takes _ _ _ _ h1
          split at e
          · rename_i h2
            obtain ⟨o, v, rfl, hv, ho⟩ := iho _ _ _ h2
            obtain ⟨⟨b, r'⟩, h4, h5⟩ := map_some_iff.mp e
            cases h5
            obtain ⟨o', w, rfl, hw, ho'⟩ := iho _ _ _ h4
            cases o with
            | true => exact absurd rfl (ho rfl _)
            | false => exact ⟨o', _, by simp, .ifElse _ _ _ _ _ _ _ hu hv hw, ho'⟩
          · rename_i hn h2
            cases e
            obtain ⟨o, v, rfl, hv, ho⟩ := iho _ _ _ h2
            refine ⟨true, _, by simp, .ifThen _ _ _ _ _ hu hv, fun _ s hs => ?_⟩
            subst hs
            first | exact hn _ _ | exact hn _ rfl | exact hn _
          · cases e
        · cases e
      · split at e
        · rename_i hm
          obtain ⟨l, r, rfl, hl, hr⟩ := (named_iff _).mp hm
          cases e
          exact closed [_, _, _, _, _, _, _, _, _] rfl (.printName _ _ hl hr)
        · cases e
      · split at e
        · rename_i hm
          cases e
          exact closed [_, _, _, _, _, _, _] rfl (.print _ ((plain_iff _).mp hm))
        · cases e
      · cases e
        exact closed [_, _, _, _] rfl .abort
      · split at e
        · rename_i hx
          rw [Bool.and_eq_true] at hx
          obtain ⟨t, h1, h2⟩ := map_some_iff.mp e
          cases h2
          exact closed [_, _, _, _, _, _, _, _, _, _, _, _, _, _, _, _, _, _, _, _] rfl
            (.copy _ _ _ _ _ ((ident_iff _).mp hx.1) ((ident_iff _).mp hx.2) ((scalar_iff _ _).mp h1))
        · cases e
      · split at e
        · rename_i hx
          rw [Bool.and_eq_true] at hx
          obtain ⟨t, h1, h2⟩ := map_some_iff.mp e
          cases h2
          exact closed [_, _, _, _, _, _, _, _, _, _, _, _, _, _] rfl
            (.copyScalar _ _ _ _ ((ident_iff _).mp hx.1) ((ident_iff _).mp hx.2) ((scalar_iff _ _).mp h1))
        · cases e
      · obtain ⟨u, rfl, hu⟩ := decl_takes _ _ _ _ e
        exact closed (_ :: u) rfl (.const _ _ hu)
      · split at e
        · cases e
        · rename_i hx
          simp only [Bool.not_eq_true, Bool.not_eq_false', Bool.and_eq_true] at hx
          split at e
          · rename_i h1
            cases e
            obtain ⟨w, rfl, v, rfl, hv⟩ := arguments_takes _ _ _ _ (by decide) _ _ h1
            exact closed _ (by simp) (.construct _ _ _ _ ((ident_iff _).mp hx.1) ((ident_iff _).mp hx.2) hv)
          · cases e
      · split at e
        · cases e
        · rename_i hx
          simp only [Bool.not_eq_true, Bool.not_eq_false'] at hx
          split at e
          · rename_i h1
            cases e
            obtain ⟨w, rfl, v, rfl, hv⟩ := arguments_takes _ _ _ _ (by decide) _ _ h1
            exact closed _ (by simp) (.call _ _ _ ((ident_iff _).mp hx) hv)
          · cases e
      · obtain ⟨u, h1, hu⟩ := decl_takes _ _ _ _ e
        exact closed u h1 (.decl _ _ hu)
      · split at e
        · rename_i h1
          cases e
          obtain ⟨u, rfl, hu⟩ := assignment_takes _ _ _ _ h1
          exact closed _ (by simp) (.assign _ _ hu)
        · cases e

theorem param_takes (ts : List Tok) : Takes Parameter ts (param ts) := by
  intro a rest e
  unfold param at e
  dsimp only at e
  split at e
  all_goals first | (cases e; done) | skip
  all_goals
    split at e
    · rename_i hx
      rw [ident_iff] at hx
      obtain ⟨t, h1, h2⟩ := map_some_iff.mp e
      cases h2
      try rw [scalar_iff] at h1
      first
        | exact ⟨[_, _, _, _], rfl, .constPtr _ _ _ h1 hx⟩
        | exact ⟨[_, _, _, _], rfl, .ptrConst _ _ _ h1 hx⟩
        | exact ⟨[_, _, _], rfl, .ptr _ _ _ h1 hx⟩
        | exact ⟨[_, _, _], rfl, .constVal _ _ _ h1 hx⟩
        | exact ⟨[_, _], rfl, .val _ _ _ h1 hx⟩
    · cases e

theorem someParams_takes (f : Nat) (ts : List Tok) :
    Takes (fun u ps => ∃ v, u = v ++ [p!")"] ∧ Parameters v ps) ts (someParams f ts) := by
  induction f generalizing ts with
  | zero => intro a rest e; cases e
  | succ f ih =>
    intro a rest e
    unfold someParams at e
    split at e
    · rename_i h1
      cases e
      obtain ⟨u, rfl, hu⟩ := param_takes _ _ _ h1
      exact ⟨u ++ [_], by simp, _, rfl, .one _ _ hu⟩
    · rename_i p k r h1
      cases e
      obtain ⟨u, rfl, hu⟩ := param_takes _ _ _ h1
      exact ⟨u ++ [p!"=", .num k, p!")"], by simp, u ++ [p!"=", .num k], by simp, .default _ _ _ hu⟩
    · rename_i h1
      obtain ⟨u, rfl, hu⟩ := param_takes _ _ _ h1
      obtain ⟨⟨ps, r'⟩, h2, h3⟩ := map_some_iff.mp e
      cases h3
      obtain ⟨w, rfl, v, rfl, hv⟩ := ih _ _ _ h2
      exact ⟨u ++ p!"," :: v ++ [p!")"], by simp, _, rfl, .more _ _ _ _ hu hv⟩
    · cases e

theorem params_takes (n : Nat) (ts : List Tok) :
    Takes (fun u ps => ∃ v, u = v ++ [p!")"] ∧ ParameterList v ps) ts (params n ts) := by
  intro a rest e
  unfold params at e
  split at e
  · cases e
    exact ⟨[_], rfl, [], rfl, .none⟩
  · obtain ⟨w, rfl, u, rfl, hu⟩ := someParams_takes _ _ _ _ e
    exact ⟨_, rfl, u, rfl, .some _ _ hu⟩

theorem func_takes (n : Nat) (ts : List Tok) : Takes Function ts (func n ts) := by
  intro a rest e
  unfold func at e
  split at e
  · split at e
    · cases e
    · rename_i hx
      simp only [Bool.not_eq_true, Bool.not_eq_false'] at hx
      rw [ident_iff] at hx
      split at e
      · rename_i ty ps ts' h1 h2
        obtain ⟨⟨b, r'⟩, h3, h4⟩ := map_some_iff.mp e
        cases h4
        obtain ⟨w, rfl, v, rfl, hv⟩ := (stmt_takes n n).1 _ _ _ h3
        obtain ⟨w, rfl, u, rfl, hu⟩ := params_takes _ _ _ _ h2
        exact ⟨_, by simp, .mk _ _ _ _ _ _ _ h1 hx hu hv⟩
      · cases e
  · cases e

/-- A text that is read as a function definition is one, and the grammar gives it the same tree. -/
theorem parse_derives {text : List Char} {f : Func} (h : parse text = some f) : Function (tokenize text) f := by
  unfold parse at h
  split at h
  · rename_i h1
    cases h
    obtain ⟨u, h2, hu⟩ := func_takes _ _ _ _ h1
    rw [h2, List.append_nil]
    exact hu
  · cases h

theorem skipDecl_takes {ts rest : List Tok} (h : skipDecl ts = some rest) : ∃ u, ts = u ++ p!";" :: rest ∧ p!";" ∉ u := by
  induction ts with
  | nil => cases h
  | cons t ts ih =>
    unfold skipDecl at h
    split at h
    · rename_i e
      cases e
      cases h
      exact ⟨[], rfl, by simp⟩
    · rename_i hn e
      cases e
      obtain ⟨u, rfl, hu⟩ := ih h
      refine ⟨t :: u, rfl, ?_⟩
      rw [List.mem_cons, not_or]
      exact ⟨fun h => hn h.symm, hu⟩
    · rename_i e; cases e

theorem members_takes (n f : Nat) (ts : List Tok) (ms : List (Nat × Ty × Option Int)) (fs : List Func) (rest : List Tok)
    (e : members n f ts = some (ms, fs, rest)) : ∃ v, ts = v ++ p!"}" :: p!";" :: rest ∧ Members v ms fs := by
  induction f generalizing ts ms fs rest with
  | zero => cases e
  | succ f ih =>
    unfold members at e
    dsimp only at e
    split at e
    · cases e
      exact ⟨[], rfl, .nil⟩
    · split at e
      · rename_i h1
        obtain ⟨u, rfl, hu⟩ := skipDecl_takes h1
        obtain ⟨v, rfl, hv⟩ := ih _ _ _ _ e
        exact ⟨_, by simp, .declared _ _ _ _ hu hv⟩
      · cases e
    · obtain ⟨v, rfl, hv⟩ := ih _ _ _ _ e
      exact ⟨_, by simp, .access _ _ _ hv⟩
    · split at e
      · rename_i hx
        obtain ⟨⟨ms', fs', r'⟩, h3, h4⟩ := map_some_iff.mp e
        cases h4
        obtain ⟨v, rfl, hv⟩ := ih _ _ _ _ h3
        exact ⟨_, by simp, .string _ _ _ _ _ _ ((ident_iff _).mp hx) hv⟩
      · cases e
    · split at e
      · cases e
      · rename_i hx
        simp only [Bool.not_eq_true, Bool.not_eq_false'] at hx
        split at e
        · rename_i hs
          obtain ⟨⟨ms', fs', r'⟩, h3, h4⟩ := map_some_iff.mp e
          cases h4
          obtain ⟨v, rfl, hv⟩ := ih _ _ _ _ h3
          exact ⟨_, by simp, .array _ _ _ _ _ _ _ ((scalar_iff _ _).mp hs) ((ident_iff _).mp hx) hv⟩
        · cases e
    · split at e
      · cases e
      · rename_i hx
        simp only [Bool.not_eq_true, Bool.not_eq_false'] at hx
        split at e
        · rename_i hs
          obtain ⟨⟨ms', fs', r'⟩, h3, h4⟩ := map_some_iff.mp e
          cases h4
          obtain ⟨v, rfl, hv⟩ := ih _ _ _ _ h3
          exact ⟨_, by simp, .scalar _ _ _ _ _ _ ((scalar_iff _ _).mp hs) ((ident_iff _).mp hx) hv⟩
        · cases e
    · split at e
      · rename_i h1
        obtain ⟨u, rfl, hu⟩ := func_takes _ _ _ _ h1
        obtain ⟨⟨ms', fs', r'⟩, h3, h4⟩ := map_some_iff.mp e
        cases h4
        obtain ⟨v, rfl, hv⟩ := ih _ _ _ _ h3
        exact ⟨_, by simp, .func _ _ _ _ _ hu hv⟩
      · cases e

theorem unit_derives (n f : Nat) (ts : List Tok) (u : TransUnit) (e : unit n f ts = some u) : Definitions ts u := by
  induction f generalizing ts u with
  | zero => cases e
  | succ f ih =>
    unfold unit at e
    split at e
    · cases e
      exact .nil
    · split at e
      · cases e
      · rename_i hx
        simp only [Bool.not_eq_true, Bool.not_eq_false'] at hx
        split at e
        · rename_i h1
          obtain ⟨u', h3, h4⟩ := map_some_iff.mp e
          cases h4
          obtain ⟨v, rfl, hv⟩ := members_takes _ _ _ _ _ _ h1
          exact .struct _ _ _ _ _ _ ((ident_iff _).mp hx) hv (ih _ _ h3)
        · cases e
    · split at e
      · cases e
      · rename_i hx
        simp only [Bool.not_eq_true, Bool.not_eq_false'] at hx
        split at e
        · rename_i hs h1
          obtain ⟨u', h3, h4⟩ := map_some_iff.mp e
          cases h4
          obtain ⟨w, rfl, v, rfl, hv⟩ := (stmt_takes _ _).1 _ _ _ h1
          have := Definitions.conv _ _ _ _ _ _ _ ((ident_iff _).mp hx) ((scalar_iff _ _).mp hs) hv (ih _ _ h3)
          simpa using this
        · cases e
    · split at e
      · cases e
      · rename_i hx
        simp only [Bool.not_eq_true, Bool.not_eq_false', Bool.and_eq_true] at hx
        obtain ⟨hx, hc⟩ := hx
        have := eq_of_beq hc
        subst this
        split at e
        · rename_i h1
          obtain ⟨w, rfl, z, rfl, hz⟩ := params_takes _ _ _ _ h1
          split at e
          · rename_i h2
            obtain ⟨u', h3, h4⟩ := map_some_iff.mp e
            cases h4
            obtain ⟨w, rfl, v, rfl, hv⟩ := (stmt_takes _ _).1 _ _ _ h2
            have := Definitions.ctor _ _ _ _ _ _ _ ((ident_iff _).mp hx) hz hv (ih _ _ h3)
            simpa using this
          · cases e
        · cases e
    · split at e
      · rename_i h1
        obtain ⟨v, rfl, hv⟩ := func_takes _ _ _ _ h1
        obtain ⟨u', h3, h4⟩ := map_some_iff.mp e
        cases h4
        exact .func _ _ _ _ hv (ih _ _ h3)
      · cases e

/-- The same for a translation unit. -/
theorem parseUnit_derives {text : List Char} {u : TransUnit} (h : parseUnit text = some u) : Definitions (tokenize text) u :=
  unit_derives _ _ _ _ h

end Verif.Props
