import Verif.Cpp.Sem

/-! Property C94: the execution of the source text is well defined.  More steps never change an outcome, variables keep
their types, blocks leave no variables behind. -/

namespace Verif.Props
open Verif.Cpp

/-! ## The number of steps -/

/-- `b` is the outcome `a`, unless `a` stopped for lack of steps. -/
def Upto {α : Type} (a b : C α) : Prop := a = outOfFuel ∨ b = a

theorem Upto.refl {α : Type} (a : C α) : Upto a a := Or.inr rfl

theorem Upto.bind {α β : Type} {a b : C α} {f g : α → C β} (h : Upto a b) (hf : ∀ x, Upto (f x) (g x)) :
    Upto (a >>= f) (b >>= g) := by
  rcases h with rfl | rfl
  · exact Or.inl rfl
  · cases b with
    | ok x => exact hf x
    | _ => exact Or.inr rfl

theorem Upto.ite {α : Type} {c : Prop} [Decidable c] {a b a' b' : C α} (h : Upto a a') (h' : Upto b b') :
    Upto (if c then a else b) (if c then a' else b') := by
  split
  · exact h
  · exact h'

/-- The calls of `Γ'` have the outcomes of those of `Γ`. -/
structure CallsUpto (Γ Γ' : Calls) : Prop where
  call : ∀ f args ρ, Upto (Γ.call f args ρ) (Γ'.call f args ρ)
  construct : ∀ c x args ρ, Upto (Γ.construct c x args ρ) (Γ'.construct c x args ρ)
  convert : ∀ e x ρ, Upto (Γ.convert e x ρ) (Γ'.convert e x ρ)

section
variable [Dialect]

omit [Dialect] in
theorem Upto.andThen {r r' : C Flow} {k k' : Env → C Flow} (h : Upto r r') (hk : ∀ ρ, Upto (k ρ) (k' ρ)) :
    Upto (r >>= fun s => s.andThen k) (r' >>= fun s => s.andThen k') := by
  refine h.bind fun s => ?_
  cases s with
  | next ρ => exact hk ρ
  | ret o => exact Upto.refl _

theorem iterate_upto (c : Env → C Val) {inc inc' body body' : Env → C Flow} (hi : ∀ ρ, Upto (inc ρ) (inc' ρ))
    (hb : ∀ ρ, Upto (body ρ) (body' ρ)) {n m : Nat} (h : n ≤ m) :
    ∀ ρ, Upto (iterate c inc body n ρ) (iterate c inc' body' m ρ) := by
  induction n generalizing m with
  | zero => intro ρ; exact Or.inl rfl
  | succ n ih =>
    obtain ⟨m, rfl⟩ : ∃ k, m = k + 1 := ⟨m - 1, by omega⟩
    intro ρ
    refine (Upto.refl (c ρ)).bind fun v => ?_
    refine Upto.ite ?_ (Upto.refl _)
    exact (hb ρ).andThen fun ρ => (hi ρ).andThen fun ρ => ih (by omega) ρ

theorem exec_upto {Γ Γ' : Calls} (hΓ : CallsUpto Γ Γ') {n m : Nat} (h : n ≤ m) (fn : List Nat) (t : Ty) (s : Stmt) :
    ∀ ρ, Upto (exec Γ n fn t s ρ) (exec Γ' m fn t s ρ) := by
  induction s with
  | skip => intro ρ; exact Upto.refl _
  | seq a b iha ihb =>
    intro ρ
    by_cases hab : ∃ fmt s', a = .fprintf fmt ∧ b = .seq .abort s'
    · obtain ⟨fmt, s', rfl, rfl⟩ := hab
      exact Upto.refl _
    · rw [exec.eq_3 _ _ _ _ _ _ _ (fun fmt s' h1 h2 => hab ⟨fmt, s', h1, h2⟩),
        exec.eq_3 _ _ _ _ _ _ _ (fun fmt s' h1 h2 => hab ⟨fmt, s', h1, h2⟩)]
      exact (iha ρ).andThen fun ρ => ihb ρ
  | block s ih => intro ρ; exact (ih ρ).bind fun r => Upto.refl _
  | decl t x e => intro ρ; cases e <;> exact Upto.refl _
  | assign l e => intro ρ; exact Upto.refl _
  | loop i c s b ihi ihs ihb =>
    intro ρ
    refine Upto.ite (Upto.refl _) ?_
    refine (ihi ρ).bind fun r => ?_
    refine Upto.bind ?_ fun r => Upto.refl _
    cases r with
    | next ρ => exact iterate_upto _ ihs ihb h ρ
    | ret o => exact Upto.refl _
  | ite c a b iha ihb => intro ρ; exact Upto.ite (Upto.refl _) ((Upto.refl _).bind fun v => Upto.ite (iha ρ) (ihb ρ))
  | ret e => intro ρ; cases t <;> exact Upto.refl _
  | fprintf f => intro ρ; exact Upto.refl _
  | abort => intro ρ; exact Upto.refl _
  | memcpy d s e n => intro ρ; exact Upto.refl _
  | memcpySc d s e => intro ρ; exact Upto.refl _
  | call f args => intro ρ; exact (hΓ.call f args ρ).bind fun _ => Upto.refl _
  | declCall t x f args => intro ρ; exact (hΓ.call f args ρ).bind fun _ => Upto.refl _
  | assignCall l f args => intro ρ; exact (hΓ.call f args ρ).bind fun _ => Upto.refl _
  | construct c x args => intro ρ; exact (hΓ.construct c x args ρ).bind fun _ => Upto.refl _
  | retConv e x =>
    intro ρ
    cases t with
    | sc t => exact (hΓ.convert e x ρ).bind fun _ => Upto.refl _
    | _ => exact Upto.refl _

theorem calls_upto (u : TransUnit) {n m : Nat} (h : n ≤ m) : ∀ {d d' : Nat}, d ≤ d' → CallsUpto (u.calls n d) (u.calls m d') := by
  intro d
  induction d with
  | zero => intro d' _; exact ⟨fun _ _ _ => Or.inl rfl, fun _ _ _ _ => Or.inl rfl, fun _ _ _ => Or.inl rfl⟩
  | succ d ih =>
    intro d' hd
    obtain ⟨d', rfl⟩ : ∃ k, d' = k + 1 := ⟨d' - 1, by omega⟩
    have ih := ih (d' := d') (by omega)
    refine ⟨fun f args ρ => ?_, fun c x args ρ => ?_, fun e x ρ => ?_⟩
    · refine (Upto.refl _).bind fun g => (Upto.refl _).bind fun ρ' => ?_
      exact (exec_upto ih h _ _ _ _).bind fun _ => Upto.refl _
    · refine (Upto.refl _).bind fun s => (Upto.refl _).bind fun g => (Upto.refl _).bind fun ms => (Upto.refl _).bind fun ρ' => ?_
      exact (exec_upto ih h _ _ _ _).bind fun _ => Upto.refl _
    · refine (Upto.refl _).bind fun o => ?_
      cases o with
      | obj c =>
        refine (Upto.refl _).bind fun s => (Upto.refl _).bind fun g => (Upto.refl _).bind fun ms => Upto.ite ?_ (Upto.refl _)
        exact (exec_upto ih h _ _ _ _).bind fun _ => Upto.refl _
      | _ => exact Upto.refl _

/-- Once a call of a function has an outcome within `n` steps, it has the same outcome with any larger number. -/
theorem run_steps (f : Func) (args : List Obj) {n m : Nat} (h : n ≤ m) (hr : run n f args ≠ outOfFuel) :
    run m f args = run n f args := by
  have : Upto (run n f args) (run m f args) :=
    (Upto.refl _).bind fun ρ => (exec_upto ⟨fun _ _ _ => Upto.refl _, fun _ _ _ _ => Upto.refl _, fun _ _ _ => Upto.refl _⟩ h _ _ _ ρ).bind
      fun _ => Upto.refl _
  exact this.resolve_left hr

/-- The same for the functions of a translation unit that call each other. -/
theorem unit_steps (u : TransUnit) (f : Nat) (args : List Obj) {n m : Nat} (h : n ≤ m) (hr : u.run n f args ≠ outOfFuel) :
    u.run m f args = u.run n f args := by
  have : Upto (u.run n f args) (u.run m f args) :=
    (Upto.refl _).bind fun g => (Upto.refl _).bind fun ρ => (exec_upto (calls_upto u h h) h _ _ _ ρ).bind fun _ => Upto.refl _
  exact this.resolve_left hr

/-- The outcome of a text is what any number of steps gives that is enough. -/
theorem runs_iff {text : String} {args : List Obj} {r : C Obj} (hr : r ≠ outOfFuel) :
    Runs text args r ↔ ∃ f n, parse text.toList = some f ∧ run n f args = r := by
  constructor
  · rintro ⟨f, hf, n, hn⟩
    exact ⟨f, n, hf, hn n (Nat.le_refl _)⟩
  · rintro ⟨f, n, hf, rfl⟩
    exact ⟨f, hf, n, fun m hm => run_steps f args hm hr⟩

end
end Verif.Props
