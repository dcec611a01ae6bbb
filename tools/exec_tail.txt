/-- Every text of the library meets the requirements. -/
theorem library_wellFormed : ∀ e ∈ library, WellFormed e.2 := by
  intro e he
  unfold library at he
  simp only [List.mem_append] at he
  rcases he with (((((((he | he) | he) | he) | he) | he) | he) | he) | he
  · exact library0_wellFormed e he
  · exact library1_wellFormed e he
  · exact library2_wellFormed e he
  · exact library3_wellFormed e he
  · exact library4_wellFormed e he
  · exact library5_wellFormed e he
  · exact library6_wellFormed e he
  · exact library7_wellFormed e he
  · exact library8_wellFormed e he

/-- `Machine u g args r`: on the abstract machine, the call of the function `g` with the arguments `args` has an outcome, the one that `r`
stands for, and all its outcomes are alike: whatever the order in which operands are evaluated, it is the only one, or the
behaviour is undefined. -/
def Machine [Dialect] (u : TransUnit) (g : Func) (args : List Obj) (r : C Obj) : Prop :=
  ∃ r', SpecExec.Called Dialect.wrapv u g (args.map argOf) r' ∧
    (∀ r'', SpecExec.Called Dialect.wrapv u g (args.map argOf) r'' → Alike r'' r') ∧ Shows args r r'

theorem machine_of [Dialect] {u : TransUnit} {g : Func} {args : List Obj} {r : C Obj}
    (h : ∃ r', SpecExec.Called Dialect.wrapv u g (args.map argOf) r' ∧ Shows args r r') : Machine u g args r := by
  obtain ⟨r', h1, h2⟩ := h
  exact ⟨r', h1, fun r'' h => called_det h h1, h2⟩

/-- A text that the model runs is a function definition whose call has the same outcome on the abstract machine, and no other one. -/
theorem text_machine [Dialect] {text : String} {args : List Obj} {r : C Obj} (h : Runs text args r) (ha : ∀ o ∈ args, IsArg o) :
    ∃ g, IsFunction text g ∧ (funcOk g = true → SpecExec.Accepted g.ret r → ∀ u, Machine u g args r) := by
  obtain ⟨g, hp, n, hn⟩ := h
  exact ⟨g, parse_exact hp, fun hg hr u => machine_of (run_machine hg ha (hn n (Nat.le_refl n)) hr u)⟩

/-- The same for a function of a translation unit. -/
theorem text_unit_machine [Dialect] {text : String} {f : Nat} {args : List Obj} {r : C Obj} (h : RunsIn text f args r)
    (ha : ∀ o ∈ args, IsArg o) :
    ∃ u, IsUnit text u ∧ (funcsOk u = true → ∀ g, func u.funcs f = some g → SpecExec.Accepted g.ret r → Machine u g args r) := by
  obtain ⟨u, hp, n, hn⟩ := h
  refine ⟨u, parseUnit_exact hp, fun hu g hg hr => ?_⟩
  rw [funcsOk, Bool.and_eq_true, List.all_eq_true] at hu
  have hl : lookup f u.funcs = .ok g := by
    rcases lookup_outcome f u.funcs with h | ⟨g', h, h'⟩
    · exact absurd (hn n (Nat.le_refl n)).symm fun e => by
        rw [e] at hr
        unfold TransUnit.run at hr
        rw [h] at hr
        exact hr.1 rfl
    · rw [h'.1] at hg
      cases hg
      exact h
  exact machine_of (unit_machine hu.1 hl (hu.2 g (List.mem_of_find?_eq_some hg)) ha (hn n (Nat.le_refl n)) hr)

end Verif.Props
