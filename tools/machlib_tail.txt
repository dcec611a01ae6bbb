/-- Every definition of the library obeys the static rules. -/
theorem library_checked : ∀ e ∈ library, Checked e := by
  intro e he
  unfold library at he
  simp only [List.mem_append] at he
  rcases he with (((((((he | he) | he) | he) | he) | he) | he) | he) | he
  · exact library0_checked e he
  · exact library1_checked e he
  · exact library2_checked e he
  · exact library3_checked e he
  · exact library4_checked e he
  · exact library5_checked e he
  · exact library6_checked e he
  · exact library7_checked e he
  · exact library8_checked e he

/-! ## Arguments -/

theorem hasTy_obj {t : PTy} {o : Obj} (h : HasTy t o) : o.ty = paramTy t ∧ Verif.Props.Typed o ∧ IsArg o := by
  unfold HasTy at h
  split at h
  · obtain ⟨b, rfl⟩ := h
    have := yields_ofBits ‹Elem› b
    exact ⟨rfl, this, _, denotes_bytes this.1 this.2⟩
  · obtain ⟨a, rfl⟩ := h; exact ⟨rfl, trivial, trivial⟩
  · obtain ⟨a, rfl⟩ := h; exact ⟨rfl, trivial, trivial⟩
  · obtain ⟨p, rfl⟩ := h; exact ⟨rfl, trivial, trivial⟩
  · cases h

theorem typed_objs : ∀ {ps : List PTy} {args : List Obj}, Cpp.Typed ps args →
    args.map Obj.ty = ps.map paramTy ∧ (∀ o ∈ args, Verif.Props.Typed o) ∧ ∀ o ∈ args, IsArg o := by
  intro ps
  induction ps with
  | nil =>
    intro args h
    cases args with
    | nil => exact ⟨rfl, fun o h => absurd h List.not_mem_nil, fun o h => absurd h List.not_mem_nil⟩
    | cons => cases h
  | cons p ps ih =>
    intro args h
    cases args with
    | nil => cases h
    | cons o os =>
      have h1 := hasTy_obj h.1
      have h2 := ih h.2
      exact ⟨by rw [List.map_cons, List.map_cons, h1.1, h2.1], List.forall_mem_cons.2 ⟨h1.2.1, h2.2.1⟩,
        List.forall_mem_cons.2 ⟨h1.2.2, h2.2.2⟩⟩

theorem lookup_value {α : Type} {f : Nat} {m : α} : ∀ {l : List (Nat × α)}, l.lookup f = some m → m ∈ l.map Prod.snd := by
  intro l
  induction l with
  | nil => intro h; cases h
  | cons p l ih =>
    intro h
    obtain ⟨k, v⟩ := p
    rw [List.lookup_cons] at h
    split at h
    · cases h; exact List.mem_cons_self ..
    · exact List.mem_cons_of_mem _ (ih h)

theorem message_accepted {f : Nat} {m : String} (h : message f = some m) : m ≠ "ill-formed program" ∧ m ≠ "out of fuel" := by
  have h := lookup_value h
  exact (by decide +kernel : ∀ m ∈ List.map Prod.snd _, m ≠ "ill-formed program" ∧ m ≠ "out of fuel") m h

/-! ## The library -/

/-- On the abstract machine the function `f`, defined by the text, has exactly one outcome when it is called with `args`, the one that
`o` stands for. -/
def Executes [Dialect] (f : Nat) (args : List Obj) (o : C Obj) : Text → Prop
  | .fn s => ∃ g, IsFunction s g ∧ ∀ u, Machine u g args o
  | .unit s => ∃ u g, IsUnit s u ∧ func u.funcs f = some g ∧ Machine u g args o

theorem lookup_of_mem {α : Type} : ∀ {l : List (Nat × α)} {e : Nat × α}, (l.map Prod.fst).Nodup → e ∈ l → l.lookup e.1 = some e.2 := by
  intro l
  induction l with
  | nil => intro e _ h; exact absurd h List.not_mem_nil
  | cons p l ih =>
    intro e hn h
    rw [List.map_cons, List.nodup_cons] at hn
    rw [List.lookup_cons]
    rcases List.mem_cons.1 h with rfl | h
    · rw [beq_self_eq_true]
    · have : (e.1 == p.1) = false := beq_eq_false_iff_ne.2 fun heq => hn.1 (heq ▸ List.mem_map_of_mem h)
      rw [this]
      exact ih hn.2 h

/-- The functions of the library have the outcomes of the model on the abstract machine: every call with arguments of the declared types
has exactly one outcome, or undefined behaviour. -/
theorem library_machine [Dialect] : ∀ e ∈ library, ∀ g, e.2.sig e.1 = some g → ∀ args, Cpp.Typed g.params args →
    ∃ o, (∀ o', Cpp.Called e.1 args o' ↔ o' = o) ∧ Executes e.1 args o e.2 := by
  intro e he g hg args ha
  obtain ⟨o, h1, h2⟩ := call_total e he g hg args ha
  refine ⟨o, h1, ?_⟩
  obtain ⟨ht, hty, harg⟩ := typed_objs ha
  obtain ⟨t, hl, hr⟩ := (h1 o).2 rfl
  have hc := library_checked e he
  have hlook : library.lookup e.1 = some e.2 := lookup_of_mem library_distinct he
  cases hl.symm.trans hlook
  obtain ⟨f, t⟩ := e
  cases t with
  | fn s =>
    obtain ⟨d, hp, g', hg', hd⟩ := hc
    cases hg'.symm.trans hg
    simp only [checked, Bool.and_eq_true, decide_eq_true_eq] at hd
    obtain ⟨⟨⟨hok, hf⟩, hret⟩, hps⟩ := hd
    refine ⟨d, parse_exact hp, fun u => ?_⟩
    obtain ⟨d'', hp', n, hn⟩ := hr
    cases hp.symm.trans hp'
    refine machine_of (run_machine hok harg (hn n (Nat.le_refl n)) ?_ u)
    have hs := function_safe (by simp only [funcOk, Bool.and_eq_true] at hok; exact hok.1.1) hf n (ht.trans hps.symm) hty
    rw [hn n (Nat.le_refl n)] at hs
    cases o with
    | ok r =>
      intro hv
      have h2 : Cpp.Returns g args r := h2
      unfold Cpp.Returns at h2
      rw [← hret, hv] at h2
      obtain ⟨e, p, q, -, rfl, -⟩ := h2
      rfl
    | ub u => exact hs
    | abort m => exact message_accepted h2
    | indet l => trivial
  | unit s =>
    obtain ⟨⟨u, hp, hu, -, d, hd, hv⟩, hall⟩ := hc
    obtain ⟨r, hr'⟩ := hall _ g hg args ha
    cases (h1 (.ok r)).1 ⟨_, hlook, hr'⟩
    rw [funcsOk, Bool.and_eq_true, List.all_eq_true] at hu
    obtain ⟨u', hp', n, hn⟩ := hr'
    cases hp.symm.trans hp'
    refine ⟨u, d, parseUnit_exact hp, hd, ?_⟩
    have hl : lookup f u.funcs = .ok d := by
      rcases lookup_outcome f u.funcs with h | ⟨g', h, h'⟩
      · have := hn n (Nat.le_refl n)
        unfold TransUnit.run at this
        rw [h] at this
        cases this
      · rw [h'.1] at hd
        cases hd
        exact h
    exact machine_of (unit_machine hu.1 hl (hu.2 d (List.mem_of_find?_eq_some hd)) harg (hn n (Nat.le_refl n)) fun h => absurd h hv)

end Verif.Props
