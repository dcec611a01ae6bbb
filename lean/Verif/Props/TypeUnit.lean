import Verif.Props.TypeSafe
import Verif.Props.Library

/-!
# Property C97, continued: translation units whose functions call each other
-/

namespace Verif.Props
open Verif.Cpp

theorem named_lookup {f : Nat} {g : Func} : ∀ {l : List Func}, SpecType.named f l = some g → lookup f l = .ok g := by
  intro l
  induction l with
  | nil => intro h; cases h
  | cons a l ih =>
    intro h
    unfold SpecType.named at h
    unfold lookup
    rw [List.find?_cons] at h
    split
    · rename_i e
      rw [e] at h
      cases h
      rfl
    · rename_i e
      rw [Bool.not_eq_true] at e
      rw [e] at h
      exact ih h

theorem namedStruct_lookup {c : Nat} {s : Struct} : ∀ {l : List Struct}, SpecType.namedStruct c l = some s → lookupStruct c l = .ok s := by
  intro l
  induction l with
  | nil => intro h; cases h
  | cons a l ih =>
    intro h
    unfold SpecType.namedStruct at h
    unfold lookupStruct
    rw [List.find?_cons] at h
    split
    · rename_i e
      rw [e] at h
      cases h
      rfl
    · rename_i e
      rw [Bool.not_eq_true] at e
      rw [e] at h
      exact ih h

theorem isPointer_eq (t : Ty) : SpecType.isPointer t = t.isPtr := by cases t <;> rfl

theorem pointer_argument {Δ : SpecType.Scope} {e : Elem} {y : Nat} (h : SpecType.argument Δ (.ptr e) (.var y) = true) :
    ∃ n, Δ.lookup y = some (.cells e n) := by
  replace h : (match Δ.lookup y with | some (.cells e' _) => decide (e' = e) | _ => false) = true := h
  split at h
  · rename_i e' n hy
    cases of_decide_eq_true h
    exact ⟨n, hy⟩
  · cases h

/-- The parameters as variables. -/
def paramScope (ps : List (Ty × Nat)) : SpecType.Scope := (ps.map fun p => (p.2, p.1)).reverse

theorem paramScope_cons (t : Ty) (x : Nat) (ps : List (Ty × Nat)) (Δ : SpecType.Scope) :
    paramScope ((t, x) :: ps) ++ Δ = paramScope ps ++ (x, t) :: Δ := by
  unfold paramScope
  rw [List.map_cons, List.reverse_cons, List.append_assoc]; rfl

theorem fields_shape {x : Nat} {ρ : Env} : shape (ρ.map fun p => (member x p.1, p.2)) = (shape ρ).map fun p => (member x p.1, p.2) := by
  unfold shape
  rw [List.map_map, List.map_map]
  rfl

section
variable [Dialect]

/-- Arguments that obey the rules are passed. -/
theorem pass_sane {ρ : Env} (hρ : EnvTyped ρ) : ∀ (ps : List (Ty × Nat)) (as : List Expr) (acc : Env), as.all litsE = true → EnvTyped acc →
    SpecType.arguments (shape ρ) ps as = true →
    Sane Silent (fun ρ' => EnvTyped ρ' ∧ shape ρ' = paramScope ps ++ shape acc) (pass ρ ps as acc) := by
  intro ps
  induction ps with
  | nil =>
    intro as acc _ ha h
    cases as with
    | nil => exact ⟨ha, rfl⟩
    | cons => cases h
  | cons p ps ih =>
    intro as acc hl ha h
    obtain ⟨t, x⟩ := p
    cases as with
    | nil => cases h
    | cons a as =>
      rw [List.all_cons, Bool.and_eq_true] at hl
      unfold SpecType.arguments at h
      rw [Bool.and_eq_true, Bool.and_eq_true] at h
      rw [paramScope_cons]
      obtain ⟨⟨h1, h2⟩, h3⟩ := h
      cases t with
      | sc e =>
        refine (eval_sane hρ a hl.1 h1).bind fun v hv _ => ?_
        refine (sane_cast e v).bind fun w hw _ => ?_
        exact ih as ((x, .sc e (some w)) :: acc) hl.2
          (cons_typed ha x (yields_cast e v (expression_types ρ hρ a hl.1 v hv).1 w hw)) h3
      | ptr e =>
        cases a <;> try cases h1
        rename_i y
        obtain ⟨n', hy⟩ := pointer_argument h1
        obtain ⟨o, ho, ht⟩ := get_of_scope hy
        cases o <;> cases ht
        rename_i r
        unfold pass
        rw [ho]
        show Sane _ _ (if _ then _ else illFormed)
        rw [if_pos ⟨rfl, by simpa [SpecType.isPointer] using h2⟩]
        exact ih as ((x, .ptr e (toPtr r)) :: acc) hl.2 (cons_typed ha x trivial) h3
      | _ => cases h1

omit [Dialect] in
/-- The arrays that were passed are written back. -/
theorem copyBack_sane (ρ' : Env) : ∀ (ps : List (Ty × Nat)) (as : List Expr) (ρ : Env), EnvTyped ρ →
    SpecType.arguments (shape ρ) ps as = true →
    (ps.all fun p => !SpecType.isPointer p.1 || (shape ρ').lookup p.2 = some p.1) = true →
    Sane Silent (fun ρ₂ => EnvTyped ρ₂ ∧ shape ρ₂ = shape ρ) (copyBack ρ' ps as ρ) := by
  intro ps
  induction ps with
  | nil => intro as ρ hρ _ _; cases as <;> exact ⟨hρ, rfl⟩
  | cons p ps ih =>
    intro as ρ hρ h hp
    obtain ⟨t, x⟩ := p
    cases as with
    | nil => cases h
    | cons a as =>
      unfold SpecType.arguments at h
      rw [Bool.and_eq_true, Bool.and_eq_true] at h
      rw [List.all_cons, Bool.and_eq_true] at hp
      obtain ⟨⟨h1, h2⟩, h3⟩ := h
      cases t with
      | sc e => cases a <;> exact ih as ρ hρ h3 hp.2
      | ptr e =>
        cases a <;> try cases h1
        rename_i y
        obtain ⟨n', hy⟩ := pointer_argument h1
        obtain ⟨o, ho, ht⟩ := get_of_scope hy
        obtain ⟨q, hq, ht'⟩ := get_of_scope (ρ := ρ') (x := x) (t := .ptr e) (by simpa [SpecType.isPointer] using hp.1)
        cases o <;> cases ht
        cases q <;> cases ht'
        rename_i r p
        unfold copyBack
        rw [hq, ho]
        show Sane _ _ (if e = e then copyBack ρ' ps as (ρ.set y (.cells e n' (ofPtr p n'))) else illFormed)
        rw [if_pos rfl]
        have hs : shape (ρ.set y (.cells e n' (ofPtr p n'))) = shape ρ := set_shape ho rfl
        have := ih as _ (set_typed hρ y (o := .cells e n' (ofPtr p n')) trivial) (hs.symm ▸ h3) hp.2
        rw [hs] at this
        exact this
      | _ => cases h1

omit [Dialect] in
theorem freshMembers_sane : ∀ (ms : List (Nat × Ty × Option Int)), ms.all SpecType.isMember = true →
    Sane Silent (fun ρ => EnvTyped ρ ∧ shape ρ = ms.map fun m => (m.1, m.2.1)) (freshMembers ms) := by
  intro ms
  induction ms with
  | nil => exact fun _ => ⟨fun p hp => absurd hp List.not_mem_nil, rfl⟩
  | cons m ms ih =>
    intro h
    rw [List.all_cons, Bool.and_eq_true] at h
    obtain ⟨x, t, i⟩ := m
    have fr : ∀ o, fresh t = .ok o → freshMembers ((x, t, none) :: ms) = (freshMembers ms >>= fun ρ => C.ok ((x, o) :: ρ)) → i = none →
        Sane Silent (fun ρ => EnvTyped ρ ∧ shape ρ = ((x, t, i) :: ms).map fun m => (m.1, m.2.1)) (freshMembers ((x, t, i) :: ms)) := by
      intro o ho hf hi
      subst hi
      rw [hf]
      refine (ih h.2).bind fun ρ _ hρ => ?_
      have := fresh_typed ho
      exact ⟨cons_typed hρ.1 x this.2, by show (x, o.ty) :: shape ρ = _; rw [this.1, hρ.2]; rfl⟩
    cases t with
    | sc e => cases i <;> [exact fr _ rfl rfl rfl; cases h.1]
    | vec e n => cases i <;> [exact fr _ rfl rfl rfl; cases h.1]
    | arr e n k => cases i <;> [exact fr _ rfl rfl rfl; cases h.1]
    | cells e n =>
      cases i with
      | none => exact fr _ rfl rfl rfl
      | some v =>
        refine (sane_toBits e (vint v)).bind fun b _ _ => ?_
        refine (ih h.2).bind fun ρ _ hρ => ?_
        exact ⟨cons_typed hρ.1 x trivial, by show (x, Ty.cells e n) :: shape ρ = _; rw [hρ.2]; rfl⟩
    | _ => cases h.1

omit [Dialect] in
theorem getMembers_sane {ρ : Env} (hρ : EnvTyped ρ) (x : Nat) : ∀ (ms : List (Nat × Ty × Option Int)),
    ms.all (fun m => (shape ρ).lookup (member x m.1) = some m.2.1) = true →
    Sane Silent (fun ρ' => EnvTyped ρ' ∧ shape ρ' = ms.map fun m => (m.1, m.2.1)) (getMembers ρ x ms) := by
  intro ms
  induction ms with
  | nil => exact fun _ => ⟨fun p hp => absurd hp List.not_mem_nil, rfl⟩
  | cons m ms ih =>
    intro h
    rw [List.all_cons, Bool.and_eq_true, decide_eq_true_eq] at h
    obtain ⟨m, t, i⟩ := m
    obtain ⟨o, ho, ht⟩ := get_of_scope h.1
    unfold getMembers
    rw [ho]
    refine (ih h.2).bind fun ρ' _ h' => ?_
    exact ⟨cons_typed h'.1 m (typed_get hρ ho), by show (m, o.ty) :: shape ρ' = _; rw [ht, h'.2]; rfl⟩

/-- The messages of the functions of a unit. -/
def UnitSays (u : TransUnit) (m : String) : Prop :=
  m = "out of fuel" ∨ ∃ g ∈ u.funcs ++ u.ctors ++ u.convs, Says (chars 64 g.name).reverse g.body m

omit [Dialect] in
theorem sane_val {o : Obj} {e : Elem} (h : o.ty = .sc e) : Sane Silent (fun _ => True) o.val := by
  cases o <;> cases h
  rename_i v
  cases v with
  | none => exact sane_ub (by decide)
  | some v => trivial

omit [Dialect] in
theorem named_mem {f : Nat} {l : List Func} {g : Func} (h : SpecType.named f l = some g) : g ∈ l ∧ g.name = f :=
  ⟨List.mem_of_find?_eq_some h, by have := List.find?_some h; exact eq_of_beq this⟩

/-- The body of a function that obeys the rules is not rejected, and does not end without a result. -/
theorem definition_sane {u : TransUnit} {Γ : Calls} (hΓ : CallsTyped Γ) (hS : CallsSane u (UnitSays u) Γ) (n : Nat) {g : Func}
    (hm : g ∈ u.funcs ++ u.ctors ++ u.convs) (hl : litsF g = true) {Δ : SpecType.Scope} (hd : SpecType.definition u Δ g = true)
    {ρ : Env} (hρ : EnvTyped ρ) (hs : shape ρ = paramScope g.params ++ Δ) :
    Sane (UnitSays u) (fun r => match r with
      | .next ρ' => g.ret = .void ∧ EnvTyped ρ' ∧ (∃ new, shape ρ' = new ++ shape ρ) ∧
          (g.params.all fun p => !SpecType.isPointer p.1 || (shape ρ').lookup p.2 = some p.1) = true
      | .ret o => o.ty = g.ret ∧ g.ret ≠ .void) (exec Γ n (chars 64 g.name).reverse g.ret g.body ρ) := by
  unfold SpecType.definition at hd
  split at hd
  · rename_i Δ' hst
    rw [Bool.and_eq_true, Bool.or_eq_true, decide_eq_true_eq] at hd
    rw [show (g.params.map fun p => (p.2, p.1)).reverse ++ Δ = shape ρ from hs.symm] at hst
    refine (exec_sane hΓ hS n _ g.ret g.body hl Δ' ρ hρ hst).mono (fun m hm' => hm'.elim (fun h => .inr ⟨g, hm, h⟩) id) fun r hr h => ?_
    have hft := statement_types hΓ n _ g.ret g.body hl ρ r hρ hr
    cases r with
    | next ρ' =>
      refine ⟨?_, h.1, hft.2, by rw [h.2]; exact hd.1⟩
      rcases hd.2 with hv | hv
      · exact hv
      · exact absurd hr (returns_sound _ _ _ _ _ hv _ _)
    | ret o =>
      refine ⟨h.1, fun hv => ?_⟩
      have := h.1.trans hv
      cases o <;> cases this
  · cases hd

/-- The calls in a unit that obeys the rules are not rejected. -/
theorem unit_calls_sane {u : TransUnit} (hl : litsU u = true) (hu : SpecType.unit u = true) (n : Nat) : ∀ d,
    CallsSane u (UnitSays u) (u.calls n d) := by
  have hl' := hl
  simp only [litsU, Bool.and_eq_true, List.all_eq_true] at hl'
  simp only [SpecType.unit, Bool.and_eq_true, List.all_eq_true] at hu
  obtain ⟨⟨⟨hf, hst⟩, hc⟩, hv⟩ := hu
  intro d
  induction d with
  | zero => exact ⟨fun _ _ _ _ _ _ _ => .inl rfl, fun _ _ _ _ _ _ _ _ _ _ _ _ => .inl rfl, fun _ _ _ _ _ _ _ _ _ _ _ _ => .inl rfl⟩
  | succ d ih =>
    have hΓ := unit_calls_typed u hl n d
    refine ⟨fun f as ρ t hρ ha h => ?_, fun c x as ρ s g hρ ha h1 h2 h3 h4 => ?_, fun e x ρ c s g hρ h1 h2 h3 h4 h5 => ?_⟩
    · unfold SpecType.callee at h
      split at h
      · rename_i g hg
        obtain ⟨h1, h⟩ := of_ite_some h
        obtain ⟨hgm, hgn⟩ := named_mem hg
        unfold TransUnit.calls
        show Sane _ _ (lookup f u.funcs >>= _)
        rw [named_lookup hg]
        refine (Silent.mono (pass_sane hρ g.params as [] ha (fun p hp => absurd hp List.not_mem_nil) h1)).bind fun ρ' _ hρ' => ?_
        have hd := definition_sane hΓ ih n (List.mem_append_left _ (List.mem_append_left _ hgm)) (hl'.1.1 g hgm) (hf g hgm) hρ'.1 hρ'.2
        rw [hgn] at hd
        refine hd.bind fun r _ hr => ?_
        cases r with
        | ret o =>
          dsimp only at hr ⊢
          cases hret : g.ret <;> rw [hret] at h hr <;> try cases h
          · exact absurd rfl hr.2
          · rename_i e
            obtain ⟨h5, h⟩ := of_ite_some h
            rw [if_pos (by simpa [isPointer_eq] using h5)]
            exact (Silent.mono (sane_val hr.1)).bind fun v _ _ => ⟨hρ, rfl, fun _ => rfl⟩
        | next ρ₂ =>
          dsimp only at hr ⊢
          rw [if_pos hr.1]
          refine (Silent.mono (copyBack_sane ρ₂ g.params as ρ hρ h1 hr.2.2.2)).bind fun ρ₃ _ h3 => ⟨h3.1, h3.2, fun ht => ?_⟩
          rw [hr.1] at h
          cases h
          exact absurd rfl ht
      · cases h
    · obtain ⟨hgm, hgn⟩ := named_mem h2
      have hcg := hc g hgm
      rw [decide_eq_true_eq, hgn, h1, Option.any_some] at hcg
      unfold TransUnit.calls
      show Sane _ _ (lookupStruct c u.structs >>= _)
      rw [namedStruct_lookup h1]
      show Sane _ _ (lookup c u.ctors >>= _)
      rw [named_lookup h2]
      refine (Silent.mono (freshMembers_sane s.members (List.all_eq_true.2 (hst s (List.mem_of_find?_eq_some h1))))).bind fun ms _ hms => ?_
      refine (Silent.mono (pass_sane hρ g.params as ms ha hms.1 h3)).bind fun ρ' _ hρ' => ?_
      have hd := definition_sane hΓ ih n (List.mem_append_left _ (List.mem_append_right _ hgm)) (hl'.1.2 g hgm) hcg.2 hρ'.1
        (hρ'.2.trans (by rw [hms.2]; rfl))
      rw [hgn] at hd
      refine hd.bind fun r _ hr => ?_
      cases r with
      | ret o => exact absurd hcg.1 hr.2
      | next ρ₂ =>
        dsimp only at hr ⊢
        rw [if_pos (by simpa [isPointer_eq] using h4)]
        obtain ⟨-, h6, ⟨new, h7⟩, -⟩ := hr
        have hdrop : shape (ρ₂.drop (ρ₂.length - ms.length)) = shape ms := by
          rw [hρ'.2, ← List.append_assoc] at h7
          have h8 := congrArg List.length h7
          rw [List.length_append] at h8
          have h9 : (shape ρ₂).length = ρ₂.length := List.length_map ..
          have h10 : (shape ms).length = ms.length := List.length_map ..
          have : shape (ρ₂.drop (ρ₂.length - ms.length)) = (shape ρ₂).drop (ρ₂.length - ms.length) := List.map_drop ..
          rw [this, h7]
          exact List.drop_left' (by omega)
        refine ⟨cons_typed (fun p hp => ?_) x trivial, ?_⟩
        · rcases List.mem_append.1 hp with hp | hp
          · obtain ⟨q, hq, rfl⟩ := List.mem_map.1 hp
            exact h6 q (List.mem_of_mem_drop hq)
          · exact hρ p hp
        · have : shape (((ρ₂.drop (ρ₂.length - ms.length)).map fun p => (member x p.1, p.2)) ++ ρ) =
              s.members.map (fun m => (member x m.1, m.2.1)) ++ shape ρ := by
            have h11 : ∀ a b : Env, shape (a ++ b) = shape a ++ shape b := fun a b => List.map_append ..
            rw [h11, fields_shape, hdrop, hms.2, List.map_map]
            rfl
          exact congrArg ((x, Ty.cls c) :: ·) this
    · obtain ⟨hgm, hgn⟩ := named_mem h3
      have hvg := hv g hgm
      rw [decide_eq_true_eq, hgn, h2, Option.any_some] at hvg
      obtain ⟨o, ho, hot⟩ := get_of_scope h1
      cases o <;> cases hot
      unfold TransUnit.calls
      show Sane _ _ (ρ.get x >>= _)
      rw [ho]
      show Sane _ _ (lookupStruct c u.structs >>= _)
      rw [namedStruct_lookup h2]
      show Sane _ _ (lookup c u.convs >>= _)
      rw [named_lookup h3]
      refine (Silent.mono (getMembers_sane hρ x s.members h5)).bind fun ms _ hms => ?_
      rw [if_pos h4]
      have hd := definition_sane hΓ ih n (List.mem_append_right _ hgm) (hl'.2 g hgm) hvg.2 hms.1
        (hms.2.trans (by rw [hvg.1.1]; rfl))
      rw [hgn] at hd
      refine hd.bind fun r _ hr => ?_
      cases r with
      | ret o => exact Silent.mono (sane_val (hr.1.trans h4))
      | next ρ₂ => exact absurd (h4.symm.trans hr.1) (fun h => by cases h)

/-- The functions of a unit that obeys the static rules are never rejected, whichever functions of the unit they call: called with
arguments of the types of its parameters a function with a result returns an object of its result type, or a message of a function of the
unit is printed and the program aborts, or its behaviour is undefined for another reason. -/
theorem unit_safe {u : TransUnit} (hl : litsU u = true) (hu : SpecType.unit u = true) (n : Nat) {f : Nat} {g : Func}
    (hg : SpecType.named f u.funcs = some g) (hv : g.ret ≠ .void) {args : List Obj}
    (ht : args.map Obj.ty = g.params.map Prod.fst) (ha : ∀ o ∈ args, Typed o) :
    Safe (UnitSays u) (fun o => o.ty = g.ret) (u.run n f args) := by
  obtain ⟨hgm, hgn⟩ := named_mem hg
  obtain ⟨ρ, h1, h2⟩ := bindArgs_ok g.params args [] ht
  have hρ := bindArgs_typed g.params args ha (acc := []) (fun p hp => absurd hp List.not_mem_nil) h1
  have hl' := hl
  simp only [litsU, Bool.and_eq_true, List.all_eq_true] at hl'
  have hu' := hu
  simp only [SpecType.unit, Bool.and_eq_true, List.all_eq_true] at hu'
  have hd := definition_sane (unit_calls_typed u hl n n) (unit_calls_sane hl hu n n) n
    (List.mem_append_left _ (List.mem_append_left _ hgm)) (hl'.1.1 g hgm) (hu'.1.1.1 g hgm) hρ h2
  unfold TransUnit.run
  rw [named_lookup hg]
  show Safe _ _ (bindArgs g.params args [] >>= _)
  rw [h1]
  show Safe _ _ (exec (u.calls n n) n (chars 64 f).reverse g.ret g.body ρ >>= fun r => r.finish g.ret g.params)
  rw [← hgn]
  cases hr : exec (u.calls n n) n (chars 64 g.name).reverse g.ret g.body ρ with
  | ok r =>
    rw [hr] at hd
    cases r with
    | next ρ' => exact absurd hd.1 hv
    | ret o =>
      show Safe _ _ (result o)
      have h : o.ty = g.ret := hd.1
      cases o with
      | vec e m r =>
        show Safe _ _ (r.ret >>= fun v => C.ok (Obj.vec e m (Arr.ofVec v)))
        unfold Arr.ret
        split
        · exact h
        · trivial
      | arr e m k r =>
        show Safe _ _ (r.ret >>= fun v => C.ok (Obj.arr e m k (ofRegs v)))
        unfold Arr2.ret
        split
        · exact h
        · trivial
      | _ => exact h
  | abort m => rw [hr] at hd; exact hd
  | ub u => rw [hr] at hd; exact hd
  | indet l => trivial

end

/-- The unit of the library whose functions call each other, with its class, obeys the static rules. -/
theorem recip_unit : ∃ u, parseUnit Source.recip.toList = some u ∧ litsU u = true ∧ SpecType.unit u = true :=
  ⟨_, Source.recip_parse, by decide +kernel, by decide +kernel⟩

/-- No call of a function with a result of that unit is rejected. -/
theorem recip_safe [Dialect] {u : TransUnit} (hp : parseUnit Source.recip.toList = some u) (n : Nat) {f : Nat} {g : Func}
    (hg : SpecType.named f u.funcs = some g) (hv : g.ret ≠ .void) {args : List Obj}
    (ht : args.map Obj.ty = g.params.map Prod.fst) (ha : ∀ o ∈ args, Typed o) :
    Safe (UnitSays u) (fun o => o.ty = g.ret) (u.run n f args) := by
  obtain ⟨u', h1, h2, h3⟩ := recip_unit
  cases hp.symm.trans h1
  exact unit_safe h2 h3 n hg hv ht ha

/- `FPRecipEstimate` of any number -/
example [Dialect] (a : BitVec 32) (n : Nat) : ∃ u, parseUnit Source.recip.toList = some u ∧
    Safe (UnitSays u) (fun o => o.ty = .sc .f32) (u.run n k!"FPRecipEstimate" [.sc .f32 (some (.f32 a))]) :=
  ⟨_, Source.recip_parse, recip_safe Source.recip_parse n (f := k!"FPRecipEstimate") rfl (by decide) rfl
    (List.forall_mem_cons.2 ⟨⟨rfl, trivial⟩, fun _ h => absurd h List.not_mem_nil⟩)⟩

/-- The unit in the text obeys the static rules. -/
def unitObeys (text : String) : Option Bool := (parseUnit text.toList).map SpecType.unit

example : unitObeys "int g(int a) { return a + 1; } int f(float b) { int c = g(b); return c; }" = some true := by decide +kernel
/- a call with too few arguments, -/
example : unitObeys "int g(int a, int b) { return a + b; } int f(int b) { int c = g(b); return c; }" = some false := by decide +kernel
/- of a function that is not there, -/
example : unitObeys "int f(int b) { int c = g(b); return c; }" = some false := by decide +kernel
/- the value of a `void` function, -/
example : unitObeys "void g(int a) { a = 1; } int f(int b) { int c = g(b); return c; }" = some false := by decide +kernel
/- an array of other elements, -/
example : unitObeys "struct c { int m[2]; void g(int a, float* p) { p[0] = a; } }; c::c(int b) { g(b, m); }" = some false := by
  decide +kernel
example : unitObeys "struct c { int m[2]; void g(int a, int* p) { p[0] = a; } }; c::c(int b) { g(b, m); }" = some true := by
  decide +kernel
/- and an array that is passed twice. -/
example : unitObeys "struct c { int m[2]; void g(int* q, int* p) { p[0] = q[1]; } }; c::c(int b) { g(m, m); }" = some false := by
  decide +kernel

end Verif.Props
