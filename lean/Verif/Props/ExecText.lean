import Verif.Props.ExecCalls
import Verif.Props.Grammar

/-! Property C96, continued: calls of functions. -/

namespace Verif.Props
open Verif.Cpp Verif.SpecCpp Verif.SpecExec

/-! ## Arguments -/

theorem isArg_typed {o : Obj} (h : IsArg o) : Typed o := by
  cases o with
  | sc e v =>
    cases v with
    | none => trivial
    | some v =>
      obtain ⟨bs, h⟩ := h
      rw [((denotes_iff e bs v).1 h).2]
      exact ⟨tyVal_ofBits .., inRange_ofBits ..⟩
  | _ => trivial

theorem argOf_object {o : Obj} (ho : isObject o.ty = true) : argOf o = .object o.ty (image o) := by
  cases o <;> first | rfl | cases ho

theorem bindArgs_sound (ps : List (Ty × Nat)) : ∀ (args : List Obj) (acc : Env) (accν : Names) (μ : Memory),
    (∀ o ∈ args, IsArg o) → Rel acc accν μ →
    bindArgs ps args acc = illFormed ∨ ∃ ρ ν, bindArgs ps args acc = .ok ρ ∧
      Enters ps (args.map argOf) accν μ ν (μ ++ args.map image) ∧ Rel ρ ν (μ ++ args.map image) := by
  induction ps with
  | nil =>
    intro args acc accν μ ha h
    cases args with
    | nil => exact .inr ⟨acc, accν, rfl, by rw [List.map_nil, List.map_nil, List.append_nil]; exact .nil .., by rwa [List.map_nil, List.append_nil]⟩
    | cons => exact .inl rfl
  | cons p ps ih =>
    intro args acc accν μ ha h
    obtain ⟨t, x⟩ := p
    cases args with
    | nil => exact .inl rfl
    | cons o os =>
      unfold bindArgs
      split
      · rename_i hty
        subst hty
        have key : ∀ n, Rel ((x, o) :: acc) ((x, n) :: accν) (μ ++ [image o]) →
            (∀ ν, Enters ps (os.map argOf) ((x, n) :: accν) (μ ++ [image o]) ν (μ ++ [image o] ++ os.map image) →
              Enters ((o.ty, x) :: ps) (argOf o :: os.map argOf) accν μ ν (μ ++ (o :: os).map image)) →
            bindArgs ps os ((x, o) :: acc) = illFormed ∨ ∃ ρ ν, bindArgs ps os ((x, o) :: acc) = .ok ρ ∧
              Enters ((o.ty, x) :: ps) ((o :: os).map argOf) accν μ ν (μ ++ (o :: os).map image) ∧ Rel ρ ν (μ ++ (o :: os).map image) := by
          intro n hr he
          rcases ih os _ _ _ (fun o h => ha o (List.mem_cons_of_mem _ h)) hr with e | ⟨ρ, ν, h1, h2, h3⟩
          · exact .inl e
          · exact .inr ⟨ρ, ν, h1, he ν h2, by rwa [List.map_cons, List.append_cons]⟩
        cases ho : isObject o.ty with
        | true =>
          refine key (.object o.ty μ.length) (h.new x ho (isArg_typed (ha o (List.mem_cons_self ..)))) fun ν he => ?_
          rw [argOf_object ho, List.map_cons, List.append_cons]
          exact .object _ _ _ _ _ _ _ _ _ ho (image_length ho) he
        | false =>
          cases o with
          | ptr e q =>
            refine key (.pointer e μ.length q.off) ⟨.cons ⟨rfl, .ptr e q _ ?_⟩ (h.append _).holds, ?_⟩ fun ν he => ?_
            · rw [List.getElem?_append_right (Nat.le_refl _), Nat.sub_self]; rfl
            · rw [addrs_cons]
              refine List.nodup_cons.2 ⟨fun hm => ?_, h.nodup⟩
              exact absurd (h.lt hm) (Nat.lt_irrefl _)
            · rw [List.map_cons, List.append_cons]
              exact .pointer _ _ _ _ _ _ _ _ _ _ he
          | obj c => exact (ha _ (List.mem_cons_self ..)).elim
          | _ => cases ho
      · exact .inl rfl

/-- The names of the parameters after the call. -/
theorem enters_names {ps : List (Ty × Nat)} {args : List Arg} {ν ν' : Names} {μ μ' : Memory} (h : Enters ps args ν μ ν' μ') :
    ∀ x n, ν.lookup x = some n → x ∉ ps.map (·.2) → ν'.lookup x = some n := by
  induction h with
  | nil => exact fun x n h _ => h
  | object t y ps b as ν μ ν' μ' _ _ _ ih =>
    intro x n hx hn
    rw [List.map_cons, List.mem_cons, not_or] at hn
    refine ih x n ?_ hn.2
    rw [List.lookup_cons, beq_eq_false_iff_ne.2 hn.1]; exact hx
  | pointer e y ps b off as ν μ ν' μ' _ ih =>
    intro x n hx hn
    rw [List.map_cons, List.mem_cons, not_or] at hn
    refine ih x n ?_ hn.2
    rw [List.lookup_cons, beq_eq_false_iff_ne.2 hn.1]; exact hx

/-- The memory behind the first pointer. -/
theorem memory_sound {ρ : Env} {new ν : Names} {μ' : Memory} {o : Obj} (hr : Rel ρ (new ++ ν) μ')
    (hnew : ∀ p ∈ new, ∀ e a o, p.2 ≠ .pointer e a o) (ho : isPointer o = true) (ps : List (Ty × Nat)) :
    ∀ (args : List Obj) (νa : Names) (μa μe : Memory), (ps.map (·.2)).Nodup → Enters ps (args.map argOf) νa μa ν μe → memory ps ρ = .ok o →
      ∃ i e p q, (∀ o ∈ args.take i, isPointer o = false) ∧ args[i]? = some (.ptr e p) ∧ q.off = p.off ∧ o = .ptr e q ∧
        μ'[μa.length + i]? = some (image (.ptr e q)) := by
  induction ps with
  | nil => intro args νa μa μe _ _ h; cases h
  | cons p ps ih =>
    intro args νa μa μe hd he hm
    rw [List.map_cons, List.nodup_cons] at hd
    cases args with
    | nil => cases he
    | cons a as =>
      rw [List.map_cons] at he
      generalize haa : argOf a = aa at he
      cases he with
      | object t x _ b _ _ _ _ _ hob hl he =>
        have hp : isPointer a = false := by cases a <;> first | rfl | cases haa
        have hm' : memory ps ρ = .ok o := by cases t <;> first | exact hm | cases hob
        obtain ⟨i, e, p, q, h1, h2, h3, h4, h5⟩ := ih as _ _ _ hd.2 he hm'
        refine ⟨i + 1, e, p, q, fun o ho => ?_, h2, h3, h4, ?_⟩
        · rcases List.mem_cons.1 ho with rfl | ho
          · exact hp
          · exact h1 o ho
        · rw [List.length_append] at h5
          rw [← h5]; congr 1; simp; omega
      | pointer e x _ b off _ _ _ _ _ he =>
        have hx : ν.lookup x = some (.pointer e μa.length off) := by
          refine enters_names he x _ ?_ hd.1
          rw [List.lookup_cons, beq_self_eq_true]
        obtain ⟨n, h1, h2⟩ := hr.get (show ρ.get x = .ok o from hm)
        cases o with
        | ptr e' q =>
          cases h2 with
          | object _ _ h => cases h
          | ptr _ _ a' ha' =>
            have := lookup_locals hnew h1
            rw [hx] at this
            injection this with this
            injection this with h3 h4 h5
            subst h3 h4
            cases a with
            | ptr e'' p =>
              injection haa with h6 h7 h8
              subst h6
              exact ⟨0, _, p, q, fun o ho => absurd ho List.not_mem_nil, rfl, by rw [h8, h5], rfl, ha'⟩
            | _ => cases haa
        | _ => cases ho

/-! ## Results -/

/-- The bytes of a returned object. -/
theorem result_sound {o : Obj} {args : List Obj} {r : C Obj} (ht : returnable o.ty = true) (hs : ∀ e, o ≠ .sc e none) (h : result o = r) :
    Shows args r (.ok (.value o.ty (image o))) := by
  cases o with
  | sc e v =>
    subst h
    refine .value _ rfl ?_
    cases v with
    | none => exact absurd rfl (hs e)
    | some v => rw [image_sc]; simp
  | vec e n a =>
    replace h : (a.ret >>= fun v => C.ok (.vec e n (Arr.ofVec v))) = r := h
    by_cases hf : ∀ i, (a i).isSome
    · rw [Arr.ret, dif_pos hf] at h
      subst h
      have hav : a = Arr.ofVec ⟨fun i => (a i).get (hf i)⟩ := by
        funext i; exact (Option.some_get (hf i)).symm
      have := Shows.value (args := args) (.vec e n a) rfl fun h => (image_ofVec a).1 h hf
      exact (congrArg (fun b => Shows args (.ok (.vec e n b)) (.ok (.value (Obj.ty (.vec e n a)) (image (.vec e n a))))) hav).mp this
    · rw [Arr.ret, dif_neg hf] at h
      subst h
      exact .indet _ e _ _ rfl rfl ((image_ofVec a).2 hf)
  | arr e n k a =>
    have himg : none ∈ image (.arr e n k a) ↔ ¬ ∀ j i, (a j i).isSome := by
      refine (flat_none (size_pos e) _).trans ?_
      show none ∈ (List.ofFn fun j => lanesOf (a j)).flatten ↔ _
      rw [List.mem_flatten]
      constructor
      · rintro ⟨l, hl, hn⟩ h
        obtain ⟨j, rfl⟩ := List.mem_ofFn.1 hl
        obtain ⟨i, hi⟩ := List.mem_ofFn.1 hn
        have := h j i
        cases hr : a j i with
        | none => rw [hr] at this; cases this
        | some b => rw [hr] at hi; cases hi
      · intro h
        rw [Classical.not_forall] at h
        obtain ⟨j, h⟩ := h
        rw [Classical.not_forall] at h
        obtain ⟨i, h⟩ := h
        refine ⟨lanesOf (a j), List.mem_ofFn.2 ⟨j, rfl⟩, List.mem_ofFn.2 ⟨i, ?_⟩⟩
        cases hr : a j i with
        | none => rfl
        | some b => rw [hr] at h; exact absurd rfl h
    replace h : (a.ret >>= fun v => C.ok (.arr e n k (ofRegs v))) = r := h
    by_cases hf : ∀ j i, (a j i).isSome
    · rw [Arr2.ret, dif_pos hf] at h
      subst h
      have hav : a = ofRegs ⟨fun j => ⟨fun i => (a j i).get (hf j i)⟩⟩ := by
        funext j i; exact (Option.some_get (hf j i)).symm
      have := Shows.value (args := args) (.arr e n k a) rfl fun h => himg.1 h hf
      exact (congrArg (fun b => Shows args (.ok (.arr e n k b)) (.ok (.value (Obj.ty (.arr e n k a)) (image (.arr e n k a))))) hav).mp this
    · rw [Arr2.ret, dif_neg hf] at h
      subst h
      exact .indet _ e _ _ rfl rfl (himg.2 hf)
  | _ => cases ht

/-! ## Calls -/

/-- What is required of a function definition: integer literals are values of their types, its name is spelled with characters, and the
parameters have different names. -/
def funcOk (g : Func) : Bool := litsF g && nameOk g.name && decide (g.params.map (·.2)).Nodup

section
variable [Dialect]

theorem call_sound {u : TransUnit} {Γ : Calls} (hΓ : CallsSound Dialect.wrapv u Γ) (fuel : Nat) {g : Func} (hg : funcOk g = true)
    {args : List Obj} (ha : ∀ o ∈ args, IsArg o) {r : C Obj}
    (h : (bindArgs g.params args [] >>= fun ρ => exec Γ fuel (chars 64 g.name).reverse g.ret g.body ρ >>= fun f => f.finish g.ret g.params) = r)
    (hr : Accepted g.ret r) : ∃ r', Called Dialect.wrapv u g (args.map argOf) r' ∧ Shows args r r' := by
  rw [funcOk, Bool.and_eq_true, Bool.and_eq_true, decide_eq_true_eq] at hg
  obtain ⟨⟨hl, hn⟩, hd⟩ := hg
  rcases bindArgs_sound g.params args [] [] [] ha (Rel.nil _) with e | ⟨ρ, ν, e, he, hρ⟩
  · rw [e] at h; subst h; exact absurd rfl hr.1
  rw [e] at h
  replace h : (exec Γ fuel (chars 64 g.name).reverse g.ret g.body ρ >>= fun f => f.finish g.ret g.params) = r := h
  rw [List.nil_append] at he hρ
  have hx := exec_sound hΓ fuel (chars 64 g.name).reverse ⟨g.name, g.ret⟩ (nameOk_spells hn) g.body hl ρ ν _ hρ
  change Fate _ _ (exec Γ fuel (chars 64 g.name).reverse g.ret g.body ρ) at hx
  generalize exec Γ fuel (chars 64 g.name).reverse g.ret g.body ρ = y at h hx
  cases y with
  | ub ub => subst h; exact ⟨_, .undefined ν _ ub he (hx hr), .undefined ub⟩
  | abort m =>
    subst h
    rcases hx with hx | hx | hx
    · exact absurd hx hr.1
    · exact absurd hx hr.2
    · exact ⟨_, .abort ν _ m he hx, .abort m⟩
  | indet l => exact hx.elim
  | ok f =>
    cases f with
    | ret o =>
      obtain ⟨μ', hx, -, hty, hret, -, hs⟩ := hx
      refine ⟨_, .value ν _ _ _ _ _ he hx, ?_⟩
      have hty : o.ty = g.ret := hty
      have hret : returnable g.ret = true := hret
      have := result_sound (args := args) (o := o) (by rw [hty]; exact hret) hs h
      rwa [hty] at this
    | next ρ' =>
      obtain ⟨ν', μ', hx, hr', ⟨new, rfl, hnew⟩, -, -⟩ := hx
      replace h : (if g.ret = .void then memory g.params ρ' else illFormed) = r := h
      split at h
      · rename_i hv
        cases hm : memory g.params ρ' with
        | ok o =>
          rw [hm] at h
          subst h
          obtain ⟨i, e, p, q, h1, h2, h3, rfl, h5⟩ := memory_sound hr' (fun p hp => (hnew p hp).2) (hr hv) g.params args [] [] _ hd he hm
          refine ⟨_, .void ν _ _ he hx hv, .void i e p q _ h1 h2 h3 ?_⟩
          rwa [List.length_nil, Nat.zero_add] at h5
        | _ =>
          exfalso
          have : ∀ ps, memory ps ρ' = illFormed ∨ ∃ o, memory ps ρ' = .ok o := by
            intro ps
            induction ps with
            | nil => exact .inl rfl
            | cons p ps ih =>
              obtain ⟨t, x⟩ := p
              cases t with
              | ptr e => exact (get_outcome ρ' x).imp id fun ⟨o, h⟩ => ⟨o, h⟩
              | _ => exact ih
          rcases this g.params with e | ⟨o, e⟩
          · rw [e] at h; subst h; exact hr.1 rfl
          · rw [e] at hm; cases hm
      · subst h; exact absurd rfl hr.1

/-- A function that the model runs has the same outcome on the abstract machine, in every translation unit. -/
theorem run_machine {fuel : Nat} {g : Func} {args : List Obj} {r : C Obj} (hg : funcOk g = true) (ha : ∀ o ∈ args, IsArg o)
    (h : run fuel g args = r) (hr : Accepted g.ret r) (u : TransUnit) :
    ∃ r', Called Dialect.wrapv u g (args.map argOf) r' ∧ Shows args r r' :=
  call_sound (noCalls_sound Dialect.wrapv u) fuel hg ha h hr

/-- The same for a function of a translation unit whose functions call each other. -/
theorem unit_machine {fuel f : Nat} {u : TransUnit} {g : Func} {args : List Obj} {r : C Obj} (hu : unitOk u = true)
    (hf : lookup f u.funcs = .ok g) (hg : funcOk g = true) (ha : ∀ o ∈ args, IsArg o)
    (h : u.run fuel f args = r) (hr : Accepted g.ret r) :
    ∃ r', Called Dialect.wrapv u g (args.map argOf) r' ∧ Shows args r r' := by
  have hname := lookup_name hf
  refine call_sound (unit_calls_sound u hu fuel fuel) fuel hg ha ?_ hr
  rw [← h, hname]
  unfold TransUnit.run
  rw [hf]; rfl

end

end Verif.Props
