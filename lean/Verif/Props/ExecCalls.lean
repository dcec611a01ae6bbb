import Verif.Props.ExecStmt

/-! Property C96: calls of functions, constructors and conversion functions. -/

namespace Verif.Props
open Verif.Cpp Verif.SpecCpp Verif.SpecExec

/-! ## Arguments -/

/-- The addresses of the arrays that are passed. -/
def targets (ν : Names) : List (Ty × Nat) → List Expr → List Nat
  | (.ptr _, _) :: ps, .var y :: as => ((ν.lookup y).bind fun n => addr n).toList ++ targets ν ps as
  | _ :: ps, _ :: as => targets ν ps as
  | _, _ => []

/-- The pointer parameters point to the arrays that were passed. -/
inductive Aims (ν νc : Names) : List (Ty × Nat) → List Expr → Prop
  | nil : Aims ν νc [] []
  | value (e x ps a as) : Aims ν νc ps as → Aims ν νc ((.sc e, x) :: ps) (a :: as)
  | array (e x ps y as n b) : νc.lookup x = some (.pointer e b 0) → ν.lookup y = some (.object (.cells e n) b) → Aims ν νc ps as →
      Aims ν νc ((.ptr e, x) :: ps) (.var y :: as)

theorem addrs_cons (p : Nat × Entity) (ν : Names) : addrs (p :: ν) = (addr p.2).toList ++ addrs ν := by
  unfold addrs
  rw [List.filterMap_cons]
  cases addr p.2 <;> rfl

theorem names_inj {ν : Names} (hd : (addrs ν).Nodup) {x y : Nat} {n m : Entity} {a : Nat} (hx : ν.lookup x = some n) (hy : ν.lookup y = some m)
    (hn : addr n = some a) (hm : addr m = some a) : x = y := by
  induction ν with
  | nil => cases hx
  | cons p ν ih =>
    obtain ⟨z, k⟩ := p
    rw [addrs_cons] at hd
    rw [List.lookup_cons] at hx hy
    by_cases e1 : (x == z) = true <;> by_cases e2 : (y == z) = true
    · exact (eq_of_beq e1).trans (eq_of_beq e2).symm
    · rw [e1] at hx
      rw [Bool.not_eq_true] at e2
      rw [e2] at hy
      cases hx
      rw [hn] at hd
      exact absurd (lookup_addrs hy hm) (List.nodup_cons.1 hd).1
    · rw [e2] at hy
      rw [Bool.not_eq_true] at e1
      rw [e1] at hx
      cases hy
      rw [hm] at hd
      exact absurd (lookup_addrs hx hn) (List.nodup_cons.1 hd).1
    · rw [Bool.not_eq_true] at e1 e2
      rw [e1] at hx
      rw [e2] at hy
      exact ih hd.of_append_right hx hy

theorem targets_spec {ν : Names} {ps : List (Ty × Nat)} {as : List Expr} {b : Nat} (h : b ∈ targets ν ps as) :
    ∃ y n, .var y ∈ as ∧ ν.lookup y = some n ∧ addr n = some b := by
  fun_induction targets ν ps as with
  | case1 e x ps y as ih =>
    rcases List.mem_append.1 h with h | h
    · rw [Option.mem_toList] at h
      obtain ⟨n, hn, ha⟩ := Option.bind_eq_some_iff.1 h
      exact ⟨y, n, List.mem_cons_self .., hn, ha⟩
    · obtain ⟨y', n, h1, h2⟩ := ih h
      exact ⟨y', n, List.mem_cons_of_mem _ h1, h2⟩
  | case2 p ps a as _ ih =>
    obtain ⟨y', n, h1, h2⟩ := ih h
    exact ⟨y', n, List.mem_cons_of_mem _ h1, h2⟩
  | case3 => cases h

theorem targets_lt {ρ : Env} {ν : Names} {μ : Memory} (h : Rel ρ ν μ) {ps : List (Ty × Nat)} {as : List Expr} {b : Nat}
    (hb : b ∈ targets ν ps as) : b < μ.length := by
  obtain ⟨y, n, -, h1, h2⟩ := targets_spec hb
  exact h.lt (lookup_addrs h1 h2)

theorem targets_nil (ν : Names) {ps : List (Ty × Nat)} (as : List Expr) (h : (ps.all fun p => !p.1.isPtr) = true) : targets ν ps as = [] := by
  fun_induction targets ν ps as with
  | case1 e x ps y as ih => simp [Ty.isPtr] at h
  | case2 p ps a as _ ih =>
    rw [List.all_cons, Bool.and_eq_true] at h
    exact ih h.2
  | case3 => rfl

/-- The arguments are passed, which the abstract machine does too. -/
def Passed (w : Bool) (ν : Names) (μ₀ : Memory) (ps : List (Ty × Nat)) (as : List Expr) (acc : Names) (μ : Memory) : C Env → Prop
  | .ok ρ' => ∃ ν' ext, Passes w ν μ₀ ps as acc μ (.ok (ν', μ ++ ext)) ∧ Rel ρ' ν' (μ ++ ext) ∧ (∃ pre, ν' = pre ++ acc) ∧ Aims ν ν' ps as ∧
      (∀ x, (ps.all fun p => p.2 != x) = true → ν'.lookup x = acc.lookup x) ∧
      ∀ a ∈ addrs ν', a ∈ addrs acc ∨ a ∈ targets ν ps as ∨ μ.length ≤ a
  | .ub u => Passes w ν μ₀ ps as acc μ (.ub u)
  | _ => False

section
variable [Dialect]

theorem pass_sound {ρ : Env} {ν : Names} {μ₀ : Memory} (h₀ : Rel ρ ν μ₀) (ps : List (Ty × Nat)) : ∀ (as : List Expr) (acc : Env) (accν : Names) (μ : Memory),
    as.all litsE = true → Rel ρ ν μ → Rel acc accν μ → (∀ b ∈ targets ν ps as, b ∉ addrs accν) →
    Sound (Passed Dialect.wrapv ν μ₀ ps as accν μ) (pass ρ ps as acc) := by
  induction ps with
  | nil =>
    intro as acc accν μ hl h hacc ht
    cases as with
    | nil =>
      refine ⟨accν, [], ?_, ?_, ⟨[], rfl⟩, .nil, fun _ _ => rfl, fun a ha => .inl ha⟩
      · rw [List.append_nil]; exact .nil accν μ
      · rw [List.append_nil]; exact hacc
    | cons => exact rfl
  | cons p ps ih =>
    intro as acc accν μ hl h hacc ht
    obtain ⟨t, x⟩ := p
    cases as with
    | nil => cases t <;> exact rfl
    | cons a as =>
      rw [List.all_cons, Bool.and_eq_true] at hl
      cases t with
      | sc e =>
        refine (eval_sound h₀ a hl.1).bind (fun u hu => .valueUB e x ps a as accν μ u hu) fun v hv hev => ?_
        have hvr := (expression_types ρ h.typed a hl.1 v hv).1
        have hy := yields_cast e v hvr
        refine (cast_sound e v hvr).bind (fun u hu => .convUB e x ps a as accν μ v u hev hu) fun w hw hc => ?_
        have hd := denotes_bytes (hy w hw).1 (hy w hw).2
        have hi := image_sc e w
        have hnew := hacc.new x (o := .sc e (some w)) rfl (hy w hw)
        have := ih as ((x, .sc e (some w)) :: acc) _ _ hl.2 (h.append [image (.sc e (some w))]) hnew ?_
        · rw [hi] at this
          refine this.mono fun r hr => ?_
          cases r with
          | ok ρ' =>
            obtain ⟨ν', ext, h1, h2, ⟨pre, h3⟩, h4, h5, h6⟩ := hr
            rw [List.append_assoc] at h1 h2
            refine ⟨ν', _, .value e x ps a as accν μ v w _ _ hev hc hd h1, h2, ⟨pre ++ [(x, .object (.sc e) μ.length)], ?_⟩, .value e x ps a as h4, fun x' hx' => ?_, fun b hb => ?_⟩
            · rw [h3, List.append_assoc]; rfl
            · rw [List.all_cons, Bool.and_eq_true] at hx'
              rw [h5 x' hx'.2, List.lookup_cons]
              have : (x' == x) = false := by
                have := hx'.1
                simp only [bne_iff_ne] at this
                simpa using Ne.symm this
              rw [this]
            · rcases h6 b hb with h | h | h
              · rw [addrs_cons] at h
                rcases List.mem_append.1 h with h | h
                · rw [Option.mem_toList] at h
                  cases h
                  exact .inr (.inr (Nat.le_refl _))
                · exact .inl h
              · exact .inr (.inl h)
              · rw [List.length_append] at h
                exact .inr (.inr (by omega))
          | ub u => exact .value e x ps a as accν μ v w _ _ hev hc hd hr
          | abort m => exact hr
          | indet l => exact hr
        · intro b hb
          rw [addrs_cons]
          refine fun hm => (List.mem_append.1 hm).elim (fun hm => ?_) (ht b hb)
          rw [Option.mem_toList] at hm
          cases hm
          exact Nat.lt_irrefl _ (targets_lt h hb)
      | ptr e =>
        cases a with
        | var y =>
          refine Sound.get h y fun o n hy hn ho => ?_
          cases o with
          | cells e' m r =>
            refine Sound.ite fun hc => ?_
            obtain ⟨rfl, hc1, hc2⟩ := hc
            cases ho with
            | object _ b h1 h2 hb =>
              change ν.lookup y = some (.object (.cells e' m) b) at hn
              have htg : targets ν ((.ptr e', x) :: ps) (.var y :: as) = b :: targets ν ps as := by
                rw [targets, hn]; rfl
              rw [htg] at ht
              have himg : image (.cells e' m r) = image (.ptr e' (toPtr r)) := by
                show flat _ (lanesOf r) = flat _ ((List.ofFn r).map _)
                exact (congrArg (flat _) (List.map_ofFn (f := fun i => r i) (g := Option.map BitVec.toNat))).symm
              have hnew : Rel ((x, .ptr e' (toPtr r)) :: acc) ((x, .pointer e' b 0) :: accν) μ := by
                refine ⟨.cons ⟨rfl, .ptr e' (toPtr r) b (himg ▸ hb)⟩ hacc.holds, ?_⟩
                rw [addrs_cons]
                exact List.nodup_cons.2 ⟨ht b (List.mem_cons_self ..), hacc.nodup⟩
              have := ih as _ _ _ hl.2 h hnew ?_
              · refine this.mono fun r hr => ?_
                cases r with
                | ok ρ' =>
                  obtain ⟨ν', ext, h1, h2, ⟨pre, h3⟩, h4, h5, h6⟩ := hr
                  refine ⟨ν', ext, .array e' x ps y as accν μ m b _ hn h1, h2, ⟨pre ++ [(x, .pointer e' b 0)], ?_⟩, .array e' x ps y as m b ?_ hn h4, fun x' hx' => ?_, fun c hc => ?_⟩
                  · rw [h3, List.append_assoc]; rfl
                  · rw [h5 x hc2, List.lookup_cons, beq_self_eq_true]
                  · rw [List.all_cons, Bool.and_eq_true] at hx'
                    rw [h5 x' hx'.2, List.lookup_cons]
                    have : (x' == x) = false := by
                      have := hx'.1
                      simp only [bne_iff_ne] at this
                      simpa using Ne.symm this
                    rw [this]
                  · rw [htg]
                    rcases h6 c hc with h | h | h
                    · rw [addrs_cons] at h
                      rcases List.mem_append.1 h with h | h
                      · rw [Option.mem_toList] at h
                        cases h
                        exact .inr (.inl (List.mem_cons_self ..))
                      · exact .inl h
                    · exact .inr (.inl (List.mem_cons_of_mem _ h))
                    · exact .inr (.inr h)
                | ub u => exact .array e' x ps y as accν μ m b _ hn hr
                | abort m => exact hr
                | indet l => exact hr
              · intro c hc
                rw [addrs_cons]
                refine fun hm => (List.mem_append.1 hm).elim (fun hm => ?_) (ht c (List.mem_cons_of_mem _ hc))
                rw [Option.mem_toList] at hm
                cases hm
                obtain ⟨y', n', h3, h4, h5⟩ := targets_spec hc
                cases names_inj h.nodup h4 hn h5 rfl
                have := List.all_eq_true.1 hc1 _ h3
                simp at this
          | _ => exact rfl
        | _ => exact rfl
      | _ => cases a <;> exact rfl

end

/-! ## Arrays after a call -/

/-- The object is in the memory `μ'`, or was in `μ` at one of the addresses `D`. -/
def HoldsS (D : List Nat) (μ μ' : Memory) (o : Obj) (n : Entity) : Prop :=
  Holds μ' o n ∨ (Holds μ o n ∧ ∃ a ∈ D, addr n = some a)

/-- The variables, of which some are still to be updated. -/
def RelS (D : List Nat) (μ μ' : Memory) (ρ : Env) (ν : Names) : Prop :=
  List.Forall₂ (fun p q => p.1 = q.1 ∧ HoldsS D μ μ' p.2 q.2) ρ ν

theorem Rel.stale {ρ : Env} {ν : Names} {μ μ' : Memory} (h : Rel ρ ν μ) {A D : List Nat} (hk : Keeps A μ μ')
    (hA : ∀ a ∈ A, a < μ.length → a ∈ D) : RelS D μ μ' ρ ν := by
  obtain ⟨h, -⟩ := h
  induction h with
  | nil => exact .nil
  | @cons p q _ _ h1 _ ih =>
    refine .cons ⟨h1.1, ?_⟩ ih
    cases ha : addr q.2 with
    | none => exact .inl (h1.2.mono fun a h => by rw [ha] at h; cases h)
    | some a =>
      by_cases hd : a ∈ D
      · exact .inr ⟨h1.2, a, hd, ha⟩
      · refine .inl (h1.2.mono fun b hb => ?_)
        rw [ha] at hb
        cases hb
        have := holds_lt h1.2 ha
        exact hk.rest a this fun h => hd (hA a h this)

theorem RelS.done {ρ : Env} {ν : Names} {μ μ' : Memory} (h : RelS [] μ μ' ρ ν) (hd : (addrs ν).Nodup) : Rel ρ ν μ' := by
  refine ⟨?_, hd⟩
  clear hd
  induction h with
  | nil => exact .nil
  | cons h1 _ ih =>
    refine .cons ⟨h1.1, ?_⟩ ih
    rcases h1.2 with h | ⟨-, a, ha, -⟩
    · exact h
    · cases ha

theorem RelS.get {D : List Nat} {ρ : Env} {ν : Names} {μ μ' : Memory} (h : RelS D μ μ' ρ ν) {x : Nat} {o : Obj} (hx : ρ.get x = .ok o) :
    ∃ n, ν.lookup x = some n ∧ HoldsS D μ μ' o n := by
  induction h with
  | nil => cases hx
  | @cons p q _ _ h1 _ ih =>
    obtain ⟨y, o'⟩ := p
    obtain ⟨y', n⟩ := q
    obtain ⟨rfl, h2⟩ := h1
    unfold Env.get at hx
    unfold List.lookup
    split at hx
    · rename_i he
      cases hx
      rw [he]
      exact ⟨n, rfl, h2⟩
    · rename_i he
      rw [Bool.not_eq_true] at he
      rw [he]
      exact ih hx

theorem RelS.shrink {D D' : List Nat} {ρ : Env} {ν : Names} {μ μ' : Memory} (h : RelS D μ μ' ρ ν) (hD : ∀ d ∈ D, d ∈ addrs ν → d ∈ D') :
    RelS D' μ μ' ρ ν := by
  induction h with
  | nil => exact .nil
  | @cons p q _ ν h1 _ ih =>
    refine .cons ⟨h1.1, h1.2.imp id fun ⟨h2, a, ha, hq⟩ => ⟨h2, a, hD a ha ?_, hq⟩⟩ (ih fun d hd h => hD d hd ?_)
    · rw [addrs_cons]; exact List.mem_append_right _ h
    · rw [addrs_cons, hq]; exact List.mem_cons_self ..

theorem RelS.set {D D' : List Nat} {ρ : Env} {ν : Names} {μ μ' : Memory} (h : RelS D μ μ' ρ ν) (hd : (addrs ν).Nodup) {x : Nat} {o o' : Obj}
    {n : Entity} {a : Nat} (hx : ρ.get x = .ok o) (hn : ν.lookup x = some n) (ha : addr n = some a) (hD : ∀ d ∈ D, d = a ∨ d ∈ D')
    (ho : Holds μ' o' n) : RelS D' μ μ' (ρ.set x o') ν := by
  induction h with
  | nil => cases hx
  | @cons p q ρ ν h1 h2 ih =>
    obtain ⟨y, p⟩ := p
    obtain ⟨y', q⟩ := q
    obtain ⟨rfl, h3⟩ := h1
    rw [addrs_cons] at hd
    unfold Env.get at hx
    rw [List.lookup_cons] at hn
    unfold Env.set
    split at hx
    · rename_i he
      rw [he] at hn
      cases hn
      rw [if_pos he]
      rw [ha] at hd
      refine .cons ⟨rfl, .inl ho⟩ (RelS.shrink h2 fun d hd' hda => ?_)
      rcases hD d hd' with rfl | h
      · exact absurd hda (List.nodup_cons.1 hd).1
      · exact h
    · rename_i he
      rw [if_neg he]
      rw [Bool.not_eq_true] at he
      rw [he] at hn
      refine .cons ⟨rfl, h3.imp id fun ⟨h4, b, hb, hq⟩ => ⟨h4, b, ?_, hq⟩⟩ (ih hd.of_append_right hx hn)
      rcases hD b hb with rfl | h
      · rw [hq] at hd
        exact absurd (lookup_addrs hn ha) (List.nodup_cons.1 hd).1
      · exact h

theorem holds_ty {μ : Memory} {o : Obj} {t : Ty} {a : Nat} (h : Holds μ o (.object t a)) : o.ty = t := by cases h; rfl

theorem lookup_locals {new ν : Names} (hnew : ∀ p ∈ new, ∀ e a o, p.2 ≠ .pointer e a o) {x : Nat} {e : Elem} {a o : Nat}
    (h : (new ++ ν).lookup x = some (.pointer e a o)) : ν.lookup x = some (.pointer e a o) := by
  induction new with
  | nil => exact h
  | cons p new ih =>
    obtain ⟨y, n⟩ := p
    rw [List.cons_append, List.lookup_cons] at h
    split at h
    · cases h
      exact absurd rfl (hnew _ (List.mem_cons_self ..) e a o)
    · exact ih (fun p hp => hnew p (List.mem_cons_of_mem _ hp)) h

/-- The arrays that were passed have the elements of the buffers at the end of the call. -/
theorem copyBack_sound {ρ' : Env} {ν ν' νc : Names} {μ₀ μ μ' : Memory} {A : List Nat} (hr : Rel ρ' ν' μ') (hg : Grows νc ν' μ₀) (hk : Keeps A μ μ')
    (hd : (addrs ν).Nodup) {ps : List (Ty × Nat)} {as : List Expr} (haim : Aims ν νc ps as) :
    ∀ ρ, RelS (targets ν ps as) μ μ' ρ ν → Sound (fun r => ∃ ρ₂, r = .ok ρ₂ ∧ Rel ρ₂ ν μ') (copyBack ρ' ps as ρ) := by
  obtain ⟨new, rfl, hnew⟩ := hg
  induction haim with
  | nil => exact fun ρ h => ⟨ρ, rfl, RelS.done h hd⟩
  | value e x ps a as _ ih => exact fun ρ h => ih ρ h
  | array e x ps y as n b hx hy _ ih =>
    intro ρ h
    have htg : targets ν ((.ptr e, x) :: ps) (.var y :: as) = b :: targets ν ps as := by
      rw [targets, hy]; rfl
    rw [htg] at h
    unfold copyBack
    rcases get_outcome ρ' x with e1 | ⟨o1, e1⟩
    · rw [e1]; exact rfl
    rw [e1]
    rcases get_outcome ρ y with e2 | ⟨o2, e2⟩
    · rw [e2]; exact rfl
    rw [e2]
    obtain ⟨n1, hn1, hh1⟩ := hr.get e1
    obtain ⟨n2, hn2, hh2⟩ := RelS.get h e2
    rw [hy] at hn2
    cases hn2
    have hty : o2.ty = .cells e n := hh2.elim holds_ty fun h => holds_ty h.1
    cases o2 <;> try cases hty
    rename_i r2
    cases o1 <;> try exact rfl
    rename_i e1' p
    show Sound _ (if e1' = e then _ else illFormed)
    refine Sound.ite fun he => ?_
    subst he
    cases hh1 with
    | object _ a hc => cases hc
    | ptr _ _ a ha =>
      have := lookup_locals (fun p hp => (hnew p hp).2) hn1
      rw [hx] at this
      injection this with this
      injection this with _ hab _
      subst hab
      have hl : (image (.ptr e1' p)).length = p.buf.length * SpecExec.size e1' := by
        rw [image, flat_length]; exact congrArg (· * SpecExec.size e1') (List.length_map ..)
      have hn : p.buf.length = n := by
        have hlen : (image (.ptr e1' p)).length = n * SpecExec.size e1' := by
          rcases hh2 with h | ⟨h, -⟩
          · have := holds_addr h rfl
            rw [ha] at this
            injection this with this
            rw [this]
            exact image_length rfl
          · have := holds_addr h rfl
            obtain ⟨b', h3, h4⟩ := hk.size _ _ this
            rw [ha] at h3
            injection h3 with h3
            rw [h3, h4]
            exact image_length rfl
        exact Nat.eq_of_mul_eq_mul_right (size_pos e1') (hl.symm.trans hlen)
      subst hn
      refine ih _ (RelS.set h hd e2 hy rfl (fun d hd => List.mem_cons.1 hd) ?_)
      refine .object (.cells e1' _ _) b rfl trivial ?_
      rw [ha]
      congr 1
      show flat _ (p.buf.map _) = flat _ (lanesOf _)
      congr 1
      apply List.ext_getElem?
      intro i
      rw [List.getElem?_map]
      by_cases hi : i < p.buf.length
      · rw [lanesOf_get _ hi, Verif.Cpp.ofPtr, List.getElem?_eq_getElem hi]; rfl
      · rw [List.getElem?_eq_none (by omega), List.getElem?_eq_none (by rw [lanesOf_length]; omega)]; rfl

/-! ## Members of objects -/

theorem Rel.suffix {ρ : Env} {new ν : Names} {μ : Memory} (h : Rel ρ (new ++ ν) μ) : Rel (ρ.drop (ρ.length - ν.length)) ν μ := by
  have hl := h.length
  rw [List.length_append] at hl
  obtain ⟨h, hn⟩ := h
  rw [addrs_append] at hn
  refine ⟨?_, hn.of_append_right⟩
  have := List.forall₂_drop (ρ.length - ν.length) h
  rw [show ρ.length - ν.length = new.length by omega] at this ⊢
  rwa [List.drop_left' rfl] at this

theorem members_new {x : Nat} {o : Obj} {ρ : Env} {ν : Names} {μ ext : Memory} (ho : isObject o.ty = true) (ht : Typed o)
    (hr : Rel ρ ν (μ ++ [image o] ++ ext)) (ha : ∀ a ∈ addrs ν, (μ ++ [image o]).length ≤ a) :
    Rel ((x, o) :: ρ) ((x, .object o.ty μ.length) :: ν) (μ ++ ([image o] ++ ext)) ∧
      ∀ a ∈ addrs ((x, .object o.ty μ.length) :: ν), μ.length ≤ a := by
  rw [List.append_assoc] at hr
  refine ⟨⟨.cons ⟨rfl, .object o _ ho ht ?_⟩ hr.holds, ?_⟩, fun a h => ?_⟩
  · rw [List.getElem?_append_right (Nat.le_refl _), Nat.sub_self]; rfl
  · rw [addrs_cons]
    refine List.nodup_cons.2 ⟨fun hm => ?_, hr.nodup⟩
    have := ha _ hm
    rw [List.length_append] at this
    exact absurd this (by simp)
  · rw [addrs_cons] at h
    rcases List.mem_cons.1 h with rfl | h
    · exact Nat.le_refl _
    · have := ha a h
      rw [List.length_append] at this
      omega

theorem freshMembers_sound (ms : List (Nat × Ty × Option Int)) : ∀ μ : Memory, Sound
    (fun r => ∃ ρ ν ext, r = .ok ρ ∧ Constructs ms μ ν (μ ++ ext) ∧ Rel ρ ν (μ ++ ext) ∧ ∀ a ∈ addrs ν, μ.length ≤ a) (freshMembers ms) := by
  induction ms with
  | nil =>
    refine fun μ => ⟨[], [], [], rfl, ?_, Rel.nil _, fun a h => absurd h List.not_mem_nil⟩
    rw [List.append_nil]; exact .nil μ
  | cons m ms ih =>
    intro μ
    obtain ⟨x, t, i⟩ := m
    cases i with
    | none =>
      have hu : freshMembers ((x, t, none) :: ms) = (fresh t >>= fun o => freshMembers ms >>= fun ρ => C.ok ((x, o) :: ρ)) := by
        cases t <;> rfl
      rw [hu]
      cases hf : fresh t with
      | ok o =>
        obtain ⟨h1, rfl, h3, h4⟩ := image_fresh hf
        have := ih (μ ++ [image o])
        show Sound _ (freshMembers ms >>= _)
        refine this.bind (fun u h => ?_) fun ρ _ h => ?_
        · obtain ⟨_, _, _, h, _⟩ := h; cases h
        · obtain ⟨ρ', ν, ext, h5, h6, h7, h8⟩ := h
          cases h5
          obtain ⟨h9, h10⟩ := members_new (x := x) h1 h3 h7 h8
          refine ⟨_, _, [image o] ++ ext, rfl, ?_, h9, h10⟩
          rw [h4, List.append_assoc] at h6
          rw [h4]
          exact .raw x _ ms μ ν _ h1 h6
      | _ => cases t <;> cases hf <;> exact rfl
    | some z =>
      cases t with
      | cells e n =>
        show Sound _ (Val.toBits e (vint z) >>= fun b => freshMembers ms >>= fun ρ => C.ok ((x, Obj.cells e n fun _ => some b) :: ρ))
        refine Sound.toBits (fun u h => ?_) fun b hb => ?_
        · exfalso
          have := toBits_sound e (vint z)
          cases e <;> cases h <;> rename_i h <;> cases h
        · have hd := denotes_bytes (yields_ofBits e b).1 (yields_ofBits e b).2
          have himg : image (.cells e n fun _ => some b) =
              (List.replicate n ((bytes (SpecExec.size e) (code (.ofBits e b))).map some)).flatten := by
            show ((lanesOf _).map _).flatten = _
            have : lanesOf (fun _ => some b : Arr e n) = List.replicate n (some b.toNat) := List.ofFn_const ..
            rw [this, List.map_replicate, code_ofBits]; rfl
          refine (ih (μ ++ [image (.cells e n fun _ => some b)])).bind (fun u h => ?_) fun ρ _ h => ?_
          · obtain ⟨_, _, _, h, _⟩ := h; cases h
          · obtain ⟨ρ', ν, ext, h5, h6, h7, h8⟩ := h
            cases h5
            obtain ⟨h9, h10⟩ := members_new (x := x) (o := .cells e n fun _ => some b) rfl trivial h7 h8
            refine ⟨_, _, _, rfl, ?_, h9, h10⟩
            rw [List.append_assoc] at h6
            rw [himg] at h6 ⊢
            exact .filled x e n z _ _ ms μ ν _ hb hd h6
      | _ => exact rfl

theorem constructs_objects {ms : List (Nat × Ty × Option Int)} {μ μ' : Memory} {ν : Names} (h : Constructs ms μ ν μ') :
    ∀ p ∈ ν, ∀ e a o, p.2 ≠ .pointer e a o := by
  induction h with
  | nil => exact fun p hp => absurd hp List.not_mem_nil
  | raw x t ms μ ν μ' _ _ ih =>
    intro p hp e a o h
    rcases List.mem_cons.1 hp with rfl | hp
    · cases h
    · exact ih p hp e a o h
  | filled x e n z w bs ms μ ν μ' _ _ _ ih =>
    intro p hp e a o h
    rcases List.mem_cons.1 hp with rfl | hp
    · cases h
    · exact ih p hp e a o h

theorem foldl_spell (cs : List Nat) (a : Nat) : cs.foldl (fun n c => n * 256 + c) a = a * 256 ^ cs.length + spell cs := by
  unfold spell
  induction cs generalizing a with
  | nil => simp
  | cons c cs ih => rw [List.foldl_cons, List.foldl_cons, ih, ih (0 * 256 + c), List.length_cons, Nat.pow_succ]; ring

theorem spell_lt (cs : List Nat) (h : ∀ c ∈ cs, c < 256) : spell cs < 256 ^ cs.length := by
  induction cs with
  | nil => exact Nat.one_pos
  | cons c cs ih =>
    have h1 := h c (List.mem_cons_self ..)
    have h2 := ih fun d hd => h d (List.mem_cons_of_mem _ hd)
    have : spell (c :: cs) = c * 256 ^ cs.length + spell cs := by
      have := foldl_spell cs c
      rw [← this, spell, List.foldl_cons, Nat.zero_mul, Nat.zero_add]
    rw [this, List.length_cons, Nat.pow_succ]
    have : c * 256 ^ cs.length ≤ 255 * 256 ^ cs.length := Nat.mul_le_mul_right _ (by omega)
    omega

theorem chars_lt (f n : Nat) : ∀ c ∈ chars f n, c < 256 := by
  induction f generalizing n with
  | zero => exact fun c h => absurd h List.not_mem_nil
  | succ f ih =>
    intro c h
    unfold chars at h
    split at h
    · cases h
    · rcases List.mem_cons.1 h with rfl | h
      · exact Nat.mod_lt _ (by omega)
      · exact ih _ c h

/-- The name can be spelled with characters. -/
def nameOk (n : Nat) : Bool := spell (chars 64 n).reverse == n && (chars 64 n).all fun c => decide (0 < c)

theorem nameOk_spells {n : Nat} (h : nameOk n = true) : Spells (chars 64 n).reverse n := by
  rw [nameOk, Bool.and_eq_true, List.all_eq_true] at h
  refine ⟨eq_of_beq h.1, fun c hc => ?_⟩
  rw [List.mem_reverse] at hc
  exact ⟨of_decide_eq_true (h.2 c hc), chars_lt _ _ c hc⟩

theorem member_inj {x m m' : Nat} (h1 : nameOk m = true) (h2 : nameOk m' = true) (h : member x m = member x m') : m = m' := by
  obtain ⟨s1, c1⟩ := nameOk_spells h1
  obtain ⟨s2, c2⟩ := nameOk_spells h2
  unfold member at h
  rw [foldl_spell, foldl_spell] at h
  have l1 := spell_lt _ fun c hc => (c1 c hc).2
  have l2 := spell_lt _ fun c hc => (c2 c hc).2
  rw [← s1, ← s2]
  generalize (chars 64 m).reverse = cs at h l1 ⊢
  generalize (chars 64 m').reverse = ds at h l2 ⊢
  have key : ∀ (i j a b : Nat), i < j → a < 256 ^ i → (x * 256 + 46) * 256 ^ i + a ≠ (x * 256 + 46) * 256 ^ j + b := by
    intro i j a b hij ha e
    obtain ⟨k, rfl⟩ := Nat.exists_eq_add_of_lt hij
    have : (x * 256 + 46) * 256 ^ i * 256 ≤ (x * 256 + 46) * 256 ^ (i + k + 1) := by
      have hk : 1 ≤ 256 ^ k := Nat.one_le_pow _ _ (by omega)
      have := Nat.mul_le_mul_left ((x * 256 + 46) * 256 ^ i * 256) hk
      rw [Nat.mul_one] at this
      exact this.trans (Nat.le_of_eq (by ring))
    have h46 : 46 * 256 ^ i ≤ (x * 256 + 46) * 256 ^ i := Nat.mul_le_mul_right _ (by omega)
    omega
  rcases Nat.lt_trichotomy cs.length ds.length with hl | hl | hl
  · exact absurd h (key _ _ _ _ hl l1)
  · rw [hl] at h; omega
  · exact absurd h.symm (key _ _ _ _ hl l2)

/-- The members of an object. -/
theorem getMembers_sound {ρ : Env} {ν : Names} {μ : Memory} (h : Rel ρ ν μ) (x : Nat) (ms : List (Nat × Ty × Option Int))
    (hm : ∀ m ∈ ms, nameOk m.1 = true) (hd : (ms.map (·.1)).Nodup) :
    Sound (fun r => ∃ ρ' ν', r = .ok ρ' ∧ Members ν x ms ν' ∧ Rel ρ' ν' μ ∧
      ∀ a ∈ addrs ν', ∃ m ∈ ms, ∃ n, ν.lookup (member x m.1) = some n ∧ addr n = some a) (getMembers ρ x ms) := by
  induction ms with
  | nil => exact ⟨[], [], rfl, .nil, Rel.nil _, fun a h => absurd h List.not_mem_nil⟩
  | cons m ms ih =>
    obtain ⟨m, t, i⟩ := m
    rw [List.map_cons, List.nodup_cons] at hd
    refine Sound.get h (member x m) fun o n ho hn hh => ?_
    refine (ih (fun m h => hm m (List.mem_cons_of_mem _ h)) hd.2).bind (fun u h => ?_) fun ρ' _ h' => ?_
    · obtain ⟨_, _, h, _⟩ := h; cases h
    · obtain ⟨ρ₁, ν₁, e, h1, h2, h3⟩ := h'
      cases e
      refine ⟨_, (m, n) :: ν₁, rfl, .cons m t i ms n ν₁ hn h1, ⟨.cons ⟨rfl, hh⟩ h2.holds, ?_⟩, fun a ha => ?_⟩
      · rw [addrs_cons]
        cases hna : addr n with
        | none => exact h2.nodup
        | some a =>
          refine List.nodup_cons.2 ⟨fun hmem => ?_, h2.nodup⟩
          obtain ⟨m', hm', n', hn', ha'⟩ := h3 a hmem
          have e := names_inj h.nodup hn hn' hna ha'
          have e := member_inj (hm _ (List.mem_cons_self ..)) (hm _ (List.mem_cons_of_mem _ hm')) e
          exact hd.1 (List.mem_map.2 ⟨m', hm', e.symm⟩)
      · rw [addrs_cons] at ha
        rcases List.mem_append.1 ha with ha | ha
        · rw [Option.mem_toList] at ha
          exact ⟨_, List.mem_cons_self .., n, hn, ha⟩
        · obtain ⟨m', hm', h⟩ := h3 a ha
          exact ⟨m', List.mem_cons_of_mem _ hm', h⟩

/-! ## Calls -/

/-- What is required of a translation unit: integer literals are values of their types, names are spelled with characters,
and the members of a class have different names. -/
def unitOk (u : TransUnit) : Bool :=
  litsU u && (u.funcs ++ u.ctors ++ u.convs).all (fun g => nameOk g.name) &&
    u.structs.all fun s => s.members.all (fun m => nameOk m.1) && decide (s.members.map (·.1)).Nodup

theorem lookup_outcome (f : Nat) (l : List Func) : lookup f l = illFormed ∨ ∃ g, lookup f l = .ok g ∧ SpecExec.func l f = some g ∧ g ∈ l ∧ g.name = f := by
  induction l with
  | nil => exact .inl rfl
  | cons g l ih =>
    unfold lookup SpecExec.func
    rw [List.find?_cons]
    split
    · rename_i h
      rw [h]
      exact .inr ⟨g, rfl, rfl, List.mem_cons_self .., eq_of_beq h⟩
    · rename_i h
      rw [Bool.not_eq_true] at h
      rw [h]
      rcases ih with ih | ⟨g', h1, h2, h3, h4⟩
      · exact .inl ih
      · exact .inr ⟨g', h1, h2, List.mem_cons_of_mem _ h3, h4⟩

theorem lookupStruct_outcome (c : Nat) (l : List Struct) : lookupStruct c l = illFormed ∨ ∃ s, lookupStruct c l = .ok s ∧ struct l c = some s ∧ s ∈ l := by
  induction l with
  | nil => exact .inl rfl
  | cons g l ih =>
    unfold lookupStruct struct
    rw [List.find?_cons]
    split
    · rename_i h
      rw [h]
      exact .inr ⟨g, rfl, rfl, List.mem_cons_self ..⟩
    · rename_i h
      rw [Bool.not_eq_true] at h
      rw [h]
      rcases ih with ih | ⟨g', h1, h2, h3⟩
      · exact .inl ih
      · exact .inr ⟨g', h1, h2, List.mem_cons_of_mem _ h3⟩

/-- The value that a function returned. -/
theorem val_sound {α : Type} {E : C Result → Prop} {Q : α → Prop} {o : Obj} {t : Ty} (hty : o.ty = t) (ht : Typed o) (hs : ∀ e, o ≠ .sc e none)
    {f : Val → C α} (hok : ∀ e v, t = .sc e → Denotes e (bytes (SpecExec.size e) (code v)) v → InRange v →
      image o = (bytes (SpecExec.size e) (code v)).map some → Fate E Q (f v)) : Fate E Q (o.val >>= f) := by
  subst hty
  cases o with
  | sc e v =>
    cases v with
    | none => exact absurd rfl (hs e)
    | some v => exact hok e v rfl (denotes_bytes ht.1 ht.2) ht.2 (image_sc e v)
  | _ => exact .ill

section
variable [Dialect]

theorem unit_calls_sound (u : TransUnit) (hu : unitOk u = true) (fuel depth : Nat) : CallsSound Dialect.wrapv u (u.calls fuel depth) := by
  simp only [unitOk, litsU, litsF, Bool.and_eq_true, List.all_eq_true, List.mem_append, decide_eq_true_eq] at hu
  obtain ⟨⟨⟨⟨hl1, hl2⟩, hl3⟩, hn⟩, hst⟩ := hu
  induction depth with
  | zero => exact ⟨fun _ _ _ _ _ _ _ _ => .inr (.inl rfl), fun _ _ _ _ _ _ _ _ _ => .inr (.inl rfl), fun _ _ _ _ _ _ _ => .inr (.inl rfl)⟩
  | succ d ih =>
    refine ⟨?_, ?_, ?_⟩
    · intro fr f args ρ ν μ h hargs
      show Fate _ _ (lookup f u.funcs >>= _)
      rcases lookup_outcome f u.funcs with e | ⟨g, e, hg, hmem, hname⟩
      · rw [e]; exact .ill
      rw [e]
      have hsp : Spells (chars 64 f).reverse f := by have := nameOk_spells (hn g (.inl (.inl hmem))); rwa [hname] at this
      show Fate _ _ (pass ρ g.params args [] >>= _)
      refine Fate.ofSound (pass_sound h g.params args [] [] μ hargs h (Rel.nil μ) fun b _ => List.not_mem_nil) (fun ub hu => .passUB fr f args _ g ub hg hu)
        fun ρ' _ hp => ?_
      obtain ⟨ν', ext, hps, hr', ⟨pre, hpre⟩, haim, -, hadr⟩ := hp
      refine (exec_sound ih fuel (chars 64 f).reverse ⟨f, g.ret⟩ hsp g.body (hl1 g hmem) ρ' ν' (μ ++ ext) hr').bind
        (fun r hf hr => .bodyFail fr f args _ g ν' _ r hg hps hr hf) fun fl _ hfl => ?_
      cases fl with
      | ret o =>
        obtain ⟨μ', hx, hk, hty, hob, htp, hsc⟩ := hfl
        dsimp only
        split
        · rename_i hnp
          refine val_sound hty htp hsc fun e v het hd hv himg => ?_
          rw [himg, show (Frame.mk f g.ret).ret = .sc e from het] at hx
          have hk' : Keeps [] μ μ' := (Keeps.append [] μ ext).trans hk fun a ha hl => by
            rcases hadr a ha with h | h | h
            · cases h
            · rw [targets_nil ν args hnp] at h; exact h
            · omega
          exact ⟨μ', .callValue fr f args _ g ν' _ e _ μ' [] v hg hps hx hd, h.keeps hk' fun a _ => List.not_mem_nil,
            hk'.weaken (fun a h _ => absurd h List.not_mem_nil), fun w hw => (by cases hw; exact hv)⟩
        · exact .ill
      | next ρ₁ =>
        obtain ⟨ν₁, μ', hx, hr₁, hg₁, hk, -⟩ := hfl
        dsimp only
        split
        · rename_i hvoid
          have hk' : Keeps (targets ν g.params args) μ μ' := (Keeps.append _ μ ext).trans hk fun a ha hl => by
            rcases hadr a ha with h | h | h
            · cases h
            · exact h
            · omega
          refine Fate.ofSound (copyBack_sound hr₁ hg₁ hk' h.nodup haim ρ (h.stale hk' fun a h _ => h)) (fun ub hu => ?_) fun ρ₂ _ hb => ?_
          · obtain ⟨_, h, _⟩ := hu; cases h
          · obtain ⟨_, h2, h3⟩ := hb
            cases h2
            exact ⟨μ', .callVoid fr f args _ g ν' _ ⟨ν₁, μ', []⟩ hg hps hx hvoid, h3, hk'.weaken (fun a ha _ => by
              obtain ⟨y, n, -, h4, h5⟩ := targets_spec ha
              exact lookup_addrs h4 h5), fun v hv => by cases hv⟩
        · exact .ill
    · intro fr c x args ρ ν μ h hargs
      show Fate _ _ (lookupStruct c u.structs >>= _)
      rcases lookupStruct_outcome c u.structs with e | ⟨s, e, hs, hsmem⟩
      · rw [e]; exact .ill
      rw [e]
      show Fate _ _ (lookup c u.ctors >>= _)
      rcases lookup_outcome c u.ctors with e | ⟨g, e, hg, hmem, hname⟩
      · rw [e]; exact .ill
      rw [e]
      have hsp : Spells (chars 64 c).reverse c := by have := nameOk_spells (hn g (.inl (.inr hmem))); rwa [hname] at this
      show Fate _ _ (freshMembers s.members >>= _)
      refine Fate.ofSound (freshMembers_sound s.members μ) (fun ub hu => ?_) fun ms _ hms => ?_
      · obtain ⟨_, _, _, h, _⟩ := hu; cases h
      obtain ⟨_, νm, ext, e, hcs, hrm, ham⟩ := hms
      cases e
      refine Fate.ofSound (pass_sound h g.params args ms νm _ hargs (h.append ext) hrm fun b hb hm => ?_)
        (fun ub hu => .constructUB fr c x args _ s g νm _ ub hs hg hcs hu) fun ρ' _ hp => ?_
      · have := ham b hm
        obtain ⟨y, n, -, h1, h2⟩ := targets_spec hb
        have := h.lt (lookup_addrs h1 h2)
        omega
      obtain ⟨ν', ext', hps, hr', ⟨pre, hpre⟩, haim, -, hadr⟩ := hp
      refine (exec_sound ih fuel (chars 64 c).reverse ⟨c, g.ret⟩ hsp g.body (hl2 g hmem) ρ' ν' _ hr').bind
        (fun r hf hr => .constructFail fr c x args _ s g νm _ ν' _ r hs hg hcs hps hr hf) fun fl _ hfl => ?_
      cases fl with
      | ret o => exact .ill
      | next ρ₁ =>
        obtain ⟨ν₁, μ', hx, hr₁, ⟨new, hnew, -⟩, hk, -⟩ := hfl
        dsimp only
        split
        · rename_i hnp
          have hk' : Keeps [] μ μ' := ((Keeps.append [] μ ext).trans (Keeps.append [] _ ext') fun a h _ => h).trans hk fun a ha hl => by
            rcases hadr a ha with h | h | h
            · have := ham a h; omega
            · rw [targets_nil ν args hnp] at h; exact h
            · rw [List.length_append] at h; omega
          have hr0 := h.keeps hk' fun a _ => List.not_mem_nil
          have hrm' : Rel (ρ₁.drop (ρ₁.length - ms.length)) νm μ' := by
            rw [hnew, hpre, ← List.append_assoc] at hr₁
            rw [hrm.length]
            exact hr₁.suffix
          have hmap : addrs (νm.map fun m => (member x m.1, m.2)) = addrs νm := by
            unfold addrs
            rw [List.filterMap_map]; rfl
          refine ⟨((x, .instance c) :: νm.map fun m => (member x m.1, m.2)) ++ ν, μ',
            .construct fr c x args _ s g νm _ ν' _ ⟨ν₁, μ', []⟩ _ hs hg hcs hps hx rfl, ⟨?_, ?_⟩, ⟨_, rfl, fun p hp => ?_⟩, hk'.weaken fun a h _ => by cases h⟩
          · refine .cons ⟨rfl, .obj c⟩ (List.rel_append ?_ hr0.holds)
            refine List.forall₂_map_left_iff.2 (List.forall₂_map_right_iff.2 (hrm'.holds.imp fun a b hab => ?_))
            exact ⟨by rw [hab.1], hab.2⟩
          · show (addrs ((νm.map fun m => (member x m.1, m.2)) ++ ν)).Nodup
            rw [addrs_append, hmap]
            refine List.nodup_append.2 ⟨hrm'.nodup, hr0.nodup, fun a ha b hb e => ?_⟩
            have := ham a ha
            have := h.lt hb
            omega
          · rcases List.mem_cons.1 hp with rfl | hp
            · exact ⟨fun a ha => (by cases ha), fun e a o h => (by cases h)⟩
            · obtain ⟨q, hq, rfl⟩ := List.mem_map.1 hp
              refine ⟨fun a ha => ham a (mem_addrs.2 ⟨q, hq, ha⟩), fun e a o he => ?_⟩
              exact constructs_objects hcs q hq e a o he
        · exact .ill
    · intro fr e x ρ ν μ h
      refine Fate.get h x fun o n ho hx hh => ?_
      cases hh with
      | obj c =>
        show Fate _ _ (lookupStruct c u.structs >>= _)
        rcases lookupStruct_outcome c u.structs with e1 | ⟨s, e1, hs, hsmem⟩
        · rw [e1]; exact .ill
        rw [e1]
        show Fate _ _ (lookup c u.convs >>= _)
        rcases lookup_outcome c u.convs with e2 | ⟨g, e2, hg, hmem, hname⟩
        · rw [e2]; exact .ill
        rw [e2]
        have hsp : Spells (chars 64 c).reverse c := by have := nameOk_spells (hn g (.inr hmem)); rwa [hname] at this
        show Fate _ _ (getMembers ρ x s.members >>= _)
        refine Fate.ofSound (getMembers_sound h x s.members (hst s hsmem).1 (hst s hsmem).2) (fun ub hu => ?_) fun ms _ hms => ?_
        · obtain ⟨_, _, h, _⟩ := hu; cases h
        obtain ⟨_, νm, e3, hmm, hrm, ham⟩ := hms
        cases e3
        split
        · rename_i hret
          refine (exec_sound ih fuel (chars 64 c).reverse ⟨c, g.ret⟩ hsp g.body (hl3 g hmem) ms νm μ hrm).bind
            (fun r hf hr => .convertFail fr e x _ c s g νm r hx hs hg hret hmm hr hf) fun fl _ hfl => ?_
          cases fl with
          | next ρ₁ => exact .ill
          | ret o =>
            obtain ⟨μ', hex, hk, hty, hob, htp, hsc⟩ := hfl
            show Fate _ _ o.val
            have : o.val = (o.val >>= C.ok) := by cases o.val <;> rfl
            rw [this]
            refine val_sound hty htp hsc fun e' v het hd hv himg => ?_
            have het : g.ret = .sc e' := het
            rw [het] at hret
            cases hret
            rw [himg, show (Frame.mk c g.ret).ret = .sc e from het] at hex
            exact ⟨μ', .convert fr e x _ c s g νm _ μ' [] v hx hs hg het hmm hex hd, hk.weaken fun a ha _ => by
              obtain ⟨m, -, n, h1, h2⟩ := ham a ha
              exact lookup_addrs h1 h2, hv⟩
        · exact .ill
      | object _ a ht =>
        cases o with
        | obj => cases ht
        | _ => exact .ill
      | ptr => exact .ill

end

end Verif.Props
