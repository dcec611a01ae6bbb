import Verif.SpecType
import Verif.Props.InterpTypes
import Verif.Props.ExecExpr

/-!
# Functions that obey the static rules of C++ are never rejected (C97)
-/

namespace Verif.Props
open Verif.Cpp

/-- The outcome is not one by which the model rejects a program. -/
def Sane {α : Type} (M : String → Prop) (P : α → Prop) : C α → Prop
  | .ok a => P a
  | .ub u => u ≠ .illTyped
  | .abort m => M m
  | .indet _ => False

theorem Sane.bind {α β : Type} {M : String → Prop} {P : α → Prop} {Q : β → Prop} {x : C α} {f : α → C β} (hx : Sane M P x)
    (hf : ∀ a, x = .ok a → P a → Sane M Q (f a)) : Sane M Q (x >>= f) := by
  cases x with
  | ok a => exact hf a rfl hx
  | abort s => exact hx
  | ub u => exact hx
  | indet l => exact hx

theorem Sane.mono {α : Type} {M N : String → Prop} {P Q : α → Prop} {x : C α} (hx : Sane M P x) (hM : ∀ m, M m → N m)
    (hP : ∀ a, x = .ok a → P a → Q a) : Sane N Q x := by
  cases x with
  | ok a => exact hP a rfl hx
  | abort s => exact hM s hx
  | ub u => exact hx
  | indet l => exact hx

/-! ## Variables -/

theorem get_of_scope {ρ : Env} {x : Nat} {t : Ty} (h : (shape ρ).lookup x = some t) : ∃ o, ρ.get x = .ok o ∧ o.ty = t := by
  induction ρ with
  | nil => cases h
  | cons p ρ ih =>
    obtain ⟨y, o⟩ := p
    unfold Env.get
    replace h : List.lookup x ((y, o.ty) :: shape ρ) = some t := h
    rw [List.lookup_cons] at h
    split
    · rename_i e
      rw [e] at h
      cases h
      exact ⟨o, rfl, rfl⟩
    · rename_i e
      rw [Bool.not_eq_true] at e
      rw [e] at h
      exact ih h

theorem ty_sc {o : Obj} {e : Elem} (h : o.ty = .sc e) : ∃ v, o = .sc e v := by cases o <;> cases h; exact ⟨_, rfl⟩
theorem ty_vec {o : Obj} {e : Elem} {n : Nat} (h : o.ty = .vec e n) : ∃ r, o = .vec e n r := by cases o <;> cases h; exact ⟨_, rfl⟩
theorem ty_arr {o : Obj} {e : Elem} {n k : Nat} (h : o.ty = .arr e n k) : ∃ r, o = .arr e n k r := by cases o <;> cases h; exact ⟨_, rfl⟩
theorem ty_ptr {o : Obj} {e : Elem} (h : o.ty = .ptr e) : ∃ p, o = .ptr e p := by cases o <;> cases h; exact ⟨_, rfl⟩
theorem ty_cells {o : Obj} {e : Elem} {n : Nat} (h : o.ty = .cells e n) : ∃ r, o = .cells e n r := by cases o <;> cases h; exact ⟨_, rfl⟩

/-! ## Values -/

/-- No message is printed. -/
def Silent (_ : String) : Prop := False

theorem sane_ub {α : Type} {M : String → Prop} {P : α → Prop} {u : UB} (h : u ≠ .illTyped) : Sane M P (.ub u) := h

/-- Prove `Sane` of an outcome that is a value or undefined. -/
macro "sane" : tactic => `(tactic| (repeat' split) <;> first | trivial | exact sane_ub (by decide))

theorem sane_truncTo (t : ITy) (v : Option Int) : Sane Silent (fun _ => True) (truncTo t v) := by
  unfold truncTo; sane

theorem sane_toBits (e : Elem) (v : Val) : Sane Silent (fun _ => True) (Val.toBits e v) := by
  cases e with
  | int t =>
    cases v with
    | int _ _ => trivial
    | f32 _ => exact (sane_truncTo _ _).bind fun _ _ _ => trivial
    | f64 _ => exact (sane_truncTo _ _).bind fun _ _ _ => trivial
  | f32 => trivial
  | f64 => trivial

theorem sane_cast (e : Elem) (v : Val) : Sane Silent (fun _ => True) (Val.cast e v) := by
  cases e with
  | int t =>
    cases v with
    | int _ _ => trivial
    | f32 _ => exact (sane_truncTo _ _).bind fun _ _ _ => trivial
    | f64 _ => exact (sane_truncTo _ _).bind fun _ _ _ => trivial
  | f32 => trivial
  | f64 => trivial

theorem sane_stdMin (e : Elem) (x y : Val) : Sane Silent (fun _ => True) (Val.stdMin e x y) :=
  (sane_cast e x).bind fun _ _ _ => (sane_cast e y).bind fun _ _ _ => by split <;> trivial
theorem sane_stdMax (e : Elem) (x y : Val) : Sane Silent (fun _ => True) (Val.stdMax e x y) :=
  (sane_cast e x).bind fun _ _ _ => (sane_cast e y).bind fun _ _ _ => by split <;> trivial

theorem sane_arrGet {e : Elem} {n : Nat} (r : Arr e n) (i : Int) : Sane Silent (fun _ => True) (r.get i) := by
  unfold Arr.get
  split
  · split
    · trivial
    · exact fun h => by cases h
  · exact fun h => by cases h
theorem sane_arr2Get {e : Elem} {n k : Nat} (r : Arr2 e n k) (j i : Int) : Sane Silent (fun _ => True) (arr2Get r j i) := by
  unfold arr2Get
  split
  · exact sane_arrGet _ _
  · exact fun h => by cases h
theorem sane_ptrGet {e : Elem} (p : Ptr e) (i : Int) : Sane Silent (fun _ => True) (p.get i) := by
  unfold Ptr.get; sane
theorem sane_arrSet {e : Elem} {n : Nat} (r : Arr e n) (i : Int) (v : Val) : Sane Silent (fun _ => True) (r.set i v) := by
  unfold Arr.set
  split
  · exact (sane_toBits _ _).bind fun _ _ _ => trivial
  · exact fun h => by cases h
theorem sane_arr2Set {e : Elem} {n k : Nat} (r : Arr2 e n k) (j i : Int) (v : Val) : Sane Silent (fun _ => True) (r.set j i v) := by
  unfold Arr2.set
  split
  · exact (sane_toBits _ _).bind fun _ _ _ => trivial
  · exact fun h => by cases h
theorem sane_ptrSet {e : Elem} (p : Ptr e) (i : Int) (v : Val) : Sane Silent (fun _ => True) (p.set i v) := by
  unfold Ptr.set
  split
  · exact (sane_toBits _ _).bind fun _ _ _ => trivial
  · exact fun h => by cases h

theorem int_of_ty {v : Val} {e : Elem} (h : tyVal v = e) (hi : SpecType.isInt e = true) : ∃ t z, v = .int t z ∧ e = .int t := by
  subst h
  cases v with
  | int t z => exact ⟨t, z, rfl, rfl⟩
  | _ => cases hi

theorem of_ite_some {α : Type} {c : Prop} [Decidable c] {a : α} {o : Option α} (h : (if c then o else none) = some a) : c ∧ o = some a := by
  split at h
  · exact ⟨‹_›, h⟩
  · cases h

section
variable [Dialect]

theorem sane_mkInt (t : ITy) (v : Int) : Sane Silent (fun _ => True) (mkInt t v) := by
  unfold mkInt; sane

omit [Dialect] in
theorem sane_mkQuot (t : ITy) (q v : Int) : Sane Silent (fun _ => True) (mkQuot t q v) := by
  unfold mkQuot
  split
  · trivial
  · exact fun h => by cases h

omit [Dialect] in
theorem sane_arith (iop : ITy → Int → Int → C Val) (fop) (h : ∀ t x y, Sane Silent (fun _ => True) (iop t x y)) (x y : Val) :
    Sane Silent (fun _ => True) (Val.arith iop fop x y) := by
  cases x <;> cases y <;> first | exact h _ _ _ | trivial

theorem sane_binary {o : BinOp} {x y : Val} {s t τ : SpecType.EType} (h : SpecType.binary o s t = some τ)
    (hx : ∀ e, s = some e → tyVal x = e) (hy : ∀ e, t = some e → tyVal y = e) (hl : o ≠ .land ∧ o ≠ .lor) :
    Sane Silent (fun _ => True) (binary o x y) := by
  have ints : ∀ {e e'}, s = some e → t = some e' → (SpecType.isInt e && SpecType.isInt e') = true →
      ∃ a b c d, x = .int a b ∧ y = .int c d := by
    intro e e' h1 h2 h3
    rw [Bool.and_eq_true] at h3
    obtain ⟨a, b, e1, -⟩ := int_of_ty (hx e h1) h3.1
    obtain ⟨c, d, e2, -⟩ := int_of_ty (hy e' h2) h3.2
    exact ⟨a, b, c, d, e1, e2⟩
  cases o with
  | add => exact sane_arith (fun t x y => mkInt t (x + y)) Fmt.add (fun _ _ _ => sane_mkInt _ _) x y
  | sub => exact sane_arith (fun t x y => mkInt t (x - y)) Fmt.sub (fun _ _ _ => sane_mkInt _ _) x y
  | mul => exact sane_arith (fun t x y => mkInt t (x * y)) Fmt.mul (fun _ _ _ => sane_mkInt _ _) x y
  | div =>
    refine sane_arith (fun t x y => if y = 0 then .ub .divByZero else mkQuot t (Int.tdiv x y) (Int.tdiv x y)) Fmt.div (fun t x y => ?_) x y
    show Sane _ _ (if _ then _ else _)
    split
    · exact fun h => by cases h
    · exact sane_mkQuot _ _ _
  | lt | gt | le | ge | eq => trivial
  | land => exact absurd rfl hl.1
  | lor => exact absurd rfl hl.2
  | mod =>
    cases s <;> cases t <;> try cases h
    obtain ⟨hi, -⟩ := of_ite_some h
    obtain ⟨a, b, c, d, rfl, rfl⟩ := ints rfl rfl hi
    show Sane _ _ (if _ then _ else mkQuot _ _ _)
    split
    · exact fun h => by cases h
    · exact sane_mkQuot _ _ _
  | and | or | xor =>
    cases s <;> cases t <;> try cases h
    obtain ⟨hi, -⟩ := of_ite_some h
    obtain ⟨a, b, c, d, rfl, rfl⟩ := ints rfl rfl hi
    trivial
  | shl =>
    cases s <;> cases t <;> try cases h
    obtain ⟨hi, -⟩ := of_ite_some h
    obtain ⟨a, b, c, d, rfl, rfl⟩ := ints rfl rfl hi
    show Sane _ _ (if _ then (if _ then _ else _) else _)
    split
    · split
      · exact fun h => by cases h
      · trivial
    · exact fun h => by cases h
  | shr =>
    cases s <;> cases t <;> try cases h
    obtain ⟨hi, -⟩ := of_ite_some h
    obtain ⟨a, b, c, d, rfl, rfl⟩ := ints rfl rfl hi
    show Sane _ _ (if _ then _ else _)
    split
    · trivial
    · exact fun h => by cases h

/-! ## Expressions -/

omit [Dialect] in
theorem usual_common (s t : Elem) : SpecType.usual s t = common s t := by cases s <;> cases t <;> rfl

omit [Dialect] in
theorem binary_typ {ρ : Env} {a b : Expr} {o : BinOp} {s t τ : SpecType.EType} (ha : typ ρ a = s) (hb : typ ρ b = t)
    (h : SpecType.binary o s t = some τ) : typ ρ (.bin o a b) = τ := by
  rw [typ, ha, hb]
  cases s with
  | none => cases o <;> cases t <;> first | (cases h; done) | (cases h; rfl)
  | some s =>
    cases t with
    | none => cases o <;> first | (cases h; done) | (cases h; rfl)
    | some t =>
      cases o <;> first
        | exact (congrArg some (usual_common _ _).symm).trans (Option.some.inj h)
        | exact (congrArg some (usual_common _ _).symm).trans (Option.some.inj (of_ite_some h).2)
        | exact Option.some.inj h

omit [Dialect] in
/-- The static type is the one that the interpreter finds. -/
theorem typ_of_scope {ρ : Env} : ∀ (e : Expr) (τ : SpecType.EType), SpecType.expr (shape ρ) e = some τ → typ ρ e = τ := by
  intro e
  induction e with
  | num t n => intro τ h; cases h; rfl
  | dbl n => intro τ h; cases h; rfl
  | var x =>
    intro τ h
    unfold SpecType.expr at h
    split at h
    · rename_i e hx
      cases h
      obtain ⟨o, ho, ht⟩ := get_of_scope hx
      obtain ⟨v, rfl⟩ := ty_sc ht
      simp only [typ, ho]
    · cases h
  | lane x i =>
    intro τ h
    unfold SpecType.expr at h
    split at h
    · rename_i e n hx
      cases (of_ite_some h).2
      obtain ⟨o, ho, ht⟩ := get_of_scope hx
      obtain ⟨v, rfl⟩ := ty_vec ht
      simp only [typ, ho]
    · cases h
  | lane2 x j i =>
    intro τ h
    unfold SpecType.expr at h
    split at h
    · rename_i e n k hx
      cases (of_ite_some h).2
      obtain ⟨o, ho, ht⟩ := get_of_scope hx
      obtain ⟨v, rfl⟩ := ty_arr ht
      simp only [typ, ho]
    · cases h
  | elem x i =>
    intro τ h
    unfold SpecType.expr at h
    split at h
    · rename_i e hx
      cases (of_ite_some h).2
      obtain ⟨o, ho, ht⟩ := get_of_scope hx
      obtain ⟨v, rfl⟩ := ty_ptr ht
      simp only [typ, ho]
    · rename_i e n hx
      cases (of_ite_some h).2
      obtain ⟨o, ho, ht⟩ := get_of_scope hx
      obtain ⟨v, rfl⟩ := ty_cells ht
      simp only [typ, ho]
    · cases h
  | bin o a b iha ihb =>
    intro τ h
    unfold SpecType.expr at h
    split at h
    · rename_i s t hs ht
      exact binary_typ (iha _ hs) (ihb _ ht) h
    · cases h
  | compl a ih =>
    intro τ h
    unfold SpecType.expr at h
    split at h
    · rename_i s hs
      cases (of_ite_some h).2
      rw [typ, ih _ hs, Option.map_some, usual_common]
    · cases h
  | not a => intro τ h; cases (of_ite_some h).2; rfl
  | cast e a => intro τ h; cases (of_ite_some h).2; rfl
  | stdMin e a b iha ihb =>
    intro τ h
    cases e with
    | some e => cases (of_ite_some h).2; rfl
    | none =>
      unfold SpecType.expr at h
      split at h
      · rename_i s t hs ht
        cases (of_ite_some h).2
        exact iha _ hs
      · cases h
  | stdMax e a b iha ihb =>
    intro τ h
    cases e with
    | some e => cases (of_ite_some h).2; rfl
    | none =>
      unfold SpecType.expr at h
      split at h
      · rename_i s t hs ht
        cases (of_ite_some h).2
        exact iha _ hs
      · cases h
  | ite c a b ihc iha ihb =>
    intro τ h
    unfold SpecType.expr at h
    split at h
    · rename_i s t hc hs ht
      cases (of_ite_some h).2
      exact iha _ hs
    · cases h

omit [Dialect] in
theorem subscript_int {ρ : Env} {i : Expr} (h : SpecType.subscript (SpecType.expr (shape ρ) i) = true) :
    ∃ e, SpecType.expr (shape ρ) i = some (some e) ∧ SpecType.isInt e = true := by
  unfold SpecType.subscript at h
  split at h
  · rename_i e he; exact ⟨e, he, h⟩
  · cases h

omit [Dialect] in
theorem isInt_of {v : Val} {e : Elem} (h : tyVal v = e) (hi : SpecType.isInt e = true) : v.isInt = true := by
  obtain ⟨t, z, rfl, -⟩ := int_of_ty h hi
  rfl

/-- An expression that has a type is never rejected. -/
theorem eval_sane {ρ : Env} (hρ : EnvTyped ρ) : ∀ (e : Expr), litsE e = true → (SpecType.expr (shape ρ) e).isSome = true →
    Sane Silent (fun _ => True) (eval ρ e) := by
  have ty : ∀ {e : Expr} {t : Elem} {v : Val}, litsE e = true → SpecType.expr (shape ρ) e = some (some t) → eval ρ e = .ok v →
      tyVal v = t := fun hl ht hv => (expression_types ρ hρ _ hl _ hv).2 _ (typ_of_scope _ _ ht)
  have idx : ∀ {i : Expr} {v : Val}, litsE i = true → SpecType.subscript (SpecType.expr (shape ρ) i) = true → eval ρ i = .ok v →
      v.isInt = true := fun hl hs hv => by
    obtain ⟨e, h1, h2⟩ := subscript_int hs
    exact isInt_of (ty hl h1 hv) h2
  have some_sub : ∀ {i : Expr}, SpecType.subscript (SpecType.expr (shape ρ) i) = true → (SpecType.expr (shape ρ) i).isSome = true :=
    fun hs => by obtain ⟨e, h1, h2⟩ := subscript_int hs; rw [h1]; rfl
  intro e
  induction e with
  | num t n => exact fun _ _ => trivial
  | dbl n => exact fun _ _ => trivial
  | var x =>
    intro hl h
    obtain ⟨τ, h⟩ := Option.isSome_iff_exists.1 h
    unfold SpecType.expr at h
    split at h
    · rename_i e hx
      obtain ⟨o, ho, ht⟩ := get_of_scope hx
      obtain ⟨v, rfl⟩ := ty_sc ht
      show Sane _ _ (ρ.get x >>= fun o => o.val)
      rw [ho]
      cases v with
      | none => exact sane_ub (by decide)
      | some v => trivial
    · cases h
  | lane x i ih =>
    intro hl h
    obtain ⟨τ, h⟩ := Option.isSome_iff_exists.1 h
    unfold SpecType.expr at h
    split at h
    · rename_i e n hx
      have hs := (of_ite_some h).1
      have hl : litsE i = true := hl
      refine (ih hl (some_sub hs)).bind fun v hv _ => ?_
      obtain ⟨o, ho, ht⟩ := get_of_scope hx
      obtain ⟨r, rfl⟩ := ty_vec ht
      show Sane _ _ (ρ.get x >>= fun o => o.lane v)
      rw [ho]
      show Sane _ _ (if v.isInt then r.get v.idx else illFormed)
      rw [if_pos (idx hl hs hv)]
      exact sane_arrGet _ _
    · cases h
  | lane2 x j i ihj ihi =>
    intro hl h
    rw [litsE, Bool.and_eq_true] at hl
    obtain ⟨τ, h⟩ := Option.isSome_iff_exists.1 h
    unfold SpecType.expr at h
    split at h
    · rename_i e n k hx
      have hs := (of_ite_some h).1
      rw [Bool.and_eq_true] at hs
      refine (ihj hl.1 (some_sub hs.1)).bind fun v hv _ => (ihi hl.2 (some_sub hs.2)).bind fun w hw _ => ?_
      obtain ⟨o, ho, ht⟩ := get_of_scope hx
      obtain ⟨r, rfl⟩ := ty_arr ht
      show Sane _ _ (ρ.get x >>= fun o => o.lane2 v w)
      rw [ho]
      show Sane _ _ (if v.isInt && w.isInt then arr2Get r v.idx w.idx else illFormed)
      rw [if_pos (by rw [idx hl.1 hs.1 hv, idx hl.2 hs.2 hw]; rfl)]
      exact sane_arr2Get _ _ _
    · cases h
  | elem x i ih =>
    intro hl h
    obtain ⟨τ, h⟩ := Option.isSome_iff_exists.1 h
    unfold SpecType.expr at h
    split at h
    · rename_i e hx
      have hs := (of_ite_some h).1
      have hl : litsE i = true := hl
      refine (ih hl (some_sub hs)).bind fun v hv _ => ?_
      obtain ⟨o, ho, ht⟩ := get_of_scope hx
      obtain ⟨r, rfl⟩ := ty_ptr ht
      show Sane _ _ (ρ.get x >>= fun o => o.elem v)
      rw [ho]
      show Sane _ _ (if v.isInt then r.get v.idx else illFormed)
      rw [if_pos (idx hl hs hv)]
      exact sane_ptrGet _ _
    · rename_i e n hx
      have hs := (of_ite_some h).1
      have hl : litsE i = true := hl
      refine (ih hl (some_sub hs)).bind fun v hv _ => ?_
      obtain ⟨o, ho, ht⟩ := get_of_scope hx
      obtain ⟨r, rfl⟩ := ty_cells ht
      show Sane _ _ (ρ.get x >>= fun o => o.elem v)
      rw [ho]
      show Sane _ _ (if v.isInt then r.get v.idx else illFormed)
      rw [if_pos (idx hl hs hv)]
      exact sane_arrGet _ _
    · cases h
  | bin o a b iha ihb =>
    intro hl h
    rw [litsE, Bool.and_eq_true] at hl
    obtain ⟨τ, h⟩ := Option.isSome_iff_exists.1 h
    unfold SpecType.expr at h
    split at h
    · rename_i s t hs ht
      have ha := iha hl.1 (by rw [hs]; rfl)
      have hb := ihb hl.2 (by rw [ht]; rfl)
      by_cases h1 : o = .land
      · subst h1
        show Sane _ _ (eval ρ a >>= fun a => if a.truth then (eval ρ b >>= fun b => C.ok (ofBool b.truth)) else C.ok (ofBool false))
        refine ha.bind fun v _ _ => ?_
        split
        · exact hb.bind fun _ _ _ => trivial
        · trivial
      by_cases h2 : o = .lor
      · subst h2
        show Sane _ _ (eval ρ a >>= fun a => if a.truth then C.ok (ofBool true) else (eval ρ b >>= fun b => C.ok (ofBool b.truth)))
        refine ha.bind fun v _ _ => ?_
        split
        · trivial
        · exact hb.bind fun _ _ _ => trivial
      have he : eval ρ (.bin o a b) = (eval ρ a >>= fun x => eval ρ b >>= fun y => binary o x y) := by
        cases o <;> first | rfl | exact absurd rfl h1 | exact absurd rfl h2
      rw [he]
      exact ha.bind fun v hv _ => hb.bind fun w hw _ =>
        sane_binary h (fun e he => ty hl.1 (he ▸ hs) hv) (fun e he => ty hl.2 (he ▸ ht) hw) ⟨h1, h2⟩
    · cases h
  | compl a ih =>
    intro hl h
    obtain ⟨τ, h⟩ := Option.isSome_iff_exists.1 h
    unfold SpecType.expr at h
    split at h
    · rename_i s hs
      have hl : litsE a = true := hl
      refine (ih hl (by rw [hs]; rfl)).bind fun v hv _ => ?_
      obtain ⟨t, z, rfl, -⟩ := int_of_ty (ty hl hs hv) (of_ite_some h).1
      trivial
    · cases h
  | not a ih =>
    intro hl h
    obtain ⟨τ, h⟩ := Option.isSome_iff_exists.1 h
    exact (ih hl (of_ite_some h).1).bind fun _ _ _ => trivial
  | cast e a ih =>
    intro hl h
    obtain ⟨τ, h⟩ := Option.isSome_iff_exists.1 h
    exact (ih hl (of_ite_some h).1).bind fun _ _ _ => sane_cast _ _
  | stdMin e a b iha ihb =>
    intro hl h
    rw [litsE, Bool.and_eq_true] at hl
    obtain ⟨τ, h⟩ := Option.isSome_iff_exists.1 h
    cases e with
    | some e =>
      have hs := (of_ite_some h).1
      rw [Bool.and_eq_true] at hs
      exact (iha hl.1 hs.1).bind fun _ _ _ => (ihb hl.2 hs.2).bind fun _ _ _ => sane_stdMin _ _ _
    | none =>
      unfold SpecType.expr at h
      split at h
      · rename_i s t hs ht
        obtain ⟨rfl, h⟩ := of_ite_some h
        unfold eval
        rw [typ_of_scope _ _ hs]
        dsimp only
        rw [if_pos (typ_of_scope _ _ ht)]
        exact (iha hl.1 (by rw [hs]; rfl)).bind fun _ _ _ => (ihb hl.2 (by rw [ht]; rfl)).bind fun _ _ _ => sane_stdMin _ _ _
      · cases h
  | stdMax e a b iha ihb =>
    intro hl h
    rw [litsE, Bool.and_eq_true] at hl
    obtain ⟨τ, h⟩ := Option.isSome_iff_exists.1 h
    cases e with
    | some e =>
      have hs := (of_ite_some h).1
      rw [Bool.and_eq_true] at hs
      exact (iha hl.1 hs.1).bind fun _ _ _ => (ihb hl.2 hs.2).bind fun _ _ _ => sane_stdMax _ _ _
    | none =>
      unfold SpecType.expr at h
      split at h
      · rename_i s t hs ht
        obtain ⟨rfl, h⟩ := of_ite_some h
        unfold eval
        rw [typ_of_scope _ _ hs]
        dsimp only
        rw [if_pos (typ_of_scope _ _ ht)]
        exact (iha hl.1 (by rw [hs]; rfl)).bind fun _ _ _ => (ihb hl.2 (by rw [ht]; rfl)).bind fun _ _ _ => sane_stdMax _ _ _
      · cases h
  | ite c a b ihc iha ihb =>
    intro hl h
    rw [litsE, Bool.and_eq_true, Bool.and_eq_true] at hl
    obtain ⟨τ, h⟩ := Option.isSome_iff_exists.1 h
    unfold SpecType.expr at h
    split at h
    · rename_i s t hc hs ht
      obtain ⟨rfl, h⟩ := of_ite_some h
      unfold eval
      rw [typ_of_scope _ _ hs]
      dsimp only
      rw [if_pos (typ_of_scope _ _ ht)]
      refine (ihc hl.1.1 (by rw [hc]; rfl)).bind fun v _ _ => ?_
      split
      · exact iha hl.1.2 (by rw [hs]; rfl)
      · exact ihb hl.2 (by rw [ht]; rfl)
    · cases h

/-! ## Statements -/

omit [Dialect] in
theorem Silent.mono {α : Type} {M : String → Prop} {P : α → Prop} {x : C α} (h : Sane Silent P x) : Sane M P x :=
  Sane.mono h (fun _ h => h.elim) fun _ _ h => h

/-- A place that has a type can be assigned to. -/
theorem store_sane {ρ : Env} (hρ : EnvTyped ρ) {l : Expr} (hl : litsE l = true) (hv : SpecType.isLvalue l = true)
    (h : (SpecType.expr (shape ρ) l).isSome = true) (v : Val) : Sane Silent (fun _ => True) (store ρ l v) := by
  have idx : ∀ {i : Expr} {v : Val}, litsE i = true → SpecType.subscript (SpecType.expr (shape ρ) i) = true → eval ρ i = .ok v →
      v.isInt = true := fun hl hs hv => by
    obtain ⟨e, h1, h2⟩ := subscript_int hs
    exact isInt_of ((expression_types ρ hρ _ hl _ hv).2 _ (typ_of_scope _ _ h1)) h2
  have sub : ∀ {i : Expr}, litsE i = true → SpecType.subscript (SpecType.expr (shape ρ) i) = true →
      Sane Silent (fun _ => True) (eval ρ i) := fun hl hs => by
    obtain ⟨e, h1, h2⟩ := subscript_int hs
    exact eval_sane hρ _ hl (by rw [h1]; rfl)
  obtain ⟨τ, h⟩ := Option.isSome_iff_exists.1 h
  cases l with
  | var x =>
    unfold SpecType.expr at h
    split at h
    · rename_i e hx
      obtain ⟨o, ho, ht⟩ := get_of_scope hx
      obtain ⟨w, rfl⟩ := ty_sc ht
      show Sane _ _ (ρ.get x >>= fun o => o.setVal v >>= fun o => C.ok (ρ.set x o))
      rw [ho]
      refine Sane.bind (P := fun _ => True) (x := (Obj.sc e w).setVal v) ?_ fun _ _ _ => trivial
      exact (sane_cast e v).bind fun _ _ _ => trivial
    · cases h
  | lane x i =>
    unfold SpecType.expr at h
    split at h
    · rename_i e n hx
      have hs := (of_ite_some h).1
      have hl : litsE i = true := hl
      refine (sub hl hs).bind fun w hw _ => ?_
      obtain ⟨o, ho, ht⟩ := get_of_scope hx
      obtain ⟨r, rfl⟩ := ty_vec ht
      show Sane _ _ (ρ.get x >>= fun o => o.setLane w v >>= fun o => C.ok (ρ.set x o))
      rw [ho]
      refine Sane.bind (P := fun _ => True) (x := (Obj.vec e n r).setLane w v) ?_ fun _ _ _ => trivial
      unfold Obj.setLane
      dsimp only
      rw [if_pos (idx hl hs hw)]
      exact (sane_arrSet _ _ _).bind fun _ _ _ => trivial
    · cases h
  | lane2 x j i =>
    rw [litsE, Bool.and_eq_true] at hl
    unfold SpecType.expr at h
    split at h
    · rename_i e n k hx
      have hs := (of_ite_some h).1
      rw [Bool.and_eq_true] at hs
      refine (sub hl.1 hs.1).bind fun w hw _ => (sub hl.2 hs.2).bind fun u hu _ => ?_
      obtain ⟨o, ho, ht⟩ := get_of_scope hx
      obtain ⟨r, rfl⟩ := ty_arr ht
      show Sane _ _ (ρ.get x >>= fun o => o.setLane2 w u v >>= fun o => C.ok (ρ.set x o))
      rw [ho]
      refine Sane.bind (P := fun _ => True) (x := (Obj.arr e n k r).setLane2 w u v) ?_ fun _ _ _ => trivial
      unfold Obj.setLane2
      dsimp only
      rw [if_pos (by rw [idx hl.1 hs.1 hw, idx hl.2 hs.2 hu]; rfl)]
      exact (sane_arr2Set _ _ _ _).bind fun _ _ _ => trivial
    · cases h
  | elem x i =>
    unfold SpecType.expr at h
    split at h
    · rename_i e hx
      have hs := (of_ite_some h).1
      have hl : litsE i = true := hl
      refine (sub hl hs).bind fun w hw _ => ?_
      obtain ⟨o, ho, ht⟩ := get_of_scope hx
      obtain ⟨r, rfl⟩ := ty_ptr ht
      show Sane _ _ (ρ.get x >>= fun o => o.setElem w v >>= fun o => C.ok (ρ.set x o))
      rw [ho]
      refine Sane.bind (P := fun _ => True) (x := (Obj.ptr e r).setElem w v) ?_ fun _ _ _ => trivial
      unfold Obj.setElem
      dsimp only
      rw [if_pos (idx hl hs hw)]
      exact (sane_ptrSet _ _ _).bind fun _ _ _ => trivial
    · rename_i e n hx
      have hs := (of_ite_some h).1
      have hl : litsE i = true := hl
      refine (sub hl hs).bind fun w hw _ => ?_
      obtain ⟨o, ho, ht⟩ := get_of_scope hx
      obtain ⟨r, rfl⟩ := ty_cells ht
      show Sane _ _ (ρ.get x >>= fun o => o.setElem w v >>= fun o => C.ok (ρ.set x o))
      rw [ho]
      refine Sane.bind (P := fun _ => True) (x := (Obj.cells e n r).setElem w v) ?_ fun _ _ _ => trivial
      unfold Obj.setElem
      dsimp only
      rw [if_pos (idx hl hs hw)]
      exact (sane_arrSet _ _ _).bind fun _ _ _ => trivial
    · cases h
  | _ => cases hv

/-- The formats of the output statements. -/
def formats : Stmt → List (List Nat)
  | .fprintf m => [m]
  | .seq a b => formats a ++ formats b
  | .block s => formats s
  | .loop i _ s b => formats i ++ formats s ++ formats b
  | .ite _ a b => formats a ++ formats b
  | _ => []

/-- What an execution that is cut short has printed: a message of the function, or nothing. -/
def Says (fn : List Nat) (s : Stmt) (m : String) : Prop :=
  m = "out of fuel" ∨ m = "" ∨ ∃ f ∈ formats s, m = text (format fn f)

omit [Dialect] in
theorem Says.sub {fn : List Nat} {s s' : Stmt} (h : ∀ f ∈ formats s, f ∈ formats s') (m : String) (hm : Says fn s m) : Says fn s' m := by
  rcases hm with h1 | h1 | ⟨f, h1, h2⟩
  · exact .inl h1
  · exact .inr (.inl h1)
  · exact .inr (.inr ⟨f, h f h1, h2⟩)

/-- A message of the function, or one of the functions it calls. -/
def SaysIn (N : String → Prop) (fn : List Nat) (s : Stmt) (m : String) : Prop := Says fn s m ∨ N m

omit [Dialect] in
theorem SaysIn.sub {N : String → Prop} {fn : List Nat} {s s' : Stmt} (h : ∀ f ∈ formats s, f ∈ formats s') (m : String)
    (hm : SaysIn N fn s m) : SaysIn N fn s' m := hm.imp (Says.sub h m) id

/-- The unit in which nothing is declared. -/
def emptyUnit : TransUnit := ⟨[], [], [], []⟩

/-- Calls that obey the rules are not rejected, and leave the variables of the caller as declared.  `N`: what they print. -/
structure CallsSane (u : TransUnit) (N : String → Prop) (Γ : Calls) : Prop where
  call : ∀ f as ρ t, EnvTyped ρ → as.all litsE = true → SpecType.callee u (shape ρ) f as = some t →
    Sane N (fun r => EnvTyped r.2 ∧ shape r.2 = shape ρ ∧ (t ≠ .void → r.1.isSome)) (Γ.call f as ρ)
  construct : ∀ c x as ρ s g, EnvTyped ρ → as.all litsE = true → SpecType.namedStruct c u.structs = some s →
    SpecType.named c u.ctors = some g → SpecType.arguments (shape ρ) g.params as = true →
    g.params.all (!SpecType.isPointer ·.1) = true →
    Sane N (fun ρ' => EnvTyped ρ' ∧ shape ρ' = SpecType.object c x s ++ shape ρ) (Γ.construct c x as ρ)
  convert : ∀ e x ρ c s g, EnvTyped ρ → (shape ρ).lookup x = some (.cls c) → SpecType.namedStruct c u.structs = some s →
    SpecType.named c u.convs = some g → g.ret = .sc e →
    s.members.all (fun m => (shape ρ).lookup (member x m.1) = some m.2.1) = true → Sane N (fun _ => True) (Γ.convert e x ρ)

omit [Dialect] in
theorem noCalls_sane (N : String → Prop) : CallsSane emptyUnit N noCalls :=
  ⟨fun _ _ _ _ _ _ h => (by cases h), fun _ _ _ _ _ _ _ _ h => (by cases h), fun _ _ _ _ _ _ _ _ h => (by cases h)⟩

omit [Dialect] in
/-- A call whose value is used has one. -/
theorem valued_callee {u : TransUnit} {Δ : SpecType.Scope} {f : Nat} {as : List Expr} (h : SpecType.valued u Δ f as = true) :
    ∃ t, SpecType.callee u Δ f as = some t ∧ t ≠ .void := by
  unfold SpecType.valued at h
  split at h
  · rename_i e h'; exact ⟨_, h', fun h => by cases h⟩
  · cases h

/-- How a statement ends in a function that returns `t`: with the variables `Δ`, or with a result of type `t`. -/
def FlowIn (t : Ty) (Δ : SpecType.Scope) : Flow → Prop
  | .next ρ => EnvTyped ρ ∧ shape ρ = Δ
  | .ret o => o.ty = t ∧ Typed o

omit [Dialect] in
theorem declares_eq (s : Stmt) : SpecType.declares s = s.declares := by
  induction s <;> simp_all [SpecType.declares, Stmt.declares]

omit [Dialect] in
theorem sizeOf_eq (e : Elem) : SpecType.sizeOf e = sizeof e := by rcases e with t | _ | _ <;> rfl

omit [Dialect] in
theorem sizeOf_bits (e : Elem) : e.bits = 8 * SpecType.sizeOf e := by rcases e with t | _ | _ <;> first | rfl | (cases t <;> rfl)

omit [Dialect] in
/-- A statement that declares nothing leaves the scope as it was. -/
theorem scope_same {u : TransUnit} {t : Ty} : ∀ (s : Stmt) {Δ Δ' : SpecType.Scope}, SpecType.declares s = false → SpecType.stmt u t Δ s = some Δ' → Δ' = Δ := by
  intro s
  induction s with
  | seq a b iha ihb =>
    intro Δ Δ' hd h
    rw [SpecType.declares, Bool.or_eq_false_iff] at hd
    by_cases hab : ∃ fmt s', a = .fprintf fmt ∧ b = .seq .abort s'
    · obtain ⟨fmt, s', rfl, rfl⟩ := hab
      refine ihb hd.2 ?_
      have : SpecType.stmt u t Δ (.seq .abort s') = SpecType.stmt u t Δ s' := by
        rw [SpecType.stmt.eq_3 _ _ _ _ _ (fun _ _ h _ => by cases h)]; rfl
      rw [this]; exact h
    · rw [SpecType.stmt.eq_3 _ _ _ _ _ (fun fmt s' h1 h2 => hab ⟨fmt, s', h1, h2⟩)] at h
      obtain ⟨Δ₁, h1, h2⟩ := Option.bind_eq_some_iff.1 h
      rw [ihb hd.2 h2, iha hd.1 h1]
  | skip => intro Δ Δ' _ h; cases h; rfl
  | block s ih => intro Δ Δ' _ h; obtain ⟨_, _, h⟩ := Option.map_eq_some_iff.1 h; exact h.symm
  | decl => intro Δ Δ' hd; cases hd
  | assign => intro Δ Δ' _ h; cases (of_ite_some h).2; rfl
  | loop => intro Δ Δ' _ h; obtain ⟨_, _, h⟩ := Option.bind_eq_some_iff.1 h; cases (of_ite_some h).2; rfl
  | ite => intro Δ Δ' _ h; cases (of_ite_some h).2; rfl
  | ret e =>
    intro Δ Δ' _ h
    cases t with
    | sc => cases (of_ite_some h).2; rfl
    | vec => cases e <;> first | cases h | (cases (of_ite_some h).2; rfl)
    | arr => cases e <;> first | cases h | (cases (of_ite_some h).2; rfl)
    | _ => cases h
  | fprintf => intro Δ Δ' _ h; cases h
  | abort => intro Δ Δ' _ h; cases h; rfl
  | memcpy =>
    intro Δ Δ' _ h
    unfold SpecType.stmt at h
    split at h
    · cases (of_ite_some h).2; rfl
    · cases h
  | memcpySc =>
    intro Δ Δ' _ h
    unfold SpecType.stmt at h
    split at h
    · cases (of_ite_some h).2; rfl
    · cases h
  | call => intro Δ Δ' _ h; cases (of_ite_some h).2; rfl
  | declCall => intro Δ Δ' hd; cases hd
  | assignCall => intro Δ Δ' _ h; cases (of_ite_some h).2; rfl
  | construct => intro Δ Δ' hd; cases hd
  | retConv =>
    intro Δ Δ' _ h
    unfold SpecType.stmt at h
    split at h
    · split at h
      · cases (of_ite_some h).2; rfl
      · cases h
    · cases h

omit [Dialect] in
theorem FlowIn.leave {t : Ty} {ρ : Env} {Δ : SpecType.Scope} {r : Flow} (h : FlowIn t Δ r) (hs : FlowTyped t (shape ρ) r) :
    FlowIn t (shape ρ) (r.leave ρ.length) := by
  have := leave_typed hs
  cases r with
  | next ρ' => exact ⟨this.1.1, this.2 _ rfl⟩
  | ret o => exact h

omit [Dialect] in
theorem sane_andThen {M : String → Prop} {t : Ty} {Δ : SpecType.Scope} {P : Flow → Prop} {r : Flow} {k : Env → C Flow} (h : FlowIn t Δ r)
    (hk : ∀ ρ, EnvTyped ρ → shape ρ = Δ → Sane M P (k ρ)) (hr : ∀ o, o.ty = t ∧ Typed o → P (.ret o)) : Sane M P (r.andThen k) := by
  cases r with
  | next ρ => exact hk ρ h.1 h.2
  | ret o => exact hr o h

omit [Dialect] in
theorem iterate_sane {M : String → Prop} (hM : M "out of fuel") {t : Ty} {Δ : SpecType.Scope} {c : Env → C Val} {inc body : Env → C Flow}
    (hc : ∀ ρ, EnvTyped ρ → shape ρ = Δ → Sane M (fun _ => True) (c ρ))
    (hi : ∀ ρ, EnvTyped ρ → shape ρ = Δ → Sane M (FlowIn t Δ) (inc ρ))
    (hb : ∀ ρ, EnvTyped ρ → shape ρ = Δ → Sane M (FlowIn t Δ) (body ρ)) (n : Nat) :
    ∀ ρ, EnvTyped ρ → shape ρ = Δ → Sane M (FlowIn t Δ) (iterate c inc body n ρ) := by
  induction n with
  | zero => exact fun _ _ _ => hM
  | succ n ih =>
    intro ρ h1 h2
    refine (hc ρ h1 h2).bind fun v _ _ => ?_
    split
    · refine (hb ρ h1 h2).bind fun r _ hr => ?_
      refine sane_andThen hr (fun ρ1 h1 h2 => ?_) fun _ h => h
      refine (hi ρ1 h1 h2).bind fun r _ hr => ?_
      exact sane_andThen hr ih fun _ h => h
    · exact ⟨h1, h2⟩

omit [Dialect] in
theorem sane_full {e : Elem} {n : Nat} (r : Arr e n) : Sane Silent (fun _ => True) (full r) := by
  unfold full; sane
omit [Dialect] in
theorem sane_memcpy {e e' : Elem} {n m : Nat} (r : Arr e' m) (a : Vec e n) (b : Nat) : Sane Silent (fun _ => True) (memcpyVec r a b) := by
  unfold memcpyVec; sane

/-- A statement that obeys the rules is never rejected. -/
theorem exec_sane {u : TransUnit} {N : String → Prop} {Γ : Calls} (hΓ : CallsTyped Γ) (hS : CallsSane u N Γ) (n : Nat) (fn : List Nat)
    (t : Ty) : ∀ (s : Stmt), litsS s = true → ∀ Δ', ∀ ρ, EnvTyped ρ →
    SpecType.stmt u t (shape ρ) s = some Δ' → Sane (SaysIn N fn s) (FlowIn t Δ') (exec Γ n fn t s ρ) := by
  have nt : ∀ s, litsS s = true → ∀ ρ r, EnvTyped ρ → exec Γ n fn t s ρ = .ok r → FlowTyped t (shape ρ) r :=
    fun s hs => statement_types hΓ n fn t s hs
  intro s
  induction s with
  | skip => intro hl Δ' ρ hρ h; cases h; exact ⟨hρ, rfl⟩
  | seq a b iha ihb =>
    intro hl Δ' ρ hρ h
    rw [litsS, Bool.and_eq_true] at hl
    by_cases hab : ∃ fmt s', a = .fprintf fmt ∧ b = .seq .abort s'
    · obtain ⟨fmt, s', rfl, rfl⟩ := hab
      exact .inl (.inr (.inr ⟨fmt, List.mem_append_left _ (List.mem_singleton.2 rfl), rfl⟩))
    · rw [SpecType.stmt.eq_3 _ _ _ _ _ (fun fmt s' h1 h2 => hab ⟨fmt, s', h1, h2⟩)] at h
      rw [exec.eq_3 _ _ _ _ _ _ _ (fun fmt s' h1 h2 => hab ⟨fmt, s', h1, h2⟩)]
      obtain ⟨Δ₁, h1, h2⟩ := Option.bind_eq_some_iff.1 h
      refine ((iha hl.1 _ ρ hρ h1).mono (SaysIn.sub fun f hf => List.mem_append_left _ hf) fun _ _ h => h).bind fun r _ hr => ?_
      refine sane_andThen hr (fun ρ1 hρ1 hs1 => ?_) fun _ h => h
      exact (ihb hl.2 _ ρ1 hρ1 (hs1 ▸ h2)).mono (SaysIn.sub fun f hf => List.mem_append_right _ hf) fun _ _ h => h
  | block s ih =>
    intro hl Δ' ρ hρ h
    obtain ⟨Δ₁, h1, h2⟩ := Option.map_eq_some_iff.1 h
    subst h2
    exact (ih hl _ ρ hρ h1).bind fun r h hr => hr.leave (nt s hl ρ r hρ h)
  | decl t' x e =>
    intro hl Δ' ρ hρ h
    cases e with
    | none => cases t' <;> cases h <;> exact ⟨cons_typed hρ x trivial, rfl⟩
    | some e =>
      cases t' <;> try cases h
      rename_i e'
      obtain ⟨h1, h⟩ := of_ite_some h
      cases h
      refine (eval_sane hρ e hl h1).mono (fun _ h => h.elim) (fun _ h _ => h) |>.bind fun v _ hv => ?_
      show Sane _ _ ((Obj.sc e' none).setVal v >>= fun o => C.ok (Flow.next ((x, o) :: ρ)))
      refine Silent.mono (x := (Obj.sc e' none).setVal v) (P := fun o => (Obj.sc e' none).setVal v = .ok o) ?_ |>.bind fun o _ ho => ?_
      · exact (sane_cast e' v).bind fun w hw _ => by
          show (Val.cast e' v >>= fun v => C.ok (Obj.sc e' (some v))) = _
          rw [hw]; rfl
      · have := setVal_typed (expression_types ρ hρ e hl v hv).1 ho
        exact ⟨cons_typed hρ x this.2, by show (x, o.ty) :: shape ρ = _; rw [this.1]; rfl⟩
  | assign l e =>
    intro hl Δ' ρ hρ h
    rw [litsS, Bool.and_eq_true] at hl
    obtain ⟨h1, h⟩ := of_ite_some h
    cases h
    rw [Bool.and_eq_true, Bool.and_eq_true] at h1
    refine Silent.mono (eval_sane hρ e hl.2 h1.2) |>.bind fun v hv _ => ?_
    refine Silent.mono (store_sane hρ hl.1 h1.1.1 h1.1.2 v) |>.bind fun ρ' hρ' _ => ?_
    exact store_typed hρ (expression_types ρ hρ e hl.2 v hv).1 hρ'
  | loop i c s b ihi ihs ihb =>
    intro hl Δ' ρ hρ h
    simp only [litsS, Bool.and_eq_true] at hl
    obtain ⟨Δ₁, h1, h⟩ := Option.bind_eq_some_iff.1 h
    obtain ⟨h2, h⟩ := of_ite_some h
    cases h
    simp only [Bool.and_eq_true, Bool.not_eq_true'] at h2
    obtain ⟨⟨⟨⟨hs, hb⟩, hc⟩, h3⟩, h4⟩ := h2
    obtain ⟨Δ₂, h3⟩ := Option.isSome_iff_exists.1 h3
    obtain ⟨Δ₃, h4⟩ := Option.isSome_iff_exists.1 h4
    cases scope_same s hs h3
    cases scope_same b hb h4
    rw [declares_eq] at hs hb
    unfold exec
    rw [hs, hb]
    refine ((ihi hl.1.1.1 _ ρ hρ h1).mono
      (SaysIn.sub fun f hf => List.mem_append_left _ (List.mem_append_left _ hf)) fun _ _ h => h).bind fun r hr0 hr => ?_
    refine Sane.bind (P := FlowIn t Δ₁) ?_ fun r2 h2 hr2 => hr2.leave ((nt i hl.1.1.1 ρ r hρ hr0).andThen
      (fun ρ1 r3 hρ1 hs1 h => iterate_typed _ (nt s hl.1.2) (nt b hl.2) n ρ1 r3 hρ1 hs1 h) h2)
    refine sane_andThen hr (fun ρ1 hρ1 hs1 => ?_) fun o h => h
    refine iterate_sane (.inl (.inl rfl)) (fun ρ hρ hs => ?_) (fun ρ hρ hs => ?_) (fun ρ hρ hs => ?_) n ρ1 hρ1 hs1
    · exact Silent.mono (eval_sane hρ c hl.1.1.2 (hs ▸ hc))
    · exact (ihs hl.1.2 _ ρ hρ (hs ▸ h3)).mono (SaysIn.sub fun f hf => List.mem_append_left _ (List.mem_append_right _ hf)) fun _ _ h => h
    · exact (ihb hl.2 _ ρ hρ (hs ▸ h4)).mono (SaysIn.sub fun f hf => List.mem_append_right _ hf) fun _ _ h => h
  | ite c a b iha ihb =>
    intro hl Δ' ρ hρ h
    simp only [litsS, Bool.and_eq_true] at hl
    obtain ⟨h1, h⟩ := of_ite_some h
    cases h
    simp only [Bool.and_eq_true, Bool.not_eq_true'] at h1
    obtain ⟨⟨⟨⟨hs, hb⟩, hc⟩, h3⟩, h4⟩ := h1
    obtain ⟨Δ₂, h3⟩ := Option.isSome_iff_exists.1 h3
    obtain ⟨Δ₃, h4⟩ := Option.isSome_iff_exists.1 h4
    cases scope_same a hs h3
    cases scope_same b hb h4
    rw [declares_eq] at hs hb
    unfold exec
    rw [hs, hb]
    refine (Silent.mono (eval_sane hρ c hl.1.1 hc)).bind fun v _ _ => ?_
    split
    · exact (iha hl.1.2 _ ρ hρ h3).mono (SaysIn.sub fun f hf => List.mem_append_left _ hf) fun _ _ h => h
    · exact (ihb hl.2 _ ρ hρ h4).mono (SaysIn.sub fun f hf => List.mem_append_right _ hf) fun _ _ h => h
  | ret e =>
    intro hl Δ' ρ hρ h
    have hvar : ∀ t x, (if (shape ρ).lookup x = some t then some (shape ρ) else none) = some Δ' →
        Sane (SaysIn N fn (.ret e)) (FlowIn t Δ') (ρ.get x >>= fun o => if o.ty = t then C.ok (Flow.ret o) else illFormed) := by
      intro t x h
      obtain ⟨o, ho, ht⟩ := get_of_scope (of_ite_some h).1
      rw [ho]
      show Sane _ _ (if o.ty = t then C.ok (Flow.ret o) else illFormed)
      rw [if_pos ht]
      exact ⟨ht, typed_get hρ ho⟩
    cases t with
    | sc t =>
      obtain ⟨h1, h⟩ := of_ite_some h
      refine (Silent.mono (eval_sane hρ e hl h1)).bind fun v _ _ => ?_
      exact (Silent.mono (sane_toBits t v)).bind fun b _ _ => ⟨rfl, yields_ofBits _ _⟩
    | vec e' n' => cases e <;> first | exact hvar _ _ h | cases h
    | arr e' n' k' => cases e <;> first | exact hvar _ _ h | cases h
    | _ => cases h
  | fprintf f => intro hl Δ' ρ hρ h; cases h
  | abort => intro hl Δ' ρ hρ h; exact .inl (.inr (.inl rfl))
  | memcpy d s e k =>
    intro hl Δ' ρ hρ h
    unfold SpecType.stmt at h
    split at h
    · rename_i e' n' e'' n'' h1 h2
      obtain ⟨h3, h⟩ := of_ite_some h
      cases h
      obtain ⟨od, ho1, ht1⟩ := get_of_scope h1
      obtain ⟨os, ho2, ht2⟩ := get_of_scope h2
      obtain ⟨r, rfl⟩ := ty_vec ht1
      obtain ⟨a, rfl⟩ := ty_vec ht2
      unfold exec
      rw [ho1, ho2]
      show Sane _ _ (copy (.vec e' n' r) (.vec e'' n'' a) (sizeof e * k) >>= fun o => C.ok (Flow.next (ρ.set d o)))
      unfold copy
      dsimp only
      rw [← sizeOf_eq, ← sizeOf_eq, if_pos h3]
      refine Sane.bind (P := fun o => o.ty = .vec e' n' ∧ Typed o) ?_ fun o _ h =>
        ⟨set_typed hρ d h.2, set_shape ho1 h.1⟩
      exact Silent.mono ((sane_full a).bind fun a _ _ => (sane_memcpy r a _).bind fun r _ _ => ⟨rfl, trivial⟩)
    · cases h
  | memcpySc d s e =>
    intro hl Δ' ρ hρ h
    unfold SpecType.stmt at h
    split at h
    · rename_i e' e'' h1 h2
      obtain ⟨h3, h⟩ := of_ite_some h
      cases h
      obtain ⟨od, ho1, ht1⟩ := get_of_scope h1
      obtain ⟨os, ho2, ht2⟩ := get_of_scope h2
      obtain ⟨r, rfl⟩ := ty_sc ht1
      obtain ⟨a, rfl⟩ := ty_sc ht2
      unfold exec
      rw [ho1, ho2]
      show Sane _ _ (copySc (.sc e' r) (.sc e'' a) (sizeof e) >>= fun o => C.ok (Flow.next (ρ.set d o)))
      unfold copySc
      dsimp only
      rw [← sizeOf_eq, if_pos (by rw [sizeOf_bits, sizeOf_bits, h3.1, h3.2]; exact ⟨rfl, rfl⟩)]
      refine Sane.bind (P := fun o => o.ty = .sc e' ∧ Typed o) ?_ fun o _ h =>
        ⟨set_typed hρ d h.2, set_shape ho1 h.1⟩
      cases a with
      | none => exact sane_ub (by decide)
      | some v => exact Silent.mono ((sane_toBits e'' v).bind fun b _ _ => ⟨rfl, yields_ofBits _ _⟩)
    · cases h
  | call f as =>
    intro hl Δ' ρ hρ h
    obtain ⟨h1, h⟩ := of_ite_some h
    cases h
    obtain ⟨t', h1⟩ := Option.isSome_iff_exists.1 h1
    exact ((hS.call f as ρ t' hρ hl h1).mono (fun _ h => .inr h) fun _ _ h => h).bind fun r _ hr => ⟨hr.1, hr.2.1⟩
  | declCall t' x f as =>
    intro hl Δ' ρ hρ h
    cases t' <;> try cases h
    rename_i e'
    obtain ⟨h1, h⟩ := of_ite_some h
    cases h
    obtain ⟨t', h1, h2⟩ := valued_callee h1
    refine ((hS.call f as ρ t' hρ hl h1).mono (fun _ h => .inr h) fun _ _ h => h).bind fun r hc hr => ?_
    obtain ⟨v, ρ'⟩ := r
    obtain ⟨v, rfl⟩ := Option.isSome_iff_exists.1 (hr.2.2 h2)
    have hv := (hΓ.call f as ρ _ ρ' hρ hl hc).2.2 v rfl
    show Sane _ _ ((Obj.sc e' none).setVal v >>= fun o => C.ok (Flow.next ((x, o) :: ρ')))
    refine Silent.mono (x := (Obj.sc e' none).setVal v) (P := fun o => (Obj.sc e' none).setVal v = .ok o) ?_ |>.bind fun o _ ho => ?_
    · exact (sane_cast e' v).bind fun w hw _ => by
        show (Val.cast e' v >>= fun v => C.ok (Obj.sc e' (some v))) = _
        rw [hw]; rfl
    · have := setVal_typed hv ho
      exact ⟨cons_typed hr.1 x this.2, by show (x, o.ty) :: shape ρ' = _; rw [this.1, hr.2.1]; rfl⟩
  | assignCall l f as =>
    intro hl Δ' ρ hρ h
    rw [litsS, Bool.and_eq_true] at hl
    obtain ⟨h1, h⟩ := of_ite_some h
    cases h
    rw [Bool.and_eq_true, Bool.and_eq_true] at h1
    obtain ⟨t', h2, h3⟩ := valued_callee h1.1.1
    refine ((hS.call f as ρ t' hρ hl.2 h2).mono (fun _ h => .inr h) fun _ _ h => h).bind fun r hc hr => ?_
    obtain ⟨v, ρ'⟩ := r
    obtain ⟨v, rfl⟩ := Option.isSome_iff_exists.1 (hr.2.2 h3)
    have hv := (hΓ.call f as ρ _ ρ' hρ hl.2 hc).2.2 v rfl
    have hs : shape ρ' = shape ρ := hr.2.1
    show Sane _ _ (store ρ' l v >>= fun ρ => C.ok (Flow.next ρ))
    refine Silent.mono (store_sane hr.1 hl.1 h1.1.2 (hs ▸ h1.2) v) |>.bind fun ρ'' hρ' _ => ?_
    have := store_typed hr.1 hv hρ'
    exact ⟨this.1, this.2.trans hs⟩
  | construct c x as =>
    intro hl Δ' ρ hρ h
    unfold SpecType.stmt at h
    split at h
    · rename_i s g h1 h2
      obtain ⟨h3, h⟩ := of_ite_some h
      cases h
      rw [Bool.and_eq_true] at h3
      exact ((hS.construct c x as ρ s g hρ hl h1 h2 h3.1 h3.2).mono (fun _ h => .inr h) fun _ _ h => h).bind fun r _ hr => hr
    · cases h
  | retConv e x =>
    intro hl Δ' ρ hρ h
    unfold SpecType.stmt at h
    split at h
    · rename_i t' c h0
      split at h
      · rename_i s g h1 h2
        obtain ⟨h3, h⟩ := of_ite_some h
        cases h
        rw [Bool.and_eq_true, decide_eq_true_eq] at h3
        refine ((hS.convert e x ρ c s g hρ h0 h1 h2 h3.1 h3.2).mono (fun _ h => .inr h) fun _ _ h => h).bind fun v _ _ => ?_
        exact (Silent.mono (sane_toBits t' v)).bind fun b _ _ => ⟨rfl, yields_ofBits _ _⟩
      · cases h
    · cases h

/-! ## Functions -/

omit [Dialect] in
theorem andThen_ret {r : Flow} {k : Env → C Flow} {ρ : Env} (h : r.andThen k = .ok (.next ρ)) : ∃ ρ', r = .next ρ' ∧ k ρ' = .ok (.next ρ) := by
  cases r with
  | next ρ' => exact ⟨ρ', rfl, h⟩
  | ret o => cases h

/-- A statement with a `return` or an `abort` on every path does not end normally. -/
theorem returns_sound (Γ : Calls) (n : Nat) (fn : List Nat) (t : Ty) : ∀ (s : Stmt), SpecType.returns s = true →
    ∀ ρ ρ', exec Γ n fn t s ρ ≠ .ok (.next ρ') := by
  intro s
  induction s with
  | seq a b iha ihb =>
    intro hr ρ ρ' h
    rw [SpecType.returns, Bool.or_eq_true] at hr
    by_cases hab : ∃ fmt s', a = .fprintf fmt ∧ b = .seq .abort s'
    · obtain ⟨fmt, s', rfl, rfl⟩ := hab
      cases h
    · rw [exec.eq_3 _ _ _ _ _ _ _ (fun fmt s' h1 h2 => hab ⟨fmt, s', h1, h2⟩)] at h
      obtain ⟨r, h1, h2⟩ := ok_of_bind h
      obtain ⟨ρ1, rfl, h3⟩ := andThen_ret h2
      rcases hr with hr | hr
      · exact iha hr _ _ h1
      · exact ihb hr _ _ h3
  | block s ih =>
    intro hr ρ ρ' h
    obtain ⟨r, h1, h2⟩ := ok_of_bind h
    cases r with
    | next ρ1 => exact ih hr _ _ h1
    | ret o => cases h2
  | ite c a b iha ihb =>
    intro hr ρ ρ' h
    rw [SpecType.returns, Bool.and_eq_true] at hr
    obtain ⟨v, _, h⟩ := ok_of_bind (of_ite_not h).2
    split at h
    · exact iha hr.1 _ _ h
    · exact ihb hr.2 _ _ h
  | ret e =>
    intro _ ρ ρ' h
    cases t with
    | sc t =>
      obtain ⟨v, _, h⟩ := ok_of_bind h
      obtain ⟨b, _, h⟩ := ok_of_bind h
      cases h
    | vec e' n' =>
      cases e <;> try cases h
      obtain ⟨o, _, h⟩ := ok_of_bind h
      cases (of_ite h).2
    | arr e' n' k' =>
      cases e <;> try cases h
      obtain ⟨o, _, h⟩ := ok_of_bind h
      cases (of_ite h).2
    | _ => cases h
  | abort => intro _ ρ ρ' h; cases h
  | retConv e x =>
    intro _ ρ ρ' h
    cases t with
    | sc t =>
      obtain ⟨v, _, h⟩ := ok_of_bind h
      obtain ⟨b, _, h⟩ := ok_of_bind h
      cases h
    | _ => cases h
  | _ => intro hr; cases hr

/-- The outcome is not one by which the model rejects a program; a register with lanes that were never written may be returned. -/
def Safe (M : String → Prop) (P : Obj → Prop) : C Obj → Prop
  | .ok o => P o
  | .ub u => u ≠ .illTyped
  | .abort m => M m
  | .indet _ => True

omit [Dialect] in
theorem bindArgs_ok : ∀ (ps : List (Ty × Nat)) (args : List Obj) (acc : Env), args.map Obj.ty = ps.map Prod.fst →
    ∃ ρ, bindArgs ps args acc = .ok ρ ∧ shape ρ = (ps.map fun p => (p.2, p.1)).reverse ++ shape acc := by
  intro ps
  induction ps with
  | nil => intro args acc h; cases args <;> [exact ⟨acc, rfl, rfl⟩; cases h]
  | cons p ps ih =>
    intro args acc h
    cases args with
    | nil => cases h
    | cons o os =>
      injection h with h1 h2
      obtain ⟨ρ, h3, h4⟩ := ih os ((p.2, o) :: acc) h2
      refine ⟨ρ, ?_, ?_⟩
      · unfold bindArgs; rw [if_pos h1]; exact h3
      · rw [h4]
        show _ ++ (p.2, o.ty) :: shape acc = _
        rw [h1, List.map_cons, List.reverse_cons, List.append_assoc]; rfl

omit [Dialect] in
theorem memory_ok {ρ : Env} {t : Ty} {x : Nat} : ∀ (ps : List (Ty × Nat)), SpecType.firstPointer ps = some (t, x) →
    memory ps ρ = ρ.get x := by
  intro ps
  induction ps with
  | nil => intro h; cases h
  | cons p ps ih =>
    intro h
    obtain ⟨t', y⟩ := p
    unfold SpecType.firstPointer at h
    cases t' with
    | ptr e => cases h; rfl
    | _ => exact ih h

/-- A function that obeys the static rules is never rejected: called with arguments of the types of its parameters it returns an object
of its result type (or leaves memory), prints one of its messages and aborts, or its behaviour is undefined for another reason. -/
theorem function_safe {g : Func} (hl : litsF g = true) (hg : SpecType.func g = true) (n : Nat) {args : List Obj}
    (ht : args.map Obj.ty = g.params.map Prod.fst) (ha : ∀ o ∈ args, Typed o) :
    Safe (Says (chars 64 g.name).reverse g.body) (fun o => g.ret ≠ .void → o.ty = g.ret) (run n g args) := by
  obtain ⟨ρ, h1, h2⟩ := bindArgs_ok g.params args [] ht
  have hρ := bindArgs_typed g.params args ha (acc := []) (fun p hp => absurd hp List.not_mem_nil) h1
  rw [show shape [] = [] from rfl, List.append_nil] at h2
  unfold SpecType.func at hg
  rw [← h2] at hg
  split at hg
  · rename_i Δ hs
    have he := exec_sane noCalls_typed (noCalls_sane fun _ => False) n (chars 64 g.name).reverse g.ret g.body hl Δ ρ hρ hs
    unfold run
    rw [h1]
    show Safe _ _ (exec noCalls n (chars 64 g.name).reverse g.ret g.body ρ >>= fun r => r.finish g.ret g.params)
    cases hr : exec noCalls n (chars 64 g.name).reverse g.ret g.body ρ with
    | ok r =>
      rw [hr] at he
      show Safe _ _ (r.finish g.ret g.params)
      cases r with
      | next ρ' =>
        show Safe _ _ (if g.ret = .void then memory g.params ρ' else illFormed)
        split at hg
        · rename_i hv
          rw [if_pos hv]
          split at hg
          · rename_i t x hx
            obtain ⟨o, ho, -⟩ := get_of_scope (ρ := ρ') (x := x) (t := t) (by rw [he.2]; exact of_decide_eq_true hg)
            rw [memory_ok _ hx, ho]
            exact fun h => absurd hv h
          · cases hg
        · exact absurd hr (returns_sound _ _ _ _ _ hg _ _)
      | ret o =>
        show Safe _ _ (result o)
        cases o with
        | vec e m r =>
          show Safe _ _ (r.ret >>= fun v => C.ok (Obj.vec e m (Arr.ofVec v)))
          unfold Arr.ret
          split
          · exact fun _ => he.1
          · trivial
        | arr e m k r =>
          show Safe _ _ (r.ret >>= fun v => C.ok (Obj.arr e m k (ofRegs v)))
          unfold Arr2.ret
          split
          · exact fun _ => he.1
          · trivial
        | _ => exact fun _ => he.1
    | abort m => rw [hr] at he; exact he.elim id False.elim
    | ub u => rw [hr] at he; exact he
    | indet l => trivial
  · cases hg

end

end Verif.Props
