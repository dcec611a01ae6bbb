import Verif.Props.Interp
import Verif.Props.CppRules

/-! Property C94, continued: type soundness of the execution of the source text. -/

namespace Verif.Props
open Verif.Cpp Verif.SpecCpp

/-! ## Values -/

/-- A value that its type can hold. -/
def InRange : Val → Prop
  | .int t v => IsValue t v
  | _ => True

theorem inRange_int {t : ITy} {v : Int} (h1 : t.lo ≤ v) (h2 : v ≤ t.hi) : InRange (.int t v) := (isValue_iff t v).2 ⟨h1, h2⟩

/-- `Yields e x`: if `x` has a value, the value is one of type `e`. -/
def Yields (e : Elem) (x : C Val) : Prop := ∀ v, x = .ok v → tyVal v = e ∧ InRange v

theorem yields_ofBits (e : Elem) (b : BitVec e.bits) : tyVal (.ofBits e b) = e ∧ InRange (.ofBits e b) := by
  cases e with
  | int t => exact ⟨rfl, isValue_intOfBits t b⟩
  | f32 => exact ⟨rfl, trivial⟩
  | f64 => exact ⟨rfl, trivial⟩

theorem yields_mkInt [Dialect] (t : ITy) (z : Int) : Yields (.int t) (mkInt t z) := by
  intro v hv
  unfold mkInt at hv
  split at hv
  · cases hv; exact ⟨rfl, (isValue_iff _ _).2 (by assumption)⟩
  · split at hv
    · cases hv
    · cases hv; exact ⟨rfl, (converts_wrap t z).1⟩

theorem conv_inRange (s t : ITy) (v : Int) (h : IsValue s v) : IsValue t (s.conv t v) :=
  ((conversion_rule s t v _ h).2 rfl).1

theorem yields_cast (e : Elem) (v : Val) (h : InRange v) : Yields e (Val.cast e v) := by
  intro w hw
  have ht : ∀ (t : ITy) (o : Option Int), (truncTo t o >>= fun v => C.ok (Val.int t v)) = .ok w → tyVal w = .int t ∧ InRange w := by
    intro t o ho
    cases o with
    | none => cases ho
    | some z =>
      by_cases hz : t.lo ≤ z ∧ z ≤ t.hi
      · have e1 : truncTo t (some z) = .ok z := if_pos hz
        rw [e1] at ho
        cases ho
        exact ⟨rfl, (isValue_iff _ _).2 hz⟩
      · have e1 : truncTo t (some z) = .ub .floatToInt := if_neg hz
        rw [e1] at ho
        cases ho
  cases e with
  | int t =>
    cases v with
    | int s v => cases hw; exact ⟨rfl, conv_inRange s t v h⟩
    | f32 b => exact ht t _ hw
    | f64 b => exact ht t _ hw
  | f32 => cases v <;> (cases hw; exact ⟨rfl, trivial⟩)
  | f64 => cases v <;> (cases hw; exact ⟨rfl, trivial⟩)

theorem yields_arith (iop : ITy → Int → Int → C Val) (fop) (h : ∀ t x y, Yields (.int t) (iop t x y)) (x y : Val) :
    Yields (common (tyVal x) (tyVal y)) (Val.arith iop fop x y) := by
  intro v hv
  cases x <;> cases y <;> first | exact h _ _ _ v hv | (cases hv; exact ⟨rfl, trivial⟩)

theorem yields_mkQuot (t : ITy) (q z : Int) (hz : t.lo ≤ q ∧ q ≤ t.hi → IsValue t z) : Yields (.int t) (mkQuot t q z) := by
  intro v hv
  unfold mkQuot at hv
  split at hv
  · cases hv; exact ⟨rfl, hz (by assumption)⟩
  · cases hv

theorem uac_self (t : ITy) : t.uac t = t.promote := by cases t <;> rfl
theorem promote_range (t : ITy) : t.promote.lo ≤ t.lo ∧ t.hi ≤ t.promote.hi := by cases t <;> decide
theorem zero_inRange (t : ITy) : t.lo ≤ 0 ∧ 0 ≤ t.hi := by cases t <;> decide

theorem mod_inRange (t : ITy) (x y : Int) (hx : IsValue t x) : IsValue t (x.tmod y) := by
  rw [isValue_iff] at *
  have hz := zero_inRange t
  rcases Int.le_total 0 x with h | h
  · have h1 := Int.tmod_nonneg y h
    have h2 : (x.tmod y).natAbs ≤ x.natAbs := by rw [Int.natAbs_tmod]; exact Nat.mod_le _ _
    omega
  · have h1 := Int.tmod_nonneg y (a := -x) (by omega)
    rw [Int.neg_tmod] at h1
    have h2 : (x.tmod y).natAbs ≤ x.natAbs := by rw [Int.natAbs_tmod]; exact Nat.mod_le _ _
    omega

theorem shr_inRange (t : ITy) (x : Int) (n : Nat) (hx : IsValue t x) : IsValue t.promote (x / 2 ^ n) := by
  rw [isValue_iff] at *
  have hz := zero_inRange t
  have hp := promote_range t
  have hpos : (0 : Int) < 2 ^ n := Int.pow_pos (by omega)
  have h1 := Int.ediv_mul_le x (b := 2 ^ n) (by omega)
  rcases Int.le_total 0 x with h | h
  · have a1 : 0 ≤ x / 2 ^ n := Int.ediv_nonneg h (by omega)
    have a2 : x / 2 ^ n ≤ x := Int.ediv_le_self _ h
    omega
  · have a1 : x / 2 ^ n ≤ 0 := Int.ediv_nonpos_of_nonpos_of_neg h (by omega)
    have a2 : x ≤ x / 2 ^ n := by
      rw [Int.le_ediv_iff_mul_le hpos]
      have := Int.mul_nonneg (a := -x) (b := 2 ^ n - 1) (by omega) (by omega)
      rw [Int.mul_sub, Int.neg_mul] at this
      omega
    omega

/-- The value of an operator has the type that the operand types determine. -/
theorem yields_binary [Dialect] (o : BinOp) (x y : Val) (hx : InRange x) (hy : InRange y) (v : Val)
    (hv : binary o x y = .ok v) :
    InRange v ∧ (match o with
      | .add | .sub | .mul | .div | .mod | .and | .or | .xor => tyVal v = common (tyVal x) (tyVal y)
      | .shl | .shr => tyVal v = common (tyVal x) (tyVal x)
      | _ => tyVal v = .s32) := by
  have hb : ∀ b, InRange (ofBool b) := by
    intro b; cases b <;> exact inRange_int (by decide) (by decide)
  have hbit : ∀ op, Val.bitop op x y = .ok v → InRange v ∧ tyVal v = common (tyVal x) (tyVal y) := by
    intro op h
    cases x <;> cases y <;> cases h
    exact ⟨isValue_intOfBits _ _, rfl⟩
  cases o with
  | add => exact (yields_arith (fun t x y => mkInt t (x + y)) Fmt.add (fun t x y => yields_mkInt t _) x y v hv).symm
  | sub => exact (yields_arith (fun t x y => mkInt t (x - y)) Fmt.sub (fun t x y => yields_mkInt t _) x y v hv).symm
  | mul => exact (yields_arith (fun t x y => mkInt t (x * y)) Fmt.mul (fun t x y => yields_mkInt t _) x y v hv).symm
  | div =>
    refine (yields_arith (fun t x y => if y = 0 then .ub .divByZero else mkQuot t (Int.tdiv x y) (Int.tdiv x y)) Fmt.div
      (fun t x y => ?_) x y v hv).symm
    intro w hw
    split at hw
    · cases hw
    · exact yields_mkQuot _ _ _ (isValue_iff _ _).2 w hw
  | mod =>
    cases x <;> cases y <;> try cases hv
    rename_i s x t y
    replace hv : (if t.conv (s.uac t) y = 0 then C.ub .divByZero
      else mkQuot (s.uac t) ((s.conv (s.uac t) x).tdiv (t.conv (s.uac t) y)) ((s.conv (s.uac t) x).tmod (t.conv (s.uac t) y))) = .ok v := hv
    split at hv
    · cases hv
    · exact (yields_mkQuot _ _ _ (fun _ => mod_inRange _ _ _ (conv_inRange s _ x hx)) v hv).symm
  | shl =>
    cases x <;> cases y <;> try cases hv
    rename_i s x t y
    unfold binary Val.shl at hv
    simp only at hv
    split at hv
    · split at hv
      · cases hv
      · cases hv
        exact ⟨(converts_wrap _ _).1, by simp only [tyVal, common, uac_self]⟩
    · cases hv
  | shr =>
    cases x <;> cases y <;> try cases hv
    rename_i s x t y
    unfold binary Val.shr at hv
    simp only at hv
    split at hv
    · cases hv
      exact ⟨shr_inRange s x _ hx, by simp only [tyVal, common, uac_self]⟩
    · cases hv
  | and => exact hbit (fun _ a b => a &&& b) hv
  | or => exact hbit (fun _ a b => a ||| b) hv
  | xor => exact hbit (fun _ a b => a ^^^ b) hv
  | lt => cases hv; exact ⟨hb _, rfl⟩
  | gt => cases hv; exact ⟨hb _, rfl⟩
  | le => cases hv; exact ⟨hb _, rfl⟩
  | ge => cases hv; exact ⟨hb _, rfl⟩
  | eq => cases hv; exact ⟨hb _, rfl⟩
  | land => cases hv
  | lor => cases hv

/-! ## Expressions -/

/-- The values in an object are of its type. -/
def Typed : Obj → Prop
  | .sc e (some v) => tyVal v = e ∧ InRange v
  | _ => True

/-- Every variable holds values of its type. -/
def EnvTyped (ρ : Env) : Prop := ∀ p ∈ ρ, Typed p.2

/-- The integer literals of an expression are values of their types. -/
def litsE : Expr → Bool
  | .num t n => decide (t.lo ≤ n ∧ n ≤ t.hi)
  | .dbl _ => true
  | .var _ => true
  | .lane _ i => litsE i
  | .lane2 _ j i => litsE j && litsE i
  | .elem _ i => litsE i
  | .bin _ a b => litsE a && litsE b
  | .compl a => litsE a
  | .not a => litsE a
  | .cast _ a => litsE a
  | .stdMin _ a b => litsE a && litsE b
  | .stdMax _ a b => litsE a && litsE b
  | .ite c a b => litsE c && litsE a && litsE b

theorem ok_of_bind {α β : Type} {x : C α} {f : α → C β} {b : β} (h : (x >>= f) = .ok b) : ∃ a, x = .ok a ∧ f a = .ok b := by
  cases x with
  | ok a => exact ⟨a, rfl, h⟩
  | _ => cases h

theorem of_ite {α : Type} {c : Prop} [Decidable c] {x : C α} {b : α} (h : (if c then x else illFormed) = .ok b) : c ∧ x = .ok b := by
  split at h
  · exact ⟨‹_›, h⟩
  · cases h

theorem of_ite_not {α : Type} {c : Prop} [Decidable c] {x : C α} {b : α} (h : (if c then illFormed else x) = .ok b) : ¬c ∧ x = .ok b := by
  split at h
  · cases h
  · exact ⟨‹_›, h⟩

theorem typed_get {ρ : Env} (hρ : EnvTyped ρ) {x : Nat} {o : Obj} (h : ρ.get x = .ok o) : Typed o := by
  induction ρ with
  | nil => cases h
  | cons p ρ ih =>
    obtain ⟨y, q⟩ := p
    unfold Env.get at h
    split at h
    · cases h; exact hρ _ (List.mem_cons_self ..)
    · exact ih (fun p hp => hρ p (List.mem_cons_of_mem _ hp)) h

theorem arr_get_typed {e : Elem} {n : Nat} (r : Arr e n) (i : Int) : Yields e (r.get i) := by
  intro v hv
  unfold Arr.get at hv
  split at hv
  · split at hv
    · cases hv; exact yields_ofBits _ _
    · cases hv
  · cases hv

theorem ptr_get_typed {e : Elem} (p : Ptr e) (i : Int) : Yields e (p.get i) := by
  intro v hv
  unfold Ptr.get at hv
  split at hv
  · split at hv
    · cases hv; exact yields_ofBits _ _
    · cases hv
    · cases hv
  · cases hv

theorem stdMin_typed (e : Elem) (x y : Val) (hx : InRange x) (hy : InRange y) : Yields e (Val.stdMin e x y) := by
  intro v hv
  obtain ⟨x', hx', hv⟩ := ok_of_bind hv
  obtain ⟨y', hy', hv⟩ := ok_of_bind hv
  split at hv <;> cases hv
  · exact yields_cast e y hy _ hy'
  · exact yields_cast e x hx _ hx'

theorem stdMax_typed (e : Elem) (x y : Val) (hx : InRange x) (hy : InRange y) : Yields e (Val.stdMax e x y) := by
  intro v hv
  obtain ⟨x', hx', hv⟩ := ok_of_bind hv
  obtain ⟨y', hy', hv⟩ := ok_of_bind hv
  split at hv <;> cases hv
  · exact yields_cast e y hy _ hy'
  · exact yields_cast e x hx _ hx'

theorem ofBool_inRange (b : Bool) : InRange (ofBool b) := by
  cases b <;> exact inRange_int (by decide) (by decide)

/-- Soundness of the types of expressions: a value that an expression evaluates to is one that its type can hold, and
its type is the static one. -/
theorem expression_types [Dialect] (ρ : Env) (hρ : EnvTyped ρ) (e : Expr) (he : litsE e = true) (v : Val)
    (hv : eval ρ e = .ok v) : InRange v ∧ ∀ τ, typ ρ e = some τ → tyVal v = τ := by
  induction e generalizing v with
  | num t n => cases hv; exact ⟨(isValue_iff _ _).2 (of_decide_eq_true he), fun τ h => by cases h; rfl⟩
  | dbl n => cases hv; exact ⟨trivial, fun τ h => by cases h; rfl⟩
  | var x =>
    obtain ⟨o, ho, hv⟩ := ok_of_bind hv
    have ht := typed_get hρ ho
    cases o <;> try cases hv
    rename_i e w
    cases w with
    | none => cases hv
    | some w =>
      cases hv
      refine ⟨ht.2, fun τ h => ?_⟩
      unfold typ at h
      rw [ho] at h
      cases h
      exact ht.1
  | lane x i ih =>
    obtain ⟨i', hi, hv⟩ := ok_of_bind hv
    obtain ⟨o, ho, hv⟩ := ok_of_bind hv
    cases o <;> try cases hv
    rename_i e n r
    have := arr_get_typed r _ v (of_ite hv).2
    refine ⟨this.2, fun τ h => ?_⟩
    unfold typ at h
    rw [ho] at h
    cases h
    exact this.1
  | lane2 x j i ihj ihi =>
    obtain ⟨j', hj, hv⟩ := ok_of_bind hv
    obtain ⟨i', hi, hv⟩ := ok_of_bind hv
    obtain ⟨o, ho, hv⟩ := ok_of_bind hv
    cases o <;> try cases hv
    rename_i e n k r
    replace hv : arr2Get r j'.idx i'.idx = .ok v := (of_ite hv).2
    unfold arr2Get at hv
    split at hv
    · have := arr_get_typed _ _ v hv
      refine ⟨this.2, fun τ h => ?_⟩
      unfold typ at h
      rw [ho] at h
      cases h
      exact this.1
    · cases hv
  | elem x i ih =>
    obtain ⟨i', hi, hv⟩ := ok_of_bind hv
    obtain ⟨o, ho, hv⟩ := ok_of_bind hv
    cases o <;> try cases hv
    · rename_i e p
      have := ptr_get_typed p _ v (of_ite hv).2
      refine ⟨this.2, fun τ h => ?_⟩
      unfold typ at h
      rw [ho] at h
      cases h
      exact this.1
    · rename_i e n r
      have := arr_get_typed r _ v (of_ite hv).2
      refine ⟨this.2, fun τ h => ?_⟩
      unfold typ at h
      rw [ho] at h
      cases h
      exact this.1
  | bin o a b iha ihb =>
    simp only [litsE, Bool.and_eq_true] at he
    have gen : (eval ρ a >>= fun a' => eval ρ b >>= fun b' => binary o a' b') = .ok v →
        InRange v ∧ ∀ τ, typ ρ (.bin o a b) = some τ → tyVal v = τ := by
      intro hv
      obtain ⟨a', ha, hv⟩ := ok_of_bind hv
      obtain ⟨b', hb, hv⟩ := ok_of_bind hv
      have ha := iha he.1 a' ha
      have hb := ihb he.2 b' hb
      have := yields_binary o a' b' ha.1 hb.1 v hv
      refine ⟨this.1, fun τ h => ?_⟩
      unfold typ at h
      cases hσ : typ ρ a with
      | none => simp only [hσ] at h; cases h
      | some σ =>
        cases hσ' : typ ρ b with
        | none => simp only [hσ, hσ'] at h; cases h
        | some σ' =>
          simp only [hσ, hσ'] at h
          have ea := ha.2 σ hσ
          have eb := hb.2 σ' hσ'
          subst ea eb
          cases o <;> cases h <;> exact this.2
    cases o with
    | land =>
      obtain ⟨a', ha, hv⟩ := ok_of_bind hv
      have none : ∀ τ, typ ρ (.bin .land a b) = some τ → tyVal v = τ := by
        intro τ h
        unfold typ at h
        split at h <;> cases h
      refine ⟨?_, none⟩
      split at hv
      · obtain ⟨b', hb, hv⟩ := ok_of_bind hv
        cases hv
        exact ofBool_inRange _
      · cases hv
        exact ofBool_inRange _
    | lor =>
      obtain ⟨a', ha, hv⟩ := ok_of_bind hv
      have none : ∀ τ, typ ρ (.bin .lor a b) = some τ → tyVal v = τ := by
        intro τ h
        unfold typ at h
        split at h <;> cases h
      refine ⟨?_, none⟩
      split at hv
      · cases hv
        exact ofBool_inRange _
      · obtain ⟨b', hb, hv⟩ := ok_of_bind hv
        cases hv
        exact ofBool_inRange _
    | _ => exact gen hv
  | compl a ih =>
    obtain ⟨a', ha, hv⟩ := ok_of_bind hv
    have iha := ih he a' ha
    cases a' <;> cases hv
    rename_i s x
    refine ⟨isValue_intOfBits _ _, fun τ h => ?_⟩
    unfold typ at h
    cases hτ : typ ρ a with
    | none => rw [hτ] at h; cases h
    | some σ =>
      rw [hτ] at h
      cases h
      have := iha.2 σ hτ
      subst this
      simp only [tyVal, common, uac_self]
  | not a ih =>
    obtain ⟨a', ha, hv⟩ := ok_of_bind hv
    cases hv
    exact ⟨ofBool_inRange _, fun τ h => by cases h⟩
  | cast e a ih =>
    obtain ⟨a', ha, hv⟩ := ok_of_bind hv
    have := yields_cast e a' (ih he a' ha).1 v hv
    exact ⟨this.2, fun τ h => by cases h; exact this.1⟩
  | stdMin e a b iha ihb =>
    simp only [litsE, Bool.and_eq_true] at he
    cases e with
    | some e =>
      obtain ⟨a', ha, hv⟩ := ok_of_bind hv
      obtain ⟨b', hb, hv⟩ := ok_of_bind hv
      have := stdMin_typed e a' b' (iha he.1 a' ha).1 (ihb he.2 b' hb).1 v hv
      exact ⟨this.2, fun τ h => by cases h; exact this.1⟩
    | none =>
      unfold eval at hv
      unfold typ
      cases hτ : typ ρ a with
      | none => simp only [hτ] at hv; cases hv
      | some e =>
        simp only [hτ] at hv
        split at hv
        · obtain ⟨a', ha, hv⟩ := ok_of_bind hv
          obtain ⟨b', hb, hv⟩ := ok_of_bind hv
          have := stdMin_typed e a' b' (iha he.1 a' ha).1 (ihb he.2 b' hb).1 v hv
          exact ⟨this.2, fun τ h => by cases h; exact this.1⟩
        · cases hv
  | stdMax e a b iha ihb =>
    simp only [litsE, Bool.and_eq_true] at he
    cases e with
    | some e =>
      obtain ⟨a', ha, hv⟩ := ok_of_bind hv
      obtain ⟨b', hb, hv⟩ := ok_of_bind hv
      have := stdMax_typed e a' b' (iha he.1 a' ha).1 (ihb he.2 b' hb).1 v hv
      exact ⟨this.2, fun τ h => by cases h; exact this.1⟩
    | none =>
      unfold eval at hv
      unfold typ
      cases hτ : typ ρ a with
      | none => simp only [hτ] at hv; cases hv
      | some e =>
        simp only [hτ] at hv
        split at hv
        · obtain ⟨a', ha, hv⟩ := ok_of_bind hv
          obtain ⟨b', hb, hv⟩ := ok_of_bind hv
          have := stdMax_typed e a' b' (iha he.1 a' ha).1 (ihb he.2 b' hb).1 v hv
          exact ⟨this.2, fun τ h => by cases h; exact this.1⟩
        · cases hv
  | ite c a b ihc iha ihb =>
    simp only [litsE, Bool.and_eq_true] at he
    unfold eval at hv
    unfold typ
    cases hτ : typ ρ a with
    | none => simp only [hτ] at hv; cases hv
    | some e =>
      simp only [hτ] at hv
      split at hv
      · rename_i hb
        obtain ⟨c', hc, hv⟩ := ok_of_bind hv
        split at hv
        · have := iha he.1.2 v hv
          exact ⟨this.1, fun τ h => by cases h; exact this.2 _ hτ⟩
        · have := ihb he.2 v hv
          exact ⟨this.1, fun τ h => by cases h; exact this.2 _ hb⟩
      · cases hv

/-! ## Statements -/

/-- The names and types of the variables. -/
def shape (ρ : Env) : List (Nat × Ty) := ρ.map fun p => (p.1, p.2.ty)

/-- The integer literals of a statement are values of their types. -/
def litsS : Stmt → Bool
  | .seq a b => litsS a && litsS b
  | .block s => litsS s
  | .decl _ _ (some e) => litsE e
  | .assign l e => litsE l && litsE e
  | .loop i c s b => litsS i && litsE c && litsS s && litsS b
  | .ite c a b => litsE c && litsS a && litsS b
  | .ret e => litsE e
  | .call _ args => args.all litsE
  | .declCall _ _ _ args => args.all litsE
  | .assignCall l _ args => litsE l && args.all litsE
  | .construct _ _ args => args.all litsE
  | _ => true

theorem set_shape {ρ : Env} {x : Nat} {o o' : Obj} (h : ρ.get x = .ok o) (ht : o'.ty = o.ty) :
    shape (ρ.set x o') = shape ρ := by
  induction ρ with
  | nil => rfl
  | cons p ρ ih =>
    obtain ⟨y, q⟩ := p
    unfold Env.get at h
    unfold Env.set
    split at h
    · rename_i hxy
      cases h
      rw [if_pos hxy]
      simp only [shape, List.map_cons, ht]
    · rename_i hxy
      rw [if_neg hxy]
      have := ih h
      simp only [shape, List.map_cons] at this ⊢
      rw [this]

theorem set_typed {ρ : Env} (hρ : EnvTyped ρ) (x : Nat) {o : Obj} (ho : Typed o) : EnvTyped (ρ.set x o) := by
  induction ρ with
  | nil => exact hρ
  | cons p ρ ih =>
    obtain ⟨y, q⟩ := p
    have hρ' : EnvTyped ρ := fun p hp => hρ p (List.mem_cons_of_mem _ hp)
    unfold Env.set
    split
    · intro p hp
      rcases List.mem_cons.1 hp with rfl | hp
      · exact ho
      · exact hρ' p hp
    · intro p hp
      rcases List.mem_cons.1 hp with rfl | hp
      · exact hρ _ (List.mem_cons_self ..)
      · exact ih hρ' p hp

theorem setVal_typed {v : Val} (hv : InRange v) {o o' : Obj} (h : o.setVal v = .ok o') : o'.ty = o.ty ∧ Typed o' := by
  cases o <;> try cases h
  obtain ⟨w, hw, h⟩ := ok_of_bind h
  cases h
  exact ⟨rfl, yields_cast _ _ hv _ hw⟩

section
variable [Dialect]

theorem store_typed {ρ ρ' : Env} (hρ : EnvTyped ρ) {l : Expr} {v : Val} (hv : InRange v) (h : store ρ l v = .ok ρ') :
    EnvTyped ρ' ∧ shape ρ' = shape ρ := by
  cases l <;> try cases h
  · obtain ⟨o, ho, h⟩ := ok_of_bind h
    obtain ⟨o', ho', h⟩ := ok_of_bind h
    cases h
    have := setVal_typed hv ho'
    exact ⟨set_typed hρ _ this.2, set_shape ho this.1⟩
  · obtain ⟨i, hi, h⟩ := ok_of_bind h
    obtain ⟨o, ho, h⟩ := ok_of_bind h
    obtain ⟨o', ho', h⟩ := ok_of_bind h
    cases h
    cases o <;> try cases ho'
    obtain ⟨r, hr, ho'⟩ := ok_of_bind (of_ite ho').2
    cases ho'
    exact ⟨set_typed hρ _ trivial, set_shape ho rfl⟩
  · obtain ⟨j, hj, h⟩ := ok_of_bind h
    obtain ⟨i, hi, h⟩ := ok_of_bind h
    obtain ⟨o, ho, h⟩ := ok_of_bind h
    obtain ⟨o', ho', h⟩ := ok_of_bind h
    cases h
    cases o <;> try cases ho'
    obtain ⟨r, hr, ho'⟩ := ok_of_bind (of_ite ho').2
    cases ho'
    exact ⟨set_typed hρ _ trivial, set_shape ho rfl⟩
  · obtain ⟨i, hi, h⟩ := ok_of_bind h
    obtain ⟨o, ho, h⟩ := ok_of_bind h
    obtain ⟨o', ho', h⟩ := ok_of_bind h
    cases h
    cases o <;> try cases ho'
    all_goals
      obtain ⟨r, hr, ho'⟩ := ok_of_bind (of_ite ho').2
      cases ho'
      exact ⟨set_typed hρ _ trivial, set_shape ho rfl⟩

/-- How a statement may end in a function with result type `t`, when it begins with the variables `sh`: with the same
variables, of the same types, and possibly new ones; or with a result of type `t`. -/
def FlowTyped (t : Ty) (sh : List (Nat × Ty)) : Flow → Prop
  | .next ρ => EnvTyped ρ ∧ ∃ new, shape ρ = new ++ sh
  | .ret o => o.ty = t ∧ Typed o

/-- Calls keep the variables of the caller and their types. -/
structure CallsTyped (Γ : Calls) : Prop where
  call : ∀ f args ρ r ρ', EnvTyped ρ → args.all litsE = true → Γ.call f args ρ = .ok (r, ρ') →
    EnvTyped ρ' ∧ shape ρ' = shape ρ ∧ ∀ v, r = some v → InRange v
  construct : ∀ c x args ρ ρ', EnvTyped ρ → args.all litsE = true → Γ.construct c x args ρ = .ok ρ' →
    EnvTyped ρ' ∧ ∃ new, shape ρ' = new ++ shape ρ
  convert : ∀ e x ρ v, EnvTyped ρ → Γ.convert e x ρ = .ok v → InRange v

omit [Dialect] in
theorem noCalls_typed : CallsTyped noCalls :=
  ⟨fun _ _ _ _ _ _ _ h => (by cases h), fun _ _ _ _ _ _ _ h => (by cases h), fun _ _ _ _ _ h => (by cases h)⟩

omit [Dialect] in
theorem typed_drop {ρ : Env} (h : EnvTyped ρ) (n : Nat) : EnvTyped (ρ.drop n) := fun p hp => h p (List.mem_of_mem_drop hp)

omit [Dialect] in
theorem leave_typed {t : Ty} {ρ : Env} {r : Flow} (h : FlowTyped t (shape ρ) r) :
    FlowTyped t (shape ρ) (r.leave ρ.length) ∧ ∀ ρ', r.leave ρ.length = .next ρ' → shape ρ' = shape ρ := by
  cases r with
  | ret o => exact ⟨h, fun ρ' h => by cases h⟩
  | next ρ₁ =>
    obtain ⟨h1, new, h2⟩ := h
    have hl : ρ₁.length = new.length + ρ.length := by
      have := congrArg List.length h2
      simpa [shape] using this
    have hs : shape (ρ₁.drop (ρ₁.length - ρ.length)) = shape ρ := by
      unfold shape at h2 ⊢
      rw [List.map_drop, h2, hl, Nat.add_sub_cancel, List.drop_left']
      rfl
    refine ⟨⟨typed_drop h1 _, [], hs⟩, fun ρ' h => ?_⟩
    cases h
    exact hs

omit [Dialect] in
theorem FlowTyped.andThen {t : Ty} {sh : List (Nat × Ty)} {r s : Flow} {k : Env → C Flow} (h : FlowTyped t sh r)
    (hk : ∀ ρ s, EnvTyped ρ → (∃ new, shape ρ = new ++ sh) → k ρ = .ok s → FlowTyped t sh s) (hs : r.andThen k = .ok s) :
    FlowTyped t sh s := by
  cases r with
  | next ρ => exact hk ρ s h.1 h.2 hs
  | ret o => cases hs; exact h

omit [Dialect] in
theorem FlowTyped.weaken {t : Ty} {sh sh' : List (Nat × Ty)} {r : Flow} (h : FlowTyped t sh' r) (hs : ∃ new, sh' = new ++ sh) :
    FlowTyped t sh r := by
  cases r with
  | next ρ =>
    obtain ⟨h1, new, h2⟩ := h
    obtain ⟨new', rfl⟩ := hs
    exact ⟨h1, new ++ new', by rw [h2, List.append_assoc]⟩
  | ret o => exact h

omit [Dialect] in
theorem iterate_typed {t : Ty} {sh : List (Nat × Ty)} (c : Env → C Val) {inc body : Env → C Flow}
    (hi : ∀ ρ r, EnvTyped ρ → inc ρ = .ok r → FlowTyped t (shape ρ) r)
    (hb : ∀ ρ r, EnvTyped ρ → body ρ = .ok r → FlowTyped t (shape ρ) r) (n : Nat) :
    ∀ ρ r, EnvTyped ρ → (∃ new, shape ρ = new ++ sh) → iterate c inc body n ρ = .ok r → FlowTyped t sh r := by
  induction n with
  | zero => intro ρ r _ _ h; cases h
  | succ n ih =>
    intro ρ r hρ hs h
    obtain ⟨v, _, h⟩ := ok_of_bind h
    split at h
    · obtain ⟨r1, h1, h⟩ := ok_of_bind h
      refine ((hb ρ r1 hρ h1).weaken hs).andThen (fun ρ1 s hρ1 hs1 h => ?_) h
      obtain ⟨r2, h2, h⟩ := ok_of_bind h
      exact ((hi ρ1 r2 hρ1 h2).weaken hs1).andThen (fun ρ2 s hρ2 hs2 h => ih ρ2 s hρ2 hs2 h) h
    · cases h
      exact ⟨hρ, hs⟩

omit [Dialect] in
theorem fresh_typed {t : Ty} {o : Obj} (h : fresh t = .ok o) : o.ty = t ∧ Typed o := by
  cases t <;> cases h <;> exact ⟨rfl, trivial⟩

omit [Dialect] in
theorem cons_typed {ρ : Env} (hρ : EnvTyped ρ) (x : Nat) {o : Obj} (ho : Typed o) : EnvTyped ((x, o) :: ρ) := by
  intro p hp
  rcases List.mem_cons.1 hp with rfl | hp
  · exact ho
  · exact hρ p hp

omit [Dialect] in
theorem toBits_typed {t : Elem} {v : Val} {r : Flow}
    (h : (Val.toBits t v >>= fun b => C.ok (Flow.ret (.sc t (some (.ofBits t b))))) = .ok r) (sh : List (Nat × Ty)) :
    FlowTyped (.sc t) sh r := by
  obtain ⟨b, hb, h⟩ := ok_of_bind h
  cases h
  exact ⟨rfl, yields_ofBits _ _⟩

/-- Soundness of the types of statements: variables keep their types, and a `return` gives an object of the result type
of the function. -/
theorem statement_types {Γ : Calls} (hΓ : CallsTyped Γ) (n : Nat) (fn : List Nat) (t : Ty) (s : Stmt) (hs : litsS s = true) :
    ∀ ρ r, EnvTyped ρ → exec Γ n fn t s ρ = .ok r → FlowTyped t (shape ρ) r := by
  induction s with
  | skip => intro ρ r hρ h; cases h; exact ⟨hρ, [], rfl⟩
  | seq a b iha ihb =>
    intro ρ r hρ h
    simp only [litsS, Bool.and_eq_true] at hs
    by_cases hab : ∃ fmt s', a = .fprintf fmt ∧ b = .seq .abort s'
    · obtain ⟨fmt, s', rfl, rfl⟩ := hab
      cases h
    · rw [exec.eq_3 _ _ _ _ _ _ _ (fun fmt s' h1 h2 => hab ⟨fmt, s', h1, h2⟩)] at h
      obtain ⟨r1, h1, h⟩ := ok_of_bind h
      exact (iha hs.1 ρ r1 hρ h1).andThen (fun ρ1 s hρ1 hs1 h => (ihb hs.2 ρ1 s hρ1 h).weaken hs1) h
  | block s ih =>
    intro ρ r hρ h
    obtain ⟨r1, h1, h⟩ := ok_of_bind h
    cases h
    exact (leave_typed (ih hs ρ r1 hρ h1)).1
  | decl t' x e =>
    intro ρ r hρ h
    cases e with
    | none =>
      obtain ⟨o, ho, h⟩ := ok_of_bind h
      cases h
      exact ⟨cons_typed hρ x (fresh_typed ho).2, [(x, o.ty)], rfl⟩
    | some e =>
      obtain ⟨v, hv, h⟩ := ok_of_bind h
      obtain ⟨o, ho, h⟩ := ok_of_bind h
      obtain ⟨o', ho', h⟩ := ok_of_bind h
      cases h
      exact ⟨cons_typed hρ x (setVal_typed (expression_types ρ hρ e hs v hv).1 ho').2, [(x, o'.ty)], rfl⟩
  | assign l e =>
    intro ρ r hρ h
    simp only [litsS, Bool.and_eq_true] at hs
    obtain ⟨v, hv, h⟩ := ok_of_bind h
    obtain ⟨ρ', hρ', h⟩ := ok_of_bind h
    cases h
    have := store_typed hρ (expression_types ρ hρ e hs.2 v hv).1 hρ'
    exact ⟨this.1, [], this.2⟩
  | loop i c s b ihi ihs ihb =>
    intro ρ r hρ h
    simp only [litsS, Bool.and_eq_true] at hs
    obtain ⟨r1, h1, h⟩ := ok_of_bind (of_ite_not h).2
    obtain ⟨r2, h2, h⟩ := ok_of_bind h
    cases h
    refine (leave_typed ?_).1
    exact (ihi hs.1.1.1 ρ r1 hρ h1).andThen
      (fun ρ1 s hρ1 hs1 h => iterate_typed _ (ihs hs.1.2) (ihb hs.2) n ρ1 s hρ1 hs1 h) h2
  | ite c a b iha ihb =>
    intro ρ r hρ h
    simp only [litsS, Bool.and_eq_true] at hs
    obtain ⟨v, _, h⟩ := ok_of_bind (of_ite_not h).2
    split at h
    · exact iha hs.1.2 ρ r hρ h
    · exact ihb hs.2 ρ r hρ h
  | ret e =>
    intro ρ r hρ h
    have hvar : ∀ t, (∀ x, e = .var x → (ρ.get x >>= fun o => if o.ty = t then C.ok (Flow.ret o) else illFormed) = .ok r →
        FlowTyped t (shape ρ) r) := by
      intro t x _ h
      obtain ⟨o, ho, h⟩ := ok_of_bind h
      split at h
      · rename_i hty
        cases h
        exact ⟨hty, typed_get hρ ho⟩
      · cases h
    cases t with
    | sc t =>
      obtain ⟨v, hv, h⟩ := ok_of_bind h
      exact toBits_typed h _
    | vec e' n' => cases e <;> first | exact hvar _ _ rfl h | cases h
    | arr e' n' k' => cases e <;> first | exact hvar _ _ rfl h | cases h
    | _ => cases h
  | fprintf f => intro ρ r hρ h; cases h
  | abort => intro ρ r hρ h; cases h
  | memcpy d s e k =>
    intro ρ r hρ h
    obtain ⟨od, hd, h⟩ := ok_of_bind h
    obtain ⟨os, hs, h⟩ := ok_of_bind h
    obtain ⟨o, ho, h⟩ := ok_of_bind h
    cases h
    have : o.ty = od.ty ∧ Typed o := by
      unfold copy at ho
      split at ho
      · obtain ⟨a, _, ho⟩ := ok_of_bind (of_ite ho).2
        obtain ⟨b, _, ho⟩ := ok_of_bind ho
        cases ho
        exact ⟨rfl, trivial⟩
      · cases ho
    exact ⟨set_typed hρ d this.2, [], set_shape hd this.1⟩
  | memcpySc d s e =>
    intro ρ r hρ h
    obtain ⟨od, hd, h⟩ := ok_of_bind h
    obtain ⟨os, hs, h⟩ := ok_of_bind h
    obtain ⟨o, ho, h⟩ := ok_of_bind h
    cases h
    have : o.ty = od.ty ∧ Typed o := by
      unfold copySc at ho
      split at ho
      · split at ho
        · split at ho
          · obtain ⟨a, _, ho⟩ := ok_of_bind ho
            cases ho
            exact ⟨rfl, yields_ofBits _ _⟩
          · cases ho
        · cases ho
      · cases ho
    exact ⟨set_typed hρ d this.2, [], set_shape hd this.1⟩
  | call f args =>
    intro ρ r hρ h
    obtain ⟨⟨v, ρ'⟩, hc, h⟩ := ok_of_bind h
    cases h
    have := hΓ.call f args ρ v ρ' hρ hs hc
    exact ⟨this.1, [], this.2.1⟩
  | declCall t' x f args =>
    intro ρ r hρ h
    obtain ⟨⟨v, ρ'⟩, hc, h⟩ := ok_of_bind h
    obtain ⟨o, ho, h⟩ := ok_of_bind h
    obtain ⟨w, hw, h⟩ := ok_of_bind h
    obtain ⟨o', ho', h⟩ := ok_of_bind h
    cases h
    have := hΓ.call f args ρ v ρ' hρ hs hc
    cases v with
    | none => cases hw
    | some v =>
      cases hw
      exact ⟨cons_typed this.1 x (setVal_typed (this.2.2 _ rfl) ho').2, [(x, o'.ty)], by
        show _ :: shape ρ' = _; rw [this.2.1]; rfl⟩
  | assignCall l f args =>
    intro ρ r hρ h
    simp only [litsS, Bool.and_eq_true] at hs
    obtain ⟨⟨v, ρ'⟩, hc, h⟩ := ok_of_bind h
    obtain ⟨w, hw, h⟩ := ok_of_bind h
    obtain ⟨ρ'', hρ'', h⟩ := ok_of_bind h
    cases h
    have := hΓ.call f args ρ v ρ' hρ hs.2 hc
    cases v with
    | none => cases hw
    | some v =>
      cases hw
      have h2 := store_typed this.1 (this.2.2 _ rfl) hρ''
      exact ⟨h2.1, [], h2.2.trans this.2.1⟩
  | construct c x args =>
    intro ρ r hρ h
    obtain ⟨ρ', hc, h⟩ := ok_of_bind h
    cases h
    exact hΓ.construct c x args ρ ρ' hρ hs hc
  | retConv e x =>
    intro ρ r hρ h
    cases t with
    | sc t =>
      obtain ⟨v, hv, h⟩ := ok_of_bind h
      exact toBits_typed h _
    | _ => cases h

/-- A block and a loop leave the variables as they were: no variable declared in them remains. -/
theorem scope_ends {Γ : Calls} (hΓ : CallsTyped Γ) (n : Nat) (fn : List Nat) (t : Ty) (s : Stmt) (hs : litsS s = true)
    (hb : (∃ s', s = .block s') ∨ ∃ i c st b, s = .loop i c st b) (ρ ρ' : Env) (hρ : EnvTyped ρ)
    (h : exec Γ n fn t s ρ = .ok (.next ρ')) : shape ρ' = shape ρ := by
  rcases hb with ⟨s', rfl⟩ | ⟨i, c, st, b, rfl⟩
  · obtain ⟨r1, h1, h⟩ := ok_of_bind h
    injection h with h
    exact (leave_typed (statement_types hΓ n fn t s' hs ρ r1 hρ h1)).2 ρ' h
  · simp only [litsS, Bool.and_eq_true] at hs
    obtain ⟨r1, h1, h⟩ := ok_of_bind (of_ite_not h).2
    obtain ⟨r2, h2, h⟩ := ok_of_bind h
    injection h with h
    refine (leave_typed (t := t) ?_).2 ρ' h
    exact (statement_types hΓ n fn t i hs.1.1.1 ρ r1 hρ h1).andThen
      (fun ρ1 s hρ1 hs1 h => iterate_typed _ (statement_types hΓ n fn t st hs.1.2) (statement_types hΓ n fn t b hs.2) n ρ1 s hρ1 hs1 h) h2

/-! ## Functions -/

/-- The integer literals of a function are values of their types. -/
def litsF (f : Func) : Bool := litsS f.body

omit [Dialect] in
theorem bindArgs_typed (ps : List (Ty × Nat)) (args : List Obj) {acc ρ : Env} (ha : ∀ o ∈ args, Typed o) (hacc : EnvTyped acc)
    (h : bindArgs ps args acc = .ok ρ) : EnvTyped ρ := by
  induction ps generalizing args acc with
  | nil =>
    cases args with
    | nil => cases h; exact hacc
    | cons => cases h
  | cons p ps ih =>
    cases args with
    | nil => cases h
    | cons o os =>
      unfold bindArgs at h
      split at h
      · exact ih os (fun o ho => ha o (List.mem_cons_of_mem _ ho)) (cons_typed hacc _ (ha o (List.mem_cons_self ..))) h
      · cases h

omit [Dialect] in
theorem finish_typed {t : Ty} {ps : List (Ty × Nat)} {sh : List (Nat × Ty)} {r : Flow} (hr : FlowTyped t sh r) (ht : t ≠ .void)
    {o : Obj} (h : r.finish t ps = .ok o) : o.ty = t ∧ Typed o := by
  cases r with
  | next ρ =>
    replace h : (if t = .void then memory ps ρ else illFormed) = .ok o := h
    rw [if_neg ht] at h
    cases h
  | ret o' =>
    cases o' with
    | vec e n r =>
      obtain ⟨v, _, h⟩ := ok_of_bind h
      cases h
      exact ⟨hr.1, trivial⟩
    | arr e n k r =>
      obtain ⟨v, _, h⟩ := ok_of_bind h
      cases h
      exact ⟨hr.1, trivial⟩
    | _ => cases h; exact hr

/-- A function with a result returns an object of its result type, and the number in it is one that the type can hold. -/
theorem function_types (f : Func) (hf : litsF f = true) (ht : f.ret ≠ .void) (n : Nat) (args : List Obj)
    (ha : ∀ o ∈ args, Typed o) (o : Obj) (h : run n f args = .ok o) : o.ty = f.ret ∧ Typed o := by
  obtain ⟨ρ, hρ, h⟩ := ok_of_bind h
  obtain ⟨r, hr, h⟩ := ok_of_bind h
  have hρ := bindArgs_typed f.params args ha (acc := []) (fun p hp => absurd hp List.not_mem_nil) hρ
  exact finish_typed (statement_types noCalls_typed n _ f.ret f.body hf ρ r hρ hr) ht h

theorem pass_typed {ρ : Env} (hρ : EnvTyped ρ) (ps : List (Ty × Nat)) (args : List Expr) (ha : args.all litsE = true)
    {acc ρ' : Env} (hacc : EnvTyped acc) (h : pass ρ ps args acc = .ok ρ') : EnvTyped ρ' ∧ ∃ new, shape ρ' = new ++ shape acc := by
  induction ps generalizing args acc with
  | nil =>
    cases args with
    | nil => cases h; exact ⟨hacc, [], rfl⟩
    | cons => cases h
  | cons p ps ih =>
    obtain ⟨t, x⟩ := p
    cases args with
    | nil => cases t <;> cases h
    | cons a as =>
      simp only [List.all_cons, Bool.and_eq_true] at ha
      have step : ∀ o, Typed o → pass ρ ps as ((x, o) :: acc) = .ok ρ' → EnvTyped ρ' ∧ ∃ new, shape ρ' = new ++ shape acc := by
        intro o ho h
        obtain ⟨h1, new, h2⟩ := ih as ha.2 (cons_typed hacc x ho) h
        exact ⟨h1, new ++ [(x, o.ty)], by rw [h2, List.append_assoc]; rfl⟩
      cases t with
      | sc e =>
        obtain ⟨v, hv, h⟩ := ok_of_bind h
        obtain ⟨w, hw, h⟩ := ok_of_bind h
        exact step (.sc e (some w)) (yields_cast e v (expression_types ρ hρ a ha.1 v hv).1 w hw) h
      | ptr e =>
        cases a <;> try cases h
        obtain ⟨o, ho, h⟩ := ok_of_bind h
        cases o <;> try cases h
        rename_i e' n r
        exact step (.ptr e' (toPtr r)) trivial (of_ite h).2
      | _ => cases h

omit [Dialect] in
theorem copyBack_typed (ρ' : Env) (ps : List (Ty × Nat)) (args : List Expr) {ρ ρ₂ : Env} (hρ : EnvTyped ρ)
    (h : copyBack ρ' ps args ρ = .ok ρ₂) : EnvTyped ρ₂ ∧ shape ρ₂ = shape ρ := by
  induction ps generalizing args ρ with
  | nil => cases h; exact ⟨hρ, rfl⟩
  | cons p ps ih =>
    obtain ⟨t, x⟩ := p
    cases args with
    | nil => cases t <;> (cases h; exact ⟨hρ, rfl⟩)
    | cons a as =>
      by_cases hp : ∃ e y, t = .ptr e ∧ a = .var y
      · obtain ⟨e, y, rfl, rfl⟩ := hp
        obtain ⟨o, ho, h⟩ := ok_of_bind h
        obtain ⟨o', ho', h⟩ := ok_of_bind h
        cases o <;> cases o' <;> try cases h
        rename_i e p _ e' n r
        replace h : (if e = e' then copyBack ρ' ps as (ρ.set y (.cells e n (ofPtr p n))) else illFormed) = .ok ρ₂ := h
        split at h
        · rename_i he
          subst he
          have := ih as (set_typed hρ y (o := .cells e n (ofPtr p n)) trivial) h
          exact ⟨this.1, this.2.trans (set_shape ho' rfl)⟩
        · cases h
      · have : copyBack ρ' ((t, x) :: ps) (a :: as) ρ = copyBack ρ' ps as ρ := by
          cases t <;> cases a <;> first | rfl | exact absurd ⟨_, _, rfl, rfl⟩ hp
        rw [this] at h
        exact ih as hρ h

omit [Dialect] in
theorem freshMembers_typed (ms : List (Nat × Ty × Option Int)) {ρ : Env} (h : freshMembers ms = .ok ρ) : EnvTyped ρ := by
  induction ms generalizing ρ with
  | nil => cases h; exact fun p hp => absurd hp List.not_mem_nil
  | cons m ms ih =>
    obtain ⟨x, t, i⟩ := m
    by_cases hc : ∃ e n v, t = .cells e n ∧ i = some v
    · obtain ⟨e, n, v, rfl, rfl⟩ := hc
      obtain ⟨b, _, h⟩ := ok_of_bind h
      obtain ⟨ρ', hρ', h⟩ := ok_of_bind h
      cases h
      exact cons_typed (ih hρ') x trivial
    · cases i with
      | some v => cases t <;> first | cases h | exact absurd ⟨_, _, _, rfl, rfl⟩ hc
      | none =>
        have : freshMembers ((x, t, none) :: ms) = (fresh t >>= fun o => freshMembers ms >>= fun ρ => C.ok ((x, o) :: ρ)) := by
          cases t <;> rfl
        rw [this] at h
        obtain ⟨o, ho, h⟩ := ok_of_bind h
        obtain ⟨ρ', hρ', h⟩ := ok_of_bind h
        cases h
        exact cons_typed (ih hρ') x (fresh_typed ho).2

omit [Dialect] in
theorem getMembers_typed {ρ : Env} (hρ : EnvTyped ρ) (x : Nat) (ms : List (Nat × Ty × Option Int)) {ρ' : Env}
    (h : getMembers ρ x ms = .ok ρ') : EnvTyped ρ' := by
  induction ms generalizing ρ' with
  | nil => cases h; exact fun p hp => absurd hp List.not_mem_nil
  | cons m ms ih =>
    obtain ⟨o, ho, h⟩ := ok_of_bind h
    obtain ⟨ρ₁, h₁, h⟩ := ok_of_bind h
    cases h
    exact cons_typed (ih h₁) _ (typed_get hρ ho)

omit [Dialect] in
theorem lookup_mem {f : Nat} {l : List Func} {g : Func} (h : lookup f l = .ok g) : g ∈ l := by
  induction l with
  | nil => cases h
  | cons a l ih =>
    unfold lookup at h
    split at h
    · cases h; exact List.mem_cons_self ..
    · exact List.mem_cons_of_mem _ (ih h)

omit [Dialect] in
theorem lookup_name {f : Nat} {l : List Func} {g : Func} (h : lookup f l = .ok g) : g.name = f := by
  induction l with
  | nil => cases h
  | cons a l ih =>
    unfold lookup at h
    split at h
    · rename_i he
      cases h; exact eq_of_beq he
    · exact ih h

/-- The integer literals of a translation unit are values of their types. -/
def litsU (u : TransUnit) : Bool := u.funcs.all litsF && u.ctors.all litsF && u.convs.all litsF

omit [Dialect] in
theorem obj_val_inRange {o : Obj} (ho : Typed o) {v : Val} (h : o.val = .ok v) : InRange v := by
  cases o <;> try cases h
  rename_i e w
  cases w with
  | none => cases h
  | some w => cases h; exact ho.2

theorem unit_calls_typed (u : TransUnit) (hu : litsU u = true) (n d : Nat) : CallsTyped (u.calls n d) := by
  simp only [litsU, Bool.and_eq_true, List.all_eq_true] at hu
  induction d with
  | zero => exact ⟨fun _ _ _ _ _ _ _ h => (by cases h), fun _ _ _ _ _ _ _ h => (by cases h), fun _ _ _ _ _ h => (by cases h)⟩
  | succ d ih =>
    refine ⟨fun f args ρ r ρ' hρ ha h => ?_, fun c x args ρ ρ' hρ ha h => ?_, fun e x ρ v hρ h => ?_⟩
    · obtain ⟨g, hg, h⟩ := ok_of_bind h
      obtain ⟨ρ₁, h₁, h⟩ := ok_of_bind h
      obtain ⟨s, hs, h⟩ := ok_of_bind h
      have hρ₁ := pass_typed hρ g.params args ha (acc := []) (fun p hp => absurd hp List.not_mem_nil) h₁
      have hfl := statement_types ih n _ g.ret g.body (hu.1.1 g (lookup_mem hg)) ρ₁ s hρ₁.1 hs
      cases s with
      | ret o =>
        obtain ⟨v, hv, h⟩ := ok_of_bind (of_ite h).2
        cases h
        exact ⟨hρ, rfl, fun w hw => by cases hw; exact obj_val_inRange hfl.2 hv⟩
      | next ρ₂ =>
        simp only at h
        split at h
        · obtain ⟨ρ₃, h₃, h⟩ := ok_of_bind h
          cases h
          have := copyBack_typed ρ₂ g.params args hρ h₃
          exact ⟨this.1, this.2, fun w hw => by cases hw⟩
        · cases h
    · obtain ⟨s, hs, h⟩ := ok_of_bind h
      obtain ⟨g, hg, h⟩ := ok_of_bind h
      obtain ⟨ms, hms, h⟩ := ok_of_bind h
      obtain ⟨ρ₁, h₁, h⟩ := ok_of_bind h
      obtain ⟨r, hr, h⟩ := ok_of_bind h
      have hρ₁ := pass_typed hρ g.params args ha (freshMembers_typed _ hms) h₁
      have hfl := statement_types ih n _ g.ret g.body (hu.1.2 g (lookup_mem hg)) ρ₁ r hρ₁.1 hr
      cases r with
      | ret o => cases h
      | next ρ₂ =>
        replace h := (of_ite h).2
        cases h
        constructor
        · refine cons_typed (fun p hp => ?_) x trivial
          rcases List.mem_append.1 hp with hp | hp
          · obtain ⟨q, hq, rfl⟩ := List.mem_map.1 hp
            exact hfl.1 q (List.mem_of_mem_drop hq)
          · exact hρ p hp
        · refine ⟨shape ((x, .obj c) :: ((ρ₂.drop (ρ₂.length - ms.length)).map fun (m, o) => (member x m, o))), ?_⟩
          unfold shape
          rw [← List.map_append]
    · obtain ⟨o, ho, h⟩ := ok_of_bind h
      cases o <;> try cases h
      obtain ⟨s, hs, h⟩ := ok_of_bind h
      obtain ⟨g, hg, h⟩ := ok_of_bind h
      obtain ⟨ms, hms, h⟩ := ok_of_bind h
      split at h
      · obtain ⟨r, hr, h⟩ := ok_of_bind h
        have hfl := statement_types ih n _ g.ret g.body (hu.2 g (lookup_mem hg)) ms r (getMembers_typed hρ _ _ hms) hr
        cases r with
        | ret o => exact obj_val_inRange hfl.2 h
        | next ρ₂ => cases h
      · cases h

/-- The same for the functions of a translation unit that call each other. -/
theorem unit_function_types (u : TransUnit) (hu : litsU u = true) (f n : Nat) (args : List Obj) (ha : ∀ o ∈ args, Typed o) (o : Obj)
    (h : u.run n f args = .ok o) : ∃ g ∈ u.funcs, g.name = f ∧ (g.ret ≠ .void → o.ty = g.ret ∧ Typed o) := by
  obtain ⟨g, hg, h⟩ := ok_of_bind h
  obtain ⟨ρ, hρ, h⟩ := ok_of_bind h
  obtain ⟨r, hr, h⟩ := ok_of_bind h
  have hρ := bindArgs_typed g.params args ha (acc := []) (fun p hp => absurd hp List.not_mem_nil) hρ
  refine ⟨g, lookup_mem hg, ?_, fun ht => ?_⟩
  · exact lookup_name hg
  · have hl : litsF g = true := by
      simp only [litsU, Bool.and_eq_true, List.all_eq_true] at hu
      exact hu.1.1 g (lookup_mem hg)
    exact finish_typed (statement_types (unit_calls_typed u hu n n) n _ g.ret g.body hl ρ r hρ hr) ht h

end

end Verif.Props
