import Verif.Props.ExecCalls
import Verif.Props.Float
import Verif.Props.FloatConv

/-! Property C96, continued: the abstract machine is deterministic. -/

namespace Verif.Props
open Verif.Cpp Verif.SpecCpp Verif.SpecExec
open Verif.Spec (IsSum IsDiff IsProd IsQuot Rounded IsTrunc decode Datum)
open Verif.FpOps Verif.FpRound

theorem denotes_inj {e : Elem} {bs bs' : List Byte} {v : Val} (h : Denotes e bs v) (h' : Denotes e bs' v) : bs = bs' := by
  rw [(denotes_only h).1, (denotes_only h').1]

theorem denotes_val {e : Elem} {bs : List Byte} {v v' : Val} (h : Denotes e bs v) (h' : Denotes e bs v') : v = v' := by
  rw [((denotes_iff ..).1 h).2, ((denotes_iff ..).1 h').2]

theorem floating_det {v : Val} {d d' : Bool} {b b' : Nat} (h : Floating v d b) (h' : Floating v d' b') : d = d' ∧ b = b' := by
  cases h <;> cases h' <;> exact ⟨rfl, rfl⟩

theorem ok_fmt (d : Bool) : Ok (fmt d) := by cases d <;> first | exact ok32 | exact ok64

/-- A datum that is not a NaN has one pattern. -/
theorem decode_inj {f : Fmt} (ok : Ok f) {r r' : Nat} (h : r < 2 ^ f.width) (h' : r' < 2 ^ f.width) (hn : decode f r ≠ .nan)
    (e : decode f r = decode f r') : r = r' := by
  have hn' : decode f r' ≠ .nan := e ▸ hn
  rw [pack_self h, pack_self h']
  rw [decode_eq ok r] at e hn
  rw [decode_eq ok r'] at e hn'
  rw [neg_eq h, neg_eq h'] at e
  split at hn
  · exact absurd rfl hn
  split at hn'
  · exact absurd rfl hn'
  rename_i h1 h2
  rw [if_neg h1, if_neg h2] at e
  by_cases h3 : f.abs r = f.infBits <;> by_cases h4 : f.abs r' = f.infBits
  · rw [if_pos h3, if_pos h4] at e
    injection e with e
    rw [e, h3, h4]
  · rw [if_pos h3, if_neg h4] at e; cases e
  · rw [if_neg h3, if_pos h4] at e; cases e
  · rw [if_neg h3, if_neg h4] at e
    injection e with e1 e2
    rw [← e1] at e2 ⊢
    congr 1
    have hU : (2 : ℚ) ^ f.unit ≠ 0 := by positivity
    have e3 : (magA f.mb (f.abs r) : ℚ) = magA f.mb (f.abs r') := by
      unfold Spec.withSign at e2
      split at e2 <;> field_simp at e2 <;> linarith
    have e4 : magA f.mb (f.abs r) = magA f.mb (f.abs r') := by exact_mod_cast e3
    rcases Nat.lt_trichotomy (f.abs r) (f.abs r') with hl | hl | hl
    · have := magA_strictMono f.mb hl; omega
    · exact hl
    · have := magA_strictMono f.mb hl; omega

theorem rounded_number {f : Fmt} {zs : Bool} {x : ℚ} {r : Nat} (h : Rounded f zs x r) : decode f r ≠ .nan := by
  unfold Rounded at h
  intro hn
  split at h
  · rw [hn] at h; cases h
  · rcases lt_or_ge |x| (Spec.overflowAt f) with hx | hx
    · obtain ⟨v, h, -⟩ := h.nearest hx
      rw [hn] at h; cases h
    · have := h.overflow hx
      rw [hn] at this; cases this

theorem result_unique {f : Fmt} (ok : Ok f) {n r r' : Nat} (h : IsResult f n r) (h' : IsResult f n r') (e : decode f r = decode f r') : r = r' := by
  by_cases hn : decode f r = .nan
  · rw [h.2 hn, h'.2 (e ▸ hn)]
  · exact decode_inj ok h.1 h'.1 hn e

theorem toFloat_det {v : Val} {d : Bool} {r r' : Nat} (h : ToFloat v d r) (h' : ToFloat v d r') : r = r' := by
  cases h with
  | same _ _ _ h =>
    generalize hd : d = d1 at h'
    cases h' with
    | same _ _ _ h' => subst hd; exact (floating_det h h').2
    | other _ d2 b _ h' => have := (floating_det h h').1; subst this; cases d <;> cases hd
    | int => cases h
  | other _ d b _ h h1 h2 =>
    generalize hd : (!d) = d1 at h'
    cases h' with
    | same _ _ _ h' => have := (floating_det h h').1; subst this; cases d <;> cases hd
    | other _ d2 b' _ h' h3 h4 =>
      obtain ⟨rfl, rfl⟩ := floating_det h h'
      refine result_unique (ok_fmt _) h1 h3 ?_
      unfold Spec.Converts at h2 h4
      generalize decode (fmt d) b = x at h2 h4
      cases x with
      | nan => rw [h2, h4]
      | inf => rw [h2, h4]
      | num => exact rounded_unique (ok_fmt _) h2 h4
    | int => cases h
  | int t d r z h1 h2 =>
    cases h' with
    | same _ _ _ h' => cases h'
    | other _ d2 b' _ h' h3 h4 => cases h'
    | int _ _ _ _ h3 h4 => exact decode_inj (ok_fmt _) h1 h3 (rounded_number h2) (rounded_unique (ok_fmt _) h2 h4)

theorem not_floating {t : ITy} {z : Int} {d : Bool} {b : Nat} : ¬ Floating (.int t z) d b := nofun

theorem conv_det {e : Elem} {v : Val} {r r' : C Val} (h : Conv e v r) (h' : Conv e v r') : r = r' := by
  cases h with
  | int s t z w h =>
    cases h' with
    | int _ _ _ _ h' => rw [converts_unique _ _ _ _ h h']
    | trunc _ _ _ _ _ _ _ h' => exact absurd h' not_floating
    | large _ _ _ _ _ _ _ h' => exact absurd h' not_floating
    | special _ _ _ _ h' => exact absurd h' not_floating
  | trunc t v d b s x n h1 h2 h3 h4 =>
    cases h' with
    | int => exact absurd h1 not_floating
    | trunc _ _ _ _ _ _ _ h1' h2' h3' =>
      obtain ⟨rfl, rfl⟩ := floating_det h1 h1'
      rw [h2] at h2'
      injection h2' with _ h2'
      subst h2'
      rw [isTrunc_unique h3 h3']
    | large _ _ _ _ _ _ _ h1' h2' h3' h4' =>
      obtain ⟨rfl, rfl⟩ := floating_det h1 h1'
      rw [h2] at h2'
      injection h2' with _ h2'
      subst h2'
      rw [isTrunc_unique h3 h3'] at h4
      exact absurd h4 h4'
    | special _ _ _ _ h1' h2' =>
      obtain ⟨rfl, rfl⟩ := floating_det h1 h1'
      exact absurd h2 (h2' _ _)
  | large t v d b s x n h1 h2 h3 h4 =>
    cases h' with
    | int => exact absurd h1 not_floating
    | trunc _ _ _ _ _ _ _ h1' h2' h3' h4' =>
      obtain ⟨rfl, rfl⟩ := floating_det h1 h1'
      rw [h2] at h2'
      injection h2' with _ h2'
      subst h2'
      rw [isTrunc_unique h3 h3'] at h4
      exact absurd h4' h4
    | large => rfl
    | special => rfl
  | special t v d b h1 h2 =>
    cases h' with
    | int => exact absurd h1 not_floating
    | trunc _ _ _ _ _ _ _ h1' h2' =>
      obtain ⟨rfl, rfl⟩ := floating_det h1 h1'
      exact absurd h2' (h2 _ _)
    | large => rfl
    | special => rfl
  | float v r h => cases h' with | float _ _ h' => rw [toFloat_det h h']
  | double v r h => cases h' with | double _ _ h' => rw [toFloat_det h h']

theorem usual_det {s t r r' : ITy} (h : Usual s t r) (h' : Usual s t r') : r = r' := by
  rw [(common_type_rule ..).1 h, (common_type_rule ..).1 h']

theorem promotes_det {s r r' : ITy} (h : Promotes s r) (h' : Promotes s r') : r = r' := by
  rw [(promotion_rule ..).1 h, (promotion_rule ..).1 h']

theorem operands_det {s t r r2 : ITy} {x y x' y' x2 y2 : Int} (h : Operands s t r x y x' y') (h' : Operands s t r2 x y x2 y2) :
    r = r2 ∧ x' = x2 ∧ y' = y2 := by
  obtain rfl := usual_det h.1 h'.1
  exact ⟨rfl, converts_unique _ _ _ _ h.2.1 h'.2.1, converts_unique _ _ _ _ h.2.2 h'.2.2⟩

theorem condition_det {p : Prop} {v v' : Val} (h : Condition p v) (h' : Condition p v') : v = v' := by
  cases h <;> cases h' <;> first | rfl | contradiction

theorem floatOperands_det {x y : Val} {d d' : Bool} {a b a' b' : Nat} (h : FloatOperands x y d a b) (h' : FloatOperands x y d' a' b') :
    d = d' ∧ a = a' ∧ b = b' := by
  cases h with
  | double _ _ h1 h2 h3 =>
    cases h' with
    | double _ _ _ h2' h3' => exact ⟨rfl, toFloat_det h2 h2', toFloat_det h3 h3'⟩
    | float _ _ h4 h5 =>
      rcases h1 with ⟨p, h⟩ | ⟨p, h⟩
      · exact absurd h (h4 p)
      · exact absurd h (h5 p)
  | float _ _ h4 h5 _ h2 h3 =>
    cases h' with
    | float _ _ _ _ _ h2' h3' => exact ⟨rfl, toFloat_det h2 h2', toFloat_det h3 h3'⟩
    | double _ _ h1 =>
      rcases h1 with ⟨p, h⟩ | ⟨p, h⟩
      · exact absurd h (h4 p)
      · exact absurd h (h5 p)

theorem not_floatOperands {s t : ITy} {x y : Int} {d : Bool} {a b : Nat} : ¬ FloatOperands (.int s x) (.int t y) d a b := by
  intro h
  cases h with
  | double _ _ h => rcases h with ⟨p, h⟩ | ⟨p, h⟩ <;> cases h
  | float _ _ _ _ h => rcases h with ⟨p, h⟩ | ⟨p, h⟩ <;> cases h

theorem shr_det {x z z' : Int} {n : Nat} (h1 : z * 2 ^ n ≤ x) (h2 : x < (z + 1) * 2 ^ n) (h3 : z' * 2 ^ n ≤ x) (h4 : x < (z' + 1) * 2 ^ n) : z = z' := by
  have hp : (0 : Int) < 2 ^ n := by positivity
  have : z < z' + 1 := lt_of_mul_lt_mul_right (lt_of_le_of_lt h1 h4) hp.le
  have : z' < z + 1 := lt_of_mul_lt_mul_right (lt_of_le_of_lt h3 h2) hp.le
  omega

/-- The operators that a rule is about. -/
def opClass : BinOp → Nat
  | .add | .sub | .mul => 0
  | .div | .mod => 1
  | .shl => 2
  | .shr => 3
  | .and | .or | .xor => 4
  | .lt | .gt | .le | .ge | .eq => 5
  | _ => 6

theorem exact_class {o : BinOp} {x y z : Int} (h : SpecExec.exact o x y = some z) : opClass o = 0 := by
  cases o <;> first | rfl | cases h
theorem bitOp_class {o : BinOp} {f : Bool → Bool → Bool} (h : bitOp o = some f) : opClass o = 4 := by
  cases o <;> first | rfl | cases h
theorem compares_class {o : BinOp} {x y : Int} {p : Prop} (h : Compares o x y = some p) : opClass o = 5 := by
  cases o <;> first | rfl | cases h

theorem binary_int_det {w : Bool} {o : BinOp} {s t : ITy} {x y : Int} {r r' : C Val} (h : Binary w o (.int s x) (.int t y) r)
    (h' : Binary w o (.int s x) (.int t y) r') : r = r' := by
  generalize ha : Val.int s x = a at h'
  generalize hb : Val.int t y = b at h'
  cases h with
  | float _ _ _ _ _ _ _ h => exact absurd h not_floatOperands
  | floatCompare _ _ _ _ _ _ _ _ h => exact absurd h not_floatOperands
  | shr s t r x z n h1 h2 h3 h4 =>
    cases h' with
    | shr _ _ _ _ _ n' h1' h2' h3' h4' =>
      cases ha
      injection hb with _ hn
      obtain rfl : n = n' := by exact_mod_cast hn
      rw [promotes_det h1 h1', shr_det h3 h4 h3' h4']
    | float _ _ _ _ _ _ _ h => subst ha hb; exact absurd h not_floatOperands
    | floatCompare _ _ _ _ _ _ _ _ h => subst ha hb; exact absurd h not_floatOperands
    | _ => cases ha; cases hb; grind [promotes_det, → exact_class, → bitOp_class, → compares_class, opClass]
  | bits o f s t r x y z h1 h2 h3 h4 =>
    cases h' with
    | bits _ f' _ _ _ _ _ _ h1' h2' h3' h4' =>
      cases ha
      cases hb
      obtain rfl := usual_det h2 h2'
      rw [h1] at h1'
      cases h1'
      rw [eq_of_bits _ _ _ h3 h3' fun i hi => (h4 i hi).trans (h4' i hi).symm]
    | float _ _ _ _ _ _ _ h => subst ha hb; exact absurd h not_floatOperands
    | floatCompare _ _ _ _ _ _ _ _ h => subst ha hb; exact absurd h not_floatOperands
    | _ => cases ha; cases hb; grind [→ exact_class, → bitOp_class, → compares_class, opClass]
  | _ =>
    cases h' <;>
      first
      | (subst ha hb; exact absurd ‹FloatOperands _ _ _ _ _› not_floatOperands)
      | (cases ha; cases hb; grind [operands_det, promotes_det, converts_unique, arith_unique, quotient_unique, condition_det, → exact_class, → bitOp_class, → compares_class, opClass])

/-- Operations on integers only have the rules for integers. -/
theorem binary_kinds {w : Bool} {o : BinOp} {x y : Val} {r : C Val} (h : Binary w o x y r) :
    (∃ s x' t y', x = .int s x' ∧ y = .int t y') ∨ (∃ d a b, FloatOperands x y d a b ∧
      ((∃ z, FloatOp (fmt d) o a b z ∧ IsResult (fmt d) (nanOf (fmt d) o a b) z ∧ r = .ok (floatVal d z)) ∨
        ∃ p v, FloatCompares o (decode (fmt d) a) (decode (fmt d) b) = some p ∧ Condition p v ∧ r = .ok v)) := by
  cases h with
  | float _ _ _ d a b z h1 h2 h3 => exact .inr ⟨d, a, b, h1, .inl ⟨z, h2, h3, rfl⟩⟩
  | floatCompare _ p _ _ d a b v h1 h2 h3 => exact .inr ⟨d, a, b, h1, .inr ⟨p, v, h2, h3, rfl⟩⟩
  | _ => exact .inl ⟨_, _, _, _, rfl, rfl⟩

theorem floatOp_det {f : Fmt} (ok : Ok f) {o : BinOp} {a b r r' : Nat} (h : FloatOp f o a b r) (h' : FloatOp f o a b r') :
    decode f r = decode f r' := by
  cases o with
  | add => exact isSum_unique ok h h'
  | sub => exact isDiff_unique ok h h'
  | mul => exact isProd_unique ok h h'
  | div => exact isQuot_unique ok h h'
  | _ => exact h.elim

theorem binary_det {w : Bool} {o : BinOp} {x y : Val} {r r' : C Val} (h : Binary w o x y r) (h' : Binary w o x y r') : r = r' := by
  rcases binary_kinds h with ⟨s, x', t, y', rfl, rfl⟩ | ⟨d, a, b, h1, h2⟩
  · exact binary_int_det h h'
  · rcases binary_kinds h' with ⟨s, x', t, y', rfl, rfl⟩ | ⟨d', a', b', h1', h2'⟩
    · exact absurd h1 not_floatOperands
    · obtain ⟨rfl, rfl, rfl⟩ := floatOperands_det h1 h1'
      rcases h2 with ⟨z, h3, h4, rfl⟩ | ⟨p, v, h3, h4, rfl⟩ <;> rcases h2' with ⟨z', h3', h4', rfl⟩ | ⟨p', v', h3', h4', rfl⟩
      · rw [result_unique (ok_fmt _) h4 h4' (floatOp_det (ok_fmt _) h3 h3')]
      · exfalso; cases o <;> first | exact h3.elim | cases h3'
      · exfalso; cases o <;> first | exact h3'.elim | cases h3
      · rw [h3] at h3'
        cases h3'
        rw [condition_det h4 h4']

theorem toBool_det {v : Val} {b b' : Bool} (h : ToBool v b) (h' : ToBool v b') : b = b' := by
  cases h with
  | int t z _ h =>
    cases h' with
    | int _ _ _ h' => exact Bool.eq_iff_iff.2 (h.trans h'.symm)
    | float _ _ _ _ h' => exact absurd h' not_floating
  | float v d p _ h1 h =>
    cases h' with
    | int => exact absurd h1 not_floating
    | float _ _ _ _ h1' h' =>
      obtain ⟨rfl, rfl⟩ := floating_det h1 h1'
      exact Bool.eq_iff_iff.2 (h.trans h'.symm)

theorem complement_det {x v v' : Val} (h : Complement x v) (h' : Complement x v') : v = v' := by
  cases h with
  | mk s r x z h1 h2 h3 =>
    cases h' with
    | mk _ _ _ _ h1' h2' h3' =>
      obtain rfl := promotes_det h1 h1'
      rw [eq_of_bits _ _ _ h2 h2' fun i hi => (h3 i hi).trans (h3' i hi).symm]

theorem minMax_det {e : Elem} {m : Bool} {x y : Val} {r r' : C Val} (h : MinMax e m x y r) (h' : MinMax e m x y r') :
    Alike r r' := by
  cases h <;> cases h' <;> grind [conv_det, binary_det, Alike, undefined]

theorem commonElem_det {s t r r' : Elem} (h : CommonElem s t r) (h' : CommonElem s t r') : r = r' := by
  cases h <;> cases h' <;> grind [usual_det]

theorem hasType_det {ν : Names} {a : Expr} : ∀ {e e' : Elem}, HasType ν a e → HasType ν a e' → e = e' := by
  induction a <;> intro e e' h h' <;> cases h <;> cases h' <;> grind [commonElem_det]

theorem map_some_inj {α : Type} {a b : List α} (h : a.map some = b.map some) : a = b :=
  List.map_injective_iff.2 (Option.some_injective α) h

theorem none_mem_map {α : Type} {a : List α} : none ∉ a.map some := by simp

theorem reads_det {μ : Memory} {p : Place} {v v' : C Val} (h : Reads μ p v) (h' : Reads μ p v') : v = v' := by
  cases h with
  | value e a o b bs v h1 h2 h3 =>
    cases h' with
    | value _ _ _ b' bs' v' h1' h2' h3' =>
      rw [h1] at h1'
      cases h1'
      rw [map_some_inj (h2.symm.trans h2')] at h3
      rw [denotes_val h3 h3']
    | indeterminate _ _ _ b' h1' h2' =>
      rw [h1] at h1'
      cases h1'
      exact absurd (h2 ▸ h2') none_mem_map
  | indeterminate e a o b h1 h2 =>
    cases h' with
    | value _ _ _ b' bs' v' h1' h2' h3' =>
      rw [h1] at h1'
      cases h1'
      exact absurd (h2' ▸ h2) none_mem_map
    | indeterminate => rfl

theorem writes_det {μ μ1 μ2 : Memory} {p : Place} {v : Val} (h : Writes μ p v μ1) (h' : Writes μ p v μ2) : μ1 = μ2 := by
  cases h; cases h'; grind [denotes_inj]

/-! ## Expressions -/

theorem binary_not_logic {w : Bool} {o : BinOp} {x y : Val} {r : C Val} (h : Binary w o x y r) : o ≠ .land ∧ o ≠ .lor := by
  constructor <;> rintro rfl <;> cases h <;> simp_all [SpecExec.exact, bitOp, Compares, FloatCompares, FloatOp]

theorem alike_ok {α : Type} {x y : α} : Alike (.ok x) (.ok y) ↔ x = y := by simp [Alike, undefined]
theorem alike_ub {α : Type} {u u' : UB} : Alike (α := α) (.ub u) (.ub u') := .inr ⟨rfl, rfl⟩
theorem not_alike {α : Type} {x : α} {u : UB} : ¬ Alike (.ok x) (.ub u) := by simp [Alike, undefined]
theorem not_alike' {α : Type} {x : α} {u : UB} : ¬ Alike (.ub u) (.ok x) := by simp [Alike, undefined]
theorem alike_refl {α : Type} (r : C α) : Alike r r := .inl rfl

theorem eval_det {w : Bool} {ν : Names} {μ : Memory} (a : Expr) :
    (∀ p p', Eval w ν μ a (.place p) → Eval w ν μ a (.place p') → Alike p p') ∧
    (∀ v v', Eval w ν μ a (.val v) → Eval w ν μ a (.val v') → Alike v v') := by
  have one : ∀ {l : Expr}, (∀ p p', Eval w ν μ l (.place p) → Eval w ν μ l (.place p') → Alike p p') →
      (∀ v, Eval w ν μ l (.val v) → (∃ p, Eval w ν μ l (.place (.ok p)) ∧ Reads μ p v) ∨
        ∃ u, Eval w ν μ l (.place (.ub u)) ∧ v = .ub u) →
      (∀ v v', Eval w ν μ l (.val v) → Eval w ν μ l (.val v') → Alike v v') := by
    intro l h1 h2 v v' h h'
    rcases h2 v h with ⟨p, hp, hr⟩ | ⟨u, hp, rfl⟩ <;> rcases h2 v' h' with ⟨p', hp', hr'⟩ | ⟨u', hp', rfl⟩
    · cases alike_ok.1 (h1 _ _ hp hp')
      exact .inl (reads_det hr hr')
    · exact absurd (h1 _ _ hp hp') not_alike
    · exact absurd (h1 _ _ hp hp') not_alike'
    · exact alike_ub
  induction a with
  | var x =>
    have hp : ∀ p p', Eval w ν μ (.var x) (.place p) → Eval w ν μ (.var x) (.place p') → Alike p p' := by
      intro p p' h h'
      cases h; cases h'; grind [Alike, undefined]
    refine ⟨hp, one hp fun v h => ?_⟩
    cases h with
    | load _ p _ h1 h2 => exact .inl ⟨p, h1, h2⟩
    | loadUB _ u h1 => exact .inr ⟨u, h1, rfl⟩
    | first _ _ _ h => cases h
    | second _ _ _ h => cases h
  | lane x i ih =>
    have hp : ∀ p p', Eval w ν μ (.lane x i) (.place p) → Eval w ν μ (.lane x i) (.place p') → Alike p p' := by
      intro p p' h h'
      cases h <;> cases h' <;> grind [Alike, undefined]
    refine ⟨hp, one hp fun v h => ?_⟩
    cases h with
    | load _ p _ h1 h2 => exact .inl ⟨p, h1, h2⟩
    | loadUB _ u h1 => exact .inr ⟨u, h1, rfl⟩
    | first _ _ _ h => cases h
    | second _ _ _ h => cases h
  | lane2 x j i ihj ihi =>
    have hp : ∀ p p', Eval w ν μ (.lane2 x j i) (.place p) → Eval w ν μ (.lane2 x j i) (.place p') → Alike p p' := by
      intro p p' h h'
      cases h <;> cases h' <;> grind [Alike, undefined]
    refine ⟨hp, one hp fun v h => ?_⟩
    cases h with
    | load _ p _ h1 h2 => exact .inl ⟨p, h1, h2⟩
    | loadUB _ u h1 => exact .inr ⟨u, h1, rfl⟩
    | first _ _ _ h => cases h
    | second _ _ _ h => cases h
  | elem x i ih =>
    have hp : ∀ p p', Eval w ν μ (.elem x i) (.place p) → Eval w ν μ (.elem x i) (.place p') → Alike p p' := by
      intro p p' h h'
      cases h <;> cases h' <;> grind [Alike, undefined]
    refine ⟨hp, one hp fun v h => ?_⟩
    cases h with
    | load _ p _ h1 h2 => exact .inl ⟨p, h1, h2⟩
    | loadUB _ u h1 => exact .inr ⟨u, h1, rfl⟩
    | first _ _ _ h => cases h
    | second _ _ _ h => cases h
  | num t n =>
    refine ⟨fun p p' h => (by cases h), fun v v' h h' => ?_⟩
    have key : ∀ {v}, Eval w ν μ (.num t n) (.val v) → v = .ok (.int t n) := by
      intro v h
      cases h with
      | load _ _ _ h => cases h
      | loadUB _ _ h => cases h
      | first _ _ _ h => cases h
      | second _ _ _ h => cases h
      | num => rfl
    exact .inl ((key h).trans (key h').symm)
  | dbl n =>
    refine ⟨fun p p' h => (by cases h), fun v v' h h' => ?_⟩
    have key : ∀ {v}, Eval w ν μ (.dbl n) (.val v) → ∃ r, IsPattern .b64 r ∧ Rounded .b64 false n r ∧ v = .ok (floatVal true r) := by
      intro v h
      cases h with
      | load _ _ _ h => cases h
      | loadUB _ _ h => cases h
      | first _ _ _ h => cases h
      | second _ _ _ h => cases h
      | dbl r _ h1 h2 => exact ⟨r, h1, h2, rfl⟩
    obtain ⟨r, h1, h2, rfl⟩ := key h
    obtain ⟨r', h1', h2', rfl⟩ := key h'
    rw [toFloat_det (.int .i32 true r n h1 (by exact_mod_cast h2)) (.int .i32 true r' n h1' (by exact_mod_cast h2'))]
    exact alike_refl _
  | bin o a b iha ihb =>
    have np : ∀ p, ¬ Eval w ν μ (.bin o a b) (.place p) := fun p h => by cases h
    refine ⟨fun p p' h => absurd h (np p), fun v v' h h' => ?_⟩
    have no : ∀ {x y r}, ¬ Binary w .land x y r ∧ ¬ Binary w .lor x y r :=
      ⟨fun h => (binary_not_logic h).1 rfl, fun h => (binary_not_logic h).2 rfl⟩
    clear one
    obtain ⟨-, iha⟩ := iha
    obtain ⟨-, ihb⟩ := ihb
    have key : ∀ {v}, Eval w ν μ (.bin o a b) (.val v) →
        (∃ u, Eval w ν μ a (.val (.ub u)) ∧ v = .ub u) ∨
        (o ≠ .land ∧ o ≠ .lor ∧ ∃ u, Eval w ν μ b (.val (.ub u)) ∧ v = .ub u) ∨
        (∃ x, Eval w ν μ a (.val (.ok x)) ∧
          ((o ≠ .land ∧ o ≠ .lor ∧ ∃ y, Eval w ν μ b (.val (.ok y)) ∧ Binary w o x y v) ∨
           (∃ p, ToBool x p ∧ ((o = .land ∧ p = false ∧ v = .ok (.int .i32 0)) ∨ (o = .lor ∧ p = true ∧ v = .ok (.int .i32 1)) ∨
             ((o = .land ∧ p = true ∨ o = .lor ∧ p = false) ∧ ((∃ u, Eval w ν μ b (.val (.ub u)) ∧ v = .ub u) ∨
               ∃ y q c, Eval w ν μ b (.val (.ok y)) ∧ ToBool y q ∧ Condition (q = true) c ∧ v = .ok c)))))) := by
      intro v h
      cases h with
      | load _ _ _ h => exact absurd h (np _)
      | loadUB _ _ h => exact absurd h (np _)
      | first _ a' u h1 h2 => cases h1; exact .inl ⟨u, h2, rfl⟩
      | second _ b' u h1 h3 => cases h1 with | bin _ _ _ h4 h5 => exact .inr (.inl ⟨h4, h5, u, h3, rfl⟩)
      | bin _ _ _ x y _ h1 h2 h3 =>
        exact .inr (.inr ⟨x, h1, .inl ⟨(binary_not_logic h3).1, (binary_not_logic h3).2, y, h2, h3⟩⟩)
      | landNo _ _ x h1 h2 => exact .inr (.inr ⟨x, h1, .inr ⟨_, h2, .inl ⟨rfl, rfl, rfl⟩⟩⟩)
      | land _ _ x y q c h1 h2 h3 h4 h5 =>
        exact .inr (.inr ⟨x, h1, .inr ⟨_, h2, .inr (.inr ⟨.inl ⟨rfl, rfl⟩, .inr ⟨y, q, c, h3, h4, h5, rfl⟩⟩)⟩⟩)
      | landUB _ _ x u h1 h2 h3 => exact .inr (.inr ⟨x, h1, .inr ⟨_, h2, .inr (.inr ⟨.inl ⟨rfl, rfl⟩, .inl ⟨u, h3, rfl⟩⟩)⟩⟩)
      | lorYes _ _ x h1 h2 => exact .inr (.inr ⟨x, h1, .inr ⟨_, h2, .inr (.inl ⟨rfl, rfl, rfl⟩)⟩⟩)
      | lor _ _ x y q c h1 h2 h3 h4 h5 =>
        exact .inr (.inr ⟨x, h1, .inr ⟨_, h2, .inr (.inr ⟨.inr ⟨rfl, rfl⟩, .inr ⟨y, q, c, h3, h4, h5, rfl⟩⟩)⟩⟩)
      | lorUB _ _ x u h1 h2 h3 => exact .inr (.inr ⟨x, h1, .inr ⟨_, h2, .inr (.inr ⟨.inr ⟨rfl, rfl⟩, .inl ⟨u, h3, rfl⟩⟩)⟩⟩)
    rcases key h with ⟨u, h1, rfl⟩ | ⟨g1, g2, u, h1, rfl⟩ | ⟨x, h1, h2⟩ <;>
      rcases key h' with ⟨u', h1', rfl⟩ | ⟨g1', g2', u', h1', rfl⟩ | ⟨x', h1', h2'⟩
    · exact alike_ub
    · exact alike_ub
    · exact absurd (iha _ _ h1 h1') not_alike'
    · exact alike_ub
    · exact alike_ub
    · rcases h2' with ⟨-, -, y, h3, -⟩ | ⟨p, -, h4⟩
      · exact absurd (ihb _ _ h1 h3) not_alike'
      · grind
    · exact absurd (iha _ _ h1 h1') not_alike
    · rcases h2 with ⟨-, -, y, h3, -⟩ | ⟨p, -, h4⟩
      · exact absurd (ihb _ _ h3 h1') not_alike
      · grind
    · cases alike_ok.1 (iha _ _ h1 h1')
      clear key np no iha h1 h1' h h'
      rcases h2 with ⟨h3, h4, y, h5, h6⟩ | ⟨p, h3, h4⟩ <;> rcases h2' with ⟨h3', h4', y', h5', h6'⟩ | ⟨p', h3', h4'⟩
      · cases alike_ok.1 (ihb _ _ h5 h5')
        exact .inl (binary_det h6 h6')
      · grind
      · grind
      · cases toBool_det h3 h3'
        rcases h4 with ⟨rfl, rfl, rfl⟩ | ⟨rfl, rfl, rfl⟩ | ⟨h4, ⟨u, h5, rfl⟩ | ⟨y, q, c, h5, h6, h7, rfl⟩⟩ <;>
          rcases h4' with ⟨h8, h9, rfl⟩ | ⟨h8, h9, rfl⟩ | ⟨h4', ⟨u', h5', rfl⟩ | ⟨y', q', c', h5', h6', h7', rfl⟩⟩ <;>
          grind [toBool_det, condition_det, Alike, undefined]
  | compl a ih =>
    have np : ∀ p, ¬ Eval w ν μ (.compl a) (.place p) := fun p h => by cases h
    refine ⟨fun p p' h => absurd h (np p), fun v v' h h' => ?_⟩
    have key : ∀ {v}, Eval w ν μ (.compl a) (.val v) →
        (∃ u, Eval w ν μ a (.val (.ub u)) ∧ v = .ub u) ∨ ∃ x y, Eval w ν μ a (.val (.ok x)) ∧ Complement x y ∧ v = .ok y := by
      intro v h
      cases h with
      | load _ _ _ h => exact absurd h (np _)
      | loadUB _ _ h => exact absurd h (np _)
      | first _ a' u h1 h2 => cases h1; exact .inl ⟨u, h2, rfl⟩
      | second _ b' u h1 => cases h1
      | compl _ x y h1 h2 => exact .inr ⟨x, y, h1, h2, rfl⟩
    rcases key h with ⟨u, h1, rfl⟩ | ⟨x, y, h1, h2, rfl⟩ <;> rcases key h' with ⟨u', h1', rfl⟩ | ⟨x', y', h1', h2', rfl⟩
    · exact alike_ub
    · exact absurd (ih.2 _ _ h1 h1') not_alike'
    · exact absurd (ih.2 _ _ h1 h1') not_alike
    · cases alike_ok.1 (ih.2 _ _ h1 h1')
      rw [complement_det h2 h2']
      exact alike_refl _
  | not a ih =>
    have np : ∀ p, ¬ Eval w ν μ (.not a) (.place p) := fun p h => by cases h
    refine ⟨fun p p' h => absurd h (np p), fun v v' h h' => ?_⟩
    have key : ∀ {v}, Eval w ν μ (.not a) (.val v) →
        (∃ u, Eval w ν μ a (.val (.ub u)) ∧ v = .ub u) ∨
        ∃ x p y, Eval w ν μ a (.val (.ok x)) ∧ ToBool x p ∧ Condition (p = false) y ∧ v = .ok y := by
      intro v h
      cases h with
      | load _ _ _ h => exact absurd h (np _)
      | loadUB _ _ h => exact absurd h (np _)
      | first _ a' u h1 h2 => cases h1; exact .inl ⟨u, h2, rfl⟩
      | second _ b' u h1 => cases h1
      | not _ x p y h1 h2 h3 => exact .inr ⟨x, p, y, h1, h2, h3, rfl⟩
    rcases key h with ⟨u, h1, rfl⟩ | ⟨x, p, y, h1, h2, h3, rfl⟩ <;> rcases key h' with ⟨u', h1', rfl⟩ | ⟨x', p', y', h1', h2', h3', rfl⟩
    · exact alike_ub
    · exact absurd (ih.2 _ _ h1 h1') not_alike'
    · exact absurd (ih.2 _ _ h1 h1') not_alike
    · cases alike_ok.1 (ih.2 _ _ h1 h1')
      cases toBool_det h2 h2'
      rw [condition_det h3 h3']
      exact alike_refl _
  | cast e a ih =>
    have np : ∀ p, ¬ Eval w ν μ (.cast e a) (.place p) := fun p h => by cases h
    refine ⟨fun p p' h => absurd h (np p), fun v v' h h' => ?_⟩
    have key : ∀ {v}, Eval w ν μ (.cast e a) (.val v) →
        (∃ u, Eval w ν μ a (.val (.ub u)) ∧ v = .ub u) ∨ ∃ x, Eval w ν μ a (.val (.ok x)) ∧ Conv e x v := by
      intro v h
      cases h with
      | load _ _ _ h => exact absurd h (np _)
      | loadUB _ _ h => exact absurd h (np _)
      | first _ a' u h1 h2 => cases h1; exact .inl ⟨u, h2, rfl⟩
      | second _ b' u h1 => cases h1
      | cast _ _ x _ h1 h2 => exact .inr ⟨x, h1, h2⟩
    rcases key h with ⟨u, h1, rfl⟩ | ⟨x, h1, h2⟩ <;> rcases key h' with ⟨u', h1', rfl⟩ | ⟨x', h1', h2'⟩
    · exact alike_ub
    · exact absurd (ih.2 _ _ h1 h1') not_alike'
    · exact absurd (ih.2 _ _ h1 h1') not_alike
    · cases alike_ok.1 (ih.2 _ _ h1 h1')
      exact .inl (conv_det h2 h2')
  | stdMin t a b iha ihb =>
    have np : ∀ p, ¬ Eval w ν μ (.stdMin t a b) (.place p) := fun p h => by cases h
    refine ⟨fun p p' h => absurd h (np p), fun v v' h h' => ?_⟩
    have key : ∀ {v}, Eval w ν μ (.stdMin t a b) (.val v) →
        (∃ u, Eval w ν μ a (.val (.ub u)) ∧ v = .ub u) ∨ (∃ u, Eval w ν μ b (.val (.ub u)) ∧ v = .ub u) ∨
          ∃ x y e, Eval w ν μ a (.val (.ok x)) ∧ Eval w ν μ b (.val (.ok y)) ∧ (t = some e ∨ t = none ∧ HasType ν a e) ∧
            MinMax e false x y v := by
      intro v h
      cases h with
      | load _ _ _ h => exact absurd h (np _)
      | loadUB _ _ h => exact absurd h (np _)
      | first _ a' u h1 h2 => cases h1 <;> exact .inl ⟨u, h2, rfl⟩
      | second _ b' u h1 h3 => cases h1 <;> exact .inr (.inl ⟨u, h3, rfl⟩)
      | minT e _ _ x y _ h1 h2 h3 => exact .inr (.inr ⟨x, y, e, h1, h2, .inl rfl, h3⟩)
      | min e _ _ x y _ h1 h2 h3 h4 h5 => exact .inr (.inr ⟨x, y, e, h3, h4, .inr ⟨rfl, h1⟩, h5⟩)
    rcases key h with ⟨u, h1, rfl⟩ | ⟨u, h1, rfl⟩ | ⟨x, y, e, h1, h2, h3, h4⟩ <;>
      rcases key h' with ⟨u', h1', rfl⟩ | ⟨u', h1', rfl⟩ | ⟨x', y', e', h1', h2', h3', h4'⟩
    · exact alike_ub
    · exact alike_ub
    · exact absurd (iha.2 _ _ h1 h1') not_alike'
    · exact alike_ub
    · exact alike_ub
    · exact absurd (ihb.2 _ _ h1 h2') not_alike'
    · exact absurd (iha.2 _ _ h1 h1') not_alike
    · exact absurd (ihb.2 _ _ h2 h1') not_alike
    · cases alike_ok.1 (iha.2 _ _ h1 h1')
      cases alike_ok.1 (ihb.2 _ _ h2 h2')
      obtain rfl : e = e' := by grind [hasType_det]
      exact minMax_det h4 h4'
  | stdMax t a b iha ihb =>
    have np : ∀ p, ¬ Eval w ν μ (.stdMax t a b) (.place p) := fun p h => by cases h
    refine ⟨fun p p' h => absurd h (np p), fun v v' h h' => ?_⟩
    have key : ∀ {v}, Eval w ν μ (.stdMax t a b) (.val v) →
        (∃ u, Eval w ν μ a (.val (.ub u)) ∧ v = .ub u) ∨ (∃ u, Eval w ν μ b (.val (.ub u)) ∧ v = .ub u) ∨
          ∃ x y e, Eval w ν μ a (.val (.ok x)) ∧ Eval w ν μ b (.val (.ok y)) ∧ (t = some e ∨ t = none ∧ HasType ν a e) ∧
            MinMax e true x y v := by
      intro v h
      cases h with
      | load _ _ _ h => exact absurd h (np _)
      | loadUB _ _ h => exact absurd h (np _)
      | first _ a' u h1 h2 => cases h1 <;> exact .inl ⟨u, h2, rfl⟩
      | second _ b' u h1 h3 => cases h1 <;> exact .inr (.inl ⟨u, h3, rfl⟩)
      | maxT e _ _ x y _ h1 h2 h3 => exact .inr (.inr ⟨x, y, e, h1, h2, .inl rfl, h3⟩)
      | max e _ _ x y _ h1 h2 h3 h4 h5 => exact .inr (.inr ⟨x, y, e, h3, h4, .inr ⟨rfl, h1⟩, h5⟩)
    rcases key h with ⟨u, h1, rfl⟩ | ⟨u, h1, rfl⟩ | ⟨x, y, e, h1, h2, h3, h4⟩ <;>
      rcases key h' with ⟨u', h1', rfl⟩ | ⟨u', h1', rfl⟩ | ⟨x', y', e', h1', h2', h3', h4'⟩
    · exact alike_ub
    · exact alike_ub
    · exact absurd (iha.2 _ _ h1 h1') not_alike'
    · exact alike_ub
    · exact alike_ub
    · exact absurd (ihb.2 _ _ h1 h2') not_alike'
    · exact absurd (iha.2 _ _ h1 h1') not_alike
    · exact absurd (ihb.2 _ _ h2 h1') not_alike
    · cases alike_ok.1 (iha.2 _ _ h1 h1')
      cases alike_ok.1 (ihb.2 _ _ h2 h2')
      obtain rfl : e = e' := by grind [hasType_det]
      exact minMax_det h4 h4'
  | ite c a b ihc iha ihb =>
    have np : ∀ p, ¬ Eval w ν μ (.ite c a b) (.place p) := fun p h => by cases h
    refine ⟨fun p p' h => absurd h (np p), fun v v' h h' => ?_⟩
    have key : ∀ {v}, Eval w ν μ (.ite c a b) (.val v) →
        (∃ u, Eval w ν μ c (.val (.ub u)) ∧ v = .ub u) ∨ ∃ x p, Eval w ν μ c (.val (.ok x)) ∧ ToBool x p ∧
          Eval w ν μ (if p then a else b) (.val v) := by
      intro v h
      cases h with
      | load _ _ _ h => exact absurd h (np _)
      | loadUB _ _ h => exact absurd h (np _)
      | first _ a' u h1 h2 => cases h1; exact .inl ⟨u, h2, rfl⟩
      | second _ b' u h1 => cases h1
      | condYes _ _ _ e x _ h1 h2 h3 h4 h5 => exact .inr ⟨x, true, h3, h4, h5⟩
      | condNo _ _ _ e x _ h1 h2 h3 h4 h5 => exact .inr ⟨x, false, h3, h4, h5⟩
    rcases key h with ⟨u, h1, rfl⟩ | ⟨x, p, h1, h2, h3⟩ <;> rcases key h' with ⟨u', h1', rfl⟩ | ⟨x', p', h1', h2', h3'⟩
    · exact alike_ub
    · exact absurd (ihc.2 _ _ h1 h1') not_alike'
    · exact absurd (ihc.2 _ _ h1 h1') not_alike
    · cases alike_ok.1 (ihc.2 _ _ h1 h1')
      cases toBool_det h2 h2'
      cases p
      · exact ihb.2 _ _ h3 h3'
      · exact iha.2 _ _ h3 h3'

theorem place_det {w : Bool} {ν : Names} {μ : Memory} {a : Expr} {p p' : C Place} (h : Eval w ν μ a (.place p))
    (h' : Eval w ν μ a (.place p')) : Alike p p' := (eval_det a).1 _ _ h h'
theorem value_det {w : Bool} {ν : Names} {μ : Memory} {a : Expr} {v v' : C Val} (h : Eval w ν μ a (.val v))
    (h' : Eval w ν μ a (.val v')) : Alike v v' := (eval_det a).2 _ _ h h'

theorem place_ok {w : Bool} {ν : Names} {μ : Memory} {a : Expr} {p p' : Place} (h : Eval w ν μ a (.place (.ok p)))
    (h' : Eval w ν μ a (.place (.ok p'))) : p = p' := alike_ok.1 (place_det h h')
theorem place_no {w : Bool} {ν : Names} {μ : Memory} {a : Expr} {p : Place} {u : UB} (h : Eval w ν μ a (.place (.ok p)))
    (h' : Eval w ν μ a (.place (.ub u))) : False := not_alike (place_det h h')
theorem value_ok {w : Bool} {ν : Names} {μ : Memory} {a : Expr} {v v' : Val} (h : Eval w ν μ a (.val (.ok v)))
    (h' : Eval w ν μ a (.val (.ok v'))) : v = v' := alike_ok.1 (value_det h h')
theorem value_no {w : Bool} {ν : Names} {μ : Memory} {a : Expr} {v : Val} {u : UB} (h : Eval w ν μ a (.val (.ok v)))
    (h' : Eval w ν μ a (.val (.ub u))) : False := not_alike (value_det h h')

end Verif.Props
