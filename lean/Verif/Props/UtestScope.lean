import Verif.Model.UtestScope
import Verif.Props.UtestNear
import Verif.Props.UtestCompare

/-!
C109: a check judges its arguments as the test has them, whatever its variables are called.
-/

namespace Verif.Props
open Verif.Utest Verif.Spec

theorem bind_other (s : Scope) {x y : String} (v : Option Val) (h : y ≠ x) : s.bind x v y = s y := if_neg h

/-- A declaration does not matter to a text that does not have its name. -/
theorem eval_bind (t : Term) (n : String) (h : t.mentions n = false) (s : Scope) (v : Option Val) : t.eval (s.bind n v) = t.eval s := by
  induction t with
  | val w => rfl
  | var x =>
    have h : x ≠ n := by simpa [Term.mentions] using h
    simp only [Term.eval, bind_other s v h]
  | unary f a ih => simp only [Term.eval, ih h]
  | binary f a b iha ihb =>
    simp only [Term.mentions, Bool.or_eq_false_iff] at h
    simp only [Term.eval, iha h.1, ihb h.2]

/-- The values of texts: a name stands for what the variable holds, an operation is applied to the values of its operands, the left one first. -/
inductive HasValue (s : Scope) : Term → Val → Prop
  | val (v : Val) : HasValue s (.val v) v
  | var {x : String} {v : Val} : s x = some v → HasValue s (.var x) v
  | unary {f : Val → C Val} {a : Term} {u v : Val} : HasValue s a u → f u = .ok v → HasValue s (.unary f a) v
  | binary {f : Val → Val → C Val} {a b : Term} {u w v : Val} : HasValue s a u → HasValue s b w → f u w = .ok v → HasValue s (.binary f a b) v

theorem bind_is_ok {α β : Type} (a : C α) (f : α → C β) (v : β) : (a >>= f) = .ok v ↔ ∃ u, a = .ok u ∧ f u = .ok v := by
  cases a with
  | ok u => exact ⟨fun h => ⟨u, rfl, h⟩, by rintro ⟨u', h, h'⟩; cases h; exact h'⟩
  | _ => exact ⟨fun h => (by cases h), by rintro ⟨u', h, -⟩; cases h⟩

/-- Evaluation gives the value. -/
theorem eval_value (t : Term) (s : Scope) (v : Val) : t.eval s = .ok v ↔ HasValue s t v := by
  induction t generalizing v with
  | val w => exact ⟨fun h => by cases h; exact .val _, fun h => by cases h; rfl⟩
  | var x =>
    constructor
    · intro h
      unfold Term.eval at h
      split at h
      · rename_i w hw; cases h; exact .var hw
      · cases h
    · rintro (_ | h)
      simp only [Term.eval, h]
  | unary f a ih =>
    show (a.eval s >>= fun u => f u) = .ok v ↔ _
    rw [bind_is_ok]
    exact ⟨fun ⟨u, h, h'⟩ => .unary ((ih u).1 h) h', fun h => by cases h with | unary h h' => exact ⟨_, (ih _).2 h, h'⟩⟩
  | binary f a b iha ihb =>
    show (a.eval s >>= fun u => b.eval s >>= fun w => f u w) = .ok v ↔ _
    simp only [bind_is_ok]
    exact ⟨fun ⟨u, h, w, h', h''⟩ => .binary ((iha u).1 h) ((ihb w).1 h') h'',
      fun h => by cases h with | binary h h' h'' => exact ⟨_, (iha _).2 h, _, (ihb _).2 h', h''⟩⟩

/-! ## Comparisons -/

/-- `EXPECT_EQ` and the like judge the values that their arguments have in the test, if the first does not have the name `xEval`, nor the second
`xEval` or `yEval`. -/
theorem scope_compare_partial (c : Cond) (x y : Term) (s : Scope) (hx : x.mentions "xEval" = false) (hy : y.mentions "xEval" = false)
    (hy' : y.mentions "yEval" = false) :
    scopeCompare c x y s = some (do let v ← x.eval s; let w ← y.eval s; .ok (c.holds v w)) := by
  unfold scopeCompare
  rw [hx, hy', if_neg (by simp), if_neg (by simp), eval_bind x _ hx]
  congr 1
  cases x.eval s with
  | ok v =>
    show (y.eval _ >>= fun w => _) = (y.eval s >>= fun w => _)
    rw [eval_bind y _ hy', eval_bind y _ hy]
  | _ => rfl

/-- The same, of the values. -/
theorem scope_compare_values_partial (c : Cond) {x y : Term} {s : Scope} {v w : Val} (hx : x.mentions "xEval" = false) (hy : y.mentions "xEval" = false)
    (hy' : y.mentions "yEval" = false) (hv : HasValue s x v) (hw : HasValue s y w) : scopeCompare c x y s = some (.ok (c.holds v w)) := by
  rw [scope_compare_partial c x y s hx hy hy', (eval_value _ _ _).2 hv, (eval_value _ _ _).2 hw]
  rfl

/-- The compiler notices when a variable would initialize itself. -/
theorem scope_compare_rejected (c : Cond) (x y : Term) (s : Scope) (h : x.mentions "xEval" = true ∨ y.mentions "yEval" = true) :
    scopeCompare c x y s = none := by
  unfold scopeCompare
  rcases h with h | h
  · rw [if_pos h]
  · rw [if_pos h, ite_self]

/-- `EXPECT_EQ(x, xEval)` compares `x` with itself: it passes whatever the variable `xEval` of the test holds. -/
theorem scope_compare_wrong (x : Term) (s : Scope) (hx : x.mentions "xEval" = false) (t : ITy) (n : Int) (h : x.eval s = .ok (.int t n)) :
    scopeCompare .eq x (.var "xEval") s = some (.ok true) := by
  unfold scopeCompare
  rw [hx, if_neg (by simp), if_neg (by decide), eval_bind x _ hx, h]
  show some (C.ok (Val.eq (.int t n) (.int t n))) = _
  congr 2
  simp [Val.eq, Val.cmp]

-- a test with `int xEval = 2;`: `EXPECT_EQ(1, xEval)` passes, `EXPECT_EQ(xEval, 1)` is rejected, and `EXPECT_EQ(1, b)` with `b = 2` fails
example (s : Scope) (h : s "b" = some (vint 2)) : scopeCompare .eq (.val (vint 1)) (.var "xEval") (s.bind "xEval" (some (vint 2))) = some (.ok true) ∧
    scopeCompare .eq (.var "xEval") (.val (vint 1)) s = none ∧ scopeCompare .eq (.val (vint 1)) (.var "b") s = some (.ok false) := by
  refine ⟨scope_compare_wrong _ _ rfl .i32 1 rfl, scope_compare_rejected _ _ _ _ (.inl rfl), ?_⟩
  rw [scope_compare_partial _ _ _ _ rfl rfl rfl]
  simp only [Term.eval, h]
  rfl

/-! ## Distances -/

/-- Nothing is less than itself. -/
theorem less_irrefl (d : Datum) : ¬ d.Less d := by
  rcases d with _ | (_ | _) | ⟨s, x⟩
  · exact id
  · exact id
  · exact id
  · exact lt_irrefl x

/-- What is rounded is a number or infinite. -/
theorem rounded_number' {f : Fmt} {zs : Bool} {x : ℚ} {r : Nat} (h : Rounded f zs x r) : decode f r ≠ .nan := by
  unfold Rounded at h
  intro hn
  split at h
  · rw [hn] at h; cases h
  · rcases lt_or_ge |x| (overflowAt f) with hx | hx
    · obtain ⟨v, h, -⟩ := h.nearest hx
      rw [hn] at h; cases h
    · have := h.overflow hx
      rw [hn] at this; cases this

/-- `EXPECT_NEAR` judges the values that its arguments have in the test if none of them has the name `diff`. -/
theorem scope_near_partial (x y e : Term) (s : Scope) (hx : x.mentions "diff" = false) (hy : y.mentions "diff" = false) (he : e.mentions "diff" = false) :
    scopeNear x y e s = (do let v ← x.eval s; let w ← y.eval s; let d ← e.eval s; .ok !(nearFails v.toF64 w.toF64 d.toF64)) := by
  unfold scopeNear
  rw [eval_bind x _ hx, eval_bind y _ hy]
  simp only [eval_bind e _ he]

/-- The same, of the values. -/
theorem scope_near_values_partial {x y e : Term} {s : Scope} {v w d : Val} (hx : x.mentions "diff" = false) (hy : y.mentions "diff" = false)
    (he : e.mentions "diff" = false) (hv : HasValue s x v) (hw : HasValue s y w) (hd : HasValue s e d) :
    scopeNear x y e s = .ok !(nearFails v.toF64 w.toF64 d.toF64) := by
  rw [scope_near_partial x y e s hx hy he, (eval_value _ _ _).2 hv, (eval_value _ _ _).2 hw, (eval_value _ _ _).2 hd]
  rfl

-- `EXPECT_EQ(a - b, 1)` with `a = 3` and `b = 2` in the test, for any subtraction that gives 1
example (s : Scope) (f : Val → Val → C Val) (ha : s "a" = some (vint 3)) (hb : s "b" = some (vint 2)) (h : f (vint 3) (vint 2) = .ok (vint 1)) :
    scopeCompare .eq (.binary f (.var "a") (.var "b")) (.val (vint 1)) s = some (.ok true) :=
  scope_compare_values_partial .eq rfl rfl rfl (.binary (.var ha) (.var hb) h) (.val _)

/-- `EXPECT_NEAR(x, y, diff)` compares the distance with itself: whatever the variable `diff` of the test holds, it passes unless the distance is
not a number. -/
theorem scope_near_wrong (x y : Term) (s : Scope) (hx : x.mentions "diff" = false) (hy : y.mentions "diff" = false) (v w : Val)
    (hv : x.eval s = .ok v) (hw : y.eval s = .ok w) (n n' : Bool) (a b : ℚ) (ha : decode .b64 v.toF64.toNat = .num n a)
    (hb : decode .b64 w.toF64.toNat = .num n' b) : scopeNear x y (.var "diff") s = .ok true := by
  unfold scopeNear
  rw [eval_bind x _ hx, eval_bind y _ hy, hv, hw]
  show C.ok (!(nearFails v.toF64 w.toF64 (utest_fabs (BitVec.ofNat 64 (Fmt.b64.sub v.toF64.toNat w.toF64.toNat))))) = _
  have hd := near_dist v.toF64 w.toF64
  rw [C.ok.injEq, Bool.not_eq_true', Bool.eq_false_iff, Ne, near_fails_iff]
  rintro ⟨d, h, o⟩
  rw [isDist_unique FpOps.ok64 hd h] at o
  rw [ha, hb] at h
  obtain ⟨r, hr, hn⟩ := h
  rcases o with o | rfl
  · exact less_irrefl d o
  · have := rounded_number' hr
    cases hq : decode .b64 r with
    | nan => exact this hq
    | _ => rw [hq] at hn; cases hn

-- a test with `double diff = 0;`: `EXPECT_NEAR(1.0, 2.0, diff)` passes, and `EXPECT_NEAR(1.0, 2.0, e)` with `e = 0` does not
example (s : Scope) (h : s "e" = some (.f64 0#64)) :
    scopeNear (.val (.f64 0x3ff0000000000000#64)) (.val (.f64 0x4000000000000000#64)) (.var "diff") (s.bind "diff" (some (.f64 0#64))) = .ok true ∧
    scopeNear (.val (.f64 0x3ff0000000000000#64)) (.val (.f64 0x4000000000000000#64)) (.var "e") s = .ok false := by
  constructor
  · exact scope_near_wrong _ _ _ rfl rfl _ _ rfl rfl _ _ _ _ decode_one64 decode_2_64
  · rw [scope_near_partial _ _ _ _ rfl rfl rfl]
    simp only [Term.eval, h]
    show C.ok (!(nearFails 0x3ff0000000000000#64 0x4000000000000000#64 0#64)) = .ok false
    rw [C.ok.injEq, Bool.not_eq_false']
    by_contra hn
    have := (near_zero decode_one64 (y := 0x4000000000000000#64) (eps := 0#64) decode_2_64 (decode_zero FpOps.ok64)).1 (by simpa using hn)
    norm_num at this

/-- `EXPECT_NEAR(diff, y, epsilon)` reads its own variable before it has a value. -/
theorem scope_near_self_wrong (y e : Term) (s : Scope) : scopeNear (.var "diff") y e s = .ub .indeterminateRead := rfl

/-! ## Exceptions -/

/-- `EXPECT_EXCEPTION` passes exactly if the statement throws an exception of the type, and leaves the variables as the statement does, if the
statement neither changes nor depends on a variable `exception_caught`. -/
theorem scope_exception_partial {E : Type} (isA : E → Bool) (x : Scope → Scope × Option E) (s : Scope)
    (h1 : ∀ s, (x s).1 "exception_caught" = s "exception_caught")
    (h2 : ∀ s v, (x (s.bind "exception_caught" v)).2 = (x s).2 ∧ ∀ y, y ≠ "exception_caught" → (x (s.bind "exception_caught" v)).1 y = (x s).1 y) :
    (scopeException isA x s).1 = (x s).1 ∧ (scopeException isA x s).2 = .ok (match (x s).2 with | some e => isA e | none => false) := by
  have hs := h2 s (some (.int .i32 0))
  unfold scopeException
  simp only
  constructor
  · funext y
    unfold Scope.bind
    split
    · rename_i h; rw [h, h1]
    · rename_i h; exact hs.2 y h
  · rw [hs.1]
    cases (x s).2 with
    | none =>
      simp only
      rw [h1]
      rfl
    | some e =>
      show C.ok (Val.eq (.int .i32 (if isA e then 1 else 2)) (.int .i32 1)) = C.ok (isA e)
      cases isA e <;> rfl

/-- `EXPECT_EXCEPTION(exception_caught = 1, type)` passes although nothing is thrown, and does not assign the variable of the test. -/
theorem scope_exception_wrong {E : Type} (isA : E → Bool) (s : Scope) :
    scopeException isA (fun s => (s.bind "exception_caught" (some (vint 1)), none)) s = (s, .ok true) := by
  unfold scopeException
  refine Prod.ext (funext fun y => ?_) rfl
  simp only [Scope.bind]
  split
  · rename_i h; rw [h]
  · rfl

-- a statement that throws
example (s : Scope) : (scopeException (fun n : Nat => n == 3) (fun s => (s, some 3)) s).2 = .ok true ∧
    (scopeException (fun n : Nat => n == 3) (fun s => (s, some 4)) s).2 = .ok false :=
  ⟨(scope_exception_partial _ _ s (fun _ => rfl) fun _ _ => ⟨rfl, fun _ h => if_neg h⟩).2,
    (scope_exception_partial _ _ s (fun _ => rfl) fun _ _ => ⟨rfl, fun _ h => if_neg h⟩).2⟩

end Verif.Props
