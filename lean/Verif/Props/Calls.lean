import Verif.Model.Calls
import Verif.Props.Link
import Verif.Props.Load

/-!
C108: what the compiler checks of calls of the functions of `neon_sim.h`.
-/

namespace Verif.Props
open Verif.Calls Verif.Cpp

set_option maxRecDepth 100000

/-! ## Specification -/

/-- [over.best.ics] for the types of the header: an arithmetic type converts to every arithmetic type, a structure only to itself, a pointer to a
pointer to the same type, to which `const` may be added; an array is a pointer to its first element; `0` and `nullptr` are null pointers. -/
inductive Implicit : Arg → PTy → Prop
  | arithmetic (e e') : Implicit (.scalar e) (.val (.sc e'))
  | zero (e) : Implicit .zero (.val (.sc e))
  | vec (e n) : Implicit (.vec e n) (.val (.vec e n))
  | arr (e n k) : Implicit (.arr e n k) (.val (.arr e n k))
  | pointer (e c c') : (c = true → c' = true) → Implicit (.ptr c e) (.ptr c' e)
  | array (e n c c') : (c = true → c' = true) → Implicit (.array c e n) (.ptr c' e)
  | zeroPtr (c e) : Implicit .zero (.ptr c e)
  | nullPtr (c e) : Implicit .null (.ptr c e)

/-- The type of a call is the type that the function returns. -/
inductive Gives : Ty → Arg → Prop
  | void : Gives .void .void
  | scalar (e) : Gives (.sc e) (.scalar e)
  | vec (e n) : Gives (.vec e n) (.vec e n)
  | arr (e n k) : Gives (.arr e n k) (.arr e n k)

mutual
/-- An expression has a type: the functions are declared, with as many parameters as there are arguments, and the arguments convert to them. -/
inductive HasType : Ex → Arg → Prop
  | leaf (t) : HasType (.leaf t) t
  | call (g : Sig) (args ts t) : g ∈ declared → HaveTypes args ts → List.Forall₂ Implicit ts g.params → Gives g.ret t → HasType (.call g.name args) t
/-- Expressions have types. -/
inductive HaveTypes : List Ex → List Arg → Prop
  | nil : HaveTypes [] []
  | cons (x xs t ts) : HasType x t → HaveTypes xs ts → HaveTypes (x :: xs) (t :: ts)
end

/-- A register or an array of registers. -/
def Register (t : Arg) : Prop := (∃ e n, t = .vec e n) ∨ ∃ e n k, t = .arr e n k

/-- The end of the names of functions for an element type, as in `vadd_s8`. -/
def suffix : Elem → List Char
  | .int .i8 => ['_', 's', '8'] | .int .i16 => ['_', 's', '1', '6'] | .int .i32 => ['_', 's', '3', '2'] | .int .i64 => ['_', 's', '6', '4']
  | .int .u8 => ['_', 'u', '8'] | .int .u16 => ['_', 'u', '1', '6'] | .int .u32 => ['_', 'u', '3', '2'] | .int .u64 => ['_', 'u', '6', '4']
  | .f32 => ['_', 'f', '3', '2'] | .f64 => ['_', 'f', '6', '4']

/-- The name of a function ends with that of the element type. -/
def Named (f : Nat) (e : Elem) : Prop := ∃ s : List Char, f = nameOf (s ++ suffix e)

/-! ## The rules -/

theorem converts_iff (a : Arg) (p : PTy) : converts a p = true ↔ Implicit a p := by
  constructor
  · intro h
    unfold converts at h
    split at h
    · exact .arithmetic ..
    · exact .zero _
    · rw [beq_iff_eq] at h; subst h; exact .vec ..
    · rw [beq_iff_eq] at h; subst h; exact .arr ..
    · simp only [Bool.and_eq_true, beq_iff_eq, Bool.or_eq_true, Bool.not_eq_true'] at h
      obtain ⟨rfl, h⟩ := h
      exact .pointer _ _ _ fun hc => h.resolve_left (by simp [hc])
    · simp only [Bool.and_eq_true, beq_iff_eq, Bool.or_eq_true, Bool.not_eq_true'] at h
      obtain ⟨rfl, h⟩ := h
      exact .array _ _ _ _ fun hc => h.resolve_left (by simp [hc])
    · exact .zeroPtr ..
    · exact .nullPtr ..
    · cases h
  · rintro (_ | _ | _ | _ | ⟨_, c, c', h⟩ | ⟨_, _, c, c', h⟩ | _ | _) <;> simp [converts]
    · cases c <;> simp_all
    · cases c <;> simp_all

theorem convertsAll_iff (as : List Arg) (ps : List PTy) : convertsAll as ps = true ↔ List.Forall₂ Implicit as ps := by
  induction as generalizing ps with
  | nil => cases ps <;> simp [convertsAll]
  | cons a as ih => cases ps <;> simp [convertsAll, converts_iff, ih]

theorem result_iff (r : Ty) (t : Arg) : result r = some t ↔ Gives r t := by
  constructor
  · intro h
    cases r <;> cases h <;> first | exact .void | exact .scalar _ | exact .vec .. | exact .arr ..
  · rintro (_ | _ | _ | _) <;> rfl

theorem find_declared (f : Nat) (g : Sig) : declared.find? (fun g => g.name == f) = some g ↔ g ∈ declared ∧ g.name = f := by
  constructor
  · intro h
    exact ⟨List.mem_of_find?_eq_some h, by simpa using List.find?_some h⟩
  · rintro ⟨h, rfl⟩
    cases e : declared.find? (fun g' => g'.name == g.name) with
    | none => exact absurd (List.find?_eq_none.1 e g h) (by simp)
    | some g' => rw [header_consistent g' (List.mem_of_find?_eq_some e) g h (by simpa using List.find?_some e)]

mutual
/-- The compiler accepts exactly the expressions that have a type, with that type. -/
theorem check_spec (x : Ex) (t : Arg) : check declared x = some t ↔ HasType x t := by
  match x with
  | .leaf u =>
    rw [check]
    constructor
    · intro h; obtain rfl := Option.some.inj h; exact .leaf _
    · rintro ⟨⟩; rfl
  | .call f args =>
    rw [check]
    simp only [Option.bind_eq_bind, Option.bind_eq_some_iff]
    constructor
    · rintro ⟨ts, h1, g, h2, h3⟩
      obtain ⟨hg, rfl⟩ := (find_declared ..).1 h2
      split at h3
      · rename_i hc
        exact .call g args ts t hg ((checkAll_spec args ts).1 h1) ((convertsAll_iff ..).1 hc) ((result_iff ..).1 h3)
      · cases h3
    · rintro ⟨⟩
      rename_i g ts hg h2 h1 h3
      exact ⟨ts, (checkAll_spec args ts).2 h1, g, (find_declared ..).2 ⟨hg, rfl⟩, by
        rw [if_pos ((convertsAll_iff ..).2 h2)]; exact (result_iff ..).2 h3⟩
theorem checkAll_spec (xs : List Ex) (ts : List Arg) : checkAll declared xs = some ts ↔ HaveTypes xs ts := by
  match xs with
  | [] =>
    rw [checkAll]
    constructor
    · intro h; obtain rfl := Option.some.inj h; exact .nil
    · rintro ⟨⟩; rfl
  | x :: xs =>
    rw [checkAll]
    simp only [Option.bind_eq_bind, Option.bind_eq_some_iff]
    constructor
    · rintro ⟨t, h1, ts', h2, h3⟩
      obtain rfl := Option.some.inj h3
      exact .cons _ _ _ _ ((check_spec x t).1 h1) ((checkAll_spec xs ts').1 h2)
    · rintro ⟨⟩
      rename_i t ts' h1 h2
      exact ⟨t, (check_spec x t).2 h1, ts', (checkAll_spec xs ts').2 h2, rfl⟩
end

/-! ## Registers -/

theorem haveTypes_append {xs ys : List Ex} {ts : List Arg} : HaveTypes (xs ++ ys) ts ↔ ∃ as bs, ts = as ++ bs ∧ HaveTypes xs as ∧ HaveTypes ys bs := by
  induction xs generalizing ts with
  | nil =>
    constructor
    · intro h; exact ⟨[], ts, rfl, .nil, h⟩
    · rintro ⟨as, bs, rfl, h, h'⟩; cases h; exact h'
  | cons x xs ih =>
    constructor
    · rintro ⟨⟩
      rename_i t ts h1 h2
      obtain ⟨as, bs, rfl, ha, hb⟩ := ih.1 h2
      exact ⟨t :: as, bs, rfl, .cons _ _ _ _ h1 ha, hb⟩
    · rintro ⟨as, bs, rfl, h, hb⟩
      cases h
      rename_i t as h1 ha
      exact .cons _ _ _ _ h1 (ih.2 ⟨as, bs, rfl, ha, hb⟩)

theorem hasType_unique {x : Ex} {t u : Arg} (h : HasType x t) (h' : HasType x u) : t = u :=
  Option.some.inj (((check_spec x t).2 h).symm.trans ((check_spec x u).2 h'))

theorem haveTypes_length {xs : List Ex} {ts : List Arg} (h : HaveTypes xs ts) : xs.length = ts.length := by
  induction xs generalizing ts with
  | nil => cases h; rfl
  | cons x xs ih => cases h; rename_i h1 h2; simp [ih h2]

theorem forall₂_split {α β : Type} {R : α → β → Prop} {as bs : List α} {cs : List β} (h : List.Forall₂ R (as ++ bs) cs) :
    ∃ ps qs, List.Forall₂ R as ps ∧ List.Forall₂ R bs qs ∧ cs = ps ++ qs := by
  induction as generalizing cs with
  | nil => exact ⟨[], cs, .nil, h, rfl⟩
  | cons a as ih =>
    cases h
    rename_i c cs h1 h2
    obtain ⟨ps, qs, h3, h4, rfl⟩ := ih h2
    exact ⟨c :: ps, qs, .cons h1 h3, h4, rfl⟩

/-- The declared parameter for an argument of an accepted call. -/
theorem call_param {f : Nat} {pre post : List Ex} {x : Ex} {s t : Arg} (hx : HasType x s) (h : HasType (.call f (pre ++ x :: post)) t) :
    ∃ g ∈ declared, g.name = f ∧ ∃ p, g.params[pre.length]? = some p ∧ Implicit s p := by
  cases h
  rename_i g ts hg h2 h1 h3
  obtain ⟨as, bs, rfl, ha, hb⟩ := haveTypes_append.1 h1
  cases hb
  rename_i u bs hu hb
  obtain rfl := hasType_unique hx hu
  obtain ⟨ps, qs, h4, h5, h6⟩ := forall₂_split h2
  cases h5
  rename_i p qs hp hq
  refine ⟨g, hg, rfl, p, ?_, hp⟩
  rw [h6, haveTypes_length ha, h4.length_eq]
  simp

/-- A register of another type, even with lanes of the same width and as many of them, and anything else, is rejected where a register is accepted. -/
theorem call_register {f : Nat} {pre post : List Ex} {x y : Ex} {s s' t : Arg} (hx : HasType x s) (hs : Register s) (hy : HasType y s') (hne : s' ≠ s)
    (h : check declared (.call f (pre ++ x :: post)) = some t) : check declared (.call f (pre ++ y :: post)) = none := by
  rw [check_spec] at h
  obtain ⟨g, hg, hf, p, hp, hi⟩ := call_param hx h
  refine Option.eq_none_iff_forall_ne_some.2 fun u hu => ?_
  rw [check_spec] at hu
  obtain ⟨g', hg', hf', p', hp', hi'⟩ := call_param hy hu
  obtain rfl := header_consistent g' hg' g hg (hf'.trans hf.symm)
  obtain rfl := Option.some.inj (hp.symm.trans hp')
  rcases hs with ⟨e, n, rfl⟩ | ⟨e, n, k, rfl⟩
  · cases hi; cases hi'; exact hne rfl
  · cases hi; cases hi'; exact hne rfl

/-- The number of arguments is checked. -/
theorem call_count {f : Nat} {xs ys : List Ex} {t : Arg} (h : check declared (.call f xs) = some t) (hl : ys.length ≠ xs.length) :
    check declared (.call f ys) = none := by
  rw [check_spec] at h
  refine Option.eq_none_iff_forall_ne_some.2 fun u hu => ?_
  rw [check_spec] at hu
  generalize hf' : f = f' at hu
  cases h
  rename_i g ts hg h2 h1 h3
  cases hu
  rename_i g' ts' hg' h2' h1' h3'
  obtain rfl := header_consistent g hg g' hg' hf'
  apply hl
  rw [haveTypes_length h1, haveTypes_length h1', h2.length_eq, h2'.length_eq]

/-! ## Pointers -/

/-- The element type that a parameter shows. -/
def shown : PTy → Option Elem
  | .val (.vec e _) => some e
  | .val (.arr e _ _) => some e
  | .ptr _ e => some e
  | _ => none

def namedB (f : Nat) (e : Elem) : Bool := f % 256 ^ (suffix e).length == nameOf (suffix e)

/-- The characters of a name. -/
def charsOf : Nat → Nat → List Char
  | 0, _ => []
  | k + 1, n => if n = 0 then [] else charsOf k (n / 256) ++ [Char.ofNat (n % 256)]

theorem nameOf_append (s r : List Char) : nameOf (s ++ r) = nameOf s * 256 ^ r.length + nameOf r := by
  have key : ∀ (r : List Char) (a : Nat), r.foldl (fun n c => n * 256 + c.toNat) a = a * 256 ^ r.length + nameOf r := by
    intro r
    induction r with
    | nil => intro a; simp [nameOf]
    | cons c r ih =>
      intro a
      unfold nameOf
      simp only [List.foldl_cons]
      rw [ih, ih (0 * 256 + c.toNat), List.length_cons, Nat.pow_succ]
      ring
  unfold nameOf
  rw [List.foldl_append, key]
  rfl

theorem nameOf_charsOf (k n : Nat) (h : n < 256 ^ k) : nameOf (charsOf k n) = n := by
  induction k generalizing n with
  | zero => simp at h; subst h; rfl
  | succ k ih =>
    unfold charsOf
    split
    · rename_i h0; rw [h0]; rfl
    · have hc : (Char.ofNat (n % 256)).toNat = n % 256 := by
        have h2 : (n % 256).isValidChar := .inl (by omega)
        rw [Char.ofNat, dif_pos h2]
        exact UInt32.toNat_ofNatLT ..
      rw [nameOf_append, ih _ (by rw [Nat.pow_succ] at h; omega)]
      show n / 256 * 256 ^ 1 + (0 * 256 + (Char.ofNat (n % 256)).toNat) = n
      rw [hc]
      omega

theorem named_of (f : Nat) (e : Elem) (h : namedB f e = true) : Named f e := by
  have h : f % 256 ^ (suffix e).length = nameOf (suffix e) := by simpa [namedB] using h
  refine ⟨charsOf (f / 256 ^ (suffix e).length) (f / 256 ^ (suffix e).length), ?_⟩
  rw [nameOf_append, nameOf_charsOf _ _ (Nat.lt_pow_self (by decide)), ← h, Nat.mul_comm]
  exact (Nat.div_add_mod ..).symm

def allElems : List Elem := [.s8, .s16, .s32, .s64, .u8, .u16, .u32, .u64, .f32, .f64]

/-- A name ends with at most one element type. -/
theorem named_unique {f : Nat} {e e' : Elem} (h : Named f e) (h' : Named f e') : e = e' := by
  have low : ∀ {e}, Named f e → f % 256 ^ 3 = nameOf (suffix e) % 256 ^ 3 := by
    rintro e ⟨s, rfl⟩
    rw [nameOf_append]
    have hd : 256 ^ 3 ∣ 256 ^ (suffix e).length := Nat.pow_dvd_pow _ (by rcases e with t | _ | _ <;> first | (cases t <;> decide) | decide)
    rw [Nat.add_mod, Nat.mod_eq_zero_of_dvd (hd.mul_left _), Nat.zero_add, Nat.mod_mod]
  have key : ∀ a ∈ allElems, ∀ b ∈ allElems, nameOf (suffix a) % 256 ^ 3 = nameOf (suffix b) % 256 ^ 3 → a = b := by decide +kernel
  have all : ∀ e, e ∈ allElems := by
    intro e
    rcases e with t | _ | _ <;> first | (cases t <;> decide) | decide
  exact key e (all e) e' (all e') ((low h).symm.trans (low h'))

theorem header_pointers_check : (declared.all fun g => g.params.all fun p => match p with
    | .ptr c e => namedB g.name e && (c == (g.ret != .void))
    | _ => true) = true := by decide +kernel

theorem header_names_check : (declared.all fun g => allElems.any fun e => namedB g.name e &&
    ((g.params.any fun p => shown p == some e) || ((g.params.all fun p => (shown p).isNone) && (shown (.val g.ret) == some e)))) = true := by
  decide +kernel

/-- A function of the header takes only pointers to the element type that its name says, and to `const` exactly if it returns something. -/
theorem header_pointers : ∀ g ∈ declared, ∀ c e, .ptr c e ∈ g.params → Named g.name e ∧ (c = true ↔ g.ret ≠ .void) := by
  intro g hg c e hp
  have := List.all_eq_true.mp (List.all_eq_true.mp header_pointers_check g hg) _ hp
  simp only [Bool.and_eq_true, beq_iff_eq] at this
  refine ⟨named_of _ _ this.1, ?_⟩
  rw [this.2]
  simp

/-- Memory is only read and written as the element type in the name of the function: a pointer to elements of another type is rejected. -/
theorem call_pointer {f : Nat} {pre post : List Ex} {x : Ex} {t : Arg} {e : Elem} (hx : (∃ c, HasType x (.ptr c e)) ∨ ∃ c n, HasType x (.array c e n))
    (h : check declared (.call f (pre ++ x :: post)) = some t) : Named f e := by
  rw [check_spec] at h
  rcases hx with ⟨c, hx⟩ | ⟨c, n, hx⟩
  all_goals
    obtain ⟨g, hg, rfl, p, hp, hi⟩ := call_param hx h
    cases hi
    exact (header_pointers g hg _ _ (List.mem_of_getElem? hp)).1

/-- `const` memory is not stored to: a call with a pointer to `const` that is accepted has a value. -/
theorem call_const {f : Nat} {pre post : List Ex} {x : Ex} {t : Arg} {e : Elem} (hx : HasType x (.ptr true e) ∨ ∃ n, HasType x (.array true e n))
    (h : check declared (.call f (pre ++ x :: post)) = some t) : t ≠ .void := by
  rw [check_spec] at h
  rcases hx with hx | ⟨n, hx⟩
  all_goals
    obtain ⟨g, hg, hf, p, hp, hi⟩ := call_param hx h
    cases hi
    rename_i c hc
    have hr := (header_pointers g hg _ _ (List.mem_of_getElem? hp)).2.1 (hc rfl)
    rintro rfl
    cases h
    rename_i g' ts hg' h2 h1 h3
    obtain rfl := header_consistent g hg g' hg' hf
    cases hv : g.ret <;> rw [hv] at h3 <;> first | exact hr hv | cases h3

/-- The name of a function ends with an element type, and a call has an argument of registers, or of a pointer to elements, of that type; if it
has no such argument at all, its value is a register of that type. -/
theorem header_names : ∀ g ∈ declared, ∃ e, Named g.name e ∧ ((∃ p ∈ g.params, shown p = some e) ∨
    ((∀ p ∈ g.params, shown p = none) ∧ shown (.val g.ret) = some e)) := by
  intro g hg
  obtain ⟨e, -, h⟩ := List.any_eq_true.mp (List.all_eq_true.mp header_names_check g hg)
  simp only [Bool.and_eq_true, Bool.or_eq_true, List.any_eq_true, List.all_eq_true, beq_iff_eq, Option.isNone_iff_eq_none] at h
  exact ⟨e, named_of _ _ h.1, h.2⟩

/-- The element type that an argument or a value shows. -/
def shownArg : Arg → Option Elem
  | .vec e _ => some e
  | .arr e _ _ => some e
  | .ptr _ e => some e
  | .array _ e _ => some e
  | _ => none

/-- An accepted call has an argument of registers or elements of the type in the name of the function (or a null pointer for it), or else only
arithmetic arguments, and a value of registers of that type. -/
theorem call_named {f : Nat} {xs : List Ex} {t : Arg} (h : check declared (.call f xs) = some t) : ∃ e, Named f e ∧
    ((∃ x ∈ xs, ∃ s, HasType x s ∧ (shownArg s = some e ∨ s = .zero ∨ s = .null)) ∨
      ((∀ x ∈ xs, ∃ s, HasType x s ∧ shownArg s = none) ∧ shownArg t = some e)) := by
  rw [check_spec] at h
  cases h
  rename_i g ts hg h2 h1 h3
  obtain ⟨e, hn, h⟩ := header_names g hg
  refine ⟨e, hn, ?_⟩
  rcases h with ⟨p, hp, hs⟩ | ⟨ha, hr⟩
  · left
    clear h3
    generalize g.params = ps at h2 hp
    induction xs generalizing ts ps with
    | nil => cases h1; cases h2; cases hp
    | cons x xs ih =>
      cases h1
      rename_i s ts hx hxs
      cases h2
      rename_i q ps hq hps
      rcases List.mem_cons.1 hp with rfl | hp
      · refine ⟨x, List.mem_cons_self, s, hx, ?_⟩
        cases hq <;> simp_all [shown, shownArg]
      · obtain ⟨y, hy, r⟩ := ih ts hxs ps hps hp
        exact ⟨y, List.mem_cons_of_mem _ hy, r⟩
  · right
    constructor
    · clear h3
      generalize g.params = ps at h2 ha
      induction xs generalizing ts ps with
      | nil => nofun
      | cons x xs ih =>
        cases h1
        rename_i s ts hx hxs
        cases h2
        rename_i q ps hq hps
        intro y hy
        rcases List.mem_cons.1 hy with rfl | hy
        · refine ⟨s, hx, ?_⟩
          have := ha q List.mem_cons_self
          cases hq <;> simp_all [shown, shownArg]
        · exact ih ts hxs ps hps (fun p hp => ha p (List.mem_cons_of_mem _ hp)) y hy
    · generalize g.ret = r at h3 hr
      cases h3 <;> simp_all [shown, shownArg]

/-! ## What is not checked -/

/-- Arithmetic arguments are not checked: where one is accepted, all are, a `double` for a lane index or a byte included. -/
theorem call_scalar_wrong {f : Nat} {pre post : List Ex} {x y : Ex} {t : Arg} {e e' : Elem} (hx : HasType x (.scalar e)) (hy : HasType y (.scalar e'))
    (h : check declared (.call f (pre ++ x :: post)) = some t) : check declared (.call f (pre ++ y :: post)) = some t := by
  rw [check_spec] at h ⊢
  cases h
  rename_i g ts hg h2 h1 h3
  obtain ⟨as, bs, rfl, ha, hb⟩ := haveTypes_append.1 h1
  cases hb
  rename_i u bs hu hb
  obtain rfl := hasType_unique hx hu
  obtain ⟨ps, qs, h4, h5, h6⟩ := forall₂_split h2
  cases h5
  rename_i p qs hp hq
  refine .call g _ (as ++ .scalar e' :: bs) t hg (haveTypes_append.2 ⟨as, _, rfl, ha, .cons _ _ _ _ hy hb⟩) ?_ h3
  rw [h6]
  refine List.rel_append h4 (.cons ?_ hq)
  cases hp
  exact .arithmetic ..

/-- A null pointer is accepted wherever a pointer is. -/
theorem call_null_wrong {f : Nat} {pre post : List Ex} {x : Ex} {t : Arg} {c : Bool} {e : Elem} (hx : HasType x (.ptr c e))
    (h : check declared (.call f (pre ++ x :: post)) = some t) : check declared (.call f (pre ++ .leaf .zero :: post)) = some t := by
  rw [check_spec] at h ⊢
  cases h
  rename_i g ts hg h2 h1 h3
  obtain ⟨as, bs, rfl, ha, hb⟩ := haveTypes_append.1 h1
  cases hb
  rename_i u bs hu hb
  obtain rfl := hasType_unique hx hu
  obtain ⟨ps, qs, h4, h5, h6⟩ := forall₂_split h2
  cases h5
  rename_i p qs hp hq
  refine .call g _ (as ++ .zero :: bs) t hg (haveTypes_append.2 ⟨as, _, rfl, ha, .cons _ _ _ _ (.leaf _) hb⟩) ?_ h3
  rw [h6]
  refine List.rel_append h4 (.cons ?_ hq)
  cases hp
  exact .zeroPtr ..

/-- The length of an array is not checked. -/
theorem call_length_wrong {f : Nat} {pre post : List Ex} {t : Arg} {c : Bool} {e : Elem} {n m : Nat}
    (h : check declared (.call f (pre ++ .leaf (.array c e n) :: post)) = some t) :
    check declared (.call f (pre ++ .leaf (.array c e m) :: post)) = some t := by
  rw [check_spec] at h ⊢
  cases h
  rename_i g ts hg h2 h1 h3
  obtain ⟨as, bs, rfl, ha, hb⟩ := haveTypes_append.1 h1
  cases hb
  rename_i u bs hu hb
  cases hu
  obtain ⟨ps, qs, h4, h5, h6⟩ := forall₂_split h2
  cases h5
  rename_i p qs hp hq
  refine .call g _ (as ++ .array c e m :: bs) t hg (haveTypes_append.2 ⟨as, _, rfl, ha, .cons _ _ _ _ (.leaf _) hb⟩) ?_ h3
  rw [h6]
  refine List.rel_append h4 (.cons ?_ hq)
  cases hp
  rename_i hc
  exact .array _ _ _ _ hc

/-- The example of `README.md`, `uint8_t b[4]; vld1_u16(b)`, is rejected; `uint8_t b[4]; vld1_u8(b)`, which reads past the end of `b`, is not. -/
theorem readme_example (b : Ptr .u8) (h0 : b.off = 0) (hb : b.buf.length = 4) :
    check declared (.call k!"vld1_u16" [.leaf (.array false .u8 4)]) = none ∧
    check declared (.call k!"vld1_u8" [.leaf (.array false .u8 4)]) = some (.vec .u8 8) ∧ ∃ u, Model.vld1_u8 b = .ub u := by
  refine ⟨by decide +kernel, by decide +kernel, (vld1_u8_spec b).2 ⟨4, ?_⟩⟩
  simp [Spec.Readable, Spec.Holds, h0, hb]

-- `vadd_u8(vld1_u8(p), vdup_n_u8(1.5))` is accepted, `vadd_s8(vld1_u8(p), a)`, `vst1_u8(q, a)` with `q` a pointer to `const`, and `vadd_u8(a)` are not
example : check declared (.call k!"vadd_u8" [.call k!"vld1_u8" [.leaf (.ptr true .u8)], .call k!"vdup_n_u8" [.leaf (.scalar .f64)]]) = some (.vec .u8 8) ∧
    check declared (.call k!"vadd_s8" [.call k!"vld1_u8" [.leaf (.ptr true .u8)], .leaf (.vec .s8 8)]) = none ∧
    check declared (.call k!"vst1_u8" [.leaf (.ptr false .u8), .leaf (.vec .u8 8)]) = some .void ∧
    check declared (.call k!"vst1_u8" [.leaf (.ptr true .u8), .leaf (.vec .u8 8)]) = none ∧
    check declared (.call k!"vadd_u8" [.leaf (.vec .u8 8)]) = none := by
  refine ⟨?_, ?_, ?_, ?_, ?_⟩ <;> decide +kernel

end Verif.Props
