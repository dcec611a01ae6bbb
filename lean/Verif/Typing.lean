import Verif.Cpp.Library
import Verif.Cpp.Header
import Verif.Sat

/-!
# Types of arguments and results

What it means that the arguments of a call have the types declared in the header,
and that an outcome is one the caller has to expect.
-/

namespace Verif.Cpp

/-- The object is a value of the type of a parameter: a scalar, a register or an array of registers with every
lane initialised, or a pointer to any element of any buffer (possibly outside it). -/
def HasTy : PTy → Obj → Prop
  | .val (.sc e), o => ∃ b : BitVec e.bits, o = .ofScalar e b
  | .val (.vec e n), o => ∃ a : Vec e n, o = .ofVec a
  | .val (.arr e n k), o => ∃ a : VecArr e n k, o = .ofVecArr a
  | .ptr _ e, o => ∃ p : Ptr e, o = .ofPtr p
  | _, _ => False

/-- The arguments have the types of the parameters, in number and order. -/
def Typed : List PTy → List Obj → Prop
  | [], [] => True
  | t :: ts, o :: os => HasTy t o ∧ Typed ts os
  | _, _ => False

/-- The object is what a function returns: a value of the declared type, or, for a `void` function, the memory
behind its first argument, in place and of the same size. -/
def Returns (g : Sig) (args : List Obj) (r : Obj) : Prop :=
  match g.ret with
  | .void => ∃ (e : Elem) (p q : Ptr e), args.head? = some (.ofPtr p) ∧ r = .ofPtr q ∧
      q.off = p.off ∧ q.buf.length = p.buf.length
  | t => HasTy (.val t) r

/-- The message with which a function may end the program: the range checks of immediates. -/
def message (f : Nat) : Option String :=
  [(k!"vgetq_lane_f32", "vgetq_lane_f32: lane should is out of range [0, 3]"),
   (k!"vqshrun_n_s32", "vqshrun_n_s32: param n out of range\n"),
   (k!"vshrn_n_s32", "vshrn_n_s32: param n not in range [1, 8]\n"),
   (k!"vshrn_n_u32", "vshrn_n_u32: param n not in range [1, 8]\n"),
   (k!"vqshrun_n_s64", "vqshrun_n_s64: param n out of range\n"),
   (k!"vshrn_n_s64", "vshrn_n_s64: param n not in range [1, 8]\n"),
   (k!"vshrn_n_u64", "vshrn_n_u64: param n not in range [1, 8]\n"),
   (k!"vqrshrun_n_s16", "vqrshrun_n_s16: param n not in range [1, 8]\n"),
   (k!"vqshrun_n_s16", "vqshrun_n_s16: param n not in range [1, 8]\n"),
   (k!"vshr_n_u16", "vshr_n_u16: param n not in range [1, 8]\n"),
   (k!"vshrn_n_s16", "vshrn_n_s16: param n not in range [1, 8]\n"),
   (k!"vshrn_n_u16", "vshrn_n_u16: param n not in range [1, 8]\n"),
   (k!"vext_s16", "vext_s16: param n is not in range [0, 4]\n"),
   (k!"vext_u16", "vext_u16: param n is not in range [0, 4]\n"),
   (k!"vext_u8", "vext_u8: param n is not in range [0, 8]\n"),
   (k!"vextq_u16", "vextq_u16: param n is not in range [0, 8]\n"),
   (k!"vld2_lane_u8", "only support [0, 7] for param lane\n"),
   (k!"vld3_lane_u8", "only support [0, 7] for param lane\n"),
   (k!"vld4_lane_u8", "only support [0, 7] for param lane\n")].lookup f

/-- The functions that may return a register with lanes that were never written. -/
def unwritten : List Nat := [k!"vrev64q_s8", k!"vrev64q_s16", k!"vqshrun_n_s32", k!"vqshrun_n_s64"]

/-- The outcome is one that a caller of `f` has to expect: a result of the declared type, the end of the
program with the message of `f`, undefined behaviour, or, for the four functions above, unwritten lanes.  In
particular the interpreter never rejects the text or runs out of fuel. -/
def Accepted (f : Nat) (g : Sig) (args : List Obj) : C Obj → Prop
  | .ok r => Returns g args r
  | .abort m => message f = some m
  | .ub _ => True
  | .indet _ => f ∈ unwritten

end Verif.Cpp

namespace Verif

/-! ## Outcomes of model functions -/

/-- A normal result satisfies `Q`, the only message is `m`, and lanes are left unwritten only if `w`. -/
def Good {α} (m : Option String) (w : Prop) (Q : α → Prop) : C α → Prop
  | .ok a => Q a
  | .abort s => m = some s
  | .ub _ => True
  | .indet _ => w

section
variable {α β : Type} {m : Option String} {w : Prop} {P : α → Prop} {Q : β → Prop}

theorem Good.bind {x : C α} {f : α → C β} (hx : Good m w P x) (hf : ∀ a, P a → Good m w Q (f a)) : Good m w Q (x >>= f) := by
  cases x with
  | ok a => exact hf a hx
  | abort s => exact hx
  | ub u => trivial
  | indet l => exact hx

theorem Good.bindT {x : C α} {f : α → C β} (hx : Good m w (fun _ => True) x) (hf : ∀ a, Good m w Q (f a)) :
    Good m w Q (x >>= f) := hx.bind fun a _ => hf a

theorem Good.mono {R : α → Prop} {x : C α} (hx : Good m w P x) (h : ∀ a, P a → R a) : Good m w R x := by
  cases x with
  | ok a => exact h a hx
  | abort s => exact hx
  | ub u => trivial
  | indet l => exact hx

theorem Good.ite {c : Prop} [Decidable c] {x y : C β} (hx : Good m w Q x) (hy : Good m w Q y) :
    Good m w Q (if c then x else y) := by split <;> assumption

theorem Good.map {f : α → β} {x : C α} (hx : Good m w P x) (h : ∀ a, P a → Q (f a)) : Good m w Q (f <$> x) := by
  cases x with
  | ok a => exact h a hx
  | abort s => exact hx
  | ub u => trivial
  | indet l => exact hx

theorem Good.iter {body : Nat → β → C β} (h : ∀ i s, Q s → Good m w Q (body i s)) (n : Nat) (s : β) (hs : Q s) :
    Good m w Q (iter body n s) := by
  induction n with
  | zero => exact hs
  | succ n ih => exact ih.bind fun s hs => h n s hs

theorem Good.cfor {lo hi step : Int} {s : β} {body : Int → β → C β} (hs : Q s) (h : ∀ i s, Q s → Good m w Q (body i s)) :
    Good m w Q (cfor lo hi step s body) := Good.iter (fun _ s hs => h _ s hs) _ s hs

theorem Good.cforT {lo hi step : Int} {s : β} {body : Int → β → C β} (h : ∀ i s, Good m w (fun _ => True) (body i s)) :
    Good m w (fun _ => True) (Verif.cfor lo hi step s body) := Good.cfor trivial fun i s _ => h i s

theorem good_ok (a : β) : Good m w (fun _ => True) (C.ok a) := trivial
theorem good_pure (a : β) : Good m w (fun _ => True) (pure a : C β) := trivial
theorem good_ub (u : UB) : Good m w Q (C.ub u) := trivial
theorem good_abort (s : String) : Good (some s) w Q (C.abort s) := rfl

theorem good_truncTo (t : ITy) (v : Option Int) : Good m w (fun _ => True) (truncTo t v) := by
  cases v with
  | none => trivial
  | some v => exact Good.ite trivial trivial

theorem good_toBits (e : Elem) (v : Val) : Good m w (fun _ => True) (Val.toBits e v) := by
  cases e with
  | int t =>
    cases v with
    | int _ _ => trivial
    | f32 _ => exact (good_truncTo _ _).bindT fun _ => trivial
    | f64 _ => exact (good_truncTo _ _).bindT fun _ => trivial
  | f32 => trivial
  | f64 => trivial

theorem good_cast (e : Elem) (v : Val) : Good m w (fun _ => True) (Val.cast e v) := by
  cases e with
  | int t =>
    cases v with
    | int _ _ => trivial
    | f32 _ => exact (good_truncTo _ _).bindT fun _ => trivial
    | f64 _ => exact (good_truncTo _ _).bindT fun _ => trivial
  | f32 => trivial
  | f64 => trivial

theorem good_mkInt [Dialect] (t : ITy) (v : Int) : Good m w (fun _ => True) (mkInt t v) :=
  Good.ite trivial (Good.ite trivial trivial)

theorem good_arith (iop : ITy → Int → Int → C Val) (fop) (h : ∀ t x y, Good m w (fun _ => True) (iop t x y)) (x y : Val) :
    Good m w (fun _ => True) (Val.arith iop fop x y) := by
  cases x <;> cases y <;> first | exact h _ _ _ | trivial

theorem good_add [Dialect] (x y : Val) : Good m w (fun _ => True) (Val.add x y) := good_arith _ _ (fun _ _ _ => good_mkInt _ _) x y
theorem good_sub [Dialect] (x y : Val) : Good m w (fun _ => True) (Val.sub x y) := good_arith _ _ (fun _ _ _ => good_mkInt _ _) x y
theorem good_mul [Dialect] (x y : Val) : Good m w (fun _ => True) (Val.mul x y) := good_arith _ _ (fun _ _ _ => good_mkInt _ _) x y
theorem good_div [Dialect] (x y : Val) : Good m w (fun _ => True) (Val.div x y) :=
  good_arith _ _ (fun t x y => by
    show Good m w _ (if y = 0 then _ else mkQuot t _ _)
    exact Good.ite trivial (Good.ite trivial trivial)) x y
theorem good_shr [Dialect] (x y : Val) : Good m w (fun _ => True) (Val.shr x y) := by
  cases x <;> cases y <;> first | exact Good.ite trivial trivial | trivial
theorem good_shl [Dialect] (x y : Val) : Good m w (fun _ => True) (Val.shl x y) := by
  cases x <;> cases y <;> first | exact Good.ite (Good.ite trivial trivial) trivial | trivial
theorem good_bitop (op) (x y : Val) : Good m w (fun _ => True) (Val.bitop op x y) := by
  cases x <;> cases y <;> trivial
theorem good_and (x y : Val) : Good m w (fun _ => True) (Val.and x y) := good_bitop _ x y
theorem good_or (x y : Val) : Good m w (fun _ => True) (Val.or x y) := good_bitop _ x y
theorem good_xor (x y : Val) : Good m w (fun _ => True) (Val.xor x y) := good_bitop _ x y
theorem good_not (x : Val) : Good m w (fun _ => True) (Val.not x) := by cases x <;> trivial
theorem good_stdMin (e : Elem) (x y : Val) : Good m w (fun _ => True) (Val.stdMin e x y) :=
  (good_cast e x).bindT fun _ => (good_cast e y).bindT fun _ => Good.ite trivial trivial
theorem good_stdMax (e : Elem) (x y : Val) : Good m w (fun _ => True) (Val.stdMax e x y) :=
  (good_cast e x).bindT fun _ => (good_cast e y).bindT fun _ => Good.ite trivial trivial
theorem good_cAnd {a b : C Bool} (ha : Good m w (fun _ => True) a) (hb : Good m w (fun _ => True) b) :
    Good m w (fun _ => True) (cAnd a b) := ha.bindT fun _ => Good.ite hb trivial
theorem good_cOr {a b : C Bool} (ha : Good m w (fun _ => True) a) (hb : Good m w (fun _ => True) b) :
    Good m w (fun _ => True) (cOr a b) := ha.bindT fun _ => Good.ite trivial hb

variable {e : Elem} {n k : Nat}
theorem good_get (a : Vec e n) (i : Int) : Good m w (fun _ => True) (a.get i) := by unfold Vec.get; split <;> trivial
theorem good_get2 (a : VecArr e n k) (j i : Int) : Good m w (fun _ => True) (a.get j i) := by
  unfold VecArr.get
  split
  · exact good_get _ _
  · trivial
theorem good_aget (r : Arr e n) (i : Int) : Good m w (fun _ => True) (r.get i) := by
  unfold Arr.get
  split
  · split <;> trivial
  · trivial
theorem good_set (r : Arr e n) (i : Int) (v : Val) : Good m w (fun _ => True) (r.set i v) := by
  unfold Arr.set
  split
  · exact (good_toBits _ _).bindT fun _ => trivial
  · trivial
theorem good_set2 (r : Arr2 e n k) (j i : Int) (v : Val) : Good m w (fun _ => True) (r.set j i v) := by
  unfold Arr2.set
  split
  · exact (good_toBits _ _).bindT fun _ => trivial
  · trivial
theorem good_ret (r : Arr e n) : Good m True (fun _ => True) r.ret := by unfold Arr.ret; split <;> trivial
theorem good_ret2 (r : Arr2 e n k) : Good m True (fun _ => True) r.ret := by unfold Arr2.ret; split <;> trivial
theorem good_memcpy {e' : Elem} {n' : Nat} (r : Arr e' n') (a : Vec e n) (b : Nat) : Good m w (fun _ => True) (memcpyVec r a b) :=
  Good.ite trivial trivial
theorem good_pget (p : Ptr e) (i : Int) : Good m w (fun _ => True) (p.get i) := by
  unfold Ptr.get
  refine Good.ite ?_ trivial
  split <;> trivial

/-- The same place in a buffer of the same size. -/
def Same (p q : Ptr e) : Prop := q.off = p.off ∧ q.buf.length = p.buf.length

theorem Same.refl (p : Ptr e) : Same p p := ⟨rfl, rfl⟩

theorem good_pset {p q : Ptr e} (h : Same p q) (i : Int) (v : Val) : Good m w (Same p) (q.set i v) := by
  refine Good.ite ((good_toBits _ _).bindT fun _ => ?_) trivial
  exact ⟨h.1, by rw [← h.2]; exact List.length_set⟩

theorem Good.bindP {p : Ptr e} {x : C (Ptr e)} {f : Ptr e → C (Ptr e)} (hx : Good m w (Same p) x)
    (hf : ∀ q, Same p q → Good m w (Same p) (f q)) : Good m w (Same p) (x >>= f) := hx.bind hf

end

theorem Good.not_indet {α : Type} {m : Option String} {Q : α → Prop} {c : C α} (h : Good m False Q c) (l) : c ≠ .indet l := by
  rintro rfl; exact h

/-- Prove `Good` of a function that returns a value. -/
macro "good_body" : tactic => `(tactic| with_reducible
  repeat' first
    | exact good_get _ _ | exact good_cast _ _ | exact good_set _ _ _ | exact good_ret _ | exact good_pure _ | exact good_ok _
    | exact good_ub _ | exact good_add _ _ | exact good_sub _ _ | exact good_mul _ _ | exact good_div _ _
    | exact good_shr _ _ | exact good_shl _ _ | exact good_and _ _ | exact good_or _ _ | exact good_xor _ _ | exact good_not _
    | exact good_stdMin _ _ _ | exact good_stdMax _ _ _ | exact good_abort _ | exact good_get2 _ _ _ | exact good_aget _ _
    | exact good_set2 _ _ _ _ | exact good_ret2 _ | exact good_memcpy _ _ _ | exact good_pget _ _ | exact good_toBits _ _
    | refine good_cAnd ?_ ?_ | refine good_cOr ?_ ?_
    | refine Good.bindT ?_ fun _ => ?_ | refine Good.ite ?_ ?_ | refine Good.cforT fun _ _ => ?_)

/-- Prove `Good` of a function that writes through the pointer `p`. -/
macro "good_store" : tactic => `(tactic| with_reducible
  repeat' first
    | exact good_get _ _ | exact good_get2 _ _ _ | exact good_pset (by assumption) _ _
    | exact good_cast _ _ | exact good_toBits _ _ | exact Same.refl _ | assumption
    | refine Good.cfor ?_ fun _ _ _ => ?_ | refine Good.bindT (by first | exact good_get _ _ | exact good_get2 _ _ _) fun _ => ?_
    | refine Good.bindP ?_ fun _ _ => ?_ | refine Good.ite ?_ ?_)

namespace Cpp

theorem typed1 {t : PTy} {args : List Obj} (h : Typed [t] args) : ∃ o, args = [o] ∧ HasTy t o := by
  match args, h with
  | [o], ⟨h, _⟩ => exact ⟨o, rfl, h⟩

theorem typed2 {t u : PTy} {args : List Obj} (h : Typed [t, u] args) : ∃ o p, args = [o, p] ∧ HasTy t o ∧ HasTy u p := by
  match args, h with
  | [o, p], ⟨h, h', _⟩ => exact ⟨o, p, rfl, h, h'⟩

theorem typed3 {t u v : PTy} {args : List Obj} (h : Typed [t, u, v] args) :
    ∃ o p q, args = [o, p, q] ∧ HasTy t o ∧ HasTy u p ∧ HasTy v q := by
  match args, h with
  | [o, p, q], ⟨h, h', h'', _⟩ => exact ⟨o, p, q, rfl, h, h', h''⟩

/-- An `int` argument is one in the range of the type. -/
theorem hasTy_int {o : Obj} (h : HasTy (.val (.sc .s32)) o) :
    ∃ n : Int, o = .ofInt n ∧ -2147483648 ≤ n ∧ n ≤ 2147483647 := by
  obtain ⟨b, rfl⟩ := h
  have h1 := b.toInt_lt
  have h2 := b.le_toInt
  exact ⟨b.toInt, rfl, h2, by simp only [Elem.bits, ITy.bits] at *; omega⟩

theorem accepted_of {α : Type} {f : Nat} {g : Sig} {args : List Obj} {c : C α} {k : α → Obj} {w : Prop} {Q : α → Prop}
    (h : Good (message f) w Q c) (hw : (∀ l, c ≠ .indet l) ∨ f ∈ unwritten) (hr : ∀ a, Q a → Returns g args (k a)) :
    Accepted f g args (k <$> c) := by
  cases c with
  | ok a => exact hr a h
  | abort m => exact h
  | ub u => trivial
  | indet l => exact hw.elim (fun h => absurd rfl (h l)) id

-- so that looking for the head of the statement does not run the function
attribute [irreducible] Good

end Cpp
end Verif
