import Verif.Fill
import Verif.SpecMem

/-! # Partial correctness of outcomes

`Sat Q c`: `c` does not return a register with an unwritten lane, and if it completes normally its result
satisfies `Q`.  Used to show that functions without a range check still write every lane they return. -/

namespace Verif
open Spec

def Sat {α} (Q : α → Prop) : C α → Prop
  | .ok a => Q a
  | .indet _ => False
  | _ => True

theorem Sat.not_indet {α} {Q : α → Prop} {c : C α} (h : Sat Q c) (l) : c ≠ .indet l := by
  rintro rfl; exact h

theorem Sat.bind {α β} {P : α → Prop} {Q : β → Prop} {x : C α} {f : α → C β} (hx : Sat P x)
    (hf : ∀ a, P a → Sat Q (f a)) : Sat Q (x >>= f) := by
  cases x with
  | ok a => exact hf a hx
  | abort m => trivial
  | ub u => trivial
  | indet l => exact hx.elim

theorem Sat.bindT {α β} {Q : β → Prop} {x : C α} {f : α → C β} (hx : Sat (fun _ => True) x)
    (hf : ∀ a, Sat Q (f a)) : Sat Q (x >>= f) := hx.bind fun a _ => hf a

theorem Sat.mono {α} {P Q : α → Prop} {x : C α} (hx : Sat P x) (h : ∀ a, P a → Q a) : Sat Q x := by
  cases x with
  | ok a => exact h a hx
  | abort m => trivial
  | ub u => trivial
  | indet l => exact hx.elim

theorem Sat.any {α} {Q : α → Prop} {x : C α} (hx : Sat Q x) : Sat (fun _ => True) x := hx.mono fun _ _ => trivial

theorem Sat.ite {α} {Q : α → Prop} {c : Prop} [Decidable c] {x y : C α} (hx : Sat Q x) (hy : Sat Q y) :
    Sat Q (if c then x else y) := by split <;> assumption

theorem sat_ok {α} (a : α) : Sat (fun _ => True) (C.ok a) := trivial
theorem sat_ub {α} (u : UB) : Sat (fun _ : α => True) (C.ub u) := trivial

theorem sat_truncTo (t : ITy) (v : Option Int) : Sat (fun _ => True) (truncTo t v) := by
  cases v with
  | none => trivial
  | some v => exact Sat.ite trivial trivial

theorem sat_toBits (e : Elem) (v : Val) : Sat (fun _ => True) (Val.toBits e v) := by
  cases e with
  | int t =>
    cases v with
    | int _ _ => trivial
    | f32 _ => exact (sat_truncTo _ _).bindT fun _ => trivial
    | f64 _ => exact (sat_truncTo _ _).bindT fun _ => trivial
  | f32 => trivial
  | f64 => trivial

theorem sat_cast (e : Elem) (v : Val) : Sat (fun _ => True) (Val.cast e v) := by
  cases e with
  | int t =>
    cases v with
    | int _ _ => trivial
    | f32 _ => exact (sat_truncTo _ _).bindT fun _ => trivial
    | f64 _ => exact (sat_truncTo _ _).bindT fun _ => trivial
  | f32 => trivial
  | f64 => trivial

theorem sat_mkInt [Dialect] (t : ITy) (v : Int) : Sat (fun _ => True) (mkInt t v) :=
  Sat.ite trivial (Sat.ite trivial trivial)

theorem sat_arith (iop : ITy → Int → Int → C Val) (fop) (h : ∀ t x y, Sat (fun _ => True) (iop t x y)) (x y : Val) :
    Sat (fun _ => True) (Val.arith iop fop x y) := by
  cases x <;> cases y <;> first | exact h _ _ _ | trivial

theorem sat_add [Dialect] (x y : Val) : Sat (fun _ => True) (Val.add x y) := sat_arith _ _ (fun _ _ _ => sat_mkInt _ _) x y
theorem sat_sub [Dialect] (x y : Val) : Sat (fun _ => True) (Val.sub x y) := sat_arith _ _ (fun _ _ _ => sat_mkInt _ _) x y

theorem sat_shr [Dialect] (x y : Val) : Sat (fun _ => True) (Val.shr x y) := by
  cases x <;> cases y <;> first | exact Sat.ite trivial trivial | trivial

theorem sat_shl [Dialect] (x y : Val) : Sat (fun _ => True) (Val.shl x y) := by
  cases x <;> cases y <;> first | exact Sat.ite (Sat.ite trivial trivial) trivial | trivial

theorem sat_stdMin (e : Elem) (x y : Val) : Sat (fun _ => True) (Val.stdMin e x y) :=
  (sat_cast e x).bindT fun _ => (sat_cast e y).bindT fun _ => Sat.ite trivial trivial
theorem sat_stdMax (e : Elem) (x y : Val) : Sat (fun _ => True) (Val.stdMax e x y) :=
  (sat_cast e x).bindT fun _ => (sat_cast e y).bindT fun _ => Sat.ite trivial trivial

theorem sat_get {e n} (a : Vec e n) (i : Int) : Sat (fun _ => True) (a.get i) := by
  unfold Vec.get; split <;> trivial

/-- Assigning a lane: if it completes, that lane is written and the others are as before. -/
theorem sat_set {e n} (r : Arr e n) (i : Fin n) (v : Val) :
    Sat (fun r' => ∃ b, r' = r.put i b) (r.set i v) := by
  unfold Arr.set
  rw [dif_pos (by omega)]
  exact (sat_toBits e v).bindT fun b => ⟨b, rfl⟩

/-- A loop over all lanes whose body, when it completes, writes lane `i`: nothing unwritten is returned. -/
theorem sat_fill {e n} {hi : Int} {body : Int → Arr e n → C (Arr e n)} (hn : hi = n)
    (h : ∀ (i : Fin n) D, Sat (fun D' => ∃ b, D' = D.put i b) (body i D)) :
    Sat (fun _ => True) (cfor 0 hi 1 Arr.undef body >>= Arr.ret) := by
  rw [cfor_one hi n hn]
  have inv : ∀ k ≤ n, Sat (fun D : Arr e n => ∀ j : Fin n, j.val < k → (D j).isSome) (iter (fun k => body (k : Int)) k Arr.undef) := by
    intro k
    induction k with
    | zero => intro _ j hj; omega
    | succ k ih =>
      intro hk
      refine (ih (by omega)).bind fun D hD => (h ⟨k, by omega⟩ D).mono ?_
      rintro _ ⟨b, rfl⟩ j hj
      unfold Arr.put
      by_cases e : j = ⟨k, by omega⟩
      · rw [if_pos e]; rfl
      · rw [if_neg e]
        exact hD j (by have : j.val ≠ k := fun h => e (Fin.ext h); omega)
  refine (inv n (Nat.le_refl n)).bind fun D hD => ?_
  unfold Arr.ret
  rw [dif_pos fun j => hD j j.isLt]
  trivial

theorem Loads.sat {e n} {p : Ptr e} {c : C (Vec e n)} (h : Loads p c) : Sat (fun _ => True) c := by
  by_cases hr : ∃ i : Fin n, ¬ Readable p i
  · obtain ⟨u, hu⟩ := h.2 hr
    rw [hu]; trivial
  · have : ∀ i : Fin n, Readable p i := fun i => Classical.byContradiction fun hn => hr ⟨i, hn⟩
    rw [(h.1 ⟨fun i => Classical.choose (this i)⟩).mpr fun i => Classical.choose_spec (this i)]
    trivial

theorem LoadsK.sat {e n k} {p : Ptr e} {c : C (VecArr e n k)} (h : LoadsK p c) : Sat (fun _ => True) c := by
  by_cases hr : ∃ (j : Fin k) (i : Fin n), ¬ Readable p (k * i + j)
  · obtain ⟨u, hu⟩ := h.2 hr
    rw [hu]; trivial
  · have : ∀ (j : Fin k) (i : Fin n), Readable p (k * i + j) :=
      fun j i => Classical.byContradiction fun hn => hr ⟨j, i, hn⟩
    rw [(h.1 ⟨fun j => ⟨fun i => Classical.choose (this j i)⟩⟩).mpr fun j i => Classical.choose_spec (this j i)]
    trivial

theorem Stores.sat {e n} {p : Ptr e} {x : Fin n → BitVec e.bits} {c : C (Ptr e)} (h : Stores p x c) :
    Sat (fun _ => True) c := by
  by_cases hw : Writable p n
  · obtain ⟨p', hp, _⟩ := h.1 hw
    rw [hp]; trivial
  · rw [h.2 hw]; trivial

/-- One step of the proof that a loop body writes its lane. -/
macro "sat_body" : tactic => `(tactic|
  repeat' first
    | exact sat_set _ _ _ | exact sat_get _ _ | exact sat_cast _ _ | exact sat_add _ _ | exact sat_sub _ _ | exact sat_shr _ _
    | exact sat_shl _ _ | exact sat_stdMin _ _ _ | exact sat_stdMax _ _ _
    | refine Sat.bindT ?_ fun _ => ?_ | refine Sat.ite ?_ ?_)

end Verif
