import Verif.Machine
import Verif.Props.ArmLoad
import Verif.Props.ArmStore
import Verif.Props.ArmAdd
import Verif.Props.ArmSub
import Verif.Props.ArmMul
import Verif.Props.ArmMove
import Verif.Props.ArmShift
import Verif.Props.ArmConvert
import Verif.Props.ArmPerm
import Verif.Props.ArmLogic
import Verif.Props.ArmRest
import Verif.Props.ArmAgree
import Verif.Props.ArmFloat

/-!
# Programs run on the simulator as the architecture says (C76)
-/

namespace Verif.Props
open Verif.Cpp Verif.Arm Verif.Machine

/-- Where the architecture determines the result of a call, the call returns it on the simulator. -/
theorem exactly_called [Dialect] {f : Nat} {args : List Obj} {r : Obj} (h : Exactly f args r) :
    Called f args (.ok r) := by
  cases h with
  | load h => exact Load_called h
  | store h => exact Store_called h
  | add h => exact Add_called h
  | sub h => exact Sub_called h
  | mul h => exact Mul_called h
  | move h => exact Move_called h
  | shift h => exact Shift_called h
  | convert h => exact Convert_called h
  | perm h => exact Perm_called h
  | logic h => exact Logic_called h
  | rest h => exact Rest_called h
  | agree h => exact Agree_called h

/-- A call returns on the simulator something that the architecture allows. -/
theorem means_called [Dialect] {f : Nat} {args : List Obj} {r : Obj} (h : Means f args r) :
    ∃ r, Means f args r ∧ Called f args (.ok r) := by
  cases h with
  | exactly h => exact ⟨r, .exactly h, exactly_called h⟩
  | float h => obtain ⟨r, h, hc⟩ := Float_called h; exact ⟨r, .float h, hc⟩

/-- A call has at most one outcome. -/
theorem called_unique [Dialect] {f : Nat} {args : List Obj} {a b : C Obj}
    (ha : Called f args a) (hb : Called f args b) : a = b := by
  obtain ⟨t, ht, ha⟩ := ha
  obtain ⟨t', ht', hb⟩ := hb
  cases ht.symm.trans ht'
  cases t with
  | fn s => exact runs_unique ha hb
  | unit s => exact runsIn_unique ha hb

theorem then_unique {α : Type} {a : C α} {k : α → C State → Prop}
    (hk : ∀ x o o', k x o → k x o' → o = o') {o o' : C State} (h : Then a k o) (h' : Then a k o') : o = o' := by
  cases a with
  | ok x => exact hk _ _ _ h h'
  | _ => exact Eq.trans h (Eq.symm h')

theorem iter_unique {k : State → C State → Prop} (hk : ∀ s o o', k s o → k s o' → o = o') (n : Nat) :
    ∀ s o o', Iter k n s o → Iter k n s o' → o = o' := by
  induction n with
  | zero => exact fun s o o' h h' => Eq.trans h (Eq.symm h')
  | succ n ih =>
    rintro s o o' ⟨a, ha, h⟩ ⟨a', ha', h'⟩
    cases hk _ _ _ ha ha'
    exact then_unique ih h h'

/-- A program has at most one outcome on the simulator. -/
theorem exec_unique [Dialect] (p : Prog) : ∀ (s : State) (o o' : C State), Exec p s o → Exec p s o' → o = o' := by
  induction p with
  | skip => exact fun s o o' h h' => Eq.trans h (Eq.symm h')
  | call x f args =>
    rintro s o o' ⟨a, ha, h⟩ ⟨a', ha', h'⟩
    cases called_unique ha ha'
    exact then_unique (fun _ _ _ h h' => h.trans h'.symm) h h'
  | store f p args =>
    rintro s o o' ⟨a, ha, h⟩ ⟨a', ha', h'⟩
    cases called_unique ha ha'
    exact then_unique (fun _ _ _ h h' => h.trans h'.symm) h h'
  | glue g => exact fun s o o' h h' => Eq.trans h (Eq.symm h')
  | seq p q ihp ihq =>
    rintro s o o' ⟨a, ha, h⟩ ⟨a', ha', h'⟩
    cases ihp _ _ _ ha ha'
    exact then_unique ihq h h'
  | cond c p q ihp ihq =>
    intro s o o' h h'
    unfold Exec at h h'
    split at h
    · rename_i hc; rw [if_pos hc] at h'; exact ihp _ _ _ h h'
    · rename_i hc; rw [if_neg hc] at h'; exact ihq _ _ _ h h'
  | loop n p ih => exact fun s o o' h h' => iter_unique ih _ s o o' h h'

theorem iter_exec {k : State → C State → Prop} {w : (State → Prop) → State → Prop}
    (h : ∀ s Q, w Q s → ∃ s', Q s' ∧ k s (.ok s')) (n : Nat) :
    ∀ s Q, repeated w n Q s → ∃ s', Q s' ∧ Iter k n s (.ok s') := by
  induction n with
  | zero => exact fun s Q hQ => ⟨s, hQ, rfl⟩
  | succ n ih =>
    intro s Q hw
    obtain ⟨s₁, h₁, hk⟩ := h s _ hw
    obtain ⟨s', hQ, hi⟩ := ih s₁ Q h₁
    exact ⟨s', hQ, .ok s₁, hk, hi⟩

theorem ensures_exec [Dialect] (p : Prog) : ∀ (s : State) (Q : State → Prop), Ensures p Q s →
    ∃ s', Q s' ∧ Exec p s (.ok s') := by
  induction p with
  | skip => exact fun s Q h => ⟨s, h, rfl⟩
  | call x f args =>
    rintro s Q ⟨⟨r, hr⟩, h⟩
    obtain ⟨r, hr, hc⟩ := means_called hr
    exact ⟨_, h r hr, .ok r, hc, rfl⟩
  | store f p args =>
    rintro s Q ⟨⟨r, hr⟩, h⟩
    obtain ⟨r, hr, hc⟩ := means_called hr
    exact ⟨_, h r hr, .ok r, hc, rfl⟩
  | glue g => exact fun s Q h => ⟨_, h, rfl⟩
  | seq p q ihp ihq =>
    intro s Q h
    obtain ⟨s₁, h₁, e₁⟩ := ihp s _ h
    obtain ⟨s', hQ, e'⟩ := ihq s₁ Q h₁
    exact ⟨s', hQ, .ok s₁, e₁, e'⟩
  | cond c p q ihp ihq =>
    intro s Q h
    unfold Ensures at h
    split at h
    · rename_i hc
      obtain ⟨s', hQ, he⟩ := ihp s Q h
      exact ⟨s', hQ, by unfold Exec; rwa [if_pos hc]⟩
    · rename_i hc
      obtain ⟨s', hQ, he⟩ := ihq s Q h
      exact ⟨s', hQ, by unfold Exec; rwa [if_neg hc]⟩
  | loop n p ih => exact fun s Q h => iter_exec ih (n s) s Q h

/-- C76: what the architecture's meaning of the intrinsics ensures of a program holds when the program
runs on the simulator: it completes without undefined behaviour and without abort, in a single state, and
that state satisfies what was ensured.

Partial: `Arm.Means` has rules for 530 intrinsics; the others, which the simulator never gets right, have none, and some
rules are restricted to the arguments for which the simulator is right, so that programs which depend on the rest are not covered. -/
theorem program_ensures_partial [Dialect] (p : Prog) (s : State) (Q : State → Prop) (h : Ensures p Q s) :
    ∃ s', Q s' ∧ ∀ o, Exec p s o ↔ o = .ok s' := by
  obtain ⟨s', hQ, he⟩ := ensures_exec p s Q h
  exact ⟨s', hQ, fun o => ⟨fun ho => exec_unique p s _ _ ho he, fun ho => ho ▸ he⟩⟩

/-! ## Reasoning about programs with the architecture's meaning of the intrinsics -/

theorem float_mem [Dialect] {f : Nat} {args : List Obj} {r : Obj} (h : Float f args r) : f ∈ floats := by
  cases h <;> decide +kernel

/-- What the architecture determines is unique. -/
theorem exactly_unique [Dialect] {f : Nat} {args : List Obj} {r r' : Obj} (h : Exactly f args r)
    (h' : Exactly f args r') : r = r' := by
  cases called_unique (exactly_called h) (exactly_called h')
  rfl

theorem means_eq [Dialect] {f : Nat} {args : List Obj} {r r' : Obj} (h : Exactly f args r) (hf : f ∉ floats)
    (h' : Means f args r') : r' = r := by
  cases h' with
  | exactly h' => exact exactly_unique h' h
  | float h' => exact absurd (float_mem h') hf

theorem ensures_call [Dialect] {x f : Nat} {args : List Arg} {Q : State → Prop} {s : State} (r : Obj)
    (h : Exactly f (args.map s.arg) r) (hf : f ∉ floats) (hQ : Q (s.assign x r)) : Ensures (.call x f args) Q s :=
  ⟨⟨r, .exactly h⟩, fun r' h' => by rw [means_eq h hf h']; exact hQ⟩

theorem ensures_store [Dialect] {f p : Nat} {args : List Arg} {Q : State → Prop} {s : State} (r : Obj)
    (h : Exactly f (s.arg (.var p) :: args.map s.arg) r) (hf : f ∉ floats) (hQ : Q (s.written p r)) :
    Ensures (.store f p args) Q s :=
  ⟨⟨r, .exactly h⟩, fun r' h' => by rw [means_eq h hf h']; exact hQ⟩

theorem repeated_mono {w : (State → Prop) → State → Prop} (hw : ∀ Q Q' s, (∀ s, Q s → Q' s) → w Q s → w Q' s) (n : Nat) :
    ∀ (Q Q' : State → Prop) (s : State), (∀ s, Q s → Q' s) → repeated w n Q s → repeated w n Q' s := by
  induction n with
  | zero => exact fun Q Q' s hQ h => hQ s h
  | succ n ih => exact fun Q Q' s hQ h => hw _ _ s (fun s => ih Q Q' s hQ) h

theorem ensures_mono [Dialect] (p : Prog) : ∀ (Q Q' : State → Prop) (s : State), (∀ s, Q s → Q' s) → Ensures p Q s →
    Ensures p Q' s := by
  induction p with
  | skip => exact fun Q Q' s hQ h => hQ s h
  | call x f args => exact fun Q Q' s hQ h => ⟨h.1, fun r hr => hQ _ (h.2 r hr)⟩
  | store f p args => exact fun Q Q' s hQ h => ⟨h.1, fun r hr => hQ _ (h.2 r hr)⟩
  | glue g => exact fun Q Q' s hQ h => hQ _ h
  | seq p q ihp ihq => exact fun Q Q' s hQ h => ihp _ _ s (fun s => ihq Q Q' s hQ) h
  | cond c p q ihp ihq =>
    intro Q Q' s hQ h
    unfold Ensures at h ⊢
    split at h
    · rename_i hc; rw [if_pos hc]; exact ihp Q Q' s hQ h
    · rename_i hc; rw [if_neg hc]; exact ihq Q Q' s hQ h
  | loop n p ih => exact fun Q Q' s hQ h => repeated_mono ih (n s) Q Q' s hQ h

/-- Loop invariants. -/
theorem ensures_loop [Dialect] {n : State → Nat} {p : Prog} {s : State} (I : Nat → State → Prop) (h0 : I 0 s)
    (hp : ∀ k < n s, ∀ t, I k t → Ensures p (I (k + 1)) t) : Ensures (.loop n p) (I (n s)) s := by
  have key : ∀ m k t, k + m = n s → I k t → repeated (Ensures p) m (I (n s)) t := by
    intro m
    induction m with
    | zero => intro k t hk hI; rw [← hk]; exact hI
    | succ m ih =>
      intro k t hk hI
      exact ensures_mono p _ _ t (fun t' => ih (k + 1) t' (by omega)) (hp k (by omega) t hI)
  exact key (n s) 0 s (by omega) h0

/-- A load, a saturating addition and a store, from a concrete state: four lanes saturate. -/
example : ∃ t, (letI := Dialect.strict; Exec (.seq (.call 2 k!"vld1_u8" [.var 0]) (.seq (.call 2 k!"vqadd_u8" [.var 2, .var 2])
      (.store k!"vst1_u8" 1 [.var 2])))
    ⟨fun b => if b = 0 then ⟨.u8, (List.range 20).map fun i => some (BitVec.ofNat 8 (20 * i))⟩ else ⟨.u8, List.replicate 9 none⟩,
      fun x => if x = 0 then .ptr 0 3 else .ptr 1 1⟩ (.ok t)) ∧ t.mem 1 = ⟨.u8, [none, some 120#8, some 160#8, some 200#8, some 240#8,
      some 255#8, some 255#8, some 255#8, some 255#8]⟩ := by
  let _ := Dialect.strict
  obtain ⟨t, hQ, he⟩ := program_ensures_partial (.seq (.call 2 k!"vld1_u8" [.var 0]) (.seq (.call 2 k!"vqadd_u8" [.var 2, .var 2])
      (.store k!"vst1_u8" 1 [.var 2])))
    ⟨fun b => if b = 0 then ⟨.u8, (List.range 20).map fun i => some (BitVec.ofNat 8 (20 * i))⟩ else ⟨.u8, List.replicate 9 none⟩,
      fun x => if x = 0 then .ptr 0 3 else .ptr 1 1⟩
    (fun t => t.mem 1 = ⟨.u8, [none, some 120#8, some 160#8, some 200#8, some 240#8,
      some 255#8, some 255#8, some 255#8, some 255#8]⟩) (by
    refine ensures_call (.ofVec (⟨fun i => BitVec.ofNat 8 (20 * (i + 3))⟩ : uint8x8_t))
      (.load (.vld1_u8 ⟨(List.range 20).map fun i => some (BitVec.ofNat 8 (20 * i)), 3⟩ _ ?_)) (by decide +kernel) ?_
    · unfold Spec.Holds; decide +kernel
    refine ensures_call (.ofVec (⟨fun i => Spec.usat 8 (((BitVec.ofNat 8 (20 * (i + 3))).toNat : Int) + ((BitVec.ofNat 8 (20 * (i + 3))).toNat : Int))⟩ : uint8x8_t))
      (.add (.vqadd_u8 ⟨fun i => BitVec.ofNat 8 (20 * (i + 3))⟩ ⟨fun i => BitVec.ofNat 8 (20 * (i + 3))⟩)) (by decide +kernel) ?_
    refine ensures_store (.ofPtr ⟨[none, some 120#8, some 160#8, some 200#8, some 240#8,
      some 255#8, some 255#8, some 255#8, some 255#8], 1⟩) (.store (.vst1_u8 ⟨List.replicate 9 none, 1⟩
        ⟨fun i => Spec.usat 8 (((BitVec.ofNat 8 (20 * (i + 3))).toNat : Int) + ((BitVec.ofNat 8 (20 * (i + 3))).toNat : Int))⟩ _
        (by unfold Spec.Writable; decide +kernel) ?_)) (by decide +kernel) rfl
    refine ⟨rfl, rfl, by decide +kernel, fun a ha => ?_⟩
    rcases ha with ha | ha
    · have : a = 0 := by simp only at ha; omega
      subst this; rfl
    · rw [List.getElem?_eq_none (by simp only at ha; simp; omega), List.getElem?_eq_none (by simp only at ha; simp; omega)])
  exact ⟨t, (he _).2 rfl, hQ⟩

end Verif.Props
