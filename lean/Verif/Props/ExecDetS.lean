import Verif.Props.ExecDet

/-!
# The rules of `SpecExec` determine the outcome: statements and calls
-/

namespace Verif.Props
open Verif.Cpp Verif.SpecExec

theorem spell_concat (cs : List Nat) (c : Nat) : spell (cs ++ [c]) = spell cs * 256 + c := by
  simp [spell, List.foldl_append]

theorem spell_inj {a b : List Nat} (ha : ∀ c ∈ a, 0 < c ∧ c < 256) (hb : ∀ c ∈ b, 0 < c ∧ c < 256) (h : spell a = spell b) :
    a = b := by
  induction a using List.reverseRecOn generalizing b with
  | nil =>
    rcases List.eq_nil_or_concat b with rfl | ⟨l, c, rfl⟩
    · rfl
    · simp only [List.concat_eq_append] at *
      rw [spell_concat] at h
      have := hb c (by simp)
      simp [spell] at h
      omega
  | append_singleton l c ih =>
    rcases List.eq_nil_or_concat b with rfl | ⟨l', c', rfl⟩
    · rw [spell_concat] at h
      have := ha c (by simp)
      simp [spell] at h
      omega
    · simp only [List.concat_eq_append] at *
      rw [spell_concat, spell_concat] at h
      have h1 := ha c (by simp)
      have h2 := hb c' (by simp)
      have h3 : spell l = spell l' ∧ c = c' := by omega
      rw [ih (fun c hc => ha c (by simp [hc])) (fun c hc => hb c (by simp [hc])) h3.1, h3.2]

theorem prints_det {name f o o' : List Nat} (h : Prints name f o) (h' : Prints name f o') : o = o' := by
  induction h generalizing o' with
  | nil => cases h'; rfl
  | string cs out h ih =>
    cases h' with
    | string _ _ h' => rw [ih h']
    | char _ _ _ h1 h' => exact absurd ⟨rfl, rfl⟩ h1
  | char c cs out h1 h ih =>
    cases h' with
    | string _ _ h' => exact absurd ⟨rfl, rfl⟩ h1
    | char _ _ _ h1' h' => rw [ih h']

theorem assigns_det {σ : State} {p : Place} {v : Val} {r r' : C Result} (h : Assigns σ p v r) (h' : Assigns σ p v r') : r = r' := by
  cases h <;> cases h' <;> grind [conv_det, writes_det]

theorem inits_det {σ : State} {x : Nat} {e : Elem} {v : Val} {r r' : C Result} (h : Inits σ x e v r) (h' : Inits σ x e v r') :
    r = r' := by
  cases h <;> cases h' <;> grind [conv_det, denotes_inj]

theorem returns_det {σ : State} {e : Elem} {v : Val} {r r' : C Result} (h : Returns σ e v r) (h' : Returns σ e v r') : r = r' := by
  cases h <;> cases h' <;> grind [conv_det, denotes_inj]

theorem copies_det {μ : Memory} {d s n : Nat} {r r' : C Memory} (h : Copies μ d s n r) (h' : Copies μ d s n r') : r = r' := by
  cases h <;> cases h' <;> grind

/-- Whether the arguments can be passed does not depend on where the parameters are. -/
theorem passes_anywhere {w : Bool} {ν : Names} {ps : List (Ty × Nat)} {as : List Expr} {acc : Names} {μ₀ μ : Memory} {u : UB}
    (h : Passes w ν μ₀ ps as acc μ (.ub u)) : ∀ acc' μ', Passes w ν μ₀ ps as acc' μ' (.ub u) := by
  generalize hr : C.ub u = r at h
  induction h with
  | nil => cases hr
  | value e x ps a as acc μ v w' bs r _ _ _ _ ih => subst hr; exact fun acc' μ' => .laterUB _ _ _ _ _ _ _ _ (ih rfl acc' μ')
  | valueUB e x ps a as acc μ u' h => cases hr; exact fun acc' μ' => .valueUB _ _ _ _ _ _ _ _ h
  | convUB e x ps a as acc μ v u' h h' => cases hr; exact fun acc' μ' => .convUB _ _ _ _ _ _ _ _ _ h h'
  | array e x ps y as acc μ n b r _ _ ih => subst hr; exact fun acc' μ' => .laterUB _ _ _ _ _ _ _ _ (ih rfl acc' μ')
  | laterUB t x ps a as acc μ u' _ ih => cases hr; exact fun acc' μ' => .laterUB _ _ _ _ _ _ _ _ (ih rfl acc' μ')

theorem passes_outcome {w : Bool} {ν : Names} {ps : List (Ty × Nat)} {as : List Expr} {acc : Names} {μ₀ μ : Memory}
    {r : C (Names × Memory)} (h : Passes w ν μ₀ ps as acc μ r) : (∃ p, r = .ok p) ∨ ∃ u, r = .ub u := by
  induction h <;> grind

theorem passes_no {w : Bool} {ν : Names} {ps : List (Ty × Nat)} {as : List Expr} {acc : Names} {μ₀ μ : Memory}
    {r : Names × Memory} {u : UB} (h : Passes w ν μ₀ ps as acc μ (.ok r)) (h' : Passes w ν μ₀ ps as acc μ (.ub u)) : False := by
  generalize hr : C.ok r = q at h
  induction h with
  | nil => cases h'
  | value e x ps a as acc μ v w' bs r _ _ _ _ ih => cases h' <;> grind [value_ok, value_no, conv_det, passes_anywhere]
  | array e x ps y as acc μ n b r _ _ ih => cases h' <;> grind [passes_anywhere]
  | _ => cases hr

theorem passes_det {w : Bool} {ν : Names} {ps : List (Ty × Nat)} {as : List Expr} {acc : Names} {μ₀ μ : Memory}
    {r r' : C (Names × Memory)} (h : Passes w ν μ₀ ps as acc μ r) (h' : Passes w ν μ₀ ps as acc μ r') : Alike r r' := by
  rcases passes_outcome h with ⟨p, rfl⟩ | ⟨u, rfl⟩ <;> rcases passes_outcome h' with ⟨p', rfl⟩ | ⟨u', rfl⟩
  · refine alike_ok.2 ?_
    generalize hr : C.ok p = q at h
    induction h with
    | nil => cases h'; cases hr; rfl
    | value e x ps a as acc μ v w' bs r _ _ _ _ ih => cases h'; grind [value_ok, conv_det, denotes_inj]
    | array e x ps y as acc μ n b r _ _ ih => cases h'; grind
    | _ => cases hr
  · exact (passes_no h h').elim
  · exact (passes_no h' h).elim
  · grind [Alike, undefined]

theorem passes_ok {w : Bool} {ν : Names} {ps : List (Ty × Nat)} {as : List Expr} {acc : Names} {μ₀ μ : Memory}
    {r r' : Names × Memory} (h : Passes w ν μ₀ ps as acc μ (.ok r)) (h' : Passes w ν μ₀ ps as acc μ (.ok r')) : r = r' :=
  alike_ok.1 (passes_det h h')
theorem constructs_det {ms : List (Nat × Ty × Option Int)} {μ μ1 μ2 : Memory} {ν ν' : Names} (h : Constructs ms μ ν μ1)
    (h' : Constructs ms μ ν' μ2) : ν = ν' ∧ μ1 = μ2 := by
  induction h generalizing ν' μ2 <;> cases h' <;> grind [conv_det, denotes_inj]

theorem members_det {ν ν1 ν2 : Names} {x : Nat} {ms : List (Nat × Ty × Option Int)} (h : Members ν x ms ν1)
    (h' : Members ν x ms ν2) : ν1 = ν2 := by
  induction h generalizing ν2 <;> cases h' <;> grind

theorem denotes_map {e : Elem} {bs bs' : List Byte} {v v' : Val} (h : Denotes e bs v) (h' : Denotes e bs' v')
    (hb : bs.map some = bs'.map some) : v = v' := by
  cases map_some_inj hb
  exact denotes_val h h'

theorem not_stops_next {σ : State} : ¬ Stops (.ok (.next σ)) := by
  rintro (_ | ⟨_, h⟩); cases h
theorem not_stops_value {v : Option Val} {σ : State} : ¬ Stops (.ok (.value v σ)) := by
  rintro (_ | ⟨_, h⟩); cases h
theorem not_fails_ok {r : Result} : ¬ Fails (.ok r) := by
  rintro ⟨⟩
theorem isRegister_sc {e : Elem} : isRegister (.sc e) = false := rfl

set_option maxHeartbeats 4000000 in
theorem exec_det {w : Bool} {u : TransUnit} {fr : Frame} {c : Code} {σ : State} {r r' : C Result} (h : Exec w u fr c σ r)
    (h' : Exec w u fr c σ r') : Alike r r' := by
  induction h generalizing r' <;> cases h' <;>
    grind [Alike, undefined, not_stops_next, not_stops_value, not_fails_ok, value_ok, value_no, place_ok, place_no, toBool_det, assigns_det, inits_det, returns_det,
      copies_det, passes_ok, passes_no, constructs_det, members_det, denotes_map, isRegister_sc, spell_inj, prints_det]

theorem enters_det {ps : List (Ty × Nat)} {as : List Arg} {ν ν1 ν2 : Names} {μ μ1 μ2 : Memory} (h : Enters ps as ν μ ν1 μ1)
    (h' : Enters ps as ν μ ν2 μ2) : ν1 = ν2 ∧ μ1 = μ2 := by
  induction h with
  | nil => cases h'; exact ⟨rfl, rfl⟩
  | object t x ps b as ν μ ν' μ' h1 h2 h3 ih =>
    cases h' with
    | object _ _ _ _ _ _ _ _ _ _ _ h3' => exact ih h3'
  | pointer e x ps b off as ν μ ν' μ' h3 ih =>
    cases h' with
    | pointer _ _ _ _ _ _ _ _ _ _ h3' => exact ih h3'

/-- The outcomes of a call on the abstract machine are alike: it has at most one, or undefined behaviour. -/
theorem called_det {w : Bool} {u : TransUnit} {g : Func} {args : List Arg} {r r' : C Effect} (h : Called w u g args r)
    (h' : Called w u g args r') : Alike r r' := by
  cases h <;> cases h' <;> grind [enters_det, → exec_det, Alike, undefined]

end Verif.Props
