import Verif.Props.ExecStore

/-! Property C96: statements. -/

namespace Verif.Props
open Verif.Cpp Verif.SpecCpp Verif.SpecExec

/-! ## Outcomes -/

/-- The outcome of the interpreter: `P` holds of what it gives, and if it ends the program `E` holds of that outcome of the
abstract machine; or the program is not well-formed, or more steps are needed. -/
def Fate {α : Type} (E : C Result → Prop) (P : α → Prop) : C α → Prop
  | .ok a => P a
  | .ub u => u ≠ .illTyped → E (.ub u)
  | .abort m => m = "ill-formed program" ∨ m = "out of fuel" ∨ E (.abort m)
  | .indet _ => False

theorem Fate.bind {α β : Type} {E E' : C Result → Prop} {P : α → Prop} {Q : β → Prop} {x : C α} {f : α → C β} (hx : Fate E P x)
    (hE : ∀ r, Fails r → E r → E' r) (hok : ∀ a, x = .ok a → P a → Fate E' Q (f a)) : Fate E' Q (x >>= f) := by
  cases x with
  | ok a => exact hok a rfl hx
  | ub u => exact fun h => hE _ (.ub u) (hx h)
  | abort m =>
    rcases hx with h | h | h
    · exact .inl h
    · exact .inr (.inl h)
    · exact .inr (.inr (hE _ (.abort m) h))
  | indet l => exact hx

theorem Fate.mono {α : Type} {E E' : C Result → Prop} {P Q : α → Prop} {x : C α} (hx : Fate E P x)
    (hE : ∀ r, Fails r → E r → E' r) (hok : ∀ a, x = .ok a → P a → Q a) : Fate E' Q x := by
  cases x with
  | ok a => exact hok a rfl hx
  | ub u => exact fun h => hE _ (.ub u) (hx h)
  | abort m =>
    rcases hx with h | h | h
    · exact .inl h
    · exact .inr (.inl h)
    · exact .inr (.inr (hE _ (.abort m) h))
  | indet l => exact hx

theorem Fate.ofSound {α β : Type} {S : C α → Prop} {E : C Result → Prop} {Q : β → Prop} {x : C α} {f : α → C β} (hx : Sound S x)
    (hE : ∀ u, S (.ub u) → E (.ub u)) (hok : ∀ a, x = .ok a → S (.ok a) → Fate E Q (f a)) : Fate E Q (x >>= f) := by
  cases x with
  | ok a => exact hok a rfl hx
  | ub u => exact fun h => hE _ (hx h)
  | abort m => exact .inl hx
  | indet l => exact hx

theorem Fate.ill {α : Type} {E : C Result → Prop} {P : α → Prop} : Fate E P (illFormed : C α) := .inl rfl

theorem Fate.get {α : Type} {E : C Result → Prop} {Q : α → Prop} {ρ : Env} {ν : Names} {μ : Memory} (h : Rel ρ ν μ) (x : Nat) {f : Obj → C α}
    (hok : ∀ o n, ρ.get x = .ok o → ν.lookup x = some n → Holds μ o n → Fate E Q (f o)) : Fate E Q (ρ.get x >>= f) := by
  rcases get_outcome ρ x with e | ⟨o, e⟩
  · rw [e]; exact .ill
  · rw [e]
    obtain ⟨n, h1, h2⟩ := h.get e
    exact hok o n e h1 h2

/-- The names of new objects were added; they denote no pointers. -/
def Grows (ν ν' : Names) (μ : Memory) : Prop :=
  ∃ new, ν' = new ++ ν ∧ ∀ p ∈ new, (∀ a, addr p.2 = some a → μ.length ≤ a) ∧ ∀ e a o, p.2 ≠ .pointer e a o

theorem Grows.refl (ν : Names) (μ : Memory) : Grows ν ν μ := ⟨[], rfl, fun _ h => absurd h List.not_mem_nil⟩

theorem Grows.trans {ν ν₁ ν₂ : Names} {μ μ₁ : Memory} (h1 : Grows ν ν₁ μ) (h2 : Grows ν₁ ν₂ μ₁) (hl : μ.length ≤ μ₁.length) : Grows ν ν₂ μ := by
  obtain ⟨n1, rfl, h1⟩ := h1
  obtain ⟨n2, rfl, h2⟩ := h2
  refine ⟨n2 ++ n1, (List.append_assoc ..).symm, fun p hp => ?_⟩
  rcases List.mem_append.1 hp with hp | hp
  · exact ⟨fun a ha => Nat.le_trans hl ((h2 p hp).1 a ha), (h2 p hp).2⟩
  · exact h1 p hp

theorem Grows.addrs {ν ν' : Names} {μ : Memory} (h : Grows ν ν' μ) : ∀ a ∈ addrs ν', a < μ.length → a ∈ addrs ν := by
  obtain ⟨new, rfl, h⟩ := h
  intro a ha hl
  rw [addrs_append] at ha
  rcases List.mem_append.1 ha with ha | ha
  · obtain ⟨p, hp, ha⟩ := mem_addrs.1 ha
    exact absurd ((h p hp).1 a ha) (by omega)
  · exact ha

theorem Rel.drop {ρ : Env} {ν ν' : Names} {μ μ' : Memory} (h : Rel ρ ν' μ') (hg : Grows ν ν' μ) : Rel (ρ.drop (ρ.length - ν.length)) ν μ' := by
  obtain ⟨new, rfl, -⟩ := hg
  have hl := h.length
  rw [List.length_append] at hl
  obtain ⟨h, hn⟩ := h
  rw [addrs_append] at hn
  refine ⟨?_, hn.of_append_right⟩
  have := List.forall₂_drop (ρ.length - ν.length) h
  rw [show ρ.length - ν.length = new.length by omega] at this ⊢
  rwa [List.drop_left' rfl] at this

/-- The types of the values that functions return. -/
def returnable : Ty → Bool
  | .sc _ | .vec .. | .arr .. => true
  | _ => false

/-- How code ends in the interpreter, as the abstract machine ends. -/
def Reaches (w : Bool) (u : TransUnit) (fr : Frame) (code : Code) (ν : Names) (μ : Memory) (declares : Bool) : Flow → Prop
  | .next ρ' => ∃ ν' μ', Exec w u fr code ⟨ν, μ, []⟩ (.ok (.next ⟨ν', μ', []⟩)) ∧ Rel ρ' ν' μ' ∧ Grows ν ν' μ ∧ Keeps (addrs ν) μ μ' ∧
      (declares = false → ν' = ν)
  | .ret o => ∃ μ', Exec w u fr code ⟨ν, μ, []⟩ (.ok (.ret fr.ret (image o) μ' [])) ∧ Keeps (addrs ν) μ μ' ∧ o.ty = fr.ret ∧
      returnable fr.ret = true ∧ Typed o ∧ ∀ e, o ≠ .sc e none

/-- The calls of the interpreter are those of the abstract machine. -/
structure CallsSound (w : Bool) (u : TransUnit) (Γ : Calls) : Prop where
  call : ∀ fr f args ρ ν μ, Rel ρ ν μ → args.all litsE = true → Fate (Exec w u fr (.call f args) ⟨ν, μ, []⟩)
    (fun r => ∃ μ', Exec w u fr (.call f args) ⟨ν, μ, []⟩ (.ok (.value r.1 ⟨ν, μ', []⟩)) ∧ Rel r.2 ν μ' ∧ Keeps (addrs ν) μ μ' ∧
      ∀ v, r.1 = some v → InRange v) (Γ.call f args ρ)
  construct : ∀ fr c x args ρ ν μ, Rel ρ ν μ → args.all litsE = true → Fate (Exec w u fr (.stmt (.construct c x args)) ⟨ν, μ, []⟩)
    (fun ρ' => ∃ ν' μ', Exec w u fr (.stmt (.construct c x args)) ⟨ν, μ, []⟩ (.ok (.next ⟨ν', μ', []⟩)) ∧ Rel ρ' ν' μ' ∧
      Grows ν ν' μ ∧ Keeps (addrs ν) μ μ') (Γ.construct c x args ρ)
  convert : ∀ fr e x ρ ν μ, Rel ρ ν μ → Fate (Exec w u fr (.convert e x) ⟨ν, μ, []⟩)
    (fun v => ∃ μ', Exec w u fr (.convert e x) ⟨ν, μ, []⟩ (.ok (.value (some v) ⟨ν, μ', []⟩)) ∧ Keeps (addrs ν) μ μ' ∧ InRange v)
    (Γ.convert e x ρ)

theorem noCalls_sound (w : Bool) (u : TransUnit) : CallsSound w u noCalls :=
  ⟨fun _ _ _ _ _ _ _ _ => .ill, fun _ _ _ _ _ _ _ _ _ => .ill, fun _ _ _ _ _ _ _ => .ill⟩

/-! ## Loops -/

theorem iterate_sound {w : Bool} {u : TransUnit} {fr : Frame} {c : Expr} {s b : Stmt} {ev : Env → C Val} {inc body : Env → C Flow} {ν : Names}
    (hev : ∀ ρ μ, Rel ρ ν μ → Sound (fun r => Eval w ν μ c (.val r)) (ev ρ))
    (hi : ∀ ρ μ, Rel ρ ν μ → Fate (Exec w u fr (.stmt s) ⟨ν, μ, []⟩) (Reaches w u fr (.stmt s) ν μ false) (inc ρ))
    (hb : ∀ ρ μ, Rel ρ ν μ → Fate (Exec w u fr (.stmt b) ⟨ν, μ, []⟩) (Reaches w u fr (.stmt b) ν μ false) (body ρ)) (n : Nat) :
    ∀ ρ μ, Rel ρ ν μ → Fate (Exec w u fr (.iterate c s b) ⟨ν, μ, []⟩) (Reaches w u fr (.iterate c s b) ν μ false) (iterate ev inc body n ρ) := by
  induction n with
  | zero => exact fun ρ μ h => .inr (.inl rfl)
  | succ n ih =>
    intro ρ μ h
    refine Fate.ofSound (hev ρ μ h) (fun ub hu => .iterateUB fr c s b _ ub hu) fun v hv ht => ?_
    have hb' := toBool_sound v
    split
    · rename_i hc
      rw [hc] at hb'
      refine (hb ρ μ h).bind (fun r hf hr => .bodyStop fr c s b _ v r ht hb' hr (.fails r hf)) fun f1 _ h1 => ?_
      cases f1 with
      | ret o =>
        obtain ⟨μ', hx, h2⟩ := h1
        exact ⟨μ', .bodyStop fr c s b _ v _ ht hb' hx (.ret ..), h2⟩
      | next ρ1 =>
        obtain ⟨ν1, μ1, hx1, hr1, -, hk1, hn1⟩ := h1
        cases hn1 rfl
        refine (hi ρ1 μ1 hr1).bind (fun r hf hr => .incStop fr c s b _ _ v r ht hb' hx1 hr (.fails r hf)) fun f2 _ h2 => ?_
        cases f2 with
        | ret o =>
          obtain ⟨μ', hx, hk, h2⟩ := h2
          exact ⟨μ', .incStop fr c s b _ _ v _ ht hb' hx1 hx (.ret ..), hk1.trans hk fun a h _ => h, h2⟩
        | next ρ2 =>
          obtain ⟨ν2, μ2, hx2, hr2, -, hk2, hn2⟩ := h2
          cases hn2 rfl
          have hk := hk1.trans hk2 fun a h _ => h
          refine (ih ρ2 μ2 hr2).mono (fun r _ hr => .iterate fr c s b _ _ _ v r ht hb' hx1 hx2 hr) fun f3 _ h3 => ?_
          cases f3 with
          | ret o =>
            obtain ⟨μ', hx, hk', h3⟩ := h3
            exact ⟨μ', .iterate fr c s b _ _ _ v _ ht hb' hx1 hx2 hx, hk.trans hk' fun a h _ => h, h3⟩
          | next ρ3 =>
            obtain ⟨ν3, μ3, hx3, hr3, hg, hk3, hn3⟩ := h3
            cases hn3 rfl
            exact ⟨ν, μ3, .iterate fr c s b _ _ _ v _ ht hb' hx1 hx2 hx3, hr3, .refl .., hk.trans hk3 fun a h _ => h, fun _ => rfl⟩
    · rename_i hc
      rw [Bool.not_eq_true] at hc
      rw [hc] at hb'
      exact ⟨ν, μ, .iterateEnd fr c s b _ v ht hb', h, .refl .., .refl .., fun _ => rfl⟩

/-! ## Printing -/

/-- The characters are those of the name. -/
def Spells (cs : List Nat) (n : Nat) : Prop := spell cs = n ∧ ∀ c ∈ cs, 0 < c ∧ c < 256

theorem prints_format (name : List Nat) (f : List Nat) : Prints name f (format name f) := by
  fun_induction format name f with
  | case1 cs ih => exact .string cs _ ih
  | case2 c cs h ih =>
    refine .char c cs _ ?_ ih
    rintro ⟨rfl, hc⟩
    cases cs with
    | nil => cases hc
    | cons d ds => cases hc; exact h ds rfl rfl
  | case3 => exact .nil

theorem image_sc (e : Elem) (v : Val) : image (.sc e (some v)) = (bytes (SpecExec.size e) (code v)).map some := List.append_nil _

theorem image_fresh {t : Ty} {o : Obj} (h : fresh t = .ok o) : isObject t = true ∧ o.ty = t ∧ Typed o ∧ image o = raw (SpecExec.sizeOf t) := by
  have hu : ∀ (e : Elem) (n : Nat), flat (SpecExec.size e) (List.replicate n none) = raw (n * SpecExec.size e) := by
    intro e n
    rw [flat, List.map_replicate]
    show (List.replicate n (List.replicate _ none)).flatten = _
    rw [List.flatten_replicate_replicate]; rfl
  have hl : ∀ (e : Elem) (n : Nat), lanesOf (Arr.undef : Arr e n) = List.replicate n none := by
    intro e n
    show List.ofFn (fun _ => none) = _
    rw [List.ofFn_const]
  cases t <;> cases h
  · exact ⟨rfl, rfl, trivial, List.append_nil _⟩
  · rename_i e n
    exact ⟨rfl, rfl, trivial, (congrArg _ (hl e n)).trans (hu e n)⟩
  · rename_i e n k
    refine ⟨rfl, rfl, trivial, ?_⟩
    show flat (SpecExec.size e) (List.ofFn fun j => lanesOf (Arr.undef : Arr e n)).flatten = raw (k * (n * SpecExec.size e))
    rw [List.ofFn_const, hl, List.flatten_replicate_replicate, hu, Nat.mul_assoc]
  · rename_i e n
    exact ⟨rfl, rfl, trivial, (congrArg _ (hl e n)).trans (hu e n)⟩

theorem ends_same {w : Bool} {u : TransUnit} {fr : Frame} {code : Code} {ν : Names} {μ μ' : Memory} {d : Bool} {ρ : Env}
    (hx : Exec w u fr code ⟨ν, μ, []⟩ (.ok (.next ⟨ν, μ', []⟩))) (hr : Rel ρ ν μ') (hk : Keeps (addrs ν) μ μ') :
    Reaches w u fr code ν μ d (.next ρ) := ⟨ν, μ', hx, hr, .refl .., hk, fun _ => rfl⟩

/-- A new variable. -/
theorem ends_new {w : Bool} {u : TransUnit} {fr : Frame} {code : Code} {ν : Names} {μ μ' : Memory} {ρ : Env} {x : Nat} {o : Obj}
    (hr : Rel ρ ν μ') (hk : Keeps (addrs ν) μ μ') (ho : isObject o.ty = true) (ht : Typed o)
    (hx : Exec w u fr code ⟨ν, μ, []⟩ (.ok (.next (State.new ⟨ν, μ', []⟩ x o.ty (image o))))) :
    Reaches w u fr code ν μ true (.next ((x, o) :: ρ)) := by
  refine ⟨_, _, hx, hr.new x ho ht, ⟨[(x, .object o.ty μ'.length)], rfl, fun p hp => ?_⟩, hk.trans (.append (addrs ν) _ _) fun a h _ => h,
    fun h => by cases h⟩
  cases List.mem_singleton.1 hp
  exact ⟨fun a ha => by cases ha; exact hk.len, fun e a o h => by cases h⟩

section
variable [Dialect]

/-- A new scalar variable with an initialiser. -/
theorem init_sound {u : TransUnit} {fr : Frame} {code : Code} {ν : Names} {μ μ' : Memory} {ρ : Env} {t : Ty} {x : Nat} {v : Val}
    (hr : Rel ρ ν μ') (hk : Keeps (addrs ν) μ μ') (hv : InRange v)
    (hx : ∀ e r, t = .sc e → Inits ⟨ν, μ', []⟩ x e v r → Exec Dialect.wrapv u fr code ⟨ν, μ, []⟩ r) :
    Fate (Exec Dialect.wrapv u fr code ⟨ν, μ, []⟩) (Reaches Dialect.wrapv u fr code ν μ true)
      (fresh t >>= fun o => o.setVal v >>= fun o => C.ok (.next ((x, o) :: ρ))) := by
  cases t <;> try exact .ill
  rename_i e
  show Fate _ _ ((Val.cast e v >>= fun v => C.ok (Obj.sc e (some v))) >>= _)
  rw [bind_bind]
  have hy := yields_cast e v hv
  refine Fate.ofSound (cast_sound e v hv) (fun ub hu => hx e _ rfl (.ub v ub hu)) fun a ha hc => ?_
  refine ends_new (o := .sc e (some a)) hr hk rfl (hy a ha) (hx e _ rfl ?_)
  rw [image_sc]
  exact .ok v a _ hc (denotes_bytes (hy a ha).1 (hy a ha).2)

/-- `return` of a value. -/
theorem ret_sound {u : TransUnit} {fr : Frame} {code : Code} {ν : Names} {μ μ' : Memory} {e : Elem} {v : Val} {d : Bool}
    (hk : Keeps (addrs ν) μ μ') (ht : fr.ret = .sc e)
    (hx : ∀ r, Returns ⟨ν, μ', []⟩ e v r → Exec Dialect.wrapv u fr code ⟨ν, μ, []⟩ r) :
    Fate (Exec Dialect.wrapv u fr code ⟨ν, μ, []⟩) (Reaches Dialect.wrapv u fr code ν μ d)
      (Val.toBits e v >>= fun b => C.ok (.ret (.sc e (some (.ofBits e b))))) := by
  have h := toBits_sound e v
  generalize Val.toBits e v = y at h ⊢
  cases y with
  | ok b =>
    have hy := yields_ofBits e b
    refine ⟨μ', ?_, hk, ht.symm, ht ▸ rfl, hy, fun e h => by cases h⟩
    rw [ht]
    refine hx _ ?_
    rw [image_sc]
    exact .ok v _ _ h (denotes_bytes hy.1 hy.2)
  | ub ub => exact fun hu => hx _ (.ub v ub (h hu))
  | abort m => exact .inl h
  | indet l => exact h

/-- An assignment. -/
theorem assign_sound {u : TransUnit} {fr : Frame} {code : Code} {ν : Names} {μ μ' : Memory} {ρ : Env} {l : Expr} {v : Val} {d : Bool}
    (hr : Rel ρ ν μ') (hk : Keeps (addrs ν) μ μ') (hl : litsE l = true) (hv : InRange v)
    (hub : ∀ ub, Eval Dialect.wrapv ν μ' l (.place (.ub ub)) → Exec Dialect.wrapv u fr code ⟨ν, μ, []⟩ (.ub ub))
    (hx : ∀ p r, Eval Dialect.wrapv ν μ' l (.place (.ok p)) → Assigns ⟨ν, μ', []⟩ p v r → Exec Dialect.wrapv u fr code ⟨ν, μ, []⟩ r) :
    Fate (Exec Dialect.wrapv u fr code ⟨ν, μ, []⟩) (Reaches Dialect.wrapv u fr code ν μ d)
      (store ρ l v >>= fun ρ => C.ok (.next ρ)) := by
  refine Fate.ofSound (store_sound hr l hl hv) (fun ub hu => ?_) fun ρ' _ h => ?_
  · rcases hu with hu | ⟨p, hp, hu⟩
    · exact hub ub hu
    · exact hx p _ hp (.ub p v ub hu)
  · obtain ⟨p, w, μ₂, hp, hc, hw, hr2, hk2⟩ := h
    exact ends_same (hx p _ hp (.ok p v w μ₂ hc hw)) hr2 (hk.trans hk2 fun a h _ => h)

/-- `memcpy` -/
theorem copied_sound {u : TransUnit} {fr : Frame} {code : Code} {ν : Names} {μ : Memory} {ρ : Env} {x d s k : Nat} {dc : Bool} {y : C Obj}
    (hs : Sound (Copied ν μ d s k x ρ) y)
    (hub : ∀ ub, Copies μ d s k (.ub ub) → Exec Dialect.wrapv u fr code ⟨ν, μ, []⟩ (.ub ub))
    (hx : ∀ μ', Copies μ d s k (.ok μ') → Exec Dialect.wrapv u fr code ⟨ν, μ, []⟩ (.ok (.next ⟨ν, μ', []⟩))) :
    Fate (Exec Dialect.wrapv u fr code ⟨ν, μ, []⟩) (Reaches Dialect.wrapv u fr code ν μ dc) (y >>= fun o => C.ok (.next (ρ.set x o))) := by
  refine Fate.ofSound hs (fun ub hu => hub ub hu) fun o _ h => ?_
  obtain ⟨μ', hc, hr, hk⟩ := h
  exact ends_same (hx μ' hc) hr hk

/-- Statements are executed as on the abstract machine. -/
theorem exec_sound {u : TransUnit} {Γ : Calls} (hΓ : CallsSound Dialect.wrapv u Γ) (fuel : Nat) (fn : List Nat) (fr : Frame)
    (hfn : Spells fn fr.name) (s : Stmt) (hs : litsS s = true) :
    ∀ ρ ν μ, Rel ρ ν μ → Fate (Exec Dialect.wrapv u fr (.stmt s) ⟨ν, μ, []⟩) (Reaches Dialect.wrapv u fr (.stmt s) ν μ s.declares)
      (exec Γ fuel fn fr.ret s ρ) := by
  induction s with
  | skip => exact fun ρ ν μ h => ends_same (.skip fr _) h (.refl ..)
  | seq a b iha ihb =>
    intro ρ ν μ h
    simp only [litsS, Bool.and_eq_true] at hs
    by_cases hab : ∃ fmt s', a = .fprintf fmt ∧ b = .seq .abort s'
    · obtain ⟨fmt, s', rfl, rfl⟩ := hab
      exact .inr (.inr (.seq fr _ _ _ _ _ (.fprintf fr fmt _ fn _ hfn.1 hfn.2 (prints_format fn fmt))
        (.seqStop fr _ _ _ _ (.abort fr _) (.fails _ (.abort _)))))
    · rw [exec.eq_3 _ _ _ _ _ _ _ (fun fmt s' h1 h2 => hab ⟨fmt, s', h1, h2⟩)]
      refine (iha hs.1 ρ ν μ h).bind (fun r hf hr => .seqStop fr a b _ r hr (.fails r hf)) fun f1 _ h1 => ?_
      cases f1 with
      | ret o =>
        obtain ⟨μ', hx, h1⟩ := h1
        exact ⟨μ', .seqStop fr a b _ _ hx (.ret ..), h1⟩
      | next ρ1 =>
        obtain ⟨ν1, μ1, hx1, hr1, hg1, hk1, hd1⟩ := h1
        refine (ihb hs.2 ρ1 ν1 μ1 hr1).mono (fun r _ hr => .seq fr a b _ _ r hx1 hr) fun f2 _ h2 => ?_
        cases f2 with
        | ret o =>
          obtain ⟨μ', hx, hk, h2⟩ := h2
          exact ⟨μ', .seq fr a b _ _ _ hx1 hx, hk1.trans hk hg1.addrs, h2⟩
        | next ρ2 =>
          obtain ⟨ν2, μ2, hx2, hr2, hg2, hk2, hd2⟩ := h2
          refine ⟨ν2, μ2, .seq fr a b _ _ _ hx1 hx2, hr2, hg1.trans hg2 hk1.len, hk1.trans hk2 hg1.addrs, fun hd => ?_⟩
          simp only [Stmt.declares, Bool.or_eq_false_iff] at hd
          rw [hd2 hd.2, hd1 hd.1]
  | block s ih =>
    intro ρ ν μ h
    refine (ih hs ρ ν μ h).bind (fun r hf hr => .blockStop fr s _ r hr (.fails r hf)) fun f1 _ h1 => ?_
    cases f1 with
    | ret o =>
      obtain ⟨μ', hx, h1⟩ := h1
      exact ⟨μ', .blockStop fr s _ _ hx (.ret ..), h1⟩
    | next ρ1 =>
      obtain ⟨ν1, μ1, hx1, hr1, hg1, hk1, hd1⟩ := h1
      refine ends_same (.block fr s _ _ hx1) ?_ hk1
      rw [h.length]
      exact hr1.drop hg1
  | decl t x e =>
    intro ρ ν μ h
    cases e with
    | none =>
      show Fate _ _ (fresh t >>= fun o => C.ok (Flow.next ((x, o) :: ρ)))
      cases hf : fresh t with
      | ok o =>
        obtain ⟨h1, rfl, h3, h4⟩ := image_fresh hf
        refine ends_new h (.refl ..) h1 h3 ?_
        rw [h4]
        exact .decl fr _ x _ h1
      | _ => cases t <;> cases hf <;> exact .ill
    | some e =>
      refine Fate.ofSound (eval_sound h e hs) (fun ub hu => .declUB fr t x e _ ub hu) fun v hv hev => ?_
      refine init_sound h (.refl ..) (expression_types ρ h.typed e hs v hv).1 fun e' r ht hi => ?_
      subst ht
      exact .init fr e' x e _ v r hev hi
  | assign l e =>
    intro ρ ν μ h
    simp only [litsS, Bool.and_eq_true] at hs
    refine Fate.ofSound (eval_sound h e hs.2) (fun ub hu => .assignUB fr l e _ ub hu) fun v hv hev => ?_
    exact assign_sound h (.refl ..) hs.1 (expression_types ρ h.typed e hs.2 v hv).1 (fun ub hu => .placeUB fr l e _ ub hu)
      fun p r hp ha => .assign fr l e _ v p r hev hp ha
  | loop i c s b ihi ihs ihb =>
    intro ρ ν μ h
    simp only [litsS, Bool.and_eq_true] at hs
    unfold exec
    split
    · exact .ill
    · rename_i hd
      rw [Bool.not_eq_true, Bool.or_eq_false_iff] at hd
      refine (ihi hs.1.1.1 ρ ν μ h).bind (fun r hf hr => .initStop fr i c s b _ r hr (.fails r hf)) fun f1 _ h1 => ?_
      cases f1 with
      | ret o =>
        obtain ⟨μ', hx, h1⟩ := h1
        exact ⟨μ', .initStop fr i c s b _ _ hx (.ret ..), h1⟩
      | next ρ1 =>
        obtain ⟨ν1, μ1, hx1, hr1, hg1, hk1, hd1⟩ := h1
        have := iterate_sound (u := u) (fr := fr) (c := c) (s := s) (b := b) (ev := fun ρ => eval ρ c) (ν := ν1)
          (inc := exec Γ fuel fn fr.ret s) (body := exec Γ fuel fn fr.ret b) (fun ρ μ h => eval_sound h c hs.1.1.2)
          (fun ρ μ h => by have := ihs hs.1.2 ρ ν1 μ h; rwa [hd.1] at this)
          (fun ρ μ h => by have := ihb hs.2 ρ ν1 μ h; rwa [hd.2] at this) fuel ρ1 μ1 hr1
        refine this.bind (fun r hf hr => .loopStop fr i c s b _ _ r hx1 hr (.fails r hf)) fun f2 _ h2 => ?_
        cases f2 with
        | ret o =>
          obtain ⟨μ', hx, hk, h2⟩ := h2
          exact ⟨μ', .loopStop fr i c s b _ _ _ hx1 hx (.ret ..), hk1.trans hk hg1.addrs, h2⟩
        | next ρ2 =>
          obtain ⟨ν2, μ2, hx2, hr2, hg2, hk2, hd2⟩ := h2
          refine ends_same (.loop fr i c s b _ _ _ hx1 hx2) ?_ (hk1.trans hk2 hg1.addrs)
          rw [h.length]
          exact hr2.drop (hg1.trans hg2 hk1.len)
  | ite c a b iha ihb =>
    intro ρ ν μ h
    simp only [litsS, Bool.and_eq_true] at hs
    unfold exec
    split
    · exact .ill
    · rename_i hd
      rw [Bool.not_eq_true, Bool.or_eq_false_iff] at hd
      refine Fate.ofSound (eval_sound h c hs.1.1) (fun ub hu => .iteUB fr c a b _ ub hu) fun v hv hev => ?_
      have ht := toBool_sound v
      have key : ∀ p s, ToBool v p → (if p then a else b) = s → s.declares = false → (∀ ρ ν μ, Rel ρ ν μ →
          Fate (Exec Dialect.wrapv u fr (.stmt s) ⟨ν, μ, []⟩) (Reaches Dialect.wrapv u fr (.stmt s) ν μ s.declares) (exec Γ fuel fn fr.ret s ρ)) →
          Fate (Exec Dialect.wrapv u fr (.stmt (.ite c a b)) ⟨ν, μ, []⟩) (Reaches Dialect.wrapv u fr (.stmt (.ite c a b)) ν μ false)
            (exec Γ fuel fn fr.ret s ρ) := by
        rintro p s ht rfl hd ih
        refine (ih ρ ν μ h).mono (fun r hf hr => .iteStop fr c a b _ v p r hev ht hr (.fails r hf)) fun f _ h1 => ?_
        cases f with
        | ret o =>
          obtain ⟨μ', hx, h1⟩ := h1
          exact ⟨μ', .iteStop fr c a b _ v p _ hev ht hx (.ret ..), h1⟩
        | next ρ1 =>
          obtain ⟨ν1, μ1, hx1, hr1, hg1, hk1, hd1⟩ := h1
          cases hd1 hd
          exact ends_same (.ite fr c a b _ _ v p hev ht hx1) hr1 hk1
      split
      · rename_i hc
        rw [hc] at ht
        exact key true a ht rfl hd.1 (iha hs.1.2)
      · rename_i hc
        rw [Bool.not_eq_true] at hc
        rw [hc] at ht
        exact key false b ht rfl hd.2 (ihb hs.2)
  | ret e =>
    intro ρ ν μ h
    have hvar : ∀ x, isRegister fr.ret = true → e = .var x → Fate (Exec Dialect.wrapv u fr (.stmt (.ret e)) ⟨ν, μ, []⟩)
        (Reaches Dialect.wrapv u fr (.stmt (.ret e)) ν μ false)
        (ρ.get x >>= fun o => if o.ty = fr.ret then C.ok (Flow.ret o) else illFormed) := by
      rintro x hreg rfl
      have hret : returnable fr.ret = true := by cases h : fr.ret <;> rw [h] at hreg <;> first | rfl | cases hreg
      refine Fate.get h x fun o n hx hn ho => ?_
      split
      · rename_i hty
        cases ho with
        | object _ a h1 h2 h3 =>
          rw [hty] at hn h1
          exact ⟨μ, .retObject fr x _ a _ hreg hn h3, .refl .., hty, hret, h2, by rintro e rfl; rw [← hty] at hreg; cases hreg⟩
        | ptr e p a => rw [← hty] at hreg; cases hreg
        | obj c => rw [← hty] at hreg; cases hreg
      · exact .ill
    obtain ⟨nm, t⟩ := fr
    cases t with
    | sc t =>
      refine Fate.ofSound (eval_sound h e hs) (fun ub hu => .retUB _ e _ t ub rfl hu) fun v hv hev => ?_
      exact ret_sound (.refl ..) rfl fun r hr => .ret _ e _ t v r rfl hev hr
    | vec e' n' => cases e <;> first | exact hvar _ rfl rfl | exact .ill
    | arr e' n' k' => cases e <;> first | exact hvar _ rfl rfl | exact .ill
    | _ => exact .ill
  | fprintf f => exact fun ρ ν μ h => .ill
  | abort => exact fun ρ ν μ h => .inr (.inr (.abort fr _))
  | memcpy d s e k =>
    intro ρ ν μ h
    refine Fate.get h d fun od nd hd hnd hod => ?_
    refine Fate.get h s fun os ns hs' hns hos => ?_
    rw [sizeof_size]
    cases od <;> try exact .ill
    cases os <;> try exact .ill
    have hd1 := hod
    have hs1 := hos
    cases hod with
    | object _ a =>
      cases hos with
      | object _ b =>
        exact copied_sound (copy_sound h hd hnd hd1 hs1 rfl rfl _) (fun ub hu => .memcpyUB fr d s e k _ _ _ _ _ a b ub hnd hns hu)
          fun μ' hc => .memcpy fr d s e k _ _ _ _ _ a b μ' hnd hns hc
  | memcpySc d s e =>
    intro ρ ν μ h
    refine Fate.get h d fun od nd hd hnd hod => ?_
    refine Fate.get h s fun os ns hs' hns hos => ?_
    rw [sizeof_size]
    cases od <;> try exact .ill
    cases os <;> try exact .ill
    have hd1 := hod
    have hs1 := hos
    cases hod with
    | object _ a =>
      cases hos with
      | object _ b =>
        exact copied_sound (copySc_sound h hd hnd hd1 hs1 rfl rfl _) (fun ub hu => .memcpyScUB fr d s e _ _ _ a b ub hnd hns hu)
          fun μ' hc => .memcpySc fr d s e _ _ _ a b μ' hnd hns hc
  | call f args =>
    intro ρ ν μ h
    refine (hΓ.call fr f args ρ ν μ h hs).bind (fun r hf hr => .callFail fr f args _ r hr hf) fun r _ h1 => ?_
    obtain ⟨μ', hx, hr, hk, -⟩ := h1
    exact ends_same (.callStmt fr f args _ _ r.1 hx) hr hk
  | declCall t x f args =>
    intro ρ ν μ h
    refine (hΓ.call fr f args ρ ν μ h hs).bind (fun r hf hr => .declCallFail fr t x f args _ r hr hf) fun r _ h1 => ?_
    obtain ⟨μ', hx, hr, hk, hv⟩ := h1
    obtain ⟨v, ρ'⟩ := r
    cases v with
    | none => cases t <;> exact .ill
    | some v =>
      refine init_sound hr hk (hv v rfl) fun e r ht hi => ?_
      subst ht
      exact .declCall fr e x f args _ _ v r hx hi
  | assignCall l f args =>
    intro ρ ν μ h
    simp only [litsS, Bool.and_eq_true] at hs
    refine (hΓ.call fr f args ρ ν μ h hs.2).bind (fun r hf hr => .assignCallFail fr l f args _ r hr hf) fun r _ h1 => ?_
    obtain ⟨μ', hx, hr, hk, hv⟩ := h1
    obtain ⟨v, ρ'⟩ := r
    cases v with
    | none => exact .ill
    | some v =>
      exact assign_sound hr hk hs.1 (hv v rfl) (fun ub hu => .assignCallUB fr l f args _ _ v ub hx hu)
        fun p r hp ha => .assignCall fr l f args _ _ v p r hx hp ha
  | construct c x args =>
    intro ρ ν μ h
    refine (hΓ.construct fr c x args ρ ν μ h hs).bind (fun r _ hr => hr) fun ρ' _ h1 => ?_
    obtain ⟨ν', μ', hx, hr, hg, hk⟩ := h1
    exact ⟨ν', μ', hx, hr, hg, hk, fun h => by cases h⟩
  | retConv e x =>
    intro ρ ν μ h
    obtain ⟨nm, t⟩ := fr
    cases t with
    | sc t =>
      refine (hΓ.convert ⟨nm, .sc t⟩ e x ρ ν μ h).bind (fun r hf hr => .retConvFail _ _ e t x r rfl hr hf) fun v _ h1 => ?_
      obtain ⟨μ', hx, hk, hv⟩ := h1
      exact ret_sound hk rfl fun r hr => .retConv _ _ _ e t x v r rfl hx hr
    | _ => exact .ill

end

end Verif.Props
