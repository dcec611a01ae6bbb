import Verif.Props.ExecMem

/-! Property C96: expressions. -/

namespace Verif.Props
open Verif.Cpp Verif.SpecCpp Verif.SpecExec

theorem Sound.bind {α β : Type} {P : C α → Prop} {Q : C β → Prop} {x : C α} {f : α → C β} (hx : Sound P x)
    (hub : ∀ u, P (.ub u) → Q (.ub u)) (hok : ∀ a, x = .ok a → P (.ok a) → Sound Q (f a)) : Sound Q (x >>= f) := by
  cases x with
  | ok a => exact hok a rfl hx
  | ub u => exact fun h => hub u (hx h)
  | abort m => exact hx
  | indet l => exact hx

theorem Sound.mono {α : Type} {P Q : C α → Prop} {x : C α} (hx : Sound P x) (h : ∀ r, P r → Q r) : Sound Q x := by
  cases x with
  | ok a => exact h _ hx
  | ub u => exact fun hu => h _ (hx hu)
  | abort m => exact hx
  | indet l => exact hx

theorem get_outcome (ρ : Env) (x : Nat) : ρ.get x = illFormed ∨ ∃ o, ρ.get x = .ok o := by
  induction ρ with
  | nil => exact .inl rfl
  | cons p ρ ih =>
    obtain ⟨y, o⟩ := p
    unfold Env.get
    split
    · exact .inr ⟨o, rfl⟩
    · exact ih

theorem Sound.get {α : Type} {Q : C α → Prop} {ρ : Env} {ν : Names} {μ : Memory} (h : Rel ρ ν μ) (x : Nat) {f : Obj → C α}
    (hok : ∀ o n, ρ.get x = .ok o → ν.lookup x = some n → Holds μ o n → Sound Q (f o)) : Sound Q (ρ.get x >>= f) := by
  rcases get_outcome ρ x with e | ⟨o, e⟩
  · rw [e]; exact rfl
  · rw [e]
    obtain ⟨n, h1, h2⟩ := h.get e
    exact hok o n e h1 h2

theorem Sound.ite {α : Type} {Q : C α → Prop} {c : Prop} [Decidable c] {x : C α} (h : c → Sound Q x) :
    Sound Q (if c then x else illFormed) := by
  split
  · exact h ‹_›
  · exact rfl

/-! ## Types of expressions -/

theorem common_sound (s t : Elem) : CommonElem s t (common s t) := by
  cases s <;> cases t
  case int.int s t => exact .int s t _ ((common_type_rule s t _).2 rfl)
  all_goals first
    | exact .doubleL _
    | exact .doubleR _
    | exact .floatL _ (by intro h; cases h)
    | exact .floatR _ (by intro h; cases h)

theorem typ_sound {ρ : Env} {ν : Names} {μ : Memory} (h : Rel ρ ν μ) (e : Expr) (t : Elem) (ht : typ ρ e = some t) : HasType ν e t := by
  induction e generalizing t with
  | num s n => cases ht; exact .num s n
  | dbl n => cases ht; exact .dbl n
  | var x =>
    unfold typ at ht
    split at ht <;> try cases ht
    rename_i e v hx
    obtain ⟨n, h1, h2⟩ := h.get hx
    cases h2
    exact .var x _ _ h1
  | lane x i ih =>
    unfold typ at ht
    split at ht <;> try cases ht
    rename_i e v hx
    obtain ⟨n, h1, h2⟩ := h.get hx
    cases h2
    exact .lane x i _ _ _ h1
  | lane2 x j i ihj ihi =>
    unfold typ at ht
    split at ht <;> try cases ht
    rename_i e v hx
    obtain ⟨n, h1, h2⟩ := h.get hx
    cases h2
    exact .lane2 x j i _ _ _ _ h1
  | elem x i ih =>
    unfold typ at ht
    split at ht <;> try cases ht
    · rename_i e v hx
      obtain ⟨n, h1, h2⟩ := h.get hx
      cases h2 with
      | object _ a h => cases h
      | ptr _ _ a => exact .pointer x i _ _ _ h1
    · rename_i e v hx
      obtain ⟨n, h1, h2⟩ := h.get hx
      cases h2
      exact .array x i _ _ _ h1
  | bin o a b iha ihb =>
    unfold typ at ht
    split at ht
    · rename_i s t' hs ht'
      have a1 := iha _ hs
      have b1 := ihb _ ht'
      split at ht <;> first
        | (cases ht; exact .arith _ a b s t' _ (by decide) a1 b1 (common_sound s t'))
        | (cases ht; exact .shift _ a b s t' _ (by decide) a1 b1 (common_sound s s))
        | cases ht
    · cases ht
  | compl a ih =>
    unfold typ at ht
    obtain ⟨s, hs, rfl⟩ := Option.map_eq_some_iff.1 ht
    exact .compl a s _ (ih s hs) (common_sound s s)
  | not a ih => cases ht
  | cast e a ih => cases ht; exact .cast _ a
  | stdMin e a b iha ihb =>
    cases e with
    | some e => cases ht; exact .minT _ a b
    | none => exact .min t a b (iha t ht)
  | stdMax e a b iha ihb =>
    cases e with
    | some e => cases ht; exact .maxT _ a b
    | none => exact .max t a b (iha t ht)
  | ite c a b ihc iha ihb => exact .cond c a b t (iha t ht)

/-! ## Values -/

/-- The value of an element. -/
def fetch {e : Elem} : Option (BitVec e.bits) → C Val
  | some b => .ok (.ofBits e b)
  | none => .ub .indeterminateRead

theorem load_sound {w : Bool} {ν : Names} {μ : Memory} {l : Expr} {e : Elem} {a i : Nat} {L : List (Option Nat)} {x : Option (BitVec e.bits)}
    (hp : Eval w ν μ l (.place (.ok ⟨e, a, i * size e⟩))) (ha : μ[a]? = some (flat (size e) L)) (hi : L[i]? = some (x.map BitVec.toNat)) :
    Sound (fun r => Eval w ν μ l (.val r)) (fetch x) := by
  have := reads_flat ha hi
  cases x with
  | none => exact fun _ => .load l _ _ hp this
  | some b =>
    have h := Eval.load l _ _ hp this
    change Eval w ν μ l (.val (.ok (.ofBits e (BitVec.ofNat e.bits b.toNat)))) at h
    rw [BitVec.ofNat_toNat, BitVec.setWidth_eq] at h
    exact h

theorem arr_get_sound {w : Bool} {ν : Names} {μ : Memory} {l : Expr} {e : Elem} {n a : Nat} (r : Arr e n) (k : Nat) (z : Int)
    {L : List (Option Nat)} (ha : μ[a]? = some (flat (size e) L)) (hL : ∀ i : Fin n, L[k + i.val]? = some ((r i).map BitVec.toNat))
    (hin : ∀ i : Nat, z = i → i < n → Eval w ν μ l (.place (.ok ⟨e, a, (k + i) * size e⟩)))
    (hout : ¬ (0 ≤ z ∧ z < n) → Eval w ν μ l (.place (.ub .outOfBounds))) :
    Sound (fun r => Eval w ν μ l (.val r)) (r.get z) := by
  unfold Arr.get
  split
  · rename_i h
    have hz : z = (z.toNat : Int) := by omega
    have := load_sound (x := r ⟨z.toNat, by omega⟩) (hin z.toNat hz (by omega)) ha (hL ⟨z.toNat, by omega⟩)
    split
    · rename_i b hb
      rw [hb] at this; exact this
    · rename_i hb
      rw [hb] at this; exact this
  · rename_i h
    exact fun _ => .loadUB l _ (hout h)

theorem isInt_cases {v : Val} (h : v.isInt = true) : ∃ t z, v = .int t z := by
  cases v with
  | int t z => exact ⟨t, z, rfl⟩
  | f32 b => cases h
  | f64 b => cases h

theorem uniform_get {k n : Nat} (f : Fin k → List (Option Nat)) (h : ∀ j, (f j).length = n) (j : Fin k) (i : Nat) (hi : i < n) :
    (List.ofFn f).flatten[j.val * n + i]? = (f j)[i]? := by
  induction k with
  | zero => exact j.elim0
  | succ k ih =>
    rw [List.ofFn_succ, List.flatten_cons]
    refine Fin.cases ?_ (fun j => ?_) j
    · rw [Fin.val_zero, Nat.zero_mul, Nat.zero_add, List.getElem?_append_left (by rw [h]; exact hi)]
    · rw [Fin.val_succ, Nat.succ_mul, List.getElem?_append_right (by rw [h]; omega), h]
      have := ih (fun j => f j.succ) (fun j => h j.succ) j
      rw [show j.val * n + n + i - n = j.val * n + i by omega]
      exact this

section
variable [Dialect]

theorem eval_sound {ρ : Env} {ν : Names} {μ : Memory} (h : Rel ρ ν μ) (e : Expr) (he : litsE e = true) :
    Sound (fun r => Eval Dialect.wrapv ν μ e (.val r)) (eval ρ e) := by
  have hin := fun e he => expression_types ρ h.typed e he
  induction e with
  | num t n => exact .num t n
  | dbl n =>
    have h1 := FpOps.rounded_ofInt FpOps.ok64 (n : Int)
    have h2 := isPattern_ofInt (f := .b64) (n : Int)
    exact Eval.dbl _ n h2 h1
  | var x =>
    refine Sound.get h x fun o n _ hn ho => ?_
    cases o with
    | sc e v =>
      cases ho with
      | object _ a _ ht ha =>
        have hp : Eval Dialect.wrapv ν μ (.var x) (.place (.ok ⟨e, a, 0 * size e⟩)) := by
          rw [Nat.zero_mul]; exact .var x e a hn
        have hr := reads_flat (i := 0) ha rfl
        cases v with
        | none => exact fun _ => .load _ _ _ hp hr
        | some v =>
          have := Eval.load _ _ _ hp hr
          change Eval _ ν μ _ (.val (.ok (.ofBits e (BitVec.ofNat e.bits (code v))))) at this
          rw [ofBits_code ht.1 ht.2] at this
          exact this
    | _ => exact rfl
  | lane x i ih =>
    refine (ih he).bind (fun u hu => .loadUB _ _ (.laneUB x i u hu)) fun v _ hv => ?_
    refine Sound.get h x fun o n _ hn ho => ?_
    cases o with
    | vec e n r =>
      refine Sound.ite fun hi => ?_
      obtain ⟨t, z, rfl⟩ := isInt_cases hi
      cases ho with
      | object _ a _ ht ha =>
        refine arr_get_sound r 0 z ha (fun i => by rw [Nat.zero_add]; exact lanesOf_get r i.2) (fun k hz hk => ?_) fun hz => ?_
        · subst hz; rw [Nat.zero_add]; exact .lane x i e n a t k hv hn hk
        · exact .laneOut x i e n a t z hv hn hz
    | _ => exact rfl
  | lane2 x j i ihj ihi =>
    simp only [litsE, Bool.and_eq_true] at he
    refine (ihj he.1).bind (fun u hu => .loadUB _ _ (.lane2UB x j i u hu)) fun vj _ hvj => ?_
    refine (ihi he.2).bind (fun u hu => .loadUB _ _ (.lane2UB' x j i u hu)) fun vi _ hvi => ?_
    refine Sound.get h x fun o n _ hn ho => ?_
    cases o with
    | arr e n k r =>
      refine Sound.ite fun hi => ?_
      rw [Bool.and_eq_true] at hi
      obtain ⟨s, y, rfl⟩ := isInt_cases hi.1
      obtain ⟨t, z, rfl⟩ := isInt_cases hi.2
      cases ho with
      | object _ a _ ht ha =>
        show Sound _ (arr2Get r y z)
        unfold arr2Get
        split
        · rename_i hy
          have hy' : y = (y.toNat : Int) := by omega
          refine arr_get_sound (r ⟨y.toNat, by omega⟩) (y.toNat * n) z ha (fun i => ?_) (fun m hz hm => ?_) fun hz => ?_
          · exact (uniform_get (fun j => lanesOf (r j)) (fun j => lanesOf_length _) ⟨y.toNat, by omega⟩ i.val i.2).trans (lanesOf_get _ i.2)
          · subst hz
            rw [hy'] at hvj
            have := Eval.lane2 x j i e n k a s t y.toNat m hvj hvi hn (by omega) hm
            rw [Nat.add_mul, Nat.mul_assoc]
            exact this
          · exact .lane2Out x j i e n k a s t y z hvj hvi hn fun h => hz ⟨h.2.2.1, h.2.2.2⟩
        · rename_i hy
          exact fun _ => .loadUB _ _ (.lane2Out x j i e n k a s t y z hvj hvi hn fun h => hy ⟨h.1, h.2.1⟩)
    | _ => exact rfl
  | elem x i ih =>
    refine (ih he).bind (fun u hu => .loadUB _ _ (.elemUB x i u hu)) fun v _ hv => ?_
    refine Sound.get h x fun o n _ hn ho => ?_
    cases o with
    | cells e n r =>
      refine Sound.ite fun hi => ?_
      obtain ⟨t, z, rfl⟩ := isInt_cases hi
      cases ho with
      | object _ a _ ht ha =>
        refine arr_get_sound r 0 z ha (fun i => by rw [Nat.zero_add]; exact lanesOf_get r i.2) (fun k hz hk => ?_) fun hz => ?_
        · subst hz; rw [Nat.zero_add]; exact .array x i e n a t k hv hn hk
        · exact .arrayOut x i e n a t z hv hn hz
    | ptr e p =>
      refine Sound.ite fun hi => ?_
      obtain ⟨t, z, rfl⟩ := isInt_cases hi
      cases ho with
      | object _ a ho => cases ho
      | ptr _ _ a ha =>
        have hl : (image (.ptr e p)).length = p.buf.length * size e := by
          rw [image, flat_length]; exact congrArg (· * size e) (List.length_map ..)
        have out : ¬ (0 ≤ p.off + z ∧ p.off + z < p.buf.length) → Eval Dialect.wrapv ν μ (.elem x i) (.place (.ub .outOfBounds)) := by
          intro hz
          refine .pointerOut x i e a p.off _ t z hv hn ha fun h => hz ⟨h.1, ?_⟩
          have h2 := h.2
          rw [hl, Int.natCast_mul] at h2
          have := Int.le_of_mul_le_mul_right h2 (by have := size_pos e; omega)
          omega
        show Sound _ (p.get z)
        unfold Ptr.get
        split
        · rename_i h0
          by_cases hlt : p.off + z < p.buf.length
          · have hm : (p.off : Int) + z = ((p.off + z).toNat : Int) := by omega
            have hb : (p.off + z).toNat < p.buf.length := by omega
            have hp : Eval Dialect.wrapv ν μ (.elem x i) (.place (.ok ⟨e, a, (p.off + z).toNat * size e⟩)) := by
              refine .pointer x i e a p.off _ t z _ hv hn ha hm ?_
              rw [hl]
              exact Nat.mul_le_mul_right _ hb
            have := load_sound (x := p.buf[(p.off + z).toNat]) hp ha (by
              show (p.buf.map (·.map BitVec.toNat))[(p.off + z).toNat]? = _
              rw [List.getElem?_map, List.getElem?_eq_getElem hb]; rfl)
            rw [List.getElem?_eq_getElem hb]
            generalize p.buf[(p.off + z).toNat] = o at this ⊢
            cases o <;> exact this
          · rw [List.getElem?_eq_none (by omega)]
            exact fun _ => .loadUB _ _ (out fun h => hlt h.2)
        · rename_i h0
          exact fun _ => .loadUB _ _ (out fun h => h0 h.1)
    | _ => exact rfl
  | bin o a b iha ihb =>
    simp only [litsE, Bool.and_eq_true] at he
    have key : o ≠ .land → o ≠ .lor → Sound (fun r => Eval Dialect.wrapv ν μ (.bin o a b) (.val r))
        (eval ρ a >>= fun x => eval ρ b >>= fun y => binary o x y) := by
      intro h1 h2
      refine (iha he.1).bind (fun u hu => .first _ a u (.bin o a b) hu) fun x hx hx' => ?_
      refine (ihb he.2).bind (fun u hu => .second _ b u (.bin o a b h1 h2) hu) fun y hy hy' => ?_
      exact (binary_sound o x y (hin a he.1 x hx).1 (hin b he.2 y hy).1).mono fun r hr => .bin o a b x y r hx' hy' hr
    cases o
    case land =>
      refine (iha he.1).bind (fun u hu => .first _ a u (.bin .land a b) hu) fun x hx hx' => ?_
      have ht := toBool_sound x
      split
      · rename_i hc
        rw [hc] at ht
        refine (ihb he.2).bind (fun u hu => .landUB a b x u hx' ht hu) fun y hy hy' => ?_
        exact Eval.land a b x y _ _ hx' ht hy' (toBool_sound y) (condition_bool Iff.rfl)
      · rename_i hc
        rw [Bool.not_eq_true] at hc
        rw [hc] at ht
        exact Eval.landNo a b x hx' ht
    case lor =>
      refine (iha he.1).bind (fun u hu => .first _ a u (.bin .lor a b) hu) fun x hx hx' => ?_
      have ht := toBool_sound x
      split
      · rename_i hc
        rw [hc] at ht
        exact Eval.lorYes a b x hx' ht
      · rename_i hc
        rw [Bool.not_eq_true] at hc
        rw [hc] at ht
        refine (ihb he.2).bind (fun u hu => .lorUB a b x u hx' ht hu) fun y hy hy' => ?_
        exact Eval.lor a b x y _ _ hx' ht hy' (toBool_sound y) (condition_bool Iff.rfl)
    all_goals exact key (by intro h; cases h) (by intro h; cases h)
  | compl a ih =>
    refine (ih he).bind (fun u hu => .first _ a u (.compl a) hu) fun x hx hx' => ?_
    refine (compl_sound x).mono ?_
    rintro _ ⟨v, rfl, hv⟩
    exact .compl a x v hx' hv
  | not a ih =>
    refine (ih he).bind (fun u hu => .first _ a u (.not a) hu) fun x hx hx' => ?_
    exact Eval.not a x _ _ hx' (toBool_sound x) (condition_bool (by simp))
  | cast e a ih =>
    refine (ih he).bind (fun u hu => .first _ a u (.cast e a) hu) fun x hx hx' => ?_
    exact (cast_sound e x (hin a he x hx).1).mono fun r hr => .cast e a x r hx' hr
  | stdMin e a b iha ihb =>
    simp only [litsE, Bool.and_eq_true] at he
    cases e with
    | some e =>
      refine (iha he.1).bind (fun u hu => .first _ a u (.minT e a b) hu) fun x hx hx' => ?_
      refine (ihb he.2).bind (fun u hu => .second _ b u (.minT e a b) hu) fun y hy hy' => ?_
      exact (minMax_sound e false x y (hin a he.1 x hx).1 (hin b he.2 y hy).1).mono fun r hr => .minT e a b x y r hx' hy' hr
    | none =>
      unfold eval
      split
      · rename_i e ha
        refine Sound.ite fun hb => ?_
        have ta := typ_sound h a e ha
        have tb := typ_sound h b e hb
        refine (iha he.1).bind (fun u hu => .first _ a u (.min e a b ta tb) hu) fun x hx hx' => ?_
        refine (ihb he.2).bind (fun u hu => .second _ b u (.min e a b ta tb) hu) fun y hy hy' => ?_
        exact (minMax_sound e false x y (hin a he.1 x hx).1 (hin b he.2 y hy).1).mono fun r hr => .min e a b x y r ta tb hx' hy' hr
      · exact rfl
  | stdMax e a b iha ihb =>
    simp only [litsE, Bool.and_eq_true] at he
    cases e with
    | some e =>
      refine (iha he.1).bind (fun u hu => .first _ a u (.maxT e a b) hu) fun x hx hx' => ?_
      refine (ihb he.2).bind (fun u hu => .second _ b u (.maxT e a b) hu) fun y hy hy' => ?_
      exact (minMax_sound e true x y (hin a he.1 x hx).1 (hin b he.2 y hy).1).mono fun r hr => .maxT e a b x y r hx' hy' hr
    | none =>
      unfold eval
      split
      · rename_i e ha
        refine Sound.ite fun hb => ?_
        have ta := typ_sound h a e ha
        have tb := typ_sound h b e hb
        refine (iha he.1).bind (fun u hu => .first _ a u (.max e a b ta tb) hu) fun x hx hx' => ?_
        refine (ihb he.2).bind (fun u hu => .second _ b u (.max e a b ta tb) hu) fun y hy hy' => ?_
        exact (minMax_sound e true x y (hin a he.1 x hx).1 (hin b he.2 y hy).1).mono fun r hr => .max e a b x y r ta tb hx' hy' hr
      · exact rfl
  | ite c a b ihc iha ihb =>
    simp only [litsE, Bool.and_eq_true] at he
    unfold eval
    split
    · rename_i e ha
      refine Sound.ite fun hb => ?_
      have ta := typ_sound h a e ha
      have tb := typ_sound h b e hb
      refine (ihc he.1.1).bind (fun u hu => .first _ c u (.cond c a b e ta tb) hu) fun x hx hx' => ?_
      have ht := toBool_sound x
      split
      · rename_i hc
        rw [hc] at ht
        exact (iha he.1.2).mono fun r hr => .condYes c a b e x r ta tb hx' ht hr
      · rename_i hc
        rw [Bool.not_eq_true] at hc
        rw [hc] at ht
        exact (ihb he.2).mono fun r hr => .condNo c a b e x r ta tb hx' ht hr
    · exact rfl

end

end Verif.Props
