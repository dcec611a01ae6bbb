import Verif.Props.ExecExpr

/-! Property C96: assignments and `memcpy`. -/

namespace Verif.Props
open Verif.Cpp Verif.SpecCpp Verif.SpecExec

/-! ## What may change in the memory -/

/-- No block is removed or resized, and only the blocks with the addresses `A` and new ones may differ. -/
structure Keeps (A : List Nat) (μ μ' : Memory) : Prop where
  len : μ.length ≤ μ'.length
  size : ∀ (a : Nat) (b : Block), μ[a]? = some b → ∃ b' : Block, μ'[a]? = some b' ∧ b'.length = b.length
  rest : ∀ a, a < μ.length → a ∉ A → μ'[a]? = μ[a]?

theorem Keeps.refl (A : List Nat) (μ : Memory) : Keeps A μ μ := ⟨Nat.le_refl _, fun _ b h => ⟨b, h, rfl⟩, fun _ _ _ => rfl⟩

theorem Keeps.trans {A B : List Nat} {μ μ₁ μ₂ : Memory} (h1 : Keeps A μ μ₁) (h2 : Keeps B μ₁ μ₂)
    (hB : ∀ a ∈ B, a < μ.length → a ∈ A) : Keeps A μ μ₂ := by
  refine ⟨Nat.le_trans h1.len h2.len, fun a b h => ?_, fun a h ha => ?_⟩
  · obtain ⟨b1, e1, l1⟩ := h1.size a b h
    obtain ⟨b2, e2, l2⟩ := h2.size a b1 e1
    exact ⟨b2, e2, l2.trans l1⟩
  · rw [h2.rest a (Nat.lt_of_lt_of_le h h1.len) fun hb => ha (hB a hb h), h1.rest a h ha]

theorem Keeps.weaken {A B : List Nat} {μ μ' : Memory} (h : Keeps A μ μ') (hB : ∀ a ∈ A, a < μ.length → a ∈ B) : Keeps B μ μ' :=
  (Keeps.refl B μ).trans h hB

theorem Keeps.append (A : List Nat) (μ ext : Memory) : Keeps A μ (μ ++ ext) := by
  refine ⟨by rw [List.length_append]; omega, fun a b h => ⟨b, ?_, rfl⟩, fun a h _ => List.getElem?_append_left h⟩
  rw [List.getElem?_append_left (List.getElem?_eq_some_iff.1 h).1]; exact h

theorem Keeps.set {A : List Nat} {μ : Memory} {a : Nat} {b c : Block} (ha : a ∈ A) (hb : μ[a]? = some b) (hl : c.length = b.length) :
    Keeps A μ (μ.set a c) := by
  refine ⟨by rw [List.length_set], fun i d h => ?_, fun i _ hi => List.getElem?_set_ne (by rintro rfl; exact hi ha)⟩
  by_cases e : a = i
  · subst e
    rw [hb] at h
    cases h
    exact ⟨c, List.getElem?_set_self (List.getElem?_eq_some_iff.1 hb).1, hl⟩
  · exact ⟨d, by rw [List.getElem?_set_ne e]; exact h, rfl⟩

theorem Rel.keeps {ρ : Env} {ν : Names} {μ μ' : Memory} (h : Rel ρ ν μ) {A : List Nat} (hk : Keeps A μ μ') (hA : ∀ a ∈ addrs ν, a ∉ A) :
    Rel ρ ν μ' :=
  h.mono fun a ha => hk.rest a (h.lt ha) (hA a ha)

/-! ## Assignments -/

/-- An assignment of `v` to `l`, which the abstract machine does too. -/
def Stored (w : Bool) (ν : Names) (μ : Memory) (l : Expr) (v : Val) : C Env → Prop
  | .ok ρ' => ∃ p u μ', Eval w ν μ l (.place (.ok p)) ∧ Conv p.elem v (.ok u) ∧ Writes μ p u μ' ∧ Rel ρ' ν μ' ∧ Keeps (addrs ν) μ μ'
  | .ub u => Eval w ν μ l (.place (.ub u)) ∨ ∃ p, Eval w ν μ l (.place (.ok p)) ∧ Conv p.elem v (.ub u)
  | _ => False

theorem Sound.toBits {α : Type} {Q : C α → Prop} {e : Elem} {v : Val} {f : BitVec e.bits → C α}
    (hub : ∀ u, Conv e v (.ub u) → Q (.ub u)) (hok : ∀ b, Conv e v (.ok (.ofBits e b)) → Sound Q (f b)) :
    Sound Q (Val.toBits e v >>= f) := by
  have h := toBits_sound e v
  generalize Val.toBits e v = x at h ⊢
  cases x with
  | ok b => exact hok b h
  | ub u => exact fun hu => hub u (h hu)
  | abort m => exact h
  | indet l => exact h

theorem stored_at {w : Bool} {ρ : Env} {ν : Names} {μ : Memory} (h : Rel ρ ν μ) {x : Nat} {o o' : Obj} {n : Entity} {a i : Nat} {l : Expr}
    {v u : Val} (hx : ρ.get x = .ok o) (hn : ν.lookup x = some n) (ha : addr n = some a) (hm : μ[a]? = some (image o))
    (hp : Eval w ν μ l (.place (.ok ⟨elemOf o, a, i * SpecExec.size (elemOf o)⟩))) (hi : i < (patterns o).length)
    (hc : Conv (elemOf o) v (.ok u)) (hu : tyVal u = elemOf o ∧ InRange u) (he : elemOf o' = elemOf o)
    (hpat : patterns o' = (patterns o).set i (some (code u)))
    (ho' : ∀ μ' : Memory, μ'[a]? = some (image o') → Holds μ' o' n) : Stored w ν μ l v (.ok (ρ.set x o')) := by
  have hw := writes_flat hm hi hu.1 hu.2
  rw [← hpat, ← he] at hw
  refine ⟨_, u, _, hp, hc, ?_, h.set hx hn ha ho', Keeps.set (lookup_addrs hn ha) hm ?_⟩
  · rw [← he]; exact hw
  · rw [image, image, flat_length, flat_length, hpat, List.length_set, he]

theorem lanesOf_put {e : Elem} {n : Nat} (r : Arr e n) (i : Fin n) (b : BitVec e.bits) :
    lanesOf (r.put i b) = (lanesOf r).set i.val (some (code (.ofBits e b))) := by
  apply List.ext_getElem?
  intro j
  rw [List.getElem?_set, lanesOf_length, code_ofBits]
  by_cases hj : j < n
  · rw [lanesOf_get _ hj]
    by_cases e : i.val = j
    · subst e
      rw [if_pos rfl, if_pos hj, Arr.put, if_pos rfl]; rfl
    · rw [if_neg e, lanesOf_get _ hj, Arr.put, if_neg fun h => e (congrArg Fin.val h).symm]
  · rw [List.getElem?_eq_none (by rw [lanesOf_length]; omega)]
    split
    · omega
    · exact (List.getElem?_eq_none (by rw [lanesOf_length]; omega)).symm

theorem flatten_set {k n : Nat} (f : Fin k → List (Option Nat)) (h : ∀ j, (f j).length = n) (j : Fin k) (i : Nat) (hi : i < n) (x : Option Nat) :
    (List.ofFn fun j' => if j' = j then (f j').set i x else f j').flatten = (List.ofFn f).flatten.set (j.val * n + i) x := by
  induction k with
  | zero => exact j.elim0
  | succ k ih =>
    rw [List.ofFn_succ, List.ofFn_succ, List.flatten_cons, List.flatten_cons]
    revert j
    refine Fin.cases ?_ fun j => ?_
    · rw [if_pos rfl, Fin.val_zero, Nat.zero_mul, Nat.zero_add, List.set_append_left _ _ (by rw [h]; exact hi)]
      congr 1
    · rw [if_neg (Fin.succ_ne_zero j).symm, Fin.val_succ, Nat.succ_mul, List.set_append_right _ _ (by rw [h]; omega), h,
        show j.val * n + n + i - n = j.val * n + i by omega, ← ih (fun j => f j.succ) (fun j => h j.succ) j]
      simp only [Fin.succ_inj]

theorem patterns_put2 {e : Elem} {n k : Nat} (r : Arr2 e n k) (j : Fin k) (i : Fin n) (b : BitVec e.bits) :
    patterns (.arr e n k (r.put j i b)) = (patterns (.arr e n k r)).set (j.val * n + i.val) (some (code (.ofBits e b))) := by
  show (List.ofFn fun j' => lanesOf (r.put j i b j')).flatten = (List.ofFn fun j' => lanesOf (r j')).flatten.set _ _
  rw [← flatten_set (fun j' => lanesOf (r j')) (fun j' => lanesOf_length _) j i.val i.2]
  congr 2
  funext j'
  split
  · rename_i e
    subst e
    rw [← lanesOf_put]
    congr 1
    funext i'
    simp only [Arr2.put, Arr.put, true_and]
  · rename_i e
    congr 1
    funext i'
    simp only [Arr2.put, e, false_and, if_false]

theorem patterns_pset {e : Elem} (p : Ptr e) (m : Nat) (b : BitVec e.bits) :
    patterns (.ptr e { p with buf := p.buf.set m (some b) }) = (patterns (.ptr e p)).set m (some (code (.ofBits e b))) := by
  show (p.buf.set m (some b)).map _ = (p.buf.map _).set m _
  rw [List.map_set, code_ofBits]; rfl

theorem bind_bind {α β γ : Type} (x : C α) (f : α → C β) (g : β → C γ) : ((x >>= f) >>= g) = (x >>= fun a => f a >>= g) := by
  cases x <;> rfl

theorem arr_set_sound {w : Bool} {ρ : Env} {ν : Names} {μ : Memory} {l : Expr} {v : Val} {x e n} {r : Arr e n} (z : Int) (mk : Arr e n → Obj)
    (hin : ∀ i : Fin n, z = i.val → ∀ b, Conv e v (.ok (.ofBits e b)) → Stored w ν μ l v (.ok (ρ.set x (mk (r.put i b)))))
    (hpl : ∀ i : Fin n, z = i.val → ∃ a o, Eval w ν μ l (.place (.ok ⟨e, a, o⟩)))
    (hout : ¬ (0 ≤ z ∧ z < n) → Eval w ν μ l (.place (.ub .outOfBounds))) :
    Sound (Stored w ν μ l v) (r.set z v >>= fun r => C.ok (ρ.set x (mk r))) := by
  unfold Arr.set
  split
  · rename_i hz
    rw [bind_bind]
    refine Sound.toBits (fun u hu => .inr ?_) fun b hb => hin ⟨z.toNat, by omega⟩ (by show z = (z.toNat : Int); omega) b hb
    obtain ⟨a, o, hp⟩ := hpl ⟨z.toNat, by omega⟩ (by show z = (z.toNat : Int); omega)
    exact ⟨_, hp, hu⟩
  · rename_i hz
    exact fun _ => .inl (hout hz)

/-! ## `memcpy` -/

theorem bytes_mod (n v : Nat) : bytes n (v % 256 ^ n) = bytes n v := by
  have h := number_bytes n v
  rw [← h]
  have := bytes_number (bytes n v)
  rwa [bytes_length] at this

theorem bytes_append (n m v : Nat) : bytes (n + m) v = bytes n v ++ bytes m (v / 256 ^ n) := by
  induction n generalizing v with
  | zero => rw [Nat.zero_add, Nat.pow_zero, Nat.div_one]; rfl
  | succ n ih =>
    rw [Nat.succ_add, bytes, bytes, ih, Nat.div_div_eq_div_mul, ← Nat.pow_succ']; rfl

theorem bytes_take {n m v : Nat} (h : n ≤ m) : (bytes m v).take n = bytes n v := by
  obtain ⟨k, rfl⟩ := Nat.exists_eq_add_of_le h
  rw [bytes_append, List.take_left' (bytes_length _ _)]

theorem flat_append (n : Nat) (L M : List (Option Nat)) : flat n (L ++ M) = flat n L ++ flat n M := by
  rw [flat, flat, flat, List.map_append, List.flatten_append]

theorem flat_drop (n k : Nat) (L : List (Option Nat)) : (flat n L).drop (k * n) = flat n (L.drop k) := by
  induction k generalizing L with
  | zero => rw [Nat.zero_mul]; rfl
  | succ k ih =>
    cases L with
    | nil => rw [List.drop_nil]; exact List.drop_nil
    | cons x L => rw [flat_cons, Nat.succ_mul, Nat.add_comm, ← List.drop_drop, List.drop_left' (cell_length n x), ih]; rfl

theorem flat_image {s w : Nat} (hw : 8 * s = w) (n : Nat) (a : Fin n → BitVec w) :
    flat s (List.ofFn fun i => some (a i).toNat) = (bytes (n * s) (imageOf n a)).map some := by
  have hp : 256 ^ s = 2 ^ w := by rw [← hw, Nat.pow_mul]
  induction n with
  | zero => rw [Nat.zero_mul]; rfl
  | succ n ih =>
    have h0 := (a 0).isLt
    rw [List.ofFn_succ, flat_cons, ih, Nat.succ_mul, Nat.add_comm (n * s) s, bytes_append, List.map_append, imageOf, hp,
      Nat.add_mul_div_left _ _ (Nat.two_pow_pos w), Nat.div_eq_of_lt h0, Nat.zero_add]
    congr 1
    rw [cell]
    congr 1
    rw [← bytes_mod s ((a 0).toNat + _), hp, Nat.add_mul_mod_self_left, Nat.mod_eq_of_lt h0]

theorem flat_bytes (s k v : Nat) : flat s ((List.range k).map fun i => some (v / 256 ^ (i * s))) = (bytes (k * s) v).map some := by
  induction k with
  | zero => rw [Nat.zero_mul]; rfl
  | succ k ih =>
    rw [List.range_succ, List.map_append, flat_append, ih, Nat.succ_mul, bytes_append, List.map_append]
    congr 1
    exact List.append_nil _

theorem cell_mod (s x : Nat) : cell s (some (x % 256 ^ s)) = cell s (some x) := by rw [cell, cell, bytes_mod]

/-- The lanes after a `memcpy` of `k` lanes. -/
theorem memcpy_flat {e e' : Elem} {n m k : Nat} (r : Arr e' m) (a : Vec e n) (h1 : k * SpecExec.size e' ≤ n * SpecExec.size e) (h2 : k ≤ m)
    (r' : Arr e' m) (hr : ∀ i, r' i = if i.val < k then some (BitVec.ofNat e'.bits (imageOf n a.lane / 2 ^ (i.val * e'.bits))) else r i) :
    flat (SpecExec.size e') (lanesOf r') =
      splice (flat (SpecExec.size e') (lanesOf r)) 0 (slice (flat (SpecExec.size e) (lanesOf (Arr.ofVec a))) 0 (k * SpecExec.size e')) := by
  have hs : flat (SpecExec.size e) (lanesOf (Arr.ofVec a)) = (bytes (n * SpecExec.size e) (imageOf n a.lane)).map some :=
    flat_image (size_bits e) n a.lane
  rw [hs, slice, List.drop_zero, ← List.map_take, bytes_take h1, splice, List.take_zero, List.nil_append, Nat.zero_add, List.length_map,
    bytes_length, flat_drop, ← flat_bytes]
  rw [← flat_append]
  unfold flat
  congr 1
  apply List.ext_getElem?
  intro j
  rw [List.getElem?_map, List.getElem?_map]
  by_cases hj : j < m
  · rw [lanesOf_get _ hj, hr]
    by_cases hk : j < k
    · rw [if_pos hk, List.getElem?_append_left (by simp; exact hk), List.getElem?_map, List.getElem?_range hk]
      show some (cell _ (some (BitVec.toNat _))) = some (cell _ (some _))
      rw [BitVec.toNat_ofNat, ← pow_size, cell_mod, show 2 ^ (j * e'.bits) = 256 ^ (j * SpecExec.size e') by
        rw [← size_bits, show j * (8 * SpecExec.size e') = 8 * (j * SpecExec.size e') by ring, Nat.pow_mul]]
    · rw [if_neg hk, List.getElem?_append_right (by simp; omega), List.length_map, List.length_range, List.getElem?_drop,
        show k + (j - k) = j by omega, lanesOf_get _ hj]
  · rw [List.getElem?_eq_none (by rw [lanesOf_length]; omega), List.getElem?_eq_none]
    rw [List.length_append, List.length_map, List.length_range, List.length_drop, lanesOf_length]
    omega

/-- `memcpy` between objects, which the abstract machine does too. -/
def Copied (ν : Names) (μ : Memory) (d s bytes : Nat) (x : Nat) (ρ : Env) : C Obj → Prop
  | .ok o => ∃ μ', Copies μ d s bytes (.ok μ') ∧ Rel (ρ.set x o) ν μ' ∧ Keeps (addrs ν) μ μ'
  | .ub u => Copies μ d s bytes (.ub u)
  | _ => False

theorem copied_at {ρ : Env} {ν : Names} {μ : Memory} (h : Rel ρ ν μ) {x d s k : Nat} {o o' q : Obj} {n : Entity}
    (hx : ρ.get x = .ok o) (hn : ν.lookup x = some n) (hd : addr n = some d) (hod : μ[d]? = some (image o)) (hos : μ[s]? = some (image q))
    (hfull : none ∉ image q) (h1 : k ≤ (image q).length) (h2 : k ≤ (image o).length)
    (himg : image o' = splice (image o) 0 (slice (image q) 0 k)) (ho' : ∀ μ' : Memory, μ'[d]? = some (image o') → Holds μ' o' n) :
    Copied ν μ d s k x ρ (.ok o') := by
  refine ⟨_, .ok _ _ hos hfull hod h1 h2, ?_, ?_⟩
  · rw [← himg]; exact h.set hx hn hd ho'
  · refine Keeps.set (lookup_addrs hn hd) hod ?_
    simp only [splice, slice, List.drop_zero, List.take_zero, List.nil_append, List.length_append, List.length_take, List.length_drop]
    omega

theorem image_ofVec {e : Elem} {n : Nat} (r : Arr e n) : none ∈ image (.vec e n r) ↔ ¬ ∀ i, (r i).isSome := by
  refine (flat_none (size_pos e) (lanesOf r)).trans ?_
  rw [lanesOf, List.mem_ofFn]
  constructor
  · rintro ⟨i, hi⟩ h
    have := h i
    cases hr : r i with
    | none => rw [hr] at this; cases this
    | some b => rw [hr] at hi; cases hi
  · intro h
    rw [not_forall] at h
    obtain ⟨i, hi⟩ := h
    refine ⟨i, ?_⟩
    cases hr : r i with
    | none => rfl
    | some b => rw [hr] at hi; exact absurd rfl hi

theorem copy_sound {ρ : Env} {ν : Names} {μ : Memory} (h : Rel ρ ν μ) {x : Nat} {o q : Obj} {n n' : Entity} {d s : Nat}
    (hx : ρ.get x = .ok o) (hn : ν.lookup x = some n) (ho : Holds μ o n) (hq : Holds μ q n') (hd : addr n = some d) (hs : addr n' = some s)
    (k : Nat) : Sound (Copied ν μ d s k x ρ) (copy o q k) := by
  cases o <;> cases q <;> try exact rfl
  rename_i e' m r e n₁ a
  have hod := holds_addr ho hd
  have hos := holds_addr hq hs
  have hlo : (image (.vec e' m r)).length = m * SpecExec.size e' := image_length rfl
  have hlq : (image (.vec e n₁ a)).length = n₁ * SpecExec.size e := image_length rfl
  unfold copy
  refine Sound.ite fun hk => ?_
  rw [sizeof_size] at hk
  by_cases hf : ∀ i, (a i).isSome = true
  · have hfull : none ∉ image (.vec e n₁ a) := fun h => (image_ofVec a).1 h hf
    have hav : a = Arr.ofVec ⟨fun i => (a i).get (hf i)⟩ := by
      funext i; exact (Option.some_get (hf i)).symm
    show Sound _ (full a >>= _)
    rw [full, dif_pos hf]
    show Sound _ (memcpyVec r _ k >>= _)
    unfold memcpyVec
    split
    · rename_i hb
      have hb1 : k ≤ n₁ * SpecExec.size e := by have := size_bits e; rw [← this] at hb; nlinarith [hb.1]
      have hb2 : k ≤ m * SpecExec.size e' := by have := size_bits e'; rw [← this] at hb; nlinarith [hb.2]
      obtain ⟨j, rfl⟩ : ∃ j, k = j * SpecExec.size e' := ⟨k / SpecExec.size e', (Nat.div_mul_cancel (Nat.dvd_of_mod_eq_zero hk)).symm⟩
      have hpos := size_pos e'
      refine copied_at (o := .vec e' m r) (q := .vec e n₁ a) h hx hn hd hod hos hfull (by rw [hlq]; exact hb1) (by rw [hlo]; exact hb2) ?_ ?_
      · conv => rhs; rw [hav]
        refine memcpy_flat r _ hb1 (Nat.le_of_mul_le_mul_right hb2 hpos) _ fun i => ?_
        congr 1
        rw [eq_iff_iff, ← size_bits e']
        constructor
        · intro h; by_contra hc; nlinarith
        · intro h; nlinarith
      · intro μ' hm
        cases ho
        cases hd
        exact .object (.vec e' m _) d rfl trivial hm
    · rename_i hb
      refine fun _ => .outside _ _ hos hfull hod ?_
      rw [hlq, hlo]
      have h1 := size_bits e
      have h2 := size_bits e'
      rw [← h1, ← h2] at hb
      by_contra hc
      apply hb
      constructor <;> nlinarith [not_or.1 hc]
  · show Sound _ (full a >>= _)
    rw [full, dif_neg hf]
    exact fun _ => .indeterminate _ hos ((image_ofVec a).2 hf)

theorem toBits_same {e : Elem} {v : Val} (h : tyVal v = e) : ∃ b, Val.toBits e v = .ok b ∧ b.toNat = code v := by
  subst h
  cases v with
  | int t z => exact ⟨_, rfl, rfl⟩
  | f32 b => exact ⟨_, rfl, rfl⟩
  | f64 b => exact ⟨_, rfl, rfl⟩

theorem copySc_sound {ρ : Env} {ν : Names} {μ : Memory} (h : Rel ρ ν μ) {x : Nat} {o q : Obj} {n n' : Entity} {d s : Nat}
    (hx : ρ.get x = .ok o) (hn : ν.lookup x = some n) (ho : Holds μ o n) (hq : Holds μ q n') (hd : addr n = some d) (hs : addr n' = some s)
    (k : Nat) : Sound (Copied ν μ d s k x ρ) (copySc o q k) := by
  cases o <;> cases q <;> try exact rfl
  rename_i e' r e v
  have hod := holds_addr ho hd
  have hos := holds_addr hq hs
  unfold copySc
  refine Sound.ite fun hk => ?_
  rw [← size_bits, ← size_bits] at hk
  obtain ⟨hk1, hk2⟩ : SpecExec.size e' = k ∧ SpecExec.size e = k := by omega
  cases v with
  | none =>
    refine fun _ => .indeterminate _ hos ?_
    show none ∈ cell _ _ ++ []
    rw [List.append_nil, cell_none (size_pos _)]; rfl
  | some v =>
    have ht : tyVal v = e ∧ InRange v := holds_typed hq
    obtain ⟨b, hb, hbc⟩ := toBits_same ht.1
    dsimp only
    rw [hb]
    have himg : image (.sc e (some v)) = cell k (some (code v)) := by
      show cell _ _ ++ [] = _
      rw [List.append_nil, show SpecExec.size (elemOf (.sc e (some v))) = k from hk2]; rfl
    have hlo : (image (.sc e' r)).length = k := (image_length rfl).trans hk1
    refine copied_at (o := .sc e' r) (q := .sc e (some v)) h hx hn hd hod hos ?_ ?_ (Nat.le_of_eq hlo.symm) ?_ ?_
    · rw [himg, cell_none (hk1 ▸ size_pos e')]; exact Option.some_ne_none _
    · rw [himg, cell_length]
    · rw [himg, slice, List.drop_zero, List.take_of_length_le (by rw [cell_length]), splice, List.take_zero, List.nil_append, cell_length,
        Nat.zero_add, List.drop_of_length_le (by rw [hlo]), List.append_nil]
      show cell _ _ ++ [] = _
      rw [List.append_nil]
      show cell (SpecExec.size e') (some (code (.ofBits e' _))) = _
      rw [code_ofBits, BitVec.toNat_ofNat, ← pow_size, cell_mod, hk1, hbc]
    · intro μ' hm
      cases ho
      cases hd
      exact .object (.sc e' _) d rfl (yields_ofBits _ _) hm

section
variable [Dialect]

theorem store_sound {ρ : Env} {ν : Names} {μ : Memory} (h : Rel ρ ν μ) (l : Expr) (hl : litsE l = true) {v : Val} (hv : InRange v) :
    Sound (Stored Dialect.wrapv ν μ l v) (store ρ l v) := by
  have ev := fun e he => eval_sound h e he
  cases l with
  | var x =>
    refine Sound.get h x fun o n hx hn ho => ?_
    cases o with
    | sc e w =>
      cases ho with
      | object _ a h1 h2 ha =>
        have hp : Eval Dialect.wrapv ν μ (.var x) (.place (.ok ⟨e, a, 0 * SpecExec.size e⟩)) := by
          rw [Nat.zero_mul]; exact .var x e a hn
        have hy := yields_cast e v hv
        show Sound _ ((Val.cast e v >>= fun v => C.ok (.sc e (some v))) >>= fun o => C.ok (ρ.set x o))
        rw [bind_bind]
        refine (cast_sound e v hv).bind (fun u hu => .inr ⟨_, hp, hu⟩) fun u hu hc => ?_
        exact stored_at (o := .sc e w) (o' := .sc e (some u)) h hx hn rfl ha hp Nat.one_pos hc (hy u hu) rfl rfl fun μ' hm => .object (.sc e (some u)) a rfl (hy u hu) hm
    | _ => exact rfl
  | lane x i =>
    refine (ev i hl).bind (fun u hu => .inl (.laneUB x i u hu)) fun w _ hw => ?_
    refine Sound.get h x fun o n hx hn ho => ?_
    cases o with
    | vec e n r =>
      show Sound _ ((if w.isInt = true then (r.set w.idx v >>= fun r => C.ok (Obj.vec e n r)) else illFormed) >>= fun o => C.ok (ρ.set x o))
      by_cases hi : w.isInt = true
      · rw [if_pos hi, bind_bind]
        obtain ⟨t, z, rfl⟩ := isInt_cases hi
        cases ho with
        | object _ a h1 h2 ha =>
          have hp : ∀ i' : Fin n, z = i'.val → Eval Dialect.wrapv ν μ (.lane x i) (.place (.ok ⟨e, a, i'.val * SpecExec.size e⟩)) :=
            fun i' e' => .lane x i e n a t i'.val (e' ▸ hw) hn i'.2
          refine arr_set_sound z (.vec e n) (fun i' e' b hb => ?_) (fun i' e' => ⟨_, _, hp i' e'⟩) fun hz => .laneOut x i e n a t z hw hn hz
          exact stored_at (o := .vec e n r) (o' := .vec e n _) h hx hn rfl ha (hp i' e') (by show _ < (lanesOf r).length; rw [lanesOf_length]; exact i'.2) hb (yields_ofBits _ _) rfl
            (lanesOf_put r i' b) fun μ' hm => .object (.vec e n (r.put i' b)) a rfl trivial hm
      · rw [if_neg hi]; exact rfl
    | _ => exact rfl
  | lane2 x j i =>
    simp only [litsE, Bool.and_eq_true] at hl
    refine (ev j hl.1).bind (fun u hu => .inl (.lane2UB x j i u hu)) fun wj _ hwj => ?_
    refine (ev i hl.2).bind (fun u hu => .inl (.lane2UB' x j i u hu)) fun wi _ hwi => ?_
    refine Sound.get h x fun o n hx hn ho => ?_
    cases o with
    | arr e n k r =>
      show Sound _ ((if (wj.isInt && wi.isInt) = true then (r.set wj.idx wi.idx v >>= fun r => C.ok (Obj.arr e n k r)) else illFormed) >>= fun o => C.ok (ρ.set x o))
      by_cases hi : (wj.isInt && wi.isInt) = true
      · rw [if_pos hi, bind_bind]
        rw [Bool.and_eq_true] at hi
        obtain ⟨s, y, rfl⟩ := isInt_cases hi.1
        obtain ⟨t, z, rfl⟩ := isInt_cases hi.2
        cases ho with
        | object _ a h1 h2 ha =>
          show Sound _ (r.set y z v >>= _)
          unfold Arr2.set
          split
          · rename_i hz
            rw [bind_bind]
            have ey : y = (y.toNat : Int) := by omega
            have ez : z = (z.toNat : Int) := by omega
            rw [ey] at hwj
            rw [ez] at hwi
            have hp := Eval.lane2 x j i e n k a s t y.toNat z.toNat hwj hwi hn (by omega) (by omega)
            rw [← Nat.mul_assoc, ← Nat.add_mul] at hp
            refine Sound.toBits (fun u hu => .inr ⟨_, hp, hu⟩) fun b hb => ?_
            refine stored_at (o := .arr e n k r) (o' := .arr e n k (r.put ⟨y.toNat, by omega⟩ ⟨z.toNat, by omega⟩ b)) h hx hn rfl ha hp ?_ hb
              (yields_ofBits _ _) rfl (patterns_put2 r _ _ b) fun μ' hm => .object (.arr e n k _) a rfl trivial hm
            refine Nat.lt_of_lt_of_eq ?_ (uniform_length (k := k) (n := n) (fun j' => lanesOf (r j')) fun j' => lanesOf_length _).symm
            have h1 : y.toNat < k := by omega
            have h2 : z.toNat < n := by omega
            calc y.toNat * n + z.toNat < y.toNat * n + n := by omega
              _ = (y.toNat + 1) * n := (Nat.succ_mul ..).symm
              _ ≤ k * n := Nat.mul_le_mul_right _ h1
          · rename_i hz
            exact fun _ => .inl (.lane2Out x j i e n k a s t y z hwj hwi hn fun h => hz ⟨⟨h.1, h.2.1⟩, h.2.2⟩)
      · rw [if_neg hi]; exact rfl
    | _ => exact rfl
  | elem x i =>
    refine (ev i hl).bind (fun u hu => .inl (.elemUB x i u hu)) fun w _ hw => ?_
    refine Sound.get h x fun o n hx hn ho => ?_
    cases o with
    | cells e n r =>
      show Sound _ ((if w.isInt = true then (r.set w.idx v >>= fun r => C.ok (Obj.cells e n r)) else illFormed) >>= fun o => C.ok (ρ.set x o))
      by_cases hi : w.isInt = true
      · rw [if_pos hi, bind_bind]
        obtain ⟨t, z, rfl⟩ := isInt_cases hi
        cases ho with
        | object _ a h1 h2 ha =>
          have hp : ∀ i' : Fin n, z = i'.val → Eval Dialect.wrapv ν μ (.elem x i) (.place (.ok ⟨e, a, i'.val * SpecExec.size e⟩)) :=
            fun i' e' => .array x i e n a t i'.val (e' ▸ hw) hn i'.2
          refine arr_set_sound z (.cells e n) (fun i' e' b hb => ?_) (fun i' e' => ⟨_, _, hp i' e'⟩) fun hz => .arrayOut x i e n a t z hw hn hz
          exact stored_at (o := .cells e n r) (o' := .cells e n _) h hx hn rfl ha (hp i' e') (by show _ < (lanesOf r).length; rw [lanesOf_length]; exact i'.2) hb (yields_ofBits _ _) rfl
            (lanesOf_put r i' b) fun μ' hm => .object (.cells e n (r.put i' b)) a rfl trivial hm
      · rw [if_neg hi]; exact rfl
    | ptr e p =>
      show Sound _ ((if w.isInt = true then (p.set w.idx v >>= fun p => C.ok (Obj.ptr e p)) else illFormed) >>= fun o => C.ok (ρ.set x o))
      by_cases hi : w.isInt = true
      · rw [if_pos hi, bind_bind]
        obtain ⟨t, z, rfl⟩ := isInt_cases hi
        cases ho with
        | object _ a ho => cases ho
        | ptr _ _ a ha =>
          have hl : (image (.ptr e p)).length = p.buf.length * SpecExec.size e := by
            rw [image, flat_length]; exact congrArg (· * SpecExec.size e) (List.length_map ..)
          show Sound _ (p.set z v >>= _)
          unfold Ptr.set
          split
          · rename_i hz
            rw [bind_bind]
            have hb : (p.off + z).toNat < p.buf.length := by omega
            have hp : Eval Dialect.wrapv ν μ (.elem x i) (.place (.ok ⟨e, a, (p.off + z).toNat * SpecExec.size e⟩)) := by
              refine .pointer x i e a p.off _ t z _ hw hn ha (by omega) ?_
              rw [hl]
              exact Nat.mul_le_mul_right _ hb
            refine Sound.toBits (fun u hu => .inr ⟨_, hp, hu⟩) fun b hb' => ?_
            exact stored_at (o := .ptr e p) (o' := .ptr e { p with buf := p.buf.set (p.off + z).toNat (some b) }) h hx hn rfl ha hp
              (by show _ < (p.buf.map _).length; rw [List.length_map]; exact hb) hb'
              (yields_ofBits _ _) rfl (patterns_pset p _ b) fun μ' hm => .ptr e { p with buf := p.buf.set (p.off + z).toNat (some b) } a hm
          · rename_i hz
            refine fun _ => .inl (.pointerOut x i e a p.off _ t z hw hn ha fun h => hz ⟨h.1, ?_⟩)
            have h2 := h.2
            rw [hl, Int.natCast_mul] at h2
            have := Int.le_of_mul_le_mul_right h2 (by have := size_pos e; omega)
            omega
      · rw [if_neg hi]; exact rfl
    | _ => exact rfl
  | _ => exact rfl

end

end Verif.Props
