import Verif.Commute
import Verif.Mem

/-! # Loops over buffers

The loops a client of the library writes around the intrinsics, over buffers of any length.  The loops are not code
of the repository: they are how the intrinsics are used (the loop shape is that of the tests and of every NEON
program).  Pointer arithmetic is `Ptr.plus`; memory is threaded through the destination pointer. -/

namespace Verif

/-- `p + k` -/
def Ptr.plus {e : Elem} (p : Ptr e) (k : Nat) : Ptr e := ⟨p.buf, p.off + k⟩

/-- `for (i = 0; i < m; i++) store(dst + w * i, step(i, dst));` where `step` may read the destination buffer. -/
def blocks {e : Elem} {α : Type} (w m : Nat) (step : Nat → Ptr e → C α) (store : Ptr e → α → C (Ptr e)) (dst : Ptr e) :
    C (Ptr e) :=
  iter (fun i d => do
    let r ← step i d
    let d' ← store (d.plus (w * i)) r
    pure ⟨d'.buf, d.off⟩) m dst

/-- `for (i = 0; i < m; i++) store(dst + n * i, f(load(src + n * i)));` -/
def map1 {e e' : Elem} {n : Nat} (ld : Ptr e → C (Vec e n)) (f : Vec e n → C (Vec e' n)) (st : Ptr e' → Vec e' n → C (Ptr e'))
    (m : Nat) (src : Ptr e) (dst : Ptr e') : C (Ptr e') :=
  blocks n m (fun i _ => do f (← ld (src.plus (n * i)))) st dst

/-- `for (i = 0; i < m; i++) store(dst + n * i, f(load(s + n * i), load(t + n * i)));` -/
def map2 {e e' : Elem} {n : Nat} (ld : Ptr e → C (Vec e n)) (f : Vec e n → Vec e n → C (Vec e' n))
    (st : Ptr e' → Vec e' n → C (Ptr e')) (m : Nat) (s t : Ptr e) (dst : Ptr e') : C (Ptr e') :=
  blocks n m (fun i _ => do f (← ld (s.plus (n * i))) (← ld (t.plus (n * i)))) st dst

/-- `for (i = 0; i < m; i++) store(buf + n * i, f(load(buf + n * i), load(t + n * i)));`: the destination is also
the first source. -/
def update2 {e : Elem} {n : Nat} (ld : Ptr e → C (Vec e n)) (f : Vec e n → Vec e n → C (Vec e n))
    (st : Ptr e → Vec e n → C (Ptr e)) (m : Nat) (t buf : Ptr e) : C (Ptr e) :=
  blocks n m (fun i d => do f (← ld (d.plus (n * i))) (← ld (t.plus (n * i)))) st buf

/-- `for (i = 0; i < m; i++) acc = f(acc, load(s + n * i)); return acc;` -/
def fold1 {e e' : Elem} {n : Nat} (ld : Ptr e → C (Vec e n)) (f : Vec e' n → Vec e n → C (Vec e' n)) (m : Nat) (s : Ptr e)
    (acc : Vec e' n) : C (Vec e' n) :=
  iter (fun i a => do f a (← ld (s.plus (n * i)))) m acc

/-- `for (i = 0; i < m; i++) acc = f(acc, load(s + n * i), load(t + n * i)); return acc;` -/
def fold2 {e e' : Elem} {n : Nat} (ld : Ptr e → C (Vec e n)) (f : Vec e' n → Vec e n → Vec e n → C (Vec e' n)) (m : Nat)
    (s t : Ptr e) (acc : Vec e' n) : C (Vec e' n) :=
  iter (fun i a => do f a (← ld (s.plus (n * i))) (← ld (t.plus (n * i)))) m acc

open Spec

theorem holds_plus {e : Elem} {p : Ptr e} {k j : Nat} {x : BitVec e.bits} (h : Holds p (k + j) x) : Holds (p.plus k) j x := by
  unfold Holds Ptr.plus at *
  rw [← h, Nat.add_assoc]

theorem loads_ok {e : Elem} {n : Nat} {ld : Ptr e → C (Vec e n)} (hl : ∀ p, Loads p (ld p)) {p : Ptr e} (k : Nat)
    (x : Nat → BitVec e.bits) (h : ∀ j < n, Holds p (k + j) (x (k + j))) :
    ld (p.plus k) = .ok ⟨fun j => x (k + j)⟩ :=
  ((hl _).1 _).mpr fun i => holds_plus (h i i.isLt)

theorem loadsK_ok {e : Elem} {n c : Nat} {ld : Ptr e → C (VecArr e n c)} (hl : ∀ p, LoadsK p (ld p)) {p : Ptr e} (k : Nat)
    (x : Nat → BitVec e.bits) (h : ∀ j < c * n, Holds p (k + j) (x (k + j))) :
    ld (p.plus k) = .ok ⟨fun j => ⟨fun i => x (k + (c * i + j))⟩⟩ := by
  refine ((hl _).1 _).mpr fun j i => holds_plus (h _ ?_)
  have h1 : c * i.val + c ≤ c * n := by rw [← Nat.mul_succ]; exact Nat.mul_le_mul_left _ i.isLt
  have := j.isLt
  omega

theorem block_lt {n m i j : Nat} (hi : i < m) (hj : j < n) : n * i + j < n * m := by
  have : n * i + n ≤ n * m := by rw [← Nat.mul_succ]; exact Nat.mul_le_mul_left _ hi
  omega

/-- The blocks of the destination written one after the other make up the whole destination.  When block `i` is
computed, everything outside the blocks before it is still what it was. -/
theorem blocks_stored_frame {e : Elem} {α : Type} {w m : Nat} {step : Nat → Ptr e → C α} {store : Ptr e → α → C (Ptr e)}
    {dst : Ptr e} (y : Nat → BitVec e.bits) (blk : α → Fin w → BitVec e.bits)
    (hs : ∀ p r, Stores p (blk r) (store p r)) (hw : Writable dst (w * m))
    (hb : ∀ i < m, ∀ d : Ptr e, d.off = dst.off → (∀ a, a < dst.off ∨ dst.off + w * i ≤ a → d.buf[a]? = dst.buf[a]?) →
      ∃ r, step i d = .ok r ∧ ∀ j : Fin w, blk r j = y (w * i + j)) :
    ∃ d', blocks w m step store dst = .ok d' ∧ Stored dst (fun j : Fin (w * m) => y j) d' := by
  have key : ∀ k, k ≤ m → ∃ d', iter (fun i d => do
      let r ← step i d
      let d' ← store (d.plus (w * i)) r
      pure ⟨d'.buf, d.off⟩) k dst = .ok d' ∧ Stored dst (fun j : Fin (w * k) => y j) d' := by
    intro k
    induction k with
    | zero =>
      intro _
      refine ⟨dst, rfl, rfl, rfl, fun i => ?_, fun _ _ => rfl⟩
      exact absurd i.isLt (by simp)
    | succ k ih =>
      intro hk
      obtain ⟨d, hd, hS⟩ := ih (by omega)
      obtain ⟨r, hr, hy⟩ := hb k (by omega) d hS.off fun a ha => hS.frame a ha
      have hwk : w * k + w ≤ w * m := by rw [← Nat.mul_succ]; exact Nat.mul_le_mul_left _ hk
      obtain ⟨d', hd', hS'⟩ := (hs (d.plus (w * k)) r).1 (by
        unfold Writable at *
        show d.off + w * k + w ≤ d.buf.length
        rw [hS.off, hS.size]; omega)
      refine ⟨⟨d'.buf, d.off⟩, ?_, hS.off, hS'.size.trans hS.size, fun i => ?_, fun a ha => ?_⟩
      · show (iter _ k dst >>= _) = _
        rw [hd, ok_bind]
        show (step k d >>= _) = _
        rw [hr, ok_bind, hd', ok_bind]
        rfl
      · have hi := i.isLt
        have hm : w * (k + 1) = w * k + w := Nat.mul_succ _ _
        by_cases h : i.val < w * k
        · have := hS.written ⟨i.val, h⟩
          rw [← this]
          refine hS'.frame _ (Or.inl ?_)
          show dst.off + i.val < d.off + w * k
          rw [hS.off]; omega
        · have := hS'.written ⟨i.val - w * k, by omega⟩
          have e1 : dst.off + i.val = (d.plus (w * k)).off + (i.val - w * k) := by
            show _ = d.off + w * k + _
            rw [hS.off]; omega
          show d'.buf[dst.off + i.val]? = _
          rw [e1, this, hy]
          have e2 : w * k + (i.val - w * k) = i.val := by omega
          show some (some (y (w * k + (i.val - w * k)))) = _
          rw [e2]
      · have hm : w * (k + 1) = w * k + w := Nat.mul_succ _ _
        show d'.buf[a]? = _
        rw [hS'.frame a, ← hS.frame a (by omega)]
        · rfl
        · show a < d.off + w * k ∨ d.off + w * k + w ≤ a
          rw [hS.off]; omega
  exact key m (Nat.le_refl m)

/-- The same, with the part of the destination from block `i` on only. -/
theorem blocks_stored {e : Elem} {α : Type} {w m : Nat} {step : Nat → Ptr e → C α} {store : Ptr e → α → C (Ptr e)}
    {dst : Ptr e} (y : Nat → BitVec e.bits) (blk : α → Fin w → BitVec e.bits)
    (hs : ∀ p r, Stores p (blk r) (store p r)) (hw : Writable dst (w * m))
    (hb : ∀ i < m, ∀ d : Ptr e, d.off = dst.off → (∀ a, dst.off + w * i ≤ a → d.buf[a]? = dst.buf[a]?) →
      ∃ r, step i d = .ok r ∧ ∀ j : Fin w, blk r j = y (w * i + j)) :
    ∃ d', blocks w m step store dst = .ok d' ∧ Stored dst (fun j : Fin (w * m) => y j) d' :=
  blocks_stored_frame y blk hs hw fun i hi d ho hd => hb i hi d ho fun a ha => hd a (Or.inr ha)

/-- What a loop that applies an operation to every element leaves behind: if the operation is defined for every
element, the destination holds the results and is otherwise unchanged; if not, the behaviour is undefined. -/
def Maps {e : Elem} (dst : Ptr e) (k : Nat) (P : Nat → Prop) (y : Nat → BitVec e.bits) (c : C (Ptr e)) : Prop :=
  ((∀ j < k, P j) → ∃ d', c = .ok d' ∧ Spec.Stored dst (fun j : Fin k => y j) d') ∧
  ((¬ ∀ j < k, P j) → c = .ub .signedOverflow)

theorem blocks_maps {e : Elem} {w m : Nat} {step : Nat → Ptr e → C (Vec e w)} {store : Ptr e → Vec e w → C (Ptr e)}
    {dst : Ptr e} (P : Nat → Prop) [∀ j, Decidable (P j)] (y : Nat → BitVec e.bits)
    (hs : ∀ p r, Stores p r.lane (store p r)) (hw : Writable dst (w * m))
    (hb : ∀ i < m, ∀ d : Ptr e, d.off = dst.off → (∀ a, dst.off + w * i ≤ a → d.buf[a]? = dst.buf[a]?) →
      step i d = if ∀ j : Fin w, P (w * i + j) then .ok ⟨fun j => y (w * i + j)⟩ else .ub .signedOverflow) :
    Maps dst (w * m) P y (blocks w m step store dst) := by
  constructor
  · intro h
    refine blocks_stored y (fun v => v.lane) hs hw fun i hi d ho hd =>
      ⟨⟨fun j => y (w * i + j)⟩, ?_, fun j => rfl⟩
    rw [hb i hi d ho hd, if_pos fun j => h _ (block_lt hi j.isLt)]
  · intro h
    -- the first block with a bad element
    have hex : ∃ i, i < m ∧ ¬ ∀ j : Fin w, P (w * i + j) := by
      refine Decidable.byContradiction fun hn => h fun j hj => ?_
      have hw0 : 0 < w := by
        rcases Nat.eq_zero_or_pos w with h0 | h0
        · subst h0; simp at hj
        · exact h0
      refine Decidable.byContradiction fun hP => hn ⟨j / w, Nat.div_lt_of_lt_mul hj, fun h' => hP ?_⟩
      have := h' ⟨j % w, Nat.mod_lt _ hw0⟩
      simp only [Nat.div_add_mod] at this
      exact this
    obtain ⟨i0, ⟨hi0, hbad⟩, hmin⟩ : ∃ i, (i < m ∧ ¬ ∀ j : Fin w, P (w * i + j)) ∧
        ∀ i' < i, ¬ (i' < m ∧ ¬ ∀ j : Fin w, P (w * i' + j)) := by
      obtain ⟨i, hi⟩ := hex
      induction i using Nat.strongRecOn with
      | ind i ih =>
        by_cases h' : ∃ i' < i, i' < m ∧ ¬ ∀ j : Fin w, P (w * i' + j)
        · obtain ⟨i', hi', h''⟩ := h'
          exact ih i' hi' h''
        · exact ⟨i, hi, fun i' hi' h'' => h' ⟨i', hi', h''⟩⟩
    have hpre : ∀ i < i0, ∀ j : Fin w, P (w * i + j) := fun i hi =>
      Decidable.byContradiction fun hn => hmin i hi ⟨by omega, hn⟩
    obtain ⟨d, hd, hS⟩ := blocks_stored (m := i0) (step := step) (store := store) (dst := dst) y (fun v => v.lane) hs
      (writable_mono hw (Nat.mul_le_mul_left _ (by omega))) fun i hi d ho hd => ⟨⟨fun j => y (w * i + j)⟩, by
        rw [hb i (by omega) d ho hd, if_pos (hpre i hi)], fun j => rfl⟩
    have hub : blocks w (i0 + 1) step store dst = .ub .signedOverflow := by
      show (blocks w i0 step store dst >>= _) = _
      rw [hd, ok_bind]
      show (step i0 d >>= _) = _
      rw [hb i0 hi0 d hS.off fun a ha => hS.frame a (Or.inr ha), if_neg hbad]
      rfl
    have hall : ∀ k, blocks w (i0 + 1 + k) step store dst = .ub .signedOverflow := by
      intro k
      induction k with
      | zero => exact hub
      | succ k ih =>
        show (blocks w (i0 + 1 + k) step store dst >>= _) = _
        rw [ih]
        rfl
    have := hall (m - (i0 + 1))
    rwa [Nat.add_sub_cancel' hi0] at this

theorem map1_maps {e e' : Elem} {n : Nat} {ld : Ptr e → C (Vec e n)} {f : Vec e n → C (Vec e' n)}
    {st : Ptr e' → Vec e' n → C (Ptr e')} (P : BitVec e.bits → Prop) [∀ x, Decidable (P x)]
    (g : BitVec e.bits → BitVec e'.bits) (hl : ∀ p, Loads p (ld p))
    (hs : ∀ p v, Stores p v.lane (st p v))
    (hf : ∀ a, f a = if ∀ i, P (a.lane i) then .ok ⟨fun i => g (a.lane i)⟩ else .ub .signedOverflow) (m : Nat)
    (src : Ptr e) (dst : Ptr e') (x : Nat → BitVec e.bits) (hx : ∀ j < n * m, Holds src j (x j)) (hw : Writable dst (n * m)) :
    Maps dst (n * m) (fun j => P (x j)) (fun j => g (x j)) (map1 ld f st m src dst) := by
  refine blocks_maps _ _ hs hw fun i hi d _ _ => ?_
  rw [loads_ok hl (n * i) x fun j hj => hx _ (block_lt hi hj), ok_bind, hf]

theorem map2_maps {e e' : Elem} {n : Nat} {ld : Ptr e → C (Vec e n)} {f : Vec e n → Vec e n → C (Vec e' n)}
    {st : Ptr e' → Vec e' n → C (Ptr e')} (P : BitVec e.bits → BitVec e.bits → Prop) [∀ x y, Decidable (P x y)]
    (g : BitVec e.bits → BitVec e.bits → BitVec e'.bits) (hl : ∀ p, Loads p (ld p))
    (hs : ∀ p v, Stores p v.lane (st p v))
    (hf : ∀ a b, f a b = if ∀ i, P (a.lane i) (b.lane i) then .ok ⟨fun i => g (a.lane i) (b.lane i)⟩ else .ub .signedOverflow)
    (m : Nat) (s t : Ptr e) (dst : Ptr e') (x y : Nat → BitVec e.bits) (hx : ∀ j < n * m, Holds s j (x j))
    (hy : ∀ j < n * m, Holds t j (y j)) (hw : Writable dst (n * m)) :
    Maps dst (n * m) (fun j => P (x j) (y j)) (fun j => g (x j) (y j)) (map2 ld f st m s t dst) := by
  refine blocks_maps _ _ hs hw fun i hi d _ _ => ?_
  rw [loads_ok hl (n * i) x fun j hj => hx _ (block_lt hi hj), ok_bind,
    loads_ok hl (n * i) y fun j hj => hy _ (block_lt hi hj), ok_bind, hf]

theorem update2_maps {e : Elem} {n : Nat} {ld : Ptr e → C (Vec e n)} {f : Vec e n → Vec e n → C (Vec e n)}
    {st : Ptr e → Vec e n → C (Ptr e)} (P : BitVec e.bits → BitVec e.bits → Prop) [∀ x y, Decidable (P x y)]
    (g : BitVec e.bits → BitVec e.bits → BitVec e.bits) (hl : ∀ p, Loads p (ld p))
    (hs : ∀ p v, Stores p v.lane (st p v))
    (hf : ∀ a b, f a b = if ∀ i, P (a.lane i) (b.lane i) then .ok ⟨fun i => g (a.lane i) (b.lane i)⟩ else .ub .signedOverflow)
    (m : Nat) (t buf : Ptr e) (x y : Nat → BitVec e.bits) (hx : ∀ j < n * m, Holds buf j (x j))
    (hy : ∀ j < n * m, Holds t j (y j)) (hw : Writable buf (n * m)) :
    Maps buf (n * m) (fun j => P (x j) (y j)) (fun j => g (x j) (y j)) (update2 ld f st m t buf) := by
  refine blocks_maps _ _ hs hw fun i hi d ho hd => ?_
  rw [loads_ok (p := d) hl (n * i) x fun j hj => ?_, ok_bind,
    loads_ok hl (n * i) y fun j hj => hy _ (block_lt hi hj), ok_bind, hf]
  have := hx _ (block_lt hi hj)
  unfold Holds at this ⊢
  rw [ho, hd _ (by omega), this]

theorem map1_stored {e e' : Elem} {n : Nat} {ld : Ptr e → C (Vec e n)} {f : Vec e n → C (Vec e' n)}
    {st : Ptr e' → Vec e' n → C (Ptr e')} (g : BitVec e.bits → BitVec e'.bits) (hl : ∀ p, Loads p (ld p))
    (hs : ∀ p v, Stores p v.lane (st p v)) (hf : ∀ a, f a = .ok ⟨fun i => g (a.lane i)⟩) (m : Nat)
    (src : Ptr e) (dst : Ptr e') (x : Nat → BitVec e.bits) (hx : ∀ j < n * m, Holds src j (x j)) (hw : Writable dst (n * m)) :
    ∃ d', map1 ld f st m src dst = .ok d' ∧ Stored dst (fun j : Fin (n * m) => g (x j)) d' :=
  (map1_maps (fun _ => True) g hl hs (fun a => by rw [hf, if_pos fun _ => trivial]) m src dst x hx hw).1 fun _ _ => trivial

theorem map2_stored {e e' : Elem} {n : Nat} {ld : Ptr e → C (Vec e n)} {f : Vec e n → Vec e n → C (Vec e' n)}
    {st : Ptr e' → Vec e' n → C (Ptr e')} (g : BitVec e.bits → BitVec e.bits → BitVec e'.bits) (hl : ∀ p, Loads p (ld p))
    (hs : ∀ p v, Stores p v.lane (st p v)) (hf : ∀ a b, f a b = .ok ⟨fun i => g (a.lane i) (b.lane i)⟩) (m : Nat)
    (s t : Ptr e) (dst : Ptr e') (x y : Nat → BitVec e.bits) (hx : ∀ j < n * m, Holds s j (x j))
    (hy : ∀ j < n * m, Holds t j (y j)) (hw : Writable dst (n * m)) :
    ∃ d', map2 ld f st m s t dst = .ok d' ∧ Stored dst (fun j : Fin (n * m) => g (x j) (y j)) d' :=
  (map2_maps (fun _ _ => True) g hl hs (fun a b => by rw [hf, if_pos fun _ => trivial]) m s t dst x y hx hy hw).1
    fun _ _ => trivial

theorem update2_stored {e : Elem} {n : Nat} {ld : Ptr e → C (Vec e n)} {f : Vec e n → Vec e n → C (Vec e n)}
    {st : Ptr e → Vec e n → C (Ptr e)} (g : BitVec e.bits → BitVec e.bits → BitVec e.bits) (hl : ∀ p, Loads p (ld p))
    (hs : ∀ p v, Stores p v.lane (st p v)) (hf : ∀ a b, f a b = .ok ⟨fun i => g (a.lane i) (b.lane i)⟩) (m : Nat)
    (t buf : Ptr e) (x y : Nat → BitVec e.bits) (hx : ∀ j < n * m, Holds buf j (x j))
    (hy : ∀ j < n * m, Holds t j (y j)) (hw : Writable buf (n * m)) :
    ∃ d', update2 ld f st m t buf = .ok d' ∧ Stored buf (fun j : Fin (n * m) => g (x j) (y j)) d' :=
  (update2_maps (fun _ _ => True) g hl hs (fun a b => by rw [hf, if_pos fun _ => trivial]) m t buf x y hx hy hw).1
    fun _ _ => trivial

theorem foldl_range_succ {α : Type} (g : α → Nat → α) (a : α) (m : Nat) :
    (List.range (m + 1)).foldl g a = g ((List.range m).foldl g a) m := by
  rw [List.range_succ, List.foldl_append]; rfl

theorem fold1_ok {e e' : Elem} {n : Nat} {ld : Ptr e → C (Vec e n)} {f : Vec e' n → Vec e n → C (Vec e' n)}
    (g : BitVec e'.bits → BitVec e.bits → BitVec e'.bits) (hl : ∀ p, Loads p (ld p))
    (hf : ∀ a b, f a b = .ok ⟨fun i => g (a.lane i) (b.lane i)⟩) (m : Nat) (s : Ptr e) (x : Nat → BitVec e.bits)
    (hx : ∀ j < n * m, Holds s j (x j)) (acc : Vec e' n) :
    fold1 ld f m s acc = .ok ⟨fun j => (List.range m).foldl (fun a k => g a (x (n * k + j))) (acc.lane j)⟩ := by
  induction m with
  | zero => rfl
  | succ m ih =>
    show (fold1 ld f m s acc >>= _) = _
    rw [ih fun j hj => hx j (by rw [Nat.mul_succ]; omega), ok_bind]
    show (ld (s.plus (n * m)) >>= _) = _
    rw [loads_ok hl (n * m) x fun j hj => hx _ (block_lt (Nat.lt_succ_self m) hj), ok_bind, hf]
    simp only [foldl_range_succ]

theorem fold2_ok {e e' : Elem} {n : Nat} {ld : Ptr e → C (Vec e n)} {f : Vec e' n → Vec e n → Vec e n → C (Vec e' n)}
    (g : BitVec e'.bits → BitVec e.bits → BitVec e.bits → BitVec e'.bits) (hl : ∀ p, Loads p (ld p))
    (hf : ∀ a b c, f a b c = .ok ⟨fun i => g (a.lane i) (b.lane i) (c.lane i)⟩) (m : Nat) (s t : Ptr e)
    (x y : Nat → BitVec e.bits) (hx : ∀ j < n * m, Holds s j (x j)) (hy : ∀ j < n * m, Holds t j (y j)) (acc : Vec e' n) :
    fold2 ld f m s t acc =
      .ok ⟨fun j => (List.range m).foldl (fun a k => g a (x (n * k + j)) (y (n * k + j))) (acc.lane j)⟩ := by
  induction m with
  | zero => rfl
  | succ m ih =>
    show (fold2 ld f m s t acc >>= _) = _
    rw [ih (fun j hj => hx j (by rw [Nat.mul_succ]; omega)) (fun j hj => hy j (by rw [Nat.mul_succ]; omega)), ok_bind]
    show (ld (s.plus (n * m)) >>= _) = _
    rw [loads_ok hl (n * m) x fun j hj => hx _ (block_lt (Nat.lt_succ_self m) hj), ok_bind,
      loads_ok hl (n * m) y fun j hj => hy _ (block_lt (Nat.lt_succ_self m) hj), ok_bind, hf]
    simp only [foldl_range_succ]

/-! ## A concrete buffer

`demo e n` points past one uninitialised element at `n` elements `1, 8, 15, …`.  It meets the hypotheses of the
theorems about loops, for every element type and every length. -/

def demo (e : Elem) (n : Nat) : Ptr e := ⟨none :: (List.range n).map fun k => some (BitVec.ofNat e.bits (7 * k + 1)), 1⟩

theorem demo_holds (e : Elem) (n : Nat) : ∀ j < n, Holds (demo e n) j (BitVec.ofNat e.bits (7 * j + 1)) := by
  intro j h
  unfold Holds demo
  simp [Nat.add_comm 1 j, h]

theorem demo_writable (e : Elem) (n : Nat) : Writable (demo e n) n := by
  unfold Writable demo
  simp [Nat.add_comm]

end Verif
