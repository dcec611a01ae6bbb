import Verif.Fill
import Verif.SpecMem

/-! # Loads and stores through a pointer -/

namespace Verif
open Spec

/-! ## Reading -/

theorem Ptr.get_nat {e} (p : Ptr e) (k : Nat) {i : Int} (hi : i = k) :
    p.get i = match p.buf[p.off + k]? with
      | some (some b) => .ok (.ofBits e b)
      | some none => .ub .indeterminateRead
      | none => .ub .outOfBounds := by
  subst hi
  unfold Ptr.get
  rw [if_pos (by omega)]
  rfl

theorem Ptr.get_holds {e} {p : Ptr e} {k : Nat} {x} {i : Int} (hi : i = k) (h : Holds p k x) :
    p.get i = .ok (.ofBits e x) := by
  rw [Ptr.get_nat p k hi]
  unfold Holds at h
  rw [h]

theorem Ptr.get_not {e} {p : Ptr e} {k : Nat} {i : Int} (hi : i = k) (h : ¬ Readable p k) :
    ∃ u, p.get i = .ub u := by
  rw [Ptr.get_nat p k hi]
  split
  · rename_i b hb
    exact absurd ⟨b, hb⟩ h
  · exact ⟨_, rfl⟩
  · exact ⟨_, rfl⟩

theorem Holds.inj {e} {p : Ptr e} {k : Nat} {x y} (h : Holds p k x) (h' : Holds p k y) : x = y := by
  unfold Holds at h h'
  rw [h] at h'
  simpa using h'

theorem ub_absorb {α} (x : C α) (f : α → C α) (h : ∃ u, x = .ub u) : ∃ u, (x >>= f) = .ub u := by
  obtain ⟨u, rfl⟩ := h
  exact ⟨u, rfl⟩

/-- A loop that reads element `k` (of any expression) in iteration `k`. -/
theorem load_loop {e n} {hi : Int} {body : Int → Arr e n → C (Arr e n)} (p : Ptr e) (hn : hi = n)
    (pos : Fin n → Nat)
    (h1 : ∀ (i : Fin n) (D : Arr e n) x, Holds p (pos i) x → body ((i.val : Nat) : Int) D = .ok (D.put i x))
    (h2 : ∀ (i : Fin n) (D : Arr e n), ¬ Readable p (pos i) → ∃ u, body ((i.val : Nat) : Int) D = .ub u) :
    (∀ r : Vec e n, (cfor 0 hi 1 Arr.undef body >>= fun D => D.ret) = .ok r ↔
      ∀ i : Fin n, Holds p (pos i) (r.lane i)) ∧
    ((∃ i : Fin n, ¬ Readable p (pos i)) →
      ∃ u, (cfor 0 hi 1 Arr.undef body >>= fun D => D.ret) = .ub u) := by
  have hub : (∃ i : Fin n, ¬ Readable p (pos i)) →
      ∃ u, (cfor 0 hi 1 Arr.undef body >>= fun D => D.ret) = .ub u := by
    rintro ⟨i0, hi0⟩
    have : ∃ u, cfor 0 hi 1 Arr.undef body = .ub u := by
      rw [cfor_one hi n hn]
      classical
      let f : Fin n → BitVec e.bits := fun i =>
        if h : Readable p (pos i) then h.choose else 0
      have := iter_or (body := fun k => body (k : Int)) (Arr.upto f)
        (fun k => ∀ hk : k < n, Readable p (pos ⟨k, hk⟩)) (fun x => ∃ u, x = .ub u)
        (fun x g hx => by obtain ⟨u, rfl⟩ := hx; exact ⟨u, rfl⟩) (n := n)
        (fun k hk hr => by
          have hh := hr hk
          have hf : f ⟨k, hk⟩ = hh.choose := dif_pos hh
          show body ((⟨k, hk⟩ : Fin n).val : Int) _ = _
          rw [h1 ⟨k, hk⟩ _ _ hh.choose_spec, ← hf, Arr.upto_put f k hk])
        (fun k hk hr => h2 ⟨k, hk⟩ _ (fun hh => hr fun _ => hh))
        (fun hall => hi0 (hall i0.val i0.isLt i0.isLt))
      rw [Arr.upto_zero] at this
      exact this
    obtain ⟨u, hu⟩ := this
    exact ⟨u, by rw [hu]; rfl⟩
  refine ⟨fun r => ⟨fun h => ?_, fun h => ?_⟩, hub⟩
  · by_cases hr : ∀ i : Fin n, Readable p (pos i)
    · obtain ⟨f, hf⟩ := Classical.axiomOfChoice hr
      rw [fill_ok hn f fun i D => h1 i D _ (hf i)] at h
      cases h
      exact hf
    · obtain ⟨u, hu⟩ := hub (by simpa using hr)
      rw [hu] at h
      cases h
  · exact fill_ok hn r.lane fun i D => h1 i D _ (h i)

theorem Arr.set_copy {e n} (D : Arr e n) (i : Fin n) (x : BitVec e.bits) :
    D.set ((i.val : Nat) : Int) (.ofBits e x) = .ok (D.put i x) := by
  rw [Arr.set_fin, toBits_ofBits]
  rfl

/-- `for (i) r.val[i] = ptr[i];` -/
theorem load1 {e : Elem} {n : Nat} {hi : Int} (p : Ptr e) (hn : hi = n) :
    Loads p (do
      let r ← cfor 0 hi 1 (Arr.undef : Arr e n) fun i r => do
        let r ← r.set i (← p.get i)
        pure r
      r.ret) := by
  refine load_loop p hn (fun i => i.val) (fun i D x h => ?_) (fun i D h => ?_)
  · simp only [Ptr.get_holds rfl h, ok_bind, Arr.set_copy]
  · obtain ⟨u, hu⟩ := Ptr.get_not (p := p) rfl h
    exact ⟨u, by rw [hu]; rfl⟩

/-- `for (i) r.val[i] = *ptr;` -/
theorem loadDup {e : Elem} {n : Nat} {hi : Int} (p : Ptr e) (hn : hi = n) :
    let c : C (Vec e n) := (do
      let r ← cfor 0 hi 1 (Arr.undef : Arr e n) fun i r => do
        let r ← r.set i (← p.get 0)
        pure r
      r.ret)
    (∀ r, c = .ok r ↔ ∀ i : Fin n, Holds p 0 (r.lane i)) ∧
      ((∃ _ : Fin n, ¬ Readable p 0) → ∃ u, c = .ub u) := by
  refine load_loop p hn (fun i => 0) (fun i D x h => ?_) (fun i D h => ?_)
  · simp only [Ptr.get_holds (i := 0) rfl h, ok_bind, Arr.set_copy]
  · obtain ⟨u, hu⟩ := Ptr.get_not (p := p) (i := 0) rfl h
    exact ⟨u, by rw [hu]; rfl⟩

/-! ## Interleaved reading -/

/-- Lane `i` of the first `c` registers set from `x`. -/
def Arr2.putLane {e n m} (D : Arr2 e n m) (i : Fin n) (c : Nat) (x : Fin m → BitVec e.bits) : Arr2 e n m :=
  fun j' i' => if i' = i ∧ j'.val < c then some (x j') else D j' i'

theorem loadK_loop {e n m} {hi : Int} {body : Int → Arr2 e n m → C (Arr2 e n m)} (p : Ptr e)
    (hn : hi = n)
    (h1 : ∀ (i : Fin n) (D : Arr2 e n m) (x : Fin m → BitVec e.bits),
      (∀ j : Fin m, Holds p (m * i + j) (x j)) →
      body ((i.val : Nat) : Int) D = .ok (D.putLane i m x))
    (h2 : ∀ (i : Fin n) (D : Arr2 e n m), (∃ j : Fin m, ¬ Readable p (m * i + j)) →
      ∃ u, body ((i.val : Nat) : Int) D = .ub u) :
    LoadsK p (cfor 0 hi 1 Arr2.undef body >>= fun D => D.ret) := by
  have stepEq : ∀ (f : Fin m → Fin n → BitVec e.bits) (k : Nat) (hk : k < n),
      (Arr2.partial (fun _ i => i.val) f k).putLane ⟨k, hk⟩ m (fun j => f j ⟨k, hk⟩)
        = Arr2.partial (fun _ i => i.val) f (k + 1) := by
    intro f k hk
    funext j' i'
    simp only [Arr2.partial, Arr2.putLane]
    by_cases hh : i' = ⟨k, hk⟩
    · subst hh
      rw [if_pos ⟨rfl, j'.isLt⟩, if_pos (Nat.lt_succ_self k)]
    · have : i'.val ≠ k := fun h => hh (Fin.ext h)
      rw [if_neg fun h => hh h.1]
      by_cases h3 : i'.val < k
      · rw [if_pos h3, if_pos (by omega)]
      · rw [if_neg h3, if_neg (by omega)]
  have hok : ∀ f : Fin m → Fin n → BitVec e.bits,
      (∀ (j : Fin m) (i : Fin n), Holds p (m * i + j) (f j i)) →
      (cfor 0 hi 1 Arr2.undef body >>= fun D => D.ret) = .ok ⟨fun j => ⟨f j⟩⟩ := by
    intro f hf
    have := iter_inv (body := fun k => body (k : Int)) (Arr2.partial (fun _ i => i.val) f) (n := n)
      fun k hk => by
        show body ((⟨k, hk⟩ : Fin n).val : Int) _ = _
        rw [h1 ⟨k, hk⟩ _ (fun j => f j ⟨k, hk⟩) (fun j => hf j _), stepEq]
    rw [Arr2.partial_zero] at this
    rw [cfor_one hi n hn, this]
    exact Arr2.ret_partial _ f fun j i => i.isLt
  have hub : (∃ (j : Fin m) (i : Fin n), ¬ Readable p (m * i + j)) →
      ∃ u, (cfor 0 hi 1 Arr2.undef body >>= fun D => D.ret) = .ub u := by
    rintro ⟨j0, i0, hi0⟩
    have : ∃ u, cfor 0 hi 1 Arr2.undef body = .ub u := by
      rw [cfor_one hi n hn]
      classical
      let f : Fin m → Fin n → BitVec e.bits := fun j i =>
        if h : Readable p (m * i + j) then h.choose else 0
      have := iter_or (body := fun k => body (k : Int)) (Arr2.partial (fun _ i => i.val) f)
        (fun k => ∀ j : Fin m, Readable p (m * k + j)) (fun x => ∃ u, x = .ub u)
        (fun x g hx => by obtain ⟨u, rfl⟩ := hx; exact ⟨u, rfl⟩) (n := n)
        (fun k hk hr => by
          show body ((⟨k, hk⟩ : Fin n).val : Int) _ = _
          rw [h1 ⟨k, hk⟩ _ (fun j => f j ⟨k, hk⟩), stepEq]
          intro j
          have hf : f j ⟨k, hk⟩ = (hr j).choose := dif_pos (hr j)
          rw [hf]
          exact (hr j).choose_spec)
        (fun k hk hr => h2 ⟨k, hk⟩ _ (by simpa using hr))
        (fun hall => hi0 (hall i0.val i0.isLt j0))
      rw [Arr2.partial_zero] at this
      exact this
    obtain ⟨u, hu⟩ := this
    exact ⟨u, by rw [hu]; rfl⟩
  refine ⟨fun r => ⟨fun h => ?_, fun h => ?_⟩, hub⟩
  · by_cases hr : ∀ (j : Fin m) (i : Fin n), Readable p (m * i + j)
    · obtain ⟨f, hf⟩ := Classical.axiomOfChoice fun j => Classical.axiomOfChoice (hr j)
      rw [hok f hf] at h
      cases h
      exact hf
    · obtain ⟨u, hu⟩ := hub (by simpa using hr)
      rw [hu] at h
      cases h
  · exact hok (fun j i => (r.reg j).lane i) h

theorem Arr2.set_copy {e n m} (D : Arr2 e n m) (j : Fin m) (i : Fin n) (x : BitVec e.bits) {j' : Int}
    (hj : j' = (j.val : Nat)) :
    D.set j' ((i.val : Nat) : Int) (.ofBits e x) = .ok (D.put j i x) := by
  rw [Arr2.set_at D _ j.val i.val j.isLt i.isLt hj rfl, toBits_ofBits]
  rfl

/-- The first `j` reads of iteration `i` of an interleaved load. -/
def readK {e n m} (p : Ptr e) (i : Int) : Nat → Arr2 e n m → C (Arr2 e n m)
  | 0, D => .ok D
  | j + 1, D => readK p i j D >>= fun D => p.get (m * i + j) >>= fun v => D.set j i v

theorem readK_ok {e n m} (p : Ptr e) (i : Fin n) (x : Fin m → BitVec e.bits) (D : Arr2 e n m) (c : Nat)
    (hc : c ≤ m) (h : ∀ j : Fin m, j.val < c → Holds p (m * i + j) (x j)) :
    readK p (i.val : Nat) c D =
      .ok (D.putLane i c x) := by
  induction c with
  | zero => 
    rw [readK]
    congr 1
    funext j' i'
    simp [Arr2.putLane]
  | succ c ih =>
    rw [readK, ih (by omega) fun j hj => h j (by omega), ok_bind,
      Ptr.get_holds (by push_cast; rfl) (h ⟨c, hc⟩ (by simp)), ok_bind, Arr2.set_copy _ ⟨c, hc⟩ i _ rfl]
    congr 1
    funext j' i'
    simp only [Arr2.put, Arr2.putLane]
    by_cases hi : i' = i
    · by_cases hj : j' = ⟨c, hc⟩
      · subst hj; simp [hi]
      · have : j'.val ≠ c := fun h => hj (Fin.ext h)
        have e1 : j'.val < c ↔ j'.val < c + 1 := by omega
        simp only [hi, hj, e1, false_and, if_false]
    · simp [hi]

theorem readK_ub {e n m} (p : Ptr e) (i : Fin n) (D : Arr2 e n m) (c : Nat) (hc : c ≤ m)
    (h : ∃ j : Fin m, j.val < c ∧ ¬ Readable p (m * i + j)) : ∃ u, readK p (i.val : Nat) c D = .ub u := by
  induction c with
  | zero => obtain ⟨j, hj, _⟩ := h; omega
  | succ c ih =>
    by_cases h' : ∃ j : Fin m, j.val < c ∧ ¬ Readable p (m * i + j)
    · obtain ⟨u, hu⟩ := ih (by omega) h'
      exact ⟨u, by rw [readK, hu]; rfl⟩
    · have hr : ∀ j : Fin m, j.val < c → Readable p (m * i + j) := by
        intro j hj
        exact Classical.byContradiction fun hh => h' ⟨j, hj, hh⟩
      classical
      have := readK_ok p i (fun j => if h : Readable p (m * i + j) then h.choose else 0) D c (by omega)
        fun j hj => by
          rw [dif_pos (hr j hj)]
          exact (hr j hj).choose_spec
      obtain ⟨j, hj, hn⟩ := h
      have hjc : j.val = c := by
        exact Classical.byContradiction fun hne => hn (hr j (by omega))
      obtain ⟨u, hu⟩ := Ptr.get_not (p := p) (i := (m : Int) * (i.val : Nat) + (c : Nat)) (by push_cast; rw [hjc]) hn
      exact ⟨u, by rw [readK, this, ok_bind, hu]; rfl⟩

theorem loadK_read {e n m} {hi : Int} {body : Int → Arr2 e n m → C (Arr2 e n m)} (p : Ptr e)
    (hn : hi = n) (hb : ∀ (i : Int) D, body i D = readK p i m D) :
    LoadsK p (cfor 0 hi 1 Arr2.undef body >>= fun D => D.ret) := by
  refine loadK_loop p hn (fun i D x h => ?_) (fun i D h => ?_)
  · rw [hb, readK_ok p i x D m (Nat.le_refl m) fun j _ => h j]
  · rw [hb]
    obtain ⟨j, hj⟩ := h
    exact readK_ub p i D m (Nat.le_refl m) ⟨j, j.isLt, hj⟩

/-- `for (i) { r.val[0].val[i] = ptr[2*i+0]; r.val[1].val[i] = ptr[2*i+1]; }` -/
theorem load2 {e : Elem} {n : Nat} {hi : Int} (p : Ptr e) (hn : hi = n) :
    LoadsK p (do
      let r ← cfor 0 hi 1 (Arr2.undef : Arr2 e n 2) fun i r => do
        let r ← r.set 0 i (← p.get ((2 * i) + 0))
        let r ← r.set 1 i (← p.get ((2 * i) + 1))
        pure r
      r.ret) :=
  loadK_read p hn fun i D => by simp only [readK, bind_assoc, ok_bind]; rfl

theorem load3 {e : Elem} {n : Nat} {hi : Int} (p : Ptr e) (hn : hi = n) :
    LoadsK p (do
      let r ← cfor 0 hi 1 (Arr2.undef : Arr2 e n 3) fun i r => do
        let r ← r.set 0 i (← p.get ((3 * i) + 0))
        let r ← r.set 1 i (← p.get ((3 * i) + 1))
        let r ← r.set 2 i (← p.get ((3 * i) + 2))
        pure r
      r.ret) :=
  loadK_read p hn fun i D => by simp only [readK, bind_assoc, ok_bind]; rfl

theorem load4 {e : Elem} {n : Nat} {hi : Int} (p : Ptr e) (hn : hi = n) :
    LoadsK p (do
      let r ← cfor 0 hi 1 (Arr2.undef : Arr2 e n 4) fun i r => do
        let r ← r.set 0 i (← p.get ((4 * i) + 0))
        let r ← r.set 1 i (← p.get ((4 * i) + 1))
        let r ← r.set 2 i (← p.get ((4 * i) + 2))
        let r ← r.set 3 i (← p.get ((4 * i) + 3))
        pure r
      r.ret) :=
  loadK_read p hn fun i D => by simp only [readK, bind_assoc, ok_bind]; rfl

/-- The loops of `vldK_lane`. -/
theorem laneK {e : Elem} {n k : Nat} {N K : Int} (p : Ptr e) (src : VecArr e n k) {lane : Int} (l : Fin n)
    (hl : lane = l.val) (hN : N = n) (hK : K = k) :
    let c : C (VecArr e n k) := (do
      let res ← cfor 0 K 1 (Arr2.undef : Arr2 e n k) fun j res => do
        let res ← cfor 0 N 1 res fun i res => do
          let res ←
            if i = lane then do
              let res ← res.set j i (← p.get j)
              pure res
            else do
              let res ← res.set j i (← src.get j i)
              pure res
          pure res
        pure res
      res.ret)
    (∀ x : Fin k → BitVec e.bits, (∀ j : Fin k, Holds p j (x j)) →
      c = .ok ⟨fun j => ⟨fun i => if i = l then x j else (src.reg j).lane i⟩⟩) ∧
    ((∃ j : Fin k, ¬ Readable p j) → ∃ u, c = .ub u) := by
  intro c
  subst hl
  let own : Fin k → Fin n → Nat := fun j i => n * j.val + i.val
  -- one inner iteration
  have hstep : ∀ (x : Fin k → BitVec e.bits) (j : Fin k) (i : Fin n),
      (i = l → Holds p j (x j)) →
      (fun (i : Int) res => (do
          let res ←
            if i = ((l.val : Nat) : Int) then do
              let res ← res.set (j.val : Int) i (← p.get (j.val : Int))
              pure res
            else do
              let res ← res.set (j.val : Int) i (← src.get (j.val : Int) i)
              pure res
          pure res : C (Arr2 e n k))) ((i.val : Nat) : Int)
        (Arr2.partial own (fun j i => if i = l then x j else (src.reg j).lane i) (n * j.val + i.val)) =
      .ok (Arr2.partial own (fun j i => if i = l then x j else (src.reg j).lane i) (n * j.val + i.val + 1)) := by
    intro x j i hx
    have hput : ∀ b, b = (if i = l then x j else (src.reg j).lane i) →
        (Arr2.partial own (fun j i => if i = l then x j else (src.reg j).lane i) (n * j.val + i.val)).put j i b
          = Arr2.partial own (fun j i => if i = l then x j else (src.reg j).lane i) (n * j.val + i.val + 1) := by
      intro b hb
      funext j' i'
      simp only [Arr2.put, Arr2.partial, own]
      by_cases hh : j' = j ∧ i' = i
      · rw [if_pos hh, hh.1, hh.2, if_pos (by omega), hb]
      · rw [if_neg hh]
        have hne : n * j'.val + i'.val ≠ n * j.val + i.val := by
          intro he
          have h1 := congrArg (· / n) he
          have h2 := congrArg (· % n) he
          simp only [Nat.mul_add_mod, Nat.mod_eq_of_lt i.isLt, Nat.mod_eq_of_lt i'.isLt] at h2
          have hn0 : 0 < n := by have := i.isLt; omega
          simp only [Nat.mul_add_div hn0, Nat.div_eq_of_lt i.isLt, Nat.div_eq_of_lt i'.isLt,
            Nat.add_zero] at h1
          exact hh ⟨Fin.ext h1, Fin.ext h2⟩
        by_cases h3 : n * j'.val + i'.val < n * j.val + i.val
        · rw [if_pos h3, if_pos (c := n * j'.val + i'.val < n * j.val + i.val + 1) (by omega)]
        · rw [if_neg h3, if_neg (c := n * j'.val + i'.val < n * j.val + i.val + 1) (by omega)]
    by_cases hil : i = l
    · show (if _ then _ else _) = _
      rw [if_pos (by rw [hil]), Ptr.get_holds rfl (hx hil), ok_bind, Arr2.set_copy _ j i _ rfl]
      exact congrArg C.ok (hput _ (by rw [if_pos hil]))
    · have hne : ¬ ((i.val : Nat) : Int) = ((l.val : Nat) : Int) := fun h => hil (Fin.ext (by omega))
      show (if _ then _ else _) = _
      rw [if_neg hne, VecArr.get_at src j.val i.val j.isLt i.isLt rfl rfl, ok_bind, Arr2.set_copy _ j i _ rfl]
      exact congrArg C.ok (hput _ (by rw [if_neg hil]))
  -- one outer iteration
  have hrow : ∀ (x : Fin k → BitVec e.bits) (j : Fin k), Holds p j (x j) →
      cfor 0 N 1 (Arr2.partial own (fun j i => if i = l then x j else (src.reg j).lane i) (n * j.val))
        (fun i res => do
          let res ←
            if i = ((l.val : Nat) : Int) then do
              let res ← res.set (j.val : Int) i (← p.get (j.val : Int))
              pure res
            else do
              let res ← res.set (j.val : Int) i (← src.get (j.val : Int) i)
              pure res
          pure res) =
      .ok (Arr2.partial own (fun j i => if i = l then x j else (src.reg j).lane i) (n * (j.val + 1))) := by
    intro x j hx
    rw [cfor_one N n hN]
    exact iter_inv (fun i => Arr2.partial own (fun j i => if i = l then x j else (src.reg j).lane i) (n * j.val + i))
      fun i hi => hstep x j ⟨i, hi⟩ fun _ => hx
  have hrow' : ∀ (x : Fin k → BitVec e.bits) (j : Fin k), ¬ Readable p j → ∃ u,
      cfor 0 N 1 (Arr2.partial own (fun j i => if i = l then x j else (src.reg j).lane i) (n * j.val))
        (fun i res => do
          let res ←
            if i = ((l.val : Nat) : Int) then do
              let res ← res.set (j.val : Int) i (← p.get (j.val : Int))
              pure res
            else do
              let res ← res.set (j.val : Int) i (← src.get (j.val : Int) i)
              pure res
          pure res) = .ub u := by
    intro x j hx
    obtain ⟨u, hu⟩ := Ptr.get_not (p := p) (i := ((j.val : Nat) : Int)) rfl hx
    refine ⟨u, ?_⟩
    refine cfor_ub l.val
      (fun i => Arr2.partial own (fun j i => if i = l then x j else (src.reg j).lane i) (n * j.val + i)) u
      (by rw [hN]; simp) rfl (fun i hi => ?_) ?_
    · have := hstep x j ⟨i, by omega⟩ fun h => absurd (congrArg Fin.val h) (by simp only; omega)
      rw [Int.mul_one, Int.zero_add]
      exact this
    · rw [Int.mul_one, Int.zero_add]
      show (if _ then _ else _) = _
      rw [if_pos rfl, hu]
      rfl
  constructor
  · intro x hx
    show (cfor 0 K 1 Arr2.undef _ >>= fun D => D.ret) = _
    rw [cfor_one K k hK]
    have := iter_inv (body := fun (j : Nat) res => cfor 0 N 1 res
        (fun i res => (do
          let res ←
            if i = ((l.val : Nat) : Int) then do
              let res ← res.set (j : Int) i (← p.get (j : Int))
              pure res
            else do
              let res ← res.set (j : Int) i (← src.get (j : Int) i)
              pure res
          pure res : C (Arr2 e n k))))
      (fun j => Arr2.partial own (fun j i => if i = l then x j else (src.reg j).lane i) (n * j)) (n := k)
      fun j hj => hrow x ⟨j, hj⟩ (hx ⟨j, hj⟩)
    rw [Nat.mul_zero, Arr2.partial_zero] at this
    rw [this]
    exact Arr2.ret_partial _ _ fun j i => by
      have : n * (j.val + 1) ≤ n * k := Nat.mul_le_mul_left _ j.isLt
      rw [Nat.mul_add] at this
      have := i.isLt
      simp only [own]
      omega
  · rintro ⟨j0, hj0⟩
    have : ∃ u, cfor 0 K 1 (Arr2.undef : Arr2 e n k) (fun j res => do
        let res ← cfor 0 N 1 res fun i res => do
          let res ←
            if i = ((l.val : Nat) : Int) then do
              let res ← res.set j i (← p.get j)
              pure res
            else do
              let res ← res.set j i (← src.get j i)
              pure res
          pure res
        pure res) = .ub u := by
      rw [cfor_one K k hK]
      classical
      let x : Fin k → BitVec e.bits := fun j => if h : Readable p j then h.choose else 0
      have := iter_or (body := fun (j : Nat) res => cfor 0 N 1 res
          (fun i res => (do
            let res ←
              if i = ((l.val : Nat) : Int) then do
                let res ← res.set (j : Int) i (← p.get (j : Int))
                pure res
              else do
                let res ← res.set (j : Int) i (← src.get (j : Int) i)
                pure res
            pure res : C (Arr2 e n k))))
        (fun j => Arr2.partial own (fun j i => if i = l then x j else (src.reg j).lane i) (n * j))
        (fun j => Readable p j) (fun x => ∃ u, x = .ub u)
        (fun x g hx => by obtain ⟨u, rfl⟩ := hx; exact ⟨u, rfl⟩) (n := k)
        (fun j hj hr => hrow x ⟨j, hj⟩ (by
          have : x ⟨j, hj⟩ = hr.choose := dif_pos hr
          rw [this]
          exact hr.choose_spec))
        (fun j hj hr => hrow' x ⟨j, hj⟩ hr)
        (fun hall => hj0 (hall j0.val j0.isLt))
      rw [Nat.mul_zero, Arr2.partial_zero] at this
      exact this
    obtain ⟨u, hu⟩ := this
    refine ⟨u, ?_⟩
    show (cfor 0 K 1 Arr2.undef _ >>= fun D => D.ret) = _
    rw [hu]
    rfl

/-! ## Writing -/

/-- The buffer after the elements `0 .. k-1` of `x` have been written. -/
def Ptr.upd {e} (p : Ptr e) (x : Nat → BitVec e.bits) (k : Nat) : Ptr e :=
  { p with buf := p.buf.mapIdx fun a c => if p.off ≤ a ∧ a < p.off + k then some (x (a - p.off)) else c }

theorem Ptr.upd_zero {e} (p : Ptr e) (x : Nat → BitVec e.bits) : p.upd x 0 = p := by
  have : p.buf.mapIdx (fun a c => if p.off ≤ a ∧ a < p.off + 0 then some (x (a - p.off)) else c) = p.buf := by
    apply List.ext_getElem?
    intro a
    rw [List.getElem?_mapIdx]
    cases p.buf[a]? with
    | none => rfl
    | some c => rw [Option.map_some, if_neg (by omega)]
  unfold Ptr.upd
  rw [this]

theorem Ptr.upd_get {e} (p : Ptr e) (x : Nat → BitVec e.bits) (k a : Nat) :
    (p.upd x k).buf[a]? =
      if p.off ≤ a ∧ a < p.off + k ∧ a < p.buf.length then some (some (x (a - p.off))) else p.buf[a]? := by
  unfold Ptr.upd
  rw [List.getElem?_mapIdx]
  by_cases hl : a < p.buf.length
  · rw [List.getElem?_eq_getElem hl, Option.map_some]
    by_cases h : p.off ≤ a ∧ a < p.off + k
    · rw [if_pos h, if_pos ⟨h.1, h.2, hl⟩]
    · rw [if_neg h, if_neg (by omega)]
  · rw [List.getElem?_eq_none (by omega), if_neg (by omega)]
    rfl

theorem Ptr.upd_set {e} (p : Ptr e) (x : Nat → BitVec e.bits) (k : Nat) (b : BitVec e.bits) {i : Int}
    (hi : i = k) (hb : b = x k) :
    (p.upd x k).set i (.ofBits e b) =
      if Writable p (k + 1) then .ok (p.upd x (k + 1)) else .ub .outOfBounds := by
  subst hi hb
  have hl : (p.upd x k).buf.length = p.buf.length := by simp [Ptr.upd]
  unfold Ptr.set
  simp only [toBits_ofBits, ok_bind, hl]
  have ho : (p.upd x k).off = p.off := rfl
  by_cases h : Writable p (k + 1)
  · rw [if_pos h]
    unfold Writable at h
    rw [ if_pos (by rw [ho]; omega)]
    congr 1
    refine Ptr.ext ?_ rfl
    apply List.ext_getElem?
    intro a
    show (List.set _ _ _)[a]? = _
    rw [List.getElem?_set, Ptr.upd_get, Ptr.upd_get, hl, ho]
    have e1 : ((p.off : Int) + (k : Int)).toNat = p.off + k := by omega
    rw [e1]
    by_cases ha : p.off + k = a
    · subst ha
      rw [if_pos rfl, if_pos (by omega), if_pos (by omega)]
      congr 3
      omega
    · rw [if_neg ha]
      by_cases h2 : p.off ≤ a ∧ a < p.off + k ∧ a < p.buf.length
      · rw [if_pos h2, if_pos (by omega)]
      · rw [if_neg h2, if_neg (by omega)]
  · rw [if_neg h]
    unfold Writable at h
    rw [if_neg (by rw [ho]; omega)]

theorem stored_upd {e} (p : Ptr e) {n : Nat} (x : Fin n → BitVec e.bits) (y : Nat → BitVec e.bits)
    (hxy : ∀ i : Fin n, y i = x i) (hw : Writable p n) : Stored p x (p.upd y n) where
  off := rfl
  size := by simp [Ptr.upd]
  written i := by
    unfold Writable at hw
    rw [Ptr.upd_get, if_pos (by omega), Nat.add_sub_cancel_left, hxy]
  frame a ha := by rw [Ptr.upd_get, if_neg (by omega)]

theorem Stored.unique {e} {p : Ptr e} {n : Nat} {x : Fin n → BitVec e.bits} {p' p'' : Ptr e}
    (h : Stored p x p') (h' : Stored p x p'') : p' = p'' := by
  refine Ptr.ext ?_ (h.off.trans h'.off.symm)
  apply List.ext_getElem?
  intro a
  by_cases ha : a < p.off ∨ p.off + n ≤ a
  · rw [h.frame a ha, h'.frame a ha]
  · have e1 := h.written ⟨a - p.off, by omega⟩
    have e2 := h'.written ⟨a - p.off, by omega⟩
    have : p.off + (a - p.off) = a := by omega
    simp only [this] at e1 e2
    rw [e1, e2]

/-- The first `j` writes of iteration `i` of an interleaved store. -/
def writeK {e n m} (v : VecArr e n m) (i : Int) : Nat → Ptr e → C (Ptr e)
  | 0, p => .ok p
  | j + 1, p => writeK v i j p >>= fun p => v.get j i >>= fun b => p.set (m * i + j) b

theorem writeK_eq {e n m} (v : VecArr e n m) (i : Fin n) (p : Ptr e) (x : Nat → BitVec e.bits)
    (hx : ∀ j : Fin m, x (m * i + j) = (v.reg j).lane i) (c : Nat) (hc : c < m) :
    writeK v (i.val : Nat) (c + 1) (p.upd x (m * i)) =
      if Writable p (m * i + (c + 1)) then .ok (p.upd x (m * i + (c + 1))) else .ub .outOfBounds := by
  induction c with
  | zero =>
    rw [writeK, writeK, ok_bind, VecArr.get_at v 0 i.val (by omega) i.isLt rfl rfl, ok_bind,
      Ptr.upd_set p x (m * i) _ (by simp) (hx ⟨0, hc⟩).symm]
  | succ c ih =>
    rw [writeK, ih (by omega)]
    by_cases h : Writable p (m * i + (c + 1))
    · rw [if_pos h, ok_bind, VecArr.get_at v (c + 1) i.val (by omega) i.isLt rfl rfl, ok_bind,
        Ptr.upd_set p x (m * i + (c + 1)) _ (by push_cast; rfl) (hx ⟨c + 1, hc⟩).symm]
      rfl
    · rw [if_neg h, if_neg (by unfold Writable at *; omega)]
      rfl

theorem writable_mono {e} {p : Ptr e} {k m : Nat} (h : Writable p m) (hk : k ≤ m) : Writable p k := by
  unfold Writable at *; omega

theorem store_loop {e : Elem} {hi : Int} {body : Int → Ptr e → C (Ptr e)} (p : Ptr e) (n m : Nat)
    (h0 : 0 < n) (hn : hi = n) (x : Fin (n * m) → BitVec e.bits) (y : Nat → BitVec e.bits)
    (hxy : ∀ i : Fin (n * m), y i = x i)
    (hb : ∀ k, k < n → body ((k : Nat) : Int) (p.upd y (m * k)) =
      if Writable p (m * (k + 1)) then .ok (p.upd y (m * (k + 1))) else .ub .outOfBounds) :
    Stores p x (cfor 0 hi 1 p body) := by
  rw [cfor_one hi n hn]
  constructor
  · intro hw
    have hw' : ∀ k, k ≤ n → Writable p (m * k) := fun k hk => writable_mono hw (by
      rw [Nat.mul_comm]; exact Nat.mul_le_mul_right m hk)
    have := iter_inv (body := fun k => body (k : Int)) (fun k => p.upd y (m * k)) (n := n)
      fun k hk => by rw [hb k hk, if_pos (hw' _ hk)]
    rw [Nat.mul_zero, Ptr.upd_zero] at this
    refine ⟨_, this, ?_⟩
    rw [Nat.mul_comm m n]
    exact stored_upd p x y hxy hw
  · intro hw
    have := iter_or (body := fun k => body (k : Int)) (fun k => p.upd y (m * k))
      (fun k => Writable p (m * (k + 1))) (· = .ub .outOfBounds) (fun x g hx => by rw [hx]; rfl) (n := n)
      (fun k hk hr => by rw [hb k hk, if_pos hr])
      (fun k hk hr => by rw [hb k hk, if_neg hr])
      (fun hall => hw (by
        have := hall (n - 1) (by omega)
        rwa [Nat.sub_add_cancel h0, Nat.mul_comm] at this))
    rw [Nat.mul_zero, Ptr.upd_zero] at this
    exact this

theorem storeK_write {e : Elem} {n m : Nat} {hi : Int} {body : Int → Ptr e → C (Ptr e)} (p : Ptr e)
    (v : VecArr e n m) (h0 : 0 < n) (hm : 0 < m) (hn : hi = n)
    (hb : ∀ (i : Int) p, body i p = writeK v i m p) :
    Stores p (interleave v) (cfor 0 hi 1 p body) := by
  refine store_loop p n m h0 hn _ (fun t => if h : t < n * m then interleave v ⟨t, h⟩ else 0)
    (fun i => dif_pos i.isLt) (fun k hk => ?_)
  rw [hb]
  obtain ⟨c, rfl⟩ : ∃ c, m = c + 1 := ⟨m - 1, by omega⟩
  have := writeK_eq v ⟨k, hk⟩ p
    (fun t => if h : t < n * (c + 1) then interleave v ⟨t, h⟩ else 0) (fun j => by
      have hlt : (c + 1) * k + j.val < n * (c + 1) := by
        have : (c + 1) * (k + 1) ≤ (c + 1) * n := Nat.mul_le_mul_left _ hk
        rw [Nat.mul_comm n]
        rw [Nat.mul_add] at this
        omega
      rw [dif_pos hlt]
      unfold interleave
      have e1 : ((c + 1) * k + j.val) % (c + 1) = j.val := by
        rw [Nat.mul_add_mod, Nat.mod_eq_of_lt j.isLt]
      have e2 : ((c + 1) * k + j.val) / (c + 1) = k := by
        rw [Nat.mul_add_div (by omega), Nat.div_eq_of_lt j.isLt, Nat.add_zero]
      simp only [e1, e2]) c (by omega)
  exact this

/-- `for (i) ptr[i] = val.val[i];` -/
theorem store1 {e : Elem} {n : Nat} {hi : Int} (p : Ptr e) (v : Vec e n) (h0 : 0 < n) (hn : hi = n) :
    Stores p v.lane (do
      let p ← cfor 0 hi 1 p fun i p => do
        let p ← p.set i (← v.get i)
        pure p
      pure p) := by
  have key := store_loop (hi := hi) (body := fun i p => do
        let p ← p.set i (← v.get i)
        pure p) p n 1 h0 hn (fun t => v.lane ⟨t.val, by have := t.isLt; omega⟩)
    (fun t => if h : t < n then v.lane ⟨t, h⟩ else 0)
    (fun i => dif_pos (by have := i.isLt; omega)) (fun k hk => by
      simp only [Vec.get_at v k hk rfl, ok_bind]
      rw [Nat.one_mul, Ptr.upd_set p _ k _ rfl (by rw [dif_pos hk]), Nat.one_mul])
  have : n * 1 = n := Nat.mul_one n
  unfold Stores at *
  simp only [this] at key
  refine ⟨fun hw => ?_, key.2⟩
  obtain ⟨p', h1, h2⟩ := key.1 hw
  exact ⟨p', h1, ⟨h2.off, h2.size, fun i => h2.written ⟨i.val, by omega⟩, fun a ha => h2.frame a (by omega)⟩⟩

theorem store2 {e : Elem} {n : Nat} {hi : Int} (p : Ptr e) (v : VecArr e n 2) (h0 : 0 < n) (hn : hi = n) :
    Stores p (interleave v) (do
      let p ← cfor 0 hi 1 p fun i p => do
        let p ← p.set ((2 * i) + 0) (← v.get 0 i)
        let p ← p.set ((2 * i) + 1) (← v.get 1 i)
        pure p
      pure p) := by
  exact storeK_write p v h0 (by decide) hn fun i p => by simp only [writeK, bind_assoc, ok_bind]; rfl

theorem store3 {e : Elem} {n : Nat} {hi : Int} (p : Ptr e) (v : VecArr e n 3) (h0 : 0 < n) (hn : hi = n) :
    Stores p (interleave v) (do
      let p ← cfor 0 hi 1 p fun i p => do
        let p ← p.set ((3 * i) + 0) (← v.get 0 i)
        let p ← p.set ((3 * i) + 1) (← v.get 1 i)
        let p ← p.set ((3 * i) + 2) (← v.get 2 i)
        pure p
      pure p) := by
  exact storeK_write p v h0 (by decide) hn fun i p => by simp only [writeK, bind_assoc, ok_bind]; rfl

theorem store4 {e : Elem} {n : Nat} {hi : Int} (p : Ptr e) (v : VecArr e n 4) (h0 : 0 < n) (hn : hi = n) :
    Stores p (interleave v) (do
      let p ← cfor 0 hi 1 p fun i p => do
        let p ← p.set ((4 * i) + 0) (← v.get 0 i)
        let p ← p.set ((4 * i) + 1) (← v.get 1 i)
        let p ← p.set ((4 * i) + 2) (← v.get 2 i)
        let p ← p.set ((4 * i) + 3) (← v.get 3 i)
        pure p
      pure p) := by
  exact storeK_write p v h0 (by decide) hn fun i p => by simp only [writeK, bind_assoc, ok_bind]; rfl

/-! ## Round trips -/

theorem interleave_at {e : Elem} {n k : Nat} (v : VecArr e n k) (i : Fin n) (j : Fin k)
    (h : k * i.val + j.val < n * k) : interleave v ⟨k * i.val + j.val, h⟩ = (v.reg j).lane i := by
  have hk : 0 < k := by have := j.isLt; omega
  have e1 : (k * i.val + j.val) % k = j.val := by rw [Nat.mul_add_mod, Nat.mod_eq_of_lt j.isLt]
  have e2 : (k * i.val + j.val) / k = i.val := by
    rw [Nat.mul_add_div hk, Nat.div_eq_of_lt j.isLt, Nat.add_zero]
  simp only [interleave, e1, e2]

theorem pos_lt {n k : Nat} (i : Fin n) (j : Fin k) : k * i.val + j.val < n * k := by
  have : k * (i.val + 1) ≤ k * n := Nat.mul_le_mul_left _ i.isLt
  rw [Nat.mul_comm n]
  rw [Nat.mul_add] at this
  have := j.isLt
  omega

theorem store_load1 {e : Elem} {n : Nat} {p : Ptr e} {v : Vec e n} {c : C (Ptr e)}
    {ld : Ptr e → C (Vec e n)} (hs : Stores p v.lane c) (hl : ∀ p, Loads p (ld p)) (hw : Writable p n) :
    (c >>= ld) = .ok v := by
  obtain ⟨p', h1, h2⟩ := hs.1 hw
  rw [h1, ok_bind, (hl p').1]
  intro i
  unfold Holds
  rw [h2.off]
  exact h2.written i

theorem store_loadK {e : Elem} {n k : Nat} {p : Ptr e} {v : VecArr e n k} {c : C (Ptr e)}
    {ld : Ptr e → C (VecArr e n k)} (hs : Stores p (interleave v) c) (hl : ∀ p, LoadsK p (ld p))
    (hw : Writable p (n * k)) : (c >>= ld) = .ok v := by
  obtain ⟨p', h1, h2⟩ := hs.1 hw
  rw [h1, ok_bind, (hl p').1]
  intro j i
  unfold Holds
  rw [h2.off, h2.written ⟨k * i + j, pos_lt i j⟩, interleave_at]

theorem readable_writable {e : Elem} {p : Ptr e} {n : Nat} (h0 : 0 < n) (h : Readable p (n - 1)) :
    Writable p n := by
  obtain ⟨x, hx⟩ := h
  unfold Holds at hx
  have := (List.getElem?_eq_some_iff.1 hx).1
  unfold Writable
  omega

theorem stored_self {e : Elem} {p : Ptr e} {n : Nat} {x : Fin n → BitVec e.bits}
    (h : ∀ i : Fin n, Holds p i (x i)) : Stored p x p :=
  ⟨rfl, rfl, h, fun _ _ => rfl⟩

theorem load_store1 {e : Elem} {n : Nat} {p : Ptr e} {c : C (Vec e n)} {st : Vec e n → C (Ptr e)}
    (h0 : 0 < n) (hl : Loads p c) (hs : ∀ v : Vec e n, Stores p v.lane (st v))
    (hr : ∀ i : Fin n, Readable p i) : (c >>= st) = .ok p := by
  obtain ⟨f, hf⟩ := Classical.axiomOfChoice hr
  rw [(hl.1 ⟨f⟩).2 hf, ok_bind]
  obtain ⟨p', h1, h2⟩ := (hs ⟨f⟩).1 (readable_writable h0 (hr ⟨n - 1, by omega⟩))
  rw [h1, Stored.unique h2 (stored_self hf)]

theorem load_storeK {e : Elem} {n k : Nat} {p : Ptr e} {c : C (VecArr e n k)}
    {st : VecArr e n k → C (Ptr e)} (h0 : 0 < n * k) (hl : LoadsK p c)
    (hs : ∀ v : VecArr e n k, Stores p (interleave v) (st v))
    (hr : ∀ t : Fin (n * k), Readable p t) : (c >>= st) = .ok p := by
  obtain ⟨f, hf⟩ := Classical.axiomOfChoice hr
  let v : VecArr e n k := ⟨fun j => ⟨fun i => f ⟨k * i + j, pos_lt i j⟩⟩⟩
  rw [(hl.1 v).2 fun j i => hf ⟨k * i + j, pos_lt i j⟩, ok_bind]
  obtain ⟨p', h1, h2⟩ := (hs v).1 (readable_writable h0 (hr ⟨n * k - 1, by omega⟩))
  rw [h1, Stored.unique h2 (stored_self fun t => ?_)]
  have hk : 0 < k := Nat.pos_of_ne_zero fun h => by subst h; simp at h0
  have e1 : k * (t.val / k) + t.val % k = t.val := Nat.div_add_mod _ _
  have e2 : interleave v t = f t := by
    show f ⟨k * (t.val / k) + t.val % k, _⟩ = f t
    congr 1
    exact Fin.ext e1
  rw [e2]
  exact hf t

theorem reg_lane_eq {e : Elem} {n k : Nat} (v : VecArr e n k) {j j' : Fin k} {i i' : Fin n}
    (hj : j.val = j'.val) (hi : i.val = i'.val) : (v.reg j).lane i = (v.reg j').lane i' := by
  rw [Fin.ext hj, Fin.ext hi]

/-! ## Scattered writes -/

/-- The buffer after some of the elements have been written: `w t` is what element `t` received. -/
def Ptr.updO {e} (p : Ptr e) (w : Nat → Option (BitVec e.bits)) : Ptr e :=
  { p with buf := p.buf.mapIdx fun a c =>
      if p.off ≤ a then (match w (a - p.off) with | some b => some b | none => c) else c }

theorem Ptr.updO_none {e} (p : Ptr e) : p.updO (fun _ => none) = p := by
  refine Ptr.ext ?_ rfl
  apply List.ext_getElem?
  intro a
  unfold Ptr.updO
  rw [List.getElem?_mapIdx]
  cases p.buf[a]? <;> simp

theorem Ptr.updO_get {e} (p : Ptr e) (w : Nat → Option (BitVec e.bits)) (a : Nat) :
    (p.updO w).buf[a]? = p.buf[a]?.map fun c =>
      if p.off ≤ a then (match w (a - p.off) with | some b => some b | none => c) else c := by
  unfold Ptr.updO
  rw [List.getElem?_mapIdx]

theorem Ptr.updO_set {e} (p : Ptr e) (w : Nat → Option (BitVec e.bits)) (k : Nat) (b : BitVec e.bits)
    {i : Int} (hi : i = k) :
    (p.updO w).set i (.ofBits e b) =
      if Writable p (k + 1) then .ok (p.updO fun t => if t = k then some b else w t)
      else .ub .outOfBounds := by
  subst hi
  have hl : (p.updO w).buf.length = p.buf.length := by simp [Ptr.updO]
  have ho : (p.updO w).off = p.off := rfl
  unfold Ptr.set
  simp only [toBits_ofBits, ok_bind, hl]
  by_cases h : Writable p (k + 1)
  · rw [if_pos h]
    unfold Writable at h
    rw [if_pos (by rw [ho]; omega)]
    congr 1
    refine Ptr.ext ?_ rfl
    apply List.ext_getElem?
    intro a
    show (List.set _ _ _)[a]? = _
    rw [List.getElem?_set, Ptr.updO_get, Ptr.updO_get, hl, ho]
    have e1 : ((p.off : Int) + (k : Int)).toNat = p.off + k := by omega
    rw [e1]
    by_cases ha : p.off + k = a
    · subst ha
      rw [if_pos rfl, if_pos (by omega), List.getElem?_eq_getElem (by omega)]
      simp
    · rw [if_neg ha]
      congr 1
      funext c
      by_cases h2 : p.off ≤ a
      · rw [if_pos h2, if_pos h2, if_neg (by omega)]
      · rw [if_neg h2, if_neg h2]
  · rw [if_neg h]
    unfold Writable at h
    rw [if_neg (by rw [ho]; omega)]

theorem Ptr.updO_written {e} (p : Ptr e) (w : Nat → Option (BitVec e.bits)) (t : Nat) (b : BitVec e.bits)
    (h : w t = some b) (hw : Writable p (t + 1)) : (p.updO w).buf[p.off + t]? = some (some b) := by
  unfold Writable at hw
  rw [Ptr.updO_get, List.getElem?_eq_getElem (by omega), Option.map_some, if_pos (by omega),
    Nat.add_sub_cancel_left, h]

theorem Ptr.updO_frame {e} (p : Ptr e) (w : Nat → Option (BitVec e.bits)) (a : Nat)
    (h : a < p.off ∨ w (a - p.off) = none) : (p.updO w).buf[a]? = p.buf[a]? := by
  rw [Ptr.updO_get]
  cases p.buf[a]? with
  | none => rfl
  | some c =>
    rw [Option.map_some]
    by_cases h2 : p.off ≤ a
    · rw [if_pos h2, h.resolve_left (by omega)]
    · rw [if_neg h2]

end Verif
