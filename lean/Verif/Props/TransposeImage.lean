/-
C111, continued: transposition of byte matrices of any size in memory.
-/
import Verif.Props.Transpose

namespace Verif.Props
open Verif.Model Verif.Spec

/-- `r[i] = vld1_u8(p + i * w)` for the eight rows. -/
def loadRows (w : Nat) (p : Ptr .u8) : C (Fin 8 → uint8x8_t) := do
  let r0 ← vld1_u8 (p.plus (0 * w))
  let r1 ← vld1_u8 (p.plus (1 * w))
  let r2 ← vld1_u8 (p.plus (2 * w))
  let r3 ← vld1_u8 (p.plus (3 * w))
  let r4 ← vld1_u8 (p.plus (4 * w))
  let r5 ← vld1_u8 (p.plus (5 * w))
  let r6 ← vld1_u8 (p.plus (6 * w))
  let r7 ← vld1_u8 (p.plus (7 * w))
  pure ![r0, r1, r2, r3, r4, r5, r6, r7]

/-- `for (i = 0; i < 8; i++) vst1_u8(d + at + i * w, o[i]);` -/
def storeRows (w at_ : Nat) (o : Nat → uint8x8_t) (d : Ptr .u8) : C (Ptr .u8) :=
  iter (fun i d => do
    let d' ← vst1_u8 (d.plus (at_ + i * w)) (o i)
    pure ⟨d'.buf, d.off⟩) 8 d

/-- The transpose of a matrix of `8 * n` rows and `8 * m` columns:
`for (y = 0; y < n; y++) for (x = 0; x < m; x++) storeRows(dst + 8 * x * (8 * n) + 8 * y, transpose8(loadRows(src + 8 * y * (8 * m) + 8 * x)));` -/
def transposeImage (n m : Nat) (src dst : Ptr .u8) : C (Ptr .u8) :=
  iter (fun y d => iter (fun x d => do
    let r ← loadRows (8 * m) (src.plus (8 * y * (8 * m) + 8 * x))
    let o ← transpose8 r
    storeRows (8 * n) (8 * x * (8 * n) + 8 * y) (fun i => if h : i < 8 then o ⟨i, h⟩ else o 0) d) m d) n dst

theorem loadRows_ok (w : Nat) (p : Ptr .u8) (v : Nat → Nat → BitVec 8) (h : ∀ i < 8, ∀ k < 8, Holds p (i * w + k) (v i k)) :
    loadRows w p = .ok fun i => ⟨fun k => v i.val k.val⟩ := by
  have hl : ∀ i < 8, vld1_u8 (p.plus (i * w)) = .ok ⟨fun k => v i k.val⟩ := fun i hi =>
    ((vld1_u8_spec (p.plus (i * w))).1 ⟨fun k => v i k.val⟩).mpr fun k => by
      have := h i hi k.val k.isLt
      unfold Holds at this ⊢
      rw [← this]
      show p.buf[p.off + i * w + k.val]? = _
      rw [Nat.add_assoc]
  unfold loadRows
  rw [hl 0 (by decide), ok_bind, hl 1 (by decide), ok_bind, hl 2 (by decide), ok_bind, hl 3 (by decide), ok_bind, hl 4 (by decide), ok_bind,
    hl 5 (by decide), ok_bind, hl 6 (by decide), ok_bind, hl 7 (by decide), ok_bind]
  show C.ok _ = C.ok _
  congr 1
  funext i
  match i with
  | 0 | 1 | 2 | 3 | 4 | 5 | 6 | 7 => rfl

/-- Where the rows of a block are written: position `a` of the buffer is in row `i`, column `k` of the block that starts at `at_`. -/
theorem storeRows_ok (w at_ N : Nat) (o : Nat → uint8x8_t) (d : Ptr .u8) (hw : d.off + N ≤ d.buf.length) (hN : ∀ i < 8, at_ + i * w + 8 ≤ N)
    (h8 : 8 ≤ w) : ∃ d', storeRows w at_ o d = .ok d' ∧ d'.off = d.off ∧ d'.buf.length = d.buf.length ∧
      (∀ i < 8, ∀ k : Fin 8, d'.buf[d.off + (at_ + i * w + k.val)]? = some (some ((o i).lane k))) ∧
      (∀ a, (∀ i < 8, ∀ k < 8, a ≠ d.off + (at_ + i * w + k)) → d'.buf[a]? = d.buf[a]?) := by
  have gen : ∀ c ≤ 8, ∃ d', iter (fun i d => do
      let d' ← vst1_u8 (d.plus (at_ + i * w)) (o i)
      pure (⟨d'.buf, d.off⟩ : Ptr .u8)) c d = .ok d' ∧ d'.off = d.off ∧ d'.buf.length = d.buf.length ∧
      (∀ i < c, ∀ k : Fin 8, d'.buf[d.off + (at_ + i * w + k.val)]? = some (some ((o i).lane k))) ∧
      (∀ a, (∀ i < c, ∀ k < 8, a ≠ d.off + (at_ + i * w + k)) → d'.buf[a]? = d.buf[a]?) := by
    intro c
    induction c with
    | zero => exact fun _ => ⟨d, rfl, rfl, rfl, fun i hi => absurd hi (Nat.not_lt_zero _), fun _ _ => rfl⟩
    | succ c ih =>
      intro hc
      obtain ⟨d1, e1, o1, l1, w1, f1⟩ := ih (by omega)
      have hN' := hN c (by omega)
      obtain ⟨d2, e2, s2⟩ := (vst1_u8_spec (d1.plus (at_ + c * w)) (o c)).1 (by
        show d1.off + (at_ + c * w) + 8 ≤ d1.buf.length
        omega)
      have off2 : (d1.plus (at_ + c * w)).off = d.off + (at_ + c * w) := by show d1.off + _ = _; rw [o1]
      refine ⟨⟨d2.buf, d1.off⟩, ?_, o1, s2.size.trans l1, ?_, ?_⟩
      · show (iter _ c d >>= _) = _
        rw [e1, ok_bind]
        show (vst1_u8 (d1.plus (at_ + c * w)) (o c) >>= _) = _
        rw [e2]
        rfl
      · intro i hi k
        have hk := k.isLt
        by_cases h : i = c
        · subst h
          have := s2.written k
          rw [off2] at this
          rw [← this]
          show d2.buf[_]? = _
          congr 1
          omega
        · have hm : i * w + w ≤ c * w := by
            have := Nat.mul_le_mul_right w (show i + 1 ≤ c by omega)
            rwa [Nat.succ_mul] at this
          rw [← w1 i (by omega) k]
          refine s2.frame _ (.inl ?_)
          rw [off2]
          omega
      · intro a ha
        rw [← f1 a fun i hi k hk => ha i (by omega) k hk]
        refine s2.frame _ ?_
        rw [off2]
        by_contra hcon
        exact ha c (by omega) (a - (d.off + (at_ + c * w))) (by omega) (by omega)
  exact gen 8 (Nat.le_refl 8)

theorem cell_unique {N c r c' r' : Nat} (hr : r < N) (hr' : r' < N) (h : c * N + r = c' * N + r') : c = c' ∧ r = r' := by
  have h1 := congrArg (· % N) h
  have h2 := congrArg (· / N) h
  simp only [Nat.mul_add_mod_self_right, Nat.mod_eq_of_lt hr, Nat.mod_eq_of_lt hr'] at h1
  have hp : 0 < N := by omega
  simp only [Nat.add_comm (_ * N), Nat.add_mul_div_right _ _ hp, Nat.div_eq_of_lt hr, Nat.div_eq_of_lt hr', Nat.zero_add] at h2
  exact ⟨h2, h1⟩

/-- The blocks before `(y, x)` are transposed, and nothing outside of the destination is written. -/
structure Done (n m : Nat) (X : Nat → BitVec 8) (dst : Ptr .u8) (y x : Nat) (d : Ptr .u8) : Prop where
  off : d.off = dst.off
  size : d.buf.length = dst.buf.length
  cells : ∀ r < 8 * n, ∀ c < 8 * m, (r / 8 < y ∨ r / 8 = y ∧ c / 8 < x) → d.buf[dst.off + (c * (8 * n) + r)]? = some (some (X (r * (8 * m) + c)))
  frame : ∀ a, a < dst.off ∨ dst.off + 8 * m * (8 * n) ≤ a → d.buf[a]? = dst.buf[a]?

theorem block_done {n m : Nat} {X : Nat → BitVec 8} {src dst : Ptr .u8} (hx : ∀ j < 8 * n * (8 * m), Holds src j (X j))
    (hw : Writable dst (8 * m * (8 * n))) {y x : Nat} (hy : y < n) (hxm : x < m) {d : Ptr .u8} (hd : Done n m X dst y x d) :
    ∃ d', (do
      let r ← loadRows (8 * m) (src.plus (8 * y * (8 * m) + 8 * x))
      let o ← transpose8 r
      storeRows (8 * n) (8 * x * (8 * n) + 8 * y) (fun i => if h : i < 8 then o ⟨i, h⟩ else o 0) d) = .ok d' ∧ Done n m X dst y (x + 1) d' := by
  have hl := loadRows_ok (8 * m) (src.plus (8 * y * (8 * m) + 8 * x)) (fun i k => X ((8 * y + i) * (8 * m) + (8 * x + k))) (fun i hi k hk => by
    refine holds_plus ?_
    have h1 : (8 * y + i + 1) * (8 * m) ≤ 8 * n * (8 * m) := Nat.mul_le_mul_right _ (by omega)
    have h2 : (8 * y + i) * (8 * m) = 8 * y * (8 * m) + i * (8 * m) := Nat.add_mul _ _ _
    rw [Nat.succ_mul] at h1
    have := hx ((8 * y + i) * (8 * m) + (8 * x + k)) (by omega)
    rw [show 8 * y * (8 * m) + 8 * x + (i * (8 * m) + k) = (8 * y + i) * (8 * m) + (8 * x + k) by omega]
    exact this)
  have pos : ∀ i k, 8 * x * (8 * n) + 8 * y + i * (8 * n) + k = (8 * x + i) * (8 * n) + (8 * y + k) := fun i k => by
    rw [Nat.add_mul (8 * x)]; omega
  have inside : ∀ i < 8, (8 * x + i) * (8 * n) + (8 * y + 8) ≤ 8 * m * (8 * n) := fun i hi => by
    have h1 : (8 * x + i + 1) * (8 * n) ≤ 8 * m * (8 * n) := Nat.mul_le_mul_right _ (by omega)
    rw [Nat.succ_mul] at h1
    omega
  rw [hl, ok_bind, transpose8_spec, ok_bind]
  obtain ⟨d', e, o', l', w', f'⟩ := storeRows_ok (8 * n) (8 * x * (8 * n) + 8 * y) (8 * m * (8 * n))
    (fun i => if h : i < 8 then (fun i : Fin 8 => (⟨fun k : Fin 8 => X ((8 * y + k.val) * (8 * m) + (8 * x + i.val))⟩ : uint8x8_t)) ⟨i, h⟩
      else (fun i : Fin 8 => (⟨fun k : Fin 8 => X ((8 * y + k.val) * (8 * m) + (8 * x + i.val))⟩ : uint8x8_t)) 0) d
    (by rw [hd.off, hd.size]; exact hw) (fun i hi => by rw [pos i 8]; exact inside i hi) (by omega)
  refine ⟨d', e, o'.trans hd.off, l'.trans hd.size, ?_, ?_⟩
  · intro r hr c hc h
    by_cases hb : r / 8 = y ∧ c / 8 = x
    · have := w' (c - 8 * x) (by omega) ⟨r - 8 * y, by omega⟩
      rw [pos, hd.off, dif_pos (by omega)] at this
      simp only at this
      rw [show 8 * x + (c - 8 * x) = c by omega, show 8 * y + (r - 8 * y) = r by omega] at this
      exact this
    · rw [f' _ ?_, hd.cells r hr c hc (by omega)]
      intro i hi k hk hcon
      rw [pos, hd.off] at hcon
      have := cell_unique (N := 8 * n) hr (by omega) (Nat.add_left_cancel hcon)
      omega
  · intro a ha
    rw [f' a ?_, hd.frame a ha]
    intro i hi k hk hcon
    have := inside i hi
    rw [pos, hd.off] at hcon
    omega

theorem row_done {n m : Nat} {X : Nat → BitVec 8} {src dst : Ptr .u8} (hx : ∀ j < 8 * n * (8 * m), Holds src j (X j))
    (hw : Writable dst (8 * m * (8 * n))) {y : Nat} (hy : y < n) {d : Ptr .u8} (hd : Done n m X dst y 0 d) (c : Nat) (hc : c ≤ m) :
    ∃ d', iter (fun x d => do
      let r ← loadRows (8 * m) (src.plus (8 * y * (8 * m) + 8 * x))
      let o ← transpose8 r
      storeRows (8 * n) (8 * x * (8 * n) + 8 * y) (fun i => if h : i < 8 then o ⟨i, h⟩ else o 0) d) c d = .ok d' ∧ Done n m X dst y c d' := by
  induction c with
  | zero => exact ⟨d, rfl, hd⟩
  | succ c ih =>
    obtain ⟨d1, e1, h1⟩ := ih (by omega)
    obtain ⟨d2, e2, h2⟩ := block_done hx hw hy (show c < m by omega) h1
    refine ⟨d2, ?_, h2⟩
    show (iter _ c d >>= _) = _
    rw [e1, ok_bind]
    exact e2

/-- The destination is the transposed matrix: element `(c, r)` is element `(r, c)` of the source, for every number of rows and columns (in blocks
of eight), and nothing else is written. -/
theorem transpose_image (n m : Nat) (src dst : Ptr .u8) (X : Nat → BitVec 8) (hx : ∀ j < 8 * n * (8 * m), Holds src j (X j))
    (hw : Writable dst (8 * m * (8 * n))) :
    ∃ d', transposeImage n m src dst = .ok d' ∧ d'.off = dst.off ∧ d'.buf.length = dst.buf.length ∧
      (∀ r < 8 * n, ∀ c < 8 * m, Holds d' (c * (8 * n) + r) (X (r * (8 * m) + c))) ∧
      ∀ a, a < dst.off ∨ dst.off + 8 * m * (8 * n) ≤ a → d'.buf[a]? = dst.buf[a]? := by
  have gen : ∀ c ≤ n, ∃ d', iter (fun y d => iter (fun x d => do
      let r ← loadRows (8 * m) (src.plus (8 * y * (8 * m) + 8 * x))
      let o ← transpose8 r
      storeRows (8 * n) (8 * x * (8 * n) + 8 * y) (fun i => if h : i < 8 then o ⟨i, h⟩ else o 0) d) m d) c dst = .ok d' ∧ Done n m X dst c 0 d' := by
    intro c
    induction c with
    | zero => exact fun _ => ⟨dst, rfl, rfl, rfl, fun r _ c _ h => by omega, fun _ _ => rfl⟩
    | succ c ih =>
      intro hc
      obtain ⟨d1, e1, h1⟩ := ih (by omega)
      obtain ⟨d2, e2, h2⟩ := row_done hx hw (show c < n by omega) h1 m (Nat.le_refl m)
      refine ⟨d2, ?_, h2.off, h2.size, fun r hr c' hc' h => h2.cells r hr c' hc' (by omega), h2.frame⟩
      show (iter _ c dst >>= _) = _
      rw [e1, ok_bind]
      exact e2
  obtain ⟨d', e, h⟩ := gen n (Nat.le_refl n)
  refine ⟨d', e, h.off, h.size, fun r hr c hc => ?_, h.frame⟩
  unfold Holds
  rw [h.off]
  exact h.cells r hr c hc (.inl (by omega))

/-- Transposing the transposed matrix gives the matrix back. -/
theorem transpose_image_twice (n m : Nat) (src dst back : Ptr .u8) (X : Nat → BitVec 8) (hx : ∀ j < 8 * n * (8 * m), Holds src j (X j))
    (hw : Writable dst (8 * m * (8 * n))) (hb : Writable back (8 * n * (8 * m))) :
    ∃ d b, transposeImage n m src dst = .ok d ∧ transposeImage m n d back = .ok b ∧ ∀ j < 8 * n * (8 * m), Holds b j (X j) := by
  obtain ⟨d, ed, -, -, hd, -⟩ := transpose_image n m src dst X hx hw
  obtain ⟨b, eb, -, -, hb, -⟩ := transpose_image m n d back (fun q => X (q % (8 * n) * (8 * m) + q / (8 * n))) (fun j hj => by
    have hp : 0 < 8 * n := by rcases Nat.eq_zero_or_pos n with h | h <;> [(subst h; simp at hj); omega]
    have := hd (j % (8 * n)) (Nat.mod_lt _ hp) (j / (8 * n)) (Nat.div_lt_of_lt_mul (by rwa [Nat.mul_comm]))
    rwa [Nat.mul_comm (j / (8 * n)), Nat.div_add_mod] at this) hb
  refine ⟨d, b, ed, eb, fun j hj => ?_⟩
  have hp : 0 < 8 * m := by rcases Nat.eq_zero_or_pos m with h | h <;> [(subst h; simp at hj); omega]
  have hr : j / (8 * m) < 8 * n := Nat.div_lt_of_lt_mul (by rwa [Nat.mul_comm])
  have := hb (j % (8 * m)) (Nat.mod_lt _ hp) (j / (8 * m)) hr
  have hn : 0 < 8 * n := Nat.lt_of_le_of_lt (Nat.zero_le _) hr
  have e0 : j / (8 * m) * (8 * m) + j % (8 * m) = j := by rw [Nat.mul_comm]; exact Nat.div_add_mod _ _
  have e1 : (j % (8 * m) * (8 * n) + j / (8 * m)) % (8 * n) = j / (8 * m) := by rw [Nat.mul_add_mod_self_right, Nat.mod_eq_of_lt hr]
  have e2 : (j % (8 * m) * (8 * n) + j / (8 * m)) / (8 * n) = j % (8 * m) := by
    rw [Nat.add_comm, Nat.add_mul_div_right _ _ hn, Nat.div_eq_of_lt hr, Nat.zero_add]
  rw [e1, e2, e0] at this
  exact this

-- 16 rows of 24 bytes, into a buffer with a margin
example : ∃ d', transposeImage 2 3 ⟨List.ofFn fun j : Fin 384 => some (BitVec.ofNat 8 j.val), 0⟩ ⟨List.replicate 400 none, 5⟩ = .ok d' ∧
    Holds d' (23 * 16 + 15) (BitVec.ofNat 8 (15 * 24 + 23)) ∧ d'.buf[4]? = some none := by
  obtain ⟨d', e, -, -, h, f⟩ := transpose_image 2 3 ⟨List.ofFn fun j : Fin 384 => some (BitVec.ofNat 8 j.val), 0⟩ ⟨List.replicate 400 none, 5⟩
    (BitVec.ofNat 8) (fun j hj => by
      unfold Holds
      rw [List.getElem?_ofFn, dif_pos (by show 0 + j < 384; omega)]
      simp) (by unfold Writable; rw [List.length_replicate]; decide)
  exact ⟨d', e, h 15 (by decide) 23 (by decide), (f 4 (.inl (by decide))).trans (by rw [List.getElem?_replicate]; rfl)⟩

end Verif.Props
