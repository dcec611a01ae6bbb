/-
C89, C90: prefix sums, sliding-window filters and blending over arrays of any length.
-/
import Verif.Props.PermAlgebra
import Verif.Props.Pipeline
import Verif.Props.Shift
import Verif.Props.Logic

namespace Verif.Props
open Verif.Model Verif.Spec

/-! # Programs that work through arrays (client code, not code of the repository) -/

/-- A loop that writes blocks of `w` elements and carries a value from each pass to the next:
`for (i = 0; i < m; i++) { [r, s] = step(i, s); store(dst + w * i, r); }`. -/
def carryBlocks {e : Elem} {α σ : Type} (w m : Nat) (step : Nat → σ → C (α × σ)) (store : Ptr e → α → C (Ptr e)) (s : σ)
    (dst : Ptr e) : C (Ptr e × σ) :=
  iter (fun i ds => do
    let rs ← step i ds.2
    let d' ← store (ds.1.plus (w * i)) rs.1
    pure (⟨d'.buf, ds.1.off⟩, rs.2)) m (dst, s)

/-- If pass `i` gives `r i` and carries `S (i + 1)` on when it is given `S i`, the loop stores the blocks `r 0, ..., r (m - 1)`. -/
theorem carryBlocks_stored {e : Elem} {α σ : Type} {w m : Nat} {step : Nat → σ → C (α × σ)} {store : Ptr e → α → C (Ptr e)}
    {dst : Ptr e} (y : Nat → BitVec e.bits) (blk : α → Fin w → BitVec e.bits) (S : Nat → σ) (r : Nat → α)
    (hs : ∀ p r, Stores p (blk r) (store p r)) (hw : Writable dst (w * m))
    (hstep : ∀ i < m, step i (S i) = .ok (r i, S (i + 1))) (hr : ∀ i < m, ∀ j : Fin w, blk (r i) j = y (w * i + j)) :
    ∃ d', carryBlocks w m step store (S 0) dst = .ok (d', S m) ∧ Stored dst (fun j : Fin (w * m) => y j) d' := by
  obtain ⟨d', hd, hS⟩ := blocks_stored (step := fun i _ => .ok (r i)) y blk hs hw fun i hi d _ _ => ⟨r i, rfl, hr i hi⟩
  refine ⟨d', ?_, hS⟩
  have key : ∀ k ≤ m, carryBlocks w k step store (S 0) dst = (blocks w k (fun i _ => .ok (r i)) store dst >>= fun d => .ok (d, S k)) := by
    intro k
    induction k with
    | zero => exact fun _ => rfl
    | succ k ih =>
      intro hk
      have ih := ih (by omega)
      unfold carryBlocks blocks at ih ⊢
      show (iter _ k (dst, S 0) >>= _) = ((iter _ k dst >>= _) >>= _)
      rw [ih]
      cases iter (fun i d => do
          let r ← (C.ok (r i) : C α)
          let d' ← store (d.plus (w * i)) r
          pure ⟨d'.buf, d.off⟩) k dst with
      | ok d =>
        simp only [ok_bind, hstep k (by omega)]
        cases store (d.plus (w * k)) (r k) <;> rfl
      | _ => rfl
  rw [key m (Nat.le_refl m), hd]
  rfl

section
variable [Dialect]

/-! ## Prefix sums -/

/-- `z = vdupq_n_u16(0); v = vaddq_u16(v, vextq_u16(z, v, 7)); v = vaddq_u16(v, vextq_u16(z, v, 6)); v = vaddq_u16(v, vextq_u16(z, v, 4));` -/
def scan8 (v : uint16x8_t) : C uint16x8_t := do
  let z ← vdupq_n_u16 0
  let v ← vaddq_u16 v (← vextq_u16 z v 7)
  let v ← vaddq_u16 v (← vextq_u16 z v 6)
  vaddq_u16 v (← vextq_u16 z v 4)

/-- `c = 0; for (i = 0; i < m; i++) { v = vaddq_u16(scan8(vld1q_u16(src + 8 * i)), vdupq_n_u16(c)); vst1q_u16(dst + 8 * i, v); c = vgetq_lane_u16(v, 7); }` -/
def scanLoop (m : Nat) (src dst : Ptr .u16) : C (Ptr .u16 × uint16_t) :=
  carryBlocks 8 m (fun i c => do
    let v ← vld1q_u16 (src.plus (8 * i))
    let v ← vaddq_u16 (← scan8 v) (← vdupq_n_u16 c)
    let c ← vgetq_lane_u16 v 7
    pure (v, c)) vst1q_u16 0#16 dst

/-- Lane `i` of the scan is the sum of the lanes up to `i`. -/
theorem scan8_spec (x : Nat → BitVec 16) (k : Nat) :
    scan8 ⟨fun i => x (k + i)⟩ = .ok ⟨fun i => BitVec.ofNat 16 (total (fun j => (x (k + j)).toNat) (i.val + 1))⟩ := by
  unfold scan8
  rw [vdupq_n_u16_spec, ok_bind]
  have w := vextq_u16_window
  have w7 : ∀ a b, vextq_u16 a b 7 = _ := fun a b => w a b 7 (by decide)
  have w6 : ∀ a b, vextq_u16 a b 6 = _ := fun a b => w a b 6 (by decide)
  have w4 : ∀ a b, vextq_u16 a b 4 = _ := fun a b => w a b 4 (by decide)
  rw [w7, ok_bind, vaddq_u16_spec, ok_bind, w6, ok_bind, vaddq_u16_spec, ok_bind, w4, ok_bind, vaddq_u16_spec]
  refine congrArg C.ok (Vec.ext (funext fun i => ?_))
  match i with
  | 0 | 1 | 2 | 3 | 4 | 5 | 6 | 7 =>
    simp [concat, total, List.range_succ, BitVec.ofNat_add]
    try ac_rfl

/-- Element `j` of the destination is the sum of elements `0, ..., j` of the source, modulo 2^16; the carried value is the sum
of all of them. -/
theorem prefix_sum (m : Nat) (src dst : Ptr .u16) (x : Nat → BitVec 16) (hx : ∀ j < 8 * m, Holds src j (x j))
    (hw : Writable dst (8 * m)) :
    ∃ d', scanLoop m src dst = .ok (d', BitVec.ofNat 16 (total (fun j => (x j).toNat) (8 * m))) ∧
      Stored dst (fun j : Fin (8 * m) => BitVec.ofNat 16 (total (fun j => (x j).toNat) (j + 1))) d' := by
  let f := fun j => (x j).toNat
  have htot : ∀ a b, total f (a + b) = total f a + total (fun j => f (a + j)) b := by
    intro a b
    induction b with
    | zero => rfl
    | succ b ih => rw [← Nat.add_assoc, total_succ, ih, total_succ, Nat.add_assoc]
  refine carryBlocks_stored (fun j => BitVec.ofNat 16 (total f (j + 1))) Vec.lane
    (fun i => BitVec.ofNat 16 (total f (8 * i))) (fun i => ⟨fun j : Fin 8 => BitVec.ofNat 16 (total f (8 * i + j.val + 1))⟩)
    vst1q_u16_spec hw (fun i hi => ?_) fun i hi j => rfl
  rw [loads_ok vld1q_u16_spec (8 * i) x fun j hj => hx _ (by omega), ok_bind, scan8_spec, ok_bind, vdupq_n_u16_spec, ok_bind,
    vaddq_u16_spec, ok_bind]
  have e1 : ∀ j : Nat, BitVec.ofNat 16 (total (fun j => (x (8 * i + j)).toNat) (j + 1)) + BitVec.ofNat 16 (total f (8 * i)) =
      BitVec.ofNat 16 (total f (8 * i + j + 1)) := by
    intro j
    rw [← BitVec.ofNat_add, Nat.add_assoc, htot, Nat.add_comm]
  simp only [e1]
  rw [show (7 : Int) = (((7 : Fin 8).val : Nat) : Int) from rfl, vgetq_lane_u16_spec, ok_bind]
  rfl

/-- If the sums fit, they are exact. -/
theorem prefix_sum_exact (m : Nat) (src dst : Ptr .u16) (x : Nat → BitVec 16) (hx : ∀ j < 8 * m, Holds src j (x j))
    (hw : Writable dst (8 * m)) (hfit : total (fun j => (x j).toNat) (8 * m) < 65536) :
    ∃ d' c, scanLoop m src dst = .ok (d', c) ∧ c.toNat = total (fun j => (x j).toNat) (8 * m) ∧
      ∀ j < 8 * m, ∃ s : BitVec 16, Holds ⟨d'.buf, dst.off⟩ j s ∧ s.toNat = total (fun j => (x j).toNat) (j + 1) := by
  obtain ⟨d', h, hS⟩ := prefix_sum m src dst x hx hw
  have mono : ∀ a b, total (fun j => (x j).toNat) a ≤ total (fun j => (x j).toNat) (a + b) := by
    intro a b
    induction b with
    | zero => exact Nat.le_refl _
    | succ b ih => rw [← Nat.add_assoc, total_succ]; omega
  refine ⟨d', _, h, ?_, fun j hj => ⟨_, hS.written ⟨j, hj⟩, ?_⟩⟩
  · rw [BitVec.toNat_ofNat]; exact Nat.mod_eq_of_lt hfit
  · rw [BitVec.toNat_ofNat]
    refine Nat.mod_eq_of_lt (Nat.lt_of_le_of_lt ?_ hfit)
    have := mono (j + 1) (8 * m - (j + 1))
    rwa [show j + 1 + (8 * m - (j + 1)) = 8 * m by omega] at this

/-! ## Sliding-window filter -/

/-- `acc = vdupq_n_u16(0); for (k = 0; k < n; k++) acc = vmlal_u8(acc, vext_u8(a, b, k), vdup_n_u8(w[k]));` -/
def fir8 (w : List uint8_t) (a b : uint8x8_t) : C uint16x8_t := do
  iter (fun k acc => do
    let v ← vext_u8 a b k
    vmlal_u8 acc v (← vdup_n_u8 (w.getD k 0))) w.length (← vdupq_n_u16 0)

/-- `for (i = 0; i < m; i++) vst1_u8(dst + 8 * i, vrshrn_n_u16(fir8(w, vld1_u8(src + 8 * i), vld1_u8(src + 8 * i + 8)), s));` -/
def firLoop (w : List uint8_t) (s m : Nat) (src dst : Ptr .u8) : C (Ptr .u8) :=
  blocks 8 m (fun i _ => do
    let a ← vld1_u8 (src.plus (8 * i))
    let b ← vld1_u8 (src.plus (8 * i + 8))
    vrshrn_n_u16 (← fir8 w a b) s) vst1_u8 dst

/-- The weighted sum of the elements `j, j + 1, ...` of `x`. -/
def weighted (w : List uint8_t) (x : Nat → BitVec 8) (j : Nat) : Nat :=
  total (fun k => (w.getD k 0).toNat * (x (j + k)).toNat) w.length

theorem fir8_spec (w : List uint8_t) (hn : w.length ≤ 8) (x : Nat → BitVec 8) (p : Nat) :
    fir8 w ⟨fun i => x (p + i)⟩ ⟨fun i => x (p + 8 + i)⟩ = .ok ⟨fun i => BitVec.ofNat 16 (weighted w x (p + i))⟩ := by
  unfold fir8
  rw [vdupq_n_u16_spec, ok_bind]
  suffices H : ∀ n ≤ w.length, iter (fun k acc => do
      let v ← vext_u8 ⟨fun i => x (p + i)⟩ ⟨fun i => x (p + 8 + i)⟩ k
      vmlal_u8 acc v (← vdup_n_u8 (w.getD k 0))) n ⟨fun _ => 0⟩ =
        .ok ⟨fun i => BitVec.ofNat 16 (total (fun k => (w.getD k 0).toNat * (x (p + i.val + k)).toNat) n)⟩ from H _ (Nat.le_refl _)
  intro n
  induction n with
  | zero => exact fun _ => rfl
  | succ n ih =>
    intro h
    show (iter _ n _ >>= _) = _
    rw [ih (by omega), ok_bind]
    show (vext_u8 _ _ n >>= _) = _
    rw [vext_u8_window _ _ n (by omega), ok_bind, vdup_n_u8_spec, ok_bind, vmlal_u8_spec]
    refine congrArg C.ok (Vec.ext (funext fun i => ?_))
    have e : concat (⟨fun i => x (p + i)⟩ : uint8x8_t) ⟨fun i => x (p + 8 + i)⟩ (i.val + n) = x (p + i.val + n) := by
      have := i.isLt
      unfold concat
      split
      · show x (p + (i.val + n)) = _
        rw [Nat.add_assoc]
      · rw [dif_pos (by omega)]
        show x (p + 8 + (i.val + n - 8)) = _
        congr 1
        omega
    show BitVec.ofNat 16 _ + (concat _ _ (i.val + n)).setWidth 16 * (w.getD n 0).setWidth 16 = BitVec.ofNat 16 (total _ (n + 1))
    rw [e, total_succ, BitVec.ofNat_add]
    refine congrArg (BitVec.ofNat 16 _ + ·) ?_
    apply BitVec.eq_of_toNat_eq
    have h1 : (w.getD n 0).toNat < 256 := (w.getD n 0).isLt
    have h2 : (x (p + i.val + n)).toNat < 256 := (x (p + i.val + n)).isLt
    simp only [BitVec.toNat_mul, BitVec.toNat_setWidth, BitVec.toNat_ofNat]
    rw [Nat.mod_eq_of_lt (show (w.getD n 0).toNat < 2 ^ 16 by omega), Nat.mod_eq_of_lt (show (x (p + i.val + n)).toNat < 2 ^ 16 by omega),
      Nat.mul_comm]

/-- A filter of at most 8 taps over `8 * m` windows of the source: output `j` is the weighted sum of the elements
`j, j + 1, ...`, divided by `2^s` and rounded to the nearest integer, whenever the weights add up to at most `2^s ≤ 256`. -/
theorem fir_filter (w : List uint8_t) (s m : Nat) (src dst : Ptr .u8) (x : Nat → BitVec 8)
    (hn : w.length ≤ 8) (h1 : 1 ≤ s) (h8 : s ≤ 8) (hsum : total (fun k => (w.getD k 0).toNat) w.length ≤ 2 ^ s)
    (hx : ∀ j < 8 * m + 8, Holds src j (x j)) (hw : Writable dst (8 * m)) :
    ∃ (y : Nat → BitVec 8) (d' : Ptr .u8), firLoop w s m src dst = .ok d' ∧ Stored dst (fun j : Fin (8 * m) => y j) d' ∧
      ∀ j, (y j).toNat = (weighted w x j + 2 ^ (s - 1)) / 2 ^ s := by
  have hp : (2 : Nat) ^ s = 2 * 2 ^ (s - 1) := by rw [← Nat.pow_succ']; congr 1; omega
  have hs8 : 2 ^ s ≤ 2 ^ 8 := Nat.pow_le_pow_right (by decide) h8
  have bound : ∀ j, weighted w x j ≤ 255 * 2 ^ s := by
    intro j
    refine Nat.le_trans ?_ (Nat.mul_le_mul_left 255 hsum)
    unfold weighted
    generalize w.length = n
    induction n with
    | zero => exact Nat.le_refl _
    | succ n ih =>
      rw [total_succ, total_succ, Nat.mul_add]
      refine Nat.add_le_add ih ?_
      rw [Nat.mul_comm]
      exact Nat.mul_le_mul_right _ (by have := (x (j + n)).isLt; omega)
  refine ⟨fun j => BitVec.ofNat 8 ((weighted w x j + 2 ^ (s - 1)) / 2 ^ s), ?_⟩
  have fits : ∀ j, (weighted w x j + 2 ^ (s - 1)) / 2 ^ s < 256 := by
    intro j
    have := bound j
    have h0 : 0 < 2 ^ (s - 1) := Nat.pow_pos (by decide)
    rw [Nat.div_lt_iff_lt_mul (by omega)]
    omega
  obtain ⟨d', hd, hS⟩ := blocks_stored (step := fun i (_ : Ptr .u8) => do
    let a ← vld1_u8 (src.plus (8 * i))
    let b ← vld1_u8 (src.plus (8 * i + 8))
    vrshrn_n_u16 (← fir8 w a b) s) (fun j => BitVec.ofNat 8 ((weighted w x j + 2 ^ (s - 1)) / 2 ^ s)) Vec.lane vst1_u8_spec hw
    (fun i hi d _ _ => by
      rw [loads_ok vld1_u8_spec (8 * i) x fun j hj => hx _ (by omega), ok_bind,
        loads_ok vld1_u8_spec (8 * i + 8) x fun j hj => hx _ (by omega), ok_bind, fir8_spec w hn x (8 * i), ok_bind,
        vrshrn_n_u16_spec _ s h1 h8]
      refine ⟨_, rfl, fun j => ?_⟩
      have := bound (8 * i + j.val)
      have e : (BitVec.ofNat 16 (weighted w x (8 * i + j.val))).toNat = weighted w x (8 * i + j.val) := by
        rw [BitVec.toNat_ofNat]
        exact Nat.mod_eq_of_lt (by omega)
      show BitVec.ofNat 8 (((BitVec.ofNat 16 (weighted w x (8 * i + j.val))).toNat + _) / _) = _
      rw [e])
  exact ⟨d', hd, hS, fun j => by rw [BitVec.toNat_ofNat]; exact Nat.mod_eq_of_lt (fits j)⟩

/-! ## Blending two images -/

/-- `vrshrn_n_u16(vmlal_u8(vmull_u8(f, a), b, vmvn_u8(a)), 8)` -/
def blend8 (a f b : uint8x8_t) : C uint8x8_t := do
  let s ← vmull_u8 f a
  let t ← vmlal_u8 s b (← vmvn_u8 a)
  vrshrn_n_u16 t 8

/-- The blend of two bytes with weight `a / 255`: `(a * f + (255 - a) * b + 128) / 256`. -/
theorem blend8_spec (a f b : uint8x8_t) : ∃ r, blend8 a f b = .ok r ∧ ∀ i,
    (r.lane i).toNat = ((a.lane i).toNat * (f.lane i).toNat + (255 - (a.lane i).toNat) * (b.lane i).toNat + 128) / 256 := by
  unfold blend8
  rw [vmull_u8_spec, ok_bind, vmvn_u8_spec, ok_bind, vmlal_u8_spec, ok_bind]
  rw [show (8 : Int) = ((8 : Nat) : Int) from rfl, vrshrn_n_u16_spec _ 8 (by decide) (by decide)]
  refine ⟨_, rfl, fun i => ?_⟩
  generalize ha : a.lane i = av
  generalize hf : f.lane i = fv
  generalize hb : b.lane i = bv
  change BitVec 8 at av fv bv
  have h1 : av.toNat < 256 := av.isLt
  have h2 : fv.toNat < 256 := fv.isLt
  have h3 : bv.toNat < 256 := bv.isLt
  have hc : (~~~ av).toNat = 255 - av.toNat := by rw [BitVec.toNat_not]
  have hbound : av.toNat * fv.toNat + (255 - av.toNat) * bv.toNat ≤ 255 * 255 := by
    have e1 : av.toNat * fv.toNat ≤ av.toNat * 255 := Nat.mul_le_mul_left _ (by omega)
    have e2 : (255 - av.toNat) * bv.toNat ≤ (255 - av.toNat) * 255 := Nat.mul_le_mul_left _ (by omega)
    omega
  have hsum : (fv.setWidth 16 * av.setWidth 16 + bv.setWidth 16 * (~~~ av).setWidth 16 : BitVec 16).toNat =
      av.toNat * fv.toNat + (255 - av.toNat) * bv.toNat := by
    simp only [BitVec.toNat_add, BitVec.toNat_mul, BitVec.toNat_setWidth, hc]
    rw [Nat.mod_eq_of_lt (show av.toNat < 2 ^ 16 by omega), Nat.mod_eq_of_lt (show fv.toNat < 2 ^ 16 by omega),
      Nat.mod_eq_of_lt (show bv.toNat < 2 ^ 16 by omega), Nat.mod_eq_of_lt (show 255 - av.toNat < 2 ^ 16 by omega),
      Nat.mul_comm fv.toNat, Nat.mul_comm bv.toNat, ← Nat.add_mod]
    exact Nat.mod_eq_of_lt (by omega)
  show (BitVec.ofNat 8 ((((f.lane i).setWidth 16 * (a.lane i).setWidth 16 + (b.lane i).setWidth 16 * (~~~ (a.lane i)).setWidth 16 : BitVec 16).toNat + 128) / 256)).toNat = _
  rw [ha, hf, hb, hsum, BitVec.toNat_ofNat]
  exact Nat.mod_eq_of_lt (by omega)

/-- The blend lies between the two bytes, one less than the smaller at most. -/
theorem blend8_between (a f b : uint8x8_t) : ∃ r, blend8 a f b = .ok r ∧ ∀ i,
    (r.lane i).toNat ≤ max (f.lane i).toNat (b.lane i).toNat ∧ min (f.lane i).toNat (b.lane i).toNat ≤ (r.lane i).toNat + 1 := by
  obtain ⟨r, h, hr⟩ := blend8_spec a f b
  refine ⟨r, h, fun i => ?_⟩
  have hri := hr i
  have ha : (a.lane i).toNat < 256 := (a.lane i).isLt
  have hf : (f.lane i).toNat < 256 := (f.lane i).isLt
  have hb : (b.lane i).toNat < 256 := (b.lane i).isLt
  generalize (a.lane i).toNat = av at *
  generalize (f.lane i).toNat = fv at *
  generalize (b.lane i).toNat = bv at *
  generalize (r.lane i).toNat = rv at *
  have u1 : av * fv ≤ av * max fv bv := Nat.mul_le_mul_left _ (Nat.le_max_left _ _)
  have u2 : (255 - av) * bv ≤ (255 - av) * max fv bv := Nat.mul_le_mul_left _ (Nat.le_max_right _ _)
  have l1 : av * min fv bv ≤ av * fv := Nat.mul_le_mul_left _ (Nat.min_le_left _ _)
  have l2 : (255 - av) * min fv bv ≤ (255 - av) * bv := Nat.mul_le_mul_left _ (Nat.min_le_right _ _)
  have e1 : av * max fv bv + (255 - av) * max fv bv = 255 * max fv bv := by rw [← Nat.add_mul]; congr 1; omega
  have e2 : av * min fv bv + (255 - av) * min fv bv = 255 * min fv bv := by rw [← Nat.add_mul]; congr 1; omega
  generalize av * fv = p at *
  generalize (255 - av) * bv = q at *
  generalize av * max fv bv = p1 at *
  generalize (255 - av) * max fv bv = q1 at *
  generalize av * min fv bv = p2 at *
  generalize (255 - av) * min fv bv = q2 at *
  omega

/-- `for (i = 0; i < m; i++) vst1_u8(dst + 8 * i, blend8(vld1_u8(a + 8 * i), vld1_u8(f + 8 * i), vld1_u8(b + 8 * i)));` -/
def blendLoop (m : Nat) (a f b dst : Ptr .u8) : C (Ptr .u8) :=
  blocks 8 m (fun i _ => do
    let av ← vld1_u8 (a.plus (8 * i))
    let fv ← vld1_u8 (f.plus (8 * i))
    let bv ← vld1_u8 (b.plus (8 * i))
    blend8 av fv bv) vst1_u8 dst

/-- The blend of two images of `8 * m` bytes under a mask. -/
theorem blend_image (m : Nat) (a f b dst : Ptr .u8) (x y z : Nat → BitVec 8) (hx : ∀ j < 8 * m, Holds a j (x j))
    (hy : ∀ j < 8 * m, Holds f j (y j)) (hz : ∀ j < 8 * m, Holds b j (z j)) (hw : Writable dst (8 * m)) :
    ∃ d', blendLoop m a f b dst = .ok d' ∧
      Stored dst (fun j : Fin (8 * m) => BitVec.ofNat 8 (((x j).toNat * (y j).toNat + (255 - (x j).toNat) * (z j).toNat + 128) / 256)) d' := by
  refine blocks_stored (fun j => BitVec.ofNat 8 (((x j).toNat * (y j).toNat + (255 - (x j).toNat) * (z j).toNat + 128) / 256))
    Vec.lane vst1_u8_spec hw fun i hi d _ _ => ?_
  rw [loads_ok vld1_u8_spec (8 * i) x fun j hj => hx _ (by omega), ok_bind,
    loads_ok vld1_u8_spec (8 * i) y fun j hj => hy _ (by omega), ok_bind,
    loads_ok vld1_u8_spec (8 * i) z fun j hj => hz _ (by omega), ok_bind]
  obtain ⟨r, h, hr⟩ := blend8_spec ⟨fun j => x (8 * i + j)⟩ ⟨fun j => y (8 * i + j)⟩ ⟨fun j => z (8 * i + j)⟩
  refine ⟨r, h, fun j => ?_⟩
  apply BitVec.eq_of_toNat_eq
  rw [hr j, BitVec.toNat_ofNat]
  refine (Nat.mod_eq_of_lt ?_).symm
  have := (r.lane j).isLt
  rw [hr j] at this
  exact this

end

/-! ## Concrete cases -/

/-- The hypotheses of `prefix_sum_exact` for three blocks. -/
example : (∀ j < 8 * 3, Holds (demo .u16 24) j (BitVec.ofNat 16 (7 * j + 1))) ∧ Writable (demo .u16 24) (8 * 3) ∧
    total (fun j => (BitVec.ofNat 16 (7 * j + 1)).toNat) (8 * 3) < 65536 :=
  ⟨demo_holds .u16 24, demo_writable .u16 24, by decide⟩

/-- The hypotheses of `fir_filter` for the binomial filter of five taps, and its first output. -/
example : total (fun k => (([1#8, 4#8, 6#8, 4#8, 1#8] : List uint8_t).getD k 0).toNat) 5 ≤ 2 ^ 4 ∧
    (∀ j < 8 * 2 + 8, Holds (demo .u8 24) j (BitVec.ofNat 8 (7 * j + 1))) ∧ Writable (demo .u8 24) (8 * 2) ∧
    (weighted [1#8, 4#8, 6#8, 4#8, 1#8] (fun j => BitVec.ofNat 8 (7 * j + 1)) 0 + 2 ^ (4 - 1)) / 2 ^ 4 = 15 :=
  ⟨by decide, demo_holds .u8 24, by unfold Writable; decide, by decide⟩

/-- A blend of 200 and 100 at weight 128 / 255. -/
example : ∃ r, @blend8 .strict ⟨fun _ => 128#8⟩ ⟨fun _ => 200#8⟩ ⟨fun _ => 100#8⟩ = .ok r ∧ r.lane 3 = 150#8 := by
  obtain ⟨r, h, hr⟩ := @blend8_spec .strict ⟨fun _ => 128#8⟩ ⟨fun _ => 200#8⟩ ⟨fun _ => 100#8⟩
  exact ⟨r, h, BitVec.eq_of_toNat_eq (hr 3)⟩

end Verif.Props
