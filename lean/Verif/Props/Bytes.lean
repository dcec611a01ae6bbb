/-
C91: table lookup, byte order, thresholding, filling and moving of byte arrays of any length.
-/
import Verif.Props.Select
import Verif.Props.Pipeline
import Verif.Props.Logic
import Verif.Props.AddSub

namespace Verif.Props
open Verif.Model Verif.Spec

/-! # Programs over byte arrays (client code, not code of the repository) -/

section
variable [Dialect]

/-! ## A lookup table of 256 bytes out of tables of 32 -/

/-- Part `k` of a table of 256 bytes, as the operand of `vtbl4_u8`. -/
def tablePart (t : Nat → BitVec 8) (k : Nat) : uint8x8x4_t := ⟨fun r => ⟨fun l => t (32 * k + (8 * r.val + l.val))⟩⟩

/-- `r = vdup_n_u8(0); for (k = 0; k < 8; k++) { r = vorr_u8(r, vtbl4_u8(part[k], idx)); idx = vsub_u8(idx, vdup_n_u8(32)); }` -/
def lut8 (t : Nat → BitVec 8) (idx : uint8x8_t) : C uint8x8_t := do
  let ri ← iter (fun k ri => do
    let r ← vorr_u8 ri.1 (← vtbl4_u8 (tablePart t k) ri.2)
    let idx ← vsub_u8 ri.2 (← vdup_n_u8 32)
    pure (r, idx)) 8 ((← vdup_n_u8 0), idx)
  pure ri.1

/-- `for (i = 0; i < m; i++) vst1_u8(dst + 8 * i, lut8(t, vld1_u8(src + 8 * i)));` -/
def lutLoop (t : Nat → BitVec 8) (m : Nat) (src dst : Ptr .u8) : C (Ptr .u8) :=
  blocks 8 m (fun i _ => do lut8 t (← vld1_u8 (src.plus (8 * i)))) vst1_u8 dst

theorem lut8_spec (t : Nat → BitVec 8) (idx : uint8x8_t) : lut8 t idx = .ok ⟨fun i => t (idx.lane i).toNat⟩ := by
  unfold lut8
  rw [vdup_n_u8_spec, ok_bind]
  suffices H : ∀ n ≤ 8, iter (fun k (ri : uint8x8_t × uint8x8_t) => do
      let r ← vorr_u8 ri.1 (← vtbl4_u8 (tablePart t k) ri.2)
      let idx ← vsub_u8 ri.2 (← vdup_n_u8 32)
      pure (r, idx)) n (⟨fun _ => 0⟩, idx) =
        .ok (⟨fun i => if (idx.lane i).toNat < 32 * n then t (idx.lane i).toNat else 0⟩,
          ⟨fun i => idx.lane i - BitVec.ofNat 8 (32 * n)⟩) by
    rw [H 8 (Nat.le_refl 8), ok_bind]
    refine congrArg C.ok (Vec.ext (funext fun i => ?_))
    exact if_pos (show (idx.lane i).toNat < 256 from (idx.lane i).isLt)
  intro n
  induction n with
  | zero =>
    intro _
    refine congrArg C.ok (Prod.ext (Vec.ext (funext fun i => ?_)) (Vec.ext (funext fun i => ?_)))
    · show (0 : BitVec 8) = if (idx.lane i).toNat < 32 * 0 then t (idx.lane i).toNat else 0
      rw [if_neg (by omega)]
    · exact (BitVec.sub_zero _).symm
  | succ n ih =>
    intro hn
    show (iter _ n _ >>= _) = _
    rw [ih (by omega), ok_bind]
    simp only [vtbl4_u8_spec, ok_bind, vorr_u8_spec, vdup_n_u8_spec, vsub_u8_spec]
    refine congrArg C.ok (Prod.ext (Vec.ext (funext fun i => ?_)) (Vec.ext (funext fun i => ?_)))
    · show (if (idx.lane i).toNat < 32 * n then t (idx.lane i).toNat else 0) |||
        (if h : (idx.lane i - BitVec.ofNat 8 (32 * n)).toNat < 32
          then t (32 * n + (8 * ((idx.lane i - BitVec.ofNat 8 (32 * n)).toNat / 8) + (idx.lane i - BitVec.ofNat 8 (32 * n)).toNat % 8)) else 0#8) =
        if (idx.lane i).toNat < 32 * (n + 1) then t (idx.lane i).toNat else 0
      generalize idx.lane i = x
      change BitVec 8 at x
      have hx : x.toNat < 256 := x.isLt
      have hs : (x - BitVec.ofNat 8 (32 * n)).toNat = if 32 * n ≤ x.toNat then x.toNat - 32 * n else 256 - 32 * n + x.toNat := by
        rw [BitVec.toNat_sub, BitVec.toNat_ofNat]
        split <;> omega
      rw [hs, Nat.div_add_mod]
      by_cases c : x.toNat < 32 * n
      · rw [if_pos c, if_neg (by omega), dif_neg (by omega), if_pos (by omega)]
        exact BitVec.or_zero
      · rw [if_neg c, if_pos (by omega)]
        by_cases c2 : x.toNat < 32 * (n + 1)
        · rw [dif_pos (by omega), if_pos c2, show 32 * n + (x.toNat - 32 * n) = x.toNat by omega]
          exact BitVec.zero_or
        · rw [dif_neg (by omega), if_neg c2]
          rfl
    · show idx.lane i - BitVec.ofNat 8 (32 * n) - 32#8 = idx.lane i - BitVec.ofNat 8 (32 * (n + 1))
      rw [BitVec.sub_sub, Nat.mul_succ, BitVec.ofNat_add]

/-- Every byte replaced by its entry in a table of 256 bytes, for any number of bytes. -/
theorem lut_bytes (t : Nat → BitVec 8) (m : Nat) (src dst : Ptr .u8) (x : Nat → BitVec 8) (hx : ∀ j < 8 * m, Holds src j (x j))
    (hw : Writable dst (8 * m)) :
    ∃ d', lutLoop t m src dst = .ok d' ∧ Stored dst (fun j : Fin (8 * m) => t (x j).toNat) d' := by
  refine blocks_stored (fun j => t (x j).toNat) Vec.lane vst1_u8_spec hw fun i hi d _ _ => ?_
  rw [loads_ok vld1_u8_spec (8 * i) x fun j hj => hx _ (by omega), ok_bind, lut8_spec]
  exact ⟨_, rfl, fun j => rfl⟩

/-! ## Byte order -/

/-- `for (i = 0; i < m; i++) vst1q_u8(dst + 16 * i, vrev32q_u8(vld1q_u8(src + 16 * i)));` -/
def swapLoop (m : Nat) (src dst : Ptr .u8) : C (Ptr .u8) :=
  blocks 16 m (fun i _ => do vrev32q_u8 (← vld1q_u8 (src.plus (16 * i)))) vst1q_u8 dst

/-- The 32-bit word at byte `4 * k`, least significant byte first. -/
def word (x : Nat → BitVec 8) (k : Nat) : Nat :=
  (x (4 * k)).toNat + 256 * ((x (4 * k + 1)).toNat + 256 * ((x (4 * k + 2)).toNat + 256 * (x (4 * k + 3)).toNat))

/-- The 32-bit word at byte `4 * k`, most significant byte first. -/
def wordBE (x : Nat → BitVec 8) (k : Nat) : Nat :=
  (x (4 * k + 3)).toNat + 256 * ((x (4 * k + 2)).toNat + 256 * ((x (4 * k + 1)).toNat + 256 * (x (4 * k)).toNat))

/-- Every 32-bit word is written in the other byte order. -/
theorem swap_words (m : Nat) (src dst : Ptr .u8) (x : Nat → BitVec 8) (hx : ∀ j < 16 * m, Holds src j (x j))
    (hw : Writable dst (16 * m)) :
    ∃ (y : Nat → BitVec 8) (d' : Ptr .u8), swapLoop m src dst = .ok d' ∧ Stored dst (fun j : Fin (16 * m) => y j) d' ∧
      ∀ k, word y k = wordBE x k := by
  refine ⟨fun j => x (4 * (j / 4) + (3 - j % 4)), ?_⟩
  have := blocks_stored (step := fun i (_ : Ptr .u8) => do vrev32q_u8 (← vld1q_u8 (src.plus (16 * i))))
    (fun j => x (4 * (j / 4) + (3 - j % 4))) Vec.lane vst1q_u8_spec hw fun i hi d _ _ => by
      rw [loads_ok vld1q_u8_spec (16 * i) x fun j hj => hx _ (by omega), ok_bind, vrev32q_u8_spec]
      refine ⟨_, rfl, fun j => ?_⟩
      show x (16 * i + (j.val / 4 * 4 + (3 - j.val % 4))) = x _
      congr 1
      omega
  obtain ⟨d', hd, hS⟩ := this
  refine ⟨d', hd, hS, fun k => ?_⟩
  unfold word wordBE
  have e0 : 4 * (4 * k / 4) + (3 - 4 * k % 4) = 4 * k + 3 := by omega
  have e1 : 4 * ((4 * k + 1) / 4) + (3 - (4 * k + 1) % 4) = 4 * k + 2 := by omega
  have e2 : 4 * ((4 * k + 2) / 4) + (3 - (4 * k + 2) % 4) = 4 * k + 1 := by omega
  have e3 : 4 * ((4 * k + 3) / 4) + (3 - (4 * k + 3) % 4) = 4 * k := by omega
  simp only [e0, e1, e2, e3]

/-! ## Thresholding -/

/-- `for (i = 0; i < m; i++) vst1q_u8(dst + 16 * i, vbslq_u8(vcgtq_u8(vld1q_u8(src + 16 * i), vdupq_n_u8(t)), vdupq_n_u8(a), vdupq_n_u8(b)));` -/
def thresholdLoop (t a b : uint8_t) (m : Nat) (src dst : Ptr .u8) : C (Ptr .u8) :=
  blocks 16 m (fun i _ => do
    let v ← vld1q_u8 (src.plus (16 * i))
    let c ← vcgtq_u8 v (← vdupq_n_u8 t)
    vbslq_u8 c (← vdupq_n_u8 a) (← vdupq_n_u8 b)) vst1q_u8 dst

/-- Every byte above the threshold becomes `a`, every other `b`. -/
theorem threshold_bytes (t a b : BitVec 8) (m : Nat) (src dst : Ptr .u8) (x : Nat → BitVec 8) (hx : ∀ j < 16 * m, Holds src j (x j))
    (hw : Writable dst (16 * m)) :
    ∃ d', thresholdLoop t a b m src dst = .ok d' ∧
      Stored dst (fun j : Fin (16 * m) => if t.toNat < (x j).toNat then a else b) d' := by
  refine blocks_stored (fun j => if t.toNat < (x j).toNat then a else b) Vec.lane vst1q_u8_spec hw fun i hi d _ _ => ?_
  rw [loads_ok vld1q_u8_spec (16 * i) x fun j hj => hx _ (by omega), ok_bind]
  simp only [vdupq_n_u8_spec, ok_bind, vcgtq_u8_spec, vbslq_u8_spec]
  refine ⟨_, rfl, fun j => ?_⟩
  show (mask 8 (t.toNat < (x (16 * i + j.val)).toNat) &&& a) ||| (~~~ mask 8 (t.toNat < (x (16 * i + j.val)).toNat) &&& b) = _
  unfold mask
  by_cases c : t.toNat < (x (16 * i + j.val)).toNat
  · rw [if_pos c, if_pos c, BitVec.allOnes_and, BitVec.not_allOnes, BitVec.zero_and, BitVec.or_zero]
  · rw [if_neg c, if_neg c, BitVec.zero_and, BitVec.not_zero, BitVec.allOnes_and, BitVec.zero_or]

/-! ## Filling and moving -/

/-- `for (i = 0; i < m; i++) vst1q_u8(dst + 16 * i, vdupq_n_u8(b));` -/
def fillLoop (b : uint8_t) (m : Nat) (dst : Ptr .u8) : C (Ptr .u8) :=
  blocks 16 m (fun _ _ => vdupq_n_u8 b) vst1q_u8 dst

omit [Dialect] in
/-- Every byte of the destination is `b`, whatever it held, initialised or not. -/
theorem fill_bytes (b : BitVec 8) (m : Nat) (dst : Ptr .u8) (hw : Writable dst (16 * m)) :
    ∃ d', fillLoop b m dst = .ok d' ∧ Stored dst (fun _ : Fin (16 * m) => b) d' :=
  blocks_stored (e := .u8) (fun _ => b) Vec.lane vst1q_u8_spec hw fun _ _ _ _ _ => ⟨_, vdupq_n_u8_spec b, fun _ => rfl⟩

/-- `for (i = 0; i < m; i++) vst1q_u8(p + 16 * i, vld1q_u8(p + delta + 16 * i));`: bytes moved towards the start of the buffer. -/
def moveDown (delta m : Nat) (p : Ptr .u8) : C (Ptr .u8) :=
  blocks 16 m (fun i d => vld1q_u8 (d.plus (delta + 16 * i))) vst1q_u8 p

omit [Dialect] in
/-- The bytes arrive unchanged for every distance, although source and destination overlap. -/
theorem move_down (delta m : Nat) (p : Ptr .u8) (x : Nat → BitVec 8) (hx : ∀ j < 16 * m, Holds p (delta + j) (x j))
    (hw : Writable p (16 * m)) :
    ∃ d', moveDown delta m p = .ok d' ∧ Stored p (fun j : Fin (16 * m) => x j) d' := by
  refine blocks_stored (e := .u8) x Vec.lane vst1q_u8_spec hw fun i hi d ho hd => ?_
  have hld := ((vld1q_u8_spec (d.plus (delta + 16 * i))).1 ⟨fun j => x (16 * i + j.val)⟩).mpr fun j => by
    refine holds_plus ?_
    have := hx (16 * i + j.val) (by have := j.isLt; omega)
    unfold Holds at this ⊢
    rw [ho, hd _ (by omega), ← this]
    congr 1
    omega
  exact ⟨_, hld, fun j => rfl⟩

/-- `for (i = 0; i < m; i++) vst1q_u8(p + delta + 16 * i, vld1q_u8(p + 16 * i));`: bytes moved towards the end of the buffer. -/
def moveUp (delta m : Nat) (p : Ptr .u8) : C (Ptr .u8) :=
  blocks 16 m (fun i d => vld1q_u8 ⟨d.buf, p.off + 16 * i⟩) vst1q_u8 (p.plus delta)

omit [Dialect] in
/-- In this direction the loop is wrong when the regions overlap: it reads bytes it has already overwritten.  Moving 32 bytes up
by one leaves byte 15 in the place of byte 16 of the copy. -/
theorem move_up_wrong : ¬ ∀ (delta m : Nat) (p : Ptr .u8) (x : Nat → BitVec 8), (∀ j < 16 * m, Holds p j (x j)) →
    Writable (p.plus delta) (16 * m) →
    ∃ d', moveUp delta m p = .ok d' ∧ Stored (p.plus delta) (fun j : Fin (16 * m) => x j) d' := by
  intro h
  obtain ⟨d', hd, hS⟩ := h 1 2 ⟨(List.range 40).map fun j => some (BitVec.ofNat 8 j), 0⟩ (fun j => BitVec.ofNat 8 j)
    (by decide +kernel) (by unfold Writable; decide)
  have := hS.written ⟨16, by decide⟩
  have e : (moveUp 1 2 ⟨(List.range 40).map fun j => some (BitVec.ofNat 8 j), 0⟩ >>= fun d => .ok d.buf[17]?) = .ok (some (some 15#8)) := by
    decide +kernel
  rw [hd, ok_bind] at e
  injection e with e
  have t : d'.buf[17]? = some (some (BitVec.ofNat 8 16)) := this
  rw [t] at e
  exact absurd e (by decide)

omit [Dialect] in
/-- It is right when the regions do not overlap. -/
theorem move_up (delta m : Nat) (p : Ptr .u8) (x : Nat → BitVec 8) (hx : ∀ j < 16 * m, Holds p j (x j)) (hfar : 16 * m ≤ delta)
    (hw : Writable (p.plus delta) (16 * m)) :
    ∃ d', moveUp delta m p = .ok d' ∧ Stored (p.plus delta) (fun j : Fin (16 * m) => x j) d' := by
  refine blocks_stored_frame (e := .u8) x Vec.lane vst1q_u8_spec hw fun i hi d ho hd => ?_
  have hld := ((vld1q_u8_spec ⟨d.buf, p.off + 16 * i⟩).1 ⟨fun j => x (16 * i + j.val)⟩).mpr fun j => by
    have hj : j.val < 16 := j.isLt
    have := hx (16 * i + j.val) (by omega)
    have ha : (p.plus delta).off = p.off + delta := rfl
    unfold Holds at this ⊢
    show d.buf[p.off + 16 * i + j.val]? = _
    rw [hd _ (Or.inl (by omega)), ← this]
    show p.buf[_]? = _
    congr 1
    omega
  exact ⟨_, hld, fun j => rfl⟩

end

/-! ## Concrete cases -/

/-- The hypotheses of `lut_bytes`, `swap_words` and `threshold_bytes` for 48 bytes. -/
example : (∀ j < 16 * 3, Holds (demo .u8 48) j (BitVec.ofNat 8 (7 * j + 1))) ∧ Writable (demo .u8 48) (16 * 3) :=
  ⟨demo_holds .u8 48, demo_writable .u8 48⟩

/-- The hypotheses of `move_down` for an overlapping move by 3 bytes. -/
example : (∀ j < 16 * 2, Holds (demo .u8 48) (3 + j) (BitVec.ofNat 8 (7 * (3 + j) + 1))) ∧ Writable (demo .u8 48) (16 * 2) :=
  ⟨fun j hj => demo_holds .u8 48 (3 + j) (by omega), by unfold Writable; decide⟩

/-- The hypotheses of `move_up` for 16 bytes moved by 20. -/
example : (∀ j < 16 * 1, Holds (demo .u8 48) j (BitVec.ofNat 8 (7 * j + 1))) ∧ 16 * 1 ≤ 20 ∧ Writable ((demo .u8 48).plus 20) (16 * 1) :=
  ⟨fun j hj => demo_holds .u8 48 j (by omega), by decide, by unfold Writable; decide⟩

/-- Squares modulo 256 by table. -/
example : ∃ r, @lut8 .strict (fun k => BitVec.ofNat 8 (k * k)) ⟨fun i => BitVec.ofNat 8 (30 * i.val)⟩ = .ok r ∧ r.lane 5 = 228#8 :=
  ⟨_, @lut8_spec .strict _ _, rfl⟩

end Verif.Props
