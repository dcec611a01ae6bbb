import Verif.Kernel
import Verif.Props.Load
import Verif.Props.Store
import Verif.Props.AddSub
import Verif.Props.Saturate
import Verif.Props.Mul
import Verif.Props.Widen
import Verif.Props.Shift
import Verif.Props.Perm
import Verif.Props.Move
import Verif.Props.Logic
import Mathlib.Data.Fin.VecNotation

/-! # Programs that combine several intrinsics (C68)

Client programs (not code of the repository) written with the intrinsics, over buffers of any length, and what they
compute in terms of the elements of the buffers. -/

namespace Verif.Props
open Verif.Model Verif.Spec

section
variable [Dialect]

/-! ## Interleaved RGB to grey -/

/-- The body of the loop: eight pixels. -/
def grey8 (rgb : uint8x8x3_t) : C uint8x8_t := do
  let acc ← vmull_u8 rgb[0] (← vdup_n_u8 77#8)
  let acc ← vmlal_u8 acc rgb[1] (← vdup_n_u8 151#8)
  let acc ← vmlal_u8 acc rgb[2] (← vdup_n_u8 28#8)
  vshrn_n_u16 acc 8

/-- `for (i = 0; i < m; i++) vst1_u8(dst + 8 * i, grey8(vld3_u8(src + 24 * i)));` -/
def greyLoop (m : Nat) (src dst : Ptr .u8) : C (Ptr .u8) :=
  blocks 8 m (fun i _ => do grey8 (← vld3_u8 (src.plus (24 * i)))) vst1_u8 dst

omit [Dialect] in
theorem grey_lane (r g b : BitVec 8) :
    (((r.setWidth 16 * (77#8).setWidth 16 + g.setWidth 16 * (151#8).setWidth 16 + b.setWidth 16 * (28#8).setWidth 16) >>> 8).setWidth 8) =
      BitVec.ofNat 8 ((77 * r.toNat + 151 * g.toNat + 28 * b.toNat) / 256) := by
  apply BitVec.eq_of_toNat_eq
  have hr := r.isLt
  have hg := g.isLt
  have hb := b.isLt
  simp only [BitVec.toNat_setWidth, BitVec.toNat_ushiftRight, BitVec.toNat_add, BitVec.toNat_mul, BitVec.toNat_ofNat,
    Nat.shiftRight_eq_div_pow, Nat.reducePow, Nat.reduceMod]
  have h1 : r.toNat % 65536 = r.toNat := by omega
  have h2 : g.toNat % 65536 = g.toNat := by omega
  have h3 : b.toNat % 65536 = b.toNat := by omega
  rw [h1, h2, h3]
  have h4 : r.toNat * 77 % 65536 = r.toNat * 77 := by omega
  have h5 : g.toNat * 151 % 65536 = g.toNat * 151 := by omega
  have h6 : b.toNat * 28 % 65536 = b.toNat * 28 := by omega
  rw [h4, h5, h6]
  have h7 : (r.toNat * 77 + g.toNat * 151) % 65536 = r.toNat * 77 + g.toNat * 151 := by omega
  rw [h7, Nat.mod_eq_of_lt (a := r.toNat * 77 + g.toNat * 151 + b.toNat * 28) (by omega)]
  congr 2
  omega

theorem grey8_spec (rgb : uint8x8x3_t) :
    grey8 rgb = .ok ⟨fun i => BitVec.ofNat 8
      ((77 * ((rgb.reg 0).lane i).toNat + 151 * ((rgb.reg 1).lane i).toNat + 28 * ((rgb.reg 2).lane i).toNat) / 256)⟩ := by
  unfold grey8
  simp only [vmull_u8_spec, vmlal_u8_spec, vdup_n_u8_spec, ok_bind]
  rw [show (8 : Int) = ((8 : Nat) : Int) from rfl, vshrn_n_u16_spec _ 8 (by decide) (by decide)]
  exact congrArg C.ok (Vec.ext (funext fun i => grey_lane _ _ _))

/-- For an image of `8 * m` pixels, grey pixel `j` is `(77 R + 151 G + 28 B) / 256` of pixel `j`, computed without
overflow, and nothing else of the destination is changed. -/
theorem grey_image (m : Nat) (src dst : Ptr .u8) (x : Nat → BitVec 8) (hx : ∀ j < 24 * m, Holds src j (x j))
    (hw : Writable dst (8 * m)) :
    ∃ p, greyLoop m src dst = .ok p ∧ Stored dst (fun j : Fin (8 * m) => BitVec.ofNat 8
      ((77 * (x (3 * j)).toNat + 151 * (x (3 * j + 1)).toNat + 28 * (x (3 * j + 2)).toNat) / 256)) p := by
  refine blocks_stored (fun j => BitVec.ofNat 8
      ((77 * (x (3 * j)).toNat + 151 * (x (3 * j + 1)).toNat + 28 * (x (3 * j + 2)).toNat) / 256)) (fun v : uint8x8_t => v.lane)
      vst1_u8_spec hw fun i hi d _ _ => ?_
  have hl : vld3_u8 (src.plus (24 * i)) = .ok ⟨fun j => ⟨fun k => x (24 * i + (3 * k + j))⟩⟩ :=
    loadsK_ok vld3_u8_spec (24 * i) x fun j hj => hx _ (by omega)
  refine ⟨_, by rw [hl, ok_bind, grey8_spec], fun j => ?_⟩
  have e0 : 24 * i + (3 * j.val + 0) = 3 * (8 * i + j) := by omega
  have e1 : 24 * i + (3 * j.val + 1) = 3 * (8 * i + j) + 1 := by omega
  have e2 : 24 * i + (3 * j.val + 2) = 3 * (8 * i + j) + 2 := by omega
  show BitVec.ofNat 8 ((77 * (x (24 * i + (3 * j.val + 0))).toNat + 151 * (x (24 * i + (3 * j.val + 1))).toNat +
    28 * (x (24 * i + (3 * j.val + 2))).toNat) / 256) = _
  rw [e0, e1, e2]


/-! ## Exchanging two channels in place -/

/-- `for (i = 0; i < m; i++) { v = vld3q_u8(p + 48 * i); swap(v.val[0], v.val[2]); vst3q_u8(p + 48 * i, v); }` -/
def swapRB (m : Nat) (p : Ptr .u8) : C (Ptr .u8) :=
  blocks 48 m (fun i d => do
    let v ← vld3q_u8 (d.plus (48 * i))
    pure ⟨fun j => v.reg (2 - j)⟩) vst3q_u8 p

omit [Dialect] in
/-- For an image of `16 * m` pixels, channel `c` of every pixel becomes channel `2 - c`; memory around the image is
unchanged. -/
theorem swapRB_image (m : Nat) (p : Ptr .u8) (x : Nat → BitVec 8) (hx : ∀ j < 48 * m, Holds p j (x j))
    (hw : Writable p (48 * m)) :
    ∃ p', swapRB m p = .ok p' ∧ Stored p (fun j : Fin (48 * m) => x (3 * (j / 3) + (2 - j % 3))) p' := by
  refine blocks_stored (fun j => x (3 * (j / 3) + (2 - j % 3))) (fun v : uint8x16x3_t => interleave v) vst3q_u8_spec hw
    fun i hi d ho hd => ?_
  have hl : vld3q_u8 (d.plus (48 * i)) = .ok ⟨fun j => ⟨fun k => x (48 * i + (3 * k + j))⟩⟩ := by
    refine loadsK_ok vld3q_u8_spec (48 * i) x fun j hj => ?_
    have := hx (48 * i + j) (by omega)
    unfold Holds at this ⊢
    rw [ho, hd _ (by omega), this]
  refine ⟨_, by rw [hl, ok_bind]; rfl, fun j => ?_⟩
  show x (48 * i + (3 * (j.val / 3) + (2 - (⟨j.val % 3, _⟩ : Fin 3)).val)) = x (3 * ((48 * i + j.val) / 3) + (2 - (48 * i + j.val) % 3))
  congr 1
  have : ∀ k : Fin 3, (2 - k : Fin 3).val = 2 - k.val := by decide
  rw [this]
  show 48 * i + (3 * (j.val / 3) + (2 - j.val % 3)) = _
  omega

omit [Dialect] in
/-- Exchanging the channels twice gives the image back. -/
theorem swapRB_twice (m : Nat) (p : Ptr .u8) (hx : ∀ j < 48 * m, Readable p j) (hw : Writable p (48 * m)) :
    (do swapRB m (← swapRB m p)) = .ok p := by
  let x : Nat → BitVec 8 := fun j => (p.buf[p.off + j]?.getD none).getD 0
  have hx' : ∀ j < 48 * m, Holds p j (x j) := by
    intro j hj
    obtain ⟨y, hy⟩ := hx j hj
    unfold Holds at *
    simp only [x, hy, Option.getD_some]
  obtain ⟨q, hq, hS⟩ := swapRB_image m p x hx' hw
  obtain ⟨r, hr, hT⟩ := swapRB_image m q (fun j => x (3 * (j / 3) + (2 - j % 3)))
    (fun j hj => by unfold Holds; rw [hS.off]; exact hS.written ⟨j, hj⟩)
    (by unfold Writable at *; rw [hS.off, hS.size]; exact hw)
  rw [hq, ok_bind, hr]
  congr 1
  refine Stored.unique (p := p) (x := fun j : Fin (48 * m) => x j) ⟨hT.off.trans hS.off, hT.size.trans hS.size, fun i => ?_, fun a ha => ?_⟩
    ⟨rfl, rfl, fun i => hx' i i.isLt, fun _ _ => rfl⟩
  · have := hT.written i
    rw [hS.off] at this
    rw [this]
    have e : 3 * ((3 * (i.val / 3) + (2 - i.val % 3)) / 3) + (2 - (3 * (i.val / 3) + (2 - i.val % 3)) % 3) = i.val := by omega
    simp only [e]
  · rw [hT.frame a (by rw [hS.off]; exact ha), hS.frame a ha]

/-! ## Reversing a row -/

/-- Sixteen lanes in the opposite order. -/
def reverse16 (v : uint8x16_t) : C uint8x16_t := do
  let r ← vrev64q_u8 v
  vcombine_u8 (← vget_high_u8 r) (← vget_low_u8 r)

/-- `for (i = 0; i < m; i++) vst1q_u8(dst + 16 * i, reverse16(vld1q_u8(src + 16 * (m - 1 - i))));` -/
def reverseLoop (m : Nat) (src dst : Ptr .u8) : C (Ptr .u8) :=
  blocks 16 m (fun i _ => do reverse16 (← vld1q_u8 (src.plus (16 * (m - 1 - i))))) vst1q_u8 dst

theorem reverse16_spec (v : uint8x16_t) : reverse16 v = .ok ⟨fun i => v[15 - i.val]⟩ := by
  unfold reverse16
  simp only [vrev64q_u8_spec, vget_high_u8_spec, vget_low_u8_spec, vcombine_u8_spec, ok_bind]
  congr 2
  funext i
  split
  · show v.lane ⟨_, _⟩ = v.lane ⟨_, _⟩
    congr 2
    show (8 + i.val) / 8 * 8 + (7 - (8 + i.val) % 8) = 15 - i.val
    omega
  · show v.lane ⟨_, _⟩ = v.lane ⟨_, _⟩
    congr 2
    show (i.val - 8) / 8 * 8 + (7 - (i.val - 8) % 8) = 15 - i.val
    omega

/-- A row of `16 * m` bytes is reversed. -/
theorem reverse_row (m : Nat) (src dst : Ptr .u8) (x : Nat → BitVec 8) (hx : ∀ j < 16 * m, Holds src j (x j))
    (hw : Writable dst (16 * m)) :
    ∃ p, reverseLoop m src dst = .ok p ∧ Stored dst (fun j : Fin (16 * m) => x (16 * m - 1 - j)) p := by
  refine blocks_stored (fun j => x (16 * m - 1 - j)) (fun v : uint8x16_t => v.lane) vst1q_u8_spec hw fun i hi d _ _ => ?_
  refine ⟨_, by rw [loads_ok vld1q_u8_spec (16 * (m - 1 - i)) x fun j hj => hx _ (by omega), ok_bind, reverse16_spec], fun j => ?_⟩
  show x (16 * (m - 1 - i) + (15 - j.val)) = _
  congr 1
  omega

/-! ## Absolute difference and maximum from saturating subtraction -/

/-- `|a - b|` of unsigned bytes as `vqsub(a, b) | vqsub(b, a)` -/
def absDiff (a b : uint8x16_t) : C uint8x16_t := do vorrq_u8 (← vqsubq_u8 a b) (← vqsubq_u8 b a)

/-- The maximum of unsigned bytes as `b + vqsub(a, b)` (`vmaxq_u8` of the library compares signed bytes). -/
def maxU8 (a b : uint8x16_t) : C uint8x16_t := do vaddq_u8 b (← vqsubq_u8 a b)

/-- The minimum of unsigned bytes as `a - vqsub(a, b)` -/
def minU8 (a b : uint8x16_t) : C uint8x16_t := do vsubq_u8 a (← vqsubq_u8 a b)

omit [Dialect] in
theorem usat8_sub (x y : BitVec 8) : usat 8 ((x.toNat : Int) - y.toNat) = BitVec.ofNat 8 (x.toNat - y.toNat) := by
  have hx := x.isLt
  have hy := y.isLt
  unfold usat clamp
  rcases Nat.le_total x.toNat y.toNat with h | h
  · rw [Nat.sub_eq_zero_of_le h]
    have : max 0 (min ((x.toNat : Int) - y.toNat) ((2 : Int) ^ 8 - 1)) = ((0 : Nat) : Int) := by omega
    rw [this]
    rfl
  · have : max 0 (min ((x.toNat : Int) - y.toNat) ((2 : Int) ^ 8 - 1)) = ((x.toNat - y.toNat : Nat) : Int) := by omega
    rw [this]
    exact BitVec.ofInt_natCast _ _

theorem absDiff_spec (a b : uint8x16_t) :
    ∃ r, absDiff a b = .ok r ∧ ∀ i, (r.lane i).toNat = (((a.lane i).toNat : Int) - (b.lane i).toNat).natAbs := by
  unfold absDiff
  simp only [vqsubq_u8_spec, vorrq_u8_spec, ok_bind]
  refine ⟨_, rfl, fun i => ?_⟩
  show (usat 8 _ ||| usat 8 _ : BitVec 8).toNat = _
  have key : ∀ x y : BitVec 8, (usat 8 ((x.toNat : Int) - y.toNat) ||| usat 8 ((y.toNat : Int) - x.toNat)).toNat =
      ((x.toNat : Int) - y.toNat).natAbs := by
    intro x y
    rw [usat8_sub, usat8_sub]
    have hx := x.isLt
    have hy := y.isLt
    rcases Nat.le_total x.toNat y.toNat with h | h
    · rw [Nat.sub_eq_zero_of_le h, BitVec.zero_or, BitVec.toNat_ofNat]
      omega
    · rw [Nat.sub_eq_zero_of_le h, BitVec.or_zero, BitVec.toNat_ofNat]
      omega
  exact key _ _

theorem maxU8_spec (a b : uint8x16_t) :
    ∃ r, maxU8 a b = .ok r ∧ ∀ i, (r.lane i).toNat = max (a.lane i).toNat (b.lane i).toNat := by
  unfold maxU8
  simp only [vqsubq_u8_spec, vaddq_u8_spec, ok_bind]
  refine ⟨_, rfl, fun i => ?_⟩
  show (b.lane i + usat 8 _ : BitVec 8).toNat = _
  rw [usat8_sub]
  have hx : (a.lane i).toNat < 256 := (a.lane i).isLt
  have hy : (b.lane i).toNat < 256 := (b.lane i).isLt
  rw [BitVec.toNat_add, BitVec.toNat_ofNat]
  show ((b.lane i).toNat + _ % 256) % 256 = _
  omega

theorem minU8_spec (a b : uint8x16_t) :
    ∃ r, minU8 a b = .ok r ∧ ∀ i, (r.lane i).toNat = min (a.lane i).toNat (b.lane i).toNat := by
  unfold minU8
  simp only [vqsubq_u8_spec, vsubq_u8_spec, ok_bind]
  refine ⟨_, rfl, fun i => ?_⟩
  show (a.lane i - usat 8 _ : BitVec 8).toNat = _
  rw [usat8_sub]
  have hx : (a.lane i).toNat < 256 := (a.lane i).isLt
  have hy : (b.lane i).toNat < 256 := (b.lane i).isLt
  rw [BitVec.toNat_sub, BitVec.toNat_ofNat]
  show (256 - _ % 256 + (a.lane i).toNat) % 256 = _
  omega

/-! ## 4 x 4 transposition -/

/-- The usual transposition of a 4 x 4 matrix of 32-bit elements. -/
def transpose4 (r0 r1 r2 r3 : uint32x4_t) : C (uint32x4_t × uint32x4_t × uint32x4_t × uint32x4_t) := do
  let p ← vtrnq_u32 r0 r1
  let q ← vtrnq_u32 r2 r3
  let c0 ← vcombine_u32 (← vget_low_u32 p[0]) (← vget_low_u32 q[0])
  let c1 ← vcombine_u32 (← vget_low_u32 p[1]) (← vget_low_u32 q[1])
  let c2 ← vcombine_u32 (← vget_high_u32 p[0]) (← vget_high_u32 q[0])
  let c3 ← vcombine_u32 (← vget_high_u32 p[1]) (← vget_high_u32 q[1])
  pure (c0, c1, c2, c3)

omit [Dialect] in
/-- Row `i` of the result is column `i` of the operands. -/
theorem transpose4_spec (r0 r1 r2 r3 : uint32x4_t) :
    transpose4 r0 r1 r2 r3 = .ok
      (⟨![r0.lane 0, r1.lane 0, r2.lane 0, r3.lane 0]⟩, ⟨![r0.lane 1, r1.lane 1, r2.lane 1, r3.lane 1]⟩,
       ⟨![r0.lane 2, r1.lane 2, r2.lane 2, r3.lane 2]⟩, ⟨![r0.lane 3, r1.lane 3, r2.lane 3, r3.lane 3]⟩) := by
  unfold transpose4
  simp only [vtrnq_u32_spec, vcombine_u32_spec, vget_low_u32_spec, vget_high_u32_spec, ok_bind]
  show C.ok _ = C.ok _
  congr 1
  refine Prod.ext ?_ (Prod.ext ?_ (Prod.ext ?_ ?_)) <;> exact Vec.ext (funext fun i => match i with | 0 | 1 | 2 | 3 => rfl)

omit [Dialect] in
/-- Transposing twice gives the matrix back. -/
theorem transpose4_twice (r0 r1 r2 r3 : uint32x4_t) :
    (do let (a, b, c, d) ← transpose4 r0 r1 r2 r3; transpose4 a b c d) = .ok (r0, r1, r2, r3) := by
  simp only [transpose4_spec, ok_bind]
  congr 1
  refine Prod.ext ?_ (Prod.ext ?_ (Prod.ext ?_ ?_)) <;> exact Vec.ext (funext fun i => match i with | 0 | 1 | 2 | 3 => rfl)

/-! ## Sum of all bytes and dot product -/

/-- The four lanes added up (in `uint32_t`, which wraps). -/
def addLanes (v : uint32x4_t) : C uint32_t := do
  let a ← vgetq_lane_u32 v 0
  let b ← vgetq_lane_u32 v 1
  let c ← vgetq_lane_u32 v 2
  let d ← vgetq_lane_u32 v 3
  pure (a + b + c + d)

/-- `acc = vdupq_n_u32(0); for (i = 0; i < m; i++) acc = vaddq_u32(acc, vpaddlq_u16(vpaddlq_u8(vld1q_u8(src + 16 * i))));` and
the lanes of `acc` added up. -/
def sumLoop (m : Nat) (src : Ptr .u8) : C uint32_t := do
  let acc ← iter (fun i a => do
    let v ← vld1q_u8 (src.plus (16 * i))
    vaddq_u32 a (← vpaddlq_u16 (← vpaddlq_u8 v))) m (← vdupq_n_u32 0)
  addLanes acc

/-- `acc = vdupq_n_u32(0); for (i = 0; i < m; i++) acc = vaddq_u32(acc, vpaddlq_u16(vmull_u8(vld1_u8(s + 8 * i), vld1_u8(t + 8 * i))));`
and the lanes of `acc` added up. -/
def dotLoop (m : Nat) (s t : Ptr .u8) : C uint32_t := do
  let acc ← iter (fun i a => do
    let v ← vld1_u8 (s.plus (8 * i))
    let w ← vld1_u8 (t.plus (8 * i))
    vaddq_u32 a (← vpaddlq_u16 (← vmull_u8 v w))) m (← vdupq_n_u32 0)
  addLanes acc

/-- `f 0 + f 1 + ... + f (k - 1)` -/
def total (f : Nat → Nat) (k : Nat) : Nat := ((List.range k).map f).sum

omit [Dialect] in
theorem total_succ (f : Nat → Nat) (k : Nat) : total f (k + 1) = total f k + f k := by
  simp [total, List.range_succ]

omit [Dialect] in
theorem addLanes_spec (v : uint32x4_t) : addLanes v = .ok (v.lane 0 + v.lane 1 + v.lane 2 + v.lane 3) := by
  unfold addLanes
  have h0 := vgetq_lane_u32_spec v 0
  have h1 := vgetq_lane_u32_spec v 1
  have h2 := vgetq_lane_u32_spec v 2
  have h3 := vgetq_lane_u32_spec v 3
  simp only [show (((0 : Fin 4).val : Nat) : Int) = 0 from rfl, show (((1 : Fin 4).val : Nat) : Int) = 1 from rfl,
    show (((2 : Fin 4).val : Nat) : Int) = 2 from rfl, show (((3 : Fin 4).val : Nat) : Int) = 3 from rfl] at h0 h1 h2 h3
  rw [h0, h1, h2, h3]
  rfl

omit [Dialect] in
theorem pairs4 (a b c d : BitVec 8) :
    ((a.setWidth 16 + b.setWidth 16).setWidth 32 + (c.setWidth 16 + d.setWidth 16).setWidth 32 : BitVec 32) =
      BitVec.ofNat 32 (a.toNat + b.toNat + c.toNat + d.toNat) := by
  apply BitVec.eq_of_toNat_eq
  have ha := a.isLt
  have hb := b.isLt
  have hc := c.isLt
  have hd := d.isLt
  simp only [BitVec.toNat_setWidth, BitVec.toNat_add, BitVec.toNat_ofNat, Nat.reducePow]
  have e1 : (a.toNat % 65536 + b.toNat % 65536) % 65536 % 4294967296 = a.toNat + b.toNat := by omega
  have e2 : (c.toNat % 65536 + d.toNat % 65536) % 65536 % 4294967296 = c.toNat + d.toNat := by omega
  rw [e1, e2]
  congr 1
  omega

omit [Dialect] in
theorem prods2 (a b c d : BitVec 8) :
    ((a.setWidth 16 * b.setWidth 16).setWidth 32 + (c.setWidth 16 * d.setWidth 16).setWidth 32 : BitVec 32) =
      BitVec.ofNat 32 (a.toNat * b.toNat + c.toNat * d.toNat) := by
  apply BitVec.eq_of_toNat_eq
  have h1 : a.toNat * b.toNat ≤ 255 * 255 := Nat.mul_le_mul (by have := a.isLt; omega) (by have := b.isLt; omega)
  have h2 : c.toNat * d.toNat ≤ 255 * 255 := Nat.mul_le_mul (by have := c.isLt; omega) (by have := d.isLt; omega)
  have ea : a.toNat % 65536 = a.toNat := by have := a.isLt; omega
  have eb : b.toNat % 65536 = b.toNat := by have := b.isLt; omega
  have ec : c.toNat % 65536 = c.toNat := by have := c.isLt; omega
  have ed : d.toNat % 65536 = d.toNat := by have := d.isLt; omega
  simp only [BitVec.toNat_setWidth, BitVec.toNat_add, BitVec.toNat_mul, BitVec.toNat_ofNat, Nat.reducePow, ea, eb, ec, ed]
  have e1 : a.toNat * b.toNat % 65536 % 4294967296 = a.toNat * b.toNat := by omega
  have e2 : c.toNat * d.toNat % 65536 % 4294967296 = c.toNat * d.toNat := by omega
  rw [e1, e2]

omit [Dialect] in
/-- An accumulation loop whose body adds `t i` to the sum of the lanes. -/
theorem accumulate {body : Nat → uint32x4_t → C uint32x4_t} (T : Nat → Nat) (t : Nat → Nat) (m : Nat) (h0 : T 0 = 0)
    (hT : ∀ i < m, T (i + 1) = T i + t i)
    (hb : ∀ i < m, ∀ a, ∃ r, body i a = .ok r ∧
      r.lane 0 + r.lane 1 + r.lane 2 + r.lane 3 = a.lane 0 + a.lane 1 + a.lane 2 + a.lane 3 + BitVec.ofNat 32 (t i)) :
    (do addLanes (← iter body m (← vdupq_n_u32 0))) = .ok (BitVec.ofNat 32 (T m)) := by
  have key : ∀ k ≤ m, ∃ r, iter body k ⟨fun _ => 0⟩ = .ok r ∧
      r.lane 0 + r.lane 1 + r.lane 2 + r.lane 3 = BitVec.ofNat 32 (T k) := by
    intro k
    induction k with
    | zero => exact fun _ => ⟨_, rfl, by rw [h0]; rfl⟩
    | succ k ih =>
      intro hk
      obtain ⟨a, ha, hs⟩ := ih (by omega)
      obtain ⟨r, hr, hs'⟩ := hb k (by omega) a
      refine ⟨r, ?_, ?_⟩
      · show (iter body k _ >>= _) = _
        rw [ha, ok_bind, hr]
      · rw [hs', hs, hT k (by omega), BitVec.ofNat_add]
  obtain ⟨r, hr, hs⟩ := key m (Nat.le_refl m)
  rw [vdupq_n_u32_spec, ok_bind, hr, ok_bind, addLanes_spec, hs]

/-- The sum of the `16 * m` bytes, modulo 2^32. -/
theorem sum_bytes (m : Nat) (src : Ptr .u8) (x : Nat → BitVec 8) (hx : ∀ j < 16 * m, Holds src j (x j)) :
    sumLoop m src = .ok (BitVec.ofNat 32 (total (fun j => (x j).toNat) (16 * m))) := by
  unfold sumLoop
  let f := fun j => (x j).toNat
  refine accumulate (fun i => total f (16 * i))
    (fun i => f (16 * i) + f (16 * i + 1) + f (16 * i + 2) + f (16 * i + 3) + f (16 * i + 4) + f (16 * i + 5) + f (16 * i + 6) +
      f (16 * i + 7) + f (16 * i + 8) + f (16 * i + 9) + f (16 * i + 10) + f (16 * i + 11) + f (16 * i + 12) + f (16 * i + 13) +
      f (16 * i + 14) + f (16 * i + 15)) m rfl (fun i _ => ?_) fun i hi a => ?_
  · show total f (16 * i + 16) = _
    simp only [total_succ f]
    omega
  · refine ⟨⟨fun k => a.lane k + BitVec.ofNat 32 (f (16 * i + 2 * (2 * k)) + f (16 * i + (2 * (2 * k) + 1)) + f (16 * i + 2 * (2 * k + 1)) +
      f (16 * i + (2 * (2 * k + 1) + 1)))⟩, ?_, ?_⟩
    · rw [loads_ok vld1q_u8_spec (16 * i) x fun j hj => hx _ (by omega), ok_bind, vpaddlq_u8_spec, ok_bind,
        vpaddlq_u16_spec, ok_bind, vaddq_u32_spec]
      exact congrArg C.ok (Vec.ext (funext fun k => congrArg (a.lane k + ·) (pairs4 _ _ _ _)))
    show (a.lane 0 + BitVec.ofNat 32 _) + (a.lane 1 + BitVec.ofNat 32 _) + (a.lane 2 + BitVec.ofNat 32 _) + (a.lane 3 + BitVec.ofNat 32 _) = _
    simp only [BitVec.ofNat_add]
    show (_ + (BitVec.ofNat 32 (f (16 * i)) + BitVec.ofNat 32 (f (16 * i + 1)) + BitVec.ofNat 32 (f (16 * i + 2)) + BitVec.ofNat 32 (f (16 * i + 3)))) +
      (_ + (BitVec.ofNat 32 (f (16 * i + 4)) + BitVec.ofNat 32 (f (16 * i + 5)) + BitVec.ofNat 32 (f (16 * i + 6)) + BitVec.ofNat 32 (f (16 * i + 7)))) +
      (_ + (BitVec.ofNat 32 (f (16 * i + 8)) + BitVec.ofNat 32 (f (16 * i + 9)) + BitVec.ofNat 32 (f (16 * i + 10)) + BitVec.ofNat 32 (f (16 * i + 11)))) +
      (_ + (BitVec.ofNat 32 (f (16 * i + 12)) + BitVec.ofNat 32 (f (16 * i + 13)) + BitVec.ofNat 32 (f (16 * i + 14)) + BitVec.ofNat 32 (f (16 * i + 15)))) = _
    ac_rfl

/-- The dot product of two vectors of `8 * m` bytes, modulo 2^32. -/
theorem dot_bytes (m : Nat) (s t : Ptr .u8) (x y : Nat → BitVec 8) (hx : ∀ j < 8 * m, Holds s j (x j))
    (hy : ∀ j < 8 * m, Holds t j (y j)) :
    dotLoop m s t = .ok (BitVec.ofNat 32 (total (fun j => (x j).toNat * (y j).toNat) (8 * m))) := by
  unfold dotLoop
  let f := fun j => (x j).toNat * (y j).toNat
  refine accumulate (fun i => total f (8 * i))
    (fun i => f (8 * i) + f (8 * i + 1) + f (8 * i + 2) + f (8 * i + 3) + f (8 * i + 4) + f (8 * i + 5) + f (8 * i + 6) +
      f (8 * i + 7)) m rfl (fun i _ => ?_) fun i hi a => ?_
  · show total f (8 * i + 8) = _
    simp only [total_succ f]
    omega
  · refine ⟨⟨fun k => a.lane k + BitVec.ofNat 32 (f (8 * i + 2 * k) + f (8 * i + (2 * k + 1)))⟩, ?_, ?_⟩
    · rw [loads_ok vld1_u8_spec (8 * i) x fun j hj => hx _ (by omega), ok_bind,
        loads_ok vld1_u8_spec (8 * i) y fun j hj => hy _ (by omega), ok_bind, vmull_u8_spec, ok_bind,
        vpaddlq_u16_spec, ok_bind, vaddq_u32_spec]
      exact congrArg C.ok (Vec.ext (funext fun k => congrArg (a.lane k + ·) (prods2 _ _ _ _)))
    show (a.lane 0 + BitVec.ofNat 32 _) + (a.lane 1 + BitVec.ofNat 32 _) + (a.lane 2 + BitVec.ofNat 32 _) + (a.lane 3 + BitVec.ofNat 32 _) = _
    simp only [BitVec.ofNat_add]
    show (_ + (BitVec.ofNat 32 (f (8 * i)) + BitVec.ofNat 32 (f (8 * i + 1)))) +
      (_ + (BitVec.ofNat 32 (f (8 * i + 2)) + BitVec.ofNat 32 (f (8 * i + 3)))) +
      (_ + (BitVec.ofNat 32 (f (8 * i + 4)) + BitVec.ofNat 32 (f (8 * i + 5)))) +
      (_ + (BitVec.ofNat 32 (f (8 * i + 6)) + BitVec.ofNat 32 (f (8 * i + 7)))) = _
    ac_rfl

end

/-! ## Concrete runs -/

/-- C++11 -/
local instance strict : Dialect := ⟨false⟩

/-- The hypotheses of `grey_image` for one block, and the result of the run: pixel `j` is `(3j, 3j+1, 3j+2)`. -/
example : (∀ j < 24 * 1, Holds (⟨(List.range 24).map fun j => some (BitVec.ofNat 8 (10 * j)), 0⟩ : Ptr .u8) j (BitVec.ofNat 8 (10 * j))) ∧
    Writable (⟨List.replicate 10 none, 1⟩ : Ptr .u8) (8 * 1) := by
  constructor
  · intro j hj
    unfold Holds
    simp only [Nat.zero_add, List.getElem?_map, List.getElem?_range (show j < 24 by omega), Option.map_some]
  · decide

example := grey_image 2 (demo .u8 48) (demo .u8 16) _ (demo_holds .u8 48) (demo_writable .u8 16)
example := swapRB_image 2 (demo .u8 96) _ (demo_holds .u8 96) (demo_writable .u8 96)
example := swapRB_twice 2 (demo .u8 96) (fun j h => ⟨_, demo_holds .u8 96 j h⟩) (demo_writable .u8 96)
example := reverse_row 2 (demo .u8 32) (demo .u8 32) _ (demo_holds .u8 32) (demo_writable .u8 32)
example := sum_bytes 2 (demo .u8 32) _ (demo_holds .u8 32)
example := dot_bytes 2 (demo .u8 16) (demo .u8 16) _ _ (demo_holds .u8 16) (demo_holds .u8 16)

example : (match greyLoop 1 ⟨(List.range 24).map fun j => some (BitVec.ofNat 8 (10 * j)), 0⟩ ⟨List.replicate 10 none, 1⟩ with
    | .ok p => p.buf.map (Option.map BitVec.toNat)
    | _ => []) = [none, some 8, some 38, some 68, some 98, some 128, some 158, some 188, some 218, none] := by
  decide +kernel

example : (match sumLoop 2 ⟨(List.range 32).map fun j => some (BitVec.ofNat 8 (7 * j + 40)), 0⟩ with
    | .ok v => v.toNat
    | _ => 0) = total (fun j => (7 * j + 40) % 256) 32 := by
  decide +kernel

end Verif.Props
