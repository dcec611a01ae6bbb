import Verif.Fill
import Verif.Mem
import Verif.Model.Load
/-! # Loads (C01 to C05)

Generated by `tools/gen_props.py`. -/

set_option linter.unusedSimpArgs false
set_option linter.unusedVariables false

namespace Verif.Props
open Verif.Model Verif.Spec

/-- `vld1_u8` loads the 8 consecutive elements at the pointer; it is undefined if one of them is missing or uninitialised. -/
theorem vld1_u8_spec (ptr : Ptr .u8) : Loads ptr (vld1_u8 ptr) := by
  exact load1 ptr rfl

/-- `vld1_s8` loads the 8 consecutive elements at the pointer; it is undefined if one of them is missing or uninitialised. -/
theorem vld1_s8_spec (ptr : Ptr .s8) : Loads ptr (vld1_s8 ptr) := by
  exact load1 ptr rfl

/-- `vld1_u16` loads the 4 consecutive elements at the pointer; it is undefined if one of them is missing or uninitialised. -/
theorem vld1_u16_spec (ptr : Ptr .u16) : Loads ptr (vld1_u16 ptr) := by
  exact load1 ptr rfl

/-- `vld1_s16` loads the 4 consecutive elements at the pointer; it is undefined if one of them is missing or uninitialised. -/
theorem vld1_s16_spec (ptr : Ptr .s16) : Loads ptr (vld1_s16 ptr) := by
  exact load1 ptr rfl

/-- `vld1_u32` loads the 2 consecutive elements at the pointer; it is undefined if one of them is missing or uninitialised. -/
theorem vld1_u32_spec (ptr : Ptr .u32) : Loads ptr (vld1_u32 ptr) := by
  exact load1 ptr rfl

/-- `vld1_u64` loads the 1 consecutive elements at the pointer; it is undefined if one of them is missing or uninitialised. -/
theorem vld1_u64_spec (ptr : Ptr .u64) : Loads ptr (vld1_u64 ptr) := by
  exact load1 ptr rfl

/-- `vld1_s32` loads the 2 consecutive elements at the pointer; it is undefined if one of them is missing or uninitialised. -/
theorem vld1_s32_spec (ptr : Ptr .s32) : Loads ptr (vld1_s32 ptr) := by
  exact load1 ptr rfl

/-- `vld1_s64` loads the 1 consecutive elements at the pointer; it is undefined if one of them is missing or uninitialised. -/
theorem vld1_s64_spec (ptr : Ptr .s64) : Loads ptr (vld1_s64 ptr) := by
  exact load1 ptr rfl

/-- `vld1_f32` loads the 2 consecutive elements at the pointer; it is undefined if one of them is missing or uninitialised. -/
theorem vld1_f32_spec (ptr : Ptr .f32) : Loads ptr (vld1_f32 ptr) := by
  exact load1 ptr rfl

/-- `vld1_f64` loads the 1 consecutive elements at the pointer; it is undefined if one of them is missing or uninitialised. -/
theorem vld1_f64_spec (ptr : Ptr .f64) : Loads ptr (vld1_f64 ptr) := by
  have e : vld1_f64 ptr = ptr.get 0 >>= fun v => v.toBits .f64 >>= fun b => .ok ⟨fun _ => b⟩ := by
    show (ptr.get 0 >>= fun v => (Arr.undef : Arr .f64 1).set 0 v >>= fun D => D.ret) = _
    simp only [fill_single]
  have hok : ∀ x, Holds ptr 0 x → vld1_f64 ptr = .ok ⟨fun _ => x⟩ := by
    intro x hx
    rw [e, Ptr.get_holds (i := 0) rfl hx, ok_bind, toBits_ofBits]
    rfl
  have hub : ¬ Readable ptr 0 → ∃ u, vld1_f64 ptr = .ub u := by
    intro h
    obtain ⟨u, hu⟩ := Ptr.get_not (p := ptr) (i := 0) rfl h
    exact ⟨u, by rw [e, hu]; rfl⟩
  refine ⟨fun r => ⟨fun h i => ?_, fun h => ?_⟩, fun ⟨i, hi⟩ => hub (by rwa [Subsingleton.elim i 0] at hi)⟩
  · rw [Subsingleton.elim i 0]
    by_cases hr : Readable ptr 0
    · obtain ⟨x, hx⟩ := hr
      rw [hok x hx] at h
      cases h
      exact hx
    · obtain ⟨u, hu⟩ := hub hr
      rw [hu] at h
      cases h
  · rw [hok _ (h 0)]
    congr 1
    ext i
    rw [Subsingleton.elim i 0]

/-- `vld1q_u8` loads the 16 consecutive elements at the pointer; it is undefined if one of them is missing or uninitialised. -/
theorem vld1q_u8_spec (ptr : Ptr .u8) : Loads ptr (vld1q_u8 ptr) := by
  exact load1 ptr rfl

/-- `vld1q_s8` loads the 16 consecutive elements at the pointer; it is undefined if one of them is missing or uninitialised. -/
theorem vld1q_s8_spec (ptr : Ptr .s8) : Loads ptr (vld1q_s8 ptr) := by
  exact load1 ptr rfl

/-- `vld1q_u16` loads the 8 consecutive elements at the pointer; it is undefined if one of them is missing or uninitialised. -/
theorem vld1q_u16_spec (ptr : Ptr .u16) : Loads ptr (vld1q_u16 ptr) := by
  exact load1 ptr rfl

/-- `vld1q_s16` loads the 8 consecutive elements at the pointer; it is undefined if one of them is missing or uninitialised. -/
theorem vld1q_s16_spec (ptr : Ptr .s16) : Loads ptr (vld1q_s16 ptr) := by
  exact load1 ptr rfl

/-- `vld1q_u32` loads the 4 consecutive elements at the pointer; it is undefined if one of them is missing or uninitialised. -/
theorem vld1q_u32_spec (ptr : Ptr .u32) : Loads ptr (vld1q_u32 ptr) := by
  exact load1 ptr rfl

/-- `vld1q_s32` loads the 4 consecutive elements at the pointer; it is undefined if one of them is missing or uninitialised. -/
theorem vld1q_s32_spec (ptr : Ptr .s32) : Loads ptr (vld1q_s32 ptr) := by
  exact load1 ptr rfl

/-- `vld1q_s64` loads the 2 consecutive elements at the pointer; it is undefined if one of them is missing or uninitialised. -/
theorem vld1q_s64_spec (ptr : Ptr .s64) : Loads ptr (vld1q_s64 ptr) := by
  exact load1 ptr rfl

/-- `vld1q_u64` loads the 2 consecutive elements at the pointer; it is undefined if one of them is missing or uninitialised. -/
theorem vld1q_u64_spec (ptr : Ptr .u64) : Loads ptr (vld1q_u64 ptr) := by
  exact load1 ptr rfl

/-- `vld1q_f32` loads the 4 consecutive elements at the pointer; it is undefined if one of them is missing or uninitialised. -/
theorem vld1q_f32_spec (ptr : Ptr .f32) : Loads ptr (vld1q_f32 ptr) := by
  exact load1 ptr rfl

/-- `vld2_u8` de-interleaves the 16 elements at the pointer into 2 registers; it is undefined if one of them is missing or uninitialised. -/
theorem vld2_u8_spec (ptr : Ptr .u8) : LoadsK ptr (vld2_u8 ptr) := by
  exact load2 ptr rfl

/-- `vld2_s8` de-interleaves the 16 elements at the pointer into 2 registers; it is undefined if one of them is missing or uninitialised. -/
theorem vld2_s8_spec (ptr : Ptr .s8) : LoadsK ptr (vld2_s8 ptr) := by
  exact load2 ptr rfl

/-- `vld2_u16` de-interleaves the 8 elements at the pointer into 2 registers; it is undefined if one of them is missing or uninitialised. -/
theorem vld2_u16_spec (ptr : Ptr .u16) : LoadsK ptr (vld2_u16 ptr) := by
  exact load2 ptr rfl

/-- `vld2_s16` de-interleaves the 8 elements at the pointer into 2 registers; it is undefined if one of them is missing or uninitialised. -/
theorem vld2_s16_spec (ptr : Ptr .s16) : LoadsK ptr (vld2_s16 ptr) := by
  exact load2 ptr rfl

/-- `vld2_u32` de-interleaves the 4 elements at the pointer into 2 registers; it is undefined if one of them is missing or uninitialised. -/
theorem vld2_u32_spec (ptr : Ptr .u32) : LoadsK ptr (vld2_u32 ptr) := by
  exact load2 ptr rfl

/-- `vld_s32` de-interleaves the 4 elements at the pointer into 2 registers; it is undefined if one of them is missing or uninitialised. -/
theorem vld_s32_spec (ptr : Ptr .s32) : LoadsK ptr (vld_s32 ptr) := by
  exact load2 ptr rfl

/-- `vld2_f32` de-interleaves the 4 elements at the pointer into 2 registers; it is undefined if one of them is missing or uninitialised. -/
theorem vld2_f32_spec (ptr : Ptr .f32) : LoadsK ptr (vld2_f32 ptr) := by
  exact load2 ptr rfl

/-- `vld2q_u8` de-interleaves the 32 elements at the pointer into 2 registers; it is undefined if one of them is missing or uninitialised. -/
theorem vld2q_u8_spec (ptr : Ptr .u8) : LoadsK ptr (vld2q_u8 ptr) := by
  exact load2 ptr rfl

/-- `vld2q_s8` de-interleaves the 32 elements at the pointer into 2 registers; it is undefined if one of them is missing or uninitialised. -/
theorem vld2q_s8_spec (ptr : Ptr .s8) : LoadsK ptr (vld2q_s8 ptr) := by
  exact load2 ptr rfl

/-- `vld2q_u16` de-interleaves the 16 elements at the pointer into 2 registers; it is undefined if one of them is missing or uninitialised. -/
theorem vld2q_u16_spec (ptr : Ptr .u16) : LoadsK ptr (vld2q_u16 ptr) := by
  exact load2 ptr rfl

/-- `vld2q_s16` de-interleaves the 16 elements at the pointer into 2 registers; it is undefined if one of them is missing or uninitialised. -/
theorem vld2q_s16_spec (ptr : Ptr .s16) : LoadsK ptr (vld2q_s16 ptr) := by
  exact load2 ptr rfl

/-- `vld2q_u32` de-interleaves the 8 elements at the pointer into 2 registers; it is undefined if one of them is missing or uninitialised. -/
theorem vld2q_u32_spec (ptr : Ptr .u32) : LoadsK ptr (vld2q_u32 ptr) := by
  exact load2 ptr rfl

/-- `vld2q_s32` de-interleaves the 8 elements at the pointer into 2 registers; it is undefined if one of them is missing or uninitialised. -/
theorem vld2q_s32_spec (ptr : Ptr .s32) : LoadsK ptr (vld2q_s32 ptr) := by
  exact load2 ptr rfl

/-- `vld3_u8` de-interleaves the 24 elements at the pointer into 3 registers; it is undefined if one of them is missing or uninitialised. -/
theorem vld3_u8_spec (ptr : Ptr .u8) : LoadsK ptr (vld3_u8 ptr) := by
  exact load3 ptr rfl

/-- `vld3_s8` de-interleaves the 24 elements at the pointer into 3 registers; it is undefined if one of them is missing or uninitialised. -/
theorem vld3_s8_spec (ptr : Ptr .s8) : LoadsK ptr (vld3_s8 ptr) := by
  exact load3 ptr rfl

/-- `vld3_u16` de-interleaves the 12 elements at the pointer into 3 registers; it is undefined if one of them is missing or uninitialised. -/
theorem vld3_u16_spec (ptr : Ptr .u16) : LoadsK ptr (vld3_u16 ptr) := by
  exact load3 ptr rfl

/-- `vld3_s16` de-interleaves the 12 elements at the pointer into 3 registers; it is undefined if one of them is missing or uninitialised. -/
theorem vld3_s16_spec (ptr : Ptr .s16) : LoadsK ptr (vld3_s16 ptr) := by
  exact load3 ptr rfl

/-- `vld3_u32` de-interleaves the 6 elements at the pointer into 3 registers; it is undefined if one of them is missing or uninitialised. -/
theorem vld3_u32_spec (ptr : Ptr .u32) : LoadsK ptr (vld3_u32 ptr) := by
  exact load3 ptr rfl

/-- `vld3_s32` de-interleaves the 6 elements at the pointer into 3 registers; it is undefined if one of them is missing or uninitialised. -/
theorem vld3_s32_spec (ptr : Ptr .s32) : LoadsK ptr (vld3_s32 ptr) := by
  exact load3 ptr rfl

/-- `vld3_f32` de-interleaves the 6 elements at the pointer into 3 registers; it is undefined if one of them is missing or uninitialised. -/
theorem vld3_f32_spec (ptr : Ptr .f32) : LoadsK ptr (vld3_f32 ptr) := by
  exact load3 ptr rfl

/-- `vld3q_u8` de-interleaves the 48 elements at the pointer into 3 registers; it is undefined if one of them is missing or uninitialised. -/
theorem vld3q_u8_spec (ptr : Ptr .u8) : LoadsK ptr (vld3q_u8 ptr) := by
  exact load3 ptr rfl

/-- `vld3q_s8` de-interleaves the 48 elements at the pointer into 3 registers; it is undefined if one of them is missing or uninitialised. -/
theorem vld3q_s8_spec (ptr : Ptr .s8) : LoadsK ptr (vld3q_s8 ptr) := by
  exact load3 ptr rfl

/-- `vld3q_u16` de-interleaves the 24 elements at the pointer into 3 registers; it is undefined if one of them is missing or uninitialised. -/
theorem vld3q_u16_spec (ptr : Ptr .u16) : LoadsK ptr (vld3q_u16 ptr) := by
  exact load3 ptr rfl

/-- `vld3q_s16` de-interleaves the 24 elements at the pointer into 3 registers; it is undefined if one of them is missing or uninitialised. -/
theorem vld3q_s16_spec (ptr : Ptr .s16) : LoadsK ptr (vld3q_s16 ptr) := by
  exact load3 ptr rfl

/-- `vld3q_u32` de-interleaves the 12 elements at the pointer into 3 registers; it is undefined if one of them is missing or uninitialised. -/
theorem vld3q_u32_spec (ptr : Ptr .u32) : LoadsK ptr (vld3q_u32 ptr) := by
  exact load3 ptr rfl

/-- `vld3q_s32` de-interleaves the 12 elements at the pointer into 3 registers; it is undefined if one of them is missing or uninitialised. -/
theorem vld3q_s32_spec (ptr : Ptr .s32) : LoadsK ptr (vld3q_s32 ptr) := by
  exact load3 ptr rfl

/-- `vld4_u8` de-interleaves the 32 elements at the pointer into 4 registers; it is undefined if one of them is missing or uninitialised. -/
theorem vld4_u8_spec (ptr : Ptr .u8) : LoadsK ptr (vld4_u8 ptr) := by
  exact load4 ptr rfl

/-- `vld4_s8` de-interleaves the 32 elements at the pointer into 4 registers; it is undefined if one of them is missing or uninitialised. -/
theorem vld4_s8_spec (ptr : Ptr .s8) : LoadsK ptr (vld4_s8 ptr) := by
  exact load4 ptr rfl

/-- `vld4_u16` de-interleaves the 16 elements at the pointer into 4 registers; it is undefined if one of them is missing or uninitialised. -/
theorem vld4_u16_spec (ptr : Ptr .u16) : LoadsK ptr (vld4_u16 ptr) := by
  exact load4 ptr rfl

/-- `vld4_s16` de-interleaves the 16 elements at the pointer into 4 registers; it is undefined if one of them is missing or uninitialised. -/
theorem vld4_s16_spec (ptr : Ptr .s16) : LoadsK ptr (vld4_s16 ptr) := by
  exact load4 ptr rfl

/-- `vld4_u32` de-interleaves the 8 elements at the pointer into 4 registers; it is undefined if one of them is missing or uninitialised. -/
theorem vld4_u32_spec (ptr : Ptr .u32) : LoadsK ptr (vld4_u32 ptr) := by
  exact load4 ptr rfl

/-- `vld4_s32` de-interleaves the 8 elements at the pointer into 4 registers; it is undefined if one of them is missing or uninitialised. -/
theorem vld4_s32_spec (ptr : Ptr .s32) : LoadsK ptr (vld4_s32 ptr) := by
  exact load4 ptr rfl

/-- `vld4_f32` de-interleaves the 8 elements at the pointer into 4 registers; it is undefined if one of them is missing or uninitialised. -/
theorem vld4_f32_spec (ptr : Ptr .f32) : LoadsK ptr (vld4_f32 ptr) := by
  exact load4 ptr rfl

/-- `vld4q_u8` de-interleaves the 64 elements at the pointer into 4 registers; it is undefined if one of them is missing or uninitialised. -/
theorem vld4q_u8_spec (ptr : Ptr .u8) : LoadsK ptr (vld4q_u8 ptr) := by
  exact load4 ptr rfl

/-- `vld4q_s8` de-interleaves the 64 elements at the pointer into 4 registers; it is undefined if one of them is missing or uninitialised. -/
theorem vld4q_s8_spec (ptr : Ptr .s8) : LoadsK ptr (vld4q_s8 ptr) := by
  exact load4 ptr rfl

/-- `vld4q_u16` de-interleaves the 32 elements at the pointer into 4 registers; it is undefined if one of them is missing or uninitialised. -/
theorem vld4q_u16_spec (ptr : Ptr .u16) : LoadsK ptr (vld4q_u16 ptr) := by
  exact load4 ptr rfl

/-- `vld4q_s16` de-interleaves the 32 elements at the pointer into 4 registers; it is undefined if one of them is missing or uninitialised. -/
theorem vld4q_s16_spec (ptr : Ptr .s16) : LoadsK ptr (vld4q_s16 ptr) := by
  exact load4 ptr rfl

/-- `vld4q_u32` de-interleaves the 16 elements at the pointer into 4 registers; it is undefined if one of them is missing or uninitialised. -/
theorem vld4q_u32_spec (ptr : Ptr .u32) : LoadsK ptr (vld4q_u32 ptr) := by
  exact load4 ptr rfl

/-- `vld4q_s32` de-interleaves the 16 elements at the pointer into 4 registers; it is undefined if one of them is missing or uninitialised. -/
theorem vld4q_s32_spec (ptr : Ptr .s32) : LoadsK ptr (vld4q_s32 ptr) := by
  exact load4 ptr rfl

/-- A buffer of five elements, the last one uninitialised; the pointer is at the second. -/
def demoBuf : Ptr .u16 := ⟨[some 7, some 10, some 20, some 30, some 40, none], 1⟩
example : vld1_u16 demoBuf = .ok ⟨fun i => [10#16, 20#16, 30#16, 40#16][i]⟩ :=
  ((vld1_u16_spec demoBuf).1 _).2 (by decide)
example : ∃ u, vld1q_u16 demoBuf = .ub u :=
  (vld1q_u16_spec demoBuf).2 ⟨4, by rintro ⟨x, hx⟩; cases hx⟩

/-- `vld1q_dup_f32` copies the element at the pointer to every lane; it is undefined if the element is missing or uninitialised. -/
theorem vld1q_dup_f32_spec (ptr : Ptr .f32) :
    (∀ x, Holds ptr 0 x → vld1q_dup_f32 ptr = .ok ⟨fun _ => x⟩) ∧
    (¬ Readable ptr 0 → ∃ u, vld1q_dup_f32 ptr = .ub u) := by
  exact ⟨fun x hx => ((loadDup ptr rfl).1 ⟨fun _ => x⟩).2 fun _ => hx, fun h => (loadDup ptr rfl).2 ⟨0, h⟩⟩

/-- `vld1_lane_s8` replaces lane `lane` by the element at the pointer and keeps every other lane, for a lane index in `[0, 7]`. -/
theorem vld1_lane_s8_spec (ptr : Ptr .s8) (src : int8x8_t) (lane : Int) (l : Fin 8) (hl : lane = l.val) (x : BitVec 8)
    (hx : Holds ptr 0 x) :
    vld1_lane_s8 ptr src lane = .ok ⟨fun i => if i = l then x else src.lane i⟩ := by
  unfold vld1_lane_s8
  show (cfor 0 8 1 Arr.undef _ >>= fun D => ptr.get 0 >>= fun v => D.set lane v >>= fun D => D.ret) = _
  rw [cfor_one 8 8 rfl]
  have e := iter_inv (body := fun (k : Nat) (r : Arr .s8 8) => (do let r ← r.set (k : Int) (← src.get (k : Int)); pure r : C (Arr .s8 8)))
    (Arr.upto src.lane) (n := 8) fun k hk => by
      rw [← Arr.upto_put src.lane k hk, Vec.get_at src k hk rfl]
      exact Arr.set_copy (Arr.upto src.lane k) ⟨k, hk⟩ (src.lane ⟨k, hk⟩)
  rw [Arr.upto_zero] at e
  rw [e, ok_bind]
  rw [Ptr.get_holds (i := 0) rfl hx, ok_bind, hl, Arr.set_copy, ok_bind]
  apply Arr.ret_some
  funext i
  simp only [Arr.put, Arr.upto]
  split
  · rfl
  · rw [if_pos i.isLt]
example := vld1_lane_s8_spec ⟨[some 9], 0⟩ (⟨fun i => BitVec.ofNat 8 (4 + i.val)⟩) 2 2 (by decide) 9 (by decide)

/-- `vld1_lane_s8` is undefined when the element at the pointer is missing or uninitialised. -/
theorem vld1_lane_s8_unreadable (ptr : Ptr .s8) (src : int8x8_t) (lane : Int) (hx : ¬ Readable ptr 0) :
    ∃ u, vld1_lane_s8 ptr src lane = .ub u := by
  obtain ⟨u, hu⟩ := Ptr.get_not (p := ptr) (i := 0) rfl hx
  refine ⟨u, ?_⟩
  unfold vld1_lane_s8
  show (cfor 0 8 1 Arr.undef _ >>= fun D => ptr.get 0 >>= fun v => D.set lane v >>= fun D => D.ret) = _
  rw [cfor_one 8 8 rfl]
  have e := iter_inv (body := fun (k : Nat) (r : Arr .s8 8) => (do let r ← r.set (k : Int) (← src.get (k : Int)); pure r : C (Arr .s8 8)))
    (Arr.upto src.lane) (n := 8) fun k hk => by
      rw [← Arr.upto_put src.lane k hk, Vec.get_at src k hk rfl]
      exact Arr.set_copy (Arr.upto src.lane k) ⟨k, hk⟩ (src.lane ⟨k, hk⟩)
  rw [Arr.upto_zero] at e
  rw [e, ok_bind]
  rw [hu]
  rfl
example := vld1_lane_s8_unreadable ⟨[none], 0⟩ (⟨fun i => BitVec.ofNat 8 (4 + i.val)⟩) 2 (by rintro ⟨x, hx⟩; cases hx)

/-- `vld1_lane_s8` does not reject an out-of-range lane index: it has undefined behaviour (it writes outside the register). -/
theorem vld1_lane_s8_oob (ptr : Ptr .s8) (src : int8x8_t) (lane : Int) (hl : ¬ (0 ≤ lane ∧ lane < 8)) :
    ∃ u, vld1_lane_s8 ptr src lane = .ub u := by
  by_cases hx : Readable ptr 0
  · obtain ⟨x, hx⟩ := hx
    refine ⟨.outOfBounds, ?_⟩
    unfold vld1_lane_s8
    show (cfor 0 8 1 Arr.undef _ >>= fun D => ptr.get 0 >>= fun v => D.set lane v >>= fun D => D.ret) = _
    rw [cfor_one 8 8 rfl]
    have e := iter_inv (body := fun (k : Nat) (r : Arr .s8 8) => (do let r ← r.set (k : Int) (← src.get (k : Int)); pure r : C (Arr .s8 8)))
      (Arr.upto src.lane) (n := 8) fun k hk => by
        rw [← Arr.upto_put src.lane k hk, Vec.get_at src k hk rfl]
        exact Arr.set_copy (Arr.upto src.lane k) ⟨k, hk⟩ (src.lane ⟨k, hk⟩)
    rw [Arr.upto_zero] at e
    rw [e, ok_bind]
    rw [Ptr.get_holds (i := 0) rfl hx, ok_bind]
    unfold Arr.set
    rw [dif_neg (by simpa using hl)]
    rfl
  · exact vld1_lane_s8_unreadable ptr src lane hx
example := vld1_lane_s8_oob ⟨List.replicate 66 none, 1⟩ (⟨fun i => BitVec.ofNat 8 (4 + i.val)⟩) (-1) (by decide)

/-- `vld1_lane_u8` replaces lane `lane` by the element at the pointer and keeps every other lane, for a lane index in `[0, 7]`. -/
theorem vld1_lane_u8_spec (ptr : Ptr .u8) (src : uint8x8_t) (lane : Int) (l : Fin 8) (hl : lane = l.val) (x : BitVec 8)
    (hx : Holds ptr 0 x) :
    vld1_lane_u8 ptr src lane = .ok ⟨fun i => if i = l then x else src.lane i⟩ := by
  unfold vld1_lane_u8
  show (cfor 0 8 1 Arr.undef _ >>= fun D => ptr.get 0 >>= fun v => D.set lane v >>= fun D => D.ret) = _
  rw [cfor_one 8 8 rfl]
  have e := iter_inv (body := fun (k : Nat) (r : Arr .u8 8) => (do let r ← r.set (k : Int) (← src.get (k : Int)); pure r : C (Arr .u8 8)))
    (Arr.upto src.lane) (n := 8) fun k hk => by
      rw [← Arr.upto_put src.lane k hk, Vec.get_at src k hk rfl]
      exact Arr.set_copy (Arr.upto src.lane k) ⟨k, hk⟩ (src.lane ⟨k, hk⟩)
  rw [Arr.upto_zero] at e
  rw [e, ok_bind]
  rw [Ptr.get_holds (i := 0) rfl hx, ok_bind, hl, Arr.set_copy, ok_bind]
  apply Arr.ret_some
  funext i
  simp only [Arr.put, Arr.upto]
  split
  · rfl
  · rw [if_pos i.isLt]
example := vld1_lane_u8_spec ⟨[some 9], 0⟩ (⟨fun i => BitVec.ofNat 8 (4 + i.val)⟩) 2 2 (by decide) 9 (by decide)

/-- `vld1_lane_u8` is undefined when the element at the pointer is missing or uninitialised. -/
theorem vld1_lane_u8_unreadable (ptr : Ptr .u8) (src : uint8x8_t) (lane : Int) (hx : ¬ Readable ptr 0) :
    ∃ u, vld1_lane_u8 ptr src lane = .ub u := by
  obtain ⟨u, hu⟩ := Ptr.get_not (p := ptr) (i := 0) rfl hx
  refine ⟨u, ?_⟩
  unfold vld1_lane_u8
  show (cfor 0 8 1 Arr.undef _ >>= fun D => ptr.get 0 >>= fun v => D.set lane v >>= fun D => D.ret) = _
  rw [cfor_one 8 8 rfl]
  have e := iter_inv (body := fun (k : Nat) (r : Arr .u8 8) => (do let r ← r.set (k : Int) (← src.get (k : Int)); pure r : C (Arr .u8 8)))
    (Arr.upto src.lane) (n := 8) fun k hk => by
      rw [← Arr.upto_put src.lane k hk, Vec.get_at src k hk rfl]
      exact Arr.set_copy (Arr.upto src.lane k) ⟨k, hk⟩ (src.lane ⟨k, hk⟩)
  rw [Arr.upto_zero] at e
  rw [e, ok_bind]
  rw [hu]
  rfl
example := vld1_lane_u8_unreadable ⟨[none], 0⟩ (⟨fun i => BitVec.ofNat 8 (4 + i.val)⟩) 2 (by rintro ⟨x, hx⟩; cases hx)

/-- `vld1_lane_u8` does not reject an out-of-range lane index: it has undefined behaviour (it writes outside the register). -/
theorem vld1_lane_u8_oob (ptr : Ptr .u8) (src : uint8x8_t) (lane : Int) (hl : ¬ (0 ≤ lane ∧ lane < 8)) :
    ∃ u, vld1_lane_u8 ptr src lane = .ub u := by
  by_cases hx : Readable ptr 0
  · obtain ⟨x, hx⟩ := hx
    refine ⟨.outOfBounds, ?_⟩
    unfold vld1_lane_u8
    show (cfor 0 8 1 Arr.undef _ >>= fun D => ptr.get 0 >>= fun v => D.set lane v >>= fun D => D.ret) = _
    rw [cfor_one 8 8 rfl]
    have e := iter_inv (body := fun (k : Nat) (r : Arr .u8 8) => (do let r ← r.set (k : Int) (← src.get (k : Int)); pure r : C (Arr .u8 8)))
      (Arr.upto src.lane) (n := 8) fun k hk => by
        rw [← Arr.upto_put src.lane k hk, Vec.get_at src k hk rfl]
        exact Arr.set_copy (Arr.upto src.lane k) ⟨k, hk⟩ (src.lane ⟨k, hk⟩)
    rw [Arr.upto_zero] at e
    rw [e, ok_bind]
    rw [Ptr.get_holds (i := 0) rfl hx, ok_bind]
    unfold Arr.set
    rw [dif_neg (by simpa using hl)]
    rfl
  · exact vld1_lane_u8_unreadable ptr src lane hx
example := vld1_lane_u8_oob ⟨List.replicate 66 none, 1⟩ (⟨fun i => BitVec.ofNat 8 (4 + i.val)⟩) (-1) (by decide)

example : vld1_lane_u8 ⟨[some 9], 0⟩ ⟨fun i => BitVec.ofNat 8 i⟩ 3 = .ok ⟨fun i => if i = 3 then 9#8 else BitVec.ofNat 8 i⟩ :=
  vld1_lane_u8_spec _ _ 3 3 rfl 9#8 rfl

/-- `vld2_lane_u8` replaces lane `lane` of register `j` by element `j` at the pointer and keeps every other lane, for a lane index in `[0, 7]`; it is undefined when one of the 2 elements is missing or uninitialised. -/
theorem vld2_lane_u8_spec (ptr : Ptr .u8) (src : uint8x8x2_t) (lane : Int) (l : Fin 8) (hl : lane = l.val) :
    (∀ x : Fin 2 → BitVec 8, (∀ j : Fin 2, Holds ptr j (x j)) →
      vld2_lane_u8 ptr src lane = .ok ⟨fun j => ⟨fun i => if i = l then x j else (src.reg j).lane i⟩⟩) ∧
    ((∃ j : Fin 2, ¬ Readable ptr j) → ∃ u, vld2_lane_u8 ptr src lane = .ub u) := by
  have hg : ¬ ¬ (lane ≥ 0 ∧ lane ≤ 7) := by have := l.isLt; omega
  unfold vld2_lane_u8
  simp only [if_neg hg]
  exact laneK ptr src l hl rfl rfl
example := vld2_lane_u8_spec ⟨List.replicate 66 none, 1⟩ (⟨fun j => ⟨fun i => BitVec.ofNat 8 (4 + 40 * j.val + i.val)⟩⟩) 2 2 (by decide)

/-- `vld2_lane_u8` aborts with a diagnostic, before any memory access, on every out-of-range lane index. -/
theorem vld2_lane_u8_abort (ptr : Ptr .u8) (src : uint8x8x2_t) (lane : Int) (hl : ¬ (0 ≤ lane ∧ lane ≤ 7)) :
    vld2_lane_u8 ptr src lane = .abort "only support [0, 7] for param lane\n" := by
  exact if_pos (by omega)
example := vld2_lane_u8_abort ⟨List.replicate 66 none, 1⟩ (⟨fun j => ⟨fun i => BitVec.ofNat 8 (4 + 40 * j.val + i.val)⟩⟩) (-1) (by decide)

/-- `vld3_lane_u8` replaces lane `lane` of register `j` by element `j` at the pointer and keeps every other lane, for a lane index in `[0, 7]`; it is undefined when one of the 3 elements is missing or uninitialised. -/
theorem vld3_lane_u8_spec (ptr : Ptr .u8) (src : uint8x8x3_t) (lane : Int) (l : Fin 8) (hl : lane = l.val) :
    (∀ x : Fin 3 → BitVec 8, (∀ j : Fin 3, Holds ptr j (x j)) →
      vld3_lane_u8 ptr src lane = .ok ⟨fun j => ⟨fun i => if i = l then x j else (src.reg j).lane i⟩⟩) ∧
    ((∃ j : Fin 3, ¬ Readable ptr j) → ∃ u, vld3_lane_u8 ptr src lane = .ub u) := by
  have hg : ¬ ¬ (lane ≥ 0 ∧ lane ≤ 7) := by have := l.isLt; omega
  unfold vld3_lane_u8
  simp only [if_neg hg]
  exact laneK ptr src l hl rfl rfl
example := vld3_lane_u8_spec ⟨List.replicate 66 none, 1⟩ (⟨fun j => ⟨fun i => BitVec.ofNat 8 (4 + 40 * j.val + i.val)⟩⟩) 2 2 (by decide)

/-- `vld3_lane_u8` aborts with a diagnostic, before any memory access, on every out-of-range lane index. -/
theorem vld3_lane_u8_abort (ptr : Ptr .u8) (src : uint8x8x3_t) (lane : Int) (hl : ¬ (0 ≤ lane ∧ lane ≤ 7)) :
    vld3_lane_u8 ptr src lane = .abort "only support [0, 7] for param lane\n" := by
  exact if_pos (by omega)
example := vld3_lane_u8_abort ⟨List.replicate 66 none, 1⟩ (⟨fun j => ⟨fun i => BitVec.ofNat 8 (4 + 40 * j.val + i.val)⟩⟩) (-1) (by decide)

/-- `vld4_lane_u8` replaces lane `lane` of register `j` by element `j` at the pointer and keeps every other lane, for a lane index in `[0, 7]`; it is undefined when one of the 4 elements is missing or uninitialised. -/
theorem vld4_lane_u8_spec (ptr : Ptr .u8) (src : uint8x8x4_t) (lane : Int) (l : Fin 8) (hl : lane = l.val) :
    (∀ x : Fin 4 → BitVec 8, (∀ j : Fin 4, Holds ptr j (x j)) →
      vld4_lane_u8 ptr src lane = .ok ⟨fun j => ⟨fun i => if i = l then x j else (src.reg j).lane i⟩⟩) ∧
    ((∃ j : Fin 4, ¬ Readable ptr j) → ∃ u, vld4_lane_u8 ptr src lane = .ub u) := by
  have hg : ¬ ¬ (lane ≥ 0 ∧ lane ≤ 7) := by have := l.isLt; omega
  unfold vld4_lane_u8
  simp only [if_neg hg]
  exact laneK ptr src l hl rfl rfl
example := vld4_lane_u8_spec ⟨List.replicate 66 none, 1⟩ (⟨fun j => ⟨fun i => BitVec.ofNat 8 (4 + 40 * j.val + i.val)⟩⟩) 2 2 (by decide)

/-- `vld4_lane_u8` aborts with a diagnostic, before any memory access, on every out-of-range lane index. -/
theorem vld4_lane_u8_abort (ptr : Ptr .u8) (src : uint8x8x4_t) (lane : Int) (hl : ¬ (0 ≤ lane ∧ lane ≤ 7)) :
    vld4_lane_u8 ptr src lane = .abort "only support [0, 7] for param lane\n" := by
  exact if_pos (by omega)
example := vld4_lane_u8_abort ⟨List.replicate 66 none, 1⟩ (⟨fun j => ⟨fun i => BitVec.ofNat 8 (4 + 40 * j.val + i.val)⟩⟩) (-1) (by decide)

example : vld2_lane_u8 ⟨[some 9, some 8], 0⟩ ⟨fun j => ⟨fun i => BitVec.ofNat 8 (8 * j + i)⟩⟩ 7 =
    .ok ⟨fun j => ⟨fun i => if i = 7 then [9#8, 8#8][j] else BitVec.ofNat 8 (8 * j + i)⟩⟩ :=
  (vld2_lane_u8_spec _ _ 7 7 rfl).1 (fun j => [9#8, 8#8][j]) (by decide)

end Verif.Props
