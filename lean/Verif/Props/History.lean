import Verif.Fill
import Verif.Props.Store
/-! # Histories of stores (C09)

Generated by `tools/gen_props.py`. -/

set_option linter.unusedSimpArgs false
set_option linter.unusedVariables false

namespace Verif.Props
open Verif.Model Verif.Spec

/-- A call of a store intrinsic on some pointer: which one, and its operands. -/
inductive StoreCall : Elem → Type
  | vst1_u8 (val : uint8x8_t) : StoreCall .u8
  | vst1_s8 (val : int8x8_t) : StoreCall .s8
  | vst1_u16 (val : uint16x4_t) : StoreCall .u16
  | vst1_s16 (val : int16x4_t) : StoreCall .s16
  | vst1_u32 (val : uint32x2_t) : StoreCall .u32
  | vst1_s32 (val : int32x2_t) : StoreCall .s32
  | vst1_s64 (val : int64x1_t) : StoreCall .s64
  | vst1_u64 (val : uint64x1_t) : StoreCall .u64
  | vst1q_u8 (val : uint8x16_t) : StoreCall .u8
  | vst1q_s8 (val : int8x16_t) : StoreCall .s8
  | vst1q_u16 (val : uint16x8_t) : StoreCall .u16
  | vst1q_s16 (val : int16x8_t) : StoreCall .s16
  | vst1q_u32 (val : uint32x4_t) : StoreCall .u32
  | vst1q_s32 (val : int32x4_t) : StoreCall .s32
  | vst1q_s64 (val : int64x2_t) : StoreCall .s64
  | vst1q_u64 (val : uint64x2_t) : StoreCall .u64
  | vst1q_f32 (val : float32x4_t) : StoreCall .f32
  | vst2_s8 (val : int8x8x2_t) : StoreCall .s8
  | vst2_s16 (val : int16x4x2_t) : StoreCall .s16
  | vst2_s32 (val : int32x2x2_t) : StoreCall .s32
  | vst2_u8 (val : uint8x8x2_t) : StoreCall .u8
  | vst2_u16 (val : uint16x4x2_t) : StoreCall .u16
  | vst2_u32 (val : uint32x2x2_t) : StoreCall .u32
  | vst2q_s8 (val : int8x16x2_t) : StoreCall .s8
  | vst2q_s16 (val : int16x8x2_t) : StoreCall .s16
  | vst2q_s32 (val : int32x4x2_t) : StoreCall .s32
  | vst2q_u8 (val : uint8x16x2_t) : StoreCall .u8
  | vst2q_u16 (val : uint16x8x2_t) : StoreCall .u16
  | vst2q_u32 (val : uint32x4x2_t) : StoreCall .u32
  | vst3_s8 (val : int8x8x3_t) : StoreCall .s8
  | vst3_s16 (val : int16x4x3_t) : StoreCall .s16
  | vst3_s32 (val : int32x2x3_t) : StoreCall .s32
  | vst3_u8 (val : uint8x8x3_t) : StoreCall .u8
  | vst3_u16 (val : uint16x4x3_t) : StoreCall .u16
  | vst3_u32 (val : uint32x2x3_t) : StoreCall .u32
  | vst3q_s8 (val : int8x16x3_t) : StoreCall .s8
  | vst3q_s16 (val : int16x8x3_t) : StoreCall .s16
  | vst3q_s32 (val : int32x4x3_t) : StoreCall .s32
  | vst3q_u8 (val : uint8x16x3_t) : StoreCall .u8
  | vst3q_u16 (val : uint16x8x3_t) : StoreCall .u16
  | vst3q_u32 (val : uint32x4x3_t) : StoreCall .u32
  | vst4_s8 (val : int8x8x4_t) : StoreCall .s8
  | vst4_s16 (val : int16x4x4_t) : StoreCall .s16
  | vst4_s32 (val : int32x2x4_t) : StoreCall .s32
  | vst4_u8 (val : uint8x8x4_t) : StoreCall .u8
  | vst4_u16 (val : uint16x4x4_t) : StoreCall .u16
  | vst4_u32 (val : uint32x2x4_t) : StoreCall .u32
  | vst4q_s8 (val : int8x16x4_t) : StoreCall .s8
  | vst4q_s16 (val : int16x8x4_t) : StoreCall .s16
  | vst4q_s32 (val : int32x4x4_t) : StoreCall .s32
  | vst4q_u8 (val : uint8x16x4_t) : StoreCall .u8
  | vst4q_u16 (val : uint16x8x4_t) : StoreCall .u16
  | vst4q_u32 (val : uint32x4x4_t) : StoreCall .u32
  | vst4q_lane_f32 (val : float32x4x4_t) (lane : Int) : StoreCall .f32

namespace StoreCall

/-- Executing the call on a pointer. -/
def exec : {e : Elem} → StoreCall e → Ptr e → C (Ptr e)
  | _, .vst1_u8 val, p => Model.vst1_u8 p val
  | _, .vst1_s8 val, p => Model.vst1_s8 p val
  | _, .vst1_u16 val, p => Model.vst1_u16 p val
  | _, .vst1_s16 val, p => Model.vst1_s16 p val
  | _, .vst1_u32 val, p => Model.vst1_u32 p val
  | _, .vst1_s32 val, p => Model.vst1_s32 p val
  | _, .vst1_s64 val, p => Model.vst1_s64 p val
  | _, .vst1_u64 val, p => Model.vst1_u64 p val
  | _, .vst1q_u8 val, p => Model.vst1q_u8 p val
  | _, .vst1q_s8 val, p => Model.vst1q_s8 p val
  | _, .vst1q_u16 val, p => Model.vst1q_u16 p val
  | _, .vst1q_s16 val, p => Model.vst1q_s16 p val
  | _, .vst1q_u32 val, p => Model.vst1q_u32 p val
  | _, .vst1q_s32 val, p => Model.vst1q_s32 p val
  | _, .vst1q_s64 val, p => Model.vst1q_s64 p val
  | _, .vst1q_u64 val, p => Model.vst1q_u64 p val
  | _, .vst1q_f32 val, p => Model.vst1q_f32 p val
  | _, .vst2_s8 val, p => Model.vst2_s8 p val
  | _, .vst2_s16 val, p => Model.vst2_s16 p val
  | _, .vst2_s32 val, p => Model.vst2_s32 p val
  | _, .vst2_u8 val, p => Model.vst2_u8 p val
  | _, .vst2_u16 val, p => Model.vst2_u16 p val
  | _, .vst2_u32 val, p => Model.vst2_u32 p val
  | _, .vst2q_s8 val, p => Model.vst2q_s8 p val
  | _, .vst2q_s16 val, p => Model.vst2q_s16 p val
  | _, .vst2q_s32 val, p => Model.vst2q_s32 p val
  | _, .vst2q_u8 val, p => Model.vst2q_u8 p val
  | _, .vst2q_u16 val, p => Model.vst2q_u16 p val
  | _, .vst2q_u32 val, p => Model.vst2q_u32 p val
  | _, .vst3_s8 val, p => Model.vst3_s8 p val
  | _, .vst3_s16 val, p => Model.vst3_s16 p val
  | _, .vst3_s32 val, p => Model.vst3_s32 p val
  | _, .vst3_u8 val, p => Model.vst3_u8 p val
  | _, .vst3_u16 val, p => Model.vst3_u16 p val
  | _, .vst3_u32 val, p => Model.vst3_u32 p val
  | _, .vst3q_s8 val, p => Model.vst3q_s8 p val
  | _, .vst3q_s16 val, p => Model.vst3q_s16 p val
  | _, .vst3q_s32 val, p => Model.vst3q_s32 p val
  | _, .vst3q_u8 val, p => Model.vst3q_u8 p val
  | _, .vst3q_u16 val, p => Model.vst3q_u16 p val
  | _, .vst3q_u32 val, p => Model.vst3q_u32 p val
  | _, .vst4_s8 val, p => Model.vst4_s8 p val
  | _, .vst4_s16 val, p => Model.vst4_s16 p val
  | _, .vst4_s32 val, p => Model.vst4_s32 p val
  | _, .vst4_u8 val, p => Model.vst4_u8 p val
  | _, .vst4_u16 val, p => Model.vst4_u16 p val
  | _, .vst4_u32 val, p => Model.vst4_u32 p val
  | _, .vst4q_s8 val, p => Model.vst4q_s8 p val
  | _, .vst4q_s16 val, p => Model.vst4q_s16 p val
  | _, .vst4q_s32 val, p => Model.vst4q_s32 p val
  | _, .vst4q_u8 val, p => Model.vst4q_u8 p val
  | _, .vst4q_u16 val, p => Model.vst4q_u16 p val
  | _, .vst4q_u32 val, p => Model.vst4q_u32 p val
  | _, .vst4q_lane_f32 val lane, p => Model.vst4q_lane_f32 p val lane

/-- Number of consecutive elements the intrinsic is specified to write: lanes times registers. -/
@[reducible] def size : {e : Elem} → StoreCall e → Nat
  | _, .vst1_u8 _ => 8
  | _, .vst1_s8 _ => 8
  | _, .vst1_u16 _ => 4
  | _, .vst1_s16 _ => 4
  | _, .vst1_u32 _ => 2
  | _, .vst1_s32 _ => 2
  | _, .vst1_s64 _ => 1
  | _, .vst1_u64 _ => 1
  | _, .vst1q_u8 _ => 16
  | _, .vst1q_s8 _ => 16
  | _, .vst1q_u16 _ => 8
  | _, .vst1q_s16 _ => 8
  | _, .vst1q_u32 _ => 4
  | _, .vst1q_s32 _ => 4
  | _, .vst1q_s64 _ => 2
  | _, .vst1q_u64 _ => 2
  | _, .vst1q_f32 _ => 4
  | _, .vst2_s8 _ => 8 * 2
  | _, .vst2_s16 _ => 4 * 2
  | _, .vst2_s32 _ => 2 * 2
  | _, .vst2_u8 _ => 8 * 2
  | _, .vst2_u16 _ => 4 * 2
  | _, .vst2_u32 _ => 2 * 2
  | _, .vst2q_s8 _ => 16 * 2
  | _, .vst2q_s16 _ => 8 * 2
  | _, .vst2q_s32 _ => 4 * 2
  | _, .vst2q_u8 _ => 16 * 2
  | _, .vst2q_u16 _ => 8 * 2
  | _, .vst2q_u32 _ => 4 * 2
  | _, .vst3_s8 _ => 8 * 3
  | _, .vst3_s16 _ => 4 * 3
  | _, .vst3_s32 _ => 2 * 3
  | _, .vst3_u8 _ => 8 * 3
  | _, .vst3_u16 _ => 4 * 3
  | _, .vst3_u32 _ => 2 * 3
  | _, .vst3q_s8 _ => 16 * 3
  | _, .vst3q_s16 _ => 8 * 3
  | _, .vst3q_s32 _ => 4 * 3
  | _, .vst3q_u8 _ => 16 * 3
  | _, .vst3q_u16 _ => 8 * 3
  | _, .vst3q_u32 _ => 4 * 3
  | _, .vst4_s8 _ => 8 * 4
  | _, .vst4_s16 _ => 4 * 4
  | _, .vst4_s32 _ => 2 * 4
  | _, .vst4_u8 _ => 8 * 4
  | _, .vst4_u16 _ => 4 * 4
  | _, .vst4_u32 _ => 2 * 4
  | _, .vst4q_s8 _ => 16 * 4
  | _, .vst4q_s16 _ => 8 * 4
  | _, .vst4q_s32 _ => 4 * 4
  | _, .vst4q_u8 _ => 16 * 4
  | _, .vst4q_u16 _ => 8 * 4
  | _, .vst4q_u32 _ => 4 * 4
  | _, .vst4q_lane_f32 _ _ => 4

/-- The block of elements the intrinsic is specified to write: the lanes, interleaved. -/
def block : {e : Elem} → (c : StoreCall e) → Fin c.size → BitVec e.bits
  | _, .vst1_u8 val, t => val.lane t
  | _, .vst1_s8 val, t => val.lane t
  | _, .vst1_u16 val, t => val.lane t
  | _, .vst1_s16 val, t => val.lane t
  | _, .vst1_u32 val, t => val.lane t
  | _, .vst1_s32 val, t => val.lane t
  | _, .vst1_s64 val, t => val.lane t
  | _, .vst1_u64 val, t => val.lane t
  | _, .vst1q_u8 val, t => val.lane t
  | _, .vst1q_s8 val, t => val.lane t
  | _, .vst1q_u16 val, t => val.lane t
  | _, .vst1q_s16 val, t => val.lane t
  | _, .vst1q_u32 val, t => val.lane t
  | _, .vst1q_s32 val, t => val.lane t
  | _, .vst1q_s64 val, t => val.lane t
  | _, .vst1q_u64 val, t => val.lane t
  | _, .vst1q_f32 val, t => val.lane t
  | _, .vst2_s8 val, t => interleave val t
  | _, .vst2_s16 val, t => interleave val t
  | _, .vst2_s32 val, t => interleave val t
  | _, .vst2_u8 val, t => interleave val t
  | _, .vst2_u16 val, t => interleave val t
  | _, .vst2_u32 val, t => interleave val t
  | _, .vst2q_s8 val, t => interleave val t
  | _, .vst2q_s16 val, t => interleave val t
  | _, .vst2q_s32 val, t => interleave val t
  | _, .vst2q_u8 val, t => interleave val t
  | _, .vst2q_u16 val, t => interleave val t
  | _, .vst2q_u32 val, t => interleave val t
  | _, .vst3_s8 val, t => interleave val t
  | _, .vst3_s16 val, t => interleave val t
  | _, .vst3_s32 val, t => interleave val t
  | _, .vst3_u8 val, t => interleave val t
  | _, .vst3_u16 val, t => interleave val t
  | _, .vst3_u32 val, t => interleave val t
  | _, .vst3q_s8 val, t => interleave val t
  | _, .vst3q_s16 val, t => interleave val t
  | _, .vst3q_s32 val, t => interleave val t
  | _, .vst3q_u8 val, t => interleave val t
  | _, .vst3q_u16 val, t => interleave val t
  | _, .vst3q_u32 val, t => interleave val t
  | _, .vst4_s8 val, t => interleave val t
  | _, .vst4_s16 val, t => interleave val t
  | _, .vst4_s32 val, t => interleave val t
  | _, .vst4_u8 val, t => interleave val t
  | _, .vst4_u16 val, t => interleave val t
  | _, .vst4_u32 val, t => interleave val t
  | _, .vst4q_s8 val, t => interleave val t
  | _, .vst4q_s16 val, t => interleave val t
  | _, .vst4q_s32 val, t => interleave val t
  | _, .vst4q_u8 val, t => interleave val t
  | _, .vst4q_u16 val, t => interleave val t
  | _, .vst4q_u32 val, t => interleave val t
  | _, .vst4q_lane_f32 val lane, t => (val.reg t).lane (Fin.ofNat 4 lane.toNat)

/-- The calls that meet their specification: not `vst4_u8` or `vst4_u32`, and no out-of-range lane. -/
def Sound : {e : Elem} → StoreCall e → Prop
  | _, .vst4_u8 _ => False
  | _, .vst4_u32 _ => False
  | _, .vst4q_lane_f32 _ lane => 0 ≤ lane ∧ lane < 4
  | _, _ => True

theorem stores : {e : Elem} → (c : StoreCall e) → c.Sound → (p : Ptr e) → Stores p c.block (c.exec p)
  | _, .vst1_u8 val, _, p => vst1_u8_spec p val
  | _, .vst1_s8 val, _, p => vst1_s8_spec p val
  | _, .vst1_u16 val, _, p => vst1_u16_spec p val
  | _, .vst1_s16 val, _, p => vst1_s16_spec p val
  | _, .vst1_u32 val, _, p => vst1_u32_spec p val
  | _, .vst1_s32 val, _, p => vst1_s32_spec p val
  | _, .vst1_s64 val, _, p => vst1_s64_spec p val
  | _, .vst1_u64 val, _, p => vst1_u64_spec p val
  | _, .vst1q_u8 val, _, p => vst1q_u8_spec p val
  | _, .vst1q_s8 val, _, p => vst1q_s8_spec p val
  | _, .vst1q_u16 val, _, p => vst1q_u16_spec p val
  | _, .vst1q_s16 val, _, p => vst1q_s16_spec p val
  | _, .vst1q_u32 val, _, p => vst1q_u32_spec p val
  | _, .vst1q_s32 val, _, p => vst1q_s32_spec p val
  | _, .vst1q_s64 val, _, p => vst1q_s64_spec p val
  | _, .vst1q_u64 val, _, p => vst1q_u64_spec p val
  | _, .vst1q_f32 val, _, p => vst1q_f32_spec p val
  | _, .vst2_s8 val, _, p => vst2_s8_spec p val
  | _, .vst2_s16 val, _, p => vst2_s16_spec p val
  | _, .vst2_s32 val, _, p => vst2_s32_spec p val
  | _, .vst2_u8 val, _, p => vst2_u8_spec p val
  | _, .vst2_u16 val, _, p => vst2_u16_spec p val
  | _, .vst2_u32 val, _, p => vst2_u32_spec p val
  | _, .vst2q_s8 val, _, p => vst2q_s8_spec p val
  | _, .vst2q_s16 val, _, p => vst2q_s16_spec p val
  | _, .vst2q_s32 val, _, p => vst2q_s32_spec p val
  | _, .vst2q_u8 val, _, p => vst2q_u8_spec p val
  | _, .vst2q_u16 val, _, p => vst2q_u16_spec p val
  | _, .vst2q_u32 val, _, p => vst2q_u32_spec p val
  | _, .vst3_s8 val, _, p => vst3_s8_spec p val
  | _, .vst3_s16 val, _, p => vst3_s16_spec p val
  | _, .vst3_s32 val, _, p => vst3_s32_spec p val
  | _, .vst3_u8 val, _, p => vst3_u8_spec p val
  | _, .vst3_u16 val, _, p => vst3_u16_spec p val
  | _, .vst3_u32 val, _, p => vst3_u32_spec p val
  | _, .vst3q_s8 val, _, p => vst3q_s8_spec p val
  | _, .vst3q_s16 val, _, p => vst3q_s16_spec p val
  | _, .vst3q_s32 val, _, p => vst3q_s32_spec p val
  | _, .vst3q_u8 val, _, p => vst3q_u8_spec p val
  | _, .vst3q_u16 val, _, p => vst3q_u16_spec p val
  | _, .vst3q_u32 val, _, p => vst3q_u32_spec p val
  | _, .vst4_s8 val, _, p => vst4_s8_spec p val
  | _, .vst4_s16 val, _, p => vst4_s16_spec p val
  | _, .vst4_s32 val, _, p => vst4_s32_spec p val
  | _, .vst4_u8 _, h, _ => h.elim
  | _, .vst4_u16 val, _, p => vst4_u16_spec p val
  | _, .vst4_u32 _, h, _ => h.elim
  | _, .vst4q_s8 val, _, p => vst4q_s8_spec p val
  | _, .vst4q_s16 val, _, p => vst4q_s16_spec p val
  | _, .vst4q_s32 val, _, p => vst4q_s32_spec p val
  | _, .vst4q_u8 val, _, p => vst4q_u8_spec p val
  | _, .vst4q_u16 val, _, p => vst4q_u16_spec p val
  | _, .vst4q_u32 val, _, p => vst4q_u32_spec p val
  | _, .vst4q_lane_f32 val lane, h, p => by
    have e : lane = (Fin.ofNat 4 lane.toNat).val := by
      simp only [Fin.ofNat]
      obtain ⟨h1, h2⟩ := h
      omega
    exact vst4q_lane_f32_spec p val lane _ e

end StoreCall

/-- A buffer of elements, initialised or not. -/
abbrev Buffer (e : Elem) := List (Option (BitVec e.bits))

/-- Running a sequence of store calls, each through a pointer to some element of one buffer. -/
def runStores {e : Elem} : List (Nat × StoreCall e) → Buffer e → C (Buffer e)
  | [], b => .ok b
  | (o, c) :: cs, b => do
    let p ← c.exec ⟨b, o⟩
    runStores cs p.buf

/-- What the last call whose block covers element `a` put there, if any call covers it. -/
def lastWrite {e : Elem} (a : Nat) : List (Nat × StoreCall e) → Option (BitVec e.bits)
  | [] => none
  | (o, c) :: cs =>
    match lastWrite a cs with
    | some x => some x
    | none => if h : o ≤ a ∧ a < o + c.size then some (c.block ⟨a - o, by omega⟩) else none

theorem vst4_u32_frame {p p' : Ptr .u32} {val} (h : vst4_u32 p val = .ok p') :
    p'.buf.length = p.buf.length ∧ ∀ a, ¬ (p.off ≤ a ∧ a < p.off + 8) → p'.buf[a]? = p.buf[a]? := by
  by_cases hw : Writable p 7
  · obtain ⟨q, h1, _, h2, _, _, _, _, h3⟩ := (vst4_u32_partial p val).1 hw
    rw [h1] at h
    cases h
    exact ⟨h2, fun a ha => h3 a (by omega)⟩
  · rw [(vst4_u32_partial p val).2 hw] at h
    cases h

theorem exec_frame {e : Elem} (c : StoreCall e) (hc : ∀ v, ¬ HEq c (StoreCall.vst4_u8 v)) {p p' : Ptr e}
    (h : c.exec p = .ok p') :
    p'.buf.length = p.buf.length ∧ ∀ a, ¬ (p.off ≤ a ∧ a < p.off + c.size) → p'.buf[a]? = p.buf[a]? := by
  have main : c.Sound → p'.buf.length = p.buf.length ∧
      ∀ a, ¬ (p.off ≤ a ∧ a < p.off + c.size) → p'.buf[a]? = p.buf[a]? := fun hs => by
    have st := c.stores hs p
    by_cases hw : Writable p c.size
    · obtain ⟨q, h1, h2⟩ := st.1 hw
      rw [h1] at h
      cases h
      exact ⟨h2.size, fun a ha => h2.frame a (by omega)⟩
    · rw [st.2 hw] at h
      cases h
  cases c with
  | vst4_u8 v => exact absurd HEq.rfl (hc v)
  | vst4_u32 v => exact vst4_u32_frame h
  | vst4q_lane_f32 val lane =>
    by_cases hl : 0 ≤ lane ∧ lane < 4
    · exact main hl
    · have : Model.vst4q_lane_f32 p val lane = .ok p' := h
      rw [vst4q_lane_f32_oob p val lane hl] at this
      cases this
  | _ => exact main trivial

/-- After any sequence of store calls to any pointers into a buffer, the buffer has its original length and every element outside the blocks of the calls is unchanged.  `vst4_u8` is excluded: it writes past its block. -/
theorem stores_frame_partial {e : Elem} (cs : List (Nat × StoreCall e))
    (hc : ∀ o c, (o, c) ∈ cs → ∀ v, ¬ HEq c (StoreCall.vst4_u8 v)) (b b' : Buffer e)
    (h : runStores cs b = .ok b') :
    b'.length = b.length ∧
    ∀ a, (∀ o c, (o, c) ∈ cs → ¬ (o ≤ a ∧ a < o + c.size)) → b'[a]? = b[a]? := by
  induction cs generalizing b with
  | nil => cases h; exact ⟨rfl, fun _ _ => rfl⟩
  | cons x cs ih =>
    obtain ⟨o, c⟩ := x
    rw [runStores] at h
    cases hx : c.exec ⟨b, o⟩ with
    | ok p =>
      rw [hx, ok_bind] at h
      obtain ⟨f1, f2⟩ := exec_frame c (hc o c (by simp)) hx
      obtain ⟨i1, i2⟩ := ih (fun o c hm => hc o c (by simp [hm])) p.buf h
      exact ⟨i1.trans f1, fun a ha => (i2 a fun o c hm => ha o c (by simp [hm])).trans (f2 a (ha o c (by simp)))⟩
    | abort m => rw [hx] at h; cases h
    | ub u => rw [hx] at h; cases h
    | indet l => rw [hx] at h; cases h

/-- A single `vst4_u8` call can change an element outside its block. -/
theorem stores_frame_vst4_u8_wrong (v : uint8x8x4_t) (b : Buffer .u8) (h : b.length = 33) :
    ∃ b', runStores [(0, .vst4_u8 v)] b = .ok b' ∧ b'[32]? = some (some ((v.reg 3).lane 7)) ∧
      ¬ (0 ≤ 32 ∧ 32 < 0 + (StoreCall.vst4_u8 v).size) := by
  obtain ⟨p', h1, _, _, _, _, h2, _⟩ := (vst4_u8_partial ⟨b, 0⟩ v).1 (by unfold Writable; simp [h])
  refine ⟨p'.buf, ?_, by simpa using h2, by simp [StoreCall.size]⟩
  show (vst4_u8 ⟨b, 0⟩ v >>= fun p => C.ok p.buf) = _
  rw [h1]
  rfl

/-- After any sequence of store calls to any pointers into a buffer, every element holds what the last call covering it put there, or its original contents if no call covers it.  The defective `vst4_u8` and `vst4_u32`, and out-of-range lanes, are excluded. -/
theorem stores_last_write_partial {e : Elem} (cs : List (Nat × StoreCall e)) (hc : ∀ o c, (o, c) ∈ cs → c.Sound) (b b' : Buffer e)
    (h : runStores cs b = .ok b') (a : Nat) :
    b'[a]? = match lastWrite a cs with | some x => some (some x) | none => b[a]? := by
  induction cs generalizing b with
  | nil => cases h; rfl
  | cons x cs ih =>
    obtain ⟨o, c⟩ := x
    rw [runStores] at h
    have st := c.stores (hc o c (by simp)) ⟨b, o⟩
    by_cases hw : Writable (⟨b, o⟩ : Ptr e) c.size
    · obtain ⟨p, h1, h2⟩ := st.1 hw
      rw [h1, ok_bind] at h
      rw [ih (fun o c hm => hc o c (by simp [hm])) p.buf h, lastWrite]
      cases lastWrite a cs with
      | some x => rfl
      | none =>
        by_cases hm : o ≤ a ∧ a < o + c.size
        · simp only [dif_pos hm]
          have := h2.written ⟨a - o, by omega⟩
          simp only at this
          rwa [show o + (a - o) = a by omega] at this
        · simp only [dif_neg hm]
          exact h2.frame a (by simp only; omega)
    · rw [st.2 hw] at h
      cases h

/-- A sequence of store calls completes exactly when every block lies in the buffer; otherwise it is undefined behaviour.  Same exclusions. -/
theorem stores_defined_partial {e : Elem} (cs : List (Nat × StoreCall e)) (hc : ∀ o c, (o, c) ∈ cs → c.Sound) (b : Buffer e) :
    ((∀ o c, (o, c) ∈ cs → o + c.size ≤ b.length) → ∃ b', runStores cs b = .ok b') ∧
    ((∃ o c, (o, c) ∈ cs ∧ ¬ o + c.size ≤ b.length) → runStores cs b = .ub .outOfBounds) := by
  induction cs generalizing b with
  | nil => exact ⟨fun _ => ⟨b, rfl⟩, by rintro ⟨o, c, hm, _⟩; simp at hm⟩
  | cons x cs ih =>
    obtain ⟨o, c⟩ := x
    have st := c.stores (hc o c (by simp)) ⟨b, o⟩
    by_cases hw : Writable (⟨b, o⟩ : Ptr e) c.size
    · obtain ⟨p, h1, h2⟩ := st.1 hw
      obtain ⟨i1, i2⟩ := ih (fun o c hm => hc o c (by simp [hm])) p.buf
      have hlen : p.buf.length = b.length := h2.size
      rw [hlen] at i1 i2
      constructor
      · intro h
        rw [runStores, h1, ok_bind]
        exact i1 fun o c hm => h o c (by simp [hm])
      · rintro ⟨o', c', hm, hn⟩
        rw [runStores, h1, ok_bind]
        rcases List.mem_cons.1 hm with he | hm
        · cases he
          exact absurd hw hn
        · exact i2 ⟨o', c', hm, hn⟩
    · refine ⟨fun h => absurd (h o c (by simp)) hw, fun _ => ?_⟩
      rw [runStores, st.2 hw]
      rfl

/-- A history with overlapping blocks of different intrinsics that meets the hypotheses. -/
def demoHistory : List (Nat × StoreCall .u16) :=
  [(0, .vst1_u16 ⟨fun _ => 1⟩), (2, .vst2_u16 ⟨fun j => ⟨fun i => BitVec.ofNat 16 (10 * j + i)⟩⟩), (1, .vst1_u16 ⟨fun _ => 5⟩)]
example : ∀ o c, (o, c) ∈ demoHistory → c.Sound := by
  intro o c h
  simp only [demoHistory, List.mem_cons, Prod.mk.injEq, List.not_mem_nil, or_false] at h
  rcases h with ⟨_, rfl⟩ | ⟨_, rfl⟩ | ⟨_, rfl⟩ <;> trivial
example : ∃ b', runStores demoHistory (List.replicate 11 none) = .ok b' ∧
    b'.map (·.map BitVec.toNat) = [some 1, some 5, some 5, some 5, some 5, some 11, some 2, some 12, some 3, some 13, none] :=
  ⟨_, rfl, rfl⟩
example := stores_defined_partial demoHistory (by
  intro o c h
  simp only [demoHistory, List.mem_cons, Prod.mk.injEq, List.not_mem_nil, or_false] at h
  rcases h with ⟨_, rfl⟩ | ⟨_, rfl⟩ | ⟨_, rfl⟩ <;> trivial) (List.replicate 11 none)
example := stores_last_write_partial demoHistory (by
  intro o c h
  simp only [demoHistory, List.mem_cons, Prod.mk.injEq, List.not_mem_nil, or_false] at h
  rcases h with ⟨_, rfl⟩ | ⟨_, rfl⟩ | ⟨_, rfl⟩ <;> trivial) (List.replicate 11 none) _ rfl 3
example := stores_frame_vst4_u8_wrong ⟨fun j => ⟨fun i => BitVec.ofNat 8 (10 * j + i)⟩⟩ (List.replicate 33 none) rfl

end Verif.Props
