import Verif.Fill
import Verif.Props.Load
import Verif.Model.Store
/-! # Stores and round trips (C06 to C08, C10)

Generated by `tools/gen_props.py`. -/

set_option linter.unusedSimpArgs false
set_option linter.unusedVariables false

namespace Verif.Props
open Verif.Model Verif.Spec

/-- `vst1_u8` writes the 8 lanes to the 8 consecutive elements at the pointer and changes no other element; it is undefined if there is no room for them. -/
theorem vst1_u8_spec (ptr : Ptr .u8) (val : uint8x8_t) : Stores ptr val.lane (vst1_u8 ptr val) := by
  exact store1 ptr val (by decide) rfl

/-- `vld1_u8` gives back what `vst1_u8` stored. -/
theorem vst1_u8_vld1_u8 (ptr : Ptr .u8) (val : uint8x8_t) (h : Writable ptr 8) :
    (vst1_u8 ptr val >>= fun p => vld1_u8 p) = .ok val := by
  exact store_load1 (vst1_u8_spec ptr val) vld1_u8_spec h
example := vst1_u8_vld1_u8 ⟨List.replicate 66 none, 1⟩ (⟨fun i => BitVec.ofNat 8 (4 + i.val)⟩) (by decide)

/-- Storing what was loaded leaves the buffer as it was. -/
theorem vld1_u8_vst1_u8 (ptr : Ptr .u8) (h : ∀ i : Fin 8, Readable ptr i) :
    (vld1_u8 ptr >>= fun v => vst1_u8 ptr v) = .ok ptr := by
  exact load_store1 (by decide) (vld1_u8_spec ptr) (fun v => vst1_u8_spec ptr v) h
example := vld1_u8_vst1_u8 ⟨(List.range 64).map fun k => some (BitVec.ofNat _ (3 * k)), 0⟩ (fun i => ⟨BitVec.ofNat _ (3 * i.val), by revert i; decide⟩)

/-- `vst1_s8` writes the 8 lanes to the 8 consecutive elements at the pointer and changes no other element; it is undefined if there is no room for them. -/
theorem vst1_s8_spec (ptr : Ptr .s8) (val : int8x8_t) : Stores ptr val.lane (vst1_s8 ptr val) := by
  exact store1 ptr val (by decide) rfl

/-- `vld1_s8` gives back what `vst1_s8` stored. -/
theorem vst1_s8_vld1_s8 (ptr : Ptr .s8) (val : int8x8_t) (h : Writable ptr 8) :
    (vst1_s8 ptr val >>= fun p => vld1_s8 p) = .ok val := by
  exact store_load1 (vst1_s8_spec ptr val) vld1_s8_spec h
example := vst1_s8_vld1_s8 ⟨List.replicate 66 none, 1⟩ (⟨fun i => BitVec.ofNat 8 (4 + i.val)⟩) (by decide)

/-- Storing what was loaded leaves the buffer as it was. -/
theorem vld1_s8_vst1_s8 (ptr : Ptr .s8) (h : ∀ i : Fin 8, Readable ptr i) :
    (vld1_s8 ptr >>= fun v => vst1_s8 ptr v) = .ok ptr := by
  exact load_store1 (by decide) (vld1_s8_spec ptr) (fun v => vst1_s8_spec ptr v) h
example := vld1_s8_vst1_s8 ⟨(List.range 64).map fun k => some (BitVec.ofNat _ (3 * k)), 0⟩ (fun i => ⟨BitVec.ofNat _ (3 * i.val), by revert i; decide⟩)

/-- `vst1_u16` writes the 4 lanes to the 4 consecutive elements at the pointer and changes no other element; it is undefined if there is no room for them. -/
theorem vst1_u16_spec (ptr : Ptr .u16) (val : uint16x4_t) : Stores ptr val.lane (vst1_u16 ptr val) := by
  exact store1 ptr val (by decide) rfl

/-- `vld1_u16` gives back what `vst1_u16` stored. -/
theorem vst1_u16_vld1_u16 (ptr : Ptr .u16) (val : uint16x4_t) (h : Writable ptr 4) :
    (vst1_u16 ptr val >>= fun p => vld1_u16 p) = .ok val := by
  exact store_load1 (vst1_u16_spec ptr val) vld1_u16_spec h
example := vst1_u16_vld1_u16 ⟨List.replicate 66 none, 1⟩ (⟨fun i => BitVec.ofNat 16 (4 + i.val)⟩) (by decide)

/-- Storing what was loaded leaves the buffer as it was. -/
theorem vld1_u16_vst1_u16 (ptr : Ptr .u16) (h : ∀ i : Fin 4, Readable ptr i) :
    (vld1_u16 ptr >>= fun v => vst1_u16 ptr v) = .ok ptr := by
  exact load_store1 (by decide) (vld1_u16_spec ptr) (fun v => vst1_u16_spec ptr v) h
example := vld1_u16_vst1_u16 ⟨(List.range 64).map fun k => some (BitVec.ofNat _ (3 * k)), 0⟩ (fun i => ⟨BitVec.ofNat _ (3 * i.val), by revert i; decide⟩)

/-- `vst1_s16` writes the 4 lanes to the 4 consecutive elements at the pointer and changes no other element; it is undefined if there is no room for them. -/
theorem vst1_s16_spec (ptr : Ptr .s16) (val : int16x4_t) : Stores ptr val.lane (vst1_s16 ptr val) := by
  exact store1 ptr val (by decide) rfl

/-- `vld1_s16` gives back what `vst1_s16` stored. -/
theorem vst1_s16_vld1_s16 (ptr : Ptr .s16) (val : int16x4_t) (h : Writable ptr 4) :
    (vst1_s16 ptr val >>= fun p => vld1_s16 p) = .ok val := by
  exact store_load1 (vst1_s16_spec ptr val) vld1_s16_spec h
example := vst1_s16_vld1_s16 ⟨List.replicate 66 none, 1⟩ (⟨fun i => BitVec.ofNat 16 (4 + i.val)⟩) (by decide)

/-- Storing what was loaded leaves the buffer as it was. -/
theorem vld1_s16_vst1_s16 (ptr : Ptr .s16) (h : ∀ i : Fin 4, Readable ptr i) :
    (vld1_s16 ptr >>= fun v => vst1_s16 ptr v) = .ok ptr := by
  exact load_store1 (by decide) (vld1_s16_spec ptr) (fun v => vst1_s16_spec ptr v) h
example := vld1_s16_vst1_s16 ⟨(List.range 64).map fun k => some (BitVec.ofNat _ (3 * k)), 0⟩ (fun i => ⟨BitVec.ofNat _ (3 * i.val), by revert i; decide⟩)

/-- `vst1_u32` writes the 2 lanes to the 2 consecutive elements at the pointer and changes no other element; it is undefined if there is no room for them. -/
theorem vst1_u32_spec (ptr : Ptr .u32) (val : uint32x2_t) : Stores ptr val.lane (vst1_u32 ptr val) := by
  exact store1 ptr val (by decide) rfl

/-- `vld1_u32` gives back what `vst1_u32` stored. -/
theorem vst1_u32_vld1_u32 (ptr : Ptr .u32) (val : uint32x2_t) (h : Writable ptr 2) :
    (vst1_u32 ptr val >>= fun p => vld1_u32 p) = .ok val := by
  exact store_load1 (vst1_u32_spec ptr val) vld1_u32_spec h
example := vst1_u32_vld1_u32 ⟨List.replicate 66 none, 1⟩ (⟨fun i => BitVec.ofNat 32 (4 + i.val)⟩) (by decide)

/-- Storing what was loaded leaves the buffer as it was. -/
theorem vld1_u32_vst1_u32 (ptr : Ptr .u32) (h : ∀ i : Fin 2, Readable ptr i) :
    (vld1_u32 ptr >>= fun v => vst1_u32 ptr v) = .ok ptr := by
  exact load_store1 (by decide) (vld1_u32_spec ptr) (fun v => vst1_u32_spec ptr v) h
example := vld1_u32_vst1_u32 ⟨(List.range 64).map fun k => some (BitVec.ofNat _ (3 * k)), 0⟩ (fun i => ⟨BitVec.ofNat _ (3 * i.val), by revert i; decide⟩)

/-- `vst1_s32` writes the 2 lanes to the 2 consecutive elements at the pointer and changes no other element; it is undefined if there is no room for them. -/
theorem vst1_s32_spec (ptr : Ptr .s32) (val : int32x2_t) : Stores ptr val.lane (vst1_s32 ptr val) := by
  exact store1 ptr val (by decide) rfl

/-- `vld1_s32` gives back what `vst1_s32` stored. -/
theorem vst1_s32_vld1_s32 (ptr : Ptr .s32) (val : int32x2_t) (h : Writable ptr 2) :
    (vst1_s32 ptr val >>= fun p => vld1_s32 p) = .ok val := by
  exact store_load1 (vst1_s32_spec ptr val) vld1_s32_spec h
example := vst1_s32_vld1_s32 ⟨List.replicate 66 none, 1⟩ (⟨fun i => BitVec.ofNat 32 (4 + i.val)⟩) (by decide)

/-- Storing what was loaded leaves the buffer as it was. -/
theorem vld1_s32_vst1_s32 (ptr : Ptr .s32) (h : ∀ i : Fin 2, Readable ptr i) :
    (vld1_s32 ptr >>= fun v => vst1_s32 ptr v) = .ok ptr := by
  exact load_store1 (by decide) (vld1_s32_spec ptr) (fun v => vst1_s32_spec ptr v) h
example := vld1_s32_vst1_s32 ⟨(List.range 64).map fun k => some (BitVec.ofNat _ (3 * k)), 0⟩ (fun i => ⟨BitVec.ofNat _ (3 * i.val), by revert i; decide⟩)

/-- `vst1_s64` writes the 1 lanes to the 1 consecutive elements at the pointer and changes no other element; it is undefined if there is no room for them. -/
theorem vst1_s64_spec (ptr : Ptr .s64) (val : int64x1_t) : Stores ptr val.lane (vst1_s64 ptr val) := by
  exact store1 ptr val (by decide) rfl

/-- `vld1_s64` gives back what `vst1_s64` stored. -/
theorem vst1_s64_vld1_s64 (ptr : Ptr .s64) (val : int64x1_t) (h : Writable ptr 1) :
    (vst1_s64 ptr val >>= fun p => vld1_s64 p) = .ok val := by
  exact store_load1 (vst1_s64_spec ptr val) vld1_s64_spec h
example := vst1_s64_vld1_s64 ⟨List.replicate 66 none, 1⟩ (⟨fun i => BitVec.ofNat 64 (4 + i.val)⟩) (by decide)

/-- Storing what was loaded leaves the buffer as it was. -/
theorem vld1_s64_vst1_s64 (ptr : Ptr .s64) (h : ∀ i : Fin 1, Readable ptr i) :
    (vld1_s64 ptr >>= fun v => vst1_s64 ptr v) = .ok ptr := by
  exact load_store1 (by decide) (vld1_s64_spec ptr) (fun v => vst1_s64_spec ptr v) h
example := vld1_s64_vst1_s64 ⟨(List.range 64).map fun k => some (BitVec.ofNat _ (3 * k)), 0⟩ (fun i => ⟨BitVec.ofNat _ (3 * i.val), by revert i; decide⟩)

/-- `vst1_u64` writes the 1 lanes to the 1 consecutive elements at the pointer and changes no other element; it is undefined if there is no room for them. -/
theorem vst1_u64_spec (ptr : Ptr .u64) (val : uint64x1_t) : Stores ptr val.lane (vst1_u64 ptr val) := by
  exact store1 ptr val (by decide) rfl

/-- `vld1_u64` gives back what `vst1_u64` stored. -/
theorem vst1_u64_vld1_u64 (ptr : Ptr .u64) (val : uint64x1_t) (h : Writable ptr 1) :
    (vst1_u64 ptr val >>= fun p => vld1_u64 p) = .ok val := by
  exact store_load1 (vst1_u64_spec ptr val) vld1_u64_spec h
example := vst1_u64_vld1_u64 ⟨List.replicate 66 none, 1⟩ (⟨fun i => BitVec.ofNat 64 (4 + i.val)⟩) (by decide)

/-- Storing what was loaded leaves the buffer as it was. -/
theorem vld1_u64_vst1_u64 (ptr : Ptr .u64) (h : ∀ i : Fin 1, Readable ptr i) :
    (vld1_u64 ptr >>= fun v => vst1_u64 ptr v) = .ok ptr := by
  exact load_store1 (by decide) (vld1_u64_spec ptr) (fun v => vst1_u64_spec ptr v) h
example := vld1_u64_vst1_u64 ⟨(List.range 64).map fun k => some (BitVec.ofNat _ (3 * k)), 0⟩ (fun i => ⟨BitVec.ofNat _ (3 * i.val), by revert i; decide⟩)

/-- `vst1q_u8` writes the 16 lanes to the 16 consecutive elements at the pointer and changes no other element; it is undefined if there is no room for them. -/
theorem vst1q_u8_spec (ptr : Ptr .u8) (val : uint8x16_t) : Stores ptr val.lane (vst1q_u8 ptr val) := by
  exact store1 ptr val (by decide) rfl

/-- `vld1q_u8` gives back what `vst1q_u8` stored. -/
theorem vst1q_u8_vld1q_u8 (ptr : Ptr .u8) (val : uint8x16_t) (h : Writable ptr 16) :
    (vst1q_u8 ptr val >>= fun p => vld1q_u8 p) = .ok val := by
  exact store_load1 (vst1q_u8_spec ptr val) vld1q_u8_spec h
example := vst1q_u8_vld1q_u8 ⟨List.replicate 66 none, 1⟩ (⟨fun i => BitVec.ofNat 8 (4 + i.val)⟩) (by decide)

/-- Storing what was loaded leaves the buffer as it was. -/
theorem vld1q_u8_vst1q_u8 (ptr : Ptr .u8) (h : ∀ i : Fin 16, Readable ptr i) :
    (vld1q_u8 ptr >>= fun v => vst1q_u8 ptr v) = .ok ptr := by
  exact load_store1 (by decide) (vld1q_u8_spec ptr) (fun v => vst1q_u8_spec ptr v) h
example := vld1q_u8_vst1q_u8 ⟨(List.range 64).map fun k => some (BitVec.ofNat _ (3 * k)), 0⟩ (fun i => ⟨BitVec.ofNat _ (3 * i.val), by revert i; decide⟩)

/-- `vst1q_s8` writes the 16 lanes to the 16 consecutive elements at the pointer and changes no other element; it is undefined if there is no room for them. -/
theorem vst1q_s8_spec (ptr : Ptr .s8) (val : int8x16_t) : Stores ptr val.lane (vst1q_s8 ptr val) := by
  exact store1 ptr val (by decide) rfl

/-- `vld1q_s8` gives back what `vst1q_s8` stored. -/
theorem vst1q_s8_vld1q_s8 (ptr : Ptr .s8) (val : int8x16_t) (h : Writable ptr 16) :
    (vst1q_s8 ptr val >>= fun p => vld1q_s8 p) = .ok val := by
  exact store_load1 (vst1q_s8_spec ptr val) vld1q_s8_spec h
example := vst1q_s8_vld1q_s8 ⟨List.replicate 66 none, 1⟩ (⟨fun i => BitVec.ofNat 8 (4 + i.val)⟩) (by decide)

/-- Storing what was loaded leaves the buffer as it was. -/
theorem vld1q_s8_vst1q_s8 (ptr : Ptr .s8) (h : ∀ i : Fin 16, Readable ptr i) :
    (vld1q_s8 ptr >>= fun v => vst1q_s8 ptr v) = .ok ptr := by
  exact load_store1 (by decide) (vld1q_s8_spec ptr) (fun v => vst1q_s8_spec ptr v) h
example := vld1q_s8_vst1q_s8 ⟨(List.range 64).map fun k => some (BitVec.ofNat _ (3 * k)), 0⟩ (fun i => ⟨BitVec.ofNat _ (3 * i.val), by revert i; decide⟩)

/-- `vst1q_u16` writes the 8 lanes to the 8 consecutive elements at the pointer and changes no other element; it is undefined if there is no room for them. -/
theorem vst1q_u16_spec (ptr : Ptr .u16) (val : uint16x8_t) : Stores ptr val.lane (vst1q_u16 ptr val) := by
  exact store1 ptr val (by decide) rfl

/-- `vld1q_u16` gives back what `vst1q_u16` stored. -/
theorem vst1q_u16_vld1q_u16 (ptr : Ptr .u16) (val : uint16x8_t) (h : Writable ptr 8) :
    (vst1q_u16 ptr val >>= fun p => vld1q_u16 p) = .ok val := by
  exact store_load1 (vst1q_u16_spec ptr val) vld1q_u16_spec h
example := vst1q_u16_vld1q_u16 ⟨List.replicate 66 none, 1⟩ (⟨fun i => BitVec.ofNat 16 (4 + i.val)⟩) (by decide)

/-- Storing what was loaded leaves the buffer as it was. -/
theorem vld1q_u16_vst1q_u16 (ptr : Ptr .u16) (h : ∀ i : Fin 8, Readable ptr i) :
    (vld1q_u16 ptr >>= fun v => vst1q_u16 ptr v) = .ok ptr := by
  exact load_store1 (by decide) (vld1q_u16_spec ptr) (fun v => vst1q_u16_spec ptr v) h
example := vld1q_u16_vst1q_u16 ⟨(List.range 64).map fun k => some (BitVec.ofNat _ (3 * k)), 0⟩ (fun i => ⟨BitVec.ofNat _ (3 * i.val), by revert i; decide⟩)

/-- `vst1q_s16` writes the 8 lanes to the 8 consecutive elements at the pointer and changes no other element; it is undefined if there is no room for them. -/
theorem vst1q_s16_spec (ptr : Ptr .s16) (val : int16x8_t) : Stores ptr val.lane (vst1q_s16 ptr val) := by
  exact store1 ptr val (by decide) rfl

/-- `vld1q_s16` gives back what `vst1q_s16` stored. -/
theorem vst1q_s16_vld1q_s16 (ptr : Ptr .s16) (val : int16x8_t) (h : Writable ptr 8) :
    (vst1q_s16 ptr val >>= fun p => vld1q_s16 p) = .ok val := by
  exact store_load1 (vst1q_s16_spec ptr val) vld1q_s16_spec h
example := vst1q_s16_vld1q_s16 ⟨List.replicate 66 none, 1⟩ (⟨fun i => BitVec.ofNat 16 (4 + i.val)⟩) (by decide)

/-- Storing what was loaded leaves the buffer as it was. -/
theorem vld1q_s16_vst1q_s16 (ptr : Ptr .s16) (h : ∀ i : Fin 8, Readable ptr i) :
    (vld1q_s16 ptr >>= fun v => vst1q_s16 ptr v) = .ok ptr := by
  exact load_store1 (by decide) (vld1q_s16_spec ptr) (fun v => vst1q_s16_spec ptr v) h
example := vld1q_s16_vst1q_s16 ⟨(List.range 64).map fun k => some (BitVec.ofNat _ (3 * k)), 0⟩ (fun i => ⟨BitVec.ofNat _ (3 * i.val), by revert i; decide⟩)

/-- `vst1q_u32` writes the 4 lanes to the 4 consecutive elements at the pointer and changes no other element; it is undefined if there is no room for them. -/
theorem vst1q_u32_spec (ptr : Ptr .u32) (val : uint32x4_t) : Stores ptr val.lane (vst1q_u32 ptr val) := by
  exact store1 ptr val (by decide) rfl

/-- `vld1q_u32` gives back what `vst1q_u32` stored. -/
theorem vst1q_u32_vld1q_u32 (ptr : Ptr .u32) (val : uint32x4_t) (h : Writable ptr 4) :
    (vst1q_u32 ptr val >>= fun p => vld1q_u32 p) = .ok val := by
  exact store_load1 (vst1q_u32_spec ptr val) vld1q_u32_spec h
example := vst1q_u32_vld1q_u32 ⟨List.replicate 66 none, 1⟩ (⟨fun i => BitVec.ofNat 32 (4 + i.val)⟩) (by decide)

/-- Storing what was loaded leaves the buffer as it was. -/
theorem vld1q_u32_vst1q_u32 (ptr : Ptr .u32) (h : ∀ i : Fin 4, Readable ptr i) :
    (vld1q_u32 ptr >>= fun v => vst1q_u32 ptr v) = .ok ptr := by
  exact load_store1 (by decide) (vld1q_u32_spec ptr) (fun v => vst1q_u32_spec ptr v) h
example := vld1q_u32_vst1q_u32 ⟨(List.range 64).map fun k => some (BitVec.ofNat _ (3 * k)), 0⟩ (fun i => ⟨BitVec.ofNat _ (3 * i.val), by revert i; decide⟩)

/-- `vst1q_s32` writes the 4 lanes to the 4 consecutive elements at the pointer and changes no other element; it is undefined if there is no room for them. -/
theorem vst1q_s32_spec (ptr : Ptr .s32) (val : int32x4_t) : Stores ptr val.lane (vst1q_s32 ptr val) := by
  exact store1 ptr val (by decide) rfl

/-- `vld1q_s32` gives back what `vst1q_s32` stored. -/
theorem vst1q_s32_vld1q_s32 (ptr : Ptr .s32) (val : int32x4_t) (h : Writable ptr 4) :
    (vst1q_s32 ptr val >>= fun p => vld1q_s32 p) = .ok val := by
  exact store_load1 (vst1q_s32_spec ptr val) vld1q_s32_spec h
example := vst1q_s32_vld1q_s32 ⟨List.replicate 66 none, 1⟩ (⟨fun i => BitVec.ofNat 32 (4 + i.val)⟩) (by decide)

/-- Storing what was loaded leaves the buffer as it was. -/
theorem vld1q_s32_vst1q_s32 (ptr : Ptr .s32) (h : ∀ i : Fin 4, Readable ptr i) :
    (vld1q_s32 ptr >>= fun v => vst1q_s32 ptr v) = .ok ptr := by
  exact load_store1 (by decide) (vld1q_s32_spec ptr) (fun v => vst1q_s32_spec ptr v) h
example := vld1q_s32_vst1q_s32 ⟨(List.range 64).map fun k => some (BitVec.ofNat _ (3 * k)), 0⟩ (fun i => ⟨BitVec.ofNat _ (3 * i.val), by revert i; decide⟩)

/-- `vst1q_s64` writes the 2 lanes to the 2 consecutive elements at the pointer and changes no other element; it is undefined if there is no room for them. -/
theorem vst1q_s64_spec (ptr : Ptr .s64) (val : int64x2_t) : Stores ptr val.lane (vst1q_s64 ptr val) := by
  exact store1 ptr val (by decide) rfl

/-- `vld1q_s64` gives back what `vst1q_s64` stored. -/
theorem vst1q_s64_vld1q_s64 (ptr : Ptr .s64) (val : int64x2_t) (h : Writable ptr 2) :
    (vst1q_s64 ptr val >>= fun p => vld1q_s64 p) = .ok val := by
  exact store_load1 (vst1q_s64_spec ptr val) vld1q_s64_spec h
example := vst1q_s64_vld1q_s64 ⟨List.replicate 66 none, 1⟩ (⟨fun i => BitVec.ofNat 64 (4 + i.val)⟩) (by decide)

/-- Storing what was loaded leaves the buffer as it was. -/
theorem vld1q_s64_vst1q_s64 (ptr : Ptr .s64) (h : ∀ i : Fin 2, Readable ptr i) :
    (vld1q_s64 ptr >>= fun v => vst1q_s64 ptr v) = .ok ptr := by
  exact load_store1 (by decide) (vld1q_s64_spec ptr) (fun v => vst1q_s64_spec ptr v) h
example := vld1q_s64_vst1q_s64 ⟨(List.range 64).map fun k => some (BitVec.ofNat _ (3 * k)), 0⟩ (fun i => ⟨BitVec.ofNat _ (3 * i.val), by revert i; decide⟩)

/-- `vst1q_u64` writes the 2 lanes to the 2 consecutive elements at the pointer and changes no other element; it is undefined if there is no room for them. -/
theorem vst1q_u64_spec (ptr : Ptr .u64) (val : uint64x2_t) : Stores ptr val.lane (vst1q_u64 ptr val) := by
  exact store1 ptr val (by decide) rfl

/-- `vld1q_u64` gives back what `vst1q_u64` stored. -/
theorem vst1q_u64_vld1q_u64 (ptr : Ptr .u64) (val : uint64x2_t) (h : Writable ptr 2) :
    (vst1q_u64 ptr val >>= fun p => vld1q_u64 p) = .ok val := by
  exact store_load1 (vst1q_u64_spec ptr val) vld1q_u64_spec h
example := vst1q_u64_vld1q_u64 ⟨List.replicate 66 none, 1⟩ (⟨fun i => BitVec.ofNat 64 (4 + i.val)⟩) (by decide)

/-- Storing what was loaded leaves the buffer as it was. -/
theorem vld1q_u64_vst1q_u64 (ptr : Ptr .u64) (h : ∀ i : Fin 2, Readable ptr i) :
    (vld1q_u64 ptr >>= fun v => vst1q_u64 ptr v) = .ok ptr := by
  exact load_store1 (by decide) (vld1q_u64_spec ptr) (fun v => vst1q_u64_spec ptr v) h
example := vld1q_u64_vst1q_u64 ⟨(List.range 64).map fun k => some (BitVec.ofNat _ (3 * k)), 0⟩ (fun i => ⟨BitVec.ofNat _ (3 * i.val), by revert i; decide⟩)

/-- `vst1q_f32` writes the 4 lanes to the 4 consecutive elements at the pointer and changes no other element; it is undefined if there is no room for them. -/
theorem vst1q_f32_spec (ptr : Ptr .f32) (val : float32x4_t) : Stores ptr val.lane (vst1q_f32 ptr val) := by
  exact store1 ptr val (by decide) rfl

/-- `vld1q_f32` gives back what `vst1q_f32` stored. -/
theorem vst1q_f32_vld1q_f32 (ptr : Ptr .f32) (val : float32x4_t) (h : Writable ptr 4) :
    (vst1q_f32 ptr val >>= fun p => vld1q_f32 p) = .ok val := by
  exact store_load1 (vst1q_f32_spec ptr val) vld1q_f32_spec h
example := vst1q_f32_vld1q_f32 ⟨List.replicate 66 none, 1⟩ (⟨fun i => BitVec.ofNat 32 (4 + i.val)⟩) (by decide)

/-- Storing what was loaded leaves the buffer as it was. -/
theorem vld1q_f32_vst1q_f32 (ptr : Ptr .f32) (h : ∀ i : Fin 4, Readable ptr i) :
    (vld1q_f32 ptr >>= fun v => vst1q_f32 ptr v) = .ok ptr := by
  exact load_store1 (by decide) (vld1q_f32_spec ptr) (fun v => vst1q_f32_spec ptr v) h
example := vld1q_f32_vst1q_f32 ⟨(List.range 64).map fun k => some (BitVec.ofNat _ (3 * k)), 0⟩ (fun i => ⟨BitVec.ofNat _ (3 * i.val), by revert i; decide⟩)

/-- `vst2_s8` writes lane `i` of register `j` to element `2*i+j`, for the 16 elements at the pointer, and changes no other element; it is undefined if there is no room for them. -/
theorem vst2_s8_spec (ptr : Ptr .s8) (val : int8x8x2_t) : Stores ptr (interleave val) (vst2_s8 ptr val) := by
  exact store2 ptr val (by decide) rfl

/-- `vld2_s8` gives back what `vst2_s8` stored. -/
theorem vst2_s8_vld2_s8 (ptr : Ptr .s8) (val : int8x8x2_t) (h : Writable ptr 16) :
    (vst2_s8 ptr val >>= fun p => vld2_s8 p) = .ok val := by
  exact store_loadK (vst2_s8_spec ptr val) vld2_s8_spec h
example := vst2_s8_vld2_s8 ⟨List.replicate 66 none, 1⟩ (⟨fun j => ⟨fun i => BitVec.ofNat 8 (4 + 40 * j.val + i.val)⟩⟩) (by decide)

/-- Storing what was loaded leaves the buffer as it was. -/
theorem vld2_s8_vst2_s8 (ptr : Ptr .s8) (h : ∀ t : Fin 16, Readable ptr t) :
    (vld2_s8 ptr >>= fun v => vst2_s8 ptr v) = .ok ptr := by
  exact load_storeK (by decide) (vld2_s8_spec ptr) (fun v => vst2_s8_spec ptr v) h
example := vld2_s8_vst2_s8 ⟨(List.range 64).map fun k => some (BitVec.ofNat _ (3 * k)), 0⟩ (fun i => ⟨BitVec.ofNat _ (3 * i.val), by revert i; decide⟩)

/-- `vst2_s16` writes lane `i` of register `j` to element `2*i+j`, for the 8 elements at the pointer, and changes no other element; it is undefined if there is no room for them. -/
theorem vst2_s16_spec (ptr : Ptr .s16) (val : int16x4x2_t) : Stores ptr (interleave val) (vst2_s16 ptr val) := by
  exact store2 ptr val (by decide) rfl

/-- `vld2_s16` gives back what `vst2_s16` stored. -/
theorem vst2_s16_vld2_s16 (ptr : Ptr .s16) (val : int16x4x2_t) (h : Writable ptr 8) :
    (vst2_s16 ptr val >>= fun p => vld2_s16 p) = .ok val := by
  exact store_loadK (vst2_s16_spec ptr val) vld2_s16_spec h
example := vst2_s16_vld2_s16 ⟨List.replicate 66 none, 1⟩ (⟨fun j => ⟨fun i => BitVec.ofNat 16 (4 + 40 * j.val + i.val)⟩⟩) (by decide)

/-- Storing what was loaded leaves the buffer as it was. -/
theorem vld2_s16_vst2_s16 (ptr : Ptr .s16) (h : ∀ t : Fin 8, Readable ptr t) :
    (vld2_s16 ptr >>= fun v => vst2_s16 ptr v) = .ok ptr := by
  exact load_storeK (by decide) (vld2_s16_spec ptr) (fun v => vst2_s16_spec ptr v) h
example := vld2_s16_vst2_s16 ⟨(List.range 64).map fun k => some (BitVec.ofNat _ (3 * k)), 0⟩ (fun i => ⟨BitVec.ofNat _ (3 * i.val), by revert i; decide⟩)

/-- `vst2_s32` writes lane `i` of register `j` to element `2*i+j`, for the 4 elements at the pointer, and changes no other element; it is undefined if there is no room for them. -/
theorem vst2_s32_spec (ptr : Ptr .s32) (val : int32x2x2_t) : Stores ptr (interleave val) (vst2_s32 ptr val) := by
  exact store2 ptr val (by decide) rfl

/-- `vld_s32` gives back what `vst2_s32` stored. -/
theorem vst2_s32_vld_s32 (ptr : Ptr .s32) (val : int32x2x2_t) (h : Writable ptr 4) :
    (vst2_s32 ptr val >>= fun p => vld_s32 p) = .ok val := by
  exact store_loadK (vst2_s32_spec ptr val) vld_s32_spec h
example := vst2_s32_vld_s32 ⟨List.replicate 66 none, 1⟩ (⟨fun j => ⟨fun i => BitVec.ofNat 32 (4 + 40 * j.val + i.val)⟩⟩) (by decide)

/-- Storing what was loaded leaves the buffer as it was. -/
theorem vld_s32_vst2_s32 (ptr : Ptr .s32) (h : ∀ t : Fin 4, Readable ptr t) :
    (vld_s32 ptr >>= fun v => vst2_s32 ptr v) = .ok ptr := by
  exact load_storeK (by decide) (vld_s32_spec ptr) (fun v => vst2_s32_spec ptr v) h
example := vld_s32_vst2_s32 ⟨(List.range 64).map fun k => some (BitVec.ofNat _ (3 * k)), 0⟩ (fun i => ⟨BitVec.ofNat _ (3 * i.val), by revert i; decide⟩)

/-- `vst2_u8` writes lane `i` of register `j` to element `2*i+j`, for the 16 elements at the pointer, and changes no other element; it is undefined if there is no room for them. -/
theorem vst2_u8_spec (ptr : Ptr .u8) (val : uint8x8x2_t) : Stores ptr (interleave val) (vst2_u8 ptr val) := by
  exact store2 ptr val (by decide) rfl

/-- `vld2_u8` gives back what `vst2_u8` stored. -/
theorem vst2_u8_vld2_u8 (ptr : Ptr .u8) (val : uint8x8x2_t) (h : Writable ptr 16) :
    (vst2_u8 ptr val >>= fun p => vld2_u8 p) = .ok val := by
  exact store_loadK (vst2_u8_spec ptr val) vld2_u8_spec h
example := vst2_u8_vld2_u8 ⟨List.replicate 66 none, 1⟩ (⟨fun j => ⟨fun i => BitVec.ofNat 8 (4 + 40 * j.val + i.val)⟩⟩) (by decide)

/-- Storing what was loaded leaves the buffer as it was. -/
theorem vld2_u8_vst2_u8 (ptr : Ptr .u8) (h : ∀ t : Fin 16, Readable ptr t) :
    (vld2_u8 ptr >>= fun v => vst2_u8 ptr v) = .ok ptr := by
  exact load_storeK (by decide) (vld2_u8_spec ptr) (fun v => vst2_u8_spec ptr v) h
example := vld2_u8_vst2_u8 ⟨(List.range 64).map fun k => some (BitVec.ofNat _ (3 * k)), 0⟩ (fun i => ⟨BitVec.ofNat _ (3 * i.val), by revert i; decide⟩)

/-- `vst2_u16` writes lane `i` of register `j` to element `2*i+j`, for the 8 elements at the pointer, and changes no other element; it is undefined if there is no room for them. -/
theorem vst2_u16_spec (ptr : Ptr .u16) (val : uint16x4x2_t) : Stores ptr (interleave val) (vst2_u16 ptr val) := by
  exact store2 ptr val (by decide) rfl

/-- `vld2_u16` gives back what `vst2_u16` stored. -/
theorem vst2_u16_vld2_u16 (ptr : Ptr .u16) (val : uint16x4x2_t) (h : Writable ptr 8) :
    (vst2_u16 ptr val >>= fun p => vld2_u16 p) = .ok val := by
  exact store_loadK (vst2_u16_spec ptr val) vld2_u16_spec h
example := vst2_u16_vld2_u16 ⟨List.replicate 66 none, 1⟩ (⟨fun j => ⟨fun i => BitVec.ofNat 16 (4 + 40 * j.val + i.val)⟩⟩) (by decide)

/-- Storing what was loaded leaves the buffer as it was. -/
theorem vld2_u16_vst2_u16 (ptr : Ptr .u16) (h : ∀ t : Fin 8, Readable ptr t) :
    (vld2_u16 ptr >>= fun v => vst2_u16 ptr v) = .ok ptr := by
  exact load_storeK (by decide) (vld2_u16_spec ptr) (fun v => vst2_u16_spec ptr v) h
example := vld2_u16_vst2_u16 ⟨(List.range 64).map fun k => some (BitVec.ofNat _ (3 * k)), 0⟩ (fun i => ⟨BitVec.ofNat _ (3 * i.val), by revert i; decide⟩)

/-- `vst2_u32` writes lane `i` of register `j` to element `2*i+j`, for the 4 elements at the pointer, and changes no other element; it is undefined if there is no room for them. -/
theorem vst2_u32_spec (ptr : Ptr .u32) (val : uint32x2x2_t) : Stores ptr (interleave val) (vst2_u32 ptr val) := by
  exact store2 ptr val (by decide) rfl

/-- `vld2_u32` gives back what `vst2_u32` stored. -/
theorem vst2_u32_vld2_u32 (ptr : Ptr .u32) (val : uint32x2x2_t) (h : Writable ptr 4) :
    (vst2_u32 ptr val >>= fun p => vld2_u32 p) = .ok val := by
  exact store_loadK (vst2_u32_spec ptr val) vld2_u32_spec h
example := vst2_u32_vld2_u32 ⟨List.replicate 66 none, 1⟩ (⟨fun j => ⟨fun i => BitVec.ofNat 32 (4 + 40 * j.val + i.val)⟩⟩) (by decide)

/-- Storing what was loaded leaves the buffer as it was. -/
theorem vld2_u32_vst2_u32 (ptr : Ptr .u32) (h : ∀ t : Fin 4, Readable ptr t) :
    (vld2_u32 ptr >>= fun v => vst2_u32 ptr v) = .ok ptr := by
  exact load_storeK (by decide) (vld2_u32_spec ptr) (fun v => vst2_u32_spec ptr v) h
example := vld2_u32_vst2_u32 ⟨(List.range 64).map fun k => some (BitVec.ofNat _ (3 * k)), 0⟩ (fun i => ⟨BitVec.ofNat _ (3 * i.val), by revert i; decide⟩)

/-- `vst2q_s8` writes lane `i` of register `j` to element `2*i+j`, for the 32 elements at the pointer, and changes no other element; it is undefined if there is no room for them. -/
theorem vst2q_s8_spec (ptr : Ptr .s8) (val : int8x16x2_t) : Stores ptr (interleave val) (vst2q_s8 ptr val) := by
  exact store2 ptr val (by decide) rfl

/-- `vld2q_s8` gives back what `vst2q_s8` stored. -/
theorem vst2q_s8_vld2q_s8 (ptr : Ptr .s8) (val : int8x16x2_t) (h : Writable ptr 32) :
    (vst2q_s8 ptr val >>= fun p => vld2q_s8 p) = .ok val := by
  exact store_loadK (vst2q_s8_spec ptr val) vld2q_s8_spec h
example := vst2q_s8_vld2q_s8 ⟨List.replicate 66 none, 1⟩ (⟨fun j => ⟨fun i => BitVec.ofNat 8 (4 + 40 * j.val + i.val)⟩⟩) (by decide)

/-- Storing what was loaded leaves the buffer as it was. -/
theorem vld2q_s8_vst2q_s8 (ptr : Ptr .s8) (h : ∀ t : Fin 32, Readable ptr t) :
    (vld2q_s8 ptr >>= fun v => vst2q_s8 ptr v) = .ok ptr := by
  exact load_storeK (by decide) (vld2q_s8_spec ptr) (fun v => vst2q_s8_spec ptr v) h
example := vld2q_s8_vst2q_s8 ⟨(List.range 64).map fun k => some (BitVec.ofNat _ (3 * k)), 0⟩ (fun i => ⟨BitVec.ofNat _ (3 * i.val), by revert i; decide⟩)

/-- `vst2q_s16` writes lane `i` of register `j` to element `2*i+j`, for the 16 elements at the pointer, and changes no other element; it is undefined if there is no room for them. -/
theorem vst2q_s16_spec (ptr : Ptr .s16) (val : int16x8x2_t) : Stores ptr (interleave val) (vst2q_s16 ptr val) := by
  exact store2 ptr val (by decide) rfl

/-- `vld2q_s16` gives back what `vst2q_s16` stored. -/
theorem vst2q_s16_vld2q_s16 (ptr : Ptr .s16) (val : int16x8x2_t) (h : Writable ptr 16) :
    (vst2q_s16 ptr val >>= fun p => vld2q_s16 p) = .ok val := by
  exact store_loadK (vst2q_s16_spec ptr val) vld2q_s16_spec h
example := vst2q_s16_vld2q_s16 ⟨List.replicate 66 none, 1⟩ (⟨fun j => ⟨fun i => BitVec.ofNat 16 (4 + 40 * j.val + i.val)⟩⟩) (by decide)

/-- Storing what was loaded leaves the buffer as it was. -/
theorem vld2q_s16_vst2q_s16 (ptr : Ptr .s16) (h : ∀ t : Fin 16, Readable ptr t) :
    (vld2q_s16 ptr >>= fun v => vst2q_s16 ptr v) = .ok ptr := by
  exact load_storeK (by decide) (vld2q_s16_spec ptr) (fun v => vst2q_s16_spec ptr v) h
example := vld2q_s16_vst2q_s16 ⟨(List.range 64).map fun k => some (BitVec.ofNat _ (3 * k)), 0⟩ (fun i => ⟨BitVec.ofNat _ (3 * i.val), by revert i; decide⟩)

/-- `vst2q_s32` writes lane `i` of register `j` to element `2*i+j`, for the 8 elements at the pointer, and changes no other element; it is undefined if there is no room for them. -/
theorem vst2q_s32_spec (ptr : Ptr .s32) (val : int32x4x2_t) : Stores ptr (interleave val) (vst2q_s32 ptr val) := by
  exact store2 ptr val (by decide) rfl

/-- `vld2q_s32` gives back what `vst2q_s32` stored. -/
theorem vst2q_s32_vld2q_s32 (ptr : Ptr .s32) (val : int32x4x2_t) (h : Writable ptr 8) :
    (vst2q_s32 ptr val >>= fun p => vld2q_s32 p) = .ok val := by
  exact store_loadK (vst2q_s32_spec ptr val) vld2q_s32_spec h
example := vst2q_s32_vld2q_s32 ⟨List.replicate 66 none, 1⟩ (⟨fun j => ⟨fun i => BitVec.ofNat 32 (4 + 40 * j.val + i.val)⟩⟩) (by decide)

/-- Storing what was loaded leaves the buffer as it was. -/
theorem vld2q_s32_vst2q_s32 (ptr : Ptr .s32) (h : ∀ t : Fin 8, Readable ptr t) :
    (vld2q_s32 ptr >>= fun v => vst2q_s32 ptr v) = .ok ptr := by
  exact load_storeK (by decide) (vld2q_s32_spec ptr) (fun v => vst2q_s32_spec ptr v) h
example := vld2q_s32_vst2q_s32 ⟨(List.range 64).map fun k => some (BitVec.ofNat _ (3 * k)), 0⟩ (fun i => ⟨BitVec.ofNat _ (3 * i.val), by revert i; decide⟩)

/-- `vst2q_u8` writes lane `i` of register `j` to element `2*i+j`, for the 32 elements at the pointer, and changes no other element; it is undefined if there is no room for them. -/
theorem vst2q_u8_spec (ptr : Ptr .u8) (val : uint8x16x2_t) : Stores ptr (interleave val) (vst2q_u8 ptr val) := by
  exact store2 ptr val (by decide) rfl

/-- `vld2q_u8` gives back what `vst2q_u8` stored. -/
theorem vst2q_u8_vld2q_u8 (ptr : Ptr .u8) (val : uint8x16x2_t) (h : Writable ptr 32) :
    (vst2q_u8 ptr val >>= fun p => vld2q_u8 p) = .ok val := by
  exact store_loadK (vst2q_u8_spec ptr val) vld2q_u8_spec h
example := vst2q_u8_vld2q_u8 ⟨List.replicate 66 none, 1⟩ (⟨fun j => ⟨fun i => BitVec.ofNat 8 (4 + 40 * j.val + i.val)⟩⟩) (by decide)

/-- Storing what was loaded leaves the buffer as it was. -/
theorem vld2q_u8_vst2q_u8 (ptr : Ptr .u8) (h : ∀ t : Fin 32, Readable ptr t) :
    (vld2q_u8 ptr >>= fun v => vst2q_u8 ptr v) = .ok ptr := by
  exact load_storeK (by decide) (vld2q_u8_spec ptr) (fun v => vst2q_u8_spec ptr v) h
example := vld2q_u8_vst2q_u8 ⟨(List.range 64).map fun k => some (BitVec.ofNat _ (3 * k)), 0⟩ (fun i => ⟨BitVec.ofNat _ (3 * i.val), by revert i; decide⟩)

/-- `vst2q_u16` writes lane `i` of register `j` to element `2*i+j`, for the 16 elements at the pointer, and changes no other element; it is undefined if there is no room for them. -/
theorem vst2q_u16_spec (ptr : Ptr .u16) (val : uint16x8x2_t) : Stores ptr (interleave val) (vst2q_u16 ptr val) := by
  exact store2 ptr val (by decide) rfl

/-- `vld2q_u16` gives back what `vst2q_u16` stored. -/
theorem vst2q_u16_vld2q_u16 (ptr : Ptr .u16) (val : uint16x8x2_t) (h : Writable ptr 16) :
    (vst2q_u16 ptr val >>= fun p => vld2q_u16 p) = .ok val := by
  exact store_loadK (vst2q_u16_spec ptr val) vld2q_u16_spec h
example := vst2q_u16_vld2q_u16 ⟨List.replicate 66 none, 1⟩ (⟨fun j => ⟨fun i => BitVec.ofNat 16 (4 + 40 * j.val + i.val)⟩⟩) (by decide)

/-- Storing what was loaded leaves the buffer as it was. -/
theorem vld2q_u16_vst2q_u16 (ptr : Ptr .u16) (h : ∀ t : Fin 16, Readable ptr t) :
    (vld2q_u16 ptr >>= fun v => vst2q_u16 ptr v) = .ok ptr := by
  exact load_storeK (by decide) (vld2q_u16_spec ptr) (fun v => vst2q_u16_spec ptr v) h
example := vld2q_u16_vst2q_u16 ⟨(List.range 64).map fun k => some (BitVec.ofNat _ (3 * k)), 0⟩ (fun i => ⟨BitVec.ofNat _ (3 * i.val), by revert i; decide⟩)

/-- `vst2q_u32` writes lane `i` of register `j` to element `2*i+j`, for the 8 elements at the pointer, and changes no other element; it is undefined if there is no room for them. -/
theorem vst2q_u32_spec (ptr : Ptr .u32) (val : uint32x4x2_t) : Stores ptr (interleave val) (vst2q_u32 ptr val) := by
  exact store2 ptr val (by decide) rfl

/-- `vld2q_u32` gives back what `vst2q_u32` stored. -/
theorem vst2q_u32_vld2q_u32 (ptr : Ptr .u32) (val : uint32x4x2_t) (h : Writable ptr 8) :
    (vst2q_u32 ptr val >>= fun p => vld2q_u32 p) = .ok val := by
  exact store_loadK (vst2q_u32_spec ptr val) vld2q_u32_spec h
example := vst2q_u32_vld2q_u32 ⟨List.replicate 66 none, 1⟩ (⟨fun j => ⟨fun i => BitVec.ofNat 32 (4 + 40 * j.val + i.val)⟩⟩) (by decide)

/-- Storing what was loaded leaves the buffer as it was. -/
theorem vld2q_u32_vst2q_u32 (ptr : Ptr .u32) (h : ∀ t : Fin 8, Readable ptr t) :
    (vld2q_u32 ptr >>= fun v => vst2q_u32 ptr v) = .ok ptr := by
  exact load_storeK (by decide) (vld2q_u32_spec ptr) (fun v => vst2q_u32_spec ptr v) h
example := vld2q_u32_vst2q_u32 ⟨(List.range 64).map fun k => some (BitVec.ofNat _ (3 * k)), 0⟩ (fun i => ⟨BitVec.ofNat _ (3 * i.val), by revert i; decide⟩)

/-- `vst3_s8` writes lane `i` of register `j` to element `3*i+j`, for the 24 elements at the pointer, and changes no other element; it is undefined if there is no room for them. -/
theorem vst3_s8_spec (ptr : Ptr .s8) (val : int8x8x3_t) : Stores ptr (interleave val) (vst3_s8 ptr val) := by
  exact store3 ptr val (by decide) rfl

/-- `vld3_s8` gives back what `vst3_s8` stored. -/
theorem vst3_s8_vld3_s8 (ptr : Ptr .s8) (val : int8x8x3_t) (h : Writable ptr 24) :
    (vst3_s8 ptr val >>= fun p => vld3_s8 p) = .ok val := by
  exact store_loadK (vst3_s8_spec ptr val) vld3_s8_spec h
example := vst3_s8_vld3_s8 ⟨List.replicate 66 none, 1⟩ (⟨fun j => ⟨fun i => BitVec.ofNat 8 (4 + 40 * j.val + i.val)⟩⟩) (by decide)

/-- Storing what was loaded leaves the buffer as it was. -/
theorem vld3_s8_vst3_s8 (ptr : Ptr .s8) (h : ∀ t : Fin 24, Readable ptr t) :
    (vld3_s8 ptr >>= fun v => vst3_s8 ptr v) = .ok ptr := by
  exact load_storeK (by decide) (vld3_s8_spec ptr) (fun v => vst3_s8_spec ptr v) h
example := vld3_s8_vst3_s8 ⟨(List.range 64).map fun k => some (BitVec.ofNat _ (3 * k)), 0⟩ (fun i => ⟨BitVec.ofNat _ (3 * i.val), by revert i; decide⟩)

/-- `vst3_s16` writes lane `i` of register `j` to element `3*i+j`, for the 12 elements at the pointer, and changes no other element; it is undefined if there is no room for them. -/
theorem vst3_s16_spec (ptr : Ptr .s16) (val : int16x4x3_t) : Stores ptr (interleave val) (vst3_s16 ptr val) := by
  exact store3 ptr val (by decide) rfl

/-- `vld3_s16` gives back what `vst3_s16` stored. -/
theorem vst3_s16_vld3_s16 (ptr : Ptr .s16) (val : int16x4x3_t) (h : Writable ptr 12) :
    (vst3_s16 ptr val >>= fun p => vld3_s16 p) = .ok val := by
  exact store_loadK (vst3_s16_spec ptr val) vld3_s16_spec h
example := vst3_s16_vld3_s16 ⟨List.replicate 66 none, 1⟩ (⟨fun j => ⟨fun i => BitVec.ofNat 16 (4 + 40 * j.val + i.val)⟩⟩) (by decide)

/-- Storing what was loaded leaves the buffer as it was. -/
theorem vld3_s16_vst3_s16 (ptr : Ptr .s16) (h : ∀ t : Fin 12, Readable ptr t) :
    (vld3_s16 ptr >>= fun v => vst3_s16 ptr v) = .ok ptr := by
  exact load_storeK (by decide) (vld3_s16_spec ptr) (fun v => vst3_s16_spec ptr v) h
example := vld3_s16_vst3_s16 ⟨(List.range 64).map fun k => some (BitVec.ofNat _ (3 * k)), 0⟩ (fun i => ⟨BitVec.ofNat _ (3 * i.val), by revert i; decide⟩)

/-- `vst3_s32` writes lane `i` of register `j` to element `3*i+j`, for the 6 elements at the pointer, and changes no other element; it is undefined if there is no room for them. -/
theorem vst3_s32_spec (ptr : Ptr .s32) (val : int32x2x3_t) : Stores ptr (interleave val) (vst3_s32 ptr val) := by
  exact store3 ptr val (by decide) rfl

/-- `vld3_s32` gives back what `vst3_s32` stored. -/
theorem vst3_s32_vld3_s32 (ptr : Ptr .s32) (val : int32x2x3_t) (h : Writable ptr 6) :
    (vst3_s32 ptr val >>= fun p => vld3_s32 p) = .ok val := by
  exact store_loadK (vst3_s32_spec ptr val) vld3_s32_spec h
example := vst3_s32_vld3_s32 ⟨List.replicate 66 none, 1⟩ (⟨fun j => ⟨fun i => BitVec.ofNat 32 (4 + 40 * j.val + i.val)⟩⟩) (by decide)

/-- Storing what was loaded leaves the buffer as it was. -/
theorem vld3_s32_vst3_s32 (ptr : Ptr .s32) (h : ∀ t : Fin 6, Readable ptr t) :
    (vld3_s32 ptr >>= fun v => vst3_s32 ptr v) = .ok ptr := by
  exact load_storeK (by decide) (vld3_s32_spec ptr) (fun v => vst3_s32_spec ptr v) h
example := vld3_s32_vst3_s32 ⟨(List.range 64).map fun k => some (BitVec.ofNat _ (3 * k)), 0⟩ (fun i => ⟨BitVec.ofNat _ (3 * i.val), by revert i; decide⟩)

/-- `vst3_u8` writes lane `i` of register `j` to element `3*i+j`, for the 24 elements at the pointer, and changes no other element; it is undefined if there is no room for them. -/
theorem vst3_u8_spec (ptr : Ptr .u8) (val : uint8x8x3_t) : Stores ptr (interleave val) (vst3_u8 ptr val) := by
  exact store3 ptr val (by decide) rfl

/-- `vld3_u8` gives back what `vst3_u8` stored. -/
theorem vst3_u8_vld3_u8 (ptr : Ptr .u8) (val : uint8x8x3_t) (h : Writable ptr 24) :
    (vst3_u8 ptr val >>= fun p => vld3_u8 p) = .ok val := by
  exact store_loadK (vst3_u8_spec ptr val) vld3_u8_spec h
example := vst3_u8_vld3_u8 ⟨List.replicate 66 none, 1⟩ (⟨fun j => ⟨fun i => BitVec.ofNat 8 (4 + 40 * j.val + i.val)⟩⟩) (by decide)

/-- Storing what was loaded leaves the buffer as it was. -/
theorem vld3_u8_vst3_u8 (ptr : Ptr .u8) (h : ∀ t : Fin 24, Readable ptr t) :
    (vld3_u8 ptr >>= fun v => vst3_u8 ptr v) = .ok ptr := by
  exact load_storeK (by decide) (vld3_u8_spec ptr) (fun v => vst3_u8_spec ptr v) h
example := vld3_u8_vst3_u8 ⟨(List.range 64).map fun k => some (BitVec.ofNat _ (3 * k)), 0⟩ (fun i => ⟨BitVec.ofNat _ (3 * i.val), by revert i; decide⟩)

/-- `vst3_u16` writes lane `i` of register `j` to element `3*i+j`, for the 12 elements at the pointer, and changes no other element; it is undefined if there is no room for them. -/
theorem vst3_u16_spec (ptr : Ptr .u16) (val : uint16x4x3_t) : Stores ptr (interleave val) (vst3_u16 ptr val) := by
  exact store3 ptr val (by decide) rfl

/-- `vld3_u16` gives back what `vst3_u16` stored. -/
theorem vst3_u16_vld3_u16 (ptr : Ptr .u16) (val : uint16x4x3_t) (h : Writable ptr 12) :
    (vst3_u16 ptr val >>= fun p => vld3_u16 p) = .ok val := by
  exact store_loadK (vst3_u16_spec ptr val) vld3_u16_spec h
example := vst3_u16_vld3_u16 ⟨List.replicate 66 none, 1⟩ (⟨fun j => ⟨fun i => BitVec.ofNat 16 (4 + 40 * j.val + i.val)⟩⟩) (by decide)

/-- Storing what was loaded leaves the buffer as it was. -/
theorem vld3_u16_vst3_u16 (ptr : Ptr .u16) (h : ∀ t : Fin 12, Readable ptr t) :
    (vld3_u16 ptr >>= fun v => vst3_u16 ptr v) = .ok ptr := by
  exact load_storeK (by decide) (vld3_u16_spec ptr) (fun v => vst3_u16_spec ptr v) h
example := vld3_u16_vst3_u16 ⟨(List.range 64).map fun k => some (BitVec.ofNat _ (3 * k)), 0⟩ (fun i => ⟨BitVec.ofNat _ (3 * i.val), by revert i; decide⟩)

/-- `vst3_u32` writes lane `i` of register `j` to element `3*i+j`, for the 6 elements at the pointer, and changes no other element; it is undefined if there is no room for them. -/
theorem vst3_u32_spec (ptr : Ptr .u32) (val : uint32x2x3_t) : Stores ptr (interleave val) (vst3_u32 ptr val) := by
  exact store3 ptr val (by decide) rfl

/-- `vld3_u32` gives back what `vst3_u32` stored. -/
theorem vst3_u32_vld3_u32 (ptr : Ptr .u32) (val : uint32x2x3_t) (h : Writable ptr 6) :
    (vst3_u32 ptr val >>= fun p => vld3_u32 p) = .ok val := by
  exact store_loadK (vst3_u32_spec ptr val) vld3_u32_spec h
example := vst3_u32_vld3_u32 ⟨List.replicate 66 none, 1⟩ (⟨fun j => ⟨fun i => BitVec.ofNat 32 (4 + 40 * j.val + i.val)⟩⟩) (by decide)

/-- Storing what was loaded leaves the buffer as it was. -/
theorem vld3_u32_vst3_u32 (ptr : Ptr .u32) (h : ∀ t : Fin 6, Readable ptr t) :
    (vld3_u32 ptr >>= fun v => vst3_u32 ptr v) = .ok ptr := by
  exact load_storeK (by decide) (vld3_u32_spec ptr) (fun v => vst3_u32_spec ptr v) h
example := vld3_u32_vst3_u32 ⟨(List.range 64).map fun k => some (BitVec.ofNat _ (3 * k)), 0⟩ (fun i => ⟨BitVec.ofNat _ (3 * i.val), by revert i; decide⟩)

/-- `vst3q_s8` writes lane `i` of register `j` to element `3*i+j`, for the 48 elements at the pointer, and changes no other element; it is undefined if there is no room for them. -/
theorem vst3q_s8_spec (ptr : Ptr .s8) (val : int8x16x3_t) : Stores ptr (interleave val) (vst3q_s8 ptr val) := by
  exact store3 ptr val (by decide) rfl

/-- `vld3q_s8` gives back what `vst3q_s8` stored. -/
theorem vst3q_s8_vld3q_s8 (ptr : Ptr .s8) (val : int8x16x3_t) (h : Writable ptr 48) :
    (vst3q_s8 ptr val >>= fun p => vld3q_s8 p) = .ok val := by
  exact store_loadK (vst3q_s8_spec ptr val) vld3q_s8_spec h
example := vst3q_s8_vld3q_s8 ⟨List.replicate 66 none, 1⟩ (⟨fun j => ⟨fun i => BitVec.ofNat 8 (4 + 40 * j.val + i.val)⟩⟩) (by decide)

/-- Storing what was loaded leaves the buffer as it was. -/
theorem vld3q_s8_vst3q_s8 (ptr : Ptr .s8) (h : ∀ t : Fin 48, Readable ptr t) :
    (vld3q_s8 ptr >>= fun v => vst3q_s8 ptr v) = .ok ptr := by
  exact load_storeK (by decide) (vld3q_s8_spec ptr) (fun v => vst3q_s8_spec ptr v) h
example := vld3q_s8_vst3q_s8 ⟨(List.range 64).map fun k => some (BitVec.ofNat _ (3 * k)), 0⟩ (fun i => ⟨BitVec.ofNat _ (3 * i.val), by revert i; decide⟩)

/-- `vst3q_s16` writes lane `i` of register `j` to element `3*i+j`, for the 24 elements at the pointer, and changes no other element; it is undefined if there is no room for them. -/
theorem vst3q_s16_spec (ptr : Ptr .s16) (val : int16x8x3_t) : Stores ptr (interleave val) (vst3q_s16 ptr val) := by
  exact store3 ptr val (by decide) rfl

/-- `vld3q_s16` gives back what `vst3q_s16` stored. -/
theorem vst3q_s16_vld3q_s16 (ptr : Ptr .s16) (val : int16x8x3_t) (h : Writable ptr 24) :
    (vst3q_s16 ptr val >>= fun p => vld3q_s16 p) = .ok val := by
  exact store_loadK (vst3q_s16_spec ptr val) vld3q_s16_spec h
example := vst3q_s16_vld3q_s16 ⟨List.replicate 66 none, 1⟩ (⟨fun j => ⟨fun i => BitVec.ofNat 16 (4 + 40 * j.val + i.val)⟩⟩) (by decide)

/-- Storing what was loaded leaves the buffer as it was. -/
theorem vld3q_s16_vst3q_s16 (ptr : Ptr .s16) (h : ∀ t : Fin 24, Readable ptr t) :
    (vld3q_s16 ptr >>= fun v => vst3q_s16 ptr v) = .ok ptr := by
  exact load_storeK (by decide) (vld3q_s16_spec ptr) (fun v => vst3q_s16_spec ptr v) h
example := vld3q_s16_vst3q_s16 ⟨(List.range 64).map fun k => some (BitVec.ofNat _ (3 * k)), 0⟩ (fun i => ⟨BitVec.ofNat _ (3 * i.val), by revert i; decide⟩)

/-- `vst3q_s32` writes lane `i` of register `j` to element `3*i+j`, for the 12 elements at the pointer, and changes no other element; it is undefined if there is no room for them. -/
theorem vst3q_s32_spec (ptr : Ptr .s32) (val : int32x4x3_t) : Stores ptr (interleave val) (vst3q_s32 ptr val) := by
  exact store3 ptr val (by decide) rfl

/-- `vld3q_s32` gives back what `vst3q_s32` stored. -/
theorem vst3q_s32_vld3q_s32 (ptr : Ptr .s32) (val : int32x4x3_t) (h : Writable ptr 12) :
    (vst3q_s32 ptr val >>= fun p => vld3q_s32 p) = .ok val := by
  exact store_loadK (vst3q_s32_spec ptr val) vld3q_s32_spec h
example := vst3q_s32_vld3q_s32 ⟨List.replicate 66 none, 1⟩ (⟨fun j => ⟨fun i => BitVec.ofNat 32 (4 + 40 * j.val + i.val)⟩⟩) (by decide)

/-- Storing what was loaded leaves the buffer as it was. -/
theorem vld3q_s32_vst3q_s32 (ptr : Ptr .s32) (h : ∀ t : Fin 12, Readable ptr t) :
    (vld3q_s32 ptr >>= fun v => vst3q_s32 ptr v) = .ok ptr := by
  exact load_storeK (by decide) (vld3q_s32_spec ptr) (fun v => vst3q_s32_spec ptr v) h
example := vld3q_s32_vst3q_s32 ⟨(List.range 64).map fun k => some (BitVec.ofNat _ (3 * k)), 0⟩ (fun i => ⟨BitVec.ofNat _ (3 * i.val), by revert i; decide⟩)

/-- `vst3q_u8` writes lane `i` of register `j` to element `3*i+j`, for the 48 elements at the pointer, and changes no other element; it is undefined if there is no room for them. -/
theorem vst3q_u8_spec (ptr : Ptr .u8) (val : uint8x16x3_t) : Stores ptr (interleave val) (vst3q_u8 ptr val) := by
  exact store3 ptr val (by decide) rfl

/-- `vld3q_u8` gives back what `vst3q_u8` stored. -/
theorem vst3q_u8_vld3q_u8 (ptr : Ptr .u8) (val : uint8x16x3_t) (h : Writable ptr 48) :
    (vst3q_u8 ptr val >>= fun p => vld3q_u8 p) = .ok val := by
  exact store_loadK (vst3q_u8_spec ptr val) vld3q_u8_spec h
example := vst3q_u8_vld3q_u8 ⟨List.replicate 66 none, 1⟩ (⟨fun j => ⟨fun i => BitVec.ofNat 8 (4 + 40 * j.val + i.val)⟩⟩) (by decide)

/-- Storing what was loaded leaves the buffer as it was. -/
theorem vld3q_u8_vst3q_u8 (ptr : Ptr .u8) (h : ∀ t : Fin 48, Readable ptr t) :
    (vld3q_u8 ptr >>= fun v => vst3q_u8 ptr v) = .ok ptr := by
  exact load_storeK (by decide) (vld3q_u8_spec ptr) (fun v => vst3q_u8_spec ptr v) h
example := vld3q_u8_vst3q_u8 ⟨(List.range 64).map fun k => some (BitVec.ofNat _ (3 * k)), 0⟩ (fun i => ⟨BitVec.ofNat _ (3 * i.val), by revert i; decide⟩)

/-- `vst3q_u16` writes lane `i` of register `j` to element `3*i+j`, for the 24 elements at the pointer, and changes no other element; it is undefined if there is no room for them. -/
theorem vst3q_u16_spec (ptr : Ptr .u16) (val : uint16x8x3_t) : Stores ptr (interleave val) (vst3q_u16 ptr val) := by
  exact store3 ptr val (by decide) rfl

/-- `vld3q_u16` gives back what `vst3q_u16` stored. -/
theorem vst3q_u16_vld3q_u16 (ptr : Ptr .u16) (val : uint16x8x3_t) (h : Writable ptr 24) :
    (vst3q_u16 ptr val >>= fun p => vld3q_u16 p) = .ok val := by
  exact store_loadK (vst3q_u16_spec ptr val) vld3q_u16_spec h
example := vst3q_u16_vld3q_u16 ⟨List.replicate 66 none, 1⟩ (⟨fun j => ⟨fun i => BitVec.ofNat 16 (4 + 40 * j.val + i.val)⟩⟩) (by decide)

/-- Storing what was loaded leaves the buffer as it was. -/
theorem vld3q_u16_vst3q_u16 (ptr : Ptr .u16) (h : ∀ t : Fin 24, Readable ptr t) :
    (vld3q_u16 ptr >>= fun v => vst3q_u16 ptr v) = .ok ptr := by
  exact load_storeK (by decide) (vld3q_u16_spec ptr) (fun v => vst3q_u16_spec ptr v) h
example := vld3q_u16_vst3q_u16 ⟨(List.range 64).map fun k => some (BitVec.ofNat _ (3 * k)), 0⟩ (fun i => ⟨BitVec.ofNat _ (3 * i.val), by revert i; decide⟩)

/-- `vst3q_u32` writes lane `i` of register `j` to element `3*i+j`, for the 12 elements at the pointer, and changes no other element; it is undefined if there is no room for them. -/
theorem vst3q_u32_spec (ptr : Ptr .u32) (val : uint32x4x3_t) : Stores ptr (interleave val) (vst3q_u32 ptr val) := by
  exact store3 ptr val (by decide) rfl

/-- `vld3q_u32` gives back what `vst3q_u32` stored. -/
theorem vst3q_u32_vld3q_u32 (ptr : Ptr .u32) (val : uint32x4x3_t) (h : Writable ptr 12) :
    (vst3q_u32 ptr val >>= fun p => vld3q_u32 p) = .ok val := by
  exact store_loadK (vst3q_u32_spec ptr val) vld3q_u32_spec h
example := vst3q_u32_vld3q_u32 ⟨List.replicate 66 none, 1⟩ (⟨fun j => ⟨fun i => BitVec.ofNat 32 (4 + 40 * j.val + i.val)⟩⟩) (by decide)

/-- Storing what was loaded leaves the buffer as it was. -/
theorem vld3q_u32_vst3q_u32 (ptr : Ptr .u32) (h : ∀ t : Fin 12, Readable ptr t) :
    (vld3q_u32 ptr >>= fun v => vst3q_u32 ptr v) = .ok ptr := by
  exact load_storeK (by decide) (vld3q_u32_spec ptr) (fun v => vst3q_u32_spec ptr v) h
example := vld3q_u32_vst3q_u32 ⟨(List.range 64).map fun k => some (BitVec.ofNat _ (3 * k)), 0⟩ (fun i => ⟨BitVec.ofNat _ (3 * i.val), by revert i; decide⟩)

/-- `vst4_s8` writes lane `i` of register `j` to element `4*i+j`, for the 32 elements at the pointer, and changes no other element; it is undefined if there is no room for them. -/
theorem vst4_s8_spec (ptr : Ptr .s8) (val : int8x8x4_t) : Stores ptr (interleave val) (vst4_s8 ptr val) := by
  exact store4 ptr val (by decide) rfl

/-- `vld4_s8` gives back what `vst4_s8` stored. -/
theorem vst4_s8_vld4_s8 (ptr : Ptr .s8) (val : int8x8x4_t) (h : Writable ptr 32) :
    (vst4_s8 ptr val >>= fun p => vld4_s8 p) = .ok val := by
  exact store_loadK (vst4_s8_spec ptr val) vld4_s8_spec h
example := vst4_s8_vld4_s8 ⟨List.replicate 66 none, 1⟩ (⟨fun j => ⟨fun i => BitVec.ofNat 8 (4 + 40 * j.val + i.val)⟩⟩) (by decide)

/-- Storing what was loaded leaves the buffer as it was. -/
theorem vld4_s8_vst4_s8 (ptr : Ptr .s8) (h : ∀ t : Fin 32, Readable ptr t) :
    (vld4_s8 ptr >>= fun v => vst4_s8 ptr v) = .ok ptr := by
  exact load_storeK (by decide) (vld4_s8_spec ptr) (fun v => vst4_s8_spec ptr v) h
example := vld4_s8_vst4_s8 ⟨(List.range 64).map fun k => some (BitVec.ofNat _ (3 * k)), 0⟩ (fun i => ⟨BitVec.ofNat _ (3 * i.val), by revert i; decide⟩)

/-- `vst4_s16` writes lane `i` of register `j` to element `4*i+j`, for the 16 elements at the pointer, and changes no other element; it is undefined if there is no room for them. -/
theorem vst4_s16_spec (ptr : Ptr .s16) (val : int16x4x4_t) : Stores ptr (interleave val) (vst4_s16 ptr val) := by
  exact store4 ptr val (by decide) rfl

/-- `vld4_s16` gives back what `vst4_s16` stored. -/
theorem vst4_s16_vld4_s16 (ptr : Ptr .s16) (val : int16x4x4_t) (h : Writable ptr 16) :
    (vst4_s16 ptr val >>= fun p => vld4_s16 p) = .ok val := by
  exact store_loadK (vst4_s16_spec ptr val) vld4_s16_spec h
example := vst4_s16_vld4_s16 ⟨List.replicate 66 none, 1⟩ (⟨fun j => ⟨fun i => BitVec.ofNat 16 (4 + 40 * j.val + i.val)⟩⟩) (by decide)

/-- Storing what was loaded leaves the buffer as it was. -/
theorem vld4_s16_vst4_s16 (ptr : Ptr .s16) (h : ∀ t : Fin 16, Readable ptr t) :
    (vld4_s16 ptr >>= fun v => vst4_s16 ptr v) = .ok ptr := by
  exact load_storeK (by decide) (vld4_s16_spec ptr) (fun v => vst4_s16_spec ptr v) h
example := vld4_s16_vst4_s16 ⟨(List.range 64).map fun k => some (BitVec.ofNat _ (3 * k)), 0⟩ (fun i => ⟨BitVec.ofNat _ (3 * i.val), by revert i; decide⟩)

/-- `vst4_s32` writes lane `i` of register `j` to element `4*i+j`, for the 8 elements at the pointer, and changes no other element; it is undefined if there is no room for them. -/
theorem vst4_s32_spec (ptr : Ptr .s32) (val : int32x2x4_t) : Stores ptr (interleave val) (vst4_s32 ptr val) := by
  exact store4 ptr val (by decide) rfl

/-- `vld4_s32` gives back what `vst4_s32` stored. -/
theorem vst4_s32_vld4_s32 (ptr : Ptr .s32) (val : int32x2x4_t) (h : Writable ptr 8) :
    (vst4_s32 ptr val >>= fun p => vld4_s32 p) = .ok val := by
  exact store_loadK (vst4_s32_spec ptr val) vld4_s32_spec h
example := vst4_s32_vld4_s32 ⟨List.replicate 66 none, 1⟩ (⟨fun j => ⟨fun i => BitVec.ofNat 32 (4 + 40 * j.val + i.val)⟩⟩) (by decide)

/-- Storing what was loaded leaves the buffer as it was. -/
theorem vld4_s32_vst4_s32 (ptr : Ptr .s32) (h : ∀ t : Fin 8, Readable ptr t) :
    (vld4_s32 ptr >>= fun v => vst4_s32 ptr v) = .ok ptr := by
  exact load_storeK (by decide) (vld4_s32_spec ptr) (fun v => vst4_s32_spec ptr v) h
example := vld4_s32_vst4_s32 ⟨(List.range 64).map fun k => some (BitVec.ofNat _ (3 * k)), 0⟩ (fun i => ⟨BitVec.ofNat _ (3 * i.val), by revert i; decide⟩)

/-- `vst4_u16` writes lane `i` of register `j` to element `4*i+j`, for the 16 elements at the pointer, and changes no other element; it is undefined if there is no room for them. -/
theorem vst4_u16_spec (ptr : Ptr .u16) (val : uint16x4x4_t) : Stores ptr (interleave val) (vst4_u16 ptr val) := by
  exact store4 ptr val (by decide) rfl

/-- `vld4_u16` gives back what `vst4_u16` stored. -/
theorem vst4_u16_vld4_u16 (ptr : Ptr .u16) (val : uint16x4x4_t) (h : Writable ptr 16) :
    (vst4_u16 ptr val >>= fun p => vld4_u16 p) = .ok val := by
  exact store_loadK (vst4_u16_spec ptr val) vld4_u16_spec h
example := vst4_u16_vld4_u16 ⟨List.replicate 66 none, 1⟩ (⟨fun j => ⟨fun i => BitVec.ofNat 16 (4 + 40 * j.val + i.val)⟩⟩) (by decide)

/-- Storing what was loaded leaves the buffer as it was. -/
theorem vld4_u16_vst4_u16 (ptr : Ptr .u16) (h : ∀ t : Fin 16, Readable ptr t) :
    (vld4_u16 ptr >>= fun v => vst4_u16 ptr v) = .ok ptr := by
  exact load_storeK (by decide) (vld4_u16_spec ptr) (fun v => vst4_u16_spec ptr v) h
example := vld4_u16_vst4_u16 ⟨(List.range 64).map fun k => some (BitVec.ofNat _ (3 * k)), 0⟩ (fun i => ⟨BitVec.ofNat _ (3 * i.val), by revert i; decide⟩)

/-- `vst4q_s8` writes lane `i` of register `j` to element `4*i+j`, for the 64 elements at the pointer, and changes no other element; it is undefined if there is no room for them. -/
theorem vst4q_s8_spec (ptr : Ptr .s8) (val : int8x16x4_t) : Stores ptr (interleave val) (vst4q_s8 ptr val) := by
  exact store4 ptr val (by decide) rfl

/-- `vld4q_s8` gives back what `vst4q_s8` stored. -/
theorem vst4q_s8_vld4q_s8 (ptr : Ptr .s8) (val : int8x16x4_t) (h : Writable ptr 64) :
    (vst4q_s8 ptr val >>= fun p => vld4q_s8 p) = .ok val := by
  exact store_loadK (vst4q_s8_spec ptr val) vld4q_s8_spec h
example := vst4q_s8_vld4q_s8 ⟨List.replicate 66 none, 1⟩ (⟨fun j => ⟨fun i => BitVec.ofNat 8 (4 + 40 * j.val + i.val)⟩⟩) (by decide)

/-- Storing what was loaded leaves the buffer as it was. -/
theorem vld4q_s8_vst4q_s8 (ptr : Ptr .s8) (h : ∀ t : Fin 64, Readable ptr t) :
    (vld4q_s8 ptr >>= fun v => vst4q_s8 ptr v) = .ok ptr := by
  exact load_storeK (by decide) (vld4q_s8_spec ptr) (fun v => vst4q_s8_spec ptr v) h
example := vld4q_s8_vst4q_s8 ⟨(List.range 64).map fun k => some (BitVec.ofNat _ (3 * k)), 0⟩ (fun i => ⟨BitVec.ofNat _ (3 * i.val), by revert i; decide⟩)

/-- `vst4q_s16` writes lane `i` of register `j` to element `4*i+j`, for the 32 elements at the pointer, and changes no other element; it is undefined if there is no room for them. -/
theorem vst4q_s16_spec (ptr : Ptr .s16) (val : int16x8x4_t) : Stores ptr (interleave val) (vst4q_s16 ptr val) := by
  exact store4 ptr val (by decide) rfl

/-- `vld4q_s16` gives back what `vst4q_s16` stored. -/
theorem vst4q_s16_vld4q_s16 (ptr : Ptr .s16) (val : int16x8x4_t) (h : Writable ptr 32) :
    (vst4q_s16 ptr val >>= fun p => vld4q_s16 p) = .ok val := by
  exact store_loadK (vst4q_s16_spec ptr val) vld4q_s16_spec h
example := vst4q_s16_vld4q_s16 ⟨List.replicate 66 none, 1⟩ (⟨fun j => ⟨fun i => BitVec.ofNat 16 (4 + 40 * j.val + i.val)⟩⟩) (by decide)

/-- Storing what was loaded leaves the buffer as it was. -/
theorem vld4q_s16_vst4q_s16 (ptr : Ptr .s16) (h : ∀ t : Fin 32, Readable ptr t) :
    (vld4q_s16 ptr >>= fun v => vst4q_s16 ptr v) = .ok ptr := by
  exact load_storeK (by decide) (vld4q_s16_spec ptr) (fun v => vst4q_s16_spec ptr v) h
example := vld4q_s16_vst4q_s16 ⟨(List.range 64).map fun k => some (BitVec.ofNat _ (3 * k)), 0⟩ (fun i => ⟨BitVec.ofNat _ (3 * i.val), by revert i; decide⟩)

/-- `vst4q_s32` writes lane `i` of register `j` to element `4*i+j`, for the 16 elements at the pointer, and changes no other element; it is undefined if there is no room for them. -/
theorem vst4q_s32_spec (ptr : Ptr .s32) (val : int32x4x4_t) : Stores ptr (interleave val) (vst4q_s32 ptr val) := by
  exact store4 ptr val (by decide) rfl

/-- `vld4q_s32` gives back what `vst4q_s32` stored. -/
theorem vst4q_s32_vld4q_s32 (ptr : Ptr .s32) (val : int32x4x4_t) (h : Writable ptr 16) :
    (vst4q_s32 ptr val >>= fun p => vld4q_s32 p) = .ok val := by
  exact store_loadK (vst4q_s32_spec ptr val) vld4q_s32_spec h
example := vst4q_s32_vld4q_s32 ⟨List.replicate 66 none, 1⟩ (⟨fun j => ⟨fun i => BitVec.ofNat 32 (4 + 40 * j.val + i.val)⟩⟩) (by decide)

/-- Storing what was loaded leaves the buffer as it was. -/
theorem vld4q_s32_vst4q_s32 (ptr : Ptr .s32) (h : ∀ t : Fin 16, Readable ptr t) :
    (vld4q_s32 ptr >>= fun v => vst4q_s32 ptr v) = .ok ptr := by
  exact load_storeK (by decide) (vld4q_s32_spec ptr) (fun v => vst4q_s32_spec ptr v) h
example := vld4q_s32_vst4q_s32 ⟨(List.range 64).map fun k => some (BitVec.ofNat _ (3 * k)), 0⟩ (fun i => ⟨BitVec.ofNat _ (3 * i.val), by revert i; decide⟩)

/-- `vst4q_u8` writes lane `i` of register `j` to element `4*i+j`, for the 64 elements at the pointer, and changes no other element; it is undefined if there is no room for them. -/
theorem vst4q_u8_spec (ptr : Ptr .u8) (val : uint8x16x4_t) : Stores ptr (interleave val) (vst4q_u8 ptr val) := by
  exact store4 ptr val (by decide) rfl

/-- `vld4q_u8` gives back what `vst4q_u8` stored. -/
theorem vst4q_u8_vld4q_u8 (ptr : Ptr .u8) (val : uint8x16x4_t) (h : Writable ptr 64) :
    (vst4q_u8 ptr val >>= fun p => vld4q_u8 p) = .ok val := by
  exact store_loadK (vst4q_u8_spec ptr val) vld4q_u8_spec h
example := vst4q_u8_vld4q_u8 ⟨List.replicate 66 none, 1⟩ (⟨fun j => ⟨fun i => BitVec.ofNat 8 (4 + 40 * j.val + i.val)⟩⟩) (by decide)

/-- Storing what was loaded leaves the buffer as it was. -/
theorem vld4q_u8_vst4q_u8 (ptr : Ptr .u8) (h : ∀ t : Fin 64, Readable ptr t) :
    (vld4q_u8 ptr >>= fun v => vst4q_u8 ptr v) = .ok ptr := by
  exact load_storeK (by decide) (vld4q_u8_spec ptr) (fun v => vst4q_u8_spec ptr v) h
example := vld4q_u8_vst4q_u8 ⟨(List.range 64).map fun k => some (BitVec.ofNat _ (3 * k)), 0⟩ (fun i => ⟨BitVec.ofNat _ (3 * i.val), by revert i; decide⟩)

/-- `vst4q_u16` writes lane `i` of register `j` to element `4*i+j`, for the 32 elements at the pointer, and changes no other element; it is undefined if there is no room for them. -/
theorem vst4q_u16_spec (ptr : Ptr .u16) (val : uint16x8x4_t) : Stores ptr (interleave val) (vst4q_u16 ptr val) := by
  exact store4 ptr val (by decide) rfl

/-- `vld4q_u16` gives back what `vst4q_u16` stored. -/
theorem vst4q_u16_vld4q_u16 (ptr : Ptr .u16) (val : uint16x8x4_t) (h : Writable ptr 32) :
    (vst4q_u16 ptr val >>= fun p => vld4q_u16 p) = .ok val := by
  exact store_loadK (vst4q_u16_spec ptr val) vld4q_u16_spec h
example := vst4q_u16_vld4q_u16 ⟨List.replicate 66 none, 1⟩ (⟨fun j => ⟨fun i => BitVec.ofNat 16 (4 + 40 * j.val + i.val)⟩⟩) (by decide)

/-- Storing what was loaded leaves the buffer as it was. -/
theorem vld4q_u16_vst4q_u16 (ptr : Ptr .u16) (h : ∀ t : Fin 32, Readable ptr t) :
    (vld4q_u16 ptr >>= fun v => vst4q_u16 ptr v) = .ok ptr := by
  exact load_storeK (by decide) (vld4q_u16_spec ptr) (fun v => vst4q_u16_spec ptr v) h
example := vld4q_u16_vst4q_u16 ⟨(List.range 64).map fun k => some (BitVec.ofNat _ (3 * k)), 0⟩ (fun i => ⟨BitVec.ofNat _ (3 * i.val), by revert i; decide⟩)

/-- `vst4q_u32` writes lane `i` of register `j` to element `4*i+j`, for the 16 elements at the pointer, and changes no other element; it is undefined if there is no room for them. -/
theorem vst4q_u32_spec (ptr : Ptr .u32) (val : uint32x4x4_t) : Stores ptr (interleave val) (vst4q_u32 ptr val) := by
  exact store4 ptr val (by decide) rfl

/-- `vld4q_u32` gives back what `vst4q_u32` stored. -/
theorem vst4q_u32_vld4q_u32 (ptr : Ptr .u32) (val : uint32x4x4_t) (h : Writable ptr 16) :
    (vst4q_u32 ptr val >>= fun p => vld4q_u32 p) = .ok val := by
  exact store_loadK (vst4q_u32_spec ptr val) vld4q_u32_spec h
example := vst4q_u32_vld4q_u32 ⟨List.replicate 66 none, 1⟩ (⟨fun j => ⟨fun i => BitVec.ofNat 32 (4 + 40 * j.val + i.val)⟩⟩) (by decide)

/-- Storing what was loaded leaves the buffer as it was. -/
theorem vld4q_u32_vst4q_u32 (ptr : Ptr .u32) (h : ∀ t : Fin 16, Readable ptr t) :
    (vld4q_u32 ptr >>= fun v => vst4q_u32 ptr v) = .ok ptr := by
  exact load_storeK (by decide) (vld4q_u32_spec ptr) (fun v => vst4q_u32_spec ptr v) h
example := vld4q_u32_vst4q_u32 ⟨(List.range 64).map fun k => some (BitVec.ofNat _ (3 * k)), 0⟩ (fun i => ⟨BitVec.ofNat _ (3 * i.val), by revert i; decide⟩)

example : Writable demoBuf 5 ∧ ¬ Writable demoBuf 6 := by decide
example : ∀ i : Fin 4, Readable demoBuf i := by
  intro i
  exact ⟨[10#16, 20#16, 30#16, 40#16][i], by revert i; decide⟩
example : vst1_u16 demoBuf ⟨fun i => BitVec.ofNat 16 (100 + i)⟩ =
    .ok ⟨[some 7, some 100, some 101, some 102, some 103, none], 1⟩ := by rfl

/-- What `vst4_u8` has written after `k` iterations. -/
def vst4_u8_w (val : uint8x8x4_t) (k : Nat) (t : Nat) : Option (BitVec 8) :=
  if h : t < 4 * k ∧ k ≤ 8 then
    if h3 : t % 4 = 3 then none else some ((val.reg ⟨t % 4, by omega⟩).lane ⟨t / 4, by omega⟩)
  else if h : t = 4 * k ∧ 0 < k ∧ k ≤ 8 then some ((val.reg 3).lane ⟨k - 1, by omega⟩) else none

/-- `vst4_u8` writes registers 0, 1 and 2 correctly.  Register 3 is lost except for its last lane, which is written one element past the 32 elements of the block; elements `4*i+3` are not written.  A buffer with room for exactly 32 elements is undefined behaviour. -/
theorem vst4_u8_partial (ptr : Ptr .u8) (val : uint8x8x4_t) :
    (Writable ptr 33 → ∃ p', vst4_u8 ptr val = .ok p' ∧ p'.off = ptr.off ∧ p'.buf.length = ptr.buf.length ∧
      (∀ (j : Fin 4) (i : Fin 8), j ≠ 3 → p'.buf[ptr.off + (4 * i + j)]? = some (some ((val.reg j).lane i))) ∧
      (∀ i : Fin 8, p'.buf[ptr.off + (4 * i + 3)]? = ptr.buf[ptr.off + (4 * i + 3)]?) ∧
      p'.buf[ptr.off + 32]? = some (some ((val.reg 3).lane 7)) ∧
      ∀ a, a < ptr.off ∨ ptr.off + 33 ≤ a → p'.buf[a]? = ptr.buf[a]?) ∧
    (¬ Writable ptr 33 → vst4_u8 ptr val = .ub .outOfBounds) := by
  have hs : ∀ k : Nat, k < 8 → ∀ body, body = (fun (i : Int) (ptr : Ptr .u8) => (do
        let ptr ← ptr.set ((4 * i) + 0) (← val.get 0 i)
        let ptr ← ptr.set ((4 * i) + 1) (← val.get 1 i)
        let ptr ← ptr.set ((4 * i) + 2) (← val.get 2 i)
        let ptr ← ptr.set ((4 * i) + 4) (← val.get 3 i)
        pure ptr : C (Ptr .u8))) → body (k : Int) (ptr.updO (vst4_u8_w val k)) =
        if Writable ptr (4 * (k + 1) + 1) then .ok (ptr.updO (vst4_u8_w val (k + 1))) else .ub .outOfBounds := by
    intro k hk body hb
    subst hb
    simp only [VecArr.get_at val 0 k (j' := 0) (by decide) hk rfl rfl, VecArr.get_at val 1 k (j' := 1) (by decide) hk rfl rfl,
      VecArr.get_at val 2 k (j' := 2) (by decide) hk rfl rfl, VecArr.get_at val 3 k (j' := 3) (by decide) hk rfl rfl, ok_bind]
    rw [Ptr.updO_set ptr _ (4 * k) _ (by simp)]
    by_cases h1 : ¬ Writable ptr (4 * k + 1)
    · rw [if_neg h1, if_neg (by unfold Writable at *; omega)]; rfl
    replace h1 := Decidable.not_not.1 h1
    rw [if_pos h1, ok_bind, Ptr.updO_set ptr _ (4 * k + 1) _ (by simp)]
    by_cases h2 : ¬ Writable ptr (4 * k + 1 + 1)
    · rw [if_neg h2, if_neg (by unfold Writable at *; omega)]; rfl
    replace h2 := Decidable.not_not.1 h2
    rw [if_pos h2, ok_bind, Ptr.updO_set ptr _ (4 * k + 2) _ (by simp)]
    by_cases h3 : ¬ Writable ptr (4 * k + 2 + 1)
    · rw [if_neg h3, if_neg (by unfold Writable at *; omega)]; rfl
    replace h3 := Decidable.not_not.1 h3
    rw [if_pos h3, ok_bind]
    show Ptr.set _ _ _ = _
    rw [Ptr.updO_set ptr _ (4 * k + 4) _ (by simp)]
    by_cases h4 : ¬ Writable ptr (4 * k + 4 + 1)
    · rw [if_neg h4, if_neg (by unfold Writable at *; omega)]
    replace h4 := Decidable.not_not.1 h4
    rw [if_pos h4, if_pos (by unfold Writable at *; omega)]
    congr 2
    funext t
    unfold vst4_u8_w
    repeat' split
    all_goals first
      | rfl
      | (exfalso; omega)
      | exact congrArg some (reg_lane_eq val (by first | rfl | (simp only; omega)) (by simp only; omega))
  have e0 : ptr.updO (vst4_u8_w val 0) = ptr := by
    rw [show vst4_u8_w val 0 = fun _ => none from ?_, Ptr.updO_none]
    funext t
    unfold vst4_u8_w
    rw [dif_neg (by omega), dif_neg (by omega)]
  constructor
  · intro hw
    refine ⟨ptr.updO (vst4_u8_w val 8), ?_, rfl, by simp [Ptr.updO], ?_, ?_, ?_, ?_⟩
    · refine cfor_inv 8 (fun k => ptr.updO (vst4_u8_w val k)) rfl e0 fun k hk => ?_
      rw [Int.mul_one, Int.zero_add]
      exact (hs k hk _ rfl).trans (if_pos (by unfold Writable at *; omega))
    · intro j i hj
      have hj3 : j.val ≠ 3 := fun h => hj (Fin.ext h)
      refine Ptr.updO_written ptr _ _ _ ?_ (by unfold Writable at *; omega)
      unfold vst4_u8_w
      rw [dif_pos (by omega), dif_neg (by omega)]
      have e1 : (4 * i.val + j.val) % 4 = j.val := by omega
      have e2 : (4 * i.val + j.val) / 4 = i.val := by omega
      simp only [e1, e2]
    · intro i
      refine Ptr.updO_frame ptr _ _ (.inr ?_)
      rw [Nat.add_sub_cancel_left]
      unfold vst4_u8_w
      rw [dif_pos (by omega), dif_pos (by omega)]
    · refine Ptr.updO_written ptr _ _ _ ?_ (by unfold Writable at *; omega)
      unfold vst4_u8_w
      rw [dif_neg (by omega), dif_pos (by omega)]
      rfl
    · intro a ha
      refine Ptr.updO_frame ptr _ _ ?_
      by_cases h : a < ptr.off
      · exact .inl h
      · refine .inr ?_
        unfold vst4_u8_w
        rw [dif_neg (by omega), dif_neg (by omega)]
  · intro hw
    unfold vst4_u8
    rw [cfor_one 8 8 rfl]
    have e := iter_or (body := fun k => (fun (i : Int) (ptr : Ptr .u8) => (do
        let ptr ← ptr.set ((4 * i) + 0) (← val.get 0 i)
        let ptr ← ptr.set ((4 * i) + 1) (← val.get 1 i)
        let ptr ← ptr.set ((4 * i) + 2) (← val.get 2 i)
        let ptr ← ptr.set ((4 * i) + 4) (← val.get 3 i)
        pure ptr : C (Ptr .u8))) (k : Int)) (fun k => ptr.updO (vst4_u8_w val k))
      (fun k => Writable ptr (4 * (k + 1) + 1)) (· = .ub .outOfBounds) (fun x g hx => by rw [hx]; rfl) (n := 8)
      (fun k hk hr => (hs k hk _ rfl).trans (if_pos hr))
      (fun k hk hr => (hs k hk _ rfl).trans (if_neg hr))
      (fun hall => hw (hall 7 (by decide)))
    rw [e0] at e
    exact e

/-- `vst4_u8` is undefined on every buffer whose last 32 elements are the block to write. -/
theorem vst4_u8_wrong (ptr : Ptr .u8) (val : uint8x8x4_t) (h : ptr.off + 32 = ptr.buf.length) :
    vst4_u8 ptr val = .ub .outOfBounds := by
  exact (vst4_u8_partial ptr val).2 (by unfold Writable; omega)
example := vst4_u8_wrong ⟨List.replicate 33 none, 1⟩ (⟨fun j => ⟨fun i => BitVec.ofNat 8 (4 + 40 * j.val + i.val)⟩⟩) (by decide)

/-- A computation that is seen to be defined has a result. -/
theorem ok_of {α : Type} {x : C α} (h : (match x with | .ok _ => true | _ => false) = true) : ∃ r, x = .ok r := by
  cases x <;> first | exact ⟨_, rfl⟩ | cases h

/-- `vld4_u8` does not give back what `vst4_u8` stored, even when there is room for the element written past the block: register 3 is what the buffer held before. -/
theorem vst4_u8_vld4_u8_wrong (ptr : Ptr .u8) (val : uint8x8x4_t) (h : Writable ptr 33) (r : uint8x8x4_t)
    (hr : (vst4_u8 ptr val >>= fun p => vld4_u8 p) = .ok r) (i : Fin 8) :
    Holds ptr (4 * i + 3) ((r.reg 3).lane i) := by
  obtain ⟨p', h1, ho, _, _, h3, _⟩ := (vst4_u8_partial ptr val).1 h
  rw [h1, ok_bind] at hr
  have := ((vld4_u8_spec p').1 r).1 hr 3 i
  unfold Holds at *
  rw [ho] at this
  exact (h3 i).symm.trans this
example := vst4_u8_vld4_u8_wrong ⟨List.replicate 34 (some 5), 1⟩ ⟨fun j => ⟨fun i => BitVec.ofNat 8 (4 + 40 * j.val + i.val)⟩⟩ (by decide) _ (ok_of (by decide +kernel)).choose_spec 2

/-- What `vst4_u32` has written after `k` iterations. -/
def vst4_u32_w (val : uint32x2x4_t) (k : Nat) (t : Nat) : Option (BitVec 32) :=
  if h : t < 4 * k ∧ k ≤ 2 then
    if h3 : t % 4 = 3 then none
    else if t % 4 = 2 then some ((val.reg 3).lane ⟨t / 4, by omega⟩)
    else some ((val.reg ⟨t % 4, by omega⟩).lane ⟨t / 4, by omega⟩)
  else none

/-- `vst4_u32` writes registers 0 and 1 correctly.  Elements `4*i+2` receive register 3 instead of register 2, register 2 is lost, and elements `4*i+3` are not written. -/
theorem vst4_u32_partial (ptr : Ptr .u32) (val : uint32x2x4_t) :
    (Writable ptr 7 → ∃ p', vst4_u32 ptr val = .ok p' ∧ p'.off = ptr.off ∧ p'.buf.length = ptr.buf.length ∧
      (∀ i : Fin 2, p'.buf[ptr.off + (4 * i)]? = some (some ((val.reg 0).lane i))) ∧
      (∀ i : Fin 2, p'.buf[ptr.off + (4 * i + 1)]? = some (some ((val.reg 1).lane i))) ∧
      (∀ i : Fin 2, p'.buf[ptr.off + (4 * i + 2)]? = some (some ((val.reg 3).lane i))) ∧
      (∀ i : Fin 2, p'.buf[ptr.off + (4 * i + 3)]? = ptr.buf[ptr.off + (4 * i + 3)]?) ∧
      ∀ a, a < ptr.off ∨ ptr.off + 8 ≤ a → p'.buf[a]? = ptr.buf[a]?) ∧
    (¬ Writable ptr 7 → vst4_u32 ptr val = .ub .outOfBounds) := by
  have hs : ∀ k : Nat, k < 2 → ∀ body, body = (fun (i : Int) (ptr : Ptr .u32) => (do
        let ptr ← ptr.set ((4 * i) + 0) (← val.get 0 i)
        let ptr ← ptr.set ((4 * i) + 1) (← val.get 1 i)
        let ptr ← ptr.set ((4 * i) + 2) (← val.get 2 i)
        let ptr ← ptr.set ((4 * i) + 2) (← val.get 3 i)
        pure ptr : C (Ptr .u32))) → body (k : Int) (ptr.updO (vst4_u32_w val k)) =
        if Writable ptr (4 * k + 3) then .ok (ptr.updO (vst4_u32_w val (k + 1))) else .ub .outOfBounds := by
    intro k hk body hb
    subst hb
    simp only [VecArr.get_at val 0 k (j' := 0) (by decide) hk rfl rfl, VecArr.get_at val 1 k (j' := 1) (by decide) hk rfl rfl,
      VecArr.get_at val 2 k (j' := 2) (by decide) hk rfl rfl, VecArr.get_at val 3 k (j' := 3) (by decide) hk rfl rfl, ok_bind]
    rw [Ptr.updO_set ptr _ (4 * k) _ (by simp)]
    by_cases h1 : ¬ Writable ptr (4 * k + 1)
    · rw [if_neg h1, if_neg (by unfold Writable at *; omega)]; rfl
    replace h1 := Decidable.not_not.1 h1
    rw [if_pos h1, ok_bind, Ptr.updO_set ptr _ (4 * k + 1) _ (by simp)]
    by_cases h2 : ¬ Writable ptr (4 * k + 1 + 1)
    · rw [if_neg h2, if_neg (by unfold Writable at *; omega)]; rfl
    replace h2 := Decidable.not_not.1 h2
    rw [if_pos h2, ok_bind, Ptr.updO_set ptr _ (4 * k + 2) _ (by simp)]
    by_cases h3 : ¬ Writable ptr (4 * k + 2 + 1)
    · rw [if_neg h3, if_neg (by unfold Writable at *; omega)]; rfl
    replace h3 := Decidable.not_not.1 h3
    rw [if_pos h3, ok_bind]
    show Ptr.set _ _ _ = _
    rw [Ptr.updO_set ptr _ (4 * k + 2) _ (by simp), if_pos h3, if_pos (by unfold Writable at *; omega)]
    congr 2
    funext t
    unfold vst4_u32_w
    repeat' split
    all_goals first
      | rfl
      | (exfalso; omega)
      | exact congrArg some (reg_lane_eq val (by first | rfl | (simp only; omega)) (by simp only; omega))
  have e0 : ptr.updO (vst4_u32_w val 0) = ptr := by
    rw [show vst4_u32_w val 0 = fun _ => none from ?_, Ptr.updO_none]
    funext t
    unfold vst4_u32_w
    rw [dif_neg (by omega)]
  constructor
  · intro hw
    refine ⟨ptr.updO (vst4_u32_w val 2), ?_, rfl, by simp [Ptr.updO], ?_, ?_, ?_, ?_, ?_⟩
    · refine cfor_inv 2 (fun k => ptr.updO (vst4_u32_w val k)) rfl e0 fun k hk => ?_
      rw [Int.mul_one, Int.zero_add]
      exact (hs k hk _ rfl).trans (if_pos (by unfold Writable at *; omega))
    · intro i
      refine Ptr.updO_written ptr _ _ _ ?_ (by unfold Writable at *; omega)
      unfold vst4_u32_w
      rw [dif_pos (by omega), dif_neg (by omega), if_neg (by omega)]
      have e1 : (4 * i.val) % 4 = 0 := by omega
      have e2 : (4 * i.val) / 4 = i.val := by omega
      simp only [e1, e2]
      rfl
    · intro i
      refine Ptr.updO_written ptr _ _ _ ?_ (by unfold Writable at *; omega)
      unfold vst4_u32_w
      rw [dif_pos (by omega), dif_neg (by omega), if_neg (by omega)]
      have e1 : (4 * i.val + 1) % 4 = 1 := by omega
      have e2 : (4 * i.val + 1) / 4 = i.val := by omega
      simp only [e1, e2]
      rfl
    · intro i
      refine Ptr.updO_written ptr _ _ _ ?_ (by unfold Writable at *; omega)
      unfold vst4_u32_w
      rw [dif_pos (by omega), dif_neg (by omega), if_pos (by omega)]
      have e2 : (4 * i.val + 2) / 4 = i.val := by omega
      simp only [e2]
    · intro i
      refine Ptr.updO_frame ptr _ _ (.inr ?_)
      rw [Nat.add_sub_cancel_left]
      unfold vst4_u32_w
      rw [dif_pos (by omega), dif_pos (by omega)]
    · intro a ha
      refine Ptr.updO_frame ptr _ _ ?_
      by_cases h : a < ptr.off
      · exact .inl h
      · refine .inr ?_
        unfold vst4_u32_w
        rw [dif_neg (by omega)]
  · intro hw
    unfold vst4_u32
    rw [cfor_one 2 2 rfl]
    have e := iter_or (body := fun k => (fun (i : Int) (ptr : Ptr .u32) => (do
        let ptr ← ptr.set ((4 * i) + 0) (← val.get 0 i)
        let ptr ← ptr.set ((4 * i) + 1) (← val.get 1 i)
        let ptr ← ptr.set ((4 * i) + 2) (← val.get 2 i)
        let ptr ← ptr.set ((4 * i) + 2) (← val.get 3 i)
        pure ptr : C (Ptr .u32))) (k : Int)) (fun k => ptr.updO (vst4_u32_w val k))
      (fun k => Writable ptr (4 * k + 3)) (· = .ub .outOfBounds) (fun x g hx => by rw [hx]; rfl) (n := 2)
      (fun k hk hr => (hs k hk _ rfl).trans (if_pos hr))
      (fun k hk hr => (hs k hk _ rfl).trans (if_neg hr))
      (fun hall => hw (hall 1 (by decide)))
    rw [e0] at e
    exact e

/-- `vld4_u32` does not give back what `vst4_u32` stored: register 2 is the stored register 3, and register 3 is what the buffer held before. -/
theorem vst4_u32_vld4_u32_wrong (ptr : Ptr .u32) (val : uint32x2x4_t) (h : Writable ptr 8) (r : uint32x2x4_t)
    (hr : (vst4_u32 ptr val >>= fun p => vld4_u32 p) = .ok r) (i : Fin 2) :
    (r.reg 2).lane i = (val.reg 3).lane i ∧ Holds ptr (4 * i + 3) ((r.reg 3).lane i) := by
  obtain ⟨p', h1, ho, _, _, _, h2, h3, _⟩ := (vst4_u32_partial ptr val).1 (by unfold Writable at *; omega)
  rw [h1, ok_bind] at hr
  have e2 := ((vld4_u32_spec p').1 r).1 hr 2 i
  have e3 := ((vld4_u32_spec p').1 r).1 hr 3 i
  unfold Holds at *
  rw [ho] at e2 e3
  have e2' := (h2 i).symm.trans e2
  refine ⟨?_, (h3 i).symm.trans e3⟩
  simpa using e2'.symm
example := vst4_u32_vld4_u32_wrong ⟨List.replicate 34 (some 5), 1⟩ ⟨fun j => ⟨fun i => BitVec.ofNat 32 (4 + 40 * j.val + i.val)⟩⟩ (by decide) _ (ok_of (by decide +kernel)).choose_spec 1

/-- `vst4q_lane_f32` writes lane `lane` of the four registers to the four consecutive elements at the pointer and changes no other element, for a lane index in `[0, 3]`. -/
theorem vst4q_lane_f32_spec (ptr : Ptr .f32) (val : float32x4x4_t) (lane : Int) (l : Fin 4) (hl : lane = l.val) :
    Stores ptr (fun j : Fin 4 => (val.reg j).lane l) (vst4q_lane_f32 ptr val lane) := by
  subst hl
  have key := store_loop (hi := 4) (body := fun i p => do
        let p ← p.set i (← val.get i (l.val : Int))
        pure p) ptr 4 1 (by decide) rfl (fun t => (val.reg t).lane l)
    (fun t => if h : t < 4 then (val.reg ⟨t, h⟩).lane l else 0)
    (fun i => dif_pos i.isLt) (fun k hk => by
      simp only [VecArr.get_at val k l.val hk l.isLt rfl rfl, ok_bind]
      rw [Nat.one_mul]
      exact (Ptr.upd_set ptr _ k _ rfl (by rw [dif_pos hk])).trans (by rw [Nat.one_mul]))
  exact key
example := vst4q_lane_f32_spec ⟨List.replicate 66 none, 1⟩ (⟨fun j => ⟨fun i => BitVec.ofNat 32 (4 + 40 * j.val + i.val)⟩⟩) 2 2 (by decide)

/-- `vst4q_lane_f32` does not reject an out-of-range lane index: it has undefined behaviour (it reads outside the register). -/
theorem vst4q_lane_f32_oob (ptr : Ptr .f32) (val : float32x4x4_t) (lane : Int) (hl : ¬ (0 ≤ lane ∧ lane < 4)) :
    vst4q_lane_f32 ptr val lane = .ub .outOfBounds := by
  refine cfor_ub 0 (fun _ => ptr) .outOfBounds (by decide) rfl (fun k hk => by omega) ?_
  have e : val.get ((0 : Int) + ((0 : Nat) : Int) * 1) lane = .ub .outOfBounds := by
    unfold VecArr.get
    rw [dif_pos (by decide)]
    exact Vec.get_oob _ (by simpa using hl)
  simp only [e]
  rfl
example := vst4q_lane_f32_oob ⟨List.replicate 66 none, 1⟩ (⟨fun j => ⟨fun i => BitVec.ofNat 32 (4 + 40 * j.val + i.val)⟩⟩) (-1) (by decide)

example : vst4q_lane_f32 ⟨[none, none, none, none, none], 1⟩ ⟨fun j => ⟨fun i => BitVec.ofNat 32 (10 * j + i)⟩⟩ 2 =
    .ok ⟨[none, some 2, some 12, some 22, some 32], 1⟩ := by rfl

end Verif.Props
