import Verif.SpecMem
import Verif.Props.FloatConv
import Verif.Props.FloatSel
import Verif.Props.QSub64
import Verif.Props.AgreeFloat
import Verif.Props.AgreeQSub
import Verif.Cpp.Sem

/-!
# What the intrinsics mean (generated by `tools/gen_arm.py`)

`Means f args r`: the architecture lets the intrinsic named `f`, given the
arguments `args`, return `r` (for a store, `r` is the memory after it).  The
relations below have one rule for each intrinsic; they mention lanes, memory
elements and IEEE-754 data only, not the code of the simulator.  A rule has
hypotheses when the simulator does not implement the intrinsic for all arguments
(`NoOverflow`, ranges) or when the arguments must be in a range (immediates, lane
numbers, readable memory).  Intrinsics for which the simulator returns a wrong
result have a rule for the arguments for which it is right (C80), or no rule when
there are none.
-/

namespace Verif.Arm
open Verif.Cpp Verif.Spec Verif.Props

/-- Loads -/
inductive Load [Dialect] : Nat → List Obj → Obj → Prop
  | vld1_u8 (ptr : Ptr .u8) (r : uint8x8_t) (h : ∀ i : Fin 8, Holds ptr i (r.lane i)) : Load k!"vld1_u8" [.ofPtr ptr] (Obj.ofVec r)
  | vld1_s8 (ptr : Ptr .s8) (r : int8x8_t) (h : ∀ i : Fin 8, Holds ptr i (r.lane i)) : Load k!"vld1_s8" [.ofPtr ptr] (Obj.ofVec r)
  | vld1_u16 (ptr : Ptr .u16) (r : uint16x4_t) (h : ∀ i : Fin 4, Holds ptr i (r.lane i)) : Load k!"vld1_u16" [.ofPtr ptr] (Obj.ofVec r)
  | vld1_s16 (ptr : Ptr .s16) (r : int16x4_t) (h : ∀ i : Fin 4, Holds ptr i (r.lane i)) : Load k!"vld1_s16" [.ofPtr ptr] (Obj.ofVec r)
  | vld1_u32 (ptr : Ptr .u32) (r : uint32x2_t) (h : ∀ i : Fin 2, Holds ptr i (r.lane i)) : Load k!"vld1_u32" [.ofPtr ptr] (Obj.ofVec r)
  | vld1_u64 (ptr : Ptr .u64) (r : uint64x1_t) (h : ∀ i : Fin 1, Holds ptr i (r.lane i)) : Load k!"vld1_u64" [.ofPtr ptr] (Obj.ofVec r)
  | vld1_s32 (ptr : Ptr .s32) (r : int32x2_t) (h : ∀ i : Fin 2, Holds ptr i (r.lane i)) : Load k!"vld1_s32" [.ofPtr ptr] (Obj.ofVec r)
  | vld1_s64 (ptr : Ptr .s64) (r : int64x1_t) (h : ∀ i : Fin 1, Holds ptr i (r.lane i)) : Load k!"vld1_s64" [.ofPtr ptr] (Obj.ofVec r)
  | vld1_f32 (ptr : Ptr .f32) (r : float32x2_t) (h : ∀ i : Fin 2, Holds ptr i (r.lane i)) : Load k!"vld1_f32" [.ofPtr ptr] (Obj.ofVec r)
  | vld1_f64 (ptr : Ptr .f64) (r : float64x1_t) (h : ∀ i : Fin 1, Holds ptr i (r.lane i)) : Load k!"vld1_f64" [.ofPtr ptr] (Obj.ofVec r)
  | vld1q_u8 (ptr : Ptr .u8) (r : uint8x16_t) (h : ∀ i : Fin 16, Holds ptr i (r.lane i)) : Load k!"vld1q_u8" [.ofPtr ptr] (Obj.ofVec r)
  | vld1q_s8 (ptr : Ptr .s8) (r : int8x16_t) (h : ∀ i : Fin 16, Holds ptr i (r.lane i)) : Load k!"vld1q_s8" [.ofPtr ptr] (Obj.ofVec r)
  | vld1q_u16 (ptr : Ptr .u16) (r : uint16x8_t) (h : ∀ i : Fin 8, Holds ptr i (r.lane i)) : Load k!"vld1q_u16" [.ofPtr ptr] (Obj.ofVec r)
  | vld1q_s16 (ptr : Ptr .s16) (r : int16x8_t) (h : ∀ i : Fin 8, Holds ptr i (r.lane i)) : Load k!"vld1q_s16" [.ofPtr ptr] (Obj.ofVec r)
  | vld1q_u32 (ptr : Ptr .u32) (r : uint32x4_t) (h : ∀ i : Fin 4, Holds ptr i (r.lane i)) : Load k!"vld1q_u32" [.ofPtr ptr] (Obj.ofVec r)
  | vld1q_s32 (ptr : Ptr .s32) (r : int32x4_t) (h : ∀ i : Fin 4, Holds ptr i (r.lane i)) : Load k!"vld1q_s32" [.ofPtr ptr] (Obj.ofVec r)
  | vld1q_s64 (ptr : Ptr .s64) (r : int64x2_t) (h : ∀ i : Fin 2, Holds ptr i (r.lane i)) : Load k!"vld1q_s64" [.ofPtr ptr] (Obj.ofVec r)
  | vld1q_u64 (ptr : Ptr .u64) (r : uint64x2_t) (h : ∀ i : Fin 2, Holds ptr i (r.lane i)) : Load k!"vld1q_u64" [.ofPtr ptr] (Obj.ofVec r)
  | vld1q_f32 (ptr : Ptr .f32) (r : float32x4_t) (h : ∀ i : Fin 4, Holds ptr i (r.lane i)) : Load k!"vld1q_f32" [.ofPtr ptr] (Obj.ofVec r)
  | vld2_u8 (ptr : Ptr .u8) (r : uint8x8x2_t) (h : ∀ (j : Fin 2) (i : Fin 8), Holds ptr (2 * i + j) ((r.reg j).lane i)) : Load k!"vld2_u8" [.ofPtr ptr] (Obj.ofVecArr r)
  | vld2_s8 (ptr : Ptr .s8) (r : int8x8x2_t) (h : ∀ (j : Fin 2) (i : Fin 8), Holds ptr (2 * i + j) ((r.reg j).lane i)) : Load k!"vld2_s8" [.ofPtr ptr] (Obj.ofVecArr r)
  | vld2_u16 (ptr : Ptr .u16) (r : uint16x4x2_t) (h : ∀ (j : Fin 2) (i : Fin 4), Holds ptr (2 * i + j) ((r.reg j).lane i)) : Load k!"vld2_u16" [.ofPtr ptr] (Obj.ofVecArr r)
  | vld2_s16 (ptr : Ptr .s16) (r : int16x4x2_t) (h : ∀ (j : Fin 2) (i : Fin 4), Holds ptr (2 * i + j) ((r.reg j).lane i)) : Load k!"vld2_s16" [.ofPtr ptr] (Obj.ofVecArr r)
  | vld2_u32 (ptr : Ptr .u32) (r : uint32x2x2_t) (h : ∀ (j : Fin 2) (i : Fin 2), Holds ptr (2 * i + j) ((r.reg j).lane i)) : Load k!"vld2_u32" [.ofPtr ptr] (Obj.ofVecArr r)
  | vld_s32 (ptr : Ptr .s32) (r : int32x2x2_t) (h : ∀ (j : Fin 2) (i : Fin 2), Holds ptr (2 * i + j) ((r.reg j).lane i)) : Load k!"vld_s32" [.ofPtr ptr] (Obj.ofVecArr r)
  | vld2_f32 (ptr : Ptr .f32) (r : float32x2x2_t) (h : ∀ (j : Fin 2) (i : Fin 2), Holds ptr (2 * i + j) ((r.reg j).lane i)) : Load k!"vld2_f32" [.ofPtr ptr] (Obj.ofVecArr r)
  | vld2q_u8 (ptr : Ptr .u8) (r : uint8x16x2_t) (h : ∀ (j : Fin 2) (i : Fin 16), Holds ptr (2 * i + j) ((r.reg j).lane i)) : Load k!"vld2q_u8" [.ofPtr ptr] (Obj.ofVecArr r)
  | vld2q_s8 (ptr : Ptr .s8) (r : int8x16x2_t) (h : ∀ (j : Fin 2) (i : Fin 16), Holds ptr (2 * i + j) ((r.reg j).lane i)) : Load k!"vld2q_s8" [.ofPtr ptr] (Obj.ofVecArr r)
  | vld2q_u16 (ptr : Ptr .u16) (r : uint16x8x2_t) (h : ∀ (j : Fin 2) (i : Fin 8), Holds ptr (2 * i + j) ((r.reg j).lane i)) : Load k!"vld2q_u16" [.ofPtr ptr] (Obj.ofVecArr r)
  | vld2q_s16 (ptr : Ptr .s16) (r : int16x8x2_t) (h : ∀ (j : Fin 2) (i : Fin 8), Holds ptr (2 * i + j) ((r.reg j).lane i)) : Load k!"vld2q_s16" [.ofPtr ptr] (Obj.ofVecArr r)
  | vld2q_u32 (ptr : Ptr .u32) (r : uint32x4x2_t) (h : ∀ (j : Fin 2) (i : Fin 4), Holds ptr (2 * i + j) ((r.reg j).lane i)) : Load k!"vld2q_u32" [.ofPtr ptr] (Obj.ofVecArr r)
  | vld2q_s32 (ptr : Ptr .s32) (r : int32x4x2_t) (h : ∀ (j : Fin 2) (i : Fin 4), Holds ptr (2 * i + j) ((r.reg j).lane i)) : Load k!"vld2q_s32" [.ofPtr ptr] (Obj.ofVecArr r)
  | vld3_u8 (ptr : Ptr .u8) (r : uint8x8x3_t) (h : ∀ (j : Fin 3) (i : Fin 8), Holds ptr (3 * i + j) ((r.reg j).lane i)) : Load k!"vld3_u8" [.ofPtr ptr] (Obj.ofVecArr r)
  | vld3_s8 (ptr : Ptr .s8) (r : int8x8x3_t) (h : ∀ (j : Fin 3) (i : Fin 8), Holds ptr (3 * i + j) ((r.reg j).lane i)) : Load k!"vld3_s8" [.ofPtr ptr] (Obj.ofVecArr r)
  | vld3_u16 (ptr : Ptr .u16) (r : uint16x4x3_t) (h : ∀ (j : Fin 3) (i : Fin 4), Holds ptr (3 * i + j) ((r.reg j).lane i)) : Load k!"vld3_u16" [.ofPtr ptr] (Obj.ofVecArr r)
  | vld3_s16 (ptr : Ptr .s16) (r : int16x4x3_t) (h : ∀ (j : Fin 3) (i : Fin 4), Holds ptr (3 * i + j) ((r.reg j).lane i)) : Load k!"vld3_s16" [.ofPtr ptr] (Obj.ofVecArr r)
  | vld3_u32 (ptr : Ptr .u32) (r : uint32x2x3_t) (h : ∀ (j : Fin 3) (i : Fin 2), Holds ptr (3 * i + j) ((r.reg j).lane i)) : Load k!"vld3_u32" [.ofPtr ptr] (Obj.ofVecArr r)
  | vld3_s32 (ptr : Ptr .s32) (r : int32x2x3_t) (h : ∀ (j : Fin 3) (i : Fin 2), Holds ptr (3 * i + j) ((r.reg j).lane i)) : Load k!"vld3_s32" [.ofPtr ptr] (Obj.ofVecArr r)
  | vld3_f32 (ptr : Ptr .f32) (r : float32x2x3_t) (h : ∀ (j : Fin 3) (i : Fin 2), Holds ptr (3 * i + j) ((r.reg j).lane i)) : Load k!"vld3_f32" [.ofPtr ptr] (Obj.ofVecArr r)
  | vld3q_u8 (ptr : Ptr .u8) (r : uint8x16x3_t) (h : ∀ (j : Fin 3) (i : Fin 16), Holds ptr (3 * i + j) ((r.reg j).lane i)) : Load k!"vld3q_u8" [.ofPtr ptr] (Obj.ofVecArr r)
  | vld3q_s8 (ptr : Ptr .s8) (r : int8x16x3_t) (h : ∀ (j : Fin 3) (i : Fin 16), Holds ptr (3 * i + j) ((r.reg j).lane i)) : Load k!"vld3q_s8" [.ofPtr ptr] (Obj.ofVecArr r)
  | vld3q_u16 (ptr : Ptr .u16) (r : uint16x8x3_t) (h : ∀ (j : Fin 3) (i : Fin 8), Holds ptr (3 * i + j) ((r.reg j).lane i)) : Load k!"vld3q_u16" [.ofPtr ptr] (Obj.ofVecArr r)
  | vld3q_s16 (ptr : Ptr .s16) (r : int16x8x3_t) (h : ∀ (j : Fin 3) (i : Fin 8), Holds ptr (3 * i + j) ((r.reg j).lane i)) : Load k!"vld3q_s16" [.ofPtr ptr] (Obj.ofVecArr r)
  | vld3q_u32 (ptr : Ptr .u32) (r : uint32x4x3_t) (h : ∀ (j : Fin 3) (i : Fin 4), Holds ptr (3 * i + j) ((r.reg j).lane i)) : Load k!"vld3q_u32" [.ofPtr ptr] (Obj.ofVecArr r)
  | vld3q_s32 (ptr : Ptr .s32) (r : int32x4x3_t) (h : ∀ (j : Fin 3) (i : Fin 4), Holds ptr (3 * i + j) ((r.reg j).lane i)) : Load k!"vld3q_s32" [.ofPtr ptr] (Obj.ofVecArr r)
  | vld4_u8 (ptr : Ptr .u8) (r : uint8x8x4_t) (h : ∀ (j : Fin 4) (i : Fin 8), Holds ptr (4 * i + j) ((r.reg j).lane i)) : Load k!"vld4_u8" [.ofPtr ptr] (Obj.ofVecArr r)
  | vld4_s8 (ptr : Ptr .s8) (r : int8x8x4_t) (h : ∀ (j : Fin 4) (i : Fin 8), Holds ptr (4 * i + j) ((r.reg j).lane i)) : Load k!"vld4_s8" [.ofPtr ptr] (Obj.ofVecArr r)
  | vld4_u16 (ptr : Ptr .u16) (r : uint16x4x4_t) (h : ∀ (j : Fin 4) (i : Fin 4), Holds ptr (4 * i + j) ((r.reg j).lane i)) : Load k!"vld4_u16" [.ofPtr ptr] (Obj.ofVecArr r)
  | vld4_s16 (ptr : Ptr .s16) (r : int16x4x4_t) (h : ∀ (j : Fin 4) (i : Fin 4), Holds ptr (4 * i + j) ((r.reg j).lane i)) : Load k!"vld4_s16" [.ofPtr ptr] (Obj.ofVecArr r)
  | vld4_u32 (ptr : Ptr .u32) (r : uint32x2x4_t) (h : ∀ (j : Fin 4) (i : Fin 2), Holds ptr (4 * i + j) ((r.reg j).lane i)) : Load k!"vld4_u32" [.ofPtr ptr] (Obj.ofVecArr r)
  | vld4_s32 (ptr : Ptr .s32) (r : int32x2x4_t) (h : ∀ (j : Fin 4) (i : Fin 2), Holds ptr (4 * i + j) ((r.reg j).lane i)) : Load k!"vld4_s32" [.ofPtr ptr] (Obj.ofVecArr r)
  | vld4_f32 (ptr : Ptr .f32) (r : float32x2x4_t) (h : ∀ (j : Fin 4) (i : Fin 2), Holds ptr (4 * i + j) ((r.reg j).lane i)) : Load k!"vld4_f32" [.ofPtr ptr] (Obj.ofVecArr r)
  | vld4q_u8 (ptr : Ptr .u8) (r : uint8x16x4_t) (h : ∀ (j : Fin 4) (i : Fin 16), Holds ptr (4 * i + j) ((r.reg j).lane i)) : Load k!"vld4q_u8" [.ofPtr ptr] (Obj.ofVecArr r)
  | vld4q_s8 (ptr : Ptr .s8) (r : int8x16x4_t) (h : ∀ (j : Fin 4) (i : Fin 16), Holds ptr (4 * i + j) ((r.reg j).lane i)) : Load k!"vld4q_s8" [.ofPtr ptr] (Obj.ofVecArr r)
  | vld4q_u16 (ptr : Ptr .u16) (r : uint16x8x4_t) (h : ∀ (j : Fin 4) (i : Fin 8), Holds ptr (4 * i + j) ((r.reg j).lane i)) : Load k!"vld4q_u16" [.ofPtr ptr] (Obj.ofVecArr r)
  | vld4q_s16 (ptr : Ptr .s16) (r : int16x8x4_t) (h : ∀ (j : Fin 4) (i : Fin 8), Holds ptr (4 * i + j) ((r.reg j).lane i)) : Load k!"vld4q_s16" [.ofPtr ptr] (Obj.ofVecArr r)
  | vld4q_u32 (ptr : Ptr .u32) (r : uint32x4x4_t) (h : ∀ (j : Fin 4) (i : Fin 4), Holds ptr (4 * i + j) ((r.reg j).lane i)) : Load k!"vld4q_u32" [.ofPtr ptr] (Obj.ofVecArr r)
  | vld4q_s32 (ptr : Ptr .s32) (r : int32x4x4_t) (h : ∀ (j : Fin 4) (i : Fin 4), Holds ptr (4 * i + j) ((r.reg j).lane i)) : Load k!"vld4q_s32" [.ofPtr ptr] (Obj.ofVecArr r)
  | vld1q_dup_f32 (ptr : Ptr .f32) (x : BitVec (Elem.bits .f32)) (hx : Holds ptr 0 x) : Load k!"vld1q_dup_f32" [.ofPtr ptr] (Obj.ofVec (⟨fun _ => x⟩ : float32x4_t))
  | vld1_lane_s8 (ptr : Ptr .s8) (src : int8x8_t) (lane : Int) (l : Fin 8) (hl : lane = l.val) (x : BitVec 8) (hx : Holds ptr 0 x) : Load k!"vld1_lane_s8" [.ofPtr ptr, .ofVec src, .ofInt lane] (Obj.ofVec (⟨fun i => if i = l then x else src.lane i⟩ : int8x8_t))
  | vld1_lane_u8 (ptr : Ptr .u8) (src : uint8x8_t) (lane : Int) (l : Fin 8) (hl : lane = l.val) (x : BitVec 8) (hx : Holds ptr 0 x) : Load k!"vld1_lane_u8" [.ofPtr ptr, .ofVec src, .ofInt lane] (Obj.ofVec (⟨fun i => if i = l then x else src.lane i⟩ : uint8x8_t))
  | vld2_lane_u8 (ptr : Ptr .u8) (src : uint8x8x2_t) (lane : Int) (l : Fin 8) (hl : lane = l.val) (x : Fin 2 → BitVec 8) (hx : ∀ j : Fin 2, Holds ptr j (x j)) : Load k!"vld2_lane_u8" [.ofPtr ptr, .ofVecArr src, .ofInt lane] (Obj.ofVecArr (⟨fun j => ⟨fun i => if i = l then x j else (src.reg j).lane i⟩⟩ : uint8x8x2_t))
  | vld3_lane_u8 (ptr : Ptr .u8) (src : uint8x8x3_t) (lane : Int) (l : Fin 8) (hl : lane = l.val) (x : Fin 3 → BitVec 8) (hx : ∀ j : Fin 3, Holds ptr j (x j)) : Load k!"vld3_lane_u8" [.ofPtr ptr, .ofVecArr src, .ofInt lane] (Obj.ofVecArr (⟨fun j => ⟨fun i => if i = l then x j else (src.reg j).lane i⟩⟩ : uint8x8x3_t))
  | vld4_lane_u8 (ptr : Ptr .u8) (src : uint8x8x4_t) (lane : Int) (l : Fin 8) (hl : lane = l.val) (x : Fin 4 → BitVec 8) (hx : ∀ j : Fin 4, Holds ptr j (x j)) : Load k!"vld4_lane_u8" [.ofPtr ptr, .ofVecArr src, .ofInt lane] (Obj.ofVecArr (⟨fun j => ⟨fun i => if i = l then x j else (src.reg j).lane i⟩⟩ : uint8x8x4_t))

/-- Stores -/
inductive Store [Dialect] : Nat → List Obj → Obj → Prop
  | vst1_u8 (ptr : Ptr .u8) (val : uint8x8_t) (p' : Ptr .u8) (hw : Writable ptr 8) (h : Stored ptr val.lane p') : Store k!"vst1_u8" [.ofPtr ptr, .ofVec val] (Obj.ofPtr p')
  | vst1_s8 (ptr : Ptr .s8) (val : int8x8_t) (p' : Ptr .s8) (hw : Writable ptr 8) (h : Stored ptr val.lane p') : Store k!"vst1_s8" [.ofPtr ptr, .ofVec val] (Obj.ofPtr p')
  | vst1_u16 (ptr : Ptr .u16) (val : uint16x4_t) (p' : Ptr .u16) (hw : Writable ptr 4) (h : Stored ptr val.lane p') : Store k!"vst1_u16" [.ofPtr ptr, .ofVec val] (Obj.ofPtr p')
  | vst1_s16 (ptr : Ptr .s16) (val : int16x4_t) (p' : Ptr .s16) (hw : Writable ptr 4) (h : Stored ptr val.lane p') : Store k!"vst1_s16" [.ofPtr ptr, .ofVec val] (Obj.ofPtr p')
  | vst1_u32 (ptr : Ptr .u32) (val : uint32x2_t) (p' : Ptr .u32) (hw : Writable ptr 2) (h : Stored ptr val.lane p') : Store k!"vst1_u32" [.ofPtr ptr, .ofVec val] (Obj.ofPtr p')
  | vst1_s32 (ptr : Ptr .s32) (val : int32x2_t) (p' : Ptr .s32) (hw : Writable ptr 2) (h : Stored ptr val.lane p') : Store k!"vst1_s32" [.ofPtr ptr, .ofVec val] (Obj.ofPtr p')
  | vst1_s64 (ptr : Ptr .s64) (val : int64x1_t) (p' : Ptr .s64) (hw : Writable ptr 1) (h : Stored ptr val.lane p') : Store k!"vst1_s64" [.ofPtr ptr, .ofVec val] (Obj.ofPtr p')
  | vst1_u64 (ptr : Ptr .u64) (val : uint64x1_t) (p' : Ptr .u64) (hw : Writable ptr 1) (h : Stored ptr val.lane p') : Store k!"vst1_u64" [.ofPtr ptr, .ofVec val] (Obj.ofPtr p')
  | vst1q_u8 (ptr : Ptr .u8) (val : uint8x16_t) (p' : Ptr .u8) (hw : Writable ptr 16) (h : Stored ptr val.lane p') : Store k!"vst1q_u8" [.ofPtr ptr, .ofVec val] (Obj.ofPtr p')
  | vst1q_s8 (ptr : Ptr .s8) (val : int8x16_t) (p' : Ptr .s8) (hw : Writable ptr 16) (h : Stored ptr val.lane p') : Store k!"vst1q_s8" [.ofPtr ptr, .ofVec val] (Obj.ofPtr p')
  | vst1q_u16 (ptr : Ptr .u16) (val : uint16x8_t) (p' : Ptr .u16) (hw : Writable ptr 8) (h : Stored ptr val.lane p') : Store k!"vst1q_u16" [.ofPtr ptr, .ofVec val] (Obj.ofPtr p')
  | vst1q_s16 (ptr : Ptr .s16) (val : int16x8_t) (p' : Ptr .s16) (hw : Writable ptr 8) (h : Stored ptr val.lane p') : Store k!"vst1q_s16" [.ofPtr ptr, .ofVec val] (Obj.ofPtr p')
  | vst1q_u32 (ptr : Ptr .u32) (val : uint32x4_t) (p' : Ptr .u32) (hw : Writable ptr 4) (h : Stored ptr val.lane p') : Store k!"vst1q_u32" [.ofPtr ptr, .ofVec val] (Obj.ofPtr p')
  | vst1q_s32 (ptr : Ptr .s32) (val : int32x4_t) (p' : Ptr .s32) (hw : Writable ptr 4) (h : Stored ptr val.lane p') : Store k!"vst1q_s32" [.ofPtr ptr, .ofVec val] (Obj.ofPtr p')
  | vst1q_s64 (ptr : Ptr .s64) (val : int64x2_t) (p' : Ptr .s64) (hw : Writable ptr 2) (h : Stored ptr val.lane p') : Store k!"vst1q_s64" [.ofPtr ptr, .ofVec val] (Obj.ofPtr p')
  | vst1q_u64 (ptr : Ptr .u64) (val : uint64x2_t) (p' : Ptr .u64) (hw : Writable ptr 2) (h : Stored ptr val.lane p') : Store k!"vst1q_u64" [.ofPtr ptr, .ofVec val] (Obj.ofPtr p')
  | vst1q_f32 (ptr : Ptr .f32) (val : float32x4_t) (p' : Ptr .f32) (hw : Writable ptr 4) (h : Stored ptr val.lane p') : Store k!"vst1q_f32" [.ofPtr ptr, .ofVec val] (Obj.ofPtr p')
  | vst2_s8 (ptr : Ptr .s8) (val : int8x8x2_t) (p' : Ptr .s8) (hw : Writable ptr 16) (h : Stored ptr (interleave val) p') : Store k!"vst2_s8" [.ofPtr ptr, .ofVecArr val] (Obj.ofPtr p')
  | vst2_s16 (ptr : Ptr .s16) (val : int16x4x2_t) (p' : Ptr .s16) (hw : Writable ptr 8) (h : Stored ptr (interleave val) p') : Store k!"vst2_s16" [.ofPtr ptr, .ofVecArr val] (Obj.ofPtr p')
  | vst2_s32 (ptr : Ptr .s32) (val : int32x2x2_t) (p' : Ptr .s32) (hw : Writable ptr 4) (h : Stored ptr (interleave val) p') : Store k!"vst2_s32" [.ofPtr ptr, .ofVecArr val] (Obj.ofPtr p')
  | vst2_u8 (ptr : Ptr .u8) (val : uint8x8x2_t) (p' : Ptr .u8) (hw : Writable ptr 16) (h : Stored ptr (interleave val) p') : Store k!"vst2_u8" [.ofPtr ptr, .ofVecArr val] (Obj.ofPtr p')
  | vst2_u16 (ptr : Ptr .u16) (val : uint16x4x2_t) (p' : Ptr .u16) (hw : Writable ptr 8) (h : Stored ptr (interleave val) p') : Store k!"vst2_u16" [.ofPtr ptr, .ofVecArr val] (Obj.ofPtr p')
  | vst2_u32 (ptr : Ptr .u32) (val : uint32x2x2_t) (p' : Ptr .u32) (hw : Writable ptr 4) (h : Stored ptr (interleave val) p') : Store k!"vst2_u32" [.ofPtr ptr, .ofVecArr val] (Obj.ofPtr p')
  | vst2q_s8 (ptr : Ptr .s8) (val : int8x16x2_t) (p' : Ptr .s8) (hw : Writable ptr 32) (h : Stored ptr (interleave val) p') : Store k!"vst2q_s8" [.ofPtr ptr, .ofVecArr val] (Obj.ofPtr p')
  | vst2q_s16 (ptr : Ptr .s16) (val : int16x8x2_t) (p' : Ptr .s16) (hw : Writable ptr 16) (h : Stored ptr (interleave val) p') : Store k!"vst2q_s16" [.ofPtr ptr, .ofVecArr val] (Obj.ofPtr p')
  | vst2q_s32 (ptr : Ptr .s32) (val : int32x4x2_t) (p' : Ptr .s32) (hw : Writable ptr 8) (h : Stored ptr (interleave val) p') : Store k!"vst2q_s32" [.ofPtr ptr, .ofVecArr val] (Obj.ofPtr p')
  | vst2q_u8 (ptr : Ptr .u8) (val : uint8x16x2_t) (p' : Ptr .u8) (hw : Writable ptr 32) (h : Stored ptr (interleave val) p') : Store k!"vst2q_u8" [.ofPtr ptr, .ofVecArr val] (Obj.ofPtr p')
  | vst2q_u16 (ptr : Ptr .u16) (val : uint16x8x2_t) (p' : Ptr .u16) (hw : Writable ptr 16) (h : Stored ptr (interleave val) p') : Store k!"vst2q_u16" [.ofPtr ptr, .ofVecArr val] (Obj.ofPtr p')
  | vst2q_u32 (ptr : Ptr .u32) (val : uint32x4x2_t) (p' : Ptr .u32) (hw : Writable ptr 8) (h : Stored ptr (interleave val) p') : Store k!"vst2q_u32" [.ofPtr ptr, .ofVecArr val] (Obj.ofPtr p')
  | vst3_s8 (ptr : Ptr .s8) (val : int8x8x3_t) (p' : Ptr .s8) (hw : Writable ptr 24) (h : Stored ptr (interleave val) p') : Store k!"vst3_s8" [.ofPtr ptr, .ofVecArr val] (Obj.ofPtr p')
  | vst3_s16 (ptr : Ptr .s16) (val : int16x4x3_t) (p' : Ptr .s16) (hw : Writable ptr 12) (h : Stored ptr (interleave val) p') : Store k!"vst3_s16" [.ofPtr ptr, .ofVecArr val] (Obj.ofPtr p')
  | vst3_s32 (ptr : Ptr .s32) (val : int32x2x3_t) (p' : Ptr .s32) (hw : Writable ptr 6) (h : Stored ptr (interleave val) p') : Store k!"vst3_s32" [.ofPtr ptr, .ofVecArr val] (Obj.ofPtr p')
  | vst3_u8 (ptr : Ptr .u8) (val : uint8x8x3_t) (p' : Ptr .u8) (hw : Writable ptr 24) (h : Stored ptr (interleave val) p') : Store k!"vst3_u8" [.ofPtr ptr, .ofVecArr val] (Obj.ofPtr p')
  | vst3_u16 (ptr : Ptr .u16) (val : uint16x4x3_t) (p' : Ptr .u16) (hw : Writable ptr 12) (h : Stored ptr (interleave val) p') : Store k!"vst3_u16" [.ofPtr ptr, .ofVecArr val] (Obj.ofPtr p')
  | vst3_u32 (ptr : Ptr .u32) (val : uint32x2x3_t) (p' : Ptr .u32) (hw : Writable ptr 6) (h : Stored ptr (interleave val) p') : Store k!"vst3_u32" [.ofPtr ptr, .ofVecArr val] (Obj.ofPtr p')
  | vst3q_s8 (ptr : Ptr .s8) (val : int8x16x3_t) (p' : Ptr .s8) (hw : Writable ptr 48) (h : Stored ptr (interleave val) p') : Store k!"vst3q_s8" [.ofPtr ptr, .ofVecArr val] (Obj.ofPtr p')
  | vst3q_s16 (ptr : Ptr .s16) (val : int16x8x3_t) (p' : Ptr .s16) (hw : Writable ptr 24) (h : Stored ptr (interleave val) p') : Store k!"vst3q_s16" [.ofPtr ptr, .ofVecArr val] (Obj.ofPtr p')
  | vst3q_s32 (ptr : Ptr .s32) (val : int32x4x3_t) (p' : Ptr .s32) (hw : Writable ptr 12) (h : Stored ptr (interleave val) p') : Store k!"vst3q_s32" [.ofPtr ptr, .ofVecArr val] (Obj.ofPtr p')
  | vst3q_u8 (ptr : Ptr .u8) (val : uint8x16x3_t) (p' : Ptr .u8) (hw : Writable ptr 48) (h : Stored ptr (interleave val) p') : Store k!"vst3q_u8" [.ofPtr ptr, .ofVecArr val] (Obj.ofPtr p')
  | vst3q_u16 (ptr : Ptr .u16) (val : uint16x8x3_t) (p' : Ptr .u16) (hw : Writable ptr 24) (h : Stored ptr (interleave val) p') : Store k!"vst3q_u16" [.ofPtr ptr, .ofVecArr val] (Obj.ofPtr p')
  | vst3q_u32 (ptr : Ptr .u32) (val : uint32x4x3_t) (p' : Ptr .u32) (hw : Writable ptr 12) (h : Stored ptr (interleave val) p') : Store k!"vst3q_u32" [.ofPtr ptr, .ofVecArr val] (Obj.ofPtr p')
  | vst4_s8 (ptr : Ptr .s8) (val : int8x8x4_t) (p' : Ptr .s8) (hw : Writable ptr 32) (h : Stored ptr (interleave val) p') : Store k!"vst4_s8" [.ofPtr ptr, .ofVecArr val] (Obj.ofPtr p')
  | vst4_s16 (ptr : Ptr .s16) (val : int16x4x4_t) (p' : Ptr .s16) (hw : Writable ptr 16) (h : Stored ptr (interleave val) p') : Store k!"vst4_s16" [.ofPtr ptr, .ofVecArr val] (Obj.ofPtr p')
  | vst4_s32 (ptr : Ptr .s32) (val : int32x2x4_t) (p' : Ptr .s32) (hw : Writable ptr 8) (h : Stored ptr (interleave val) p') : Store k!"vst4_s32" [.ofPtr ptr, .ofVecArr val] (Obj.ofPtr p')
  | vst4_u16 (ptr : Ptr .u16) (val : uint16x4x4_t) (p' : Ptr .u16) (hw : Writable ptr 16) (h : Stored ptr (interleave val) p') : Store k!"vst4_u16" [.ofPtr ptr, .ofVecArr val] (Obj.ofPtr p')
  | vst4q_s8 (ptr : Ptr .s8) (val : int8x16x4_t) (p' : Ptr .s8) (hw : Writable ptr 64) (h : Stored ptr (interleave val) p') : Store k!"vst4q_s8" [.ofPtr ptr, .ofVecArr val] (Obj.ofPtr p')
  | vst4q_s16 (ptr : Ptr .s16) (val : int16x8x4_t) (p' : Ptr .s16) (hw : Writable ptr 32) (h : Stored ptr (interleave val) p') : Store k!"vst4q_s16" [.ofPtr ptr, .ofVecArr val] (Obj.ofPtr p')
  | vst4q_s32 (ptr : Ptr .s32) (val : int32x4x4_t) (p' : Ptr .s32) (hw : Writable ptr 16) (h : Stored ptr (interleave val) p') : Store k!"vst4q_s32" [.ofPtr ptr, .ofVecArr val] (Obj.ofPtr p')
  | vst4q_u8 (ptr : Ptr .u8) (val : uint8x16x4_t) (p' : Ptr .u8) (hw : Writable ptr 64) (h : Stored ptr (interleave val) p') : Store k!"vst4q_u8" [.ofPtr ptr, .ofVecArr val] (Obj.ofPtr p')
  | vst4q_u16 (ptr : Ptr .u16) (val : uint16x8x4_t) (p' : Ptr .u16) (hw : Writable ptr 32) (h : Stored ptr (interleave val) p') : Store k!"vst4q_u16" [.ofPtr ptr, .ofVecArr val] (Obj.ofPtr p')
  | vst4q_u32 (ptr : Ptr .u32) (val : uint32x4x4_t) (p' : Ptr .u32) (hw : Writable ptr 16) (h : Stored ptr (interleave val) p') : Store k!"vst4q_u32" [.ofPtr ptr, .ofVecArr val] (Obj.ofPtr p')
  | vst4q_lane_f32 (ptr : Ptr .f32) (val : float32x4x4_t) (lane : Int) (l : Fin 4) (hl : lane = l.val) (p' : Ptr .f32) (hw : Writable ptr 4) (h : Stored ptr (fun j : Fin 4 => (val.reg j).lane l) p') : Store k!"vst4q_lane_f32" [.ofPtr ptr, .ofVecArr val, .ofInt lane] (Obj.ofPtr p')

/-- Additions -/
inductive Add [Dialect] : Nat → List Obj → Obj → Prop
  | vadd_s8 (N M : int8x8_t) : Add k!"vadd_s8" [.ofVec N, .ofVec M] (Obj.ofVec (⟨fun i => N.lane i + M.lane i⟩ : int8x8_t))
  | vadd_s16 (N M : int16x4_t) : Add k!"vadd_s16" [.ofVec N, .ofVec M] (Obj.ofVec (⟨fun i => N.lane i + M.lane i⟩ : int16x4_t))
  | vadd_s32 (N M : int32x2_t) (hg : ∀ i : Fin 2, NoOverflow 32 ((N.lane i).toInt + (M.lane i).toInt)) : Add k!"vadd_s32" [.ofVec N, .ofVec M] (Obj.ofVec (⟨fun i => N.lane i + M.lane i⟩ : int32x2_t))
  | vadd_s64 (N M : int64x1_t) (hg : ∀ i : Fin 1, NoOverflow 64 ((N.lane i).toInt + (M.lane i).toInt)) : Add k!"vadd_s64" [.ofVec N, .ofVec M] (Obj.ofVec (⟨fun i => N.lane i + M.lane i⟩ : int64x1_t))
  | vadd_u8 (N M : uint8x8_t) : Add k!"vadd_u8" [.ofVec N, .ofVec M] (Obj.ofVec (⟨fun i => N.lane i + M.lane i⟩ : uint8x8_t))
  | vadd_u16 (N M : uint16x4_t) : Add k!"vadd_u16" [.ofVec N, .ofVec M] (Obj.ofVec (⟨fun i => N.lane i + M.lane i⟩ : uint16x4_t))
  | vadd_u32 (N M : uint32x2_t) : Add k!"vadd_u32" [.ofVec N, .ofVec M] (Obj.ofVec (⟨fun i => N.lane i + M.lane i⟩ : uint32x2_t))
  | vadd_u64 (N M : uint64x1_t) : Add k!"vadd_u64" [.ofVec N, .ofVec M] (Obj.ofVec (⟨fun i => N.lane i + M.lane i⟩ : uint64x1_t))
  | vaddq_s8 (N M : int8x16_t) : Add k!"vaddq_s8" [.ofVec N, .ofVec M] (Obj.ofVec (⟨fun i => N.lane i + M.lane i⟩ : int8x16_t))
  | vaddq_s16 (N M : int16x8_t) : Add k!"vaddq_s16" [.ofVec N, .ofVec M] (Obj.ofVec (⟨fun i => N.lane i + M.lane i⟩ : int16x8_t))
  | vaddq_s32 (N M : int32x4_t) (hg : ∀ i : Fin 4, NoOverflow 32 ((N.lane i).toInt + (M.lane i).toInt)) : Add k!"vaddq_s32" [.ofVec N, .ofVec M] (Obj.ofVec (⟨fun i => N.lane i + M.lane i⟩ : int32x4_t))
  | vaddq_s64 (N M : int64x2_t) (hg : ∀ i : Fin 2, NoOverflow 64 ((N.lane i).toInt + (M.lane i).toInt)) : Add k!"vaddq_s64" [.ofVec N, .ofVec M] (Obj.ofVec (⟨fun i => N.lane i + M.lane i⟩ : int64x2_t))
  | vaddq_u8 (N M : uint8x16_t) : Add k!"vaddq_u8" [.ofVec N, .ofVec M] (Obj.ofVec (⟨fun i => N.lane i + M.lane i⟩ : uint8x16_t))
  | vaddq_u16 (N M : uint16x8_t) : Add k!"vaddq_u16" [.ofVec N, .ofVec M] (Obj.ofVec (⟨fun i => N.lane i + M.lane i⟩ : uint16x8_t))
  | vaddq_u32 (N M : uint32x4_t) : Add k!"vaddq_u32" [.ofVec N, .ofVec M] (Obj.ofVec (⟨fun i => N.lane i + M.lane i⟩ : uint32x4_t))
  | vaddq_u64 (N M : uint64x2_t) : Add k!"vaddq_u64" [.ofVec N, .ofVec M] (Obj.ofVec (⟨fun i => N.lane i + M.lane i⟩ : uint64x2_t))
  | vmaxq_s8 (N M : int8x16_t) : Add k!"vmaxq_s8" [.ofVec N, .ofVec M] (Obj.ofVec (⟨fun i => BitVec.ofInt 8 (max (N.lane i).toInt (M.lane i).toInt)⟩ : int8x16_t))
  | vmaxq_s16 (N M : int16x8_t) : Add k!"vmaxq_s16" [.ofVec N, .ofVec M] (Obj.ofVec (⟨fun i => BitVec.ofInt 16 (max (N.lane i).toInt (M.lane i).toInt)⟩ : int16x8_t))
  | vmaxq_s32 (N M : int32x4_t) : Add k!"vmaxq_s32" [.ofVec N, .ofVec M] (Obj.ofVec (⟨fun i => BitVec.ofInt 32 (max (N.lane i).toInt (M.lane i).toInt)⟩ : int32x4_t))
  | vpaddl_u8 (a : uint8x8_t) : Add k!"vpaddl_u8" [.ofVec a] (Obj.ofVec (⟨fun i => (a[2 * i.val]).setWidth 16 + (a[2 * i.val + 1]).setWidth 16⟩ : uint16x4_t))
  | vpaddlq_u8 (a : uint8x16_t) : Add k!"vpaddlq_u8" [.ofVec a] (Obj.ofVec (⟨fun i => (a[2 * i.val]).setWidth 16 + (a[2 * i.val + 1]).setWidth 16⟩ : uint16x8_t))
  | vpaddlq_u16 (a : uint16x8_t) : Add k!"vpaddlq_u16" [.ofVec a] (Obj.ofVec (⟨fun i => (a[2 * i.val]).setWidth 32 + (a[2 * i.val + 1]).setWidth 32⟩ : uint32x4_t))
  | vaddhn_high_s16 (r : int8x8_t) (a b : int16x8_t) : Add k!"vaddhn_high_s16" [.ofVec r, .ofVec a, .ofVec b] (Obj.ofVec (⟨fun i => if h : i.val < 8 then r[i.val] else high 8 (a[i.val - 8] + b[i.val - 8])⟩ : int8x16_t))
  | vaddhn_high_u16 (r : uint8x8_t) (a b : uint16x8_t) : Add k!"vaddhn_high_u16" [.ofVec r, .ofVec a, .ofVec b] (Obj.ofVec (⟨fun i => if h : i.val < 8 then r[i.val] else high 8 (a[i.val - 8] + b[i.val - 8])⟩ : uint8x16_t))
  | vqadd_u8 (a b : uint8x8_t) : Add k!"vqadd_u8" [.ofVec a, .ofVec b] (Obj.ofVec (⟨fun i => usat 8 (((a.lane i).toNat : Int) + ((b.lane i).toNat : Int))⟩ : uint8x8_t))
  | vqaddq_u8 (N M : uint8x16_t) : Add k!"vqaddq_u8" [.ofVec N, .ofVec M] (Obj.ofVec (⟨fun i => usat 8 (((N.lane i).toNat : Int) + ((M.lane i).toNat : Int))⟩ : uint8x16_t))
  | vaddl_u8 (a b : uint8x8_t) : Add k!"vaddl_u8" [.ofVec a, .ofVec b] (Obj.ofVec (⟨fun i => (a.lane i).setWidth 16 + (b.lane i).setWidth 16⟩ : uint16x8_t))
  | vaddw_s8 (a : int16x8_t) (b : int8x8_t) : Add k!"vaddw_s8" [.ofVec a, .ofVec b] (Obj.ofVec (⟨fun i => a.lane i + (b.lane i).signExtend 16⟩ : int16x8_t))
  | vaddw_s16 (a : int32x4_t) (b : int16x4_t) (hg : ∀ i : Fin 4, NoOverflow 32 ((a.lane i).toInt + (b.lane i).toInt)) : Add k!"vaddw_s16" [.ofVec a, .ofVec b] (Obj.ofVec (⟨fun i => a.lane i + (b.lane i).signExtend 32⟩ : int32x4_t))
  | vaddw_s32 (a : int64x2_t) (b : int32x2_t) (hg : ∀ i : Fin 2, NoOverflow 64 ((a.lane i).toInt + (b.lane i).toInt)) : Add k!"vaddw_s32" [.ofVec a, .ofVec b] (Obj.ofVec (⟨fun i => a.lane i + (b.lane i).signExtend 64⟩ : int64x2_t))
  | vaddw_u8 (a : uint16x8_t) (b : uint8x8_t) : Add k!"vaddw_u8" [.ofVec a, .ofVec b] (Obj.ofVec (⟨fun i => a.lane i + (b.lane i).setWidth 16⟩ : uint16x8_t))
  | vaddw_u16 (a : uint32x4_t) (b : uint16x4_t) : Add k!"vaddw_u16" [.ofVec a, .ofVec b] (Obj.ofVec (⟨fun i => a.lane i + (b.lane i).setWidth 32⟩ : uint32x4_t))
  | vaddw_u32 (a : uint64x2_t) (b : uint32x2_t) : Add k!"vaddw_u32" [.ofVec a, .ofVec b] (Obj.ofVec (⟨fun i => a.lane i + (b.lane i).setWidth 64⟩ : uint64x2_t))
  | vaddw_high_s8 (a : int16x8_t) (b : int8x16_t) : Add k!"vaddw_high_s8" [.ofVec a, .ofVec b] (Obj.ofVec (⟨fun i => a.lane i + (b[8 + i.val]).signExtend 16⟩ : int16x8_t))
  | vaddw_high_s16 (a : int32x4_t) (b : int16x8_t) (hg : ∀ i : Fin 4, NoOverflow 32 ((a.lane i).toInt + (b[4 + i.val]).toInt)) : Add k!"vaddw_high_s16" [.ofVec a, .ofVec b] (Obj.ofVec (⟨fun i => a.lane i + (b[4 + i.val]).signExtend 32⟩ : int32x4_t))
  | vaddw_high_s32 (a : int64x2_t) (b : int32x4_t) (hg : ∀ i : Fin 2, NoOverflow 64 ((a.lane i).toInt + (b[2 + i.val]).toInt)) : Add k!"vaddw_high_s32" [.ofVec a, .ofVec b] (Obj.ofVec (⟨fun i => a.lane i + (b[2 + i.val]).signExtend 64⟩ : int64x2_t))
  | vaddw_high_u8 (a : uint16x8_t) (b : uint8x16_t) : Add k!"vaddw_high_u8" [.ofVec a, .ofVec b] (Obj.ofVec (⟨fun i => a.lane i + (b[8 + i.val]).setWidth 16⟩ : uint16x8_t))
  | vaddw_high_u16 (a : uint32x4_t) (b : uint16x8_t) : Add k!"vaddw_high_u16" [.ofVec a, .ofVec b] (Obj.ofVec (⟨fun i => a.lane i + (b[4 + i.val]).setWidth 32⟩ : uint32x4_t))
  | vaddw_high_u32 (a : uint64x2_t) (b : uint32x4_t) : Add k!"vaddw_high_u32" [.ofVec a, .ofVec b] (Obj.ofVec (⟨fun i => a.lane i + (b[2 + i.val]).setWidth 64⟩ : uint64x2_t))
  | vaddl_high_s8 (a b : int8x16_t) : Add k!"vaddl_high_s8" [.ofVec a, .ofVec b] (Obj.ofVec (⟨fun i => (a[8 + i.val]).signExtend 16 + (b[8 + i.val]).signExtend 16⟩ : int16x8_t))
  | vaddl_high_s16 (a b : int16x8_t) : Add k!"vaddl_high_s16" [.ofVec a, .ofVec b] (Obj.ofVec (⟨fun i => (a[4 + i.val]).signExtend 32 + (b[4 + i.val]).signExtend 32⟩ : int32x4_t))
  | vaddl_high_u8 (a b : uint8x16_t) : Add k!"vaddl_high_u8" [.ofVec a, .ofVec b] (Obj.ofVec (⟨fun i => (a[8 + i.val]).setWidth 16 + (b[8 + i.val]).setWidth 16⟩ : uint16x8_t))
  | vaddl_high_u16 (a b : uint16x8_t) : Add k!"vaddl_high_u16" [.ofVec a, .ofVec b] (Obj.ofVec (⟨fun i => (a[4 + i.val]).setWidth 32 + (b[4 + i.val]).setWidth 32⟩ : uint32x4_t))

/-- Subtractions -/
inductive Sub [Dialect] : Nat → List Obj → Obj → Prop
  | vsub_s8 (N M : int8x8_t) : Sub k!"vsub_s8" [.ofVec N, .ofVec M] (Obj.ofVec (⟨fun i => N.lane i - M.lane i⟩ : int8x8_t))
  | vsub_s16 (N M : int16x4_t) : Sub k!"vsub_s16" [.ofVec N, .ofVec M] (Obj.ofVec (⟨fun i => N.lane i - M.lane i⟩ : int16x4_t))
  | vsub_s32 (N M : int32x2_t) (hg : ∀ i : Fin 2, NoOverflow 32 ((N.lane i).toInt - (M.lane i).toInt)) : Sub k!"vsub_s32" [.ofVec N, .ofVec M] (Obj.ofVec (⟨fun i => N.lane i - M.lane i⟩ : int32x2_t))
  | vsub_s64 (N M : int64x1_t) (hg : ∀ i : Fin 1, NoOverflow 64 ((N.lane i).toInt - (M.lane i).toInt)) : Sub k!"vsub_s64" [.ofVec N, .ofVec M] (Obj.ofVec (⟨fun i => N.lane i - M.lane i⟩ : int64x1_t))
  | vsub_u8 (N M : uint8x8_t) : Sub k!"vsub_u8" [.ofVec N, .ofVec M] (Obj.ofVec (⟨fun i => N.lane i - M.lane i⟩ : uint8x8_t))
  | vsub_u16 (N M : uint16x4_t) : Sub k!"vsub_u16" [.ofVec N, .ofVec M] (Obj.ofVec (⟨fun i => N.lane i - M.lane i⟩ : uint16x4_t))
  | vsub_u32 (N M : uint32x2_t) : Sub k!"vsub_u32" [.ofVec N, .ofVec M] (Obj.ofVec (⟨fun i => N.lane i - M.lane i⟩ : uint32x2_t))
  | vsub_u64 (N M : uint64x1_t) : Sub k!"vsub_u64" [.ofVec N, .ofVec M] (Obj.ofVec (⟨fun i => N.lane i - M.lane i⟩ : uint64x1_t))
  | vsubq_s8 (N M : int8x16_t) : Sub k!"vsubq_s8" [.ofVec N, .ofVec M] (Obj.ofVec (⟨fun i => N.lane i - M.lane i⟩ : int8x16_t))
  | vsubq_s16 (N M : int16x8_t) : Sub k!"vsubq_s16" [.ofVec N, .ofVec M] (Obj.ofVec (⟨fun i => N.lane i - M.lane i⟩ : int16x8_t))
  | vsubq_s32 (N M : int32x4_t) (hg : ∀ i : Fin 4, NoOverflow 32 ((N.lane i).toInt - (M.lane i).toInt)) : Sub k!"vsubq_s32" [.ofVec N, .ofVec M] (Obj.ofVec (⟨fun i => N.lane i - M.lane i⟩ : int32x4_t))
  | vsubq_s64 (N M : int64x2_t) (hg : ∀ i : Fin 2, NoOverflow 64 ((N.lane i).toInt - (M.lane i).toInt)) : Sub k!"vsubq_s64" [.ofVec N, .ofVec M] (Obj.ofVec (⟨fun i => N.lane i - M.lane i⟩ : int64x2_t))
  | vsubq_u8 (N M : uint8x16_t) : Sub k!"vsubq_u8" [.ofVec N, .ofVec M] (Obj.ofVec (⟨fun i => N.lane i - M.lane i⟩ : uint8x16_t))
  | vsubq_u16 (N M : uint16x8_t) : Sub k!"vsubq_u16" [.ofVec N, .ofVec M] (Obj.ofVec (⟨fun i => N.lane i - M.lane i⟩ : uint16x8_t))
  | vsubq_u32 (N M : uint32x4_t) : Sub k!"vsubq_u32" [.ofVec N, .ofVec M] (Obj.ofVec (⟨fun i => N.lane i - M.lane i⟩ : uint32x4_t))
  | vsubq_u64 (N M : uint64x2_t) : Sub k!"vsubq_u64" [.ofVec N, .ofVec M] (Obj.ofVec (⟨fun i => N.lane i - M.lane i⟩ : uint64x2_t))
  | vsubhn_s16 (N M : int16x8_t) : Sub k!"vsubhn_s16" [.ofVec N, .ofVec M] (Obj.ofVec (⟨fun i => high 8 (N.lane i - M.lane i)⟩ : int8x8_t))
  | vsubhn_u16 (N M : uint16x8_t) : Sub k!"vsubhn_u16" [.ofVec N, .ofVec M] (Obj.ofVec (⟨fun i => high 8 (N.lane i - M.lane i)⟩ : uint8x8_t))
  | vrsubhn_s16 (N M : int16x8_t) : Sub k!"vrsubhn_s16" [.ofVec N, .ofVec M] (Obj.ofVec (⟨fun i => high 8 (N.lane i - M.lane i + 128#16)⟩ : int8x8_t))
  | vrsubhn_s32 (N M : int32x4_t) (hg : ∀ i : Fin 4, NoOverflow 32 ((N.lane i).toInt - (M.lane i).toInt) ∧ NoOverflow 32 ((N.lane i).toInt - (M.lane i).toInt + 32768)) : Sub k!"vrsubhn_s32" [.ofVec N, .ofVec M] (Obj.ofVec (⟨fun i => high 16 (N.lane i - M.lane i + 32768#32)⟩ : int16x4_t))
  | vrsubhn_u16 (N M : uint16x8_t) : Sub k!"vrsubhn_u16" [.ofVec N, .ofVec M] (Obj.ofVec (⟨fun i => high 8 (N.lane i - M.lane i + 128#16)⟩ : uint8x8_t))
  | vrsubhn_u32 (N M : uint32x4_t) : Sub k!"vrsubhn_u32" [.ofVec N, .ofVec M] (Obj.ofVec (⟨fun i => high 16 (N.lane i - M.lane i + 32768#32)⟩ : uint16x4_t))
  | vhsub_s8 (N M : int8x8_t) : Sub k!"vhsub_s8" [.ofVec N, .ofVec M] (Obj.ofVec (⟨fun i => BitVec.ofInt 8 (((N.lane i).toInt - (M.lane i).toInt) / 2)⟩ : int8x8_t))
  | vhsub_s16 (N M : int16x4_t) : Sub k!"vhsub_s16" [.ofVec N, .ofVec M] (Obj.ofVec (⟨fun i => BitVec.ofInt 16 (((N.lane i).toInt - (M.lane i).toInt) / 2)⟩ : int16x4_t))
  | vhsub_u8 (N M : uint8x8_t) : Sub k!"vhsub_u8" [.ofVec N, .ofVec M] (Obj.ofVec (⟨fun i => BitVec.ofInt 8 ((((N.lane i).toNat : Int) - ((M.lane i).toNat : Int)) / 2)⟩ : uint8x8_t))
  | vhsub_u16 (N M : uint16x4_t) : Sub k!"vhsub_u16" [.ofVec N, .ofVec M] (Obj.ofVec (⟨fun i => BitVec.ofInt 16 ((((N.lane i).toNat : Int) - ((M.lane i).toNat : Int)) / 2)⟩ : uint16x4_t))
  | vhsubq_s8 (N M : int8x16_t) : Sub k!"vhsubq_s8" [.ofVec N, .ofVec M] (Obj.ofVec (⟨fun i => BitVec.ofInt 8 (((N.lane i).toInt - (M.lane i).toInt) / 2)⟩ : int8x16_t))
  | vhsubq_s16 (N M : int16x8_t) : Sub k!"vhsubq_s16" [.ofVec N, .ofVec M] (Obj.ofVec (⟨fun i => BitVec.ofInt 16 (((N.lane i).toInt - (M.lane i).toInt) / 2)⟩ : int16x8_t))
  | vhsubq_u8 (N M : uint8x16_t) : Sub k!"vhsubq_u8" [.ofVec N, .ofVec M] (Obj.ofVec (⟨fun i => BitVec.ofInt 8 ((((N.lane i).toNat : Int) - ((M.lane i).toNat : Int)) / 2)⟩ : uint8x16_t))
  | vhsubq_u16 (N M : uint16x8_t) : Sub k!"vhsubq_u16" [.ofVec N, .ofVec M] (Obj.ofVec (⟨fun i => BitVec.ofInt 16 ((((N.lane i).toNat : Int) - ((M.lane i).toNat : Int)) / 2)⟩ : uint16x8_t))
  | vqsub_s8 (N M : int8x8_t) : Sub k!"vqsub_s8" [.ofVec N, .ofVec M] (Obj.ofVec (⟨fun i => ssat 8 ((N.lane i).toInt - (M.lane i).toInt)⟩ : int8x8_t))
  | vqsub_s16 (N M : int16x4_t) : Sub k!"vqsub_s16" [.ofVec N, .ofVec M] (Obj.ofVec (⟨fun i => ssat 16 ((N.lane i).toInt - (M.lane i).toInt)⟩ : int16x4_t))
  | vqsub_s32 (N M : int32x2_t) : Sub k!"vqsub_s32" [.ofVec N, .ofVec M] (Obj.ofVec (⟨fun i => ssat 32 ((N.lane i).toInt - (M.lane i).toInt)⟩ : int32x2_t))
  | vqsub_u8 (N M : uint8x8_t) : Sub k!"vqsub_u8" [.ofVec N, .ofVec M] (Obj.ofVec (⟨fun i => usat 8 (((N.lane i).toNat : Int) - ((M.lane i).toNat : Int))⟩ : uint8x8_t))
  | vqsub_u16 (N M : uint16x4_t) : Sub k!"vqsub_u16" [.ofVec N, .ofVec M] (Obj.ofVec (⟨fun i => usat 16 (((N.lane i).toNat : Int) - ((M.lane i).toNat : Int))⟩ : uint16x4_t))
  | vqsub_u32 (N M : uint32x2_t) : Sub k!"vqsub_u32" [.ofVec N, .ofVec M] (Obj.ofVec (⟨fun i => usat 32 (((N.lane i).toNat : Int) - ((M.lane i).toNat : Int))⟩ : uint32x2_t))
  | vqsubq_s8 (N M : int8x16_t) : Sub k!"vqsubq_s8" [.ofVec N, .ofVec M] (Obj.ofVec (⟨fun i => ssat 8 ((N.lane i).toInt - (M.lane i).toInt)⟩ : int8x16_t))
  | vqsubq_s16 (N M : int16x8_t) : Sub k!"vqsubq_s16" [.ofVec N, .ofVec M] (Obj.ofVec (⟨fun i => ssat 16 ((N.lane i).toInt - (M.lane i).toInt)⟩ : int16x8_t))
  | vqsubq_s32 (N M : int32x4_t) : Sub k!"vqsubq_s32" [.ofVec N, .ofVec M] (Obj.ofVec (⟨fun i => ssat 32 ((N.lane i).toInt - (M.lane i).toInt)⟩ : int32x4_t))
  | vqsubq_u8 (N M : uint8x16_t) : Sub k!"vqsubq_u8" [.ofVec N, .ofVec M] (Obj.ofVec (⟨fun i => usat 8 (((N.lane i).toNat : Int) - ((M.lane i).toNat : Int))⟩ : uint8x16_t))
  | vqsubq_u16 (N M : uint16x8_t) : Sub k!"vqsubq_u16" [.ofVec N, .ofVec M] (Obj.ofVec (⟨fun i => usat 16 (((N.lane i).toNat : Int) - ((M.lane i).toNat : Int))⟩ : uint16x8_t))
  | vqsubq_u32 (N M : uint32x4_t) : Sub k!"vqsubq_u32" [.ofVec N, .ofVec M] (Obj.ofVec (⟨fun i => usat 32 (((N.lane i).toNat : Int) - ((M.lane i).toNat : Int))⟩ : uint32x4_t))
  | vsubl_s8 (N M : int8x8_t) : Sub k!"vsubl_s8" [.ofVec N, .ofVec M] (Obj.ofVec (⟨fun i => (N.lane i).signExtend 16 - (M.lane i).signExtend 16⟩ : int16x8_t))
  | vsubl_s16 (N M : int16x4_t) : Sub k!"vsubl_s16" [.ofVec N, .ofVec M] (Obj.ofVec (⟨fun i => (N.lane i).signExtend 32 - (M.lane i).signExtend 32⟩ : int32x4_t))
  | vsubl_s32 (N : int32x4_t) (M : int32x2_t) : Sub k!"vsubl_s32" [.ofVec N, .ofVec M] (Obj.ofVec (⟨fun i => (N[i.val]).signExtend 64 - (M.lane i).signExtend 64⟩ : int64x2_t))
  | vsubl_u8 (N M : uint8x8_t) : Sub k!"vsubl_u8" [.ofVec N, .ofVec M] (Obj.ofVec (⟨fun i => (N.lane i).setWidth 16 - (M.lane i).setWidth 16⟩ : uint16x8_t))
  | vsubl_u16 (N M : uint16x4_t) : Sub k!"vsubl_u16" [.ofVec N, .ofVec M] (Obj.ofVec (⟨fun i => (N.lane i).setWidth 32 - (M.lane i).setWidth 32⟩ : uint32x4_t))
  | vsubl_u32 (N : uint32x4_t) (M : uint32x2_t) : Sub k!"vsubl_u32" [.ofVec N, .ofVec M] (Obj.ofVec (⟨fun i => (N[i.val]).setWidth 64 - (M.lane i).setWidth 64⟩ : uint64x2_t))
  | vsubw_s8 (N : int16x8_t) (M : int8x8_t) : Sub k!"vsubw_s8" [.ofVec N, .ofVec M] (Obj.ofVec (⟨fun i => N.lane i - (M.lane i).signExtend 16⟩ : int16x8_t))
  | vsubw_s16 (N : int32x4_t) (M : int16x4_t) (hg : ∀ i : Fin 4, NoOverflow 32 ((N.lane i).toInt - (M.lane i).toInt)) : Sub k!"vsubw_s16" [.ofVec N, .ofVec M] (Obj.ofVec (⟨fun i => N.lane i - (M.lane i).signExtend 32⟩ : int32x4_t))
  | vsubw_s32 (N : int64x2_t) (M : int32x2_t) (hg : ∀ i : Fin 2, NoOverflow 64 ((N.lane i).toInt - (M.lane i).toInt)) : Sub k!"vsubw_s32" [.ofVec N, .ofVec M] (Obj.ofVec (⟨fun i => N.lane i - (M.lane i).signExtend 64⟩ : int64x2_t))
  | vsubw_u8 (N : uint16x8_t) (M : uint8x8_t) : Sub k!"vsubw_u8" [.ofVec N, .ofVec M] (Obj.ofVec (⟨fun i => N.lane i - (M.lane i).setWidth 16⟩ : uint16x8_t))
  | vsubw_u16 (N : uint32x4_t) (M : uint16x4_t) : Sub k!"vsubw_u16" [.ofVec N, .ofVec M] (Obj.ofVec (⟨fun i => N.lane i - (M.lane i).setWidth 32⟩ : uint32x4_t))
  | vsubw_u32 (N : uint64x2_t) (M : uint32x2_t) : Sub k!"vsubw_u32" [.ofVec N, .ofVec M] (Obj.ofVec (⟨fun i => N.lane i - (M.lane i).setWidth 64⟩ : uint64x2_t))

/-- Multiplications -/
inductive Mul [Dialect] : Nat → List Obj → Obj → Prop
  | vmul_s8 (N M : int8x8_t) : Mul k!"vmul_s8" [.ofVec N, .ofVec M] (Obj.ofVec (⟨fun i => N.lane i * M.lane i⟩ : int8x8_t))
  | vmul_s16 (N M : int16x4_t) : Mul k!"vmul_s16" [.ofVec N, .ofVec M] (Obj.ofVec (⟨fun i => N.lane i * M.lane i⟩ : int16x4_t))
  | vmul_s32 (N M : int32x2_t) (hg : ∀ i : Fin 2, NoOverflow 32 ((N.lane i).toInt * (M.lane i).toInt)) : Mul k!"vmul_s32" [.ofVec N, .ofVec M] (Obj.ofVec (⟨fun i => N.lane i * M.lane i⟩ : int32x2_t))
  | vmul_u8 (N M : uint8x8_t) : Mul k!"vmul_u8" [.ofVec N, .ofVec M] (Obj.ofVec (⟨fun i => N.lane i * M.lane i⟩ : uint8x8_t))
  | vmul_u16 (N M : uint16x4_t) (hg : ∀ i : Fin 4, NoOverflow 32 (((N.lane i).toNat : Int) * ((M.lane i).toNat : Int))) : Mul k!"vmul_u16" [.ofVec N, .ofVec M] (Obj.ofVec (⟨fun i => N.lane i * M.lane i⟩ : uint16x4_t))
  | vmul_u32 (N M : uint32x2_t) : Mul k!"vmul_u32" [.ofVec N, .ofVec M] (Obj.ofVec (⟨fun i => N.lane i * M.lane i⟩ : uint32x2_t))
  | vmulq_s8 (N M : int8x16_t) : Mul k!"vmulq_s8" [.ofVec N, .ofVec M] (Obj.ofVec (⟨fun i => N.lane i * M.lane i⟩ : int8x16_t))
  | vmulq_s16 (N M : int16x8_t) : Mul k!"vmulq_s16" [.ofVec N, .ofVec M] (Obj.ofVec (⟨fun i => N.lane i * M.lane i⟩ : int16x8_t))
  | vmulq_s32 (N M : int32x4_t) (hg : ∀ i : Fin 4, NoOverflow 32 ((N.lane i).toInt * (M.lane i).toInt)) : Mul k!"vmulq_s32" [.ofVec N, .ofVec M] (Obj.ofVec (⟨fun i => N.lane i * M.lane i⟩ : int32x4_t))
  | vmulq_u8 (N M : uint8x16_t) : Mul k!"vmulq_u8" [.ofVec N, .ofVec M] (Obj.ofVec (⟨fun i => N.lane i * M.lane i⟩ : uint8x16_t))
  | vmulq_u16 (N M : uint16x8_t) (hg : ∀ i : Fin 8, NoOverflow 32 (((N.lane i).toNat : Int) * ((M.lane i).toNat : Int))) : Mul k!"vmulq_u16" [.ofVec N, .ofVec M] (Obj.ofVec (⟨fun i => N.lane i * M.lane i⟩ : uint16x8_t))
  | vmulq_u32 (N M : uint32x4_t) : Mul k!"vmulq_u32" [.ofVec N, .ofVec M] (Obj.ofVec (⟨fun i => N.lane i * M.lane i⟩ : uint32x4_t))
  | vmul_n_s16 (N : int16x4_t) (M : int16_t) : Mul k!"vmul_n_s16" [.ofVec N, .ofScalar .s16 M] (Obj.ofVec (⟨fun i => N.lane i * M⟩ : int16x4_t))
  | vmul_n_s32 (N : int32x2_t) (M : int32_t) (hg : ∀ i : Fin 2, NoOverflow 32 ((N.lane i).toInt * M.toInt)) : Mul k!"vmul_n_s32" [.ofVec N, .ofScalar .s32 M] (Obj.ofVec (⟨fun i => N.lane i * M⟩ : int32x2_t))
  | vmul_n_u16 (N : uint16x4_t) (M : uint16_t) (hg : ∀ i : Fin 4, NoOverflow 32 (((N.lane i).toNat : Int) * (M.toNat : Int))) : Mul k!"vmul_n_u16" [.ofVec N, .ofScalar .u16 M] (Obj.ofVec (⟨fun i => N.lane i * M⟩ : uint16x4_t))
  | vmul_n_u32 (N : uint32x2_t) (M : uint32_t) : Mul k!"vmul_n_u32" [.ofVec N, .ofScalar .u32 M] (Obj.ofVec (⟨fun i => N.lane i * M⟩ : uint32x2_t))
  | vmulq_n_s16 (N : int16x8_t) (M : int16_t) : Mul k!"vmulq_n_s16" [.ofVec N, .ofScalar .s16 M] (Obj.ofVec (⟨fun i => N.lane i * M⟩ : int16x8_t))
  | vmulq_n_s32 (N : int32x4_t) (M : int32_t) (hg : ∀ i : Fin 4, NoOverflow 32 ((N.lane i).toInt * M.toInt)) : Mul k!"vmulq_n_s32" [.ofVec N, .ofScalar .s32 M] (Obj.ofVec (⟨fun i => N.lane i * M⟩ : int32x4_t))
  | vmulq_n_u16 (N : uint16x8_t) (M : uint16_t) (hg : ∀ i : Fin 8, NoOverflow 32 (((N.lane i).toNat : Int) * (M.toNat : Int))) : Mul k!"vmulq_n_u16" [.ofVec N, .ofScalar .u16 M] (Obj.ofVec (⟨fun i => N.lane i * M⟩ : uint16x8_t))
  | vmulq_n_u32 (N : uint32x4_t) (M : uint32_t) : Mul k!"vmulq_n_u32" [.ofVec N, .ofScalar .u32 M] (Obj.ofVec (⟨fun i => N.lane i * M⟩ : uint32x4_t))
  | vmull_s8 (a b : int8x8_t) : Mul k!"vmull_s8" [.ofVec a, .ofVec b] (Obj.ofVec (⟨fun i => (a.lane i).signExtend 16 * (b.lane i).signExtend 16⟩ : int16x8_t))
  | vmull_s16 (a b : int16x4_t) : Mul k!"vmull_s16" [.ofVec a, .ofVec b] (Obj.ofVec (⟨fun i => (a.lane i).signExtend 32 * (b.lane i).signExtend 32⟩ : int32x4_t))
  | vmull_u8 (a b : uint8x8_t) : Mul k!"vmull_u8" [.ofVec a, .ofVec b] (Obj.ofVec (⟨fun i => (a.lane i).setWidth 16 * (b.lane i).setWidth 16⟩ : uint16x8_t))
  | vmull_u16 (a b : uint16x4_t) (hg : ∀ i : Fin 4, NoOverflow 32 (((a.lane i).toNat : Int) * ((b.lane i).toNat : Int))) : Mul k!"vmull_u16" [.ofVec a, .ofVec b] (Obj.ofVec (⟨fun i => (a.lane i).setWidth 32 * (b.lane i).setWidth 32⟩ : uint32x4_t))
  | vmull_n_s16 (N : int16x4_t) (M : int16_t) : Mul k!"vmull_n_s16" [.ofVec N, .ofScalar .s16 M] (Obj.ofVec (⟨fun i => (N.lane i).signExtend 32 * (M).signExtend 32⟩ : int32x4_t))
  | vmull_n_u16 (N : uint16x4_t) (M : uint16_t) (hg : ∀ i : Fin 4, NoOverflow 32 (((N.lane i).toNat : Int) * (M.toNat : Int))) : Mul k!"vmull_n_u16" [.ofVec N, .ofScalar .u16 M] (Obj.ofVec (⟨fun i => (N.lane i).setWidth 32 * (M).setWidth 32⟩ : uint32x4_t))
  | vqdmull_s16 (M N : int16x4_t) : Mul k!"vqdmull_s16" [.ofVec M, .ofVec N] (Obj.ofVec (⟨fun i => ssat 32 (2 * ((M.lane i).toInt * (N.lane i).toInt))⟩ : int32x4_t))
  | vmlal_s8 (N : int16x8_t) (M P : int8x8_t) : Mul k!"vmlal_s8" [.ofVec N, .ofVec M, .ofVec P] (Obj.ofVec (⟨fun i => N.lane i + (M.lane i).signExtend 16 * (P.lane i).signExtend 16⟩ : int16x8_t))
  | vmlal_s16 (N : int32x4_t) (M P : int16x4_t) (hg : ∀ i : Fin 4, NoOverflow 32 ((N.lane i).toInt + (M.lane i).toInt * (P.lane i).toInt)) : Mul k!"vmlal_s16" [.ofVec N, .ofVec M, .ofVec P] (Obj.ofVec (⟨fun i => N.lane i + (M.lane i).signExtend 32 * (P.lane i).signExtend 32⟩ : int32x4_t))
  | vmlal_u8 (N : uint16x8_t) (M P : uint8x8_t) : Mul k!"vmlal_u8" [.ofVec N, .ofVec M, .ofVec P] (Obj.ofVec (⟨fun i => N.lane i + (M.lane i).setWidth 16 * (P.lane i).setWidth 16⟩ : uint16x8_t))
  | vmlal_u16 (N : uint32x4_t) (M P : uint16x4_t) (hg : ∀ i : Fin 4, NoOverflow 32 (((M.lane i).toNat : Int) * ((P.lane i).toNat : Int))) : Mul k!"vmlal_u16" [.ofVec N, .ofVec M, .ofVec P] (Obj.ofVec (⟨fun i => N.lane i + (M.lane i).setWidth 32 * (P.lane i).setWidth 32⟩ : uint32x4_t))
  | vmlsl_s8 (N : int16x8_t) (M P : int8x8_t) : Mul k!"vmlsl_s8" [.ofVec N, .ofVec M, .ofVec P] (Obj.ofVec (⟨fun i => N.lane i - (M.lane i).signExtend 16 * (P.lane i).signExtend 16⟩ : int16x8_t))
  | vmlsl_s16 (N : int32x4_t) (M P : int16x4_t) (hg : ∀ i : Fin 4, NoOverflow 32 ((N.lane i).toInt - (M.lane i).toInt * (P.lane i).toInt)) : Mul k!"vmlsl_s16" [.ofVec N, .ofVec M, .ofVec P] (Obj.ofVec (⟨fun i => N.lane i - (M.lane i).signExtend 32 * (P.lane i).signExtend 32⟩ : int32x4_t))
  | vmlsl_u8 (N : uint16x8_t) (M P : uint8x8_t) : Mul k!"vmlsl_u8" [.ofVec N, .ofVec M, .ofVec P] (Obj.ofVec (⟨fun i => N.lane i - (M.lane i).setWidth 16 * (P.lane i).setWidth 16⟩ : uint16x8_t))
  | vmlsl_u16 (N : uint32x4_t) (M P : uint16x4_t) (hg : ∀ i : Fin 4, NoOverflow 32 (((M.lane i).toNat : Int) * ((P.lane i).toNat : Int))) : Mul k!"vmlsl_u16" [.ofVec N, .ofVec M, .ofVec P] (Obj.ofVec (⟨fun i => N.lane i - (M.lane i).setWidth 32 * (P.lane i).setWidth 32⟩ : uint32x4_t))
  | vmlaq_s8 (N M P : int8x16_t) : Mul k!"vmlaq_s8" [.ofVec N, .ofVec M, .ofVec P] (Obj.ofVec (⟨fun i => N.lane i + M.lane i * P.lane i⟩ : int8x16_t))
  | vmlaq_s16 (N M P : int16x8_t) : Mul k!"vmlaq_s16" [.ofVec N, .ofVec M, .ofVec P] (Obj.ofVec (⟨fun i => N.lane i + M.lane i * P.lane i⟩ : int16x8_t))
  | vmlaq_s32 (N M P : int32x4_t) (hg : ∀ i : Fin 4, NoOverflow 32 ((M.lane i).toInt * (P.lane i).toInt) ∧ NoOverflow 32 ((N.lane i).toInt + (M.lane i).toInt * (P.lane i).toInt)) : Mul k!"vmlaq_s32" [.ofVec N, .ofVec M, .ofVec P] (Obj.ofVec (⟨fun i => N.lane i + M.lane i * P.lane i⟩ : int32x4_t))
  | vmlaq_u8 (N M P : uint8x16_t) : Mul k!"vmlaq_u8" [.ofVec N, .ofVec M, .ofVec P] (Obj.ofVec (⟨fun i => N.lane i + M.lane i * P.lane i⟩ : uint8x16_t))
  | vmlaq_u16 (N M P : uint16x8_t) (hg : ∀ i : Fin 8, NoOverflow 32 (((M.lane i).toNat : Int) * ((P.lane i).toNat : Int)) ∧ NoOverflow 32 (((N.lane i).toNat : Int) + ((M.lane i).toNat : Int) * ((P.lane i).toNat : Int))) : Mul k!"vmlaq_u16" [.ofVec N, .ofVec M, .ofVec P] (Obj.ofVec (⟨fun i => N.lane i + M.lane i * P.lane i⟩ : uint16x8_t))
  | vmlaq_u32 (N M P : uint32x4_t) : Mul k!"vmlaq_u32" [.ofVec N, .ofVec M, .ofVec P] (Obj.ofVec (⟨fun i => N.lane i + M.lane i * P.lane i⟩ : uint32x4_t))

/-- Moves, lane access and combination -/
inductive Move [Dialect] : Nat → List Obj → Obj → Prop
  | vcltq_f32 (N M : float32x4_t) : Move k!"vcltq_f32" [.ofVec N, .ofVec M] (Obj.ofVec (⟨fun i => mask 32 (Less32 (N.lane i) (M.lane i))⟩ : uint32x4_t))
  | vminq_s8 (N M : int8x16_t) : Move k!"vminq_s8" [.ofVec N, .ofVec M] (Obj.ofVec (⟨fun i => BitVec.ofInt 8 (min (N.lane i).toInt (M.lane i).toInt)⟩ : int8x16_t))
  | vminq_s16 (N M : int16x8_t) : Move k!"vminq_s16" [.ofVec N, .ofVec M] (Obj.ofVec (⟨fun i => BitVec.ofInt 16 (min (N.lane i).toInt (M.lane i).toInt)⟩ : int16x8_t))
  | vminq_s32 (N M : int32x4_t) : Move k!"vminq_s32" [.ofVec N, .ofVec M] (Obj.ofVec (⟨fun i => BitVec.ofInt 32 (min (N.lane i).toInt (M.lane i).toInt)⟩ : int32x4_t))
  | vdup_n_s8 (N : int8_t) : Move k!"vdup_n_s8" [.ofScalar .s8 N] (Obj.ofVec (⟨fun _ => N⟩ : int8x8_t))
  | vdup_n_s16 (N : int16_t) : Move k!"vdup_n_s16" [.ofScalar .s16 N] (Obj.ofVec (⟨fun _ => N⟩ : int16x4_t))
  | vdup_n_s32 (N : int32_t) : Move k!"vdup_n_s32" [.ofScalar .s32 N] (Obj.ofVec (⟨fun _ => N⟩ : int32x2_t))
  | vdup_n_s64 (N : int64_t) : Move k!"vdup_n_s64" [.ofScalar .s64 N] (Obj.ofVec (⟨fun _ => N⟩ : int64x1_t))
  | vdup_n_u8 (N : uint8_t) : Move k!"vdup_n_u8" [.ofScalar .u8 N] (Obj.ofVec (⟨fun _ => N⟩ : uint8x8_t))
  | vdup_n_u16 (N : uint16_t) : Move k!"vdup_n_u16" [.ofScalar .u16 N] (Obj.ofVec (⟨fun _ => N⟩ : uint16x4_t))
  | vdup_n_u32 (N : uint32_t) : Move k!"vdup_n_u32" [.ofScalar .u32 N] (Obj.ofVec (⟨fun _ => N⟩ : uint32x2_t))
  | vdup_n_u64 (N : uint64_t) : Move k!"vdup_n_u64" [.ofScalar .u64 N] (Obj.ofVec (⟨fun _ => N⟩ : uint64x1_t))
  | vdupq_n_u8 (value : uint8_t) : Move k!"vdupq_n_u8" [.ofScalar .u8 value] (Obj.ofVec (⟨fun _ => value⟩ : uint8x16_t))
  | vdupq_n_s8 (value : int8_t) : Move k!"vdupq_n_s8" [.ofScalar .s8 value] (Obj.ofVec (⟨fun _ => value⟩ : int8x16_t))
  | vdupq_n_u16 (value : uint16_t) : Move k!"vdupq_n_u16" [.ofScalar .u16 value] (Obj.ofVec (⟨fun _ => value⟩ : uint16x8_t))
  | vdupq_n_s16 (value : int16_t) : Move k!"vdupq_n_s16" [.ofScalar .s16 value] (Obj.ofVec (⟨fun _ => value⟩ : int16x8_t))
  | vdupq_n_u32 (value : uint32_t) : Move k!"vdupq_n_u32" [.ofScalar .u32 value] (Obj.ofVec (⟨fun _ => value⟩ : uint32x4_t))
  | vdupq_n_s32 (value : int32_t) : Move k!"vdupq_n_s32" [.ofScalar .s32 value] (Obj.ofVec (⟨fun _ => value⟩ : int32x4_t))
  | vdupq_n_f32 (value : float32_t) : Move k!"vdupq_n_f32" [.ofScalar .f32 value] (Obj.ofVec (⟨fun _ => value⟩ : float32x4_t))
  | vmovq_n_f32 (value : float32_t) : Move k!"vmovq_n_f32" [.ofScalar .f32 value] (Obj.ofVec (⟨fun _ => value⟩ : float32x4_t))
  | vget_low_f32 (a : float32x4_t) : Move k!"vget_low_f32" [.ofVec a] (Obj.ofVec (⟨fun i => a[i.val]⟩ : float32x2_t))
  | vget_low_s32 (a : int32x4_t) : Move k!"vget_low_s32" [.ofVec a] (Obj.ofVec (⟨fun i => a[i.val]⟩ : int32x2_t))
  | vget_low_u32 (a : uint32x4_t) : Move k!"vget_low_u32" [.ofVec a] (Obj.ofVec (⟨fun i => a[i.val]⟩ : uint32x2_t))
  | vget_low_s16 (a : int16x8_t) : Move k!"vget_low_s16" [.ofVec a] (Obj.ofVec (⟨fun i => a[i.val]⟩ : int16x4_t))
  | vget_low_u16 (a : uint16x8_t) : Move k!"vget_low_u16" [.ofVec a] (Obj.ofVec (⟨fun i => a[i.val]⟩ : uint16x4_t))
  | vget_low_s8 (a : int8x16_t) : Move k!"vget_low_s8" [.ofVec a] (Obj.ofVec (⟨fun i => a[i.val]⟩ : int8x8_t))
  | vget_low_u8 (a : uint8x16_t) : Move k!"vget_low_u8" [.ofVec a] (Obj.ofVec (⟨fun i => a[i.val]⟩ : uint8x8_t))
  | vget_high_f32 (a : float32x4_t) : Move k!"vget_high_f32" [.ofVec a] (Obj.ofVec (⟨fun i => a[2 + i.val]⟩ : float32x2_t))
  | vget_high_s32 (a : int32x4_t) : Move k!"vget_high_s32" [.ofVec a] (Obj.ofVec (⟨fun i => a[2 + i.val]⟩ : int32x2_t))
  | vget_high_u32 (a : uint32x4_t) : Move k!"vget_high_u32" [.ofVec a] (Obj.ofVec (⟨fun i => a[2 + i.val]⟩ : uint32x2_t))
  | vget_high_s16 (a : int16x8_t) : Move k!"vget_high_s16" [.ofVec a] (Obj.ofVec (⟨fun i => a[4 + i.val]⟩ : int16x4_t))
  | vget_high_u16 (a : uint16x8_t) : Move k!"vget_high_u16" [.ofVec a] (Obj.ofVec (⟨fun i => a[4 + i.val]⟩ : uint16x4_t))
  | vget_high_s8 (a : int8x16_t) : Move k!"vget_high_s8" [.ofVec a] (Obj.ofVec (⟨fun i => a[8 + i.val]⟩ : int8x8_t))
  | vget_high_u8 (a : uint8x16_t) : Move k!"vget_high_u8" [.ofVec a] (Obj.ofVec (⟨fun i => a[8 + i.val]⟩ : uint8x8_t))
  | vget_lane_f32 (v : float32x2_t) (lane : Fin 2) : Move k!"vget_lane_f32" [.ofVec v, .ofInt ((lane.val : Nat) : Int)] (Obj.ofScalar .f32 (v.lane lane : float32_t))
  | vgetq_lane_u8 (v : uint8x16_t) (lane : Fin 16) : Move k!"vgetq_lane_u8" [.ofVec v, .ofInt ((lane.val : Nat) : Int)] (Obj.ofScalar .u8 (v.lane lane : uint8_t))
  | vgetq_lane_u16 (v : uint16x8_t) (lane : Fin 8) : Move k!"vgetq_lane_u16" [.ofVec v, .ofInt ((lane.val : Nat) : Int)] (Obj.ofScalar .u16 (v.lane lane : uint16_t))
  | vgetq_lane_u32 (v : uint32x4_t) (lane : Fin 4) : Move k!"vgetq_lane_u32" [.ofVec v, .ofInt ((lane.val : Nat) : Int)] (Obj.ofScalar .u32 (v.lane lane : uint32_t))
  | vgetq_lane_u64 (v : uint64x2_t) (lane : Fin 2) : Move k!"vgetq_lane_u64" [.ofVec v, .ofInt ((lane.val : Nat) : Int)] (Obj.ofScalar .u64 (v.lane lane : uint64_t))
  | vgetq_lane_s8 (v : int8x16_t) (lane : Fin 16) : Move k!"vgetq_lane_s8" [.ofVec v, .ofInt ((lane.val : Nat) : Int)] (Obj.ofScalar .s8 (v.lane lane : int8_t))
  | vgetq_lane_s16 (v : int16x8_t) (lane : Fin 8) : Move k!"vgetq_lane_s16" [.ofVec v, .ofInt ((lane.val : Nat) : Int)] (Obj.ofScalar .s16 (v.lane lane : int16_t))
  | vgetq_lane_s32 (v : int32x4_t) (lane : Fin 4) : Move k!"vgetq_lane_s32" [.ofVec v, .ofInt ((lane.val : Nat) : Int)] (Obj.ofScalar .s32 (v.lane lane : int32_t))
  | vgetq_lane_s64 (v : int64x2_t) (lane : Fin 2) : Move k!"vgetq_lane_s64" [.ofVec v, .ofInt ((lane.val : Nat) : Int)] (Obj.ofScalar .s64 (v.lane lane : int64_t))
  | vgetq_lane_f64 (v : float64x2_t) (lane : Fin 2) : Move k!"vgetq_lane_f64" [.ofVec v, .ofInt ((lane.val : Nat) : Int)] (Obj.ofScalar .f64 (v.lane lane : float64_t))
  | vgetq_lane_f32 (v : float32x4_t) (lane : Fin 4) : Move k!"vgetq_lane_f32" [.ofVec v, .ofInt ((lane.val : Nat) : Int)] (Obj.ofScalar .f32 (v.lane lane : float32_t))

/-- Shifts -/
inductive Shift [Dialect] : Nat → List Obj → Obj → Prop
  | vshrn_n_s16 (a : int16x8_t) (n : Nat) (h1 : 1 ≤ n) (h2 : n ≤ 8) : Shift k!"vshrn_n_s16" [.ofVec a, .ofInt n] (Obj.ofVec (⟨fun i => (((a.lane i).sshiftRight n).setWidth 8)⟩ : int8x8_t))
  | vshrn_n_s32 (a : int32x4_t) (n : Nat) (h1 : 1 ≤ n) (h2 : n ≤ 16) : Shift k!"vshrn_n_s32" [.ofVec a, .ofInt n] (Obj.ofVec (⟨fun i => (((a.lane i).sshiftRight n).setWidth 16)⟩ : int16x4_t))
  | vshrn_n_s64 (a : int64x2_t) (n : Nat) (h1 : 1 ≤ n) (h2 : n ≤ 32) : Shift k!"vshrn_n_s64" [.ofVec a, .ofInt n] (Obj.ofVec (⟨fun i => (((a.lane i).sshiftRight n).setWidth 32)⟩ : int32x2_t))
  | vshrn_n_u16 (a : uint16x8_t) (n : Nat) (h1 : 1 ≤ n) (h2 : n ≤ 8) : Shift k!"vshrn_n_u16" [.ofVec a, .ofInt n] (Obj.ofVec (⟨fun i => (((a.lane i) >>> n).setWidth 8)⟩ : uint8x8_t))
  | vshrn_n_u32 (a : uint32x4_t) (n : Nat) (h1 : 1 ≤ n) (h2 : n ≤ 16) : Shift k!"vshrn_n_u32" [.ofVec a, .ofInt n] (Obj.ofVec (⟨fun i => (((a.lane i) >>> n).setWidth 16)⟩ : uint16x4_t))
  | vshrn_n_u64 (a : uint64x2_t) (n : Nat) (h1 : 1 ≤ n) (h2 : n ≤ 32) : Shift k!"vshrn_n_u64" [.ofVec a, .ofInt n] (Obj.ofVec (⟨fun i => (((a.lane i) >>> n).setWidth 32)⟩ : uint32x2_t))
  | vqshrun_n_s16 (v : int16x8_t) (n : Nat) (h1 : 1 ≤ n) (h2 : n ≤ 8) : Shift k!"vqshrun_n_s16" [.ofVec v, .ofInt n] (Obj.ofVec (⟨fun i => usat 8 ((v.lane i).toInt / 2 ^ n)⟩ : uint8x8_t))
  | vqrshrun_n_s16 (v : int16x8_t) (n : Nat) (h1 : 1 ≤ n) (h2 : n ≤ 8) : Shift k!"vqrshrun_n_s16" [.ofVec v, .ofInt n] (Obj.ofVec (⟨fun i => usat 8 (((v.lane i).toInt + 2 ^ (n - 1)) / 2 ^ n)⟩ : uint8x8_t))
  | vrshrn_n_u16 (a : uint16x8_t) (n : Nat) (h1 : 1 ≤ n) (h2 : n ≤ 8) : Shift k!"vrshrn_n_u16" [.ofVec a, .ofInt n] (Obj.ofVec (⟨fun i => BitVec.ofNat 8 (((a.lane i).toNat + 2 ^ (n - 1)) / 2 ^ n)⟩ : uint8x8_t))
  | vshlq_n_s32 (M : int32x4_t) (n : Nat) (h2 : n ≤ 31) (hg : ∀ i : Fin 4, Dialect.wrapv = true ∨ (0 ≤ (M.lane i).toInt ∧ (M.lane i).toInt * 2 ^ n < 2 ^ 32)) : Shift k!"vshlq_n_s32" [.ofVec M, .ofInt n] (Obj.ofVec (⟨fun i => M.lane i <<< n⟩ : int32x4_t))
  | vshll_n_u8 (a : uint8x8_t) (n : Nat) (h2 : n ≤ 7) : Shift k!"vshll_n_u8" [.ofVec a, .ofInt n] (Obj.ofVec (⟨fun i => (a.lane i).setWidth 16 <<< n⟩ : uint16x8_t))

/-- Conversions and reinterpretation -/
inductive Convert [Dialect] : Nat → List Obj → Obj → Prop
  | vcvtq_s32_f32 (a : float32x4_t) (n : Fin 4 → Int) (h : ∀ i, TruncsTo (a.lane i) (n i) ∧ -2147483648 ≤ n i ∧ n i ≤ 2147483647) : Convert k!"vcvtq_s32_f32" [.ofVec a] (Obj.ofVec (⟨fun i => BitVec.ofInt 32 (n i)⟩ : int32x4_t))
  | vcvtq_u32_f32 (a : float32x4_t) (n : Fin 4 → Int) (h : ∀ i, TruncsTo (a.lane i) (n i) ∧ 0 ≤ n i ∧ n i ≤ 4294967295) : Convert k!"vcvtq_u32_f32" [.ofVec a] (Obj.ofVec (⟨fun i => BitVec.ofInt 32 (n i)⟩ : uint32x4_t))
  | vcvtnq_s32_f32 (a : float32x4_t) (x : Fin 4 → ℚ) (n : Fin 4 → Int) (h : ∀ i, (∃ s, decode .b32 (a.lane i).toNat = .num s (x i)) ∧ IsNearest (x i) (n i) ∧ |(n i : ℚ)| ≤ |x i| ∧ -2147483648 ≤ n i ∧ n i ≤ 2147483647) : Convert k!"vcvtnq_s32_f32" [.ofVec a] (Obj.ofVec (⟨fun i => BitVec.ofInt 32 (n i)⟩ : int32x4_t))
  | vreinterpret_u8_s8 (a : int8x8_t) (r : uint8x8_t) (h : ∀ b, regBit r b = regBit a b) : Convert k!"vreinterpret_u8_s8" [.ofVec a] (Obj.ofVec r)
  | vreinterpretq_s16_u16 (a : uint16x8_t) (r : int16x8_t) (h : ∀ b, regBit r b = regBit a b) : Convert k!"vreinterpretq_s16_u16" [.ofVec a] (Obj.ofVec r)
  | vreinterpretq_u16_s16 (a : int16x8_t) (r : uint16x8_t) (h : ∀ b, regBit r b = regBit a b) : Convert k!"vreinterpretq_u16_s16" [.ofVec a] (Obj.ofVec r)
  | vreinterpret_u16_u8 (a : uint8x8_t) (r : uint16x4_t) (h : ∀ b, regBit r b = regBit a b) : Convert k!"vreinterpret_u16_u8" [.ofVec a] (Obj.ofVec r)
  | vreinterpret_u32_u16 (a : uint16x4_t) (r : uint32x2_t) (h : ∀ b, regBit r b = regBit a b) : Convert k!"vreinterpret_u32_u16" [.ofVec a] (Obj.ofVec r)
  | vreinterpret_u8_u32 (a : uint32x2_t) (r : uint8x8_t) (h : ∀ b, regBit r b = regBit a b) : Convert k!"vreinterpret_u8_u32" [.ofVec a] (Obj.ofVec r)
  | vreinterpret_u32_u8 (a : uint8x8_t) (r : uint32x2_t) (h : ∀ b, regBit r b = regBit a b) : Convert k!"vreinterpret_u32_u8" [.ofVec a] (Obj.ofVec r)
  | vreinterpret_s8_u8 (a : uint8x8_t) (r : int8x8_t) (h : ∀ b, regBit r b = regBit a b) : Convert k!"vreinterpret_s8_u8" [.ofVec a] (Obj.ofVec r)
  | vreinterpret_s32_s16 (a : int16x4_t) (r : int32x2_t) (h : ∀ b, regBit r b = regBit a b) : Convert k!"vreinterpret_s32_s16" [.ofVec a] (Obj.ofVec r)
  | vreinterpret_s16_s32 (a : int32x2_t) (r : int16x4_t) (h : ∀ b, regBit r b = regBit a b) : Convert k!"vreinterpret_s16_s32" [.ofVec a] (Obj.ofVec r)
  | vreinterpretq_u8_s8 (a : int8x16_t) (r : uint8x16_t) (h : ∀ b, regBit r b = regBit a b) : Convert k!"vreinterpretq_u8_s8" [.ofVec a] (Obj.ofVec r)
  | vreinterpretq_u8_s16 (a : int16x8_t) (r : uint8x16_t) (h : ∀ b, regBit r b = regBit a b) : Convert k!"vreinterpretq_u8_s16" [.ofVec a] (Obj.ofVec r)
  | vreinterpretq_u8_s32 (a : int32x4_t) (r : uint8x16_t) (h : ∀ b, regBit r b = regBit a b) : Convert k!"vreinterpretq_u8_s32" [.ofVec a] (Obj.ofVec r)
  | vreinterpretq_u8_f32 (a : float32x4_t) (r : uint8x16_t) (h : ∀ b, regBit r b = regBit a b) : Convert k!"vreinterpretq_u8_f32" [.ofVec a] (Obj.ofVec r)
  | vreinterpretq_u8_u16 (a : uint16x8_t) (r : uint8x16_t) (h : ∀ b, regBit r b = regBit a b) : Convert k!"vreinterpretq_u8_u16" [.ofVec a] (Obj.ofVec r)
  | vreinterpretq_u8_u32 (a : uint32x4_t) (r : uint8x16_t) (h : ∀ b, regBit r b = regBit a b) : Convert k!"vreinterpretq_u8_u32" [.ofVec a] (Obj.ofVec r)
  | vreinterpretq_u8_u64 (a : uint64x2_t) (r : uint8x16_t) (h : ∀ b, regBit r b = regBit a b) : Convert k!"vreinterpretq_u8_u64" [.ofVec a] (Obj.ofVec r)
  | vreinterpretq_u8_s64 (a : int64x2_t) (r : uint8x16_t) (h : ∀ b, regBit r b = regBit a b) : Convert k!"vreinterpretq_u8_s64" [.ofVec a] (Obj.ofVec r)
  | vreinterpretq_u8_f64 (a : float64x2_t) (r : uint8x16_t) (h : ∀ b, regBit r b = regBit a b) : Convert k!"vreinterpretq_u8_f64" [.ofVec a] (Obj.ofVec r)
  | vreinterpretq_u32_s8 (a : int8x16_t) (r : uint32x4_t) (h : ∀ b, regBit r b = regBit a b) : Convert k!"vreinterpretq_u32_s8" [.ofVec a] (Obj.ofVec r)
  | vreinterpretq_u32_s16 (a : int16x8_t) (r : uint32x4_t) (h : ∀ b, regBit r b = regBit a b) : Convert k!"vreinterpretq_u32_s16" [.ofVec a] (Obj.ofVec r)
  | vreinterpretq_u32_s32 (a : int32x4_t) (r : uint32x4_t) (h : ∀ b, regBit r b = regBit a b) : Convert k!"vreinterpretq_u32_s32" [.ofVec a] (Obj.ofVec r)
  | vreinterpretq_u32_f32 (a : float32x4_t) (r : uint32x4_t) (h : ∀ b, regBit r b = regBit a b) : Convert k!"vreinterpretq_u32_f32" [.ofVec a] (Obj.ofVec r)
  | vreinterpretq_u32_u8 (a : uint8x16_t) (r : uint32x4_t) (h : ∀ b, regBit r b = regBit a b) : Convert k!"vreinterpretq_u32_u8" [.ofVec a] (Obj.ofVec r)
  | vreinterpretq_u32_u16 (a : uint16x8_t) (r : uint32x4_t) (h : ∀ b, regBit r b = regBit a b) : Convert k!"vreinterpretq_u32_u16" [.ofVec a] (Obj.ofVec r)
  | vreinterpretq_u32_u64 (a : uint64x2_t) (r : uint32x4_t) (h : ∀ b, regBit r b = regBit a b) : Convert k!"vreinterpretq_u32_u64" [.ofVec a] (Obj.ofVec r)
  | vreinterpretq_u32_s64 (a : int64x2_t) (r : uint32x4_t) (h : ∀ b, regBit r b = regBit a b) : Convert k!"vreinterpretq_u32_s64" [.ofVec a] (Obj.ofVec r)
  | vreinterpretq_u32_f64 (a : float64x2_t) (r : uint32x4_t) (h : ∀ b, regBit r b = regBit a b) : Convert k!"vreinterpretq_u32_f64" [.ofVec a] (Obj.ofVec r)

/-- Permutations and table lookups -/
inductive Perm [Dialect] : Nat → List Obj → Obj → Prop
  | vcombine_u8 (low high : uint8x8_t) : Perm k!"vcombine_u8" [.ofVec low, .ofVec high] (Obj.ofVec (⟨fun i => if h : i.val < 8 then low[i.val] else high[i.val - 8]⟩ : uint8x16_t))
  | vcombine_u16 (low high : uint16x4_t) : Perm k!"vcombine_u16" [.ofVec low, .ofVec high] (Obj.ofVec (⟨fun i => if h : i.val < 4 then low[i.val] else high[i.val - 4]⟩ : uint16x8_t))
  | vcombine_u32 (low high : uint32x2_t) : Perm k!"vcombine_u32" [.ofVec low, .ofVec high] (Obj.ofVec (⟨fun i => if h : i.val < 2 then low[i.val] else high[i.val - 2]⟩ : uint32x4_t))
  | vcombine_s8 (low high : int8x8_t) : Perm k!"vcombine_s8" [.ofVec low, .ofVec high] (Obj.ofVec (⟨fun i => if h : i.val < 8 then low[i.val] else high[i.val - 8]⟩ : int8x16_t))
  | vcombine_s16 (low high : int16x4_t) : Perm k!"vcombine_s16" [.ofVec low, .ofVec high] (Obj.ofVec (⟨fun i => if h : i.val < 4 then low[i.val] else high[i.val - 4]⟩ : int16x8_t))
  | vcombine_s32 (low high : int32x2_t) : Perm k!"vcombine_s32" [.ofVec low, .ofVec high] (Obj.ofVec (⟨fun i => if h : i.val < 2 then low[i.val] else high[i.val - 2]⟩ : int32x4_t))
  | vmovn_s32 (a : int32x4_t) : Perm k!"vmovn_s32" [.ofVec a] (Obj.ofVec (⟨fun i => (a.lane i).setWidth 16⟩ : int16x4_t))
  | vmovn_u32 (a : uint32x4_t) : Perm k!"vmovn_u32" [.ofVec a] (Obj.ofVec (⟨fun i => (a.lane i).setWidth 16⟩ : uint16x4_t))
  | vmovn_u16 (a : uint16x8_t) : Perm k!"vmovn_u16" [.ofVec a] (Obj.ofVec (⟨fun i => (a.lane i).setWidth 8⟩ : uint8x8_t))
  | vmovl_u8 (a : uint8x8_t) : Perm k!"vmovl_u8" [.ofVec a] (Obj.ofVec (⟨fun i => (a.lane i).setWidth 16⟩ : uint16x8_t))
  | vmovl_u16 (a : uint16x4_t) : Perm k!"vmovl_u16" [.ofVec a] (Obj.ofVec (⟨fun i => (a.lane i).setWidth 32⟩ : uint32x4_t))
  | vmovl_u32 (a : uint32x2_t) : Perm k!"vmovl_u32" [.ofVec a] (Obj.ofVec (⟨fun i => (a.lane i).setWidth 64⟩ : uint64x2_t))
  | vmovl_s8 (a : int8x8_t) : Perm k!"vmovl_s8" [.ofVec a] (Obj.ofVec (⟨fun i => (a.lane i).signExtend 16⟩ : int16x8_t))
  | vmovl_s16 (a : int16x4_t) : Perm k!"vmovl_s16" [.ofVec a] (Obj.ofVec (⟨fun i => (a.lane i).signExtend 32⟩ : int32x4_t))
  | vmovl_s32 (a : int32x2_t) : Perm k!"vmovl_s32" [.ofVec a] (Obj.ofVec (⟨fun i => (a.lane i).signExtend 64⟩ : int64x2_t))
  | vqmovn_u16 (a : uint16x8_t) : Perm k!"vqmovn_u16" [.ofVec a] (Obj.ofVec (⟨fun i => usat 8 ((a.lane i).toNat : Int)⟩ : uint8x8_t))
  | vqmovun_s16 (a : int16x8_t) : Perm k!"vqmovun_s16" [.ofVec a] (Obj.ofVec (⟨fun i => usat 8 (a.lane i).toInt⟩ : uint8x8_t))
  | vtrn_s8 (a b : int8x8_t) : Perm k!"vtrn_s8" [.ofVec a, .ofVec b] (Obj.ofVecArr (⟨fun j => ⟨fun i => if h : i.val % 2 = 0 then a[i.val + j.val] else b[i.val - 1 + j.val]⟩⟩ : int8x8x2_t))
  | vtrn_u8 (a b : uint8x8_t) : Perm k!"vtrn_u8" [.ofVec a, .ofVec b] (Obj.ofVecArr (⟨fun j => ⟨fun i => if h : i.val % 2 = 0 then a[i.val + j.val] else b[i.val - 1 + j.val]⟩⟩ : uint8x8x2_t))
  | vtrn_s16 (a b : int16x4_t) : Perm k!"vtrn_s16" [.ofVec a, .ofVec b] (Obj.ofVecArr (⟨fun j => ⟨fun i => if h : i.val % 2 = 0 then a[i.val + j.val] else b[i.val - 1 + j.val]⟩⟩ : int16x4x2_t))
  | vtrn_u16 (a b : uint16x4_t) : Perm k!"vtrn_u16" [.ofVec a, .ofVec b] (Obj.ofVecArr (⟨fun j => ⟨fun i => if h : i.val % 2 = 0 then a[i.val + j.val] else b[i.val - 1 + j.val]⟩⟩ : uint16x4x2_t))
  | vtrn_s32 (a b : int32x2_t) : Perm k!"vtrn_s32" [.ofVec a, .ofVec b] (Obj.ofVecArr (⟨fun j => ⟨fun i => if h : i.val % 2 = 0 then a[i.val + j.val] else b[i.val - 1 + j.val]⟩⟩ : int32x2x2_t))
  | vtrn_u32 (a b : uint32x2_t) : Perm k!"vtrn_u32" [.ofVec a, .ofVec b] (Obj.ofVecArr (⟨fun j => ⟨fun i => if h : i.val % 2 = 0 then a[i.val + j.val] else b[i.val - 1 + j.val]⟩⟩ : uint32x2x2_t))
  | vtrnq_u16 (a b : uint16x8_t) : Perm k!"vtrnq_u16" [.ofVec a, .ofVec b] (Obj.ofVecArr (⟨fun j => ⟨fun i => if h : i.val % 2 = 0 then a[i.val + j.val] else b[i.val - 1 + j.val]⟩⟩ : uint16x8x2_t))
  | vtrnq_u32 (a b : uint32x4_t) : Perm k!"vtrnq_u32" [.ofVec a, .ofVec b] (Obj.ofVecArr (⟨fun j => ⟨fun i => if h : i.val % 2 = 0 then a[i.val + j.val] else b[i.val - 1 + j.val]⟩⟩ : uint32x4x2_t))
  | vtrnq_s16 (a b : int16x8_t) : Perm k!"vtrnq_s16" [.ofVec a, .ofVec b] (Obj.ofVecArr (⟨fun j => ⟨fun i => if h : i.val % 2 = 0 then a[i.val + j.val] else b[i.val - 1 + j.val]⟩⟩ : int16x8x2_t))
  | vzip_s16 (a b : int16x4_t) : Perm k!"vzip_s16" [.ofVec a, .ofVec b] (Obj.ofVecArr (⟨fun j => ⟨fun i => if h : i.val % 2 = 0 then a[2 * j.val + i.val / 2] else b[2 * j.val + i.val / 2]⟩⟩ : int16x4x2_t))
  | vext_u8 (a b : uint8x8_t) (n : Nat) (hn : n ≤ 8) : Perm k!"vext_u8" [.ofVec a, .ofVec b, .ofInt n] (Obj.ofVec (⟨fun i => if h : i.val + n < 8 then a[i.val + n] else b[i.val + n - 8]⟩ : uint8x8_t))
  | vext_u16 (a b : uint16x4_t) (n : Nat) (hn : n ≤ 3) : Perm k!"vext_u16" [.ofVec a, .ofVec b, .ofInt n] (Obj.ofVec (⟨fun i => if h : i.val + n < 4 then a[i.val + n] else b[i.val + n - 4]⟩ : uint16x4_t))
  | vext_s16 (a b : int16x4_t) (n : Nat) (hn : n ≤ 3) : Perm k!"vext_s16" [.ofVec a, .ofVec b, .ofInt n] (Obj.ofVec (⟨fun i => if h : i.val + n < 4 then a[i.val + n] else b[i.val + n - 4]⟩ : int16x4_t))
  | vextq_u16 (a b : uint16x8_t) (n : Nat) (hn : n ≤ 8) : Perm k!"vextq_u16" [.ofVec a, .ofVec b, .ofInt n] (Obj.ofVec (⟨fun i => if h : i.val + n < 8 then a[i.val + n] else b[i.val + n - 8]⟩ : uint16x8_t))

/-- Logic, comparison, selection -/
inductive Logic [Dialect] : Nat → List Obj → Obj → Prop
  | vand_s8 (a b : int8x8_t) : Logic k!"vand_s8" [.ofVec a, .ofVec b] (Obj.ofVec (⟨fun i => a.lane i &&& b.lane i⟩ : int8x8_t))
  | vand_s16 (a b : int16x4_t) : Logic k!"vand_s16" [.ofVec a, .ofVec b] (Obj.ofVec (⟨fun i => a.lane i &&& b.lane i⟩ : int16x4_t))
  | vand_s32 (a b : int32x2_t) : Logic k!"vand_s32" [.ofVec a, .ofVec b] (Obj.ofVec (⟨fun i => a.lane i &&& b.lane i⟩ : int32x2_t))
  | vand_s64 (a b : int64x1_t) : Logic k!"vand_s64" [.ofVec a, .ofVec b] (Obj.ofVec (⟨fun i => a.lane i &&& b.lane i⟩ : int64x1_t))
  | vand_u8 (a b : uint8x8_t) : Logic k!"vand_u8" [.ofVec a, .ofVec b] (Obj.ofVec (⟨fun i => a.lane i &&& b.lane i⟩ : uint8x8_t))
  | vand_u16 (a b : uint16x4_t) : Logic k!"vand_u16" [.ofVec a, .ofVec b] (Obj.ofVec (⟨fun i => a.lane i &&& b.lane i⟩ : uint16x4_t))
  | vand_u32 (a b : uint32x2_t) : Logic k!"vand_u32" [.ofVec a, .ofVec b] (Obj.ofVec (⟨fun i => a.lane i &&& b.lane i⟩ : uint32x2_t))
  | vand_u64 (a b : uint64x1_t) : Logic k!"vand_u64" [.ofVec a, .ofVec b] (Obj.ofVec (⟨fun i => a.lane i &&& b.lane i⟩ : uint64x1_t))
  | vandq_s8 (a b : int8x16_t) : Logic k!"vandq_s8" [.ofVec a, .ofVec b] (Obj.ofVec (⟨fun i => a.lane i &&& b.lane i⟩ : int8x16_t))
  | vandq_s16 (a b : int16x8_t) : Logic k!"vandq_s16" [.ofVec a, .ofVec b] (Obj.ofVec (⟨fun i => a.lane i &&& b.lane i⟩ : int16x8_t))
  | vandq_s32 (a b : int32x4_t) : Logic k!"vandq_s32" [.ofVec a, .ofVec b] (Obj.ofVec (⟨fun i => a.lane i &&& b.lane i⟩ : int32x4_t))
  | vandq_s64 (a b : int64x2_t) : Logic k!"vandq_s64" [.ofVec a, .ofVec b] (Obj.ofVec (⟨fun i => a.lane i &&& b.lane i⟩ : int64x2_t))
  | vandq_u8 (a b : uint8x16_t) : Logic k!"vandq_u8" [.ofVec a, .ofVec b] (Obj.ofVec (⟨fun i => a.lane i &&& b.lane i⟩ : uint8x16_t))
  | vandq_u16 (a b : uint16x8_t) : Logic k!"vandq_u16" [.ofVec a, .ofVec b] (Obj.ofVec (⟨fun i => a.lane i &&& b.lane i⟩ : uint16x8_t))
  | vandq_u32 (a b : uint32x4_t) : Logic k!"vandq_u32" [.ofVec a, .ofVec b] (Obj.ofVec (⟨fun i => a.lane i &&& b.lane i⟩ : uint32x4_t))
  | vandq_u64 (a b : uint64x2_t) : Logic k!"vandq_u64" [.ofVec a, .ofVec b] (Obj.ofVec (⟨fun i => a.lane i &&& b.lane i⟩ : uint64x2_t))
  | vorr_s8 (a b : int8x8_t) : Logic k!"vorr_s8" [.ofVec a, .ofVec b] (Obj.ofVec (⟨fun i => a.lane i ||| b.lane i⟩ : int8x8_t))
  | vorr_s16 (a b : int16x4_t) : Logic k!"vorr_s16" [.ofVec a, .ofVec b] (Obj.ofVec (⟨fun i => a.lane i ||| b.lane i⟩ : int16x4_t))
  | vorr_s32 (a b : int32x2_t) : Logic k!"vorr_s32" [.ofVec a, .ofVec b] (Obj.ofVec (⟨fun i => a.lane i ||| b.lane i⟩ : int32x2_t))
  | vorr_s64 (a b : int64x1_t) : Logic k!"vorr_s64" [.ofVec a, .ofVec b] (Obj.ofVec (⟨fun i => a.lane i ||| b.lane i⟩ : int64x1_t))
  | vorr_u8 (a b : uint8x8_t) : Logic k!"vorr_u8" [.ofVec a, .ofVec b] (Obj.ofVec (⟨fun i => a.lane i ||| b.lane i⟩ : uint8x8_t))
  | vorr_u16 (a b : uint16x4_t) : Logic k!"vorr_u16" [.ofVec a, .ofVec b] (Obj.ofVec (⟨fun i => a.lane i ||| b.lane i⟩ : uint16x4_t))
  | vorr_u32 (a b : uint32x2_t) : Logic k!"vorr_u32" [.ofVec a, .ofVec b] (Obj.ofVec (⟨fun i => a.lane i ||| b.lane i⟩ : uint32x2_t))
  | vorr_u64 (a b : uint64x1_t) : Logic k!"vorr_u64" [.ofVec a, .ofVec b] (Obj.ofVec (⟨fun i => a.lane i ||| b.lane i⟩ : uint64x1_t))
  | vorrq_s8 (a b : int8x16_t) : Logic k!"vorrq_s8" [.ofVec a, .ofVec b] (Obj.ofVec (⟨fun i => a.lane i ||| b.lane i⟩ : int8x16_t))
  | vorrq_s16 (a b : int16x8_t) : Logic k!"vorrq_s16" [.ofVec a, .ofVec b] (Obj.ofVec (⟨fun i => a.lane i ||| b.lane i⟩ : int16x8_t))
  | vorrq_s32 (a b : int32x4_t) : Logic k!"vorrq_s32" [.ofVec a, .ofVec b] (Obj.ofVec (⟨fun i => a.lane i ||| b.lane i⟩ : int32x4_t))
  | vorrq_s64 (a b : int64x2_t) : Logic k!"vorrq_s64" [.ofVec a, .ofVec b] (Obj.ofVec (⟨fun i => a.lane i ||| b.lane i⟩ : int64x2_t))
  | vorrq_u8 (a b : uint8x16_t) : Logic k!"vorrq_u8" [.ofVec a, .ofVec b] (Obj.ofVec (⟨fun i => a.lane i ||| b.lane i⟩ : uint8x16_t))
  | vorrq_u16 (a b : uint16x8_t) : Logic k!"vorrq_u16" [.ofVec a, .ofVec b] (Obj.ofVec (⟨fun i => a.lane i ||| b.lane i⟩ : uint16x8_t))
  | vorrq_u32 (a b : uint32x4_t) : Logic k!"vorrq_u32" [.ofVec a, .ofVec b] (Obj.ofVec (⟨fun i => a.lane i ||| b.lane i⟩ : uint32x4_t))
  | vorrq_u64 (a b : uint64x2_t) : Logic k!"vorrq_u64" [.ofVec a, .ofVec b] (Obj.ofVec (⟨fun i => a.lane i ||| b.lane i⟩ : uint64x2_t))
  | veor_s8 (a b : int8x8_t) : Logic k!"veor_s8" [.ofVec a, .ofVec b] (Obj.ofVec (⟨fun i => a.lane i ^^^ b.lane i⟩ : int8x8_t))
  | veor_s16 (a b : int16x4_t) : Logic k!"veor_s16" [.ofVec a, .ofVec b] (Obj.ofVec (⟨fun i => a.lane i ^^^ b.lane i⟩ : int16x4_t))
  | veor_s32 (a b : int32x2_t) : Logic k!"veor_s32" [.ofVec a, .ofVec b] (Obj.ofVec (⟨fun i => a.lane i ^^^ b.lane i⟩ : int32x2_t))
  | veor_s64 (a b : int64x1_t) : Logic k!"veor_s64" [.ofVec a, .ofVec b] (Obj.ofVec (⟨fun i => a.lane i ^^^ b.lane i⟩ : int64x1_t))
  | veor_u8 (a b : uint8x8_t) : Logic k!"veor_u8" [.ofVec a, .ofVec b] (Obj.ofVec (⟨fun i => a.lane i ^^^ b.lane i⟩ : uint8x8_t))
  | veor_u16 (a b : uint16x4_t) : Logic k!"veor_u16" [.ofVec a, .ofVec b] (Obj.ofVec (⟨fun i => a.lane i ^^^ b.lane i⟩ : uint16x4_t))
  | ver_u32 (a b : uint32x2_t) : Logic k!"ver_u32" [.ofVec a, .ofVec b] (Obj.ofVec (⟨fun i => a.lane i ^^^ b.lane i⟩ : uint32x2_t))
  | veor_u64 (a b : uint64x1_t) : Logic k!"veor_u64" [.ofVec a, .ofVec b] (Obj.ofVec (⟨fun i => a.lane i ^^^ b.lane i⟩ : uint64x1_t))
  | veorq_s8 (a b : int8x16_t) : Logic k!"veorq_s8" [.ofVec a, .ofVec b] (Obj.ofVec (⟨fun i => a.lane i ^^^ b.lane i⟩ : int8x16_t))
  | veorq_s16 (a b : int16x8_t) : Logic k!"veorq_s16" [.ofVec a, .ofVec b] (Obj.ofVec (⟨fun i => a.lane i ^^^ b.lane i⟩ : int16x8_t))
  | veorq_s32 (a b : int32x4_t) : Logic k!"veorq_s32" [.ofVec a, .ofVec b] (Obj.ofVec (⟨fun i => a.lane i ^^^ b.lane i⟩ : int32x4_t))
  | veorq_s64 (a b : int64x2_t) : Logic k!"veorq_s64" [.ofVec a, .ofVec b] (Obj.ofVec (⟨fun i => a.lane i ^^^ b.lane i⟩ : int64x2_t))
  | veorq_u8 (a b : uint8x16_t) : Logic k!"veorq_u8" [.ofVec a, .ofVec b] (Obj.ofVec (⟨fun i => a.lane i ^^^ b.lane i⟩ : uint8x16_t))
  | veorq_u16 (a b : uint16x8_t) : Logic k!"veorq_u16" [.ofVec a, .ofVec b] (Obj.ofVec (⟨fun i => a.lane i ^^^ b.lane i⟩ : uint16x8_t))
  | veorq_u32 (a b : uint32x4_t) : Logic k!"veorq_u32" [.ofVec a, .ofVec b] (Obj.ofVec (⟨fun i => a.lane i ^^^ b.lane i⟩ : uint32x4_t))
  | veorq_u64 (a b : uint64x2_t) : Logic k!"veorq_u64" [.ofVec a, .ofVec b] (Obj.ofVec (⟨fun i => a.lane i ^^^ b.lane i⟩ : uint64x2_t))
  | vmvn_s8 (a : int8x8_t) : Logic k!"vmvn_s8" [.ofVec a] (Obj.ofVec (⟨fun i => ~~~ (a.lane i)⟩ : int8x8_t))
  | vmvn_s16 (a : int16x4_t) : Logic k!"vmvn_s16" [.ofVec a] (Obj.ofVec (⟨fun i => ~~~ (a.lane i)⟩ : int16x4_t))
  | vmvn_s32 (a : int32x2_t) : Logic k!"vmvn_s32" [.ofVec a] (Obj.ofVec (⟨fun i => ~~~ (a.lane i)⟩ : int32x2_t))
  | vmvn_u8 (a : uint8x8_t) : Logic k!"vmvn_u8" [.ofVec a] (Obj.ofVec (⟨fun i => ~~~ (a.lane i)⟩ : uint8x8_t))
  | vmvn_u16 (a : uint16x4_t) : Logic k!"vmvn_u16" [.ofVec a] (Obj.ofVec (⟨fun i => ~~~ (a.lane i)⟩ : uint16x4_t))
  | vmvn_u32 (a : uint32x2_t) : Logic k!"vmvn_u32" [.ofVec a] (Obj.ofVec (⟨fun i => ~~~ (a.lane i)⟩ : uint32x2_t))
  | vmvnq_s8 (a : int8x16_t) : Logic k!"vmvnq_s8" [.ofVec a] (Obj.ofVec (⟨fun i => ~~~ (a.lane i)⟩ : int8x16_t))
  | vmvnq_s16 (a : int16x8_t) : Logic k!"vmvnq_s16" [.ofVec a] (Obj.ofVec (⟨fun i => ~~~ (a.lane i)⟩ : int16x8_t))
  | vmvnq_s32 (a : int32x4_t) : Logic k!"vmvnq_s32" [.ofVec a] (Obj.ofVec (⟨fun i => ~~~ (a.lane i)⟩ : int32x4_t))
  | vmvnq_u8 (a : uint8x16_t) : Logic k!"vmvnq_u8" [.ofVec a] (Obj.ofVec (⟨fun i => ~~~ (a.lane i)⟩ : uint8x16_t))
  | vmvnq_u16 (a : uint16x8_t) : Logic k!"vmvnq_u16" [.ofVec a] (Obj.ofVec (⟨fun i => ~~~ (a.lane i)⟩ : uint16x8_t))
  | vmvnq_u32 (a : uint32x4_t) : Logic k!"vmvnq_u32" [.ofVec a] (Obj.ofVec (⟨fun i => ~~~ (a.lane i)⟩ : uint32x4_t))
  | vcgtq_u8 (N M : uint8x16_t) : Logic k!"vcgtq_u8" [.ofVec N, .ofVec M] (Obj.ofVec (⟨fun i => mask 8 ((M.lane i).toNat < (N.lane i).toNat)⟩ : uint8x16_t))
  | vbslq_u8 (mask src1 src2 : uint8x16_t) : Logic k!"vbslq_u8" [.ofVec mask, .ofVec src1, .ofVec src2] (Obj.ofVec (⟨fun i => (mask.lane i &&& src1.lane i) ||| (~~~ mask.lane i &&& src2.lane i)⟩ : uint8x16_t))
  | vtbl1_u8 (a idx : uint8x8_t) : Logic k!"vtbl1_u8" [.ofVec a, .ofVec idx] (Obj.ofVec (⟨fun i => if h : (idx.lane i).toNat < 8 then a[(idx.lane i).toNat] else 0#8⟩ : uint8x8_t))
  | vtbl2_u8 (a : uint8x8x2_t) (idx : uint8x8_t) : Logic k!"vtbl2_u8" [.ofVecArr a, .ofVec idx] (Obj.ofVec (⟨fun i => if h : (idx.lane i).toNat < 16 then a[(idx.lane i).toNat / 8][(idx.lane i).toNat % 8] else 0#8⟩ : uint8x8_t))
  | vtbl4_u8 (a : uint8x8x4_t) (idx : uint8x8_t) : Logic k!"vtbl4_u8" [.ofVecArr a, .ofVec idx] (Obj.ofVec (⟨fun i => if h : (idx.lane i).toNat < 32 then a[(idx.lane i).toNat / 8][(idx.lane i).toNat % 8] else 0#8⟩ : uint8x8_t))

/-- Maximum, minimum and the rest -/
inductive Rest [Dialect] : Nat → List Obj → Obj → Prop
  | vrev16_s8 (vec : int8x8_t) : Rest k!"vrev16_s8" [.ofVec vec] (Obj.ofVec (⟨fun i => vec[i.val / 2 * 2 + (1 - i.val % 2)]⟩ : int8x8_t))
  | vrev16_u8 (vec : uint8x8_t) : Rest k!"vrev16_u8" [.ofVec vec] (Obj.ofVec (⟨fun i => vec[i.val / 2 * 2 + (1 - i.val % 2)]⟩ : uint8x8_t))
  | vrev16q_s8 (vec : int8x16_t) : Rest k!"vrev16q_s8" [.ofVec vec] (Obj.ofVec (⟨fun i => vec[i.val / 2 * 2 + (1 - i.val % 2)]⟩ : int8x16_t))
  | vrev16q_u8 (vec : uint8x16_t) : Rest k!"vrev16q_u8" [.ofVec vec] (Obj.ofVec (⟨fun i => vec[i.val / 2 * 2 + (1 - i.val % 2)]⟩ : uint8x16_t))
  | vrev32_s16 (vec : int16x4_t) : Rest k!"vrev32_s16" [.ofVec vec] (Obj.ofVec (⟨fun i => vec[i.val / 2 * 2 + (1 - i.val % 2)]⟩ : int16x4_t))
  | vrev32_u8 (vec : uint8x8_t) : Rest k!"vrev32_u8" [.ofVec vec] (Obj.ofVec (⟨fun i => vec[i.val / 4 * 4 + (3 - i.val % 4)]⟩ : uint8x8_t))
  | vrev32_u16 (vec : uint16x4_t) : Rest k!"vrev32_u16" [.ofVec vec] (Obj.ofVec (⟨fun i => vec[i.val / 2 * 2 + (1 - i.val % 2)]⟩ : uint16x4_t))
  | vrev32q_s8 (vec : int8x16_t) : Rest k!"vrev32q_s8" [.ofVec vec] (Obj.ofVec (⟨fun i => vec[i.val / 4 * 4 + (3 - i.val % 4)]⟩ : int8x16_t))
  | vrev32q_s16 (vec : int16x8_t) : Rest k!"vrev32q_s16" [.ofVec vec] (Obj.ofVec (⟨fun i => vec[i.val / 2 * 2 + (1 - i.val % 2)]⟩ : int16x8_t))
  | vrev32q_u8 (vec : uint8x16_t) : Rest k!"vrev32q_u8" [.ofVec vec] (Obj.ofVec (⟨fun i => vec[i.val / 4 * 4 + (3 - i.val % 4)]⟩ : uint8x16_t))
  | vrev32q_u16 (vec : uint16x8_t) : Rest k!"vrev32q_u16" [.ofVec vec] (Obj.ofVec (⟨fun i => vec[i.val / 2 * 2 + (1 - i.val % 2)]⟩ : uint16x8_t))
  | vrev64_s8 (vec : int8x8_t) : Rest k!"vrev64_s8" [.ofVec vec] (Obj.ofVec (⟨fun i => vec[i.val / 8 * 8 + (7 - i.val % 8)]⟩ : int8x8_t))
  | vrev64_s16 (vec : int16x4_t) : Rest k!"vrev64_s16" [.ofVec vec] (Obj.ofVec (⟨fun i => vec[i.val / 4 * 4 + (3 - i.val % 4)]⟩ : int16x4_t))
  | vrev64_s32 (vec : int32x2_t) : Rest k!"vrev64_s32" [.ofVec vec] (Obj.ofVec (⟨fun i => vec[i.val / 2 * 2 + (1 - i.val % 2)]⟩ : int32x2_t))
  | vrev64_u8 (vec : uint8x8_t) : Rest k!"vrev64_u8" [.ofVec vec] (Obj.ofVec (⟨fun i => vec[i.val / 8 * 8 + (7 - i.val % 8)]⟩ : uint8x8_t))
  | vrev64_u16 (vec : uint16x4_t) : Rest k!"vrev64_u16" [.ofVec vec] (Obj.ofVec (⟨fun i => vec[i.val / 4 * 4 + (3 - i.val % 4)]⟩ : uint16x4_t))
  | vrev64_u32 (vec : uint32x2_t) : Rest k!"vrev64_u32" [.ofVec vec] (Obj.ofVec (⟨fun i => vec[i.val / 2 * 2 + (1 - i.val % 2)]⟩ : uint32x2_t))
  | vrev64_f32 (vec : float32x2_t) : Rest k!"vrev64_f32" [.ofVec vec] (Obj.ofVec (⟨fun i => vec[i.val / 2 * 2 + (1 - i.val % 2)]⟩ : float32x2_t))
  | vrev64q_s32 (vec : int32x4_t) : Rest k!"vrev64q_s32" [.ofVec vec] (Obj.ofVec (⟨fun i => vec[i.val / 2 * 2 + (1 - i.val % 2)]⟩ : int32x4_t))
  | vrev64q_u8 (vec : uint8x16_t) : Rest k!"vrev64q_u8" [.ofVec vec] (Obj.ofVec (⟨fun i => vec[i.val / 8 * 8 + (7 - i.val % 8)]⟩ : uint8x16_t))
  | vrev64q_u16 (vec : uint16x8_t) : Rest k!"vrev64q_u16" [.ofVec vec] (Obj.ofVec (⟨fun i => vec[i.val / 4 * 4 + (3 - i.val % 4)]⟩ : uint16x8_t))
  | vrev64q_u32 (vec : uint32x4_t) : Rest k!"vrev64q_u32" [.ofVec vec] (Obj.ofVec (⟨fun i => vec[i.val / 2 * 2 + (1 - i.val % 2)]⟩ : uint32x4_t))
  | vrev64q_f32 (vec : float32x4_t) : Rest k!"vrev64q_f32" [.ofVec vec] (Obj.ofVec (⟨fun i => vec[i.val / 2 * 2 + (1 - i.val % 2)]⟩ : float32x4_t))
  | vzip_s8 (a b : int8x8_t) : Rest k!"vzip_s8" [.ofVec a, .ofVec b] (Obj.ofVecArr (⟨fun j => ⟨fun i => if h : i.val % 2 = 0 then a[4 * j.val + i.val / 2] else b[4 * j.val + i.val / 2]⟩⟩ : int8x8x2_t))
  | vzip_u8 (a b : uint8x8_t) : Rest k!"vzip_u8" [.ofVec a, .ofVec b] (Obj.ofVecArr (⟨fun j => ⟨fun i => if h : i.val % 2 = 0 then a[4 * j.val + i.val / 2] else b[4 * j.val + i.val / 2]⟩⟩ : uint8x8x2_t))
  | vuzp_u8 (a b : uint8x8_t) : Rest k!"vuzp_u8" [.ofVec a, .ofVec b] (Obj.ofVecArr (⟨fun j => ⟨fun i => if h : 2 * i.val + j.val < 8 then a[2 * i.val + j.val] else b[2 * i.val + j.val - 8]⟩⟩ : uint8x8x2_t))
  | vuzp_s8 (a b : int8x8_t) : Rest k!"vuzp_s8" [.ofVec a, .ofVec b] (Obj.ofVecArr (⟨fun j => ⟨fun i => if h : 2 * i.val + j.val < 8 then a[2 * i.val + j.val] else b[2 * i.val + j.val - 8]⟩⟩ : int8x8x2_t))
  | vqshrn_n_s16 (a : int16x8_t) (n : Nat) (h1 : 1 ≤ n) (h2 : n ≤ 8) : Rest k!"vqshrn_n_s16" [.ofVec a, .ofInt n] (Obj.ofVec (⟨fun i => ssat 8 ((a.lane i).toInt / 2 ^ n)⟩ : int8x8_t))
  | vqshrn_n_s32 (a : int32x4_t) (n : Nat) (h1 : 1 ≤ n) (h2 : n ≤ 16) : Rest k!"vqshrn_n_s32" [.ofVec a, .ofInt n] (Obj.ofVec (⟨fun i => ssat 16 ((a.lane i).toInt / 2 ^ n)⟩ : int16x4_t))
  | vqshrn_n_u16 (a : uint16x8_t) (n : Nat) (h1 : 1 ≤ n) (h2 : n ≤ 8) : Rest k!"vqshrn_n_u16" [.ofVec a, .ofInt n] (Obj.ofVec (⟨fun i => usat 8 (((a.lane i).toNat : Int) / 2 ^ n)⟩ : uint8x8_t))
  | vqshrn_n_u32 (a : uint32x4_t) (n : Nat) (h1 : 1 ≤ n) (h2 : n ≤ 16) : Rest k!"vqshrn_n_u32" [.ofVec a, .ofInt n] (Obj.ofVec (⟨fun i => usat 16 (((a.lane i).toNat : Int) / 2 ^ n)⟩ : uint16x4_t))
  | vqshrn_n_u64 (a : uint64x2_t) (n : Nat) (h1 : 1 ≤ n) (h2 : n ≤ 32) : Rest k!"vqshrn_n_u64" [.ofVec a, .ofInt n] (Obj.ofVec (⟨fun i => usat 32 (((a.lane i).toNat : Int) / 2 ^ n)⟩ : uint32x2_t))

/-- Operations that the simulator gets right for some operands only, at exactly those operands -/
inductive Agree [Dialect] : Nat → List Obj → Obj → Prop
  | vbslq_f32 (mask : uint32x4_t) (a b : float32x4_t) (hg : ∀ i : Fin 4, mask.lane i = 0#32 ∨ ∀ j, j < 32 → (mask.lane i).getLsbD j = false → (a.lane i).getLsbD j = (b.lane i).getLsbD j) : Agree k!"vbslq_f32" [.ofVec mask, .ofVec a, .ofVec b] (Obj.ofVec (⟨fun i => (mask.lane i &&& a.lane i) ||| (~~~ (mask.lane i) &&& b.lane i)⟩ : float32x4_t))
  | vmaxq_u8 (N M : int8x16_t) (hg : ∀ i : Fin 16, ((N.lane i).toNat < 128 ↔ (M.lane i).toNat < 128)) : Agree k!"vmaxq_u8" [.ofVec N, .ofVec M] (Obj.ofVec (⟨fun i => BitVec.ofNat 8 (max (N.lane i).toNat (M.lane i).toNat)⟩ : int8x16_t))
  | vmaxq_u16 (N M : int16x8_t) (hg : ∀ i : Fin 8, ((N.lane i).toNat < 32768 ↔ (M.lane i).toNat < 32768)) : Agree k!"vmaxq_u16" [.ofVec N, .ofVec M] (Obj.ofVec (⟨fun i => BitVec.ofNat 16 (max (N.lane i).toNat (M.lane i).toNat)⟩ : int16x8_t))
  | vmaxq_u32 (N M : int32x4_t) (hg : ∀ i : Fin 4, ((N.lane i).toNat < 2147483648 ↔ (M.lane i).toNat < 2147483648)) : Agree k!"vmaxq_u32" [.ofVec N, .ofVec M] (Obj.ofVec (⟨fun i => BitVec.ofNat 32 (max (N.lane i).toNat (M.lane i).toNat)⟩ : int32x4_t))
  | vminq_u8 (N M : int8x16_t) (hg : ∀ i : Fin 16, ((N.lane i).toNat < 128 ↔ (M.lane i).toNat < 128)) : Agree k!"vminq_u8" [.ofVec N, .ofVec M] (Obj.ofVec (⟨fun i => BitVec.ofNat 8 (min (N.lane i).toNat (M.lane i).toNat)⟩ : int8x16_t))
  | vminq_u16 (N M : int16x8_t) (hg : ∀ i : Fin 8, ((N.lane i).toNat < 32768 ↔ (M.lane i).toNat < 32768)) : Agree k!"vminq_u16" [.ofVec N, .ofVec M] (Obj.ofVec (⟨fun i => BitVec.ofNat 16 (min (N.lane i).toNat (M.lane i).toNat)⟩ : int16x8_t))
  | vminq_u32 (N M : int32x4_t) (hg : ∀ i : Fin 4, ((N.lane i).toNat < 2147483648 ↔ (M.lane i).toNat < 2147483648)) : Agree k!"vminq_u32" [.ofVec N, .ofVec M] (Obj.ofVec (⟨fun i => BitVec.ofNat 32 (min (N.lane i).toNat (M.lane i).toNat)⟩ : int32x4_t))
  | vmull_s32 (a b : int32x2_t) (hg : ∀ i : Fin 2, Fits 32 ((a.lane i).toInt * (b.lane i).toInt)) : Agree k!"vmull_s32" [.ofVec a, .ofVec b] (Obj.ofVec (⟨fun i => (a.lane i).signExtend 64 * (b.lane i).signExtend 64⟩ : int64x2_t))
  | vmull_u32 (a b : uint32x2_t) (hg : ∀ i : Fin 2, (a.lane i).toNat * (b.lane i).toNat < 4294967296) : Agree k!"vmull_u32" [.ofVec a, .ofVec b] (Obj.ofVec (⟨fun i => (a.lane i).setWidth 64 * (b.lane i).setWidth 64⟩ : uint64x2_t))
  | vmull_n_s32 (N : int32x2_t) (M : int32_t) (hg : ∀ i : Fin 2, Fits 32 ((N.lane i).toInt * M.toInt)) : Agree k!"vmull_n_s32" [.ofVec N, .ofScalar .s32 M] (Obj.ofVec (⟨fun i => (N.lane i).signExtend 64 * (M).signExtend 64⟩ : int64x2_t))
  | vmull_n_u32 (N : uint32x2_t) (M : uint32_t) (hg : ∀ i : Fin 2, (N.lane i).toNat * M.toNat < 4294967296) : Agree k!"vmull_n_u32" [.ofVec N, .ofScalar .u32 M] (Obj.ofVec (⟨fun i => (N.lane i).setWidth 64 * (M).setWidth 64⟩ : uint64x2_t))
  | vmlal_s32 (N : int64x2_t) (M P : int32x2_t) (hg : ∀ i : Fin 2, Fits 32 ((M.lane i).toInt * (P.lane i).toInt) ∧ NoOverflow 64 ((N.lane i).toInt + (M.lane i).toInt * (P.lane i).toInt)) : Agree k!"vmlal_s32" [.ofVec N, .ofVec M, .ofVec P] (Obj.ofVec (⟨fun i => N.lane i + (M.lane i).signExtend 64 * (P.lane i).signExtend 64⟩ : int64x2_t))
  | vmlal_u32 (N : uint64x2_t) (M P : uint32x2_t) (hg : ∀ i : Fin 2, (M.lane i).toNat * (P.lane i).toNat < 4294967296) : Agree k!"vmlal_u32" [.ofVec N, .ofVec M, .ofVec P] (Obj.ofVec (⟨fun i => N.lane i + (M.lane i).setWidth 64 * (P.lane i).setWidth 64⟩ : uint64x2_t))
  | vmlsl_s32 (N : int64x2_t) (M P : int32x2_t) (hg : ∀ i : Fin 2, Fits 32 ((M.lane i).toInt * (P.lane i).toInt) ∧ NoOverflow 64 ((N.lane i).toInt - (M.lane i).toInt * (P.lane i).toInt)) : Agree k!"vmlsl_s32" [.ofVec N, .ofVec M, .ofVec P] (Obj.ofVec (⟨fun i => N.lane i - (M.lane i).signExtend 64 * (P.lane i).signExtend 64⟩ : int64x2_t))
  | vmlsl_u32 (N : uint64x2_t) (M P : uint32x2_t) (hg : ∀ i : Fin 2, (M.lane i).toNat * (P.lane i).toNat < 4294967296) : Agree k!"vmlsl_u32" [.ofVec N, .ofVec M, .ofVec P] (Obj.ofVec (⟨fun i => N.lane i - (M.lane i).setWidth 64 * (P.lane i).setWidth 64⟩ : uint64x2_t))
  | vaddhn_high_s32 (r : int16x4_t) (a b : int32x4_t) (hg : ∀ k : Fin 4, NoOverflow 32 ((a.lane k).toInt + (b.lane k).toInt) ∧ ∀ j, j < 16 → (a.lane k + b.lane k).getLsbD (4 + j) = (a.lane k + b.lane k).getLsbD (16 + j)) : Agree k!"vaddhn_high_s32" [.ofVec r, .ofVec a, .ofVec b] (Obj.ofVec (⟨fun i => if h : i.val < 4 then r[i.val] else high 16 (a[i.val - 4] + b[i.val - 4])⟩ : int16x8_t))
  | vaddhn_high_s64 (r : int32x2_t) (a b : int64x2_t) (hg : ∀ k : Fin 2, NoOverflow 64 ((a.lane k).toInt + (b.lane k).toInt) ∧ ∀ j, j < 32 → (a.lane k + b.lane k).getLsbD (2 + j) = (a.lane k + b.lane k).getLsbD (32 + j)) : Agree k!"vaddhn_high_s64" [.ofVec r, .ofVec a, .ofVec b] (Obj.ofVec (⟨fun i => if h : i.val < 2 then r[i.val] else high 32 (a[i.val - 2] + b[i.val - 2])⟩ : int32x4_t))
  | vaddhn_high_u32 (r : uint16x4_t) (a b : uint32x4_t) (hg : ∀ k : Fin 4, ∀ j, j < 16 → (a.lane k + b.lane k).getLsbD (4 + j) = (a.lane k + b.lane k).getLsbD (16 + j)) : Agree k!"vaddhn_high_u32" [.ofVec r, .ofVec a, .ofVec b] (Obj.ofVec (⟨fun i => if h : i.val < 4 then r[i.val] else high 16 (a[i.val - 4] + b[i.val - 4])⟩ : uint16x8_t))
  | vaddhn_high_u64 (r : uint32x2_t) (a b : uint64x2_t) (hg : ∀ k : Fin 2, ∀ j, j < 32 → (a.lane k + b.lane k).getLsbD (2 + j) = (a.lane k + b.lane k).getLsbD (32 + j)) : Agree k!"vaddhn_high_u64" [.ofVec r, .ofVec a, .ofVec b] (Obj.ofVec (⟨fun i => if h : i.val < 2 then r[i.val] else high 32 (a[i.val - 2] + b[i.val - 2])⟩ : uint32x4_t))
  | vsubn_s32 (N M : int32x4_t) (hg : ∀ i : Fin 4, NoOverflow 32 ((N.lane i).toInt - (M.lane i).toInt) ∧ ∀ j, j < 16 → (N.lane i - M.lane i).getLsbD (8 + j) = (N.lane i - M.lane i).getLsbD (16 + j)) : Agree k!"vsubn_s32" [.ofVec N, .ofVec M] (Obj.ofVec (⟨fun i => high 16 (N.lane i - M.lane i)⟩ : int16x4_t))
  | vsubn_s64 (N M : int64x2_t) (hg : ∀ i : Fin 2, NoOverflow 64 ((N.lane i).toInt - (M.lane i).toInt) ∧ ∀ j, j < 32 → (N.lane i - M.lane i).getLsbD (8 + j) = (N.lane i - M.lane i).getLsbD (32 + j)) : Agree k!"vsubn_s64" [.ofVec N, .ofVec M] (Obj.ofVec (⟨fun i => high 32 (N.lane i - M.lane i)⟩ : int32x2_t))
  | vsubn_u32 (N M : uint32x4_t) (hg : ∀ i : Fin 4, ∀ j, j < 16 → (N.lane i - M.lane i).getLsbD (8 + j) = (N.lane i - M.lane i).getLsbD (16 + j)) : Agree k!"vsubn_u32" [.ofVec N, .ofVec M] (Obj.ofVec (⟨fun i => high 16 (N.lane i - M.lane i)⟩ : uint16x4_t))
  | vsubn_u64 (N M : uint64x2_t) (hg : ∀ i : Fin 2, ∀ j, j < 32 → (N.lane i - M.lane i).getLsbD (8 + j) = (N.lane i - M.lane i).getLsbD (32 + j)) : Agree k!"vsubn_u64" [.ofVec N, .ofVec M] (Obj.ofVec (⟨fun i => high 32 (N.lane i - M.lane i)⟩ : uint32x2_t))
  | vhsub_s32 (N M : int32x2_t) (hg : ∀ i : Fin 2, Fits 32 ((N.lane i).toInt - (M.lane i).toInt)) : Agree k!"vhsub_s32" [.ofVec N, .ofVec M] (Obj.ofVec (⟨fun i => BitVec.ofInt 32 (((N.lane i).toInt - (M.lane i).toInt) / 2)⟩ : int32x2_t))
  | vhsub_u32 (N M : uint32x2_t) (hg : ∀ i : Fin 2, (M.lane i).toNat ≤ (N.lane i).toNat) : Agree k!"vhsub_u32" [.ofVec N, .ofVec M] (Obj.ofVec (⟨fun i => BitVec.ofInt 32 ((((N.lane i).toNat : Int) - ((M.lane i).toNat : Int)) / 2)⟩ : uint32x2_t))
  | vhsubq_s32 (N M : int32x4_t) (hg : ∀ i : Fin 4, Fits 32 ((N.lane i).toInt - (M.lane i).toInt)) : Agree k!"vhsubq_s32" [.ofVec N, .ofVec M] (Obj.ofVec (⟨fun i => BitVec.ofInt 32 (((N.lane i).toInt - (M.lane i).toInt) / 2)⟩ : int32x4_t))
  | vhsubq_u32 (N M : uint32x4_t) (hg : ∀ i : Fin 4, (M.lane i).toNat ≤ (N.lane i).toNat) : Agree k!"vhsubq_u32" [.ofVec N, .ofVec M] (Obj.ofVec (⟨fun i => BitVec.ofInt 32 ((((N.lane i).toNat : Int) - ((M.lane i).toNat : Int)) / 2)⟩ : uint32x4_t))
  | vqsub_s64 (N M : int64x1_t) (hg : ∀ i : Fin 1, ∃ v n, DoubleDiff (N.lane i).toInt (M.lane i).toInt v ∧ v ≠ 2 ^ 63 ∧ IsTrunc v n ∧ ssat 64 n = ssat 64 ((N.lane i).toInt - (M.lane i).toInt)) : Agree k!"vqsub_s64" [.ofVec N, .ofVec M] (Obj.ofVec (⟨fun i => ssat 64 ((N.lane i).toInt - (M.lane i).toInt)⟩ : int64x1_t))
  | vqsubq_s64 (N M : int64x2_t) (hg : ∀ i : Fin 2, ∃ v n, DoubleDiff (N.lane i).toInt (M.lane i).toInt v ∧ v ≠ 2 ^ 63 ∧ IsTrunc v n ∧ ssat 64 n = ssat 64 ((N.lane i).toInt - (M.lane i).toInt)) : Agree k!"vqsubq_s64" [.ofVec N, .ofVec M] (Obj.ofVec (⟨fun i => ssat 64 ((N.lane i).toInt - (M.lane i).toInt)⟩ : int64x2_t))
  | vqsub_u64 (N M : uint64x1_t) (hg : ∀ i : Fin 1, ∃ v n, DoubleDiff ((N.lane i).toNat : ℤ) ((M.lane i).toNat : ℤ) v ∧ v ≠ 2 ^ 64 ∧ IsTrunc v n ∧ usat 64 n = usat 64 (((N.lane i).toNat : ℤ) - ((M.lane i).toNat : ℤ))) : Agree k!"vqsub_u64" [.ofVec N, .ofVec M] (Obj.ofVec (⟨fun i => usat 64 (((N.lane i).toNat : ℤ) - ((M.lane i).toNat : ℤ))⟩ : uint64x1_t))
  | vqsubq_u64 (N M : uint64x2_t) (hg : ∀ i : Fin 2, ∃ v n, DoubleDiff ((N.lane i).toNat : ℤ) ((M.lane i).toNat : ℤ) v ∧ v ≠ 2 ^ 64 ∧ IsTrunc v n ∧ usat 64 n = usat 64 (((N.lane i).toNat : ℤ) - ((M.lane i).toNat : ℤ))) : Agree k!"vqsubq_u64" [.ofVec N, .ofVec M] (Obj.ofVec (⟨fun i => usat 64 (((N.lane i).toNat : ℤ) - ((M.lane i).toNat : ℤ))⟩ : uint64x2_t))
  | vqtbl1_u8 (t : uint8x16_t) (idx : uint8x8_t) (hg : ∀ i : Fin 8, (idx.lane i).toNat < 16) : Agree k!"vqtbl1_u8" [.ofVec t, .ofVec idx] (Obj.ofVec (⟨fun i => if h : (idx.lane i).toNat < 16 then t[(idx.lane i).toNat] else 0#8⟩ : uint8x8_t))
  | vshr_n_u16 (v : uint16x4_t) (n : Nat) (h1 : 1 ≤ n) (h2 : n ≤ 16) (hg : n ≤ 8) : Agree k!"vshr_n_u16" [.ofVec v, .ofInt n] (Obj.ofVec (⟨fun i => (v.lane i) >>> n⟩ : uint16x4_t))
  | vqshrn_n_s64 (a : int64x2_t) (n : Nat) (h1 : 1 ≤ n) (h2 : n ≤ 32) (hg : ∀ i : Fin 2, (a.lane i).toInt / 2 ^ n ≤ 2147483647 ∨ (a.lane i).toInt / 2 ^ n % 4294967296 = 2147483647) : Agree k!"vqshrn_n_s64" [.ofVec a, .ofInt n] (Obj.ofVec (⟨fun i => ssat 32 ((a.lane i).toInt / 2 ^ n)⟩ : int32x2_t))
  | vsraq_n_s32 (a b : int32x4_t) (n : Nat) (h1 : 1 ≤ n) (h2 : n ≤ 31) (hg : ∀ i : Fin 4, a.lane i = 0#32 ∨ a.lane i = BitVec.allOnes 32) : Agree k!"vsraq_n_s32" [.ofVec a, .ofVec b, .ofInt n] (Obj.ofVec (⟨fun i => a.lane i + (b.lane i).sshiftRight n⟩ : int32x4_t))
  | vaddl_high_s32 (a b : int32x4_t) (hg : ∀ i : Fin 2, Fits 32 ((a[2 + i.val]).toInt + (b[2 + i.val]).toInt)) : Agree k!"vaddl_high_s32" [.ofVec a, .ofVec b] (Obj.ofVec (⟨fun i => (a[2 + i.val]).signExtend 64 + (b[2 + i.val]).signExtend 64⟩ : int64x2_t))
  | vaddl_high_u32 (a b : uint32x4_t) (hg : ∀ i : Fin 2, (a[2 + i.val]).toNat + (b[2 + i.val]).toNat < 4294967296) : Agree k!"vaddl_high_u32" [.ofVec a, .ofVec b] (Obj.ofVec (⟨fun i => (a[2 + i.val]).setWidth 64 + (b[2 + i.val]).setWidth 64⟩ : uint64x2_t))
  | vst4_u8 (ptr : Ptr .u8) (val : uint8x8x4_t) (p' : Ptr .u8) (hg : Writable ptr 33 ∧ (∀ i : Fin 8, ptr.buf[ptr.off + (4 * i + 3)]? = some (some ((val.reg 3).lane i))) ∧ ptr.buf[ptr.off + 32]? = some (some ((val.reg 3).lane 7))) (h : Stored ptr (interleave val) p') : Agree k!"vst4_u8" [.ofPtr ptr, .ofVecArr val] (Obj.ofPtr p')
  | vst4_u32 (ptr : Ptr .u32) (val : uint32x2x4_t) (p' : Ptr .u32) (hg : ∀ i : Fin 2, (val.reg 2).lane i = (val.reg 3).lane i ∧ ptr.buf[ptr.off + (4 * i + 3)]? = some (some ((val.reg 3).lane i))) (h : Stored ptr (interleave val) p') : Agree k!"vst4_u32" [.ofPtr ptr, .ofVecArr val] (Obj.ofPtr p')

/-- Operations whose result is not always determined (NaN payloads, estimates) -/
inductive Float [Dialect] : Nat → List Obj → Obj → Prop
  | vaddq_f32 (a b : float32x4_t) (r : float32x4_t) (h : ∀ i, IsSum .b32 (a.lane i).toNat (b.lane i).toNat (r.lane i).toNat) : Float k!"vaddq_f32" [.ofVec a, .ofVec b] (Obj.ofVec r)
  | vsub_f32 (N M : float32x2_t) (r : float32x2_t) (h : ∀ i, IsDiff .b32 (N.lane i).toNat (M.lane i).toNat (r.lane i).toNat) : Float k!"vsub_f32" [.ofVec N, .ofVec M] (Obj.ofVec r)
  | vsub_f32_overload2 (N M : float64x1_t) (r : float64x1_t) (h : ∀ i, IsDiff .b64 (N.lane i).toNat (M.lane i).toNat (r.lane i).toNat) : Float k!"vsub_f32_overload2" [.ofVec N, .ofVec M] (Obj.ofVec r)
  | vsubq_f32 (N M : float32x4_t) (r : float32x4_t) (h : ∀ i, IsDiff .b32 (N.lane i).toNat (M.lane i).toNat (r.lane i).toNat) : Float k!"vsubq_f32" [.ofVec N, .ofVec M] (Obj.ofVec r)
  | vmulq_f32 (a b : float32x4_t) (r : float32x4_t) (h : ∀ i, IsProd .b32 (a.lane i).toNat (b.lane i).toNat (r.lane i).toNat) : Float k!"vmulq_f32" [.ofVec a, .ofVec b] (Obj.ofVec r)
  | vmul_n_f32 (N : float32x2_t) (M : float32_t) (r : float32x2_t) (h : ∀ i, IsProd .b32 (N.lane i).toNat M.toNat (r.lane i).toNat) : Float k!"vmul_n_f32" [.ofVec N, .ofScalar .f32 M] (Obj.ofVec r)
  | vmul_n_f64 (N : float64x1_t) (M : float64_t) (r : float64x1_t) (h : ∀ i, IsProd .b64 (N.lane i).toNat M.toNat (r.lane i).toNat) : Float k!"vmul_n_f64" [.ofVec N, .ofScalar .f64 M] (Obj.ofVec r)
  | vmulq_n_f32 (N : float32x4_t) (M : float32_t) (r : float32x4_t) (h : ∀ i, IsProd .b32 (N.lane i).toNat M.toNat (r.lane i).toNat) : Float k!"vmulq_n_f32" [.ofVec N, .ofScalar .f32 M] (Obj.ofVec r)
  | vmulq_n_f64 (N : float64x2_t) (M : float64_t) (r : float64x2_t) (h : ∀ i, IsProd .b64 (N.lane i).toNat M.toNat (r.lane i).toNat) : Float k!"vmulq_n_f64" [.ofVec N, .ofScalar .f64 M] (Obj.ofVec r)
  | vdiv_f32 (a b : float32x2_t) (r : float32x2_t) (h : ∀ i, IsQuot .b32 (a.lane i).toNat (b.lane i).toNat (r.lane i).toNat) : Float k!"vdiv_f32" [.ofVec a, .ofVec b] (Obj.ofVec r)
  | vdiv_f64 (a b : float64x1_t) (r : float64x1_t) (h : ∀ i, IsQuot .b64 (a.lane i).toNat (b.lane i).toNat (r.lane i).toNat) : Float k!"vdiv_f64" [.ofVec a, .ofVec b] (Obj.ofVec r)
  | vdivq_f32 (a b : float32x4_t) (r : float32x4_t) (h : ∀ i, IsQuot .b32 (a.lane i).toNat (b.lane i).toNat (r.lane i).toNat) : Float k!"vdivq_f32" [.ofVec a, .ofVec b] (Obj.ofVec r)
  | vdivq_f64 (a b : float64x2_t) (r : float64x2_t) (h : ∀ i, IsQuot .b64 (a.lane i).toNat (b.lane i).toNat (r.lane i).toNat) : Float k!"vdivq_f64" [.ofVec a, .ofVec b] (Obj.ofVec r)
  | vmlaq_f32 (N M P : float32x4_t) (r : float32x4_t) (h : ∀ i, ∃ p : BitVec 32, IsProd .b32 (M.lane i).toNat (P.lane i).toNat p.toNat ∧ IsSum .b32 (N.lane i).toNat p.toNat (r.lane i).toNat) : Float k!"vmlaq_f32" [.ofVec N, .ofVec M, .ofVec P] (Obj.ofVec r)
  | vmlaq_n_f32 (a b : float32x4_t) (c : float32_t) (r : float32x4_t) (h : ∀ i, ∃ p : BitVec 32, IsProd .b32 (b.lane i).toNat c.toNat p.toNat ∧ IsSum .b32 (a.lane i).toNat p.toNat (r.lane i).toNat) : Float k!"vmlaq_n_f32" [.ofVec a, .ofVec b, .ofScalar .f32 c] (Obj.ofVec r)
  | vcvtq_f32_s32 (a : int32x4_t) (r : float32x4_t) (h : ∀ i, Rounded .b32 false ((a.lane i).toInt : ℚ) (r.lane i).toNat) : Float k!"vcvtq_f32_s32" [.ofVec a] (Obj.ofVec r)
  | vmaxq_f32 (N M : float32x4_t) (r : float32x4_t) (hg : ∀ i : Fin 4, ¬ (NaN32 (N.lane i) ∧ ¬ NaN32 (M.lane i)) ∧ ¬ (N.lane i = 0x00000000#32 ∧ M.lane i = 0x80000000#32)) (h : ∀ i, FMax (N.lane i) (M.lane i) (r.lane i)) : Float k!"vmaxq_f32" [.ofVec N, .ofVec M] (Obj.ofVec r)
  | vminq_f32 (N M : float32x4_t) (r : float32x4_t) (hg : ∀ i : Fin 4, ¬ (NaN32 (N.lane i) ∧ ¬ NaN32 (M.lane i)) ∧ ¬ (N.lane i = 0x80000000#32 ∧ M.lane i = 0x00000000#32)) (h : ∀ i, FMin (N.lane i) (M.lane i) (r.lane i)) : Float k!"vminq_f32" [.ofVec N, .ofVec M] (Obj.ofVec r)
  | vpmax_f32 (a b : float32x2_t) (r : float32x2_t) (hg : ∀ v, v = a ∨ v = b → ¬ (NaN32 (v.lane 0) ∧ ¬ NaN32 (v.lane 1)) ∧ ¬ (v.lane 0 = 0x00000000#32 ∧ v.lane 1 = 0x80000000#32)) (h : FMax (a.lane 0) (a.lane 1) (r.lane 0) ∧ FMax (b.lane 0) (b.lane 1) (r.lane 1)) : Float k!"vpmax_f32" [.ofVec a, .ofVec b] (Obj.ofVec r)
  | vpmin_f32 (a b : float32x2_t) (r : float32x2_t) (hg : ∀ v, v = a ∨ v = b → ¬ (NaN32 (v.lane 0) ∧ ¬ NaN32 (v.lane 1)) ∧ ¬ (v.lane 0 = 0x80000000#32 ∧ v.lane 1 = 0x00000000#32)) (h : FMin (a.lane 0) (a.lane 1) (r.lane 0) ∧ FMin (b.lane 0) (b.lane 1) (r.lane 1)) : Float k!"vpmin_f32" [.ofVec a, .ofVec b] (Obj.ofVec r)
  | vrecpeq_f32 (a : float32x4_t) (r : float32x4_t) (h : ∀ (i : Fin 4) (s : Bool) (x : ℚ), IsNormal .b32 (a.lane i).toNat → decode .b32 (a.lane i).toNat = .num s x → (IsNormal .b32 (r.lane i).toNat ↔ expField .b32 (a.lane i).toNat ≤ 252) ∧ (IsNormal .b32 (r.lane i).toNat → ∃ y, decode .b32 (r.lane i).toNat = .num s y ∧ relErr y (1 / x) ≤ 1 / 2 ^ 8)) : Float k!"vrecpeq_f32" [.ofVec a] (Obj.ofVec r)
  | vrecpsq_f32 (a b r : float32x4_t) (x y : Fin 4 → ℚ) (hg : ∀ i, (∃ s, decode .b32 (a.lane i).toNat = .num s (x i)) ∧ (∃ s, decode .b32 (b.lane i).toNat = .num s (y i)) ∧ ∃ (q : BitVec 32) (s : Bool), decode .b32 q.toNat = .num s (x i * y i)) (h : ∀ i, Rounded .b32 false (2 - x i * y i) (r.lane i).toNat) : Float k!"vrecpsq_f32" [.ofVec a, .ofVec b] (Obj.ofVec r)

/-- The architecture determines what the intrinsic `f` returns for the arguments `args`: it is `r`. -/
inductive Exactly [Dialect] (f : Nat) (args : List Obj) (r : Obj) : Prop
  | load (h : Load f args r)
  | store (h : Store f args r)
  | add (h : Add f args r)
  | sub (h : Sub f args r)
  | mul (h : Mul f args r)
  | move (h : Move f args r)
  | shift (h : Shift f args r)
  | convert (h : Convert f args r)
  | perm (h : Perm f args r)
  | logic (h : Logic f args r)
  | rest (h : Rest f args r)
  | agree (h : Agree f args r)

/-- The architecture lets the intrinsic `f` with the arguments `args` return `r`. -/
inductive Means [Dialect] (f : Nat) (args : List Obj) (r : Obj) : Prop
  | exactly (h : Exactly f args r)
  | float (h : Float f args r)

/-- The intrinsics of `Float`. -/
def floats : List Nat :=
  [k!"vaddq_f32",
   k!"vsub_f32",
   k!"vsub_f32_overload2",
   k!"vsubq_f32",
   k!"vmulq_f32",
   k!"vmul_n_f32",
   k!"vmul_n_f64",
   k!"vmulq_n_f32",
   k!"vmulq_n_f64",
   k!"vdiv_f32",
   k!"vdiv_f64",
   k!"vdivq_f32",
   k!"vdivq_f64",
   k!"vmlaq_f32",
   k!"vmlaq_n_f32",
   k!"vcvtq_f32_s32",
   k!"vmaxq_f32",
   k!"vminq_f32",
   k!"vpmax_f32",
   k!"vpmin_f32",
   k!"vrecpeq_f32",
   k!"vrecpsq_f32"]

end Verif.Arm
