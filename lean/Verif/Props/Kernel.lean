import Verif.Fill
import Verif.Kernel
import Verif.Props.Load
import Verif.Props.Store
import Verif.Props.AddSub
import Verif.Props.Float
import Verif.Props.FloatConv
import Verif.Props.FloatSel
import Verif.Props.Logic
import Verif.Props.MaxMin
import Verif.Props.Move
import Verif.Props.Mul
import Verif.Props.NarrowHigh
import Verif.Props.Recip
import Verif.Props.Saturate
import Verif.Props.Select
import Verif.Props.Widen
/-! # Loops over buffers of any length (C67)

Each theorem lists intrinsics with the operation they perform on one element and says that the loop
load - intrinsic - store over `m` blocks performs that operation on every element of the buffers, for every `m`.
`map1`, `map2` and `update2` (the destination is also the first operand) are the loops; see `Verif/Kernel.lean`.

Generated by the scripts in `tools/`. -/

set_option linter.unusedSimpArgs false
set_option linter.unusedVariables false

namespace Verif.Props
open Verif.Model Verif.Spec

open Verif.FpOps
set_option maxRecDepth 4000

/-- The loop over `float32x4_t` registers of any number of blocks applies the listed operation to every element. -/
theorem stream_binary_float32x4 [Dialect] : ∀ fg ∈
      ([(vmaxq_f32, fun x y => if Less32 (y) (x) then x else y),
       (vaddq_f32, fun x y => BitVec.ofNat 32 (Fmt.b32.add (x).toNat (y).toNat)),
       (vsubq_f32, fun x y => BitVec.ofNat 32 (Fmt.b32.sub (x).toNat (y).toNat)),
       (vmulq_f32, fun x y => BitVec.ofNat 32 (Fmt.b32.mul (x).toNat (y).toNat)),
       (vminq_f32, fun x y => if Less32 (x) (y) then x else y),
       (vrecpsq_f32, fun x y => BitVec.ofNat 32 (stepBits (x).toNat (y).toNat)),
       (vdivq_f32, fun x y => BitVec.ofNat 32 (Fmt.b32.div (x).toNat (y).toNat))] :
       List ((float32x4_t → float32x4_t → C float32x4_t) × (BitVec 32 → BitVec 32 → BitVec 32))),
    ∀ (m : Nat) (s t : Ptr .f32) (x y : Nat → BitVec 32), (∀ j < 4 * m, Holds s j (x j)) → (∀ j < 4 * m, Holds t j (y j)) →
      (∀ dst : Ptr .f32, Writable dst (4 * m) →
        ∃ p, map2 vld1q_f32 fg.1 vst1q_f32 m s t dst = .ok p ∧ Stored dst (fun j : Fin (4 * m) => fg.2 (x j) (y j)) p) ∧
      (Writable s (4 * m) →
        ∃ p, update2 vld1q_f32 fg.1 vst1q_f32 m t s = .ok p ∧ Stored s (fun j : Fin (4 * m) => fg.2 (x j) (y j)) p) := by
  intro fg hfg
  simp only [List.mem_cons, List.not_mem_nil, or_false] at hfg
  rcases hfg with rfl | rfl | rfl | rfl | rfl | rfl | rfl
  · exact fun m s t x y hx hy => ⟨fun dst hw => map2_stored (e := .f32) (e' := .f32) (fun (x y : BitVec 32) => if Less32 (y) (x) then x else y) vld1q_f32_spec vst1q_f32_spec (fun a b => vmaxq_f32_eval a b) m s t dst x y hx hy hw,
      fun hw => update2_stored (e := .f32) (fun (x y : BitVec 32) => if Less32 (y) (x) then x else y) vld1q_f32_spec vst1q_f32_spec (fun a b => vmaxq_f32_eval a b) m t s x y hx hy hw⟩
  · exact fun m s t x y hx hy => ⟨fun dst hw => map2_stored (e := .f32) (e' := .f32) (fun (x y : BitVec 32) => BitVec.ofNat 32 (Fmt.b32.add (x).toNat (y).toNat)) vld1q_f32_spec vst1q_f32_spec (fun a b => vaddq_f32_eval a b) m s t dst x y hx hy hw,
      fun hw => update2_stored (e := .f32) (fun (x y : BitVec 32) => BitVec.ofNat 32 (Fmt.b32.add (x).toNat (y).toNat)) vld1q_f32_spec vst1q_f32_spec (fun a b => vaddq_f32_eval a b) m t s x y hx hy hw⟩
  · exact fun m s t x y hx hy => ⟨fun dst hw => map2_stored (e := .f32) (e' := .f32) (fun (x y : BitVec 32) => BitVec.ofNat 32 (Fmt.b32.sub (x).toNat (y).toNat)) vld1q_f32_spec vst1q_f32_spec (fun a b => vsubq_f32_eval a b) m s t dst x y hx hy hw,
      fun hw => update2_stored (e := .f32) (fun (x y : BitVec 32) => BitVec.ofNat 32 (Fmt.b32.sub (x).toNat (y).toNat)) vld1q_f32_spec vst1q_f32_spec (fun a b => vsubq_f32_eval a b) m t s x y hx hy hw⟩
  · exact fun m s t x y hx hy => ⟨fun dst hw => map2_stored (e := .f32) (e' := .f32) (fun (x y : BitVec 32) => BitVec.ofNat 32 (Fmt.b32.mul (x).toNat (y).toNat)) vld1q_f32_spec vst1q_f32_spec (fun a b => vmulq_f32_eval a b) m s t dst x y hx hy hw,
      fun hw => update2_stored (e := .f32) (fun (x y : BitVec 32) => BitVec.ofNat 32 (Fmt.b32.mul (x).toNat (y).toNat)) vld1q_f32_spec vst1q_f32_spec (fun a b => vmulq_f32_eval a b) m t s x y hx hy hw⟩
  · exact fun m s t x y hx hy => ⟨fun dst hw => map2_stored (e := .f32) (e' := .f32) (fun (x y : BitVec 32) => if Less32 (x) (y) then x else y) vld1q_f32_spec vst1q_f32_spec (fun a b => vminq_f32_eval a b) m s t dst x y hx hy hw,
      fun hw => update2_stored (e := .f32) (fun (x y : BitVec 32) => if Less32 (x) (y) then x else y) vld1q_f32_spec vst1q_f32_spec (fun a b => vminq_f32_eval a b) m t s x y hx hy hw⟩
  · exact fun m s t x y hx hy => ⟨fun dst hw => map2_stored (e := .f32) (e' := .f32) (fun (x y : BitVec 32) => BitVec.ofNat 32 (stepBits (x).toNat (y).toNat)) vld1q_f32_spec vst1q_f32_spec (fun a b => vrecpsq_f32_eval a b) m s t dst x y hx hy hw,
      fun hw => update2_stored (e := .f32) (fun (x y : BitVec 32) => BitVec.ofNat 32 (stepBits (x).toNat (y).toNat)) vld1q_f32_spec vst1q_f32_spec (fun a b => vrecpsq_f32_eval a b) m t s x y hx hy hw⟩
  · exact fun m s t x y hx hy => ⟨fun dst hw => map2_stored (e := .f32) (e' := .f32) (fun (x y : BitVec 32) => BitVec.ofNat 32 (Fmt.b32.div (x).toNat (y).toNat)) vld1q_f32_spec vst1q_f32_spec (fun a b => vdivq_f32_eval a b) m s t dst x y hx hy hw,
      fun hw => update2_stored (e := .f32) (fun (x y : BitVec 32) => BitVec.ofNat 32 (Fmt.b32.div (x).toNat (y).toNat)) vld1q_f32_spec vst1q_f32_spec (fun a b => vdivq_f32_eval a b) m t s x y hx hy hw⟩
example := @stream_binary_float32x4 .strict _ (.head _) 3 (demo .f32 12) (demo .f32 12) _ _ (demo_holds .f32 12) (demo_holds .f32 12)

/-- The loop over `float32x4_t` registers of any number of blocks applies the listed operation to every element. -/
theorem stream_binary_float32x4_uint32x4 : ∀ fg ∈
      ([(vcltq_f32, fun x y => mask 32 (Less32 (x) (y)))] :
       List ((float32x4_t → float32x4_t → C uint32x4_t) × (BitVec 32 → BitVec 32 → BitVec 32))),
    ∀ (m : Nat) (s t : Ptr .f32) (x y : Nat → BitVec 32), (∀ j < 4 * m, Holds s j (x j)) → (∀ j < 4 * m, Holds t j (y j)) →
      (∀ dst : Ptr .u32, Writable dst (4 * m) →
        ∃ p, map2 vld1q_f32 fg.1 vst1q_u32 m s t dst = .ok p ∧ Stored dst (fun j : Fin (4 * m) => fg.2 (x j) (y j)) p) := by
  intro fg hfg
  simp only [List.mem_cons, List.not_mem_nil, or_false] at hfg
  rcases hfg with rfl
  · exact fun m s t x y hx hy => fun dst hw => map2_stored (e := .f32) (e' := .u32) (fun (x y : BitVec 32) => mask 32 (Less32 (x) (y))) vld1q_f32_spec vst1q_u32_spec (fun a b => vcltq_f32_spec a b) m s t dst x y hx hy hw
example := stream_binary_float32x4_uint32x4 _ (.head _) 3 (demo .f32 12) (demo .f32 12) _ _ (demo_holds .f32 12) (demo_holds .f32 12)

/-- The loop over `int16x4_t` registers of any number of blocks applies the listed operation to every element. -/
theorem stream_unary_int16x4 : ∀ fg ∈
      ([(vmvn_s16, fun x => ~~~ (x))] :
       List ((int16x4_t → C int16x4_t) × (BitVec 16 → BitVec 16))),
    ∀ (m : Nat) (s : Ptr .s16) (dst : Ptr .s16) (x : Nat → BitVec 16), (∀ j < 4 * m, Holds s j (x j)) → Writable dst (4 * m) →
      ∃ p, map1 vld1_s16 fg.1 vst1_s16 m s dst = .ok p ∧ Stored dst (fun j : Fin (4 * m) => fg.2 (x j)) p := by
  intro fg hfg
  simp only [List.mem_cons, List.not_mem_nil, or_false] at hfg
  rcases hfg with rfl
  · exact fun m s dst x hx hw => map1_stored (e := .s16) (e' := .s16) (fun (x : BitVec 16) => ~~~ (x)) vld1_s16_spec vst1_s16_spec (fun a => vmvn_s16_spec a) m s dst x hx hw
example := stream_unary_int16x4 _ (.head _) 3 (demo .s16 12) (demo .s16 12) _ (demo_holds .s16 12) (demo_writable .s16 12)

/-- The loop over `int16x4_t` registers of any number of blocks applies the listed operation to every element. -/
theorem stream_binary_int16x4 [Dialect] : ∀ fg ∈
      ([(vadd_s16, fun x y => x + y),
       (vsub_s16, fun x y => x - y),
       (vhsub_s16, fun x y => BitVec.ofInt 16 (((x).toInt - (y).toInt) / 2)),
       (vqsub_s16, fun x y => ssat 16 ((x).toInt - (y).toInt)),
       (vmul_s16, fun x y => x * y),
       (vand_s16, fun x y => x &&& y),
       (vorr_s16, fun x y => x ||| y),
       (veor_s16, fun x y => x ^^^ y)] :
       List ((int16x4_t → int16x4_t → C int16x4_t) × (BitVec 16 → BitVec 16 → BitVec 16))),
    ∀ (m : Nat) (s t : Ptr .s16) (x y : Nat → BitVec 16), (∀ j < 4 * m, Holds s j (x j)) → (∀ j < 4 * m, Holds t j (y j)) →
      (∀ dst : Ptr .s16, Writable dst (4 * m) →
        ∃ p, map2 vld1_s16 fg.1 vst1_s16 m s t dst = .ok p ∧ Stored dst (fun j : Fin (4 * m) => fg.2 (x j) (y j)) p) ∧
      (Writable s (4 * m) →
        ∃ p, update2 vld1_s16 fg.1 vst1_s16 m t s = .ok p ∧ Stored s (fun j : Fin (4 * m) => fg.2 (x j) (y j)) p) := by
  intro fg hfg
  simp only [List.mem_cons, List.not_mem_nil, or_false] at hfg
  rcases hfg with rfl | rfl | rfl | rfl | rfl | rfl | rfl | rfl
  · exact fun m s t x y hx hy => ⟨fun dst hw => map2_stored (e := .s16) (e' := .s16) (fun (x y : BitVec 16) => x + y) vld1_s16_spec vst1_s16_spec (fun a b => vadd_s16_spec a b) m s t dst x y hx hy hw,
      fun hw => update2_stored (e := .s16) (fun (x y : BitVec 16) => x + y) vld1_s16_spec vst1_s16_spec (fun a b => vadd_s16_spec a b) m t s x y hx hy hw⟩
  · exact fun m s t x y hx hy => ⟨fun dst hw => map2_stored (e := .s16) (e' := .s16) (fun (x y : BitVec 16) => x - y) vld1_s16_spec vst1_s16_spec (fun a b => vsub_s16_spec a b) m s t dst x y hx hy hw,
      fun hw => update2_stored (e := .s16) (fun (x y : BitVec 16) => x - y) vld1_s16_spec vst1_s16_spec (fun a b => vsub_s16_spec a b) m t s x y hx hy hw⟩
  · exact fun m s t x y hx hy => ⟨fun dst hw => map2_stored (e := .s16) (e' := .s16) (fun (x y : BitVec 16) => BitVec.ofInt 16 (((x).toInt - (y).toInt) / 2)) vld1_s16_spec vst1_s16_spec (fun a b => vhsub_s16_spec a b) m s t dst x y hx hy hw,
      fun hw => update2_stored (e := .s16) (fun (x y : BitVec 16) => BitVec.ofInt 16 (((x).toInt - (y).toInt) / 2)) vld1_s16_spec vst1_s16_spec (fun a b => vhsub_s16_spec a b) m t s x y hx hy hw⟩
  · exact fun m s t x y hx hy => ⟨fun dst hw => map2_stored (e := .s16) (e' := .s16) (fun (x y : BitVec 16) => ssat 16 ((x).toInt - (y).toInt)) vld1_s16_spec vst1_s16_spec (fun a b => vqsub_s16_spec a b) m s t dst x y hx hy hw,
      fun hw => update2_stored (e := .s16) (fun (x y : BitVec 16) => ssat 16 ((x).toInt - (y).toInt)) vld1_s16_spec vst1_s16_spec (fun a b => vqsub_s16_spec a b) m t s x y hx hy hw⟩
  · exact fun m s t x y hx hy => ⟨fun dst hw => map2_stored (e := .s16) (e' := .s16) (fun (x y : BitVec 16) => x * y) vld1_s16_spec vst1_s16_spec (fun a b => vmul_s16_spec a b) m s t dst x y hx hy hw,
      fun hw => update2_stored (e := .s16) (fun (x y : BitVec 16) => x * y) vld1_s16_spec vst1_s16_spec (fun a b => vmul_s16_spec a b) m t s x y hx hy hw⟩
  · exact fun m s t x y hx hy => ⟨fun dst hw => map2_stored (e := .s16) (e' := .s16) (fun (x y : BitVec 16) => x &&& y) vld1_s16_spec vst1_s16_spec (fun a b => vand_s16_spec a b) m s t dst x y hx hy hw,
      fun hw => update2_stored (e := .s16) (fun (x y : BitVec 16) => x &&& y) vld1_s16_spec vst1_s16_spec (fun a b => vand_s16_spec a b) m t s x y hx hy hw⟩
  · exact fun m s t x y hx hy => ⟨fun dst hw => map2_stored (e := .s16) (e' := .s16) (fun (x y : BitVec 16) => x ||| y) vld1_s16_spec vst1_s16_spec (fun a b => vorr_s16_spec a b) m s t dst x y hx hy hw,
      fun hw => update2_stored (e := .s16) (fun (x y : BitVec 16) => x ||| y) vld1_s16_spec vst1_s16_spec (fun a b => vorr_s16_spec a b) m t s x y hx hy hw⟩
  · exact fun m s t x y hx hy => ⟨fun dst hw => map2_stored (e := .s16) (e' := .s16) (fun (x y : BitVec 16) => x ^^^ y) vld1_s16_spec vst1_s16_spec (fun a b => veor_s16_spec a b) m s t dst x y hx hy hw,
      fun hw => update2_stored (e := .s16) (fun (x y : BitVec 16) => x ^^^ y) vld1_s16_spec vst1_s16_spec (fun a b => veor_s16_spec a b) m t s x y hx hy hw⟩
example := @stream_binary_int16x4 .strict _ (.head _) 3 (demo .s16 12) (demo .s16 12) _ _ (demo_holds .s16 12) (demo_holds .s16 12)

/-- The loop over `int16x4_t` registers of any number of blocks applies the listed operation to every element. -/
theorem stream_unary_int16x4_int32x4 : ∀ fg ∈
      ([(vmovl_s16, fun x => (x).signExtend 32)] :
       List ((int16x4_t → C int32x4_t) × (BitVec 16 → BitVec 32))),
    ∀ (m : Nat) (s : Ptr .s16) (dst : Ptr .s32) (x : Nat → BitVec 16), (∀ j < 4 * m, Holds s j (x j)) → Writable dst (4 * m) →
      ∃ p, map1 vld1_s16 fg.1 vst1q_s32 m s dst = .ok p ∧ Stored dst (fun j : Fin (4 * m) => fg.2 (x j)) p := by
  intro fg hfg
  simp only [List.mem_cons, List.not_mem_nil, or_false] at hfg
  rcases hfg with rfl
  · exact fun m s dst x hx hw => map1_stored (e := .s16) (e' := .s32) (fun (x : BitVec 16) => (x).signExtend 32) vld1_s16_spec vst1q_s32_spec (fun a => vmovl_s16_spec a) m s dst x hx hw
example := stream_unary_int16x4_int32x4 _ (.head _) 3 (demo .s16 12) (demo .s32 12) _ (demo_holds .s16 12) (demo_writable .s32 12)

/-- The loop over `int16x4_t` registers of any number of blocks applies the listed operation to every element. -/
theorem stream_binary_int16x4_int32x4 [Dialect] : ∀ fg ∈
      ([(vsubl_s16, fun x y => (x).signExtend 32 - (y).signExtend 32),
       (vmull_s16, fun x y => (x).signExtend 32 * (y).signExtend 32),
       (vqdmull_s16, fun x y => ssat 32 (2 * ((x).toInt * (y).toInt)))] :
       List ((int16x4_t → int16x4_t → C int32x4_t) × (BitVec 16 → BitVec 16 → BitVec 32))),
    ∀ (m : Nat) (s t : Ptr .s16) (x y : Nat → BitVec 16), (∀ j < 4 * m, Holds s j (x j)) → (∀ j < 4 * m, Holds t j (y j)) →
      (∀ dst : Ptr .s32, Writable dst (4 * m) →
        ∃ p, map2 vld1_s16 fg.1 vst1q_s32 m s t dst = .ok p ∧ Stored dst (fun j : Fin (4 * m) => fg.2 (x j) (y j)) p) := by
  intro fg hfg
  simp only [List.mem_cons, List.not_mem_nil, or_false] at hfg
  rcases hfg with rfl | rfl | rfl
  · exact fun m s t x y hx hy => fun dst hw => map2_stored (e := .s16) (e' := .s32) (fun (x y : BitVec 16) => (x).signExtend 32 - (y).signExtend 32) vld1_s16_spec vst1q_s32_spec (fun a b => vsubl_s16_spec a b) m s t dst x y hx hy hw
  · exact fun m s t x y hx hy => fun dst hw => map2_stored (e := .s16) (e' := .s32) (fun (x y : BitVec 16) => (x).signExtend 32 * (y).signExtend 32) vld1_s16_spec vst1q_s32_spec (fun a b => vmull_s16_spec a b) m s t dst x y hx hy hw
  · exact fun m s t x y hx hy => fun dst hw => map2_stored (e := .s16) (e' := .s32) (fun (x y : BitVec 16) => ssat 32 (2 * ((x).toInt * (y).toInt))) vld1_s16_spec vst1q_s32_spec (fun a b => vqdmull_s16_spec a b) m s t dst x y hx hy hw
example := @stream_binary_int16x4_int32x4 .strict _ (.head _) 3 (demo .s16 12) (demo .s16 12) _ _ (demo_holds .s16 12) (demo_holds .s16 12)

/-- The loop over `int16x8_t` registers of any number of blocks applies the listed operation to every element. -/
theorem stream_unary_int16x8 : ∀ fg ∈
      ([(vmvnq_s16, fun x => ~~~ (x))] :
       List ((int16x8_t → C int16x8_t) × (BitVec 16 → BitVec 16))),
    ∀ (m : Nat) (s : Ptr .s16) (dst : Ptr .s16) (x : Nat → BitVec 16), (∀ j < 8 * m, Holds s j (x j)) → Writable dst (8 * m) →
      ∃ p, map1 vld1q_s16 fg.1 vst1q_s16 m s dst = .ok p ∧ Stored dst (fun j : Fin (8 * m) => fg.2 (x j)) p := by
  intro fg hfg
  simp only [List.mem_cons, List.not_mem_nil, or_false] at hfg
  rcases hfg with rfl
  · exact fun m s dst x hx hw => map1_stored (e := .s16) (e' := .s16) (fun (x : BitVec 16) => ~~~ (x)) vld1q_s16_spec vst1q_s16_spec (fun a => vmvnq_s16_spec a) m s dst x hx hw
example := stream_unary_int16x8 _ (.head _) 3 (demo .s16 24) (demo .s16 24) _ (demo_holds .s16 24) (demo_writable .s16 24)

/-- The loop over `int16x8_t` registers of any number of blocks applies the listed operation to every element. -/
theorem stream_binary_int16x8 [Dialect] : ∀ fg ∈
      ([(vmaxq_s16, fun x y => BitVec.ofInt 16 (max (x).toInt (y).toInt)),
       (vmaxq_u16, fun x y => BitVec.ofInt 16 (max (x).toInt (y).toInt)),
       (vaddq_s16, fun x y => x + y),
       (vsubq_s16, fun x y => x - y),
       (vhsubq_s16, fun x y => BitVec.ofInt 16 (((x).toInt - (y).toInt) / 2)),
       (vqsubq_s16, fun x y => ssat 16 ((x).toInt - (y).toInt)),
       (vmulq_s16, fun x y => x * y),
       (vminq_s16, fun x y => BitVec.ofInt 16 (min (x).toInt (y).toInt)),
       (vminq_u16, fun x y => BitVec.ofInt 16 (min (x).toInt (y).toInt)),
       (vandq_s16, fun x y => x &&& y),
       (vorrq_s16, fun x y => x ||| y),
       (veorq_s16, fun x y => x ^^^ y)] :
       List ((int16x8_t → int16x8_t → C int16x8_t) × (BitVec 16 → BitVec 16 → BitVec 16))),
    ∀ (m : Nat) (s t : Ptr .s16) (x y : Nat → BitVec 16), (∀ j < 8 * m, Holds s j (x j)) → (∀ j < 8 * m, Holds t j (y j)) →
      (∀ dst : Ptr .s16, Writable dst (8 * m) →
        ∃ p, map2 vld1q_s16 fg.1 vst1q_s16 m s t dst = .ok p ∧ Stored dst (fun j : Fin (8 * m) => fg.2 (x j) (y j)) p) ∧
      (Writable s (8 * m) →
        ∃ p, update2 vld1q_s16 fg.1 vst1q_s16 m t s = .ok p ∧ Stored s (fun j : Fin (8 * m) => fg.2 (x j) (y j)) p) := by
  intro fg hfg
  simp only [List.mem_cons, List.not_mem_nil, or_false] at hfg
  rcases hfg with rfl | rfl | rfl | rfl | rfl | rfl | rfl | rfl | rfl | rfl | rfl | rfl
  · exact fun m s t x y hx hy => ⟨fun dst hw => map2_stored (e := .s16) (e' := .s16) (fun (x y : BitVec 16) => BitVec.ofInt 16 (max (x).toInt (y).toInt)) vld1q_s16_spec vst1q_s16_spec (fun a b => vmaxq_s16_spec a b) m s t dst x y hx hy hw,
      fun hw => update2_stored (e := .s16) (fun (x y : BitVec 16) => BitVec.ofInt 16 (max (x).toInt (y).toInt)) vld1q_s16_spec vst1q_s16_spec (fun a b => vmaxq_s16_spec a b) m t s x y hx hy hw⟩
  · exact fun m s t x y hx hy => ⟨fun dst hw => map2_stored (e := .s16) (e' := .s16) (fun (x y : BitVec 16) => BitVec.ofInt 16 (max (x).toInt (y).toInt)) vld1q_s16_spec vst1q_s16_spec (fun a b => vmaxq_u16_partial a b) m s t dst x y hx hy hw,
      fun hw => update2_stored (e := .s16) (fun (x y : BitVec 16) => BitVec.ofInt 16 (max (x).toInt (y).toInt)) vld1q_s16_spec vst1q_s16_spec (fun a b => vmaxq_u16_partial a b) m t s x y hx hy hw⟩
  · exact fun m s t x y hx hy => ⟨fun dst hw => map2_stored (e := .s16) (e' := .s16) (fun (x y : BitVec 16) => x + y) vld1q_s16_spec vst1q_s16_spec (fun a b => vaddq_s16_spec a b) m s t dst x y hx hy hw,
      fun hw => update2_stored (e := .s16) (fun (x y : BitVec 16) => x + y) vld1q_s16_spec vst1q_s16_spec (fun a b => vaddq_s16_spec a b) m t s x y hx hy hw⟩
  · exact fun m s t x y hx hy => ⟨fun dst hw => map2_stored (e := .s16) (e' := .s16) (fun (x y : BitVec 16) => x - y) vld1q_s16_spec vst1q_s16_spec (fun a b => vsubq_s16_spec a b) m s t dst x y hx hy hw,
      fun hw => update2_stored (e := .s16) (fun (x y : BitVec 16) => x - y) vld1q_s16_spec vst1q_s16_spec (fun a b => vsubq_s16_spec a b) m t s x y hx hy hw⟩
  · exact fun m s t x y hx hy => ⟨fun dst hw => map2_stored (e := .s16) (e' := .s16) (fun (x y : BitVec 16) => BitVec.ofInt 16 (((x).toInt - (y).toInt) / 2)) vld1q_s16_spec vst1q_s16_spec (fun a b => vhsubq_s16_spec a b) m s t dst x y hx hy hw,
      fun hw => update2_stored (e := .s16) (fun (x y : BitVec 16) => BitVec.ofInt 16 (((x).toInt - (y).toInt) / 2)) vld1q_s16_spec vst1q_s16_spec (fun a b => vhsubq_s16_spec a b) m t s x y hx hy hw⟩
  · exact fun m s t x y hx hy => ⟨fun dst hw => map2_stored (e := .s16) (e' := .s16) (fun (x y : BitVec 16) => ssat 16 ((x).toInt - (y).toInt)) vld1q_s16_spec vst1q_s16_spec (fun a b => vqsubq_s16_spec a b) m s t dst x y hx hy hw,
      fun hw => update2_stored (e := .s16) (fun (x y : BitVec 16) => ssat 16 ((x).toInt - (y).toInt)) vld1q_s16_spec vst1q_s16_spec (fun a b => vqsubq_s16_spec a b) m t s x y hx hy hw⟩
  · exact fun m s t x y hx hy => ⟨fun dst hw => map2_stored (e := .s16) (e' := .s16) (fun (x y : BitVec 16) => x * y) vld1q_s16_spec vst1q_s16_spec (fun a b => vmulq_s16_spec a b) m s t dst x y hx hy hw,
      fun hw => update2_stored (e := .s16) (fun (x y : BitVec 16) => x * y) vld1q_s16_spec vst1q_s16_spec (fun a b => vmulq_s16_spec a b) m t s x y hx hy hw⟩
  · exact fun m s t x y hx hy => ⟨fun dst hw => map2_stored (e := .s16) (e' := .s16) (fun (x y : BitVec 16) => BitVec.ofInt 16 (min (x).toInt (y).toInt)) vld1q_s16_spec vst1q_s16_spec (fun a b => vminq_s16_spec a b) m s t dst x y hx hy hw,
      fun hw => update2_stored (e := .s16) (fun (x y : BitVec 16) => BitVec.ofInt 16 (min (x).toInt (y).toInt)) vld1q_s16_spec vst1q_s16_spec (fun a b => vminq_s16_spec a b) m t s x y hx hy hw⟩
  · exact fun m s t x y hx hy => ⟨fun dst hw => map2_stored (e := .s16) (e' := .s16) (fun (x y : BitVec 16) => BitVec.ofInt 16 (min (x).toInt (y).toInt)) vld1q_s16_spec vst1q_s16_spec (fun a b => vminq_u16_partial a b) m s t dst x y hx hy hw,
      fun hw => update2_stored (e := .s16) (fun (x y : BitVec 16) => BitVec.ofInt 16 (min (x).toInt (y).toInt)) vld1q_s16_spec vst1q_s16_spec (fun a b => vminq_u16_partial a b) m t s x y hx hy hw⟩
  · exact fun m s t x y hx hy => ⟨fun dst hw => map2_stored (e := .s16) (e' := .s16) (fun (x y : BitVec 16) => x &&& y) vld1q_s16_spec vst1q_s16_spec (fun a b => vandq_s16_spec a b) m s t dst x y hx hy hw,
      fun hw => update2_stored (e := .s16) (fun (x y : BitVec 16) => x &&& y) vld1q_s16_spec vst1q_s16_spec (fun a b => vandq_s16_spec a b) m t s x y hx hy hw⟩
  · exact fun m s t x y hx hy => ⟨fun dst hw => map2_stored (e := .s16) (e' := .s16) (fun (x y : BitVec 16) => x ||| y) vld1q_s16_spec vst1q_s16_spec (fun a b => vorrq_s16_spec a b) m s t dst x y hx hy hw,
      fun hw => update2_stored (e := .s16) (fun (x y : BitVec 16) => x ||| y) vld1q_s16_spec vst1q_s16_spec (fun a b => vorrq_s16_spec a b) m t s x y hx hy hw⟩
  · exact fun m s t x y hx hy => ⟨fun dst hw => map2_stored (e := .s16) (e' := .s16) (fun (x y : BitVec 16) => x ^^^ y) vld1q_s16_spec vst1q_s16_spec (fun a b => veorq_s16_spec a b) m s t dst x y hx hy hw,
      fun hw => update2_stored (e := .s16) (fun (x y : BitVec 16) => x ^^^ y) vld1q_s16_spec vst1q_s16_spec (fun a b => veorq_s16_spec a b) m t s x y hx hy hw⟩
example := @stream_binary_int16x8 .strict _ (.head _) 3 (demo .s16 24) (demo .s16 24) _ _ (demo_holds .s16 24) (demo_holds .s16 24)

/-- The loop over `int16x8_t` registers of any number of blocks applies the listed operation to every element. -/
theorem stream_binary_int16x8_int8x8 [Dialect] : ∀ fg ∈
      ([(vsubhn_s16, fun x y => high 8 (x - y)),
       (vrsubhn_s16, fun x y => high 8 (x - y + 128#16))] :
       List ((int16x8_t → int16x8_t → C int8x8_t) × (BitVec 16 → BitVec 16 → BitVec 8))),
    ∀ (m : Nat) (s t : Ptr .s16) (x y : Nat → BitVec 16), (∀ j < 8 * m, Holds s j (x j)) → (∀ j < 8 * m, Holds t j (y j)) →
      (∀ dst : Ptr .s8, Writable dst (8 * m) →
        ∃ p, map2 vld1q_s16 fg.1 vst1_s8 m s t dst = .ok p ∧ Stored dst (fun j : Fin (8 * m) => fg.2 (x j) (y j)) p) := by
  intro fg hfg
  simp only [List.mem_cons, List.not_mem_nil, or_false] at hfg
  rcases hfg with rfl | rfl
  · exact fun m s t x y hx hy => fun dst hw => map2_stored (e := .s16) (e' := .s8) (fun (x y : BitVec 16) => high 8 (x - y)) vld1q_s16_spec vst1_s8_spec (fun a b => vsubhn_s16_spec a b) m s t dst x y hx hy hw
  · exact fun m s t x y hx hy => fun dst hw => map2_stored (e := .s16) (e' := .s8) (fun (x y : BitVec 16) => high 8 (x - y + 128#16)) vld1q_s16_spec vst1_s8_spec (fun a b => vrsubhn_s16_spec a b) m s t dst x y hx hy hw
example := @stream_binary_int16x8_int8x8 .strict _ (.head _) 3 (demo .s16 24) (demo .s16 24) _ _ (demo_holds .s16 24) (demo_holds .s16 24)

/-- The loop over `int16x8_t` registers of any number of blocks applies the listed operation to every element. -/
theorem stream_unary_int16x8_uint8x8 : ∀ fg ∈
      ([(vqmovun_s16, fun x => usat 8 (x).toInt)] :
       List ((int16x8_t → C uint8x8_t) × (BitVec 16 → BitVec 8))),
    ∀ (m : Nat) (s : Ptr .s16) (dst : Ptr .u8) (x : Nat → BitVec 16), (∀ j < 8 * m, Holds s j (x j)) → Writable dst (8 * m) →
      ∃ p, map1 vld1q_s16 fg.1 vst1_u8 m s dst = .ok p ∧ Stored dst (fun j : Fin (8 * m) => fg.2 (x j)) p := by
  intro fg hfg
  simp only [List.mem_cons, List.not_mem_nil, or_false] at hfg
  rcases hfg with rfl
  · exact fun m s dst x hx hw => map1_stored (e := .s16) (e' := .u8) (fun (x : BitVec 16) => usat 8 (x).toInt) vld1q_s16_spec vst1_u8_spec (fun a => vqmovun_s16_spec a) m s dst x hx hw
example := stream_unary_int16x8_uint8x8 _ (.head _) 3 (demo .s16 24) (demo .u8 24) _ (demo_holds .s16 24) (demo_writable .u8 24)

/-- The loop over `int32x2_t` registers of any number of blocks applies the listed operation to every element. -/
theorem stream_unary_int32x2 : ∀ fg ∈
      ([(vmvn_s32, fun x => ~~~ (x))] :
       List ((int32x2_t → C int32x2_t) × (BitVec 32 → BitVec 32))),
    ∀ (m : Nat) (s : Ptr .s32) (dst : Ptr .s32) (x : Nat → BitVec 32), (∀ j < 2 * m, Holds s j (x j)) → Writable dst (2 * m) →
      ∃ p, map1 vld1_s32 fg.1 vst1_s32 m s dst = .ok p ∧ Stored dst (fun j : Fin (2 * m) => fg.2 (x j)) p := by
  intro fg hfg
  simp only [List.mem_cons, List.not_mem_nil, or_false] at hfg
  rcases hfg with rfl
  · exact fun m s dst x hx hw => map1_stored (e := .s32) (e' := .s32) (fun (x : BitVec 32) => ~~~ (x)) vld1_s32_spec vst1_s32_spec (fun a => vmvn_s32_spec a) m s dst x hx hw
example := stream_unary_int32x2 _ (.head _) 3 (demo .s32 6) (demo .s32 6) _ (demo_holds .s32 6) (demo_writable .s32 6)

/-- The loop over `int32x2_t` registers of any number of blocks applies the listed operation to every element. -/
theorem stream_binary_int32x2 [Dialect] : ∀ fg ∈
      ([(vqsub_s32, fun x y => ssat 32 ((x).toInt - (y).toInt)),
       (vand_s32, fun x y => x &&& y),
       (vorr_s32, fun x y => x ||| y),
       (veor_s32, fun x y => x ^^^ y)] :
       List ((int32x2_t → int32x2_t → C int32x2_t) × (BitVec 32 → BitVec 32 → BitVec 32))),
    ∀ (m : Nat) (s t : Ptr .s32) (x y : Nat → BitVec 32), (∀ j < 2 * m, Holds s j (x j)) → (∀ j < 2 * m, Holds t j (y j)) →
      (∀ dst : Ptr .s32, Writable dst (2 * m) →
        ∃ p, map2 vld1_s32 fg.1 vst1_s32 m s t dst = .ok p ∧ Stored dst (fun j : Fin (2 * m) => fg.2 (x j) (y j)) p) ∧
      (Writable s (2 * m) →
        ∃ p, update2 vld1_s32 fg.1 vst1_s32 m t s = .ok p ∧ Stored s (fun j : Fin (2 * m) => fg.2 (x j) (y j)) p) := by
  intro fg hfg
  simp only [List.mem_cons, List.not_mem_nil, or_false] at hfg
  rcases hfg with rfl | rfl | rfl | rfl
  · exact fun m s t x y hx hy => ⟨fun dst hw => map2_stored (e := .s32) (e' := .s32) (fun (x y : BitVec 32) => ssat 32 ((x).toInt - (y).toInt)) vld1_s32_spec vst1_s32_spec (fun a b => vqsub_s32_spec a b) m s t dst x y hx hy hw,
      fun hw => update2_stored (e := .s32) (fun (x y : BitVec 32) => ssat 32 ((x).toInt - (y).toInt)) vld1_s32_spec vst1_s32_spec (fun a b => vqsub_s32_spec a b) m t s x y hx hy hw⟩
  · exact fun m s t x y hx hy => ⟨fun dst hw => map2_stored (e := .s32) (e' := .s32) (fun (x y : BitVec 32) => x &&& y) vld1_s32_spec vst1_s32_spec (fun a b => vand_s32_spec a b) m s t dst x y hx hy hw,
      fun hw => update2_stored (e := .s32) (fun (x y : BitVec 32) => x &&& y) vld1_s32_spec vst1_s32_spec (fun a b => vand_s32_spec a b) m t s x y hx hy hw⟩
  · exact fun m s t x y hx hy => ⟨fun dst hw => map2_stored (e := .s32) (e' := .s32) (fun (x y : BitVec 32) => x ||| y) vld1_s32_spec vst1_s32_spec (fun a b => vorr_s32_spec a b) m s t dst x y hx hy hw,
      fun hw => update2_stored (e := .s32) (fun (x y : BitVec 32) => x ||| y) vld1_s32_spec vst1_s32_spec (fun a b => vorr_s32_spec a b) m t s x y hx hy hw⟩
  · exact fun m s t x y hx hy => ⟨fun dst hw => map2_stored (e := .s32) (e' := .s32) (fun (x y : BitVec 32) => x ^^^ y) vld1_s32_spec vst1_s32_spec (fun a b => veor_s32_spec a b) m s t dst x y hx hy hw,
      fun hw => update2_stored (e := .s32) (fun (x y : BitVec 32) => x ^^^ y) vld1_s32_spec vst1_s32_spec (fun a b => veor_s32_spec a b) m t s x y hx hy hw⟩
example := @stream_binary_int32x2 .strict _ (.head _) 3 (demo .s32 6) (demo .s32 6) _ _ (demo_holds .s32 6) (demo_holds .s32 6)

/-- The loop over `int32x2_t` registers of any number of blocks applies the listed operation to every element, and is undefined if some element overflows. -/
theorem stream_binary_int32x2_checked [Dialect] : ∀ fg ∈
      ([(vadd_s32, fun x y => NoOverflow 32 ((x).toInt + (y).toInt), fun x y => x + y),
       (vsub_s32, fun x y => NoOverflow 32 ((x).toInt - (y).toInt), fun x y => x - y),
       (vhsub_s32, fun x y => NoOverflow 32 ((x).toInt - (y).toInt), fun x y => (x - y).sshiftRight 1),
       (vmul_s32, fun x y => NoOverflow 32 ((x).toInt * (y).toInt), fun x y => x * y)] :
       List ((int32x2_t → int32x2_t → C int32x2_t) × (BitVec 32 → BitVec 32 → Prop) × (BitVec 32 → BitVec 32 → BitVec 32))),
    ∀ (m : Nat) (s t : Ptr .s32) (x y : Nat → BitVec 32), (∀ j < 2 * m, Holds s j (x j)) → (∀ j < 2 * m, Holds t j (y j)) →
      (∀ dst : Ptr .s32, Writable dst (2 * m) →
        Maps dst (2 * m) (fun j => fg.2.1 (x j) (y j)) (fun j => fg.2.2 (x j) (y j)) (map2 vld1_s32 fg.1 vst1_s32 m s t dst)) ∧
      (Writable s (2 * m) →
        Maps s (2 * m) (fun j => fg.2.1 (x j) (y j)) (fun j => fg.2.2 (x j) (y j)) (update2 vld1_s32 fg.1 vst1_s32 m t s)) := by
  intro fg hfg
  simp only [List.mem_cons, List.not_mem_nil, or_false] at hfg
  rcases hfg with rfl | rfl | rfl | rfl
  · exact fun m s t x y hx hy => ⟨fun dst hw => map2_maps (e := .s32) (e' := .s32) (fun (x y : BitVec 32) => NoOverflow 32 ((x).toInt + (y).toInt)) (fun (x y : BitVec 32) => x + y) vld1_s32_spec vst1_s32_spec (fun a b => by dsimp only; rw [vadd_s32_partial]) m s t dst x y hx hy hw,
      fun hw => update2_maps (e := .s32) (fun (x y : BitVec 32) => NoOverflow 32 ((x).toInt + (y).toInt)) (fun (x y : BitVec 32) => x + y) vld1_s32_spec vst1_s32_spec (fun a b => by dsimp only; rw [vadd_s32_partial]) m t s x y hx hy hw⟩
  · exact fun m s t x y hx hy => ⟨fun dst hw => map2_maps (e := .s32) (e' := .s32) (fun (x y : BitVec 32) => NoOverflow 32 ((x).toInt - (y).toInt)) (fun (x y : BitVec 32) => x - y) vld1_s32_spec vst1_s32_spec (fun a b => by dsimp only; rw [vsub_s32_partial]) m s t dst x y hx hy hw,
      fun hw => update2_maps (e := .s32) (fun (x y : BitVec 32) => NoOverflow 32 ((x).toInt - (y).toInt)) (fun (x y : BitVec 32) => x - y) vld1_s32_spec vst1_s32_spec (fun a b => by dsimp only; rw [vsub_s32_partial]) m t s x y hx hy hw⟩
  · exact fun m s t x y hx hy => ⟨fun dst hw => map2_maps (e := .s32) (e' := .s32) (fun (x y : BitVec 32) => NoOverflow 32 ((x).toInt - (y).toInt)) (fun (x y : BitVec 32) => (x - y).sshiftRight 1) vld1_s32_spec vst1_s32_spec (fun a b => by dsimp only; rw [vhsub_s32_partial]) m s t dst x y hx hy hw,
      fun hw => update2_maps (e := .s32) (fun (x y : BitVec 32) => NoOverflow 32 ((x).toInt - (y).toInt)) (fun (x y : BitVec 32) => (x - y).sshiftRight 1) vld1_s32_spec vst1_s32_spec (fun a b => by dsimp only; rw [vhsub_s32_partial]) m t s x y hx hy hw⟩
  · exact fun m s t x y hx hy => ⟨fun dst hw => map2_maps (e := .s32) (e' := .s32) (fun (x y : BitVec 32) => NoOverflow 32 ((x).toInt * (y).toInt)) (fun (x y : BitVec 32) => x * y) vld1_s32_spec vst1_s32_spec (fun a b => by dsimp only; rw [vmul_s32_partial]) m s t dst x y hx hy hw,
      fun hw => update2_maps (e := .s32) (fun (x y : BitVec 32) => NoOverflow 32 ((x).toInt * (y).toInt)) (fun (x y : BitVec 32) => x * y) vld1_s32_spec vst1_s32_spec (fun a b => by dsimp only; rw [vmul_s32_partial]) m t s x y hx hy hw⟩
example := @stream_binary_int32x2_checked .strict _ (.head _) 3 (demo .s32 6) (demo .s32 6) _ _ (demo_holds .s32 6) (demo_holds .s32 6)

/-- The loop over `int32x2_t` registers of any number of blocks applies the listed operation to every element. -/
theorem stream_unary_int32x2_int64x2 : ∀ fg ∈
      ([(vmovl_s32, fun x => (x).signExtend 64)] :
       List ((int32x2_t → C int64x2_t) × (BitVec 32 → BitVec 64))),
    ∀ (m : Nat) (s : Ptr .s32) (dst : Ptr .s64) (x : Nat → BitVec 32), (∀ j < 2 * m, Holds s j (x j)) → Writable dst (2 * m) →
      ∃ p, map1 vld1_s32 fg.1 vst1q_s64 m s dst = .ok p ∧ Stored dst (fun j : Fin (2 * m) => fg.2 (x j)) p := by
  intro fg hfg
  simp only [List.mem_cons, List.not_mem_nil, or_false] at hfg
  rcases hfg with rfl
  · exact fun m s dst x hx hw => map1_stored (e := .s32) (e' := .s64) (fun (x : BitVec 32) => (x).signExtend 64) vld1_s32_spec vst1q_s64_spec (fun a => vmovl_s32_spec a) m s dst x hx hw
example := stream_unary_int32x2_int64x2 _ (.head _) 3 (demo .s32 6) (demo .s64 6) _ (demo_holds .s32 6) (demo_writable .s64 6)

/-- The loop over `int32x2_t` registers of any number of blocks applies the listed operation to every element, and is undefined if some element overflows. -/
theorem stream_binary_int32x2_int64x2_checked [Dialect] : ∀ fg ∈
      ([(vmull_s32, fun x y => NoOverflow 32 ((x).toInt * (y).toInt), fun x y => (x * y).signExtend 64)] :
       List ((int32x2_t → int32x2_t → C int64x2_t) × (BitVec 32 → BitVec 32 → Prop) × (BitVec 32 → BitVec 32 → BitVec 64))),
    ∀ (m : Nat) (s t : Ptr .s32) (x y : Nat → BitVec 32), (∀ j < 2 * m, Holds s j (x j)) → (∀ j < 2 * m, Holds t j (y j)) →
      (∀ dst : Ptr .s64, Writable dst (2 * m) →
        Maps dst (2 * m) (fun j => fg.2.1 (x j) (y j)) (fun j => fg.2.2 (x j) (y j)) (map2 vld1_s32 fg.1 vst1q_s64 m s t dst)) := by
  intro fg hfg
  simp only [List.mem_cons, List.not_mem_nil, or_false] at hfg
  rcases hfg with rfl
  · exact fun m s t x y hx hy => fun dst hw => map2_maps (e := .s32) (e' := .s64) (fun (x y : BitVec 32) => NoOverflow 32 ((x).toInt * (y).toInt)) (fun (x y : BitVec 32) => (x * y).signExtend 64) vld1_s32_spec vst1q_s64_spec (fun a b => by dsimp only; rw [vmull_s32_partial]) m s t dst x y hx hy hw
example := @stream_binary_int32x2_int64x2_checked .strict _ (.head _) 3 (demo .s32 6) (demo .s32 6) _ _ (demo_holds .s32 6) (demo_holds .s32 6)

/-- The loop over `int32x4_t` registers of any number of blocks applies the listed operation to every element. -/
theorem stream_unary_int32x4_float32x4 : ∀ fg ∈
      ([(vcvtq_f32_s32, fun x => BitVec.ofNat 32 (Fmt.b32.ofInt (x).toInt))] :
       List ((int32x4_t → C float32x4_t) × (BitVec 32 → BitVec 32))),
    ∀ (m : Nat) (s : Ptr .s32) (dst : Ptr .f32) (x : Nat → BitVec 32), (∀ j < 4 * m, Holds s j (x j)) → Writable dst (4 * m) →
      ∃ p, map1 vld1q_s32 fg.1 vst1q_f32 m s dst = .ok p ∧ Stored dst (fun j : Fin (4 * m) => fg.2 (x j)) p := by
  intro fg hfg
  simp only [List.mem_cons, List.not_mem_nil, or_false] at hfg
  rcases hfg with rfl
  · exact fun m s dst x hx hw => map1_stored (e := .s32) (e' := .f32) (fun (x : BitVec 32) => BitVec.ofNat 32 (Fmt.b32.ofInt (x).toInt)) vld1q_s32_spec vst1q_f32_spec (fun a => vcvtq_f32_s32_eval a) m s dst x hx hw
example := stream_unary_int32x4_float32x4 _ (.head _) 3 (demo .s32 12) (demo .f32 12) _ (demo_holds .s32 12) (demo_writable .f32 12)

/-- The loop over `int32x4_t` registers of any number of blocks applies the listed operation to every element. -/
theorem stream_unary_int32x4_int16x4 : ∀ fg ∈
      ([(vmovn_s32, fun x => (x).setWidth 16)] :
       List ((int32x4_t → C int16x4_t) × (BitVec 32 → BitVec 16))),
    ∀ (m : Nat) (s : Ptr .s32) (dst : Ptr .s16) (x : Nat → BitVec 32), (∀ j < 4 * m, Holds s j (x j)) → Writable dst (4 * m) →
      ∃ p, map1 vld1q_s32 fg.1 vst1_s16 m s dst = .ok p ∧ Stored dst (fun j : Fin (4 * m) => fg.2 (x j)) p := by
  intro fg hfg
  simp only [List.mem_cons, List.not_mem_nil, or_false] at hfg
  rcases hfg with rfl
  · exact fun m s dst x hx hw => map1_stored (e := .s32) (e' := .s16) (fun (x : BitVec 32) => (x).setWidth 16) vld1q_s32_spec vst1_s16_spec (fun a => vmovn_s32_spec a) m s dst x hx hw
example := stream_unary_int32x4_int16x4 _ (.head _) 3 (demo .s32 12) (demo .s16 12) _ (demo_holds .s32 12) (demo_writable .s16 12)

/-- The loop over `int32x4_t` registers of any number of blocks applies the listed operation to every element, and is undefined if some element overflows. -/
theorem stream_binary_int32x4_int16x4_checked [Dialect] : ∀ fg ∈
      ([(vsubn_s32, fun x y => NoOverflow 32 ((x).toInt - (y).toInt), fun x y => ((x - y).sshiftRight 8).setWidth 16),
       (vrsubhn_s32, fun x y => NoOverflow 32 ((x).toInt - (y).toInt) ∧ NoOverflow 32 ((x).toInt - (y).toInt + 32768), fun x y => high 16 (x - y + 32768#32))] :
       List ((int32x4_t → int32x4_t → C int16x4_t) × (BitVec 32 → BitVec 32 → Prop) × (BitVec 32 → BitVec 32 → BitVec 16))),
    ∀ (m : Nat) (s t : Ptr .s32) (x y : Nat → BitVec 32), (∀ j < 4 * m, Holds s j (x j)) → (∀ j < 4 * m, Holds t j (y j)) →
      (∀ dst : Ptr .s16, Writable dst (4 * m) →
        Maps dst (4 * m) (fun j => fg.2.1 (x j) (y j)) (fun j => fg.2.2 (x j) (y j)) (map2 vld1q_s32 fg.1 vst1_s16 m s t dst)) := by
  intro fg hfg
  simp only [List.mem_cons, List.not_mem_nil, or_false] at hfg
  rcases hfg with rfl | rfl
  · exact fun m s t x y hx hy => fun dst hw => map2_maps (e := .s32) (e' := .s16) (fun (x y : BitVec 32) => NoOverflow 32 ((x).toInt - (y).toInt)) (fun (x y : BitVec 32) => ((x - y).sshiftRight 8).setWidth 16) vld1q_s32_spec vst1_s16_spec (fun a b => by dsimp only; rw [vsubn_s32_partial]) m s t dst x y hx hy hw
  · exact fun m s t x y hx hy => fun dst hw => map2_maps (e := .s32) (e' := .s16) (fun (x y : BitVec 32) => NoOverflow 32 ((x).toInt - (y).toInt) ∧ NoOverflow 32 ((x).toInt - (y).toInt + 32768)) (fun (x y : BitVec 32) => high 16 (x - y + 32768#32)) vld1q_s32_spec vst1_s16_spec (fun a b => by dsimp only; rw [vrsubhn_s32_partial]) m s t dst x y hx hy hw
example := @stream_binary_int32x4_int16x4_checked .strict _ (.head _) 3 (demo .s32 12) (demo .s32 12) _ _ (demo_holds .s32 12) (demo_holds .s32 12)

/-- The loop over `int32x4_t` registers of any number of blocks applies the listed operation to every element. -/
theorem stream_unary_int32x4 : ∀ fg ∈
      ([(vmvnq_s32, fun x => ~~~ (x))] :
       List ((int32x4_t → C int32x4_t) × (BitVec 32 → BitVec 32))),
    ∀ (m : Nat) (s : Ptr .s32) (dst : Ptr .s32) (x : Nat → BitVec 32), (∀ j < 4 * m, Holds s j (x j)) → Writable dst (4 * m) →
      ∃ p, map1 vld1q_s32 fg.1 vst1q_s32 m s dst = .ok p ∧ Stored dst (fun j : Fin (4 * m) => fg.2 (x j)) p := by
  intro fg hfg
  simp only [List.mem_cons, List.not_mem_nil, or_false] at hfg
  rcases hfg with rfl
  · exact fun m s dst x hx hw => map1_stored (e := .s32) (e' := .s32) (fun (x : BitVec 32) => ~~~ (x)) vld1q_s32_spec vst1q_s32_spec (fun a => vmvnq_s32_spec a) m s dst x hx hw
example := stream_unary_int32x4 _ (.head _) 3 (demo .s32 12) (demo .s32 12) _ (demo_holds .s32 12) (demo_writable .s32 12)

/-- The loop over `int32x4_t` registers of any number of blocks applies the listed operation to every element. -/
theorem stream_binary_int32x4 [Dialect] : ∀ fg ∈
      ([(vmaxq_s32, fun x y => BitVec.ofInt 32 (max (x).toInt (y).toInt)),
       (vmaxq_u32, fun x y => BitVec.ofInt 32 (max (x).toInt (y).toInt)),
       (vqsubq_s32, fun x y => ssat 32 ((x).toInt - (y).toInt)),
       (vminq_s32, fun x y => BitVec.ofInt 32 (min (x).toInt (y).toInt)),
       (vminq_u32, fun x y => BitVec.ofInt 32 (min (x).toInt (y).toInt)),
       (vandq_s32, fun x y => x &&& y),
       (vorrq_s32, fun x y => x ||| y),
       (veorq_s32, fun x y => x ^^^ y)] :
       List ((int32x4_t → int32x4_t → C int32x4_t) × (BitVec 32 → BitVec 32 → BitVec 32))),
    ∀ (m : Nat) (s t : Ptr .s32) (x y : Nat → BitVec 32), (∀ j < 4 * m, Holds s j (x j)) → (∀ j < 4 * m, Holds t j (y j)) →
      (∀ dst : Ptr .s32, Writable dst (4 * m) →
        ∃ p, map2 vld1q_s32 fg.1 vst1q_s32 m s t dst = .ok p ∧ Stored dst (fun j : Fin (4 * m) => fg.2 (x j) (y j)) p) ∧
      (Writable s (4 * m) →
        ∃ p, update2 vld1q_s32 fg.1 vst1q_s32 m t s = .ok p ∧ Stored s (fun j : Fin (4 * m) => fg.2 (x j) (y j)) p) := by
  intro fg hfg
  simp only [List.mem_cons, List.not_mem_nil, or_false] at hfg
  rcases hfg with rfl | rfl | rfl | rfl | rfl | rfl | rfl | rfl
  · exact fun m s t x y hx hy => ⟨fun dst hw => map2_stored (e := .s32) (e' := .s32) (fun (x y : BitVec 32) => BitVec.ofInt 32 (max (x).toInt (y).toInt)) vld1q_s32_spec vst1q_s32_spec (fun a b => vmaxq_s32_spec a b) m s t dst x y hx hy hw,
      fun hw => update2_stored (e := .s32) (fun (x y : BitVec 32) => BitVec.ofInt 32 (max (x).toInt (y).toInt)) vld1q_s32_spec vst1q_s32_spec (fun a b => vmaxq_s32_spec a b) m t s x y hx hy hw⟩
  · exact fun m s t x y hx hy => ⟨fun dst hw => map2_stored (e := .s32) (e' := .s32) (fun (x y : BitVec 32) => BitVec.ofInt 32 (max (x).toInt (y).toInt)) vld1q_s32_spec vst1q_s32_spec (fun a b => vmaxq_u32_partial a b) m s t dst x y hx hy hw,
      fun hw => update2_stored (e := .s32) (fun (x y : BitVec 32) => BitVec.ofInt 32 (max (x).toInt (y).toInt)) vld1q_s32_spec vst1q_s32_spec (fun a b => vmaxq_u32_partial a b) m t s x y hx hy hw⟩
  · exact fun m s t x y hx hy => ⟨fun dst hw => map2_stored (e := .s32) (e' := .s32) (fun (x y : BitVec 32) => ssat 32 ((x).toInt - (y).toInt)) vld1q_s32_spec vst1q_s32_spec (fun a b => vqsubq_s32_spec a b) m s t dst x y hx hy hw,
      fun hw => update2_stored (e := .s32) (fun (x y : BitVec 32) => ssat 32 ((x).toInt - (y).toInt)) vld1q_s32_spec vst1q_s32_spec (fun a b => vqsubq_s32_spec a b) m t s x y hx hy hw⟩
  · exact fun m s t x y hx hy => ⟨fun dst hw => map2_stored (e := .s32) (e' := .s32) (fun (x y : BitVec 32) => BitVec.ofInt 32 (min (x).toInt (y).toInt)) vld1q_s32_spec vst1q_s32_spec (fun a b => vminq_s32_spec a b) m s t dst x y hx hy hw,
      fun hw => update2_stored (e := .s32) (fun (x y : BitVec 32) => BitVec.ofInt 32 (min (x).toInt (y).toInt)) vld1q_s32_spec vst1q_s32_spec (fun a b => vminq_s32_spec a b) m t s x y hx hy hw⟩
  · exact fun m s t x y hx hy => ⟨fun dst hw => map2_stored (e := .s32) (e' := .s32) (fun (x y : BitVec 32) => BitVec.ofInt 32 (min (x).toInt (y).toInt)) vld1q_s32_spec vst1q_s32_spec (fun a b => vminq_u32_partial a b) m s t dst x y hx hy hw,
      fun hw => update2_stored (e := .s32) (fun (x y : BitVec 32) => BitVec.ofInt 32 (min (x).toInt (y).toInt)) vld1q_s32_spec vst1q_s32_spec (fun a b => vminq_u32_partial a b) m t s x y hx hy hw⟩
  · exact fun m s t x y hx hy => ⟨fun dst hw => map2_stored (e := .s32) (e' := .s32) (fun (x y : BitVec 32) => x &&& y) vld1q_s32_spec vst1q_s32_spec (fun a b => vandq_s32_spec a b) m s t dst x y hx hy hw,
      fun hw => update2_stored (e := .s32) (fun (x y : BitVec 32) => x &&& y) vld1q_s32_spec vst1q_s32_spec (fun a b => vandq_s32_spec a b) m t s x y hx hy hw⟩
  · exact fun m s t x y hx hy => ⟨fun dst hw => map2_stored (e := .s32) (e' := .s32) (fun (x y : BitVec 32) => x ||| y) vld1q_s32_spec vst1q_s32_spec (fun a b => vorrq_s32_spec a b) m s t dst x y hx hy hw,
      fun hw => update2_stored (e := .s32) (fun (x y : BitVec 32) => x ||| y) vld1q_s32_spec vst1q_s32_spec (fun a b => vorrq_s32_spec a b) m t s x y hx hy hw⟩
  · exact fun m s t x y hx hy => ⟨fun dst hw => map2_stored (e := .s32) (e' := .s32) (fun (x y : BitVec 32) => x ^^^ y) vld1q_s32_spec vst1q_s32_spec (fun a b => veorq_s32_spec a b) m s t dst x y hx hy hw,
      fun hw => update2_stored (e := .s32) (fun (x y : BitVec 32) => x ^^^ y) vld1q_s32_spec vst1q_s32_spec (fun a b => veorq_s32_spec a b) m t s x y hx hy hw⟩
example := @stream_binary_int32x4 .strict _ (.head _) 3 (demo .s32 12) (demo .s32 12) _ _ (demo_holds .s32 12) (demo_holds .s32 12)

/-- The loop over `int32x4_t` registers of any number of blocks applies the listed operation to every element, and is undefined if some element overflows. -/
theorem stream_binary_int32x4_checked [Dialect] : ∀ fg ∈
      ([(vaddq_s32, fun x y => NoOverflow 32 ((x).toInt + (y).toInt), fun x y => x + y),
       (vsubq_s32, fun x y => NoOverflow 32 ((x).toInt - (y).toInt), fun x y => x - y),
       (vhsubq_s32, fun x y => NoOverflow 32 ((x).toInt - (y).toInt), fun x y => (x - y).sshiftRight 1),
       (vmulq_s32, fun x y => NoOverflow 32 ((x).toInt * (y).toInt), fun x y => x * y)] :
       List ((int32x4_t → int32x4_t → C int32x4_t) × (BitVec 32 → BitVec 32 → Prop) × (BitVec 32 → BitVec 32 → BitVec 32))),
    ∀ (m : Nat) (s t : Ptr .s32) (x y : Nat → BitVec 32), (∀ j < 4 * m, Holds s j (x j)) → (∀ j < 4 * m, Holds t j (y j)) →
      (∀ dst : Ptr .s32, Writable dst (4 * m) →
        Maps dst (4 * m) (fun j => fg.2.1 (x j) (y j)) (fun j => fg.2.2 (x j) (y j)) (map2 vld1q_s32 fg.1 vst1q_s32 m s t dst)) ∧
      (Writable s (4 * m) →
        Maps s (4 * m) (fun j => fg.2.1 (x j) (y j)) (fun j => fg.2.2 (x j) (y j)) (update2 vld1q_s32 fg.1 vst1q_s32 m t s)) := by
  intro fg hfg
  simp only [List.mem_cons, List.not_mem_nil, or_false] at hfg
  rcases hfg with rfl | rfl | rfl | rfl
  · exact fun m s t x y hx hy => ⟨fun dst hw => map2_maps (e := .s32) (e' := .s32) (fun (x y : BitVec 32) => NoOverflow 32 ((x).toInt + (y).toInt)) (fun (x y : BitVec 32) => x + y) vld1q_s32_spec vst1q_s32_spec (fun a b => by dsimp only; rw [vaddq_s32_partial]) m s t dst x y hx hy hw,
      fun hw => update2_maps (e := .s32) (fun (x y : BitVec 32) => NoOverflow 32 ((x).toInt + (y).toInt)) (fun (x y : BitVec 32) => x + y) vld1q_s32_spec vst1q_s32_spec (fun a b => by dsimp only; rw [vaddq_s32_partial]) m t s x y hx hy hw⟩
  · exact fun m s t x y hx hy => ⟨fun dst hw => map2_maps (e := .s32) (e' := .s32) (fun (x y : BitVec 32) => NoOverflow 32 ((x).toInt - (y).toInt)) (fun (x y : BitVec 32) => x - y) vld1q_s32_spec vst1q_s32_spec (fun a b => by dsimp only; rw [vsubq_s32_partial]) m s t dst x y hx hy hw,
      fun hw => update2_maps (e := .s32) (fun (x y : BitVec 32) => NoOverflow 32 ((x).toInt - (y).toInt)) (fun (x y : BitVec 32) => x - y) vld1q_s32_spec vst1q_s32_spec (fun a b => by dsimp only; rw [vsubq_s32_partial]) m t s x y hx hy hw⟩
  · exact fun m s t x y hx hy => ⟨fun dst hw => map2_maps (e := .s32) (e' := .s32) (fun (x y : BitVec 32) => NoOverflow 32 ((x).toInt - (y).toInt)) (fun (x y : BitVec 32) => (x - y).sshiftRight 1) vld1q_s32_spec vst1q_s32_spec (fun a b => by dsimp only; rw [vhsubq_s32_partial]) m s t dst x y hx hy hw,
      fun hw => update2_maps (e := .s32) (fun (x y : BitVec 32) => NoOverflow 32 ((x).toInt - (y).toInt)) (fun (x y : BitVec 32) => (x - y).sshiftRight 1) vld1q_s32_spec vst1q_s32_spec (fun a b => by dsimp only; rw [vhsubq_s32_partial]) m t s x y hx hy hw⟩
  · exact fun m s t x y hx hy => ⟨fun dst hw => map2_maps (e := .s32) (e' := .s32) (fun (x y : BitVec 32) => NoOverflow 32 ((x).toInt * (y).toInt)) (fun (x y : BitVec 32) => x * y) vld1q_s32_spec vst1q_s32_spec (fun a b => by dsimp only; rw [vmulq_s32_partial]) m s t dst x y hx hy hw,
      fun hw => update2_maps (e := .s32) (fun (x y : BitVec 32) => NoOverflow 32 ((x).toInt * (y).toInt)) (fun (x y : BitVec 32) => x * y) vld1q_s32_spec vst1q_s32_spec (fun a b => by dsimp only; rw [vmulq_s32_partial]) m t s x y hx hy hw⟩
example := @stream_binary_int32x4_checked .strict _ (.head _) 3 (demo .s32 12) (demo .s32 12) _ _ (demo_holds .s32 12) (demo_holds .s32 12)

/-- The loop over `int64x1_t` registers of any number of blocks applies the listed operation to every element. -/
theorem stream_binary_int64x1 : ∀ fg ∈
      ([(vand_s64, fun x y => x &&& y),
       (vorr_s64, fun x y => x ||| y),
       (veor_s64, fun x y => x ^^^ y)] :
       List ((int64x1_t → int64x1_t → C int64x1_t) × (BitVec 64 → BitVec 64 → BitVec 64))),
    ∀ (m : Nat) (s t : Ptr .s64) (x y : Nat → BitVec 64), (∀ j < 1 * m, Holds s j (x j)) → (∀ j < 1 * m, Holds t j (y j)) →
      (∀ dst : Ptr .s64, Writable dst (1 * m) →
        ∃ p, map2 vld1_s64 fg.1 vst1_s64 m s t dst = .ok p ∧ Stored dst (fun j : Fin (1 * m) => fg.2 (x j) (y j)) p) ∧
      (Writable s (1 * m) →
        ∃ p, update2 vld1_s64 fg.1 vst1_s64 m t s = .ok p ∧ Stored s (fun j : Fin (1 * m) => fg.2 (x j) (y j)) p) := by
  intro fg hfg
  simp only [List.mem_cons, List.not_mem_nil, or_false] at hfg
  rcases hfg with rfl | rfl | rfl
  · exact fun m s t x y hx hy => ⟨fun dst hw => map2_stored (e := .s64) (e' := .s64) (fun (x y : BitVec 64) => x &&& y) vld1_s64_spec vst1_s64_spec (fun a b => vand_s64_spec a b) m s t dst x y hx hy hw,
      fun hw => update2_stored (e := .s64) (fun (x y : BitVec 64) => x &&& y) vld1_s64_spec vst1_s64_spec (fun a b => vand_s64_spec a b) m t s x y hx hy hw⟩
  · exact fun m s t x y hx hy => ⟨fun dst hw => map2_stored (e := .s64) (e' := .s64) (fun (x y : BitVec 64) => x ||| y) vld1_s64_spec vst1_s64_spec (fun a b => vorr_s64_spec a b) m s t dst x y hx hy hw,
      fun hw => update2_stored (e := .s64) (fun (x y : BitVec 64) => x ||| y) vld1_s64_spec vst1_s64_spec (fun a b => vorr_s64_spec a b) m t s x y hx hy hw⟩
  · exact fun m s t x y hx hy => ⟨fun dst hw => map2_stored (e := .s64) (e' := .s64) (fun (x y : BitVec 64) => x ^^^ y) vld1_s64_spec vst1_s64_spec (fun a b => veor_s64_spec a b) m s t dst x y hx hy hw,
      fun hw => update2_stored (e := .s64) (fun (x y : BitVec 64) => x ^^^ y) vld1_s64_spec vst1_s64_spec (fun a b => veor_s64_spec a b) m t s x y hx hy hw⟩
example := stream_binary_int64x1 _ (.head _) 3 (demo .s64 3) (demo .s64 3) _ _ (demo_holds .s64 3) (demo_holds .s64 3)

/-- The loop over `int64x1_t` registers of any number of blocks applies the listed operation to every element, and is undefined if some element overflows. -/
theorem stream_binary_int64x1_checked [Dialect] : ∀ fg ∈
      ([(vadd_s64, fun x y => NoOverflow 64 ((x).toInt + (y).toInt), fun x y => x + y),
       (vsub_s64, fun x y => NoOverflow 64 ((x).toInt - (y).toInt), fun x y => x - y)] :
       List ((int64x1_t → int64x1_t → C int64x1_t) × (BitVec 64 → BitVec 64 → Prop) × (BitVec 64 → BitVec 64 → BitVec 64))),
    ∀ (m : Nat) (s t : Ptr .s64) (x y : Nat → BitVec 64), (∀ j < 1 * m, Holds s j (x j)) → (∀ j < 1 * m, Holds t j (y j)) →
      (∀ dst : Ptr .s64, Writable dst (1 * m) →
        Maps dst (1 * m) (fun j => fg.2.1 (x j) (y j)) (fun j => fg.2.2 (x j) (y j)) (map2 vld1_s64 fg.1 vst1_s64 m s t dst)) ∧
      (Writable s (1 * m) →
        Maps s (1 * m) (fun j => fg.2.1 (x j) (y j)) (fun j => fg.2.2 (x j) (y j)) (update2 vld1_s64 fg.1 vst1_s64 m t s)) := by
  intro fg hfg
  simp only [List.mem_cons, List.not_mem_nil, or_false] at hfg
  rcases hfg with rfl | rfl
  · exact fun m s t x y hx hy => ⟨fun dst hw => map2_maps (e := .s64) (e' := .s64) (fun (x y : BitVec 64) => NoOverflow 64 ((x).toInt + (y).toInt)) (fun (x y : BitVec 64) => x + y) vld1_s64_spec vst1_s64_spec (fun a b => by dsimp only; rw [vadd_s64_partial]) m s t dst x y hx hy hw,
      fun hw => update2_maps (e := .s64) (fun (x y : BitVec 64) => NoOverflow 64 ((x).toInt + (y).toInt)) (fun (x y : BitVec 64) => x + y) vld1_s64_spec vst1_s64_spec (fun a b => by dsimp only; rw [vadd_s64_partial]) m t s x y hx hy hw⟩
  · exact fun m s t x y hx hy => ⟨fun dst hw => map2_maps (e := .s64) (e' := .s64) (fun (x y : BitVec 64) => NoOverflow 64 ((x).toInt - (y).toInt)) (fun (x y : BitVec 64) => x - y) vld1_s64_spec vst1_s64_spec (fun a b => by dsimp only; rw [vsub_s64_partial]) m s t dst x y hx hy hw,
      fun hw => update2_maps (e := .s64) (fun (x y : BitVec 64) => NoOverflow 64 ((x).toInt - (y).toInt)) (fun (x y : BitVec 64) => x - y) vld1_s64_spec vst1_s64_spec (fun a b => by dsimp only; rw [vsub_s64_partial]) m t s x y hx hy hw⟩
example := @stream_binary_int64x1_checked .strict _ (.head _) 3 (demo .s64 3) (demo .s64 3) _ _ (demo_holds .s64 3) (demo_holds .s64 3)

/-- The loop over `int64x2_t` registers of any number of blocks applies the listed operation to every element, and is undefined if some element overflows. -/
theorem stream_binary_int64x2_int32x2_checked [Dialect] : ∀ fg ∈
      ([(vsubn_s64, fun x y => NoOverflow 64 ((x).toInt - (y).toInt), fun x y => ((x - y).sshiftRight 8).setWidth 32),
       (vrsubhn_s64, fun x y => NoOverflow 64 ((x).toInt - (y).toInt) ∧ NoOverflow 64 ((x).toInt - (y).toInt + (-2147483648)), fun x y => high 32 (x - y + 18446744071562067968#64))] :
       List ((int64x2_t → int64x2_t → C int32x2_t) × (BitVec 64 → BitVec 64 → Prop) × (BitVec 64 → BitVec 64 → BitVec 32))),
    ∀ (m : Nat) (s t : Ptr .s64) (x y : Nat → BitVec 64), (∀ j < 2 * m, Holds s j (x j)) → (∀ j < 2 * m, Holds t j (y j)) →
      (∀ dst : Ptr .s32, Writable dst (2 * m) →
        Maps dst (2 * m) (fun j => fg.2.1 (x j) (y j)) (fun j => fg.2.2 (x j) (y j)) (map2 vld1q_s64 fg.1 vst1_s32 m s t dst)) := by
  intro fg hfg
  simp only [List.mem_cons, List.not_mem_nil, or_false] at hfg
  rcases hfg with rfl | rfl
  · exact fun m s t x y hx hy => fun dst hw => map2_maps (e := .s64) (e' := .s32) (fun (x y : BitVec 64) => NoOverflow 64 ((x).toInt - (y).toInt)) (fun (x y : BitVec 64) => ((x - y).sshiftRight 8).setWidth 32) vld1q_s64_spec vst1_s32_spec (fun a b => by dsimp only; rw [vsubn_s64_partial]) m s t dst x y hx hy hw
  · exact fun m s t x y hx hy => fun dst hw => map2_maps (e := .s64) (e' := .s32) (fun (x y : BitVec 64) => NoOverflow 64 ((x).toInt - (y).toInt) ∧ NoOverflow 64 ((x).toInt - (y).toInt + (-2147483648))) (fun (x y : BitVec 64) => high 32 (x - y + 18446744071562067968#64)) vld1q_s64_spec vst1_s32_spec (fun a b => by dsimp only; rw [vrsubhn_s64_partial]) m s t dst x y hx hy hw
example := @stream_binary_int64x2_int32x2_checked .strict _ (.head _) 3 (demo .s64 6) (demo .s64 6) _ _ (demo_holds .s64 6) (demo_holds .s64 6)

/-- The loop over `int64x2_t` registers of any number of blocks applies the listed operation to every element. -/
theorem stream_binary_int64x2 : ∀ fg ∈
      ([(vandq_s64, fun x y => x &&& y),
       (vorrq_s64, fun x y => x ||| y),
       (veorq_s64, fun x y => x ^^^ y)] :
       List ((int64x2_t → int64x2_t → C int64x2_t) × (BitVec 64 → BitVec 64 → BitVec 64))),
    ∀ (m : Nat) (s t : Ptr .s64) (x y : Nat → BitVec 64), (∀ j < 2 * m, Holds s j (x j)) → (∀ j < 2 * m, Holds t j (y j)) →
      (∀ dst : Ptr .s64, Writable dst (2 * m) →
        ∃ p, map2 vld1q_s64 fg.1 vst1q_s64 m s t dst = .ok p ∧ Stored dst (fun j : Fin (2 * m) => fg.2 (x j) (y j)) p) ∧
      (Writable s (2 * m) →
        ∃ p, update2 vld1q_s64 fg.1 vst1q_s64 m t s = .ok p ∧ Stored s (fun j : Fin (2 * m) => fg.2 (x j) (y j)) p) := by
  intro fg hfg
  simp only [List.mem_cons, List.not_mem_nil, or_false] at hfg
  rcases hfg with rfl | rfl | rfl
  · exact fun m s t x y hx hy => ⟨fun dst hw => map2_stored (e := .s64) (e' := .s64) (fun (x y : BitVec 64) => x &&& y) vld1q_s64_spec vst1q_s64_spec (fun a b => vandq_s64_spec a b) m s t dst x y hx hy hw,
      fun hw => update2_stored (e := .s64) (fun (x y : BitVec 64) => x &&& y) vld1q_s64_spec vst1q_s64_spec (fun a b => vandq_s64_spec a b) m t s x y hx hy hw⟩
  · exact fun m s t x y hx hy => ⟨fun dst hw => map2_stored (e := .s64) (e' := .s64) (fun (x y : BitVec 64) => x ||| y) vld1q_s64_spec vst1q_s64_spec (fun a b => vorrq_s64_spec a b) m s t dst x y hx hy hw,
      fun hw => update2_stored (e := .s64) (fun (x y : BitVec 64) => x ||| y) vld1q_s64_spec vst1q_s64_spec (fun a b => vorrq_s64_spec a b) m t s x y hx hy hw⟩
  · exact fun m s t x y hx hy => ⟨fun dst hw => map2_stored (e := .s64) (e' := .s64) (fun (x y : BitVec 64) => x ^^^ y) vld1q_s64_spec vst1q_s64_spec (fun a b => veorq_s64_spec a b) m s t dst x y hx hy hw,
      fun hw => update2_stored (e := .s64) (fun (x y : BitVec 64) => x ^^^ y) vld1q_s64_spec vst1q_s64_spec (fun a b => veorq_s64_spec a b) m t s x y hx hy hw⟩
example := stream_binary_int64x2 _ (.head _) 3 (demo .s64 6) (demo .s64 6) _ _ (demo_holds .s64 6) (demo_holds .s64 6)

/-- The loop over `int64x2_t` registers of any number of blocks applies the listed operation to every element, and is undefined if some element overflows. -/
theorem stream_binary_int64x2_checked [Dialect] : ∀ fg ∈
      ([(vaddq_s64, fun x y => NoOverflow 64 ((x).toInt + (y).toInt), fun x y => x + y),
       (vsubq_s64, fun x y => NoOverflow 64 ((x).toInt - (y).toInt), fun x y => x - y)] :
       List ((int64x2_t → int64x2_t → C int64x2_t) × (BitVec 64 → BitVec 64 → Prop) × (BitVec 64 → BitVec 64 → BitVec 64))),
    ∀ (m : Nat) (s t : Ptr .s64) (x y : Nat → BitVec 64), (∀ j < 2 * m, Holds s j (x j)) → (∀ j < 2 * m, Holds t j (y j)) →
      (∀ dst : Ptr .s64, Writable dst (2 * m) →
        Maps dst (2 * m) (fun j => fg.2.1 (x j) (y j)) (fun j => fg.2.2 (x j) (y j)) (map2 vld1q_s64 fg.1 vst1q_s64 m s t dst)) ∧
      (Writable s (2 * m) →
        Maps s (2 * m) (fun j => fg.2.1 (x j) (y j)) (fun j => fg.2.2 (x j) (y j)) (update2 vld1q_s64 fg.1 vst1q_s64 m t s)) := by
  intro fg hfg
  simp only [List.mem_cons, List.not_mem_nil, or_false] at hfg
  rcases hfg with rfl | rfl
  · exact fun m s t x y hx hy => ⟨fun dst hw => map2_maps (e := .s64) (e' := .s64) (fun (x y : BitVec 64) => NoOverflow 64 ((x).toInt + (y).toInt)) (fun (x y : BitVec 64) => x + y) vld1q_s64_spec vst1q_s64_spec (fun a b => by dsimp only; rw [vaddq_s64_partial]) m s t dst x y hx hy hw,
      fun hw => update2_maps (e := .s64) (fun (x y : BitVec 64) => NoOverflow 64 ((x).toInt + (y).toInt)) (fun (x y : BitVec 64) => x + y) vld1q_s64_spec vst1q_s64_spec (fun a b => by dsimp only; rw [vaddq_s64_partial]) m t s x y hx hy hw⟩
  · exact fun m s t x y hx hy => ⟨fun dst hw => map2_maps (e := .s64) (e' := .s64) (fun (x y : BitVec 64) => NoOverflow 64 ((x).toInt - (y).toInt)) (fun (x y : BitVec 64) => x - y) vld1q_s64_spec vst1q_s64_spec (fun a b => by dsimp only; rw [vsubq_s64_partial]) m s t dst x y hx hy hw,
      fun hw => update2_maps (e := .s64) (fun (x y : BitVec 64) => NoOverflow 64 ((x).toInt - (y).toInt)) (fun (x y : BitVec 64) => x - y) vld1q_s64_spec vst1q_s64_spec (fun a b => by dsimp only; rw [vsubq_s64_partial]) m t s x y hx hy hw⟩
example := @stream_binary_int64x2_checked .strict _ (.head _) 3 (demo .s64 6) (demo .s64 6) _ _ (demo_holds .s64 6) (demo_holds .s64 6)

/-- The loop over `int8x16_t` registers of any number of blocks applies the listed operation to every element. -/
theorem stream_unary_int8x16 : ∀ fg ∈
      ([(vmvnq_s8, fun x => ~~~ (x))] :
       List ((int8x16_t → C int8x16_t) × (BitVec 8 → BitVec 8))),
    ∀ (m : Nat) (s : Ptr .s8) (dst : Ptr .s8) (x : Nat → BitVec 8), (∀ j < 16 * m, Holds s j (x j)) → Writable dst (16 * m) →
      ∃ p, map1 vld1q_s8 fg.1 vst1q_s8 m s dst = .ok p ∧ Stored dst (fun j : Fin (16 * m) => fg.2 (x j)) p := by
  intro fg hfg
  simp only [List.mem_cons, List.not_mem_nil, or_false] at hfg
  rcases hfg with rfl
  · exact fun m s dst x hx hw => map1_stored (e := .s8) (e' := .s8) (fun (x : BitVec 8) => ~~~ (x)) vld1q_s8_spec vst1q_s8_spec (fun a => vmvnq_s8_spec a) m s dst x hx hw
example := stream_unary_int8x16 _ (.head _) 3 (demo .s8 48) (demo .s8 48) _ (demo_holds .s8 48) (demo_writable .s8 48)

/-- The loop over `int8x16_t` registers of any number of blocks applies the listed operation to every element. -/
theorem stream_binary_int8x16 [Dialect] : ∀ fg ∈
      ([(vmaxq_s8, fun x y => BitVec.ofInt 8 (max (x).toInt (y).toInt)),
       (vmaxq_u8, fun x y => BitVec.ofInt 8 (max (x).toInt (y).toInt)),
       (vaddq_s8, fun x y => x + y),
       (vsubq_s8, fun x y => x - y),
       (vhsubq_s8, fun x y => BitVec.ofInt 8 (((x).toInt - (y).toInt) / 2)),
       (vqsubq_s8, fun x y => ssat 8 ((x).toInt - (y).toInt)),
       (vmulq_s8, fun x y => x * y),
       (vminq_s8, fun x y => BitVec.ofInt 8 (min (x).toInt (y).toInt)),
       (vminq_u8, fun x y => BitVec.ofInt 8 (min (x).toInt (y).toInt)),
       (vandq_s8, fun x y => x &&& y),
       (vorrq_s8, fun x y => x ||| y),
       (veorq_s8, fun x y => x ^^^ y)] :
       List ((int8x16_t → int8x16_t → C int8x16_t) × (BitVec 8 → BitVec 8 → BitVec 8))),
    ∀ (m : Nat) (s t : Ptr .s8) (x y : Nat → BitVec 8), (∀ j < 16 * m, Holds s j (x j)) → (∀ j < 16 * m, Holds t j (y j)) →
      (∀ dst : Ptr .s8, Writable dst (16 * m) →
        ∃ p, map2 vld1q_s8 fg.1 vst1q_s8 m s t dst = .ok p ∧ Stored dst (fun j : Fin (16 * m) => fg.2 (x j) (y j)) p) ∧
      (Writable s (16 * m) →
        ∃ p, update2 vld1q_s8 fg.1 vst1q_s8 m t s = .ok p ∧ Stored s (fun j : Fin (16 * m) => fg.2 (x j) (y j)) p) := by
  intro fg hfg
  simp only [List.mem_cons, List.not_mem_nil, or_false] at hfg
  rcases hfg with rfl | rfl | rfl | rfl | rfl | rfl | rfl | rfl | rfl | rfl | rfl | rfl
  · exact fun m s t x y hx hy => ⟨fun dst hw => map2_stored (e := .s8) (e' := .s8) (fun (x y : BitVec 8) => BitVec.ofInt 8 (max (x).toInt (y).toInt)) vld1q_s8_spec vst1q_s8_spec (fun a b => vmaxq_s8_spec a b) m s t dst x y hx hy hw,
      fun hw => update2_stored (e := .s8) (fun (x y : BitVec 8) => BitVec.ofInt 8 (max (x).toInt (y).toInt)) vld1q_s8_spec vst1q_s8_spec (fun a b => vmaxq_s8_spec a b) m t s x y hx hy hw⟩
  · exact fun m s t x y hx hy => ⟨fun dst hw => map2_stored (e := .s8) (e' := .s8) (fun (x y : BitVec 8) => BitVec.ofInt 8 (max (x).toInt (y).toInt)) vld1q_s8_spec vst1q_s8_spec (fun a b => vmaxq_u8_partial a b) m s t dst x y hx hy hw,
      fun hw => update2_stored (e := .s8) (fun (x y : BitVec 8) => BitVec.ofInt 8 (max (x).toInt (y).toInt)) vld1q_s8_spec vst1q_s8_spec (fun a b => vmaxq_u8_partial a b) m t s x y hx hy hw⟩
  · exact fun m s t x y hx hy => ⟨fun dst hw => map2_stored (e := .s8) (e' := .s8) (fun (x y : BitVec 8) => x + y) vld1q_s8_spec vst1q_s8_spec (fun a b => vaddq_s8_spec a b) m s t dst x y hx hy hw,
      fun hw => update2_stored (e := .s8) (fun (x y : BitVec 8) => x + y) vld1q_s8_spec vst1q_s8_spec (fun a b => vaddq_s8_spec a b) m t s x y hx hy hw⟩
  · exact fun m s t x y hx hy => ⟨fun dst hw => map2_stored (e := .s8) (e' := .s8) (fun (x y : BitVec 8) => x - y) vld1q_s8_spec vst1q_s8_spec (fun a b => vsubq_s8_spec a b) m s t dst x y hx hy hw,
      fun hw => update2_stored (e := .s8) (fun (x y : BitVec 8) => x - y) vld1q_s8_spec vst1q_s8_spec (fun a b => vsubq_s8_spec a b) m t s x y hx hy hw⟩
  · exact fun m s t x y hx hy => ⟨fun dst hw => map2_stored (e := .s8) (e' := .s8) (fun (x y : BitVec 8) => BitVec.ofInt 8 (((x).toInt - (y).toInt) / 2)) vld1q_s8_spec vst1q_s8_spec (fun a b => vhsubq_s8_spec a b) m s t dst x y hx hy hw,
      fun hw => update2_stored (e := .s8) (fun (x y : BitVec 8) => BitVec.ofInt 8 (((x).toInt - (y).toInt) / 2)) vld1q_s8_spec vst1q_s8_spec (fun a b => vhsubq_s8_spec a b) m t s x y hx hy hw⟩
  · exact fun m s t x y hx hy => ⟨fun dst hw => map2_stored (e := .s8) (e' := .s8) (fun (x y : BitVec 8) => ssat 8 ((x).toInt - (y).toInt)) vld1q_s8_spec vst1q_s8_spec (fun a b => vqsubq_s8_spec a b) m s t dst x y hx hy hw,
      fun hw => update2_stored (e := .s8) (fun (x y : BitVec 8) => ssat 8 ((x).toInt - (y).toInt)) vld1q_s8_spec vst1q_s8_spec (fun a b => vqsubq_s8_spec a b) m t s x y hx hy hw⟩
  · exact fun m s t x y hx hy => ⟨fun dst hw => map2_stored (e := .s8) (e' := .s8) (fun (x y : BitVec 8) => x * y) vld1q_s8_spec vst1q_s8_spec (fun a b => vmulq_s8_spec a b) m s t dst x y hx hy hw,
      fun hw => update2_stored (e := .s8) (fun (x y : BitVec 8) => x * y) vld1q_s8_spec vst1q_s8_spec (fun a b => vmulq_s8_spec a b) m t s x y hx hy hw⟩
  · exact fun m s t x y hx hy => ⟨fun dst hw => map2_stored (e := .s8) (e' := .s8) (fun (x y : BitVec 8) => BitVec.ofInt 8 (min (x).toInt (y).toInt)) vld1q_s8_spec vst1q_s8_spec (fun a b => vminq_s8_spec a b) m s t dst x y hx hy hw,
      fun hw => update2_stored (e := .s8) (fun (x y : BitVec 8) => BitVec.ofInt 8 (min (x).toInt (y).toInt)) vld1q_s8_spec vst1q_s8_spec (fun a b => vminq_s8_spec a b) m t s x y hx hy hw⟩
  · exact fun m s t x y hx hy => ⟨fun dst hw => map2_stored (e := .s8) (e' := .s8) (fun (x y : BitVec 8) => BitVec.ofInt 8 (min (x).toInt (y).toInt)) vld1q_s8_spec vst1q_s8_spec (fun a b => vminq_u8_partial a b) m s t dst x y hx hy hw,
      fun hw => update2_stored (e := .s8) (fun (x y : BitVec 8) => BitVec.ofInt 8 (min (x).toInt (y).toInt)) vld1q_s8_spec vst1q_s8_spec (fun a b => vminq_u8_partial a b) m t s x y hx hy hw⟩
  · exact fun m s t x y hx hy => ⟨fun dst hw => map2_stored (e := .s8) (e' := .s8) (fun (x y : BitVec 8) => x &&& y) vld1q_s8_spec vst1q_s8_spec (fun a b => vandq_s8_spec a b) m s t dst x y hx hy hw,
      fun hw => update2_stored (e := .s8) (fun (x y : BitVec 8) => x &&& y) vld1q_s8_spec vst1q_s8_spec (fun a b => vandq_s8_spec a b) m t s x y hx hy hw⟩
  · exact fun m s t x y hx hy => ⟨fun dst hw => map2_stored (e := .s8) (e' := .s8) (fun (x y : BitVec 8) => x ||| y) vld1q_s8_spec vst1q_s8_spec (fun a b => vorrq_s8_spec a b) m s t dst x y hx hy hw,
      fun hw => update2_stored (e := .s8) (fun (x y : BitVec 8) => x ||| y) vld1q_s8_spec vst1q_s8_spec (fun a b => vorrq_s8_spec a b) m t s x y hx hy hw⟩
  · exact fun m s t x y hx hy => ⟨fun dst hw => map2_stored (e := .s8) (e' := .s8) (fun (x y : BitVec 8) => x ^^^ y) vld1q_s8_spec vst1q_s8_spec (fun a b => veorq_s8_spec a b) m s t dst x y hx hy hw,
      fun hw => update2_stored (e := .s8) (fun (x y : BitVec 8) => x ^^^ y) vld1q_s8_spec vst1q_s8_spec (fun a b => veorq_s8_spec a b) m t s x y hx hy hw⟩
example := @stream_binary_int8x16 .strict _ (.head _) 3 (demo .s8 48) (demo .s8 48) _ _ (demo_holds .s8 48) (demo_holds .s8 48)

/-- The loop over `int8x8_t` registers of any number of blocks applies the listed operation to every element. -/
theorem stream_unary_int8x8_int16x8 : ∀ fg ∈
      ([(vmovl_s8, fun x => (x).signExtend 16)] :
       List ((int8x8_t → C int16x8_t) × (BitVec 8 → BitVec 16))),
    ∀ (m : Nat) (s : Ptr .s8) (dst : Ptr .s16) (x : Nat → BitVec 8), (∀ j < 8 * m, Holds s j (x j)) → Writable dst (8 * m) →
      ∃ p, map1 vld1_s8 fg.1 vst1q_s16 m s dst = .ok p ∧ Stored dst (fun j : Fin (8 * m) => fg.2 (x j)) p := by
  intro fg hfg
  simp only [List.mem_cons, List.not_mem_nil, or_false] at hfg
  rcases hfg with rfl
  · exact fun m s dst x hx hw => map1_stored (e := .s8) (e' := .s16) (fun (x : BitVec 8) => (x).signExtend 16) vld1_s8_spec vst1q_s16_spec (fun a => vmovl_s8_spec a) m s dst x hx hw
example := stream_unary_int8x8_int16x8 _ (.head _) 3 (demo .s8 24) (demo .s16 24) _ (demo_holds .s8 24) (demo_writable .s16 24)

/-- The loop over `int8x8_t` registers of any number of blocks applies the listed operation to every element. -/
theorem stream_binary_int8x8_int16x8 [Dialect] : ∀ fg ∈
      ([(vsubl_s8, fun x y => (x).signExtend 16 - (y).signExtend 16),
       (vmull_s8, fun x y => (x).signExtend 16 * (y).signExtend 16)] :
       List ((int8x8_t → int8x8_t → C int16x8_t) × (BitVec 8 → BitVec 8 → BitVec 16))),
    ∀ (m : Nat) (s t : Ptr .s8) (x y : Nat → BitVec 8), (∀ j < 8 * m, Holds s j (x j)) → (∀ j < 8 * m, Holds t j (y j)) →
      (∀ dst : Ptr .s16, Writable dst (8 * m) →
        ∃ p, map2 vld1_s8 fg.1 vst1q_s16 m s t dst = .ok p ∧ Stored dst (fun j : Fin (8 * m) => fg.2 (x j) (y j)) p) := by
  intro fg hfg
  simp only [List.mem_cons, List.not_mem_nil, or_false] at hfg
  rcases hfg with rfl | rfl
  · exact fun m s t x y hx hy => fun dst hw => map2_stored (e := .s8) (e' := .s16) (fun (x y : BitVec 8) => (x).signExtend 16 - (y).signExtend 16) vld1_s8_spec vst1q_s16_spec (fun a b => vsubl_s8_spec a b) m s t dst x y hx hy hw
  · exact fun m s t x y hx hy => fun dst hw => map2_stored (e := .s8) (e' := .s16) (fun (x y : BitVec 8) => (x).signExtend 16 * (y).signExtend 16) vld1_s8_spec vst1q_s16_spec (fun a b => vmull_s8_spec a b) m s t dst x y hx hy hw
example := @stream_binary_int8x8_int16x8 .strict _ (.head _) 3 (demo .s8 24) (demo .s8 24) _ _ (demo_holds .s8 24) (demo_holds .s8 24)

/-- The loop over `int8x8_t` registers of any number of blocks applies the listed operation to every element. -/
theorem stream_unary_int8x8 : ∀ fg ∈
      ([(vmvn_s8, fun x => ~~~ (x))] :
       List ((int8x8_t → C int8x8_t) × (BitVec 8 → BitVec 8))),
    ∀ (m : Nat) (s : Ptr .s8) (dst : Ptr .s8) (x : Nat → BitVec 8), (∀ j < 8 * m, Holds s j (x j)) → Writable dst (8 * m) →
      ∃ p, map1 vld1_s8 fg.1 vst1_s8 m s dst = .ok p ∧ Stored dst (fun j : Fin (8 * m) => fg.2 (x j)) p := by
  intro fg hfg
  simp only [List.mem_cons, List.not_mem_nil, or_false] at hfg
  rcases hfg with rfl
  · exact fun m s dst x hx hw => map1_stored (e := .s8) (e' := .s8) (fun (x : BitVec 8) => ~~~ (x)) vld1_s8_spec vst1_s8_spec (fun a => vmvn_s8_spec a) m s dst x hx hw
example := stream_unary_int8x8 _ (.head _) 3 (demo .s8 24) (demo .s8 24) _ (demo_holds .s8 24) (demo_writable .s8 24)

/-- The loop over `int8x8_t` registers of any number of blocks applies the listed operation to every element. -/
theorem stream_binary_int8x8 [Dialect] : ∀ fg ∈
      ([(vadd_s8, fun x y => x + y),
       (vsub_s8, fun x y => x - y),
       (vhsub_s8, fun x y => BitVec.ofInt 8 (((x).toInt - (y).toInt) / 2)),
       (vqsub_s8, fun x y => ssat 8 ((x).toInt - (y).toInt)),
       (vmul_s8, fun x y => x * y),
       (vand_s8, fun x y => x &&& y),
       (vorr_s8, fun x y => x ||| y),
       (veor_s8, fun x y => x ^^^ y)] :
       List ((int8x8_t → int8x8_t → C int8x8_t) × (BitVec 8 → BitVec 8 → BitVec 8))),
    ∀ (m : Nat) (s t : Ptr .s8) (x y : Nat → BitVec 8), (∀ j < 8 * m, Holds s j (x j)) → (∀ j < 8 * m, Holds t j (y j)) →
      (∀ dst : Ptr .s8, Writable dst (8 * m) →
        ∃ p, map2 vld1_s8 fg.1 vst1_s8 m s t dst = .ok p ∧ Stored dst (fun j : Fin (8 * m) => fg.2 (x j) (y j)) p) ∧
      (Writable s (8 * m) →
        ∃ p, update2 vld1_s8 fg.1 vst1_s8 m t s = .ok p ∧ Stored s (fun j : Fin (8 * m) => fg.2 (x j) (y j)) p) := by
  intro fg hfg
  simp only [List.mem_cons, List.not_mem_nil, or_false] at hfg
  rcases hfg with rfl | rfl | rfl | rfl | rfl | rfl | rfl | rfl
  · exact fun m s t x y hx hy => ⟨fun dst hw => map2_stored (e := .s8) (e' := .s8) (fun (x y : BitVec 8) => x + y) vld1_s8_spec vst1_s8_spec (fun a b => vadd_s8_spec a b) m s t dst x y hx hy hw,
      fun hw => update2_stored (e := .s8) (fun (x y : BitVec 8) => x + y) vld1_s8_spec vst1_s8_spec (fun a b => vadd_s8_spec a b) m t s x y hx hy hw⟩
  · exact fun m s t x y hx hy => ⟨fun dst hw => map2_stored (e := .s8) (e' := .s8) (fun (x y : BitVec 8) => x - y) vld1_s8_spec vst1_s8_spec (fun a b => vsub_s8_spec a b) m s t dst x y hx hy hw,
      fun hw => update2_stored (e := .s8) (fun (x y : BitVec 8) => x - y) vld1_s8_spec vst1_s8_spec (fun a b => vsub_s8_spec a b) m t s x y hx hy hw⟩
  · exact fun m s t x y hx hy => ⟨fun dst hw => map2_stored (e := .s8) (e' := .s8) (fun (x y : BitVec 8) => BitVec.ofInt 8 (((x).toInt - (y).toInt) / 2)) vld1_s8_spec vst1_s8_spec (fun a b => vhsub_s8_spec a b) m s t dst x y hx hy hw,
      fun hw => update2_stored (e := .s8) (fun (x y : BitVec 8) => BitVec.ofInt 8 (((x).toInt - (y).toInt) / 2)) vld1_s8_spec vst1_s8_spec (fun a b => vhsub_s8_spec a b) m t s x y hx hy hw⟩
  · exact fun m s t x y hx hy => ⟨fun dst hw => map2_stored (e := .s8) (e' := .s8) (fun (x y : BitVec 8) => ssat 8 ((x).toInt - (y).toInt)) vld1_s8_spec vst1_s8_spec (fun a b => vqsub_s8_spec a b) m s t dst x y hx hy hw,
      fun hw => update2_stored (e := .s8) (fun (x y : BitVec 8) => ssat 8 ((x).toInt - (y).toInt)) vld1_s8_spec vst1_s8_spec (fun a b => vqsub_s8_spec a b) m t s x y hx hy hw⟩
  · exact fun m s t x y hx hy => ⟨fun dst hw => map2_stored (e := .s8) (e' := .s8) (fun (x y : BitVec 8) => x * y) vld1_s8_spec vst1_s8_spec (fun a b => vmul_s8_spec a b) m s t dst x y hx hy hw,
      fun hw => update2_stored (e := .s8) (fun (x y : BitVec 8) => x * y) vld1_s8_spec vst1_s8_spec (fun a b => vmul_s8_spec a b) m t s x y hx hy hw⟩
  · exact fun m s t x y hx hy => ⟨fun dst hw => map2_stored (e := .s8) (e' := .s8) (fun (x y : BitVec 8) => x &&& y) vld1_s8_spec vst1_s8_spec (fun a b => vand_s8_spec a b) m s t dst x y hx hy hw,
      fun hw => update2_stored (e := .s8) (fun (x y : BitVec 8) => x &&& y) vld1_s8_spec vst1_s8_spec (fun a b => vand_s8_spec a b) m t s x y hx hy hw⟩
  · exact fun m s t x y hx hy => ⟨fun dst hw => map2_stored (e := .s8) (e' := .s8) (fun (x y : BitVec 8) => x ||| y) vld1_s8_spec vst1_s8_spec (fun a b => vorr_s8_spec a b) m s t dst x y hx hy hw,
      fun hw => update2_stored (e := .s8) (fun (x y : BitVec 8) => x ||| y) vld1_s8_spec vst1_s8_spec (fun a b => vorr_s8_spec a b) m t s x y hx hy hw⟩
  · exact fun m s t x y hx hy => ⟨fun dst hw => map2_stored (e := .s8) (e' := .s8) (fun (x y : BitVec 8) => x ^^^ y) vld1_s8_spec vst1_s8_spec (fun a b => veor_s8_spec a b) m s t dst x y hx hy hw,
      fun hw => update2_stored (e := .s8) (fun (x y : BitVec 8) => x ^^^ y) vld1_s8_spec vst1_s8_spec (fun a b => veor_s8_spec a b) m t s x y hx hy hw⟩
example := @stream_binary_int8x8 .strict _ (.head _) 3 (demo .s8 24) (demo .s8 24) _ _ (demo_holds .s8 24) (demo_holds .s8 24)

/-- The loop over `uint16x4_t` registers of any number of blocks applies the listed operation to every element. -/
theorem stream_unary_uint16x4 : ∀ fg ∈
      ([(vmvn_u16, fun x => ~~~ (x))] :
       List ((uint16x4_t → C uint16x4_t) × (BitVec 16 → BitVec 16))),
    ∀ (m : Nat) (s : Ptr .u16) (dst : Ptr .u16) (x : Nat → BitVec 16), (∀ j < 4 * m, Holds s j (x j)) → Writable dst (4 * m) →
      ∃ p, map1 vld1_u16 fg.1 vst1_u16 m s dst = .ok p ∧ Stored dst (fun j : Fin (4 * m) => fg.2 (x j)) p := by
  intro fg hfg
  simp only [List.mem_cons, List.not_mem_nil, or_false] at hfg
  rcases hfg with rfl
  · exact fun m s dst x hx hw => map1_stored (e := .u16) (e' := .u16) (fun (x : BitVec 16) => ~~~ (x)) vld1_u16_spec vst1_u16_spec (fun a => vmvn_u16_spec a) m s dst x hx hw
example := stream_unary_uint16x4 _ (.head _) 3 (demo .u16 12) (demo .u16 12) _ (demo_holds .u16 12) (demo_writable .u16 12)

/-- The loop over `uint16x4_t` registers of any number of blocks applies the listed operation to every element. -/
theorem stream_binary_uint16x4 [Dialect] : ∀ fg ∈
      ([(vadd_u16, fun x y => x + y),
       (vsub_u16, fun x y => x - y),
       (vhsub_u16, fun x y => BitVec.ofInt 16 ((((x).toNat : Int) - ((y).toNat : Int)) / 2)),
       (vqsub_u16, fun x y => usat 16 (((x).toNat : Int) - ((y).toNat : Int))),
       (vand_u16, fun x y => x &&& y),
       (vorr_u16, fun x y => x ||| y),
       (veor_u16, fun x y => x ^^^ y)] :
       List ((uint16x4_t → uint16x4_t → C uint16x4_t) × (BitVec 16 → BitVec 16 → BitVec 16))),
    ∀ (m : Nat) (s t : Ptr .u16) (x y : Nat → BitVec 16), (∀ j < 4 * m, Holds s j (x j)) → (∀ j < 4 * m, Holds t j (y j)) →
      (∀ dst : Ptr .u16, Writable dst (4 * m) →
        ∃ p, map2 vld1_u16 fg.1 vst1_u16 m s t dst = .ok p ∧ Stored dst (fun j : Fin (4 * m) => fg.2 (x j) (y j)) p) ∧
      (Writable s (4 * m) →
        ∃ p, update2 vld1_u16 fg.1 vst1_u16 m t s = .ok p ∧ Stored s (fun j : Fin (4 * m) => fg.2 (x j) (y j)) p) := by
  intro fg hfg
  simp only [List.mem_cons, List.not_mem_nil, or_false] at hfg
  rcases hfg with rfl | rfl | rfl | rfl | rfl | rfl | rfl
  · exact fun m s t x y hx hy => ⟨fun dst hw => map2_stored (e := .u16) (e' := .u16) (fun (x y : BitVec 16) => x + y) vld1_u16_spec vst1_u16_spec (fun a b => vadd_u16_spec a b) m s t dst x y hx hy hw,
      fun hw => update2_stored (e := .u16) (fun (x y : BitVec 16) => x + y) vld1_u16_spec vst1_u16_spec (fun a b => vadd_u16_spec a b) m t s x y hx hy hw⟩
  · exact fun m s t x y hx hy => ⟨fun dst hw => map2_stored (e := .u16) (e' := .u16) (fun (x y : BitVec 16) => x - y) vld1_u16_spec vst1_u16_spec (fun a b => vsub_u16_spec a b) m s t dst x y hx hy hw,
      fun hw => update2_stored (e := .u16) (fun (x y : BitVec 16) => x - y) vld1_u16_spec vst1_u16_spec (fun a b => vsub_u16_spec a b) m t s x y hx hy hw⟩
  · exact fun m s t x y hx hy => ⟨fun dst hw => map2_stored (e := .u16) (e' := .u16) (fun (x y : BitVec 16) => BitVec.ofInt 16 ((((x).toNat : Int) - ((y).toNat : Int)) / 2)) vld1_u16_spec vst1_u16_spec (fun a b => vhsub_u16_spec a b) m s t dst x y hx hy hw,
      fun hw => update2_stored (e := .u16) (fun (x y : BitVec 16) => BitVec.ofInt 16 ((((x).toNat : Int) - ((y).toNat : Int)) / 2)) vld1_u16_spec vst1_u16_spec (fun a b => vhsub_u16_spec a b) m t s x y hx hy hw⟩
  · exact fun m s t x y hx hy => ⟨fun dst hw => map2_stored (e := .u16) (e' := .u16) (fun (x y : BitVec 16) => usat 16 (((x).toNat : Int) - ((y).toNat : Int))) vld1_u16_spec vst1_u16_spec (fun a b => vqsub_u16_spec a b) m s t dst x y hx hy hw,
      fun hw => update2_stored (e := .u16) (fun (x y : BitVec 16) => usat 16 (((x).toNat : Int) - ((y).toNat : Int))) vld1_u16_spec vst1_u16_spec (fun a b => vqsub_u16_spec a b) m t s x y hx hy hw⟩
  · exact fun m s t x y hx hy => ⟨fun dst hw => map2_stored (e := .u16) (e' := .u16) (fun (x y : BitVec 16) => x &&& y) vld1_u16_spec vst1_u16_spec (fun a b => vand_u16_spec a b) m s t dst x y hx hy hw,
      fun hw => update2_stored (e := .u16) (fun (x y : BitVec 16) => x &&& y) vld1_u16_spec vst1_u16_spec (fun a b => vand_u16_spec a b) m t s x y hx hy hw⟩
  · exact fun m s t x y hx hy => ⟨fun dst hw => map2_stored (e := .u16) (e' := .u16) (fun (x y : BitVec 16) => x ||| y) vld1_u16_spec vst1_u16_spec (fun a b => vorr_u16_spec a b) m s t dst x y hx hy hw,
      fun hw => update2_stored (e := .u16) (fun (x y : BitVec 16) => x ||| y) vld1_u16_spec vst1_u16_spec (fun a b => vorr_u16_spec a b) m t s x y hx hy hw⟩
  · exact fun m s t x y hx hy => ⟨fun dst hw => map2_stored (e := .u16) (e' := .u16) (fun (x y : BitVec 16) => x ^^^ y) vld1_u16_spec vst1_u16_spec (fun a b => veor_u16_spec a b) m s t dst x y hx hy hw,
      fun hw => update2_stored (e := .u16) (fun (x y : BitVec 16) => x ^^^ y) vld1_u16_spec vst1_u16_spec (fun a b => veor_u16_spec a b) m t s x y hx hy hw⟩
example := @stream_binary_uint16x4 .strict _ (.head _) 3 (demo .u16 12) (demo .u16 12) _ _ (demo_holds .u16 12) (demo_holds .u16 12)

/-- The loop over `uint16x4_t` registers of any number of blocks applies the listed operation to every element, and is undefined if some element overflows. -/
theorem stream_binary_uint16x4_checked [Dialect] : ∀ fg ∈
      ([(vmul_u16, fun x y => NoOverflow 32 (((x).toNat : Int) * ((y).toNat : Int)), fun x y => x * y)] :
       List ((uint16x4_t → uint16x4_t → C uint16x4_t) × (BitVec 16 → BitVec 16 → Prop) × (BitVec 16 → BitVec 16 → BitVec 16))),
    ∀ (m : Nat) (s t : Ptr .u16) (x y : Nat → BitVec 16), (∀ j < 4 * m, Holds s j (x j)) → (∀ j < 4 * m, Holds t j (y j)) →
      (∀ dst : Ptr .u16, Writable dst (4 * m) →
        Maps dst (4 * m) (fun j => fg.2.1 (x j) (y j)) (fun j => fg.2.2 (x j) (y j)) (map2 vld1_u16 fg.1 vst1_u16 m s t dst)) ∧
      (Writable s (4 * m) →
        Maps s (4 * m) (fun j => fg.2.1 (x j) (y j)) (fun j => fg.2.2 (x j) (y j)) (update2 vld1_u16 fg.1 vst1_u16 m t s)) := by
  intro fg hfg
  simp only [List.mem_cons, List.not_mem_nil, or_false] at hfg
  rcases hfg with rfl
  · exact fun m s t x y hx hy => ⟨fun dst hw => map2_maps (e := .u16) (e' := .u16) (fun (x y : BitVec 16) => NoOverflow 32 (((x).toNat : Int) * ((y).toNat : Int))) (fun (x y : BitVec 16) => x * y) vld1_u16_spec vst1_u16_spec (fun a b => by dsimp only; rw [vmul_u16_partial]) m s t dst x y hx hy hw,
      fun hw => update2_maps (e := .u16) (fun (x y : BitVec 16) => NoOverflow 32 (((x).toNat : Int) * ((y).toNat : Int))) (fun (x y : BitVec 16) => x * y) vld1_u16_spec vst1_u16_spec (fun a b => by dsimp only; rw [vmul_u16_partial]) m t s x y hx hy hw⟩
example := @stream_binary_uint16x4_checked .strict _ (.head _) 3 (demo .u16 12) (demo .u16 12) _ _ (demo_holds .u16 12) (demo_holds .u16 12)

/-- The loop over `uint16x4_t` registers of any number of blocks applies the listed operation to every element. -/
theorem stream_unary_uint16x4_uint32x4 : ∀ fg ∈
      ([(vmovl_u16, fun x => (x).setWidth 32)] :
       List ((uint16x4_t → C uint32x4_t) × (BitVec 16 → BitVec 32))),
    ∀ (m : Nat) (s : Ptr .u16) (dst : Ptr .u32) (x : Nat → BitVec 16), (∀ j < 4 * m, Holds s j (x j)) → Writable dst (4 * m) →
      ∃ p, map1 vld1_u16 fg.1 vst1q_u32 m s dst = .ok p ∧ Stored dst (fun j : Fin (4 * m) => fg.2 (x j)) p := by
  intro fg hfg
  simp only [List.mem_cons, List.not_mem_nil, or_false] at hfg
  rcases hfg with rfl
  · exact fun m s dst x hx hw => map1_stored (e := .u16) (e' := .u32) (fun (x : BitVec 16) => (x).setWidth 32) vld1_u16_spec vst1q_u32_spec (fun a => vmovl_u16_spec a) m s dst x hx hw
example := stream_unary_uint16x4_uint32x4 _ (.head _) 3 (demo .u16 12) (demo .u32 12) _ (demo_holds .u16 12) (demo_writable .u32 12)

/-- The loop over `uint16x4_t` registers of any number of blocks applies the listed operation to every element. -/
theorem stream_binary_uint16x4_uint32x4 [Dialect] : ∀ fg ∈
      ([(vsubl_u16, fun x y => (x).setWidth 32 - (y).setWidth 32)] :
       List ((uint16x4_t → uint16x4_t → C uint32x4_t) × (BitVec 16 → BitVec 16 → BitVec 32))),
    ∀ (m : Nat) (s t : Ptr .u16) (x y : Nat → BitVec 16), (∀ j < 4 * m, Holds s j (x j)) → (∀ j < 4 * m, Holds t j (y j)) →
      (∀ dst : Ptr .u32, Writable dst (4 * m) →
        ∃ p, map2 vld1_u16 fg.1 vst1q_u32 m s t dst = .ok p ∧ Stored dst (fun j : Fin (4 * m) => fg.2 (x j) (y j)) p) := by
  intro fg hfg
  simp only [List.mem_cons, List.not_mem_nil, or_false] at hfg
  rcases hfg with rfl
  · exact fun m s t x y hx hy => fun dst hw => map2_stored (e := .u16) (e' := .u32) (fun (x y : BitVec 16) => (x).setWidth 32 - (y).setWidth 32) vld1_u16_spec vst1q_u32_spec (fun a b => vsubl_u16_spec a b) m s t dst x y hx hy hw
example := @stream_binary_uint16x4_uint32x4 .strict _ (.head _) 3 (demo .u16 12) (demo .u16 12) _ _ (demo_holds .u16 12) (demo_holds .u16 12)

/-- The loop over `uint16x4_t` registers of any number of blocks applies the listed operation to every element, and is undefined if some element overflows. -/
theorem stream_binary_uint16x4_uint32x4_checked [Dialect] : ∀ fg ∈
      ([(vmull_u16, fun x y => NoOverflow 32 (((x).toNat : Int) * ((y).toNat : Int)), fun x y => (x).setWidth 32 * (y).setWidth 32)] :
       List ((uint16x4_t → uint16x4_t → C uint32x4_t) × (BitVec 16 → BitVec 16 → Prop) × (BitVec 16 → BitVec 16 → BitVec 32))),
    ∀ (m : Nat) (s t : Ptr .u16) (x y : Nat → BitVec 16), (∀ j < 4 * m, Holds s j (x j)) → (∀ j < 4 * m, Holds t j (y j)) →
      (∀ dst : Ptr .u32, Writable dst (4 * m) →
        Maps dst (4 * m) (fun j => fg.2.1 (x j) (y j)) (fun j => fg.2.2 (x j) (y j)) (map2 vld1_u16 fg.1 vst1q_u32 m s t dst)) := by
  intro fg hfg
  simp only [List.mem_cons, List.not_mem_nil, or_false] at hfg
  rcases hfg with rfl
  · exact fun m s t x y hx hy => fun dst hw => map2_maps (e := .u16) (e' := .u32) (fun (x y : BitVec 16) => NoOverflow 32 (((x).toNat : Int) * ((y).toNat : Int))) (fun (x y : BitVec 16) => (x).setWidth 32 * (y).setWidth 32) vld1_u16_spec vst1q_u32_spec (fun a b => by dsimp only; rw [vmull_u16_partial]) m s t dst x y hx hy hw
example := @stream_binary_uint16x4_uint32x4_checked .strict _ (.head _) 3 (demo .u16 12) (demo .u16 12) _ _ (demo_holds .u16 12) (demo_holds .u16 12)

/-- The loop over `uint16x8_t` registers of any number of blocks applies the listed operation to every element. -/
theorem stream_unary_uint16x8 : ∀ fg ∈
      ([(vmvnq_u16, fun x => ~~~ (x))] :
       List ((uint16x8_t → C uint16x8_t) × (BitVec 16 → BitVec 16))),
    ∀ (m : Nat) (s : Ptr .u16) (dst : Ptr .u16) (x : Nat → BitVec 16), (∀ j < 8 * m, Holds s j (x j)) → Writable dst (8 * m) →
      ∃ p, map1 vld1q_u16 fg.1 vst1q_u16 m s dst = .ok p ∧ Stored dst (fun j : Fin (8 * m) => fg.2 (x j)) p := by
  intro fg hfg
  simp only [List.mem_cons, List.not_mem_nil, or_false] at hfg
  rcases hfg with rfl
  · exact fun m s dst x hx hw => map1_stored (e := .u16) (e' := .u16) (fun (x : BitVec 16) => ~~~ (x)) vld1q_u16_spec vst1q_u16_spec (fun a => vmvnq_u16_spec a) m s dst x hx hw
example := stream_unary_uint16x8 _ (.head _) 3 (demo .u16 24) (demo .u16 24) _ (demo_holds .u16 24) (demo_writable .u16 24)

/-- The loop over `uint16x8_t` registers of any number of blocks applies the listed operation to every element. -/
theorem stream_binary_uint16x8 [Dialect] : ∀ fg ∈
      ([(vaddq_u16, fun x y => x + y),
       (vsubq_u16, fun x y => x - y),
       (vhsubq_u16, fun x y => BitVec.ofInt 16 ((((x).toNat : Int) - ((y).toNat : Int)) / 2)),
       (vqsubq_u16, fun x y => usat 16 (((x).toNat : Int) - ((y).toNat : Int))),
       (vandq_u16, fun x y => x &&& y),
       (vorrq_u16, fun x y => x ||| y),
       (veorq_u16, fun x y => x ^^^ y)] :
       List ((uint16x8_t → uint16x8_t → C uint16x8_t) × (BitVec 16 → BitVec 16 → BitVec 16))),
    ∀ (m : Nat) (s t : Ptr .u16) (x y : Nat → BitVec 16), (∀ j < 8 * m, Holds s j (x j)) → (∀ j < 8 * m, Holds t j (y j)) →
      (∀ dst : Ptr .u16, Writable dst (8 * m) →
        ∃ p, map2 vld1q_u16 fg.1 vst1q_u16 m s t dst = .ok p ∧ Stored dst (fun j : Fin (8 * m) => fg.2 (x j) (y j)) p) ∧
      (Writable s (8 * m) →
        ∃ p, update2 vld1q_u16 fg.1 vst1q_u16 m t s = .ok p ∧ Stored s (fun j : Fin (8 * m) => fg.2 (x j) (y j)) p) := by
  intro fg hfg
  simp only [List.mem_cons, List.not_mem_nil, or_false] at hfg
  rcases hfg with rfl | rfl | rfl | rfl | rfl | rfl | rfl
  · exact fun m s t x y hx hy => ⟨fun dst hw => map2_stored (e := .u16) (e' := .u16) (fun (x y : BitVec 16) => x + y) vld1q_u16_spec vst1q_u16_spec (fun a b => vaddq_u16_spec a b) m s t dst x y hx hy hw,
      fun hw => update2_stored (e := .u16) (fun (x y : BitVec 16) => x + y) vld1q_u16_spec vst1q_u16_spec (fun a b => vaddq_u16_spec a b) m t s x y hx hy hw⟩
  · exact fun m s t x y hx hy => ⟨fun dst hw => map2_stored (e := .u16) (e' := .u16) (fun (x y : BitVec 16) => x - y) vld1q_u16_spec vst1q_u16_spec (fun a b => vsubq_u16_spec a b) m s t dst x y hx hy hw,
      fun hw => update2_stored (e := .u16) (fun (x y : BitVec 16) => x - y) vld1q_u16_spec vst1q_u16_spec (fun a b => vsubq_u16_spec a b) m t s x y hx hy hw⟩
  · exact fun m s t x y hx hy => ⟨fun dst hw => map2_stored (e := .u16) (e' := .u16) (fun (x y : BitVec 16) => BitVec.ofInt 16 ((((x).toNat : Int) - ((y).toNat : Int)) / 2)) vld1q_u16_spec vst1q_u16_spec (fun a b => vhsubq_u16_spec a b) m s t dst x y hx hy hw,
      fun hw => update2_stored (e := .u16) (fun (x y : BitVec 16) => BitVec.ofInt 16 ((((x).toNat : Int) - ((y).toNat : Int)) / 2)) vld1q_u16_spec vst1q_u16_spec (fun a b => vhsubq_u16_spec a b) m t s x y hx hy hw⟩
  · exact fun m s t x y hx hy => ⟨fun dst hw => map2_stored (e := .u16) (e' := .u16) (fun (x y : BitVec 16) => usat 16 (((x).toNat : Int) - ((y).toNat : Int))) vld1q_u16_spec vst1q_u16_spec (fun a b => vqsubq_u16_spec a b) m s t dst x y hx hy hw,
      fun hw => update2_stored (e := .u16) (fun (x y : BitVec 16) => usat 16 (((x).toNat : Int) - ((y).toNat : Int))) vld1q_u16_spec vst1q_u16_spec (fun a b => vqsubq_u16_spec a b) m t s x y hx hy hw⟩
  · exact fun m s t x y hx hy => ⟨fun dst hw => map2_stored (e := .u16) (e' := .u16) (fun (x y : BitVec 16) => x &&& y) vld1q_u16_spec vst1q_u16_spec (fun a b => vandq_u16_spec a b) m s t dst x y hx hy hw,
      fun hw => update2_stored (e := .u16) (fun (x y : BitVec 16) => x &&& y) vld1q_u16_spec vst1q_u16_spec (fun a b => vandq_u16_spec a b) m t s x y hx hy hw⟩
  · exact fun m s t x y hx hy => ⟨fun dst hw => map2_stored (e := .u16) (e' := .u16) (fun (x y : BitVec 16) => x ||| y) vld1q_u16_spec vst1q_u16_spec (fun a b => vorrq_u16_spec a b) m s t dst x y hx hy hw,
      fun hw => update2_stored (e := .u16) (fun (x y : BitVec 16) => x ||| y) vld1q_u16_spec vst1q_u16_spec (fun a b => vorrq_u16_spec a b) m t s x y hx hy hw⟩
  · exact fun m s t x y hx hy => ⟨fun dst hw => map2_stored (e := .u16) (e' := .u16) (fun (x y : BitVec 16) => x ^^^ y) vld1q_u16_spec vst1q_u16_spec (fun a b => veorq_u16_spec a b) m s t dst x y hx hy hw,
      fun hw => update2_stored (e := .u16) (fun (x y : BitVec 16) => x ^^^ y) vld1q_u16_spec vst1q_u16_spec (fun a b => veorq_u16_spec a b) m t s x y hx hy hw⟩
example := @stream_binary_uint16x8 .strict _ (.head _) 3 (demo .u16 24) (demo .u16 24) _ _ (demo_holds .u16 24) (demo_holds .u16 24)

/-- The loop over `uint16x8_t` registers of any number of blocks applies the listed operation to every element, and is undefined if some element overflows. -/
theorem stream_binary_uint16x8_checked [Dialect] : ∀ fg ∈
      ([(vmulq_u16, fun x y => NoOverflow 32 (((x).toNat : Int) * ((y).toNat : Int)), fun x y => x * y)] :
       List ((uint16x8_t → uint16x8_t → C uint16x8_t) × (BitVec 16 → BitVec 16 → Prop) × (BitVec 16 → BitVec 16 → BitVec 16))),
    ∀ (m : Nat) (s t : Ptr .u16) (x y : Nat → BitVec 16), (∀ j < 8 * m, Holds s j (x j)) → (∀ j < 8 * m, Holds t j (y j)) →
      (∀ dst : Ptr .u16, Writable dst (8 * m) →
        Maps dst (8 * m) (fun j => fg.2.1 (x j) (y j)) (fun j => fg.2.2 (x j) (y j)) (map2 vld1q_u16 fg.1 vst1q_u16 m s t dst)) ∧
      (Writable s (8 * m) →
        Maps s (8 * m) (fun j => fg.2.1 (x j) (y j)) (fun j => fg.2.2 (x j) (y j)) (update2 vld1q_u16 fg.1 vst1q_u16 m t s)) := by
  intro fg hfg
  simp only [List.mem_cons, List.not_mem_nil, or_false] at hfg
  rcases hfg with rfl
  · exact fun m s t x y hx hy => ⟨fun dst hw => map2_maps (e := .u16) (e' := .u16) (fun (x y : BitVec 16) => NoOverflow 32 (((x).toNat : Int) * ((y).toNat : Int))) (fun (x y : BitVec 16) => x * y) vld1q_u16_spec vst1q_u16_spec (fun a b => by dsimp only; rw [vmulq_u16_partial]) m s t dst x y hx hy hw,
      fun hw => update2_maps (e := .u16) (fun (x y : BitVec 16) => NoOverflow 32 (((x).toNat : Int) * ((y).toNat : Int))) (fun (x y : BitVec 16) => x * y) vld1q_u16_spec vst1q_u16_spec (fun a b => by dsimp only; rw [vmulq_u16_partial]) m t s x y hx hy hw⟩
example := @stream_binary_uint16x8_checked .strict _ (.head _) 3 (demo .u16 24) (demo .u16 24) _ _ (demo_holds .u16 24) (demo_holds .u16 24)

/-- The loop over `uint16x8_t` registers of any number of blocks applies the listed operation to every element. -/
theorem stream_unary_uint16x8_uint8x8 : ∀ fg ∈
      ([(vmovn_u16, fun x => (x).setWidth 8),
       (vqmovn_u16, fun x => usat 8 ((x).toNat : Int))] :
       List ((uint16x8_t → C uint8x8_t) × (BitVec 16 → BitVec 8))),
    ∀ (m : Nat) (s : Ptr .u16) (dst : Ptr .u8) (x : Nat → BitVec 16), (∀ j < 8 * m, Holds s j (x j)) → Writable dst (8 * m) →
      ∃ p, map1 vld1q_u16 fg.1 vst1_u8 m s dst = .ok p ∧ Stored dst (fun j : Fin (8 * m) => fg.2 (x j)) p := by
  intro fg hfg
  simp only [List.mem_cons, List.not_mem_nil, or_false] at hfg
  rcases hfg with rfl | rfl
  · exact fun m s dst x hx hw => map1_stored (e := .u16) (e' := .u8) (fun (x : BitVec 16) => (x).setWidth 8) vld1q_u16_spec vst1_u8_spec (fun a => vmovn_u16_spec a) m s dst x hx hw
  · exact fun m s dst x hx hw => map1_stored (e := .u16) (e' := .u8) (fun (x : BitVec 16) => usat 8 ((x).toNat : Int)) vld1q_u16_spec vst1_u8_spec (fun a => vqmovn_u16_spec a) m s dst x hx hw
example := stream_unary_uint16x8_uint8x8 _ (.head _) 3 (demo .u16 24) (demo .u8 24) _ (demo_holds .u16 24) (demo_writable .u8 24)

/-- The loop over `uint16x8_t` registers of any number of blocks applies the listed operation to every element. -/
theorem stream_binary_uint16x8_uint8x8 [Dialect] : ∀ fg ∈
      ([(vsubhn_u16, fun x y => high 8 (x - y)),
       (vrsubhn_u16, fun x y => high 8 (x - y + 128#16))] :
       List ((uint16x8_t → uint16x8_t → C uint8x8_t) × (BitVec 16 → BitVec 16 → BitVec 8))),
    ∀ (m : Nat) (s t : Ptr .u16) (x y : Nat → BitVec 16), (∀ j < 8 * m, Holds s j (x j)) → (∀ j < 8 * m, Holds t j (y j)) →
      (∀ dst : Ptr .u8, Writable dst (8 * m) →
        ∃ p, map2 vld1q_u16 fg.1 vst1_u8 m s t dst = .ok p ∧ Stored dst (fun j : Fin (8 * m) => fg.2 (x j) (y j)) p) := by
  intro fg hfg
  simp only [List.mem_cons, List.not_mem_nil, or_false] at hfg
  rcases hfg with rfl | rfl
  · exact fun m s t x y hx hy => fun dst hw => map2_stored (e := .u16) (e' := .u8) (fun (x y : BitVec 16) => high 8 (x - y)) vld1q_u16_spec vst1_u8_spec (fun a b => vsubhn_u16_spec a b) m s t dst x y hx hy hw
  · exact fun m s t x y hx hy => fun dst hw => map2_stored (e := .u16) (e' := .u8) (fun (x y : BitVec 16) => high 8 (x - y + 128#16)) vld1q_u16_spec vst1_u8_spec (fun a b => vrsubhn_u16_spec a b) m s t dst x y hx hy hw
example := @stream_binary_uint16x8_uint8x8 .strict _ (.head _) 3 (demo .u16 24) (demo .u16 24) _ _ (demo_holds .u16 24) (demo_holds .u16 24)

/-- The loop over `uint32x2_t` registers of any number of blocks applies the listed operation to every element. -/
theorem stream_unary_uint32x2 : ∀ fg ∈
      ([(vmvn_u32, fun x => ~~~ (x))] :
       List ((uint32x2_t → C uint32x2_t) × (BitVec 32 → BitVec 32))),
    ∀ (m : Nat) (s : Ptr .u32) (dst : Ptr .u32) (x : Nat → BitVec 32), (∀ j < 2 * m, Holds s j (x j)) → Writable dst (2 * m) →
      ∃ p, map1 vld1_u32 fg.1 vst1_u32 m s dst = .ok p ∧ Stored dst (fun j : Fin (2 * m) => fg.2 (x j)) p := by
  intro fg hfg
  simp only [List.mem_cons, List.not_mem_nil, or_false] at hfg
  rcases hfg with rfl
  · exact fun m s dst x hx hw => map1_stored (e := .u32) (e' := .u32) (fun (x : BitVec 32) => ~~~ (x)) vld1_u32_spec vst1_u32_spec (fun a => vmvn_u32_spec a) m s dst x hx hw
example := stream_unary_uint32x2 _ (.head _) 3 (demo .u32 6) (demo .u32 6) _ (demo_holds .u32 6) (demo_writable .u32 6)

/-- The loop over `uint32x2_t` registers of any number of blocks applies the listed operation to every element. -/
theorem stream_binary_uint32x2 [Dialect] : ∀ fg ∈
      ([(vadd_u32, fun x y => x + y),
       (vsub_u32, fun x y => x - y),
       (vhsub_u32, fun x y => (x - y) >>> 1),
       (vqsub_u32, fun x y => usat 32 (((x).toNat : Int) - ((y).toNat : Int))),
       (vmul_u32, fun x y => x * y),
       (vand_u32, fun x y => x &&& y),
       (vorr_u32, fun x y => x ||| y),
       (ver_u32, fun x y => x ^^^ y)] :
       List ((uint32x2_t → uint32x2_t → C uint32x2_t) × (BitVec 32 → BitVec 32 → BitVec 32))),
    ∀ (m : Nat) (s t : Ptr .u32) (x y : Nat → BitVec 32), (∀ j < 2 * m, Holds s j (x j)) → (∀ j < 2 * m, Holds t j (y j)) →
      (∀ dst : Ptr .u32, Writable dst (2 * m) →
        ∃ p, map2 vld1_u32 fg.1 vst1_u32 m s t dst = .ok p ∧ Stored dst (fun j : Fin (2 * m) => fg.2 (x j) (y j)) p) ∧
      (Writable s (2 * m) →
        ∃ p, update2 vld1_u32 fg.1 vst1_u32 m t s = .ok p ∧ Stored s (fun j : Fin (2 * m) => fg.2 (x j) (y j)) p) := by
  intro fg hfg
  simp only [List.mem_cons, List.not_mem_nil, or_false] at hfg
  rcases hfg with rfl | rfl | rfl | rfl | rfl | rfl | rfl | rfl
  · exact fun m s t x y hx hy => ⟨fun dst hw => map2_stored (e := .u32) (e' := .u32) (fun (x y : BitVec 32) => x + y) vld1_u32_spec vst1_u32_spec (fun a b => vadd_u32_spec a b) m s t dst x y hx hy hw,
      fun hw => update2_stored (e := .u32) (fun (x y : BitVec 32) => x + y) vld1_u32_spec vst1_u32_spec (fun a b => vadd_u32_spec a b) m t s x y hx hy hw⟩
  · exact fun m s t x y hx hy => ⟨fun dst hw => map2_stored (e := .u32) (e' := .u32) (fun (x y : BitVec 32) => x - y) vld1_u32_spec vst1_u32_spec (fun a b => vsub_u32_spec a b) m s t dst x y hx hy hw,
      fun hw => update2_stored (e := .u32) (fun (x y : BitVec 32) => x - y) vld1_u32_spec vst1_u32_spec (fun a b => vsub_u32_spec a b) m t s x y hx hy hw⟩
  · exact fun m s t x y hx hy => ⟨fun dst hw => map2_stored (e := .u32) (e' := .u32) (fun (x y : BitVec 32) => (x - y) >>> 1) vld1_u32_spec vst1_u32_spec (fun a b => vhsub_u32_partial a b) m s t dst x y hx hy hw,
      fun hw => update2_stored (e := .u32) (fun (x y : BitVec 32) => (x - y) >>> 1) vld1_u32_spec vst1_u32_spec (fun a b => vhsub_u32_partial a b) m t s x y hx hy hw⟩
  · exact fun m s t x y hx hy => ⟨fun dst hw => map2_stored (e := .u32) (e' := .u32) (fun (x y : BitVec 32) => usat 32 (((x).toNat : Int) - ((y).toNat : Int))) vld1_u32_spec vst1_u32_spec (fun a b => vqsub_u32_spec a b) m s t dst x y hx hy hw,
      fun hw => update2_stored (e := .u32) (fun (x y : BitVec 32) => usat 32 (((x).toNat : Int) - ((y).toNat : Int))) vld1_u32_spec vst1_u32_spec (fun a b => vqsub_u32_spec a b) m t s x y hx hy hw⟩
  · exact fun m s t x y hx hy => ⟨fun dst hw => map2_stored (e := .u32) (e' := .u32) (fun (x y : BitVec 32) => x * y) vld1_u32_spec vst1_u32_spec (fun a b => vmul_u32_spec a b) m s t dst x y hx hy hw,
      fun hw => update2_stored (e := .u32) (fun (x y : BitVec 32) => x * y) vld1_u32_spec vst1_u32_spec (fun a b => vmul_u32_spec a b) m t s x y hx hy hw⟩
  · exact fun m s t x y hx hy => ⟨fun dst hw => map2_stored (e := .u32) (e' := .u32) (fun (x y : BitVec 32) => x &&& y) vld1_u32_spec vst1_u32_spec (fun a b => vand_u32_spec a b) m s t dst x y hx hy hw,
      fun hw => update2_stored (e := .u32) (fun (x y : BitVec 32) => x &&& y) vld1_u32_spec vst1_u32_spec (fun a b => vand_u32_spec a b) m t s x y hx hy hw⟩
  · exact fun m s t x y hx hy => ⟨fun dst hw => map2_stored (e := .u32) (e' := .u32) (fun (x y : BitVec 32) => x ||| y) vld1_u32_spec vst1_u32_spec (fun a b => vorr_u32_spec a b) m s t dst x y hx hy hw,
      fun hw => update2_stored (e := .u32) (fun (x y : BitVec 32) => x ||| y) vld1_u32_spec vst1_u32_spec (fun a b => vorr_u32_spec a b) m t s x y hx hy hw⟩
  · exact fun m s t x y hx hy => ⟨fun dst hw => map2_stored (e := .u32) (e' := .u32) (fun (x y : BitVec 32) => x ^^^ y) vld1_u32_spec vst1_u32_spec (fun a b => ver_u32_spec a b) m s t dst x y hx hy hw,
      fun hw => update2_stored (e := .u32) (fun (x y : BitVec 32) => x ^^^ y) vld1_u32_spec vst1_u32_spec (fun a b => ver_u32_spec a b) m t s x y hx hy hw⟩
example := @stream_binary_uint32x2 .strict _ (.head _) 3 (demo .u32 6) (demo .u32 6) _ _ (demo_holds .u32 6) (demo_holds .u32 6)

/-- The loop over `uint32x2_t` registers of any number of blocks applies the listed operation to every element. -/
theorem stream_unary_uint32x2_uint64x2 : ∀ fg ∈
      ([(vmovl_u32, fun x => (x).setWidth 64)] :
       List ((uint32x2_t → C uint64x2_t) × (BitVec 32 → BitVec 64))),
    ∀ (m : Nat) (s : Ptr .u32) (dst : Ptr .u64) (x : Nat → BitVec 32), (∀ j < 2 * m, Holds s j (x j)) → Writable dst (2 * m) →
      ∃ p, map1 vld1_u32 fg.1 vst1q_u64 m s dst = .ok p ∧ Stored dst (fun j : Fin (2 * m) => fg.2 (x j)) p := by
  intro fg hfg
  simp only [List.mem_cons, List.not_mem_nil, or_false] at hfg
  rcases hfg with rfl
  · exact fun m s dst x hx hw => map1_stored (e := .u32) (e' := .u64) (fun (x : BitVec 32) => (x).setWidth 64) vld1_u32_spec vst1q_u64_spec (fun a => vmovl_u32_spec a) m s dst x hx hw
example := stream_unary_uint32x2_uint64x2 _ (.head _) 3 (demo .u32 6) (demo .u64 6) _ (demo_holds .u32 6) (demo_writable .u64 6)

/-- The loop over `uint32x2_t` registers of any number of blocks applies the listed operation to every element. -/
theorem stream_binary_uint32x2_uint64x2 [Dialect] : ∀ fg ∈
      ([(vmull_u32, fun x y => (x * y).setWidth 64)] :
       List ((uint32x2_t → uint32x2_t → C uint64x2_t) × (BitVec 32 → BitVec 32 → BitVec 64))),
    ∀ (m : Nat) (s t : Ptr .u32) (x y : Nat → BitVec 32), (∀ j < 2 * m, Holds s j (x j)) → (∀ j < 2 * m, Holds t j (y j)) →
      (∀ dst : Ptr .u64, Writable dst (2 * m) →
        ∃ p, map2 vld1_u32 fg.1 vst1q_u64 m s t dst = .ok p ∧ Stored dst (fun j : Fin (2 * m) => fg.2 (x j) (y j)) p) := by
  intro fg hfg
  simp only [List.mem_cons, List.not_mem_nil, or_false] at hfg
  rcases hfg with rfl
  · exact fun m s t x y hx hy => fun dst hw => map2_stored (e := .u32) (e' := .u64) (fun (x y : BitVec 32) => (x * y).setWidth 64) vld1_u32_spec vst1q_u64_spec (fun a b => vmull_u32_partial a b) m s t dst x y hx hy hw
example := @stream_binary_uint32x2_uint64x2 .strict _ (.head _) 3 (demo .u32 6) (demo .u32 6) _ _ (demo_holds .u32 6) (demo_holds .u32 6)

/-- The loop over `uint32x4_t` registers of any number of blocks applies the listed operation to every element. -/
theorem stream_unary_uint32x4_uint16x4 : ∀ fg ∈
      ([(vmovn_u32, fun x => (x).setWidth 16)] :
       List ((uint32x4_t → C uint16x4_t) × (BitVec 32 → BitVec 16))),
    ∀ (m : Nat) (s : Ptr .u32) (dst : Ptr .u16) (x : Nat → BitVec 32), (∀ j < 4 * m, Holds s j (x j)) → Writable dst (4 * m) →
      ∃ p, map1 vld1q_u32 fg.1 vst1_u16 m s dst = .ok p ∧ Stored dst (fun j : Fin (4 * m) => fg.2 (x j)) p := by
  intro fg hfg
  simp only [List.mem_cons, List.not_mem_nil, or_false] at hfg
  rcases hfg with rfl
  · exact fun m s dst x hx hw => map1_stored (e := .u32) (e' := .u16) (fun (x : BitVec 32) => (x).setWidth 16) vld1q_u32_spec vst1_u16_spec (fun a => vmovn_u32_spec a) m s dst x hx hw
example := stream_unary_uint32x4_uint16x4 _ (.head _) 3 (demo .u32 12) (demo .u16 12) _ (demo_holds .u32 12) (demo_writable .u16 12)

/-- The loop over `uint32x4_t` registers of any number of blocks applies the listed operation to every element. -/
theorem stream_binary_uint32x4_uint16x4 [Dialect] : ∀ fg ∈
      ([(vsubn_u32, fun x y => ((x - y) >>> 8).setWidth 16),
       (vrsubhn_u32, fun x y => high 16 (x - y + 32768#32))] :
       List ((uint32x4_t → uint32x4_t → C uint16x4_t) × (BitVec 32 → BitVec 32 → BitVec 16))),
    ∀ (m : Nat) (s t : Ptr .u32) (x y : Nat → BitVec 32), (∀ j < 4 * m, Holds s j (x j)) → (∀ j < 4 * m, Holds t j (y j)) →
      (∀ dst : Ptr .u16, Writable dst (4 * m) →
        ∃ p, map2 vld1q_u32 fg.1 vst1_u16 m s t dst = .ok p ∧ Stored dst (fun j : Fin (4 * m) => fg.2 (x j) (y j)) p) := by
  intro fg hfg
  simp only [List.mem_cons, List.not_mem_nil, or_false] at hfg
  rcases hfg with rfl | rfl
  · exact fun m s t x y hx hy => fun dst hw => map2_stored (e := .u32) (e' := .u16) (fun (x y : BitVec 32) => ((x - y) >>> 8).setWidth 16) vld1q_u32_spec vst1_u16_spec (fun a b => vsubn_u32_partial a b) m s t dst x y hx hy hw
  · exact fun m s t x y hx hy => fun dst hw => map2_stored (e := .u32) (e' := .u16) (fun (x y : BitVec 32) => high 16 (x - y + 32768#32)) vld1q_u32_spec vst1_u16_spec (fun a b => vrsubhn_u32_spec a b) m s t dst x y hx hy hw
example := @stream_binary_uint32x4_uint16x4 .strict _ (.head _) 3 (demo .u32 12) (demo .u32 12) _ _ (demo_holds .u32 12) (demo_holds .u32 12)

/-- The loop over `uint32x4_t` registers of any number of blocks applies the listed operation to every element. -/
theorem stream_unary_uint32x4 : ∀ fg ∈
      ([(vmvnq_u32, fun x => ~~~ (x))] :
       List ((uint32x4_t → C uint32x4_t) × (BitVec 32 → BitVec 32))),
    ∀ (m : Nat) (s : Ptr .u32) (dst : Ptr .u32) (x : Nat → BitVec 32), (∀ j < 4 * m, Holds s j (x j)) → Writable dst (4 * m) →
      ∃ p, map1 vld1q_u32 fg.1 vst1q_u32 m s dst = .ok p ∧ Stored dst (fun j : Fin (4 * m) => fg.2 (x j)) p := by
  intro fg hfg
  simp only [List.mem_cons, List.not_mem_nil, or_false] at hfg
  rcases hfg with rfl
  · exact fun m s dst x hx hw => map1_stored (e := .u32) (e' := .u32) (fun (x : BitVec 32) => ~~~ (x)) vld1q_u32_spec vst1q_u32_spec (fun a => vmvnq_u32_spec a) m s dst x hx hw
example := stream_unary_uint32x4 _ (.head _) 3 (demo .u32 12) (demo .u32 12) _ (demo_holds .u32 12) (demo_writable .u32 12)

/-- The loop over `uint32x4_t` registers of any number of blocks applies the listed operation to every element. -/
theorem stream_binary_uint32x4 [Dialect] : ∀ fg ∈
      ([(vaddq_u32, fun x y => x + y),
       (vsubq_u32, fun x y => x - y),
       (vhsubq_u32, fun x y => (x - y) >>> 1),
       (vqsubq_u32, fun x y => usat 32 (((x).toNat : Int) - ((y).toNat : Int))),
       (vmulq_u32, fun x y => x * y),
       (vandq_u32, fun x y => x &&& y),
       (vorrq_u32, fun x y => x ||| y),
       (veorq_u32, fun x y => x ^^^ y)] :
       List ((uint32x4_t → uint32x4_t → C uint32x4_t) × (BitVec 32 → BitVec 32 → BitVec 32))),
    ∀ (m : Nat) (s t : Ptr .u32) (x y : Nat → BitVec 32), (∀ j < 4 * m, Holds s j (x j)) → (∀ j < 4 * m, Holds t j (y j)) →
      (∀ dst : Ptr .u32, Writable dst (4 * m) →
        ∃ p, map2 vld1q_u32 fg.1 vst1q_u32 m s t dst = .ok p ∧ Stored dst (fun j : Fin (4 * m) => fg.2 (x j) (y j)) p) ∧
      (Writable s (4 * m) →
        ∃ p, update2 vld1q_u32 fg.1 vst1q_u32 m t s = .ok p ∧ Stored s (fun j : Fin (4 * m) => fg.2 (x j) (y j)) p) := by
  intro fg hfg
  simp only [List.mem_cons, List.not_mem_nil, or_false] at hfg
  rcases hfg with rfl | rfl | rfl | rfl | rfl | rfl | rfl | rfl
  · exact fun m s t x y hx hy => ⟨fun dst hw => map2_stored (e := .u32) (e' := .u32) (fun (x y : BitVec 32) => x + y) vld1q_u32_spec vst1q_u32_spec (fun a b => vaddq_u32_spec a b) m s t dst x y hx hy hw,
      fun hw => update2_stored (e := .u32) (fun (x y : BitVec 32) => x + y) vld1q_u32_spec vst1q_u32_spec (fun a b => vaddq_u32_spec a b) m t s x y hx hy hw⟩
  · exact fun m s t x y hx hy => ⟨fun dst hw => map2_stored (e := .u32) (e' := .u32) (fun (x y : BitVec 32) => x - y) vld1q_u32_spec vst1q_u32_spec (fun a b => vsubq_u32_spec a b) m s t dst x y hx hy hw,
      fun hw => update2_stored (e := .u32) (fun (x y : BitVec 32) => x - y) vld1q_u32_spec vst1q_u32_spec (fun a b => vsubq_u32_spec a b) m t s x y hx hy hw⟩
  · exact fun m s t x y hx hy => ⟨fun dst hw => map2_stored (e := .u32) (e' := .u32) (fun (x y : BitVec 32) => (x - y) >>> 1) vld1q_u32_spec vst1q_u32_spec (fun a b => vhsubq_u32_partial a b) m s t dst x y hx hy hw,
      fun hw => update2_stored (e := .u32) (fun (x y : BitVec 32) => (x - y) >>> 1) vld1q_u32_spec vst1q_u32_spec (fun a b => vhsubq_u32_partial a b) m t s x y hx hy hw⟩
  · exact fun m s t x y hx hy => ⟨fun dst hw => map2_stored (e := .u32) (e' := .u32) (fun (x y : BitVec 32) => usat 32 (((x).toNat : Int) - ((y).toNat : Int))) vld1q_u32_spec vst1q_u32_spec (fun a b => vqsubq_u32_spec a b) m s t dst x y hx hy hw,
      fun hw => update2_stored (e := .u32) (fun (x y : BitVec 32) => usat 32 (((x).toNat : Int) - ((y).toNat : Int))) vld1q_u32_spec vst1q_u32_spec (fun a b => vqsubq_u32_spec a b) m t s x y hx hy hw⟩
  · exact fun m s t x y hx hy => ⟨fun dst hw => map2_stored (e := .u32) (e' := .u32) (fun (x y : BitVec 32) => x * y) vld1q_u32_spec vst1q_u32_spec (fun a b => vmulq_u32_spec a b) m s t dst x y hx hy hw,
      fun hw => update2_stored (e := .u32) (fun (x y : BitVec 32) => x * y) vld1q_u32_spec vst1q_u32_spec (fun a b => vmulq_u32_spec a b) m t s x y hx hy hw⟩
  · exact fun m s t x y hx hy => ⟨fun dst hw => map2_stored (e := .u32) (e' := .u32) (fun (x y : BitVec 32) => x &&& y) vld1q_u32_spec vst1q_u32_spec (fun a b => vandq_u32_spec a b) m s t dst x y hx hy hw,
      fun hw => update2_stored (e := .u32) (fun (x y : BitVec 32) => x &&& y) vld1q_u32_spec vst1q_u32_spec (fun a b => vandq_u32_spec a b) m t s x y hx hy hw⟩
  · exact fun m s t x y hx hy => ⟨fun dst hw => map2_stored (e := .u32) (e' := .u32) (fun (x y : BitVec 32) => x ||| y) vld1q_u32_spec vst1q_u32_spec (fun a b => vorrq_u32_spec a b) m s t dst x y hx hy hw,
      fun hw => update2_stored (e := .u32) (fun (x y : BitVec 32) => x ||| y) vld1q_u32_spec vst1q_u32_spec (fun a b => vorrq_u32_spec a b) m t s x y hx hy hw⟩
  · exact fun m s t x y hx hy => ⟨fun dst hw => map2_stored (e := .u32) (e' := .u32) (fun (x y : BitVec 32) => x ^^^ y) vld1q_u32_spec vst1q_u32_spec (fun a b => veorq_u32_spec a b) m s t dst x y hx hy hw,
      fun hw => update2_stored (e := .u32) (fun (x y : BitVec 32) => x ^^^ y) vld1q_u32_spec vst1q_u32_spec (fun a b => veorq_u32_spec a b) m t s x y hx hy hw⟩
example := @stream_binary_uint32x4 .strict _ (.head _) 3 (demo .u32 12) (demo .u32 12) _ _ (demo_holds .u32 12) (demo_holds .u32 12)

/-- The loop over `uint64x1_t` registers of any number of blocks applies the listed operation to every element. -/
theorem stream_binary_uint64x1 [Dialect] : ∀ fg ∈
      ([(vadd_u64, fun x y => x + y),
       (vsub_u64, fun x y => x - y),
       (vand_u64, fun x y => x &&& y),
       (vorr_u64, fun x y => x ||| y),
       (veor_u64, fun x y => x ^^^ y)] :
       List ((uint64x1_t → uint64x1_t → C uint64x1_t) × (BitVec 64 → BitVec 64 → BitVec 64))),
    ∀ (m : Nat) (s t : Ptr .u64) (x y : Nat → BitVec 64), (∀ j < 1 * m, Holds s j (x j)) → (∀ j < 1 * m, Holds t j (y j)) →
      (∀ dst : Ptr .u64, Writable dst (1 * m) →
        ∃ p, map2 vld1_u64 fg.1 vst1_u64 m s t dst = .ok p ∧ Stored dst (fun j : Fin (1 * m) => fg.2 (x j) (y j)) p) ∧
      (Writable s (1 * m) →
        ∃ p, update2 vld1_u64 fg.1 vst1_u64 m t s = .ok p ∧ Stored s (fun j : Fin (1 * m) => fg.2 (x j) (y j)) p) := by
  intro fg hfg
  simp only [List.mem_cons, List.not_mem_nil, or_false] at hfg
  rcases hfg with rfl | rfl | rfl | rfl | rfl
  · exact fun m s t x y hx hy => ⟨fun dst hw => map2_stored (e := .u64) (e' := .u64) (fun (x y : BitVec 64) => x + y) vld1_u64_spec vst1_u64_spec (fun a b => vadd_u64_spec a b) m s t dst x y hx hy hw,
      fun hw => update2_stored (e := .u64) (fun (x y : BitVec 64) => x + y) vld1_u64_spec vst1_u64_spec (fun a b => vadd_u64_spec a b) m t s x y hx hy hw⟩
  · exact fun m s t x y hx hy => ⟨fun dst hw => map2_stored (e := .u64) (e' := .u64) (fun (x y : BitVec 64) => x - y) vld1_u64_spec vst1_u64_spec (fun a b => vsub_u64_spec a b) m s t dst x y hx hy hw,
      fun hw => update2_stored (e := .u64) (fun (x y : BitVec 64) => x - y) vld1_u64_spec vst1_u64_spec (fun a b => vsub_u64_spec a b) m t s x y hx hy hw⟩
  · exact fun m s t x y hx hy => ⟨fun dst hw => map2_stored (e := .u64) (e' := .u64) (fun (x y : BitVec 64) => x &&& y) vld1_u64_spec vst1_u64_spec (fun a b => vand_u64_spec a b) m s t dst x y hx hy hw,
      fun hw => update2_stored (e := .u64) (fun (x y : BitVec 64) => x &&& y) vld1_u64_spec vst1_u64_spec (fun a b => vand_u64_spec a b) m t s x y hx hy hw⟩
  · exact fun m s t x y hx hy => ⟨fun dst hw => map2_stored (e := .u64) (e' := .u64) (fun (x y : BitVec 64) => x ||| y) vld1_u64_spec vst1_u64_spec (fun a b => vorr_u64_spec a b) m s t dst x y hx hy hw,
      fun hw => update2_stored (e := .u64) (fun (x y : BitVec 64) => x ||| y) vld1_u64_spec vst1_u64_spec (fun a b => vorr_u64_spec a b) m t s x y hx hy hw⟩
  · exact fun m s t x y hx hy => ⟨fun dst hw => map2_stored (e := .u64) (e' := .u64) (fun (x y : BitVec 64) => x ^^^ y) vld1_u64_spec vst1_u64_spec (fun a b => veor_u64_spec a b) m s t dst x y hx hy hw,
      fun hw => update2_stored (e := .u64) (fun (x y : BitVec 64) => x ^^^ y) vld1_u64_spec vst1_u64_spec (fun a b => veor_u64_spec a b) m t s x y hx hy hw⟩
example := @stream_binary_uint64x1 .strict _ (.head _) 3 (demo .u64 3) (demo .u64 3) _ _ (demo_holds .u64 3) (demo_holds .u64 3)

/-- The loop over `uint64x2_t` registers of any number of blocks applies the listed operation to every element. -/
theorem stream_binary_uint64x2_uint32x2 [Dialect] : ∀ fg ∈
      ([(vsubn_u64, fun x y => ((x - y) >>> 8).setWidth 32),
       (vrsubhn_u64, fun x y => high 32 (x - y + 18446744071562067968#64))] :
       List ((uint64x2_t → uint64x2_t → C uint32x2_t) × (BitVec 64 → BitVec 64 → BitVec 32))),
    ∀ (m : Nat) (s t : Ptr .u64) (x y : Nat → BitVec 64), (∀ j < 2 * m, Holds s j (x j)) → (∀ j < 2 * m, Holds t j (y j)) →
      (∀ dst : Ptr .u32, Writable dst (2 * m) →
        ∃ p, map2 vld1q_u64 fg.1 vst1_u32 m s t dst = .ok p ∧ Stored dst (fun j : Fin (2 * m) => fg.2 (x j) (y j)) p) := by
  intro fg hfg
  simp only [List.mem_cons, List.not_mem_nil, or_false] at hfg
  rcases hfg with rfl | rfl
  · exact fun m s t x y hx hy => fun dst hw => map2_stored (e := .u64) (e' := .u32) (fun (x y : BitVec 64) => ((x - y) >>> 8).setWidth 32) vld1q_u64_spec vst1_u32_spec (fun a b => vsubn_u64_partial a b) m s t dst x y hx hy hw
  · exact fun m s t x y hx hy => fun dst hw => map2_stored (e := .u64) (e' := .u32) (fun (x y : BitVec 64) => high 32 (x - y + 18446744071562067968#64)) vld1q_u64_spec vst1_u32_spec (fun a b => vrsubhn_u64_partial a b) m s t dst x y hx hy hw
example := @stream_binary_uint64x2_uint32x2 .strict _ (.head _) 3 (demo .u64 6) (demo .u64 6) _ _ (demo_holds .u64 6) (demo_holds .u64 6)

/-- The loop over `uint64x2_t` registers of any number of blocks applies the listed operation to every element. -/
theorem stream_binary_uint64x2 [Dialect] : ∀ fg ∈
      ([(vaddq_u64, fun x y => x + y),
       (vsubq_u64, fun x y => x - y),
       (vandq_u64, fun x y => x &&& y),
       (vorrq_u64, fun x y => x ||| y),
       (veorq_u64, fun x y => x ^^^ y)] :
       List ((uint64x2_t → uint64x2_t → C uint64x2_t) × (BitVec 64 → BitVec 64 → BitVec 64))),
    ∀ (m : Nat) (s t : Ptr .u64) (x y : Nat → BitVec 64), (∀ j < 2 * m, Holds s j (x j)) → (∀ j < 2 * m, Holds t j (y j)) →
      (∀ dst : Ptr .u64, Writable dst (2 * m) →
        ∃ p, map2 vld1q_u64 fg.1 vst1q_u64 m s t dst = .ok p ∧ Stored dst (fun j : Fin (2 * m) => fg.2 (x j) (y j)) p) ∧
      (Writable s (2 * m) →
        ∃ p, update2 vld1q_u64 fg.1 vst1q_u64 m t s = .ok p ∧ Stored s (fun j : Fin (2 * m) => fg.2 (x j) (y j)) p) := by
  intro fg hfg
  simp only [List.mem_cons, List.not_mem_nil, or_false] at hfg
  rcases hfg with rfl | rfl | rfl | rfl | rfl
  · exact fun m s t x y hx hy => ⟨fun dst hw => map2_stored (e := .u64) (e' := .u64) (fun (x y : BitVec 64) => x + y) vld1q_u64_spec vst1q_u64_spec (fun a b => vaddq_u64_spec a b) m s t dst x y hx hy hw,
      fun hw => update2_stored (e := .u64) (fun (x y : BitVec 64) => x + y) vld1q_u64_spec vst1q_u64_spec (fun a b => vaddq_u64_spec a b) m t s x y hx hy hw⟩
  · exact fun m s t x y hx hy => ⟨fun dst hw => map2_stored (e := .u64) (e' := .u64) (fun (x y : BitVec 64) => x - y) vld1q_u64_spec vst1q_u64_spec (fun a b => vsubq_u64_spec a b) m s t dst x y hx hy hw,
      fun hw => update2_stored (e := .u64) (fun (x y : BitVec 64) => x - y) vld1q_u64_spec vst1q_u64_spec (fun a b => vsubq_u64_spec a b) m t s x y hx hy hw⟩
  · exact fun m s t x y hx hy => ⟨fun dst hw => map2_stored (e := .u64) (e' := .u64) (fun (x y : BitVec 64) => x &&& y) vld1q_u64_spec vst1q_u64_spec (fun a b => vandq_u64_spec a b) m s t dst x y hx hy hw,
      fun hw => update2_stored (e := .u64) (fun (x y : BitVec 64) => x &&& y) vld1q_u64_spec vst1q_u64_spec (fun a b => vandq_u64_spec a b) m t s x y hx hy hw⟩
  · exact fun m s t x y hx hy => ⟨fun dst hw => map2_stored (e := .u64) (e' := .u64) (fun (x y : BitVec 64) => x ||| y) vld1q_u64_spec vst1q_u64_spec (fun a b => vorrq_u64_spec a b) m s t dst x y hx hy hw,
      fun hw => update2_stored (e := .u64) (fun (x y : BitVec 64) => x ||| y) vld1q_u64_spec vst1q_u64_spec (fun a b => vorrq_u64_spec a b) m t s x y hx hy hw⟩
  · exact fun m s t x y hx hy => ⟨fun dst hw => map2_stored (e := .u64) (e' := .u64) (fun (x y : BitVec 64) => x ^^^ y) vld1q_u64_spec vst1q_u64_spec (fun a b => veorq_u64_spec a b) m s t dst x y hx hy hw,
      fun hw => update2_stored (e := .u64) (fun (x y : BitVec 64) => x ^^^ y) vld1q_u64_spec vst1q_u64_spec (fun a b => veorq_u64_spec a b) m t s x y hx hy hw⟩
example := @stream_binary_uint64x2 .strict _ (.head _) 3 (demo .u64 6) (demo .u64 6) _ _ (demo_holds .u64 6) (demo_holds .u64 6)

/-- The loop over `uint8x16_t` registers of any number of blocks applies the listed operation to every element. -/
theorem stream_unary_uint8x16 : ∀ fg ∈
      ([(vmvnq_u8, fun x => ~~~ (x))] :
       List ((uint8x16_t → C uint8x16_t) × (BitVec 8 → BitVec 8))),
    ∀ (m : Nat) (s : Ptr .u8) (dst : Ptr .u8) (x : Nat → BitVec 8), (∀ j < 16 * m, Holds s j (x j)) → Writable dst (16 * m) →
      ∃ p, map1 vld1q_u8 fg.1 vst1q_u8 m s dst = .ok p ∧ Stored dst (fun j : Fin (16 * m) => fg.2 (x j)) p := by
  intro fg hfg
  simp only [List.mem_cons, List.not_mem_nil, or_false] at hfg
  rcases hfg with rfl
  · exact fun m s dst x hx hw => map1_stored (e := .u8) (e' := .u8) (fun (x : BitVec 8) => ~~~ (x)) vld1q_u8_spec vst1q_u8_spec (fun a => vmvnq_u8_spec a) m s dst x hx hw
example := stream_unary_uint8x16 _ (.head _) 3 (demo .u8 48) (demo .u8 48) _ (demo_holds .u8 48) (demo_writable .u8 48)

/-- The loop over `uint8x16_t` registers of any number of blocks applies the listed operation to every element. -/
theorem stream_binary_uint8x16 [Dialect] : ∀ fg ∈
      ([(vaddq_u8, fun x y => x + y),
       (vqaddq_u8, fun x y => usat 8 (((x).toNat : Int) + ((y).toNat : Int))),
       (vsubq_u8, fun x y => x - y),
       (vhsubq_u8, fun x y => BitVec.ofInt 8 ((((x).toNat : Int) - ((y).toNat : Int)) / 2)),
       (vqsubq_u8, fun x y => usat 8 (((x).toNat : Int) - ((y).toNat : Int))),
       (vmulq_u8, fun x y => x * y),
       (vcgtq_u8, fun x y => mask 8 ((y).toNat < (x).toNat)),
       (vandq_u8, fun x y => x &&& y),
       (vorrq_u8, fun x y => x ||| y),
       (veorq_u8, fun x y => x ^^^ y)] :
       List ((uint8x16_t → uint8x16_t → C uint8x16_t) × (BitVec 8 → BitVec 8 → BitVec 8))),
    ∀ (m : Nat) (s t : Ptr .u8) (x y : Nat → BitVec 8), (∀ j < 16 * m, Holds s j (x j)) → (∀ j < 16 * m, Holds t j (y j)) →
      (∀ dst : Ptr .u8, Writable dst (16 * m) →
        ∃ p, map2 vld1q_u8 fg.1 vst1q_u8 m s t dst = .ok p ∧ Stored dst (fun j : Fin (16 * m) => fg.2 (x j) (y j)) p) ∧
      (Writable s (16 * m) →
        ∃ p, update2 vld1q_u8 fg.1 vst1q_u8 m t s = .ok p ∧ Stored s (fun j : Fin (16 * m) => fg.2 (x j) (y j)) p) := by
  intro fg hfg
  simp only [List.mem_cons, List.not_mem_nil, or_false] at hfg
  rcases hfg with rfl | rfl | rfl | rfl | rfl | rfl | rfl | rfl | rfl | rfl
  · exact fun m s t x y hx hy => ⟨fun dst hw => map2_stored (e := .u8) (e' := .u8) (fun (x y : BitVec 8) => x + y) vld1q_u8_spec vst1q_u8_spec (fun a b => vaddq_u8_spec a b) m s t dst x y hx hy hw,
      fun hw => update2_stored (e := .u8) (fun (x y : BitVec 8) => x + y) vld1q_u8_spec vst1q_u8_spec (fun a b => vaddq_u8_spec a b) m t s x y hx hy hw⟩
  · exact fun m s t x y hx hy => ⟨fun dst hw => map2_stored (e := .u8) (e' := .u8) (fun (x y : BitVec 8) => usat 8 (((x).toNat : Int) + ((y).toNat : Int))) vld1q_u8_spec vst1q_u8_spec (fun a b => vqaddq_u8_spec a b) m s t dst x y hx hy hw,
      fun hw => update2_stored (e := .u8) (fun (x y : BitVec 8) => usat 8 (((x).toNat : Int) + ((y).toNat : Int))) vld1q_u8_spec vst1q_u8_spec (fun a b => vqaddq_u8_spec a b) m t s x y hx hy hw⟩
  · exact fun m s t x y hx hy => ⟨fun dst hw => map2_stored (e := .u8) (e' := .u8) (fun (x y : BitVec 8) => x - y) vld1q_u8_spec vst1q_u8_spec (fun a b => vsubq_u8_spec a b) m s t dst x y hx hy hw,
      fun hw => update2_stored (e := .u8) (fun (x y : BitVec 8) => x - y) vld1q_u8_spec vst1q_u8_spec (fun a b => vsubq_u8_spec a b) m t s x y hx hy hw⟩
  · exact fun m s t x y hx hy => ⟨fun dst hw => map2_stored (e := .u8) (e' := .u8) (fun (x y : BitVec 8) => BitVec.ofInt 8 ((((x).toNat : Int) - ((y).toNat : Int)) / 2)) vld1q_u8_spec vst1q_u8_spec (fun a b => vhsubq_u8_spec a b) m s t dst x y hx hy hw,
      fun hw => update2_stored (e := .u8) (fun (x y : BitVec 8) => BitVec.ofInt 8 ((((x).toNat : Int) - ((y).toNat : Int)) / 2)) vld1q_u8_spec vst1q_u8_spec (fun a b => vhsubq_u8_spec a b) m t s x y hx hy hw⟩
  · exact fun m s t x y hx hy => ⟨fun dst hw => map2_stored (e := .u8) (e' := .u8) (fun (x y : BitVec 8) => usat 8 (((x).toNat : Int) - ((y).toNat : Int))) vld1q_u8_spec vst1q_u8_spec (fun a b => vqsubq_u8_spec a b) m s t dst x y hx hy hw,
      fun hw => update2_stored (e := .u8) (fun (x y : BitVec 8) => usat 8 (((x).toNat : Int) - ((y).toNat : Int))) vld1q_u8_spec vst1q_u8_spec (fun a b => vqsubq_u8_spec a b) m t s x y hx hy hw⟩
  · exact fun m s t x y hx hy => ⟨fun dst hw => map2_stored (e := .u8) (e' := .u8) (fun (x y : BitVec 8) => x * y) vld1q_u8_spec vst1q_u8_spec (fun a b => vmulq_u8_spec a b) m s t dst x y hx hy hw,
      fun hw => update2_stored (e := .u8) (fun (x y : BitVec 8) => x * y) vld1q_u8_spec vst1q_u8_spec (fun a b => vmulq_u8_spec a b) m t s x y hx hy hw⟩
  · exact fun m s t x y hx hy => ⟨fun dst hw => map2_stored (e := .u8) (e' := .u8) (fun (x y : BitVec 8) => mask 8 ((y).toNat < (x).toNat)) vld1q_u8_spec vst1q_u8_spec (fun a b => vcgtq_u8_spec a b) m s t dst x y hx hy hw,
      fun hw => update2_stored (e := .u8) (fun (x y : BitVec 8) => mask 8 ((y).toNat < (x).toNat)) vld1q_u8_spec vst1q_u8_spec (fun a b => vcgtq_u8_spec a b) m t s x y hx hy hw⟩
  · exact fun m s t x y hx hy => ⟨fun dst hw => map2_stored (e := .u8) (e' := .u8) (fun (x y : BitVec 8) => x &&& y) vld1q_u8_spec vst1q_u8_spec (fun a b => vandq_u8_spec a b) m s t dst x y hx hy hw,
      fun hw => update2_stored (e := .u8) (fun (x y : BitVec 8) => x &&& y) vld1q_u8_spec vst1q_u8_spec (fun a b => vandq_u8_spec a b) m t s x y hx hy hw⟩
  · exact fun m s t x y hx hy => ⟨fun dst hw => map2_stored (e := .u8) (e' := .u8) (fun (x y : BitVec 8) => x ||| y) vld1q_u8_spec vst1q_u8_spec (fun a b => vorrq_u8_spec a b) m s t dst x y hx hy hw,
      fun hw => update2_stored (e := .u8) (fun (x y : BitVec 8) => x ||| y) vld1q_u8_spec vst1q_u8_spec (fun a b => vorrq_u8_spec a b) m t s x y hx hy hw⟩
  · exact fun m s t x y hx hy => ⟨fun dst hw => map2_stored (e := .u8) (e' := .u8) (fun (x y : BitVec 8) => x ^^^ y) vld1q_u8_spec vst1q_u8_spec (fun a b => veorq_u8_spec a b) m s t dst x y hx hy hw,
      fun hw => update2_stored (e := .u8) (fun (x y : BitVec 8) => x ^^^ y) vld1q_u8_spec vst1q_u8_spec (fun a b => veorq_u8_spec a b) m t s x y hx hy hw⟩
example := @stream_binary_uint8x16 .strict _ (.head _) 3 (demo .u8 48) (demo .u8 48) _ _ (demo_holds .u8 48) (demo_holds .u8 48)

/-- The loop over `uint8x8_t` registers of any number of blocks applies the listed operation to every element. -/
theorem stream_unary_uint8x8_uint16x8 : ∀ fg ∈
      ([(vmovl_u8, fun x => (x).setWidth 16)] :
       List ((uint8x8_t → C uint16x8_t) × (BitVec 8 → BitVec 16))),
    ∀ (m : Nat) (s : Ptr .u8) (dst : Ptr .u16) (x : Nat → BitVec 8), (∀ j < 8 * m, Holds s j (x j)) → Writable dst (8 * m) →
      ∃ p, map1 vld1_u8 fg.1 vst1q_u16 m s dst = .ok p ∧ Stored dst (fun j : Fin (8 * m) => fg.2 (x j)) p := by
  intro fg hfg
  simp only [List.mem_cons, List.not_mem_nil, or_false] at hfg
  rcases hfg with rfl
  · exact fun m s dst x hx hw => map1_stored (e := .u8) (e' := .u16) (fun (x : BitVec 8) => (x).setWidth 16) vld1_u8_spec vst1q_u16_spec (fun a => vmovl_u8_spec a) m s dst x hx hw
example := stream_unary_uint8x8_uint16x8 _ (.head _) 3 (demo .u8 24) (demo .u16 24) _ (demo_holds .u8 24) (demo_writable .u16 24)

/-- The loop over `uint8x8_t` registers of any number of blocks applies the listed operation to every element. -/
theorem stream_binary_uint8x8_uint16x8 [Dialect] : ∀ fg ∈
      ([(vaddl_u8, fun x y => (x).setWidth 16 + (y).setWidth 16),
       (vsubl_u8, fun x y => (x).setWidth 16 - (y).setWidth 16),
       (vmull_u8, fun x y => (x).setWidth 16 * (y).setWidth 16)] :
       List ((uint8x8_t → uint8x8_t → C uint16x8_t) × (BitVec 8 → BitVec 8 → BitVec 16))),
    ∀ (m : Nat) (s t : Ptr .u8) (x y : Nat → BitVec 8), (∀ j < 8 * m, Holds s j (x j)) → (∀ j < 8 * m, Holds t j (y j)) →
      (∀ dst : Ptr .u16, Writable dst (8 * m) →
        ∃ p, map2 vld1_u8 fg.1 vst1q_u16 m s t dst = .ok p ∧ Stored dst (fun j : Fin (8 * m) => fg.2 (x j) (y j)) p) := by
  intro fg hfg
  simp only [List.mem_cons, List.not_mem_nil, or_false] at hfg
  rcases hfg with rfl | rfl | rfl
  · exact fun m s t x y hx hy => fun dst hw => map2_stored (e := .u8) (e' := .u16) (fun (x y : BitVec 8) => (x).setWidth 16 + (y).setWidth 16) vld1_u8_spec vst1q_u16_spec (fun a b => vaddl_u8_spec a b) m s t dst x y hx hy hw
  · exact fun m s t x y hx hy => fun dst hw => map2_stored (e := .u8) (e' := .u16) (fun (x y : BitVec 8) => (x).setWidth 16 - (y).setWidth 16) vld1_u8_spec vst1q_u16_spec (fun a b => vsubl_u8_spec a b) m s t dst x y hx hy hw
  · exact fun m s t x y hx hy => fun dst hw => map2_stored (e := .u8) (e' := .u16) (fun (x y : BitVec 8) => (x).setWidth 16 * (y).setWidth 16) vld1_u8_spec vst1q_u16_spec (fun a b => vmull_u8_spec a b) m s t dst x y hx hy hw
example := @stream_binary_uint8x8_uint16x8 .strict _ (.head _) 3 (demo .u8 24) (demo .u8 24) _ _ (demo_holds .u8 24) (demo_holds .u8 24)

/-- The loop over `uint8x8_t` registers of any number of blocks applies the listed operation to every element. -/
theorem stream_unary_uint8x8 : ∀ fg ∈
      ([(vmvn_u8, fun x => ~~~ (x))] :
       List ((uint8x8_t → C uint8x8_t) × (BitVec 8 → BitVec 8))),
    ∀ (m : Nat) (s : Ptr .u8) (dst : Ptr .u8) (x : Nat → BitVec 8), (∀ j < 8 * m, Holds s j (x j)) → Writable dst (8 * m) →
      ∃ p, map1 vld1_u8 fg.1 vst1_u8 m s dst = .ok p ∧ Stored dst (fun j : Fin (8 * m) => fg.2 (x j)) p := by
  intro fg hfg
  simp only [List.mem_cons, List.not_mem_nil, or_false] at hfg
  rcases hfg with rfl
  · exact fun m s dst x hx hw => map1_stored (e := .u8) (e' := .u8) (fun (x : BitVec 8) => ~~~ (x)) vld1_u8_spec vst1_u8_spec (fun a => vmvn_u8_spec a) m s dst x hx hw
example := stream_unary_uint8x8 _ (.head _) 3 (demo .u8 24) (demo .u8 24) _ (demo_holds .u8 24) (demo_writable .u8 24)

/-- The loop over `uint8x8_t` registers of any number of blocks applies the listed operation to every element. -/
theorem stream_binary_uint8x8 [Dialect] : ∀ fg ∈
      ([(vadd_u8, fun x y => x + y),
       (vqadd_u8, fun x y => usat 8 (((x).toNat : Int) + ((y).toNat : Int))),
       (vsub_u8, fun x y => x - y),
       (vhsub_u8, fun x y => BitVec.ofInt 8 ((((x).toNat : Int) - ((y).toNat : Int)) / 2)),
       (vqsub_u8, fun x y => usat 8 (((x).toNat : Int) - ((y).toNat : Int))),
       (vmul_u8, fun x y => x * y),
       (vand_u8, fun x y => x &&& y),
       (vorr_u8, fun x y => x ||| y),
       (veor_u8, fun x y => x ^^^ y)] :
       List ((uint8x8_t → uint8x8_t → C uint8x8_t) × (BitVec 8 → BitVec 8 → BitVec 8))),
    ∀ (m : Nat) (s t : Ptr .u8) (x y : Nat → BitVec 8), (∀ j < 8 * m, Holds s j (x j)) → (∀ j < 8 * m, Holds t j (y j)) →
      (∀ dst : Ptr .u8, Writable dst (8 * m) →
        ∃ p, map2 vld1_u8 fg.1 vst1_u8 m s t dst = .ok p ∧ Stored dst (fun j : Fin (8 * m) => fg.2 (x j) (y j)) p) ∧
      (Writable s (8 * m) →
        ∃ p, update2 vld1_u8 fg.1 vst1_u8 m t s = .ok p ∧ Stored s (fun j : Fin (8 * m) => fg.2 (x j) (y j)) p) := by
  intro fg hfg
  simp only [List.mem_cons, List.not_mem_nil, or_false] at hfg
  rcases hfg with rfl | rfl | rfl | rfl | rfl | rfl | rfl | rfl | rfl
  · exact fun m s t x y hx hy => ⟨fun dst hw => map2_stored (e := .u8) (e' := .u8) (fun (x y : BitVec 8) => x + y) vld1_u8_spec vst1_u8_spec (fun a b => vadd_u8_spec a b) m s t dst x y hx hy hw,
      fun hw => update2_stored (e := .u8) (fun (x y : BitVec 8) => x + y) vld1_u8_spec vst1_u8_spec (fun a b => vadd_u8_spec a b) m t s x y hx hy hw⟩
  · exact fun m s t x y hx hy => ⟨fun dst hw => map2_stored (e := .u8) (e' := .u8) (fun (x y : BitVec 8) => usat 8 (((x).toNat : Int) + ((y).toNat : Int))) vld1_u8_spec vst1_u8_spec (fun a b => vqadd_u8_spec a b) m s t dst x y hx hy hw,
      fun hw => update2_stored (e := .u8) (fun (x y : BitVec 8) => usat 8 (((x).toNat : Int) + ((y).toNat : Int))) vld1_u8_spec vst1_u8_spec (fun a b => vqadd_u8_spec a b) m t s x y hx hy hw⟩
  · exact fun m s t x y hx hy => ⟨fun dst hw => map2_stored (e := .u8) (e' := .u8) (fun (x y : BitVec 8) => x - y) vld1_u8_spec vst1_u8_spec (fun a b => vsub_u8_spec a b) m s t dst x y hx hy hw,
      fun hw => update2_stored (e := .u8) (fun (x y : BitVec 8) => x - y) vld1_u8_spec vst1_u8_spec (fun a b => vsub_u8_spec a b) m t s x y hx hy hw⟩
  · exact fun m s t x y hx hy => ⟨fun dst hw => map2_stored (e := .u8) (e' := .u8) (fun (x y : BitVec 8) => BitVec.ofInt 8 ((((x).toNat : Int) - ((y).toNat : Int)) / 2)) vld1_u8_spec vst1_u8_spec (fun a b => vhsub_u8_spec a b) m s t dst x y hx hy hw,
      fun hw => update2_stored (e := .u8) (fun (x y : BitVec 8) => BitVec.ofInt 8 ((((x).toNat : Int) - ((y).toNat : Int)) / 2)) vld1_u8_spec vst1_u8_spec (fun a b => vhsub_u8_spec a b) m t s x y hx hy hw⟩
  · exact fun m s t x y hx hy => ⟨fun dst hw => map2_stored (e := .u8) (e' := .u8) (fun (x y : BitVec 8) => usat 8 (((x).toNat : Int) - ((y).toNat : Int))) vld1_u8_spec vst1_u8_spec (fun a b => vqsub_u8_spec a b) m s t dst x y hx hy hw,
      fun hw => update2_stored (e := .u8) (fun (x y : BitVec 8) => usat 8 (((x).toNat : Int) - ((y).toNat : Int))) vld1_u8_spec vst1_u8_spec (fun a b => vqsub_u8_spec a b) m t s x y hx hy hw⟩
  · exact fun m s t x y hx hy => ⟨fun dst hw => map2_stored (e := .u8) (e' := .u8) (fun (x y : BitVec 8) => x * y) vld1_u8_spec vst1_u8_spec (fun a b => vmul_u8_spec a b) m s t dst x y hx hy hw,
      fun hw => update2_stored (e := .u8) (fun (x y : BitVec 8) => x * y) vld1_u8_spec vst1_u8_spec (fun a b => vmul_u8_spec a b) m t s x y hx hy hw⟩
  · exact fun m s t x y hx hy => ⟨fun dst hw => map2_stored (e := .u8) (e' := .u8) (fun (x y : BitVec 8) => x &&& y) vld1_u8_spec vst1_u8_spec (fun a b => vand_u8_spec a b) m s t dst x y hx hy hw,
      fun hw => update2_stored (e := .u8) (fun (x y : BitVec 8) => x &&& y) vld1_u8_spec vst1_u8_spec (fun a b => vand_u8_spec a b) m t s x y hx hy hw⟩
  · exact fun m s t x y hx hy => ⟨fun dst hw => map2_stored (e := .u8) (e' := .u8) (fun (x y : BitVec 8) => x ||| y) vld1_u8_spec vst1_u8_spec (fun a b => vorr_u8_spec a b) m s t dst x y hx hy hw,
      fun hw => update2_stored (e := .u8) (fun (x y : BitVec 8) => x ||| y) vld1_u8_spec vst1_u8_spec (fun a b => vorr_u8_spec a b) m t s x y hx hy hw⟩
  · exact fun m s t x y hx hy => ⟨fun dst hw => map2_stored (e := .u8) (e' := .u8) (fun (x y : BitVec 8) => x ^^^ y) vld1_u8_spec vst1_u8_spec (fun a b => veor_u8_spec a b) m s t dst x y hx hy hw,
      fun hw => update2_stored (e := .u8) (fun (x y : BitVec 8) => x ^^^ y) vld1_u8_spec vst1_u8_spec (fun a b => veor_u8_spec a b) m t s x y hx hy hw⟩
example := @stream_binary_uint8x8 .strict _ (.head _) 3 (demo .u8 24) (demo .u8 24) _ _ (demo_holds .u8 24) (demo_holds .u8 24)

/-- The accumulation loop over any number of blocks of `float32x2_t` folds the listed operation over every 2-th element, lane by lane. -/
theorem fold_unary_float32x2 [Dialect] : ∀ fg ∈
      ([(vsub_f32, fun a x => BitVec.ofNat 32 (Fmt.b32.sub (a).toNat (x).toNat)),
       (vdiv_f32, fun a x => BitVec.ofNat 32 (Fmt.b32.div (a).toNat (x).toNat))] :
       List ((float32x2_t → float32x2_t → C float32x2_t) × (BitVec 32 → BitVec 32 → BitVec 32))),
    ∀ (m : Nat) (s : Ptr .f32) (x : Nat → BitVec 32), (∀ j < 2 * m, Holds s j (x j)) → ∀ acc : float32x2_t,
      fold1 vld1_f32 fg.1 m s acc =
        .ok ⟨fun j => (List.range m).foldl (fun a k => fg.2 a (x (2 * k + j))) (acc.lane j)⟩ := by
  intro fg hfg
  simp only [List.mem_cons, List.not_mem_nil, or_false] at hfg
  rcases hfg with rfl | rfl
  · exact fun m s x hx acc => fold1_ok (e := .f32) (e' := .f32) (fun (a : BitVec 32) (x : BitVec 32) => BitVec.ofNat 32 (Fmt.b32.sub (a).toNat (x).toNat)) vld1_f32_spec (fun a b => vsub_f32_eval a b) m s x hx acc
  · exact fun m s x hx acc => fold1_ok (e := .f32) (e' := .f32) (fun (a : BitVec 32) (x : BitVec 32) => BitVec.ofNat 32 (Fmt.b32.div (a).toNat (x).toNat)) vld1_f32_spec (fun a b => vdiv_f32_eval a b) m s x hx acc
example := @fold_unary_float32x2 .strict _ (.head _) 3 (demo .f32 6) _ (demo_holds .f32 6)

/-- The accumulation loop over any number of blocks of `float32x4_t` folds the listed operation over every 4-th element, lane by lane. -/
theorem fold_unary_float32x4 [Dialect] : ∀ fg ∈
      ([(vmaxq_f32, fun a x => if Less32 (x) (a) then a else x),
       (vaddq_f32, fun a x => BitVec.ofNat 32 (Fmt.b32.add (a).toNat (x).toNat)),
       (vsubq_f32, fun a x => BitVec.ofNat 32 (Fmt.b32.sub (a).toNat (x).toNat)),
       (vmulq_f32, fun a x => BitVec.ofNat 32 (Fmt.b32.mul (a).toNat (x).toNat)),
       (vminq_f32, fun a x => if Less32 (a) (x) then a else x),
       (vrecpsq_f32, fun a x => BitVec.ofNat 32 (stepBits (a).toNat (x).toNat)),
       (vdivq_f32, fun a x => BitVec.ofNat 32 (Fmt.b32.div (a).toNat (x).toNat))] :
       List ((float32x4_t → float32x4_t → C float32x4_t) × (BitVec 32 → BitVec 32 → BitVec 32))),
    ∀ (m : Nat) (s : Ptr .f32) (x : Nat → BitVec 32), (∀ j < 4 * m, Holds s j (x j)) → ∀ acc : float32x4_t,
      fold1 vld1q_f32 fg.1 m s acc =
        .ok ⟨fun j => (List.range m).foldl (fun a k => fg.2 a (x (4 * k + j))) (acc.lane j)⟩ := by
  intro fg hfg
  simp only [List.mem_cons, List.not_mem_nil, or_false] at hfg
  rcases hfg with rfl | rfl | rfl | rfl | rfl | rfl | rfl
  · exact fun m s x hx acc => fold1_ok (e := .f32) (e' := .f32) (fun (a : BitVec 32) (x : BitVec 32) => if Less32 (x) (a) then a else x) vld1q_f32_spec (fun a b => vmaxq_f32_eval a b) m s x hx acc
  · exact fun m s x hx acc => fold1_ok (e := .f32) (e' := .f32) (fun (a : BitVec 32) (x : BitVec 32) => BitVec.ofNat 32 (Fmt.b32.add (a).toNat (x).toNat)) vld1q_f32_spec (fun a b => vaddq_f32_eval a b) m s x hx acc
  · exact fun m s x hx acc => fold1_ok (e := .f32) (e' := .f32) (fun (a : BitVec 32) (x : BitVec 32) => BitVec.ofNat 32 (Fmt.b32.sub (a).toNat (x).toNat)) vld1q_f32_spec (fun a b => vsubq_f32_eval a b) m s x hx acc
  · exact fun m s x hx acc => fold1_ok (e := .f32) (e' := .f32) (fun (a : BitVec 32) (x : BitVec 32) => BitVec.ofNat 32 (Fmt.b32.mul (a).toNat (x).toNat)) vld1q_f32_spec (fun a b => vmulq_f32_eval a b) m s x hx acc
  · exact fun m s x hx acc => fold1_ok (e := .f32) (e' := .f32) (fun (a : BitVec 32) (x : BitVec 32) => if Less32 (a) (x) then a else x) vld1q_f32_spec (fun a b => vminq_f32_eval a b) m s x hx acc
  · exact fun m s x hx acc => fold1_ok (e := .f32) (e' := .f32) (fun (a : BitVec 32) (x : BitVec 32) => BitVec.ofNat 32 (stepBits (a).toNat (x).toNat)) vld1q_f32_spec (fun a b => vrecpsq_f32_eval a b) m s x hx acc
  · exact fun m s x hx acc => fold1_ok (e := .f32) (e' := .f32) (fun (a : BitVec 32) (x : BitVec 32) => BitVec.ofNat 32 (Fmt.b32.div (a).toNat (x).toNat)) vld1q_f32_spec (fun a b => vdivq_f32_eval a b) m s x hx acc
example := @fold_unary_float32x4 .strict _ (.head _) 3 (demo .f32 12) _ (demo_holds .f32 12)

/-- The accumulation loop over any number of blocks of `float32x4_t` folds the listed operation over every 4-th element, lane by lane. -/
theorem fold_binary_float32x4 [Dialect] : ∀ fg ∈
      ([(vmlaq_f32, fun a x y => BitVec.ofNat 32 (Fmt.b32.add (a).toNat (BitVec.ofNat 32 (Fmt.b32.mul (x).toNat (y).toNat)).toNat))] :
       List ((float32x4_t → float32x4_t → float32x4_t → C float32x4_t) × (BitVec 32 → BitVec 32 → BitVec 32 → BitVec 32))),
    ∀ (m : Nat) (s t : Ptr .f32) (x y : Nat → BitVec 32), (∀ j < 4 * m, Holds s j (x j)) → (∀ j < 4 * m, Holds t j (y j)) →
      ∀ acc : float32x4_t, fold2 vld1q_f32 fg.1 m s t acc =
        .ok ⟨fun j => (List.range m).foldl (fun a k => fg.2 a (x (4 * k + j)) (y (4 * k + j))) (acc.lane j)⟩ := by
  intro fg hfg
  simp only [List.mem_cons, List.not_mem_nil, or_false] at hfg
  rcases hfg with rfl
  · exact fun m s t x y hx hy acc => fold2_ok (e := .f32) (e' := .f32) (fun (a : BitVec 32) (x y : BitVec 32) => BitVec.ofNat 32 (Fmt.b32.add (a).toNat (BitVec.ofNat 32 (Fmt.b32.mul (x).toNat (y).toNat)).toNat)) vld1q_f32_spec (fun a b c => vmlaq_f32_eval a b c) m s t x y hx hy acc
example := @fold_binary_float32x4 .strict _ (.head _) 3 (demo .f32 12) (demo .f32 12) _ _ (demo_holds .f32 12) (demo_holds .f32 12)

/-- The accumulation loop over any number of blocks of `float64x1_t` folds the listed operation over every 1-th element, lane by lane. -/
theorem fold_unary_float64x1 [Dialect] : ∀ fg ∈
      ([(vsub_f32_overload2, fun a x => BitVec.ofNat 64 (Fmt.b64.sub (a).toNat (x).toNat)),
       (vdiv_f64, fun a x => BitVec.ofNat 64 (Fmt.b64.div (a).toNat (x).toNat))] :
       List ((float64x1_t → float64x1_t → C float64x1_t) × (BitVec 64 → BitVec 64 → BitVec 64))),
    ∀ (m : Nat) (s : Ptr .f64) (x : Nat → BitVec 64), (∀ j < 1 * m, Holds s j (x j)) → ∀ acc : float64x1_t,
      fold1 vld1_f64 fg.1 m s acc =
        .ok ⟨fun j => (List.range m).foldl (fun a k => fg.2 a (x (1 * k + j))) (acc.lane j)⟩ := by
  intro fg hfg
  simp only [List.mem_cons, List.not_mem_nil, or_false] at hfg
  rcases hfg with rfl | rfl
  · exact fun m s x hx acc => fold1_ok (e := .f64) (e' := .f64) (fun (a : BitVec 64) (x : BitVec 64) => BitVec.ofNat 64 (Fmt.b64.sub (a).toNat (x).toNat)) vld1_f64_spec (fun a b => vsub_f32_overload2_eval a b) m s x hx acc
  · exact fun m s x hx acc => fold1_ok (e := .f64) (e' := .f64) (fun (a : BitVec 64) (x : BitVec 64) => BitVec.ofNat 64 (Fmt.b64.div (a).toNat (x).toNat)) vld1_f64_spec (fun a b => vdiv_f64_eval a b) m s x hx acc
example := @fold_unary_float64x1 .strict _ (.head _) 3 (demo .f64 3) _ (demo_holds .f64 3)

/-- The accumulation loop over any number of blocks of `int16x4_t` folds the listed operation over every 4-th element, lane by lane. -/
theorem fold_unary_int16x4 [Dialect] : ∀ fg ∈
      ([(vadd_s16, fun a x => a + x),
       (vsub_s16, fun a x => a - x),
       (vhsub_s16, fun a x => BitVec.ofInt 16 (((a).toInt - (x).toInt) / 2)),
       (vqsub_s16, fun a x => ssat 16 ((a).toInt - (x).toInt)),
       (vmul_s16, fun a x => a * x),
       (vand_s16, fun a x => a &&& x),
       (vorr_s16, fun a x => a ||| x),
       (veor_s16, fun a x => a ^^^ x)] :
       List ((int16x4_t → int16x4_t → C int16x4_t) × (BitVec 16 → BitVec 16 → BitVec 16))),
    ∀ (m : Nat) (s : Ptr .s16) (x : Nat → BitVec 16), (∀ j < 4 * m, Holds s j (x j)) → ∀ acc : int16x4_t,
      fold1 vld1_s16 fg.1 m s acc =
        .ok ⟨fun j => (List.range m).foldl (fun a k => fg.2 a (x (4 * k + j))) (acc.lane j)⟩ := by
  intro fg hfg
  simp only [List.mem_cons, List.not_mem_nil, or_false] at hfg
  rcases hfg with rfl | rfl | rfl | rfl | rfl | rfl | rfl | rfl
  · exact fun m s x hx acc => fold1_ok (e := .s16) (e' := .s16) (fun (a : BitVec 16) (x : BitVec 16) => a + x) vld1_s16_spec (fun a b => vadd_s16_spec a b) m s x hx acc
  · exact fun m s x hx acc => fold1_ok (e := .s16) (e' := .s16) (fun (a : BitVec 16) (x : BitVec 16) => a - x) vld1_s16_spec (fun a b => vsub_s16_spec a b) m s x hx acc
  · exact fun m s x hx acc => fold1_ok (e := .s16) (e' := .s16) (fun (a : BitVec 16) (x : BitVec 16) => BitVec.ofInt 16 (((a).toInt - (x).toInt) / 2)) vld1_s16_spec (fun a b => vhsub_s16_spec a b) m s x hx acc
  · exact fun m s x hx acc => fold1_ok (e := .s16) (e' := .s16) (fun (a : BitVec 16) (x : BitVec 16) => ssat 16 ((a).toInt - (x).toInt)) vld1_s16_spec (fun a b => vqsub_s16_spec a b) m s x hx acc
  · exact fun m s x hx acc => fold1_ok (e := .s16) (e' := .s16) (fun (a : BitVec 16) (x : BitVec 16) => a * x) vld1_s16_spec (fun a b => vmul_s16_spec a b) m s x hx acc
  · exact fun m s x hx acc => fold1_ok (e := .s16) (e' := .s16) (fun (a : BitVec 16) (x : BitVec 16) => a &&& x) vld1_s16_spec (fun a b => vand_s16_spec a b) m s x hx acc
  · exact fun m s x hx acc => fold1_ok (e := .s16) (e' := .s16) (fun (a : BitVec 16) (x : BitVec 16) => a ||| x) vld1_s16_spec (fun a b => vorr_s16_spec a b) m s x hx acc
  · exact fun m s x hx acc => fold1_ok (e := .s16) (e' := .s16) (fun (a : BitVec 16) (x : BitVec 16) => a ^^^ x) vld1_s16_spec (fun a b => veor_s16_spec a b) m s x hx acc
example := @fold_unary_int16x4 .strict _ (.head _) 3 (demo .s16 12) _ (demo_holds .s16 12)

/-- The accumulation loop over any number of blocks of `int16x8_t` folds the listed operation over every 8-th element, lane by lane. -/
theorem fold_unary_int16x8 [Dialect] : ∀ fg ∈
      ([(vmaxq_s16, fun a x => BitVec.ofInt 16 (max (a).toInt (x).toInt)),
       (vaddq_s16, fun a x => a + x),
       (vsubq_s16, fun a x => a - x),
       (vhsubq_s16, fun a x => BitVec.ofInt 16 (((a).toInt - (x).toInt) / 2)),
       (vqsubq_s16, fun a x => ssat 16 ((a).toInt - (x).toInt)),
       (vmulq_s16, fun a x => a * x),
       (vminq_s16, fun a x => BitVec.ofInt 16 (min (a).toInt (x).toInt)),
       (vandq_s16, fun a x => a &&& x),
       (vorrq_s16, fun a x => a ||| x),
       (veorq_s16, fun a x => a ^^^ x)] :
       List ((int16x8_t → int16x8_t → C int16x8_t) × (BitVec 16 → BitVec 16 → BitVec 16))),
    ∀ (m : Nat) (s : Ptr .s16) (x : Nat → BitVec 16), (∀ j < 8 * m, Holds s j (x j)) → ∀ acc : int16x8_t,
      fold1 vld1q_s16 fg.1 m s acc =
        .ok ⟨fun j => (List.range m).foldl (fun a k => fg.2 a (x (8 * k + j))) (acc.lane j)⟩ := by
  intro fg hfg
  simp only [List.mem_cons, List.not_mem_nil, or_false] at hfg
  rcases hfg with rfl | rfl | rfl | rfl | rfl | rfl | rfl | rfl | rfl | rfl
  · exact fun m s x hx acc => fold1_ok (e := .s16) (e' := .s16) (fun (a : BitVec 16) (x : BitVec 16) => BitVec.ofInt 16 (max (a).toInt (x).toInt)) vld1q_s16_spec (fun a b => vmaxq_s16_spec a b) m s x hx acc
  · exact fun m s x hx acc => fold1_ok (e := .s16) (e' := .s16) (fun (a : BitVec 16) (x : BitVec 16) => a + x) vld1q_s16_spec (fun a b => vaddq_s16_spec a b) m s x hx acc
  · exact fun m s x hx acc => fold1_ok (e := .s16) (e' := .s16) (fun (a : BitVec 16) (x : BitVec 16) => a - x) vld1q_s16_spec (fun a b => vsubq_s16_spec a b) m s x hx acc
  · exact fun m s x hx acc => fold1_ok (e := .s16) (e' := .s16) (fun (a : BitVec 16) (x : BitVec 16) => BitVec.ofInt 16 (((a).toInt - (x).toInt) / 2)) vld1q_s16_spec (fun a b => vhsubq_s16_spec a b) m s x hx acc
  · exact fun m s x hx acc => fold1_ok (e := .s16) (e' := .s16) (fun (a : BitVec 16) (x : BitVec 16) => ssat 16 ((a).toInt - (x).toInt)) vld1q_s16_spec (fun a b => vqsubq_s16_spec a b) m s x hx acc
  · exact fun m s x hx acc => fold1_ok (e := .s16) (e' := .s16) (fun (a : BitVec 16) (x : BitVec 16) => a * x) vld1q_s16_spec (fun a b => vmulq_s16_spec a b) m s x hx acc
  · exact fun m s x hx acc => fold1_ok (e := .s16) (e' := .s16) (fun (a : BitVec 16) (x : BitVec 16) => BitVec.ofInt 16 (min (a).toInt (x).toInt)) vld1q_s16_spec (fun a b => vminq_s16_spec a b) m s x hx acc
  · exact fun m s x hx acc => fold1_ok (e := .s16) (e' := .s16) (fun (a : BitVec 16) (x : BitVec 16) => a &&& x) vld1q_s16_spec (fun a b => vandq_s16_spec a b) m s x hx acc
  · exact fun m s x hx acc => fold1_ok (e := .s16) (e' := .s16) (fun (a : BitVec 16) (x : BitVec 16) => a ||| x) vld1q_s16_spec (fun a b => vorrq_s16_spec a b) m s x hx acc
  · exact fun m s x hx acc => fold1_ok (e := .s16) (e' := .s16) (fun (a : BitVec 16) (x : BitVec 16) => a ^^^ x) vld1q_s16_spec (fun a b => veorq_s16_spec a b) m s x hx acc
example := @fold_unary_int16x8 .strict _ (.head _) 3 (demo .s16 24) _ (demo_holds .s16 24)

/-- The accumulation loop over any number of blocks of `int16x8_t` folds the listed operation over every 8-th element, lane by lane. -/
theorem fold_binary_int16x8 [Dialect] : ∀ fg ∈
      ([(vmlaq_s16, fun a x y => a + x * y)] :
       List ((int16x8_t → int16x8_t → int16x8_t → C int16x8_t) × (BitVec 16 → BitVec 16 → BitVec 16 → BitVec 16))),
    ∀ (m : Nat) (s t : Ptr .s16) (x y : Nat → BitVec 16), (∀ j < 8 * m, Holds s j (x j)) → (∀ j < 8 * m, Holds t j (y j)) →
      ∀ acc : int16x8_t, fold2 vld1q_s16 fg.1 m s t acc =
        .ok ⟨fun j => (List.range m).foldl (fun a k => fg.2 a (x (8 * k + j)) (y (8 * k + j))) (acc.lane j)⟩ := by
  intro fg hfg
  simp only [List.mem_cons, List.not_mem_nil, or_false] at hfg
  rcases hfg with rfl
  · exact fun m s t x y hx hy acc => fold2_ok (e := .s16) (e' := .s16) (fun (a : BitVec 16) (x y : BitVec 16) => a + x * y) vld1q_s16_spec (fun a b c => vmlaq_s16_spec a b c) m s t x y hx hy acc
example := @fold_binary_int16x8 .strict _ (.head _) 3 (demo .s16 24) (demo .s16 24) _ _ (demo_holds .s16 24) (demo_holds .s16 24)

/-- The accumulation loop over any number of blocks of `int32x2_t` folds the listed operation over every 2-th element, lane by lane. -/
theorem fold_unary_int32x2 [Dialect] : ∀ fg ∈
      ([(vqsub_s32, fun a x => ssat 32 ((a).toInt - (x).toInt)),
       (vand_s32, fun a x => a &&& x),
       (vorr_s32, fun a x => a ||| x),
       (veor_s32, fun a x => a ^^^ x)] :
       List ((int32x2_t → int32x2_t → C int32x2_t) × (BitVec 32 → BitVec 32 → BitVec 32))),
    ∀ (m : Nat) (s : Ptr .s32) (x : Nat → BitVec 32), (∀ j < 2 * m, Holds s j (x j)) → ∀ acc : int32x2_t,
      fold1 vld1_s32 fg.1 m s acc =
        .ok ⟨fun j => (List.range m).foldl (fun a k => fg.2 a (x (2 * k + j))) (acc.lane j)⟩ := by
  intro fg hfg
  simp only [List.mem_cons, List.not_mem_nil, or_false] at hfg
  rcases hfg with rfl | rfl | rfl | rfl
  · exact fun m s x hx acc => fold1_ok (e := .s32) (e' := .s32) (fun (a : BitVec 32) (x : BitVec 32) => ssat 32 ((a).toInt - (x).toInt)) vld1_s32_spec (fun a b => vqsub_s32_spec a b) m s x hx acc
  · exact fun m s x hx acc => fold1_ok (e := .s32) (e' := .s32) (fun (a : BitVec 32) (x : BitVec 32) => a &&& x) vld1_s32_spec (fun a b => vand_s32_spec a b) m s x hx acc
  · exact fun m s x hx acc => fold1_ok (e := .s32) (e' := .s32) (fun (a : BitVec 32) (x : BitVec 32) => a ||| x) vld1_s32_spec (fun a b => vorr_s32_spec a b) m s x hx acc
  · exact fun m s x hx acc => fold1_ok (e := .s32) (e' := .s32) (fun (a : BitVec 32) (x : BitVec 32) => a ^^^ x) vld1_s32_spec (fun a b => veor_s32_spec a b) m s x hx acc
example := @fold_unary_int32x2 .strict _ (.head _) 3 (demo .s32 6) _ (demo_holds .s32 6)

/-- The accumulation loop over any number of blocks of `int32x4_t` folds the listed operation over every 4-th element, lane by lane. -/
theorem fold_unary_int32x4 [Dialect] : ∀ fg ∈
      ([(vmaxq_s32, fun a x => BitVec.ofInt 32 (max (a).toInt (x).toInt)),
       (vqsubq_s32, fun a x => ssat 32 ((a).toInt - (x).toInt)),
       (vminq_s32, fun a x => BitVec.ofInt 32 (min (a).toInt (x).toInt)),
       (vandq_s32, fun a x => a &&& x),
       (vorrq_s32, fun a x => a ||| x),
       (veorq_s32, fun a x => a ^^^ x)] :
       List ((int32x4_t → int32x4_t → C int32x4_t) × (BitVec 32 → BitVec 32 → BitVec 32))),
    ∀ (m : Nat) (s : Ptr .s32) (x : Nat → BitVec 32), (∀ j < 4 * m, Holds s j (x j)) → ∀ acc : int32x4_t,
      fold1 vld1q_s32 fg.1 m s acc =
        .ok ⟨fun j => (List.range m).foldl (fun a k => fg.2 a (x (4 * k + j))) (acc.lane j)⟩ := by
  intro fg hfg
  simp only [List.mem_cons, List.not_mem_nil, or_false] at hfg
  rcases hfg with rfl | rfl | rfl | rfl | rfl | rfl
  · exact fun m s x hx acc => fold1_ok (e := .s32) (e' := .s32) (fun (a : BitVec 32) (x : BitVec 32) => BitVec.ofInt 32 (max (a).toInt (x).toInt)) vld1q_s32_spec (fun a b => vmaxq_s32_spec a b) m s x hx acc
  · exact fun m s x hx acc => fold1_ok (e := .s32) (e' := .s32) (fun (a : BitVec 32) (x : BitVec 32) => ssat 32 ((a).toInt - (x).toInt)) vld1q_s32_spec (fun a b => vqsubq_s32_spec a b) m s x hx acc
  · exact fun m s x hx acc => fold1_ok (e := .s32) (e' := .s32) (fun (a : BitVec 32) (x : BitVec 32) => BitVec.ofInt 32 (min (a).toInt (x).toInt)) vld1q_s32_spec (fun a b => vminq_s32_spec a b) m s x hx acc
  · exact fun m s x hx acc => fold1_ok (e := .s32) (e' := .s32) (fun (a : BitVec 32) (x : BitVec 32) => a &&& x) vld1q_s32_spec (fun a b => vandq_s32_spec a b) m s x hx acc
  · exact fun m s x hx acc => fold1_ok (e := .s32) (e' := .s32) (fun (a : BitVec 32) (x : BitVec 32) => a ||| x) vld1q_s32_spec (fun a b => vorrq_s32_spec a b) m s x hx acc
  · exact fun m s x hx acc => fold1_ok (e := .s32) (e' := .s32) (fun (a : BitVec 32) (x : BitVec 32) => a ^^^ x) vld1q_s32_spec (fun a b => veorq_s32_spec a b) m s x hx acc
example := @fold_unary_int32x4 .strict _ (.head _) 3 (demo .s32 12) _ (demo_holds .s32 12)

/-- The accumulation loop over any number of blocks of `int64x1_t` folds the listed operation over every 1-th element, lane by lane. -/
theorem fold_unary_int64x1 : ∀ fg ∈
      ([(vand_s64, fun a x => a &&& x),
       (vorr_s64, fun a x => a ||| x),
       (veor_s64, fun a x => a ^^^ x)] :
       List ((int64x1_t → int64x1_t → C int64x1_t) × (BitVec 64 → BitVec 64 → BitVec 64))),
    ∀ (m : Nat) (s : Ptr .s64) (x : Nat → BitVec 64), (∀ j < 1 * m, Holds s j (x j)) → ∀ acc : int64x1_t,
      fold1 vld1_s64 fg.1 m s acc =
        .ok ⟨fun j => (List.range m).foldl (fun a k => fg.2 a (x (1 * k + j))) (acc.lane j)⟩ := by
  intro fg hfg
  simp only [List.mem_cons, List.not_mem_nil, or_false] at hfg
  rcases hfg with rfl | rfl | rfl
  · exact fun m s x hx acc => fold1_ok (e := .s64) (e' := .s64) (fun (a : BitVec 64) (x : BitVec 64) => a &&& x) vld1_s64_spec (fun a b => vand_s64_spec a b) m s x hx acc
  · exact fun m s x hx acc => fold1_ok (e := .s64) (e' := .s64) (fun (a : BitVec 64) (x : BitVec 64) => a ||| x) vld1_s64_spec (fun a b => vorr_s64_spec a b) m s x hx acc
  · exact fun m s x hx acc => fold1_ok (e := .s64) (e' := .s64) (fun (a : BitVec 64) (x : BitVec 64) => a ^^^ x) vld1_s64_spec (fun a b => veor_s64_spec a b) m s x hx acc
example := fold_unary_int64x1 _ (.head _) 3 (demo .s64 3) _ (demo_holds .s64 3)

/-- The accumulation loop over any number of blocks of `int64x2_t` folds the listed operation over every 2-th element, lane by lane. -/
theorem fold_unary_int64x2 : ∀ fg ∈
      ([(vandq_s64, fun a x => a &&& x),
       (vorrq_s64, fun a x => a ||| x),
       (veorq_s64, fun a x => a ^^^ x)] :
       List ((int64x2_t → int64x2_t → C int64x2_t) × (BitVec 64 → BitVec 64 → BitVec 64))),
    ∀ (m : Nat) (s : Ptr .s64) (x : Nat → BitVec 64), (∀ j < 2 * m, Holds s j (x j)) → ∀ acc : int64x2_t,
      fold1 vld1q_s64 fg.1 m s acc =
        .ok ⟨fun j => (List.range m).foldl (fun a k => fg.2 a (x (2 * k + j))) (acc.lane j)⟩ := by
  intro fg hfg
  simp only [List.mem_cons, List.not_mem_nil, or_false] at hfg
  rcases hfg with rfl | rfl | rfl
  · exact fun m s x hx acc => fold1_ok (e := .s64) (e' := .s64) (fun (a : BitVec 64) (x : BitVec 64) => a &&& x) vld1q_s64_spec (fun a b => vandq_s64_spec a b) m s x hx acc
  · exact fun m s x hx acc => fold1_ok (e := .s64) (e' := .s64) (fun (a : BitVec 64) (x : BitVec 64) => a ||| x) vld1q_s64_spec (fun a b => vorrq_s64_spec a b) m s x hx acc
  · exact fun m s x hx acc => fold1_ok (e := .s64) (e' := .s64) (fun (a : BitVec 64) (x : BitVec 64) => a ^^^ x) vld1q_s64_spec (fun a b => veorq_s64_spec a b) m s x hx acc
example := fold_unary_int64x2 _ (.head _) 3 (demo .s64 6) _ (demo_holds .s64 6)

/-- The accumulation loop over any number of blocks of `int8x16_t` folds the listed operation over every 16-th element, lane by lane. -/
theorem fold_unary_int8x16 [Dialect] : ∀ fg ∈
      ([(vmaxq_s8, fun a x => BitVec.ofInt 8 (max (a).toInt (x).toInt)),
       (vaddq_s8, fun a x => a + x),
       (vsubq_s8, fun a x => a - x),
       (vhsubq_s8, fun a x => BitVec.ofInt 8 (((a).toInt - (x).toInt) / 2)),
       (vqsubq_s8, fun a x => ssat 8 ((a).toInt - (x).toInt)),
       (vmulq_s8, fun a x => a * x),
       (vminq_s8, fun a x => BitVec.ofInt 8 (min (a).toInt (x).toInt)),
       (vandq_s8, fun a x => a &&& x),
       (vorrq_s8, fun a x => a ||| x),
       (veorq_s8, fun a x => a ^^^ x)] :
       List ((int8x16_t → int8x16_t → C int8x16_t) × (BitVec 8 → BitVec 8 → BitVec 8))),
    ∀ (m : Nat) (s : Ptr .s8) (x : Nat → BitVec 8), (∀ j < 16 * m, Holds s j (x j)) → ∀ acc : int8x16_t,
      fold1 vld1q_s8 fg.1 m s acc =
        .ok ⟨fun j => (List.range m).foldl (fun a k => fg.2 a (x (16 * k + j))) (acc.lane j)⟩ := by
  intro fg hfg
  simp only [List.mem_cons, List.not_mem_nil, or_false] at hfg
  rcases hfg with rfl | rfl | rfl | rfl | rfl | rfl | rfl | rfl | rfl | rfl
  · exact fun m s x hx acc => fold1_ok (e := .s8) (e' := .s8) (fun (a : BitVec 8) (x : BitVec 8) => BitVec.ofInt 8 (max (a).toInt (x).toInt)) vld1q_s8_spec (fun a b => vmaxq_s8_spec a b) m s x hx acc
  · exact fun m s x hx acc => fold1_ok (e := .s8) (e' := .s8) (fun (a : BitVec 8) (x : BitVec 8) => a + x) vld1q_s8_spec (fun a b => vaddq_s8_spec a b) m s x hx acc
  · exact fun m s x hx acc => fold1_ok (e := .s8) (e' := .s8) (fun (a : BitVec 8) (x : BitVec 8) => a - x) vld1q_s8_spec (fun a b => vsubq_s8_spec a b) m s x hx acc
  · exact fun m s x hx acc => fold1_ok (e := .s8) (e' := .s8) (fun (a : BitVec 8) (x : BitVec 8) => BitVec.ofInt 8 (((a).toInt - (x).toInt) / 2)) vld1q_s8_spec (fun a b => vhsubq_s8_spec a b) m s x hx acc
  · exact fun m s x hx acc => fold1_ok (e := .s8) (e' := .s8) (fun (a : BitVec 8) (x : BitVec 8) => ssat 8 ((a).toInt - (x).toInt)) vld1q_s8_spec (fun a b => vqsubq_s8_spec a b) m s x hx acc
  · exact fun m s x hx acc => fold1_ok (e := .s8) (e' := .s8) (fun (a : BitVec 8) (x : BitVec 8) => a * x) vld1q_s8_spec (fun a b => vmulq_s8_spec a b) m s x hx acc
  · exact fun m s x hx acc => fold1_ok (e := .s8) (e' := .s8) (fun (a : BitVec 8) (x : BitVec 8) => BitVec.ofInt 8 (min (a).toInt (x).toInt)) vld1q_s8_spec (fun a b => vminq_s8_spec a b) m s x hx acc
  · exact fun m s x hx acc => fold1_ok (e := .s8) (e' := .s8) (fun (a : BitVec 8) (x : BitVec 8) => a &&& x) vld1q_s8_spec (fun a b => vandq_s8_spec a b) m s x hx acc
  · exact fun m s x hx acc => fold1_ok (e := .s8) (e' := .s8) (fun (a : BitVec 8) (x : BitVec 8) => a ||| x) vld1q_s8_spec (fun a b => vorrq_s8_spec a b) m s x hx acc
  · exact fun m s x hx acc => fold1_ok (e := .s8) (e' := .s8) (fun (a : BitVec 8) (x : BitVec 8) => a ^^^ x) vld1q_s8_spec (fun a b => veorq_s8_spec a b) m s x hx acc
example := @fold_unary_int8x16 .strict _ (.head _) 3 (demo .s8 48) _ (demo_holds .s8 48)

/-- The accumulation loop over any number of blocks of `int8x16_t` folds the listed operation over every 16-th element, lane by lane. -/
theorem fold_binary_int8x16 [Dialect] : ∀ fg ∈
      ([(vmlaq_s8, fun a x y => a + x * y)] :
       List ((int8x16_t → int8x16_t → int8x16_t → C int8x16_t) × (BitVec 8 → BitVec 8 → BitVec 8 → BitVec 8))),
    ∀ (m : Nat) (s t : Ptr .s8) (x y : Nat → BitVec 8), (∀ j < 16 * m, Holds s j (x j)) → (∀ j < 16 * m, Holds t j (y j)) →
      ∀ acc : int8x16_t, fold2 vld1q_s8 fg.1 m s t acc =
        .ok ⟨fun j => (List.range m).foldl (fun a k => fg.2 a (x (16 * k + j)) (y (16 * k + j))) (acc.lane j)⟩ := by
  intro fg hfg
  simp only [List.mem_cons, List.not_mem_nil, or_false] at hfg
  rcases hfg with rfl
  · exact fun m s t x y hx hy acc => fold2_ok (e := .s8) (e' := .s8) (fun (a : BitVec 8) (x y : BitVec 8) => a + x * y) vld1q_s8_spec (fun a b c => vmlaq_s8_spec a b c) m s t x y hx hy acc
example := @fold_binary_int8x16 .strict _ (.head _) 3 (demo .s8 48) (demo .s8 48) _ _ (demo_holds .s8 48) (demo_holds .s8 48)

/-- The accumulation loop over any number of blocks of `int8x8_t` folds the listed operation over every 8-th element, lane by lane. -/
theorem fold_unary_int16x8_int8x8 [Dialect] : ∀ fg ∈
      ([(vaddw_s8, fun a x => a + (x).signExtend 16),
       (vsubw_s8, fun a x => a - (x).signExtend 16)] :
       List ((int16x8_t → int8x8_t → C int16x8_t) × (BitVec 16 → BitVec 8 → BitVec 16))),
    ∀ (m : Nat) (s : Ptr .s8) (x : Nat → BitVec 8), (∀ j < 8 * m, Holds s j (x j)) → ∀ acc : int16x8_t,
      fold1 vld1_s8 fg.1 m s acc =
        .ok ⟨fun j => (List.range m).foldl (fun a k => fg.2 a (x (8 * k + j))) (acc.lane j)⟩ := by
  intro fg hfg
  simp only [List.mem_cons, List.not_mem_nil, or_false] at hfg
  rcases hfg with rfl | rfl
  · exact fun m s x hx acc => fold1_ok (e := .s8) (e' := .s16) (fun (a : BitVec 16) (x : BitVec 8) => a + (x).signExtend 16) vld1_s8_spec (fun a b => vaddw_s8_spec a b) m s x hx acc
  · exact fun m s x hx acc => fold1_ok (e := .s8) (e' := .s16) (fun (a : BitVec 16) (x : BitVec 8) => a - (x).signExtend 16) vld1_s8_spec (fun a b => vsubw_s8_spec a b) m s x hx acc
example := @fold_unary_int16x8_int8x8 .strict _ (.head _) 3 (demo .s8 24) _ (demo_holds .s8 24)

/-- The accumulation loop over any number of blocks of `int8x8_t` folds the listed operation over every 8-th element, lane by lane. -/
theorem fold_binary_int16x8_int8x8 [Dialect] : ∀ fg ∈
      ([(vmlal_s8, fun a x y => a + (x).signExtend 16 * (y).signExtend 16),
       (vmlsl_s8, fun a x y => a - (x).signExtend 16 * (y).signExtend 16)] :
       List ((int16x8_t → int8x8_t → int8x8_t → C int16x8_t) × (BitVec 16 → BitVec 8 → BitVec 8 → BitVec 16))),
    ∀ (m : Nat) (s t : Ptr .s8) (x y : Nat → BitVec 8), (∀ j < 8 * m, Holds s j (x j)) → (∀ j < 8 * m, Holds t j (y j)) →
      ∀ acc : int16x8_t, fold2 vld1_s8 fg.1 m s t acc =
        .ok ⟨fun j => (List.range m).foldl (fun a k => fg.2 a (x (8 * k + j)) (y (8 * k + j))) (acc.lane j)⟩ := by
  intro fg hfg
  simp only [List.mem_cons, List.not_mem_nil, or_false] at hfg
  rcases hfg with rfl | rfl
  · exact fun m s t x y hx hy acc => fold2_ok (e := .s8) (e' := .s16) (fun (a : BitVec 16) (x y : BitVec 8) => a + (x).signExtend 16 * (y).signExtend 16) vld1_s8_spec (fun a b c => vmlal_s8_spec a b c) m s t x y hx hy acc
  · exact fun m s t x y hx hy acc => fold2_ok (e := .s8) (e' := .s16) (fun (a : BitVec 16) (x y : BitVec 8) => a - (x).signExtend 16 * (y).signExtend 16) vld1_s8_spec (fun a b c => vmlsl_s8_spec a b c) m s t x y hx hy acc
example := @fold_binary_int16x8_int8x8 .strict _ (.head _) 3 (demo .s8 24) (demo .s8 24) _ _ (demo_holds .s8 24) (demo_holds .s8 24)

/-- The accumulation loop over any number of blocks of `int8x8_t` folds the listed operation over every 8-th element, lane by lane. -/
theorem fold_unary_int8x8 [Dialect] : ∀ fg ∈
      ([(vadd_s8, fun a x => a + x),
       (vsub_s8, fun a x => a - x),
       (vhsub_s8, fun a x => BitVec.ofInt 8 (((a).toInt - (x).toInt) / 2)),
       (vqsub_s8, fun a x => ssat 8 ((a).toInt - (x).toInt)),
       (vmul_s8, fun a x => a * x),
       (vand_s8, fun a x => a &&& x),
       (vorr_s8, fun a x => a ||| x),
       (veor_s8, fun a x => a ^^^ x)] :
       List ((int8x8_t → int8x8_t → C int8x8_t) × (BitVec 8 → BitVec 8 → BitVec 8))),
    ∀ (m : Nat) (s : Ptr .s8) (x : Nat → BitVec 8), (∀ j < 8 * m, Holds s j (x j)) → ∀ acc : int8x8_t,
      fold1 vld1_s8 fg.1 m s acc =
        .ok ⟨fun j => (List.range m).foldl (fun a k => fg.2 a (x (8 * k + j))) (acc.lane j)⟩ := by
  intro fg hfg
  simp only [List.mem_cons, List.not_mem_nil, or_false] at hfg
  rcases hfg with rfl | rfl | rfl | rfl | rfl | rfl | rfl | rfl
  · exact fun m s x hx acc => fold1_ok (e := .s8) (e' := .s8) (fun (a : BitVec 8) (x : BitVec 8) => a + x) vld1_s8_spec (fun a b => vadd_s8_spec a b) m s x hx acc
  · exact fun m s x hx acc => fold1_ok (e := .s8) (e' := .s8) (fun (a : BitVec 8) (x : BitVec 8) => a - x) vld1_s8_spec (fun a b => vsub_s8_spec a b) m s x hx acc
  · exact fun m s x hx acc => fold1_ok (e := .s8) (e' := .s8) (fun (a : BitVec 8) (x : BitVec 8) => BitVec.ofInt 8 (((a).toInt - (x).toInt) / 2)) vld1_s8_spec (fun a b => vhsub_s8_spec a b) m s x hx acc
  · exact fun m s x hx acc => fold1_ok (e := .s8) (e' := .s8) (fun (a : BitVec 8) (x : BitVec 8) => ssat 8 ((a).toInt - (x).toInt)) vld1_s8_spec (fun a b => vqsub_s8_spec a b) m s x hx acc
  · exact fun m s x hx acc => fold1_ok (e := .s8) (e' := .s8) (fun (a : BitVec 8) (x : BitVec 8) => a * x) vld1_s8_spec (fun a b => vmul_s8_spec a b) m s x hx acc
  · exact fun m s x hx acc => fold1_ok (e := .s8) (e' := .s8) (fun (a : BitVec 8) (x : BitVec 8) => a &&& x) vld1_s8_spec (fun a b => vand_s8_spec a b) m s x hx acc
  · exact fun m s x hx acc => fold1_ok (e := .s8) (e' := .s8) (fun (a : BitVec 8) (x : BitVec 8) => a ||| x) vld1_s8_spec (fun a b => vorr_s8_spec a b) m s x hx acc
  · exact fun m s x hx acc => fold1_ok (e := .s8) (e' := .s8) (fun (a : BitVec 8) (x : BitVec 8) => a ^^^ x) vld1_s8_spec (fun a b => veor_s8_spec a b) m s x hx acc
example := @fold_unary_int8x8 .strict _ (.head _) 3 (demo .s8 24) _ (demo_holds .s8 24)

/-- The accumulation loop over any number of blocks of `uint16x4_t` folds the listed operation over every 4-th element, lane by lane. -/
theorem fold_unary_uint16x4 [Dialect] : ∀ fg ∈
      ([(vadd_u16, fun a x => a + x),
       (vsub_u16, fun a x => a - x),
       (vhsub_u16, fun a x => BitVec.ofInt 16 ((((a).toNat : Int) - ((x).toNat : Int)) / 2)),
       (vqsub_u16, fun a x => usat 16 (((a).toNat : Int) - ((x).toNat : Int))),
       (vand_u16, fun a x => a &&& x),
       (vorr_u16, fun a x => a ||| x),
       (veor_u16, fun a x => a ^^^ x)] :
       List ((uint16x4_t → uint16x4_t → C uint16x4_t) × (BitVec 16 → BitVec 16 → BitVec 16))),
    ∀ (m : Nat) (s : Ptr .u16) (x : Nat → BitVec 16), (∀ j < 4 * m, Holds s j (x j)) → ∀ acc : uint16x4_t,
      fold1 vld1_u16 fg.1 m s acc =
        .ok ⟨fun j => (List.range m).foldl (fun a k => fg.2 a (x (4 * k + j))) (acc.lane j)⟩ := by
  intro fg hfg
  simp only [List.mem_cons, List.not_mem_nil, or_false] at hfg
  rcases hfg with rfl | rfl | rfl | rfl | rfl | rfl | rfl
  · exact fun m s x hx acc => fold1_ok (e := .u16) (e' := .u16) (fun (a : BitVec 16) (x : BitVec 16) => a + x) vld1_u16_spec (fun a b => vadd_u16_spec a b) m s x hx acc
  · exact fun m s x hx acc => fold1_ok (e := .u16) (e' := .u16) (fun (a : BitVec 16) (x : BitVec 16) => a - x) vld1_u16_spec (fun a b => vsub_u16_spec a b) m s x hx acc
  · exact fun m s x hx acc => fold1_ok (e := .u16) (e' := .u16) (fun (a : BitVec 16) (x : BitVec 16) => BitVec.ofInt 16 ((((a).toNat : Int) - ((x).toNat : Int)) / 2)) vld1_u16_spec (fun a b => vhsub_u16_spec a b) m s x hx acc
  · exact fun m s x hx acc => fold1_ok (e := .u16) (e' := .u16) (fun (a : BitVec 16) (x : BitVec 16) => usat 16 (((a).toNat : Int) - ((x).toNat : Int))) vld1_u16_spec (fun a b => vqsub_u16_spec a b) m s x hx acc
  · exact fun m s x hx acc => fold1_ok (e := .u16) (e' := .u16) (fun (a : BitVec 16) (x : BitVec 16) => a &&& x) vld1_u16_spec (fun a b => vand_u16_spec a b) m s x hx acc
  · exact fun m s x hx acc => fold1_ok (e := .u16) (e' := .u16) (fun (a : BitVec 16) (x : BitVec 16) => a ||| x) vld1_u16_spec (fun a b => vorr_u16_spec a b) m s x hx acc
  · exact fun m s x hx acc => fold1_ok (e := .u16) (e' := .u16) (fun (a : BitVec 16) (x : BitVec 16) => a ^^^ x) vld1_u16_spec (fun a b => veor_u16_spec a b) m s x hx acc
example := @fold_unary_uint16x4 .strict _ (.head _) 3 (demo .u16 12) _ (demo_holds .u16 12)

/-- The accumulation loop over any number of blocks of `uint16x4_t` folds the listed operation over every 4-th element, lane by lane. -/
theorem fold_unary_uint32x4_uint16x4 [Dialect] : ∀ fg ∈
      ([(vaddw_u16, fun a x => a + (x).setWidth 32),
       (vsubw_u16, fun a x => a - (x).setWidth 32)] :
       List ((uint32x4_t → uint16x4_t → C uint32x4_t) × (BitVec 32 → BitVec 16 → BitVec 32))),
    ∀ (m : Nat) (s : Ptr .u16) (x : Nat → BitVec 16), (∀ j < 4 * m, Holds s j (x j)) → ∀ acc : uint32x4_t,
      fold1 vld1_u16 fg.1 m s acc =
        .ok ⟨fun j => (List.range m).foldl (fun a k => fg.2 a (x (4 * k + j))) (acc.lane j)⟩ := by
  intro fg hfg
  simp only [List.mem_cons, List.not_mem_nil, or_false] at hfg
  rcases hfg with rfl | rfl
  · exact fun m s x hx acc => fold1_ok (e := .u16) (e' := .u32) (fun (a : BitVec 32) (x : BitVec 16) => a + (x).setWidth 32) vld1_u16_spec (fun a b => vaddw_u16_spec a b) m s x hx acc
  · exact fun m s x hx acc => fold1_ok (e := .u16) (e' := .u32) (fun (a : BitVec 32) (x : BitVec 16) => a - (x).setWidth 32) vld1_u16_spec (fun a b => vsubw_u16_spec a b) m s x hx acc
example := @fold_unary_uint32x4_uint16x4 .strict _ (.head _) 3 (demo .u16 12) _ (demo_holds .u16 12)

/-- The accumulation loop over any number of blocks of `uint16x8_t` folds the listed operation over every 8-th element, lane by lane. -/
theorem fold_unary_uint16x8 [Dialect] : ∀ fg ∈
      ([(vaddq_u16, fun a x => a + x),
       (vsubq_u16, fun a x => a - x),
       (vhsubq_u16, fun a x => BitVec.ofInt 16 ((((a).toNat : Int) - ((x).toNat : Int)) / 2)),
       (vqsubq_u16, fun a x => usat 16 (((a).toNat : Int) - ((x).toNat : Int))),
       (vandq_u16, fun a x => a &&& x),
       (vorrq_u16, fun a x => a ||| x),
       (veorq_u16, fun a x => a ^^^ x)] :
       List ((uint16x8_t → uint16x8_t → C uint16x8_t) × (BitVec 16 → BitVec 16 → BitVec 16))),
    ∀ (m : Nat) (s : Ptr .u16) (x : Nat → BitVec 16), (∀ j < 8 * m, Holds s j (x j)) → ∀ acc : uint16x8_t,
      fold1 vld1q_u16 fg.1 m s acc =
        .ok ⟨fun j => (List.range m).foldl (fun a k => fg.2 a (x (8 * k + j))) (acc.lane j)⟩ := by
  intro fg hfg
  simp only [List.mem_cons, List.not_mem_nil, or_false] at hfg
  rcases hfg with rfl | rfl | rfl | rfl | rfl | rfl | rfl
  · exact fun m s x hx acc => fold1_ok (e := .u16) (e' := .u16) (fun (a : BitVec 16) (x : BitVec 16) => a + x) vld1q_u16_spec (fun a b => vaddq_u16_spec a b) m s x hx acc
  · exact fun m s x hx acc => fold1_ok (e := .u16) (e' := .u16) (fun (a : BitVec 16) (x : BitVec 16) => a - x) vld1q_u16_spec (fun a b => vsubq_u16_spec a b) m s x hx acc
  · exact fun m s x hx acc => fold1_ok (e := .u16) (e' := .u16) (fun (a : BitVec 16) (x : BitVec 16) => BitVec.ofInt 16 ((((a).toNat : Int) - ((x).toNat : Int)) / 2)) vld1q_u16_spec (fun a b => vhsubq_u16_spec a b) m s x hx acc
  · exact fun m s x hx acc => fold1_ok (e := .u16) (e' := .u16) (fun (a : BitVec 16) (x : BitVec 16) => usat 16 (((a).toNat : Int) - ((x).toNat : Int))) vld1q_u16_spec (fun a b => vqsubq_u16_spec a b) m s x hx acc
  · exact fun m s x hx acc => fold1_ok (e := .u16) (e' := .u16) (fun (a : BitVec 16) (x : BitVec 16) => a &&& x) vld1q_u16_spec (fun a b => vandq_u16_spec a b) m s x hx acc
  · exact fun m s x hx acc => fold1_ok (e := .u16) (e' := .u16) (fun (a : BitVec 16) (x : BitVec 16) => a ||| x) vld1q_u16_spec (fun a b => vorrq_u16_spec a b) m s x hx acc
  · exact fun m s x hx acc => fold1_ok (e := .u16) (e' := .u16) (fun (a : BitVec 16) (x : BitVec 16) => a ^^^ x) vld1q_u16_spec (fun a b => veorq_u16_spec a b) m s x hx acc
example := @fold_unary_uint16x8 .strict _ (.head _) 3 (demo .u16 24) _ (demo_holds .u16 24)

/-- The accumulation loop over any number of blocks of `uint32x2_t` folds the listed operation over every 2-th element, lane by lane. -/
theorem fold_unary_uint32x2 [Dialect] : ∀ fg ∈
      ([(vadd_u32, fun a x => a + x),
       (vsub_u32, fun a x => a - x),
       (vqsub_u32, fun a x => usat 32 (((a).toNat : Int) - ((x).toNat : Int))),
       (vmul_u32, fun a x => a * x),
       (vand_u32, fun a x => a &&& x),
       (vorr_u32, fun a x => a ||| x),
       (ver_u32, fun a x => a ^^^ x)] :
       List ((uint32x2_t → uint32x2_t → C uint32x2_t) × (BitVec 32 → BitVec 32 → BitVec 32))),
    ∀ (m : Nat) (s : Ptr .u32) (x : Nat → BitVec 32), (∀ j < 2 * m, Holds s j (x j)) → ∀ acc : uint32x2_t,
      fold1 vld1_u32 fg.1 m s acc =
        .ok ⟨fun j => (List.range m).foldl (fun a k => fg.2 a (x (2 * k + j))) (acc.lane j)⟩ := by
  intro fg hfg
  simp only [List.mem_cons, List.not_mem_nil, or_false] at hfg
  rcases hfg with rfl | rfl | rfl | rfl | rfl | rfl | rfl
  · exact fun m s x hx acc => fold1_ok (e := .u32) (e' := .u32) (fun (a : BitVec 32) (x : BitVec 32) => a + x) vld1_u32_spec (fun a b => vadd_u32_spec a b) m s x hx acc
  · exact fun m s x hx acc => fold1_ok (e := .u32) (e' := .u32) (fun (a : BitVec 32) (x : BitVec 32) => a - x) vld1_u32_spec (fun a b => vsub_u32_spec a b) m s x hx acc
  · exact fun m s x hx acc => fold1_ok (e := .u32) (e' := .u32) (fun (a : BitVec 32) (x : BitVec 32) => usat 32 (((a).toNat : Int) - ((x).toNat : Int))) vld1_u32_spec (fun a b => vqsub_u32_spec a b) m s x hx acc
  · exact fun m s x hx acc => fold1_ok (e := .u32) (e' := .u32) (fun (a : BitVec 32) (x : BitVec 32) => a * x) vld1_u32_spec (fun a b => vmul_u32_spec a b) m s x hx acc
  · exact fun m s x hx acc => fold1_ok (e := .u32) (e' := .u32) (fun (a : BitVec 32) (x : BitVec 32) => a &&& x) vld1_u32_spec (fun a b => vand_u32_spec a b) m s x hx acc
  · exact fun m s x hx acc => fold1_ok (e := .u32) (e' := .u32) (fun (a : BitVec 32) (x : BitVec 32) => a ||| x) vld1_u32_spec (fun a b => vorr_u32_spec a b) m s x hx acc
  · exact fun m s x hx acc => fold1_ok (e := .u32) (e' := .u32) (fun (a : BitVec 32) (x : BitVec 32) => a ^^^ x) vld1_u32_spec (fun a b => ver_u32_spec a b) m s x hx acc
example := @fold_unary_uint32x2 .strict _ (.head _) 3 (demo .u32 6) _ (demo_holds .u32 6)

/-- The accumulation loop over any number of blocks of `uint32x2_t` folds the listed operation over every 2-th element, lane by lane. -/
theorem fold_unary_uint64x2_uint32x2 [Dialect] : ∀ fg ∈
      ([(vaddw_u32, fun a x => a + (x).setWidth 64),
       (vsubw_u32, fun a x => a - (x).setWidth 64)] :
       List ((uint64x2_t → uint32x2_t → C uint64x2_t) × (BitVec 64 → BitVec 32 → BitVec 64))),
    ∀ (m : Nat) (s : Ptr .u32) (x : Nat → BitVec 32), (∀ j < 2 * m, Holds s j (x j)) → ∀ acc : uint64x2_t,
      fold1 vld1_u32 fg.1 m s acc =
        .ok ⟨fun j => (List.range m).foldl (fun a k => fg.2 a (x (2 * k + j))) (acc.lane j)⟩ := by
  intro fg hfg
  simp only [List.mem_cons, List.not_mem_nil, or_false] at hfg
  rcases hfg with rfl | rfl
  · exact fun m s x hx acc => fold1_ok (e := .u32) (e' := .u64) (fun (a : BitVec 64) (x : BitVec 32) => a + (x).setWidth 64) vld1_u32_spec (fun a b => vaddw_u32_spec a b) m s x hx acc
  · exact fun m s x hx acc => fold1_ok (e := .u32) (e' := .u64) (fun (a : BitVec 64) (x : BitVec 32) => a - (x).setWidth 64) vld1_u32_spec (fun a b => vsubw_u32_spec a b) m s x hx acc
example := @fold_unary_uint64x2_uint32x2 .strict _ (.head _) 3 (demo .u32 6) _ (demo_holds .u32 6)

/-- The accumulation loop over any number of blocks of `uint32x4_t` folds the listed operation over every 4-th element, lane by lane. -/
theorem fold_unary_uint32x4 [Dialect] : ∀ fg ∈
      ([(vaddq_u32, fun a x => a + x),
       (vsubq_u32, fun a x => a - x),
       (vqsubq_u32, fun a x => usat 32 (((a).toNat : Int) - ((x).toNat : Int))),
       (vmulq_u32, fun a x => a * x),
       (vandq_u32, fun a x => a &&& x),
       (vorrq_u32, fun a x => a ||| x),
       (veorq_u32, fun a x => a ^^^ x)] :
       List ((uint32x4_t → uint32x4_t → C uint32x4_t) × (BitVec 32 → BitVec 32 → BitVec 32))),
    ∀ (m : Nat) (s : Ptr .u32) (x : Nat → BitVec 32), (∀ j < 4 * m, Holds s j (x j)) → ∀ acc : uint32x4_t,
      fold1 vld1q_u32 fg.1 m s acc =
        .ok ⟨fun j => (List.range m).foldl (fun a k => fg.2 a (x (4 * k + j))) (acc.lane j)⟩ := by
  intro fg hfg
  simp only [List.mem_cons, List.not_mem_nil, or_false] at hfg
  rcases hfg with rfl | rfl | rfl | rfl | rfl | rfl | rfl
  · exact fun m s x hx acc => fold1_ok (e := .u32) (e' := .u32) (fun (a : BitVec 32) (x : BitVec 32) => a + x) vld1q_u32_spec (fun a b => vaddq_u32_spec a b) m s x hx acc
  · exact fun m s x hx acc => fold1_ok (e := .u32) (e' := .u32) (fun (a : BitVec 32) (x : BitVec 32) => a - x) vld1q_u32_spec (fun a b => vsubq_u32_spec a b) m s x hx acc
  · exact fun m s x hx acc => fold1_ok (e := .u32) (e' := .u32) (fun (a : BitVec 32) (x : BitVec 32) => usat 32 (((a).toNat : Int) - ((x).toNat : Int))) vld1q_u32_spec (fun a b => vqsubq_u32_spec a b) m s x hx acc
  · exact fun m s x hx acc => fold1_ok (e := .u32) (e' := .u32) (fun (a : BitVec 32) (x : BitVec 32) => a * x) vld1q_u32_spec (fun a b => vmulq_u32_spec a b) m s x hx acc
  · exact fun m s x hx acc => fold1_ok (e := .u32) (e' := .u32) (fun (a : BitVec 32) (x : BitVec 32) => a &&& x) vld1q_u32_spec (fun a b => vandq_u32_spec a b) m s x hx acc
  · exact fun m s x hx acc => fold1_ok (e := .u32) (e' := .u32) (fun (a : BitVec 32) (x : BitVec 32) => a ||| x) vld1q_u32_spec (fun a b => vorrq_u32_spec a b) m s x hx acc
  · exact fun m s x hx acc => fold1_ok (e := .u32) (e' := .u32) (fun (a : BitVec 32) (x : BitVec 32) => a ^^^ x) vld1q_u32_spec (fun a b => veorq_u32_spec a b) m s x hx acc
example := @fold_unary_uint32x4 .strict _ (.head _) 3 (demo .u32 12) _ (demo_holds .u32 12)

/-- The accumulation loop over any number of blocks of `uint32x4_t` folds the listed operation over every 4-th element, lane by lane. -/
theorem fold_binary_uint32x4 [Dialect] : ∀ fg ∈
      ([(vmlaq_u32, fun a x y => a + x * y)] :
       List ((uint32x4_t → uint32x4_t → uint32x4_t → C uint32x4_t) × (BitVec 32 → BitVec 32 → BitVec 32 → BitVec 32))),
    ∀ (m : Nat) (s t : Ptr .u32) (x y : Nat → BitVec 32), (∀ j < 4 * m, Holds s j (x j)) → (∀ j < 4 * m, Holds t j (y j)) →
      ∀ acc : uint32x4_t, fold2 vld1q_u32 fg.1 m s t acc =
        .ok ⟨fun j => (List.range m).foldl (fun a k => fg.2 a (x (4 * k + j)) (y (4 * k + j))) (acc.lane j)⟩ := by
  intro fg hfg
  simp only [List.mem_cons, List.not_mem_nil, or_false] at hfg
  rcases hfg with rfl
  · exact fun m s t x y hx hy acc => fold2_ok (e := .u32) (e' := .u32) (fun (a : BitVec 32) (x y : BitVec 32) => a + x * y) vld1q_u32_spec (fun a b c => vmlaq_u32_spec a b c) m s t x y hx hy acc
example := @fold_binary_uint32x4 .strict _ (.head _) 3 (demo .u32 12) (demo .u32 12) _ _ (demo_holds .u32 12) (demo_holds .u32 12)

/-- The accumulation loop over any number of blocks of `uint64x1_t` folds the listed operation over every 1-th element, lane by lane. -/
theorem fold_unary_uint64x1 [Dialect] : ∀ fg ∈
      ([(vadd_u64, fun a x => a + x),
       (vsub_u64, fun a x => a - x),
       (vand_u64, fun a x => a &&& x),
       (vorr_u64, fun a x => a ||| x),
       (veor_u64, fun a x => a ^^^ x)] :
       List ((uint64x1_t → uint64x1_t → C uint64x1_t) × (BitVec 64 → BitVec 64 → BitVec 64))),
    ∀ (m : Nat) (s : Ptr .u64) (x : Nat → BitVec 64), (∀ j < 1 * m, Holds s j (x j)) → ∀ acc : uint64x1_t,
      fold1 vld1_u64 fg.1 m s acc =
        .ok ⟨fun j => (List.range m).foldl (fun a k => fg.2 a (x (1 * k + j))) (acc.lane j)⟩ := by
  intro fg hfg
  simp only [List.mem_cons, List.not_mem_nil, or_false] at hfg
  rcases hfg with rfl | rfl | rfl | rfl | rfl
  · exact fun m s x hx acc => fold1_ok (e := .u64) (e' := .u64) (fun (a : BitVec 64) (x : BitVec 64) => a + x) vld1_u64_spec (fun a b => vadd_u64_spec a b) m s x hx acc
  · exact fun m s x hx acc => fold1_ok (e := .u64) (e' := .u64) (fun (a : BitVec 64) (x : BitVec 64) => a - x) vld1_u64_spec (fun a b => vsub_u64_spec a b) m s x hx acc
  · exact fun m s x hx acc => fold1_ok (e := .u64) (e' := .u64) (fun (a : BitVec 64) (x : BitVec 64) => a &&& x) vld1_u64_spec (fun a b => vand_u64_spec a b) m s x hx acc
  · exact fun m s x hx acc => fold1_ok (e := .u64) (e' := .u64) (fun (a : BitVec 64) (x : BitVec 64) => a ||| x) vld1_u64_spec (fun a b => vorr_u64_spec a b) m s x hx acc
  · exact fun m s x hx acc => fold1_ok (e := .u64) (e' := .u64) (fun (a : BitVec 64) (x : BitVec 64) => a ^^^ x) vld1_u64_spec (fun a b => veor_u64_spec a b) m s x hx acc
example := @fold_unary_uint64x1 .strict _ (.head _) 3 (demo .u64 3) _ (demo_holds .u64 3)

/-- The accumulation loop over any number of blocks of `uint64x2_t` folds the listed operation over every 2-th element, lane by lane. -/
theorem fold_unary_uint64x2 [Dialect] : ∀ fg ∈
      ([(vaddq_u64, fun a x => a + x),
       (vsubq_u64, fun a x => a - x),
       (vandq_u64, fun a x => a &&& x),
       (vorrq_u64, fun a x => a ||| x),
       (veorq_u64, fun a x => a ^^^ x)] :
       List ((uint64x2_t → uint64x2_t → C uint64x2_t) × (BitVec 64 → BitVec 64 → BitVec 64))),
    ∀ (m : Nat) (s : Ptr .u64) (x : Nat → BitVec 64), (∀ j < 2 * m, Holds s j (x j)) → ∀ acc : uint64x2_t,
      fold1 vld1q_u64 fg.1 m s acc =
        .ok ⟨fun j => (List.range m).foldl (fun a k => fg.2 a (x (2 * k + j))) (acc.lane j)⟩ := by
  intro fg hfg
  simp only [List.mem_cons, List.not_mem_nil, or_false] at hfg
  rcases hfg with rfl | rfl | rfl | rfl | rfl
  · exact fun m s x hx acc => fold1_ok (e := .u64) (e' := .u64) (fun (a : BitVec 64) (x : BitVec 64) => a + x) vld1q_u64_spec (fun a b => vaddq_u64_spec a b) m s x hx acc
  · exact fun m s x hx acc => fold1_ok (e := .u64) (e' := .u64) (fun (a : BitVec 64) (x : BitVec 64) => a - x) vld1q_u64_spec (fun a b => vsubq_u64_spec a b) m s x hx acc
  · exact fun m s x hx acc => fold1_ok (e := .u64) (e' := .u64) (fun (a : BitVec 64) (x : BitVec 64) => a &&& x) vld1q_u64_spec (fun a b => vandq_u64_spec a b) m s x hx acc
  · exact fun m s x hx acc => fold1_ok (e := .u64) (e' := .u64) (fun (a : BitVec 64) (x : BitVec 64) => a ||| x) vld1q_u64_spec (fun a b => vorrq_u64_spec a b) m s x hx acc
  · exact fun m s x hx acc => fold1_ok (e := .u64) (e' := .u64) (fun (a : BitVec 64) (x : BitVec 64) => a ^^^ x) vld1q_u64_spec (fun a b => veorq_u64_spec a b) m s x hx acc
example := @fold_unary_uint64x2 .strict _ (.head _) 3 (demo .u64 6) _ (demo_holds .u64 6)

/-- The accumulation loop over any number of blocks of `uint8x16_t` folds the listed operation over every 16-th element, lane by lane. -/
theorem fold_unary_uint8x16 [Dialect] : ∀ fg ∈
      ([(vaddq_u8, fun a x => a + x),
       (vqaddq_u8, fun a x => usat 8 (((a).toNat : Int) + ((x).toNat : Int))),
       (vsubq_u8, fun a x => a - x),
       (vhsubq_u8, fun a x => BitVec.ofInt 8 ((((a).toNat : Int) - ((x).toNat : Int)) / 2)),
       (vqsubq_u8, fun a x => usat 8 (((a).toNat : Int) - ((x).toNat : Int))),
       (vmulq_u8, fun a x => a * x),
       (vcgtq_u8, fun a x => mask 8 ((x).toNat < (a).toNat)),
       (vandq_u8, fun a x => a &&& x),
       (vorrq_u8, fun a x => a ||| x),
       (veorq_u8, fun a x => a ^^^ x)] :
       List ((uint8x16_t → uint8x16_t → C uint8x16_t) × (BitVec 8 → BitVec 8 → BitVec 8))),
    ∀ (m : Nat) (s : Ptr .u8) (x : Nat → BitVec 8), (∀ j < 16 * m, Holds s j (x j)) → ∀ acc : uint8x16_t,
      fold1 vld1q_u8 fg.1 m s acc =
        .ok ⟨fun j => (List.range m).foldl (fun a k => fg.2 a (x (16 * k + j))) (acc.lane j)⟩ := by
  intro fg hfg
  simp only [List.mem_cons, List.not_mem_nil, or_false] at hfg
  rcases hfg with rfl | rfl | rfl | rfl | rfl | rfl | rfl | rfl | rfl | rfl
  · exact fun m s x hx acc => fold1_ok (e := .u8) (e' := .u8) (fun (a : BitVec 8) (x : BitVec 8) => a + x) vld1q_u8_spec (fun a b => vaddq_u8_spec a b) m s x hx acc
  · exact fun m s x hx acc => fold1_ok (e := .u8) (e' := .u8) (fun (a : BitVec 8) (x : BitVec 8) => usat 8 (((a).toNat : Int) + ((x).toNat : Int))) vld1q_u8_spec (fun a b => vqaddq_u8_spec a b) m s x hx acc
  · exact fun m s x hx acc => fold1_ok (e := .u8) (e' := .u8) (fun (a : BitVec 8) (x : BitVec 8) => a - x) vld1q_u8_spec (fun a b => vsubq_u8_spec a b) m s x hx acc
  · exact fun m s x hx acc => fold1_ok (e := .u8) (e' := .u8) (fun (a : BitVec 8) (x : BitVec 8) => BitVec.ofInt 8 ((((a).toNat : Int) - ((x).toNat : Int)) / 2)) vld1q_u8_spec (fun a b => vhsubq_u8_spec a b) m s x hx acc
  · exact fun m s x hx acc => fold1_ok (e := .u8) (e' := .u8) (fun (a : BitVec 8) (x : BitVec 8) => usat 8 (((a).toNat : Int) - ((x).toNat : Int))) vld1q_u8_spec (fun a b => vqsubq_u8_spec a b) m s x hx acc
  · exact fun m s x hx acc => fold1_ok (e := .u8) (e' := .u8) (fun (a : BitVec 8) (x : BitVec 8) => a * x) vld1q_u8_spec (fun a b => vmulq_u8_spec a b) m s x hx acc
  · exact fun m s x hx acc => fold1_ok (e := .u8) (e' := .u8) (fun (a : BitVec 8) (x : BitVec 8) => mask 8 ((x).toNat < (a).toNat)) vld1q_u8_spec (fun a b => vcgtq_u8_spec a b) m s x hx acc
  · exact fun m s x hx acc => fold1_ok (e := .u8) (e' := .u8) (fun (a : BitVec 8) (x : BitVec 8) => a &&& x) vld1q_u8_spec (fun a b => vandq_u8_spec a b) m s x hx acc
  · exact fun m s x hx acc => fold1_ok (e := .u8) (e' := .u8) (fun (a : BitVec 8) (x : BitVec 8) => a ||| x) vld1q_u8_spec (fun a b => vorrq_u8_spec a b) m s x hx acc
  · exact fun m s x hx acc => fold1_ok (e := .u8) (e' := .u8) (fun (a : BitVec 8) (x : BitVec 8) => a ^^^ x) vld1q_u8_spec (fun a b => veorq_u8_spec a b) m s x hx acc
example := @fold_unary_uint8x16 .strict _ (.head _) 3 (demo .u8 48) _ (demo_holds .u8 48)

/-- The accumulation loop over any number of blocks of `uint8x16_t` folds the listed operation over every 16-th element, lane by lane. -/
theorem fold_binary_uint8x16 [Dialect] : ∀ fg ∈
      ([(vmlaq_u8, fun a x y => a + x * y),
       (vbslq_u8, fun a x y => (a &&& x) ||| (~~~ a &&& y))] :
       List ((uint8x16_t → uint8x16_t → uint8x16_t → C uint8x16_t) × (BitVec 8 → BitVec 8 → BitVec 8 → BitVec 8))),
    ∀ (m : Nat) (s t : Ptr .u8) (x y : Nat → BitVec 8), (∀ j < 16 * m, Holds s j (x j)) → (∀ j < 16 * m, Holds t j (y j)) →
      ∀ acc : uint8x16_t, fold2 vld1q_u8 fg.1 m s t acc =
        .ok ⟨fun j => (List.range m).foldl (fun a k => fg.2 a (x (16 * k + j)) (y (16 * k + j))) (acc.lane j)⟩ := by
  intro fg hfg
  simp only [List.mem_cons, List.not_mem_nil, or_false] at hfg
  rcases hfg with rfl | rfl
  · exact fun m s t x y hx hy acc => fold2_ok (e := .u8) (e' := .u8) (fun (a : BitVec 8) (x y : BitVec 8) => a + x * y) vld1q_u8_spec (fun a b c => vmlaq_u8_spec a b c) m s t x y hx hy acc
  · exact fun m s t x y hx hy acc => fold2_ok (e := .u8) (e' := .u8) (fun (a : BitVec 8) (x y : BitVec 8) => (a &&& x) ||| (~~~ a &&& y)) vld1q_u8_spec (fun a b c => vbslq_u8_spec a b c) m s t x y hx hy acc
example := @fold_binary_uint8x16 .strict _ (.head _) 3 (demo .u8 48) (demo .u8 48) _ _ (demo_holds .u8 48) (demo_holds .u8 48)

/-- The accumulation loop over any number of blocks of `uint8x8_t` folds the listed operation over every 8-th element, lane by lane. -/
theorem fold_unary_uint16x8_uint8x8 [Dialect] : ∀ fg ∈
      ([(vaddw_u8, fun a x => a + (x).setWidth 16),
       (vsubw_u8, fun a x => a - (x).setWidth 16)] :
       List ((uint16x8_t → uint8x8_t → C uint16x8_t) × (BitVec 16 → BitVec 8 → BitVec 16))),
    ∀ (m : Nat) (s : Ptr .u8) (x : Nat → BitVec 8), (∀ j < 8 * m, Holds s j (x j)) → ∀ acc : uint16x8_t,
      fold1 vld1_u8 fg.1 m s acc =
        .ok ⟨fun j => (List.range m).foldl (fun a k => fg.2 a (x (8 * k + j))) (acc.lane j)⟩ := by
  intro fg hfg
  simp only [List.mem_cons, List.not_mem_nil, or_false] at hfg
  rcases hfg with rfl | rfl
  · exact fun m s x hx acc => fold1_ok (e := .u8) (e' := .u16) (fun (a : BitVec 16) (x : BitVec 8) => a + (x).setWidth 16) vld1_u8_spec (fun a b => vaddw_u8_spec a b) m s x hx acc
  · exact fun m s x hx acc => fold1_ok (e := .u8) (e' := .u16) (fun (a : BitVec 16) (x : BitVec 8) => a - (x).setWidth 16) vld1_u8_spec (fun a b => vsubw_u8_spec a b) m s x hx acc
example := @fold_unary_uint16x8_uint8x8 .strict _ (.head _) 3 (demo .u8 24) _ (demo_holds .u8 24)

/-- The accumulation loop over any number of blocks of `uint8x8_t` folds the listed operation over every 8-th element, lane by lane. -/
theorem fold_binary_uint16x8_uint8x8 [Dialect] : ∀ fg ∈
      ([(vmlal_u8, fun a x y => a + (x).setWidth 16 * (y).setWidth 16),
       (vmlsl_u8, fun a x y => a - (x).setWidth 16 * (y).setWidth 16)] :
       List ((uint16x8_t → uint8x8_t → uint8x8_t → C uint16x8_t) × (BitVec 16 → BitVec 8 → BitVec 8 → BitVec 16))),
    ∀ (m : Nat) (s t : Ptr .u8) (x y : Nat → BitVec 8), (∀ j < 8 * m, Holds s j (x j)) → (∀ j < 8 * m, Holds t j (y j)) →
      ∀ acc : uint16x8_t, fold2 vld1_u8 fg.1 m s t acc =
        .ok ⟨fun j => (List.range m).foldl (fun a k => fg.2 a (x (8 * k + j)) (y (8 * k + j))) (acc.lane j)⟩ := by
  intro fg hfg
  simp only [List.mem_cons, List.not_mem_nil, or_false] at hfg
  rcases hfg with rfl | rfl
  · exact fun m s t x y hx hy acc => fold2_ok (e := .u8) (e' := .u16) (fun (a : BitVec 16) (x y : BitVec 8) => a + (x).setWidth 16 * (y).setWidth 16) vld1_u8_spec (fun a b c => vmlal_u8_spec a b c) m s t x y hx hy acc
  · exact fun m s t x y hx hy acc => fold2_ok (e := .u8) (e' := .u16) (fun (a : BitVec 16) (x y : BitVec 8) => a - (x).setWidth 16 * (y).setWidth 16) vld1_u8_spec (fun a b c => vmlsl_u8_spec a b c) m s t x y hx hy acc
example := @fold_binary_uint16x8_uint8x8 .strict _ (.head _) 3 (demo .u8 24) (demo .u8 24) _ _ (demo_holds .u8 24) (demo_holds .u8 24)

/-- The accumulation loop over any number of blocks of `uint8x8_t` folds the listed operation over every 8-th element, lane by lane. -/
theorem fold_unary_uint8x8 [Dialect] : ∀ fg ∈
      ([(vadd_u8, fun a x => a + x),
       (vqadd_u8, fun a x => usat 8 (((a).toNat : Int) + ((x).toNat : Int))),
       (vsub_u8, fun a x => a - x),
       (vhsub_u8, fun a x => BitVec.ofInt 8 ((((a).toNat : Int) - ((x).toNat : Int)) / 2)),
       (vqsub_u8, fun a x => usat 8 (((a).toNat : Int) - ((x).toNat : Int))),
       (vmul_u8, fun a x => a * x),
       (vand_u8, fun a x => a &&& x),
       (vorr_u8, fun a x => a ||| x),
       (veor_u8, fun a x => a ^^^ x)] :
       List ((uint8x8_t → uint8x8_t → C uint8x8_t) × (BitVec 8 → BitVec 8 → BitVec 8))),
    ∀ (m : Nat) (s : Ptr .u8) (x : Nat → BitVec 8), (∀ j < 8 * m, Holds s j (x j)) → ∀ acc : uint8x8_t,
      fold1 vld1_u8 fg.1 m s acc =
        .ok ⟨fun j => (List.range m).foldl (fun a k => fg.2 a (x (8 * k + j))) (acc.lane j)⟩ := by
  intro fg hfg
  simp only [List.mem_cons, List.not_mem_nil, or_false] at hfg
  rcases hfg with rfl | rfl | rfl | rfl | rfl | rfl | rfl | rfl | rfl
  · exact fun m s x hx acc => fold1_ok (e := .u8) (e' := .u8) (fun (a : BitVec 8) (x : BitVec 8) => a + x) vld1_u8_spec (fun a b => vadd_u8_spec a b) m s x hx acc
  · exact fun m s x hx acc => fold1_ok (e := .u8) (e' := .u8) (fun (a : BitVec 8) (x : BitVec 8) => usat 8 (((a).toNat : Int) + ((x).toNat : Int))) vld1_u8_spec (fun a b => vqadd_u8_spec a b) m s x hx acc
  · exact fun m s x hx acc => fold1_ok (e := .u8) (e' := .u8) (fun (a : BitVec 8) (x : BitVec 8) => a - x) vld1_u8_spec (fun a b => vsub_u8_spec a b) m s x hx acc
  · exact fun m s x hx acc => fold1_ok (e := .u8) (e' := .u8) (fun (a : BitVec 8) (x : BitVec 8) => BitVec.ofInt 8 ((((a).toNat : Int) - ((x).toNat : Int)) / 2)) vld1_u8_spec (fun a b => vhsub_u8_spec a b) m s x hx acc
  · exact fun m s x hx acc => fold1_ok (e := .u8) (e' := .u8) (fun (a : BitVec 8) (x : BitVec 8) => usat 8 (((a).toNat : Int) - ((x).toNat : Int))) vld1_u8_spec (fun a b => vqsub_u8_spec a b) m s x hx acc
  · exact fun m s x hx acc => fold1_ok (e := .u8) (e' := .u8) (fun (a : BitVec 8) (x : BitVec 8) => a * x) vld1_u8_spec (fun a b => vmul_u8_spec a b) m s x hx acc
  · exact fun m s x hx acc => fold1_ok (e := .u8) (e' := .u8) (fun (a : BitVec 8) (x : BitVec 8) => a &&& x) vld1_u8_spec (fun a b => vand_u8_spec a b) m s x hx acc
  · exact fun m s x hx acc => fold1_ok (e := .u8) (e' := .u8) (fun (a : BitVec 8) (x : BitVec 8) => a ||| x) vld1_u8_spec (fun a b => vorr_u8_spec a b) m s x hx acc
  · exact fun m s x hx acc => fold1_ok (e := .u8) (e' := .u8) (fun (a : BitVec 8) (x : BitVec 8) => a ^^^ x) vld1_u8_spec (fun a b => veor_u8_spec a b) m s x hx acc
example := @fold_unary_uint8x8 .strict _ (.head _) 3 (demo .u8 24) _ (demo_holds .u8 24)

/-- For every number of blocks there are buffers that meet the hypotheses, with distinct neighbours. -/
example (m : Nat) : (∀ j < 16 * m, Holds (⟨(List.range (16 * m)).map fun j => some (BitVec.ofNat 8 j), 0⟩ : Ptr .u8) j (BitVec.ofNat 8 j)) ∧
    Writable (⟨(List.range (16 * m)).map fun j => some (BitVec.ofNat 8 j), 0⟩ : Ptr .u8) (16 * m) := by
  constructor
  · intro j hj
    unfold Holds
    simp only [Nat.zero_add, List.getElem?_map, List.getElem?_range hj, Option.map_some]
  · unfold Writable
    simp only [Nat.zero_add, List.length_map, List.length_range, Nat.le_refl]

end Verif.Props
