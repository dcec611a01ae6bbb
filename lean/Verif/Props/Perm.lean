import Verif.Fill
import Verif.Model.Perm
import Verif.Model.Rest
/-! # Lane permutations (C38, C39, C40, C41)

Generated by `tools/gen_props.py`. -/

set_option linter.unusedSimpArgs false
set_option linter.unusedVariables false

namespace Verif.Props
open Verif.Model Verif.Spec

/-- `vrev16_s8` reverses the 2 lanes of each block. -/
theorem vrev16_s8_spec [Dialect] (vec : int8x8_t) :
    vrev16_s8 vec = .ok ⟨fun i => vec[i.val / 2 * 2 + (1 - i.val % 2)]⟩ := by
  unfold vrev16_s8
  refine fill_own (fun j => j.val / 2) (fun i => vec[i.val / 2 * 2 + (1 - i.val % 2)]) 4 (by rfl) (fun j => by omega) fun k hk => ?_
  perm_close

/-- `vrev16_s8` undoes itself. -/
theorem vrev16_s8_involutive [Dialect] (vec : int8x8_t) :
    (vrev16_s8 vec >>= vrev16_s8) = .ok vec := by
  rw [vrev16_s8_spec, ok_bind, vrev16_s8_spec]
  congr 1
  ext i : 2
  refine congrArg vec.lane (Fin.ext ?_)
  simp only
  omega

/-- `vrev16_u8` reverses the 2 lanes of each block. -/
theorem vrev16_u8_spec [Dialect] (vec : uint8x8_t) :
    vrev16_u8 vec = .ok ⟨fun i => vec[i.val / 2 * 2 + (1 - i.val % 2)]⟩ := by
  unfold vrev16_u8
  refine fill_own (fun j => j.val / 2) (fun i => vec[i.val / 2 * 2 + (1 - i.val % 2)]) 4 (by rfl) (fun j => by omega) fun k hk => ?_
  perm_close

/-- `vrev16_u8` undoes itself. -/
theorem vrev16_u8_involutive [Dialect] (vec : uint8x8_t) :
    (vrev16_u8 vec >>= vrev16_u8) = .ok vec := by
  rw [vrev16_u8_spec, ok_bind, vrev16_u8_spec]
  congr 1
  ext i : 2
  refine congrArg vec.lane (Fin.ext ?_)
  simp only
  omega

/-- `vrev16q_s8` reverses the 2 lanes of each block. -/
theorem vrev16q_s8_spec [Dialect] (vec : int8x16_t) :
    vrev16q_s8 vec = .ok ⟨fun i => vec[i.val / 2 * 2 + (1 - i.val % 2)]⟩ := by
  unfold vrev16q_s8
  refine fill_own (fun j => j.val / 2) (fun i => vec[i.val / 2 * 2 + (1 - i.val % 2)]) 8 (by rfl) (fun j => by omega) fun k hk => ?_
  perm_close

/-- `vrev16q_s8` undoes itself. -/
theorem vrev16q_s8_involutive [Dialect] (vec : int8x16_t) :
    (vrev16q_s8 vec >>= vrev16q_s8) = .ok vec := by
  rw [vrev16q_s8_spec, ok_bind, vrev16q_s8_spec]
  congr 1
  ext i : 2
  refine congrArg vec.lane (Fin.ext ?_)
  simp only
  omega

/-- `vrev16q_u8` reverses the 2 lanes of each block. -/
theorem vrev16q_u8_spec [Dialect] (vec : uint8x16_t) :
    vrev16q_u8 vec = .ok ⟨fun i => vec[i.val / 2 * 2 + (1 - i.val % 2)]⟩ := by
  unfold vrev16q_u8
  refine fill_own (fun j => j.val / 2) (fun i => vec[i.val / 2 * 2 + (1 - i.val % 2)]) 8 (by rfl) (fun j => by omega) fun k hk => ?_
  perm_close

/-- `vrev16q_u8` undoes itself. -/
theorem vrev16q_u8_involutive [Dialect] (vec : uint8x16_t) :
    (vrev16q_u8 vec >>= vrev16q_u8) = .ok vec := by
  rw [vrev16q_u8_spec, ok_bind, vrev16q_u8_spec]
  congr 1
  ext i : 2
  refine congrArg vec.lane (Fin.ext ?_)
  simp only
  omega

/-- `vrev32_s8` runs over 16 lanes of an 8-lane register: it has undefined behaviour on every input. -/
theorem vrev32_s8_partial [Dialect] (vec : int8x8_t) :
    vrev32_s8 vec = .ub .outOfBounds := by
  unfold vrev32_s8
  show (cfor _ _ _ _ _ >>= fun D => Arr.ret D) = _
  rw [cfor_ub 2 (Arr.partial (fun j => j.val / 4) fun i => vec[i.val / 4 * 4 + (3 - i.val % 4)]) .outOfBounds (by decide) (Arr.partial_zero _ _)]
  · rfl
  · intro k hk
    perm_close
  · rw [Vec.get_oob vec (by decide)]
    rfl

/-- `vrev32_s8` never returns a register. -/
theorem vrev32_s8_wrong [Dialect] : ¬ ∃ (vec r : int8x8_t), vrev32_s8 vec = .ok r := by
  rintro ⟨v, r, h⟩
  rw [vrev32_s8_partial] at h
  cases h

/-- `vrev32_s16` reverses the 2 lanes of each block. -/
theorem vrev32_s16_spec [Dialect] (vec : int16x4_t) :
    vrev32_s16 vec = .ok ⟨fun i => vec[i.val / 2 * 2 + (1 - i.val % 2)]⟩ := by
  unfold vrev32_s16
  refine fill_own (fun j => j.val / 2) (fun i => vec[i.val / 2 * 2 + (1 - i.val % 2)]) 2 (by rfl) (fun j => by omega) fun k hk => ?_
  perm_close

/-- `vrev32_s16` undoes itself. -/
theorem vrev32_s16_involutive [Dialect] (vec : int16x4_t) :
    (vrev32_s16 vec >>= vrev32_s16) = .ok vec := by
  rw [vrev32_s16_spec, ok_bind, vrev32_s16_spec]
  congr 1
  ext i : 2
  refine congrArg vec.lane (Fin.ext ?_)
  simp only
  omega

/-- `vrev32_u8` reverses the 4 lanes of each block. -/
theorem vrev32_u8_spec [Dialect] (vec : uint8x8_t) :
    vrev32_u8 vec = .ok ⟨fun i => vec[i.val / 4 * 4 + (3 - i.val % 4)]⟩ := by
  unfold vrev32_u8
  refine fill_own (fun j => j.val / 4) (fun i => vec[i.val / 4 * 4 + (3 - i.val % 4)]) 2 (by rfl) (fun j => by omega) fun k hk => ?_
  perm_close

/-- `vrev32_u8` undoes itself. -/
theorem vrev32_u8_involutive [Dialect] (vec : uint8x8_t) :
    (vrev32_u8 vec >>= vrev32_u8) = .ok vec := by
  rw [vrev32_u8_spec, ok_bind, vrev32_u8_spec]
  congr 1
  ext i : 2
  refine congrArg vec.lane (Fin.ext ?_)
  simp only
  omega

/-- `vrev32_u16` reverses the 2 lanes of each block. -/
theorem vrev32_u16_spec [Dialect] (vec : uint16x4_t) :
    vrev32_u16 vec = .ok ⟨fun i => vec[i.val / 2 * 2 + (1 - i.val % 2)]⟩ := by
  unfold vrev32_u16
  refine fill_own (fun j => j.val / 2) (fun i => vec[i.val / 2 * 2 + (1 - i.val % 2)]) 2 (by rfl) (fun j => by omega) fun k hk => ?_
  perm_close

/-- `vrev32_u16` undoes itself. -/
theorem vrev32_u16_involutive [Dialect] (vec : uint16x4_t) :
    (vrev32_u16 vec >>= vrev32_u16) = .ok vec := by
  rw [vrev32_u16_spec, ok_bind, vrev32_u16_spec]
  congr 1
  ext i : 2
  refine congrArg vec.lane (Fin.ext ?_)
  simp only
  omega

/-- `vrev32q_s8` reverses the 4 lanes of each block. -/
theorem vrev32q_s8_spec [Dialect] (vec : int8x16_t) :
    vrev32q_s8 vec = .ok ⟨fun i => vec[i.val / 4 * 4 + (3 - i.val % 4)]⟩ := by
  unfold vrev32q_s8
  refine fill_own (fun j => j.val / 4) (fun i => vec[i.val / 4 * 4 + (3 - i.val % 4)]) 4 (by rfl) (fun j => by omega) fun k hk => ?_
  perm_close

/-- `vrev32q_s8` undoes itself. -/
theorem vrev32q_s8_involutive [Dialect] (vec : int8x16_t) :
    (vrev32q_s8 vec >>= vrev32q_s8) = .ok vec := by
  rw [vrev32q_s8_spec, ok_bind, vrev32q_s8_spec]
  congr 1
  ext i : 2
  refine congrArg vec.lane (Fin.ext ?_)
  simp only
  omega

/-- `vrev32q_s16` reverses the 2 lanes of each block. -/
theorem vrev32q_s16_spec [Dialect] (vec : int16x8_t) :
    vrev32q_s16 vec = .ok ⟨fun i => vec[i.val / 2 * 2 + (1 - i.val % 2)]⟩ := by
  unfold vrev32q_s16
  refine fill_own (fun j => j.val / 2) (fun i => vec[i.val / 2 * 2 + (1 - i.val % 2)]) 4 (by rfl) (fun j => by omega) fun k hk => ?_
  perm_close

/-- `vrev32q_s16` undoes itself. -/
theorem vrev32q_s16_involutive [Dialect] (vec : int16x8_t) :
    (vrev32q_s16 vec >>= vrev32q_s16) = .ok vec := by
  rw [vrev32q_s16_spec, ok_bind, vrev32q_s16_spec]
  congr 1
  ext i : 2
  refine congrArg vec.lane (Fin.ext ?_)
  simp only
  omega

/-- `vrev32q_u8` reverses the 4 lanes of each block. -/
theorem vrev32q_u8_spec [Dialect] (vec : uint8x16_t) :
    vrev32q_u8 vec = .ok ⟨fun i => vec[i.val / 4 * 4 + (3 - i.val % 4)]⟩ := by
  unfold vrev32q_u8
  refine fill_own (fun j => j.val / 4) (fun i => vec[i.val / 4 * 4 + (3 - i.val % 4)]) 4 (by rfl) (fun j => by omega) fun k hk => ?_
  perm_close

/-- `vrev32q_u8` undoes itself. -/
theorem vrev32q_u8_involutive [Dialect] (vec : uint8x16_t) :
    (vrev32q_u8 vec >>= vrev32q_u8) = .ok vec := by
  rw [vrev32q_u8_spec, ok_bind, vrev32q_u8_spec]
  congr 1
  ext i : 2
  refine congrArg vec.lane (Fin.ext ?_)
  simp only
  omega

/-- `vrev32q_u16` reverses the 2 lanes of each block. -/
theorem vrev32q_u16_spec [Dialect] (vec : uint16x8_t) :
    vrev32q_u16 vec = .ok ⟨fun i => vec[i.val / 2 * 2 + (1 - i.val % 2)]⟩ := by
  unfold vrev32q_u16
  refine fill_own (fun j => j.val / 2) (fun i => vec[i.val / 2 * 2 + (1 - i.val % 2)]) 4 (by rfl) (fun j => by omega) fun k hk => ?_
  perm_close

/-- `vrev32q_u16` undoes itself. -/
theorem vrev32q_u16_involutive [Dialect] (vec : uint16x8_t) :
    (vrev32q_u16 vec >>= vrev32q_u16) = .ok vec := by
  rw [vrev32q_u16_spec, ok_bind, vrev32q_u16_spec]
  congr 1
  ext i : 2
  refine congrArg vec.lane (Fin.ext ?_)
  simp only
  omega

/-- `vrev64_s8` reverses the 8 lanes of each block. -/
theorem vrev64_s8_spec [Dialect] (vec : int8x8_t) :
    vrev64_s8 vec = .ok ⟨fun i => vec[i.val / 8 * 8 + (7 - i.val % 8)]⟩ := by
  unfold vrev64_s8
  refine fill_own (fun j => j.val / 8) (fun i => vec[i.val / 8 * 8 + (7 - i.val % 8)]) 1 (by rfl) (fun j => by omega) fun k hk => ?_
  perm_close

/-- `vrev64_s8` undoes itself. -/
theorem vrev64_s8_involutive [Dialect] (vec : int8x8_t) :
    (vrev64_s8 vec >>= vrev64_s8) = .ok vec := by
  rw [vrev64_s8_spec, ok_bind, vrev64_s8_spec]
  congr 1
  ext i : 2
  refine congrArg vec.lane (Fin.ext ?_)
  simp only
  omega

/-- `vrev64_s16` reverses the 4 lanes of each block. -/
theorem vrev64_s16_spec [Dialect] (vec : int16x4_t) :
    vrev64_s16 vec = .ok ⟨fun i => vec[i.val / 4 * 4 + (3 - i.val % 4)]⟩ := by
  unfold vrev64_s16
  refine fill_own (fun j => j.val / 4) (fun i => vec[i.val / 4 * 4 + (3 - i.val % 4)]) 1 (by rfl) (fun j => by omega) fun k hk => ?_
  perm_close

/-- `vrev64_s16` undoes itself. -/
theorem vrev64_s16_involutive [Dialect] (vec : int16x4_t) :
    (vrev64_s16 vec >>= vrev64_s16) = .ok vec := by
  rw [vrev64_s16_spec, ok_bind, vrev64_s16_spec]
  congr 1
  ext i : 2
  refine congrArg vec.lane (Fin.ext ?_)
  simp only
  omega

/-- `vrev64_s32` reverses the 2 lanes of each block. -/
theorem vrev64_s32_spec [Dialect] (vec : int32x2_t) :
    vrev64_s32 vec = .ok ⟨fun i => vec[i.val / 2 * 2 + (1 - i.val % 2)]⟩ := by
  unfold vrev64_s32
  refine fill_own (fun j => j.val / 2) (fun i => vec[i.val / 2 * 2 + (1 - i.val % 2)]) 1 (by rfl) (fun j => by omega) fun k hk => ?_
  perm_close

/-- `vrev64_s32` undoes itself. -/
theorem vrev64_s32_involutive [Dialect] (vec : int32x2_t) :
    (vrev64_s32 vec >>= vrev64_s32) = .ok vec := by
  rw [vrev64_s32_spec, ok_bind, vrev64_s32_spec]
  congr 1
  ext i : 2
  refine congrArg vec.lane (Fin.ext ?_)
  simp only
  omega

/-- `vrev64_u8` reverses the 8 lanes of each block. -/
theorem vrev64_u8_spec [Dialect] (vec : uint8x8_t) :
    vrev64_u8 vec = .ok ⟨fun i => vec[i.val / 8 * 8 + (7 - i.val % 8)]⟩ := by
  unfold vrev64_u8
  refine fill_own (fun j => j.val / 8) (fun i => vec[i.val / 8 * 8 + (7 - i.val % 8)]) 1 (by rfl) (fun j => by omega) fun k hk => ?_
  perm_close

/-- `vrev64_u8` undoes itself. -/
theorem vrev64_u8_involutive [Dialect] (vec : uint8x8_t) :
    (vrev64_u8 vec >>= vrev64_u8) = .ok vec := by
  rw [vrev64_u8_spec, ok_bind, vrev64_u8_spec]
  congr 1
  ext i : 2
  refine congrArg vec.lane (Fin.ext ?_)
  simp only
  omega

/-- `vrev64_u16` reverses the 4 lanes of each block. -/
theorem vrev64_u16_spec [Dialect] (vec : uint16x4_t) :
    vrev64_u16 vec = .ok ⟨fun i => vec[i.val / 4 * 4 + (3 - i.val % 4)]⟩ := by
  unfold vrev64_u16
  refine fill_own (fun j => j.val / 4) (fun i => vec[i.val / 4 * 4 + (3 - i.val % 4)]) 1 (by rfl) (fun j => by omega) fun k hk => ?_
  perm_close

/-- `vrev64_u16` undoes itself. -/
theorem vrev64_u16_involutive [Dialect] (vec : uint16x4_t) :
    (vrev64_u16 vec >>= vrev64_u16) = .ok vec := by
  rw [vrev64_u16_spec, ok_bind, vrev64_u16_spec]
  congr 1
  ext i : 2
  refine congrArg vec.lane (Fin.ext ?_)
  simp only
  omega

/-- `vrev64_u32` reverses the 2 lanes of each block. -/
theorem vrev64_u32_spec [Dialect] (vec : uint32x2_t) :
    vrev64_u32 vec = .ok ⟨fun i => vec[i.val / 2 * 2 + (1 - i.val % 2)]⟩ := by
  unfold vrev64_u32
  refine fill_own (fun j => j.val / 2) (fun i => vec[i.val / 2 * 2 + (1 - i.val % 2)]) 1 (by rfl) (fun j => by omega) fun k hk => ?_
  perm_close

/-- `vrev64_u32` undoes itself. -/
theorem vrev64_u32_involutive [Dialect] (vec : uint32x2_t) :
    (vrev64_u32 vec >>= vrev64_u32) = .ok vec := by
  rw [vrev64_u32_spec, ok_bind, vrev64_u32_spec]
  congr 1
  ext i : 2
  refine congrArg vec.lane (Fin.ext ?_)
  simp only
  omega

/-- `vrev64_f32` reverses the 2 lanes of each block. -/
theorem vrev64_f32_spec [Dialect] (vec : float32x2_t) :
    vrev64_f32 vec = .ok ⟨fun i => vec[i.val / 2 * 2 + (1 - i.val % 2)]⟩ := by
  unfold vrev64_f32
  refine fill_own (fun j => j.val / 2) (fun i => vec[i.val / 2 * 2 + (1 - i.val % 2)]) 1 (by rfl) (fun j => by omega) fun k hk => ?_
  perm_close

/-- `vrev64_f32` undoes itself. -/
theorem vrev64_f32_involutive [Dialect] (vec : float32x2_t) :
    (vrev64_f32 vec >>= vrev64_f32) = .ok vec := by
  rw [vrev64_f32_spec, ok_bind, vrev64_f32_spec]
  congr 1
  ext i : 2
  refine congrArg vec.lane (Fin.ext ?_)
  simp only
  omega

/-- `vrev64q_s8` reverses the lower block only and returns a register whose upper 8 lanes were never written. -/
theorem vrev64q_s8_partial [Dialect] (vec : int8x16_t) :
    vrev64q_s8 vec = .indet (List.ofFn fun i : Fin 16 => if i.val < 8 then some (vec[7 - i.val]).toNat else none) := by
  unfold vrev64q_s8
  refine (fill_own_indet (fun j => j.val / 8) (fun i => vec[7 - i.val]) 1 (by rfl) ⟨⟨8, by omega⟩, by decide⟩ fun k hk => ?_).trans ?_
  · perm_close
  · congr 2
    funext j
    have : (j.val / 8 < 1) = (j.val < 8) := propext (by omega)
    simp only [this]

/-- `vrev64q_s8` never returns a fully written register. -/
theorem vrev64q_s8_wrong [Dialect] : ¬ ∃ vec r : int8x16_t, vrev64q_s8 vec = .ok r := by
  rintro ⟨v, r, h⟩
  rw [vrev64q_s8_partial] at h
  cases h

/-- `vrev64q_s16` reverses the lower block only and returns a register whose upper 4 lanes were never written. -/
theorem vrev64q_s16_partial [Dialect] (vec : int16x8_t) :
    vrev64q_s16 vec = .indet (List.ofFn fun i : Fin 8 => if i.val < 4 then some (vec[3 - i.val]).toNat else none) := by
  unfold vrev64q_s16
  refine (fill_own_indet (fun j => j.val / 4) (fun i => vec[3 - i.val]) 1 (by rfl) ⟨⟨4, by omega⟩, by decide⟩ fun k hk => ?_).trans ?_
  · perm_close
  · congr 2
    funext j
    have : (j.val / 4 < 1) = (j.val < 4) := propext (by omega)
    simp only [this]

/-- `vrev64q_s16` never returns a fully written register. -/
theorem vrev64q_s16_wrong [Dialect] : ¬ ∃ vec r : int16x8_t, vrev64q_s16 vec = .ok r := by
  rintro ⟨v, r, h⟩
  rw [vrev64q_s16_partial] at h
  cases h

/-- `vrev64q_s32` reverses the 2 lanes of each block. -/
theorem vrev64q_s32_spec [Dialect] (vec : int32x4_t) :
    vrev64q_s32 vec = .ok ⟨fun i => vec[i.val / 2 * 2 + (1 - i.val % 2)]⟩ := by
  unfold vrev64q_s32
  refine fill_own (fun j => j.val / 2) (fun i => vec[i.val / 2 * 2 + (1 - i.val % 2)]) 2 (by rfl) (fun j => by omega) fun k hk => ?_
  perm_close

/-- `vrev64q_s32` undoes itself. -/
theorem vrev64q_s32_involutive [Dialect] (vec : int32x4_t) :
    (vrev64q_s32 vec >>= vrev64q_s32) = .ok vec := by
  rw [vrev64q_s32_spec, ok_bind, vrev64q_s32_spec]
  congr 1
  ext i : 2
  refine congrArg vec.lane (Fin.ext ?_)
  simp only
  omega

/-- `vrev64q_u8` reverses the 8 lanes of each block. -/
theorem vrev64q_u8_spec [Dialect] (vec : uint8x16_t) :
    vrev64q_u8 vec = .ok ⟨fun i => vec[i.val / 8 * 8 + (7 - i.val % 8)]⟩ := by
  unfold vrev64q_u8
  refine fill_own (fun j => j.val / 8) (fun i => vec[i.val / 8 * 8 + (7 - i.val % 8)]) 2 (by rfl) (fun j => by omega) fun k hk => ?_
  perm_close

/-- `vrev64q_u8` undoes itself. -/
theorem vrev64q_u8_involutive [Dialect] (vec : uint8x16_t) :
    (vrev64q_u8 vec >>= vrev64q_u8) = .ok vec := by
  rw [vrev64q_u8_spec, ok_bind, vrev64q_u8_spec]
  congr 1
  ext i : 2
  refine congrArg vec.lane (Fin.ext ?_)
  simp only
  omega

/-- `vrev64q_u16` reverses the 4 lanes of each block. -/
theorem vrev64q_u16_spec [Dialect] (vec : uint16x8_t) :
    vrev64q_u16 vec = .ok ⟨fun i => vec[i.val / 4 * 4 + (3 - i.val % 4)]⟩ := by
  unfold vrev64q_u16
  refine fill_own (fun j => j.val / 4) (fun i => vec[i.val / 4 * 4 + (3 - i.val % 4)]) 2 (by rfl) (fun j => by omega) fun k hk => ?_
  perm_close

/-- `vrev64q_u16` undoes itself. -/
theorem vrev64q_u16_involutive [Dialect] (vec : uint16x8_t) :
    (vrev64q_u16 vec >>= vrev64q_u16) = .ok vec := by
  rw [vrev64q_u16_spec, ok_bind, vrev64q_u16_spec]
  congr 1
  ext i : 2
  refine congrArg vec.lane (Fin.ext ?_)
  simp only
  omega

/-- `vrev64q_u32` reverses the 2 lanes of each block. -/
theorem vrev64q_u32_spec [Dialect] (vec : uint32x4_t) :
    vrev64q_u32 vec = .ok ⟨fun i => vec[i.val / 2 * 2 + (1 - i.val % 2)]⟩ := by
  unfold vrev64q_u32
  refine fill_own (fun j => j.val / 2) (fun i => vec[i.val / 2 * 2 + (1 - i.val % 2)]) 2 (by rfl) (fun j => by omega) fun k hk => ?_
  perm_close

/-- `vrev64q_u32` undoes itself. -/
theorem vrev64q_u32_involutive [Dialect] (vec : uint32x4_t) :
    (vrev64q_u32 vec >>= vrev64q_u32) = .ok vec := by
  rw [vrev64q_u32_spec, ok_bind, vrev64q_u32_spec]
  congr 1
  ext i : 2
  refine congrArg vec.lane (Fin.ext ?_)
  simp only
  omega

/-- `vrev64q_f32` reverses the 2 lanes of each block. -/
theorem vrev64q_f32_spec [Dialect] (vec : float32x4_t) :
    vrev64q_f32 vec = .ok ⟨fun i => vec[i.val / 2 * 2 + (1 - i.val % 2)]⟩ := by
  unfold vrev64q_f32
  refine fill_own (fun j => j.val / 2) (fun i => vec[i.val / 2 * 2 + (1 - i.val % 2)]) 2 (by rfl) (fun j => by omega) fun k hk => ?_
  perm_close

/-- `vrev64q_f32` undoes itself. -/
theorem vrev64q_f32_involutive [Dialect] (vec : float32x4_t) :
    (vrev64q_f32 vec >>= vrev64q_f32) = .ok vec := by
  rw [vrev64q_f32_spec, ok_bind, vrev64q_f32_spec]
  congr 1
  ext i : 2
  refine congrArg vec.lane (Fin.ext ?_)
  simp only
  omega

/-- `vtrn_s8`: register 0 holds the even lanes of both operands, register 1 the odd lanes, alternating between first and second operand. -/
theorem vtrn_s8_spec (a b : int8x8_t) :
    vtrn_s8 a b = .ok ⟨fun j => ⟨fun i => if h : i.val % 2 = 0 then a[i.val + j.val] else b[i.val - 1 + j.val]⟩⟩ := by
  unfold vtrn_s8
  refine fill2_own2 (fun j i => 4 * j.val + i.val / 2) (fun j i => if h : i.val % 2 = 0 then a[i.val + j.val] else b[i.val - 1 + j.val]) 4 4 (by rfl) (by rfl) (fun j i => by omega) ?_ ?_
  · intro k hk
    perm2_close
  · intro k hk
    perm2_close

/-- Applying `vtrn_s8` to the two registers it returned gives the operands back. -/
theorem vtrn_s8_involutive (a b : int8x8_t) :
    (do let r ← vtrn_s8 a b; vtrn_s8 r[0] r[1]) = .ok ⟨fun j => if j.val = 0 then a else b⟩ := by
  rw [vtrn_s8_spec, ok_bind, vtrn_s8_spec]
  congr 1
  ext j i : 4
  obtain ⟨j, hj⟩ := j
  have hj : j = 0 ∨ j = 1 := by omega
  rcases hj with rfl | rfl
  · perm_dite
  · perm_dite

/-- `vtrn_u8`: register 0 holds the even lanes of both operands, register 1 the odd lanes, alternating between first and second operand. -/
theorem vtrn_u8_spec (a b : uint8x8_t) :
    vtrn_u8 a b = .ok ⟨fun j => ⟨fun i => if h : i.val % 2 = 0 then a[i.val + j.val] else b[i.val - 1 + j.val]⟩⟩ := by
  unfold vtrn_u8
  refine fill2_own2 (fun j i => 4 * j.val + i.val / 2) (fun j i => if h : i.val % 2 = 0 then a[i.val + j.val] else b[i.val - 1 + j.val]) 4 4 (by rfl) (by rfl) (fun j i => by omega) ?_ ?_
  · intro k hk
    perm2_close
  · intro k hk
    perm2_close

/-- Applying `vtrn_u8` to the two registers it returned gives the operands back. -/
theorem vtrn_u8_involutive (a b : uint8x8_t) :
    (do let r ← vtrn_u8 a b; vtrn_u8 r[0] r[1]) = .ok ⟨fun j => if j.val = 0 then a else b⟩ := by
  rw [vtrn_u8_spec, ok_bind, vtrn_u8_spec]
  congr 1
  ext j i : 4
  obtain ⟨j, hj⟩ := j
  have hj : j = 0 ∨ j = 1 := by omega
  rcases hj with rfl | rfl
  · perm_dite
  · perm_dite

/-- `vtrn_s16`: register 0 holds the even lanes of both operands, register 1 the odd lanes, alternating between first and second operand. -/
theorem vtrn_s16_spec (a b : int16x4_t) :
    vtrn_s16 a b = .ok ⟨fun j => ⟨fun i => if h : i.val % 2 = 0 then a[i.val + j.val] else b[i.val - 1 + j.val]⟩⟩ := by
  unfold vtrn_s16
  refine fill2_own2 (fun j i => 2 * j.val + i.val / 2) (fun j i => if h : i.val % 2 = 0 then a[i.val + j.val] else b[i.val - 1 + j.val]) 2 2 (by rfl) (by rfl) (fun j i => by omega) ?_ ?_
  · intro k hk
    perm2_close
  · intro k hk
    perm2_close

/-- Applying `vtrn_s16` to the two registers it returned gives the operands back. -/
theorem vtrn_s16_involutive (a b : int16x4_t) :
    (do let r ← vtrn_s16 a b; vtrn_s16 r[0] r[1]) = .ok ⟨fun j => if j.val = 0 then a else b⟩ := by
  rw [vtrn_s16_spec, ok_bind, vtrn_s16_spec]
  congr 1
  ext j i : 4
  obtain ⟨j, hj⟩ := j
  have hj : j = 0 ∨ j = 1 := by omega
  rcases hj with rfl | rfl
  · perm_dite
  · perm_dite

/-- `vtrn_u16`: register 0 holds the even lanes of both operands, register 1 the odd lanes, alternating between first and second operand. -/
theorem vtrn_u16_spec (a b : uint16x4_t) :
    vtrn_u16 a b = .ok ⟨fun j => ⟨fun i => if h : i.val % 2 = 0 then a[i.val + j.val] else b[i.val - 1 + j.val]⟩⟩ := by
  unfold vtrn_u16
  refine fill2_own2 (fun j i => 2 * j.val + i.val / 2) (fun j i => if h : i.val % 2 = 0 then a[i.val + j.val] else b[i.val - 1 + j.val]) 2 2 (by rfl) (by rfl) (fun j i => by omega) ?_ ?_
  · intro k hk
    perm2_close
  · intro k hk
    perm2_close

/-- Applying `vtrn_u16` to the two registers it returned gives the operands back. -/
theorem vtrn_u16_involutive (a b : uint16x4_t) :
    (do let r ← vtrn_u16 a b; vtrn_u16 r[0] r[1]) = .ok ⟨fun j => if j.val = 0 then a else b⟩ := by
  rw [vtrn_u16_spec, ok_bind, vtrn_u16_spec]
  congr 1
  ext j i : 4
  obtain ⟨j, hj⟩ := j
  have hj : j = 0 ∨ j = 1 := by omega
  rcases hj with rfl | rfl
  · perm_dite
  · perm_dite

/-- `vtrn_s32`: register 0 holds the even lanes of both operands, register 1 the odd lanes, alternating between first and second operand. -/
theorem vtrn_s32_spec (a b : int32x2_t) :
    vtrn_s32 a b = .ok ⟨fun j => ⟨fun i => if h : i.val % 2 = 0 then a[i.val + j.val] else b[i.val - 1 + j.val]⟩⟩ := by
  unfold vtrn_s32
  refine fill2_own2 (fun j i => 1 * j.val + i.val / 2) (fun j i => if h : i.val % 2 = 0 then a[i.val + j.val] else b[i.val - 1 + j.val]) 1 1 (by rfl) (by rfl) (fun j i => by omega) ?_ ?_
  · intro k hk
    perm2_close
  · intro k hk
    perm2_close

/-- Applying `vtrn_s32` to the two registers it returned gives the operands back. -/
theorem vtrn_s32_involutive (a b : int32x2_t) :
    (do let r ← vtrn_s32 a b; vtrn_s32 r[0] r[1]) = .ok ⟨fun j => if j.val = 0 then a else b⟩ := by
  rw [vtrn_s32_spec, ok_bind, vtrn_s32_spec]
  congr 1
  ext j i : 4
  obtain ⟨j, hj⟩ := j
  have hj : j = 0 ∨ j = 1 := by omega
  rcases hj with rfl | rfl
  · perm_dite
  · perm_dite

/-- `vtrn_u32`: register 0 holds the even lanes of both operands, register 1 the odd lanes, alternating between first and second operand. -/
theorem vtrn_u32_spec (a b : uint32x2_t) :
    vtrn_u32 a b = .ok ⟨fun j => ⟨fun i => if h : i.val % 2 = 0 then a[i.val + j.val] else b[i.val - 1 + j.val]⟩⟩ := by
  unfold vtrn_u32
  refine fill2_own2 (fun j i => 1 * j.val + i.val / 2) (fun j i => if h : i.val % 2 = 0 then a[i.val + j.val] else b[i.val - 1 + j.val]) 1 1 (by rfl) (by rfl) (fun j i => by omega) ?_ ?_
  · intro k hk
    perm2_close
  · intro k hk
    perm2_close

/-- Applying `vtrn_u32` to the two registers it returned gives the operands back. -/
theorem vtrn_u32_involutive (a b : uint32x2_t) :
    (do let r ← vtrn_u32 a b; vtrn_u32 r[0] r[1]) = .ok ⟨fun j => if j.val = 0 then a else b⟩ := by
  rw [vtrn_u32_spec, ok_bind, vtrn_u32_spec]
  congr 1
  ext j i : 4
  obtain ⟨j, hj⟩ := j
  have hj : j = 0 ∨ j = 1 := by omega
  rcases hj with rfl | rfl
  · perm_dite
  · perm_dite

/-- `vtrnq_u16`: register 0 holds the even lanes of both operands, register 1 the odd lanes, alternating between first and second operand. -/
theorem vtrnq_u16_spec (a b : uint16x8_t) :
    vtrnq_u16 a b = .ok ⟨fun j => ⟨fun i => if h : i.val % 2 = 0 then a[i.val + j.val] else b[i.val - 1 + j.val]⟩⟩ := by
  unfold vtrnq_u16
  refine fill2_own2 (fun j i => 4 * j.val + i.val / 2) (fun j i => if h : i.val % 2 = 0 then a[i.val + j.val] else b[i.val - 1 + j.val]) 4 4 (by rfl) (by rfl) (fun j i => by omega) ?_ ?_
  · intro k hk
    perm2_close
  · intro k hk
    perm2_close

/-- Applying `vtrnq_u16` to the two registers it returned gives the operands back. -/
theorem vtrnq_u16_involutive (a b : uint16x8_t) :
    (do let r ← vtrnq_u16 a b; vtrnq_u16 r[0] r[1]) = .ok ⟨fun j => if j.val = 0 then a else b⟩ := by
  rw [vtrnq_u16_spec, ok_bind, vtrnq_u16_spec]
  congr 1
  ext j i : 4
  obtain ⟨j, hj⟩ := j
  have hj : j = 0 ∨ j = 1 := by omega
  rcases hj with rfl | rfl
  · perm_dite
  · perm_dite

/-- `vtrnq_u32`: register 0 holds the even lanes of both operands, register 1 the odd lanes, alternating between first and second operand. -/
theorem vtrnq_u32_spec (a b : uint32x4_t) :
    vtrnq_u32 a b = .ok ⟨fun j => ⟨fun i => if h : i.val % 2 = 0 then a[i.val + j.val] else b[i.val - 1 + j.val]⟩⟩ := by
  unfold vtrnq_u32
  refine fill2_own2 (fun j i => 2 * j.val + i.val / 2) (fun j i => if h : i.val % 2 = 0 then a[i.val + j.val] else b[i.val - 1 + j.val]) 2 2 (by rfl) (by rfl) (fun j i => by omega) ?_ ?_
  · intro k hk
    perm2_close
  · intro k hk
    perm2_close

/-- Applying `vtrnq_u32` to the two registers it returned gives the operands back. -/
theorem vtrnq_u32_involutive (a b : uint32x4_t) :
    (do let r ← vtrnq_u32 a b; vtrnq_u32 r[0] r[1]) = .ok ⟨fun j => if j.val = 0 then a else b⟩ := by
  rw [vtrnq_u32_spec, ok_bind, vtrnq_u32_spec]
  congr 1
  ext j i : 4
  obtain ⟨j, hj⟩ := j
  have hj : j = 0 ∨ j = 1 := by omega
  rcases hj with rfl | rfl
  · perm_dite
  · perm_dite

/-- `vtrnq_s16`: register 0 holds the even lanes of both operands, register 1 the odd lanes, alternating between first and second operand. -/
theorem vtrnq_s16_spec (a b : int16x8_t) :
    vtrnq_s16 a b = .ok ⟨fun j => ⟨fun i => if h : i.val % 2 = 0 then a[i.val + j.val] else b[i.val - 1 + j.val]⟩⟩ := by
  unfold vtrnq_s16
  refine fill2_own2 (fun j i => 4 * j.val + i.val / 2) (fun j i => if h : i.val % 2 = 0 then a[i.val + j.val] else b[i.val - 1 + j.val]) 4 4 (by rfl) (by rfl) (fun j i => by omega) ?_ ?_
  · intro k hk
    perm2_close
  · intro k hk
    perm2_close

/-- Applying `vtrnq_s16` to the two registers it returned gives the operands back. -/
theorem vtrnq_s16_involutive (a b : int16x8_t) :
    (do let r ← vtrnq_s16 a b; vtrnq_s16 r[0] r[1]) = .ok ⟨fun j => if j.val = 0 then a else b⟩ := by
  rw [vtrnq_s16_spec, ok_bind, vtrnq_s16_spec]
  congr 1
  ext j i : 4
  obtain ⟨j, hj⟩ := j
  have hj : j = 0 ∨ j = 1 := by omega
  rcases hj with rfl | rfl
  · perm_dite
  · perm_dite

/-- `vzip_s16` interleaves its operands; register 0 holds the first 4 lanes of the interleaving, register 1 the last 4. -/
theorem vzip_s16_spec (a b : int16x4_t) :
    vzip_s16 a b = .ok ⟨fun j => ⟨fun i => if h : i.val % 2 = 0 then a[2 * j.val + i.val / 2] else b[2 * j.val + i.val / 2]⟩⟩ := by
  unfold vzip_s16
  refine fill2_own2 (fun j i => 2 * j.val + i.val / 2) (fun j i => if h : i.val % 2 = 0 then a[2 * j.val + i.val / 2] else b[2 * j.val + i.val / 2]) 2 2 (by rfl) (by rfl) (fun j i => by omega) ?_ ?_
  · intro k hk
    perm2_close
  · intro k hk
    perm2_close

/-- `vzip_s8` interleaves its operands; register 0 holds the first 8 lanes of the interleaving, register 1 the last 8. -/
theorem vzip_s8_spec [Dialect] (a b : int8x8_t) :
    vzip_s8 a b = .ok ⟨fun j => ⟨fun i => if h : i.val % 2 = 0 then a[4 * j.val + i.val / 2] else b[4 * j.val + i.val / 2]⟩⟩ := by
  unfold vzip_s8
  refine fill2_own (fun j i => i.val) (fun j i => if h : i.val % 2 = 0 then a[4 * j.val + i.val / 2] else b[4 * j.val + i.val / 2]) 8 (by rfl) (fun j i => by omega) fun k hk => ?_
  split
  · perm2_close
  · perm2_close

/-- `vzip_u8` interleaves its operands; register 0 holds the first 8 lanes of the interleaving, register 1 the last 8. -/
theorem vzip_u8_spec [Dialect] (a b : uint8x8_t) :
    vzip_u8 a b = .ok ⟨fun j => ⟨fun i => if h : i.val % 2 = 0 then a[4 * j.val + i.val / 2] else b[4 * j.val + i.val / 2]⟩⟩ := by
  unfold vzip_u8
  refine fill2_own (fun j i => i.val) (fun j i => if h : i.val % 2 = 0 then a[4 * j.val + i.val / 2] else b[4 * j.val + i.val / 2]) 8 (by rfl) (fun j i => by omega) fun k hk => ?_
  split
  · perm2_close
  · perm2_close

/-- `vuzp_u8` de-interleaves the lanes of its concatenated operands: register 0 holds those with even index, register 1 those with odd index. -/
theorem vuzp_u8_spec [Dialect] (a b : uint8x8_t) :
    vuzp_u8 a b = .ok ⟨fun j => ⟨fun i => if h : 2 * i.val + j.val < 8 then a[2 * i.val + j.val] else b[2 * i.val + j.val - 8]⟩⟩ := by
  unfold vuzp_u8
  refine fill2_own2 (fun j i => i.val) (fun j i => if h : 2 * i.val + j.val < 8 then a[2 * i.val + j.val] else b[2 * i.val + j.val - 8]) 4 4 (by rfl) (by rfl) (fun j i => by omega) ?_ ?_
  · intro k hk
    perm2_close
  · intro k hk
    perm2_close

/-- `vuzp_u8` undoes `vzip_u8`. -/
theorem vuzp_u8_vzip_u8 [Dialect] (a b : uint8x8_t) :
    (do let r ← vzip_u8 a b; vuzp_u8 r[0] r[1]) = .ok ⟨fun j => if j.val = 0 then a else b⟩ := by
  rw [vzip_u8_spec, ok_bind, vuzp_u8_spec]
  congr 1
  ext j i : 4
  obtain ⟨j, hj⟩ := j
  have hj : j = 0 ∨ j = 1 := by omega
  rcases hj with rfl | rfl
  · perm_dite
  · perm_dite

/-- `vzip_u8` undoes `vuzp_u8`. -/
theorem vzip_u8_vuzp_u8 [Dialect] (a b : uint8x8_t) :
    (do let r ← vuzp_u8 a b; vzip_u8 r[0] r[1]) = .ok ⟨fun j => if j.val = 0 then a else b⟩ := by
  rw [vuzp_u8_spec, ok_bind, vzip_u8_spec]
  congr 1
  ext j i : 4
  obtain ⟨j, hj⟩ := j
  have hj : j = 0 ∨ j = 1 := by omega
  rcases hj with rfl | rfl
  · perm_dite
  · perm_dite

/-- `vuzp_s8` de-interleaves the lanes of its concatenated operands: register 0 holds those with even index, register 1 those with odd index. -/
theorem vuzp_s8_spec [Dialect] (a b : int8x8_t) :
    vuzp_s8 a b = .ok ⟨fun j => ⟨fun i => if h : 2 * i.val + j.val < 8 then a[2 * i.val + j.val] else b[2 * i.val + j.val - 8]⟩⟩ := by
  unfold vuzp_s8
  refine fill2_own2 (fun j i => i.val) (fun j i => if h : 2 * i.val + j.val < 8 then a[2 * i.val + j.val] else b[2 * i.val + j.val - 8]) 4 4 (by rfl) (by rfl) (fun j i => by omega) ?_ ?_
  · intro k hk
    perm2_close
  · intro k hk
    perm2_close

/-- `vuzp_s8` undoes `vzip_s8`. -/
theorem vuzp_s8_vzip_s8 [Dialect] (a b : int8x8_t) :
    (do let r ← vzip_s8 a b; vuzp_s8 r[0] r[1]) = .ok ⟨fun j => if j.val = 0 then a else b⟩ := by
  rw [vzip_s8_spec, ok_bind, vuzp_s8_spec]
  congr 1
  ext j i : 4
  obtain ⟨j, hj⟩ := j
  have hj : j = 0 ∨ j = 1 := by omega
  rcases hj with rfl | rfl
  · perm_dite
  · perm_dite

/-- `vzip_s8` undoes `vuzp_s8`. -/
theorem vzip_s8_vuzp_s8 [Dialect] (a b : int8x8_t) :
    (do let r ← vuzp_s8 a b; vzip_s8 r[0] r[1]) = .ok ⟨fun j => if j.val = 0 then a else b⟩ := by
  rw [vuzp_s8_spec, ok_bind, vzip_s8_spec]
  congr 1
  ext j i : 4
  obtain ⟨j, hj⟩ := j
  have hj : j = 0 ∨ j = 1 := by omega
  rcases hj with rfl | rfl
  · perm_dite
  · perm_dite

/-- `vext_u8`: lanes `n .. n + 7` of the concatenation of the operands, for every accepted `n`. -/
theorem vext_u8_spec (a b : uint8x8_t) (n : Nat) (hn : n ≤ 8) :
    vext_u8 a b n = .ok ⟨fun i => if h : i.val + n < 8 then a[i.val + n] else b[i.val + n - 8]⟩ := by
  unfold vext_u8
  simp only []
  rw [if_neg (by omega)]
  refine fill_own2 (fun j => j.val) (fun i => if h : i.val + n < 8 then a[i.val + n] else b[i.val + n - 8]) (8 - n) n (by omega) (by omega) (fun j => by omega) ?_ ?_
  · intro k hk
    perm_close
  · intro k hk
    perm_close
example := vext_u8_spec (⟨fun i => BitVec.ofNat 8 (3 + i.val)⟩) (⟨fun i => BitVec.ofNat 8 (2 + i.val)⟩) 3 (by decide)

/-- `vext_u8` aborts for every other `n`. -/
theorem vext_u8_abort (a b : uint8x8_t) (n : Int) (hn : ¬ (0 ≤ n ∧ n ≤ 8)) :
    ∃ msg, vext_u8 a b n = .abort msg := by
  unfold vext_u8
  simp only []
  rw [if_pos (by omega)]
  exact ⟨_, rfl⟩
example := vext_u8_abort (⟨fun i => BitVec.ofNat 8 (3 + i.val)⟩) (⟨fun i => BitVec.ofNat 8 (2 + i.val)⟩) (-1) (by decide)

/-- `vext_u16`: lanes `n .. n + 3` of the concatenation of the operands, for every accepted `n`. -/
theorem vext_u16_spec (a b : uint16x4_t) (n : Nat) (hn : n ≤ 3) :
    vext_u16 a b n = .ok ⟨fun i => if h : i.val + n < 4 then a[i.val + n] else b[i.val + n - 4]⟩ := by
  unfold vext_u16
  simp only []
  rw [if_neg (by omega)]
  refine fill_own2 (fun j => j.val) (fun i => if h : i.val + n < 4 then a[i.val + n] else b[i.val + n - 4]) (4 - n) n (by omega) (by omega) (fun j => by omega) ?_ ?_
  · intro k hk
    perm_close
  · intro k hk
    perm_close
example := vext_u16_spec (⟨fun i => BitVec.ofNat 16 (3 + i.val)⟩) (⟨fun i => BitVec.ofNat 16 (2 + i.val)⟩) 3 (by decide)

/-- `vext_u16` aborts for every other `n`. -/
theorem vext_u16_abort (a b : uint16x4_t) (n : Int) (hn : ¬ (0 ≤ n ∧ n ≤ 3)) :
    ∃ msg, vext_u16 a b n = .abort msg := by
  unfold vext_u16
  simp only []
  rw [if_pos (by omega)]
  exact ⟨_, rfl⟩
example := vext_u16_abort (⟨fun i => BitVec.ofNat 16 (3 + i.val)⟩) (⟨fun i => BitVec.ofNat 16 (2 + i.val)⟩) (-1) (by decide)

/-- `vext_s16`: lanes `n .. n + 3` of the concatenation of the operands, for every accepted `n`. -/
theorem vext_s16_spec (a b : int16x4_t) (n : Nat) (hn : n ≤ 3) :
    vext_s16 a b n = .ok ⟨fun i => if h : i.val + n < 4 then a[i.val + n] else b[i.val + n - 4]⟩ := by
  unfold vext_s16
  simp only []
  rw [if_neg (by omega)]
  refine fill_own2 (fun j => j.val) (fun i => if h : i.val + n < 4 then a[i.val + n] else b[i.val + n - 4]) (4 - n) n (by omega) (by omega) (fun j => by omega) ?_ ?_
  · intro k hk
    perm_close
  · intro k hk
    perm_close
example := vext_s16_spec (⟨fun i => BitVec.ofNat 16 (3 + i.val)⟩) (⟨fun i => BitVec.ofNat 16 (2 + i.val)⟩) 3 (by decide)

/-- `vext_s16` aborts for every other `n`. -/
theorem vext_s16_abort (a b : int16x4_t) (n : Int) (hn : ¬ (0 ≤ n ∧ n ≤ 3)) :
    ∃ msg, vext_s16 a b n = .abort msg := by
  unfold vext_s16
  simp only []
  rw [if_pos (by omega)]
  exact ⟨_, rfl⟩
example := vext_s16_abort (⟨fun i => BitVec.ofNat 16 (3 + i.val)⟩) (⟨fun i => BitVec.ofNat 16 (2 + i.val)⟩) (-1) (by decide)

/-- `vextq_u16`: lanes `n .. n + 7` of the concatenation of the operands, for every accepted `n`. -/
theorem vextq_u16_spec (a b : uint16x8_t) (n : Nat) (hn : n ≤ 8) :
    vextq_u16 a b n = .ok ⟨fun i => if h : i.val + n < 8 then a[i.val + n] else b[i.val + n - 8]⟩ := by
  unfold vextq_u16
  simp only []
  rw [if_neg (by omega)]
  refine fill_own2 (fun j => j.val) (fun i => if h : i.val + n < 8 then a[i.val + n] else b[i.val + n - 8]) (8 - n) n (by omega) (by omega) (fun j => by omega) ?_ ?_
  · intro k hk
    perm_close
  · intro k hk
    perm_close
example := vextq_u16_spec (⟨fun i => BitVec.ofNat 16 (3 + i.val)⟩) (⟨fun i => BitVec.ofNat 16 (2 + i.val)⟩) 3 (by decide)

/-- `vextq_u16` aborts for every other `n`. -/
theorem vextq_u16_abort (a b : uint16x8_t) (n : Int) (hn : ¬ (0 ≤ n ∧ n ≤ 8)) :
    ∃ msg, vextq_u16 a b n = .abort msg := by
  unfold vextq_u16
  simp only []
  rw [if_pos (by omega)]
  exact ⟨_, rfl⟩
example := vextq_u16_abort (⟨fun i => BitVec.ofNat 16 (3 + i.val)⟩) (⟨fun i => BitVec.ofNat 16 (2 + i.val)⟩) (-1) (by decide)

end Verif.Props
