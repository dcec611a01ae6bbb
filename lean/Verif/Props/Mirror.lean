/-
C112: reversing byte arrays of any length.
-/
import Verif.Props.Perm
import Verif.Props.Load
import Verif.Props.Store
import Verif.Kernel

namespace Verif.Props
open Verif.Model Verif.Spec

/-! # Reversing a byte array (client code, not code of the repository) -/

section
variable [Dialect]

/-- `for (i = 0; i < m; i++) vst1_u8(dst + 8 * (m - 1 - i), vrev64_u8(vld1_u8(src + 8 * i)));` -/
def mirrorLoop (m : Nat) (src dst : Ptr .u8) : C (Ptr .u8) :=
  iter (fun i d => do
    let v ← vrev64_u8 (← vld1_u8 (src.plus (8 * i)))
    let d' ← vst1_u8 (d.plus (8 * (m - 1 - i))) v
    pure ⟨d'.buf, d.off⟩) m dst

/-- The destination holds the bytes of the source in reverse order, whatever their number (in blocks of eight), and nothing else is written. -/
theorem mirror_bytes (m : Nat) (src dst : Ptr .u8) (X : Nat → BitVec 8) (hx : ∀ j < 8 * m, Holds src j (X j)) (hw : Writable dst (8 * m)) :
    ∃ d', mirrorLoop m src dst = .ok d' ∧ Stored dst (fun j : Fin (8 * m) => X (8 * m - 1 - j.val)) d' := by
  have gen : ∀ c ≤ m, ∃ d', iter (fun i d => do
      let v ← vrev64_u8 (← vld1_u8 (src.plus (8 * i)))
      let d' ← vst1_u8 (d.plus (8 * (m - 1 - i))) v
      pure (⟨d'.buf, d.off⟩ : Ptr .u8)) c dst = .ok d' ∧ d'.off = dst.off ∧ d'.buf.length = dst.buf.length ∧
      (∀ j < 8 * m, 8 * (m - c) ≤ j → d'.buf[dst.off + j]? = some (some (X (8 * m - 1 - j)))) ∧
      (∀ a, a < dst.off + 8 * (m - c) ∨ dst.off + 8 * m ≤ a → d'.buf[a]? = dst.buf[a]?) := by
    intro c
    induction c with
    | zero => exact fun _ => ⟨dst, rfl, rfl, rfl, fun j hj h => by omega, fun _ _ => rfl⟩
    | succ c ih =>
      intro hc
      obtain ⟨d1, e1, o1, l1, w1, f1⟩ := ih (by omega)
      have hl : vld1_u8 (src.plus (8 * c)) = .ok ⟨fun k => X (8 * c + k.val)⟩ := ((vld1_u8_spec (src.plus (8 * c))).1 _).mpr fun k => by
        have := k.isLt
        exact holds_plus (hx _ (by omega))
      unfold Writable at hw
      obtain ⟨d2, e2, s2⟩ := (vst1_u8_spec (d1.plus (8 * (m - 1 - c))) ⟨fun k => X (8 * c + (7 - k.val))⟩).1 (by
        show d1.off + 8 * (m - 1 - c) + 8 ≤ d1.buf.length
        omega)
      have off2 : (d1.plus (8 * (m - 1 - c))).off = dst.off + 8 * (m - 1 - c) := by show d1.off + _ = _; rw [o1]
      have hr : vrev64_u8 ⟨fun k => X (8 * c + k.val)⟩ = .ok ⟨fun k => X (8 * c + (7 - k.val))⟩ := by
        rw [vrev64_u8_spec]
        refine congrArg C.ok (Vec.ext (funext fun k => ?_))
        have := k.isLt
        show X (8 * c + (k.val / 8 * 8 + (7 - k.val % 8))) = X (8 * c + (7 - k.val))
        exact congrArg X (by omega)
      refine ⟨⟨d2.buf, d1.off⟩, ?_, o1, s2.size.trans l1, ?_, ?_⟩
      · show (iter _ c dst >>= _) = _
        rw [e1, ok_bind]
        show (vld1_u8 (src.plus (8 * c)) >>= fun u => vrev64_u8 u >>= fun v => vst1_u8 (d1.plus (8 * (m - 1 - c))) v >>= _) = _
        rw [hl, ok_bind, hr, ok_bind, e2]
        rfl
      · intro j hj h
        show d2.buf[_]? = _
        by_cases hb : j < 8 * (m - c)
        · have := s2.written ⟨j - 8 * (m - 1 - c), by omega⟩
          rw [off2] at this
          simp only at this
          rw [show dst.off + 8 * (m - 1 - c) + (j - 8 * (m - 1 - c)) = dst.off + j by omega,
            show 8 * c + (7 - (j - 8 * (m - 1 - c))) = 8 * m - 1 - j by omega] at this
          exact this
        · rw [← w1 j hj (by omega)]
          refine s2.frame _ (.inr ?_)
          rw [off2]
          omega
      · intro a ha
        show d2.buf[_]? = _
        rw [← f1 a (by omega)]
        refine s2.frame _ ?_
        rw [off2]
        omega
  obtain ⟨d', e, o, l, w, f⟩ := gen m (Nat.le_refl m)
  exact ⟨d', e, o, l, fun j => w j.val j.isLt (by omega), fun a ha => f a (by omega)⟩

/-- Reversing twice gives the bytes back. -/
theorem mirror_twice (m : Nat) (src dst back : Ptr .u8) (X : Nat → BitVec 8) (hx : ∀ j < 8 * m, Holds src j (X j)) (hw : Writable dst (8 * m))
    (hb : Writable back (8 * m)) :
    ∃ d b, mirrorLoop m src dst = .ok d ∧ mirrorLoop m d back = .ok b ∧ ∀ j < 8 * m, Holds b j (X j) := by
  obtain ⟨d, ed, sd⟩ := mirror_bytes m src dst X hx hw
  obtain ⟨b, eb, sb⟩ := mirror_bytes m d back (fun j => X (8 * m - 1 - j)) (fun j hj => by
    unfold Holds
    rw [sd.off]
    exact sd.written ⟨j, hj⟩) hb
  refine ⟨d, b, ed, eb, fun j hj => ?_⟩
  have := sb.written ⟨j, hj⟩
  simp only at this
  rw [show 8 * m - 1 - (8 * m - 1 - j) = j by omega] at this
  unfold Holds
  rw [sb.off]
  exact this

-- the bytes 0 to 15
example : ∃ d', mirrorLoop 2 ⟨List.ofFn fun j : Fin 16 => some (BitVec.ofNat 8 j.val), 0⟩ ⟨List.replicate 20 none, 3⟩ = .ok d' ∧
    d'.buf[3]? = some (some 15#8) ∧ d'.buf[18]? = some (some 0#8) ∧ d'.buf[2]? = some none := by
  obtain ⟨d', e, s⟩ := mirror_bytes 2 ⟨List.ofFn fun j : Fin 16 => some (BitVec.ofNat 8 j.val), 0⟩ ⟨List.replicate 20 none, 3⟩ (BitVec.ofNat 8)
    (by decide) (by decide)
  exact ⟨d', e, s.written ⟨0, by decide⟩, s.written ⟨15, by decide⟩, s.frame 2 (.inl (by decide))⟩

end

end Verif.Props
