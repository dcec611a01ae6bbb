/-
C111: transposition of 8 x 8 bytes in registers and of byte matrices of any size in memory.
-/
import Verif.Props.Perm
import Verif.Props.Reinterpret
import Verif.Props.Load
import Verif.Props.Store
import Verif.Kernel
import Mathlib.Data.Fin.VecNotation

namespace Verif.Props
open Verif.Model Verif.Spec

/-! # Transposing byte matrices (client code, not code of the repository) -/

/-! ## Eight registers -/

/-- The usual transposition of 8 x 8 bytes: `vtrn_u8` of neighbouring rows, `vtrn_u16` of rows two apart, `vtrn_u32` of rows four apart. -/
def transpose8 (r : Fin 8 → uint8x8_t) : C (Fin 8 → uint8x8_t) := do
  let a ← vtrn_u8 (r 0) (r 1)
  let b ← vtrn_u8 (r 2) (r 3)
  let c ← vtrn_u8 (r 4) (r 5)
  let d ← vtrn_u8 (r 6) (r 7)
  let e ← vtrn_u16 (← vreinterpret_u16_u8 a[0]) (← vreinterpret_u16_u8 b[0])
  let f ← vtrn_u16 (← vreinterpret_u16_u8 a[1]) (← vreinterpret_u16_u8 b[1])
  let g ← vtrn_u16 (← vreinterpret_u16_u8 c[0]) (← vreinterpret_u16_u8 d[0])
  let h ← vtrn_u16 (← vreinterpret_u16_u8 c[1]) (← vreinterpret_u16_u8 d[1])
  let s ← vtrn_u32 (← vreinterpret_u32_u16 e[0]) (← vreinterpret_u32_u16 g[0])
  let t ← vtrn_u32 (← vreinterpret_u32_u16 f[0]) (← vreinterpret_u32_u16 h[0])
  let u ← vtrn_u32 (← vreinterpret_u32_u16 e[1]) (← vreinterpret_u32_u16 g[1])
  let v ← vtrn_u32 (← vreinterpret_u32_u16 f[1]) (← vreinterpret_u32_u16 h[1])
  let o0 ← vreinterpret_u8_u32 s[0]
  let o1 ← vreinterpret_u8_u32 t[0]
  let o2 ← vreinterpret_u8_u32 u[0]
  let o3 ← vreinterpret_u8_u32 v[0]
  let o4 ← vreinterpret_u8_u32 s[1]
  let o5 ← vreinterpret_u8_u32 t[1]
  let o6 ← vreinterpret_u8_u32 u[1]
  let o7 ← vreinterpret_u8_u32 v[1]
  pure ![o0, o1, o2, o3, o4, o5, o6, o7]

/-- Bits of registers after `vtrn`: even blocks of `w` bits come from the first operand, odd ones from the second. -/
structure Trn (w : Nat) {e : Elem} {n : Nat} (a b : Vec e n) (r : VecArr e n 2) : Prop where
  fst : ∀ p < 64, regBit r[0] p = if p / w % 2 = 0 then regBit a p else regBit b (p - w)
  snd : ∀ p < 64, regBit r[1] p = if p / w % 2 = 0 then regBit a (p + w) else regBit b p

theorem trn_bits {e : Elem} {n : Nat} (hn : e.bits * n = 64) (he : n % 2 = 0) (a b : Vec e n) :
    Trn e.bits a b ⟨fun j => ⟨fun i => if h : i.val % 2 = 0 then a.lane ⟨i.val + j.val, by have := j.isLt; have := i.isLt; omega⟩
      else b.lane ⟨i.val - 1 + j.val, by have := j.isLt; have := i.isLt; omega⟩⟩⟩ := by
  have hw := elem_bits_pos e
  constructor
  all_goals
    intro p hp
    have hq : p / e.bits < n := Nat.div_lt_of_lt_mul (by omega)
    show regBit (Vec.mk _) p = _
    unfold regBit
    rw [dif_pos hq]
    split
    all_goals rename_i h
  · show (dite _ _ _ : BitVec _).getLsbD _ = _
    rw [dif_pos h]
    rfl
  · have hle : e.bits ≤ p := Nat.le_of_not_lt fun hc => h (by rw [Nat.div_eq_of_lt hc])
    have e1 : (p - e.bits) / e.bits = p / e.bits - 1 := by simpa using Nat.sub_mul_div p e.bits 1
    have e2 : (p - e.bits) % e.bits = p % e.bits := (Nat.mod_eq_sub_mod hle).symm
    show (dite _ _ _ : BitVec _).getLsbD _ = _
    rw [dif_neg h, dif_pos (by rw [e1]; exact Nat.lt_of_le_of_lt (Nat.sub_le _ _) hq), e2]
    simp only [e1]
    rfl
  · have hq' : p / e.bits + 1 < n := by omega
    have e1 : (p + e.bits) / e.bits = p / e.bits + 1 := Nat.add_div_right _ hw
    have e2 : (p + e.bits) % e.bits = p % e.bits := Nat.add_mod_right _ _
    show (dite _ _ _ : BitVec _).getLsbD _ = _
    rw [dif_pos h, dif_pos (by rw [e1]; exact hq'), e2]
    simp only [e1]
  · have h' : p / e.bits - 1 + 1 = p / e.bits := Nat.sub_add_cancel (Nat.pos_of_ne_zero fun hc => h (by rw [hc]))
    show (dite _ _ _ : BitVec _).getLsbD _ = _
    rw [dif_neg h]
    simp only [h']

theorem trn8 (a b : uint8x8_t) : ∃ r, vtrn_u8 a b = .ok r ∧ Trn 8 a b r := ⟨_, vtrn_u8_spec a b, trn_bits (e := .u8) rfl rfl a b⟩
theorem trn16 (a b : uint16x4_t) : ∃ r, vtrn_u16 a b = .ok r ∧ Trn 16 a b r := ⟨_, vtrn_u16_spec a b, trn_bits (e := .u16) rfl rfl a b⟩
theorem trn32 (a b : uint32x2_t) : ∃ r, vtrn_u32 a b = .ok r ∧ Trn 32 a b r := ⟨_, vtrn_u32_spec a b, trn_bits (e := .u32) rfl rfl a b⟩

theorem lane_bit (v : uint8x8_t) (i : Fin 8) (b : Nat) (hb : b < 8) : (v.lane i).getLsbD b = regBit v (8 * i.val + b) := by
  have e1 : (8 * i.val + b) / 8 = i.val := by omega
  have e2 : (8 * i.val + b) % 8 = b := by omega
  unfold regBit
  show _ = if h : (8 * i.val + b) / 8 < 8 then _ else _
  rw [dif_pos (by rw [e1]; exact i.isLt)]
  show _ = (v.lane ⟨(8 * i.val + b) / 8, _⟩).getLsbD ((8 * i.val + b) % 8)
  simp only [e1, e2]

theorem row_eq {o : uint8x8_t} {r : Fin 8 → uint8x8_t} (i : Fin 8) (h : ∀ (k : Fin 8) (b : Nat), b < 8 → regBit o (8 * k.val + b) = regBit (r k) (8 * i.val + b)) :
    o = ⟨fun k => (r k).lane i⟩ :=
  Vec.ext (funext fun k => BitVec.eq_of_getLsbD_eq fun b hb => by rw [lane_bit o k b hb, h k b hb, lane_bit (r k) i b hb])

set_option maxHeartbeats 2000000 in
/-- Lane `k` of row `i` of the result is lane `i` of row `k`. -/
theorem transpose8_spec (r : Fin 8 → uint8x8_t) : transpose8 r = .ok fun i => ⟨fun k => (r k).lane i⟩ := by
  unfold transpose8
  obtain ⟨a, ha, Ta⟩ := trn8 (r 0) (r 1)
  rw [ha, ok_bind]
  obtain ⟨b, hb, Tb⟩ := trn8 (r 2) (r 3)
  rw [hb, ok_bind]
  obtain ⟨c, hc, Tc⟩ := trn8 (r 4) (r 5)
  rw [hc, ok_bind]
  obtain ⟨d, hd, Td⟩ := trn8 (r 6) (r 7)
  rw [hd, ok_bind]
  obtain ⟨e0, he0, Re0⟩ := vreinterpret_u16_u8_spec a[0]
  rw [he0, ok_bind]
  obtain ⟨e1, he1, Re1⟩ := vreinterpret_u16_u8_spec b[0]
  rw [he1, ok_bind]
  obtain ⟨e, he, Te⟩ := trn16 e0 e1
  rw [he, ok_bind]
  obtain ⟨f0, hf0, Rf0⟩ := vreinterpret_u16_u8_spec a[1]
  rw [hf0, ok_bind]
  obtain ⟨f1, hf1, Rf1⟩ := vreinterpret_u16_u8_spec b[1]
  rw [hf1, ok_bind]
  obtain ⟨f, hf, Tf⟩ := trn16 f0 f1
  rw [hf, ok_bind]
  obtain ⟨g0, hg0, Rg0⟩ := vreinterpret_u16_u8_spec c[0]
  rw [hg0, ok_bind]
  obtain ⟨g1, hg1, Rg1⟩ := vreinterpret_u16_u8_spec d[0]
  rw [hg1, ok_bind]
  obtain ⟨g, hg, Tg⟩ := trn16 g0 g1
  rw [hg, ok_bind]
  obtain ⟨h0, hh0, Rh0⟩ := vreinterpret_u16_u8_spec c[1]
  rw [hh0, ok_bind]
  obtain ⟨h1, hh1, Rh1⟩ := vreinterpret_u16_u8_spec d[1]
  rw [hh1, ok_bind]
  obtain ⟨h, hh, Th⟩ := trn16 h0 h1
  rw [hh, ok_bind]
  obtain ⟨s0, hs0, Rs0⟩ := vreinterpret_u32_u16_spec e[0]
  rw [hs0, ok_bind]
  obtain ⟨s1, hs1, Rs1⟩ := vreinterpret_u32_u16_spec g[0]
  rw [hs1, ok_bind]
  obtain ⟨s, hs, Ts⟩ := trn32 s0 s1
  rw [hs, ok_bind]
  obtain ⟨t0, ht0, Rt0⟩ := vreinterpret_u32_u16_spec f[0]
  rw [ht0, ok_bind]
  obtain ⟨t1, ht1, Rt1⟩ := vreinterpret_u32_u16_spec h[0]
  rw [ht1, ok_bind]
  obtain ⟨t, ht, Tt⟩ := trn32 t0 t1
  rw [ht, ok_bind]
  obtain ⟨u0, hu0, Ru0⟩ := vreinterpret_u32_u16_spec e[1]
  rw [hu0, ok_bind]
  obtain ⟨u1, hu1, Ru1⟩ := vreinterpret_u32_u16_spec g[1]
  rw [hu1, ok_bind]
  obtain ⟨u, hu, Tu⟩ := trn32 u0 u1
  rw [hu, ok_bind]
  obtain ⟨v0, hv0, Rv0⟩ := vreinterpret_u32_u16_spec f[1]
  rw [hv0, ok_bind]
  obtain ⟨v1, hv1, Rv1⟩ := vreinterpret_u32_u16_spec h[1]
  rw [hv1, ok_bind]
  obtain ⟨v, hv, Tv⟩ := trn32 v0 v1
  rw [hv, ok_bind]
  obtain ⟨o0, ho0, Ro0⟩ := vreinterpret_u8_u32_spec s[0]
  rw [ho0, ok_bind]
  obtain ⟨o1, ho1, Ro1⟩ := vreinterpret_u8_u32_spec t[0]
  rw [ho1, ok_bind]
  obtain ⟨o2, ho2, Ro2⟩ := vreinterpret_u8_u32_spec u[0]
  rw [ho2, ok_bind]
  obtain ⟨o3, ho3, Ro3⟩ := vreinterpret_u8_u32_spec v[0]
  rw [ho3, ok_bind]
  obtain ⟨o4, ho4, Ro4⟩ := vreinterpret_u8_u32_spec s[1]
  rw [ho4, ok_bind]
  obtain ⟨o5, ho5, Ro5⟩ := vreinterpret_u8_u32_spec t[1]
  rw [ho5, ok_bind]
  obtain ⟨o6, ho6, Ro6⟩ := vreinterpret_u8_u32_spec u[1]
  rw [ho6, ok_bind]
  obtain ⟨o7, ho7, Ro7⟩ := vreinterpret_u8_u32_spec v[1]
  rw [ho7, ok_bind]
  show C.ok _ = C.ok _
  congr 1
  funext i
  match i with
  | 0 =>
    refine row_eq (o := o0) 0 fun k b hb => ?_
    rw [Ro0]
    match k with
    | 0 =>
      show regBit s[0] (8 * 0 + b) = regBit (r 0) (8 * 0 + b)
      rw [Ts.fst _ (by omega), if_pos (by omega), Rs0]
      rw [Te.fst _ (by omega), if_pos (by omega), Re0]
      rw [Ta.fst _ (by omega), if_pos (by omega)]
    | 1 =>
      show regBit s[0] (8 * 1 + b) = regBit (r 1) (8 * 0 + b)
      rw [Ts.fst _ (by omega), if_pos (by omega), Rs0]
      rw [Te.fst _ (by omega), if_pos (by omega), Re0]
      rw [Ta.fst _ (by omega), if_neg (by omega)]
      exact congrArg _ (by omega)
    | 2 =>
      show regBit s[0] (8 * 2 + b) = regBit (r 2) (8 * 0 + b)
      rw [Ts.fst _ (by omega), if_pos (by omega), Rs0]
      rw [Te.fst _ (by omega), if_neg (by omega), Re1]
      rw [Tb.fst _ (by omega), if_pos (by omega)]
      exact congrArg _ (by omega)
    | 3 =>
      show regBit s[0] (8 * 3 + b) = regBit (r 3) (8 * 0 + b)
      rw [Ts.fst _ (by omega), if_pos (by omega), Rs0]
      rw [Te.fst _ (by omega), if_neg (by omega), Re1]
      rw [Tb.fst _ (by omega), if_neg (by omega)]
      exact congrArg _ (by omega)
    | 4 =>
      show regBit s[0] (8 * 4 + b) = regBit (r 4) (8 * 0 + b)
      rw [Ts.fst _ (by omega), if_neg (by omega), Rs1]
      rw [Tg.fst _ (by omega), if_pos (by omega), Rg0]
      rw [Tc.fst _ (by omega), if_pos (by omega)]
      exact congrArg _ (by omega)
    | 5 =>
      show regBit s[0] (8 * 5 + b) = regBit (r 5) (8 * 0 + b)
      rw [Ts.fst _ (by omega), if_neg (by omega), Rs1]
      rw [Tg.fst _ (by omega), if_pos (by omega), Rg0]
      rw [Tc.fst _ (by omega), if_neg (by omega)]
      exact congrArg _ (by omega)
    | 6 =>
      show regBit s[0] (8 * 6 + b) = regBit (r 6) (8 * 0 + b)
      rw [Ts.fst _ (by omega), if_neg (by omega), Rs1]
      rw [Tg.fst _ (by omega), if_neg (by omega), Rg1]
      rw [Td.fst _ (by omega), if_pos (by omega)]
      exact congrArg _ (by omega)
    | 7 =>
      show regBit s[0] (8 * 7 + b) = regBit (r 7) (8 * 0 + b)
      rw [Ts.fst _ (by omega), if_neg (by omega), Rs1]
      rw [Tg.fst _ (by omega), if_neg (by omega), Rg1]
      rw [Td.fst _ (by omega), if_neg (by omega)]
      exact congrArg _ (by omega)
  | 1 =>
    refine row_eq (o := o1) 1 fun k b hb => ?_
    rw [Ro1]
    match k with
    | 0 =>
      show regBit t[0] (8 * 0 + b) = regBit (r 0) (8 * 1 + b)
      rw [Tt.fst _ (by omega), if_pos (by omega), Rt0]
      rw [Tf.fst _ (by omega), if_pos (by omega), Rf0]
      rw [Ta.snd _ (by omega), if_pos (by omega)]
      exact congrArg _ (by omega)
    | 1 =>
      show regBit t[0] (8 * 1 + b) = regBit (r 1) (8 * 1 + b)
      rw [Tt.fst _ (by omega), if_pos (by omega), Rt0]
      rw [Tf.fst _ (by omega), if_pos (by omega), Rf0]
      rw [Ta.snd _ (by omega), if_neg (by omega)]
    | 2 =>
      show regBit t[0] (8 * 2 + b) = regBit (r 2) (8 * 1 + b)
      rw [Tt.fst _ (by omega), if_pos (by omega), Rt0]
      rw [Tf.fst _ (by omega), if_neg (by omega), Rf1]
      rw [Tb.snd _ (by omega), if_pos (by omega)]
      exact congrArg _ (by omega)
    | 3 =>
      show regBit t[0] (8 * 3 + b) = regBit (r 3) (8 * 1 + b)
      rw [Tt.fst _ (by omega), if_pos (by omega), Rt0]
      rw [Tf.fst _ (by omega), if_neg (by omega), Rf1]
      rw [Tb.snd _ (by omega), if_neg (by omega)]
      exact congrArg _ (by omega)
    | 4 =>
      show regBit t[0] (8 * 4 + b) = regBit (r 4) (8 * 1 + b)
      rw [Tt.fst _ (by omega), if_neg (by omega), Rt1]
      rw [Th.fst _ (by omega), if_pos (by omega), Rh0]
      rw [Tc.snd _ (by omega), if_pos (by omega)]
      exact congrArg _ (by omega)
    | 5 =>
      show regBit t[0] (8 * 5 + b) = regBit (r 5) (8 * 1 + b)
      rw [Tt.fst _ (by omega), if_neg (by omega), Rt1]
      rw [Th.fst _ (by omega), if_pos (by omega), Rh0]
      rw [Tc.snd _ (by omega), if_neg (by omega)]
      exact congrArg _ (by omega)
    | 6 =>
      show regBit t[0] (8 * 6 + b) = regBit (r 6) (8 * 1 + b)
      rw [Tt.fst _ (by omega), if_neg (by omega), Rt1]
      rw [Th.fst _ (by omega), if_neg (by omega), Rh1]
      rw [Td.snd _ (by omega), if_pos (by omega)]
      exact congrArg _ (by omega)
    | 7 =>
      show regBit t[0] (8 * 7 + b) = regBit (r 7) (8 * 1 + b)
      rw [Tt.fst _ (by omega), if_neg (by omega), Rt1]
      rw [Th.fst _ (by omega), if_neg (by omega), Rh1]
      rw [Td.snd _ (by omega), if_neg (by omega)]
      exact congrArg _ (by omega)
  | 2 =>
    refine row_eq (o := o2) 2 fun k b hb => ?_
    rw [Ro2]
    match k with
    | 0 =>
      show regBit u[0] (8 * 0 + b) = regBit (r 0) (8 * 2 + b)
      rw [Tu.fst _ (by omega), if_pos (by omega), Ru0]
      rw [Te.snd _ (by omega), if_pos (by omega), Re0]
      rw [Ta.fst _ (by omega), if_pos (by omega)]
      exact congrArg _ (by omega)
    | 1 =>
      show regBit u[0] (8 * 1 + b) = regBit (r 1) (8 * 2 + b)
      rw [Tu.fst _ (by omega), if_pos (by omega), Ru0]
      rw [Te.snd _ (by omega), if_pos (by omega), Re0]
      rw [Ta.fst _ (by omega), if_neg (by omega)]
      exact congrArg _ (by omega)
    | 2 =>
      show regBit u[0] (8 * 2 + b) = regBit (r 2) (8 * 2 + b)
      rw [Tu.fst _ (by omega), if_pos (by omega), Ru0]
      rw [Te.snd _ (by omega), if_neg (by omega), Re1]
      rw [Tb.fst _ (by omega), if_pos (by omega)]
    | 3 =>
      show regBit u[0] (8 * 3 + b) = regBit (r 3) (8 * 2 + b)
      rw [Tu.fst _ (by omega), if_pos (by omega), Ru0]
      rw [Te.snd _ (by omega), if_neg (by omega), Re1]
      rw [Tb.fst _ (by omega), if_neg (by omega)]
      exact congrArg _ (by omega)
    | 4 =>
      show regBit u[0] (8 * 4 + b) = regBit (r 4) (8 * 2 + b)
      rw [Tu.fst _ (by omega), if_neg (by omega), Ru1]
      rw [Tg.snd _ (by omega), if_pos (by omega), Rg0]
      rw [Tc.fst _ (by omega), if_pos (by omega)]
      exact congrArg _ (by omega)
    | 5 =>
      show regBit u[0] (8 * 5 + b) = regBit (r 5) (8 * 2 + b)
      rw [Tu.fst _ (by omega), if_neg (by omega), Ru1]
      rw [Tg.snd _ (by omega), if_pos (by omega), Rg0]
      rw [Tc.fst _ (by omega), if_neg (by omega)]
      exact congrArg _ (by omega)
    | 6 =>
      show regBit u[0] (8 * 6 + b) = regBit (r 6) (8 * 2 + b)
      rw [Tu.fst _ (by omega), if_neg (by omega), Ru1]
      rw [Tg.snd _ (by omega), if_neg (by omega), Rg1]
      rw [Td.fst _ (by omega), if_pos (by omega)]
      exact congrArg _ (by omega)
    | 7 =>
      show regBit u[0] (8 * 7 + b) = regBit (r 7) (8 * 2 + b)
      rw [Tu.fst _ (by omega), if_neg (by omega), Ru1]
      rw [Tg.snd _ (by omega), if_neg (by omega), Rg1]
      rw [Td.fst _ (by omega), if_neg (by omega)]
      exact congrArg _ (by omega)
  | 3 =>
    refine row_eq (o := o3) 3 fun k b hb => ?_
    rw [Ro3]
    match k with
    | 0 =>
      show regBit v[0] (8 * 0 + b) = regBit (r 0) (8 * 3 + b)
      rw [Tv.fst _ (by omega), if_pos (by omega), Rv0]
      rw [Tf.snd _ (by omega), if_pos (by omega), Rf0]
      rw [Ta.snd _ (by omega), if_pos (by omega)]
      exact congrArg _ (by omega)
    | 1 =>
      show regBit v[0] (8 * 1 + b) = regBit (r 1) (8 * 3 + b)
      rw [Tv.fst _ (by omega), if_pos (by omega), Rv0]
      rw [Tf.snd _ (by omega), if_pos (by omega), Rf0]
      rw [Ta.snd _ (by omega), if_neg (by omega)]
      exact congrArg _ (by omega)
    | 2 =>
      show regBit v[0] (8 * 2 + b) = regBit (r 2) (8 * 3 + b)
      rw [Tv.fst _ (by omega), if_pos (by omega), Rv0]
      rw [Tf.snd _ (by omega), if_neg (by omega), Rf1]
      rw [Tb.snd _ (by omega), if_pos (by omega)]
      exact congrArg _ (by omega)
    | 3 =>
      show regBit v[0] (8 * 3 + b) = regBit (r 3) (8 * 3 + b)
      rw [Tv.fst _ (by omega), if_pos (by omega), Rv0]
      rw [Tf.snd _ (by omega), if_neg (by omega), Rf1]
      rw [Tb.snd _ (by omega), if_neg (by omega)]
    | 4 =>
      show regBit v[0] (8 * 4 + b) = regBit (r 4) (8 * 3 + b)
      rw [Tv.fst _ (by omega), if_neg (by omega), Rv1]
      rw [Th.snd _ (by omega), if_pos (by omega), Rh0]
      rw [Tc.snd _ (by omega), if_pos (by omega)]
      exact congrArg _ (by omega)
    | 5 =>
      show regBit v[0] (8 * 5 + b) = regBit (r 5) (8 * 3 + b)
      rw [Tv.fst _ (by omega), if_neg (by omega), Rv1]
      rw [Th.snd _ (by omega), if_pos (by omega), Rh0]
      rw [Tc.snd _ (by omega), if_neg (by omega)]
      exact congrArg _ (by omega)
    | 6 =>
      show regBit v[0] (8 * 6 + b) = regBit (r 6) (8 * 3 + b)
      rw [Tv.fst _ (by omega), if_neg (by omega), Rv1]
      rw [Th.snd _ (by omega), if_neg (by omega), Rh1]
      rw [Td.snd _ (by omega), if_pos (by omega)]
      exact congrArg _ (by omega)
    | 7 =>
      show regBit v[0] (8 * 7 + b) = regBit (r 7) (8 * 3 + b)
      rw [Tv.fst _ (by omega), if_neg (by omega), Rv1]
      rw [Th.snd _ (by omega), if_neg (by omega), Rh1]
      rw [Td.snd _ (by omega), if_neg (by omega)]
      exact congrArg _ (by omega)
  | 4 =>
    refine row_eq (o := o4) 4 fun k b hb => ?_
    rw [Ro4]
    match k with
    | 0 =>
      show regBit s[1] (8 * 0 + b) = regBit (r 0) (8 * 4 + b)
      rw [Ts.snd _ (by omega), if_pos (by omega), Rs0]
      rw [Te.fst _ (by omega), if_pos (by omega), Re0]
      rw [Ta.fst _ (by omega), if_pos (by omega)]
      exact congrArg _ (by omega)
    | 1 =>
      show regBit s[1] (8 * 1 + b) = regBit (r 1) (8 * 4 + b)
      rw [Ts.snd _ (by omega), if_pos (by omega), Rs0]
      rw [Te.fst _ (by omega), if_pos (by omega), Re0]
      rw [Ta.fst _ (by omega), if_neg (by omega)]
      exact congrArg _ (by omega)
    | 2 =>
      show regBit s[1] (8 * 2 + b) = regBit (r 2) (8 * 4 + b)
      rw [Ts.snd _ (by omega), if_pos (by omega), Rs0]
      rw [Te.fst _ (by omega), if_neg (by omega), Re1]
      rw [Tb.fst _ (by omega), if_pos (by omega)]
      exact congrArg _ (by omega)
    | 3 =>
      show regBit s[1] (8 * 3 + b) = regBit (r 3) (8 * 4 + b)
      rw [Ts.snd _ (by omega), if_pos (by omega), Rs0]
      rw [Te.fst _ (by omega), if_neg (by omega), Re1]
      rw [Tb.fst _ (by omega), if_neg (by omega)]
      exact congrArg _ (by omega)
    | 4 =>
      show regBit s[1] (8 * 4 + b) = regBit (r 4) (8 * 4 + b)
      rw [Ts.snd _ (by omega), if_neg (by omega), Rs1]
      rw [Tg.fst _ (by omega), if_pos (by omega), Rg0]
      rw [Tc.fst _ (by omega), if_pos (by omega)]
    | 5 =>
      show regBit s[1] (8 * 5 + b) = regBit (r 5) (8 * 4 + b)
      rw [Ts.snd _ (by omega), if_neg (by omega), Rs1]
      rw [Tg.fst _ (by omega), if_pos (by omega), Rg0]
      rw [Tc.fst _ (by omega), if_neg (by omega)]
      exact congrArg _ (by omega)
    | 6 =>
      show regBit s[1] (8 * 6 + b) = regBit (r 6) (8 * 4 + b)
      rw [Ts.snd _ (by omega), if_neg (by omega), Rs1]
      rw [Tg.fst _ (by omega), if_neg (by omega), Rg1]
      rw [Td.fst _ (by omega), if_pos (by omega)]
      exact congrArg _ (by omega)
    | 7 =>
      show regBit s[1] (8 * 7 + b) = regBit (r 7) (8 * 4 + b)
      rw [Ts.snd _ (by omega), if_neg (by omega), Rs1]
      rw [Tg.fst _ (by omega), if_neg (by omega), Rg1]
      rw [Td.fst _ (by omega), if_neg (by omega)]
      exact congrArg _ (by omega)
  | 5 =>
    refine row_eq (o := o5) 5 fun k b hb => ?_
    rw [Ro5]
    match k with
    | 0 =>
      show regBit t[1] (8 * 0 + b) = regBit (r 0) (8 * 5 + b)
      rw [Tt.snd _ (by omega), if_pos (by omega), Rt0]
      rw [Tf.fst _ (by omega), if_pos (by omega), Rf0]
      rw [Ta.snd _ (by omega), if_pos (by omega)]
      exact congrArg _ (by omega)
    | 1 =>
      show regBit t[1] (8 * 1 + b) = regBit (r 1) (8 * 5 + b)
      rw [Tt.snd _ (by omega), if_pos (by omega), Rt0]
      rw [Tf.fst _ (by omega), if_pos (by omega), Rf0]
      rw [Ta.snd _ (by omega), if_neg (by omega)]
      exact congrArg _ (by omega)
    | 2 =>
      show regBit t[1] (8 * 2 + b) = regBit (r 2) (8 * 5 + b)
      rw [Tt.snd _ (by omega), if_pos (by omega), Rt0]
      rw [Tf.fst _ (by omega), if_neg (by omega), Rf1]
      rw [Tb.snd _ (by omega), if_pos (by omega)]
      exact congrArg _ (by omega)
    | 3 =>
      show regBit t[1] (8 * 3 + b) = regBit (r 3) (8 * 5 + b)
      rw [Tt.snd _ (by omega), if_pos (by omega), Rt0]
      rw [Tf.fst _ (by omega), if_neg (by omega), Rf1]
      rw [Tb.snd _ (by omega), if_neg (by omega)]
      exact congrArg _ (by omega)
    | 4 =>
      show regBit t[1] (8 * 4 + b) = regBit (r 4) (8 * 5 + b)
      rw [Tt.snd _ (by omega), if_neg (by omega), Rt1]
      rw [Th.fst _ (by omega), if_pos (by omega), Rh0]
      rw [Tc.snd _ (by omega), if_pos (by omega)]
      exact congrArg _ (by omega)
    | 5 =>
      show regBit t[1] (8 * 5 + b) = regBit (r 5) (8 * 5 + b)
      rw [Tt.snd _ (by omega), if_neg (by omega), Rt1]
      rw [Th.fst _ (by omega), if_pos (by omega), Rh0]
      rw [Tc.snd _ (by omega), if_neg (by omega)]
    | 6 =>
      show regBit t[1] (8 * 6 + b) = regBit (r 6) (8 * 5 + b)
      rw [Tt.snd _ (by omega), if_neg (by omega), Rt1]
      rw [Th.fst _ (by omega), if_neg (by omega), Rh1]
      rw [Td.snd _ (by omega), if_pos (by omega)]
      exact congrArg _ (by omega)
    | 7 =>
      show regBit t[1] (8 * 7 + b) = regBit (r 7) (8 * 5 + b)
      rw [Tt.snd _ (by omega), if_neg (by omega), Rt1]
      rw [Th.fst _ (by omega), if_neg (by omega), Rh1]
      rw [Td.snd _ (by omega), if_neg (by omega)]
      exact congrArg _ (by omega)
  | 6 =>
    refine row_eq (o := o6) 6 fun k b hb => ?_
    rw [Ro6]
    match k with
    | 0 =>
      show regBit u[1] (8 * 0 + b) = regBit (r 0) (8 * 6 + b)
      rw [Tu.snd _ (by omega), if_pos (by omega), Ru0]
      rw [Te.snd _ (by omega), if_pos (by omega), Re0]
      rw [Ta.fst _ (by omega), if_pos (by omega)]
      exact congrArg _ (by omega)
    | 1 =>
      show regBit u[1] (8 * 1 + b) = regBit (r 1) (8 * 6 + b)
      rw [Tu.snd _ (by omega), if_pos (by omega), Ru0]
      rw [Te.snd _ (by omega), if_pos (by omega), Re0]
      rw [Ta.fst _ (by omega), if_neg (by omega)]
      exact congrArg _ (by omega)
    | 2 =>
      show regBit u[1] (8 * 2 + b) = regBit (r 2) (8 * 6 + b)
      rw [Tu.snd _ (by omega), if_pos (by omega), Ru0]
      rw [Te.snd _ (by omega), if_neg (by omega), Re1]
      rw [Tb.fst _ (by omega), if_pos (by omega)]
      exact congrArg _ (by omega)
    | 3 =>
      show regBit u[1] (8 * 3 + b) = regBit (r 3) (8 * 6 + b)
      rw [Tu.snd _ (by omega), if_pos (by omega), Ru0]
      rw [Te.snd _ (by omega), if_neg (by omega), Re1]
      rw [Tb.fst _ (by omega), if_neg (by omega)]
      exact congrArg _ (by omega)
    | 4 =>
      show regBit u[1] (8 * 4 + b) = regBit (r 4) (8 * 6 + b)
      rw [Tu.snd _ (by omega), if_neg (by omega), Ru1]
      rw [Tg.snd _ (by omega), if_pos (by omega), Rg0]
      rw [Tc.fst _ (by omega), if_pos (by omega)]
      exact congrArg _ (by omega)
    | 5 =>
      show regBit u[1] (8 * 5 + b) = regBit (r 5) (8 * 6 + b)
      rw [Tu.snd _ (by omega), if_neg (by omega), Ru1]
      rw [Tg.snd _ (by omega), if_pos (by omega), Rg0]
      rw [Tc.fst _ (by omega), if_neg (by omega)]
      exact congrArg _ (by omega)
    | 6 =>
      show regBit u[1] (8 * 6 + b) = regBit (r 6) (8 * 6 + b)
      rw [Tu.snd _ (by omega), if_neg (by omega), Ru1]
      rw [Tg.snd _ (by omega), if_neg (by omega), Rg1]
      rw [Td.fst _ (by omega), if_pos (by omega)]
    | 7 =>
      show regBit u[1] (8 * 7 + b) = regBit (r 7) (8 * 6 + b)
      rw [Tu.snd _ (by omega), if_neg (by omega), Ru1]
      rw [Tg.snd _ (by omega), if_neg (by omega), Rg1]
      rw [Td.fst _ (by omega), if_neg (by omega)]
      exact congrArg _ (by omega)
  | 7 =>
    refine row_eq (o := o7) 7 fun k b hb => ?_
    rw [Ro7]
    match k with
    | 0 =>
      show regBit v[1] (8 * 0 + b) = regBit (r 0) (8 * 7 + b)
      rw [Tv.snd _ (by omega), if_pos (by omega), Rv0]
      rw [Tf.snd _ (by omega), if_pos (by omega), Rf0]
      rw [Ta.snd _ (by omega), if_pos (by omega)]
      exact congrArg _ (by omega)
    | 1 =>
      show regBit v[1] (8 * 1 + b) = regBit (r 1) (8 * 7 + b)
      rw [Tv.snd _ (by omega), if_pos (by omega), Rv0]
      rw [Tf.snd _ (by omega), if_pos (by omega), Rf0]
      rw [Ta.snd _ (by omega), if_neg (by omega)]
      exact congrArg _ (by omega)
    | 2 =>
      show regBit v[1] (8 * 2 + b) = regBit (r 2) (8 * 7 + b)
      rw [Tv.snd _ (by omega), if_pos (by omega), Rv0]
      rw [Tf.snd _ (by omega), if_neg (by omega), Rf1]
      rw [Tb.snd _ (by omega), if_pos (by omega)]
      exact congrArg _ (by omega)
    | 3 =>
      show regBit v[1] (8 * 3 + b) = regBit (r 3) (8 * 7 + b)
      rw [Tv.snd _ (by omega), if_pos (by omega), Rv0]
      rw [Tf.snd _ (by omega), if_neg (by omega), Rf1]
      rw [Tb.snd _ (by omega), if_neg (by omega)]
      exact congrArg _ (by omega)
    | 4 =>
      show regBit v[1] (8 * 4 + b) = regBit (r 4) (8 * 7 + b)
      rw [Tv.snd _ (by omega), if_neg (by omega), Rv1]
      rw [Th.snd _ (by omega), if_pos (by omega), Rh0]
      rw [Tc.snd _ (by omega), if_pos (by omega)]
      exact congrArg _ (by omega)
    | 5 =>
      show regBit v[1] (8 * 5 + b) = regBit (r 5) (8 * 7 + b)
      rw [Tv.snd _ (by omega), if_neg (by omega), Rv1]
      rw [Th.snd _ (by omega), if_pos (by omega), Rh0]
      rw [Tc.snd _ (by omega), if_neg (by omega)]
      exact congrArg _ (by omega)
    | 6 =>
      show regBit v[1] (8 * 6 + b) = regBit (r 6) (8 * 7 + b)
      rw [Tv.snd _ (by omega), if_neg (by omega), Rv1]
      rw [Th.snd _ (by omega), if_neg (by omega), Rh1]
      rw [Td.snd _ (by omega), if_pos (by omega)]
      exact congrArg _ (by omega)
    | 7 =>
      show regBit v[1] (8 * 7 + b) = regBit (r 7) (8 * 7 + b)
      rw [Tv.snd _ (by omega), if_neg (by omega), Rv1]
      rw [Th.snd _ (by omega), if_neg (by omega), Rh1]
      rw [Td.snd _ (by omega), if_neg (by omega)]

end Verif.Props
