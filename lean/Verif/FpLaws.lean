import Verif.FpError

/-! # Laws of IEEE-754 arithmetic, from the specification of the operations -/

namespace Verif.Spec

/-- IEEE-754 `<=`. -/
def Datum.AtMost (a b : Datum) : Prop := a.Less b ∨ a.Equal b

/-- The datum with the other sign. -/
def Datum.opposite : Datum → Datum
  | .nan => .nan
  | .inf s => .inf (!s)
  | .num s x => .num (!s) (-x)

end Verif.Spec

namespace Verif.FpOps
open Verif.Spec Verif.FpRound

section
variable {f : Fmt} (ok : Ok f)

/-! ## Rounding -/

theorem overflowAt_pos : 0 < overflowAt f := by
  unfold overflowAt
  have h1 : (1 : ℚ) / 2 ^ (f.mb + 1) ≤ 1 := by
    rw [div_le_one (by positivity)]; exact one_le_pow₀ (by norm_num)
  have h2 : (0 : ℚ) < 2 ^ emax f := zpow_pos (by norm_num) _
  nlinarith

/-- The rounding of a number is never a NaN. -/
theorem rounded_cases {zs : Bool} {x : ℚ} {r : Nat} (h : Rounded f zs x r) :
    (|x| < overflowAt f ∧ ∃ s v, decode f r = .num s v) ∨
    (overflowAt f ≤ |x| ∧ decode f r = .inf (decide (x < 0))) := by
  by_cases hx : |x| < overflowAt f
  · exact .inl ⟨hx, rounded_num h hx⟩
  · refine .inr ⟨not_lt.1 hx, ?_⟩
    unfold Rounded at h
    split at h
    · rename_i h0
      exfalso
      apply hx
      rw [h0, abs_zero]
      exact overflowAt_pos
    · exact h.overflow (not_lt.1 hx)

include ok in
/-- Rounding is monotone, infinities included. -/
theorem rounded_atMost {zs zs' : Bool} {x y : ℚ} {r r' : Nat} (h : Rounded f zs x r) (h' : Rounded f zs' y r')
    (hxy : x ≤ y) : (decode f r).AtMost (decode f r') := by
  have hp := overflowAt_pos (f := f)
  rcases rounded_cases h with ⟨hx, s, v, d⟩ | ⟨hx, d⟩ <;> rcases rounded_cases h' with ⟨hy, s', v', d'⟩ | ⟨hy, d'⟩
  · rw [d, d']
    rcases lt_or_eq_of_le (rounded_mono ok h h' d d' hxy) with hl | he
    · exact .inl hl
    · exact .inr he
  · have : ¬ y < 0 := fun h0 => by
      rw [abs_of_neg h0] at hy
      have := neg_abs_le x
      linarith
    rw [d, d', decide_eq_false this]
    exact .inl trivial
  · have : x < 0 := by
      by_contra h0
      rw [abs_of_nonneg (not_lt.1 h0)] at hx
      have := le_abs_self y
      linarith
    rw [d, d', decide_eq_true this]
    exact .inl trivial
  · rw [d, d']
    by_cases h0 : x < 0
    · rw [decide_eq_true h0]
      by_cases h1 : y < 0
      · rw [decide_eq_true h1]; exact .inr rfl
      · rw [decide_eq_false h1]; exact .inl trivial
    · rw [decide_eq_false h0, decide_eq_false (by linarith)]
      exact .inr rfl

include ok in
/-- Rounding is symmetric. -/
theorem rounded_opposite {zs zs' : Bool} {x : ℚ} {r r' : Nat} (h : Rounded f zs x r) (h' : Rounded f zs' (-x) r')
    (hx : x ≠ 0) : decode f r' = (decode f r).opposite := by
  have e := rounded_unique ok h (rounded_eval ok zs x)
  have e' := rounded_unique ok h' (rounded_eval ok zs' (-x))
  rw [e, e', Rat.num_neg_eq_neg_num, Rat.den_neg_eq_den, neg_mul]
  have hz : x.num * 2 ^ f.unit ≠ 0 := by
    have := Rat.num_ne_zero.2 hx
    positivity
  generalize x.num * 2 ^ f.unit = n at hz ⊢
  unfold Fmt.round
  rw [if_neg hz, if_neg (by simpa using hz), Int.natAbs_neg]
  have hs : decide (-n < 0) = !decide (n < 0) := by
    by_cases h : n < 0
    · rw [decide_eq_true h, decide_eq_false (by omega)]; rfl
    · rw [decide_eq_false h, decide_eq_true (by omega)]; rfl
  rw [hs]
  generalize decide (n < 0) = s
  rcases Nat.lt_or_eq_of_le (roundMag_le (f := f) n.natAbs x.den) with hl | he
  · rw [decode_pack_num ok _ hl, decode_pack_num ok _ hl]
    cases s <;> simp [Datum.opposite, withSign]
  · rw [he, decode_pack_inf ok, decode_pack_inf ok]
    rfl

include ok in
/-- Rounding a number of the format gives the number; the sign of a zero is the given one. -/
theorem rounded_self {zs s : Bool} {x : ℚ} {r b : Nat} (h : Rounded f zs x r) (hb : decode f b = .num s x) :
    decode f r = .num (if x = 0 then zs else s) x := by
  by_cases h0 : x = 0
  · unfold Rounded at h
    rw [if_pos h0] at h
    rw [h, if_pos h0, h0]
  · rw [if_neg h0]
    exact rounded_exact ok h hb h0

/-! ## Addition -/

include ok in
/-- Error of an addition without overflow. -/
theorem sum_error {a b r : Nat} {s t : Bool} {x y : ℚ} (h : IsSum f a b r) (ha : decode f a = .num s x)
    (hb : decode f b = .num t y) (ho : |x + y| < overflowAt f) :
    ∃ q v, decode f r = .num q v ∧ |v - (x + y)| ≤ |x + y| / 2 ^ (f.mb + 1) := by
  unfold IsSum at h
  rw [ha, hb] at h
  obtain ⟨q, v, d⟩ := rounded_num h ho
  obtain ⟨k, hk⟩ := num_units ok ha
  obtain ⟨l, hl⟩ := num_units ok hb
  exact ⟨q, v, d, rounded_error_multiple ok h d ⟨k + l, by rw [hk, hl]; push_cast; ring⟩⟩

include ok in
theorem diff_error {a b r : Nat} {s t : Bool} {x y : ℚ} (h : IsDiff f a b r) (ha : decode f a = .num s x)
    (hb : decode f b = .num t y) (ho : |x - y| < overflowAt f) :
    ∃ q v, decode f r = .num q v ∧ |v - (x - y)| ≤ |x - y| / 2 ^ (f.mb + 1) := by
  unfold IsDiff at h
  rw [ha, hb] at h
  obtain ⟨q, v, d⟩ := rounded_num h ho
  obtain ⟨k, hk⟩ := num_units ok ha
  obtain ⟨l, hl⟩ := num_units ok hb
  exact ⟨q, v, d, rounded_error_multiple ok h d ⟨k - l, by rw [hk, hl]; push_cast; ring⟩⟩

include ok in
theorem prod_error {a b r : Nat} {s t : Bool} {x y : ℚ} (h : IsProd f a b r) (ha : decode f a = .num s x)
    (hb : decode f b = .num t y) (ho : |x * y| < overflowAt f) :
    ∃ q v, decode f r = .num q v ∧ (|v - x * y| ≤ |x * y| / 2 ^ (f.mb + 1) ∨ |v - x * y| ≤ 1 / 2 ^ (f.unit + 1)) := by
  unfold IsProd at h
  rw [ha, hb] at h
  obtain ⟨q, v, d⟩ := rounded_num h ho
  exact ⟨q, v, d, rounded_error ok h d⟩

include ok in
theorem quot_error {a b r : Nat} {s t : Bool} {x y : ℚ} (h : IsQuot f a b r) (ha : decode f a = .num s x)
    (hb : decode f b = .num t y) (hy : y ≠ 0) (ho : |x / y| < overflowAt f) :
    ∃ q v, decode f r = .num q v ∧ (|v - x / y| ≤ |x / y| / 2 ^ (f.mb + 1) ∨ |v - x / y| ≤ 1 / 2 ^ (f.unit + 1)) := by
  unfold IsQuot at h
  rw [ha, hb] at h
  simp only [if_neg hy] at h
  obtain ⟨q, v, d⟩ := rounded_num h ho
  exact ⟨q, v, d, rounded_error ok h d⟩

/-! ## Identities -/

include ok in
theorem sum_zero {a z r : Nat} {t : Bool} (h : IsSum f a z r) (hz : decode f z = .num t 0)
    (ha : ∀ s, decode f a ≠ .num s 0) : decode f r = decode f a := by
  unfold IsSum at h
  rw [hz] at h
  cases da : decode f a with
  | nan => rw [da] at h; exact h
  | inf s => rw [da] at h; exact h
  | num s x =>
    rw [da] at h
    simp only [add_zero] at h
    rw [rounded_self ok h da, if_neg]
    rintro rfl
    exact ha s da

include ok in
theorem diff_zero {a z r : Nat} {t : Bool} (h : IsDiff f a z r) (hz : decode f z = .num t 0)
    (ha : ∀ s, decode f a ≠ .num s 0) : decode f r = decode f a := by
  unfold IsDiff at h
  rw [hz] at h
  cases da : decode f a with
  | nan => rw [da] at h; exact h
  | inf s => rw [da] at h; exact h
  | num s x =>
    rw [da] at h
    simp only [sub_zero] at h
    rw [rounded_self ok h da, if_neg]
    rintro rfl
    exact ha s da

theorem diff_self {a r : Nat} {s : Bool} {x : ℚ} (h : IsDiff f a a r) (ha : decode f a = .num s x) :
    decode f r = .num false 0 := by
  unfold IsDiff at h
  rw [ha] at h
  simp only [sub_self, Rounded, if_true] at h
  rw [h]
  simp

include ok in
theorem prod_one {a o r : Nat} (h : IsProd f a o r) (ho : decode f o = .num false 1) : decode f r = decode f a := by
  unfold IsProd at h
  rw [ho] at h
  cases da : decode f a with
  | nan => rw [da] at h; exact h
  | inf s => rw [da] at h; simpa using h
  | num s x =>
    rw [da] at h
    simp only [mul_one] at h
    rw [rounded_self ok h da]
    simp

include ok in
theorem quot_one {a o r : Nat} (h : IsQuot f a o r) (ho : decode f o = .num false 1) : decode f r = decode f a := by
  unfold IsQuot at h
  rw [ho] at h
  cases da : decode f a with
  | nan => rw [da] at h; exact h
  | inf s => rw [da] at h; simpa using h
  | num s x =>
    rw [da] at h
    simp only [div_one, one_ne_zero, if_false] at h
    rw [rounded_self ok h da]
    simp

include ok in
theorem quot_self {a o r : Nat} {s : Bool} {x : ℚ} (h : IsQuot f a a r) (ha : decode f a = .num s x) (hx : x ≠ 0)
    (ho : decode f o = .num false 1) : decode f r = .num false 1 := by
  unfold IsQuot at h
  rw [ha] at h
  simp only [if_neg hx, div_self hx] at h
  rw [rounded_self ok h ho]
  simp

include ok in
/-- `a + a` is `2 * a`. -/
theorem sum_self {a two r r' : Nat} (h : IsSum f a a r) (h' : IsProd f a two r') (h2 : decode f two = .num false 2) :
    decode f r = decode f r' := by
  unfold IsSum at h
  unfold IsProd at h'
  rw [h2] at h'
  cases da : decode f a with
  | nan => rw [da] at h h'; rw [h, h']
  | inf s => rw [da] at h h'; simp only [if_true] at h; rw [h, h']; simp
  | num s x =>
    rw [da] at h h'
    simp only at h h'
    rw [show x + x = x * 2 by ring, Bool.and_self] at h
    rw [show (s != false) = s by simp] at h'
    exact rounded_unique ok h h'

include ok in
/-- `b - a` is the opposite of `a - b`, except that equal numbers give `+0` both ways. -/
theorem diff_antisymm {a b r r' : Nat} (h : IsDiff f a b r) (h' : IsDiff f b a r')
    (hne : ¬ (decode f a).Equal (decode f b)) : decode f r' = (decode f r).opposite := by
  unfold IsDiff at h h'
  cases da : decode f a with
  | nan =>
    rw [da] at h h'
    have : decode f r' = .nan := by
      revert h'; cases decode f b <;> simp
    rw [h, this]; rfl
  | inf s =>
    rw [da] at h h' hne
    cases db : decode f b with
    | nan => rw [db] at h h'; rw [h, h']; rfl
    | inf t =>
      rw [db] at h h' hne
      simp only [Datum.Equal] at hne
      simp only [if_neg hne, if_neg (Ne.symm hne)] at h h'
      rw [h, h']
      cases s <;> cases t <;> simp_all [Datum.opposite]
    | num t y => rw [db] at h h'; rw [h, h']; rfl
  | num s x =>
    rw [da] at h h' hne
    cases db : decode f b with
    | nan => rw [db] at h h'; rw [h, h']; rfl
    | inf t => rw [db] at h h'; rw [h, h']; simp [Datum.opposite]
    | num t y =>
      rw [db] at h h' hne
      simp only at h h'
      rw [← neg_sub x y] at h'
      exact rounded_opposite ok h h' (sub_ne_zero.2 hne)

/-! ## Monotonicity -/

include ok in
theorem sum_mono {a a' b r r' : Nat} (h : IsSum f a b r) (h' : IsSum f a' b r')
    (hle : (decode f a).AtMost (decode f a')) (hr : decode f r ≠ .nan) (hr' : decode f r' ≠ .nan) :
    (decode f r).AtMost (decode f r') := by
  unfold IsSum at h h'
  cases da : decode f a with
  | nan => rw [da] at hle; rcases hle with hle | hle <;> simp [Datum.Less, Datum.Equal] at hle
  | inf s =>
    cases da' : decode f a' with
    | nan => rw [da'] at hle; rcases hle with hle | hle <;> revert hle <;> cases decode f a <;> simp [Datum.Less, Datum.Equal]
    | inf s' =>
      rw [da, da'] at hle
      rw [da] at h
      rw [da'] at h'
      cases db : decode f b with
      | nan => rw [db] at h; exact absurd h hr
      | inf t =>
        rw [db] at h h'
        simp only at h h'
        by_cases e : s = t
        · by_cases e' : s' = t
          · rw [h, h', if_pos e, if_pos e', e, e']; exact .inr rfl
          · rw [if_neg e'] at h'; exact absurd h' hr'
        · rw [if_neg e] at h; exact absurd h hr
      | num t y => rw [db] at h h'; simp only at h h'; rw [h, h']; exact hle
    | num s' x' =>
      rw [da, da'] at hle
      rw [da] at h
      rw [da'] at h'
      cases db : decode f b with
      | nan => rw [db] at h; exact absurd h hr
      | inf t =>
        rw [db] at h h'
        simp only at h h'
        by_cases e : s = t
        · rw [h, h', if_pos e, e]; exact .inr rfl
        · rw [if_neg e] at h; exact absurd h hr
      | num t y =>
        rw [db] at h h'
        simp only at h h'
        have hs : s = true := by cases s <;> simp [Datum.AtMost, Datum.Less, Datum.Equal] at hle ⊢
        rw [h, hs]
        rcases rounded_cases h' with ⟨_, q, v, d⟩ | ⟨_, d⟩
        · rw [d]; exact .inl trivial
        · rw [d]
          by_cases h0 : x' + y < 0
          · rw [decide_eq_true h0]; exact .inr rfl
          · rw [decide_eq_false h0]; exact .inl trivial
  | num s x =>
    cases da' : decode f a' with
    | nan => rw [da, da'] at hle; rcases hle with hle | hle <;> simp [Datum.Less, Datum.Equal] at hle
    | inf s' =>
      rw [da, da'] at hle
      rw [da] at h
      rw [da'] at h'
      have hs : s' = false := by cases s' <;> simp [Datum.AtMost, Datum.Less, Datum.Equal] at hle ⊢
      cases db : decode f b with
      | nan => rw [db] at h; exact absurd h hr
      | inf t =>
        rw [db] at h h'
        simp only at h h'
        by_cases e : s' = t
        · rw [h, h', if_pos e, e]; exact .inr rfl
        · rw [if_neg e] at h'; exact absurd h' hr'
      | num t y =>
        rw [db] at h h'
        simp only at h h'
        rw [h', hs]
        rcases rounded_cases h with ⟨_, q, v, d⟩ | ⟨_, d⟩
        · rw [d]; exact .inl trivial
        · rw [d]
          by_cases h0 : x + y < 0
          · rw [decide_eq_true h0]; exact .inl trivial
          · rw [decide_eq_false h0]; exact .inr rfl
    | num s' x' =>
      rw [da, da'] at hle
      rw [da] at h
      rw [da'] at h'
      cases db : decode f b with
      | nan => rw [db] at h; exact absurd h hr
      | inf t => rw [db] at h h'; simp only at h h'; rw [h, h']; exact .inr rfl
      | num t y =>
        rw [db] at h h'
        simp only at h h'
        refine rounded_atMost ok h h' ?_
        rcases hle with hle | hle
        · exact add_le_add_left (le_of_lt hle) y
        · exact add_le_add_left (le_of_eq hle) y

include ok in
/-- Multiplication by a number that is not negative is monotone. -/
theorem prod_mono {a a' b r r' : Nat} {s s' t : Bool} {x x' y : ℚ} (h : IsProd f a b r) (h' : IsProd f a' b r')
    (ha : decode f a = .num s x) (ha' : decode f a' = .num s' x') (hb : decode f b = .num t y) (hle : x ≤ x') (hy : 0 ≤ y) :
    (decode f r).AtMost (decode f r') := by
  unfold IsProd at h h'
  rw [ha, hb] at h
  rw [ha', hb] at h'
  exact rounded_atMost ok h h' (mul_le_mul_of_nonneg_right hle hy)

include ok in
/-- Subtraction is antitone in the number that is subtracted. -/
theorem diff_mono {a b b' r r' : Nat} {s t t' : Bool} {x y y' : ℚ} (h : IsDiff f a b r) (h' : IsDiff f a b' r')
    (ha : decode f a = .num s x) (hb : decode f b = .num t y) (hb' : decode f b' = .num t' y') (hle : y ≤ y') :
    (decode f r').AtMost (decode f r) := by
  unfold IsDiff at h h'
  rw [ha, hb] at h
  rw [ha, hb'] at h'
  exact rounded_atMost ok h' h (sub_le_sub_left hle x)

include ok in
/-- Division by a positive number is monotone. -/
theorem quot_mono {a a' b r r' : Nat} {s s' t : Bool} {x x' y : ℚ} (h : IsQuot f a b r) (h' : IsQuot f a' b r')
    (ha : decode f a = .num s x) (ha' : decode f a' = .num s' x') (hb : decode f b = .num t y) (hle : x ≤ x') (hy : 0 < y) :
    (decode f r).AtMost (decode f r') := by
  unfold IsQuot at h h'
  rw [ha, hb] at h
  rw [ha', hb] at h'
  simp only [if_neg (ne_of_gt hy)] at h h'
  exact rounded_atMost ok h h' (div_le_div_of_nonneg_right hle (le_of_lt hy))

/-! ## Exact cases -/

theorem magA_split (mb B : Nat) : ∃ m j, magA mb B = m * 2 ^ j ∧ m < 2 * 2 ^ mb ∧ (j = 0 ∨ 2 ^ mb ≤ m) := by
  have hP : 0 < 2 ^ mb := Nat.two_pow_pos mb
  have hF : B % 2 ^ mb < 2 ^ mb := Nat.mod_lt _ hP
  unfold magA
  split
  · exact ⟨B % 2 ^ mb, 0, by simp, by omega, .inl rfl⟩
  · exact ⟨2 ^ mb + B % 2 ^ mb, B / 2 ^ mb - 1, rfl, by omega, .inr (by omega)⟩

/-- The difference of two magnitudes within a factor of two of each other is a magnitude. -/
theorem sterbenz_mag (mb A B : Nat) (h1 : magA mb B ≤ magA mb A) (h2 : magA mb A ≤ 2 * magA mb B) :
    ∃ n j, n < 2 * 2 ^ mb ∧ magA mb A = magA mb B + n * 2 ^ j := by
  obtain ⟨m, j, e, hm, hj⟩ := magA_split mb B
  have hd : 2 ^ j ∣ magA mb A := by
    rcases hj with rfl | hj
    · simp
    · rcases magA_cases mb A j with h | h
      · exact h
      · exfalso
        have : 2 ^ mb * 2 ^ j ≤ m * 2 ^ j := Nat.mul_le_mul_right _ hj
        omega
  obtain ⟨k, hk⟩ := hd
  have hp : 0 < 2 ^ j := Nat.two_pow_pos j
  rw [e, hk, Nat.mul_comm (2 ^ j) k] at h1
  rw [e, hk, Nat.mul_comm (2 ^ j) k, ← Nat.mul_assoc] at h2
  have hmk : m ≤ k := Nat.le_of_mul_le_mul_right h1 hp
  have hk2 : k ≤ 2 * m := Nat.le_of_mul_le_mul_right h2 hp
  refine ⟨k - m, j, by omega, ?_⟩
  rw [e, hk, Nat.sub_mul, Nat.mul_comm k]
  have : m * 2 ^ j ≤ 2 ^ j * k := by rw [Nat.mul_comm (2 ^ j)]; exact Nat.mul_le_mul_right _ hmk
  omega

include ok in
theorem sterbenz_rep {A B : Nat} {s t : Bool} {x y : ℚ} (ha : decode f A = .num s x) (hb : decode f B = .num t y)
    (h1 : y ≤ x) (h2 : x ≤ 2 * y) (q : Bool) : ∃ b, decode f b = .num q (withSign q (x - y)) := by
  have ex := decode_num ok ha
  have ey := decode_num ok hb
  have hU : (0 : ℚ) < 2 ^ f.unit := by positivity
  have hy : 0 ≤ y := by linarith
  have hx : 0 ≤ x := by linarith
  have ex' : x = (magA f.mb (f.abs A) : ℚ) / 2 ^ f.unit := by
    rw [← abs_of_nonneg hx, ex, withSign_abs _ (by positivity)]
  have ey' : y = (magA f.mb (f.abs B) : ℚ) / 2 ^ f.unit := by
    rw [← abs_of_nonneg hy, ey, withSign_abs _ (by positivity)]
  have g1 : magA f.mb (f.abs B) ≤ magA f.mb (f.abs A) := by
    rw [ex', ey', div_le_div_iff_of_pos_right hU] at h1
    exact_mod_cast h1
  have g2 : magA f.mb (f.abs A) ≤ 2 * magA f.mb (f.abs B) := by
    rw [ex', ey', ← mul_div_assoc, div_le_div_iff_of_pos_right hU] at h2
    exact_mod_cast h2
  obtain ⟨n, j, hn, e⟩ := sterbenz_mag f.mb _ _ g1 g2
  have hlt : magA f.mb (f.abs A) < magA f.mb f.infBits := magA_strictMono _ (decode_num_lt ok ha)
  rw [magA_infBits ok.eb] at hlt
  obtain ⟨b, -, h⟩ := representable ok q n j hn (by omega)
  refine ⟨b, ?_⟩
  rw [h, ex', ey', e]
  congr 2
  push_cast
  field_simp
  ring

include ok in
/-- The difference of two numbers within a factor of two of each other is exact (Sterbenz). -/
theorem diff_exact {a b r : Nat} {s t : Bool} {x y : ℚ} (h : IsDiff f a b r) (ha : decode f a = .num s x)
    (hb : decode f b = .num t y) (h1 : y ≤ 2 * x) (h2 : x ≤ 2 * y) : ∃ q, decode f r = .num q (x - y) := by
  unfold IsDiff at h
  rw [ha, hb] at h
  rcases le_total y x with hle | hle
  · obtain ⟨c, hc⟩ := sterbenz_rep ok ha hb hle h2 false
    exact ⟨_, rounded_self ok h (by simpa [withSign] using hc)⟩
  · obtain ⟨c, hc⟩ := sterbenz_rep ok hb ha hle h1 true
    exact ⟨_, rounded_self ok h (s := true) (b := c) (by rw [hc]; simp [withSign])⟩

/-- The format has room for the integers up to `2^(mb+1)`. -/
structure Wide (f : Fmt) : Prop where
  room : 2 * 2 ^ f.mb * 2 ^ f.unit < 2 ^ f.mb * 2 ^ (2 ^ f.eb - 2)

theorem wide32 : Wide .b32 := ⟨by decide +kernel⟩
theorem wide64 : Wide .b64 := ⟨by decide +kernel⟩

include ok in
/-- Integers up to `2^(mb+1)` are numbers of the format. -/
theorem int_rep (w : Wide f) {n : ℤ} (h : n.natAbs ≤ 2 * 2 ^ f.mb) : ∃ b, decode f b = .num (decide (n < 0)) n := by
  have hw : withSign (decide (n < 0)) (n.natAbs : ℚ) = n := by
    unfold withSign
    rw [Nat.cast_natAbs, Int.cast_abs]
    by_cases h0 : n < 0
    · rw [if_pos (by simpa using h0), abs_of_neg (by exact_mod_cast h0)]; ring
    · rw [if_neg (by simpa using h0), abs_of_nonneg (by exact_mod_cast not_lt.1 h0)]
  have hU : (0 : ℚ) < 2 ^ f.unit := by positivity
  rcases Nat.lt_or_eq_of_le h with hl | he
  · obtain ⟨b, -, hb⟩ := representable ok (decide (n < 0)) n.natAbs f.unit hl
      (lt_of_le_of_lt (Nat.mul_le_mul_right _ h) w.room)
    refine ⟨b, ?_⟩
    rw [hb, mul_div_assoc, div_self (ne_of_gt hU), mul_one, hw]
  · obtain ⟨b, -, hb⟩ := representable ok (decide (n < 0)) 1 (f.unit + f.mb + 1) (by have := Nat.two_pow_pos f.mb; omega)
      (lt_of_le_of_lt (le_of_eq (by rw [pow_succ, pow_add]; ring)) w.room)
    refine ⟨b, ?_⟩
    rw [hb, ← hw, he]
    congr 2
    push_cast
    rw [pow_succ, pow_add]
    field_simp

include ok in
theorem sum_int (w : Wide f) {a b r : Nat} {s t : Bool} {m n : ℤ} (h : IsSum f a b r) (ha : decode f a = .num s m)
    (hb : decode f b = .num t n) (hn : (m + n).natAbs ≤ 2 * 2 ^ f.mb) : ∃ q, decode f r = .num q ((m + n : ℤ) : ℚ) := by
  unfold IsSum at h
  rw [ha, hb] at h
  obtain ⟨c, hc⟩ := int_rep ok w hn
  simp only [← Int.cast_add] at h
  exact ⟨_, rounded_self ok h hc⟩

include ok in
theorem diff_int (w : Wide f) {a b r : Nat} {s t : Bool} {m n : ℤ} (h : IsDiff f a b r) (ha : decode f a = .num s m)
    (hb : decode f b = .num t n) (hn : (m - n).natAbs ≤ 2 * 2 ^ f.mb) : ∃ q, decode f r = .num q ((m - n : ℤ) : ℚ) := by
  unfold IsDiff at h
  rw [ha, hb] at h
  obtain ⟨c, hc⟩ := int_rep ok w hn
  simp only [← Int.cast_sub] at h
  exact ⟨_, rounded_self ok h hc⟩

include ok in
theorem prod_int (w : Wide f) {a b r : Nat} {s t : Bool} {m n : ℤ} (h : IsProd f a b r) (ha : decode f a = .num s m)
    (hb : decode f b = .num t n) (hn : (m * n).natAbs ≤ 2 * 2 ^ f.mb) : ∃ q, decode f r = .num q ((m * n : ℤ) : ℚ) := by
  unfold IsProd at h
  rw [ha, hb] at h
  obtain ⟨c, hc⟩ := int_rep ok w hn
  simp only [← Int.cast_mul] at h
  exact ⟨_, rounded_self ok h hc⟩

end
end Verif.FpOps
