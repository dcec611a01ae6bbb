import Verif.FpOps

/-!
# Rounding is a monotone function that fixes representable numbers

Also: the relation `Rounded` of the specification determines the encoded datum.
-/

namespace Verif.FpOps
open Spec FpRound

/-! ## Nearest magnitudes -/

/-- `a` is the pattern of the magnitude nearest to `q`, the even one at ties. -/
structure NearEven (f : Fmt) (q : ℚ) (a : Nat) : Prop where
  near : ∀ c, |(magA f.mb a : ℚ) - q| ≤ |(magA f.mb c : ℚ) - q|
  even : ∀ c, |(magA f.mb c : ℚ) - q| = |(magA f.mb a : ℚ) - q| → magA f.mb c ≠ magA f.mb a → a % 2 = 0

theorem magA_cast_lt (mb : Nat) {a b : Nat} (h : a < b) : (magA mb a : ℚ) < magA mb b := by
  exact_mod_cast magA_strictMono mb h

theorem NearEven.mono {f : Fmt} {q q' : ℚ} {a a' : Nat} (h : NearEven f q a) (h' : NearEven f q' a')
    (hq : q ≤ q') : a ≤ a' := by
  by_contra hlt
  have hlt : a' < a := by omega
  have hm := magA_cast_lt f.mb hlt
  have n1 := h.near a'
  have n2 := h'.near a
  -- the midpoint of the two magnitudes separates
  have m1 : ((magA f.mb a : ℚ) + magA f.mb a') / 2 ≤ q := by
    by_contra hc
    rw [not_le] at hc
    rw [abs_of_nonneg (a := (magA f.mb a : ℚ) - q) (by linarith)] at n1
    rcases abs_cases ((magA f.mb a' : ℚ) - q) with ⟨e, _⟩ | ⟨e, _⟩ <;> rw [e] at n1 <;> linarith
  have m2 : q' ≤ ((magA f.mb a : ℚ) + magA f.mb a') / 2 := by
    by_contra hc
    rw [not_le] at hc
    rw [abs_of_nonpos (a := (magA f.mb a' : ℚ) - q') (by linarith)] at n2
    rcases abs_cases ((magA f.mb a : ℚ) - q') with ⟨e, _⟩ | ⟨e, _⟩ <;> rw [e] at n2 <;> linarith
  have e1 : q = q' := le_antisymm hq (by linarith)
  subst e1
  have e2 : q = ((magA f.mb a : ℚ) + magA f.mb a') / 2 := le_antisymm m2 m1
  have t : |(magA f.mb a' : ℚ) - q| = |(magA f.mb a : ℚ) - q| := by
    rw [abs_of_nonpos (a := (magA f.mb a' : ℚ) - q) (by linarith),
      abs_of_nonneg (a := (magA f.mb a : ℚ) - q) (by linarith)]
    linarith
  have hne := magA_strictMono f.mb hlt
  have p1 := h.even a' t (by omega)
  have p2 := h'.even a t.symm (by omega)
  have c1 := magA_cast_lt f.mb (show a' < a' + 1 by omega)
  have c2 := magA_cast_lt f.mb (show a' + 1 < a by omega)
  have n3 := h.near (a' + 1)
  rw [abs_of_nonneg (a := (magA f.mb a : ℚ) - q) (by linarith)] at n3
  rcases abs_cases ((magA f.mb (a' + 1) : ℚ) - q) with ⟨e, _⟩ | ⟨e, _⟩ <;> rw [e] at n3 <;> linarith

theorem NearEven.unique {f : Fmt} {q : ℚ} {a a' : Nat} (h : NearEven f q a) (h' : NearEven f q a') :
    a = a' :=
  Nat.le_antisymm (h.mono h' (le_refl q)) (h'.mono h (le_refl q))

section
variable {f : Fmt} (ok : Ok f)

include ok in
theorem nearEven_round (num den : Nat) (hd : 0 < den) :
    NearEven f ((num : ℚ) / den) (expo f num den * 2 ^ f.mb + mant f num den) := by
  refine ⟨fun c => (near_mag f num den hd c).1, fun c h1 h2 => ?_⟩
  have := (near_mag f num den hd c).2 h1 h2
  have h2 : 2 ∣ 2 ^ f.mb := dvd_pow_self 2 (by have := ok.mb; omega)
  have := Nat.dvd_trans h2 (Nat.dvd_mul_left (2 ^ f.mb) (expo f num den))
  omega

include ok in
/-- Rounding of magnitudes is monotone. -/
theorem roundMag_mono {n d n' d' : Nat} (hd : 0 < d) (hd' : 0 < d')
    (h : (n : ℚ) / d ≤ (n' : ℚ) / d') : f.roundMag n d ≤ f.roundMag n' d' := by
  have := (nearEven_round ok n d hd).mono (nearEven_round ok n' d' hd') h
  rw [roundMag_eq, roundMag_eq]
  omega

theorem nearEven_self (a : Nat) : NearEven f (magA f.mb a) a := by
  refine ⟨fun c => by simp, fun c h1 h2 => ?_⟩
  exfalso
  rw [sub_self, abs_zero, abs_eq_zero, sub_eq_zero] at h1
  exact h2 (by exact_mod_cast h1)

include ok in
/-- Rounding fixes representable magnitudes. -/
theorem roundMag_exact {n d a : Nat} (hd : 0 < d) (h : (n : ℚ) / d = magA f.mb a)
    (ha : a ≤ f.infBits) : f.roundMag n d = a := by
  have := (nearEven_round ok n d hd).unique (h ▸ nearEven_self a)
  rw [roundMag_eq, this]
  omega

/-! ## Integers -/

theorem unit_ge : f.mb ≤ f.unit := by unfold Fmt.unit; omega

/-- `n * 2^j` units, for `n` of at most `mb + 1` bits, is a magnitude. -/
theorem magA_scaled (n j : Nat) (hn : n < 2 * 2 ^ f.mb) :
    ∃ a, magA f.mb a = n * 2 ^ j := by
  rcases Nat.eq_zero_or_pos n with h0 | h0
  · exact ⟨0, by rw [h0, magA_zero, Nat.zero_mul]⟩
  · -- normalise as far as possible
    have hlog : n.log2 ≤ f.mb := by
      have := Nat.log2_self_le (n := n) (by omega)
      by_contra hc
      have h2 : 2 ^ (f.mb + 1) ≤ 2 ^ n.log2 := Nat.pow_le_pow_right (by decide) (by omega)
      rw [Nat.pow_succ] at h2
      omega
    rcases Nat.le_total (f.mb - n.log2) j with hj | hj
    · refine ⟨(j - (f.mb - n.log2)) * 2 ^ f.mb + n * 2 ^ (f.mb - n.log2), ?_⟩
      rw [magA_form]
      · rw [Nat.mul_assoc, ← Nat.pow_add]
        congr 2; omega
      · right
        have := Nat.log2_self_le (n := n) (by omega)
        calc 2 ^ f.mb = 2 ^ n.log2 * 2 ^ (f.mb - n.log2) := by rw [← Nat.pow_add]; congr 1; omega
          _ ≤ _ := Nat.mul_le_mul_right _ this
      · have : n < 2 ^ (n.log2 + 1) := Nat.lt_log2_self
        have h2 : n * 2 ^ (f.mb - n.log2) ≤ 2 ^ (n.log2 + 1) * 2 ^ (f.mb - n.log2) :=
          Nat.mul_le_mul_right _ (Nat.le_of_lt this)
        rw [← Nat.pow_add, show n.log2 + 1 + (f.mb - n.log2) = f.mb + 1 by omega, Nat.pow_succ] at h2
        omega
    · refine ⟨0 * 2 ^ f.mb + n * 2 ^ j, ?_⟩
      rw [magA_form _ _ _ (.inl rfl)]
      · rw [Nat.pow_zero, Nat.mul_one]
      · have : n < 2 ^ (n.log2 + 1) := Nat.lt_log2_self
        have h2 : n * 2 ^ j ≤ 2 ^ (n.log2 + 1) * 2 ^ j := Nat.mul_le_mul_right _ (Nat.le_of_lt this)
        have h3 : 2 ^ (n.log2 + 1) * 2 ^ j ≤ 2 ^ (f.mb + 1) := by
          rw [← Nat.pow_add]; exact Nat.pow_le_pow_right (by decide) (by omega)
        have h4 := Nat.le_trans h2 h3
        rw [Nat.pow_succ] at h4
        omega

/-- The magnitude of infinity's pattern. -/
theorem magA_infBits (heb : 2 ≤ f.eb) : magA f.mb f.infBits = 2 ^ f.mb * 2 ^ (2 ^ f.eb - 2) := by
  have : 2 ^ 2 ≤ 2 ^ f.eb := Nat.pow_le_pow_right (by decide) heb
  rw [infBits_eq f heb, magA_form _ _ _ (.inr (by omega)) (by omega),
    show 2 ^ f.eb - 2 = 2 ^ f.eb - 3 + 1 by omega, Nat.pow_succ]
  ring

include ok in
/-- `n` has a pattern of its own if it has at most `mb + 1` bits, or is a power of two below infinity. -/
theorem ofInt_exact (n : Int) (h : n.natAbs < 2 * 2 ^ f.mb)
    (hf : n.natAbs * 2 ^ f.unit < 2 ^ f.mb * 2 ^ (2 ^ f.eb - 2)) :
    f.fix (f.ofInt n) = n * 2 ^ f.unit ∧ f.abs (f.ofInt n) < f.infBits ∧ f.neg (f.ofInt n) = decide (n < 0) := by
  obtain ⟨a, ha⟩ := magA_scaled (f := f) n.natAbs f.unit h
  have hlt : a < f.infBits := by
    rw [← magA_lt_iff f.mb, magA_infBits ok.eb, ha]; exact hf
  have hr : f.roundMag (n * 2 ^ f.unit).natAbs 1 = a := by
    apply roundMag_exact ok (by decide) _ (Nat.le_of_lt hlt)
    rw [ha, Int.natAbs_mul, Int.natAbs_pow]
    simp
  have hs : (if n * 2 ^ f.unit = 0 then false else decide (n * 2 ^ f.unit < 0)) = decide (n < 0) := by
    have hp : (0 : Int) < 2 ^ f.unit := by positivity
    by_cases h0 : n = 0
    · simp [h0]
    · rw [if_neg (by positivity)]
      have : n * 2 ^ f.unit < 0 ↔ n < 0 := by
        constructor
        · intro h; by_contra hc; nlinarith
        · intro h; nlinarith
      simp only [this]
  have he : f.ofInt n = f.pack (decide (n < 0)) a := by
    unfold Fmt.ofInt Fmt.round
    rw [hr, hs]
  have ha' : a < f.signBit := Nat.lt_trans hlt infBits_lt
  have hneg : f.neg (f.ofInt n) = decide (n < 0) := by
    rw [he, ← neg_eq (pack_lt _ ha'), pack_sign _ ha']
  refine ⟨?_, by rw [he, pack_abs _ ha']; exact hlt, hneg⟩
  unfold Fmt.fix
  rw [hneg, mag_eq, he, pack_abs _ ha', ha]
  push_cast
  by_cases hn : n < 0
  · rw [if_pos (by simpa using hn), abs_of_neg hn]; ring
  · rw [if_neg (by simpa using hn), abs_of_nonneg (by omega)]

/-! ## The specification determines the result -/

theorem between_closer {v v' y x : ℚ} (ht : |v - x| = |v' - x|) (h1 : v < y) (h2 : y < v') :
    |y - x| < |v - x| := by
  rcases abs_cases (v - x) with ⟨e1, _⟩ | ⟨e1, _⟩ <;> rcases abs_cases (v' - x) with ⟨e2, _⟩ | ⟨e2, _⟩ <;>
    rcases abs_cases (y - x) with ⟨e3, _⟩ | ⟨e3, _⟩ <;> rw [e1, e2] at ht <;> rw [e1, e3] <;> linarith

theorem frac_even (ok : Ok f) (r : Nat) : fracField f r % 2 = f.abs r % 2 := by
  have h2 : 2 ∣ 2 ^ f.mb := dvd_pow_self 2 (by have := ok.mb; omega)
  rw [fracField_eq, Nat.mod_mod_of_dvd _ h2]

include ok in
theorem decode_num_lt {b : Nat} {s : Bool} {y : ℚ} (h : decode f b = .num s y) : f.abs b < f.infBits := by
  rw [decode_eq ok] at h
  split at h
  · cases h
  · split at h
    · cases h
    · omega

include ok in
theorem roundsTo_not_lt {x : ℚ} {r r' : Nat} (h : RoundsTo f x r) (h' : RoundsTo f x r')
    (ho : |x| < overflowAt f) : ¬ f.abs r < f.abs r' := by
  intro hlt
  obtain ⟨v, d, near, even⟩ := h.nearest ho
  obtain ⟨v', d', near', even'⟩ := h'.nearest ho
  have hv := decode_num ok d
  have hv' := decode_num ok d'
  have hU : (0 : ℚ) < 2 ^ f.unit := by positivity
  have tie : |v - x| = |v' - x| := le_antisymm (near _ _ _ d') (near' _ _ _ d)
  have hM : (magA f.mb (f.abs r) : ℚ) / 2 ^ f.unit < (magA f.mb (f.abs r') : ℚ) / 2 ^ f.unit :=
    (div_lt_div_iff_of_pos_right hU).2 (magA_cast_lt f.mb hlt)
  have hne : v' ≠ v := by
    intro he
    rw [hv, hv'] at he
    cases hs : decide (x < 0) <;> rw [hs] at he <;> simp only [withSign, if_true, Bool.false_eq_true, if_false] at he
    · exact absurd he (ne_of_gt hM)
    · exact absurd (neg_injective he) (ne_of_gt hM)
  have p := even _ _ _ d' tie.symm hne
  have p' := even' _ _ _ d tie hne.symm
  rw [frac_even ok] at p p'
  have hc : f.abs r + 1 < f.infBits := by
    have := decode_num_lt ok d'
    omega
  have hm1 : (magA f.mb (f.abs r) : ℚ) / 2 ^ f.unit < (magA f.mb (f.abs r + 1) : ℚ) / 2 ^ f.unit :=
    (div_lt_div_iff_of_pos_right hU).2 (magA_cast_lt f.mb (by omega))
  have hm2 : (magA f.mb (f.abs r + 1) : ℚ) / 2 ^ f.unit < (magA f.mb (f.abs r') : ℚ) / 2 ^ f.unit :=
    (div_lt_div_iff_of_pos_right hU).2 (magA_cast_lt f.mb (by omega))
  have hn := near _ _ _ (decode_pack_num ok (decide (x < 0)) hc)
  have hcl : |withSign (decide (x < 0)) ((magA f.mb (f.abs r + 1) : ℚ) / 2 ^ f.unit) - x| < |v - x| := by
    cases hs : decide (x < 0) <;> rw [hs] at hv hv' <;>
      simp only [withSign, if_true, Bool.false_eq_true, if_false] at hv hv' ⊢
    · exact between_closer tie (by rw [hv]; exact hm1) (by rw [hv']; exact hm2)
    · rw [tie]
      exact between_closer tie.symm (by rw [hv']; exact neg_lt_neg hm2) (by rw [hv]; exact neg_lt_neg hm1)
  exact absurd hn (not_le.2 hcl)

include ok in
/-- A rational number has only one rounding, up to the choice of pattern for the same datum. -/
theorem roundsTo_unique {x : ℚ} {r r' : Nat} (h : RoundsTo f x r) (h' : RoundsTo f x r') :
    decode f r = decode f r' := by
  by_cases ho : overflowAt f ≤ |x|
  · rw [h.overflow ho, h'.overflow ho]
  · rw [not_le] at ho
    have e : f.abs r = f.abs r' := by
      have := roundsTo_not_lt ok h h' ho
      have := roundsTo_not_lt ok h' h ho
      omega
    obtain ⟨v, d, -, -⟩ := h.nearest ho
    obtain ⟨v', d', -, -⟩ := h'.nearest ho
    rw [d, d', decode_num ok d, decode_num ok d', e]

include ok in
theorem rounded_unique {zs : Bool} {x : ℚ} {r r' : Nat} (h : Rounded f zs x r) (h' : Rounded f zs x r') :
    decode f r = decode f r' := by
  unfold Rounded at h h'
  by_cases hx : x = 0
  · rw [if_pos hx] at h h'
    rw [h, h']
  · rw [if_neg hx] at h h'
    exact roundsTo_unique ok h h'

include ok in
/-- A number of the format is its own rounding. -/
theorem rounded_exact {zs s : Bool} {x : ℚ} {r b : Nat} (h : Rounded f zs x r) (hb : decode f b = .num s x)
    (hx : x ≠ 0) : decode f r = .num s x := by
  unfold Rounded at h
  rw [if_neg hx] at h
  have hU : (0 : ℚ) < 2 ^ f.unit := by positivity
  have hs : decide (x < 0) = s := by
    have e := decode_num ok hb
    have hp : (0 : ℚ) ≤ (magA f.mb (f.abs b) : ℚ) / 2 ^ f.unit := by positivity
    cases s <;> simp only [withSign, if_true, Bool.false_eq_true, if_false] at e
    · simp; linarith
    · simp; exact lt_of_le_of_ne (by linarith) hx
  have ho : |x| < overflowAt f := by
    have e := decode_num ok hb
    have hl := decode_num_lt ok hb
    rw [e, withSign_abs _ (by positivity), overflowAt_eq ok, div_lt_div_iff_of_pos_right hU]
    have he : 2 ^ 2 ≤ 2 ^ f.eb := Nat.pow_le_pow_right (by decide) ok.eb
    have hle : f.abs b ≤ (2 ^ f.eb - 3) * 2 ^ f.mb + (2 * 2 ^ f.mb - 1) := by
      rw [infBits_eq f ok.eb] at hl; omega
    have hP := Nat.two_pow_pos f.mb
    have hmono : magA f.mb (f.abs b) ≤ (2 * 2 ^ f.mb - 1) * 2 ^ (2 ^ f.eb - 3) := by
      rw [← magA_form f.mb _ _ (.inr (by omega)) (by omega)]
      rcases Nat.eq_or_lt_of_le hle with h | h
      · rw [h]
      · exact Nat.le_of_lt (magA_strictMono _ h)
    have hq : (magA f.mb (f.abs b) : ℚ) ≤ ((2 * 2 ^ f.mb - 1 : ℕ) : ℚ) * 2 ^ (2 ^ f.eb - 3) := by
      exact_mod_cast hmono
    rw [Nat.cast_sub (by omega)] at hq
    push_cast at hq
    unfold thr
    have hk : (0 : ℚ) < 2 ^ (2 ^ f.eb - 3) := by positivity
    nlinarith
  obtain ⟨v, d, near, -⟩ := h.nearest ho
  have := near _ _ _ hb
  rw [sub_self, abs_zero, abs_nonpos_iff, sub_eq_zero] at this
  rw [d, this, hs]

end
end Verif.FpOps
